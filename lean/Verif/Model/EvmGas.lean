import Verif.Model.EvmMachine

/-!
# Gas and the limit of the stack

The machine of `EvmMachine` with the parts that were left out there: every instruction is paid for, the memory that is used
is paid for, a call of a precompiled contract gets at most 63/64 of what is left, and the stack has at most 1024 entries.
The programs are those of zkmultiswap/gnark-tests/solidity/solidity_groth16.go:208, whose gas is estimated in
zkmultiswap/gnark-tests/solidity/solidity_groth16_test.go:180. The prices are those of the version "paris" (yellow paper, appendix G; EIP-150, EIP-1108, EIP-2929). As for the machine
itself, they are assumed, not proved. Not modelled: what a transaction costs before the first instruction.
-/

namespace Verif.Model.EvmGas

open Verif.Go Verif.Model.EvmMachine

/-- What an instruction costs, apart from memory and the calls. -/
def baseCost (i : Instr) (stack : List Nat) : Nat :=
  match i with
  | .stop => 0
  | .bin .mul => 5
  | .bin .div => 5
  | .bin .mod => 5
  | .bin _ => 3
  | .iszero => 3
  | .not => 3
  | .callvalue => 2
  | .calldataload => 3
  | .calldatasize => 2
  | .calldatacopy => 3 + 3 * ((stack.getD 2 0 + 31) / 32)
  | .codecopy => 3 + 3 * ((stack.getD 2 0 + 31) / 32)
  | .pop => 2
  | .mload => 3
  | .mstore => 3
  | .jump => 8
  | .jumpi => 10
  | .gas => 2
  | .jumpdest => 1
  | .push _ _ => 3
  | .dup _ => 3
  | .swap _ => 3
  | .staticcall => 100
  | .ret => 0
  | .revert => 0
  | .invalid => 0
  | .other => 0

/-- The number of words of memory after `n` bytes from address `a` on have been used; no bytes use no memory. -/
def touch (words a n : Nat) : Nat := if n = 0 then words else max words ((a + n + 31) / 32)

/-- The number of words of memory after an instruction. -/
def wordsAfter (i : Instr) (stack : List Nat) (words : Nat) : Nat :=
  match i with
  | .calldatacopy => touch words (stack.getD 0 0) (stack.getD 2 0)
  | .codecopy => touch words (stack.getD 0 0) (stack.getD 2 0)
  | .mload => touch words (stack.getD 0 0) 32
  | .mstore => touch words (stack.getD 0 0) 32
  | .staticcall => touch (touch words (stack.getD 2 0) (stack.getD 3 0)) (stack.getD 4 0) (stack.getD 5 0)
  | .ret => touch words (stack.getD 0 0) (stack.getD 1 0)
  | .revert => touch words (stack.getD 0 0) (stack.getD 1 0)
  | _ => words

/-- The price of `k` words of memory. -/
def memoryCost (k : Nat) : Nat := 3 * k + k * k / 512

/-- What an instruction costs with the memory that it adds. -/
def cost (i : Instr) (stack : List Nat) (words : Nat) : Nat :=
  baseCost i stack + (memoryCost (wordsAfter i stack words) - memoryCost words)

/-- The price of a precompiled contract for `inSize` bytes. -/
def price (addr inSize : Nat) : Nat :=
  if addr = 6 then 150
  else if addr = 7 then 6000
  else if addr = 8 then 45000 + 34000 * (inSize / 192)
  else 0

/-- What a call gets: what it asks for, but at most what is left without a 64th. -/
def forwarded (asked left : Nat) : Nat := min asked (left - left / 64)

/-- The state of a run: that of `EvmMachine`, the gas that is left and the number of words of memory in use. -/
structure GState where
  state : State
  gas : Nat
  words : Nat

/-- `done` comes with the gas that is left. -/
inductive GStep
  | next (s : GState)
  | done (o : Outcome) (left : Nat)

/-- Contracts that fail. -/
def failing : Solidity.Evm := ⟨fun _ => none, fun _ => none, fun _ => none⟩

/-- The precompiled contracts as the instruction finds them: a call that gets less than the price fails. -/
def reachable (E : Solidity.Evm) (i : Instr) (stack : List Nat) (left : Nat) : Solidity.Evm :=
  match i with
  | .staticcall => if price (stack.getD 1 0) (stack.getD 3 0) ≤ forwarded (stack.getD 0 0) left then E else failing
  | _ => E

/-- The gas after the instruction: a call that fails takes all that it got, one that does not takes its price. `top` is the new
top of the stack. -/
def leftAfter (i : Instr) (stack : List Nat) (left top : Nat) : Nat :=
  match i with
  | .staticcall =>
    if top = 0 then left - forwarded (stack.getD 0 0) left else left - price (stack.getD 1 0) (stack.getD 3 0)
  | _ => left

/-- One instruction. `GAS` reads what is left after it has been paid. Exceptions leave no gas. -/
def gasStep (c : Code) (jd : Nat) (w : World) (s : GState) : GStep :=
  let i := decode c s.state.pc
  let stack := s.state.stack
  if s.gas < cost i stack s.words then .done .exception 0
  else
    let left := s.gas - cost i stack s.words
    match step c jd { w with gas := fun _ => left, evm := reachable w.evm i stack left } s.state with
    | .next t =>
      if t.stack.length ≤ 1024 then .next ⟨t, leftAfter i stack left (t.stack.getD 0 0), wordsAfter i stack s.words⟩
      else .done .exception 0
    | .done o => .done o (if o = .exception then 0 else left)

/-- At most `fuel` instructions from a state on. -/
def runGasFrom (c : Code) (jd : Nat) (w : World) : Nat → GState → Option (Outcome × Nat)
  | 0, _ => none
  | fuel + 1, s => match gasStep c jd w s with
    | .next s' => runGasFrom c jd w fuel s'
    | .done o left => some (o, left)

/-- A call with gas `g` of a contract with program `c`: how it ends and the gas that is left; `none` if it has not ended
after `fuel` instructions. -/
def runGas (c : Code) (w : World) (g fuel : Nat) : Option (Outcome × Nat) :=
  runGasFrom c (jumpdests c) w fuel ⟨start, g, 0⟩

end Verif.Model.EvmGas
