import Verif.Go.Bytes
import Verif.Model.Solidity

/-!
# The machine that runs the bytecode of the contract

zkmultiswap/gnark-tests/solidity/solidity_groth16.go holds the bytecode of the contract (line 208) as it was compiled from
zkmultiswap/gnark-tests/solidity/Notuscontract_g16.sol (generate.go:4). This file is a model of the Ethereum virtual machine
(version "paris") for the instructions that occur in this code before its trailing metadata. The machine itself is not part
of the repository: its behaviour is assumed, not proved.

Simplifications: gas is not counted, so a run never ends for lack of gas; `GAS` reads any number. The stack has no limit of
1024 entries. Both are added in Verif/Model/EvmGas.lean. Addresses of memory do not wrap around. Where the model has no answer (an instruction that is not modelled, a
call to an address other than 6, 7 and 8, a call whose sizes do not fit) the outcome is `stuck`; the theorems show that no
run of the contract comes to this.
-/

namespace Verif.Model.EvmMachine

open Verif.Go

/-- Machine words are numbers below 2^256. -/
def wordMod : Nat := 2 ^ 256

/-- A program: `bytes` is the program read as a big-endian number, `len` the number of its bytes. -/
structure Code where
  bytes : Nat
  len : Nat

/-- The byte at position `i`; behind the end there are zeros. -/
def Code.byte (c : Code) (i : Nat) : Nat :=
  if i < c.len then (c.bytes >>> (8 * (c.len - 1 - i))) % 256 else 0

/-- The `n` bytes from position `i` on as a number. Used only inside of the program. -/
def Code.slice (c : Code) (i n : Nat) : Nat := (c.bytes >>> (8 * (c.len - i - n))) % 2 ^ (8 * n)

/-- Instructions with two arguments and one result. -/
inductive Bin
  | add | mul | sub | div | mod | lt | gt | slt | eq | and | or | shr
  deriving DecidableEq, Repr

/-- The sign of a word in two's complement is its highest bit. -/
def isNeg (a : Nat) : Bool := decide (2 ^ 255 ≤ a)

/-- A truth value as a word. -/
def ofBool (b : Bool) : Nat := if b then 1 else 0

/-- The result for `a` (top of the stack) and `b`. -/
def Bin.apply : Bin → Nat → Nat → Nat
  | .add, a, b => (a + b) % wordMod
  | .mul, a, b => (a * b) % wordMod
  | .sub, a, b => (a + (wordMod - b % wordMod)) % wordMod
  | .div, a, b => a / b
  | .mod, a, b => if b = 0 then 0 else a % b
  | .lt, a, b => ofBool (decide (a < b))
  | .gt, a, b => ofBool (decide (b < a))
  | .slt, a, b => ofBool (if isNeg a = isNeg b then decide (a < b) else isNeg a)
  | .eq, a, b => ofBool (decide (a = b))
  | .and, a, b => a &&& b
  | .or, a, b => a ||| b
  | .shr, a, b => b >>> a

/-- Instructions. `other` is a byte that the model does not know. -/
inductive Instr
  | stop | bin (o : Bin) | iszero | not | callvalue | calldataload | calldatasize | calldatacopy | codecopy | pop | mload
  | mstore | jump | jumpi | gas | jumpdest | push (v n : Nat) | dup (n : Nat) | swap (n : Nat) | staticcall | ret | revert
  | invalid | other
  deriving DecidableEq, Repr

/-- Instructions below 0x50. -/
def decodeLow (b : Nat) : Instr :=
  if b = 0x00 then .stop
  else if b = 0x01 then .bin .add
  else if b = 0x02 then .bin .mul
  else if b = 0x03 then .bin .sub
  else if b = 0x04 then .bin .div
  else if b = 0x06 then .bin .mod
  else if b = 0x10 then .bin .lt
  else if b = 0x11 then .bin .gt
  else if b = 0x12 then .bin .slt
  else if b = 0x14 then .bin .eq
  else if b = 0x15 then .iszero
  else if b = 0x16 then .bin .and
  else if b = 0x17 then .bin .or
  else if b = 0x19 then .not
  else if b = 0x1c then .bin .shr
  else if b = 0x34 then .callvalue
  else if b = 0x35 then .calldataload
  else if b = 0x36 then .calldatasize
  else if b = 0x37 then .calldatacopy
  else if b = 0x39 then .codecopy
  else .other

/-- Instructions from 0x50 to 0x5f. -/
def decodeMid (b : Nat) : Instr :=
  if b = 0x50 then .pop
  else if b = 0x51 then .mload
  else if b = 0x52 then .mstore
  else if b = 0x56 then .jump
  else if b = 0x57 then .jumpi
  else if b = 0x5a then .gas
  else if b = 0x5b then .jumpdest
  else .other

/-- Instructions from 0x80 on. -/
def decodeHigh (b : Nat) : Instr :=
  if b < 0x90 then .dup (b - 0x80)
  else if b < 0xa0 then .swap (b - 0x90)
  else if b = 0xf3 then .ret
  else if b = 0xfa then .staticcall
  else if b = 0xfd then .revert
  else if b = 0xfe then .invalid
  else .other

/-- The instruction at position `pc`. `PUSH` with a number that reaches behind the end of the program is not modelled. -/
def decode (c : Code) (pc : Nat) : Instr :=
  let b := c.byte pc
  if 0x60 ≤ b then
    if b < 0x80 then
      (if pc + (b - 0x5f) < c.len then .push (c.slice (pc + 1) (b - 0x5f)) (b - 0x5f) else .other)
    else decodeHigh b
  else if 0x50 ≤ b then decodeMid b
  else decodeLow b

/-- The positions to which a program may jump, as a bit set: the `JUMPDEST` bytes that are instructions and not part of the
number behind a `PUSH`. `fuel` bounds the number of instructions. -/
def jumpdestsFrom (c : Code) : Nat → Nat → Nat → Nat
  | 0, _, acc => acc
  | fuel + 1, pc, acc =>
    if pc < c.len then
      let b := c.byte pc
      if 0x60 ≤ b ∧ b < 0x80 then jumpdestsFrom c fuel (pc + 1 + (b - 0x5f)) acc
      else if b = 0x5b then jumpdestsFrom c fuel (pc + 1) (acc + 2 ^ pc)
      else jumpdestsFrom c fuel (pc + 1) acc
    else acc

def jumpdests (c : Code) : Nat := jumpdestsFrom c c.len 0 0

/-- What a run sees of the world: the value sent with the call, the data of the call, the number read by the `k`-th `GAS`,
and the precompiled contracts. -/
structure World where
  value : Nat
  data : Bytes
  gas : Nat → Nat
  evm : Solidity.Evm

/-- Byte `i` of 32 of a word. -/
def byteOf (v i : Nat) : Nat := v / 256 ^ (31 - i) % 256

/-- The 32 bytes of a word. -/
def wordBytes (v : Nat) : List Nat := (List.range 32).map (byteOf v)

/-- The word at address `a` of a memory of bytes. -/
def wordAt (f : Nat → Nat) (a : Nat) : Nat := (List.range 32).foldl (fun acc i => acc * 256 + f (a + i)) 0

/-- Memory after a word has been written. -/
def writeWord (f : Nat → Nat) (a v : Nat) : Nat → Nat :=
  fun i => if a ≤ i ∧ i < a + 32 then byteOf v (i - a) else f i

/-- Memory after several words have been written one behind the other. -/
def writeWords (f : Nat → Nat) (a : Nat) : List Nat → Nat → Nat
  | [] => f
  | v :: vs => writeWords (writeWord f a v) (a + 32) vs

/-- Memory after `n` bytes of `src` have been copied to `dst`. -/
def copyTo (f : Nat → Nat) (dst n : Nat) (src : Nat → Nat) : Nat → Nat :=
  fun i => if dst ≤ i ∧ i < dst + n then src (i - dst) else f i

/-- The data of the call; behind its end there are zeros. -/
def World.dataByte (w : World) (i : Nat) : Nat := (w.data.getD i 0).toNat

/-- The state of a run. `gasReads` counts the `GAS` instructions so far. -/
structure State where
  pc : Nat
  stack : List Nat
  mem : Nat → Nat
  gasReads : Nat

/-- How a run ends: normally, by `REVERT`, by an exception, or outside of the model. -/
inductive Outcome
  | returned (bytes : List Nat)
  | reverted
  | exception
  | stuck
  deriving DecidableEq, Repr

inductive Step
  | next (s : State)
  | done (o : Outcome)

/-- The precompiled contracts on the words of their input. `ecAdd` reads four words and `ecMul` three, what follows is
ignored (EIP-196). `none` is a call that is not modelled, `some none` a call that fails. -/
def precompile (E : Solidity.Evm) (addr : Nat) (inp : List Nat) : Option (Option (List Nat)) :=
  if addr = 6 then
    if 4 ≤ inp.length then some ((E.ecAdd (inp.take 4)).map fun r => [r.1 % wordMod, r.2 % wordMod]) else none
  else if addr = 7 then
    if 3 ≤ inp.length then some ((E.ecMul (inp.take 3)).map fun r => [r.1 % wordMod, r.2 % wordMod]) else none
  else if addr = 8 then some ((E.ecPairing inp).map fun r => [r % wordMod])
  else none

/-- The words of memory from address `a` on. -/
def wordsAt (f : Nat → Nat) (a k : Nat) : List Nat := (List.range k).map fun i => wordAt f (a + 32 * i)

/-- Exchange of the top of the stack with entry `n + 1`. -/
def swapTop (n : Nat) : List Nat → Option (List Nat)
  | [] => none
  | x :: l => match l[n]? with
    | none => none
    | some y => some (y :: l.set n x)

/-- `STATICCALL` with the five arguments behind the gas. -/
def staticCall (w : World) (pc : Nat) (rest : List Nat) (mem : Nat → Nat) (gasReads addr inOff inSize outOff outSize : Nat) :
    Step :=
  if inSize % 32 = 0 then
    match precompile w.evm addr (wordsAt mem inOff (inSize / 32)) with
    | none => .done .stuck
    | some none => .next ⟨pc + 1, 0 :: rest, mem, gasReads⟩
    | some (some out) =>
      if 32 * out.length ≤ outSize then .next ⟨pc + 1, 1 :: rest, writeWords mem outOff out, gasReads⟩ else .done .stuck
  else .done .stuck

/-- One instruction. A stack that is too short and a jump to a wrong place are exceptions. -/
def step (c : Code) (jd : Nat) (w : World) (s : State) : Step :=
  match decode c s.pc, s.stack with
  | .stop, _ => .done (.returned [])
  | .bin o, a :: b :: l => .next { s with pc := s.pc + 1, stack := o.apply a b :: l }
  | .iszero, a :: l => .next { s with pc := s.pc + 1, stack := ofBool (decide (a = 0)) :: l }
  | .not, a :: l => .next { s with pc := s.pc + 1, stack := (wordMod - 1 - a) :: l }
  | .callvalue, l => .next { s with pc := s.pc + 1, stack := w.value % wordMod :: l }
  | .calldataload, a :: l => .next { s with pc := s.pc + 1, stack := wordAt w.dataByte a :: l }
  | .calldatasize, l => .next { s with pc := s.pc + 1, stack := w.data.length % wordMod :: l }
  | .calldatacopy, d :: a :: n :: l =>
    .next { s with pc := s.pc + 1, stack := l, mem := copyTo s.mem d n fun i => w.dataByte (a + i) }
  | .codecopy, d :: a :: n :: l => .next { s with pc := s.pc + 1, stack := l, mem := copyTo s.mem d n fun i => c.byte (a + i) }
  | .pop, _ :: l => .next { s with pc := s.pc + 1, stack := l }
  | .mload, a :: l => .next { s with pc := s.pc + 1, stack := wordAt s.mem a :: l }
  | .mstore, a :: v :: l => .next { s with pc := s.pc + 1, stack := l, mem := writeWord s.mem a v }
  | .jump, d :: l => if jd.testBit d then .next { s with pc := d, stack := l } else .done .exception
  | .jumpi, d :: b :: l =>
    if b = 0 then .next { s with pc := s.pc + 1, stack := l }
    else if jd.testBit d then .next { s with pc := d, stack := l } else .done .exception
  | .gas, l => .next { s with pc := s.pc + 1, stack := w.gas s.gasReads % wordMod :: l, gasReads := s.gasReads + 1 }
  | .jumpdest, l => .next { s with pc := s.pc + 1, stack := l }
  | .push v n, l => .next { s with pc := s.pc + 1 + n, stack := v :: l }
  | .dup n, l => match l[n]? with
    | some v => .next { s with pc := s.pc + 1, stack := v :: l }
    | none => .done .exception
  | .swap n, l => match swapTop n l with
    | some l' => .next { s with pc := s.pc + 1, stack := l' }
    | none => .done .exception
  | .staticcall, _ :: addr :: inOff :: inSize :: outOff :: outSize :: l =>
    staticCall w s.pc l s.mem s.gasReads addr inOff inSize outOff outSize
  | .ret, a :: n :: _ => .done (.returned ((List.range n).map fun i => s.mem (a + i)))
  | .revert, _ :: _ :: _ => .done .reverted
  | .invalid, _ => .done .exception
  | .other, _ => .done .stuck
  | _, _ => .done .exception

/-- A run of at most `fuel` instructions; `none` if it has not ended. -/
def runFrom (c : Code) (jd : Nat) (w : World) : Nat → State → Option Outcome
  | 0, _ => none
  | fuel + 1, s => match step c jd w s with
    | .next s' => runFrom c jd w fuel s'
    | .done o => some o

/-- The state at the beginning: an empty stack and a memory of zeros. -/
def start : State := ⟨0, [], fun _ => 0, 0⟩

/-- A call of a contract with program `c`. -/
def run (c : Code) (w : World) (fuel : Nat) : Option Outcome := runFrom c (jumpdests c) w fuel start

/-- Assumption on the precompiled contracts: they return words. -/
structure Words (E : Solidity.Evm) : Prop where
  add : ∀ l r, E.ecAdd l = some r → r.1 < wordMod ∧ r.2 < wordMod
  mul : ∀ l r, E.ecMul l = some r → r.1 < wordMod ∧ r.2 < wordMod
  pair : ∀ l r, E.ecPairing l = some r → r < wordMod

end Verif.Model.EvmMachine
