import Verif.Model.EvmMachine

/-!
# The bytecode of the library `Pairing`

The string `Bin` of `PairingMetaData`, zkmultiswap/gnark-tests/solidity/solidity_groth16.go:35. It is sent to the network by
`DeployPairing` (lines 47-61).

The code uses three instructions that do not occur in the contract `Verifier`. They are added to the machine of
`Verif.Model.EvmMachine` here; all other instructions are those of that machine. As there, the machine is assumed, not proved.
-/

namespace Verif.Model.EvmMachine

/-- The code that is sent to the network by `DeployPairing`, zkmultiswap/gnark-tests/solidity/solidity_groth16.go:35. -/
def pairingDeploy : Code where
  bytes := 0x60566050600b82828239805160001a6073146043577f4e487b7100000000000000000000000000000000000000000000000000000000600052600060045260246000fd5b30600052607381538281f3fe73000000000000000000000000000000000000000030146080604052600080fdfea2646970667358221220810cfc148b7b46391992a313f584aa54823a6351215631e8dd39d2c65c67b1ed64736f6c63430008150033
  len := 166

/-- Memory after one byte has been written (`MSTORE8`). -/
def writeByte (f : Nat → Nat) (a v : Nat) : Nat → Nat := fun i => if i = a then v % 256 else f i

/-- One instruction of a program that runs at the address `self`: `ADDRESS` (0x30), `BYTE` (0x1a), `MSTORE8` (0x53) or an
instruction of `step`. -/
def stepLib (c : Code) (jd self : Nat) (w : World) (s : State) : Step :=
  if c.byte s.pc = 0x30 then .next { s with pc := s.pc + 1, stack := self :: s.stack }
  else if c.byte s.pc = 0x1a then
    match s.stack with
    | i :: v :: l => .next { s with pc := s.pc + 1, stack := (if i < 32 then byteOf v i else 0) :: l }
    | _ => .done .exception
  else if c.byte s.pc = 0x53 then
    match s.stack with
    | a :: v :: l => .next { s with pc := s.pc + 1, stack := l, mem := writeByte s.mem a v }
    | _ => .done .exception
  else step c jd w s

/-- A run of at most `fuel` instructions; `none` if it has not ended. -/
def runLibFrom (c : Code) (jd self : Nat) (w : World) : Nat → State → Option Outcome
  | 0, _ => none
  | fuel + 1, s => match stepLib c jd self w s with
    | .next s' => runLibFrom c jd self w fuel s'
    | .done o => some o

/-- A run of the program `c` at the address `self`. -/
def runLib (c : Code) (self : Nat) (w : World) (fuel : Nat) : Option Outcome :=
  runLibFrom c (jumpdests c) self w fuel start

/-- The program with the given bytes. -/
def Code.ofBytes (l : List Nat) : Code := ⟨l.foldl (fun acc b => acc * 256 + b) 0, l.length⟩

end Verif.Model.EvmMachine
