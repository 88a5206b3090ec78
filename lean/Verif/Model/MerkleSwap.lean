import Verif.Model.Hashes

/-!
# merkleswap: the circuit that measures a Merkle tree version of MultiSwap

As in `Verif.Model.MultiSwap`, a variable is the canonical representative of a field element, the in-circuit Poseidon is
the same function as the native one, and `define` evaluates the constraints on an assignment.
-/

namespace Verif.Model.MerkleSwap
open Verif.Go

/-- merkleswap/circuit.go:9 `TreeDepth`. -/
def treeDepth : Nat := 28

/-- merkleswap/circuit.go:15-20 `Circuit`. -/
structure Circuit where
  testInputs : List Nat
  testOutputs : List Nat
deriving DecidableEq, Repr

/-- merkleswap/circuit.go:24-30, the body for input `x` against the output at position `i`. -/
def checkOne (E : Env) (c : Circuit) (i : Nat) : Res Bool := do
  let x ← index c.testInputs i
  let tempHash0 := E.poseidon [x, x]
  let tempHash0 := (List.range treeDepth).foldl (fun tempHash0 _ => E.poseidon [x, tempHash0]) tempHash0
  let out ← index c.testOutputs i
  .ok (decide (tempHash0 = out))

/-- merkleswap/circuit.go:23-32 `Define`: whether all constraints hold. -/
def define (E : Env) (c : Circuit) : Res Bool := do
  let oks ← (List.range c.testInputs.length).mapM (checkOne E c)
  .ok (oks.all id)

/-- merkleswap/common.go:24-33 `InitCircuitWithSize`. -/
def initCircuitWithSize (size : UInt32) : Circuit :=
  { testInputs := (List.range size.toNat).map (fun _ => 1)
    testOutputs := (List.range size.toNat).map (fun _ => 1) }

/-- merkleswap/common.go:45-51, one output. -/
def output (E : Env) (h : UInt32) : Nat :=
  let tempHash0 := E.poseidon [elementFromUint32 h, elementFromUint32 h]
  (List.range treeDepth).foldl (fun tempHash0 _ => E.poseidon [elementFromUint32 h, tempHash0]) tempHash0

/-- merkleswap/common.go:36-53 `AssignCircuit`. The reduction of the inputs to field elements by `NewWitness` is
included (`elementFromUint32`). -/
def assignCircuit (E : Env) (size : UInt32) : Circuit :=
  let helper := (List.range size.toNat).map UInt32.ofNat
  { testInputs := helper.map elementFromUint32
    testOutputs := helper.map (output E) }

/-- merkleswap/common.go:176-177: the public witness (`TestInputs` is the public field). -/
def publicVector (c : Circuit) : List Nat := c.testInputs

end Verif.Model.MerkleSwap
