import Verif.Model.IterParallel
import Verif.Model.Hashes

/-!
# The `AccAndProve` family (accumulator/accumulator.go, concurrent.go, zkacc.go)
-/

namespace Verif.Model
open Verif.Go

/-- accumulator/common.go:69-73 `Setup` (only the fields used here). -/
structure Setup where
  N : Nat
  G : Nat

/-- The last step of every `AccAndProve` function: `AccumulateNew(proofs[0], rep[0], setup.N)`. -/
def accFromProofs (N : Nat) (rep proofs : List Nat) : Res (Nat × List Nat) := do
  let p0 ← index proofs 0
  let r0 ← index rep 0
  .ok (accumulateNewPow p0 r0 N, proofs)

/-- accumulator/accumulator.go:46-59 `AccAndProve`. -/
def accAndProve (E : Env) (fuel : Nat) (set : List Bytes) (encodeType : Int) (setup : Setup) :
    Run (Nat × List Nat) := do
  let rep ← genRepresentatives E fuel set encodeType
  let proofs ← liftRes (proveMembership setup.G setup.N rep)
  liftRes (accFromProofs setup.N rep proofs)

/-- accumulator/accumulator.go:62-70 `AccAndProveIter`. -/
def accAndProveIter (E : Env) (fuel : Nat) (set : List Bytes) (encodeType : Int) (setup : Setup) :
    Run (Nat × List Nat) := do
  let rep ← genRepresentatives E fuel set encodeType
  let proofs ← liftLoop (proveMembershipIterFuel fuel setup.G setup.N rep)
  liftRes (accFromProofs setup.N rep proofs)

/-- accumulator/zkacc.go:20-36 `ZKAccumulate`; `r` is the number drawn by `GenRandomizer`. -/
def zkAccumulate (E : Env) (fuel : Nat) (r : Nat) (set : List Bytes) (encodeType : Int) (setup : Setup) :
    Run (Nat × List Nat) := do
  let rep ← genRepresentatives E fuel set encodeType
  let base := accumulateNewPow setup.G r setup.N
  let proofs ← liftRes (proveMembership base setup.N rep)
  liftRes (accFromProofs setup.N rep proofs)

/-- accumulator/concurrent.go:15-28 `AccAndProveParallel` on a machine whose `calNumWorkers` gives `numWorkers`:
possible results over all schedules. -/
inductive AccAndProveParallel (E : Env) (set : List Bytes) (encodeType : Int) (setup : Setup) (numWorkers : Nat) :
    Res (Nat × List Nat) → Prop
  | ok (fuel : Nat) (rep proofs : List Nat) :
      genRepresentatives E fuel set encodeType = Run.ok rep →
      Steps (.run (proveMembershipParallel setup.G setup.N rep numWorkers)) (.send proofs) →
      AccAndProveParallel E set encodeType setup numWorkers (accFromProofs setup.N rep proofs)
  | crash (fuel : Nat) (rep : List Nat) (msg : String) :
      genRepresentatives E fuel set encodeType = Run.ok rep →
      Steps (.run (proveMembershipParallel setup.G setup.N rep numWorkers)) .crash →
      AccAndProveParallel E set encodeType setup numWorkers (goPanic msg)

/-- accumulator/concurrent.go:323-366 `ProveMembershipIterParallel` on a machine whose `calNumWorkers` gives
`(numWorkers, powerOfTwo)`: possible results over all schedules. `none` entries are nil pointers. -/
inductive IterParallelReturns (base N : Nat) (set : List Nat) (numWorkers powerOfTwo : Nat) :
    List (Option Nat) → Prop
  | small (fuel : Nat) (ps : List Nat) :
      set.length ≤ numWorkers * 2 → proveMembershipIterFuel fuel base N set = some ps →
      IterParallelReturns base N set numWorkers powerOfTwo (ps.map some)
  | large (s : IterParallel.State) (ps : List (Option Nat)) :
      ¬ set.length ≤ numWorkers * 2 →
      IterParallel.Reachable ⟨N, set, base, numWorkers, powerOfTwo⟩ s → s.main = .returned ps →
      IterParallelReturns base N set numWorkers powerOfTwo ps

/-- The last step of `AccAndProveIterParallel` on a slice that may hold nil pointers (nil: panic). -/
def accFromPointers (N : Nat) (rep : List Nat) (proofs : List (Option Nat)) : Res (Nat × List (Option Nat)) := do
  let p0 ← index proofs 0
  let r0 ← index rep 0
  match p0 with
  | none => goPanic "nil pointer dereference"
  | some p0 => .ok (accumulateNewPow p0 r0 N, proofs)

/-- accumulator/concurrent.go:31-44 `AccAndProveIterParallel`. -/
inductive AccAndProveIterParallel (E : Env) (set : List Bytes) (encodeType : Int) (setup : Setup)
    (numWorkers powerOfTwo : Nat) : Res (Nat × List (Option Nat)) → Prop
  | mk (fuel : Nat) (rep : List Nat) (proofs : List (Option Nat)) :
      genRepresentatives E fuel set encodeType = Run.ok rep →
      IterParallelReturns setup.G setup.N rep numWorkers powerOfTwo proofs →
      AccAndProveIterParallel E set encodeType setup numWorkers powerOfTwo (accFromPointers setup.N rep proofs)

end Verif.Model
