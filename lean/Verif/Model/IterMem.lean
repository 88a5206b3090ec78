import Verif.Model.ProveMem

/-!
# The iterative provers on shared memory

accumulator/accumulator.go:136-184 and accumulator/concurrent.go:323-476 with the integers in memory, as in `Model/ProveMem`. A
`ProofNode` holds the address of its proof here. The linked list is a list; the channels that carry nodes and slices of pointers
are modelled in `Model/IterParallel` and `Model/IterWorker`.

A parameter `base big.Int` is a copy of the header of an integer. Where the copy is only read it is the same integer here; where the
code writes to it (`ProveMembershipIter`) it is a new integer, since `Exp` takes new words for its result (see `Model/IterWords`).
-/

namespace Verif.Model
open Verif.Go Verif.Go.Mem

/-- accumulator/accumulator.go:169-184 `insertNewProofNode`: the new node gets a new integer, the old one is overwritten. -/
def insertNewProofNodeM (N : Nat) (set : List Nat) (iter : ProofNode) (k : ProofNode → ProofNode → MProg) : MProg :=
  let left := iter.left
  let right := iter.right
  let mid := left + (right - left) / 2
  accumulateNewM iter.proof N (slice set left mid) fun p =>
  accumulateM iter.proof N (slice set mid right)
    (k { left := left, right := mid, proof := iter.proof } { left := mid, right := right, proof := p })

/-- What the worker does with the integer of its helper and its own: accumulator/concurrent.go:465-475. -/
def cutNodeM (left mid right : Nat) (k : ProofNode → ProofNode → MProg) (outs : Fin 2 → List Nat) : MProg :=
  match outs 0, outs 1 with
  | [p0], [p1] => k { left := left, right := mid, proof := p0 } { left := mid, right := right, proof := p1 }
  | _, _ => .panic

/-- accumulator/concurrent.go:459-476 `insertNewProofNodeWithChan`: the helper goroutine (line 407) and the worker (line 468) read
the same integer at the same time. -/
def insertNewProofNodeWithChanM (N : Nat) (set : List Nat) (iter : ProofNode) (k : ProofNode → ProofNode → MProg) : MProg :=
  let left := iter.left
  let right := iter.right
  let mid := left + (right - left) / 2
  .fork 2
    (fun i => if i = 0 then accumulateNewM iter.proof N (slice set mid right) fun p => .ret [p]
      else accumulateNewM iter.proof N (slice set left mid) fun p => .ret [p])
    (cutNodeM left mid right k)

/-- accumulator/accumulator.go:152-159 and accumulator/concurrent.go:416-423: one pass over the list, with the given function for a
cut; the flag is `finishFlag`. -/
def iterPassM (cut : ProofNode → (ProofNode → ProofNode → MProg) → MProg) :
    List ProofNode → (List ProofNode → Bool → MProg) → MProg
  | [], k => k [] false
  | iter :: rest, k =>
    if iter.right - iter.left ≤ 1 then iterPassM cut rest fun nodes flag => k (iter :: nodes) flag
    else cut iter fun a b => iterPassM cut rest fun nodes _ => k (a :: b :: nodes) true

/-- accumulator/accumulator.go:149-160 and accumulator/concurrent.go:413-424: the loop `for finishFlag`. It panics if the given
number of passes is not enough, which the theorems rule out. -/
def iterLoopM (cut : ProofNode → (ProofNode → ProofNode → MProg) → MProg) :
    Nat → List ProofNode → (List ProofNode → MProg) → MProg
  | 0, _, _ => .panic
  | fuel + 1, nodes, k => iterPassM cut nodes fun nodes' flag => if flag then iterLoopM cut fuel nodes' k else k nodes'

/-- accumulator/accumulator.go:136-167 `ProveMembershipIter`. -/
def proveMembershipIterM (base N : Nat) (set : List Nat) (k : List Nat → MProg) : MProg :=
  if set.length ≤ 0 then k []
  else copyM base fun copy =>
    iterLoopM (insertNewProofNodeM N set) set.length [{ left := 0, right := set.length, proof := copy }]
      fun nodes => k (nodes.map fun n => n.proof)

/-- accumulator/concurrent.go:385-431 `proveMembershipIter`, the work of a worker. -/
def proveMembershipIterWorkerM (base N : Nat) (set : List Nat) (left right : Nat) (k : List Nat → MProg) : MProg :=
  if set.length ≤ 0 then k []
  else iterLoopM (insertNewProofNodeWithChanM N set) set.length [{ left := left, right := right, proof := base }]
    fun nodes => k (nodes.map fun n => n.proof)

/-- accumulator/concurrent.go:433-457 `initMembershipProofs` with `d` levels left, and the worker that is started with the node
at the end (lines 335-341). The collector puts the results in the order of the set (line 353). -/
def initMembershipProofsM (N : Nat) (set : List Nat) : Nat → Nat → Nat → Nat → MProg
  | 0, base, left, right => proveMembershipIterWorkerM base N set left right .ret
  | d + 1, base, left, right =>
    let mid := left + (right - left) / 2
    .fork 2
      (fun i => if i = 0 then accumulateNewM base N (slice set left mid) fun proof1 => initMembershipProofsM N set d proof1 mid right
        else accumulateNewM base N (slice set mid right) fun proof2 => initMembershipProofsM N set d proof2 left mid)
      (fun outs => .ret (outs 1 ++ outs 0))

/-- accumulator/concurrent.go:323-366 `ProveMembershipIterParallel` on a machine with `numWorkers = 2 ^ powerOfTwo` workers. -/
def proveMembershipIterParallelM (numWorkers powerOfTwo base N : Nat) (set : List Nat) (k : List Nat → MProg) : MProg :=
  if set.length ≤ numWorkers * 2 then proveMembershipIterM base N set k
  else .fork 1 (fun _ => initMembershipProofsM N set powerOfTwo base 0 set.length) (fun outs => k (outs 0))

/-- accumulator/accumulator.go:62-70 `AccAndProveIter` after `GenRepresentatives`, which has returned `rep`. -/
def accAndProveIterM (G N : Nat) (rep : List Nat) : MProg :=
  proveMembershipIterM G N rep fun proofs => accFromProofsM N rep proofs

/-- accumulator/concurrent.go:31-45 `AccAndProveIterParallel` after `GenRepresentatives`. -/
def accAndProveIterParallelM (numWorkers powerOfTwo G N : Nat) (rep : List Nat) : MProg :=
  proveMembershipIterParallelM numWorkers powerOfTwo G N rep fun proofs => accFromProofsM N rep proofs

end Verif.Model
