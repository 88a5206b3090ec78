import Verif.Model.Accumulator
import Verif.Model.IterWorker

/-!
# `ProveMembershipIterParallel` as a transition system (accumulator/concurrent.go:323-457)

Goroutines: the caller (main), the tree of `initMembershipProofs` goroutines, one worker per start node, and the
collector.  Channels: `initNodeChan` and `receivers` (buffered, capacity `numWorkers`), `proofChan` (unbuffered).
A send on a closed channel and a second `close` are panics and lead to `crashed`.
-/

namespace Verif.Model.IterParallel
open Verif.Go Verif.Model

/-- Goroutines of the tree of accumulator/concurrent.go:433-457. -/
inductive Task where
  /-- `go initMembershipProofs(base, N, set, left, right, powerOfTwo, depth, initNodeChan)` -/
  | init (node : ProofNode) (depth : Nat)
  /-- the closure of lines 447-451 of the call with these arguments -/
  | rightHalf (node : ProofNode) (depth : Nat)
  /-- the closure of lines 452-456 of the call with these arguments -/
  | leftHalf (node : ProofNode) (depth : Nat)
deriving DecidableEq, Repr

/-- `mid` of accumulator/concurrent.go:446. -/
def mid (n : ProofNode) : Nat := n.left + (n.right - n.left) / 2

/-- Arguments of the call in accumulator/concurrent.go:448-450. -/
def rightNode (N : Nat) (set : List Nat) (n : ProofNode) : ProofNode :=
  { left := mid n, right := n.right, proof := accumulateNew n.proof N (slice set n.left (mid n)) }

/-- Arguments of the call in accumulator/concurrent.go:453-455. -/
def leftNode (N : Nat) (set : List Nat) (n : ProofNode) : ProofNode :=
  { left := n.left, right := mid n, proof := accumulateNew n.proof N (slice set (mid n) n.right) }

/-- accumulator/concurrent.go:315-319 `parallelReceiver`. -/
structure Receiver where
  left : Nat
  right : Nat
  proofs : List Nat
deriving DecidableEq, Repr

/-- Caller. -/
inductive MainSt where
  /-- in the loop of lines 334-346 with counter `cnt` -/
  | loop (cnt : Nat)
  /-- blocked in `<-proofChan`, line 365 -/
  | wait
  /-- returned -/
  | returned (proofs : List (Option Nat))
deriving DecidableEq, Repr

/-- Collector goroutine, lines 349-363. `none` entries are nil pointers. -/
inductive ColSt where
  | notStarted
  | running (cnt : Nat) (proofs : List (Option Nat))
  /-- `receivers` closed, blocked in `proofChan <- proofs`, line 359 -/
  | sending (proofs : List (Option Nat))
  | finished
deriving DecidableEq, Repr

/-- Global state. -/
structure State where
  tasks : List Task
  nodeQ : List ProofNode
  nodeClosed : Bool
  main : MainSt
  /-- workers started at line 335 that have not sent their result -/
  workers : List ProofNode
  recvQ : List Receiver
  recvClosed : Bool
  col : ColSt
  crashed : Bool
deriving DecidableEq, Repr

/-- Fixed data of a call. -/
structure Call where
  N : Nat
  set : List Nat
  base : Nat
  /-- results of `calNumWorkers` -/
  numWorkers : Nat
  powerOfTwo : Nat

/-- Go `copy(dst[left:right], src)`. -/
def copyInto {α : Type} (dst : List (Option α)) (left right : Nat) (src : List α) : List (Option α) :=
  let m := min (right - left) src.length
  dst.take left ++ (src.take m).map some ++ dst.drop (left + m)

/-- accumulator/concurrent.go:385-431 `proveMembershipIter`, the body of a worker (line 339): a worker started with this
node may return `ps`. The early return for an empty set (line 386) does not occur: here the set has elements. The worker
and its helper share nothing with other goroutines that anyone changes, so their steps are not interleaved here. -/
def WorkerResult (c : Call) (n : ProofNode) (ps : List Nat) : Prop :=
  IterWorker.Returns ⟨c.N, c.set, n.proof, n.left, n.right⟩ ps

/-- State when the caller has executed lines 328-333. -/
def init (c : Call) : State :=
  { tasks := [.init { left := 0, right := c.set.length, proof := c.base } 0],
    nodeQ := [], nodeClosed := false, main := .loop 0, workers := [], recvQ := [], recvClosed := false,
    col := .notStarted, crashed := false }

/-- One step; the scheduler chooses. -/
inductive Step (c : Call) : State → State → Prop
  /-- line 435: depth beyond the limit -/
  | initReturn (s : State) (l r : List Task) (n : ProofNode) (d : Nat) :
      s.crashed = false → s.tasks = l ++ .init n d :: r → d > c.powerOfTwo →
      Step c s { s with tasks := l ++ r }
  /-- lines 438-444: send the start node -/
  | initSend (s : State) (l r : List Task) (n : ProofNode) (d : Nat) :
      s.crashed = false → s.tasks = l ++ .init n d :: r → d = c.powerOfTwo → s.nodeClosed = false →
      s.nodeQ.length < c.numWorkers →
      Step c s { s with tasks := l ++ r, nodeQ := s.nodeQ ++ [n] }
  /-- send on closed `initNodeChan` -/
  | initSendClosed (s : State) (l r : List Task) (n : ProofNode) (d : Nat) :
      s.crashed = false → s.tasks = l ++ .init n d :: r → d = c.powerOfTwo → s.nodeClosed = true →
      Step c s { s with crashed := true }
  /-- lines 446-456: start the two closures -/
  | initSplit (s : State) (l r : List Task) (n : ProofNode) (d : Nat) :
      s.crashed = false → s.tasks = l ++ .init n d :: r → d < c.powerOfTwo →
      Step c s { s with tasks := l ++ .rightHalf n d :: .leftHalf n d :: r }
  /-- lines 448-450 -/
  | rightHalf (s : State) (l r : List Task) (n : ProofNode) (d : Nat) :
      s.crashed = false → s.tasks = l ++ .rightHalf n d :: r →
      Step c s { s with tasks := l ++ .init (rightNode c.N c.set n) (d + 1) :: r }
  /-- lines 453-455 -/
  | leftHalf (s : State) (l r : List Task) (n : ProofNode) (d : Nat) :
      s.crashed = false → s.tasks = l ++ .leftHalf n d :: r →
      Step c s { s with tasks := l ++ .init (leftNode c.N c.set n) (d + 1) :: r }
  /-- lines 334-345: receive a start node, start its worker, close the channel after the last one -/
  | mainRecv (s : State) (cnt : Nat) (n : ProofNode) (q : List ProofNode) :
      s.crashed = false → s.main = .loop cnt → s.nodeQ = n :: q → cnt + 1 ≠ c.numWorkers →
      Step c s { s with nodeQ := q, workers := s.workers ++ [n], main := .loop (cnt + 1) }
  | mainRecvClose (s : State) (cnt : Nat) (n : ProofNode) (q : List ProofNode) :
      s.crashed = false → s.main = .loop cnt → s.nodeQ = n :: q → cnt + 1 = c.numWorkers → s.nodeClosed = false →
      Step c s { s with nodeQ := q, workers := s.workers ++ [n], main := .loop (cnt + 1), nodeClosed := true }
  /-- close of a closed channel -/
  | mainRecvClosePanic (s : State) (cnt : Nat) (n : ProofNode) (q : List ProofNode) :
      s.crashed = false → s.main = .loop cnt → s.nodeQ = n :: q → cnt + 1 = c.numWorkers → s.nodeClosed = true →
      Step c s { s with crashed := true }
  /-- end of the `range` loop, lines 348-365: the collector is started -/
  | mainLeave (s : State) (cnt : Nat) :
      s.crashed = false → s.main = .loop cnt → s.nodeQ = [] → s.nodeClosed = true →
      Step c s { s with main := .wait, col := .running 0 (List.replicate c.set.length none) }
  /-- lines 336-340: a worker sends its result -/
  | worker (s : State) (l r : List ProofNode) (n : ProofNode) (ps : List Nat) :
      s.crashed = false → s.workers = l ++ n :: r → WorkerResult c n ps → s.recvClosed = false →
      s.recvQ.length < c.numWorkers →
      Step c s { s with workers := l ++ r, recvQ := s.recvQ ++ [⟨n.left, n.right, ps⟩] }
  /-- send on closed `receivers` -/
  | workerClosed (s : State) (l r : List ProofNode) (n : ProofNode) (ps : List Nat) :
      s.crashed = false → s.workers = l ++ n :: r → WorkerResult c n ps → s.recvClosed = true →
      Step c s { s with crashed := true }
  /-- lines 352-357: the collector receives a result, not the last -/
  | colRecv (s : State) (cnt : Nat) (proofs : List (Option Nat)) (x : Receiver) (q : List Receiver) :
      s.crashed = false → s.col = .running cnt proofs → s.recvQ = x :: q → cnt + 1 ≠ c.numWorkers →
      Step c s { s with recvQ := q, col := .running (cnt + 1) (copyInto proofs x.left x.right x.proofs) }
  /-- lines 352-358: the last result; `close(receivers)` -/
  | colRecvLast (s : State) (cnt : Nat) (proofs : List (Option Nat)) (x : Receiver) (q : List Receiver) :
      s.crashed = false → s.col = .running cnt proofs → s.recvQ = x :: q → cnt + 1 = c.numWorkers →
      s.recvClosed = false →
      Step c s { s with recvQ := q, col := .sending (copyInto proofs x.left x.right x.proofs), recvClosed := true }
  /-- close of a closed channel -/
  | colRecvLastPanic (s : State) (cnt : Nat) (proofs : List (Option Nat)) (x : Receiver) (q : List Receiver) :
      s.crashed = false → s.col = .running cnt proofs → s.recvQ = x :: q → cnt + 1 = c.numWorkers →
      s.recvClosed = true →
      Step c s { s with crashed := true }
  /-- lines 359-361 and 365: rendezvous on `proofChan` -/
  | handOver (s : State) (proofs : List (Option Nat)) :
      s.crashed = false → s.main = .wait → s.col = .sending proofs →
      Step c s { s with main := .returned proofs, col := .finished }

/-- Reachable states of a call. -/
inductive Reachable (c : Call) : State → Prop
  | init : Reachable c (init c)
  | step {s s' : State} : Reachable c s → Step c s s' → Reachable c s'

end Verif.Model.IterParallel
