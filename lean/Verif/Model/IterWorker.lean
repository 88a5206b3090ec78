import Verif.Model.Accumulator
import Verif.Go.Exec
import Mathlib.Logic.Function.Basic

/-!
# `proveMembershipIter` with its helper goroutine (accumulator/concurrent.go:385-431, 459-476)

The worker walks over a linked list of nodes and cuts them. For each cut it sends a range over `sendChan` to a helper
goroutine, which reads the captured variable `iter`, computes the new proof of the left part and sends it back over
`iterChan`; both channels are unbuffered. The heap of nodes, the shared variable `iter` and the two program counters are
explicit. `proof` is the value of the `big.Int` behind the pointer; no code changes such an integer after its creation.
-/

namespace Verif.Model.IterWorker
open Verif.Go Verif.Model

/-- accumulator/accumulator.go:128-133 `proofNode`; `next` is an address or nil. -/
structure Node where
  left : Nat
  right : Nat
  proof : Nat
  next : Option Nat
deriving DecidableEq, Repr

/-- Fixed data of a call. -/
structure Call where
  N : Nat
  set : List Nat
  base : Nat
  left : Nat
  right : Nat

/-- Program counter of the worker. The states from `send` to `received` are inside `insertNewProofNodeWithChan`: `p` is
its parameter `iter`, `l` and `r` are its variables `left` and `right`, `q` is `newProofNode`. -/
inductive MainPc where
  /-- line 413: the test of `finishFlag` -/
  | outer
  /-- line 416: the test of `iter` -/
  | inner
  /-- line 464: blocked in `sendChan <- ...` -/
  | send (p l r : Nat)
  /-- lines 465-470 -/
  | compute (p l r : Nat)
  /-- lines 471-472 -/
  | shrink (p l r q : Nat)
  /-- line 473: blocked in `<-iterChan` -/
  | receive (p l r q : Nat)
  /-- lines 473-475 and 421-422 with the received value -/
  | received (p l r q v : Nat)
  /-- lines 427-429 -/
  | collect (proofs : List Nat)
  /-- line 430; `cancel` has run -/
  | returned (proofs : List Nat)
deriving DecidableEq, Repr

/-- Program counter of the helper goroutine. -/
inductive HelperPc where
  /-- line 405 -/
  | select
  /-- line 407: the range has been received -/
  | got (l r : Nat)
  /-- line 407: blocked in `iterChan <- v` -/
  | sending (v : Nat)
  /-- line 409 -/
  | stopped
deriving DecidableEq, Repr

structure State where
  heap : Nat → Node
  /-- addresses from `free` on are not in use -/
  free : Nat
  iter : Option Nat
  finishFlag : Bool
  main : MainPc
  helper : HelperPc
  crashed : Bool

/-- `mid` of accumulator/concurrent.go:463. -/
def mid (l r : Nat) : Nat := l + (r - l) / 2

/-- The slice expression `set[l:r]` does not panic. -/
def InRange (c : Call) (l r : Nat) : Prop := l ≤ r ∧ r ≤ c.set.length

/-- The header of accumulator/concurrent.go:390-394. -/
def header (c : Call) : Node := { left := c.left, right := c.right, proof := c.base, next := none }

/-- After line 412. -/
def init (c : Call) : State :=
  { heap := fun _ => header c, free := 1, iter := some 0, finishFlag := true, main := .outer, helper := .select,
    crashed := false }

/-- One step of the worker or of the helper. -/
inductive Step (c : Call) : State → State → Prop
  /-- lines 413-415 -/
  | outerGo (s : State) : s.crashed = false → s.main = .outer → s.finishFlag = true →
      Step c s { s with finishFlag := false, iter := some 0, main := .inner }
  /-- lines 413 and 426-427 -/
  | outerExit (s : State) : s.crashed = false → s.main = .outer → s.finishFlag = false →
      Step c s { s with iter := some 0, main := .collect [] }
  /-- lines 416-419 -/
  | innerSkip (s : State) (p : Nat) : s.crashed = false → s.main = .inner → s.iter = some p →
      (s.heap p).right - (s.heap p).left ≤ 1 →
      Step c s { s with iter := (s.heap p).next }
  /-- lines 421 and 461-463 -/
  | innerCall (s : State) (p : Nat) : s.crashed = false → s.main = .inner → s.iter = some p →
      ¬ (s.heap p).right - (s.heap p).left ≤ 1 →
      Step c s { s with main := .send p (s.heap p).left (s.heap p).right }
  /-- line 416: end of the list -/
  | innerEnd (s : State) : s.crashed = false → s.main = .inner → s.iter = none →
      Step c s { s with main := .outer }
  /-- lines 464 and 406: rendezvous on `sendChan` -/
  | sendRange (s : State) (p l r : Nat) : s.crashed = false → s.main = .send p l r → s.helper = .select →
      Step c s { s with main := .compute p l r, helper := .got (mid l r) r }
  /-- lines 465-470: a new node -/
  | newNode (s : State) (p l r : Nat) : s.crashed = false → s.main = .compute p l r → InRange c l (mid l r) →
      Step c s { s with
        heap := Function.update s.heap s.free
          { left := mid l r, right := r, proof := accumulateNew (s.heap p).proof c.N (slice c.set l (mid l r)),
            next := (s.heap p).next }
        free := s.free + 1
        main := .shrink p l r s.free }
  /-- line 468: slice bounds out of range -/
  | newNodePanic (s : State) (p l r : Nat) : s.crashed = false → s.main = .compute p l r → ¬ InRange c l (mid l r) →
      Step c s { s with crashed := true }
  /-- lines 471-472 -/
  | shrink (s : State) (p l r q : Nat) : s.crashed = false → s.main = .shrink p l r q →
      Step c s { s with
        heap := Function.update s.heap p { s.heap p with left := l, right := mid l r }
        main := .receive p l r q }
  /-- lines 407 and 473: rendezvous on `iterChan` -/
  | sendProof (s : State) (p l r q v : Nat) : s.crashed = false → s.main = .receive p l r q → s.helper = .sending v →
      Step c s { s with main := .received p l r q v, helper := .select }
  /-- lines 473-475 and 421-422 -/
  | finish (s : State) (p l r q v : Nat) : s.crashed = false → s.main = .received p l r q v →
      Step c s { s with
        heap := Function.update s.heap p { s.heap p with proof := v, next := some q }
        iter := (s.heap q).next
        finishFlag := true
        main := .inner }
  /-- line 407: the helper reads `iter` and its proof and computes -/
  | help (s : State) (l r p : Nat) : s.crashed = false → s.helper = .got l r → s.iter = some p → InRange c l r →
      Step c s { s with helper := .sending (accumulateNew (s.heap p).proof c.N (slice c.set l r)) }
  /-- line 407: slice bounds out of range -/
  | helpPanic (s : State) (l r : Nat) : s.crashed = false → s.helper = .got l r → ¬ InRange c l r →
      Step c s { s with crashed := true }
  /-- line 407: `iter` is nil -/
  | helpNil (s : State) (l r : Nat) : s.crashed = false → s.helper = .got l r → s.iter = none →
      Step c s { s with crashed := true }
  /-- lines 427-429 -/
  | collect (s : State) (proofs : List Nat) (p : Nat) : s.crashed = false → s.main = .collect proofs → s.iter = some p →
      Step c s { s with iter := (s.heap p).next, main := .collect (proofs ++ [(s.heap p).proof]) }
  /-- line 430 -/
  | collectEnd (s : State) (proofs : List Nat) : s.crashed = false → s.main = .collect proofs → s.iter = none →
      Step c s { s with main := .returned proofs }
  /-- lines 408-409: the context is done after the deferred `cancel` -/
  | stop (s : State) (proofs : List Nat) : s.crashed = false → s.main = .returned proofs → s.helper = .select →
      Step c s { s with helper := .stopped }

/-- Reachable states. -/
def Reach (c : Call) (s : State) : Prop := Exec (Step c) (init c) s

/-- Some execution of the call returns `ps`. -/
def Returns (c : Call) (ps : List Nat) : Prop := ∃ s, Reach c s ∧ s.main = .returned ps

end Verif.Model.IterWorker
