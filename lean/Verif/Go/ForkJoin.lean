import Verif.Go.Basic
import Mathlib.Algebra.BigOperators.Fin

/-!
# Fork-join goroutines with unbuffered channels

The functions `setProductParallelWithChan`, `proveMembershipWithChan`, `ProveMembershipParallel*` of the code
share one pattern: a goroutine either computes a value, or makes `n` unbuffered channels, starts `n` goroutines that
each send one value on their own channel, receives from the channels in a fixed order, and combines the values.
Each goroutine then sends its own value on the channel of its parent and finishes.

`Prog` describes such a program, `Step` is the interleaving semantics: at each moment any goroutine that can move may
move; a send and the matching receive happen together (rendezvous).  A panic in a goroutine kills the process.
-/

namespace Verif.Go

/-- Program of one goroutine. -/
inductive Prog (α : Type) where
  /-- compute a value (or panic) and deliver it -/
  | ret (v : Res α) : Prog α
  /-- `c_i := make(chan)`, `go cs i` for `i < n`; then receive from `c_0, .., c_{n-1}` in this order and
  deliver `k` of the received values -/
  | fork (n : Nat) (cs : Fin n → Prog α) (k : List α → Res α) : Prog α

/-- Run-time state of a goroutine together with the goroutines it has started. -/
inductive Cfg (α : Type) where
  /-- scheduled, has not moved yet -/
  | run (p : Prog α) : Cfg α
  /-- has started its children and received the values `got` of the first `got.length` of them;
  now blocked on the channel of child number `got.length` -/
  | wait (n : Nat) (cs : Fin n → Cfg α) (got : List α) (k : List α → Res α) : Cfg α
  /-- blocked in the send of its value (for the root: about to return it) -/
  | send (v : α) : Cfg α
  /-- the value was taken, the goroutine has finished -/
  | done : Cfg α
  /-- panic -/
  | crash : Cfg α

/-- One step of the program; the choice among the applicable rules is the scheduler's. -/
inductive Step {α : Type} : Cfg α → Cfg α → Prop
  | retOk (v : α) : Step (.run (.ret (.ok v))) (.send v)
  | retPanic (e : String) : Step (.run (.ret (.error e))) .crash
  | fork (n : Nat) (cs : Fin n → Prog α) (k : List α → Res α) :
      Step (.run (.fork n cs k)) (.wait n (fun i => .run (cs i)) [] k)
  | child (n : Nat) (cs : Fin n → Cfg α) (got : List α) (k : List α → Res α) (i : Fin n) (c' : Cfg α) :
      Step (cs i) c' → Step (.wait n cs got k) (.wait n (Function.update cs i c') got k)
  | recv (n : Nat) (cs : Fin n → Cfg α) (got : List α) (k : List α → Res α) (h : got.length < n) (v : α) :
      cs ⟨got.length, h⟩ = .send v →
      Step (.wait n cs got k) (.wait n (Function.update cs ⟨got.length, h⟩ .done) (got ++ [v]) k)
  | childCrash (n : Nat) (cs : Fin n → Cfg α) (got : List α) (k : List α → Res α) (i : Fin n) :
      cs i = .crash → Step (.wait n cs got k) .crash
  | joinOk (n : Nat) (cs : Fin n → Cfg α) (got : List α) (k : List α → Res α) (v : α) :
      got.length = n → k got = .ok v → Step (.wait n cs got k) (.send v)
  | joinPanic (n : Nat) (cs : Fin n → Cfg α) (got : List α) (k : List α → Res α) (e : String) :
      got.length = n → k got = .error e → Step (.wait n cs got k) .crash

/-- Finite executions. -/
inductive Steps {α : Type} : Cfg α → Cfg α → Prop
  | refl (c : Cfg α) : Steps c c
  | tail {a b c : Cfg α} : Steps a b → Step b c → Steps a c

/-- Sequential meaning of a program: run the children one after the other. -/
def Prog.eval {α : Type} : Prog α → Res α
  | .ret v => v
  | .fork n cs k => do
      let vs ← (List.finRange n).mapM (fun i => (cs i).eval)
      k vs

/-- `c` is stuck: no goroutine can move. -/
def Cfg.stuck {α : Type} (c : Cfg α) : Prop := ∀ c', ¬ Step c c'

end Verif.Go
