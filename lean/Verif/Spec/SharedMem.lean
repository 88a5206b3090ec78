import Verif.Go.SharedMem

/-!
# Specification: a call that touches nothing of its caller

Refers only to the executions of `Go/SharedMem`.
-/

namespace Verif.Spec
open Verif.Go.Mem

/-- What every interleaving of the goroutines of a call does, when the integers `M` are in use at its start. -/
structure Isolated (M : Memory) (p : MProg) (vals : List Nat) : Prop where
  /-- no data race -/
  raceFree : ∀ M' t, MSteps M (.run p) M' t → ¬ Race t
  /-- no panic, in any goroutine -/
  noPanic : ∀ M' t, MSteps M (.run p) M' t → ¬ Crashes t
  /-- the integers in use before keep their values, at all times -/
  keeps : ∀ M' t, MSteps M (.run p) M' t → ∀ a v, M a = some v → M' a = some v
  /-- they are not even written -/
  writesNew : ∀ M' t, MSteps M (.run p) M' t → ∀ a, Accesses t a true → M a = none
  /-- the results have the right values, and are different new integers -/
  returns : ∀ M' out, MSteps M (.run p) M' (.run (.ret out)) → out.map M' = vals.map some ∧ out.Nodup ∧ ∀ a ∈ out, M a = none
  /-- the call goes on until it returns -/
  goesOn : ∀ M' t, MSteps M (.run p) M' t → (∃ out, t = .run (.ret out)) ∨ ∃ M'' t', MStep M' t M'' t'
  /-- and it does not go on forever -/
  ends : ¬ ∃ (Ms : Nat → Memory) (ts : Nat → Threads), Ms 0 = M ∧ ts 0 = .run p ∧
    ∀ n, MStep (Ms n) (ts n) (Ms (n + 1)) (ts (n + 1))

end Verif.Spec
