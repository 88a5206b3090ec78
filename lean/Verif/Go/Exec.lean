import Verif.Go.ForkJoin

/-!
# Statements about all executions
-/

namespace Verif.Go

/-- Finite executions of a transition relation. -/
inductive Exec {σ : Type} (step : σ → σ → Prop) : σ → σ → Prop
  | refl (s : σ) : Exec step s s
  | tail {a b c : σ} : Exec step a b → step b c → Exec step a c

/-- There is no infinite execution from `s0`. -/
def AlwaysStops {σ : Type} (step : σ → σ → Prop) (s0 : σ) : Prop :=
  ¬ ∃ f : Nat → σ, f 0 = s0 ∧ ∀ n, step (f n) (f (n + 1))

/-- The goroutine program `p` gives the result `r` in every schedule: a delivered value is the value of `r`, a panic
happens only if `r` is a panic, as long as nothing was delivered and nothing has crashed some goroutine can move
(no deadlock), and there is no infinite run. -/
structure AlwaysGives {α : Type} (p : Prog α) (r : Res α) : Prop where
  value : ∀ v, Steps (.run p) (.send v) → r = .ok v
  panic : Steps (.run p) .crash → ∃ e, r = .error e
  noDeadlock : ∀ c, Steps (.run p) c → (∃ v, c = .send v) ∨ c = .crash ∨ ∃ c', Step c c'
  stops : AlwaysStops Step (Cfg.run p)

end Verif.Go
