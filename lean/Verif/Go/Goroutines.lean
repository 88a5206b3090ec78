import Verif.Go.ForkJoin

/-!
# Counting goroutines

How many goroutines exist in a state of a fork-join program.
-/

namespace Verif.Go

/-- Goroutines that exist in a state: the goroutine itself and everything below it that was started and has not
finished. -/
def Cfg.alive {α : Type} : Cfg α → Nat
  | .run _ => 1
  | .wait _ cs _ _ => 1 + ∑ i, (cs i).alive
  | .send _ => 1
  | .done => 0
  | .crash => 1

/-- `d` is the state of one of the goroutines in the state `c`, together with what it has started. -/
inductive Within {α : Type} : Cfg α → Cfg α → Prop
  | self (c : Cfg α) : Within c c
  | child (n : Nat) (cs : Fin n → Cfg α) (got : List α) (k : List α → Res α) (i : Fin n) (d : Cfg α) :
      Within d (cs i) → Within d (.wait n cs got k)

/-- `m` is the largest number of goroutines, besides the calling one, that exist at the same time in the executions of
`p`: no schedule exceeds it and some schedule attains it. -/
def PeakIs {α : Type} (p : Prog α) (m : Nat) : Prop :=
  (∀ c, Steps (.run p) c → c.alive ≤ m + 1) ∧ ∃ c, Steps (.run p) c ∧ c.alive = m + 1

end Verif.Go
