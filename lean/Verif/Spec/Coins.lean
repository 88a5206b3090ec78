import Mathlib.Data.Fintype.BigOperators
import Mathlib.Data.Fintype.Pi
import Mathlib.Data.Int.Interval
import Mathlib.Order.Interval.Finset.Basic

/-! # Tests on outcomes that depend on random numbers -/

namespace Verif.Spec
open Finset

/-- The number of coins for which the outcome passes the test. -/
noncomputable def passes {α β : Type} (coins : Finset α) (f : α → β) (test : β → Prop) : Nat := by
  classical exact (coins.filter fun w => test (f w)).card

/-- Coins drawn independently, number `i` from `0, …, L i`. -/
def box {ι : Type} [Fintype ι] [DecidableEq ι] (L : ι → Int) : Finset (ι → Int) :=
  Fintype.piFinset fun i => Icc 0 (L i)

/-- With coins drawn uniformly from `coins`, no test tells the outcomes `f` and `g` apart with a larger advantage than
`1 / K`. -/
def Close {α β : Type} (K : Nat) (coins : Finset α) (f g : α → β) : Prop :=
  ∀ test : β → Prop, passes coins f test * K ≤ passes coins g test * K + coins.card ∧
    passes coins g test * K ≤ passes coins f test * K + coins.card

end Verif.Spec
