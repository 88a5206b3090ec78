import Mathlib.Data.ZMod.Basic
import Mathlib.Data.ZMod.Units
import Mathlib.Algebra.Ring.Int.Units

/-!
# Specification of modular powers
-/

namespace Verif.Spec

/-- `c` is `g` to the power `x` modulo `N`, in reduced form. For a negative exponent this means `c * g^|x| = 1`. -/
def IsPower (N g x c : Int) : Prop :=
  0 ≤ c ∧ c < N ∧ if 0 ≤ x then N ∣ g ^ x.toNat - c else N ∣ c * g ^ (-x).toNat - 1

/-- The residue `g` to the power `x`; negative powers of a residue that is not invertible are 0. -/
noncomputable def gpow {N : Nat} (g : ZMod N) (x : Int) : ZMod N :=
  open Classical in
  if 0 ≤ x then g ^ x.toNat else if h : IsUnit g then ((h.unit ^ x : (ZMod N)ˣ) : ZMod N) else 0

end Verif.Spec
