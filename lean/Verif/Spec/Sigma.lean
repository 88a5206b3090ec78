import Mathlib.Data.ZMod.Units
import Mathlib.Algebra.BigOperators.Fin

/-! # The equations of the range proof and of the argument of positivity, in the group of units modulo `N` -/

namespace Verif.Spec

variable {N : Nat}

/-- The first message `f`, `l` fits the challenge `e` and the answers `z`, `t`, `tau`, for the commitment `c`, the range
`[a, b]` and the commitments `k` to three squares. -/
structure RangeFits (g h c : (ZMod N)ˣ) (a b : Int) (k : Fin 3 → (ZMod N)ˣ) (e : Int) (z t : Fin 4 → Int) (tau : Int)
    (f : Fin 4 → (ZMod N)ˣ) (l : (ZMod N)ˣ) : Prop where
  value : f 0 * (c⁻¹ * g ^ b) ^ e = g ^ z 0 * h ^ t 0
  squares : ∀ i : Fin 3, f i.succ * k i ^ e = g ^ z i.succ * h ^ t i.succ
  sum : l * ∏ i, k i ^ z i.succ = h ^ tau * g ^ e * ((c * (g ^ a)⁻¹) ^ 4) ^ z 0

/-- The same for the argument of positivity. -/
structure PositivityFits (g h c : (ZMod N)ˣ) (k : Fin 3 → (ZMod N)ˣ) (e : Int) (z t : Fin 3 → Int) (tau : Int)
    (f : Fin 3 → (ZMod N)ˣ) (l : (ZMod N)ˣ) : Prop where
  squares : ∀ i, f i * k i ^ e = g ^ z i * h ^ t i
  sum : l * (c ^ 4 * g) ^ e = h ^ tau * ∏ i, k i ^ z i

end Verif.Spec
