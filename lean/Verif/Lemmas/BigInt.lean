import Verif.Go.BigInt
import Mathlib.Data.ZMod.Basic
import Mathlib.Data.ZMod.Units
import Mathlib.Tactic.Ring
import Mathlib.Tactic.Linarith
import Mathlib.Algebra.Group.Units.Basic

/-! Facts about `bigExp` and `modInverse`, read modulo `N`. -/

namespace Verif.Lemmas
open Verif.Go

variable {N : Nat} [NeZero N]

theorem isUnit_iff_gcd (x : Int) : IsUnit (x : ZMod N) ↔ Int.gcd x N = 1 := by
  rw [← Int.isCoprime_iff_gcd_eq_one, ZMod.coe_int_isUnit_iff_isCoprime]
  exact isCoprime_comm

theorem natN_pos : (0 : Int) < (N : Int) := by
  have := NeZero.ne N
  omega

/-- The canonical integer of a residue. -/
theorem val_cast (z : ZMod N) : ((z.val : Int) : ZMod N) = z := by simp

theorem eq_val_of_cast {r : Int} {z : ZMod N} (h0 : 0 ≤ r) (h1 : r < N) (h : (r : ZMod N) = z) : r = (z.val : Int) := by
  subst h
  obtain ⟨k, rfl⟩ := Int.eq_ofNat_of_zero_le h0
  have hk : k < N := by exact_mod_cast h1
  simp only [Int.cast_natCast]
  rw [ZMod.val_natCast_of_lt hk]

theorem val_lt_int (z : ZMod N) : (z.val : Int) < N := by exact_mod_cast ZMod.val_lt z

theorem emod_eq_val (r : Int) : r % (N : Int) = (((r : ZMod N)).val : Int) := by
  apply eq_val_of_cast
  · exact Int.emod_nonneg _ (by have := natN_pos (N := N); omega)
  · exact Int.emod_lt_of_pos _ natN_pos
  · simp

theorem modInverse_unit (x : Int) (u : (ZMod N)ˣ) (hu : (u : ZMod N) = (x : ZMod N)) :
    modInverse x N = some (((↑(u⁻¹) : ZMod N).val : Int)) := by
  have hg : Int.gcd x N = 1 := (isUnit_iff_gcd x).1 ⟨u, hu⟩
  have hg' : Int.gcd (x % N) N = 1 := by rw [← Int.gcd_emod] at hg; simpa using hg
  unfold modInverse
  rw [if_pos hg]
  congr 1
  rw [emod_eq_val]
  congr 2
  have h := Int.gcd_eq_gcd_ab (x % N) N
  rw [hg'] at h
  have h2 : ((1 : Int) : ZMod N) = ((x % N * Int.gcdA (x % N) N + N * Int.gcdB (x % N) N : Int) : ZMod N) := by
    rw [← h]; simp
  simp at h2
  rw [← hu] at h2
  exact (Units.inv_eq_of_mul_eq_one_right (by exact h2.symm)).symm

theorem modInverse_none (x : Int) (h : ¬ IsUnit (x : ZMod N)) : modInverse x N = none := by
  unfold modInverse
  rw [if_neg]
  rwa [← isUnit_iff_gcd]

/-- Non-negative exponents: the power modulo `N`, for every base. -/
theorem bigExp_nonneg (x y : Int) (hy : 0 ≤ y) : bigExp x y N = some (((x : ZMod N) ^ y.natAbs).val : Int) := by
  have hN := natN_pos (N := N)
  unfold bigExp
  rw [if_neg (by omega)]
  simp only [if_neg (show ¬ y < 0 by omega), Option.map_some]
  congr 1
  have habs : (x.natAbs : Int) = x ∨ ((x.natAbs : Int) = -x ∧ x < 0) := by omega
  have hpar : y.natAbs % 2 = 1 ↔ y % 2 = 1 := by omega
  rw [Int.natAbs_natCast]
  by_cases hx : x < 0
  · have hxa : (x.natAbs : Int) = -x := by omega
    rw [hxa]
    by_cases ho : y % 2 = 1
    · have hodd : Odd y.natAbs := Nat.odd_iff.2 (hpar.2 ho)
      rw [hodd.neg_pow]
      by_cases hz : (-x ^ y.natAbs) % (N : Int) = 0
      · rw [if_neg (by simp [hz])]
        rw [hz]
        apply eq_val_of_cast (by omega) (by omega)
        have hd := Int.dvd_of_emod_eq_zero hz
        rw [Int.dvd_neg] at hd
        have := (ZMod.intCast_zmod_eq_zero_iff_dvd _ N).2 hd
        push_cast at this
        rw [this]; simp
      · rw [if_pos ⟨hz, hx, ho⟩]
        have h1 := Int.emod_nonneg (-x ^ y.natAbs) (show (N : Int) ≠ 0 by omega)
        have h2 := Int.emod_lt_of_pos (-x ^ y.natAbs) hN
        apply eq_val_of_cast (by omega) (by omega)
        push_cast
        simp
    · have heven : Even y.natAbs := by rw [Nat.even_iff]; omega
      rw [heven.neg_pow, if_neg (by simp [ho]), emod_eq_val]
      push_cast; rfl
  · rw [if_neg (by simp [hx]), show (x.natAbs : Int) = x by omega, emod_eq_val]
    push_cast; rfl

/-- Invertible non-negative base: every exponent is defined, also negative ones. -/
theorem bigExp_unit (x y : Int) (hx : 0 ≤ x) (u : (ZMod N)ˣ) (hu : (u : ZMod N) = (x : ZMod N)) :
    bigExp x y N = some (((↑(u ^ y) : ZMod N)).val : Int) := by
  by_cases hy : 0 ≤ y
  · rw [bigExp_nonneg x y hy, ← hu]
    obtain ⟨k, rfl⟩ := Int.eq_ofNat_of_zero_le hy
    simp
  · have hN := natN_pos (N := N)
    unfold bigExp
    rw [if_neg (by omega)]
    simp only [if_pos (show y < 0 by omega), modInverse_unit x u hu, Option.map_some]
    congr 1
    rw [if_neg (by omega), emod_eq_val]
    congr 2
    push_cast
    rw [ZMod.natCast_zmod_val]
    obtain ⟨k, hk⟩ : ∃ k : Nat, y = -(k : Int) := ⟨y.natAbs, by omega⟩
    subst hk
    simp

/-- No inverse: negative exponents give nil. -/
theorem bigExp_none (x y : Int) (hx : ¬ IsUnit (x : ZMod N)) (hy : y < 0) : bigExp x y N = none := by
  have hN := natN_pos (N := N)
  unfold bigExp
  rw [if_neg (by omega)]
  simp only [if_pos hy, modInverse_none x hx, Option.map_none]

/-- When the call returns nil (`N > 0`). -/
theorem bigExp_eq_none_iff (x y : Int) : bigExp x y N = none ↔ y < 0 ∧ Int.gcd x N ≠ 1 := by
  rw [Ne, ← isUnit_iff_gcd]
  constructor
  · intro h
    by_cases hy : y < 0
    · refine ⟨hy, ?_⟩
      rintro ⟨u, hu⟩
      unfold bigExp at h
      rw [if_neg (by have := natN_pos (N := N); omega)] at h
      simp [if_pos hy, modInverse_unit x u hu] at h
    · rw [bigExp_nonneg x y (by omega)] at h; cases h
  · rintro ⟨hy, hx⟩
    exact bigExp_none x y hx hy

/-- Results are reduced. -/
theorem bigExp_range {x y r : Int} (h : bigExp x y N = some r) : 0 ≤ r ∧ r < N := by
  have hN := natN_pos (N := N)
  unfold bigExp at h
  rw [if_neg (by omega)] at h
  simp only [Option.map_eq_some_iff] at h
  obtain ⟨b, -, hb⟩ := h
  have h1 := Int.emod_nonneg (b ^ y.natAbs) (show (N : Int) ≠ 0 by omega)
  have h2 := Int.emod_lt_of_pos (b ^ y.natAbs) hN
  rw [Int.natAbs_natCast] at hb
  split at hb <;> omega

end Verif.Lemmas
