import Verif.Model.Poke
import Verif.Spec.Power
import Verif.Lemmas.BigInt
import Verif.Lemmas.Hashes
import Verif.Lemmas.Transcript
import Mathlib.Tactic.Ring
import Mathlib.Tactic.LinearCombination

/-! # Lemmas about modular powers and the exponent proofs -/

namespace Verif.Lemmas
open Verif.Go Verif.Model Verif.Spec

variable {N : Nat} [NeZero N]

omit [NeZero N] in
theorem gpow_nonneg (g : ZMod N) (x : Int) (hx : 0 ≤ x) : gpow g x = g ^ x.toNat := by
  unfold gpow; rw [if_pos hx]

omit [NeZero N] in
theorem gpow_unit (u : (ZMod N)ˣ) (x : Int) : gpow (u : ZMod N) x = ((u ^ x : (ZMod N)ˣ) : ZMod N) := by
  unfold gpow
  split
  · rename_i h
    obtain ⟨k, rfl⟩ := Int.eq_ofNat_of_zero_le h
    simp
  · rw [dif_pos u.isUnit]
    congr 2
    ext
    simp

omit [NeZero N] in
theorem gpow_nonunit (g : ZMod N) (x : Int) (hx : x < 0) (hg : ¬ IsUnit g) : gpow g x = 0 := by
  unfold gpow; rw [if_neg (by omega), dif_neg hg]

/-- `Exp` as a statement computes `gpow`. -/
theorem expStmt_eq (g x : Int) (h : 0 ≤ g ∨ 0 ≤ x) : expStmt g x N = ((gpow (g : ZMod N) x).val : Int) := by
  unfold expStmt
  by_cases hx : 0 ≤ x
  · rw [bigExp_nonneg g x hx, gpow_nonneg _ _ hx, Option.getD_some, show x.natAbs = x.toNat by omega]
  · have hg : 0 ≤ g := by omega
    by_cases hu : IsUnit (g : ZMod N)
    · obtain ⟨u, hu⟩ := hu
      rw [bigExp_unit g x hg u hu, ← hu, gpow_unit, Option.getD_some]
    · rw [bigExp_none g x hu (by omega), gpow_nonunit _ _ (by omega) hu]
      simp

theorem expStmt_cast (g x : Int) (h : 0 ≤ g ∨ 0 ≤ x) : ((expStmt g x N : Int) : ZMod N) = gpow (g : ZMod N) x := by
  rw [expStmt_eq g x h, val_cast]

theorem expStmt_range (g x : Int) : 0 ≤ expStmt g x N ∧ expStmt g x (N : Int) < N := by
  unfold expStmt
  cases h : bigExp g x N with
  | none => exact ⟨Int.le_refl _, natN_pos⟩
  | some r => exact bigExp_range h

/-- `IsPower` in terms of `gpow`. -/
theorem isPower_iff (g x c : Int) :
    IsPower N g x c ↔ (x < 0 → IsUnit (g : ZMod N)) ∧ c = ((gpow (g : ZMod N) x).val : Int) := by
  unfold IsPower
  by_cases hx : 0 ≤ x
  · rw [if_pos hx, gpow_nonneg _ _ hx]
    constructor
    · rintro ⟨h0, h1, h2⟩
      refine ⟨by omega, eq_val_of_cast h0 h1 ?_⟩
      have := (ZMod.intCast_zmod_eq_zero_iff_dvd _ N).2 h2
      push_cast at this
      exact (sub_eq_zero.1 this).symm
    · rintro ⟨-, h⟩
      refine ⟨by rw [h]; positivity, by rw [h]; exact val_lt_int _, ?_⟩
      rw [← ZMod.intCast_zmod_eq_zero_iff_dvd, h]
      push_cast
      simp
  · rw [if_neg hx]
    constructor
    · rintro ⟨h0, h1, h2⟩
      have h3 := (ZMod.intCast_zmod_eq_zero_iff_dvd _ N).2 h2
      push_cast at h3
      have h4 : (c : ZMod N) * (g : ZMod N) ^ (-x).toNat = 1 := sub_eq_zero.1 h3
      have hu : IsUnit (g : ZMod N) := by
        have : IsUnit ((g : ZMod N) ^ (-x).toNat) := IsUnit.of_mul_eq_one _ (by rw [mul_comm]; exact h4)
        exact (isUnit_pow_iff (by omega)).1 this
      refine ⟨fun _ => hu, eq_val_of_cast h0 h1 ?_⟩
      obtain ⟨u, hu⟩ := hu
      rw [← hu, gpow_unit]
      rw [← hu] at h4
      have h5 : ((u ^ x : (ZMod N)ˣ) : ZMod N) * (u : ZMod N) ^ (-x).toNat = 1 := by
        rw [← Units.val_pow_eq_pow_val, ← Units.val_mul, ← zpow_natCast, ← zpow_add]
        rw [show x + ((-x).toNat : Int) = 0 by omega]
        simp
      have hu2 : IsUnit ((u : ZMod N) ^ (-x).toNat) := u.isUnit.pow _
      exact hu2.mul_right_cancel (h4.trans h5.symm)
    · rintro ⟨hu, h⟩
      refine ⟨by rw [h]; positivity, by rw [h]; exact val_lt_int _, ?_⟩
      obtain ⟨u, hu⟩ := hu (by omega)
      rw [← hu, gpow_unit] at h
      rw [← ZMod.intCast_zmod_eq_zero_iff_dvd, h]
      push_cast
      rw [ZMod.natCast_zmod_val, ← hu, ← Units.val_pow_eq_pow_val, ← Units.val_mul, ← zpow_natCast, ← zpow_add,
        show x + ((-x).toNat : Int) = 0 by omega]
      simp

theorem run_ok_bind {α β : Type} (a : α) (f : α → Run β) : (Run.ok a >>= f) = f a := rfl

theorem liftLoop_some {α : Type} (a : α) : liftLoop (some a) = Run.ok a := rfl

theorem multiExp_eq (g x h r : Int) (h1 : 0 ≤ g ∨ 0 ≤ x) (h2 : 0 ≤ h ∨ 0 ≤ r) :
    multiExp g x h r N = Run.ok ((gpow (g : ZMod N) x * gpow (h : ZMod N) r).val : Int) := by
  unfold multiExp
  rw [if_neg (by have := natN_pos (N := N); omega), emod_eq_val]
  push_cast
  rw [expStmt_cast g x h1, expStmt_cast h r h2]

theorem divMod_eq (x : Int) (l : Nat) (hl : l ≠ 0) : divMod x l = Run.ok (x / l, x % l) := by
  unfold divMod; rw [if_neg (by omega)]

omit [NeZero N] in
/-- The identity behind the exponent proofs. -/
theorem gpow_divMod (g : ZMod N) (x : Int) (l : Nat) (hl : l ≠ 0) :
    gpow g (x / l) ^ l * gpow g (x % l) = gpow g x := by
  have hr : 0 ≤ x % (l : Int) := Int.emod_nonneg _ (by omega)
  by_cases hu : IsUnit g
  · obtain ⟨u, rfl⟩ := hu
    rw [gpow_unit, gpow_unit, gpow_unit, ← Units.val_pow_eq_pow_val, ← Units.val_mul, ← zpow_natCast, ← zpow_mul,
      ← zpow_add]
    congr 2
    rw [mul_comm]
    exact Int.mul_ediv_add_emod x l
  · by_cases hx : 0 ≤ x
    · have hq : 0 ≤ x / (l : Int) := Int.ediv_nonneg hx (by omega)
      rw [gpow_nonneg _ _ hx, gpow_nonneg _ _ hq, gpow_nonneg _ _ hr, ← pow_mul, ← pow_add]
      congr 1
      have := Int.mul_ediv_add_emod x l
      zify
      rw [Int.toNat_of_nonneg hq, Int.toNat_of_nonneg hr, Int.toNat_of_nonneg hx, mul_comm]
      exact this
    · have hq : x / (l : Int) < 0 := Int.ediv_neg_of_neg_of_pos (by omega) (by omega)
      rw [gpow_nonunit _ _ hq hu, gpow_nonunit _ x (by omega) hu, zero_pow hl, zero_mul]

omit [NeZero N] in
theorem gpow_lin (g : ZMod N) (x k : Int) (c : Nat) (hk : 0 ≤ k) (h : 0 ≤ x ∨ IsUnit g) :
    gpow g ((c : Int) * x + k) = gpow g x ^ c * gpow g k := by
  rcases h with hx | ⟨u, rfl⟩
  · have : 0 ≤ (c : Int) * x := by positivity
    rw [gpow_nonneg _ _ (by omega), gpow_nonneg _ _ hx, gpow_nonneg _ _ hk, ← pow_mul, ← pow_add]
    congr 1
    zify
    rw [Int.toNat_of_nonneg hx, Int.toNat_of_nonneg hk, Int.toNat_of_nonneg (by omega), mul_comm]
  · rw [gpow_unit, gpow_unit, gpow_unit, ← Units.val_pow_eq_pow_val, ← Units.val_mul, ← zpow_natCast, ← zpow_mul,
      ← zpow_add, mul_comm x]

theorem bigExp_some (g x : Int) (h : 0 ≤ x ∨ (0 ≤ g ∧ IsUnit (g : ZMod N))) :
    bigExp g x N = some ((gpow (g : ZMod N) x).val : Int) := by
  by_cases hx : 0 ≤ x
  · rw [bigExp_nonneg g x hx, gpow_nonneg _ _ hx, show x.natAbs = x.toNat by omega]
  · obtain ⟨hg, u, hu⟩ := h.resolve_left hx
    rw [bigExp_unit g x hg u hu, ← hu, gpow_unit]

end Verif.Lemmas
