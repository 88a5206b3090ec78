import Verif.Props.Experiments

/-!
# Which set sizes the table of the swap experiments covers (C78)

From 2^21 elements on the number of words wraps around. The table is then too small, except in one window of sizes just below
2^22 where the wrapped number is still enough.
-/

namespace Verif.Props
open Verif.Go Verif.Model Verif.Lemmas Verif.Spec

theorem rep_range (E : Env) (l : List Nat) : 2 ^ 1023 ≤ E.poseidon l + 2 ^ 1023 ∧ E.poseidon l + 2 ^ 1023 ≤ 2 ^ 1023 + 2 ^ 256 := by
  have h1 := E.poseidon_lt l
  have h2 : frOrder < 2 ^ 256 := by decide +kernel
  generalize (2 : Nat) ^ 256 = a at *
  generalize (2 : Nat) ^ 1023 = b at *
  omega

/-- Bounds for the exponent of the original accumulator. -/
theorem swap_original_between (E : Env) (k n : Nat) (h : k + n < 2 ^ 766) :
    2 ^ (1023 * (k + n)) * Experiments.factor E 200 ≤
        (Experiments.kept E k).prod * (Experiments.removed E n).prod * Experiments.factor E 200 ∧
    (Experiments.kept E k).prod * (Experiments.removed E n).prod < 2 ^ (1023 * (k + n) + 1) := by
  have h1 := prod_between (Experiments.kept E k ++ Experiments.removed E n) (2 ^ 1023) (2 ^ 1023 + 2 ^ 256) (by
    intro x hx
    rcases List.mem_append.1 hx with hx | hx
    · obtain ⟨i, -, rfl⟩ := List.mem_map.1 hx
      exact rep_range E _
    · obtain ⟨i, -, rfl⟩ := List.mem_map.1 hx
      exact rep_range E _)
  have hl : (Experiments.kept E k ++ Experiments.removed E n).length = k + n := by
    rw [List.length_append, Experiments.kept, Experiments.removed, List.length_map, List.length_map, List.length_range, List.length_range]
  rw [List.prod_append, hl] at h1
  have h2 := upper_product (k + n) h
  rw [pow_succ 2 (1023 * (k + n)), pow_mul]
  exact ⟨Nat.mul_le_mul_right _ h1.1, lt_of_lt_of_eq (lt_of_le_of_lt h1.2 h2) (Nat.mul_comm _ _)⟩

/-- The number of bits of the table, for every set size. -/
theorem tableWords_bits (setsize : UInt32) : 64 * (tableWords setsize).toNat = 2048 * (setsize.toNat % 2 ^ 21) := by
  rw [tableWords, UInt32.toNat_div, UInt32.toNat_mul]
  have e1 : (2048 : UInt32).toNat = 2048 := rfl
  have e2 : (64 : UInt32).toNat = 64 := rfl
  rw [e1, e2]
  omega

theorem swap_original (E : Env) (fuel G N : Nat) (setsize updated : UInt32) (v : SwapRun) (hu : updated ≤ setsize)
    (h : notusMultiSwap E fuel G N setsize updated = Run.ok v ∨ notusParallel E fuel G N setsize updated = Run.ok v) :
    2 ^ (1023 * setsize.toNat) * Experiments.factor E 200 ≤ v.originalProd ∧
    (v.originalProd < 2 ^ (1023 * setsize.toNat + 1 + 2032)) := by
  have hv : v.originalProd = (Experiments.kept E (setsize - updated).toNat).prod *
      (Experiments.removed E updated.toNat).prod * Experiments.factor E 200 := by
    rcases h with h | h
    · obtain ⟨l, L1, L2, hc, rfl⟩ := (notusMultiSwap_ok_iff E fuel G N setsize updated v).1 h
      rfl
    · obtain ⟨l, L1, L2, hc, rfl⟩ := (notusParallel_ok_iff E fuel G N setsize updated v).1 h
      rfl
  have hk : (setsize - updated).toNat + updated.toNat = setsize.toNat := by
    rw [UInt32.toNat_sub_of_le _ _ hu]
    have := UInt32.le_iff_toNat_le.1 hu
    omega
  have hs : (setsize - updated).toNat + updated.toNat < 2 ^ 766 := by
    rw [hk]
    have mono : ∀ a b : Nat, a ≤ b → 2 ^ a ≤ 2 ^ b := fun a b h => Nat.pow_le_pow_right (by omega) h
    exact lt_of_lt_of_le setsize.toNat_lt (mono 32 766 (by omega))
  obtain ⟨h1, h2⟩ := swap_original_between E _ _ hs
  rw [hk] at h1 h2
  rw [hv]
  refine ⟨h1, ?_⟩
  rw [pow_add _ _ 2032]
  exact Nat.mul_lt_mul_of_le_of_lt h2.le (factor_lt E 200) (Nat.pow_pos (by decide))

/-- In the window below 2^22 the table is large enough although the number of words has wrapped around. -/
theorem C78_window_partial (E : Env) (fuel G N : Nat) (setsize updated : UInt32) (v : SwapRun) (hu : updated ≤ setsize)
    (h1 : 4190214 ≤ setsize.toNat) (h2 : setsize.toNat < 2 ^ 22)
    (h : notusMultiSwap E fuel G N setsize updated = Run.ok v ∨ notusParallel E fuel G N setsize updated = Run.ok v) :
    v.originalProd < 2 ^ (64 * (tableWords setsize).toNat) := by
  refine lt_of_lt_of_le (swap_original E fuel G N setsize updated v hu h).2 ?_
  rw [tableWords_bits]
  exact Nat.pow_le_pow_right (by decide) (by omega)

/-- Every other size from 2^21 on has a table that is too small, unless the randomizer is zero (or, for the two sizes 4190212
and 4190213 at the edge of the window, small). -/
theorem C78_fails (E : Env) (fuel G N : Nat) (setsize updated : UInt32) (v : SwapRun) (hu : updated ≤ setsize)
    (hf : Experiments.factor E 200 ≠ 0) (h1 : 2 ^ 21 ≤ setsize.toNat)
    (h2 : setsize.toNat < 4190212 ∨ 2 ^ 22 ≤ setsize.toNat ∨
      setsize.toNat < 4190214 ∧ 2 ^ (1025 * setsize.toNat - 2 ^ 32) ≤ Experiments.factor E 200)
    (h : notusMultiSwap E fuel G N setsize updated = Run.ok v ∨ notusParallel E fuel G N setsize updated = Run.ok v) :
    ¬ v.originalProd < 2 ^ (64 * (tableWords setsize).toNat) := by
  refine not_lt_of_ge (le_trans ?_ (swap_original E fuel G N setsize updated v hu h).1)
  have hlt := setsize.toNat_lt
  rw [tableWords_bits]
  rcases h2 with h2 | h2 | ⟨h2, h3⟩
  · refine le_trans (Nat.pow_le_pow_right (by decide) (?_ : _ ≤ 1023 * setsize.toNat)) (Nat.le_mul_of_pos_right _ (Nat.pos_of_ne_zero hf))
    omega
  · refine le_trans (Nat.pow_le_pow_right (by decide) (?_ : _ ≤ 1023 * setsize.toNat)) (Nat.le_mul_of_pos_right _ (Nat.pos_of_ne_zero hf))
    omega
  · by_cases h4 : setsize.toNat < 4190212
    · refine le_trans (Nat.pow_le_pow_right (by decide) (?_ : _ ≤ 1023 * setsize.toNat)) (Nat.le_mul_of_pos_right _ (Nat.pos_of_ne_zero hf))
      omega
    · refine le_trans (le_of_eq ?_) (Nat.mul_le_mul_left _ h3)
      rw [← pow_add]
      exact congrArg (fun n => 2 ^ n) (by omega)

/-- A run in the window and a run outside of it. -/
example : (∃ v, notusMultiSwap flatEnv 1 16 29 4194303 2 = Run.ok v ∧ v.originalProd < 2 ^ (64 * (tableWords 4194303).toNat)) ∧
    ∃ v, notusMultiSwap flatEnv 1 16 29 4194304 2 = Run.ok v ∧ ¬ v.originalProd < 2 ^ (64 * (tableWords 4194304).toNat) := by
  have run : ∀ s : UInt32, (2 : Nat) ≤ (s - 2).toNat → ∃ v, notusMultiSwap flatEnv 1 16 29 s 2 = Run.ok v := fun s hs =>
    ⟨_, (notusMultiSwap_ok_iff flatEnv 1 16 29 s 2 _).2 ⟨13, 13, 13, flat_challenges 16 29 _ (2 : UInt32).toNat
      (Nat.add_le_add hs (le_refl 2)) (le_refl 2), rfl⟩⟩
  obtain ⟨v, hv⟩ := run 4194303 (by decide)
  obtain ⟨w, hw⟩ := run 4194304 (by decide)
  exact ⟨⟨v, hv, C78_window_partial _ _ _ _ _ _ _ (by decide) (by decide) (by decide) (.inl hv)⟩,
    ⟨w, hw, C78_fails _ _ _ _ _ _ _ (by decide) (by rw [flat_factor]; decide) (by decide) (.inr (.inl (by decide))) (.inl hw)⟩⟩

end Verif.Props
