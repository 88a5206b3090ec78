import Verif.Lemmas.Hiding
import Verif.Lemmas.Periodic

/-! # Counting coins that are moved by amounts that depend on them -/

namespace Verif.Lemmas
open Finset Verif.Spec

variable {ι : Type} [Fintype ι] [DecidableEq ι] {β : Type}

/-- Moving the coins upwards, each by its own amount, changes the number of passes by at most the number of points that leave
the box when moved by the largest amount. -/
theorem passes_shift (L D : ι → Int) (d : (ι → Int) → ι → Int) (hd : ∀ w ∈ box L, ∀ i, 0 ≤ d w i ∧ d w i ≤ D i)
    (f g : (ι → Int) → β) (h : ∀ w ∈ box L, f w = g (w + d w))
    (hi : ∀ w ∈ box L, ∀ w' ∈ box L, w + d w = w' + d w' → w = w') (test : β → Prop) :
    passes (box L) f test ≤ passes (box L) g test + ((box L).card - overlap L D) := by
  classical
  unfold passes
  have h1 : ((box L).filter fun w => test (f w)) ⊆
      ((box L).filter fun w => test (f w) ∧ w + d w ∈ box L) ∪ ((box L).filter fun w => ¬ w + D ∈ box L) := by
    intro w hw
    rw [mem_filter] at hw
    simp only [mem_union, mem_filter]
    by_cases hD : w + D ∈ box L
    · refine Or.inl ⟨hw.1, hw.2, (mem_box _ _).2 fun i => ?_⟩
      have := (mem_box _ _).1 hD i
      have := (mem_box _ _).1 hw.1 i
      have := hd w hw.1 i
      simp only [Pi.add_apply] at *
      omega
    · exact Or.inr ⟨hw.1, hD⟩
  have h2 : ((box L).filter fun w => test (f w) ∧ w + d w ∈ box L).card ≤ ((box L).filter fun w => test (g w)).card := by
    refine card_le_card_of_injOn (fun w => w + d w) ?_ ?_
    · intro w hw
      simp only [coe_filter, Set.mem_setOf_eq] at hw ⊢
      exact ⟨hw.2.2, by rw [← h w hw.1]; exact hw.2.1⟩
    · intro a ha b hb hab
      simp only [coe_filter, Set.mem_setOf_eq] at ha hb
      exact hi a ha.1 b hb.1 hab
  have h3 : ((box L).filter fun w => ¬ w + D ∈ box L).card = (box L).card - overlap L D := by
    rw [← card_stay L D]
    have := card_filter_add_card_filter_not (s := box L) (fun w => w + D ∈ box L)
    omega
  calc _ ≤ _ := card_le_card h1
    _ ≤ _ := card_union_le _ _
    _ ≤ _ := by rw [h3]; omega

/-- A test that looks at one coordinate only. -/
theorem passes_coordinate (L : ι → Int) (i : ι) (B : Nat) (hB : L i + 1 = B) (f : (ι → Int) → β) (test : β → Prop)
    (p : Nat → Prop) [DecidablePred p] (hp : ∀ w, (∀ j, 0 ≤ w j ∧ w j ≤ L j) → (test (f w) ↔ p (w i).toNat)) :
    passes (box L) f test = B.count p * ∏ j ∈ univ.erase i, (L j + 1).toNat := by
  classical
  unfold passes
  have h1 : (box L).filter (fun w => test (f w)) = Fintype.piFinset
      (Function.update (fun j => Icc 0 (L j)) i ((Icc 0 (L i)).filter fun k => p k.toNat)) := by
    ext w
    rw [mem_filter, Fintype.mem_piFinset]
    constructor
    · rintro ⟨h1, h2⟩ j
      rw [mem_box] at h1
      rw [hp w h1] at h2
      by_cases hj : j = i
      · subst hj
        rw [Function.update_self, mem_filter, mem_Icc]
        exact ⟨h1 j, h2⟩
      · rw [Function.update_of_ne hj, mem_Icc]
        exact h1 j
    · intro h
      have hi := h i
      rw [Function.update_self, mem_filter, mem_Icc] at hi
      have hw : w ∈ box L := by
        rw [mem_box]
        intro j
        by_cases hj : j = i
        · subst hj; exact hi.1
        · have := h j
          rw [Function.update_of_ne hj, mem_Icc] at this
          exact this
      exact ⟨hw, (hp w ((mem_box _ _).1 hw)).2 hi.2⟩
  have h2 : ((Icc 0 (L i)).filter fun k => p k.toNat).card = B.count p := by
    rw [Nat.count_eq_card_filter_range]
    refine card_bij (fun k _ => k.toNat) ?_ ?_ ?_
    · intro k hk
      rw [mem_filter, mem_Icc] at hk
      rw [mem_filter, mem_range]
      exact ⟨by omega, hk.2⟩
    · intro a ha b hb hab
      rw [mem_filter, mem_Icc] at ha hb
      omega
    · intro n hn
      rw [mem_filter, mem_range] at hn
      exact ⟨n, by rw [mem_filter, mem_Icc]; exact ⟨by omega, by simpa using hn.2⟩, by simp⟩
  rw [h1, Fintype.card_piFinset, ← mul_prod_erase univ _ (mem_univ i), Function.update_self, h2]
  congr 1
  refine prod_congr rfl fun j hj => ?_
  rw [Function.update_of_ne (ne_of_mem_erase hj), Int.card_Icc, sub_zero]

/-- The residues of `k` below `ρ`. -/
theorem count_low (l q ρ : Nat) (h : 2 * ρ ≤ l) (hρ : 0 < ρ) : (q * l + ρ).count (fun k => k % l < ρ) = q * ρ + ρ := by
  have hl : 0 < l := by omega
  rw [count_blocks _ l (fun r => by rw [Nat.add_mod_right])]
  have h1 : l.count (fun k => k % l < ρ) = ρ := by
    rw [Nat.count_eq_card_filter_range]
    have : (range l).filter (fun k => k % l < ρ) = range ρ := by
      ext k
      simp only [mem_filter, mem_range]
      constructor
      · rintro ⟨a, b⟩; rwa [Nat.mod_eq_of_lt a] at b
      · intro a; exact ⟨by omega, by rwa [Nat.mod_eq_of_lt (by omega)]⟩
    rw [this, card_range]
  have h2 : ρ.count (fun k => k % l < ρ) = ρ := by
    rw [Nat.count_eq_card_filter_range]
    have : (range ρ).filter (fun k => k % l < ρ) = range ρ := by
      ext k
      simp only [mem_filter, mem_range, and_iff_left_iff_imp]
      intro a; rwa [Nat.mod_eq_of_lt (by omega)]
    rw [this, card_range]
  rw [h1, h2]

/-- The residues of `k + ρ` below `ρ`. -/
theorem count_low_shifted (l q ρ : Nat) (h : 2 * ρ ≤ l) (hρ : 0 < ρ) :
    (q * l + ρ).count (fun k => (k + ρ) % l < ρ) = q * ρ := by
  have hl : 0 < l := by omega
  rw [count_blocks _ l (fun r => by rw [Nat.add_right_comm, Nat.add_mod_right])]
  have h1 : l.count (fun k => (k + ρ) % l < ρ) = ρ := by
    rw [Nat.count_eq_card_filter_range]
    have : (range l).filter (fun k => (k + ρ) % l < ρ) = Ico (l - ρ) l := by
      ext k
      simp only [mem_filter, mem_range, mem_Ico]
      rw [and_comm]
      refine and_congr_left fun a => ?_
      rcases lt_or_ge (k + ρ) l with b | b
      · rw [Nat.mod_eq_of_lt b]; omega
      · rw [Nat.mod_eq_sub_mod b, Nat.mod_eq_of_lt (by omega)]; omega
    rw [this, Nat.card_Ico]; omega
  have h2 : ρ.count (fun k => (k + ρ) % l < ρ) = 0 := by
    rw [Nat.count_eq_card_filter_range, card_eq_zero, filter_eq_empty_iff]
    intro k hk
    rw [mem_range] at hk
    rcases lt_or_ge (k + ρ) l with b | b
    · rw [Nat.mod_eq_of_lt b]; omega
    · omega
  rw [h1, h2, Nat.add_zero]

end Verif.Lemmas
