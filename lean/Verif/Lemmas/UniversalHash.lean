import Verif.Props.Representatives
import Verif.Model.UniversalHash
import Mathlib.Algebra.BigOperators.Intervals
import Mathlib.Data.Finset.Prod
import Mathlib.Data.Int.ModEq
import Mathlib.RingTheory.Coprime.Lemmas
import Mathlib.Tactic.Ring

/-! # Counting lemmas for the universal hash -/

namespace Verif.Lemmas
open Verif.Model Finset

/-- The residue before rounding. -/
def uhVal (P : Nat) (x : Int) (A B : Nat) : Nat := ((A * x + B) % (P : Int)).toNat

theorem uhVal_lt {P : Nat} (hP : 0 < P) (x : Int) (A B : Nat) : uhVal P x A B < P := by
  unfold uhVal
  have h1 : (0 : Int) ≤ (A * x + B) % (P : Int) := Int.emod_nonneg _ (by omega)
  have h2 : (A * x + B) % (P : Int) < P := Int.emod_lt_of_pos _ (by omega)
  omega

theorem uhVal_cast {P : Nat} (hP : 0 < P) (x : Int) (A B : Nat) : (uhVal P x A B : Int) = (A * x + B) % (P : Int) := by
  unfold uhVal
  exact Int.toNat_of_nonneg (Int.emod_nonneg _ (by omega))

theorem uh_eq {P : Nat} (hP : 0 < P) (x : Int) (A B : Nat) :
    universalHashToInt A B P x = 2 * ((uhVal P x A B / 2 : Nat) : Int) + 1 := by
  rw [(Verif.Props.C21_universalHash A B P x (by omega)).2.2.2, ← uhVal_cast hP]
  generalize uhVal P x A B = u
  split <;> omega

theorem uh_eq_iff {P : Nat} (hP : 0 < P) (x y : Int) (A B : Nat) :
    universalHashToInt A B P x = universalHashToInt A B P y ↔ uhVal P x A B / 2 = uhVal P y A B / 2 := by
  rw [uh_eq hP, uh_eq hP]; omega

theorem pair_count (m : Nat) :
    ((range (2 * m + 1) ×ˢ range (2 * m + 1)).filter (fun q : Nat × Nat => q.1 / 2 = q.2 / 2)).card = 4 * m + 1 := by
  rw [card_filter, sum_product, sum_range_succ]
  have h1 : ∀ u ∈ range (2 * m), ∑ v ∈ range (2 * m + 1), (if u / 2 = v / 2 then 1 else 0) = 2 := by
    intro u hu
    have hu := mem_range.1 hu
    rw [← card_filter]
    have : (range (2 * m + 1)).filter (fun v => u / 2 = v / 2) = {2 * (u / 2), 2 * (u / 2) + 1} := by
      ext v
      simp only [mem_filter, mem_range, mem_insert, mem_singleton]
      omega
    rw [this, card_pair (by omega)]
  have h2 : ∑ v ∈ range (2 * m + 1), (if 2 * m / 2 = v / 2 then 1 else 0) = 1 := by
    rw [← card_filter]
    have : (range (2 * m + 1)).filter (fun v => 2 * m / 2 = v / 2) = {2 * m} := by
      ext v
      simp only [mem_filter, mem_range, mem_singleton]
      omega
    rw [this, card_singleton]
  rw [sum_congr rfl h1, h2, sum_const, card_range]
  simp only [smul_eq_mul]
  omega

theorem uhVal_pair_inj {P : Nat} (hP : 0 < P) (x y : Int) (hco : IsCoprime (x - y) (P : Int)) :
    Set.InjOn (fun p : Nat × Nat => (uhVal P x p.1 p.2, uhVal P y p.1 p.2)) ↑(range P ×ˢ range P) := by
  rintro ⟨a, b⟩ h1 ⟨a', b'⟩ h2 h
  simp only [coe_product, Set.mem_prod, mem_coe, mem_range] at h1 h2
  simp only [Prod.mk.injEq] at h
  have e1 : (P : Int) ∣ (a * x + b) - (a' * x + b') := by
    apply Int.dvd_of_emod_eq_zero
    apply Int.emod_eq_emod_iff_emod_sub_eq_zero.1
    rw [← uhVal_cast hP, ← uhVal_cast hP, h.1]
  have e2 : (P : Int) ∣ (a * y + b) - (a' * y + b') := by
    apply Int.dvd_of_emod_eq_zero
    apply Int.emod_eq_emod_iff_emod_sub_eq_zero.1
    rw [← uhVal_cast hP, ← uhVal_cast hP, h.2]
  have e3 : (P : Int) ∣ ((a : Int) - a') * (x - y) := by
    have := dvd_sub e1 e2
    have e : (a * x + b : Int) - (a' * x + b') - ((a * y + b) - (a' * y + b')) = ((a : Int) - a') * (x - y) := by ring
    rwa [e] at this
  have e4 : (P : Int) ∣ (a : Int) - a' := (hco.symm).dvd_of_dvd_mul_right e3
  have ha : a = a' := by
    have := Int.eq_zero_of_abs_lt_dvd e4 (by rw [abs_lt]; omega)
    omega
  subst ha
  have hb : (P : Int) ∣ (b : Int) - b' := by
    have e : (a * x + b : Int) - (a * x + b') = b - b' := by ring
    rwa [e] at e1
  have : b = b' := by
    have := Int.eq_zero_of_abs_lt_dvd hb (by rw [abs_lt]; omega)
    omega
  rw [this]

theorem uhVal_inj {P : Nat} (hP : 0 < P) (A B : Nat) (hco : IsCoprime (A : Int) (P : Int)) :
    Set.InjOn (fun x : Nat => uhVal P x A B) ↑(range P) := by
  intro x h1 y h2 h
  simp only [mem_coe, mem_range] at h1 h2
  have e1 : (P : Int) ∣ (A * x + B) - (A * y + B) := by
    apply Int.dvd_of_emod_eq_zero
    apply Int.emod_eq_emod_iff_emod_sub_eq_zero.1
    rw [← uhVal_cast hP, ← uhVal_cast hP]
    exact congrArg _ h
  have e2 : (P : Int) ∣ A * ((x : Int) - y) := by
    have e : (A * x + B : Int) - (A * y + B) = A * (x - y) := by ring
    rwa [e] at e1
  have e3 := (hco.symm).dvd_of_dvd_mul_left e2
  have := Int.eq_zero_of_abs_lt_dvd e3 (by rw [abs_lt]; omega)
  omega

/-- Counting after an injective map of a finite set into itself. -/
theorem card_filter_comp {α : Type} [DecidableEq α] (S : Finset α) (f : α → α) (hf : Set.InjOn f ↑S) (hm : ∀ a ∈ S, f a ∈ S)
    (Q : α → Prop) [DecidablePred Q] : (S.filter (fun a => Q (f a))).card = (S.filter Q).card := by
  have himg : S.image f = S :=
    eq_of_subset_of_card_le (image_subset_iff.2 hm) (by rw [card_image_of_injOn hf])
  rw [← card_image_of_injOn (s := S.filter (fun a => Q (f a))) (f := f) (hf.mono (fun a ha => (mem_filter.1 ha).1))]
  congr 1
  ext b
  simp only [mem_image, mem_filter]
  constructor
  · rintro ⟨a, ⟨ha, hq⟩, rfl⟩; exact ⟨hm a ha, hq⟩
  · rintro ⟨hb, hq⟩
    rw [← himg] at hb
    obtain ⟨a, ha, rfl⟩ := mem_image.1 hb
    exact ⟨a, ⟨ha, hq⟩, rfl⟩

end Verif.Lemmas
