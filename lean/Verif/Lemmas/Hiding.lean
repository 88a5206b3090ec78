import Verif.Spec.Coins
import Mathlib.Algebra.Order.BigOperators.Ring.Finset
import Mathlib.Tactic.Ring
import Mathlib.Tactic.Linarith

/-! # Counting the coins that pass a test -/

namespace Verif.Lemmas
open Finset Verif.Spec

/-- The points of the box that stay inside when moved by `d`. -/
def overlap {ι : Type} [Fintype ι] (L d : ι → Int) : Nat := ∏ i, (L i + 1 - |d i|).toNat

variable {ι : Type} [Fintype ι] [DecidableEq ι] {β : Type}

theorem mem_box (L w : ι → Int) : w ∈ box L ↔ ∀ i, 0 ≤ w i ∧ w i ≤ L i := by
  simp [box, Fintype.mem_piFinset]

theorem card_box (L : ι → Int) : (box L).card = ∏ i, (L i + 1).toNat := by
  unfold box
  rw [Fintype.card_piFinset]
  exact prod_congr rfl fun i _ => by rw [Int.card_Icc, sub_zero]

theorem card_stay (L d : ι → Int) : ((box L).filter fun w => w + d ∈ box L).card = overlap L d := by
  have : (box L).filter (fun w => w + d ∈ box L) = Fintype.piFinset fun i => Icc (max 0 (-d i)) (min (L i) (L i - d i)) := by
    ext w
    simp only [mem_filter, mem_box, Fintype.mem_piFinset, mem_Icc, Pi.add_apply]
    constructor
    · rintro ⟨h1, h2⟩ i
      have := h1 i
      have := h2 i
      omega
    · intro h
      refine ⟨fun i => ?_, fun i => ?_⟩ <;> have := h i <;> omega
  rw [this, Fintype.card_piFinset]
  unfold overlap
  refine prod_congr rfl fun i _ => ?_
  rw [Int.card_Icc]
  rcases abs_cases (d i) with h | h <;> omega

theorem overlap_le (L d : ι → Int) : overlap L d ≤ (box L).card := by
  rw [← card_stay]; exact card_filter_le _ _

theorem overlap_neg (L d : ι → Int) : overlap L (-d) = overlap L d := by
  unfold overlap
  exact prod_congr rfl fun i _ => by rw [Pi.neg_apply, abs_neg]

/-- Moving the coins by `d` changes the number of passes by at most the number of points that leave the box. -/
theorem passes_move (L d : ι → Int) (f g : (ι → Int) → β) (h : ∀ w, f w = g (w + d)) (test : β → Prop) :
    passes (box L) f test ≤ passes (box L) g test + ((box L).card - overlap L d) := by
  classical
  unfold passes
  have h1 : ((box L).filter fun w => test (f w)) ⊆
      ((box L).filter fun w => test (f w) ∧ w + d ∈ box L) ∪ ((box L).filter fun w => ¬ w + d ∈ box L) := by
    intro w hw
    rw [mem_filter] at hw
    simp only [mem_union, mem_filter]
    by_cases hd : w + d ∈ box L
    · exact Or.inl ⟨hw.1, hw.2, hd⟩
    · exact Or.inr ⟨hw.1, hd⟩
  have h2 : ((box L).filter fun w => test (f w) ∧ w + d ∈ box L).card ≤ ((box L).filter fun w => test (g w)).card := by
    refine card_le_card_of_injOn (fun w => w + d) ?_ (fun a _ b _ hab => add_right_cancel hab)
    intro w hw
    simp only [coe_filter, Set.mem_setOf_eq] at hw ⊢
    exact ⟨hw.2.2, by rw [← h]; exact hw.2.1⟩
  have h3 : ((box L).filter fun w => ¬ w + d ∈ box L).card = (box L).card - overlap L d := by
    rw [← card_stay L d]
    have := card_filter_add_card_filter_not (s := box L) (fun w => w + d ∈ box L)
    omega
  calc _ ≤ _ := card_le_card h1
    _ ≤ _ := card_union_le _ _
    _ ≤ _ := by rw [h3]; omega

/-- If different coins give different outcomes, some test reaches that number. -/
theorem passes_reached (L d : ι → Int) (f g : (ι → Int) → β) (h : ∀ w, f w = g (w + d)) (hg : Function.Injective g) :
    ∃ test : β → Prop, passes (box L) f test = passes (box L) g test + ((box L).card - overlap L d) := by
  classical
  refine ⟨fun o => ¬ ∃ w ∈ box L, g w = o, ?_⟩
  have h0 : passes (box L) g (fun o => ¬ ∃ w ∈ box L, g w = o) = 0 := by
    unfold passes
    refine card_eq_zero.2 (Finset.ext fun w => ?_)
    simp only [mem_filter, notMem_empty, iff_false]
    exact fun h => h.2 ⟨w, h.1, rfl⟩
  have h1 : passes (box L) f (fun o => ¬ ∃ w ∈ box L, g w = o) = ((box L).filter fun w => ¬ w + d ∈ box L).card := by
    unfold passes
    refine congrArg card (Finset.ext fun w => ?_)
    simp only [mem_filter]
    refine and_congr_right fun _ => not_congr ⟨?_, fun hd => ⟨w + d, hd, (h w).symm⟩⟩
    rintro ⟨w', hw', e⟩
    rw [h] at e
    rw [← hg e]; exact hw'
  rw [h0, h1, ← card_stay L d]
  have := card_filter_add_card_filter_not (s := box L) (fun w => w + d ∈ box L)
  omega

/-- One coordinate bounds the overlap. -/
theorem overlap_mul_le (L d : ι → Int) (i : ι) :
    overlap L d * (L i + 1).toNat ≤ (box L).card * (L i + 1 - |d i|).toNat := by
  rw [card_box]
  unfold overlap
  rw [← mul_prod_erase univ (fun i => (L i + 1 - |d i|).toNat) (mem_univ i),
    ← mul_prod_erase univ (fun i => (L i + 1).toNat) (mem_univ i)]
  have : ∏ j ∈ univ.erase i, (L j + 1 - |d j|).toNat ≤ ∏ j ∈ univ.erase i, (L j + 1).toNat :=
    prod_le_prod' fun j _ => by have := abs_nonneg (d j); omega
  calc _ = (L i + 1).toNat * (L i + 1 - |d i|).toNat * ∏ j ∈ univ.erase i, (L j + 1 - |d j|).toNat := by ring
    _ ≤ (L i + 1).toNat * (L i + 1 - |d i|).toNat * ∏ j ∈ univ.erase i, (L j + 1).toNat := Nat.mul_le_mul_left _ this
    _ = _ := by ring

/-- The points that leave the box are at most the sum over the coordinates. -/
theorem outside_le (L d : ι → Int) (K : Nat) (hL : ∀ i, 0 ≤ L i) (c : ι → Nat)
    (hd : ∀ i, |d i| * K ≤ c i * (L i + 1)) :
    ((box L).card - overlap L d) * K ≤ (∑ i, c i) * (box L).card := by
  classical
  have h3 : ((box L).filter fun w => ¬ w + d ∈ box L).card = (box L).card - overlap L d := by
    rw [← card_stay L d]
    have := card_filter_add_card_filter_not (s := box L) (fun w => w + d ∈ box L)
    omega
  have h4 : ((box L).filter fun w => ¬ w + d ∈ box L) ⊆
      univ.biUnion fun i => (box L).filter fun w => ¬ (0 ≤ w i + d i ∧ w i + d i ≤ L i) := by
    intro w hw
    simp only [mem_filter, mem_biUnion, mem_univ, true_and] at hw ⊢
    by_contra hn
    push Not at hn
    exact hw.2 ((mem_box _ _).2 fun i => by
      have := hn i hw.1
      simp only [Pi.add_apply]
      omega)
  have h5 : ∀ i, ((box L).filter fun w => ¬ (0 ≤ w i + d i ∧ w i + d i ≤ L i)).card * K ≤ c i * (box L).card := by
    intro i
    let e : ι → Int := fun j => if j = i then d i else 0
    have e1 : ((box L).filter fun w => 0 ≤ w i + d i ∧ w i + d i ≤ L i) = (box L).filter fun w => w + e ∈ box L := by
      refine filter_congr fun w hw => ?_
      rw [mem_box] at hw ⊢
      constructor
      · intro h j
        by_cases hj : j = i
        · subst hj; simpa [e] using h
        · simpa [e, hj] using hw j
      · intro h; simpa [e] using h i
    have e2 := card_filter_add_card_filter_not (s := box L) (fun w => 0 ≤ w i + d i ∧ w i + d i ≤ L i)
    rw [e1, card_stay] at e2
    have e3 : overlap L e = (L i + 1 - |d i|).toNat * ∏ j ∈ univ.erase i, (L j + 1).toNat := by
      unfold overlap
      rw [← mul_prod_erase univ _ (mem_univ i)]
      congr 1
      · simp [e]
      · refine prod_congr rfl fun j hj => ?_
        simp [e, (mem_erase.1 hj).1]
    have e4 : (box L).card = (L i + 1).toNat * ∏ j ∈ univ.erase i, (L j + 1).toNat := by
      rw [card_box, ← mul_prod_erase univ _ (mem_univ i)]
    rw [e3, e4] at e2
    rw [e4]
    generalize ∏ j ∈ univ.erase i, (L j + 1).toNat = R at e2 ⊢
    generalize ((box L).filter fun w => ¬ (0 ≤ w i + d i ∧ w i + d i ≤ L i)).card = X at e2 ⊢
    have hLi := hL i
    have hdi := hd i
    obtain ⟨a, ha⟩ := Int.eq_ofNat_of_zero_le (abs_nonneg (d i))
    obtain ⟨l, hl⟩ := Int.eq_ofNat_of_zero_le hLi
    rw [ha, hl] at hdi e2
    rw [hl]
    have t1 : ((l : Int) + 1).toNat = l + 1 := by omega
    have t2 : ((l : Int) + 1 - a).toNat = l + 1 - a := by omega
    rw [t1, t2] at e2
    rw [t1]
    have hdi' : a * K ≤ c i * (l + 1) := by exact_mod_cast hdi
    have hX : X ≤ a * R := by
      rcases le_total a (l + 1) with h | h
      · have : (l + 1 - a) * R + a * R = (l + 1) * R := by rw [← add_mul, Nat.sub_add_cancel h]
        omega
      · have : l + 1 - a = 0 := by omega
        rw [this, zero_mul, zero_add] at e2
        rw [e2]; exact Nat.mul_le_mul_right _ h
    calc X * K ≤ a * R * K := Nat.mul_le_mul_right _ hX
      _ = a * K * R := by ring
      _ ≤ c i * (l + 1) * R := Nat.mul_le_mul_right _ hdi'
      _ = _ := by ring
  rw [← h3, sum_mul]
  calc _ ≤ (∑ i, ((box L).filter fun w => ¬ (0 ≤ w i + d i ∧ w i + d i ≤ L i)).card) * K :=
        Nat.mul_le_mul_right _ ((card_le_card h4).trans card_biUnion_le)
    _ = ∑ i, ((box L).filter fun w => ¬ (0 ≤ w i + d i ∧ w i + d i ≤ L i)).card * K := by rw [sum_mul]
    _ ≤ _ := sum_le_sum fun i _ => h5 i

/-- Outcomes that agree after a small move of the coins are close. -/
theorem close_of_move (L d : ι → Int) (f g : (ι → Int) → β) (h : ∀ w, f w = g (w + d)) (K : Nat) (hL : ∀ i, 0 ≤ L i)
    (hd : ∀ i, |d i| * (K * Fintype.card ι : Nat) ≤ L i + 1) : Close K (box L) f g := by
  intro test
  have h' : ∀ w, g w = f (w + -d) := fun w => by rw [h, neg_add_cancel_right]
  have e1 := passes_move L d f g h test
  have e2 := passes_move L (-d) g f h' test
  rw [overlap_neg] at e2
  have e3 := outside_le L d (K * Fintype.card ι) hL (fun _ => 1) (fun i => by simpa using hd i)
  have e4 : ((box L).card - overlap L d) * K ≤ (box L).card := by
    rcases Nat.eq_zero_or_pos (Fintype.card ι) with h0 | h0
    · have : IsEmpty ι := Fintype.card_eq_zero_iff.1 h0
      have : overlap L d = (box L).card := by
        rw [card_box]; unfold overlap; simp
      rw [this, Nat.sub_self, Nat.zero_mul]; exact Nat.zero_le _
    · refine Nat.le_of_mul_le_mul_right ?_ h0
      rw [mul_assoc]
      refine e3.trans (le_of_eq ?_)
      simp [mul_comm]
  constructor <;> nlinarith

/-- A smaller box on which the test holds. -/
theorem passes_ge {α : Type} (coins small : Finset α) (f : α → β) (test : β → Prop) (hs : small ⊆ coins)
    (h : ∀ w ∈ small, test (f w)) : small.card ≤ passes coins f test := by
  classical
  unfold passes
  exact card_le_card fun w hw => mem_filter.2 ⟨hs hw, h w hw⟩

theorem passes_eq_zero {α : Type} (coins : Finset α) (f : α → β) (test : β → Prop) (h : ∀ w ∈ coins, ¬ test (f w)) :
    passes coins f test = 0 := by
  classical
  unfold passes
  exact card_eq_zero.2 (filter_eq_empty_iff.2 fun w hw => h w hw)

/-- A box that is cut in one coordinate. -/
theorem card_box_cut (L : ι → Int) (i : ι) (e : Int) :
    (box (Function.update L i (e - 1))).card * (L i + 1).toNat = (box L).card * e.toNat := by
  rw [card_box, card_box, ← mul_prod_erase univ _ (mem_univ i), ← mul_prod_erase univ (fun i => (L i + 1).toNat) (mem_univ i)]
  have : ∏ j ∈ univ.erase i, (Function.update L i (e - 1) j + 1).toNat = ∏ j ∈ univ.erase i, (L j + 1).toNat :=
    prod_congr rfl fun j hj => by rw [Function.update_of_ne (ne_of_mem_erase hj)]
  rw [this, Function.update_self, sub_add_cancel]
  ring

theorem box_cut_subset (L : ι → Int) (i : ι) (e : Int) (h : e ≤ L i + 1) : box (Function.update L i (e - 1)) ⊆ box L := by
  intro w hw
  rw [mem_box] at hw ⊢
  intro j
  have := hw j
  by_cases hj : j = i
  · subst hj
    rw [Function.update_self] at this
    omega
  · rwa [Function.update_of_ne hj] at this

end Verif.Lemmas
