import Verif.Lemmas.Hiding
import Verif.Lemmas.Periodic

/-! # Counting with outcomes that are periodic in every coin -/

namespace Verif.Lemmas
open Finset Verif.Spec

variable {β : Type}

/-- Moving by `d` permutes the period. -/
theorem passes_shifted (F : Int → β) (m : Nat) (hm : 0 < m) (hF : ∀ r : Int, F (r % m) = F r) (d : Int) (test : β → Prop) :
    passes (range m) (fun r => F (r + d)) test = passes (range m) (fun r => F r) test := by
  classical
  have hm0 : (m : Int) ≠ 0 := by omega
  have hmp : (0 : Int) < m := by omega
  unfold passes
  refine card_bij (fun r _ => (((r : Int) + d) % m).toNat) ?_ ?_ ?_
  · intro r hr
    simp only [mem_filter, mem_range] at hr ⊢
    have h1 := Int.emod_nonneg ((r : Int) + d) hm0
    have h2 := Int.emod_lt_of_pos ((r : Int) + d) hmp
    refine ⟨by omega, ?_⟩
    rw [Int.toNat_of_nonneg h1, hF]
    exact hr.2
  · intro a ha b hb hab
    simp only [mem_filter, mem_range] at ha hb
    have h1 := Int.emod_nonneg ((a : Int) + d) hm0
    have h2 := Int.emod_nonneg ((b : Int) + d) hm0
    have h3 : ((a : Int) + d) % m = ((b : Int) + d) % m := by omega
    have h4 : (a : Int) % m = (b : Int) % m := Int.ModEq.add_right_cancel' d h3
    rw [Int.emod_eq_of_lt (by omega) (by omega), Int.emod_eq_of_lt (by omega) (by omega)] at h4
    omega
  · intro y hy
    simp only [mem_filter, mem_range] at hy
    have h1 := Int.emod_nonneg ((y : Int) - d) hm0
    have h2 := Int.emod_lt_of_pos ((y : Int) - d) hmp
    have h3 : ((((y : Int) - d) % m).toNat + d) % m = (y : Int) := by
      rw [Int.toNat_of_nonneg h1, Int.emod_add_emod, sub_add_cancel]
      exact Int.emod_eq_of_lt (by omega) (by omega)
    refine ⟨(((y : Int) - d) % m).toNat, ?_, by rw [h3]; rfl⟩
    simp only [mem_filter, mem_range]
    refine ⟨by omega, ?_⟩
    rw [← hF, h3]
    exact hy.2

theorem periodic_mod (F : Int → β) (m : Nat) (hF : ∀ r : Int, F (r + m) = F r) (r : Int) : F (r % m) = F r := by
  have h1 : ∀ (n : Nat) (r : Int), F (r + m * n) = F r := by
    intro n
    induction n with
    | zero => intro r; simp
    | succ n ih =>
      intro r
      rw [show r + m * ((n + 1 : Nat) : Int) = r + m * n + m by push_cast; ring, hF, ih]
  have h2 := Int.emod_add_mul_ediv r m
  rcases le_or_gt 0 (r / m) with h | h
  · obtain ⟨n, hn⟩ := Int.eq_ofNat_of_zero_le h
    conv_rhs => rw [← h2, hn]
    exact (h1 n _).symm
  · obtain ⟨n, hn⟩ := Int.eq_ofNat_of_zero_le (show 0 ≤ -(r / m) by omega)
    rw [show r % m = r + m * (n : Int) by rw [← hn]; linarith]
    exact h1 n r

variable {ι : Type} [Fintype ι] [DecidableEq ι]

/-- Counting along one coordinate. -/
theorem passes_coord (L : ι → Int) (hL : ∀ i, 0 ≤ L i) (i : ι) (f : (ι → Int) → β) (test : β → Prop) :
    passes (box L) f test =
      ∑ v ∈ box (Function.update L i 0), passes (range (L i + 1).toNat) (fun t => f (Function.update v i t)) test := by
  classical
  unfold passes
  have hmap : ∀ w ∈ (box L).filter (fun w => test (f w)), Function.update w i 0 ∈ box (Function.update L i 0) := by
    intro w hw
    rw [mem_filter, mem_box] at hw
    rw [mem_box]
    intro j
    by_cases hj : j = i
    · subst hj; simp
    · simpa [hj] using hw.1 j
  rw [card_eq_sum_card_fiberwise hmap]
  refine sum_congr rfl fun v hv => ?_
  rw [mem_box] at hv
  have hvi : v i = 0 := by
    have := hv i
    simp only [Function.update_self] at this
    omega
  symm
  refine card_bij (fun t _ => Function.update v i (t : Int)) ?_ ?_ ?_
  · intro t ht
    simp only [mem_filter, mem_range] at ht ⊢
    refine ⟨⟨(mem_box _ _).2 fun j => ?_, ht.2⟩, ?_⟩
    · by_cases hj : j = i
      · subst hj
        have := hL j
        simp only [Function.update_self]
        omega
      · have := hv j
        simpa [hj] using this
    · rw [Function.update_idem, ← hvi, Function.update_eq_self]
  · intro a _ b _ hab
    have := congrFun hab i
    simp only [Function.update_self] at this
    exact_mod_cast this
  · intro w hw
    simp only [mem_filter] at hw
    have h1 := (mem_box _ _).1 hw.1.1 i
    have h2 : Function.update v i (((w i).toNat : Nat) : Int) = w := by
      rw [← hw.2, Function.update_idem, Int.toNat_of_nonneg h1.1, Function.update_eq_self]
    refine ⟨(w i).toNat, ?_, h2⟩
    simp only [mem_filter, mem_range]
    refine ⟨by omega, ?_⟩
    rw [h2]
    exact hw.1.2

theorem card_box_coord (L : ι → Int) (i : ι) :
    (box (Function.update L i 0)).card * (L i + 1).toNat = (box L).card := by
  rw [card_box, card_box, ← mul_prod_erase univ _ (mem_univ i), ← mul_prod_erase univ (fun j => (L j + 1).toNat) (mem_univ i)]
  have : ∏ j ∈ univ.erase i, (Function.update L i 0 j + 1).toNat = ∏ j ∈ univ.erase i, (L j + 1).toNat :=
    prod_congr rfl fun j hj => by rw [Function.update_of_ne (mem_erase.1 hj).1]
  rw [this, Function.update_self]
  simp
  ring

/-- What is lost by the last, incomplete period. -/
def slack (L : Int) (m : Nat) : Nat := min ((L + 1).toNat % m) (m - (L + 1).toNat % m)

/-- Moving one coin. -/
theorem passes_move_coord (L : ι → Int) (hL : ∀ i, 0 ≤ L i) (i : ι) (f : (ι → Int) → β) (m : Nat) (hm : 0 < m)
    (hf : ∀ w, f (Function.update w i (w i + m)) = f w) (d : Int) (test : β → Prop) :
    passes (box L) (fun w => f (Function.update w i (w i + d))) test ≤
      passes (box L) f test + (box (Function.update L i 0)).card * slack (L i) m := by
  rw [passes_coord L hL i, passes_coord L hL i]
  have key : ∀ v : ι → Int, passes (range (L i + 1).toNat)
        (fun t => f (Function.update (Function.update v i (t : Int)) i ((Function.update v i (t : Int)) i + d))) test ≤
      passes (range (L i + 1).toNat) (fun t => f (Function.update v i (t : Int))) test + slack (L i) m := by
    intro v
    simp only [Function.update_idem, Function.update_self]
    have hF : ∀ r : Int, f (Function.update v i (r + m)) = f (Function.update v i r) := by
      intro r
      have := hf (Function.update v i r)
      simpa only [Function.update_idem, Function.update_self] using this
    have hF' := periodic_mod (fun r : Int => f (Function.update v i r)) m hF
    have h1 := passes_shifted (fun r : Int => f (Function.update v i r)) m hm hF' d test
    refine passes_periodic_le (fun t : Nat => f (Function.update v i ((t : Int) + d)))
      (fun t : Nat => f (Function.update v i (t : Int))) m hm ?_ ?_ test h1 _
    · intro r
      push_cast
      rw [show (r : Int) + m + d = r + d + m by ring, hF]
    · intro r
      push_cast
      rw [hF]
  calc _ ≤ ∑ v ∈ box (Function.update L i 0),
        (passes (range (L i + 1).toNat) (fun t => f (Function.update v i (t : Int))) test + slack (L i) m) :=
        sum_le_sum fun v _ => key v
    _ = _ := by rw [sum_add_distrib, sum_const, smul_eq_mul]

/-- Moving all coins: outcomes that are periodic in every coin hardly change. -/
theorem passes_move_all (L : ι → Int) (hL : ∀ i, 0 ≤ L i) (F : (ι → Int) → β) (m : ι → Nat) (hm : ∀ i, 0 < m i)
    (hF : ∀ i w, F (Function.update w i (w i + m i)) = F w) (K : Nat) (c : ι → Nat)
    (hc : ∀ i, slack (L i) (m i) * K ≤ c i * (L i + 1).toNat) (D : ι → Int) (test : β → Prop) :
    passes (box L) (fun w => F (w + D)) test * K ≤ passes (box L) F test * K + (∑ i, c i) * (box L).card := by
  have main : ∀ s : Finset ι, passes (box L) (fun w => F (w + fun j => if j ∈ s then D j else 0)) test * K ≤
      passes (box L) F test * K + (∑ i ∈ s, c i) * (box L).card := by
    intro s
    induction s using Finset.induction_on with
    | empty =>
      have : (fun w : ι → Int => F (w + fun j => if j ∈ (∅ : Finset ι) then D j else 0)) = F := by
        funext w
        congr 1
        funext j
        simp
      rw [this]
      simp
    | insert i s hi ih =>
      have e : (fun w : ι → Int => F (w + fun j => if j ∈ insert i s then D j else 0)) =
          fun w => (fun w => F (w + fun j => if j ∈ s then D j else 0)) (Function.update w i (w i + D i)) := by
        funext w
        simp only
        congr 1
        funext j
        by_cases hj : j = i
        · subst hj; simp [hi]
        · simp [hj]
      have per : ∀ w, (fun w => F (w + fun j => if j ∈ s then D j else 0)) (Function.update w i (w i + m i)) =
          (fun w => F (w + fun j => if j ∈ s then D j else 0)) w := by
        intro w
        simp only
        have h1 := hF i (w + fun j => if j ∈ s then D j else 0)
        rw [← h1]
        congr 1
        funext j
        by_cases hj : j = i
        · subst hj; simp [hi]
        · simp [hj]
      have h1 := passes_move_coord L hL i (fun w => F (w + fun j => if j ∈ s then D j else 0)) (m i) (hm i) per (D i)
        test
      rw [e, sum_insert hi]
      have h2 : (box (Function.update L i 0)).card * slack (L i) (m i) * K ≤ c i * (box L).card := by
        calc _ = (box (Function.update L i 0)).card * (slack (L i) (m i) * K) := by ring
          _ ≤ (box (Function.update L i 0)).card * (c i * (L i + 1).toNat) := Nat.mul_le_mul_left _ (hc i)
          _ = c i * ((box (Function.update L i 0)).card * (L i + 1).toNat) := by ring
          _ = _ := by rw [card_box_coord]
      have h3 := Nat.mul_le_mul_right K h1
      rw [add_mul] at h3
      rw [add_mul]
      beta_reduce
      omega
  have := main univ
  simpa using this

/-- The same as a statement on the advantage of tests. -/
theorem close_of_periodic (L : ι → Int) (hL : ∀ i, 0 ≤ L i) (F : (ι → Int) → β) (m : ι → Nat) (hm : ∀ i, 0 < m i)
    (hF : ∀ i w, F (Function.update w i (w i + m i)) = F w) (K t : Nat) (ht : 0 < t) (c : ι → Nat) (hct : ∑ i, c i ≤ t)
    (hc : ∀ i, slack (L i) (m i) * (t * K) ≤ c i * (L i + 1).toNat) (D D' : ι → Int) :
    Close K (box L) (fun w => F (w + D)) (fun w => F (w + D')) := by
  have key : ∀ (D D' : ι → Int) (test : β → Prop), passes (box L) (fun w => F (w + D)) test * K ≤
      passes (box L) (fun w => F (w + D')) test * K + (box L).card := by
    intro D D' test
    have per : ∀ i w, (fun w => F (w + D')) (Function.update w i (w i + m i)) = (fun w => F (w + D')) w := by
      intro i w
      simp only
      rw [← hF i (w + D')]
      congr 1
      funext j
      by_cases hj : j = i
      · subst hj; simp; ring
      · simp [hj]
    have h1 := passes_move_all L hL (fun w => F (w + D')) m hm per (t * K) c hc (D - D') test
    have e : (fun w : ι → Int => (fun w => F (w + D')) (w + (D - D'))) = fun w => F (w + D) := by
      funext w
      simp only
      congr 1
      rw [add_assoc, sub_add_cancel]
    rw [e] at h1
    have h2 : (∑ i, c i) * (box L).card ≤ t * (box L).card := Nat.mul_le_mul_right _ hct
    refine Nat.le_of_mul_le_mul_left ?_ ht
    calc _ = passes (box L) (fun w => F (w + D)) test * (t * K) := by ring
      _ ≤ _ := h1
      _ ≤ passes (box L) (fun w => F (w + D')) test * (t * K) + t * (box L).card := Nat.add_le_add_left h2 _
      _ = _ := by ring
  exact fun test => ⟨key D D' test, key D' D test⟩

end Verif.Lemmas
