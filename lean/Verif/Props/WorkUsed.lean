import Verif.Props.WorkParallel
import Verif.Props.SharedVerifier

/-!
# Property C115: the recorded exponents are enough

The bounds of C115 are upper bounds on the recorded exponents. Here: the record is not too short. Each witness is a power of the base
whose exponent, the product of the other elements, is a product of recorded exponents.
-/

namespace Verif.Props
open Verif.Go Verif.Model Verif.Spec Verif.Lemmas

/-- For each element, `r` times the product of the other elements is a product of entries of `es`. -/
def Reached (r : Nat) (set es : List Nat) : Prop :=
  ∀ i < set.length, ∃ sub : List Nat, sub.Sublist es ∧ sub.prod = r * (set.eraseIdx i).prod

theorem Reached.mono {r : Nat} {set es es' : List Nat} (h : Reached r set es) (hs : es.Sublist es') : Reached r set es' :=
  fun i hi => let ⟨sub, h1, h2⟩ := h i hi; ⟨sub, h1.trans hs, h2⟩

theorem Reached.cons {r : Nat} {set es : List Nat} (h : Reached 1 set es) : Reached r set (r :: es) := by
  intro i hi
  obtain ⟨sub, h1, h2⟩ := h i hi
  exact ⟨r :: sub, h1.cons_cons r, by rw [List.prod_cons, h2, Nat.one_mul]⟩

theorem Reached.append {r : Nat} {A B es : List Nat} (ha : Reached (r * B.prod) A es) (hb : Reached (r * A.prod) B es) :
    Reached r (A ++ B) es := by
  intro i hi
  by_cases h : i < A.length
  · obtain ⟨sub, h1, h2⟩ := ha i h
    refine ⟨sub, h1, ?_⟩
    rw [h2, List.eraseIdx_append_of_lt_length h, List.prod_append]
    ring
  · rw [List.length_append] at hi
    obtain ⟨sub, h1, h2⟩ := hb (i - A.length) (by omega)
    refine ⟨sub, h1, ?_⟩
    rw [h2, List.eraseIdx_append_of_length_le (by omega), List.prod_append]
    ring

theorem cons_sub {e : Nat} {E l L : List Nat} (he : e ∈ E) (hl : l.Sublist L) : (e :: l).Sublist (E ++ L) :=
  (List.singleton_sublist.2 he).append hl

theorem reached_small (base N : Nat) (set ps es : List Nat) (h : handleSmallSetL base N set = .ok (ps, es)) :
    Reached 1 set es := by
  have one : ∀ {l : List Nat} {e v : Nat}, e ∈ l → e = 1 * v → ∃ sub : List Nat, sub.Sublist l ∧ sub.prod = 1 * v :=
    fun {l e v} hm he => ⟨[e], List.singleton_sublist.2 hm, by rw [List.prod_singleton, he]⟩
  match set, h with
  | [x0], h =>
    intro i hi
    obtain rfl : i = 0 := by simpa using hi
    exact ⟨[], List.nil_sublist _, by simp⟩
  | [x0, x1], h =>
    obtain ⟨-, rfl⟩ := Prod.mk.inj (Except.ok.inj h)
    intro i hi
    match i, hi with
    | 0, _ => exact one (e := x1) (by simp) (by simp)
    | 1, _ => exact one (e := x0) (by simp) (by simp)
  | [x0, x1, x2], h =>
    obtain ⟨-, rfl⟩ := Prod.mk.inj (Except.ok.inj h)
    intro i hi
    match i, hi with
    | 0, _ => exact one (e := x1 * x2) (by simp) (by simp)
    | 1, _ => exact one (e := x0 * x2) (by simp) (by simp)
    | 2, _ => exact one (e := x0 * x1) (by simp) (by simp)
  | [x0, x1, x2, x3], h =>
    obtain ⟨-, rfl⟩ := Prod.mk.inj (Except.ok.inj h)
    intro i hi
    match i, hi with
    | 0, _ => exact one (e := x2 * x3 * x1) (by simp) (by simp; ring)
    | 1, _ => exact one (e := x2 * x3 * x0) (by simp) (by simp; ring)
    | 2, _ => exact one (e := x0 * x1 * x3) (by simp) (by simp; ring)
    | 3, _ => exact one (e := x0 * x1 * x2) (by simp) (by simp; ring)

/-- The four exponents at a cut into quarters. -/
theorem reached_four (set : List Nat) (l0 l1 l2 l3 : List Nat)
    (h0 : Reached 1 (slice set 0 (set.length / 4)) l0)
    (h1 : Reached 1 (slice set (set.length / 4) (set.length / 2)) l1)
    (h2 : Reached 1 (slice set (set.length / 2) (set.length * 3 / 4)) l2)
    (h3 : Reached 1 (slice set (set.length * 3 / 4) set.length) l3) :
    Reached 1 set ([(fourExponents 1 set).1, (fourExponents 1 set).2.1, (fourExponents 1 set).2.2.1,
      (fourExponents 1 set).2.2.2] ++ l0 ++ l1 ++ l2 ++ l3) := by
  have hq := slice_quarters set
  have hr := slice_append_mid set 0 (set.length / 4) (set.length / 2) (by omega) (by omega)
  have hl := slice_append_mid set (set.length / 2) (set.length * 3 / 4) set.length (by omega) (by omega)
  simp only [fourExponents, setProductRecursiveFast_eq, ← hr, ← hl, List.prod_append, Nat.mul_one]
  generalize slice set 0 (set.length / 4) = A at *
  generalize slice set (set.length / 4) (set.length / 2) = B at *
  generalize slice set (set.length / 2) (set.length * 3 / 4) = C at *
  generalize slice set (set.length * 3 / 4) set.length = D at *
  rw [← hq]
  have flat : ∀ L : List Nat, L ++ l0 ++ l1 ++ l2 ++ l3 = L ++ (l0 ++ (l1 ++ (l2 ++ l3))) := fun L => by simp only [List.append_assoc]
  rw [flat]
  refine .append (.append ?_ ?_) (.append ?_ ?_)
  · rw [show 1 * (C ++ D).prod * B.prod = C.prod * D.prod * B.prod by rw [List.prod_append, Nat.one_mul]]
    exact h0.cons.mono (cons_sub (by simp) (List.sublist_append_left _ _))
  · rw [show 1 * (C ++ D).prod * A.prod = C.prod * D.prod * A.prod by rw [List.prod_append, Nat.one_mul]]
    exact h1.cons.mono (cons_sub (by simp) ((List.sublist_append_left _ _).trans (List.sublist_append_right _ _)))
  · rw [show 1 * (A ++ B).prod * D.prod = A.prod * B.prod * D.prod by rw [List.prod_append, Nat.one_mul]]
    exact h2.cons.mono (cons_sub (by simp) ((List.sublist_append_left _ _).trans ((List.sublist_append_right _ _).trans (List.sublist_append_right _ _))))
  · rw [show 1 * (A ++ B).prod * C.prod = A.prod * B.prod * C.prod by rw [List.prod_append, Nat.one_mul]]
    exact h3.cons.mono (cons_sub (by simp) ((List.sublist_append_right _ _).trans ((List.sublist_append_right _ _).trans (List.sublist_append_right _ _))))

theorem reached_seq (base N : Nat) (set ps es : List Nat) (h : proveMembershipL base N set = .ok (ps, es)) :
    Reached 1 set es := by
  induction hn : set.length using Nat.strong_induction_on generalizing base set ps es with
  | _ n ih =>
    unfold proveMembershipL at h
    split at h
    · exact reached_small base N set ps es h
    · rename_i h4
      simp only at h
      obtain ⟨p0, a0, h⟩ := (res_bind_ok_iff _ _ _).1 h
      obtain ⟨p1, a1, h⟩ := (res_bind_ok_iff _ _ _).1 h
      obtain ⟨p2, a2, h⟩ := (res_bind_ok_iff _ _ _).1 h
      obtain ⟨p3, a3, h⟩ := (res_bind_ok_iff _ _ _).1 h
      obtain ⟨-, rfl⟩ := Prod.mk.inj (Except.ok.inj h)
      have hs : ∀ a b, b - a < n → b ≤ set.length → (slice set a b).length < n :=
        fun a b h1 h2 => by rw [slice_length set a b h2]; exact h1
      exact reached_four set _ _ _ _ (ih _ (hs _ _ (by omega) (by omega)) _ _ _ _ a0 rfl)
        (ih _ (hs _ _ (by omega) (by omega)) _ _ _ _ a1 rfl) (ih _ (hs _ _ (by omega) (by omega)) _ _ _ _ a2 rfl)
        (ih _ (hs _ _ (by omega) (by omega)) _ _ _ _ a3 rfl)

theorem reached_chan (base N : Nat) (set : List Nat) (limit : Int) (ps es : List Nat)
    (h : (proveMembershipWithChanL base N set limit).eval = .ok (ps, es)) : Reached 1 set es := by
  induction hn : set.length using Nat.strong_induction_on generalizing base set limit ps es with
  | _ n ih =>
    unfold proveMembershipWithChanL at h
    split at h
    · exact reached_seq base N set ps es h
    split at h
    · exact reached_small base N set ps es h
    · rename_i h4
      simp only at h
      rw [eval_fork2] at h
      obtain ⟨p0, a0, h⟩ := (res_bind_ok_iff _ _ _).1 h
      obtain ⟨p1, a1, h⟩ := (res_bind_ok_iff _ _ _).1 h
      rw [appendAllL_two] at h
      obtain ⟨-, rfl⟩ := Prod.mk.inj (Except.ok.inj h)
      have hs : ∀ a b, b - a < n → b ≤ set.length → (slice set a b).length < n :=
        fun a b h1 h2 => by rw [slice_length set a b h2]; exact h1
      have r0 := ih _ (hs _ _ (by omega) (by omega)) _ _ _ _ _ a0 rfl
      have r1 := ih _ (hs _ _ (by omega) (by omega)) _ _ _ _ _ a1 rfl
      have hh := slice_halves set
      simp only [setProductRecursiveFast_eq]
      generalize slice set 0 (set.length / 2) = A at *
      generalize slice set (set.length / 2) set.length = B at *
      rw [← hh, List.append_assoc]
      refine .append ?_ ?_
      · rw [Nat.one_mul]
        exact r0.cons.mono (cons_sub (by simp) (List.sublist_append_left _ _))
      · rw [Nat.one_mul]
        exact r1.cons.mono (cons_sub (by simp) (List.sublist_append_right _ _))

theorem reached_parallel (base N : Nat) (set : List Nat) (limit : Int) (ps es : List Nat)
    (h : (proveMembershipParallelL base N set limit).eval = .ok (ps, es)) : Reached 1 set es := by
  unfold proveMembershipParallelL at h
  split at h
  · exact reached_seq base N set ps es h
  split at h
  · exact reached_small base N set ps es h
  · rename_i h4
    simp only at h
    obtain ⟨got, hm, h⟩ := (res_bind_ok_iff _ _ _).1 h
    obtain ⟨hlen, hg⟩ := (finRange_mapM_ok_iff 4 _ got).1 hm
    match got, hlen with
    | [p0, p1, p2, p3], hlen =>
      have a0 := hg 0
      have a1 := hg 1
      have a2 := hg 2
      have a3 := hg 3
      obtain ⟨-, rfl⟩ := Prod.mk.inj (Except.ok.inj h)
      exact reached_four set _ _ _ _ (reached_chan _ _ _ _ _ _ a0) (reached_chan _ _ _ _ _ _ a1)
        (reached_chan _ _ _ _ _ _ a2) (reached_chan _ _ _ _ _ _ a3)

/-- C115: the exponents that `ProveMembership` and `ProveMembershipParallel` record are enough for their witnesses: witness `i` is
the power of the base with a product of recorded exponents, and this product is the product of the other elements. -/
theorem C115_enough (base N : Nat) (set : List Nat) (limit : Int) (h2 : 2 ≤ set.length) :
    (∃ ps es, proveMembershipL base N set = .ok (ps, es) ∧ ∀ i < set.length, ∃ sub : List Nat, sub.Sublist es ∧
      sub.prod = (set.eraseIdx i).prod ∧ ps[i]? = some (base ^ sub.prod % N)) ∧
    (∃ ps es, AlwaysGives (proveMembershipParallelL base N set limit) (.ok (ps, es)) ∧
      ∀ i < set.length, ∃ sub : List Nat, sub.Sublist es ∧ sub.prod = (set.eraseIdx i).prod ∧
        ps[i]? = some (base ^ sub.prod % N)) := by
  have h0 : set ≠ [] := by rintro rfl; simp at h2
  obtain ⟨B, hB⟩ : ∃ B, ∀ x ∈ set, x.size ≤ B :=
    ⟨(set.map Nat.size).sum, fun x hx => List.single_le_sum (by simp) _ (List.mem_map_of_mem hx)⟩
  have key : ∀ (ps es : List Nat), Reached 1 set es → ps = witnesses base N set → ∀ i < set.length, ∃ sub : List Nat,
      sub.Sublist es ∧ sub.prod = (set.eraseIdx i).prod ∧ ps[i]? = some (base ^ sub.prod % N) := by
    rintro ps es hr rfl i hi
    obtain ⟨sub, h1, h2⟩ := hr i hi
    rw [Nat.one_mul] at h2
    refine ⟨sub, h1, h2, ?_⟩
    rw [h2]
    simp [witnesses, witness, allBut, hi]
  constructor
  · obtain ⟨ps, es, h1, h3, -⟩ := (C115_holds base N B set h0 hB).1
    refine ⟨ps, es, h1, key ps es (reached_seq base N set ps es h1) ?_⟩
    rw [proveMembership_eq base N set (by omega) (.inr h2)] at h3
    exact (Except.ok.inj h3).symm
  · obtain ⟨ps, es, h1, h3, -⟩ := parallelL_bound base N B set limit h0 hB _ (Nat.le_pow_clog (by omega) _)
    refine ⟨ps, es, h1 ▸ alwaysGives_eval _, key ps es (reached_parallel base N set limit ps es h1) ?_⟩
    rw [parallel_eval base N set limit (by omega) (.inr h2)] at h3
    exact (Except.ok.inj h3).symm

/-- Three elements: the exponents are the three products of two of them. -/
example : ∃ ps es, proveMembershipL 2 35 [3, 5, 7] = .ok (ps, es) ∧ es = [35, 21, 15] ∧ Reached 1 [3, 5, 7] es :=
  have h : proveMembershipL 2 35 [3, 5, 7] = .ok ([18, 22, 8], [35, 21, 15]) := by
    unfold proveMembershipL
    decide +kernel
  ⟨_, _, h, rfl, reached_seq _ _ _ _ _ h⟩

end Verif.Props
