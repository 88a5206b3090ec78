import Verif.Model.IntGroups
import Mathlib.Data.Multiset.AddSub
import Mathlib.Tactic.Abel
import Mathlib.Tactic.NormNum
import Mathlib.Tactic.Linarith
import Mathlib.Logic.Function.Iterate

/-!
# C113: scaling a group of four numbers

`Mul` and `Div` of `Int4` are described as multiplying and dividing all the four numbers by `n`.
-/

namespace Verif.Props
open Verif.Model Verif.Go

/-- After the call, every number of the group is the old one multiplied by the old `n`. -/
def Scaled (f : Int4Ptr) (n : Nat) (h h' : IntHeap) : Prop := ∀ p ∈ f.toList, h' p = h p * h n

/-- After the call, every number of the group is the (Euclidean) quotient of the old one by the old `n`. -/
def Divided (f : Int4Ptr) (n : Nat) (h h' : IntHeap) : Prop := ∀ p ∈ f.toList, h' p = h p / h n

/-- The calls do what their comments say: `Mul` multiplies all four numbers by `n`, `Div` divides them by `n` and panics
exactly for zero; no other integer is touched. For all groups, all places `n` can be, and all numbers. -/
def C113_statement : Prop := ∀ (f : Int4Ptr) (n : Nat) (h : IntHeap),
  (Scaled f n h (f.mul h n) ∧ ∀ p ∉ f.toList, f.mul h n p = h p) ∧
  (h n ≠ 0 → ∃ h', f.div h n = .ok h' ∧ Divided f n h h' ∧ ∀ p ∉ f.toList, h' p = h p) ∧
  (h n = 0 → (f.div h n).panics)

/-- The four numbers are stored at different places and `n` is not one of the first three of them. -/
def Apart (f : Int4Ptr) (n : Nat) : Prop := f.toList.Nodup ∧ n ∉ [f.p0, f.p1, f.p2]

/-- Each place other than that of `n` is met exactly once before the first place that is that of `n`. -/
def ApartDiv (f : Int4Ptr) (n : Nat) : Prop :=
  ∀ p ∈ f.toList, p ≠ n → (f.toList.takeWhile (fun q => decide (q ≠ n))).count p = 1

theorem mulAt_same (n p : Nat) (h : IntHeap) : mulAt n h p p = h p * h n := by simp [mulAt, IntHeap.write]

theorem mulAt_other (n p q : Nat) (h : IntHeap) (hq : q ≠ p) : mulAt n h p q = h q := by simp [mulAt, IntHeap.write, hq]

theorem mul_untouched (n : Nat) (l : List Nat) (h : IntHeap) (p : Nat) (hp : p ∉ l) : l.foldl (mulAt n) h p = h p := by
  induction l generalizing h with
  | nil => rfl
  | cons a t ih =>
    rw [List.mem_cons, not_or] at hp
    rw [List.foldl_cons, ih _ hp.2, mulAt_other _ _ _ _ hp.1]

theorem mul_right (n : Nat) (l : List Nat) (hl : l.Nodup) (hn : n ∉ l.dropLast) (h : IntHeap) (p : Nat) (hp : p ∈ l) :
    l.foldl (mulAt n) h p = h p * h n := by
  induction l generalizing h with
  | nil => simp at hp
  | cons a t ih =>
    rw [List.foldl_cons]
    rw [List.nodup_cons] at hl
    by_cases ht : t = []
    · subst ht
      simp only [List.mem_cons, List.not_mem_nil, or_false] at hp
      subst hp
      exact mulAt_same _ _ _
    · rw [List.dropLast_cons_of_ne_nil ht, List.mem_cons, not_or] at hn
      rcases List.mem_cons.1 hp with rfl | hpt
      · rw [mul_untouched _ _ _ _ hl.1, mulAt_same]
      · rw [ih hl.2 hn.2 _ hpt, mulAt_other _ _ _ _ hn.1, mulAt_other]
        rintro rfl
        exact hl.1 hpt

theorem mulAt_ge (n a : Nat) (h : IntHeap) (hh : ∀ q, 2 ≤ h q) : ∀ q, 2 ≤ mulAt n h a q := by
  intro q
  by_cases hq : q = a
  · subst hq
    rw [mulAt_same]
    nlinarith [hh q, hh n]
  · rw [mulAt_other _ _ _ _ hq]
    exact hh q

theorem mul_wrong (n : Nat) (l : List Nat) (hl : ¬ (l.Nodup ∧ n ∉ l.dropLast)) (h : IntHeap) (hh : ∀ q, 2 ≤ h q) :
    ∃ p ∈ l, 8 ≤ l.foldl (mulAt n) h p := by
  induction l generalizing h with
  | nil => simp at hl
  | cons a t ih =>
    rw [List.foldl_cons]
    have h1 := mulAt_ge n a h hh
    have ha : 4 ≤ mulAt n h a a := by
      rw [mulAt_same]
      nlinarith [hh a, hh n]
    by_cases hb : t.Nodup ∧ n ∉ t.dropLast
    · by_cases hat : a ∈ t
      · refine ⟨a, List.mem_cons_self, ?_⟩
        rw [mul_right n t hb.1 hb.2 _ a hat]
        nlinarith [h1 n]
      · have hne : t ≠ [] := by
          rintro rfl
          simp at hl
        have hna : n = a := by
          by_contra hna
          refine hl ⟨List.nodup_cons.2 ⟨hat, hb.1⟩, ?_⟩
          rw [List.dropLast_cons_of_ne_nil hne, List.mem_cons, not_or]
          exact ⟨hna, hb.2⟩
        obtain ⟨b, t', rfl⟩ := List.exists_cons_of_ne_nil hne
        refine ⟨b, by simp, ?_⟩
        rw [mul_right n _ hb.1 hb.2 _ b (by simp)]
        subst hna
        nlinarith [h1 b]
    · obtain ⟨p, hp, hge⟩ := ih hb _ h1
      exact ⟨p, List.mem_cons_of_mem _ hp, hge⟩

/-- One round of `Div` without the check. -/
def quoAt (n : Nat) (h : IntHeap) (p : Nat) : IntHeap := h.write p (h p / h n)

theorem quoAt_same (n p : Nat) (h : IntHeap) : quoAt n h p p = h p / h n := by simp [quoAt, IntHeap.write]

theorem quoAt_other (n p q : Nat) (h : IntHeap) (hq : q ≠ p) : quoAt n h p q = h q := by simp [quoAt, IntHeap.write, hq]

theorem quoAt_ne (n p : Nat) (h : IntHeap) (hn : h n ≠ 0) : quoAt n h p n ≠ 0 := by
  by_cases e : n = p
  · subst e
    rw [quoAt_same, Int.ediv_self hn]
    decide
  · rw [quoAt_other _ _ _ _ e]
    exact hn

theorem div_eq (n : Nat) (l : List Nat) (h : IntHeap) (hn : h n ≠ 0) : l.foldlM (divAt n) h = .ok (l.foldl (quoAt n) h) := by
  induction l generalizing h with
  | nil => rfl
  | cons a t ih =>
    rw [List.foldlM_cons, List.foldl_cons, ← ih _ (quoAt_ne n a h hn)]
    unfold divAt
    rw [if_neg hn]
    rfl

theorem div_zero (f : Int4Ptr) (h : IntHeap) (n : Nat) (hn : h n = 0) : (f.div h n).panics := by
  unfold Int4Ptr.div Int4Ptr.toList
  rw [List.foldlM_cons]
  unfold divAt
  rw [if_pos hn]
  rfl

/-- Once `n` is one, nothing changes. -/
theorem quo_one (n : Nat) (l : List Nat) (h : IntHeap) (hn : h n = 1) : l.foldl (quoAt n) h = h := by
  induction l with
  | nil => rfl
  | cons a t ih =>
    have : quoAt n h a = h := by
      funext q
      by_cases e : q = a
      · subst e
        rw [quoAt_same, hn, Int.ediv_one]
      · rw [quoAt_other _ _ _ _ e]
    rw [List.foldl_cons, this, ih]

/-- A place other than that of `n` is divided as often as it is met before the first `n`. -/
theorem quo_count (n : Nat) (l : List Nat) (h : IntHeap) (hn : h n ≠ 0) (p : Nat) (hp : p ≠ n) :
    l.foldl (quoAt n) h p = (fun v => v / h n)^[(l.takeWhile (fun q => decide (q ≠ n))).count p] (h p) := by
  induction l generalizing h with
  | nil => rfl
  | cons a t ih =>
    rw [List.foldl_cons]
    by_cases ha : a = n
    · subst ha
      rw [quo_one a t _ (by rw [quoAt_same, Int.ediv_self hn]), quoAt_other _ _ _ _ hp]
      simp
    · rw [ih _ (quoAt_ne n a h hn), quoAt_other n a n h (Ne.symm ha), List.takeWhile_cons_of_pos (by simpa using ha)]
      by_cases e : p = a
      · subst e
        rw [List.count_cons_self, quoAt_same, Function.iterate_succ_apply]
      · rw [List.count_cons_of_ne (Ne.symm e), quoAt_other _ _ _ _ e]

/-- If the place of `n` is one of the places, one is left there. -/
theorem quo_self (n : Nat) (l : List Nat) (h : IntHeap) (hn : h n ≠ 0) (hl : n ∈ l) : l.foldl (quoAt n) h n = h n / h n := by
  induction l generalizing h with
  | nil => simp at hl
  | cons a t ih =>
    rw [List.foldl_cons]
    by_cases ha : a = n
    · subst ha
      rw [quo_one a t _ (by rw [quoAt_same, Int.ediv_self hn]), quoAt_same]
    · rw [ih _ (quoAt_ne n a h hn) ((List.mem_cons.1 hl).resolve_left (Ne.symm ha)), quoAt_other n a n h (Ne.symm ha)]

theorem quo_untouched (n : Nat) (l : List Nat) (h : IntHeap) (p : Nat) (hp : p ∉ l) : l.foldl (quoAt n) h p = h p := by
  induction l generalizing h with
  | nil => rfl
  | cons a t ih =>
    rw [List.mem_cons, not_or] at hp
    rw [List.foldl_cons, ih _ hp.2, quoAt_other _ _ _ _ hp.1]

theorem iterate_half (k : Nat) (hk : (fun v : Int => v / 2)^[k] 2 = 1) : k = 1 := by
  have h0 : ∀ j, (fun v : Int => v / 2)^[j] 0 = 0 := fun j => Function.iterate_fixed (by decide) j
  match k with
  | 0 => simp at hk
  | 1 => rfl
  | j + 2 =>
    rw [Function.iterate_succ_apply, Function.iterate_succ_apply] at hk
    norm_num at hk
    rw [h0] at hk
    simp at hk

/-- `Mul` is right on all numbers exactly if the four places are different and `n` is not one of the first three. In every
case no other integer is touched. -/
theorem C113_mul_iff (f : Int4Ptr) (n : Nat) :
    ((∀ h, Scaled f n h (f.mul h n)) ↔ Apart f n) ∧ ∀ h, ∀ p ∉ f.toList, f.mul h n p = h p := by
  refine ⟨⟨fun hs => ?_, fun ha h p hp => mul_right n f.toList ha.1 ha.2 h p hp⟩,
    fun h p hp => mul_untouched n f.toList h p hp⟩
  by_contra hb
  obtain ⟨p, hp, h8⟩ := mul_wrong n f.toList hb (fun _ => 2) (fun _ => le_refl _)
  have h4 : f.toList.foldl (mulAt n) (fun _ => 2) p = 2 * 2 := hs (fun _ => 2) p hp
  rw [h4] at h8
  norm_num at h8

/-- `Div` panics exactly for zero, and otherwise is right on all numbers exactly if each place other than that of `n` is met
once before the first place that is that of `n`. In every case no other integer is touched. -/
theorem C113_div_iff (f : Int4Ptr) (n : Nat) :
    ((∀ h, h n ≠ 0 → ∃ h', f.div h n = .ok h' ∧ Divided f n h h') ↔ ApartDiv f n) ∧
    (∀ h, (f.div h n).panics ↔ h n = 0) ∧ ∀ h h', f.div h n = .ok h' → ∀ p ∉ f.toList, h' p = h p := by
  refine ⟨⟨fun hs p hp hpn => ?_, fun ha h hn => ⟨_, div_eq n f.toList h hn, fun p hp => ?_⟩⟩, fun h => ⟨fun hp => ?_, div_zero f h n⟩,
    fun h h' hd p hp => ?_⟩
  · obtain ⟨h', hd, hr⟩ := hs (fun _ => 2) (by decide)
    rw [Int4Ptr.div, div_eq n f.toList _ (by decide)] at hd
    cases hd
    have := hr p hp
    rw [quo_count n _ _ (by decide) p hpn] at this
    exact iterate_half _ this
  · by_cases hpn : p = n
    · subst hpn
      exact quo_self p _ h hn hp
    · rw [quo_count n _ h hn p hpn, ha p hp hpn]
      rfl
  · by_contra hn
    rw [Int4Ptr.div, div_eq n f.toList h hn] at hp
    cases hp
  · by_cases hn : h n = 0
    · have := div_zero f h n hn
      rw [hd] at this
      cases this
    · rw [Int4Ptr.div, div_eq n f.toList h hn] at hd
      cases hd
      exact quo_untouched n _ h p hp

/-- Places apart for `Mul` are apart for `Div`. -/
theorem apart_div (f : Int4Ptr) (n : Nat) (ha : Apart f n) : ApartDiv f n := by
  obtain ⟨p0, p1, p2, p3⟩ := f
  obtain ⟨hd, hn⟩ := ha
  simp only [List.mem_cons, List.not_mem_nil, or_false, not_or] at hn
  obtain ⟨a, b, c⟩ := hn
  have hsub := (List.takeWhile_sublist (fun q => decide (q ≠ n)) (l := [p0, p1, p2, p3])).nodup hd
  intro p hp hpn
  refine List.count_eq_one_of_mem hsub ?_
  simp only [Int4Ptr.toList, List.mem_cons, List.not_mem_nil, or_false] at hp
  change p ∈ List.takeWhile (fun q => decide (q ≠ n)) [p0, p1, p2, p3]
  rw [List.takeWhile_cons_of_pos (by simpa using Ne.symm a), List.takeWhile_cons_of_pos (by simpa using Ne.symm b),
    List.takeWhile_cons_of_pos (by simpa using Ne.symm c)]
  by_cases e : p3 = n
  · rw [List.takeWhile_cons_of_neg (by simpa using e)]
    simp only [List.mem_cons, List.not_mem_nil, or_false]
    rcases hp with rfl | rfl | rfl | rfl
    · simp
    · simp
    · simp
    · exact absurd e hpn
  · rw [List.takeWhile_cons_of_pos (by simpa using e)]
    simpa using hp

/-- With the places apart, the calls on pointers compute the functions on values (`Int4.mul` and `Int4.div` of the model of
`proof/parameters.go`). -/
theorem C113_values_partial (f : Int4Ptr) (n : Nat) (ha : Apart f n) (h : IntHeap) :
    f.read (f.mul h n) = (f.read h).mul (h n) ∧
    (h n = 0 → ((f.read h).div (h n)).panics ∧ (f.div h n).panics) ∧
    (h n ≠ 0 → ∃ h', f.div h n = .ok h' ∧ (f.read h).div (h n) = .ok (f.read h')) := by
  have hm := (C113_mul_iff f n).1.2 ha h
  refine ⟨?_, fun h0 => ⟨?_, div_zero f h n h0⟩, fun h0 => ?_⟩
  · unfold Int4Ptr.read Int4.mul
    rw [hm f.p0 (by simp [Int4Ptr.toList]), hm f.p1 (by simp [Int4Ptr.toList]), hm f.p2 (by simp [Int4Ptr.toList]),
      hm f.p3 (by simp [Int4Ptr.toList])]
  · unfold Int4.div
    rw [if_pos h0]
    rfl
  · obtain ⟨h', hd, hr⟩ := (C113_div_iff f n).1.2 (apart_div f n ha) h h0
    refine ⟨h', hd, ?_⟩
    unfold Int4Ptr.read Int4.div
    rw [if_neg h0, hr f.p0 (by simp [Int4Ptr.toList]), hr f.p1 (by simp [Int4Ptr.toList]),
      hr f.p2 (by simp [Int4Ptr.toList]), hr f.p3 (by simp [Int4Ptr.toList])]

/-- Dividing by what one has multiplied by gives the numbers back. -/
theorem C113_roundtrip_partial (f : Int4Ptr) (n : Nat) (hf : f.toList.Nodup) (hn : n ∉ f.toList) (h : IntHeap) (h0 : h n ≠ 0) :
    ∃ h', f.div (f.mul h n) n = .ok h' ∧ ∀ p, h' p = h p := by
  have ha : Apart f n := ⟨hf, fun hm => hn (by simp only [Int4Ptr.toList, List.mem_cons, List.not_mem_nil, or_false] at hm ⊢; tauto)⟩
  have hmn := (C113_mul_iff f n).2 h n hn
  obtain ⟨h', hd, hr⟩ := (C113_div_iff f n).1.2 (apart_div f n ha) (f.mul h n) (by rw [hmn]; exact h0)
  refine ⟨h', hd, fun p => ?_⟩
  by_cases hp : p ∈ f.toList
  · rw [hr p hp, (C113_mul_iff f n).1.2 ha h p hp, hmn, Int.mul_ediv_cancel _ h0]
  · rw [(C113_div_iff f n).2.2 _ _ hd p hp, (C113_mul_iff f n).2 h p hp]

theorem absAt_same (h : IntHeap) (p : Nat) : absAt h p p = (h p).natAbs := by simp [absAt, IntHeap.write]

theorem absAt_abs (h : IntHeap) (p q : Nat) : ((absAt h p q).natAbs : Int) = (h q).natAbs := by
  unfold absAt IntHeap.write
  split
  · rename_i e
    subst e
    simp
  · rfl

theorem absAt_eq (h : IntHeap) (p q : Nat) (hq : h q = (h q).natAbs) : absAt h p q = h q := by
  unfold absAt IntHeap.write
  split
  · rename_i e
    subst e
    exact hq.symm
  · rfl

/-- What `NewInt4` leaves in memory: the absolute values at the four places, and nothing else changed. -/
theorem newInt4Ptr_heap (h : IntHeap) (w1 w2 w3 w4 q : Nat) :
    (newInt4Ptr h w1 w2 w3 w4).1 q = if q ∈ [w1, w2, w3, w4] then ((h q).natAbs : Int) else h q := by
  change absAt (absAt (absAt (absAt h w1) w2) w3) w4 q = _
  simp only [absAt, IntHeap.write, List.mem_cons, List.not_mem_nil, or_false]
  by_cases a : q = w1 <;> by_cases b : q = w2 <;> by_cases c : q = w3 <;> by_cases d : q = w4 <;> simp_all

/-- The comparison on pointers follows the comparison on values. -/
theorem swapPtr_value (g : IntHeap) (a b c d : Nat) (h : swapPtrIfLess g (a, b) = (c, d)) :
    swapIfLess (g a, g b) = (g c, g d) ∧ ((c = a ∧ d = b) ∨ (c = b ∧ d = a)) := by
  unfold swapPtrIfLess at h
  unfold swapIfLess
  simp only at h ⊢
  split_ifs at h ⊢
  all_goals
    simp only [Prod.mk.injEq] at h
    obtain ⟨rfl, rfl⟩ := h
    simp

/-- `NewInt4` on pointers computes `NewInt4` on values; the group consists of the four pointers of the caller in some order.
So the numbers of the group are those of the caller, and a pointer given twice is in the group twice. -/
theorem C113_newInt4 (h : IntHeap) (w1 w2 w3 w4 : Nat) : let r := newInt4Ptr h w1 w2 w3 w4
    r.2.read r.1 = newInt4 (h w1) (h w2) (h w3) (h w4) ∧ r.2.toList.Perm [w1, w2, w3, w4] ∧
    ∀ q, r.1 q = if q ∈ [w1, w2, w3, w4] then ((h q).natAbs : Int) else h q := by
  have hq := newInt4Ptr_heap h w1 w2 w3 w4
  suffices hs : (newInt4Ptr h w1 w2 w3 w4).2.read (newInt4Ptr h w1 w2 w3 w4).1 = newInt4 (h w1) (h w2) (h w3) (h w4) ∧
      (newInt4Ptr h w1 w2 w3 w4).2.toList.Perm [w1, w2, w3, w4] from ⟨hs.1, hs.2, hq⟩
  have e1 : ((h w1).natAbs : Int) = (newInt4Ptr h w1 w2 w3 w4).1 w1 := by rw [hq, if_pos (by simp)]
  have e2 : ((h w2).natAbs : Int) = (newInt4Ptr h w1 w2 w3 w4).1 w2 := by rw [hq, if_pos (by simp)]
  have e3 : ((h w3).natAbs : Int) = (newInt4Ptr h w1 w2 w3 w4).1 w3 := by rw [hq, if_pos (by simp)]
  have e4 : ((h w4).natAbs : Int) = (newInt4Ptr h w1 w2 w3 w4).1 w4 := by rw [hq, if_pos (by simp)]
  clear hq
  unfold newInt4
  rw [e1, e2, e3, e4]
  clear e1 e2 e3 e4
  unfold newInt4Ptr
  simp only []
  generalize absAt (absAt (absAt (absAt h w1) w2) w3) w4 = g
  rcases k1 : swapPtrIfLess g (w1, w2) with ⟨a1, a2⟩
  rcases k2 : swapPtrIfLess g (a1, w3) with ⟨b1, a3⟩
  rcases k3 : swapPtrIfLess g (b1, w4) with ⟨c1, a4⟩
  rcases k4 : swapPtrIfLess g (a2, a3) with ⟨b2, b3⟩
  rcases k5 : swapPtrIfLess g (b2, a4) with ⟨c2, b4⟩
  rcases k6 : swapPtrIfLess g (b3, b4) with ⟨c3, c4⟩
  have v1 := swapPtr_value _ _ _ _ _ k1
  have v2 := swapPtr_value _ _ _ _ _ k2
  have v3 := swapPtr_value _ _ _ _ _ k3
  have v4 := swapPtr_value _ _ _ _ _ k4
  have v5 := swapPtr_value _ _ _ _ _ k5
  have v6 := swapPtr_value _ _ _ _ _ k6
  simp only [v1.1, v2.1, v3.1, v4.1, v5.1, v6.1]
  refine ⟨rfl, ?_⟩
  have p1 : [a1, a2].Perm [w1, w2] := by rcases v1.2 with ⟨rfl, rfl⟩ | ⟨rfl, rfl⟩ <;> [rfl; exact List.Perm.swap _ _ _]
  have p2 : [b1, a3].Perm [a1, w3] := by rcases v2.2 with ⟨rfl, rfl⟩ | ⟨rfl, rfl⟩ <;> [rfl; exact List.Perm.swap _ _ _]
  have p3 : [c1, a4].Perm [b1, w4] := by rcases v3.2 with ⟨rfl, rfl⟩ | ⟨rfl, rfl⟩ <;> [rfl; exact List.Perm.swap _ _ _]
  have p4 : [b2, b3].Perm [a2, a3] := by rcases v4.2 with ⟨rfl, rfl⟩ | ⟨rfl, rfl⟩ <;> [rfl; exact List.Perm.swap _ _ _]
  have p5 : [c2, b4].Perm [b2, a4] := by rcases v5.2 with ⟨rfl, rfl⟩ | ⟨rfl, rfl⟩ <;> [rfl; exact List.Perm.swap _ _ _]
  have p6 : [c3, c4].Perm [b3, b4] := by rcases v6.2 with ⟨rfl, rfl⟩ | ⟨rfl, rfl⟩ <;> [rfl; exact List.Perm.swap _ _ _]
  simp only [Int4Ptr.toList]
  rw [← Multiset.coe_eq_coe] at *
  simp only [← Multiset.cons_coe, Multiset.coe_nil, Multiset.cons_zero] at *
  simp only [← Multiset.singleton_add] at *
  calc ({c1} + ({c2} + ({c3} + {c4})) : Multiset Nat) = {c1} + ({c2} + ({b3} + {b4})) := by rw [p6]
    _ = {c1} + {b3} + ({c2} + {b4}) := by abel
    _ = {c1} + {b3} + ({b2} + {a4}) := by rw [p5]
    _ = ({c1} + {a4}) + ({b2} + {b3}) := by abel
    _ = ({b1} + {w4}) + ({a2} + {a3}) := by rw [p3, p4]
    _ = ({b1} + {a3}) + {w4} + {a2} := by abel
    _ = ({a1} + {w3}) + {w4} + {a2} := by rw [p2]
    _ = ({a1} + {a2}) + {w3} + {w4} := by abel
    _ = ({w1} + {w2}) + {w3} + {w4} := by rw [p1]
    _ = _ := by abel

/-- `Mul` by the largest number of the group itself squares it first and then multiplies the others by the square: from
`{5, 4, 3, 2}` with `n = f[0]` it makes `{25, 100, 75, 50}`. -/
theorem mul_by_first : (⟨0, 1, 2, 3⟩ : Int4Ptr).read
    ((⟨0, 1, 2, 3⟩ : Int4Ptr).mul (fun p => 5 - p) 0) = ⟨25, 100, 75, 50⟩ := by decide

/-- Violated: `Div` by the first number leaves the other three as they are, `Mul` by it multiplies them by its square, and in
a group holding a number twice under one pointer that number is multiplied twice. -/
theorem C113_violated : ¬ C113_statement := by
  intro h
  have := (h ⟨0, 1, 2, 3⟩ 0 (fun p => 5 - p)).1.1 1 (by decide)
  exact absurd this (by decide)

/-- The other two ways it goes wrong. -/
theorem C113_more : (∃ h', (⟨0, 1, 2, 3⟩ : Int4Ptr).div (fun p => 20 - 5 * p) 0 = .ok h' ∧
      (⟨0, 1, 2, 3⟩ : Int4Ptr).read h' = ⟨1, 15, 10, 5⟩) ∧
    (newInt4Ptr (fun p => p) 3 3 2 1).2.read ((newInt4Ptr (fun p => p) 3 3 2 1).2.mul (newInt4Ptr (fun p => p) 3 3 2 1).1 10)
      = ⟨300, 300, 20, 10⟩ :=
  ⟨⟨_, div_eq 0 _ _ (by decide), by decide⟩, by decide⟩

/-- The hypotheses of the partial theorems are met, also with `n` the last number of the group. -/
example : Apart ⟨0, 1, 2, 3⟩ 3 ∧ Apart ⟨7, 5, 2, 3⟩ 10 := by unfold Apart; decide

/-- `Div` is right on more groups than `Mul`: here `n` is the last two numbers. -/
example : ApartDiv ⟨0, 1, 2, 2⟩ 2 ∧ ¬ Apart ⟨0, 1, 2, 2⟩ 2 := by unfold ApartDiv Apart; decide

end Verif.Props
