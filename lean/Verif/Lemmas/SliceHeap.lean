import Verif.Model.SliceHeap
import Mathlib.Tactic.Common
import Mathlib.Data.List.Basic

/-! # Lemmas about the memory of string slices -/

namespace Verif.Lemmas.SliceHeap
open Verif.Go Verif.Model.SliceHeap

/-- The slice lies inside its array. -/
def Ok (h : Heap) (s : Slice) : Prop :=
  s.len ≤ s.cap ∧ (0 < s.cap → s.arr < h.length ∧ s.off + s.cap ≤ (h.getD s.arr []).length)

/-- The slices do not share an array. -/
def Apart (a b : Slice) : Prop := 0 < a.cap → 0 < b.cap → a.arr ≠ b.arr

theorem Apart.symm {a b : Slice} (h : Apart a b) : Apart b a := fun h1 h2 => (h h2 h1).symm

theorem overwrite_length (a : List Bytes) (i : Nat) (vs : List Bytes) (h : i + vs.length ≤ a.length) :
    (overwrite a i vs).length = a.length := by
  simp [overwrite]; omega

theorem overwrite_nil (a : List Bytes) (i : Nat) : overwrite a i [] = a := by simp [overwrite]

theorem store_length (h : Heap) (arr i : Nat) (vs : List Bytes) : (store h arr i vs).length = h.length := by
  simp [store]

theorem getD_store (h : Heap) (arr i : Nat) (vs : List Bytes) (b : Nat) :
    (store h arr i vs).getD b [] = if arr = b ∧ b < h.length then overwrite (h.getD arr []) i vs else h.getD b [] := by
  unfold store
  rw [List.getD_eq_getElem?_getD, List.getD_eq_getElem?_getD (l := h) (i := b), List.getElem?_set]
  by_cases hb : arr = b
  · subst hb
    by_cases hl : arr < h.length
    · simp [hl]
    · simp [hl]
  · simp [hb]

theorem getD_push (h : Heap) (x : List Bytes) (b : Nat) (hb : b < h.length) : (h ++ [x]).getD b [] = h.getD b [] := by
  rw [List.getD_eq_getElem?_getD, List.getD_eq_getElem?_getD, List.getElem?_append_left hb]

theorem getD_push_new (h : Heap) (x : List Bytes) : (h ++ [x]).getD h.length [] = x := by
  rw [List.getD_eq_getElem?_getD, List.getElem?_append_right (Nat.le_refl _)]; simp

theorem contents_of_cap_zero (h : Heap) (s : Slice) (hok : Ok h s) (hc : s.cap = 0) : contents h s = [] := by
  have : s.len = 0 := by have := hok.1; omega
  simp [contents, this]

theorem contents_length (h : Heap) (s : Slice) (hok : Ok h s) : (contents h s).length = s.len := by
  by_cases hc : s.cap = 0
  · rw [contents_of_cap_zero h s hok hc]
    have := hok.1
    simp; omega
  · have := hok.2 (by omega)
    have h1 := hok.1
    rw [contents, List.length_take, List.length_drop]
    omega

theorem ok_store (h : Heap) (arr i : Nat) (vs : List Bytes) (hl : i + vs.length ≤ (h.getD arr []).length) (t : Slice)
    (ht : Ok h t) : Ok (store h arr i vs) t := by
  refine ⟨ht.1, fun hc => ?_⟩
  obtain ⟨h1, h2⟩ := ht.2 hc
  rw [store_length, getD_store]
  refine ⟨h1, ?_⟩
  split
  · rename_i he; rw [overwrite_length _ _ _ hl, he.1]; exact h2
  · exact h2

theorem ok_push (h : Heap) (x : List Bytes) (t : Slice) (ht : Ok h t) : Ok (h ++ [x]) t := by
  refine ⟨ht.1, fun hc => ?_⟩
  obtain ⟨h1, h2⟩ := ht.2 hc
  rw [getD_push _ _ _ h1]
  exact ⟨by simp; omega, h2⟩

theorem contents_store (h : Heap) (arr i : Nat) (vs : List Bytes) (t : Slice) (ht : Ok h t)
    (hne : 0 < t.cap → arr ≠ t.arr) : contents (store h arr i vs) t = contents h t := by
  by_cases hc : t.cap = 0
  · have : t.len = 0 := by have := ht.1; omega
    simp [contents, this]
  · unfold contents
    rw [getD_store, if_neg (by intro h; exact hne (by omega) h.1)]

theorem contents_push (h : Heap) (x : List Bytes) (t : Slice) (ht : Ok h t) : contents (h ++ [x]) t = contents h t := by
  by_cases hc : t.cap = 0
  · have : t.len = 0 := by have := ht.1; omega
    simp [contents, this]
  · unfold contents
    rw [getD_push _ _ _ (ht.2 (by omega)).1]

theorem store_nil (h : Heap) (arr i : Nat) : store h arr i [] = h := by
  unfold store
  rw [overwrite_nil]
  apply List.ext_getElem?
  intro n
  rw [List.getElem?_set]
  split
  · rename_i he
    subst he
    split
    · rename_i hl
      rw [List.getD_eq_getElem?_getD, List.getElem?_eq_getElem hl]; rfl
    · rename_i hl; rw [List.getElem?_eq_none (by omega)]
  · rfl

/-- What `append` does. -/
structure AppendSpec (h : Heap) (s : Slice) (vs : List Bytes) (r : Heap × Slice) : Prop where
  ok : Ok r.1 r.2
  contents : contents r.1 r.2 = contents h s ++ vs
  others : ∀ t, Ok h t → Ok r.1 t
  same : ∀ t, Ok h t → Apart s t → Verif.Model.SliceHeap.contents r.1 t = Verif.Model.SliceHeap.contents h t
  arr : 0 < r.2.cap → (0 < s.cap ∧ r.2.arr = s.arr) ∨ r.2.arr = h.length

theorem goAppend_spec (h : Heap) (s : Slice) (hs : Ok h s) (vs : List Bytes) (extra : Nat) :
    AppendSpec h s vs (goAppend h s vs extra) := by
  unfold goAppend
  split
  · rename_i hfit
    by_cases hv : vs = []
    · subst hv
      rw [store_nil]
      refine ⟨hs, by simp, fun _ h => h, fun _ _ _ => rfl, fun hc => .inl ⟨hc, rfl⟩⟩
    · have hvl : 0 < vs.length := List.length_pos_iff.2 hv
      have hc : 0 < s.cap := by omega
      obtain ⟨h1, h2⟩ := hs.2 hc
      have hl : s.off + s.len + vs.length ≤ (h.getD s.arr []).length := by omega
      refine ⟨?_, ?_, fun t ht => ok_store h _ _ _ hl t ht, ?_, fun hc => .inl ⟨hc, rfl⟩⟩
      · have := ok_store h s.arr (s.off + s.len) vs hl s hs
        exact ⟨hfit, this.2⟩
      · simp only [contents]
        rw [getD_store, if_pos ⟨rfl, h1⟩]
        generalize h.getD s.arr [] = a at *
        unfold overwrite
        have e1 : s.off ≤ (a.take (s.off + s.len)).length := by simp; omega
        rw [List.append_assoc, List.drop_append_of_le_length e1, List.drop_take, ← List.append_assoc]
        have e2 : ((a.drop s.off).take (s.off + s.len - s.off) ++ vs).length = s.len + vs.length := by simp; omega
        rw [← e2, List.take_left, Nat.add_sub_cancel_left]
      · intro t ht hap
        exact contents_store h _ _ _ t ht (fun htc => hap hc htc)
  · rename_i hfit
    have hcl := contents_length h s hs
    refine ⟨⟨by simp, fun _ => ⟨by simp, ?_⟩⟩, ?_, fun t ht => ok_push h _ t ht, fun t ht _ => contents_push h _ t ht,
      fun _ => .inr rfl⟩
    · simp only
      rw [getD_push_new]; simp [hcl]; omega
    · rw [contents]
      simp only
      rw [getD_push_new]
      have hcl' : (contents h s ++ vs).length = s.len + vs.length := by simp [hcl]
      rw [List.drop_zero, ← hcl', List.take_left]

/-- Invariant of reachable states. -/
structure Wf (s : State) : Prop where
  callersOk : ∀ c ∈ s.callers, Ok s.heap c
  infosOk : ∀ i ∈ s.infos, Ok s.heap i
  apart : ∀ i ∈ s.infos, ∀ c ∈ s.callers, Apart i c
  infosApart : ∀ (a b : Nat) (x y : Slice), a ≠ b → s.infos[a]? = some x → s.infos[b]? = some y → Apart x y

/-- Contents of the transcripts. -/
def infoView (s : State) : List (List Bytes) := s.infos.map (contents s.heap)

/-- Contents of the caller's slices. -/
def callerView (s : State) : List (List Bytes) := s.callers.map (contents s.heap)

theorem apart_of_spec {h : Heap} {s : Slice} {vs : List Bytes} {r : Heap × Slice} (hr : AppendSpec h s vs r) {t : Slice}
    (ht : Ok h t) (hst : Apart s t) : Apart r.2 t := by
  intro h1 h2
  rcases hr.arr h1 with ⟨h3, h4⟩ | h4
  · rw [h4]; exact hst h3 h2
  · rw [h4]; have := (ht.2 h2).1; omega

theorem nil_ok (h : Heap) : Ok h nilSlice := ⟨Nat.le_refl _, fun h => absurd h (Nat.lt_irrefl 0)⟩

theorem nil_apart (t : Slice) : Apart nilSlice t := fun h => absurd h (Nat.lt_irrefl 0)

theorem nil_contents (h : Heap) : contents h nilSlice = [] := by simp [contents, nilSlice]

theorem view_same {h h' : Heap} {l : List Slice} (hs : ∀ t ∈ l, contents h' t = contents h t) :
    l.map (contents h') = l.map (contents h) := List.map_congr_left hs

/-- Writing at an index of a caller's slice. -/
theorem wf_make (s : State) (hw : Wf s) (vs : List Bytes) (extra : Nat) :
    Wf (act s (.make vs extra)) ∧ infoView (act s (.make vs extra)) = infoView s := by
  have hnew : Ok (s.heap ++ [vs ++ List.replicate extra []])
      { arr := s.heap.length, off := 0, len := vs.length, cap := vs.length + extra } := by
    refine ⟨by simp, fun _ => ⟨by simp, ?_⟩⟩
    simp only
    rw [getD_push_new]; simp
  refine ⟨⟨?_, ?_, ?_, hw.infosApart⟩, ?_⟩
  · intro c hc
    simp only [act, List.mem_append, List.mem_singleton] at hc
    rcases hc with hc | rfl
    · exact ok_push _ _ _ (hw.callersOk c hc)
    · exact hnew
  · intro i hi; exact ok_push _ _ _ (hw.infosOk i hi)
  · intro i hi c hc
    simp only [act, List.mem_append, List.mem_singleton] at hc
    rcases hc with hc | rfl
    · exact hw.apart i hi c hc
    · intro h1 h2 h3
      have := ((hw.infosOk i hi).2 h1).1
      simp only at h3
      omega
  · exact view_same (fun t ht => contents_push _ _ _ (hw.infosOk t ht))

theorem wf_write (s : State) (hw : Wf s) (j i : Nat) (v : Bytes) :
    Wf (act s (.write j i v)) ∧ infoView (act s (.write j i v)) = infoView s := by
  simp only [act]
  cases hj : s.callers[j]? with
  | none => exact ⟨hw, rfl⟩
  | some c =>
    simp only
    split
    · rename_i hi
      have hc := List.mem_of_getElem? hj
      have hok := hw.callersOk c hc
      have hpos : 0 < c.cap := by have := hok.1; omega
      have hl : c.off + i + [v].length ≤ (s.heap.getD c.arr []).length := by
        have := (hok.2 hpos).2; have := hok.1; simp only [List.length_singleton]; omega
      refine ⟨⟨?_, ?_, hw.apart, hw.infosApart⟩, ?_⟩
      · intro c' hc'; exact ok_store _ _ _ _ hl _ (hw.callersOk c' hc')
      · intro c' hc'; exact ok_store _ _ _ _ hl _ (hw.infosOk c' hc')
      · exact view_same (fun t ht => contents_store _ _ _ _ _ (hw.infosOk t ht)
          (fun h => (hw.apart t ht c hc h hpos).symm))
    · exact ⟨hw, rfl⟩

theorem wf_reslice (s : State) (hw : Wf s) (j lo hi : Nat) :
    Wf (act s (.reslice j lo hi)) ∧ infoView (act s (.reslice j lo hi)) = infoView s := by
  simp only [act]
  cases hj : s.callers[j]? with
  | none => exact ⟨hw, rfl⟩
  | some c =>
    simp only
    split
    · rename_i hlo
      have hc := List.mem_of_getElem? hj
      have hok := hw.callersOk c hc
      refine ⟨⟨?_, hw.infosOk, ?_, hw.infosApart⟩, rfl⟩
      · intro c' hc'
        simp only [List.mem_append, List.mem_singleton] at hc'
        rcases hc' with hc' | rfl
        · exact hw.callersOk c' hc'
        · refine ⟨by simp only; omega, fun h => ?_⟩
          simp only at h ⊢
          have := hok.2 (by omega)
          exact ⟨this.1, by omega⟩
      · intro i hi' c' hc'
        simp only [List.mem_append, List.mem_singleton] at hc'
        rcases hc' with hc' | rfl
        · exact hw.apart i hi' c' hc'
        · intro h1 h2
          simp only at h2 ⊢
          exact hw.apart i hi' c hc h1 (by omega)
    · exact ⟨hw, rfl⟩

theorem wf_append (s : State) (hw : Wf s) (j : Nat) (vs : List Bytes) (extra : Nat) :
    Wf (act s (.append j vs extra)) ∧ infoView (act s (.append j vs extra)) = infoView s := by
  simp only [act]
  cases hj : s.callers[j]? with
  | none => exact ⟨hw, rfl⟩
  | some c =>
    simp only
    have hc := List.mem_of_getElem? hj
    have hsp := goAppend_spec s.heap c (hw.callersOk c hc) vs extra
    refine ⟨⟨?_, ?_, ?_, hw.infosApart⟩, ?_⟩
    · intro c' hc'
      simp only [List.mem_append, List.mem_singleton] at hc'
      rcases hc' with hc' | rfl
      · exact hsp.others _ (hw.callersOk c' hc')
      · exact hsp.ok
    · intro i hi; exact hsp.others _ (hw.infosOk i hi)
    · intro i hi c' hc'
      simp only [List.mem_append, List.mem_singleton] at hc'
      rcases hc' with hc' | rfl
      · exact hw.apart i hi c' hc'
      · exact (apart_of_spec hsp (hw.infosOk i hi) (hw.apart i hi c hc).symm).symm
    · exact view_same (fun t ht => hsp.same t (hw.infosOk t ht) (hw.apart t ht c hc).symm)

theorem wf_init (s : State) (hw : Wf s) (j extra : Nat) :
    Wf (act s (.init j extra)) ∧
    infoView (act s (.init j extra)) = infoView s ++ (match (callerView s)[j]? with | none => [] | some c => [c]) ∧
    callerView (act s (.init j extra)) = callerView s := by
  simp only [act, callerView]
  rw [List.getElem?_map]
  cases hj : s.callers[j]? with
  | none => exact ⟨hw, by simp, rfl⟩
  | some c =>
    simp only [Option.map_some]
    have hc := List.mem_of_getElem? hj
    have hsp := goAppend_spec s.heap nilSlice (nil_ok _) (contents s.heap c) extra
    have hnew : ∀ t, Ok s.heap t → Apart (goAppend s.heap nilSlice (contents s.heap c) extra).2 t :=
      fun t ht => apart_of_spec hsp ht (nil_apart t)
    refine ⟨⟨?_, ?_, ?_, ?_⟩, ?_, ?_⟩
    · intro c' hc'; exact hsp.others _ (hw.callersOk c' hc')
    · intro i hi
      simp only [List.mem_append, List.mem_singleton] at hi
      rcases hi with hi | rfl
      · exact hsp.others _ (hw.infosOk i hi)
      · exact hsp.ok
    · intro i hi c' hc'
      simp only [List.mem_append, List.mem_singleton] at hi
      rcases hi with hi | rfl
      · exact hw.apart i hi c' hc'
      · exact hnew _ (hw.callersOk c' hc')
    · intro a b x y hab hx hy
      simp only at hx hy
      rw [List.getElem?_append] at hx hy
      split at hx <;> split at hy
      · exact hw.infosApart a b x y hab hx hy
      · rw [List.getElem?_singleton] at hy
        split at hy
        · injection hy with hy; rw [← hy]
          exact (hnew _ (hw.infosOk x (List.mem_of_getElem? hx))).symm
        · cases hy
      · rw [List.getElem?_singleton] at hx
        split at hx
        · injection hx with hx; rw [← hx]
          exact hnew _ (hw.infosOk y (List.mem_of_getElem? hy))
        · cases hx
      · rw [List.getElem?_singleton] at hx hy
        split at hx <;> split at hy
        · omega
        all_goals simp_all
    · unfold infoView
      simp only [List.map_append, List.map_cons, List.map_nil]
      rw [hsp.contents, nil_contents, List.nil_append]
      congr 1
      exact view_same (fun t ht => hsp.same t (hw.infosOk t ht) (nil_apart t))
    · exact view_same (fun t ht => hsp.same t (hw.callersOk t ht) (nil_apart t))

/-- Common part of `Append` and `AppendSlice`. -/
theorem wf_tAppend (s : State) (hw : Wf s) (t : Nat) (i : Slice) (hi : s.infos[t]? = some i) (vs : List Bytes)
    (extra : Nat) :
    let r := goAppend s.heap i vs extra
    let s' : State := { s with heap := r.1, infos := s.infos.set t r.2 }
    Wf s' ∧ infoView s' = (infoView s).set t (contents s.heap i ++ vs) ∧ callerView s' = callerView s := by
  intro r s'
  have him := List.mem_of_getElem? hi
  have hsp := goAppend_spec s.heap i (hw.infosOk i him) vs extra
  have htl : t < s.infos.length := (List.getElem?_eq_some_iff.1 hi).1
  have hmem : ∀ x ∈ s'.infos, x = r.2 ∨ x ∈ s.infos := by
    intro x hx
    exact (List.mem_or_eq_of_mem_set hx).symm
  refine ⟨⟨?_, ?_, ?_, ?_⟩, ?_, ?_⟩
  · intro c' hc'; exact hsp.others _ (hw.callersOk c' hc')
  · intro x hx
    rcases hmem x hx with rfl | hx
    · exact hsp.ok
    · exact hsp.others _ (hw.infosOk x hx)
  · intro x hx c hc
    rcases hmem x hx with rfl | hx
    · exact apart_of_spec hsp (hw.callersOk c hc) (hw.apart i him c hc)
    · exact hw.apart x hx c hc
  · intro a b x y hab hx hy
    simp only [s'] at hx hy
    rw [List.getElem?_set] at hx hy
    split at hx
    · rename_i hta
      injection hx with hx
      rw [if_neg (by omega)] at hy
      rw [← hx]
      exact apart_of_spec hsp (hw.infosOk y (List.mem_of_getElem? hy)) (hw.infosApart t b i y (by omega) hi hy)
    · split at hy
      · rename_i htb
        injection hy with hy
        rw [← hy]
        exact (apart_of_spec hsp (hw.infosOk x (List.mem_of_getElem? hx)) (hw.infosApart t a i x (by omega) hi hx)).symm
      · exact hw.infosApart a b x y hab hx hy
  · unfold infoView
    simp only [s']
    apply List.ext_getElem?
    intro n
    rw [List.getElem?_map, List.getElem?_set, List.getElem?_set, List.length_map]
    by_cases hn : t = n
    · rw [if_pos hn, if_pos hn, if_pos htl, if_pos htl, Option.map_some]
      show some (contents r.1 r.2) = _
      rw [hsp.contents]
    · rw [if_neg hn, if_neg hn, List.getElem?_map]
      cases hx : s.infos[n]? with
      | none => rfl
      | some x =>
        simp only [Option.map_some]
        rw [hsp.same x (hw.infosOk x (List.mem_of_getElem? hx)) (hw.infosApart t n i x hn hi hx)]
  · exact view_same (fun c hc => hsp.same c (hw.callersOk c hc) (hw.apart i him c hc))

theorem wf_act (s : State) (hw : Wf s) (a : Act) : Wf (act s a) := by
  cases a with
  | make vs extra => exact (wf_make s hw vs extra).1
  | write j i v => exact (wf_write s hw j i v).1
  | reslice j lo hi => exact (wf_reslice s hw j lo hi).1
  | append j vs extra => exact (wf_append s hw j vs extra).1
  | init j extra => exact (wf_init s hw j extra).1
  | tAppend t v extra =>
    simp only [act]
    cases hi : s.infos[t]? with
    | none => exact hw
    | some i => exact (wf_tAppend s hw t i hi [v] extra).1
  | tAppendSlice t j extra =>
    simp only [act]
    cases hi : s.infos[t]? with
    | none => exact hw
    | some i =>
      cases hj : s.callers[j]? with
      | none => exact hw
      | some c => exact (wf_tAppend s hw t i hi (contents s.heap c) extra).1

theorem wf_run (l : List Act) : Wf (run l) := by
  unfold run
  have key : ∀ (l : List Act) (s : State), Wf s → Wf (l.foldl act s) := by
    intro l
    induction l with
    | nil => intro s h; exact h
    | cons a l ih => intro s h; exact ih _ (wf_act s h a)
  apply key
  exact ⟨by simp [start], by simp [start], by simp [start], by simp [start]⟩

end Verif.Lemmas.SliceHeap
