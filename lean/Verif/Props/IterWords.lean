import Verif.Model.IterWords
import Verif.Lemmas.Iter

/-! # Property C114: returned witnesses have their own words -/

namespace Verif.Props
open Verif.Go Verif.Model Verif.Lemmas Verif.Spec

/-- Whatever is written to the words of a returned witness, `g` and the other witnesses keep their values. -/
def OwnWords (w : Words) (base : Nat) (ps : List Nat) : Prop :=
  ∀ (i j v : Nat) (p : Nat), ps[i]? = some p → (w.overwrite p v).mem base = w.mem base ∧
    ∀ q, ps[j]? = some q → i ≠ j → (w.overwrite p v).mem q = w.mem q

/-- C114: the witnesses returned by `ProveMembershipIter(*g, N, set)` have their own words. -/
def C114_statement : Prop :=
  ∀ (fuel : Nat) (w w' : Words) (base N : Nat) (set ps : List Nat), base < w.next →
    proveMembershipIterW fuel w base N set = some (w', ps) → OwnWords w' base ps

theorem alloc_mem (w : Words) (v a : Nat) (ha : a < w.next) : (w.alloc v).1.mem a = w.mem a := by
  simp [Words.alloc, Nat.ne_of_lt ha]

theorem alloc_new (w : Words) (v : Nat) : (w.alloc v).1.mem w.next = v := by simp [Words.alloc]

/-- The in-place loop: new arrays only, and the value of `accumulate`. -/
theorem accumulateW_spec (N : Nat) (vs : List Nat) (w : Words) (a : Nat) :
    let r := accumulateW N vs (w, a)
    w.next ≤ r.1.next ∧ (∀ b < w.next, r.1.mem b = w.mem b) ∧ r.1.mem r.2 = accumulate (w.mem a) N vs ∧
    (vs = [] → r = (w, a)) ∧ (vs ≠ [] → w.next ≤ r.2 ∧ r.2 < r.1.next) := by
  induction vs generalizing w a with
  | nil => simp [accumulateW, accumulate]
  | cons v vs ih =>
    obtain ⟨h1, h2, h3, h4, h5⟩ := ih (w.alloc (expMod (w.mem a) v N)).1 (w.alloc (expMod (w.mem a) v N)).2
    have hn : (w.alloc (expMod (w.mem a) v N)).1.next = w.next + 1 := rfl
    have ha : (w.alloc (expMod (w.mem a) v N)).2 = w.next := rfl
    have hm : (w.alloc (expMod (w.mem a) v N)).1.mem w.next = expMod (w.mem a) v N := alloc_new _ _
    change w.next ≤ (accumulateW N vs _).1.next ∧ (∀ b < w.next, (accumulateW N vs _).1.mem b = w.mem b) ∧
      (accumulateW N vs _).1.mem (accumulateW N vs _).2 = accumulate (expMod (w.mem a) v N) N vs ∧ _ ∧
      (_ → w.next ≤ (accumulateW N vs _).2 ∧ (accumulateW N vs _).2 < (accumulateW N vs _).1.next)
    rw [hn] at h1 h2 h5
    rw [ha, hm] at h3
    refine ⟨Nat.le_of_succ_le h1, fun b hb => ?_, h3, by simp, fun _ => ?_⟩
    · rw [h2 b (by omega), alloc_mem _ _ _ hb]
    · by_cases hv : vs = []
      · rw [h4 hv]
        simp [Words.alloc]
      · have := h5 hv
        constructor <;> [exact Nat.le_of_succ_le this.1; exact this.2]

theorem accumulateNewW_spec (N : Nat) (vs : List Nat) (w : Words) (a : Nat) :
    let r := accumulateNewW N vs (w, a)
    w.next ≤ r.2 ∧ r.2 < r.1.next ∧ (∀ b < w.next, r.1.mem b = w.mem b) ∧ r.1.mem r.2 = accumulateNew (w.mem a) N vs := by
  obtain ⟨h1, h2, h3, h4, h5⟩ := accumulateW_spec N vs (w.alloc (w.mem a)).1 (w.alloc (w.mem a)).2
  have hn : (w.alloc (w.mem a)).1.next = w.next + 1 := rfl
  have ha : (w.alloc (w.mem a)).2 = w.next := rfl
  rw [hn] at h1 h2 h5
  have h3' : (accumulateW N vs (w.alloc (w.mem a))).1.mem (accumulateW N vs (w.alloc (w.mem a))).2 = accumulateNew (w.mem a) N vs := by
    rw [h3, ha, alloc_new]
    rfl
  simp only [accumulateNewW]
  refine ⟨?_, ?_, fun b hb => ?_, h3'⟩
  · by_cases hv : vs = []
    · rw [h4 hv]
      exact Nat.le_of_eq ha.symm
    · exact Nat.le_of_succ_le (h5 hv).1
  · by_cases hv : vs = []
    · rw [h4 hv, ha]
      exact Nat.lt_succ_self _
    · exact (h5 hv).2
  · rw [h2 b (by omega), alloc_mem _ _ _ hb]

/-- The node with the number in its words. -/
def valueNode (w : Words) (n : WordNode) : ProofNode := ⟨n.left, n.right, w.mem n.arr⟩

/-- The two nodes made by a cut: the values of `insertNewProofNode`, in two new arrays. -/
theorem insertW_spec (N : Nat) (set : List Nat) (w : Words) (n : WordNode) (ha : n.arr < w.next)
    (hr : n.right ≤ set.length) (hw : ¬ n.right - n.left ≤ 1) :
    let r := insertNewProofNodeW w n N set
    (valueNode r.1 r.2.1, valueNode r.1 r.2.2) = insertNewProofNode (valueNode w n) N set ∧
    w.next ≤ r.1.next ∧ (∀ b < w.next, r.1.mem b = w.mem b) ∧ w.next ≤ r.2.1.arr ∧ r.2.1.arr < r.1.next ∧
    w.next ≤ r.2.2.arr ∧ r.2.2.arr < r.1.next ∧ r.2.1.arr ≠ r.2.2.arr := by
  obtain ⟨a1, a2, a3, a4⟩ := accumulateNewW_spec N (slice set n.left (n.left + (n.right - n.left) / 2)) w n.arr
  obtain ⟨b1, b2, b3, -, b5⟩ := accumulateW_spec N (slice set (n.left + (n.right - n.left) / 2) n.right)
    (accumulateNewW N (slice set n.left (n.left + (n.right - n.left) / 2)) (w, n.arr)).1 n.arr
  have hne : slice set (n.left + (n.right - n.left) / 2) n.right ≠ [] := by
    intro h
    have := congrArg List.length h
    rw [slice_length _ _ _ hr] at this
    simp at this
    omega
  obtain ⟨b5, b6⟩ := b5 hne
  simp only [insertNewProofNodeW, insertNewProofNode, valueNode]
  refine ⟨?_, by omega, fun b hb => ?_, by omega, b6, a1, by omega, by omega⟩
  · rw [b3, b2 _ a2, a4, a3 _ ha]
  · rw [b2 _ (by omega), a3 _ hb]

/-- One pass: the values of `iterPass`; nodes that are cut get new arrays, the others stay. -/
theorem iterPassW_spec (N : Nat) (set : List Nat) (nodes : List WordNode) (w : Words)
    (ha : ∀ n ∈ nodes, n.arr < w.next) (hr : ∀ n ∈ nodes, n.right ≤ set.length) (hd : (nodes.map (·.arr)).Nodup) :
    let r := iterPassW N set w nodes
    (r.2.1.map (valueNode r.1), r.2.2) = iterPass N set (nodes.map (valueNode w)) ∧
    w.next ≤ r.1.next ∧ (∀ b < w.next, r.1.mem b = w.mem b) ∧
    (∀ n ∈ r.2.1, (n ∈ nodes ∧ n.right - n.left ≤ 1) ∨ (w.next ≤ n.arr ∧ n.arr < r.1.next)) ∧
    (r.2.1.map (·.arr)).Nodup := by
  induction nodes generalizing w with
  | nil => simp [iterPassW, iterPass]
  | cons n rest ih =>
    rw [List.map_cons, List.nodup_cons] at hd
    have ha0 := ha n List.mem_cons_self
    by_cases hc : n.right - n.left ≤ 1
    · obtain ⟨i1, i2, i3, i4, i5⟩ := ih w (fun m hm => ha m (List.mem_cons_of_mem _ hm))
        (fun m hm => hr m (List.mem_cons_of_mem _ hm)) hd.2
      simp only [iterPassW, if_pos hc]
      refine ⟨?_, i2, i3, ?_, ?_⟩
      · simp only [List.map_cons, iterPass, valueNode, hc, if_true]
        rw [← i1, i3 _ ha0]
      · intro m hm
        rcases List.mem_cons.1 hm with rfl | hm
        · exact .inl ⟨List.mem_cons_self, hc⟩
        · rcases i4 m hm with h | h
          · exact .inl ⟨List.mem_cons_of_mem _ h.1, h.2⟩
          · exact .inr h
      · rw [List.map_cons, List.nodup_cons]
        refine ⟨fun hm => ?_, i5⟩
        obtain ⟨m, hm, he⟩ := List.mem_map.1 hm
        rcases i4 m hm with h | h
        · exact hd.1 (List.mem_map.2 ⟨m, h.1, he⟩)
        · omega
    · obtain ⟨j1, j2, j3, j4, j5, j6, j7, j8⟩ := insertW_spec N set w n ha0 (hr n List.mem_cons_self) hc
      obtain ⟨i1, i2, i3, i4, i5⟩ := ih (insertNewProofNodeW w n N set).1
        (fun m hm => Nat.lt_of_lt_of_le (ha m (List.mem_cons_of_mem _ hm)) j2)
        (fun m hm => hr m (List.mem_cons_of_mem _ hm)) hd.2
      simp only [iterPassW, if_neg hc]
      have hval : rest.map (valueNode (insertNewProofNodeW w n N set).1) = rest.map (valueNode w) := by
        refine List.map_congr_left (fun m hm => ?_)
        unfold valueNode
        rw [j3 _ (ha m (List.mem_cons_of_mem _ hm))]
      rw [hval] at i1
      have hold : ∀ m ∈ (iterPassW N set (insertNewProofNodeW w n N set).1 rest).2.1,
          m.arr < w.next ∨ (insertNewProofNodeW w n N set).1.next ≤ m.arr := by
        intro m hm
        rcases i4 m hm with h | h
        · exact .inl (ha m (List.mem_cons_of_mem _ h.1))
        · exact .inr h.1
      refine ⟨?_, by omega, fun b hb => ?_, ?_, ?_⟩
      · simp only [List.map_cons, iterPass]
        have e1 : (valueNode w n).right - (valueNode w n).left = n.right - n.left := rfl
        rw [e1, if_neg hc, ← i1, ← j1]
        simp only [valueNode]
        rw [i3 _ j5, i3 _ j7]
      · rw [i3 _ (by omega), j3 _ hb]
      · intro m hm
        rcases List.mem_cons.1 hm with rfl | hm
        · exact .inr ⟨j4, by omega⟩
        rcases List.mem_cons.1 hm with rfl | hm
        · exact .inr ⟨j6, by omega⟩
        rcases i4 m hm with h | h
        · exact .inl ⟨List.mem_cons_of_mem _ h.1, h.2⟩
        · exact .inr ⟨by omega, h.2⟩
      · rw [List.map_cons, List.nodup_cons, List.map_cons, List.nodup_cons, List.mem_cons, not_or]
        refine ⟨⟨j8, fun hm => ?_⟩, fun hm => ?_, i5⟩
        · obtain ⟨m, hm, he⟩ := List.mem_map.1 hm
          rcases hold m hm with h | h <;> omega
        · obtain ⟨m, hm, he⟩ := List.mem_map.1 hm
          rcases hold m hm with h | h <;> omega

/-- The loop: the values of `iterLoop`. `n0` is the number of arrays in use before the call; only a node that covers the whole
set can still have one of them. -/
theorem iterLoopW_spec (N : Nat) (set : List Nat) (n0 : Nat) (fuel : Nat) (w : Words) (nodes : List WordNode) (h0 : n0 ≤ w.next)
    (ha : ∀ n ∈ nodes, n.arr < w.next) (hok : ∀ n ∈ nodes.map (valueNode w), NodeOk N set n) (hd : (nodes.map (·.arr)).Nodup)
    (hwide : ∀ n ∈ nodes, n.arr < n0 → n.right - n.left = set.length) :
    (iterLoopW N set fuel w nodes).map (fun r => r.2.map (valueNode r.1)) = iterLoop N set fuel (nodes.map (valueNode w)) ∧
    ∀ w' nodes', iterLoopW N set fuel w nodes = some (w', nodes') → (nodes'.map (·.arr)).Nodup ∧
      (∀ b < w.next, w'.mem b = w.mem b) ∧ ∀ n ∈ nodes', n.arr < w'.next ∧ (n.arr < n0 → n.right - n.left = set.length) ∧ n.right - n.left ≤ 1 := by
  induction fuel generalizing w nodes with
  | zero => exact ⟨rfl, fun _ _ h => by cases h⟩
  | succ fuel ih =>
    obtain ⟨i1, i2, i3, i4, i5⟩ := iterPassW_spec N set nodes w ha
      (fun n hn => (hok (valueNode w n) (List.mem_map.2 ⟨n, hn, rfl⟩)).2.1) hd
    obtain ⟨-, p2, -, -, p5⟩ := iterPass_spec N set (nodes.map (valueNode w)) hok
    rw [← i1] at p2 p5
    unfold iterLoopW iterLoop
    simp only
    rw [← i1]
    have hwide' : ∀ n ∈ (iterPassW N set w nodes).2.1, n.arr < n0 → n.right - n.left = set.length := by
      intro n hn hlt
      rcases i4 n hn with h | h
      · exact hwide n h.1 hlt
      · omega
    have ha' : ∀ n ∈ (iterPassW N set w nodes).2.1, n.arr < (iterPassW N set w nodes).1.next := by
      intro n hn
      rcases i4 n hn with h | h
      · exact Nat.lt_of_lt_of_le (ha n h.1) i2
      · exact h.2
    by_cases hf : (iterPassW N set w nodes).2.2 = true
    · rw [if_pos hf, if_pos hf]
      obtain ⟨k1, k2⟩ := ih (iterPassW N set w nodes).1 (iterPassW N set w nodes).2.1 (by omega) ha' p2 i5 hwide'
      refine ⟨k1, fun w' nodes' h => ?_⟩
      obtain ⟨l1, l2, l3⟩ := k2 w' nodes' h
      exact ⟨l1, fun b hb => by rw [l2 b (by omega), i3 b hb], l3⟩
    · rw [if_neg hf, if_neg hf]
      refine ⟨rfl, fun w' nodes' h => ?_⟩
      simp only [Option.some.injEq, Prod.mk.injEq] at h
      obtain ⟨rfl, rfl⟩ := h
      refine ⟨i5, i3, fun n hn => ⟨ha' n hn, hwide' n hn, ?_⟩⟩
      obtain ⟨e, hall⟩ := p5 (by simpa using hf)
      have hm : valueNode (iterPassW N set w nodes).1 n ∈ nodes.map (valueNode w) := by
        rw [← e]
        exact List.mem_map.2 ⟨n, hn, rfl⟩
      exact hall _ hm

/-- With two or more elements the witnesses have their own words, `g` keeps its value, and the numbers are those of the spec. -/
theorem C114_partial (fuel : Nat) (w w' : Words) (base N : Nat) (set ps : List Nat) (hb : base < w.next) (h2 : 2 ≤ set.length)
    (h : proveMembershipIterW fuel w base N set = some (w', ps)) :
    OwnWords w' base ps ∧ w'.mem base = w.mem base ∧ proveMembershipIterFuel fuel (w.mem base) N set = some (ps.map w'.mem) := by
  unfold proveMembershipIterW at h
  rw [if_neg (by omega)] at h
  obtain ⟨k1, k2⟩ := iterLoopW_spec N set w.next fuel w [{ left := 0, right := set.length, arr := base }] (Nat.le_refl _)
    (by simpa using hb)
    (by
      intro n hn
      simp only [List.map_cons, List.map_nil, List.mem_singleton, valueNode] at hn
      subst hn
      exact ⟨by simp only; omega, Nat.le_refl _, .inr (by simpa using h2)⟩)
    (by simp) (by simp)
  rcases hl : iterLoopW N set fuel w [{ left := 0, right := set.length, arr := base }] with _ | ⟨w1, nodes⟩
  · rw [hl] at h
    cases h
  · rw [hl] at h k1
    simp only [Option.map_some, Option.some.injEq, Prod.mk.injEq] at h
    obtain ⟨rfl, rfl⟩ := h
    obtain ⟨l1, l2, l3⟩ := k2 _ _ hl
    refine ⟨?_, l2 base hb, ?_⟩
    · intro i j v p hp
      have hmem := List.mem_of_getElem? hp
      obtain ⟨n, hn, rfl⟩ := List.mem_map.1 hmem
      obtain ⟨m1, m2, m3⟩ := l3 n hn
      constructor
      · have : ¬ n.arr < w.next := fun hlt => by
          have := m2 hlt
          omega
        simp only [Words.overwrite]
        rw [if_neg (by omega)]
      · intro q hq hij
        simp only [Words.overwrite]
        rw [if_neg]
        rintro rfl
        refine hij ?_
        obtain ⟨hi, ei⟩ := List.getElem?_eq_some_iff.1 hp
        obtain ⟨hj, ej⟩ := List.getElem?_eq_some_iff.1 hq
        exact (List.Nodup.getElem_inj_iff l1).1 (ei.trans ej.symm)
    · unfold proveMembershipIterFuel
      rw [if_neg (by omega)]
      have k1' : iterLoop N set fuel [{ left := 0, right := set.length, proof := w.mem base }] =
          some (nodes.map (valueNode w1)) := k1.symm
      rw [k1', Option.map_some, List.map_map, List.map_map]
      rfl

/-- The call returns: as many passes as there are elements suffice. -/
theorem C114_returns (fuel : Nat) (w : Words) (base N : Nat) (set : List Nat) (hb : base < w.next) (h2 : 2 ≤ set.length)
    (hf : set.length ≤ fuel) : ∃ w' ps, proveMembershipIterW fuel w base N set = some (w', ps) ∧
      ps.map w'.mem = witnesses (w.mem base) N set := by
  obtain ⟨k1, -⟩ := iterLoopW_spec N set w.next fuel w [{ left := 0, right := set.length, arr := base }] (Nat.le_refl _)
    (by simpa using hb)
    (by
      intro n hn
      simp only [List.map_cons, List.map_nil, List.mem_singleton, valueNode] at hn
      subst hn
      exact ⟨by simp only; omega, Nat.le_refl _, .inr (by simpa using h2)⟩)
    (by simp) (by simp)
  have he := iter_eq (w.mem base) N set fuel hf (.inr h2)
  unfold proveMembershipIterFuel at he
  rw [if_neg (by omega)] at he
  rcases hl : iterLoopW N set fuel w [{ left := 0, right := set.length, arr := base }] with _ | ⟨w1, nodes⟩
  · rw [hl] at k1
    have k1' : none = iterLoop N set fuel [{ left := 0, right := set.length, proof := w.mem base }] := k1
    rw [← k1'] at he
    cases he
  · rw [hl] at k1
    have k1' : some (nodes.map (valueNode w1)) = iterLoop N set fuel [{ left := 0, right := set.length, proof := w.mem base }] := k1
    rw [← k1'] at he
    refine ⟨w1, nodes.map (·.arr), ?_, ?_⟩
    · unfold proveMembershipIterW
      rw [if_neg (by omega), hl]
      rfl
    · rw [Option.map_some, Option.some.injEq] at he
      rw [← he, List.map_map, List.map_map]
      rfl

/-- With one element the only witness is `g` itself: whatever is written to the witness is written to `g`. -/
theorem C114_single (fuel : Nat) (w : Words) (base N x : Nat) :
    proveMembershipIterW (fuel + 1) w base N [x] = some (w, [base]) ∧
    ∀ v, (w.overwrite base v).mem base = v := by
  refine ⟨?_, fun v => by simp [Words.overwrite]⟩
  simp [proveMembershipIterW, iterLoopW, iterPassW]

/-- The witnesses have their own words exactly if the set does not have one element. -/
theorem C114_iff_partial (fuel : Nat) (w w' : Words) (base N : Nat) (set ps : List Nat) (hb : base < w.next)
    (h : proveMembershipIterW fuel w base N set = some (w', ps)) : OwnWords w' base ps ↔ set.length ≠ 1 := by
  constructor
  · intro ho h1
    obtain ⟨x, rfl⟩ := List.length_eq_one_iff.1 h1
    rcases fuel with _ | fuel
    · simp [proveMembershipIterW, iterLoopW] at h
    · rw [(C114_single fuel w base N x).1] at h
      simp only [Option.some.injEq, Prod.mk.injEq] at h
      obtain ⟨rfl, rfl⟩ := h
      have := (ho 0 0 (w.mem base + 1) base rfl).1
      rw [(C114_single fuel w base N x).2] at this
      omega
  · intro h1
    by_cases h0 : set.length = 0
    · unfold proveMembershipIterW at h
      rw [if_pos (by omega)] at h
      simp only [Option.some.injEq, Prod.mk.injEq] at h
      obtain ⟨-, rfl⟩ := h
      intro i j v p hp
      simp at hp
    · exact (C114_partial fuel w w' base N set ps hb (by omega) h).1

/-- C114 is violated: for a set of one element the witness shares the words of `setup.G`. -/
theorem C114_violated : ¬ C114_statement := by
  intro h
  have hr := (C114_single 0 ⟨fun _ => 2, 1⟩ 0 35 3).1
  exact (C114_iff_partial _ _ _ _ _ _ _ (by decide) hr).1 (h _ _ _ _ _ _ _ (by decide) hr) rfl

/-- Three elements: three new arrays with the witnesses 2^(5*7), 2^(3*7) and 2^(3*5) modulo 35. -/
example : ∃ w' ps, proveMembershipIterW 3 ⟨fun _ => 2, 1⟩ 0 35 [3, 5, 7] = some (w', ps) ∧ ps.map w'.mem = [18, 22, 8] ∧
    OwnWords w' 0 ps := by
  obtain ⟨w', ps, h, hv⟩ := C114_returns 3 ⟨fun _ => 2, 1⟩ 0 35 [3, 5, 7] (by decide) (by decide) (by decide)
  refine ⟨w', ps, h, ?_, (C114_partial _ _ _ _ _ _ _ (by decide) (by decide) h).1⟩
  rw [hv]
  decide

end Verif.Props
