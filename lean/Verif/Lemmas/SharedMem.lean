import Verif.Go.SharedMem

/-!
# Lemmas on goroutines that share integers

`Ok p m W Q`: a goroutine that runs `p`, sees the integers `m` and may write those in `W`, reads only integers it sees, writes only
in `W` and in integers it has taken itself, never panics, and ends in a state with `Q`. While it waits for goroutines it has started,
it lends them what it sees for reading.
-/

namespace Verif.Lemmas
open Verif.Go.Mem

/-- `m'` has all integers of `m`, with the same values. -/
def Extends (m m' : Memory) : Prop := ∀ a v, m a = some v → m' a = some v

theorem Extends.refl (m : Memory) : Extends m m := fun _ _ h => h

theorem Extends.trans {m m' m'' : Memory} (h : Extends m m') (h' : Extends m' m'') : Extends m m'' :=
  fun a v e => h' a v (h a v e)

theorem Extends.ne_none {m m' : Memory} (h : Extends m m') {a : Nat} (ha : m a ≠ none) : m' a ≠ none := by
  obtain ⟨v, hv⟩ := Option.ne_none_iff_exists'.1 ha
  rw [h a v hv]
  simp

theorem extends_set {m : Memory} {a : Nat} (v : Nat) (h : m a = none) : Extends m (m.set a v) := by
  intro b w hb
  unfold Memory.set
  rw [if_neg (fun e => by rw [e, h] at hb; cases hb)]
  exact hb

theorem vals_extends {m m' : Memory} (h : Extends m m') (rs : List Nat) (hr : ∀ r ∈ rs, m r ≠ none) : m'.vals rs = m.vals rs := by
  refine List.map_congr_left (fun r hm => ?_)
  obtain ⟨v, hv⟩ := Option.ne_none_iff_exists'.1 (hr r hm)
  rw [hv, h r v hv]

/-- What holds at the end: for the integers that are seen, those that may be written, and the result. -/
abbrev Post := Memory → Set Nat → List Nat → Prop

/-- Integers of other goroutines do not matter. -/
def Mono (Q : Post) : Prop := ∀ m m' W out, Extends m m' → Q m W out → Q m' W out

/-- See the head of the file. -/
def Ok : MProg → Memory → Set Nat → Post → Prop
  | .ret out, m, W, Q => Q m W out
  | .panic, _, _, _ => False
  | .alloc rs f k, m, W, Q => (∀ r ∈ rs, m r ≠ none) ∧ ∀ a, m a = none → Ok (k a) (m.set a (f (m.vals rs))) (insert a W) Q
  | .store a rs f k, m, W, Q => a ∈ W ∧ (∀ r ∈ rs, m r ≠ none) ∧ Ok k (m.set a (f (m.vals rs))) W Q
  | .fork n ps k, m, W, Q => ∃ Qs : Fin n → Post, (∀ i, Mono (Qs i)) ∧ (∀ i, Ok (ps i) m ∅ (Qs i)) ∧
      ∀ (m' : Memory) (Ws : Fin n → Set Nat) (outs : Fin n → List Nat), Extends m m' → (∀ i, ∀ a ∈ Ws i, m a = none) →
        (∀ i j a, i ≠ j → a ∈ Ws i → a ∉ Ws j) → (∀ i, Qs i m' (Ws i) (outs i)) →
        Ok (k outs) m' (W ∪ {a | ∃ i, a ∈ Ws i}) Q

/-- The goroutine tree `t` works as it should in the memory `M`; `B` is what it may only read, `W` what it has taken. -/
def TreeOk (M : Memory) : Threads → Set Nat → Set Nat → Post → Prop
  | .run p, B, W, Q => ∃ m, Extends m M ∧ (∀ a, m a ≠ none → a ∈ B ∨ a ∈ W) ∧ (∀ a ∈ W, m a ≠ none) ∧ Ok p m W Q
  | .wait n ts k, B, W, Q => ∃ (m : Memory) (W0 : Set Nat) (Ws : Fin n → Set Nat) (Qs : Fin n → Post), Extends m M ∧
      (∀ a, m a ≠ none → a ∈ B ∨ a ∈ W0) ∧ (∀ a ∈ W0, m a ≠ none) ∧ (∀ a, a ∈ W ↔ a ∈ W0 ∨ ∃ i, a ∈ Ws i) ∧
      (∀ i, ∀ a ∈ Ws i, m a = none) ∧ (∀ i j a, i ≠ j → a ∈ Ws i → a ∉ Ws j) ∧ (∀ i, Mono (Qs i)) ∧
      (∀ i, TreeOk M (ts i) {a | m a ≠ none} (Ws i) (Qs i)) ∧
      ∀ (m' : Memory) (Ws : Fin n → Set Nat) (outs : Fin n → List Nat), Extends m m' → (∀ i, ∀ a ∈ Ws i, m a = none) →
        (∀ i j a, i ≠ j → a ∈ Ws i → a ∉ Ws j) → (∀ i, Qs i m' (Ws i) (outs i)) →
        Ok (k outs) m' (W0 ∪ {a | ∃ i, a ∈ Ws i}) Q

/-- What a tree has taken is in use. -/
theorem tree_owned {M : Memory} (t : Threads) : ∀ {B W : Set Nat} {Q : Post}, TreeOk M t B W Q → ∀ a ∈ W, M a ≠ none := by
  induction t with
  | run p =>
    rintro B W Q ⟨m, h1, -, h3, -⟩ a ha
    exact h1.ne_none (h3 a ha)
  | wait n ts k ih =>
    rintro B W Q ⟨m, W0, Ws, Qs, h1, -, h3, h4, -, -, -, h8, -⟩ a ha
    rcases (h4 a).1 ha with h | ⟨i, h⟩
    · exact h1.ne_none (h3 a h)
    · exact ih i (h8 i) a h

/-- Changes elsewhere do not matter. -/
theorem tree_frame {M M' : Memory} (t : Threads) : ∀ {B W : Set Nat} {Q : Post}, TreeOk M t B W Q →
    (∀ a v, a ∈ B ∨ a ∈ W → M a = some v → M' a = some v) → TreeOk M' t B W Q := by
  induction t with
  | run p =>
    rintro B W Q ⟨m, h1, h2, h3, h4⟩ hM
    refine ⟨m, fun a v hv => hM a v (h2 a (by rw [hv]; simp)) (h1 a v hv), h2, h3, h4⟩
  | wait n ts k ih =>
    rintro B W Q ⟨m, W0, Ws, Qs, h1, h2, h3, h4, h5, h6, h7, h8, h9⟩ hM
    have hB : ∀ a, m a ≠ none → a ∈ B ∨ a ∈ W := fun a ha => (h2 a ha).imp id (fun h => (h4 a).2 (.inl h))
    refine ⟨m, W0, Ws, Qs, fun a v hv => hM a v (hB a (by rw [hv]; simp)) (h1 a v hv), h2, h3, h4, h5, h6, h7, fun i => ?_, h9⟩
    refine ih i (h8 i) (fun a v ha hv => hM a v ?_ hv)
    rcases ha with ha | ha
    · exact hB a ha
    · exact .inr ((h4 a).2 (.inr ⟨i, ha⟩))

/-- One operation: the tree still works as it should; only integers of the tree change, and new ones are really new. -/
theorem tree_step {M M' : Memory} {t t' : Threads} (h : MStep M t M' t') : ∀ {B W : Set Nat} {Q : Post}, TreeOk M t B W Q →
    (∀ a ∈ W, a ∉ B) → (∀ a ∈ B, M a ≠ none) →
    ∃ W', W ⊆ W' ∧ (∀ a ∈ W', a ∈ W ∨ M a = none) ∧ TreeOk M' t' B W' Q ∧ ∀ a v, a ∉ W → M a = some v → M' a = some v := by
  induction h with
  | alloc rs f k a ha =>
    rintro B W Q ⟨m, h1, h2, h3, h4, h5⟩ hWB hB
    have hma : m a = none := by
      by_contra hne
      exact h1.ne_none hne ha
    have hv : M.vals rs = m.vals rs := vals_extends h1 rs h4
    refine ⟨insert a W, Set.subset_insert _ _, ?_, ⟨m.set a (f (m.vals rs)), ?_, ?_, ?_, h5 a hma⟩, ?_⟩
    · rintro b (rfl | hb)
      · exact .inr ha
      · exact .inl hb
    · intro b v hb
      rw [hv]
      unfold Memory.set at hb ⊢
      split at hb
      · rw [if_pos ‹_›]
        exact hb
      · rw [if_neg ‹_›]
        exact h1 b v hb
    · intro b hb
      by_cases e : b = a
      · exact .inr (.inl e)
      · unfold Memory.set at hb
        rw [if_neg e] at hb
        exact (h2 b hb).imp id (fun h => .inr h)
    · intro b hb
      unfold Memory.set
      split
      · simp
      · rcases hb with e | hb
        · exact absurd e ‹_›
        · exact h3 b hb
    · intro b v _ hb
      exact extends_set _ ha b v hb
  | store a rs f k =>
    rintro B W Q ⟨m, h1, h2, h3, h4, h5, h6⟩ hWB hB
    have hv : M.vals rs = m.vals rs := vals_extends h1 rs h5
    refine ⟨W, subset_rfl, fun b hb => .inl hb, ⟨m.set a (f (m.vals rs)), ?_, ?_, ?_, h6⟩, ?_⟩
    · intro b v hb
      rw [hv]
      unfold Memory.set at hb ⊢
      split at hb
      · rw [if_pos ‹_›]
        exact hb
      · rw [if_neg ‹_›]
        exact h1 b v hb
    · intro b hb
      by_cases e : b = a
      · rw [e]
        exact .inr h4
      · unfold Memory.set at hb
        rw [if_neg e] at hb
        exact h2 b hb
    · intro b hb
      unfold Memory.set
      split
      · simp
      · exact h3 b hb
    · intro b v hb hv
      unfold Memory.set
      rw [if_neg (fun e => hb (by rw [e]; exact h4))]
      exact hv
  | fork n ps k =>
    rintro B W Q ⟨m, h1, h2, h3, Qs, h4, h5, h6⟩ hWB hB
    refine ⟨W, subset_rfl, fun b hb => .inl hb, ⟨m, W, fun _ => ∅, Qs, h1, h2, h3, by simp, by simp, by simp, h4, fun i => ?_, h6⟩,
      fun a v _ hv => hv⟩
    exact ⟨m, h1, fun a ha => .inl ha, by simp, h5 i⟩
  | child M' n ts k i t hs ih =>
    rintro B W Q ⟨m, W0, Ws, Qs, h1, h2, h3, h4, h5, h6, h7, h8, h9⟩ hWB hB
    obtain ⟨Wi, i1, i2, i3, i4⟩ := ih (h8 i) (fun a ha hm => hm (h5 i a ha)) (fun a ha => h1.ne_none ha)
    have hnew : ∀ a ∈ Wi, a ∈ Ws i ∨ (a ∉ W ∧ m a = none ∧ ∀ j, a ∉ Ws j) := by
      intro a ha
      rcases i2 a ha with h | h
      · exact .inl h
      · refine .inr ⟨fun hW => ?_, ?_, fun j hj => tree_owned _ (h8 j) a hj h⟩
        · rcases (h4 a).1 hW with h0 | ⟨j, hj⟩
          · exact h1.ne_none (h3 a h0) h
          · exact tree_owned _ (h8 j) a hj h
        · by_contra hne
          exact h1.ne_none hne h
    refine ⟨W ∪ Wi, Set.subset_union_left, ?_, ⟨m, W0, Function.update Ws i Wi, Qs, ?_, h2, h3, ?_, ?_, ?_, h7, ?_, h9⟩, ?_⟩
    · rintro a (ha | ha)
      · exact .inl ha
      · rcases i2 a ha with h | h
        · exact .inl ((h4 a).2 (.inr ⟨i, h⟩))
        · exact .inr h
    · intro a v hv
      exact i4 a v (fun ha => by rw [h5 i a ha] at hv; cases hv) (h1 a v hv)
    · intro a
      constructor
      · rintro (ha | ha)
        · rcases (h4 a).1 ha with h | ⟨j, hj⟩
          · exact .inl h
          · refine .inr ⟨j, ?_⟩
            by_cases e : j = i
            · subst e
              rw [Function.update_self]
              exact i1 hj
            · rw [Function.update_of_ne e]
              exact hj
        · exact .inr ⟨i, by rw [Function.update_self]; exact ha⟩
      · rintro (ha | ⟨j, hj⟩)
        · exact .inl ((h4 a).2 (.inl ha))
        · by_cases e : j = i
          · subst e
            rw [Function.update_self] at hj
            exact .inr hj
          · rw [Function.update_of_ne e] at hj
            exact .inl ((h4 a).2 (.inr ⟨j, hj⟩))
    · intro j a hj
      by_cases e : j = i
      · subst e
        rw [Function.update_self] at hj
        rcases hnew a hj with h | h
        · exact h5 _ a h
        · exact h.2.1
      · rw [Function.update_of_ne e] at hj
        exact h5 j a hj
    · intro j l a hjl hj hl
      by_cases e : j = i
      · subst e
        rw [Function.update_self] at hj
        rw [Function.update_of_ne (Ne.symm hjl)] at hl
        rcases hnew a hj with h | h
        · exact h6 _ l a hjl h hl
        · exact h.2.2 l hl
      · rw [Function.update_of_ne e] at hj
        by_cases e' : l = i
        · subst e'
          rw [Function.update_self] at hl
          rcases hnew a hl with h | h
          · exact h6 j _ a hjl hj h
          · exact h.2.2 j hj
        · rw [Function.update_of_ne e'] at hl
          exact h6 j l a hjl hj hl
    · intro j
      by_cases e : j = i
      · subst e
        rw [Function.update_self, Function.update_self]
        exact i3
      · rw [Function.update_of_ne e, Function.update_of_ne e]
        refine tree_frame _ (h8 j) (fun a v ha hv => i4 a v (fun hi => ?_) hv)
        rcases ha with ha | ha
        · exact ha (h5 i a hi)
        · exact h6 j i a e ha hi
    · intro a v ha hv
      exact i4 a v (fun hi => ha ((h4 a).2 (.inr ⟨i, hi⟩))) hv
  | join n ts k outs hr =>
    rintro B W Q ⟨m, W0, Ws, Qs, h1, h2, h3, h4, h5, h6, h7, h8, h9⟩ hWB hB
    classical
    let m' : Memory := fun a => if m a ≠ none ∨ ∃ i, a ∈ Ws i then M a else none
    have hm' : Extends m m' := by
      intro a v hv
      show (if m a ≠ none ∨ ∃ i, a ∈ Ws i then M a else none) = some v
      rw [if_pos (.inl (by rw [hv]; simp))]
      exact h1 a v hv
    have hWe : W = W0 ∪ {a | ∃ i, a ∈ Ws i} := by
      ext a
      exact h4 a
    refine ⟨W, subset_rfl, fun b hb => .inl hb, ⟨m', ?_, ?_, ?_, ?_⟩, fun a v _ hv => hv⟩
    · intro a v hv
      have hv' : (if m a ≠ none ∨ ∃ i, a ∈ Ws i then M a else none) = some v := hv
      split at hv'
      · exact hv'
      · cases hv'
    · intro a ha
      have ha' : (if m a ≠ none ∨ ∃ i, a ∈ Ws i then M a else none) ≠ none := ha
      split at ha'
      · rename_i hc
        rcases hc with hc | hc
        · exact (h2 a hc).imp id (fun h => (h4 a).2 (.inl h))
        · exact .inr ((h4 a).2 (.inr hc))
      · exact absurd rfl ha'
    · intro a ha
      show (if m a ≠ none ∨ ∃ i, a ∈ Ws i then M a else none) ≠ none
      rcases (h4 a).1 ha with h | ⟨i, h⟩
      · rw [if_pos (.inl (h3 a h))]
        exact h1.ne_none (h3 a h)
      · rw [if_pos (.inr ⟨i, h⟩)]
        exact tree_owned _ (h8 i) a h
    · rw [hWe]
      refine h9 m' Ws outs hm' h5 h6 (fun i => ?_)
      have h8i := h8 i
      rw [hr i] at h8i
      obtain ⟨mi, j1, j2, j3, j4⟩ := h8i
      refine h7 i mi m' _ _ (fun a v hv => ?_) j4
      show (if m a ≠ none ∨ ∃ i, a ∈ Ws i then M a else none) = some v
      have hc : m a ≠ none ∨ ∃ i, a ∈ Ws i := (j2 a (by rw [hv]; simp)).imp id (fun h => ⟨i, h⟩)
      rw [if_pos hc]
      exact j1 a v hv

/-- Along an execution. -/
theorem tree_steps {M M' : Memory} {t t' : Threads} (h : MSteps M t M' t') {B W : Set Nat} {Q : Post} (ht : TreeOk M t B W Q)
    (hWB : ∀ a ∈ W, a ∉ B) (hB : ∀ a ∈ B, M a ≠ none) :
    ∃ W', (∀ a ∈ W', a ∉ B) ∧ (∀ a ∈ B, M' a ≠ none) ∧ TreeOk M' t' B W' Q ∧ ∀ a ∈ B, M' a = M a := by
  induction h with
  | refl => exact ⟨W, hWB, hB, ht, fun _ _ => rfl⟩
  | tail hs hstep ih =>
    obtain ⟨W1, i1, i2, i3, i4⟩ := ih ht
    obtain ⟨W2, -, j2, j3, j4⟩ := tree_step hstep i3 i1 i2
    have hB' : ∀ a ∈ B, ∀ v, _ = some v → _ = some v := fun a ha v hv => j4 a v (fun hw => i1 a hw ha) hv
    refine ⟨W2, fun a ha hb => ?_, fun a ha => ?_, j3, fun a ha => ?_⟩
    · rcases j2 a ha with h | h
      · exact i1 a h hb
      · exact i2 a hb h
    · obtain ⟨v, hv⟩ := Option.ne_none_iff_exists'.1 (i2 a ha)
      rw [hB' a ha v hv]
      simp
    · obtain ⟨v, hv⟩ := Option.ne_none_iff_exists'.1 (i2 a ha)
      rw [hB' a ha v hv, ← i4 a ha, hv]

/-- What a tree is about to write it has taken; what it is about to read it has taken or was lent. -/
theorem tree_access {M : Memory} {t : Threads} {a : Nat} {wr : Bool} (h : Accesses t a wr) : ∀ {B W : Set Nat} {Q : Post},
    TreeOk M t B W Q → (a ∈ B ∨ a ∈ W) ∧ (wr = true → a ∈ W) := by
  induction h with
  | allocRead rs f k r hr =>
    rintro B W Q ⟨m, h1, h2, h3, h4, h5⟩
    exact ⟨h2 _ (h4 _ hr), by simp⟩
  | storeRead a rs f k r hr =>
    rintro B W Q ⟨m, h1, h2, h3, h4, h5, h6⟩
    exact ⟨h2 _ (h5 _ hr), by simp⟩
  | write a rs f k =>
    rintro B W Q ⟨m, h1, h2, h3, h4, h5, h6⟩
    exact ⟨.inr h4, fun _ => h4⟩
  | child n ts k i a wr _ ih =>
    rintro B W Q ⟨m, W0, Ws, Qs, h1, h2, h3, h4, h5, h6, h7, h8, h9⟩
    obtain ⟨i1, i2⟩ := ih (h8 i)
    refine ⟨?_, fun e => (h4 _).2 (.inr ⟨i, i2 e⟩)⟩
    rcases i1 with i1 | i1
    · exact (h2 _ i1).imp id (fun h => (h4 _).2 (.inl h))
    · exact .inr ((h4 _).2 (.inr ⟨i, i1⟩))

/-- No race. -/
theorem tree_no_race {M : Memory} {t : Threads} (h : Race t) : ∀ {B W : Set Nat} {Q : Post}, ¬ TreeOk M t B W Q := by
  induction h with
  | here n ts k i j a wr hij hi hj =>
    rintro B W Q ⟨m, W0, Ws, Qs, h1, h2, h3, h4, h5, h6, h7, h8, h9⟩
    have hw := (tree_access hi (h8 i)).2 rfl
    rcases (tree_access hj (h8 j)).1 with h | h
    · exact h (h5 i a hw)
    · exact h6 i j a hij hw h
  | child n ts k i _ ih =>
    rintro B W Q ⟨m, W0, Ws, Qs, h1, h2, h3, h4, h5, h6, h7, h8, h9⟩
    exact ih (h8 i)

/-- No panic. -/
theorem tree_no_crash {M : Memory} {t : Threads} (h : Crashes t) : ∀ {B W : Set Nat} {Q : Post}, ¬ TreeOk M t B W Q := by
  induction h with
  | run =>
    rintro B W Q ⟨m, h1, h2, h3, h4⟩
    exact h4
  | child n ts k i _ ih =>
    rintro B W Q ⟨m, W0, Ws, Qs, h1, h2, h3, h4, h5, h6, h7, h8, h9⟩
    exact ih (h8 i)

/-- A program that works as it should, in every interleaving. -/
theorem ok_sound {p : MProg} {M : Memory} {Q : Post} (hp : Ok p M ∅ Q) {M' : Memory} {t : Threads} (h : MSteps M (.run p) M' t) :
    ¬ Race t ∧ ¬ Crashes t ∧ Extends M M' ∧ (∀ a, Accesses t a true → M a = none) ∧
    ∀ out, t = .run (.ret out) → ∃ m W, Extends m M' ∧ Q m W out := by
  obtain ⟨W, h1, h2, h3, h4⟩ := tree_steps (B := {a | M a ≠ none}) (W := ∅) h
    ⟨M, Extends.refl M, fun a ha => .inl ha, by simp, hp⟩ (by simp) (fun a ha => ha)
  refine ⟨fun hr => tree_no_race hr h3, fun hc => tree_no_crash hc h3, fun a v hv => ?_, fun a ha => ?_, fun out ho => ?_⟩
  · rw [h4 a (by show M a ≠ none; rw [hv]; simp), hv]
  · by_contra hne
    exact h1 a ((tree_access ha h3).2 rfl) hne
  · subst ho
    obtain ⟨m, j1, j2, j3, j4⟩ := h3
    exact ⟨m, W, j1, j4⟩

end Verif.Lemmas
