import Verif.Go.ForkJoin
import Mathlib.Data.List.FinRange
import Mathlib.Algebra.Order.BigOperators.Group.Finset

/-! # Lemmas about fork-join programs -/

namespace Verif.Go

variable {α : Type}

theorem mapM_ok_iff {β γ : Type} (f : β → Res γ) (l : List β) (vs : List γ) :
    l.mapM f = .ok vs ↔ List.Forall₂ (fun b v => f b = .ok v) l vs := by
  induction l generalizing vs with
  | nil => cases vs <;> simp [pure, Except.pure]
  | cons a l ih =>
    rw [List.mapM_cons]
    cases h : f a with
    | error e =>
      simp only [bind, Except.bind]
      constructor
      · intro h'; cases h'
      · intro h'; cases h' with
        | cons h1 _ => rw [h] at h1; cases h1
    | ok v =>
      simp only [bind, Except.bind]
      cases hl : l.mapM f with
      | error e =>
        simp only
        constructor
        · intro h'; cases h'
        · intro h'; cases h' with
          | cons h1 h2 => rw [(ih _).2 h2] at hl; cases hl
      | ok ws =>
        simp only [pure, Except.pure, Except.ok.injEq]
        constructor
        · rintro rfl; exact .cons h ((ih ws).1 hl)
        · intro h'
          cases h' with
          | cons h1 h2 =>
            rw [h] at h1; cases h1
            have := (ih _).2 h2
            rw [hl] at this; cases this; rfl

theorem mapM_error_of {β γ : Type} (f : β → Res γ) (l : List β) (b : β) (hb : b ∈ l) (e : String)
    (he : f b = .error e) : ∃ e', l.mapM f = .error e' := by
  cases h : l.mapM f with
  | error e' => exact ⟨e', rfl⟩
  | ok vs =>
    exfalso
    have h2 := (mapM_ok_iff f l vs).1 h
    clear h
    induction h2 with
    | nil => cases hb
    | cons h1 _ ih =>
      rcases List.mem_cons.1 hb with rfl | hb
      · rw [he] at h1; cases h1
      · exact ih hb

theorem finRange_mapM_ok_iff {γ : Type} (n : Nat) (f : Fin n → Res γ) (vs : List γ) :
    (List.finRange n).mapM f = .ok vs ↔
      ∃ h : vs.length = n, ∀ i : Fin n, f i = .ok (vs[i.val]'(by rw [h]; exact i.isLt)) := by
  rw [mapM_ok_iff, List.forall₂_iff_get]
  simp only [List.length_finRange, List.get_eq_getElem, List.getElem_finRange]
  constructor
  · rintro ⟨h, h2⟩
    refine ⟨h.symm, fun i => ?_⟩
    have := h2 i.val i.isLt (by rw [← h]; exact i.isLt)
    simpa using this
  · rintro ⟨h, h2⟩
    refine ⟨h.symm, fun i h3 h4 => ?_⟩
    have := h2 ⟨i, h3⟩
    simpa using this

/-- Invariant linking a run-time state to the program it started from. -/
inductive Good : Prog α → Cfg α → Prop
  | run (p : Prog α) : Good p (.run p)
  | send (p : Prog α) (v : α) : p.eval = .ok v → Good p (.send v)
  | crash (p : Prog α) (e : String) : p.eval = .error e → Good p .crash
  | wait (n : Nat) (ps : Fin n → Prog α) (k : List α → Res α) (cs : Fin n → Cfg α) (got : List α)
      (hle : got.length ≤ n)
      (hdone : ∀ i : Fin n, ∀ h : i.val < got.length, cs i = .done ∧ (ps i).eval = .ok got[i.val])
      (hrest : ∀ i : Fin n, got.length ≤ i.val → Good (ps i) (cs i)) :
      Good (.fork n ps k) (.wait n cs got k)

theorem eval_fork_ok (n : Nat) (ps : Fin n → Prog α) (k : List α → Res α) (got : List α)
    (hlen : got.length = n) (h : ∀ i : Fin n, (ps i).eval = .ok (got[i.val]'(by rw [hlen]; exact i.isLt))) :
    (Prog.fork n ps k).eval = k got := by
  have : (List.finRange n).mapM (fun i => (ps i).eval) = .ok got :=
    (finRange_mapM_ok_iff n _ got).2 ⟨hlen, h⟩
  simp only [Prog.eval]
  rw [this]; rfl

theorem eval_fork_error (n : Nat) (ps : Fin n → Prog α) (k : List α → Res α) (i : Fin n) (e : String)
    (h : (ps i).eval = .error e) : ∃ e', (Prog.fork n ps k).eval = .error e' := by
  obtain ⟨e', he'⟩ := mapM_error_of (fun i => (ps i).eval) (List.finRange n) i (List.mem_finRange i) e h
  refine ⟨e', ?_⟩
  simp only [Prog.eval]
  rw [he']; rfl

theorem Good.of_send {p : Prog α} {v : α} (h : Good p (.send v)) : p.eval = .ok v := by
  generalize hc : Cfg.send v = c at h
  cases h with
  | send _ v' h => cases hc; exact h
  | _ => cases hc

theorem Good.of_crash {p : Prog α} (h : Good p .crash) : ∃ e, p.eval = .error e := by
  generalize hc : Cfg.crash = c at h
  cases h with
  | crash _ e h => exact ⟨e, h⟩
  | _ => cases hc

theorem Good.step {p : Prog α} {c c' : Cfg α} (hg : Good p c) (hs : Step c c') : Good p c' := by
  induction hg generalizing c' with
  | run p =>
    cases hs with
    | retOk v => exact .send _ _ rfl
    | retPanic e => exact .crash _ _ rfl
    | fork n cs k =>
      exact .wait n cs k _ [] (Nat.zero_le _) (fun i h => absurd h (Nat.not_lt_zero _)) (fun i _ => .run _)
  | send p v _ => cases hs
  | crash p e _ => cases hs
  | wait n ps k cs got hle hdone hrest ih =>
    cases hs with
    | child _ _ _ _ i c'' hi =>
      have hi' : got.length ≤ i.val := by
        by_contra hlt
        have := (hdone i (by omega)).1
        rw [this] at hi; cases hi
      refine .wait n ps k _ got hle ?_ ?_
      · intro j hj
        have hne : j ≠ i := by rintro rfl; omega
        rw [Function.update_of_ne hne]; exact hdone j hj
      · intro j hj
        by_cases hji : j = i
        · subst hji; rw [Function.update_self]; exact ih j hj hi
        · rw [Function.update_of_ne hji]; exact hrest j hj
    | recv _ _ _ _ h v hv =>
      have hgood := hrest ⟨got.length, h⟩ (Nat.le_refl _)
      rw [hv] at hgood
      have hev : (ps ⟨got.length, h⟩).eval = .ok v := hgood.of_send
      refine .wait n ps k _ (got ++ [v]) (by simp; omega) ?_ ?_
      · intro j hj
        simp only [List.length_append, List.length_cons, List.length_nil] at hj
        by_cases hjg : j.val = got.length
        · have hj' : j = ⟨got.length, h⟩ := Fin.ext hjg
          subst hj'
          simp only [Function.update_self, true_and]
          rw [hev]; simp
        · have hne : j ≠ ⟨got.length, h⟩ := fun hh => hjg (by rw [hh])
          rw [Function.update_of_ne hne]
          have := hdone j (by omega)
          refine ⟨this.1, ?_⟩
          rw [this.2, List.getElem_append_left]
      · intro j hj
        simp only [List.length_append, List.length_cons, List.length_nil] at hj
        have hne : j ≠ ⟨got.length, h⟩ := fun hh => by rw [hh] at hj; simp at hj
        rw [Function.update_of_ne hne]
        exact hrest j (by omega)
    | childCrash _ _ _ _ i hi =>
      have hi' : got.length ≤ i.val := by
        by_contra hlt
        have := (hdone i (by omega)).1
        rw [this] at hi; cases hi
      have hgood := hrest i hi'
      rw [hi] at hgood
      have : ∃ e, (ps i).eval = .error e := hgood.of_crash
      obtain ⟨e, he⟩ := this
      obtain ⟨e', he'⟩ := eval_fork_error n ps k i e he
      exact .crash _ _ he'
    | joinOk _ _ _ _ v hlen hk =>
      refine .send _ _ ?_
      rw [eval_fork_ok n ps k got hlen (fun i => (hdone i (by omega)).2)]; exact hk
    | joinPanic _ _ _ _ e hlen hk =>
      refine .crash _ e ?_
      rw [eval_fork_ok n ps k got hlen (fun i => (hdone i (by omega)).2)]; exact hk

theorem Good.steps {p : Prog α} {c c' : Cfg α} (hg : Good p c) (hs : Steps c c') : Good p c' := by
  induction hs with
  | refl => exact hg
  | tail _ h ih => exact ih.step h

/-- A goroutine that has not delivered its value and has not crashed can move (or one below it can). -/
theorem Good.progress {p : Prog α} {c : Cfg α} (hg : Good p c) :
    (∃ v, c = .send v) ∨ c = .crash ∨ ∃ c', Step c c' := by
  induction hg with
  | run p =>
    right; right
    cases p with
    | ret v => cases v with
      | ok v => exact ⟨_, .retOk v⟩
      | error e => exact ⟨_, .retPanic e⟩
    | fork n cs k => exact ⟨_, .fork n cs k⟩
  | send p v _ => exact .inl ⟨v, rfl⟩
  | crash => exact .inr (.inl rfl)
  | wait n ps k cs got hle hdone hrest ih =>
    right; right
    by_cases hlen : got.length = n
    · cases hk : k got with
      | ok v => exact ⟨_, .joinOk n cs got k v hlen hk⟩
      | error e => exact ⟨_, .joinPanic n cs got k e hlen hk⟩
    · have hlt : got.length < n := by omega
      rcases ih ⟨got.length, hlt⟩ (Nat.le_refl _) with ⟨v, hv⟩ | hc | ⟨c', hc'⟩
      · exact ⟨_, .recv n cs got k hlt v hv⟩
      · exact ⟨_, .childCrash n cs got k _ hc⟩
      · exact ⟨_, .child n cs got k _ c' hc'⟩

/-- Upper bound on the number of steps of a program. -/
def Prog.weight : Prog α → Nat
  | .ret _ => 1
  | .fork n cs _ => 2 + n + ∑ i, (cs i).weight

/-- Upper bound on the number of remaining steps. -/
def Cfg.weight : Cfg α → Nat
  | .run p => p.weight
  | .wait n cs got _ => 1 + (n - got.length) + ∑ i, (cs i).weight
  | .send _ => 0
  | .done => 0
  | .crash => 0

theorem sum_update_lt {n : Nat} (f : Fin n → Cfg α) (i : Fin n) (c : Cfg α) (h : c.weight < (f i).weight) :
    ∑ j, (Function.update f i c j).weight < ∑ j, (f j).weight := by
  apply Finset.sum_lt_sum
  · intro j _
    by_cases hj : j = i
    · subst hj; rw [Function.update_self]; exact Nat.le_of_lt h
    · rw [Function.update_of_ne hj]
  · exact ⟨i, Finset.mem_univ _, by rw [Function.update_self]; exact h⟩

theorem sum_update_le {n : Nat} (f : Fin n → Cfg α) (i : Fin n) (c : Cfg α) (h : c.weight ≤ (f i).weight) :
    ∑ j, (Function.update f i c j).weight ≤ ∑ j, (f j).weight := by
  apply Finset.sum_le_sum
  intro j _
  by_cases hj : j = i
  · subst hj; rw [Function.update_self]; exact h
  · rw [Function.update_of_ne hj]

/-- Every step lowers the weight: there are no infinite executions. -/
theorem Step.weight_lt {c c' : Cfg α} (h : Step c c') : c'.weight < c.weight := by
  induction h with
  | retOk v => simp [Cfg.weight, Prog.weight]
  | retPanic e => simp [Cfg.weight, Prog.weight]
  | fork n cs k => simp [Cfg.weight, Prog.weight]
  | child n cs got k i c' hs ih =>
    simp only [Cfg.weight]
    have := sum_update_lt cs i c' ih
    omega
  | recv n cs got k h v hv =>
    simp only [Cfg.weight, List.length_append, List.length_cons, List.length_nil]
    have := sum_update_le cs ⟨got.length, h⟩ .done (Nat.zero_le _)
    omega
  | childCrash => simp [Cfg.weight]
  | joinOk => simp [Cfg.weight]
  | joinPanic => simp [Cfg.weight]

end Verif.Go
