import Verif.Spec.Pool
import Verif.Go.Exec
import Mathlib.Data.List.Basic
import Mathlib.Data.List.Nodup
import Mathlib.Tactic.Common

namespace Verif.Lemmas.Pool
open Verif.Go Verif.Model.Pool Verif.Spec

/-- No use after `Put`: `own` are the variables whose cell belongs to the goroutine, `init` those whose value it knows.
With `strict = false` only the writes are checked, not the reads. -/
def check (strict : Bool) : List Nat → List Nat → List Instr → Bool
  | _, _, [] => true
  | own, ini, .get r :: k => check strict (r :: own.filter (· ≠ r)) (ini.filter (· ≠ r)) k
  | own, ini, .fresh r :: k => check strict (r :: own.filter (· ≠ r)) (r :: ini.filter (· ≠ r)) k
  | own, ini, .put r :: k => decide (r ∈ own) && check strict (own.filter (· ≠ r)) (ini.filter (· ≠ r)) k
  | own, ini, .set d srcs _ :: k =>
    decide (d ∈ own) && (!strict || srcs.all fun r => decide (r ∈ ini)) && check strict own (d :: ini) k
  | own, ini, .havoc d :: k => decide (d ∈ own) && check strict own (ini.filter (· ≠ d)) k
  | own, ini, .out r :: k => (!strict || decide (r ∈ ini)) && check strict own ini k

/-- `own` after the program. -/
def ownAfter : List Nat → List Instr → List Nat
  | own, [] => own
  | own, .get r :: k => ownAfter (r :: own.filter (· ≠ r)) k
  | own, .fresh r :: k => ownAfter (r :: own.filter (· ≠ r)) k
  | own, .put r :: k => ownAfter (own.filter (· ≠ r)) k
  | own, .set _ _ _ :: k => ownAfter own k
  | own, .havoc _ :: k => ownAfter own k
  | own, .out _ :: k => ownAfter own k

theorem filter_mono {l l' : List Nat} (r : Nat) (h : l ⊆ l') : l.filter (· ≠ r) ⊆ l'.filter (· ≠ r) := by
  intro x hx
  simp only [ne_eq, decide_not, List.mem_filter, Bool.not_eq_eq_eq_not, Bool.not_true, decide_eq_false_iff_not] at hx ⊢
  exact ⟨h hx.1, hx.2⟩

theorem cons_mono {l l' : List Nat} (r : Nat) (h : l ⊆ l') : r :: l ⊆ r :: l' := List.cons_subset_cons r h

theorem check_mono (b : Bool) : ∀ (k : List Instr) (own own' ini ini' : List Nat), own ⊆ own' → ini ⊆ ini' →
    check b own ini k = true → check b own' ini' k = true := by
  intro k
  induction k with
  | nil => intros; rfl
  | cons x k ih =>
    intro own own' ini ini' ho hi h
    cases x with
    | get r => exact ih _ _ _ _ (cons_mono r (filter_mono r ho)) (filter_mono r hi) h
    | fresh r => exact ih _ _ _ _ (cons_mono r (filter_mono r ho)) (cons_mono r (filter_mono r hi)) h
    | put r =>
      simp only [check, Bool.and_eq_true, decide_eq_true_eq] at h ⊢
      exact ⟨ho h.1, ih _ _ _ _ (filter_mono r ho) (filter_mono r hi) h.2⟩
    | set d srcs f =>
      simp only [check, Bool.and_eq_true, decide_eq_true_eq, Bool.or_eq_true, List.all_eq_true] at h ⊢
      exact ⟨⟨ho h.1.1, h.1.2.imp_right fun h' x hx => hi (h' x hx)⟩, ih _ _ _ _ ho (cons_mono d hi) h.2⟩
    | havoc d =>
      simp only [check, Bool.and_eq_true, decide_eq_true_eq] at h ⊢
      exact ⟨ho h.1, ih _ _ _ _ ho (filter_mono d hi) h.2⟩
    | out r =>
      simp only [check, Bool.and_eq_true, decide_eq_true_eq, Bool.or_eq_true] at h ⊢
      exact ⟨h.1.imp_right fun h' => hi h', ih _ _ _ _ ho hi h.2⟩

/-- A program that needs nothing can follow any program. -/
theorem check_append (b : Bool) (q : List Instr) (hq : check b [] [] q = true) : ∀ (k : List Instr) (own ini : List Nat),
    check b own ini k = true → check b own ini (k ++ q) = true := by
  intro k
  induction k with
  | nil => intro own ini _; exact check_mono b q _ _ _ _ (List.nil_subset _) (List.nil_subset _) hq
  | cons x k ih =>
    intro own ini h
    cases x with
    | get r => exact ih _ _ h
    | fresh r => exact ih _ _ h
    | put r =>
      simp only [check, List.cons_append, Bool.and_eq_true] at h ⊢
      exact ⟨h.1, ih _ _ h.2⟩
    | set d srcs f =>
      simp only [check, List.cons_append, Bool.and_eq_true] at h ⊢
      exact ⟨h.1, ih _ _ h.2⟩
    | havoc d =>
      simp only [check, List.cons_append, Bool.and_eq_true] at h ⊢
      exact ⟨h.1, ih _ _ h.2⟩
    | out r =>
      simp only [check, List.cons_append, Bool.and_eq_true] at h ⊢
      exact ⟨h.1, ih _ _ h.2⟩

theorem check_flatten (b : Bool) (l : List (List Instr)) (h : ∀ q ∈ l, check b [] [] q = true) :
    check b [] [] l.flatten = true := by
  induction l with
  | nil => rfl
  | cons q l ih =>
    rw [List.flatten_cons]
    exact check_append b _ (ih fun q' h' => h q' (List.mem_cons_of_mem _ h')) _ _ _ (h q (by simp))

/-- A checked program uses only values it knows. -/
theorem alone_congr : ∀ (k : List Instr) (own ini : List Nat) (v w : Nat → Int), check true own ini k = true →
    (∀ r ∈ ini, v r = w r) → alone k v = alone k w := by
  intro k
  induction k with
  | nil => intros; rfl
  | cons x k ih =>
    intro own ini v w h hv
    have upd : ∀ r a, ∀ r' ∈ r :: ini, Function.update v r a r' = Function.update w r a r' := by
      intro r a r' hr'
      by_cases e : r' = r
      · subst e; simp
      · rw [Function.update_of_ne e, Function.update_of_ne e]
        exact hv r' ((List.mem_cons.1 hr').resolve_left e)
    have fil : ∀ r r', r' ∈ ini.filter (· ≠ r) → r' ∈ ini := fun r r' h => List.mem_of_mem_filter h
    cases x with
    | get r => exact ih _ _ _ _ h fun r' hr' => upd r 0 r' (List.mem_cons_of_mem _ (fil _ _ hr'))
    | fresh r =>
      refine ih _ _ _ _ h fun r' hr' => upd r 0 r' ?_
      rcases List.mem_cons.1 hr' with e | e
      · exact e ▸ List.mem_cons_self
      · exact List.mem_cons_of_mem _ (fil _ _ e)
    | put r =>
      simp only [check, Bool.and_eq_true] at h
      exact ih _ _ _ _ h.2 fun r' hr' => hv r' (fil _ _ hr')
    | set d srcs f =>
      simp only [check, Bool.and_eq_true, Bool.not_true, Bool.false_or, List.all_eq_true, decide_eq_true_eq] at h
      have : srcs.map v = srcs.map w := List.map_congr_left fun r hr => hv r (h.1.2 r hr)
      simp only [alone, this]
      exact ih _ _ _ _ h.2 (upd d _)
    | havoc d =>
      simp only [check, Bool.and_eq_true] at h
      exact ih _ _ _ _ h.2 fun r' hr' => hv r' (fil _ _ hr')
    | out r =>
      simp only [check, Bool.and_eq_true, Bool.not_true, Bool.false_or, decide_eq_true_eq] at h
      simp only [alone, hv r h.1]
      rw [ih _ _ _ _ h.2 hv]

theorem alone_append (q : List Instr) (hq : check true [] [] q = true) : ∀ (k : List Instr) (v : Nat → Int),
    alone (k ++ q) v = alone k v ++ alone q fun _ => 0 := by
  intro k
  induction k with
  | nil => intro v; exact alone_congr q [] [] _ _ hq (fun _ h => absurd h (by simp))
  | cons x k ih =>
    intro v
    cases x <;> simp only [List.cons_append, alone, ih]

theorem alone_flatten (l : List (List Instr)) (h : ∀ q ∈ l, check true [] [] q = true) (v : Nat → Int) :
    alone l.flatten v = (l.map fun q => alone q fun _ => 0).flatten := by
  have : ∀ l : List (List Instr), (∀ q ∈ l, check true [] [] q = true) →
      alone l.flatten (fun _ => 0) = (l.map fun q => alone q fun _ => 0).flatten := by
    intro l
    induction l with
    | nil => intro _; rfl
    | cons q l ih =>
      intro h
      have hl : ∀ q' ∈ l, check true [] [] q' = true := fun q' h' => h q' (List.mem_cons_of_mem _ h')
      rw [List.flatten_cons, alone_append _ (check_flatten true l hl), ih hl]
      rfl
  rw [← this l h]
  exact alone_congr _ [] [] _ _ (check_flatten true l h) (fun _ h => absurd h (by simp))

/-- The invariant of all interleavings. `clean i`: the reads of goroutine `i` are checked too. -/
structure Inv (clean : Nat → Bool) (progs : Nat → List Instr) (own ini : Nat → List Nat) (vals : Nat → Nat → Int)
    (s : State) : Prop where
  ok : ∀ i, check (clean i) (own i) (ini i) (s.threads i).code = true
  sub : ∀ i, ini i ⊆ own i
  known : ∀ i, clean i = true → ∀ r ∈ ini i, s.heap ((s.threads i).regs r) = vals i r
  outs : ∀ i, clean i = true → (s.threads i).outs ++ alone (s.threads i).code (vals i) = alone (progs i) fun _ => 0
  bound : ∀ i, ∀ r ∈ own i, (s.threads i).regs r < s.next
  unpooled : ∀ i, ∀ r ∈ own i, (s.threads i).regs r ∉ s.pool
  apart : ∀ i j, ∀ r ∈ own i, ∀ r' ∈ own j, (s.threads i).regs r = (s.threads j).regs r' → i = j ∧ r = r'
  nodup : s.pool.Nodup
  poolBound : ∀ c ∈ s.pool, c < s.next

theorem upd_same {α : Type*} (f : Nat → α) (i : Nat) (a : α) : Function.update f i a i = a := Function.update_self ..
theorem upd_ne {α : Type*} (f : Nat → α) {i j : Nat} (a : α) (h : j ≠ i) : Function.update f i a j = f j :=
  Function.update_of_ne h ..

section
variable {clean : Nat → Bool} {progs : Nat → List Instr} {own ini : Nat → List Nat} {vals : Nat → Nat → Int} {s : State}

/-- Taking a cell `c` that nobody owns (pooled or new). -/
theorem inv_take (I : Inv clean progs own ini vals s) (i r c : Nat) (k : List Instr) (heap' : Nat → Int) (next' : Nat)
    (pool' : List Nat) (ini' : List Nat) (hini : ini' ⊆ r :: (own i).filter (· ≠ r))
    (hk : check (clean i) (r :: (own i).filter (· ≠ r)) ini' k = true)
    (hheap : ∀ x, x ≠ c → heap' x = s.heap x) (hnext : s.next ≤ next') (hc : c < next')
    (hfree : ∀ j, ∀ r' ∈ own j, (s.threads j).regs r' ≠ c) (hcpool : c ∉ pool') (hsub : ∀ x ∈ pool', x ∈ s.pool)
    (hnd : pool'.Nodup)
    (hval : ∀ r' ∈ ini', r' = r ∧ heap' c = 0 ∨ r' ≠ r ∧ r' ∈ ini i)
    (hout : clean i = true → alone (s.threads i).code (vals i) = alone k (Function.update (vals i) r 0)) :
    Inv clean progs (Function.update own i (r :: (own i).filter (· ≠ r))) (Function.update ini i ini')
      (Function.update vals i (Function.update (vals i) r 0))
      { heap := heap', next := next', pool := pool',
        threads := Function.update s.threads i ⟨k, Function.update (s.threads i).regs r c, (s.threads i).outs⟩ } := by
  have own_cases : ∀ r', r' ∈ r :: (own i).filter (· ≠ r) → r' = r ∨ (r' ≠ r ∧ r' ∈ own i) := by
    intro r' h
    rcases List.mem_cons.1 h with e | e
    · exact .inl e
    · simp only [ne_eq, decide_not, List.mem_filter, Bool.not_eq_eq_eq_not, Bool.not_true, decide_eq_false_iff_not] at e
      exact .inr ⟨e.2, e.1⟩
  constructor
  · intro j
    by_cases e : j = i
    · subst e; simp only [upd_same]; exact hk
    · simp only [upd_ne _ _ e]; exact I.ok j
  · intro j
    by_cases e : j = i
    · subst e; simp only [upd_same]; exact hini
    · simp only [upd_ne _ _ e]; exact I.sub j
  · intro j hj r' hr'
    by_cases e : j = i
    · subst e
      simp only [upd_same] at hr' ⊢
      rcases hval r' hr' with ⟨e1, e2⟩ | ⟨e1, e2⟩
      · subst e1; simp only [upd_same]; exact e2
      · rw [upd_ne _ _ e1, upd_ne _ _ e1, hheap _ (hfree j r' (I.sub j e2))]
        exact I.known j hj r' e2
    · simp only [upd_ne _ _ e] at hr' ⊢
      rw [hheap _ (hfree j r' (I.sub j hr'))]
      exact I.known j hj r' hr'
  · intro j hj
    by_cases e : j = i
    · subst e
      simp only [upd_same]
      rw [← hout hj]
      exact I.outs j hj
    · simp only [upd_ne _ _ e]; exact I.outs j hj
  · intro j r' hr'
    by_cases e : j = i
    · subst e
      simp only [upd_same] at hr' ⊢
      rcases own_cases r' hr' with e1 | ⟨e1, e2⟩
      · subst e1; simp only [upd_same]; exact hc
      · rw [upd_ne _ _ e1]; exact lt_of_lt_of_le (I.bound j r' e2) hnext
    · simp only [upd_ne _ _ e] at hr' ⊢; exact lt_of_lt_of_le (I.bound j r' hr') hnext
  · intro j r' hr'
    by_cases e : j = i
    · subst e
      simp only [upd_same] at hr' ⊢
      rcases own_cases r' hr' with e1 | ⟨e1, e2⟩
      · subst e1; simp only [upd_same]; exact hcpool
      · rw [upd_ne _ _ e1]; exact fun h => I.unpooled j r' e2 (hsub _ h)
    · simp only [upd_ne _ _ e] at hr' ⊢; exact fun h => I.unpooled j r' hr' (hsub _ h)
  · intro j j' r1 h1 r2 h2 heq
    by_cases e : j = i <;> by_cases e' : j' = i
    · subst e; subst e'
      simp only [upd_same] at h1 h2 heq
      rcases own_cases r1 h1 with e1 | ⟨e1, m1⟩ <;> rcases own_cases r2 h2 with e2 | ⟨e2, m2⟩
      · exact ⟨rfl, e1.trans e2.symm⟩
      · subst e1; rw [upd_same, upd_ne _ _ e2] at heq; exact absurd heq.symm (hfree _ _ m2)
      · subst e2; rw [upd_same, upd_ne _ _ e1] at heq; exact absurd heq (hfree _ _ m1)
      · rw [upd_ne _ _ e1, upd_ne _ _ e2] at heq; exact I.apart _ _ _ m1 _ m2 heq
    · subst e
      simp only [upd_same, upd_ne _ _ e'] at h1 h2 heq
      rcases own_cases r1 h1 with e1 | ⟨e1, m1⟩
      · subst e1; rw [upd_same] at heq; exact absurd heq.symm (hfree _ _ h2)
      · rw [upd_ne _ _ e1] at heq; exact I.apart _ _ _ m1 _ h2 heq
    · subst e'
      simp only [upd_same, upd_ne _ _ e] at h1 h2 heq
      rcases own_cases r2 h2 with e1 | ⟨e1, m1⟩
      · subst e1; rw [upd_same] at heq; exact absurd heq (hfree _ _ h1)
      · rw [upd_ne _ _ e1] at heq; exact I.apart _ _ _ h1 _ m1 heq
    · simp only [upd_ne _ _ e, upd_ne _ _ e'] at h1 h2 heq
      exact I.apart _ _ _ h1 _ h2 heq
  · exact hnd
  · exact fun c' h => lt_of_lt_of_le (I.poolBound c' (hsub c' h)) hnext

/-- A step that keeps the variables of goroutine `i` and writes at most to the cell of an owned variable `d`. -/
theorem inv_write (I : Inv clean progs own ini vals s) (i d : Nat) (k : List Instr) (v : Int) (ini' : List Nat)
    (vals' : Nat → Int) (hd : d ∈ own i) (hini : ini' ⊆ own i) (hk : check (clean i) (own i) ini' k = true)
    (hval : clean i = true → ∀ r ∈ ini', r = d ∧ v = vals' d ∨ r ≠ d ∧ r ∈ ini i ∧ vals' r = vals i r)
    (hout : clean i = true → alone (s.threads i).code (vals i) = alone k vals') :
    Inv clean progs own (Function.update ini i ini') (Function.update vals i vals')
      { s with
        heap := Function.update s.heap ((s.threads i).regs d) v
        threads := Function.update s.threads i ⟨k, (s.threads i).regs, (s.threads i).outs⟩ } := by
  have regs_eq : ∀ j, (Function.update s.threads i ⟨k, (s.threads i).regs, (s.threads i).outs⟩ j).regs =
      (s.threads j).regs := by
    intro j
    by_cases e : j = i
    · subst e; rw [upd_same]
    · rw [upd_ne _ _ e]
  have heap_ne : ∀ j, ∀ r ∈ own j, ¬ (j = i ∧ r = d) →
      Function.update s.heap ((s.threads i).regs d) v ((s.threads j).regs r) = s.heap ((s.threads j).regs r) := by
    intro j r hr hne
    apply Function.update_of_ne
    intro heq
    exact hne (I.apart j i r hr d hd heq)
  constructor
  · intro j
    by_cases e : j = i
    · subst e; simp only [upd_same]; exact hk
    · simp only [upd_ne _ _ e]; exact I.ok j
  · intro j
    by_cases e : j = i
    · subst e; simp only [upd_same]; exact hini
    · simp only [upd_ne _ _ e]; exact I.sub j
  · intro j hj r hr
    simp only [regs_eq]
    by_cases e : j = i
    · subst e
      simp only [upd_same] at hr ⊢
      rcases hval hj r hr with ⟨e1, e2⟩ | ⟨e1, e2, e3⟩
      · subst e1; rw [Function.update_self]; exact e2
      · rw [heap_ne j r (I.sub j e2) (fun h => e1 h.2), e3]
        exact I.known j hj r e2
    · simp only [upd_ne _ _ e] at hr ⊢
      rw [heap_ne j r (I.sub j hr) (fun h => e h.1)]
      exact I.known j hj r hr
  · intro j hj
    by_cases e : j = i
    · subst e
      simp only [upd_same]
      rw [← hout hj]
      exact I.outs j hj
    · simp only [upd_ne _ _ e]; exact I.outs j hj
  · intro j r hr; simp only [regs_eq]; exact I.bound j r hr
  · intro j r hr; simp only [regs_eq]; exact I.unpooled j r hr
  · intro j j' r hr r' hr' h; simp only [regs_eq] at h; exact I.apart j j' r hr r' hr' h
  · exact I.nodup
  · exact I.poolBound

theorem inv_step (I : Inv clean progs own ini vals s) (i : Nat) (ch : Choice) (t : State) (h : stepFn s i ch = some t) :
    ∃ own' ini' vals', Inv clean progs own' ini' vals' t := by
  have hok := I.ok i
  have houts := I.outs i
  unfold stepFn at h
  simp only at h
  split at h
  · cases h
  · -- get
    rename_i r k hcode
    rw [hcode] at hok houts
    simp only [check] at hok
    have hval : ∀ heap' : Nat → Int, ∀ r' ∈ (ini i).filter (· ≠ r), r' = r ∧ heap' 0 = 0 ∨ r' ≠ r ∧ r' ∈ ini i := by
      intro heap' r' hr'
      simp only [ne_eq, decide_not, List.mem_filter, Bool.not_eq_eq_eq_not, Bool.not_true,
        decide_eq_false_iff_not] at hr'
      exact .inr ⟨hr'.2, hr'.1⟩
    have hsub : (ini i).filter (· ≠ r) ⊆ r :: (own i).filter (· ≠ r) :=
      fun x hx => List.mem_cons_of_mem _ (filter_mono r (I.sub i) hx)
    split at h
    · split at h
      · rename_i c hc
        cases h
        have hcn : c ∉ s.pool.erase c := fun hh => (List.Nodup.mem_erase_iff I.nodup).1 hh |>.1 rfl
        refine ⟨_, _, _, inv_take I i r c k s.heap s.next (s.pool.erase c) _ hsub hok (fun _ _ => rfl) le_rfl
          (I.poolBound c hc) (fun j r' hr' e => I.unpooled j r' hr' (e ▸ hc)) hcn (fun x hx => List.mem_of_mem_erase hx)
          (I.nodup.erase c) ?_ (fun _ => by rw [hcode]; rfl)⟩
        intro r' hr'
        have := hval (fun _ => 1) r' hr'
        rcases this with ⟨_, e⟩ | e
        · exact absurd e (by decide)
        · exact .inr e
      · cases h
    · cases h
      unfold State.alloc
      refine ⟨_, _, _, inv_take I i r s.next k _ (s.next + 1) s.pool _ hsub hok
        (fun x hx => Function.update_of_ne hx ..) (by omega) (by omega)
        (fun j r' hr' e => absurd (I.bound j r' hr') (by omega))
        (fun hh => absurd (I.poolBound _ hh) (by omega)) (fun _ hx => hx) I.nodup ?_ (fun _ => by rw [hcode]; rfl)⟩
      intro r' hr'
      rcases hval (fun _ => 1) r' hr' with ⟨_, e⟩ | e
      · exact absurd e (by decide)
      · exact .inr e
  · -- fresh
    rename_i r k hcode
    rw [hcode] at hok houts
    simp only [check] at hok
    cases h
    unfold State.alloc
    refine ⟨_, _, _, inv_take I i r s.next k _ (s.next + 1) s.pool _ (cons_mono r (filter_mono r (I.sub i))) hok
      (fun x hx => Function.update_of_ne hx ..) (by omega) (by omega)
      (fun j r' hr' e => absurd (I.bound j r' hr') (by omega))
      (fun hh => absurd (I.poolBound _ hh) (by omega)) (fun _ hx => hx) I.nodup ?_ (fun _ => by rw [hcode]; rfl)⟩
    intro r' hr'
    rcases List.mem_cons.1 hr' with e | e
    · exact .inl ⟨e, Function.update_self ..⟩
    · simp only [ne_eq, decide_not, List.mem_filter, Bool.not_eq_eq_eq_not, Bool.not_true,
        decide_eq_false_iff_not] at e
      exact .inr ⟨e.2, e.1⟩
  · -- put
    rename_i r k hcode
    rw [hcode] at hok houts
    simp only [check, Bool.and_eq_true, decide_eq_true_eq] at hok
    cases h
    have regs_eq : ∀ j, (Function.update s.threads i ⟨k, (s.threads i).regs, (s.threads i).outs⟩ j).regs =
        (s.threads j).regs := by
      intro j
      by_cases e : j = i
      · subst e; rw [upd_same]
      · rw [upd_ne _ _ e]
    have hmem : ∀ j r', r' ∈ Function.update own i ((own i).filter (· ≠ r)) j → r' ∈ own j ∧ ¬ (j = i ∧ r' = r) := by
      intro j r' h
      by_cases e : j = i
      · subst e
        rw [upd_same] at h
        simp only [ne_eq, decide_not, List.mem_filter, Bool.not_eq_eq_eq_not, Bool.not_true,
          decide_eq_false_iff_not] at h
        exact ⟨h.1, fun hh => h.2 hh.2⟩
      · rw [upd_ne _ _ e] at h
        exact ⟨h, fun hh => e hh.1⟩
    refine ⟨Function.update own i ((own i).filter (· ≠ r)), Function.update ini i ((ini i).filter (· ≠ r)), vals, ?_⟩
    constructor
    · intro j
      by_cases e : j = i
      · subst e; simp only [upd_same]; exact hok.2
      · simp only [upd_ne _ _ e]; exact I.ok j
    · intro j
      by_cases e : j = i
      · subst e; simp only [upd_same]; exact filter_mono r (I.sub j)
      · simp only [upd_ne _ _ e]; exact I.sub j
    · intro j hj r' hr'
      simp only [regs_eq]
      by_cases e : j = i
      · subst e; simp only [upd_same] at hr'; exact I.known j hj r' (List.mem_of_mem_filter hr')
      · simp only [upd_ne _ _ e] at hr'; exact I.known j hj r' hr'
    · intro j hj
      by_cases e : j = i
      · subst e; simp only [upd_same]; exact houts hj
      · simp only [upd_ne _ _ e]; exact I.outs j hj
    · intro j r' hr'; simp only [regs_eq]; exact I.bound j r' (hmem j r' hr').1
    · intro j r' hr'
      simp only [regs_eq]
      obtain ⟨h1, h2⟩ := hmem j r' hr'
      intro hh
      rcases List.mem_cons.1 hh with e | e
      · exact h2 (I.apart j i r' h1 r hok.1 e)
      · exact I.unpooled j r' h1 e
    · intro j j' r1 h1 r2 h2 heq
      simp only [regs_eq] at heq
      exact I.apart j j' r1 (hmem _ _ h1).1 r2 (hmem _ _ h2).1 heq
    · exact List.nodup_cons.2 ⟨I.unpooled i r hok.1, I.nodup⟩
    · intro c hc
      rcases List.mem_cons.1 hc with e | e
      · rw [e]; exact I.bound i r hok.1
      · exact I.poolBound c e
  · -- set
    rename_i d srcs f k hcode
    rw [hcode] at hok houts
    simp only [check, Bool.and_eq_true, decide_eq_true_eq, Bool.or_eq_true, List.all_eq_true] at hok
    cases h
    by_cases hcl : clean i = true
    · have hs : (srcs.map fun r => s.heap ((s.threads i).regs r)) = srcs.map (vals i) := by
        apply List.map_congr_left
        intro r hr
        refine I.known i hcl r (hok.1.2.resolve_left ?_ r hr)
        simp [hcl]
      rw [hs]
      refine ⟨_, _, _, inv_write I i d k _ (d :: (ini i).filter (· ≠ d))
        (Function.update (vals i) d (f (srcs.map (vals i)))) hok.1.1 ?_ ?_ ?_ (fun _ => by rw [hcode]; rfl)⟩
      · intro x hx
        rcases List.mem_cons.1 hx with e | e
        · exact e ▸ hok.1.1
        · exact I.sub i (List.mem_of_mem_filter e)
      · refine check_mono _ k _ _ _ _ (fun _ h => h) ?_ hok.2
        intro x hx
        by_cases e : x = d
        · subst e; exact List.mem_cons_self
        · refine List.mem_cons_of_mem _ ?_
          simp only [ne_eq, decide_not, List.mem_filter, Bool.not_eq_eq_eq_not, Bool.not_true, decide_eq_false_iff_not]
          exact ⟨(List.mem_cons.1 hx).resolve_left e, e⟩
      · intro _ r hr
        rcases List.mem_cons.1 hr with e | e
        · exact .inl ⟨e, by rw [Function.update_self]⟩
        · simp only [ne_eq, decide_not, List.mem_filter, Bool.not_eq_eq_eq_not, Bool.not_true,
            decide_eq_false_iff_not] at e
          exact .inr ⟨e.2, e.1, Function.update_of_ne e.2 ..⟩
    · refine ⟨_, _, _, inv_write I i d k _ (d :: ini i) (vals i) hok.1.1 ?_ hok.2
        (fun h => absurd h hcl) (fun h => absurd h hcl)⟩
      intro x hx
      rcases List.mem_cons.1 hx with e | e
      · exact e ▸ hok.1.1
      · exact I.sub i e
  · -- havoc
    rename_i d k hcode
    rw [hcode] at hok houts
    simp only [check, Bool.and_eq_true, decide_eq_true_eq] at hok
    split at h
    · cases h
      refine ⟨_, _, _, inv_write I i d k _ ((ini i).filter (· ≠ d)) (vals i) hok.1
        (fun x hx => I.sub i (List.mem_of_mem_filter hx)) hok.2 ?_ (fun _ => by rw [hcode]; rfl)⟩
      intro _ r hr
      simp only [ne_eq, decide_not, List.mem_filter, Bool.not_eq_eq_eq_not, Bool.not_true,
        decide_eq_false_iff_not] at hr
      exact .inr ⟨hr.2, hr.1, rfl⟩
    · cases h
  · -- out
    rename_i r k hcode
    rw [hcode] at hok houts
    simp only [check, Bool.and_eq_true, decide_eq_true_eq, Bool.or_eq_true] at hok
    cases h
    have regs_eq : ∀ j, (Function.update s.threads i ⟨k, (s.threads i).regs,
        (s.threads i).outs ++ [s.heap ((s.threads i).regs r)]⟩ j).regs = (s.threads j).regs := by
      intro j
      by_cases e : j = i
      · subst e; rw [upd_same]
      · rw [upd_ne _ _ e]
    refine ⟨own, ini, vals, ?_⟩
    constructor
    · intro j
      by_cases e : j = i
      · subst e; simp only [upd_same]; exact hok.2
      · simp only [upd_ne _ _ e]; exact I.ok j
    · exact I.sub
    · intro j hj r' hr'; simp only [regs_eq]; exact I.known j hj r' hr'
    · intro j hj
      by_cases e : j = i
      · subst e
        simp only [upd_same]
        rw [← houts hj, I.known j hj r (hok.1.resolve_left (by simp [hj]))]
        simp [alone]
      · simp only [upd_ne _ _ e]; exact I.outs j hj
    · intro j r' hr'; simp only [regs_eq]; exact I.bound j r' hr'
    · intro j r' hr'; simp only [regs_eq]; exact I.unpooled j r' hr'
    · intro j j' r1 h1 r2 h2 heq; simp only [regs_eq] at heq; exact I.apart j j' r1 h1 r2 h2 heq
    · exact I.nodup
    · exact I.poolBound

end

theorem inv_start (clean : Nat → Bool) (progs : Nat → List Instr) (h : ∀ i, check (clean i) [] [] (progs i) = true)
    (s : State) (hs : Start progs s) : Inv clean progs (fun _ => []) (fun _ => []) (fun _ _ => 0) s where
  ok i := by rw [hs.code]; exact h i
  sub i := List.nil_subset _
  known i _ r hr := absurd hr (by simp)
  outs i _ := by rw [hs.outs, hs.code]; rfl
  bound i r hr := absurd hr (by simp)
  unpooled i r hr := absurd hr (by simp)
  apart i j r hr := absurd hr (by simp)
  nodup := hs.nodup
  poolBound := hs.bound

theorem inv_reach (clean : Nat → Bool) (progs : Nat → List Instr) (h : ∀ i, check (clean i) [] [] (progs i) = true)
    (s t : State) (hs : Start progs s) (ht : Exec Model.Pool.Step s t) : ∃ own ini vals, Inv clean progs own ini vals t := by
  induction ht with
  | refl => exact ⟨_, _, _, inv_start clean progs h s hs⟩
  | tail _ hstep ih =>
    obtain ⟨own, ini, vals, I⟩ := ih
    rcases hstep with ⟨i, ch, hi⟩ | ⟨c, hc, rfl⟩
    · exact inv_step I i ch _ hi
    · exact ⟨own, ini, vals, I.ok, I.sub, I.known, I.outs, I.bound,
        fun i r hr hh => I.unpooled i r hr (List.mem_of_mem_erase hh), I.apart, I.nodup.erase c,
        fun x hx => I.poolBound x (List.mem_of_mem_erase hx)⟩

end Verif.Lemmas.Pool
