import Verif.Lemmas.Pool
import Verif.Lemmas.RangeProof
import Mathlib.Tactic.NormNum

/-! # The shared pool (C57) -/

namespace Verif.Props
open Verif.Go Verif.Model Verif.Model.Pool Verif.Spec Verif.Lemmas Verif.Lemmas.Pool

/-! ## The programs of the code -/

theorem check_seq (b : Bool) (q : List Instr) : ∀ (k : List Instr) (own ini : List Nat), check b own ini k = true →
    (∀ ini', check b (ownAfter own k) ini' q = true) → check b own ini (k ++ q) = true := by
  intro k
  induction k with
  | nil => intro own ini _ h; exact h ini
  | cons x k ih =>
    intro own ini h hq
    cases x with
    | get r => exact ih _ _ h hq
    | fresh r => exact ih _ _ h hq
    | put r =>
      simp only [check, List.cons_append, Bool.and_eq_true] at h ⊢
      exact ⟨h.1, ih _ _ h.2 hq⟩
    | set d srcs f =>
      simp only [check, List.cons_append, Bool.and_eq_true] at h ⊢
      exact ⟨h.1, ih _ _ h.2 hq⟩
    | havoc d =>
      simp only [check, List.cons_append, Bool.and_eq_true] at h ⊢
      exact ⟨h.1, ih _ _ h.2 hq⟩
    | out r =>
      simp only [check, List.cons_append, Bool.and_eq_true] at h ⊢
      exact ⟨h.1, ih _ _ h.2 hq⟩

/-- `r` is not put. -/
def keeps (r : Nat) (k : List Instr) : Bool := k.all fun x => match x with
  | .put r' => r' != r
  | _ => true

theorem ownAfter_keeps (r : Nat) : ∀ (k : List Instr) (own : List Nat), keeps r k = true → r ∈ own → r ∈ ownAfter own k := by
  intro k
  induction k with
  | nil => intro own _ h; exact h
  | cons x k ih =>
    intro own hk h
    have hk' : keeps r k = true := by
      simp only [keeps, List.all_cons, Bool.and_eq_true] at hk ⊢; exact hk.2
    have hcons : ∀ r', r ∈ r' :: own.filter (· ≠ r') := by
      intro r'
      by_cases e : r = r'
      · subst e; exact List.mem_cons_self
      · refine List.mem_cons_of_mem _ ?_
        simp only [ne_eq, decide_not, List.mem_filter, Bool.not_eq_eq_eq_not, Bool.not_true, decide_eq_false_iff_not]
        exact ⟨h, e⟩
    cases x with
    | get r' => exact ih _ hk' (hcons r')
    | fresh r' => exact ih _ hk' (hcons r')
    | put r' =>
      refine ih _ hk' ?_
      simp only [keeps, List.all_cons, Bool.and_eq_true, bne_iff_ne] at hk
      simp only [ne_eq, decide_not, List.mem_filter, Bool.not_eq_eq_eq_not, Bool.not_true, decide_eq_false_iff_not]
      exact ⟨h, fun e => hk.1 e.symm⟩
    | set d srcs f => exact ih _ hk' h
    | havoc d => exact ih _ hk' h
    | out r' => exact ih _ hk' h

theorem keeps_append (r : Nat) (k q : List Instr) : keeps r (k ++ q) = (keeps r k && keeps r q) := by
  simp [keeps, List.all_append]

theorem keeps_flatten (r : Nat) (l : List (List Instr)) (h : ∀ q ∈ l, keeps r q = true) : keeps r l.flatten = true := by
  induction l with
  | nil => rfl
  | cons q l ih =>
    rw [List.flatten_cons, keeps_append, h q (by simp), ih fun q' h' => h q' (List.mem_cons_of_mem _ h')]
    rfl

theorem rounds_check (b : Bool) (q : List Instr) (n : Nat) : ∀ own ini, 14 ∈ own →
    (∀ own' ini', own ⊆ own' → check b own' ini' q = true) →
    check b own ini ((List.replicate n [Instr.fresh 16, .havoc 16, .havoc 14]).flatten ++ q) = true := by
  induction n with
  | zero => intro own ini _ hq; exact hq own ini (fun _ h => h)
  | succ n ih =>
    intro own ini h14 hq
    rw [List.replicate_succ, List.flatten_cons, List.append_assoc]
    have hsub : own ⊆ 16 :: own.filter (· ≠ 16) := by
      intro x hx
      by_cases e : x = 16
      · exact e ▸ List.mem_cons_self
      · refine List.mem_cons_of_mem _ ?_
        simp only [ne_eq, decide_not, List.mem_filter, Bool.not_eq_eq_eq_not, Bool.not_true, decide_eq_false_iff_not]
        exact ⟨hx, e⟩
    simp only [List.cons_append, List.nil_append, check, Bool.and_eq_true, decide_eq_true_eq]
    exact ⟨List.mem_cons_self, hsub h14, ih _ _ (hsub h14) fun own' ini' hs => hq own' ini' (fun x hx => hs (hsub hx))⟩

theorem twoSquares_check (b : Bool) (rounds : Nat) (found : Bool) : check b [] [] (twoSquaresProg rounds found) = true := by
  unfold twoSquaresProg
  rw [List.append_assoc, List.append_assoc]
  refine check_seq b _ _ [] [] rfl fun ini' => ?_
  refine rounds_check b _ rounds _ _ (by decide) fun own' ini'' hs => ?_
  refine check_mono b _ [15, 14, 13, 12, 11, 10] _ [] _ (fun x hx => hs ?_) (List.nil_subset _) ?_
  · revert x; decide
  · cases found <;> rfl

theorem twoSquares_keeps (r rounds : Nat) (found : Bool) (hr : r < 10) : keeps r (twoSquaresProg rounds found) = true := by
  unfold twoSquaresProg
  rw [keeps_append, keeps_append, keeps_append, keeps_flatten]
  · have h1 : keeps r (if found then [Instr.fresh 16, .havoc 16, .havoc 14, .havoc 11, .havoc 15] else []) = true := by
      cases found <;> rfl
    rw [h1]
    simp [keeps]
    omega
  · intro q hq
    rw [List.eq_of_mem_replicate hq]
    rfl

theorem candidate_check (b : Bool) (c : Option (List (Nat × Bool))) (own ini : List Nat) (h0 : 0 ∈ own) (h2 : 2 ∈ own) :
    check b own ini (candidateProg c) = true := by
  have hx : ∀ x, x ≠ 4 → x ∈ own → x ∈ 4 :: own.filter (· ≠ 4) := by
    intro x e hx
    refine List.mem_cons_of_mem _ ?_
    simp only [ne_eq, decide_not, List.mem_filter, Bool.not_eq_eq_eq_not, Bool.not_true, decide_eq_false_iff_not]
    exact ⟨hx, e⟩
  cases c with
  | none =>
    simp only [candidateProg, check, Bool.and_eq_true, decide_eq_true_eq, and_true]
    exact ⟨List.mem_cons_self, List.mem_cons_self, hx 2 (by decide) h2, hx 2 (by decide) h2, hx 0 (by decide) h0⟩
  | some calls =>
    simp only [candidateProg]
    refine check_append b _ (check_flatten b _ ?_) _ _ _ ?_
    · intro q hq
      obtain ⟨c, -, rfl⟩ := List.mem_map.1 hq
      cases hc : c.2
      · simp only [Bool.false_eq_true, if_false, List.append_nil]; exact twoSquares_check b _ _
      · simp only [if_true]; exact check_append b _ rfl _ _ _ (twoSquares_check b _ _)
    · simp only [check, Bool.and_eq_true, decide_eq_true_eq, and_true]
      exact ⟨List.mem_cons_self, List.mem_cons_self, hx 2 (by decide) h2, hx 2 (by decide) h2⟩

theorem candidate_keeps (r : Nat) (c : Option (List (Nat × Bool))) (hr : r < 4) : keeps r (candidateProg c) = true := by
  cases c with
  | none => rfl
  | some calls =>
    simp only [candidateProg]
    rw [keeps_append, keeps_flatten]
    · rfl
    · intro q hq
      obtain ⟨c, -, rfl⟩ := List.mem_map.1 hq
      rw [keeps_append, twoSquares_keeps r _ _ (by omega)]
      cases c.2
      · rfl
      · simp [keeps, validGcdProg]; omega

theorem worker_check (b : Bool) (start step : Int) (cands : List (Option (List (Nat × Bool)))) :
    check b [] [] (workerProg start step cands) = true := by
  unfold workerProg
  rw [List.append_assoc]
  refine check_seq b _ _ [] [] (by cases b <;> rfl) fun ini' => ?_
  have : ∀ (cs : List (Option (List (Nat × Bool)))) own ini, [0, 1, 2, 3] ⊆ own →
      check b own ini ((cs.map candidateProg).flatten ++ [Instr.put 3, .put 2, .put 1, .put 0]) = true := by
    intro cs
    induction cs with
    | nil =>
      intro own ini h
      exact check_mono b _ [0, 1, 2, 3] _ [] _ h (List.nil_subset _) rfl
    | cons c cs ih =>
      intro own ini h
      rw [List.map_cons, List.flatten_cons, List.append_assoc]
      refine check_seq b _ _ _ _ (candidate_check b c own ini (h (by decide)) (h (by decide))) fun ini' => ih _ _ ?_
      intro x hx
      refine ownAfter_keeps x _ _ (candidate_keeps x c ?_) (h hx)
      revert x; decide
  exact this cands _ _ (show [0, 1, 2, 3] ⊆ [3, 2, 1, 0] by decide)

/-- The program of a range prover's `commit`. -/
def IsRpCommit (k : List Instr) : Prop := ∃ p m s sp B, k = rpCommitProg p m s sp B

/-- An instruction without its function. -/
inductive Shape where
  | get (r : Nat)
  | fresh (r : Nat)
  | put (r : Nat)
  | set (d : Nat) (srcs : List Nat)
  | havoc (d : Nat)
  | out (r : Nat)

def shape : Instr → Shape
  | .get r => .get r
  | .fresh r => .fresh r
  | .put r => .put r
  | .set d srcs _ => .set d srcs
  | .havoc d => .havoc d
  | .out r => .out r

def unshape : Shape → Instr
  | .get r => .get r
  | .fresh r => .fresh r
  | .put r => .put r
  | .set d srcs => .set d srcs fun _ => 0
  | .havoc d => .havoc d
  | .out r => .out r

theorem check_shape (b : Bool) : ∀ (k : List Instr) (own ini : List Nat),
    check b own ini k = check b own ini ((k.map shape).map unshape) := by
  intro k
  induction k with
  | nil => intros; rfl
  | cons x k ih =>
    intro own ini
    cases x <;> simp only [List.map_cons, shape, unshape, check, ih]

/-- The check does not look at the functions. -/
theorem check_of_shape (b : Bool) (k k' : List Instr) (h : k.map shape = k'.map shape)
    (hk : check b [] [] ((k'.map shape).map unshape) = true) : check b [] [] k = true := by
  rw [check_shape, h]
  exact hk

abbrev pp0 : PublicParameters := ⟨0, 0, 0⟩
abbrev i30 : Int3 := ⟨0, 0, 0⟩
abbrev i40 : Int4 := ⟨0, 0, 0, 0⟩

/-- Compares two programs up to their functions. -/
macro "shapes" : tactic => `(tactic| simp only [rpCommitProg, rpCommitWith, aopCommitProg, rpVerifyProg, aopVerifyProg, coinProg,
  commitGHProg, pairsProg, secondPartHProg, secondPartHBody, secondPartDProg, negFactor, paramProg, mulMod, const, calCProg,
  calCaProg, rpTargetProg, aopTargetProg, rpResponseProg, aopResponseProg, verifyTSProg, List.map_append, List.map_cons,
  List.map_nil, shape])

theorem code_writes (k : List Instr) (h : CodeProg k) : check false [] [] k = true := by
  cases h with
  | idle => rfl
  | calC pp r x => exact check_of_shape _ _ (calCProg pp0 0 0 0 1 ++ [.out 0]) (by shapes) (by decide +kernel)
  | calCa pp a c =>
    exact check_of_shape _ _ ([.fresh 0, const 0 0] ++ calCaProg pp0 0 0 1 2 3 ++ [.out 1]) (by shapes) (by decide +kernel)
  | commitFromTS pp rc ts =>
    exact check_of_shape _ _ (commitGHProg pp0 0 10 [(0, 0), (0, 0), (0, 0)] ++ [.out 10, .out 11, .out 12]) (by shapes)
      (by decide +kernel)
  | rpTarget a b x => exact check_of_shape _ _ (rpTargetProg 0 0 0 0 1) (by shapes) (by decide +kernel)
  | aopTarget x => exact check_of_shape _ _ (aopTargetProg 0 0) (by shapes) (by decide +kernel)
  | rpCommit p m s sp B =>
    exact check_of_shape _ _ (rpCommitProg (newRPProver pp0 0 0 0) i40 i40 0 0) (by shapes) (by decide +kernel)
  | aopCommit p m s sp B =>
    exact check_of_shape _ _ (aopCommitProg (newAoPProver pp0 0) i30 i30 0 0) (by shapes) (by decide +kernel)
  | rpResponse p e => exact check_of_shape _ _ (rpResponseProg (newRPProver pp0 0 0 0) 0) (by shapes) (by decide +kernel)
  | aopResponse p e => exact check_of_shape _ _ (aopResponseProg (newAoPProver pp0 0) 0) (by shapes) (by decide +kernel)
  | rpVerify v resp e =>
    exact check_of_shape _ _ (rpVerifyProg (newRPVerifier pp0 0 0) ⟨i40, i40, 0⟩ 0) (by shapes) (by decide +kernel)
  | aopVerify v resp e =>
    exact check_of_shape _ _ (aopVerifyProg (newAoPVerifier pp0 0) ⟨i30, i30, 0⟩ 0) (by shapes) (by decide +kernel)
  | verifyTS t => exact check_of_shape _ _ (verifyTSProg i30) (by shapes) (by decide +kernel)
  | worker => exact worker_check false _ _ _

theorem code_clean (k : List Instr) (h : CodeProg k) (hk : ¬ IsRpCommit k) : check true [] [] k = true := by
  cases h with
  | idle => rfl
  | calC pp r x => exact check_of_shape _ _ (calCProg pp0 0 0 0 1 ++ [.out 0]) (by shapes) (by decide +kernel)
  | calCa pp a c =>
    exact check_of_shape _ _ ([.fresh 0, const 0 0] ++ calCaProg pp0 0 0 1 2 3 ++ [.out 1]) (by shapes) (by decide +kernel)
  | commitFromTS pp rc ts =>
    exact check_of_shape _ _ (commitGHProg pp0 0 10 [(0, 0), (0, 0), (0, 0)] ++ [.out 10, .out 11, .out 12]) (by shapes)
      (by decide +kernel)
  | rpTarget a b x => exact check_of_shape _ _ (rpTargetProg 0 0 0 0 1) (by shapes) (by decide +kernel)
  | aopTarget x => exact check_of_shape _ _ (aopTargetProg 0 0) (by shapes) (by decide +kernel)
  | rpCommit p m s sp B => exact absurd ⟨p, m, s, sp, B, rfl⟩ hk
  | aopCommit p m s sp B =>
    exact check_of_shape _ _ (aopCommitProg (newAoPProver pp0 0) i30 i30 0 0) (by shapes) (by decide +kernel)
  | rpResponse p e => exact check_of_shape _ _ (rpResponseProg (newRPProver pp0 0 0 0) 0) (by shapes) (by decide +kernel)
  | aopResponse p e => exact check_of_shape _ _ (aopResponseProg (newAoPProver pp0 0) 0) (by shapes) (by decide +kernel)
  | rpVerify v resp e =>
    exact check_of_shape _ _ (rpVerifyProg (newRPVerifier pp0 0 0) ⟨i40, i40, 0⟩ 0) (by shapes) (by decide +kernel)
  | aopVerify v resp e =>
    exact check_of_shape _ _ (aopVerifyProg (newAoPVerifier pp0 0) ⟨i30, i30, 0⟩ 0) (by shapes) (by decide +kernel)
  | verifyTS t => exact check_of_shape _ _ (verifyTSProg i30) (by shapes) (by decide +kernel)
  | worker => exact worker_check true _ _ _

/-! ## C57 -/

/-- Every goroutine runs functions of the code one after the other. -/
def RunsCode (funs : Nat → List (List Instr)) : Prop := ∀ i, ∀ k ∈ funs i, CodeProg k

/-- In every interleaving a goroutine that has finished has used exactly the values it would have used alone. -/
def C57_statement : Prop :=
  ∀ (funs : Nat → List (List Instr)) (s0 s : State), RunsCode funs → Start (fun i => (funs i).flatten) s0 →
    Exec Model.Pool.Step s0 s → ∀ i, (s.threads i).code = [] →
      (s.threads i).outs = ((funs i).map fun k => alone k fun _ => 0).flatten

open Classical in
/-- Every goroutine that runs no `commit` of a range prover computes with its own values, in every interleaving with any
number of goroutines that run any of the functions, the range provers included. Missing from `C57_statement`: the range
prover's own `commit`. The first part also says what holds before the goroutine has finished. -/
theorem C57_isolated_partial (funs : Nat → List (List Instr)) (s0 s : State) (hc : RunsCode funs)
    (h0 : Start (fun i => (funs i).flatten) s0) (hs : Exec Model.Pool.Step s0 s) (i : Nat) (hi : ∀ k ∈ funs i, ¬ IsRpCommit k) :
    (s.threads i).outs <+: ((funs i).map fun k => alone k fun _ => 0).flatten ∧
    ((s.threads i).code = [] → (s.threads i).outs = ((funs i).map fun k => alone k fun _ => 0).flatten) := by
  let clean : Nat → Bool := fun j => decide (∀ k ∈ funs j, ¬ IsRpCommit k)
  have hok : ∀ j, check (clean j) [] [] (funs j).flatten = true := by
    intro j
    by_cases h : ∀ k ∈ funs j, ¬ IsRpCommit k
    · rw [show clean j = true from decide_eq_true h]
      exact check_flatten true _ fun k hk => code_clean k (hc j k hk) (h k hk)
    · rw [show clean j = false from decide_eq_false h]
      exact check_flatten false _ fun k hk => code_writes k (hc j k hk)
  obtain ⟨own, ini, vals, I⟩ := inv_reach clean _ hok s0 s h0 hs
  have hout := I.outs i (decide_eq_true hi)
  rw [alone_flatten _ fun k hk => code_clean k (hc i k hk) (hi k hk)] at hout
  rw [← hout]
  refine ⟨List.prefix_append _ _, fun hcode => ?_⟩
  rw [hcode]
  simp [alone]

/-- The cell the next instruction of a goroutine writes. -/
def writes (t : Thread) : Option Nat := match t.code with
  | .set d _ _ :: _ => some (t.regs d)
  | .havoc d :: _ => some (t.regs d)
  | _ => none

/-- The cells the next instruction of a goroutine reads. -/
def reads (t : Thread) : List Nat := match t.code with
  | .set _ srcs _ :: _ => srcs.map t.regs
  | .out r :: _ => [t.regs r]
  | _ => []

open Classical in
/-- There are no write-write races at all, and no write-read races except with the reads of a range prover. (The reads of
`havoc` are not covered: the workers of `ThreeSquares` do race on the pooled target.) -/
theorem C57_no_race_partial (funs : Nat → List (List Instr)) (s0 s : State) (hc : RunsCode funs)
    (h0 : Start (fun i => (funs i).flatten) s0) (hs : Exec Model.Pool.Step s0 s) (i j : Nat) (hij : i ≠ j) (c : Nat)
    (hw : writes (s.threads i) = some c) :
    writes (s.threads j) ≠ some c ∧ ((∀ k ∈ funs j, ¬ IsRpCommit k) → c ∉ reads (s.threads j)) ∧ c ∉ s.pool := by
  let clean : Nat → Bool := fun j => decide (∀ k ∈ funs j, ¬ IsRpCommit k)
  have hok : ∀ j, check (clean j) [] [] (funs j).flatten = true := by
    intro j
    by_cases h : ∀ k ∈ funs j, ¬ IsRpCommit k
    · rw [show clean j = true from decide_eq_true h]
      exact check_flatten true _ fun k hk => code_clean k (hc j k hk) (h k hk)
    · rw [show clean j = false from decide_eq_false h]
      exact check_flatten false _ fun k hk => code_writes k (hc j k hk)
  obtain ⟨own, ini, vals, I⟩ := inv_reach clean _ hok s0 s h0 hs
  have key : ∀ i c, writes (s.threads i) = some c → ∃ r ∈ own i, (s.threads i).regs r = c := by
    intro i c h
    have hk := I.ok i
    unfold writes at h
    split at h
    · rename_i hcode
      rw [hcode] at hk
      simp only [check, Bool.and_eq_true, decide_eq_true_eq] at hk
      exact ⟨_, hk.1.1, Option.some.inj h⟩
    · rename_i hcode
      rw [hcode] at hk
      simp only [check, Bool.and_eq_true, decide_eq_true_eq] at hk
      exact ⟨_, hk.1, Option.some.inj h⟩
    · cases h
  obtain ⟨r, hr, rfl⟩ := key i c hw
  refine ⟨fun h => ?_, fun hj h => ?_, I.unpooled i r hr⟩
  · obtain ⟨r', hr', e⟩ := key j _ h
    exact hij (I.apart i j r hr r' hr' e.symm).1
  · have hcl : clean j = true := decide_eq_true hj
    have hk := I.ok j
    rw [hcl] at hk
    have : ∃ r' ∈ ini j, (s.threads j).regs r' = (s.threads i).regs r := by
      unfold reads at h
      split at h
      · rename_i hcode
        rw [hcode] at hk
        simp only [check, Bool.and_eq_true, Bool.not_true, Bool.false_or, List.all_eq_true, decide_eq_true_eq] at hk
        obtain ⟨r', hr', e⟩ := List.mem_map.1 h
        exact ⟨r', hk.1.2 r' hr', e⟩
      · rename_i hcode
        rw [hcode] at hk
        simp only [check, Bool.and_eq_true, Bool.not_true, Bool.false_or, decide_eq_true_eq] at hk
        exact ⟨_, hk.1, (List.mem_singleton.1 h).symm⟩
      · simp at h
    obtain ⟨r', hr', e⟩ := this
    exact hij (I.apart i j r hr r' (I.sub j hr') e.symm).1

/-! ## The violation -/

/-- Runs the given steps. -/
def runSteps : State → List (Nat × Choice) → Option State
  | s, [] => some s
  | s, (i, ch) :: l => match stepFn s i ch with
    | none => none
    | some t => runSteps t l

theorem runSteps_exec : ∀ (l : List (Nat × Choice)) (s t : State), runSteps s l = some t → Exec Model.Pool.Step s t := by
  have front : ∀ (a b c : State), Model.Pool.Step a b → Exec Model.Pool.Step b c → Exec Model.Pool.Step a c := by
    intro a b c h1 h2
    induction h2 with
    | refl => exact .tail (.refl _) h1
    | tail _ h ih => exact .tail ih h
  intro l
  induction l with
  | nil => intro s t h; cases h; exact .refl _
  | cons x l ih =>
    intro s t h
    obtain ⟨i, ch⟩ := x
    simp only [runSteps] at h
    split at h
    · cases h
    · rename_i t' ht'
      exact front _ _ _ (.inl ⟨i, ch, ht'⟩) (ih _ _ h)

/-- Two range provers that differ in their coin `sigma`. -/
def demoProver (sigma : Int) : RPProver :=
  { newRPProver ⟨35, 4, 9⟩ 6 1 8 with sigma := sigma, ca := 16, c3 := ⟨1, 16, 4⟩ }

def demoProg (sigma : Int) : List Instr := rpCommitProg (demoProver sigma) ⟨1, 1, 1, 1⟩ ⟨1, 1, 1, 1⟩ 2 3

def demoFuns : Nat → List (List Instr)
  | 0 => [demoProg 0]
  | 1 => [demoProg 1]
  | _ => []

def demoStart : State := ⟨fun _ => 0, 0, [], fun i => ⟨(demoFuns i).flatten, fun _ => 0, []⟩⟩

/-- Goroutine 0 runs until it has put `result` back, goroutine 1 (which always asks for new cells before) gets that cell
and writes to it, goroutine 0 reads. -/
def demoSchedule : List (Nat × Choice) :=
  List.replicate 99 (0, .none) ++ List.replicate 77 (1, .none) ++ [(1, .cell 17), (1, .none)] ++
    List.replicate 8 (0, .none)

theorem demo_run : (runSteps demoStart demoSchedule).map (fun s => ((s.threads 0).code.length, (s.threads 0).outs)) =
    some (0, [129, 129, 129, 129, 561, 561, 561, 561, 4481, 1, 1, 1, 1, 9]) := by
  decide +kernel

theorem demo_alone : alone (demoProg 0) (fun _ => 0) =
    [129, 129, 129, 129, 561, 561, 561, 561, 4481, 1, 1, 1, 1, 29] := by
  decide +kernel

/-- A range prover hashes the other prover's number: `secondPartH` returns a pooled integer. -/
theorem C57_violated : ¬ C57_statement := by
  intro h
  have hr := demo_run
  cases hs : runSteps demoStart demoSchedule with
  | none => rw [hs] at hr; cases hr
  | some s =>
    rw [hs] at hr
    simp only [Option.map_some, Option.some.injEq, Prod.mk.injEq] at hr
    have hc : RunsCode demoFuns := by
      intro i k hk
      match i, hk with
      | 0, hk => rw [List.mem_singleton.1 hk]; exact .rpCommit ..
      | 1, hk => rw [List.mem_singleton.1 hk]; exact .rpCommit ..
      | i + 2, hk => exact absurd hk (by simp [demoFuns])
    have := h demoFuns demoStart s hc
      ⟨fun _ => rfl, fun _ => rfl, List.nodup_nil, fun _ h => absurd h (by simp [demoStart])⟩
      (runSteps_exec _ _ _ hs) 0 (List.length_eq_zero_iff.1 hr.1)
    rw [hr.2] at this
    simp only [demoFuns, List.map_cons, List.map_nil, List.flatten_cons, List.flatten_nil, List.append_nil,
      demo_alone] at this
    revert this
    decide

/-- The repaired function: `result` is a new integer that is not put into the pool. -/
def rpCommitFixed (p : RPProver) (m s : Int4) (sp B : Nat) : List Instr :=
  rpCommitWith (.fresh 5 :: secondPartHBody p m 5 6 7) p m s sp B

/-- With it the reads are safe as well. -/
theorem C57_repaired (p : RPProver) (m s : Int4) (sp B : Nat) : check true [] [] (rpCommitFixed p m s sp B) = true :=
  check_of_shape _ _ (rpCommitFixed (newRPProver pp0 0 0 0) i40 i40 0 0) (by unfold rpCommitFixed; shapes)
    (by decide +kernel)

/-- With the repaired function the whole property holds. -/
theorem C57_repaired_isolated (funs : Nat → List (List Instr)) (s0 s : State)
    (hc : ∀ i, ∀ k ∈ funs i, (CodeProg k ∧ ¬ IsRpCommit k) ∨ ∃ p m s sp B, k = rpCommitFixed p m s sp B)
    (h0 : Start (fun i => (funs i).flatten) s0) (hs : Exec Model.Pool.Step s0 s) (i : Nat) (hi : (s.threads i).code = []) :
    (s.threads i).outs = ((funs i).map fun k => alone k fun _ => 0).flatten := by
  have hcl : ∀ j, ∀ k ∈ funs j, check true [] [] k = true := by
    intro j k hk
    rcases hc j k hk with ⟨h1, h2⟩ | ⟨p, m, s, sp, B, rfl⟩
    · exact code_clean k h1 h2
    · exact C57_repaired ..
  obtain ⟨own, ini, vals, I⟩ := inv_reach (fun _ => true) _ (fun j => check_flatten true _ (hcl j)) s0 s h0 hs
  have hout := I.outs i rfl
  rw [alone_flatten _ (hcl i), hi] at hout
  simpa [alone] using hout

/-- A range prover and a prover of positivity at work: the hypotheses of `C57_isolated_partial` for goroutine 1. -/
def mixedFuns : Nat → List (List Instr)
  | 0 => [demoProg 0, demoProg 1]
  | 1 => [aopTargetProg 10 0, aopCommitProg (newAoPProver ⟨35, 4, 9⟩ 3) ⟨1, 1, 1⟩ ⟨1, 1, 1⟩ 2 3]
  | _ => []

example : RunsCode mixedFuns ∧ (∀ k ∈ mixedFuns 1, ¬ IsRpCommit k) ∧
    Start (fun i => (mixedFuns i).flatten) ⟨fun _ => 0, 0, [], fun i => ⟨(mixedFuns i).flatten, fun _ => 0, []⟩⟩ := by
  refine ⟨?_, ?_, ⟨fun _ => rfl, fun _ => rfl, List.nodup_nil, fun _ h => absurd h (by simp)⟩⟩
  · intro i k hk
    match i, hk with
    | 0, hk =>
      simp only [mixedFuns, List.mem_cons, List.not_mem_nil, or_false] at hk
      rcases hk with rfl | rfl <;> exact .rpCommit ..
    | 1, hk =>
      simp only [mixedFuns, List.mem_cons, List.not_mem_nil, or_false] at hk
      rcases hk with rfl | rfl
      · exact .aopTarget ..
      · exact .aopCommit ..
    | i + 2, hk => exact absurd hk (by simp [mixedFuns])
  · rintro k hk ⟨p, m, s, sp, B, rfl⟩
    simp only [mixedFuns, List.mem_cons, List.not_mem_nil, or_false] at hk
    rcases hk with h | h
    · have := congrArg List.length h
      simp [rpCommitProg, rpCommitWith, aopTargetProg] at this
    · have := congrArg List.length h
      simp [rpCommitProg, rpCommitWith, aopCommitProg, coinProg, secondPartHProg, secondPartHBody, secondPartDProg,
        commitGHProg, pairsProg, mulMod, negFactor] at this

/-! ## The values computed alone are those of the model of the proofs -/

theorem res_bind_ok {α β : Type} (x : Res α) (f : α → Res β) (b : β) :
    (x >>= f) = .ok b ↔ ∃ a, x = .ok a ∧ f a = .ok b := by
  cases x with
  | error e => exact ⟨fun h => (by cases h), fun ⟨a, h, _⟩ => (by cases h)⟩
  | ok a => exact ⟨fun h => ⟨a, rfl, h⟩, fun ⟨a', h, h'⟩ => by cases h; exact h'⟩

theorem nonNil_ok {α : Type} (o : Option α) (v : α) : nonNil o = .ok v ↔ o = some v := by
  cases o with
  | none => exact ⟨fun h => (by cases h), fun h => (by cases h)⟩
  | some a => exact ⟨fun h => by cases h; rfl, fun h => by cases h; rfl⟩

theorem modN_ok_iff (x N v : Int) : modN x N = .ok v ↔ N ≠ 0 ∧ x % N = v := by
  unfold modN
  split
  · rename_i h; exact ⟨fun h' => (by cases h'), fun h' => absurd h h'.1⟩
  · rename_i h; exact ⟨fun h' => ⟨h, Except.ok.inj h'⟩, fun h' => by rw [h'.2]⟩

theorem mulExpMod_ok_iff (w x y N v : Int) :
    mulExpMod w x y N = .ok v ↔ N ≠ 0 ∧ ∃ u, bigExp x y N = some u ∧ w * u % N = v := by
  unfold mulExpMod
  simp only [res_bind_ok, nonNil_ok, modN_ok_iff]
  constructor
  · rintro ⟨a, h1, h2, h3⟩; exact ⟨h2, a, h1, h3⟩
  · rintro ⟨h2, a, h1, h3⟩; exact ⟨a, h1, h2, h3⟩

theorem ex_of {x y N v : Int} (h : bigExp x y N = some v) : ex x y N = v := by simp [ex, h]

/-- Runs a program symbolically. -/
macro "symbolic" : tactic => `(tactic| simp only [rpVerifyProg, aopVerifyProg, coinProg,
  commitGHProg, pairsProg, secondPartHProg, secondPartHBody, secondPartDProg, negFactor, paramProg, mulMod, const, calCProg,
  calCaProg, rpTargetProg, aopTargetProg, rpResponseProg, aopResponseProg, verifyTSProg, a0, List.append_assoc,
  List.cons_append, List.nil_append, alone, List.map_cons, List.map_nil, Function.update_apply, if_true, if_false,
  Nat.reduceEqDiff, List.getD_cons_zero, List.getD_cons_succ, reduceIte, OfNat.ofNat_ne_zero,
  OfNat.ofNat_ne_one, OfNat.zero_ne_ofNat, OfNat.one_ne_ofNat, zero_ne_one, one_ne_zero])

/-- The number a range prover hashes last. -/
theorem C57_alone_secondPartH (p : RPProver) (m : Int4) (v : Int) (h : rpSecondPartH p m = .ok v) :
    alone (secondPartHProg p m 5 6 7 ++ [.out 5]) (fun _ => 0) = [v] := by
  simp only [rpSecondPartH, res_bind_ok, nonNil_ok, mulExpMod_ok_iff, modN_ok_iff] at h
  obtain ⟨r0, h0, r1, h1, r2, ⟨-, rfl⟩, r3, ⟨-, r4, h4, rfl⟩, r5, ⟨-, r6, h6, rfl⟩, -, r7, h7, rfl⟩ := h
  symbolic
  simp only [ex_of h0, ex_of h1, ex_of h4, ex_of h6, ex_of h7]

/-- The number hashed last by the prover of positivity. -/
theorem C57_alone_secondPartD (p : AoPProver) (m : Int3) (v : Int) (h : aopSecondPartD p m = .ok v) :
    alone (secondPartDProg p m 5 6 7 ++ [.out 5]) (fun _ => 0) = [v] := by
  simp only [aopSecondPartD, res_bind_ok, mulExpMod_ok_iff] at h
  obtain ⟨r3, ⟨-, r4, h4, rfl⟩, r5, ⟨-, r6, h6, rfl⟩, r7, ⟨-, r8, h8, rfl⟩, -, r9, h9, rfl⟩ := h
  symbolic
  simp only [ex_of h4, ex_of h6, ex_of h8, ex_of h9]

/-- The numbers hashed by the range verifier. -/
theorem C57_alone_rpVerify (E : Env) (v : RPVerifier) (resp : RPResponse) (f : Int4) (l : Int)
    (h : rpVerifyParams E v resp = .ok (f, l)) :
    alone (rpVerifyProg v resp (rpChallenge E v.pp v.a v.b ⟨v.c4.t1, v.c4.t2, v.c4.t3⟩)) (fun _ => 0) =
      [f.t0, f.t1, f.t2, f.t3, l] := by
  simp only [rpVerifyParams, verifyParam, res_bind_ok, nonNil_ok, mulExpMod_ok_iff, modN_ok_iff, Except.ok.injEq,
    Prod.mk.injEq] at h
  generalize (rpChallenge E v.pp v.a v.b ⟨v.c4.t1, v.c4.t2, v.c4.t3⟩ : Int) = e at h ⊢
  obtain ⟨a, ⟨a1, ha1, a2, ha2, a3, ha3, -, rfl⟩, b, ⟨b1, hb1, b2, hb2, b3, hb3, -, rfl⟩,
    c, ⟨c1, hc1, c2, hc2, c3, hc3, -, rfl⟩, d, ⟨d1, hd1, d2, hd2, d3, hd3, -, rfl⟩, l0, hl0,
    l1, ⟨-, m1, hm1, rfl⟩, l2, ⟨-, m2, hm2, rfl⟩, l3, ⟨-, m3, hm3, rfl⟩, l4, ⟨-, m4, hm4, rfl⟩, l5, ⟨-, m5, hm5, rfl⟩,
    rfl, rfl⟩ := h
  symbolic
  simp only [ex_of ha1, ex_of ha2, ex_of ha3, ex_of hb1, ex_of hb2, ex_of hb3, ex_of hc1, ex_of hc2, ex_of hc3, ex_of hd1,
    ex_of hd2, ex_of hd3, ex_of hl0, ex_of hm1, ex_of hm2, ex_of hm3, ex_of hm4, ex_of hm5]

/-- The numbers hashed by the verifier of positivity. -/
theorem C57_alone_aopVerify (E : Env) (v : AoPVerifier) (resp : AoPResponse) (f : Int3) (l : Int)
    (h : aopVerifyParams E v resp = .ok (f, l)) :
    alone (aopVerifyProg v resp (aopChallenge E v.pp v.c3)) (fun _ => 0) = [f.t0, f.t1, f.t2, l] := by
  simp only [aopVerifyParams, aopVerifyParams.aopHPow, verifyParam, res_bind_ok, nonNil_ok, mulExpMod_ok_iff, modN_ok_iff,
    Except.ok.injEq, Prod.mk.injEq] at h
  generalize (aopChallenge E v.pp v.c3 : Int) = e at h ⊢
  obtain ⟨a, ⟨a1, ha1, a2, ha2, a3, ha3, -, rfl⟩, b, ⟨b1, hb1, b2, hb2, b3, hb3, -, rfl⟩,
    c, ⟨c1, hc1, c2, hc2, c3, hc3, -, rfl⟩,
    l1, ⟨-, m1, hm1, rfl⟩, l2, ⟨-, m2, hm2, rfl⟩, l3, ⟨-, m3, hm3, rfl⟩, l4, ⟨n, hn, -, m4, hm4, rfl⟩, l5, ⟨-, rfl⟩,
    l6, ⟨-, m6, hm6, rfl⟩, rfl, rfl⟩ := h
  symbolic
  simp only [ex_of ha1, ex_of ha2, ex_of ha3, ex_of hb1, ex_of hb2, ex_of hb3, ex_of hc1, ex_of hc2, ex_of hc3,
    ex_of hm1, ex_of hm2, ex_of hm3, ex_of hm4, ex_of hn, ex_of hm6, one_mul]

/-- The commitment, and the answers of both provers. -/
theorem C57_alone_calC (pp : PublicParameters) (r x v : Int) (h : calC pp r x = .ok v) :
    alone (calCProg pp r x 0 1 ++ [.out 0]) (fun _ => 0) = [v] := by
  simp only [calC, res_bind_ok, nonNil_ok, modN_ok_iff] at h
  obtain ⟨a, ha, b, hb, -, rfl⟩ := h
  symbolic
  simp only [ex_of ha, ex_of hb]

theorem C57_alone_rpResponse (E : Env) (p : RPProver) :
    alone (rpResponseProg p (rpChallenge E p.pp p.a p.b p.c3)) (fun _ => 0) = [(rpResponseOf E p).TAU] := by
  symbolic
  rfl

theorem C57_alone_aopResponse (E : Env) (p : AoPProver) :
    alone (aopResponseProg p (aopChallenge E p.pp p.c3)) (fun _ => 0) = [(aopResponseOf E p).T] := by
  symbolic
  rfl

/-- The numbers to decompose into squares. -/
theorem C57_alone_targets (p : RPProver) (x : Int) :
    alone (rpTargetProg p.a p.b x 0 1) (fun _ => 0) = [rpTarget p x] ∧
    alone (aopTargetProg x 0) (fun _ => 0) = [aopTarget x] := by
  constructor <;> symbolic <;> rfl

/-- `c_a` of the range prover and verifier (the number `4 (c g^(-a))` in exponent notation). -/
theorem C57_alone_calCa (pp : PublicParameters) (a c v : Int) (h : calCa pp a c = .ok v) :
    alone ([.fresh 0, const 0 c] ++ calCaProg pp a 0 1 2 3 ++ [.out 1]) (fun _ => 0) = [v] := by
  simp only [calCa, res_bind_ok, nonNil_ok, Except.ok.injEq] at h
  obtain ⟨o, ho, rfl⟩ := h
  symbolic
  have h4 : ∃ w, bigExp (c * o) 4 pp.N = some w := by
    unfold bigExp
    split <;> exact ⟨_, rfl⟩
  obtain ⟨w, hw⟩ := h4
  simp only [ex_of ho, ex_of hw, hw, Option.getD_some]

/-- The commitments to the squares. -/
theorem C57_alone_commitFromTS (pp : PublicParameters) (rc ts v : Int3) (h : commitFromTS pp rc ts = .ok v) :
    alone (commitGHProg pp 0 10 [(ts.t0, rc.t0), (ts.t1, rc.t1), (ts.t2, rc.t2)] ++ [.out 10, .out 11, .out 12])
      (fun _ => 0) = [v.t0, v.t1, v.t2] := by
  simp only [commitFromTS, commitGH, res_bind_ok, nonNil_ok, modN_ok_iff, Except.ok.injEq] at h
  obtain ⟨_, ⟨a1, ha1, a2, ha2, -, rfl⟩, _, ⟨b1, hb1, b2, hb2, -, rfl⟩, _, ⟨c1, hc1, c2, hc2, -, rfl⟩, rfl⟩ := h
  symbolic
  simp only [ex_of ha1, ex_of ha2, ex_of hb1, ex_of hb2, ex_of hc1, ex_of hc2]

/-- The whole commit phase of the range prover: the nine limits given to the random number generator and the five numbers
that are hashed. -/
theorem C57_alone_rpCommit (p : RPProver) (m s d4 : Int4) (d : Int) (sp B : Nat) (h1 : rpFirstPartH p m s = .ok d4)
    (h2 : rpSecondPartH p m = .ok d) :
    alone (rpCommitProg p m s sp B) (fun _ => 0) =
      List.replicate 4 (2 ^ (2 * sp + B) + 1) ++ List.replicate 4 (2 ^ (2 * sp) * p.pp.N + 1) ++
        [2 ^ (B + 2 * sp) * p.pp.N + 1] ++ [d4.t0, d4.t1, d4.t2, d4.t3, d] := by
  simp only [rpFirstPartH, commitGH, res_bind_ok, nonNil_ok, modN_ok_iff, Except.ok.injEq] at h1
  obtain ⟨_, ⟨a1, ha1, a2, ha2, -, rfl⟩, _, ⟨b1, hb1, b2, hb2, -, rfl⟩, _, ⟨c1, hc1, c2, hc2, -, rfl⟩,
    _, ⟨e1, he1, e2, he2, -, rfl⟩, rfl⟩ := h1
  simp only [rpSecondPartH, res_bind_ok, nonNil_ok, mulExpMod_ok_iff, modN_ok_iff] at h2
  obtain ⟨r0, h0, r1, h1, r2, ⟨-, rfl⟩, r3, ⟨-, r4, h4, rfl⟩, r5, ⟨-, r6, h6, rfl⟩, -, r7, h7, rfl⟩ := h2
  have hp : ((sp : Int) * 2 + B).toNat = 2 * sp + B := by omega
  simp only [rpCommitProg, rpCommitWith]
  symbolic
  simp only [ex_of ha1, ex_of ha2, ex_of hb1, ex_of hb2, ex_of hc1, ex_of hc2, ex_of he1, ex_of he2, ex_of h0, ex_of h1,
    ex_of h4, ex_of h6, ex_of h7, hp, List.replicate, List.cons_append, List.nil_append]
  have q : (4 : Int) ^ sp = 2 ^ (2 * sp) := by rw [pow_mul]; norm_num
  rw [q, pow_add 2 B, show (2 : Int) ^ B * 2 ^ (2 * sp) * p.pp.N = 2 ^ (2 * sp) * p.pp.N * 2 ^ B by ring]

/-- The whole commit phase of the prover of positivity. -/
theorem C57_alone_aopCommit (p : AoPProver) (m s d3 : Int3) (d : Int) (sp B : Nat) (h1 : aopFirstPartD p m s = .ok d3)
    (h2 : aopSecondPartD p m = .ok d) :
    alone (aopCommitProg p m s sp B) (fun _ => 0) =
      List.replicate 3 (2 ^ (2 * sp + B) + 1) ++ List.replicate 3 (2 ^ (2 * sp) * p.pp.N + 1) ++
        [2 ^ (B / 2 + 2 * sp) * p.pp.N + 1] ++ [d3.t0, d3.t1, d3.t2, d] := by
  simp only [aopFirstPartD, commitGH, res_bind_ok, nonNil_ok, modN_ok_iff, Except.ok.injEq] at h1
  obtain ⟨_, ⟨a1, ha1, a2, ha2, -, rfl⟩, _, ⟨b1, hb1, b2, hb2, -, rfl⟩, _, ⟨c1, hc1, c2, hc2, -, rfl⟩, rfl⟩ := h1
  simp only [aopSecondPartD, res_bind_ok, mulExpMod_ok_iff] at h2
  obtain ⟨r3, ⟨-, r4, h4, rfl⟩, r5, ⟨-, r6, h6, rfl⟩, r7, ⟨-, r8, h8, rfl⟩, -, r9, h9, rfl⟩ := h2
  have hp : ((sp : Int) * 2 + B).toNat = 2 * sp + B := by omega
  simp only [aopCommitProg]
  symbolic
  simp only [ex_of ha1, ex_of ha2, ex_of hb1, ex_of hb2, ex_of hc1, ex_of hc2, ex_of h4, ex_of h6, ex_of h8, ex_of h9, hp,
    List.replicate, List.cons_append, List.nil_append]
  have q : (4 : Int) ^ sp = 2 ^ (2 * sp) := by rw [pow_mul]; norm_num
  rw [q, pow_add 2 (B / 2), show (2 : Int) ^ (B / 2) * 2 ^ (2 * sp) * p.pp.N = 2 ^ (2 * sp) * p.pp.N * 2 ^ (B / 2) by ring]

/-- The sum that is compared with the target. -/
theorem C57_alone_verifyTS (n : Int) (t : Int3) :
    ∃ v, alone (verifyTSProg t) (fun _ => 0) = [v] ∧ (verifyThreeSquares n t = true ↔ v = n) := by
  symbolic
  exact ⟨_, rfl, by simp [verifyThreeSquares]⟩

/-- Provers with the modulus 35 whose commitments are made. -/
def prover35 : RPProver := { pp := ⟨35, 4, 9⟩, r := 6, a := 1, b := 8, ca := 11, c3 := ⟨4, 9, 16⟩ }
def aopProver35 : AoPProver := { pp := ⟨35, 4, 9⟩, r := 6, C := 11, c3 := ⟨4, 9, 16⟩ }

/-- Their programs give the numbers of the model of the proofs: all are modulo 35. -/
example : rpFirstPartH prover35 ⟨1, 2, 3, 4⟩ ⟨5, 6, 7, 8⟩ = .ok ⟨16, 16, 16, 16⟩ ∧ rpSecondPartH prover35 ⟨1, 2, 3, 4⟩ = .ok 9 ∧
    alone (rpCommitProg prover35 ⟨1, 2, 3, 4⟩ ⟨5, 6, 7, 8⟩ 1 2) (fun _ => 0) =
      [17, 17, 17, 17, 141, 141, 141, 141, 561, 16, 16, 16, 16, 9] := by
  have h1 : rpFirstPartH prover35 ⟨1, 2, 3, 4⟩ ⟨5, 6, 7, 8⟩ = .ok ⟨16, 16, 16, 16⟩ := by decide +kernel
  have h2 : rpSecondPartH prover35 ⟨1, 2, 3, 4⟩ = .ok 9 := by decide +kernel
  exact ⟨h1, h2, (C57_alone_rpCommit _ _ _ _ _ 1 2 h1 h2).trans (by decide +kernel)⟩

example : aopFirstPartD aopProver35 ⟨1, 2, 3⟩ ⟨5, 6, 7⟩ = .ok ⟨16, 16, 16⟩ ∧ aopSecondPartD aopProver35 ⟨1, 2, 3⟩ = .ok 9 ∧
    alone (aopCommitProg aopProver35 ⟨1, 2, 3⟩ ⟨5, 6, 7⟩ 1 2) (fun _ => 0) =
      [17, 17, 17, 141, 141, 141, 281, 16, 16, 16, 9] := by
  have h1 : aopFirstPartD aopProver35 ⟨1, 2, 3⟩ ⟨5, 6, 7⟩ = .ok ⟨16, 16, 16⟩ := by decide +kernel
  have h2 : aopSecondPartD aopProver35 ⟨1, 2, 3⟩ = .ok 9 := by decide +kernel
  exact ⟨h1, h2, (C57_alone_aopCommit _ _ _ _ _ 1 2 h1 h2).trans (by decide +kernel)⟩

example : alone (calCProg ⟨35, 4, 9⟩ 2 3 0 1 ++ [.out 0]) (fun _ => 0) = [4] ∧
    alone ([.fresh 0, const 0 3] ++ calCaProg ⟨35, 4, 9⟩ 2 0 1 2 3 ++ [.out 1]) (fun _ => 0) = [16] ∧
    alone (commitGHProg ⟨35, 4, 9⟩ 0 10 [(4, 1), (5, 2), (6, 3)] ++ [.out 10, .out 11, .out 12]) (fun _ => 0) = [29, 29, 29] :=
  ⟨C57_alone_calC _ _ _ _ (by decide +kernel), C57_alone_calCa _ _ _ _ (by decide +kernel),
    C57_alone_commitFromTS ⟨35, 4, 9⟩ ⟨1, 2, 3⟩ ⟨4, 5, 6⟩ ⟨29, 29, 29⟩ (by decide +kernel)⟩

end Verif.Props
