import Verif.Props.SharedVerifier
import Verif.Props.SharedProver

/-!
# Verifiers and provers that work on a copy of the object (C116, C117)

`Verify` and `Prove` begin with a copy of the object and write the fields of the copy. The steps are those of the code; only the
object that a step reads and writes is the one of its own goroutine.
-/

namespace Verif.Props
open Verif.Go Verif.Model Verif.Lemmas Verif.Spec

/-- Goroutines that take turns, each with a state of its own. -/
def privateRun {S : Type} (step : S → Nat → S) (s : Nat → S) (schedule : List Nat) : Nat → S :=
  schedule.foldl (fun s i j => if j = i then step (s i) i else s j) s

theorem privateRun_alone {S : Type} (step : S → Nat → S) (s : Nat → S) (schedule : List Nat) (i : Nat) :
    privateRun step s schedule i = (List.replicate (schedule.count i) i).foldl step (s i) := by
  unfold privateRun
  induction schedule generalizing s with
  | nil => rfl
  | cons j l ih =>
    rw [List.foldl_cons, ih]
    by_cases h : j = i
    · subst h
      rw [List.count_cons_self, List.replicate_succ, List.foldl_cons, if_pos rfl]
    · rw [List.count_cons_of_ne h, if_neg (fun e => h e.symm)]

/-- proof/range_proof.go:396-412 `Verify` on a copy of `r`, called by all goroutines. -/
def rpCopies (E : Env) (v : RPVerifier) (proofs : Nat → Option RangeProof) (schedule : List Nat) : Nat → SharedState RPVerifier :=
  privateRun SharedState.step (fun _ => rpShared E v proofs) schedule

/-- proof/zkaop.go:338-346 `Verify` on a copy of `z`, called by all goroutines. -/
def aopCopies (E : Env) (v : AoPVerifier) (proofs : Nat → Option ArgOfPositivity) (schedule : List Nat) :
    Nat → SharedState AoPVerifier :=
  privateRun SharedState.step (fun _ => aopShared E v proofs) schedule

/-- C116 for verifiers that work on a copy: whatever the schedule, a goroutine that gets a result gets the one it would get
alone, and it has a result once it has done its steps. -/
theorem C116_repaired_partial :
    (∀ (E : Env) (v : RPVerifier) (proofs : Nat → Option RangeProof) (schedule : List Nat) (i : Nat),
      (∀ r, ((rpCopies E v proofs schedule i).calls i).result = some r → r = rpVerify E v (proofs i)) ∧
      (11 ≤ schedule.count i → ((rpCopies E v proofs schedule i).calls i).result = some (rpVerify E v (proofs i)))) ∧
    ∀ (E : Env) (v : AoPVerifier) (proofs : Nat → Option ArgOfPositivity) (schedule : List Nat) (i : Nat),
      (∀ r, ((aopCopies E v proofs schedule i).calls i).result = some r → r = aopVerify E v (proofs i)) ∧
      (5 ≤ schedule.count i → ((aopCopies E v proofs schedule i).calls i).result = some (aopVerify E v (proofs i))) := by
  refine ⟨fun E v proofs schedule i => ?_, fun E v proofs schedule i => ?_⟩
  · have e : rpCopies E v proofs schedule i = (rpShared E v proofs).run (List.replicate (schedule.count i) i) :=
      privateRun_alone _ _ _ _
    have all : ∀ k, (((rpShared E v proofs).run (List.replicate (11 + k) i)).calls i).result = some (rpVerify E v (proofs i)) := by
      intro k
      have := C116_partial E v proofs [] (List.replicate k i) i (by simp)
      rwa [List.nil_append, List.replicate_append_replicate] at this
    rw [e]
    refine ⟨fun r h => ?_, fun h => ?_⟩
    · have h2 := run_done _ i (List.replicate 11 i) r h
      rw [← run_append, List.replicate_append_replicate, Nat.add_comm, all] at h2
      exact (Option.some.inj h2).symm
    · obtain ⟨k, hk⟩ := Nat.exists_eq_add_of_le h
      rw [hk, all]
  · have e : aopCopies E v proofs schedule i = (aopShared E v proofs).run (List.replicate (schedule.count i) i) :=
      privateRun_alone _ _ _ _
    have all : ∀ k, (((aopShared E v proofs).run (List.replicate (5 + k) i)).calls i).result = some (aopVerify E v (proofs i)) := by
      intro k
      have := C116_positivity_partial E v proofs [] (List.replicate k i) i (by simp)
      rwa [List.nil_append, List.replicate_append_replicate] at this
    rw [e]
    refine ⟨fun r h => ?_, fun h => ?_⟩
    · have h2 := run_done _ i (List.replicate 5 i) r h
      rw [← run_append, List.replicate_append_replicate, Nat.add_comm, all] at h2
      exact (Option.some.inj h2).symm
    · obtain ⟨k, hk⟩ := Nat.exists_eq_add_of_le h
      rw [hk, all]

/-- The proof that `C116_good_proof_rejected` shows rejected by both goroutines is accepted by both. -/
example : let s := [0, 1, 0, 1, 0, 1] ++ List.replicate 8 0 ++ List.replicate 8 1
    let run := rpCopies byteEnv (newRPVerifier ⟨35, 4, 9⟩ 1 8) (fun _ => some (rpForge byteEnv ⟨35, 4, 9⟩ 1 8 2)) s
    ((run 0).calls 0).result = some (.ok true) ∧ ((run 1).calls 1).result = some (.ok true) := by
  intro s run
  have ha : rpVerify byteEnv (newRPVerifier ⟨35, 4, 9⟩ 1 8) (some (rpForge byteEnv ⟨35, 4, 9⟩ 1 8 2)) = .ok true := by decide +kernel
  have h := fun i => (C116_repaired_partial.1 byteEnv (newRPVerifier ⟨35, 4, 9⟩ 1 8)
    (fun _ => some (rpForge byteEnv ⟨35, 4, 9⟩ 1 8 2)) s i).2
  rw [ha] at h
  exact ⟨h 0 (by decide), h 1 (by decide)⟩

/-- proof/range_proof.go:167-185 `Prove` on a copy of `r`, called by all goroutines. -/
def rpProverCopies (E : Env) (p : RPProver) (tasks : Nat → ProveTask) (schedule : List Nat) : Nat → SharedProver :=
  privateRun (SharedProver.step E tasks) (fun _ => sharedProver p) schedule

/-- proof/zkaop.go:154-169 `Prove` on a copy of `z`, called by all goroutines. -/
def aopProverCopies (E : Env) (p : AoPProver) (tasks : Nat → AoPTask) (schedule : List Nat) : Nat → SharedAoPProver :=
  privateRun (SharedAoPProver.step E tasks) (fun _ => sharedAoPProver p) schedule

theorem rp_stays_done (E : Env) (tasks : Nat → ProveTask) (i : Nat) (proof : RangeProof) (n : Nat) :
    ∀ s : SharedProver, s.phase i = .done proof → (s.run E tasks (List.replicate n i)).phase i = .done proof := by
  induction n with
  | zero => exact fun s h => h
  | succ n ih =>
    intro s h
    show ((s.step E tasks i).run E tasks (List.replicate n i)).phase i = _
    refine ih _ ?_
    have : s.step E tasks i = s := by unfold SharedProver.step; simp only [h]
    rw [this, h]

theorem aop_stays_done (E : Env) (tasks : Nat → AoPTask) (i : Nat) (proof : ArgOfPositivity) (n : Nat) :
    ∀ s : SharedAoPProver, s.phase i = .done proof → (s.run E tasks (List.replicate n i)).phase i = .done proof := by
  induction n with
  | zero => exact fun s h => h
  | succ n ih =>
    intro s h
    show ((s.step E tasks i).run E tasks (List.replicate n i)).phase i = _
    refine ih _ ?_
    have : s.step E tasks i = s := by unfold SharedAoPProver.step; simp only [h]
    rw [this, h]

/-- C117 for provers that work on a copy: whatever the schedule, a goroutine that gets a proof gets the one it would get alone,
and it verifies; it has a proof once it has done its steps. -/
theorem C117_repaired_partial (E : Env) (p : RPProver) (tasks : Nat → ProveTask) (schedule : List Nat) (i : Nat)
    (hpp : GoodParams p.pp) (ht : TaskOk p (tasks i)) :
    (∀ proof, (rpProverCopies E p tasks schedule i).phase i = .done proof →
      (∃ p', rpProve E p (tasks i).x (tasks i).ts (tasks i).coins = .ok (proof, p')) ∧
      rpVerify E (newRPVerifier p.pp p.a p.b) (some proof) = .ok true) ∧
    (3 ≤ schedule.count i → ∃ proof, (rpProverCopies E p tasks schedule i).phase i = .done proof) := by
  have e : rpProverCopies E p tasks schedule i = (sharedProver p).run E tasks (List.replicate (schedule.count i) i) :=
    privateRun_alone _ _ _ _
  have all : ∀ k, ∃ proof p', rpProve E p (tasks i).x (tasks i).ts (tasks i).coins = .ok (proof, p') ∧
      ((sharedProver p).run E tasks (List.replicate (3 + k) i)).phase i = .done proof ∧
      rpVerify E (newRPVerifier p.pp p.a p.b) (some proof) = .ok true := by
    intro k
    have := C117_partial E p tasks [] (List.replicate k i) i (by simp) hpp ht
    rw [List.nil_append, show [i, i, i] = List.replicate 3 i from rfl, List.replicate_append_replicate] at this
    exact this
  rw [e]
  refine ⟨fun proof h => ?_, fun h => ?_⟩
  · have h2 := rp_stays_done E tasks i proof 3 _ h
    rw [SharedProver.run, SharedProver.run, ← List.foldl_append, List.replicate_append_replicate, Nat.add_comm] at h2
    obtain ⟨proof', p', h3, h4, h5⟩ := all (schedule.count i)
    rw [SharedProver.run, h2] at h4
    injection h4 with h4
    subst h4
    exact ⟨⟨p', h3⟩, h5⟩
  · obtain ⟨k, hk⟩ := Nat.exists_eq_add_of_le h
    obtain ⟨proof, -, -, h4, -⟩ := all k
    rw [hk]
    exact ⟨proof, h4⟩

/-- The same for arguments of positivity. -/
theorem C117_repaired_positivity_partial (E : Env) (p : AoPProver) (tasks : Nat → AoPTask) (schedule : List Nat) (i : Nat)
    (hpp : GoodParams p.pp) (ht : (tasks i).ts.t0 ^ 2 + (tasks i).ts.t1 ^ 2 + (tasks i).ts.t2 ^ 2 = 4 * (tasks i).x + 1) :
    (∀ proof, (aopProverCopies E p tasks schedule i).phase i = .done proof →
      (∃ p', aopProve E p (tasks i).x (tasks i).ts (tasks i).coins = .ok (proof, p')) ∧
      ∃ c, IsCommit p.pp.N p.pp.G p.pp.H (tasks i).x p.r c ∧ aopVerify E (newAoPVerifier p.pp c) (some proof) = .ok true) ∧
    (3 ≤ schedule.count i → ∃ proof, (aopProverCopies E p tasks schedule i).phase i = .done proof) := by
  have e : aopProverCopies E p tasks schedule i = (sharedAoPProver p).run E tasks (List.replicate (schedule.count i) i) :=
    privateRun_alone _ _ _ _
  have all : ∀ k, ∃ c, IsCommit p.pp.N p.pp.G p.pp.H (tasks i).x p.r c ∧ ∃ proof p',
      aopProve E p (tasks i).x (tasks i).ts (tasks i).coins = .ok (proof, p') ∧
      ((sharedAoPProver p).run E tasks (List.replicate (3 + k) i)).phase i = .done proof ∧
      aopVerify E (newAoPVerifier p.pp c) (some proof) = .ok true := by
    intro k
    have := C117_positivity_partial E p tasks [] (List.replicate k i) i (by simp) hpp ht
    rw [List.nil_append, show [i, i, i] = List.replicate 3 i from rfl, List.replicate_append_replicate] at this
    exact this
  rw [e]
  refine ⟨fun proof h => ?_, fun h => ?_⟩
  · have h2 := aop_stays_done E tasks i proof 3 _ h
    rw [SharedAoPProver.run, SharedAoPProver.run, ← List.foldl_append, List.replicate_append_replicate, Nat.add_comm] at h2
    obtain ⟨c, hc, proof', p', h3, h4, h5⟩ := all (schedule.count i)
    rw [SharedAoPProver.run, h2] at h4
    injection h4 with h4
    subst h4
    exact ⟨⟨p', h3⟩, c, hc, h5⟩
  · obtain ⟨k, hk⟩ := Nat.exists_eq_add_of_le h
    obtain ⟨c, -, proof, -, -, h4, -⟩ := all k
    rw [hk]
    exact ⟨proof, h4⟩

/-- With the schedule of `C117_leak`, in which the masks of one proof are used again, all three goroutines get good proofs. -/
example (i : Nat) (hi : i < 3) : ∃ proof, (rpProverCopies lastEnv (newRPProver ⟨35, 4, 9⟩ 6 1 8) threeTask leakSchedule i).phase i =
      .done proof ∧ rpVerify lastEnv (newRPVerifier ⟨35, 4, 9⟩ 1 8) (some proof) = .ok true := by
  have h := C117_repaired_partial lastEnv (newRPProver ⟨35, 4, 9⟩ 6 1 8) threeTask leakSchedule i good35 rfl
  obtain ⟨proof, hp⟩ := h.2 (by interval_cases i <;> decide)
  exact ⟨proof, hp, (h.1 proof hp).2⟩

example (i : Nat) (hi : i < 2) : ∃ proof, (aopProverCopies byteEnv (newAoPProver ⟨35, 4, 9⟩ 6) threePositive [0, 1, 0, 1, 0, 1] i).phase i =
    .done proof := by
  refine (C117_repaired_positivity_partial byteEnv (newAoPProver ⟨35, 4, 9⟩ 6) threePositive [0, 1, 0, 1, 0, 1] i good35 ?_).2 ?_
  · interval_cases i <;> decide
  · interval_cases i <;> decide

end Verif.Props
