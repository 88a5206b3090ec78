import Verif.Model.SharedProver
import Verif.Props.SharedVerifier

/-!
# Property C117: a prover object used by several goroutines
-/

namespace Verif.Props
open Verif.Go Verif.Model Verif.Lemmas Verif.Spec

/-- The three squares of a task are right. -/
def TaskOk (p : RPProver) (t : ProveTask) : Prop := t.ts.t0 ^ 2 + t.ts.t1 ^ 2 + t.ts.t2 ^ 2 = rpTarget p t.x

/-- C117: goroutines that call `Prove` on the same object get proofs that verify. -/
def C117_statement : Prop :=
  ∀ (E : Env) (p : RPProver) (tasks : Nat → ProveTask) (schedule : List Nat) (i : Nat) (proof : RangeProof),
    GoodParams p.pp → (∀ j, TaskOk p (tasks j)) →
    ((sharedProver p).run E tasks schedule).phase i = .done proof →
    rpVerify E (newRPVerifier p.pp p.a p.b) (some proof) = .ok true

theorem proverRun_append (E : Env) (tasks : Nat → ProveTask) (s : SharedProver) (a b : List Nat) :
    s.run E tasks (a ++ b) = (s.run E tasks a).run E tasks b := List.foldl_append

theorem goto_self (s : SharedProver) (i : Nat) (o : RPProver) (ph : ProvePhase) : (s.goto i o ph).phase i = ph := by
  simp [SharedProver.goto]

theorem goto_other (s : SharedProver) (i j : Nat) (o : RPProver) (ph : ProvePhase) (h : j ≠ i) : (s.goto i o ph).phase j = s.phase j := by
  simp [SharedProver.goto, h]

theorem proverStep_other (E : Env) (tasks : Nat → ProveTask) (s : SharedProver) (i j : Nat) (h : i ≠ j) :
    (s.step E tasks j).phase i = s.phase i := by
  unfold SharedProver.step
  split
  · simp only
    split <;> exact goto_other _ _ _ _ _ h
  · split <;> exact goto_other _ _ _ _ _ h
  · exact goto_other _ _ _ _ _ h
  · rfl
  · rfl

theorem proverRun_other (E : Env) (tasks : Nat → ProveTask) (s : SharedProver) (i : Nat) (l : List Nat) (h : i ∉ l) :
    (s.run E tasks l).phase i = s.phase i := by
  induction l generalizing s with
  | nil => rfl
  | cons j l ih =>
    rw [List.mem_cons, not_or] at h
    show ((s.step E tasks j).run E tasks l).phase i = _
    rw [ih _ h.2, proverStep_other E tasks s i j h.1]

theorem proverRun_done (E : Env) (tasks : Nat → ProveTask) (s : SharedProver) (i : Nat) (l : List Nat) (proof : RangeProof)
    (h : s.phase i = .done proof) : (s.run E tasks l).phase i = .done proof := by
  induction l generalizing s with
  | nil => exact h
  | cons j l ih =>
    refine ih (s.step E tasks j) ?_
    by_cases hij : i = j
    · subst hij
      unfold SharedProver.step
      rw [h]
      exact h
    · rw [proverStep_other E tasks s i j hij, h]

/-- What the caller fixed is never changed. -/
def SameInputs (p q : RPProver) : Prop := p.pp = q.pp ∧ p.r = q.r ∧ p.a = q.a ∧ p.b = q.b

theorem rpCommitForX_ok (p q : RPProver) (x : Int) (ts rc : Int3) (h : rpCommitForX p x ts rc = .ok q) :
    ∃ c3, commitFromTS p.pp rc ts = .ok c3 ∧
      q = { p with x4 := ⟨p.b - x, ts.t0, ts.t1, ts.t2⟩, r4 := ⟨-p.r, rc.t0, rc.t1, rc.t2⟩, c3 := c3 } := by
  unfold rpCommitForX at h
  simp only [res_bind_ok_iff, Except.ok.injEq] at h
  obtain ⟨c3, h1, rfl⟩ := h
  exact ⟨c3, h1, rfl⟩

theorem rpCommit_ok (E : Env) (p q : RPProver) (coins : RPCoins) (cm : Bytes) (h : rpCommit E p coins = .ok (cm, q)) :
    q = { p with randM4 := coins.m4, randS4 := coins.s4, sigma := coins.sigma } := by
  unfold rpCommit at h
  simp only [res_bind_ok_iff, Except.ok.injEq, Prod.mk.injEq] at h
  obtain ⟨_, _, _, _, _, rfl⟩ := h
  rfl

theorem proverStep_inputs (E : Env) (tasks : Nat → ProveTask) (s : SharedProver) (j : Nat) :
    SameInputs (s.step E tasks j).obj s.obj := by
  unfold SharedProver.step
  split
  · simp only
    split
    · rename_i p hp
      simp only [res_bind_ok_iff] at hp
      obtain ⟨c, _, ca, _, h⟩ := hp
      obtain ⟨c3, _, rfl⟩ := rpCommitForX_ok _ _ _ _ _ h
      exact ⟨rfl, rfl, rfl, rfl⟩
    · exact ⟨rfl, rfl, rfl, rfl⟩
  · split
    · rename_i cm p hp
      rw [rpCommit_ok _ _ _ _ _ hp]
      exact ⟨rfl, rfl, rfl, rfl⟩
    · exact ⟨rfl, rfl, rfl, rfl⟩
  · exact ⟨rfl, rfl, rfl, rfl⟩
  · exact ⟨rfl, rfl, rfl, rfl⟩
  · exact ⟨rfl, rfl, rfl, rfl⟩

theorem proverRun_inputs (E : Env) (tasks : Nat → ProveTask) (s : SharedProver) (l : List Nat) : SameInputs (s.run E tasks l).obj s.obj := by
  induction l generalizing s with
  | nil => exact ⟨rfl, rfl, rfl, rfl⟩
  | cons j l ih =>
    have h1 := ih (s.step E tasks j)
    have h2 := proverStep_inputs E tasks s j
    exact ⟨h1.1.trans h2.1, h1.2.1.trans h2.2.1, h1.2.2.1.trans h2.2.2.1, h1.2.2.2.trans h2.2.2.2⟩

/-- The first step. -/
theorem step_start (E : Env) (tasks : Nat → ProveTask) (s : SharedProver) (i : Nat) (h : s.phase i = .start) (c ca : Int) (q : RPProver)
    (h1 : calC s.obj.pp s.obj.r (tasks i).x = .ok c) (h2 : calCa s.obj.pp s.obj.a c = .ok ca)
    (h3 : rpCommitForX { s.obj with c := c, ca := ca } (tasks i).x (tasks i).ts (tasks i).coins.rc = .ok q) :
    s.step E tasks i = s.goto i q (.committedX q.c3) := by
  unfold SharedProver.step
  rw [h]
  simp only [h1, h2, h3, res_ok_bind]

theorem step_commit (E : Env) (tasks : Nat → ProveTask) (s : SharedProver) (i : Nat) (cx : Int3) (h : s.phase i = .committedX cx) (cm : Bytes)
    (q : RPProver) (h1 : rpCommit E s.obj (tasks i).coins = .ok (cm, q)) : s.step E tasks i = s.goto i q (.committed cx cm) := by
  unfold SharedProver.step
  rw [h]
  simp only [h1]

theorem step_respond (E : Env) (tasks : Nat → ProveTask) (s : SharedProver) (i : Nat) (cx : Int3) (cm : Bytes) (h : s.phase i = .committed cx cm) :
    s.step E tasks i = s.goto i s.obj (.done { c := some s.obj.c, commit3 := cx, commitment := cm, response := some (rpResponseOf E s.obj) }) := by
  unfold SharedProver.step
  rw [h]

/-- Three steps in a row are a call of `Prove`. -/
theorem three_steps (E : Env) (tasks : Nat → ProveTask) (s : SharedProver) (i : Nat) (h : s.phase i = .start) (proof : RangeProof) (p' : RPProver)
    (hp : rpProve E s.obj (tasks i).x (tasks i).ts (tasks i).coins = .ok (proof, p')) :
    (s.run E tasks [i, i, i]).obj = p' ∧ (s.run E tasks [i, i, i]).phase i = .done proof := by
  unfold rpProve at hp
  simp only [res_bind_ok_iff] at hp
  obtain ⟨c, h1, ca, h2, q, h3, ⟨cm, q'⟩, h4, h5⟩ := hp
  simp only [Except.ok.injEq, Prod.mk.injEq] at h5
  obtain ⟨rfl, rfl⟩ := h5
  show ((SharedProver.step E tasks (SharedProver.step E tasks (s.step E tasks i) i) i)).obj = _ ∧ _ = _
  show _ ∧ ((SharedProver.step E tasks (SharedProver.step E tasks (s.step E tasks i) i) i)).phase i = _
  rw [step_start E tasks s i h c ca q h1 h2 h3, step_commit E tasks _ i q.c3 (goto_self _ _ _ _) cm q' h4,
    step_respond E tasks _ i q.c3 cm (goto_self _ _ _ _)]
  exact ⟨rfl, goto_self _ _ _ _⟩

/-- C117, the part that holds: a goroutine whose steps are not interrupted gets the proof that `Prove` makes alone, and it verifies. -/
theorem C117_partial (E : Env) (p : RPProver) (tasks : Nat → ProveTask) (before after : List Nat) (i : Nat) (hi : i ∉ before)
    (hpp : GoodParams p.pp) (ht : TaskOk p (tasks i)) :
    ∃ proof p', rpProve E p (tasks i).x (tasks i).ts (tasks i).coins = .ok (proof, p') ∧
      ((sharedProver p).run E tasks (before ++ [i, i, i] ++ after)).phase i = .done proof ∧
      rpVerify E (newRPVerifier p.pp p.a p.b) (some proof) = .ok true := by
  obtain ⟨proof, p', h1, _, h3⟩ := C50_complete_of_squares E p hpp (tasks i).x (tasks i).ts
    (by rw [ht]; unfold rpTarget; ring) (tasks i).coins (newRPVerifier p.pp p.a p.b) ⟨rfl, rfl, rfl⟩
  refine ⟨proof, p', h1, ?_, h3⟩
  rw [proverRun_append, proverRun_append]
  apply proverRun_done
  have hin := proverRun_inputs E tasks (sharedProver p) before
  have hph : ((sharedProver p).run E tasks before).phase i = .start := proverRun_other E tasks _ i before hi
  refine (three_steps E tasks _ i hph proof p' ?_).2
  rw [C59_range_prover_reuse E _ p hin]
  exact h1

/-- The masks of one proof are used a second time: goroutine 2 has chosen its masks, goroutine 0 makes a whole proof, goroutine 1
starts, goroutine 2 responds, goroutine 1 ends. -/
def leakSchedule : List Nat := [2, 2, 0, 0, 0, 1, 2, 1, 1]

/-- C117, what is lost: three goroutines prove the same number `x`. The proofs of the first two verify, and from the three proofs
everybody can compute `x`, if the two challenges (which are public) differ. -/
theorem C117_leak (E : Env) (p : RPProver) (tasks : Nat → ProveTask) (x : Int) (hx : ∀ j, (tasks j).x = x) (hpp : GoodParams p.pp)
    (ht : ∀ j, TaskOk p (tasks j)) :
    ∃ q0 q1 q2 : RangeProof, ∃ r0 r2 : RPResponse,
      ((sharedProver p).run E tasks leakSchedule).phase 0 = .done q0 ∧
      ((sharedProver p).run E tasks leakSchedule).phase 1 = .done q1 ∧
      ((sharedProver p).run E tasks leakSchedule).phase 2 = .done q2 ∧
      rpVerify E (newRPVerifier p.pp p.a p.b) (some q0) = .ok true ∧
      rpVerify E (newRPVerifier p.pp p.a p.b) (some q1) = .ok true ∧
      q0.response = some r0 ∧ q2.response = some r2 ∧
      ((rpChallenge E p.pp p.a p.b q0.commit3 : Int) - rpChallenge E p.pp p.a p.b q1.commit3) * (p.b - x) = r0.Z4.t0 - r2.Z4.t0 := by
  have alone : ∀ j, ∃ proof p', rpProve E p (tasks j).x (tasks j).ts (tasks j).coins = .ok (proof, p') ∧
      rpVerify E (newRPVerifier p.pp p.a p.b) (some proof) = .ok true := by
    intro j
    obtain ⟨proof, p', h1, _, h3⟩ := C50_complete_of_squares E p hpp (tasks j).x (tasks j).ts
      (by rw [ht j]; unfold rpTarget; ring) (tasks j).coins (newRPVerifier p.pp p.a p.b) ⟨rfl, rfl, rfl⟩
    exact ⟨proof, p', h1, h3⟩
  have parts : ∀ j o, SameInputs o p → ∃ c ca q cm q', calC o.pp o.r (tasks j).x = .ok c ∧ calCa o.pp o.a c = .ok ca ∧
      rpCommitForX { o with c := c, ca := ca } (tasks j).x (tasks j).ts (tasks j).coins.rc = .ok q ∧
      rpCommit E q (tasks j).coins = .ok (cm, q') ∧
      rpProve E p (tasks j).x (tasks j).ts (tasks j).coins =
        .ok ({ c := some q'.c, commit3 := q.c3, commitment := cm, response := some (rpResponseOf E q') }, q') ∧
      rpVerify E (newRPVerifier p.pp p.a p.b)
        (some { c := some q'.c, commit3 := q.c3, commitment := cm, response := some (rpResponseOf E q') }) = .ok true ∧
      SameInputs q p ∧ SameInputs q' p ∧ q.x4.t0 = p.b - x ∧ q.randM4 = o.randM4 ∧ q'.x4 = q.x4 ∧ q'.c3 = q.c3 := by
    intro j o ho
    obtain ⟨proof, p', hp, hv⟩ := alone j
    have hp2 := hp
    rw [← C59_range_prover_reuse E o p ho] at hp
    unfold rpProve at hp
    simp only [res_bind_ok_iff] at hp
    obtain ⟨c, h1, ca, h2, q, h3, ⟨cm, q'⟩, h4, h5⟩ := hp
    simp only [Except.ok.injEq, Prod.mk.injEq] at h5
    obtain ⟨rfl, rfl⟩ := h5
    obtain ⟨c3, _, hq⟩ := rpCommitForX_ok _ _ _ _ _ h3
    have hq' := rpCommit_ok _ _ _ _ _ h4
    obtain ⟨o1, o2, o3, o4⟩ := ho
    refine ⟨c, ca, q, cm, q', h1, h2, h3, h4, hp2, hv, ?_, ?_, ?_, ?_, ?_, ?_⟩
    · rw [hq]
      exact ⟨o1, o2, o3, o4⟩
    · rw [hq', hq]
      exact ⟨o1, o2, o3, o4⟩
    · rw [hq, ← hx j, ← o4]
    · rw [hq]
    · rw [hq']
    · rw [hq']
  obtain ⟨c2, ca2, q2, cm2, q2', a1, a2, a3, a4, a5, a6, a7, a8, a9, a10, a11, a12⟩ := parts 2 p ⟨rfl, rfl, rfl, rfl⟩
  obtain ⟨c0, ca0, q0, cm0, q0', b1, b2, b3, b4, b5, b6, b7, b8, b9, b10, b11, b12⟩ := parts 0 q2' a8
  obtain ⟨c1, ca1, q1, cm1, q1', d1, d2, d3, d4, d5, d6, d7, d8, d9, d10, d11, d12⟩ := parts 1 q0' b8
  have e1 := step_start E tasks (sharedProver p) 2 rfl c2 ca2 q2 a1 a2 a3
  have e2 := step_commit E tasks ((sharedProver p).goto 2 q2 (.committedX q2.c3)) 2 q2.c3 (goto_self _ _ _ _) cm2 q2' a4
  generalize hs2 : ((sharedProver p).goto 2 q2 (.committedX q2.c3)).goto 2 q2' (.committed q2.c3 cm2) = s2 at e2
  have s2o : s2.obj = q2' := by rw [← hs2]; rfl
  have s2p0 : s2.phase 0 = .start := by rw [← hs2]; rfl
  have s2p1 : s2.phase 1 = .start := by rw [← hs2]; rfl
  have s2p2 : s2.phase 2 = .committed q2.c3 cm2 := by rw [← hs2]; rfl
  have e3 := step_start E tasks s2 0 s2p0 c0 ca0 q0 (by rw [s2o]; exact b1) (by rw [s2o]; exact b2) (by rw [s2o]; exact b3)
  have e4 := step_commit E tasks (s2.goto 0 q0 (.committedX q0.c3)) 0 q0.c3 (goto_self _ _ _ _) cm0 q0' b4
  have e5 := step_respond E tasks ((s2.goto 0 q0 (.committedX q0.c3)).goto 0 q0' (.committed q0.c3 cm0)) 0 q0.c3 cm0 (goto_self _ _ _ _)
  generalize hs5 : ((s2.goto 0 q0 (.committedX q0.c3)).goto 0 q0' (.committed q0.c3 cm0)).goto 0
    ((s2.goto 0 q0 (.committedX q0.c3)).goto 0 q0' (.committed q0.c3 cm0)).obj (.done { c := some q0'.c, commit3 := q0.c3, commitment := cm0, response := some (rpResponseOf E q0') }) = s5
  have e5' : SharedProver.step E tasks ((s2.goto 0 q0 (.committedX q0.c3)).goto 0 q0' (.committed q0.c3 cm0)) 0 = s5 := by
    rw [← hs5]
    exact e5
  have s5o : s5.obj = q0' := by rw [← hs5]; rfl
  have s5p0 : s5.phase 0 = .done { c := some q0'.c, commit3 := q0.c3, commitment := cm0, response := some (rpResponseOf E q0') } := by
    rw [← hs5]
    exact goto_self _ _ _ _
  have s5p1 : s5.phase 1 = .start := by rw [← hs5, goto_other _ _ _ _ _ (by decide), goto_other _ _ _ _ _ (by decide), goto_other _ _ _ _ _ (by decide), s2p1]
  have s5p2 : s5.phase 2 = .committed q2.c3 cm2 := by
    rw [← hs5, goto_other _ _ _ _ _ (by decide), goto_other _ _ _ _ _ (by decide), goto_other _ _ _ _ _ (by decide), s2p2]
  have e6 := step_start E tasks s5 1 s5p1 c1 ca1 q1 (by rw [s5o]; exact d1) (by rw [s5o]; exact d2) (by rw [s5o]; exact d3)
  generalize hs6 : s5.goto 1 q1 (.committedX q1.c3) = s6 at e6
  have s6o : s6.obj = q1 := by rw [← hs6]; rfl
  have s6p0 : s6.phase 0 = s5.phase 0 := by rw [← hs6, goto_other _ _ _ _ _ (by decide)]
  have s6p1 : s6.phase 1 = .committedX q1.c3 := by rw [← hs6, goto_self]
  have s6p2 : s6.phase 2 = .committed q2.c3 cm2 := by rw [← hs6, goto_other _ _ _ _ _ (by decide), s5p2]
  have e7 := step_respond E tasks s6 2 q2.c3 cm2 s6p2
  rw [s6o] at e7
  generalize hs7 : s6.goto 2 q1 (.done { c := some q1.c, commit3 := q2.c3, commitment := cm2, response := some (rpResponseOf E q1) }) = s7 at e7
  have s7o : s7.obj = q1 := by rw [← hs7]; rfl
  have s7p0 : s7.phase 0 = s5.phase 0 := by rw [← hs7, goto_other _ _ _ _ _ (by decide), s6p0]
  have s7p1 : s7.phase 1 = .committedX q1.c3 := by rw [← hs7, goto_other _ _ _ _ _ (by decide), s6p1]
  have s7p2 : s7.phase 2 = .done { c := some q1.c, commit3 := q2.c3, commitment := cm2, response := some (rpResponseOf E q1) } := by
    rw [← hs7, goto_self]
  have e8 := step_commit E tasks s7 1 q1.c3 s7p1 cm1 q1' (by rw [s7o]; exact d4)
  have e9 := step_respond E tasks (s7.goto 1 q1' (.committed q1.c3 cm1)) 1 q1.c3 cm1 (goto_self _ _ _ _)
  have hrun : (sharedProver p).run E tasks leakSchedule = (s7.goto 1 q1' (.committed q1.c3 cm1)).goto 1 q1'
      (.done { c := some q1'.c, commit3 := q1.c3, commitment := cm1, response := some (rpResponseOf E q1') }) := by
    simp only [leakSchedule, SharedProver.run, List.foldl_cons, List.foldl_nil]
    rw [e1, e2, e3, e4, e5', e6, e7, e8, e9]
    rfl
  rw [hrun]
  refine ⟨_, _, { c := some q1.c, commit3 := q2.c3, commitment := cm2, response := some (rpResponseOf E q1) },
    rpResponseOf E q0', rpResponseOf E q1, ?_, goto_self _ _ _ _, ?_, b6, d6, rfl, rfl, ?_⟩
  · rw [goto_other _ _ _ _ _ (by decide), goto_other _ _ _ _ _ (by decide), s7p0, s5p0]
  · rw [goto_other _ _ _ _ _ (by decide), goto_other _ _ _ _ _ (by decide), s7p2]
  · simp only [rpResponseOf, d9, d10, b11, b12, b9]
    rw [b8.1, b8.2.2.1, b8.2.2.2, d7.1, d7.2.2.1, d7.2.2.2]
    ring

/-- The proof of a call that has ended. -/
def doneProof : ProvePhase → Option RangeProof
  | .done proof => some proof
  | _ => none

/-- Goroutine `j` proves 3 in [1, 8] with coins that depend on `j`. -/
def threeTask (j : Nat) : ProveTask := ⟨3, ⟨6, 2, 1⟩, ⟨⟨1 + j, 2 + j, 3 + 2 * j⟩, ⟨4 + j, 5, 6, 7⟩, ⟨8 + j, 9, 10, 11⟩, 12 + j⟩⟩

/-- Goroutine 0 has committed, goroutine 1 makes a whole proof, goroutine 0 responds: its proof is rejected. -/
theorem C117_violated : ¬ C117_statement := by
  intro h
  have hd : (doneProof (((sharedProver (newRPProver ⟨35, 4, 9⟩ 6 1 8)).run byteEnv threeTask [0, 0, 1, 1, 1, 0]).phase 0)).map
      (fun q => rpVerify byteEnv (newRPVerifier ⟨35, 4, 9⟩ 1 8) (some q)) = some (.ok false) := by
    decide +kernel
  cases hph : ((sharedProver (newRPProver ⟨35, 4, 9⟩ 6 1 8)).run byteEnv threeTask [0, 0, 1, 1, 1, 0]).phase 0 with
  | done proof =>
    have := h byteEnv (newRPProver ⟨35, 4, 9⟩ 6 1 8) threeTask _ 0 proof good35 (fun _ => rfl) hph
    rw [hph] at hd
    simp only [doneProof, Option.map_some, Option.some.injEq] at hd
    have h2 : rpVerify byteEnv (newRPVerifier ⟨35, 4, 9⟩ 1 8) (some proof) = .ok true := this
    rw [h2] at hd
    cases hd
  | start => rw [hph] at hd; cases hd
  | committedX _ => rw [hph] at hd; cases hd
  | committed _ _ => rw [hph] at hd; cases hd
  | panicked _ => rw [hph] at hd; cases hd

/-- A hash function that keeps the last byte. -/
def lastEnv : Env where
  sha256 := fun b => List.replicate 31 0 ++ [b.getLastD 0]
  sha256_length := by intro b; rfl
  probablyPrime := fun _ => true
  poseidon := fun _ => 0
  poseidon_lt := by intro l; decide

/-- Here the two challenges differ, so 3 is found from the three proofs: the difference of the responses is five times that of the
challenges. -/
example : (do
    let q0 ← doneProof (((sharedProver (newRPProver ⟨35, 4, 9⟩ 6 1 8)).run lastEnv threeTask leakSchedule).phase 0)
    let q1 ← doneProof (((sharedProver (newRPProver ⟨35, 4, 9⟩ 6 1 8)).run lastEnv threeTask leakSchedule).phase 1)
    let q2 ← doneProof (((sharedProver (newRPProver ⟨35, 4, 9⟩ 6 1 8)).run lastEnv threeTask leakSchedule).phase 2)
    let r0 ← q0.response
    let r2 ← q2.response
    let e0 : Int := rpChallenge lastEnv ⟨35, 4, 9⟩ 1 8 q0.commit3
    let e1 : Int := rpChallenge lastEnv ⟨35, 4, 9⟩ 1 8 q1.commit3
    some (8 - (r0.Z4.t0 - r2.Z4.t0) / (e0 - e1), decide (e0 = e1))) = some (3, false) := by
  decide +kernel

/-! ## The prover of positivity -/

/-- C117 for arguments of positivity: goroutines that call `Prove` on the same object get arguments that verify for the commitment to
their number. -/
def C117_positivity_statement : Prop :=
  ∀ (E : Env) (p : AoPProver) (tasks : Nat → AoPTask) (schedule : List Nat) (i : Nat) (proof : ArgOfPositivity) (c : Int),
    GoodParams p.pp → (∀ j, (tasks j).ts.t0 ^ 2 + (tasks j).ts.t1 ^ 2 + (tasks j).ts.t2 ^ 2 = 4 * (tasks j).x + 1) →
    ((sharedAoPProver p).run E tasks schedule).phase i = .done proof →
    IsCommit p.pp.N p.pp.G p.pp.H (tasks i).x p.r c →
    aopVerify E (newAoPVerifier p.pp c) (some proof) = .ok true

theorem aopRun_append (E : Env) (tasks : Nat → AoPTask) (s : SharedAoPProver) (a b : List Nat) :
    s.run E tasks (a ++ b) = (s.run E tasks a).run E tasks b := List.foldl_append

theorem aopGoto_self (s : SharedAoPProver) (i : Nat) (o : AoPProver) (ph : AoPPhase) : (s.goto i o ph).phase i = ph := by
  simp [SharedAoPProver.goto]

theorem aopGoto_other (s : SharedAoPProver) (i j : Nat) (o : AoPProver) (ph : AoPPhase) (h : j ≠ i) : (s.goto i o ph).phase j = s.phase j := by
  simp [SharedAoPProver.goto, h]

theorem aopStep_other (E : Env) (tasks : Nat → AoPTask) (s : SharedAoPProver) (i j : Nat) (h : i ≠ j) :
    (s.step E tasks j).phase i = s.phase i := by
  unfold SharedAoPProver.step
  split
  · simp only
    split <;> exact aopGoto_other _ _ _ _ _ h
  · split <;> exact aopGoto_other _ _ _ _ _ h
  · exact aopGoto_other _ _ _ _ _ h
  · rfl
  · rfl

theorem aopRun_other (E : Env) (tasks : Nat → AoPTask) (s : SharedAoPProver) (i : Nat) (l : List Nat) (h : i ∉ l) :
    (s.run E tasks l).phase i = s.phase i := by
  induction l generalizing s with
  | nil => rfl
  | cons j l ih =>
    rw [List.mem_cons, not_or] at h
    show ((s.step E tasks j).run E tasks l).phase i = _
    rw [ih _ h.2, aopStep_other E tasks s i j h.1]

theorem aopRun_done (E : Env) (tasks : Nat → AoPTask) (s : SharedAoPProver) (i : Nat) (l : List Nat) (proof : ArgOfPositivity)
    (h : s.phase i = .done proof) : (s.run E tasks l).phase i = .done proof := by
  induction l generalizing s with
  | nil => exact h
  | cons j l ih =>
    refine ih (s.step E tasks j) ?_
    by_cases hij : i = j
    · subst hij
      unfold SharedAoPProver.step
      rw [h]
      exact h
    · rw [aopStep_other E tasks s i j hij, h]

theorem aopCommitForX_inputs (p q : AoPProver) (ts rc : Int3) (h : aopCommitForX p ts rc = .ok q) : q.pp = p.pp ∧ q.r = p.r := by
  unfold aopCommitForX at h
  simp only [res_bind_ok_iff, Except.ok.injEq] at h
  obtain ⟨c3, _, rfl⟩ := h
  exact ⟨rfl, rfl⟩

theorem aopCommit_inputs (E : Env) (p q : AoPProver) (coins : AoPCoins) (cm : Bytes) (h : aopCommit E p coins = .ok (cm, q)) :
    q.pp = p.pp ∧ q.r = p.r := by
  unfold aopCommit at h
  simp only [res_bind_ok_iff, Except.ok.injEq, Prod.mk.injEq] at h
  obtain ⟨_, _, _, _, _, rfl⟩ := h
  exact ⟨rfl, rfl⟩

theorem aopStep_inputs (E : Env) (tasks : Nat → AoPTask) (s : SharedAoPProver) (j : Nat) :
    (s.step E tasks j).obj.pp = s.obj.pp ∧ (s.step E tasks j).obj.r = s.obj.r := by
  unfold SharedAoPProver.step
  split
  · simp only
    split
    · rename_i p hp
      simp only [res_bind_ok_iff] at hp
      obtain ⟨c, _, h⟩ := hp
      have := aopCommitForX_inputs _ _ _ _ h
      exact this
    · exact ⟨rfl, rfl⟩
  · split
    · rename_i cm p hp
      exact aopCommit_inputs _ _ _ _ _ hp
    · exact ⟨rfl, rfl⟩
  · exact ⟨rfl, rfl⟩
  · exact ⟨rfl, rfl⟩
  · exact ⟨rfl, rfl⟩

theorem aopRun_inputs (E : Env) (tasks : Nat → AoPTask) (s : SharedAoPProver) (l : List Nat) :
    (s.run E tasks l).obj.pp = s.obj.pp ∧ (s.run E tasks l).obj.r = s.obj.r := by
  induction l generalizing s with
  | nil => exact ⟨rfl, rfl⟩
  | cons j l ih =>
    have h1 := ih (s.step E tasks j)
    have h2 := aopStep_inputs E tasks s j
    exact ⟨h1.1.trans h2.1, h1.2.trans h2.2⟩

/-- Three steps in a row are a call of `Prove`. -/
theorem aop_three_steps (E : Env) (tasks : Nat → AoPTask) (s : SharedAoPProver) (i : Nat) (h : s.phase i = .start) (proof : ArgOfPositivity)
    (p' : AoPProver) (hp : aopProve E s.obj (tasks i).x (tasks i).ts (tasks i).coins = .ok (proof, p')) :
    (s.run E tasks [i, i, i]).phase i = .done proof := by
  unfold aopProve at hp
  simp only [res_bind_ok_iff] at hp
  obtain ⟨c, h1, q, h3, ⟨cm, q'⟩, h4, h5⟩ := hp
  simp only [Except.ok.injEq, Prod.mk.injEq] at h5
  obtain ⟨rfl, rfl⟩ := h5
  have e1 : s.step E tasks i = s.goto i q (.committedX q.c3) := by
    unfold SharedAoPProver.step
    rw [h]
    simp only [h1, h3, res_ok_bind]
  have e2 : (s.goto i q (.committedX q.c3)).step E tasks i = (s.goto i q (.committedX q.c3)).goto i q' (.committed q.c3 cm) := by
    unfold SharedAoPProver.step
    rw [aopGoto_self]
    have : aopCommit E (s.goto i q (.committedX q.c3)).obj (tasks i).coins = .ok (cm, q') := h4
    simp only [this]
  show ((SharedAoPProver.step E tasks (SharedAoPProver.step E tasks (s.step E tasks i) i) i)).phase i = _
  rw [e1, e2]
  unfold SharedAoPProver.step
  rw [aopGoto_self]
  exact aopGoto_self _ _ _ _

/-- The part that holds: a goroutine whose steps are not interrupted gets the argument that `Prove` makes alone, and it verifies. -/
theorem C117_positivity_partial (E : Env) (p : AoPProver) (tasks : Nat → AoPTask) (before after : List Nat) (i : Nat) (hi : i ∉ before)
    (hpp : GoodParams p.pp) (ht : (tasks i).ts.t0 ^ 2 + (tasks i).ts.t1 ^ 2 + (tasks i).ts.t2 ^ 2 = 4 * (tasks i).x + 1) :
    ∃ c, IsCommit p.pp.N p.pp.G p.pp.H (tasks i).x p.r c ∧
    ∃ proof p', aopProve E p (tasks i).x (tasks i).ts (tasks i).coins = .ok (proof, p') ∧
      ((sharedAoPProver p).run E tasks (before ++ [i, i, i] ++ after)).phase i = .done proof ∧
      aopVerify E (newAoPVerifier p.pp c) (some proof) = .ok true := by
  obtain ⟨c, hc, proof, p', h1, _, h3⟩ := C53_complete_of_squares E p hpp (tasks i).x (tasks i).ts ht (tasks i).coins
  refine ⟨c, hc, proof, p', h1, ?_, h3 _ rfl rfl⟩
  rw [aopRun_append, aopRun_append]
  apply aopRun_done
  have hph : ((sharedAoPProver p).run E tasks before).phase i = .start := aopRun_other E tasks _ i before hi
  refine aop_three_steps E tasks _ i hph proof p' ?_
  rw [C59_positivity_prover_reuse E _ p (aopRun_inputs E tasks (sharedAoPProver p) before)]
  exact h1

/-- The argument of a call that has ended. -/
def doneArg : AoPPhase → Option ArgOfPositivity
  | .done proof => some proof
  | _ => none

/-- Goroutine `j` proves 3 positive with coins that depend on `j`. -/
def threePositive (j : Nat) : AoPTask := ⟨3, ⟨0, 2, 3⟩, ⟨⟨1 + j, 2 + j, 3 + 2 * j⟩, ⟨4 + j, 5, 6⟩, ⟨8 + j, 9, 10⟩, 12 + j⟩⟩

/-- Goroutine 0 has committed, goroutine 1 makes a whole argument, goroutine 0 responds: its argument is rejected. -/
theorem C117_positivity_violated : ¬ C117_positivity_statement := by
  intro h
  have hd : (doneArg (((sharedAoPProver (newAoPProver ⟨35, 4, 9⟩ 6)).run byteEnv threePositive [0, 0, 1, 1, 1, 0]).phase 0)).map
      (fun q => aopVerify byteEnv (newAoPVerifier ⟨35, 4, 9⟩ 29) (some q)) = some (.ok false) := by
    decide +kernel
  cases hph : ((sharedAoPProver (newAoPProver ⟨35, 4, 9⟩ 6)).run byteEnv threePositive [0, 0, 1, 1, 1, 0]).phase 0 with
  | done proof =>
    have h2 := h byteEnv (newAoPProver ⟨35, 4, 9⟩ 6) threePositive _ 0 proof 29 good35 (fun _ => rfl) hph
      ⟨29, 1, by unfold IsPower; decide +kernel, by unfold IsPower; decide +kernel, by decide⟩
    rw [hph] at hd
    simp only [doneArg, Option.map_some, Option.some.injEq] at hd
    have h3 : aopVerify byteEnv (newAoPVerifier ⟨35, 4, 9⟩ 29) (some proof) = .ok true := h2
    rw [h3] at hd
    cases hd
  | start => rw [hph] at hd; cases hd
  | committedX _ => rw [hph] at hd; cases hd
  | committed _ _ => rw [hph] at hd; cases hd
  | panicked _ => rw [hph] at hd; cases hd

/-- Goroutine 2 of them is not interrupted: its argument verifies, whatever the others do before and after. -/
example (before after : List Nat) (hb : 2 ∉ before) : ∃ c proof, IsCommit 35 4 9 3 6 c ∧
    ((sharedAoPProver (newAoPProver ⟨35, 4, 9⟩ 6)).run byteEnv threePositive (before ++ [2, 2, 2] ++ after)).phase 2 = .done proof ∧
    aopVerify byteEnv (newAoPVerifier ⟨35, 4, 9⟩ c) (some proof) = .ok true := by
  obtain ⟨c, hc, proof, _, -, h1, h2⟩ := C117_positivity_partial byteEnv (newAoPProver ⟨35, 4, 9⟩ 6) threePositive before after 2
    hb good35 (by decide)
  exact ⟨c, proof, hc, h1, h2⟩

end Verif.Props
