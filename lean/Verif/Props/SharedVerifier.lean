import Verif.Model.SharedVerifier
import Verif.Props.RangeProof

/-!
# Property C116: a verifier object used by several goroutines
-/

namespace Verif.Props
open Verif.Go Verif.Model Verif.Lemmas Verif.Spec

/-- C116: whatever the schedule, a goroutine that gets a result from `Verify` gets the one it would get alone. -/
def C116_statement : Prop :=
  (∀ (E : Env) (v : RPVerifier) (proofs : Nat → Option RangeProof) (schedule : List Nat) (i : Nat) (r : Res Bool),
    (((rpShared E v proofs).run schedule).calls i).result = some r → r = rpVerify E v (proofs i)) ∧
  ∀ (E : Env) (v : AoPVerifier) (proofs : Nat → Option ArgOfPositivity) (schedule : List Nat) (i : Nat) (r : Res Bool),
    (((aopShared E v proofs).run schedule).calls i).result = some r → r = aopVerify E v (proofs i)

/-! ## Steps of one goroutine -/

section Machine
variable {V : Type}

theorem step_other (s : SharedState V) (i j : Nat) (h : i ≠ j) : (s.step j).calls i = s.calls i := by
  unfold SharedState.step
  simp only
  split
  · rfl
  · split
    · simp only [if_neg h]
    · split <;> simp only [if_neg h]

theorem run_other (s : SharedState V) (i : Nat) (l : List Nat) (h : i ∉ l) : (s.run l).calls i = s.calls i := by
  induction l generalizing s with
  | nil => rfl
  | cons j l ih =>
    rw [List.mem_cons, not_or] at h
    show ((s.step j).run l).calls i = _
    rw [ih _ h.2, step_other s i j h.1]

theorem step_done (s : SharedState V) (i j : Nat) (r : Res Bool) (h : (s.calls i).result = some r) :
    ((s.step j).calls i).result = some r := by
  by_cases hij : i = j
  · subst hij
    unfold SharedState.step
    simp only [h]
  · rw [step_other s i j hij, h]

theorem run_done (s : SharedState V) (i : Nat) (l : List Nat) (r : Res Bool) (h : (s.calls i).result = some r) :
    ((s.run l).calls i).result = some r := by
  induction l generalizing s with
  | nil => exact h
  | cons j l ih => exact ih _ (step_done s i j r h)

theorem run_append (s : SharedState V) (a b : List Nat) : s.run (a ++ b) = (s.run a).run b := List.foldl_append

/-- What a call computes if nobody else touches the object. -/
def soloRun : List (V → Res V) → (V → Res Bool) → V → Res Bool
  | [], d, v => d v
  | f :: rest, d, v => do
    let v ← f v
    soloRun rest d v

/-- The object after the writes of a call. -/
def soloObj : List (V → Res V) → V → Res V
  | [], v => .ok v
  | f :: rest, v => do
    let v ← f v
    soloObj rest v

theorem soloRun_eq (l : List (V → Res V)) (d : V → Res Bool) (v : V) : soloRun l d v = (soloObj l v).bind d := by
  induction l generalizing v with
  | nil => rfl
  | cons f l ih =>
    rw [soloRun, soloObj]
    cases hf : f v with
    | error e => rfl
    | ok w => exact ih w

/-- All writes in a row. -/
theorem run_writes (s : SharedState V) (i : Nat) (hr : (s.calls i).result = none) (w : V)
    (h : soloObj (s.calls i).todo s.obj = .ok w) :
    s.run (List.replicate (s.calls i).todo.length i) =
      { obj := w, calls := fun j => if j = i then { s.calls i with todo := [] } else s.calls j } := by
  generalize hl : (s.calls i).todo = l at h
  induction l generalizing s with
  | nil =>
    simp only [soloObj, Except.ok.injEq] at h
    subst h
    obtain ⟨obj, calls⟩ := s
    simp only [List.length_nil, List.replicate_zero, SharedState.run, List.foldl_nil, SharedState.mk.injEq, true_and]
    funext j
    by_cases hj : j = i
    · subst hj
      simp only [if_true]
      simp only at hl
      rw [← hl]
    · rw [if_neg hj]
  | cons f l ih =>
    rw [soloObj] at h
    cases hf : f s.obj with
    | error e =>
      rw [hf] at h
      cases h
    | ok u =>
      rw [hf] at h
      have hs : s.step i = { obj := u, calls := fun j => if j = i then { s.calls i with todo := l } else s.calls j } := by
        unfold SharedState.step
        simp only [hr, hl, hf]
      rw [List.length_cons, List.replicate_succ]
      show (s.step i).run _ = _
      rw [hs]
      have := ih { obj := u, calls := fun j => if j = i then { s.calls i with todo := l } else s.calls j } (by simp [hr]) (by simp) h
      rw [this]
      simp only [if_true, SharedState.mk.injEq, true_and]
      funext j
      by_cases hj : j = i
      · simp [hj]
      · simp [hj]

/-- All steps of a call in a row. -/
theorem run_solo (s : SharedState V) (i : Nat) (hr : (s.calls i).result = none) :
    ((s.run (List.replicate ((s.calls i).todo.length + 1) i)).calls i).result = some (soloRun (s.calls i).todo (s.calls i).decision s.obj) := by
  generalize hl : (s.calls i).todo = l
  induction l generalizing s with
  | nil =>
    show ((s.step i).calls i).result = _
    unfold SharedState.step
    simp only [hr, hl, if_true, soloRun]
  | cons f l ih =>
    rw [List.length_cons, List.replicate_succ]
    show (((s.step i).run _).calls i).result = _
    rw [soloRun]
    cases hf : f s.obj with
    | error e =>
      apply run_done
      unfold SharedState.step
      simp only [hr, hl, hf, if_true]
      rfl
    | ok u =>
      have hs : s.step i = { obj := u, calls := fun j => if j = i then { s.calls i with todo := l } else s.calls j } := by
        unfold SharedState.step
        simp only [hr, hl, hf]
      rw [hs]
      have := ih { obj := u, calls := fun j => if j = i then { s.calls i with todo := l } else s.calls j } (by simp [hr]) (by simp)
      rw [this]
      simp only [if_true]
      rfl

end Machine

/-! ## The two kinds of `Verify` -/

theorem rpVerifyCall_obj (E : Env) (p : RangeProof) (c : Int) (hc : p.c = some c) (v : RPVerifier) :
    soloObj (rpVerifyCall E (some p)).todo v = rpVerifySetup v c p.commit3 p.commitment := by
  simp only [rpVerifyCall, soloObj, rpVerifySetup, nonNil, hc, res_ok_bind, bind_assoc]

theorem rpVerifyCall_alone (E : Env) (proof : Option RangeProof) (v : RPVerifier) :
    soloRun (rpVerifyCall E proof).todo (rpVerifyCall E proof).decision v = rpVerify E v proof := by
  cases proof with
  | none => rfl
  | some p =>
    obtain ⟨c, commit3, cm, response⟩ := p
    cases c with
    | none => rfl
    | some c =>
      rw [soloRun_eq, rpVerifyCall_obj E _ c rfl]
      rfl

theorem aopVerifyCall_alone (E : Env) (proof : Option ArgOfPositivity) (v : AoPVerifier) :
    soloRun (aopVerifyCall E proof).todo (aopVerifyCall E proof).decision v = aopVerify E v proof := by
  cases proof with
  | none => rfl
  | some p => rfl

/-- Range verifiers with the same parameters and bounds. -/
def SameRange (v w : RPVerifier) : Prop := v.pp = w.pp ∧ v.a = w.a ∧ v.b = w.b

theorem res_bind_ok_iff {α β : Type} (x : Res α) (f : α → Res β) (b : β) : x >>= f = .ok b ↔ ∃ a, x = .ok a ∧ f a = .ok b := by
  cases x with
  | error e => simp [bind, Except.bind]
  | ok a => simp [bind, Except.bind]

/-- No step of `Verify` changes the parameters or the bounds. -/
theorem rpVerifyCall_keeps (E : Env) (proof : Option RangeProof) (f : RPVerifier → Res RPVerifier) (hf : f ∈ (rpVerifyCall E proof).todo)
    (v w : RPVerifier) (h : f v = .ok w) : SameRange w v := by
  simp only [rpVerifyCall, List.mem_cons, List.not_mem_nil, or_false] at hf
  rcases hf with rfl | rfl | rfl | rfl | rfl | rfl | rfl | rfl | rfl | rfl <;>
  · simp only [res_bind_ok_iff, Except.ok.injEq] at h
    obtain ⟨_, _, _, _, _, _, rfl⟩ := h
    exact ⟨rfl, rfl, rfl⟩

theorem aopVerifyCall_keeps (E : Env) (proof : Option ArgOfPositivity) (f : AoPVerifier → Res AoPVerifier)
    (hf : f ∈ (aopVerifyCall E proof).todo) (v w : AoPVerifier) (h : f v = .ok w) : w.pp = v.pp ∧ w.c = v.c := by
  simp only [aopVerifyCall, List.mem_cons, List.not_mem_nil, or_false] at hf
  rcases hf with rfl | rfl | rfl | rfl <;>
  · simp only [res_bind_ok_iff, Except.ok.injEq] at h
    obtain ⟨_, _, rfl⟩ := h
    exact ⟨rfl, rfl⟩

/-- A relation kept by all steps of all calls holds after every schedule. -/
theorem run_keeps {V : Type} (R : V → V → Prop) (hrefl : ∀ v, R v v) (htrans : ∀ a b c, R b a → R c b → R c a) (s : SharedState V)
    (h : ∀ i, ∀ f ∈ (s.calls i).todo, ∀ v w, f v = .ok w → R w v) (l : List Nat) : R (s.run l).obj s.obj := by
  induction l generalizing s with
  | nil => exact hrefl _
  | cons j l ih =>
    show R ((s.step j).run l).obj s.obj
    have key : R (s.step j).obj s.obj ∧ ∀ i, ∀ f ∈ ((s.step j).calls i).todo, f ∈ (s.calls i).todo := by
      unfold SharedState.step
      simp only
      split
      · exact ⟨hrefl _, fun _ _ hf => hf⟩
      · split
        · refine ⟨hrefl _, ?_⟩
          intro i f hf
          by_cases hi : i = j
          · subst hi
            simpa using hf
          · simpa [hi] using hf
        · rename_i g rest hg
          split
          · rename_i w hw
            refine ⟨h j g (by rw [hg]; exact List.mem_cons_self) _ _ hw, ?_⟩
            intro i f hf
            by_cases hi : i = j
            · subst hi
              rw [hg]
              exact List.mem_cons_of_mem _ (by simpa using hf)
            · simpa [hi] using hf
          · refine ⟨hrefl _, ?_⟩
            intro i f hf
            by_cases hi : i = j
            · subst hi
              simpa using hf
            · simpa [hi] using hf
    exact htrans _ _ _ key.1 (ih _ (fun i f hf => h i f (key.2 i f hf)))

/-- C116, the part that holds: a goroutine that does the eleven steps of `Verify` without another goroutine in between, for example
under a lock, gets the right result, whatever was done before and is done later. -/
theorem C116_partial (E : Env) (v : RPVerifier) (proofs : Nat → Option RangeProof) (before after : List Nat) (i : Nat) (hi : i ∉ before) :
    (((rpShared E v proofs).run (before ++ List.replicate 11 i ++ after)).calls i).result = some (rpVerify E v (proofs i)) := by
  rw [run_append, run_append]
  apply run_done
  have hc : ((rpShared E v proofs).run before).calls i = rpVerifyCall E (proofs i) := run_other _ i before hi
  have hk : SameRange ((rpShared E v proofs).run before).obj v :=
    run_keeps SameRange (fun _ => ⟨rfl, rfl, rfl⟩)
      (fun _ _ _ h g => ⟨g.1.trans h.1, g.2.1.trans h.2.1, g.2.2.trans h.2.2⟩) (rpShared E v proofs)
      (fun j f hf => rpVerifyCall_keeps E (proofs j) f hf) before
  have := run_solo ((rpShared E v proofs).run before) i (by rw [hc]; rfl)
  rw [hc] at this
  refine this.trans ?_
  rw [rpVerifyCall_alone, C59_verifier_reuse E _ v hk]

/-- The same for arguments of positivity, with five steps. -/
theorem C116_positivity_partial (E : Env) (v : AoPVerifier) (proofs : Nat → Option ArgOfPositivity) (before after : List Nat) (i : Nat)
    (hi : i ∉ before) :
    (((aopShared E v proofs).run (before ++ List.replicate 5 i ++ after)).calls i).result = some (aopVerify E v (proofs i)) := by
  rw [run_append, run_append]
  apply run_done
  have hc : ((aopShared E v proofs).run before).calls i = aopVerifyCall E (proofs i) := run_other _ i before hi
  have hk : ((aopShared E v proofs).run before).obj.pp = v.pp ∧ ((aopShared E v proofs).run before).obj.c = v.c :=
    run_keeps (fun a b : AoPVerifier => a.pp = b.pp ∧ a.c = b.c) (fun _ => ⟨rfl, rfl⟩)
      (fun _ _ _ h g => ⟨g.1.trans h.1, g.2.trans h.2⟩) (aopShared E v proofs)
      (fun j f hf => aopVerifyCall_keeps E (proofs j) f hf) before
  have := run_solo ((aopShared E v proofs).run before) i (by rw [hc]; rfl)
  rw [hc] at this
  refine this.trans ?_
  rw [aopVerifyCall_alone, C59_positivity_verifier_reuse E _ v hk]

/-! ## What goes wrong -/

/-- Two goroutines write their fields one after the other, then the first decides. -/
def overwrittenSchedule (n : Nat) : List Nat := List.replicate n 0 ++ List.replicate n 1 ++ [0]

theorem overwritten {V : Type} (s : SharedState V) (w0 w1 : V) (r0 : (s.calls 0).result = none) (r1 : (s.calls 1).result = none)
    (n : Nat) (n0 : (s.calls 0).todo.length = n) (n1 : (s.calls 1).todo.length = n)
    (h0 : soloObj (s.calls 0).todo s.obj = .ok w0) (h1 : soloObj (s.calls 1).todo w0 = .ok w1) :
    ((s.run (overwrittenSchedule n)).calls 0).result = some ((s.calls 0).decision w1) := by
  unfold overwrittenSchedule
  rw [run_append, run_append]
  have e0 := run_writes s 0 r0 w0 h0
  rw [n0] at e0
  rw [e0]
  have e1 := run_writes { obj := w0, calls := fun j => if j = 0 then { s.calls 0 with todo := [] } else s.calls j } 1
    (by simpa using r1) w1 (by simpa using h1)
  have hn : (({ obj := w0, calls := fun j => if j = 0 then { s.calls 0 with todo := [] } else s.calls j } : SharedState V).calls 1).todo.length = n := by
    simpa using n1
  rw [hn] at e1
  rw [e1]
  show (((SharedState.step _ 0).calls 0)).result = _
  unfold SharedState.step
  simp [r0]

/-- Any range proof `p` with the response of an accepted proof `q` is accepted, for every commitment `c` of `p` that has an inverse,
if another goroutine verifies `q` with the same object at the wrong time. -/
theorem C116_forged (E : Env) (v : RPVerifier) (p q : RangeProof) (c : Int) (hc : p.c = some c) (hq : rpVerify E v (some q) = .ok true)
    (hp : ∃ w, rpVerifySetup v c p.commit3 p.commitment = .ok w) (hr : p.response = q.response) :
    (((rpShared E v (fun i => if i = 0 then some p else some q)).run (overwrittenSchedule 10)).calls 0).result = some (.ok true) := by
  obtain ⟨w0, hw0⟩ := hp
  obtain ⟨cq, commit3, cm, response⟩ := q
  cases cq with
  | none => cases hq
  | some cq =>
    have hq' := hq
    rw [← rpVerifyCall_alone, soloRun_eq, rpVerifyCall_obj E _ cq rfl] at hq'
    have hk : SameRange w0 v := by
      have := run_keeps SameRange (fun _ => ⟨rfl, rfl, rfl⟩)
        (fun _ _ _ h g => ⟨g.1.trans h.1, g.2.1.trans h.2.1, g.2.2.trans h.2.2⟩) (rpShared E v (fun _ => some p))
        (fun j f hf => rpVerifyCall_keeps E (some p) f hf) (List.replicate 10 0)
      have e := run_writes (rpShared E v (fun _ => some p)) 0 rfl w0 (by rw [← hw0]; exact rpVerifyCall_obj E p c hc v)
      have e2 : (rpShared E v (fun _ => some p)).run (List.replicate 10 0) = _ := e
      rw [e2] at this
      exact this
    rw [← C59_verifier_reuse E w0 v hk, ← rpVerifyCall_alone, soloRun_eq, rpVerifyCall_obj E _ cq rfl] at hq
    cases hw1 : rpVerifySetup w0 cq commit3 cm with
    | error e =>
      rw [hw1] at hq
      cases hq
    | ok w1 =>
      rw [hw1] at hq
      have := overwritten (rpShared E v (fun i => if i = 0 then some p else some ⟨some cq, commit3, cm, response⟩)) w0 w1 rfl rfl 10 rfl rfl
        (by rw [← hw0]; exact rpVerifyCall_obj E p c hc v) (by rw [← hw1]; exact rpVerifyCall_obj E _ cq rfl w0)
      refine this.trans ?_
      show some (rpVerifyResponse E w1 p.response) = _
      rw [hr]
      exact congrArg some hq

/-- A proof whose first message was changed is rejected, but accepted in this way. -/
theorem C116_violated : ¬ C116_statement := by
  intro h
  have hq : rpVerify pokeEnv (newRPVerifier ⟨35, 4, 9⟩ 1 8) (some (rpForge pokeEnv ⟨35, 4, 9⟩ 1 8 2)) = .ok true := by decide +kernel
  have hs : ∃ w, rpVerifySetup (newRPVerifier ⟨35, 4, 9⟩ 1 8) 2 ⟨1, 1, 1⟩ [0] = .ok w := ⟨_, rfl⟩
  have := C116_forged pokeEnv (newRPVerifier ⟨35, 4, 9⟩ 1 8)
    { rpForge pokeEnv ⟨35, 4, 9⟩ 1 8 2 with commitment := [0] } (rpForge pokeEnv ⟨35, 4, 9⟩ 1 8 2) 2 rfl hq hs rfl
  have e := h.1 _ _ _ _ 0 _ this
  have hf : rpVerify pokeEnv (newRPVerifier ⟨35, 4, 9⟩ 1 8) (some { rpForge pokeEnv ⟨35, 4, 9⟩ 1 8 2 with commitment := [0] }) = .ok false := by
    decide +kernel
  rw [if_pos rfl, hf] at e
  cases e

/-- A hash function that keeps single bytes apart. -/
def byteEnv : Env where
  sha256 := fun b => if b.length ≤ 1 then (b ++ List.replicate 32 0).take 32 else List.replicate 31 0 ++ [13]
  sha256_length := by
    intro b
    split
    · simp
    · rfl
  probablyPrime := fun _ => true
  poseidon := fun _ => 0
  poseidon_lt := by
    intro l
    decide

/-- Two goroutines verify the same good proof with the same object: both multiply the field by `g^b`, and both reject. -/
theorem C116_good_proof_rejected : ∃ (E : Env) (v : RPVerifier) (p : RangeProof) (schedule : List Nat),
    rpVerify E v (some p) = .ok true ∧
    (((rpShared E v (fun _ => some p)).run schedule).calls 0).result = some (.ok false) ∧
    (((rpShared E v (fun _ => some p)).run schedule).calls 1).result = some (.ok false) :=
  ⟨byteEnv, newRPVerifier ⟨35, 4, 9⟩ 1 8, rpForge byteEnv ⟨35, 4, 9⟩ 1 8 2,
    [0, 1, 0, 1, 0, 1] ++ List.replicate 8 0 ++ List.replicate 8 1, by decide +kernel, by decide +kernel, by decide +kernel⟩

/-! ## The same argument of positivity -/

/-- The fields after the first `k` writes of `Verify`. -/
def Wrote (p : ArgOfPositivity) (k : Nat) (v : AoPVerifier) : Prop :=
  (1 ≤ k → v.c3.t0 = p.commit3.t0) ∧ (2 ≤ k → v.c3.t1 = p.commit3.t1) ∧ (3 ≤ k → v.c3.t2 = p.commit3.t2) ∧
    (4 ≤ k → v.commitment = p.commitment)

/-- Any number of goroutines may verify the same argument of positivity with the same object: every result is right. -/
theorem C116_same_positivity (E : Env) (v : AoPVerifier) (proof : Option ArgOfPositivity) (schedule : List Nat) (i : Nat) (r : Res Bool)
    (h : (((aopShared E v (fun _ => proof)).run schedule).calls i).result = some r) : r = aopVerify E v proof := by
  cases proof with
  | none =>
    have key : ∀ (l : List Nat) (s : SharedState AoPVerifier),
        (∀ j, s.calls j = aopVerifyCall E none ∨ (s.calls j).result = some (aopVerify E v none)) →
        ∀ j, (s.run l).calls j = aopVerifyCall E none ∨ ((s.run l).calls j).result = some (aopVerify E v none) := by
      intro l
      induction l with
      | nil => intro s hs; exact hs
      | cons a l ih =>
        intro s hs
        refine ih (s.step a) ?_
        intro j
        by_cases hj : j = a
        · subst hj
          rcases hs j with h1 | h1
          · right
            have e : s.step j = { obj := s.obj, calls := fun k => if k = j then
                { aopVerifyCall E none with result := some (aopVerify E v none) } else s.calls k } := by
              unfold SharedState.step
              rw [h1]
              rfl
            rw [e]
            simp only [if_true]
          · exact .inr (step_done s j j _ h1)
        · rw [step_other s j a hj]
          exact hs j
    rcases key schedule (aopShared E v (fun _ => none)) (fun _ => .inl rfl) i with h1 | h1
    · rw [h1] at h
      cases h
    · rw [h1] at h
      exact (Option.some.inj h).symm
  | some p =>
    have key : ∀ (l : List Nat) (s : SharedState AoPVerifier),
        (s.obj.pp = v.pp ∧ s.obj.c = v.c ∧ ∀ j, (∃ k, k ≤ 4 ∧ s.calls j = { aopVerifyCall E (some p) with todo := (aopVerifyCall E (some p)).todo.drop k } ∧
          Wrote p k s.obj) ∨ (s.calls j).result = some (aopVerify E v (some p))) →
        ((s.run l).obj.pp = v.pp ∧ (s.run l).obj.c = v.c ∧ ∀ j, (∃ k, k ≤ 4 ∧ (s.run l).calls j = { aopVerifyCall E (some p) with
            todo := (aopVerifyCall E (some p)).todo.drop k } ∧
          Wrote p k (s.run l).obj) ∨ ((s.run l).calls j).result = some (aopVerify E v (some p))) := by
      intro l
      induction l with
      | nil => intro s hs; exact hs
      | cons a l ih =>
        intro s hs
        refine ih (s.step a) ?_
        obtain ⟨hpp, hc, hs⟩ := hs
        rcases hs a with ⟨k, hk, hcall, hw⟩ | hres
        · have keep : ∀ (o : AoPVerifier), (∀ m, Wrote p m s.obj → Wrote p m o) → ∀ j, j ≠ a →
              (∃ k, k ≤ 4 ∧ s.calls j = { aopVerifyCall E (some p) with todo := (aopVerifyCall E (some p)).todo.drop k } ∧
                Wrote p k o) ∨ (s.calls j).result = some (aopVerify E v (some p)) := by
            intro o ho j _
            rcases hs j with ⟨m, hm, hcm, hwm⟩ | hr
            · exact .inl ⟨m, hm, hcm, ho m hwm⟩
            · exact .inr hr
          have hk5 : k = 0 ∨ k = 1 ∨ k = 2 ∨ k = 3 ∨ k = 4 := by omega
          rcases hk5 with rfl | rfl | rfl | rfl | rfl
          · have e : s.step a = { obj := { s.obj with c3 := { s.obj.c3 with t0 := p.commit3.t0 } }, calls := fun j => if j = a then
                { aopVerifyCall E (some p) with todo := (aopVerifyCall E (some p)).todo.drop 1 } else s.calls j } := by
              unfold SharedState.step
              rw [hcall]
              rfl
            rw [e]
            have hO : ∀ m, Wrote p m s.obj → Wrote p m { s.obj with c3 := { s.obj.c3 with t0 := p.commit3.t0 } } :=
              fun m hm => ⟨fun _ => rfl, hm.2.1, hm.2.2.1, hm.2.2.2⟩
            refine ⟨hpp, hc, fun j => ?_⟩
            by_cases hj : j = a
            · exact .inl ⟨1, by omega, by simp only [if_pos hj], fun _ => rfl, fun h => by omega, fun h => by omega, fun h => by omega⟩
            · simpa only [if_neg hj] using keep _ hO j hj
          · have e : s.step a = { obj := { s.obj with c3 := { s.obj.c3 with t1 := p.commit3.t1 } }, calls := fun j => if j = a then
                { aopVerifyCall E (some p) with todo := (aopVerifyCall E (some p)).todo.drop 2 } else s.calls j } := by
              unfold SharedState.step
              rw [hcall]
              rfl
            rw [e]
            have hO : ∀ m, Wrote p m s.obj → Wrote p m { s.obj with c3 := { s.obj.c3 with t1 := p.commit3.t1 } } :=
              fun m hm => ⟨hm.1, fun _ => rfl, hm.2.2.1, hm.2.2.2⟩
            refine ⟨hpp, hc, fun j => ?_⟩
            by_cases hj : j = a
            · exact .inl ⟨2, by omega, by simp only [if_pos hj], fun _ => hw.1 (by omega), fun _ => rfl, fun h => by omega, fun h => by omega⟩
            · simpa only [if_neg hj] using keep _ hO j hj
          · have e : s.step a = { obj := { s.obj with c3 := { s.obj.c3 with t2 := p.commit3.t2 } }, calls := fun j => if j = a then
                { aopVerifyCall E (some p) with todo := (aopVerifyCall E (some p)).todo.drop 3 } else s.calls j } := by
              unfold SharedState.step
              rw [hcall]
              rfl
            rw [e]
            have hO : ∀ m, Wrote p m s.obj → Wrote p m { s.obj with c3 := { s.obj.c3 with t2 := p.commit3.t2 } } :=
              fun m hm => ⟨hm.1, hm.2.1, fun _ => rfl, hm.2.2.2⟩
            refine ⟨hpp, hc, fun j => ?_⟩
            by_cases hj : j = a
            · exact .inl ⟨3, by omega, by simp only [if_pos hj], fun _ => hw.1 (by omega), fun _ => hw.2.1 (by omega), fun _ => rfl, fun h => by omega⟩
            · simpa only [if_neg hj] using keep _ hO j hj
          · have e : s.step a = { obj := { s.obj with commitment := p.commitment }, calls := fun j => if j = a then
                { aopVerifyCall E (some p) with todo := (aopVerifyCall E (some p)).todo.drop 4 } else s.calls j } := by
              unfold SharedState.step
              rw [hcall]
              rfl
            rw [e]
            have hO : ∀ m, Wrote p m s.obj → Wrote p m { s.obj with commitment := p.commitment } :=
              fun m hm => ⟨hm.1, hm.2.1, hm.2.2.1, fun _ => rfl⟩
            refine ⟨hpp, hc, fun j => ?_⟩
            by_cases hj : j = a
            · exact .inl ⟨4, by omega, by simp only [if_pos hj], fun _ => hw.1 (by omega), fun _ => hw.2.1 (by omega), fun _ => hw.2.2.1 (by omega), fun _ => rfl⟩
            · simpa only [if_neg hj] using keep _ hO j hj
          · have hobj : s.obj = { v with c3 := p.commit3, commitment := p.commitment } := by
              obtain ⟨w1, w2, w3, w4⟩ := hw
              obtain ⟨⟨pp, c, cm, ⟨a0, a1, a2⟩⟩, calls⟩ := s
              obtain ⟨⟨b0, b1, b2⟩, pcm, presp⟩ := p
              simp only at hpp hc w1 w2 w3 w4
              subst hpp hc
              simp [w1, w2, w3, w4]
            have e : s.step a = { obj := s.obj, calls := fun j => if j = a then
                { aopVerifyCall E (some p) with todo := [], result := some ((aopVerifyCall E (some p)).decision s.obj) } else s.calls j } := by
              unfold SharedState.step
              rw [hcall]
              rfl
            rw [e]
            refine ⟨hpp, hc, fun j => ?_⟩
            by_cases hj : j = a
            · right
              simp only [if_pos hj]
              rw [hobj]
              rfl
            · simpa only [if_neg hj] using keep _ (fun _ hm => hm) j hj
        · have e : s.step a = s := by
            unfold SharedState.step
            simp only [hres]
          rw [e]
          exact ⟨hpp, hc, hs⟩
    obtain ⟨-, -, hfin⟩ := key schedule (aopShared E v (fun _ => some p))
      ⟨rfl, rfl, fun j => .inl ⟨0, by omega, rfl, fun h => by omega, fun h => by omega, fun h => by omega, fun h => by omega⟩⟩
    rcases hfin i with ⟨k, hk, hcall, _⟩ | h1
    · rw [hcall] at h
      cases h
    · rw [h1] at h
      exact (Option.some.inj h).symm

/-- A schedule of three goroutines in which all get a result. -/
example : ∀ i < 3, ((((aopShared pokeEnv (newAoPVerifier ⟨35, 4, 9⟩ 11)
    (fun _ => some ⟨⟨1, 16, 4⟩, [], some ⟨⟨78, 26, 13⟩, ⟨0, 0, 0⟩, 0⟩⟩)).run [0, 1, 2, 2, 1, 0, 0, 1, 2, 2, 2, 0, 1, 1, 0]).calls i).result).isSome = true := by
  decide +kernel

end Verif.Props
