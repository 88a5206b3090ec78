import Verif.Props.Poke
import Verif.Props.Representatives

/-! # Property C110: exponent proofs with missing parts -/

namespace Verif.Props
open Verif.Go Verif.Model Verif.Lemmas Verif.Spec

/-- The run ends with a panic. -/
def RunPanics {α : Type} (r : Run α) : Prop := ∃ e, r = ExceptT.mk (some (Except.error e))

/-- The run ends with a value. -/
def RunReturns {α : Type} (r : Run α) : Prop := ∃ v, r = Run.ok v

/-- C110: the verifiers of the exponent proofs return a boolean for every proof value. -/
def C110_statement : Prop :=
  ∀ (E : Env) (fuel : Nat) (pp : PublicParameters) (C u w base x : Int) (l : Nat), 1 ≤ pp.N →
    (∀ proof, HasPrimeChallenge E fuel (pokeStarTranscript pp C) l → RunReturns (pokeStarVerify E fuel pp C proof)) ∧
    (∀ proof, HasPrimeChallenge E fuel (poeTranscript base pp.N C x) l → RunReturns (poeVerify E fuel base pp.N C x proof)) ∧
    ∀ proof : ZKPoKEProof,
      HasPrimeChallenge E fuel ((zkpokeTranscript pp u w proof.z proof.Ag proof.Au).getIntChallenge E).2 l →
      RunReturns (zkpokeVerify E fuel pp u w (some proof))

theorem run_panic_bind {α β : Type} (e : String) (f : α → Run β) :
    (ExceptT.mk (some (Except.error e)) >>= f : Run β) = ExceptT.mk (some (Except.error e)) := rfl

theorem deref_none {α : Type} : (deref none : Run α) =
    ExceptT.mk (some (Except.error "invalid memory address or nil pointer dereference")) := rfl

theorem deref_some {α : Type} (v : α) : deref (some v) = Run.ok v := rfl

theorem not_panics_ok {α : Type} (v : α) : ¬ RunPanics (Run.ok v) := by
  rintro ⟨e, h⟩
  have := congrArg ExceptT.run h
  cases this

theorem multiExp_ok (g x h r n : Int) (hn : 1 ≤ n) : multiExp g x h r n = Run.ok (expStmt g x n * expStmt h r n % n) := by
  unfold multiExp
  rw [if_neg (by omega)]

/-- PoKE*: panics exactly if `Q` or `R` is nil; otherwise returns. -/
theorem C110_pokeStar_partial (E : Env) (fuel : Nat) (pp : PublicParameters) (C : Int) (l : Nat) (hN : 1 ≤ pp.N)
    (hl : HasPrimeChallenge E fuel (pokeStarTranscript pp C) l) (proof : PoKEStarProof) :
    (RunPanics (pokeStarVerify E fuel pp C (some proof)) ↔ proof.Q = none ∨ proof.R = none) ∧
    (RunReturns (pokeStarVerify E fuel pp C (some proof)) ↔ proof.Q ≠ none ∧ proof.R ≠ none) := by
  have hch := getPrime_of _ _ _ _ hl
  obtain ⟨Q, R⟩ := proof
  unfold pokeStarVerify
  simp only [hch, liftLoop_some, run_ok_bind]
  rcases Q with _ | Q
  · rw [deref_none, run_panic_bind]
    exact ⟨⟨fun _ => .inl rfl, fun _ => ⟨_, rfl⟩⟩, ⟨fun ⟨v, h⟩ => absurd ⟨_, h.symm⟩ (not_panics_ok v), fun h => absurd rfl h.1⟩⟩
  rcases R with _ | R
  · rw [deref_none, deref_some, run_ok_bind, run_panic_bind]
    exact ⟨⟨fun _ => .inr rfl, fun _ => ⟨_, rfl⟩⟩, ⟨fun ⟨v, h⟩ => absurd ⟨_, h.symm⟩ (not_panics_ok v), fun h => absurd rfl h.2⟩⟩
  rw [deref_some, deref_some, run_ok_bind, run_ok_bind, multiExp_ok _ _ _ _ _ hN, run_ok_bind]
  refine ⟨⟨fun h => absurd h (not_panics_ok _), fun h => ?_⟩, ⟨fun _ => ⟨nofun, nofun⟩, fun _ => ⟨_, rfl⟩⟩⟩
  rcases h with h | h <;> cases h

/-- PoE: panics exactly if `Q` is nil; otherwise returns. -/
theorem C110_poe_partial (E : Env) (fuel : Nat) (base mod C x : Int) (l : Nat) (hN : 1 ≤ mod)
    (hl : HasPrimeChallenge E fuel (poeTranscript base mod C x) l) (proof : PoEProof) :
    (RunPanics (poeVerify E fuel base mod C x (some proof)) ↔ proof.Q = none) ∧
    (RunReturns (poeVerify E fuel base mod C x (some proof)) ↔ proof.Q ≠ none) := by
  have hch := getPrime_of _ _ _ _ hl
  obtain ⟨Q⟩ := proof
  unfold poeVerify
  simp only [hch, liftLoop_some, run_ok_bind, divMod_eq x l hl.2]
  rcases Q with _ | Q
  · rw [deref_none, run_panic_bind]
    exact ⟨⟨fun _ => rfl, fun _ => ⟨_, rfl⟩⟩, ⟨fun ⟨v, h⟩ => absurd ⟨_, h.symm⟩ (not_panics_ok v), fun h => absurd rfl h⟩⟩
  rw [deref_some, run_ok_bind, multiExp_ok _ _ _ _ _ hN, run_ok_bind]
  exact ⟨⟨fun h => absurd h (not_panics_ok _), nofun⟩, ⟨fun _ => nofun, fun _ => ⟨_, rfl⟩⟩⟩

/-- The first comparison of `ZKPoKEVerify`; a missing part counts as 0. -/
def FirstHolds (E : Env) (pp : PublicParameters) (u w : Int) (l : Nat) (proof : ZKPoKEProof) : Prop :=
  expStmt (proof.Qg.getD 0) l pp.N * (expStmt pp.G (proof.rx.getD 0) pp.N * expStmt pp.H (proof.rrho.getD 0) pp.N % pp.N) % pp.N =
    expStmt (proof.z.getD 0) ((zkpokeTranscript pp u w proof.z proof.Ag proof.Au).getIntChallenge E).1 pp.N *
      proof.Ag.getD 0 % pp.N

/-- ZKPoKE: panics exactly if one of the five parts of the first comparison is nil, or the first comparison holds and one of the
other two is nil; otherwise returns. In particular the missing `Au` is not noticed when the transcript is made. -/
theorem C110_zkpoke_partial (E : Env) (fuel : Nat) (pp : PublicParameters) (u w : Int) (l : Nat) (hN : 1 ≤ pp.N)
    (proof : ZKPoKEProof)
    (hl : HasPrimeChallenge E fuel ((zkpokeTranscript pp u w proof.z proof.Ag proof.Au).getIntChallenge E).2 l) :
    (RunPanics (zkpokeVerify E fuel pp u w (some proof)) ↔
      (proof.Qg = none ∨ proof.rx = none ∨ proof.rrho = none ∨ proof.z = none ∨ proof.Ag = none) ∨
        FirstHolds E pp u w l proof ∧ (proof.Qu = none ∨ proof.Au = none)) ∧
    (RunReturns (zkpokeVerify E fuel pp u w (some proof)) ↔
      ¬ ((proof.Qg = none ∨ proof.rx = none ∨ proof.rrho = none ∨ proof.z = none ∨ proof.Ag = none) ∨
        FirstHolds E pp u w l proof ∧ (proof.Qu = none ∨ proof.Au = none))) := by
  have hch := getPrime_of _ _ _ _ hl
  have panic : ∀ (e : String) (P : Prop), P → (RunPanics (ExceptT.mk (some (Except.error e)) : Run Bool) ↔ P) ∧
      (RunReturns (ExceptT.mk (some (Except.error e)) : Run Bool) ↔ ¬ P) := fun e P hP =>
    ⟨⟨fun _ => hP, fun _ => ⟨_, rfl⟩⟩, ⟨fun ⟨v, h⟩ => absurd ⟨_, h.symm⟩ (not_panics_ok v), fun h => absurd hP h⟩⟩
  have fine : ∀ (v : Bool) (P : Prop), ¬ P → (RunPanics (Run.ok v) ↔ P) ∧ (RunReturns (Run.ok v) ↔ ¬ P) := fun v P hP =>
    ⟨⟨fun h => absurd h (not_panics_ok v), fun h => absurd h hP⟩, ⟨fun _ => hP, fun _ => ⟨v, rfl⟩⟩⟩
  obtain ⟨z, Ag, Au, Qg, Qu, rx, rrho⟩ := proof
  unfold zkpokeVerify
  simp only at hch
  simp only [hch, liftLoop_some, run_ok_bind]
  rcases Qg with _ | Qg
  · rw [deref_none, run_panic_bind]
    exact panic _ _ (by simp)
  rw [deref_some, run_ok_bind]
  rcases rx with _ | rx
  · rw [deref_none, run_panic_bind]
    exact panic _ _ (by simp)
  rw [deref_some, run_ok_bind]
  rcases rrho with _ | rrho
  · rw [deref_none, run_panic_bind]
    exact panic _ _ (by simp)
  rw [deref_some, run_ok_bind, multiExp_ok _ _ _ _ _ hN, run_ok_bind]
  rcases z with _ | z
  · rw [deref_none, run_panic_bind]
    exact panic _ _ (by simp)
  rw [deref_some, run_ok_bind]
  rcases Ag with _ | Ag
  · rw [deref_none, run_panic_bind]
    exact panic _ _ (by simp)
  rw [deref_some, run_ok_bind]
  unfold FirstHolds
  simp only [Option.getD_some]
  by_cases h : expStmt Qg l pp.N * (expStmt pp.G rx pp.N * expStmt pp.H rrho pp.N % pp.N) % pp.N =
      expStmt z ((zkpokeTranscript pp u w (some z) (some Ag) Au).getIntChallenge E).1 pp.N * Ag % pp.N
  · simp only [ne_eq, h, not_true_eq_false, if_false]
    rcases Qu with _ | Qu
    · rw [deref_none, run_panic_bind]
      exact panic _ _ (by simp)
    rw [deref_some, run_ok_bind, multiExp_ok _ _ _ _ _ hN, run_ok_bind]
    rcases Au with _ | Au
    · rw [deref_none, run_panic_bind]
      exact panic _ _ (by simp)
    rw [deref_some, run_ok_bind]
    exact fine _ _ (by simp)
  · simp only [ne_eq, h, not_false_eq_true, if_true]
    exact fine _ _ (by simp)

/-- C110 is violated: a PoKE* proof without its parts makes the verifier panic. -/
theorem C110_violated : ¬ C110_statement := by
  intro h
  have hl : HasPrimeChallenge pokeEnv 1 (pokeStarTranscript ⟨35, 2, 3⟩ 16) 13 := by
    unfold HasPrimeChallenge; decide +kernel
  have h1 := (h pokeEnv 1 ⟨35, 2, 3⟩ 16 0 0 0 0 13 (by norm_num)).1 (some ⟨none, none⟩) hl
  exact ((C110_pokeStar_partial pokeEnv 1 ⟨35, 2, 3⟩ 16 13 (by norm_num) hl ⟨none, none⟩).2.1 h1).1 rfl

/-- A ZKPoKE proof that only lacks `Au`: here the first comparison fails and the verifier returns. -/
example : (zkpokeVerify pokeEnv 1 ⟨35, 2, 3⟩ 2 4 (some ⟨some 5, some 6, none, some 1, some 1, some 1, some 1⟩)).run =
    some (.ok false) := by decide +kernel

/-- And here it holds (`0 = 0`) and the verifier panics. -/
example : (zkpokeVerify pokeEnv 1 ⟨35, 2, 3⟩ 2 4 (some ⟨some 0, some 0, none, some 0, some 1, some 1, some 1⟩)).run =
    some (.error "invalid memory address or nil pointer dereference") := by decide +kernel

example : HasPrimeChallenge pokeEnv 1 ((zkpokeTranscript ⟨35, 2, 3⟩ 2 4 (some 0) (some 0) none).getIntChallenge pokeEnv).2 13 ∧
    HasPrimeChallenge pokeEnv 1 (poeTranscript 2 35 16 4) 13 := by
  unfold HasPrimeChallenge; decide +kernel

end Verif.Props
