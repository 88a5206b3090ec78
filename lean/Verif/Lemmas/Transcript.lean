import Verif.Model.Transcript
import Verif.Lemmas.Bytes
import Mathlib.Logic.Function.Iterate

/-! # Lemmas about transcripts -/

namespace Verif.Lemmas
open Verif.Go Verif.Model

theorem hashInput_eq (l : List Bytes) : hashInput l = l.flatten := by
  unfold hashInput
  have key : ∀ (l : List Bytes) (a : Bytes), l.foldl (fun acc s => acc ++ s) a = a ++ l.flatten := by
    intro l
    induction l with
    | nil => intro a; simp
    | cons x l ih => intro a; rw [List.foldl_cons, ih]; simp
  rw [key]; simp

/-- One round of the loop of `HashToPrime`. -/
def nextCandidate (E : Env) (length : ChallengeLength) (ret : Nat) : Nat := wrapNumber (E.sha256 (natBytes ret)) length

theorem fsPrimeLoop_iff (E : Env) (length : ChallengeLength) (fuel x c : Nat) :
    fsPrimeLoop E length fuel x = some c ↔
      ∃ k, k < fuel ∧ c = (nextCandidate E length)^[k] x ∧ E.probablyPrime c = true ∧
        ∀ j, j < k → E.probablyPrime ((nextCandidate E length)^[j] x) = false := by
  induction fuel generalizing x with
  | zero => simp [fsPrimeLoop]
  | succ fuel ih =>
    simp only [fsPrimeLoop]
    by_cases hp : E.probablyPrime x = true
    · rw [if_pos hp]
      constructor
      · intro h
        injection h with h
        subst h
        exact ⟨0, by omega, rfl, hp, by omega⟩
      · rintro ⟨k, -, hc, -, hj⟩
        have : k = 0 := by
          by_contra hk
          have := hj 0 (by omega)
          simp only [Function.iterate_zero, id] at this
          rw [this] at hp; cases hp
        subst this
        rw [hc]; rfl
    · rw [if_neg hp]
      have hx : E.probablyPrime x = false := by simpa using hp
      show fsPrimeLoop E length fuel (nextCandidate E length x) = some c ↔ _
      rw [ih]
      constructor
      · rintro ⟨k, hk, hc, hpc, hj⟩
        refine ⟨k + 1, by omega, by rw [hc, Function.iterate_succ_apply], hpc, ?_⟩
        intro j hjk
        cases j with
        | zero => exact hx
        | succ j => rw [Function.iterate_succ_apply]; exact hj j (by omega)
      · rintro ⟨k, hk, hc, hpc, hj⟩
        cases k with
        | zero =>
          simp only [Function.iterate_zero, id] at hc
          subst hc
          rw [hx] at hpc; cases hpc
        | succ k =>
          refine ⟨k, by omega, by rw [hc, Function.iterate_succ_apply], hpc, ?_⟩
          intro j hjk
          have := hj (j + 1) (by omega)
          rwa [Function.iterate_succ_apply] at this

theorem fsHashToPrime_prime (E : Env) (fuel : Nat) (input : List Bytes) (length : ChallengeLength) (c : Nat)
    (h : fsHashToPrime E fuel input length = some c) : E.probablyPrime c = true := by
  obtain ⟨k, -, -, hp, -⟩ := (fsPrimeLoop_iff E length fuel _ c).1 h
  exact hp

theorem fsPrimeLoop_range (E : Env) (length : ChallengeLength) (P : Nat → Prop)
    (hP : ∀ b : Bytes, b.length = 32 → P (wrapNumber b length)) (fuel : Nat) (x c : Nat) (hx : P x)
    (h : fsPrimeLoop E length fuel x = some c) : P c := by
  induction fuel generalizing x with
  | zero => cases h
  | succ fuel ih =>
    simp only [fsPrimeLoop] at h
    split at h
    · injection h with h; rw [← h]; exact hx
    · exact ih _ (hP _ (E.sha256_length _)) h

theorem getPrimeChallenge_iff (E : Env) (fuel : Nat) (t t' : Transcript) (c : Nat) :
    t.getPrimeChallenge E fuel = some (c, t') ↔
      fsHashToPrime E fuel t.info t.maxlength = some c ∧ t' = t.append (itoa c) := by
  unfold Transcript.getPrimeChallenge
  cases h : fsHashToPrime E fuel t.info t.maxlength with
  | none => simp
  | some c' =>
    simp only [bind, Option.bind, pure]
    constructor
    · intro h; injection h with h; injection h with h1 h2; subst h1; exact ⟨rfl, h2.symm⟩
    · rintro ⟨h1, h2⟩; injection h1 with h1; subst h1; rw [h2]

end Verif.Lemmas
