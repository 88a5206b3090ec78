import Verif.Model.PooledVerify
import Verif.Props.VerifierPanics
import Verif.Props.SharedVerifier

/-!
# Property C148: the verdict on an argument of positivity does not depend on what is in the pool of integers

It does when `h` has no inverse modulo `N`. With the parameters of the repository, and whenever `h` has an inverse, it does not, and
the verifier of `Model/RangeProof` gives the verdict.
-/

namespace Verif.Props
open Verif.Go Verif.Model Verif.Lemmas Verif.Spec

/-- Full statement of C148: whatever the pool holds, the same proof gets the same verdict. -/
def C148_statement : Prop :=
  ∀ (E : Env) (old old' : Int) (v : AoPVerifier) (proof : Option ArgOfPositivity),
    aopVerifyPooled E old v proof = aopVerifyPooled E old' v proof

/-- Hashes that keep a short input. -/
def keepEnv : Env where
  sha256 := fun b => if b.length ≤ 1 then (b ++ List.replicate 32 0).take 32 else List.replicate 32 0
  sha256_length := by
    intro b
    split
    · simp
    · rfl
  probablyPrime := fun _ => true
  poseidon := fun _ => 0
  poseidon_lt := by intro l; decide

/-- An argument of positivity with nothing behind it: all numbers are 0 or 1, the last part of the response is -1. `last` is the
number in the last hash. -/
def emptyProof (E : Env) (last : Int) : ArgOfPositivity where
  commit3 := ⟨1, 1, 1⟩
  commitment := newAoPCommitment E ⟨1, 1, 1⟩ last
  response := some ⟨⟨0, 0, 0⟩, ⟨0, 0, 0⟩, -1⟩

/-- **C148 is false.** `N = 15`, `h = 3`: with 1 in the pool the proof is accepted, with 2 in the pool it is rejected. -/
theorem C148_violated : ¬ C148_statement := by
  intro h
  have h1 := h keepEnv 1 2 (newAoPVerifier ⟨15, 1, 3⟩ 1) (some (emptyProof keepEnv 1))
  revert h1
  decide +kernel

theorem bigExp_zero_exp (n : Nat) [NeZero n] (x : Int) : bigExp x 0 n = some ((1 : Int) % n) := by
  unfold bigExp
  rw [if_neg (by have := natN_pos (N := n); omega)]
  simp

theorem gcd_one_left (n : Int) : Int.gcd 1 n = 1 := by simp

theorem mulExpMod_zero (n : Nat) [NeZero n] (x y : Int) (h : Int.gcd x n = 1) : mulExpMod 0 x y n = .ok 0 := by
  obtain ⟨u, hu⟩ := bigExp_isSome n x y h
  unfold mulExpMod
  rw [hu, nonNil_some, res_ok_bind, modN_ok, zero_mul, Int.zero_emod]

/-- **C148, how bad it is.** If `h` has no inverse and the integer from the pool is 0, as a new one is, then one and the same proof
is accepted for every commitment `C`, also for commitments to negative numbers. -/
theorem C148_forged (E : Env) (n : Nat) [NeZero n] (G H : Int) (hG : Int.gcd G n = 1) (hH : Int.gcd H n ≠ 1) :
    ∃ proof : ArgOfPositivity, ∀ C : Int, Int.gcd C n = 1 →
      aopVerifyPooled E 0 (newAoPVerifier ⟨n, G, H⟩ C) (some proof) = .ok true := by
  set e : Int := ((aopChallenge E ⟨n, G, H⟩ ⟨1, 1, 1⟩ : Nat) : Int) with he
  obtain ⟨w, hw⟩ := bigExp_isSome n 1 (-e) (gcd_one_left _)
  have hf : verifyParam ⟨n, G, H⟩ 0 0 1 (-e) = .ok (1 % n * (1 % n) * w % n) := by
    unfold verifyParam
    simp only [bigExp_zero_exp, hw, nonNil_some, res_ok_bind, modN_ok]
  set f : Int := 1 % n * (1 % n) * w % n with hfd
  refine ⟨⟨⟨1, 1, 1⟩, newAoPCommitment E ⟨f, f, f⟩ 0, some ⟨⟨0, 0, 0⟩, ⟨0, 0, 0⟩, -1⟩⟩, fun C hC => ?_⟩
  have hnone : bigExp H (-1) n = none := (bigExp_eq_none_iff H (-1)).2 ⟨by omega, hH⟩
  obtain ⟨l0, h0⟩ := mulExpMod_ok n 1 1 0 (gcd_one_left _)
  obtain ⟨l1, h1⟩ := mulExpMod_ok n l0 1 0 (gcd_one_left _)
  obtain ⟨l2, h2⟩ := mulExpMod_ok n l1 1 0 (gcd_one_left _)
  simp only [aopVerifyPooled, aopVerifyResponsePooled, aopVerifyParamsPooled, aopHPowPooled, newAoPVerifier, nonNil_some,
    res_ok_bind, ← he, hf, h0, h1, h2, hnone, Option.getD_none, mulExpMod_zero n C _ hC, mul_zero, modN_ok, Int.zero_emod,
    mulExpMod_zero n G _ hG, decide_true]

/-- **C148, the part that holds for every modulus.** If the verifier that stops at a missing inverse gives a verdict, the verifier
with the pool gives the same verdict, whatever the pool holds. -/
theorem C148_returned (E : Env) (old : Int) (v : AoPVerifier) (proof : Option ArgOfPositivity) (b : Bool)
    (h : aopVerify E v proof = .ok b) : aopVerifyPooled E old v proof = .ok b := by
  unfold aopVerify at h
  obtain ⟨p, hp, h⟩ := (res_bind_ok_iff _ _ _).1 h
  unfold aopVerifyResponse at h
  obtain ⟨r, hr, h⟩ := (res_bind_ok_iff _ _ _).1 h
  obtain ⟨q, hq, h⟩ := (res_bind_ok_iff _ _ _).1 h
  unfold aopVerifyPooled aopVerifyResponsePooled
  rw [hp, res_ok_bind, hr, res_ok_bind]
  have : aopVerifyParamsPooled E old { v with c3 := p.commit3, commitment := p.commitment } r = .ok q := by
    unfold aopVerifyParams at hq
    obtain ⟨f0, k0, hq⟩ := (res_bind_ok_iff _ _ _).1 hq
    obtain ⟨f1, k1, hq⟩ := (res_bind_ok_iff _ _ _).1 hq
    obtain ⟨f2, k2, hq⟩ := (res_bind_ok_iff _ _ _).1 hq
    obtain ⟨l0, k3, hq⟩ := (res_bind_ok_iff _ _ _).1 hq
    obtain ⟨l1, k4, hq⟩ := (res_bind_ok_iff _ _ _).1 hq
    obtain ⟨l2, k5, hq⟩ := (res_bind_ok_iff _ _ _).1 hq
    obtain ⟨hh, k6, hq⟩ := (res_bind_ok_iff _ _ _).1 hq
    unfold aopVerifyParams.aopHPow at k6
    obtain ⟨x, k7, k6⟩ := (res_bind_ok_iff _ _ _).1 k6
    cases hb : bigExp v.pp.H r.T v.pp.N with
    | none => simp only [hb] at k7; cases k7
    | some y =>
      simp only [hb, nonNil_some] at k7
      cases k7
      unfold aopVerifyParamsPooled aopHPowPooled
      simp only [k0, k1, k2, k3, k4, k5, res_ok_bind, hb, Option.getD_some, k6]
      exact hq
  rw [this]
  exact h

/-- **C148, the part that holds.** If `h` has an inverse, or the last part of the response is not negative, the pool plays no role:
the outcome, verdict or panic, is that of the verifier of `Model/RangeProof`. -/
theorem C148_partial (E : Env) (n : Nat) [NeZero n] (G H C : Int) (old : Int) (proof : Option ArgOfPositivity)
    (hT : ∀ p r, proof = some p → p.response = some r → 0 ≤ r.T ∨ Int.gcd H n = 1) :
    aopVerifyPooled E old (newAoPVerifier ⟨n, G, H⟩ C) proof = aopVerify E (newAoPVerifier ⟨n, G, H⟩ C) proof := by
  cases proof with
  | none => rfl
  | some p =>
    cases hr : p.response with
    | none =>
      simp only [aopVerifyPooled, aopVerifyResponsePooled, aopVerify, aopVerifyResponse, nonNil_some, res_ok_bind, hr]
      rfl
    | some r =>
      obtain ⟨y, hy⟩ := (power_returns n H r.T).2 (hT p r rfl hr)
      cases hb : bigExp H r.T n with
      | none => rw [hb] at hy; cases hy
      | some z =>
        simp only [aopVerifyPooled, aopVerifyResponsePooled, aopVerifyParamsPooled, aopHPowPooled, aopVerify, aopVerifyResponse,
          aopVerifyParams, aopVerifyParams.aopHPow, newAoPVerifier, nonNil_some, res_ok_bind, hr, hb, Option.getD_some]

/-- The hypotheses of `C148_forged` can be met: `N = 15`, `g = 2`, `h = 3`. -/
example : Int.gcd 2 (15 : Nat) = 1 ∧ Int.gcd 3 (15 : Nat) ≠ 1 := by decide

/-- The hypothesis of `C148_partial` with a negative last part: `h = 2`. -/
example : ∀ p r, some (emptyProof keepEnv 1) = some p → p.response = some r → 0 ≤ r.T ∨ Int.gcd 2 (15 : Nat) = 1 :=
  fun _ _ _ _ => .inr (by decide)

/-- And there the outcome is a verdict, the same with 1 and with 2 in the pool. -/
example : aopVerifyPooled keepEnv 1 (newAoPVerifier ⟨15, 1, 2⟩ 1) (some (emptyProof keepEnv 8)) = .ok true ∧
    aopVerifyPooled keepEnv 2 (newAoPVerifier ⟨15, 1, 2⟩ 1) (some (emptyProof keepEnv 8)) = .ok true := by decide +kernel

end Verif.Props
