import Verif.Props.Poke
import Mathlib.RingTheory.Int.Basic

/-!
# PoKE* with a check of the residue (C43)

`PoKEStarVerify` also checks `0 <= R < l`. Then two proofs of one statement with different residues give
a root of the generator.
-/

namespace Verif.Props
open Verif.Go Verif.Model Verif.Lemmas Verif.Spec

/-- proof/poke.go:50-60 `PoKEStarVerify` with a check of the residue. -/
def pokeStarVerifyReduced (E : Env) (fuel : Nat) (pp : PublicParameters) (C : Int) (proof : Option PoKEStarProof) : Run Bool :=
  match proof with
  | none => Run.ok false
  | some proof => do
    let (l, _) ← liftLoop ((pokeStarTranscript pp C).getPrimeChallenge E fuel)
    let Q ← deref proof.Q
    let R ← deref proof.R
    if R < 0 ∨ (l : Int) ≤ R then return false
    let temp ← multiExp Q l pp.G R pp.N
    return decide (temp = C)

/-- C43 for the repaired verifier: it accepts what the code accepts with a reduced residue, and no more. -/
theorem C43_repaired_partial (E : Env) (fuel : Nat) (pp : PublicParameters) (C Q R : Int) (l : Nat)
    (hl : HasPrimeChallenge E fuel (pokeStarTranscript pp C) l) :
    pokeStarVerifyReduced E fuel pp C (some ⟨some Q, some R⟩) = Run.ok true ↔
      pokeStarVerify E fuel pp C (some ⟨some Q, some R⟩) = Run.ok true ∧ 0 ≤ R ∧ R < l := by
  have hch := getPrime_of _ _ _ _ hl
  unfold pokeStarVerifyReduced pokeStarVerify
  simp only [hch, liftLoop_some, run_ok_bind, deref]
  by_cases h : R < 0 ∨ (l : Int) ≤ R
  · rw [if_pos h]
    constructor
    · intro h'
      cases run_ok_inj h'
    · rintro ⟨-, h1, h2⟩
      omega
  · rw [if_neg h]
    exact ⟨fun h' => ⟨h', by omega, by omega⟩, fun h' => h'.1⟩

/-- The proofs of the code are still accepted. -/
theorem C43_repaired_complete_partial (E : Env) (fuel : Nat) (pp : PublicParameters) (C x : Int) (l : Nat) (hN : 1 ≤ pp.N)
    (hs : 0 ≤ pp.G ∨ 0 ≤ x) (hC : IsPower pp.N pp.G x C) (hl : HasPrimeChallenge E fuel (pokeStarTranscript pp C) l) :
    ∃ proof, pokeStarProve E fuel pp C x = Run.ok (some proof) ∧
      pokeStarVerifyReduced E fuel pp C (some proof) = Run.ok true := by
  obtain ⟨proof, h1, h2⟩ := C41_pokeStar_complete E fuel pp C x l hN hs hC hl
  refine ⟨proof, h1, ?_⟩
  have h3 := h1
  unfold pokeStarProve at h3
  split_ifs at h3 with hne
  · cases run_ok_inj h3
  · simp only [getPrime_of _ _ _ _ hl, liftLoop_some, run_ok_bind, divMod_eq x l hl.2] at h3
    have h4 := run_ok_inj h3
    injection h4 with h4
    subst h4
    have := hl.2
    exact (C43_repaired_partial E fuel pp C _ _ l hl).2
      ⟨h2, Int.emod_nonneg _ (by omega), Int.emod_lt_of_pos _ (by omega)⟩

/-- Two proofs of one statement that the repaired verifier accepts have the same `Q^l` if the residues are the same. Otherwise the
two proofs give a root of the generator, with any numbers `a` and `b` of the extended algorithm of Euclid. -/
theorem C43_repaired_unique_partial (E : Env) (fuel : Nat) (N : Nat) (hN : N ≠ 0) (G H C Q Q' R R' : Int) (l : Nat) (hp : l.Prime)
    (hl : HasPrimeChallenge E fuel (pokeStarTranscript ⟨N, G, H⟩ C) l) (hG : 0 ≤ G) (hu : Int.gcd G N = 1) (hC : Int.gcd C N = 1)
    (h1 : pokeStarVerifyReduced E fuel ⟨N, G, H⟩ C (some ⟨some Q, some R⟩) = Run.ok true)
    (h2 : pokeStarVerifyReduced E fuel ⟨N, G, H⟩ C (some ⟨some Q', some R'⟩) = Run.ok true) :
    (R = R' → (N : Int) ∣ Q ^ l - Q' ^ l) ∧
    (R ≠ R' → IsCoprime (R - R') (l : Int) ∧ ∀ a b : Int, a * (R - R') + b * l = 1 →
      (gpow ((Q' : ZMod N) * (Q : ZMod N)⁻¹) a * gpow (G : ZMod N) b) ^ l = G) := by
  have : NeZero N := ⟨hN⟩
  obtain ⟨a1, a2, a3⟩ := (C43_repaired_partial _ _ _ _ _ _ _ hl).1 h1
  obtain ⟨b1, b2, b3⟩ := (C43_repaired_partial _ _ _ _ _ _ _ hl).1 h2
  constructor
  · rintro rfl
    exact C43_same_residue_partial E fuel N hN G H C Q Q' R l hl hG hu a1 b1
  intro hR
  obtain ⟨g, hg⟩ := (isUnit_iff_gcd (N := N) G).2 hu
  obtain ⟨c, hc⟩ := (isUnit_iff_gcd (N := N) C).2 hC
  have eq : ∀ Q R : Int, pokeStarVerify E fuel ⟨N, G, H⟩ C (some ⟨some Q, some R⟩) = Run.ok true →
      ∃ q : (ZMod N)ˣ, (q : ZMod N) = Q ∧ q ^ l * g ^ R = c := by
    intro Q R h
    obtain ⟨b, hb, hiff⟩ := C46_pokeStar E fuel N hN G H C Q R l hl (.inl hG)
    rw [hb] at h
    have e := (hiff.1 (run_ok_inj h)).2
    rw [← hg, gpow_unit] at e
    have hq : IsUnit ((Q : ZMod N)) := by
      have : IsUnit ((Q : ZMod N) ^ l * ((g ^ R : (ZMod N)ˣ) : ZMod N)) := by rw [e, ← hc]; exact c.isUnit
      exact (isUnit_pow_iff hp.ne_zero).1 (isUnit_of_mul_isUnit_left this)
    obtain ⟨q, hq⟩ := hq
    refine ⟨q, hq, Units.ext ?_⟩
    rw [Units.val_mul, Units.val_pow_eq_pow_val, hq, e, hc]
  obtain ⟨q, hq, e⟩ := eq Q R a1
  obtain ⟨q', hq', e'⟩ := eq Q' R' b1
  have hroot : (q' * q⁻¹) ^ (l : Int) = g ^ (R - R') := by
    have h3 : q' ^ l = q ^ l * g ^ R * (g ^ R')⁻¹ := by rw [e, ← e', mul_inv_cancel_right]
    rw [zpow_natCast, mul_pow, inv_pow, h3, zpow_sub, mul_assoc (q ^ l), mul_comm (q ^ l), mul_inv_cancel_right]
  refine ⟨?_, ?_⟩
  · refine IsCoprime.symm ((Nat.prime_iff_prime_int.1 hp).coprime_iff_not_dvd.2 ?_)
    intro hd
    have := Int.eq_zero_of_abs_lt_dvd hd (by rw [abs_lt]; omega)
    omega
  · intro a b hab
    rw [← hq, ← hq', ZMod.inv_coe_unit, ← Units.val_mul, gpow_unit, ← hg, gpow_unit, ← Units.val_mul, ← Units.val_pow_eq_pow_val]
    congr 1
    calc ((q' * q⁻¹) ^ a * g ^ b) ^ l = ((q' * q⁻¹) ^ (l : Int)) ^ a * g ^ (b * l) := by
          rw [mul_pow, ← zpow_natCast, ← zpow_natCast, ← zpow_mul, ← zpow_mul, ← zpow_mul, mul_comm a]
      _ = g ^ (1 : Int) := by rw [hroot, ← zpow_mul, ← zpow_add, mul_comm (R - R'), hab]
      _ = g := zpow_one g

/-- The proof of the code for 2^100 modulo 35 is accepted, the changed one of `C43_violated` is not. -/
example : (pokeStarVerifyReduced pokeEnv 1 ⟨35, 2, 3⟩ 16 (some ⟨some (2 ^ 7 % 35), some 9⟩)).run = some (.ok true) ∧
    (pokeStarVerify pokeEnv 1 ⟨35, 2, 3⟩ 16 (some ⟨some (2 ^ 7 % 35 * 18 % 35), some 22⟩)).run = some (.ok true) ∧
    (pokeStarVerifyReduced pokeEnv 1 ⟨35, 2, 3⟩ 16 (some ⟨some (2 ^ 7 % 35 * 18 % 35), some 22⟩)).run = some (.ok false) := by
  decide +kernel

/-- Two accepted proofs with the residues 9 and 8: modulo 35 the quotient of 11 and 23 is 2, and 2 ^ 13 = 2. -/
example : (pokeStarVerifyReduced pokeEnv 1 ⟨35, 2, 3⟩ 16 (some ⟨some 23, some 9⟩)).run = some (.ok true) ∧
    (pokeStarVerifyReduced pokeEnv 1 ⟨35, 2, 3⟩ 16 (some ⟨some 11, some 8⟩)).run = some (.ok true) := by
  decide +kernel

end Verif.Props
