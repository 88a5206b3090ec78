import Verif.Props.Extraction
import Mathlib.GroupTheory.Index

/-!
# Property C127: does an accepted PoKE* proof show that an exponent exists?

proof/poke.go:50-60 `PoKEStarVerify` takes the base `G` from the parameters. Nothing in the check ties `G` to the setup,
so a prover who chose `G` as a power of a number they know can prove statements that have no exponent at all.
-/

namespace Verif.Props
open Verif.Go Verif.Model Verif.Spec Verif.Lemmas

/-- The claim: an accepted proof for a nonnegative base shows that `C` is an integer power of the base. -/
def C127_statement : Prop :=
  ∀ (E : Env) (fuel : Nat) (N : Nat) (G H C Q R : Int) (l : Nat), N ≠ 0 → 0 ≤ G →
    HasPrimeChallenge E fuel (pokeStarTranscript ⟨N, G, H⟩ C) l →
    pokeStarVerify E fuel ⟨N, G, H⟩ C (some ⟨some Q, some R⟩) = Run.ok true → ∃ x : Int, IsPower N G x C

/-- The base `G = g^q` and the statement `C = g`: if the challenge does not divide `q`, Euclid's algorithm gives a proof
that is accepted. The prover knows the "exponent" `1 / q` only. -/
theorem C127_forged (E : Env) (fuel : Nat) (N : Nat) (hN : N ≠ 0) (g : (ZMod N)ˣ) (q : Nat) (H : Int) (l : Nat)
    (hl : HasPrimeChallenge E fuel
      (pokeStarTranscript ⟨N, (((g ^ q : (ZMod N)ˣ) : ZMod N).val : Int), H⟩ ((g : ZMod N).val : Int)) l)
    (hco : Nat.Coprime q l) :
    pokeStarVerify E fuel ⟨N, (((g ^ q : (ZMod N)ˣ) : ZMod N).val : Int), H⟩ ((g : ZMod N).val : Int)
      (some ⟨some (((g ^ Nat.gcdB q l : (ZMod N)ˣ) : ZMod N).val : Int), some (Nat.gcdA q l)⟩) = Run.ok true := by
  have : NeZero N := ⟨hN⟩
  obtain ⟨b, hb, hiff⟩ := C46_pokeStar E fuel N hN (((g ^ q : (ZMod N)ˣ) : ZMod N).val : Int) H ((g : ZMod N).val : Int)
    (((g ^ Nat.gcdB q l : (ZMod N)ˣ) : ZMod N).val : Int) (Nat.gcdA q l) l hl (.inl (by positivity))
  rw [hb]
  congr 1
  refine hiff.2 ⟨⟨by positivity, val_lt_int _⟩, ?_⟩
  rw [val_cast, val_cast, val_cast, gpow_unit, ← Units.val_pow_eq_pow_val, ← Units.val_mul]
  congr 1
  have hb := Nat.gcd_eq_gcd_ab q l
  rw [hco] at hb
  rw [← zpow_natCast (g ^ _), ← zpow_mul, ← zpow_natCast g q, ← zpow_mul, ← zpow_add]
  conv_rhs => rw [← zpow_one g]
  congr 1
  push_cast at hb
  linarith

/-- 2 has no power among those of 4 modulo 35. -/
theorem two_not_power : ¬ ∃ x : Int, IsPower ((35 : Nat) : Int) 4 x 2 := by
  rintro ⟨x, hx⟩
  rw [isPower_iff] at hx
  have hu : ((⟨4, 9, by decide, by decide⟩ : (ZMod 35)ˣ) : ZMod 35) = ((4 : Int) : ZMod 35) := by decide
  have h2 := hx.2
  rw [← hu, gpow_unit] at h2
  -- the sixth power of 4 is 1, the sixth power of 2 is not
  set u : (ZMod 35)ˣ := ⟨4, 9, by decide, by decide⟩ with hu'
  have h3 : ((u ^ x : (ZMod 35)ˣ) : ZMod 35) = 2 := by
    have := congrArg (fun z : Int => (z : ZMod 35)) h2
    simpa using this.symm
  have h6 : u ^ (6 : Nat) = 1 := by rw [hu']; decide
  have h7 : ((u ^ x) ^ (6 : Nat) : (ZMod 35)ˣ) = 1 := by
    rw [← zpow_natCast, ← zpow_mul, mul_comm, zpow_mul, zpow_natCast, h6, one_zpow]
  have h8 := congrArg (fun z : (ZMod 35)ˣ => (z : ZMod 35)) h7
  simp only [Units.val_pow_eq_pow_val, h3, Units.val_one] at h8
  revert h8
  decide

/-- The proof that 2 is a power of 4 modulo 35: `Q = 2` to the power 1 and `R = -6`. -/
theorem C127_violated : ¬ C127_statement := by
  intro h
  have hc : HasPrimeChallenge pokeEnv 1 (pokeStarTranscript ⟨35, 4, 3⟩ 2) 13 := by
    unfold HasPrimeChallenge; decide +kernel
  have hacc : (pokeStarVerify pokeEnv 1 ⟨35, 4, 3⟩ 2 (some ⟨some 2, some (-6)⟩)).run = some (.ok true) := by
    decide +kernel
  exact two_not_power (h pokeEnv 1 35 4 3 2 2 (-6) 13 (by decide) (by decide) hc hacc)

/-- What does hold for an invertible base and statement: the statement is a power of the base times an `l`-th power, and
if the number of cosets of the powers of the base is prime to the challenge, the statement is a power of the base exactly
if `Q` is. Missing from `C127_statement`: that `Q` is a power of the base, which nobody checks. -/
theorem C127_coset_partial (N : Nat) (hN : N ≠ 0) (G H C : Int) (g c : (ZMod N)ˣ) (hG : 0 ≤ G) (hg : (g : ZMod N) = G)
    (hc : (c : ZMod N) = C) (s : StarRun) (h : s.Accepts N G H C) :
    ∃ q : (ZMod N)ˣ, (q : ZMod N) = s.Q ∧ q ^ s.l * g ^ s.R = c ∧
      ((∃ k : Int, g ^ k = q) → ∃ x : Int, g ^ x = c) ∧
      (Nat.Coprime s.l (Subgroup.zpowers g).index → ((∃ x : Int, g ^ x = c) ↔ ∃ k : Int, g ^ k = q)) := by
  obtain ⟨q, hq, he⟩ := star_unit N hN G H C g c hG hg hc s h
  have hfwd : (∃ k : Int, g ^ k = q) → ∃ x : Int, g ^ x = c := by
    rintro ⟨k, rfl⟩
    refine ⟨k * s.l + s.R, ?_⟩
    rw [← he, zpow_add, zpow_mul, zpow_natCast]
  refine ⟨q, hq, he, hfwd, fun hco => ⟨?_, hfwd⟩⟩
  rintro ⟨x, rfl⟩
  -- both the l-th power and the index-th power of q are powers of g
  have h1 : q ^ (s.l : Int) ∈ Subgroup.zpowers g := by
    refine ⟨x - s.R, ?_⟩
    change g ^ (x - s.R) = _
    rw [zpow_sub, zpow_natCast, ← he, mul_inv_cancel_right]
  have h2 : q ^ ((Subgroup.zpowers g).index : Int) ∈ Subgroup.zpowers g := by
    rw [zpow_natCast]
    exact Subgroup.pow_index_mem _ _
  obtain ⟨a, b, hab⟩ := Nat.isCoprime_iff_coprime.2 hco
  have h3 : q ∈ Subgroup.zpowers g := by
    have := Subgroup.mul_mem _ (Subgroup.zpow_mem _ h1 a) (Subgroup.zpow_mem _ h2 b)
    rwa [← zpow_mul, ← zpow_mul, ← zpow_add, mul_comm _ a, mul_comm _ b, hab, zpow_one] at this
  exact h3

/-- The forged proof of `2 = 4^(1/2)` modulo 35 meets the hypotheses. -/
example : (⟨pokeEnv, 1, 13, 2, -6⟩ : StarRun).Accepts 35 4 3 2 ∧
    (((⟨4, 9, by decide, by decide⟩ : (ZMod 35)ˣ) : ZMod 35) = ((4 : Int) : ZMod 35)) ∧
    (((⟨2, 18, by decide, by decide⟩ : (ZMod 35)ˣ) : ZMod 35) = ((2 : Int) : ZMod 35)) := by
  refine ⟨⟨by unfold HasPrimeChallenge; decide +kernel, ?_⟩, by decide, by decide⟩
  have : (pokeStarVerify pokeEnv 1 ⟨35, 4, 3⟩ 2 (some ⟨some 2, some (-6)⟩)).run = some (.ok true) := by
    decide +kernel
  exact this

/-- The hypotheses of `C127_forged`: `g = 2`, `q = 2` and the challenge 13. -/
example : HasPrimeChallenge pokeEnv 1 (pokeStarTranscript ⟨35, 4, 3⟩ 2) 13 ∧ Nat.Coprime 2 13 ∧
    Nat.gcdA 2 13 = -6 ∧ Nat.gcdB 2 13 = 1 := by
  refine ⟨by unfold HasPrimeChallenge; decide +kernel, by decide, ?_, ?_⟩ <;> decide +kernel

end Verif.Props
