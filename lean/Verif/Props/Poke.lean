import Verif.Lemmas.Poke
import Mathlib.Tactic.NormNum

/-!
# Properties of PoKE*, ZKPoKE and PoE (C41 - C46)

Bases are non-negative or exponents are: `big.Int.Exp` returns the negated power for a negative base with a negative odd
exponent (see `C41_negative_base`).
-/

namespace Verif.Props
open Verif.Go Verif.Model Verif.Lemmas Verif.Spec

/-- The prime challenge of a transcript. -/
def HasPrimeChallenge (E : Env) (fuel : Nat) (t : Transcript) (l : Nat) : Prop :=
  fsHashToPrime E fuel t.info t.maxlength = some l ∧ l ≠ 0

theorem getPrime_of (E : Env) (fuel : Nat) (t : Transcript) (l : Nat) (h : HasPrimeChallenge E fuel t l) :
    t.getPrimeChallenge E fuel = some (l, t.append (itoa l)) := by
  rw [getPrimeChallenge_iff]; exact ⟨h.1, rfl⟩

/-- A hash for examples: every challenge is 13. -/
def pokeEnv : Env where
  sha256 := fun _ => List.replicate 31 0 ++ [13]
  sha256_length := by intro b; rfl
  probablyPrime := fun n => n == 13
  poseidon := fun _ => 0
  poseidon_lt := by intro l; decide

/-! ## C41 -/

theorem C41_pokeStar_complete (E : Env) (fuel : Nat) (pp : PublicParameters) (C x : Int) (l : Nat) (hN : 1 ≤ pp.N)
    (hs : 0 ≤ pp.G ∨ 0 ≤ x) (hC : IsPower pp.N pp.G x C) (hl : HasPrimeChallenge E fuel (pokeStarTranscript pp C) l) :
    ∃ proof, pokeStarProve E fuel pp C x = Run.ok (some proof) ∧
      pokeStarVerify E fuel pp C (some proof) = Run.ok true := by
  obtain ⟨N, G, H⟩ := pp
  simp only at hN hs hC
  obtain ⟨n, rfl⟩ : ∃ n : Nat, N = n := ⟨N.toNat, by omega⟩
  have : NeZero n := ⟨by omega⟩
  have hC2 := ((isPower_iff G x C).1 hC).2
  have hexp : expStmt G x n = C := by rw [expStmt_eq G x hs, hC2]
  have hch := getPrime_of _ _ _ _ hl
  refine ⟨{ Q := some (expStmt G (x / l) n), R := some (x % l) }, ?_, ?_⟩
  · unfold pokeStarProve
    simp only [ne_eq, hexp, not_true_eq_false, if_false, hch, liftLoop_some, run_ok_bind, divMod_eq x l hl.2, pure_bind]
    rfl
  · have hr : 0 ≤ x % (l : Int) := Int.emod_nonneg _ (by have := hl.2; omega)
    have hq : 0 ≤ G ∨ 0 ≤ x / (l : Int) := by
      rcases hs with h | h
      · exact .inl h
      · exact .inr (Int.ediv_nonneg h (by omega))
    unfold pokeStarVerify
    simp only [hch, liftLoop_some, run_ok_bind, deref]
    rw [multiExp_eq _ _ _ _ (.inr (by omega)) (.inr hr)]
    simp only [run_ok_bind]
    rw [expStmt_cast G _ hq, gpow_nonneg _ (l : Int) (by omega), Int.toNat_natCast, gpow_divMod _ _ _ hl.2, ← hC2]
    simp; rfl

/-- G = 2, N = 35, x = 100 with challenge 13. -/
example : IsPower 35 2 100 (2 ^ 100 % 35) ∧ HasPrimeChallenge pokeEnv 1 (pokeStarTranscript ⟨35, 2, 3⟩ (2 ^ 100 % 35)) 13 ∧
    pokeStarProve pokeEnv 1 ⟨35, 2, 3⟩ (2 ^ 100 % 35) 100 = Run.ok (some ⟨some (2 ^ 7 % 35), some 9⟩) := by
  refine ⟨by unfold IsPower; decide +kernel, by unfold HasPrimeChallenge; decide +kernel, ?_⟩
  have : (pokeStarProve pokeEnv 1 ⟨35, 2, 3⟩ (2 ^ 100 % 35) 100).run = some (.ok (some ⟨some (2 ^ 7 % 35), some 9⟩)) := by
    decide +kernel
  exact this

/-- A negative base and a negative odd exponent: the prover refuses the true statement `(-2)^(-1) = 17 (mod 35)`. -/
theorem C41_negative_base : IsPower 35 (-2) (-1) 17 ∧
    ∀ E fuel, pokeStarProve E fuel ⟨35, -2, 3⟩ 17 (-1) = Run.ok none := by
  refine ⟨by unfold IsPower; decide +kernel, ?_⟩
  intro E fuel
  have : expStmt (-2) (-1) 35 ≠ 17 := by decide +kernel
  unfold pokeStarProve
  simp only [this, ne_eq, not_false_eq_true, if_true]
  rfl

/-! ## C42 -/

/-- The provers return an error exactly when the statement is false. -/
def C42_statement : Prop :=
  (∀ E fuel (pp : PublicParameters) C x, 1 ≤ pp.N →
    (pokeStarProve E fuel pp C x = Run.ok none ↔ ¬ IsPower pp.N pp.G x C)) ∧
  (∀ E fuel base mod C x, 1 ≤ mod → (poeProve E fuel base mod C x = Run.ok none ↔ ¬ IsPower mod base x C)) ∧
  ∀ E fuel (pp : PublicParameters) u x w k r1 r2, 1 ≤ pp.N →
    (zkpokeProve E fuel pp u x w k r1 r2 = Run.ok none ↔ ¬ IsPower pp.N u x w)

/-- The result of the first check. -/
theorem prove_none_iff (N g x C : Int) (hN : 1 ≤ N) (h : 0 ≤ x ∨ (0 ≤ g ∧ Int.gcd g N = 1)) :
    expStmt g x N ≠ C ↔ ¬ IsPower N g x C := by
  obtain ⟨n, rfl⟩ : ∃ n : Nat, N = n := ⟨N.toNat, by omega⟩
  have : NeZero n := ⟨by omega⟩
  rw [Ne, not_iff_not, isPower_iff, expStmt_eq g x (by tauto)]
  constructor
  · intro h1
    refine ⟨fun hx => ?_, h1.symm⟩
    rcases h with h | h
    · omega
    · exact (isUnit_iff_gcd g).2 h.2
  · rintro ⟨-, h1⟩; exact h1.symm

theorem pokeStar_none (E : Env) (fuel : Nat) (pp : PublicParameters) (C x : Int) :
    pokeStarProve E fuel pp C x = Run.ok none ↔ expStmt pp.G x pp.N ≠ C := by
  unfold pokeStarProve
  by_cases h : expStmt pp.G x pp.N = C
  · simp only [ne_eq, h, not_true_eq_false, if_false, iff_false]
    intro h2
    rw [run_bind_ok_iff] at h2
    obtain ⟨a, -, h2⟩ := h2
    rw [run_bind_ok_iff] at h2
    obtain ⟨b, -, h2⟩ := h2
    have := run_ok_inj (a := some _) (b := none) h2
    cases this
  · simp only [ne_eq, h, not_false_eq_true, if_true, iff_true]
    rfl

theorem poe_none (E : Env) (fuel : Nat) (base mod C x : Int) :
    poeProve E fuel base mod C x = Run.ok none ↔ expStmt base x mod ≠ C := by
  unfold poeProve
  by_cases h : expStmt base x mod = C
  · simp only [ne_eq, h, not_true_eq_false, if_false, iff_false]
    intro h2
    rw [run_bind_ok_iff] at h2
    obtain ⟨a, -, h2⟩ := h2
    rw [run_bind_ok_iff] at h2
    obtain ⟨b, -, h2⟩ := h2
    have := run_ok_inj (a := some _) (b := none) h2
    cases this
  · simp only [ne_eq, h, not_false_eq_true, if_true, iff_true]
    rfl

theorem zkpoke_none (E : Env) (fuel : Nat) (pp : PublicParameters) (u x w k r1 r2 : Int) :
    zkpokeProve E fuel pp u x w k r1 r2 = Run.ok none ↔ expStmt u x pp.N ≠ w := by
  unfold zkpokeProve
  by_cases h : expStmt u x pp.N = w
  · simp only [ne_eq, h, not_true_eq_false, if_false, iff_false]
    intro h2
    split at h2
    · rw [run_bind_ok_iff] at h2
      obtain ⟨_, h2, -⟩ := h2
      cases h2
    · iterate 6
        rw [run_bind_ok_iff] at h2
        obtain ⟨_, -, h2⟩ := h2
      have := run_ok_inj (a := some _) (b := none) h2
      cases this
  · simp only [ne_eq, h, not_false_eq_true, if_true, iff_true]
    rfl

/-- A power that does not exist is taken to be 0: the prover makes a proof for `5^(-1) = 0 (mod 35)`. -/
theorem C42_violated : ¬ C42_statement := by
  intro h
  have h1 := (h.1 pokeEnv 1 ⟨35, 5, 3⟩ 0 (-1) (by decide)).2 (by unfold IsPower; decide +kernel)
  rw [pokeStar_none] at h1
  revert h1
  decide +kernel

/-- The property for non-negative exponents, and for negative exponents with an invertible non-negative base. Missing from
`C42_statement`: negative exponents with other bases. -/
theorem C42_refuse_partial :
    (∀ E fuel (pp : PublicParameters) C x, 1 ≤ pp.N → (0 ≤ x ∨ (0 ≤ pp.G ∧ Int.gcd pp.G pp.N = 1)) →
      (pokeStarProve E fuel pp C x = Run.ok none ↔ ¬ IsPower pp.N pp.G x C)) ∧
    (∀ E fuel base mod C x, 1 ≤ mod → (0 ≤ x ∨ (0 ≤ base ∧ Int.gcd base mod = 1)) →
      (poeProve E fuel base mod C x = Run.ok none ↔ ¬ IsPower mod base x C)) ∧
    ∀ E fuel (pp : PublicParameters) u x w k r1 r2, 1 ≤ pp.N → (0 ≤ x ∨ (0 ≤ u ∧ Int.gcd u pp.N = 1)) →
      (zkpokeProve E fuel pp u x w k r1 r2 = Run.ok none ↔ ¬ IsPower pp.N u x w) := by
  refine ⟨?_, ?_, ?_⟩
  · intro E fuel pp C x hN h
    rw [pokeStar_none, prove_none_iff _ _ _ _ hN h]
  · intro E fuel base mod C x hN h
    rw [poe_none, prove_none_iff _ _ _ _ hN h]
  · intro E fuel pp u x w k r1 r2 hN h
    rw [zkpoke_none, prove_none_iff _ _ _ _ hN h]

/-- A power that does not exist: the provers return an error exactly when the claimed value is not 0. -/
theorem C42_undefined_power (E : Env) (fuel : Nat) (pp : PublicParameters) (C x : Int) (hN : 1 ≤ pp.N) (hx : x < 0)
    (hg : Int.gcd pp.G pp.N ≠ 1) : pokeStarProve E fuel pp C x = Run.ok none ↔ C ≠ 0 := by
  rw [pokeStar_none]
  obtain ⟨N, G, H⟩ := pp
  simp only at hN hg
  obtain ⟨n, rfl⟩ : ∃ n : Nat, N = n := ⟨N.toNat, by omega⟩
  have : NeZero n := ⟨by omega⟩
  have : expStmt G x n = 0 := by
    unfold expStmt
    rw [(bigExp_eq_none_iff G x).2 ⟨hx, hg⟩]; rfl
  rw [this]
  exact ne_comm

example : ¬ IsPower 35 2 3 9 ∧ (0 : Int) ≤ 3 := by refine ⟨by unfold IsPower; decide +kernel, by decide⟩

/-! ## C46: decision logic -/

/-- PoKE*: accepted iff `C` is reduced and `Q^l G^R = C`. -/
theorem C46_pokeStar (E : Env) (fuel : Nat) (N : Nat) (hN : N ≠ 0) (G H C Q R : Int) (l : Nat)
    (hl : HasPrimeChallenge E fuel (pokeStarTranscript ⟨N, G, H⟩ C) l) (hs : 0 ≤ G ∨ 0 ≤ R) :
    ∃ b, pokeStarVerify E fuel ⟨N, G, H⟩ C (some ⟨some Q, some R⟩) = Run.ok b ∧
      (b = true ↔ (0 ≤ C ∧ C < N) ∧ (Q : ZMod N) ^ l * gpow (G : ZMod N) R = C) := by
  have : NeZero N := ⟨hN⟩
  have hch := getPrime_of _ _ _ _ hl
  unfold pokeStarVerify
  simp only [hch, liftLoop_some, run_ok_bind, deref]
  rw [multiExp_eq _ _ _ _ (.inr (by omega)) hs]
  simp only [run_ok_bind]
  refine ⟨_, rfl, ?_⟩
  rw [decide_eq_true_iff, gpow_nonneg _ (l : Int) (by omega), Int.toNat_natCast]
  constructor
  · intro h
    refine ⟨⟨by rw [← h]; positivity, by rw [← h]; exact val_lt_int _⟩, ?_⟩
    rw [← h, val_cast]
  · rintro ⟨⟨h0, h1⟩, h2⟩
    rw [h2]
    exact (eq_val_of_cast h0 h1 rfl).symm

/-- PoE: accepted iff `C` is reduced and `Q^l base^(x mod l) = C`. -/
theorem C46_poe (E : Env) (fuel : Nat) (N : Nat) (hN : N ≠ 0) (base C x Q : Int) (l : Nat)
    (hl : HasPrimeChallenge E fuel (poeTranscript base N C x) l) :
    ∃ b, poeVerify E fuel base N C x (some ⟨some Q⟩) = Run.ok b ∧
      (b = true ↔ (0 ≤ C ∧ C < N) ∧ (Q : ZMod N) ^ l * (base : ZMod N) ^ (x % l).toNat = C) := by
  have : NeZero N := ⟨hN⟩
  have hch := getPrime_of _ _ _ _ hl
  have hr : 0 ≤ x % (l : Int) := Int.emod_nonneg _ (by have := hl.2; omega)
  unfold poeVerify
  simp only [hch, liftLoop_some, run_ok_bind, deref, divMod_eq x l hl.2]
  rw [multiExp_eq _ _ _ _ (.inr (by omega)) (.inr hr)]
  simp only [run_ok_bind]
  refine ⟨_, rfl, ?_⟩
  rw [decide_eq_true_iff, gpow_nonneg _ (l : Int) (by omega), Int.toNat_natCast, gpow_nonneg _ _ hr]
  constructor
  · intro h
    refine ⟨⟨by rw [← h]; positivity, by rw [← h]; exact val_lt_int _⟩, ?_⟩
    rw [← h, val_cast]
  · rintro ⟨⟨h0, h1⟩, h2⟩
    rw [h2]
    exact (eq_val_of_cast h0 h1 rfl).symm

theorem emod_eq_emod_iff (N : Nat) [NeZero N] (a b : Int) : a % (N : Int) = b % N ↔ (a : ZMod N) = b := by
  rw [ZMod.intCast_eq_intCast_iff]; rfl

/-- ZKPoKE: accepted iff `Qg^l G^rx H^rrho = z^c Ag` and `Qu^l u^rx = w^c Au`. -/
theorem C46_zkpoke (E : Env) (fuel : Nat) (N : Nat) (hN : N ≠ 0) (G H u w z Ag Au Qg Qu rx rrho : Int) (l : Nat)
    (hl : HasPrimeChallenge E fuel
      ((zkpokeTranscript ⟨N, G, H⟩ u w (some z) (some Ag) (some Au)).getIntChallenge E).2 l)
    (h1 : 0 ≤ G ∨ 0 ≤ rx) (h2 : 0 ≤ H ∨ 0 ≤ rrho) (h3 : 0 ≤ u ∨ 0 ≤ rx) :
    ∃ b, zkpokeVerify E fuel ⟨N, G, H⟩ u w
        (some ⟨some z, some Ag, some Au, some Qg, some Qu, some rx, some rrho⟩) = Run.ok b ∧
      (b = true ↔
        let c := fsHashToInt E (zkpokeTranscript ⟨N, G, H⟩ u w (some z) (some Ag) (some Au)).info lenMax252
        (Qg : ZMod N) ^ l * (gpow (G : ZMod N) rx * gpow (H : ZMod N) rrho) = (z : ZMod N) ^ c * Ag ∧
        (Qu : ZMod N) ^ l * gpow (u : ZMod N) rx = (w : ZMod N) ^ c * Au) := by
  have : NeZero N := ⟨hN⟩
  have hch := getPrime_of _ _ _ _ hl
  unfold zkpokeVerify
  simp only [hch, liftLoop_some, run_ok_bind, deref]
  rw [multiExp_eq _ _ _ _ h1 h2]
  simp only [run_ok_bind]
  rw [multiExp_eq _ _ _ _ (.inr (by omega)) h3]
  simp only [run_ok_bind]
  have hc : ((zkpokeTranscript ⟨N, G, H⟩ u w (some z) (some Ag) (some Au)).getIntChallenge E).1 =
    fsHashToInt E (zkpokeTranscript ⟨N, G, H⟩ u w (some z) (some Ag) (some Au)).info lenMax252 := rfl
  rw [hc]
  generalize fsHashToInt E (zkpokeTranscript ⟨N, G, H⟩ u w (some z) (some Ag) (some Au)).info lenMax252 = c
  have e1 : (expStmt Qg (l : Int) N * ((gpow (G : ZMod N) rx * gpow (H : ZMod N) rrho).val : Int) % (N : Int) =
      expStmt z (c : Int) N * Ag % N) ↔
      (Qg : ZMod N) ^ l * (gpow (G : ZMod N) rx * gpow (H : ZMod N) rrho) = (z : ZMod N) ^ c * Ag := by
    rw [emod_eq_emod_iff]
    push_cast
    rw [expStmt_cast _ _ (.inr (by omega)), expStmt_cast _ _ (.inr (by omega)), gpow_nonneg _ (l : Int) (by omega),
      gpow_nonneg _ (c : Int) (by omega), Int.toNat_natCast, Int.toNat_natCast, ZMod.natCast_zmod_val]
  have e2 : (((gpow (Qu : ZMod N) l * gpow (u : ZMod N) rx).val : Int) = expStmt w (c : Int) N * Au % N) ↔
      (Qu : ZMod N) ^ l * gpow (u : ZMod N) rx = (w : ZMod N) ^ c * Au := by
    rw [emod_eq_val]
    push_cast
    rw [expStmt_cast _ _ (.inr (by omega)), gpow_nonneg _ (l : Int) (by omega),
      gpow_nonneg _ (c : Int) (by omega), Int.toNat_natCast, Int.toNat_natCast]
    rw [Nat.cast_inj]
    exact ⟨fun h => ZMod.val_injective N h, fun h => by rw [h]⟩
  by_cases h : expStmt Qg (l : Int) N * ((gpow (G : ZMod N) rx * gpow (H : ZMod N) rrho).val : Int) % (N : Int) =
      expStmt z (c : Int) N * Ag % N
  · simp only [ne_eq, h, not_true_eq_false, if_false]
    refine ⟨_, rfl, ?_⟩
    rw [decide_eq_true_iff, e2]
    exact ⟨fun h' => ⟨e1.1 h, h'⟩, fun h' => h'.2⟩
  · simp only [ne_eq, h, not_false_eq_true, if_true]
    refine ⟨false, rfl, ?_⟩
    simp only [Bool.false_eq_true, false_iff]
    rintro ⟨h', -⟩
    exact h (e1.2 h')

/-- A nil proof is rejected. -/
theorem C46_nil (E : Env) (fuel : Nat) (pp : PublicParameters) (C u w base mod x : Int) :
    pokeStarVerify E fuel pp C none = Run.ok false ∧ poeVerify E fuel base mod C x none = Run.ok false ∧
    zkpokeVerify E fuel pp u w none = Run.ok false := ⟨rfl, rfl, rfl⟩

/-- Accepted and rejected proofs. -/
example : HasPrimeChallenge pokeEnv 1 (pokeStarTranscript ⟨35, 2, 3⟩ 16) 13 ∧
    (pokeStarVerify pokeEnv 1 ⟨35, 2, 3⟩ 16 (some ⟨some (2 ^ 7 % 35), some 9⟩)).run = some (.ok true) ∧
    (pokeStarVerify pokeEnv 1 ⟨35, 2, 3⟩ 16 (some ⟨some (2 ^ 7 % 35), some 8⟩)).run = some (.ok false) := by
  refine ⟨by unfold HasPrimeChallenge; decide +kernel, by decide +kernel, by decide +kernel⟩

example : HasPrimeChallenge pokeEnv 1
    ((zkpokeTranscript ⟨35, 2, 3⟩ 2 4 (some 5) (some 6) (some 7)).getIntChallenge pokeEnv).2 13 := by
  unfold HasPrimeChallenge; decide +kernel

/-! ## C43 -/

/-- An accepted PoKE* proof has its residue in `[0, l)`. -/
def C43_statement : Prop :=
  ∀ (E : Env) (fuel : Nat) (pp : PublicParameters) (C Q R : Int) (l : Nat),
    HasPrimeChallenge E fuel (pokeStarTranscript pp C) l →
    pokeStarVerify E fuel pp C (some ⟨some Q, some R⟩) = Run.ok true → 0 ≤ R ∧ R < l

/-- From every accepted proof `(Q, R)` anyone makes another accepted proof `(Q G⁻¹, R + l)`. -/
theorem C43_malleable (E : Env) (fuel : Nat) (N : Nat) (hN : N ≠ 0) (G H C Q R Ginv : Int) (l : Nat)
    (hl : HasPrimeChallenge E fuel (pokeStarTranscript ⟨N, G, H⟩ C) l) (hG : 0 ≤ G) (hinv : (N : Int) ∣ G * Ginv - 1)
    (hacc : pokeStarVerify E fuel ⟨N, G, H⟩ C (some ⟨some Q, some R⟩) = Run.ok true) :
    pokeStarVerify E fuel ⟨N, G, H⟩ C (some ⟨some (Q * Ginv % N), some (R + l)⟩) = Run.ok true := by
  have : NeZero N := ⟨hN⟩
  obtain ⟨b, hb, hiff⟩ := C46_pokeStar E fuel N hN G H C Q R l hl (.inl hG)
  obtain ⟨b', hb', hiff'⟩ := C46_pokeStar E fuel N hN G H C (Q * Ginv % N) (R + l) l hl (.inl hG)
  rw [hb] at hacc
  have hbt := run_ok_inj hacc
  obtain ⟨hC, heq⟩ := hiff.1 hbt
  rw [hb']
  congr 1
  rw [hiff']
  refine ⟨hC, ?_⟩
  have h1 := (ZMod.intCast_zmod_eq_zero_iff_dvd _ N).2 hinv
  push_cast at h1
  have h2 : (G : ZMod N) * (Ginv : ZMod N) = 1 := sub_eq_zero.1 h1
  have hu : IsUnit (G : ZMod N) := IsUnit.of_mul_eq_one _ h2
  obtain ⟨u, hu⟩ := hu
  rw [emod_eq_val, val_cast, ← heq, ← hu, gpow_unit, gpow_unit, zpow_add, zpow_natCast]
  rw [← hu] at h2
  push_cast
  calc ((Q : ZMod N) * Ginv) ^ l * (((u ^ R : (ZMod N)ˣ) : ZMod N) * (u : ZMod N) ^ l)
      = (Q : ZMod N) ^ l * ((u ^ R : (ZMod N)ˣ) : ZMod N) * ((u : ZMod N) * Ginv) ^ l := by
        rw [mul_pow, mul_pow]; ring
    _ = (Q : ZMod N) ^ l * ((u ^ R : (ZMod N)ˣ) : ZMod N) := by rw [h2, one_pow, mul_one]

theorem C43_violated : ¬ C43_statement := by
  intro h
  have hc : HasPrimeChallenge pokeEnv 1 (pokeStarTranscript ⟨35, 2, 3⟩ 16) 13 := by
    unfold HasPrimeChallenge; decide +kernel
  have hacc : (pokeStarVerify pokeEnv 1 ⟨35, 2, 3⟩ 16 (some ⟨some (2 ^ 7 % 35), some 9⟩)).run = some (.ok true) := by
    decide +kernel
  have h2 := C43_malleable pokeEnv 1 35 (by decide) 2 3 16 (2 ^ 7 % 35) 9 18 13 hc (by decide) (by decide) hacc
  have := (h pokeEnv 1 ⟨35, 2, 3⟩ 16 _ _ 13 hc h2).2
  revert this
  decide

/-- What does hold: two accepted proofs with the same residue have the same `Q^l`. Missing from `C43_statement`: the range
of the residue. -/
theorem C43_same_residue_partial (E : Env) (fuel : Nat) (N : Nat) (hN : N ≠ 0) (G H C Q Q' R : Int) (l : Nat)
    (hl : HasPrimeChallenge E fuel (pokeStarTranscript ⟨N, G, H⟩ C) l) (hG : 0 ≤ G) (hu : Int.gcd G N = 1)
    (h1 : pokeStarVerify E fuel ⟨N, G, H⟩ C (some ⟨some Q, some R⟩) = Run.ok true)
    (h2 : pokeStarVerify E fuel ⟨N, G, H⟩ C (some ⟨some Q', some R⟩) = Run.ok true) :
    (N : Int) ∣ Q ^ l - Q' ^ l := by
  have : NeZero N := ⟨hN⟩
  obtain ⟨b, hb, hiff⟩ := C46_pokeStar E fuel N hN G H C Q R l hl (.inl hG)
  obtain ⟨b', hb', hiff'⟩ := C46_pokeStar E fuel N hN G H C Q' R l hl (.inl hG)
  rw [hb] at h1
  rw [hb'] at h2
  have e1 := (hiff.1 (run_ok_inj h1)).2
  have e2 := (hiff'.1 (run_ok_inj h2)).2
  obtain ⟨u, hu⟩ := (isUnit_iff_gcd (N := N) G).2 hu
  rw [← hu, gpow_unit] at e1 e2
  rw [← ZMod.intCast_zmod_eq_zero_iff_dvd]
  push_cast
  rw [sub_eq_zero]
  exact (Units.isUnit _).mul_right_cancel (e1.trans e2.symm)

/-! ## C44 -/

theorem C44_zkpoke_complete (E : Env) (fuel : Nat) (N : Nat) (hN : N ≠ 0) (G H u x w k rhox rhok : Int)
    (hk : 0 ≤ k) (h1 : 0 ≤ rhox) (h2 : 0 ≤ rhok)
    (hs : 0 ≤ x ∨ (0 ≤ G ∧ Int.gcd G N = 1 ∧ 0 ≤ u))
    (hw : IsPower N u x w)
    (hl : ∀ z Ag Au, ∃ l,
      HasPrimeChallenge E fuel ((zkpokeTranscript ⟨N, G, H⟩ u w z Ag Au).getIntChallenge E).2 l) :
    ∃ proof, zkpokeProve E fuel ⟨N, G, H⟩ u x w k rhox rhok = Run.ok (some proof) ∧
      zkpokeVerify E fuel ⟨N, G, H⟩ u w (some proof) = Run.ok true := by
  have : NeZero N := ⟨hN⟩
  have hpow := (isPower_iff u x w).1 hw
  have hGx : 0 ≤ G ∨ 0 ≤ x := by tauto
  have hux : 0 ≤ u ∨ 0 ≤ x := by tauto
  have hexp : expStmt u x N = w := by rw [expStmt_eq u x hux, hpow.2]
  have hGu : 0 ≤ x ∨ IsUnit (G : ZMod N) := by
    rcases hs with h | h
    · exact .inl h
    · exact .inr ((isUnit_iff_gcd G).2 h.2.1)
  have huu : 0 ≤ x ∨ IsUnit (u : ZMod N) := by
    by_cases h : 0 ≤ x
    · exact .inl h
    · exact .inr (hpow.1 (by omega))
  -- the values of the prover
  let z : Int := ((gpow (G : ZMod N) x * gpow (H : ZMod N) rhox).val : Int)
  let Ag : Int := ((gpow (G : ZMod N) k * gpow (H : ZMod N) rhok).val : Int)
  let Au : Int := ((gpow (u : ZMod N) k).val : Int)
  obtain ⟨l, hl⟩ := hl (some z) (some Ag) (some Au)
  have hl0 : l ≠ 0 := hl.2
  let c : Nat := fsHashToInt E (zkpokeTranscript ⟨N, G, H⟩ u w (some z) (some Ag) (some Au)).info lenMax252
  let sx : Int := (c : Int) * x + k
  let srho : Int := (c : Int) * rhox + rhok
  have hsrho : 0 ≤ srho := by positivity
  have hqrho : 0 ≤ srho / (l : Int) := Int.ediv_nonneg hsrho (by omega)
  have hrx : 0 ≤ sx % (l : Int) := Int.emod_nonneg _ (by omega)
  have hrrho : 0 ≤ srho % (l : Int) := Int.emod_nonneg _ (by omega)
  have hsx : 0 ≤ x → 0 ≤ sx := by intro h; positivity
  have hqx : 0 ≤ x → 0 ≤ sx / (l : Int) := fun h => Int.ediv_nonneg (hsx h) (by omega)
  have hGq : 0 ≤ G ∨ 0 ≤ sx / (l : Int) := by
    rcases hGx with h | h
    · exact .inl h
    · exact .inr (hqx h)
  have hBu : 0 ≤ sx / (l : Int) ∨ (0 ≤ u ∧ IsUnit (u : ZMod N)) := by
    by_cases h : 0 ≤ x
    · exact .inl (hqx h)
    · exact .inr ⟨by omega, huu.resolve_left h⟩
  let Qg : Int := ((gpow (G : ZMod N) (sx / l) * gpow (H : ZMod N) (srho / l)).val : Int)
  let Qu : Int := ((gpow (u : ZMod N) (sx / l)).val : Int)
  have hch := getPrime_of _ _ _ _ hl
  have hc : ((zkpokeTranscript ⟨N, G, H⟩ u w (some z) (some Ag) (some Au)).getIntChallenge E).1 = c := rfl
  refine ⟨⟨some z, some Ag, some Au, some Qg, some Qu, some (sx % l), some (srho % l)⟩, ?_, ?_⟩
  · have hb : ¬ zkpokeBound ⟨N, G, H⟩ ≤ 0 := by
      have h := natN_pos (N := N)
      unfold zkpokeBound
      simp only [not_le]
      positivity
    unfold zkpokeProve
    simp only [ne_eq, hexp, not_true_eq_false, if_false, hb]
    rw [multiExp_eq _ _ _ _ hGx (.inr h1)]
    simp only [run_ok_bind]
    rw [multiExp_eq _ _ _ _ (.inr hk) (.inr h2)]
    simp only [run_ok_bind]
    rw [bigExp_some u k (.inl hk)]
    rw [show ((zkpokeTranscript ⟨N, G, H⟩ u w (some ↑(gpow (G : ZMod N) x * gpow (H : ZMod N) rhox).val)
      (some ↑(gpow (G : ZMod N) k * gpow (H : ZMod N) rhok).val) (some ↑(gpow (u : ZMod N) k).val)).getIntChallenge E) =
      ((zkpokeTranscript ⟨N, G, H⟩ u w (some z) (some Ag) (some Au)).getIntChallenge E) from rfl]
    simp only [hch, liftLoop_some, run_ok_bind]
    rw [hc]
    rw [show (c : Int) * x + k = sx from rfl, show (c : Int) * rhox + rhok = srho from rfl, divMod_eq sx l hl0,
      divMod_eq srho l hl0]
    simp only [run_ok_bind]
    rw [multiExp_eq _ _ _ _ hGq (.inr hqrho)]
    simp only [run_ok_bind]
    rw [bigExp_some u _ hBu]
    rfl
  · obtain ⟨b, hb, hiff⟩ := C46_zkpoke E fuel N hN G H u w z Ag Au Qg Qu (sx % l) (srho % l) l
      hl (.inr hrx) (.inr hrrho) (.inr hrx)
    rw [hb]
    congr 1
    rw [hiff]
    show (Qg : ZMod N) ^ l * (gpow (G : ZMod N) (sx % l) * gpow (H : ZMod N) (srho % l)) = (z : ZMod N) ^ c * Ag ∧
      (Qu : ZMod N) ^ l * gpow (u : ZMod N) (sx % l) = (w : ZMod N) ^ c * Au
    refine ⟨?_, ?_⟩
    · simp only [Qg, z, Ag, val_cast]
      rw [mul_pow, mul_mul_mul_comm, gpow_divMod _ _ _ hl0, gpow_divMod _ _ _ hl0, gpow_lin _ _ _ _ hk hGu,
        gpow_lin _ _ _ _ h2 (.inl h1)]
      ring
    · simp only [Qu, Au, val_cast]
      rw [gpow_divMod _ _ _ hl0, gpow_lin _ _ _ _ hk huu, hpow.2, val_cast]

example : IsPower 35 4 5 (4 ^ 5 % 35) ∧ ∀ z Ag Au, ∃ l, HasPrimeChallenge pokeEnv 1
    ((zkpokeTranscript ⟨35, 2, 3⟩ 4 (4 ^ 5 % 35) z Ag Au).getIntChallenge pokeEnv).2 l :=
  ⟨by unfold IsPower; decide +kernel, fun _ _ _ => ⟨13, rfl, by decide⟩⟩

/-! ## C45 -/

theorem C45_poe_complete (E : Env) (fuel : Nat) (base mod C x : Int) (l : Nat) (hN : 1 ≤ mod)
    (hs : 0 ≤ base ∨ 0 ≤ x) (hC : IsPower mod base x C) (hl : HasPrimeChallenge E fuel (poeTranscript base mod C x) l) :
    ∃ proof, poeProve E fuel base mod C x = Run.ok (some proof) ∧
      poeVerify E fuel base mod C x (some proof) = Run.ok true := by
  obtain ⟨n, rfl⟩ : ∃ n : Nat, mod = n := ⟨mod.toNat, by omega⟩
  have : NeZero n := ⟨by omega⟩
  have hC2 := ((isPower_iff base x C).1 hC).2
  have hexp : expStmt base x n = C := by rw [expStmt_eq base x hs, hC2]
  have hch := getPrime_of _ _ _ _ hl
  refine ⟨{ Q := some (expStmt base (x / l) n) }, ?_, ?_⟩
  · unfold poeProve
    simp only [ne_eq, hexp, not_true_eq_false, if_false, hch, liftLoop_some, run_ok_bind, divMod_eq x l hl.2]
    rfl
  · have hq : 0 ≤ base ∨ 0 ≤ x / (l : Int) := by
      rcases hs with h | h
      · exact .inl h
      · exact .inr (Int.ediv_nonneg h (by omega))
    have hr : 0 ≤ x % (l : Int) := Int.emod_nonneg _ (by have := hl.2; omega)
    obtain ⟨b, hb, hiff⟩ := C46_poe E fuel n (NeZero.ne n) base C x (expStmt base (x / l) n) l hl
    rw [hb]
    congr 1
    rw [hiff]
    refine ⟨⟨hC.1, hC.2.1⟩, ?_⟩
    rw [expStmt_cast base _ hq, ← gpow_nonneg _ _ hr, gpow_divMod _ _ _ hl.2, hC2, val_cast]

example : IsPower 35 2 100 (2 ^ 100 % 35) ∧ HasPrimeChallenge pokeEnv 1 (poeTranscript 2 35 (2 ^ 100 % 35) 100) 13 :=
  ⟨by unfold IsPower; decide +kernel, by unfold HasPrimeChallenge; decide +kernel⟩

end Verif.Props
