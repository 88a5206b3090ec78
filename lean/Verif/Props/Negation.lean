import Verif.Props.Poke
import Mathlib.NumberTheory.LegendreSymbol.Basic

/-!
# Property C120: negated statements

-1 has order two in the group of residues, and everybody knows it. The verifiers work with residues, not with residues up
to sign.
-/

namespace Verif.Props
open Verif.Go Verif.Model Verif.Spec Verif.Lemmas

/-- The reduced number of the negated residue. -/
def negVal {N : Nat} (u : (ZMod N)ˣ) : Int := ((-u : (ZMod N)ˣ) : ZMod N).val

section
variable {N : Nat} [NeZero N]

theorem negVal_cast (u : (ZMod N)ˣ) : ((negVal u : Int) : ZMod N) = -(u : ZMod N) := by
  rw [negVal, val_cast, Units.val_neg]

theorem negVal_range (u : (ZMod N)ˣ) : 0 ≤ negVal u ∧ negVal u < N := ⟨by unfold negVal; positivity, val_lt_int _⟩

/-- It is N minus the number of the residue. -/
theorem negVal_eq (hN : 1 < N) (u : (ZMod N)ˣ) : negVal u = N - ((u : ZMod N).val : Int) := by
  have : Fact (1 < N) := ⟨hN⟩
  have hu : NeZero (u : ZMod N) := ⟨u.ne_zero⟩
  rw [negVal, Units.val_neg, ZMod.val_neg_of_ne_zero, Nat.cast_sub (ZMod.val_lt _).le]

omit [NeZero N] in
theorem neg_one_ne (hN : 2 < N) : (-1 : ZMod N) ≠ 1 := by
  have : Fact (2 < N) := ⟨hN⟩
  exact ZMod.neg_one_ne_one

omit [NeZero N] in
theorem neg_one_pow_iff (hN : 2 < N) (l : Nat) : (-1 : ZMod N) ^ l = -1 ↔ Odd l := by
  rcases Nat.even_or_odd l with h | h
  · rw [h.neg_one_pow]
    constructor
    · exact fun e => absurd e.symm (neg_one_ne hN)
    · exact fun h' => absurd h (Nat.not_even_iff_odd.2 h')
  · rw [h.neg_one_pow]
    simp [h]

end

theorem run_bool_iff (b : Bool) (p : Prop) (h : b = true ↔ p) : (Run.ok b = Run.ok true) ↔ p := by
  rw [← h]
  constructor
  · exact fun e => run_ok_inj e
  · rintro rfl; rfl

/-- C120 for PoE: the proof -base^(x / l) is accepted for the statement base^x = -(base^x), which is false, exactly if the
challenge is odd. -/
theorem C120_poe (E : Env) (fuel : Nat) (N : Nat) (hN : 2 < N) (base x : Int) (b : (ZMod N)ˣ)
    (hb : (b : ZMod N) = base) (l : Nat) (hl : HasPrimeChallenge E fuel (poeTranscript base N (negVal (b ^ x)) x) l) :
    ¬ IsPower N base x (negVal (b ^ x)) ∧
    (poeVerify E fuel base N (negVal (b ^ x)) x (some ⟨some (negVal (b ^ (x / l)))⟩) = Run.ok true ↔ Odd l) := by
  have : NeZero N := ⟨by omega⟩
  have hn1 := neg_one_ne hN
  constructor
  · rw [isPower_iff, ← hb, gpow_unit]
    rintro ⟨_, h⟩
    have h := congrArg (fun a : Int => (a : ZMod N)) h
    simp only [negVal_cast, val_cast] at h
    apply hn1
    have h2 : (-1 : ZMod N) * ((b ^ x : (ZMod N)ˣ) : ZMod N) = 1 * ((b ^ x : (ZMod N)ˣ) : ZMod N) := by
      rw [one_mul, neg_one_mul, h]
    exact (b ^ x).isUnit.mul_right_cancel h2
  · obtain ⟨c, hc, hiff⟩ := C46_poe E fuel N (by omega) base (negVal (b ^ x)) x (negVal (b ^ (x / l))) l hl
    rw [hc, run_bool_iff c _ hiff]
    have hr : 0 ≤ x % (l : Int) := Int.emod_nonneg _ (by have := hl.2; omega)
    have e : ((negVal (b ^ (x / (l : Int))) : Int) : ZMod N) ^ l * (base : ZMod N) ^ (x % (l : Int)).toNat =
        (-1) ^ l * ((b ^ x : (ZMod N)ˣ) : ZMod N) := by
      rw [negVal_cast, neg_pow, ← hb, ← Units.val_pow_eq_pow_val, ← Units.val_pow_eq_pow_val, ← zpow_natCast (b ^ _), ← zpow_mul,
        ← zpow_natCast b, Int.toNat_of_nonneg hr, mul_assoc, ← Units.val_mul, ← zpow_add, mul_comm _ (l : Int),
        Int.mul_ediv_add_emod]
    rw [e, negVal_cast, ← neg_one_mul ((b ^ x : (ZMod N)ˣ) : ZMod N), (b ^ x).isUnit.mul_left_inj, neg_one_pow_iff hN]
    exact ⟨fun h => h.2, fun h => ⟨negVal_range _, h⟩⟩

/-- C120 for PoKE*: whoever knows x can make an accepted proof for -(G^x), exactly if the challenge is odd. -/
theorem C120_pokeStar (E : Env) (fuel : Nat) (N : Nat) (hN : 2 < N) (G H x : Int) (g : (ZMod N)ˣ)
    (hg : (g : ZMod N) = G) (l : Nat) (hl : HasPrimeChallenge E fuel (pokeStarTranscript ⟨N, G, H⟩ (negVal (g ^ x))) l) :
    pokeStarVerify E fuel ⟨N, G, H⟩ (negVal (g ^ x)) (some ⟨some (negVal (g ^ (x / l))), some (x % l)⟩) = Run.ok true ↔
      Odd l := by
  have : NeZero N := ⟨by omega⟩
  have hr : 0 ≤ x % (l : Int) := Int.emod_nonneg _ (by have := hl.2; omega)
  obtain ⟨c, hc, hiff⟩ := C46_pokeStar E fuel N (by omega) G H (negVal (g ^ x)) (negVal (g ^ (x / l))) (x % l) l hl (.inr hr)
  rw [hc, run_bool_iff c _ hiff]
  have e : ((negVal (g ^ (x / (l : Int))) : Int) : ZMod N) ^ l * gpow (G : ZMod N) (x % l) =
      (-1) ^ l * ((g ^ x : (ZMod N)ˣ) : ZMod N) := by
    rw [negVal_cast, neg_pow, ← hg, gpow_unit, ← Units.val_pow_eq_pow_val, ← zpow_natCast (g ^ _), ← zpow_mul,
      mul_assoc, ← Units.val_mul, ← zpow_add, mul_comm _ (l : Int), Int.mul_ediv_add_emod]
  rw [e, negVal_cast, ← neg_one_mul ((g ^ x : (ZMod N)ˣ) : ZMod N), (g ^ x).isUnit.mul_left_inj, neg_one_pow_iff hN]
  exact ⟨fun h => h.2, fun h => ⟨negVal_range _, h⟩⟩

/-- The negated statement is false for every exponent if the base is a square modulo a prime factor of N that is 3 modulo 4.
Both factors of N are, for safe primes above 5. -/
theorem C120_false (N : Nat) (b : (ZMod N)ˣ) (p : Nat) (hp : p.Prime) (hpN : p ∣ N) (h4 : p % 4 = 3) (s : Int)
    (hs : (b : ZMod N) = (s : ZMod N) ^ 2) (x y : Int) : b ^ y ≠ -(b ^ x) := by
  intro h
  have := Fact.mk hp
  have h1 : b ^ (y - x) = -1 := by rw [zpow_sub, h, neg_mul, mul_inv_cancel]
  let f := ZMod.castHom hpN (ZMod p)
  have h2 := congrArg (Units.map f.toMonoidHom) h1
  have hsq : IsSquare (f (b : ZMod N)) := ⟨f s, by rw [hs, map_pow, pow_two]⟩
  have hu : IsSquare (Units.map f.toMonoidHom b) := by
    obtain ⟨t, ht⟩ := hsq
    have htu : IsUnit t := by
      have : IsUnit (t * t) := by rw [← ht]; exact (Units.map f.toMonoidHom b).isUnit
      exact (IsUnit.mul_iff.1 this).1
    obtain ⟨t, rfl⟩ := htu
    exact ⟨t, Units.ext (by rw [Units.val_mul, ← ht]; rfl)⟩
  obtain ⟨t, ht⟩ := hu
  rw [map_zpow, ht, ← pow_two, ← zpow_natCast, ← zpow_mul, mul_comm, zpow_mul] at h2
  have h3 : ((t ^ (y - x) : (ZMod p)ˣ) : ZMod p) ^ 2 = -1 := by
    have := congrArg (fun u : (ZMod p)ˣ => (u : ZMod p)) h2
    simp only [zpow_natCast, Units.val_pow_eq_pow_val] at this
    rw [this]
    simp
  exact ZMod.mod_four_ne_three_of_sq_eq_neg_one h3 h4

/-- C120 for ZKPoKE: whoever knows x can make an accepted proof for w = -(u^x) if the challenge is odd: the answer for `u`
gets the sign (-1)^c. -/
theorem C120_zkpoke (E : Env) (fuel : Nat) (N : Nat) (hN : 2 < N) (G H u x k rhox rhok : Int) (g h v : (ZMod N)ˣ)
    (hg : (g : ZMod N) = G) (hh : (h : ZMod N) = H) (hv : (v : ZMod N) = u) (z Ag Au : Int)
    (hz : (z : ZMod N) = ((g ^ x * h ^ rhox : (ZMod N)ˣ) : ZMod N))
    (hAg : (Ag : ZMod N) = ((g ^ k * h ^ rhok : (ZMod N)ˣ) : ZMod N)) (hAu : (Au : ZMod N) = ((v ^ k : (ZMod N)ˣ) : ZMod N))
    (c l : Nat) (hc : c = fsHashToInt E (zkpokeTranscript ⟨N, G, H⟩ u (negVal (v ^ x)) (some z) (some Ag) (some Au)).info lenMax252)
    (hl : HasPrimeChallenge E fuel
      ((zkpokeTranscript ⟨N, G, H⟩ u (negVal (v ^ x)) (some z) (some Ag) (some Au)).getIntChallenge E).2 l)
    (hodd : Odd l) (Qg Qu : Int)
    (hQg : (Qg : ZMod N) = ((g ^ ((c * x + k) / l) * h ^ ((c * rhox + rhok) / l) : (ZMod N)ˣ) : ZMod N))
    (hQu : (Qu : ZMod N) = (-1) ^ c * ((v ^ ((c * x + k) / l) : (ZMod N)ˣ) : ZMod N)) :
    zkpokeVerify E fuel ⟨N, G, H⟩ u (negVal (v ^ x)) (some ⟨some z, some Ag, some Au, some Qg, some Qu,
      some ((c * x + k) % l), some ((c * rhox + rhok) % l)⟩) = Run.ok true := by
  have : NeZero N := ⟨by omega⟩
  have hl0 : (l : Int) ≠ 0 := by have := hl.2; omega
  obtain ⟨b, hb, hiff⟩ := C46_zkpoke E fuel N (by omega) G H u (negVal (v ^ x)) z Ag Au Qg Qu ((c * x + k) % l)
    ((c * rhox + rhok) % l) l hl (.inr (Int.emod_nonneg _ hl0)) (.inr (Int.emod_nonneg _ hl0)) (.inr (Int.emod_nonneg _ hl0))
  rw [hb]
  congr 1
  rw [hiff, ← hc]
  have div : ∀ (a : (ZMod N)ˣ) (n : Int), (a ^ (n / (l : Int))) ^ l * a ^ (n % (l : Int)) = a ^ n := by
    intro a n
    rw [← zpow_natCast (a ^ _), ← zpow_mul, ← zpow_add, mul_comm _ (l : Int), Int.mul_ediv_add_emod]
  have lin : ∀ (a : (ZMod N)ˣ) (m n : Int), a ^ ((c : Int) * m + n) = (a ^ m) ^ c * a ^ n := by
    intro a m n
    rw [zpow_add, mul_comm (c : Int), zpow_mul, zpow_natCast]
  constructor
  · rw [hQg, ← hg, ← hh, gpow_unit, gpow_unit, hz, hAg, ← Units.val_pow_eq_pow_val, ← Units.val_pow_eq_pow_val, ← Units.val_mul,
      ← Units.val_mul, ← Units.val_mul, mul_pow, mul_mul_mul_comm, div, div, lin, lin, mul_pow, mul_mul_mul_comm]
  · rw [hQu, ← hv, gpow_unit, hAu, negVal_cast, mul_pow, neg_pow (((v ^ x : (ZMod N)ˣ)) : ZMod N), mul_assoc, ← Units.val_pow_eq_pow_val,
      ← Units.val_mul, div, lin, Units.val_mul, Units.val_pow_eq_pow_val, mul_assoc, ← pow_mul, mul_comm c l, pow_mul, hodd.neg_one_pow]

/-- C120: a proof made from public values by changing signs is not accepted for a false statement. -/
def C120_statement : Prop := ∀ (E : Env) (fuel N : Nat) (base x : Int) (b : (ZMod N)ˣ) (l : Nat), 2 < N →
  (b : ZMod N) = base → HasPrimeChallenge E fuel (poeTranscript base N (negVal (b ^ x)) x) l →
  poeVerify E fuel base N (negVal (b ^ x)) x (some ⟨some (negVal (b ^ (x / l)))⟩) ≠ Run.ok true

/-- The challenge of the example hash is 13 for every transcript. -/
theorem pokeEnv_challenge (t : Transcript) (h : t.maxlength = lenMax252) : HasPrimeChallenge pokeEnv 1 t 13 := by
  refine ⟨?_, by decide⟩
  rw [h]
  rfl

/-- 4 modulo 35. -/
def four35 : (ZMod 35)ˣ := ⟨4, 9, by decide, by decide⟩

/-- The number 26 = -(4^5) modulo 35 is accepted as 4^5, with the proof 34 = -(4^0). -/
theorem C120_violated : ¬ C120_statement := by
  intro h
  refine h pokeEnv 1 35 4 5 four35 13 (by decide) rfl (pokeEnv_challenge _ rfl) ?_
  exact (C120_poe pokeEnv 1 35 (by decide) 4 5 four35 rfl 13 (pokeEnv_challenge _ rfl)).2.2 (by decide)

/-- C120, what holds: the proof is refused if the challenge is even, that is 2. Missing from the full statement: the odd
challenges, for which C120_poe shows the contrary. -/
theorem C120_even_partial (E : Env) (fuel N : Nat) (base x : Int) (b : (ZMod N)ˣ) (l : Nat) (hN : 2 < N)
    (hb : (b : ZMod N) = base) (hl : HasPrimeChallenge E fuel (poeTranscript base N (negVal (b ^ x)) x) l) (he : Even l) :
    poeVerify E fuel base N (negVal (b ^ x)) x (some ⟨some (negVal (b ^ (x / l)))⟩) ≠ Run.ok true := by
  rw [Ne, (C120_poe E fuel N hN base x b hb l hl).2]
  exact Nat.not_odd_iff_even.2 he

/-! ## Cases meeting the hypotheses -/

/-- 26 is accepted as 4^5 modulo 35 and as a power of 4 known to the prover; no power of 4 is 26. -/
example : negVal (four35 ^ (5 : Int)) = 26 ∧
    poeVerify pokeEnv 1 4 35 26 5 (some ⟨some 34⟩) = Run.ok true ∧
    pokeStarVerify pokeEnv 1 ⟨35, 4, 9⟩ 26 (some ⟨some 34, some 5⟩) = Run.ok true ∧
    ∀ y : Int, four35 ^ y ≠ -(four35 ^ (5 : Int)) := by
  have h1 : negVal (four35 ^ (5 : Int)) = 26 := by decide +kernel
  have h2 : negVal (four35 ^ ((5 : Int) / (13 : Nat))) = 34 := by decide +kernel
  refine ⟨h1, ?_, ?_, fun y => C120_false 35 four35 7 (by decide) (by decide) (by decide) 2 (by decide) 5 y⟩
  · have := (C120_poe pokeEnv 1 35 (by decide) 4 5 four35 rfl 13 (pokeEnv_challenge _ rfl)).2.2 (by decide)
    rwa [h1, h2] at this
  · have := (C120_pokeStar pokeEnv 1 35 (by decide) 4 9 5 four35 rfl 13 (pokeEnv_challenge _ rfl)).2 (by decide)
    rwa [h1, h2] at this

/-- A ZKPoKE proof for the same statement. -/
example : ∃ proof, zkpokeVerify pokeEnv 1 ⟨35, 4, 4⟩ 4 26 (some proof) = Run.ok true := by
  have h1 : negVal (four35 ^ (5 : Int)) = 26 := by decide +kernel
  have h := C120_zkpoke pokeEnv 1 35 (by decide) 4 4 4 5 3 2 1 four35 four35 four35 rfl rfl rfl
    (((four35 ^ (5 : Int) * four35 ^ (2 : Int) : (ZMod 35)ˣ) : ZMod 35).val) _ _ (val_cast _) (val_cast _) (val_cast _) _ 13 rfl
    (pokeEnv_challenge _ rfl) (by decide) _ _ (val_cast _) (val_cast _)
  rw [h1] at h
  exact ⟨_, h⟩

end Verif.Props
