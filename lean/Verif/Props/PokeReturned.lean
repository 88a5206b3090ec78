import Verif.Props.Poke

/-!
# Returned proofs are accepted (C41, C44, C45)

The completeness theorems assume that the search for the prime challenge ends. Here nothing is assumed about the hash function
or about the statement: whenever a prover returns a proof, the verifier returns true for it.
-/

namespace Verif.Props
open Verif.Go Verif.Model Verif.Lemmas Verif.Spec

theorem divMod_ok_iff (x : Int) (l : Nat) (r : Int × Int) : divMod x l = Run.ok r ↔ l ≠ 0 ∧ r = (x / l, x % l) := by
  by_cases h : l = 0
  · subst h
    constructor
    · intro h
      cases h
    · rintro ⟨h, -⟩
      exact absurd rfl h
  · rw [divMod_eq x l h]
    constructor
    · intro he
      exact ⟨h, (run_ok_inj he).symm⟩
    · rintro ⟨-, rfl⟩
      rfl

/-- What a returned PoKE* proof says about the challenge. -/
theorem pokeStarProve_some (E : Env) (fuel : Nat) (pp : PublicParameters) (C x : Int) (proof : PoKEStarProof)
    (h : pokeStarProve E fuel pp C x = Run.ok (some proof)) :
    expStmt pp.G x pp.N = C ∧ ∃ l, HasPrimeChallenge E fuel (pokeStarTranscript pp C) l ∧
      proof = { Q := some (expStmt pp.G (x / l) pp.N), R := some (x % l) } := by
  unfold pokeStarProve at h
  by_cases he : expStmt pp.G x pp.N = C
  · refine ⟨he, ?_⟩
    simp only [ne_eq, he, not_true_eq_false, if_false, run_bind_ok_iff, liftLoop_ok_iff] at h
    obtain ⟨⟨l, t⟩, hl, ⟨q, r⟩, hd, h⟩ := h
    obtain ⟨hl0, hqr⟩ := (divMod_ok_iff _ _ _).1 hd
    obtain ⟨rfl, rfl⟩ := Prod.mk.inj hqr
    refine ⟨l, ⟨((getPrimeChallenge_iff _ _ _ _ _).1 hl).1, hl0⟩, ?_⟩
    exact (Option.some.inj (run_ok_inj h)).symm
  · simp only [ne_eq, he, not_false_eq_true, if_true] at h
    have := run_ok_inj (h : Run.ok none = Run.ok (some proof))
    cases this

theorem isPower_or_zero (n : Nat) [NeZero n] (g x C : Int) (hs : 0 ≤ g ∨ 0 ≤ x) (he : expStmt g x n = C) :
    (0 ≤ C ∧ C < n) ∧ C = ((gpow (g : ZMod n) x).val : Int) := by
  rw [expStmt_eq g x hs] at he
  subst he
  refine ⟨⟨by omega, ?_⟩, rfl⟩
  exact_mod_cast ZMod.val_lt _

/-- Every PoKE* proof that is returned is accepted: nothing is assumed about the statement or about the hash function. -/
theorem C41_returned (E : Env) (fuel : Nat) (pp : PublicParameters) (C x : Int) (hN : 1 ≤ pp.N) (hs : 0 ≤ pp.G ∨ 0 ≤ x)
    (proof : PoKEStarProof) (h : pokeStarProve E fuel pp C x = Run.ok (some proof)) :
    pokeStarVerify E fuel pp C (some proof) = Run.ok true := by
  obtain ⟨he, l, hl, rfl⟩ := pokeStarProve_some E fuel pp C x proof h
  obtain ⟨N, G, H⟩ := pp
  simp only at hN hs he
  obtain ⟨n, rfl⟩ : ∃ n : Nat, N = n := ⟨N.toNat, by omega⟩
  have : NeZero n := ⟨by omega⟩
  obtain ⟨hC1, hC2⟩ := isPower_or_zero n G x C hs he
  have hr : 0 ≤ x % (l : Int) := Int.emod_nonneg _ (by have := hl.2; omega)
  have hq : 0 ≤ G ∨ 0 ≤ x / (l : Int) := by
    rcases hs with h | h
    · exact .inl h
    · exact .inr (Int.ediv_nonneg h (by omega))
  obtain ⟨b, hb, hiff⟩ := C46_pokeStar E fuel n (NeZero.ne n) G H C (expStmt G (x / l) n) (x % l) l hl (.inr hr)
  show pokeStarVerify E fuel ⟨n, G, H⟩ C (some ⟨some (expStmt G (x / l) n), some (x % l)⟩) = _
  rw [hb]
  congr 1
  rw [hiff]
  refine ⟨hC1, ?_⟩
  rw [expStmt_cast G _ hq, gpow_divMod _ _ _ hl.2, hC2, val_cast]

/-- What a returned PoE proof says about the challenge. -/
theorem poeProve_some (E : Env) (fuel : Nat) (base mod C x : Int) (proof : PoEProof)
    (h : poeProve E fuel base mod C x = Run.ok (some proof)) :
    expStmt base x mod = C ∧ ∃ l, HasPrimeChallenge E fuel (poeTranscript base mod C x) l ∧
      proof = { Q := some (expStmt base (x / l) mod) } := by
  unfold poeProve at h
  by_cases he : expStmt base x mod = C
  · refine ⟨he, ?_⟩
    simp only [ne_eq, he, not_true_eq_false, if_false, run_bind_ok_iff, liftLoop_ok_iff] at h
    obtain ⟨⟨l, t⟩, hl, ⟨q, r⟩, hd, h⟩ := h
    obtain ⟨hl0, hqr⟩ := (divMod_ok_iff _ _ _).1 hd
    obtain ⟨rfl, rfl⟩ := Prod.mk.inj hqr
    exact ⟨l, ⟨((getPrimeChallenge_iff _ _ _ _ _).1 hl).1, hl0⟩, (Option.some.inj (run_ok_inj h)).symm⟩
  · simp only [ne_eq, he, not_false_eq_true, if_true] at h
    have := run_ok_inj (h : Run.ok none = Run.ok (some proof))
    cases this

/-- Every PoE proof that is returned is accepted. -/
theorem C45_returned (E : Env) (fuel : Nat) (base mod C x : Int) (hN : 1 ≤ mod) (hs : 0 ≤ base ∨ 0 ≤ x) (proof : PoEProof)
    (h : poeProve E fuel base mod C x = Run.ok (some proof)) : poeVerify E fuel base mod C x (some proof) = Run.ok true := by
  obtain ⟨he, l, hl, rfl⟩ := poeProve_some E fuel base mod C x proof h
  obtain ⟨n, rfl⟩ : ∃ n : Nat, mod = n := ⟨mod.toNat, by omega⟩
  have : NeZero n := ⟨by omega⟩
  obtain ⟨hC1, hC2⟩ := isPower_or_zero n base x C hs he
  have hr : 0 ≤ x % (l : Int) := Int.emod_nonneg _ (by have := hl.2; omega)
  have hq : 0 ≤ base ∨ 0 ≤ x / (l : Int) := by
    rcases hs with h | h
    · exact .inl h
    · exact .inr (Int.ediv_nonneg h (by omega))
  obtain ⟨b, hb, hiff⟩ := C46_poe E fuel n (NeZero.ne n) base C x (expStmt base (x / l) n) l hl
  rw [hb]
  congr 1
  rw [hiff]
  refine ⟨hC1, ?_⟩
  rw [expStmt_cast base _ hq, ← gpow_nonneg _ _ hr, gpow_divMod _ _ _ hl.2, hC2, val_cast]

/-- Every ZKPoKE proof that is returned is accepted, for all coins of the prover. -/
theorem C44_returned (E : Env) (fuel : Nat) (N : Nat) (hN : N ≠ 0) (G H u x w k rhox rhok : Int)
    (hk : 0 ≤ k) (h1 : 0 ≤ rhox) (h2 : 0 ≤ rhok) (hs : 0 ≤ x ∨ (0 ≤ G ∧ Int.gcd G N = 1 ∧ 0 ≤ u ∧ Int.gcd u N = 1))
    (proof : ZKPoKEProof) (h : zkpokeProve E fuel ⟨N, G, H⟩ u x w k rhox rhok = Run.ok (some proof)) :
    zkpokeVerify E fuel ⟨N, G, H⟩ u w (some proof) = Run.ok true := by
  have : NeZero N := ⟨hN⟩
  have hGx : 0 ≤ G ∨ 0 ≤ x := by tauto
  have hux : 0 ≤ u ∨ 0 ≤ x := by tauto
  have hGu : 0 ≤ x ∨ IsUnit (G : ZMod N) := by
    rcases hs with h | h
    · exact .inl h
    · exact .inr ((isUnit_iff_gcd G).2 h.2.1)
  have huu : 0 ≤ x ∨ IsUnit (u : ZMod N) := by
    rcases hs with h | h
    · exact .inl h
    · exact .inr ((isUnit_iff_gcd u).2 h.2.2.2)
  unfold zkpokeProve at h
  by_cases hexp : expStmt u x N = w
  swap
  · simp only [ne_eq, hexp, not_false_eq_true, if_true] at h
    have := run_ok_inj (h : Run.ok none = Run.ok (some proof))
    cases this
  have hw := (isPower_or_zero N u x w hux hexp).2
  have hb : ¬ zkpokeBound ⟨N, G, H⟩ ≤ 0 := by
    have h := natN_pos (N := N)
    unfold zkpokeBound
    simp only [not_le]
    positivity
  simp only [ne_eq, hexp, not_true_eq_false, if_false, hb] at h
  rw [multiExp_eq _ _ _ _ hGx (.inr h1)] at h
  simp only [run_ok_bind] at h
  rw [multiExp_eq _ _ _ _ (.inr hk) (.inr h2)] at h
  simp only [run_ok_bind] at h
  rw [bigExp_some u k (.inl hk)] at h
  rw [run_bind_ok_iff] at h
  obtain ⟨⟨l, t⟩, hl, h⟩ := h
  rw [liftLoop_ok_iff, getPrimeChallenge_iff] at hl
  have hc := hl.1
  dsimp only at h
  rw [run_bind_ok_iff] at h
  obtain ⟨⟨qx, rx⟩, hd1, h⟩ := h
  obtain ⟨hl0, hqr⟩ := (divMod_ok_iff _ _ _).1 hd1
  obtain ⟨rfl, rfl⟩ := Prod.mk.inj hqr
  dsimp only at h
  rw [run_bind_ok_iff] at h
  obtain ⟨⟨qrho, rrho⟩, hd2, h⟩ := h
  obtain ⟨-, hqr⟩ := (divMod_ok_iff _ _ _).1 hd2
  obtain ⟨rfl, rfl⟩ := Prod.mk.inj hqr
  dsimp only at h
  let z : Int := ((gpow (G : ZMod N) x * gpow (H : ZMod N) rhox).val : Int)
  let Ag : Int := ((gpow (G : ZMod N) k * gpow (H : ZMod N) rhok).val : Int)
  let Au : Int := ((gpow (u : ZMod N) k).val : Int)
  let c : Nat := ((zkpokeTranscript ⟨N, G, H⟩ u w (some z) (some Ag) (some Au)).getIntChallenge E).1
  let sx : Int := (c : Int) * x + k
  let srho : Int := (c : Int) * rhox + rhok
  have hsrho : 0 ≤ srho := by positivity
  have hqrho : 0 ≤ srho / (l : Int) := Int.ediv_nonneg hsrho (by omega)
  have hrx : 0 ≤ sx % (l : Int) := Int.emod_nonneg _ (by omega)
  have hrrho : 0 ≤ srho % (l : Int) := Int.emod_nonneg _ (by omega)
  have hsx : 0 ≤ x → 0 ≤ sx := by intro h; positivity
  have hqx : 0 ≤ x → 0 ≤ sx / (l : Int) := fun h => Int.ediv_nonneg (hsx h) (by omega)
  have hGq : 0 ≤ G ∨ 0 ≤ sx / (l : Int) := by
    rcases hGx with h | h
    · exact .inl h
    · exact .inr (hqx h)
  have hBu : 0 ≤ sx / (l : Int) ∨ (0 ≤ u ∧ IsUnit (u : ZMod N)) := by
    by_cases h : 0 ≤ x
    · exact .inl (hqx h)
    · exact .inr ⟨by omega, huu.resolve_left h⟩
  let Qg : Int := ((gpow (G : ZMod N) (sx / l) * gpow (H : ZMod N) (srho / l)).val : Int)
  let Qu : Int := ((gpow (u : ZMod N) (sx / l)).val : Int)
  have hp : proof = ⟨some z, some Ag, some Au, some Qg, some Qu, some (sx % l), some (srho % l)⟩ := by
    rw [multiExp_eq _ _ _ _ hGq (.inr hqrho)] at h
    simp only [run_ok_bind] at h
    rw [bigExp_some u _ hBu] at h
    exact (Option.some.inj (run_ok_inj h)).symm
  subst hp
  obtain ⟨b, hb, hiff⟩ := C46_zkpoke E fuel N hN G H u w z Ag Au Qg Qu (sx % l) (srho % l) l
    ⟨hc, hl0⟩ (.inr hrx) (.inr hrrho) (.inr hrx)
  rw [hb]
  congr 1
  rw [hiff]
  show (Qg : ZMod N) ^ l * (gpow (G : ZMod N) (sx % l) * gpow (H : ZMod N) (srho % l)) = (z : ZMod N) ^ c * Ag ∧
    (Qu : ZMod N) ^ l * gpow (u : ZMod N) (sx % l) = (w : ZMod N) ^ c * Au
  refine ⟨?_, ?_⟩
  · simp only [Qg, z, Ag, val_cast]
    rw [mul_pow, mul_mul_mul_comm, gpow_divMod _ _ _ hl0, gpow_divMod _ _ _ hl0, gpow_lin _ _ _ _ hk hGu,
      gpow_lin _ _ _ _ h2 (.inl h1)]
    ring
  · simp only [Qu, Au, val_cast]
    rw [gpow_divMod _ _ _ hl0, gpow_lin _ _ _ _ hk huu, hw, val_cast]

/-- The prover returns a proof for `2^100` modulo 35 with the challenge 13, also with `0 = 5^(-1)` modulo 25, which is no power. -/
example : (∃ proof, pokeStarProve pokeEnv 1 ⟨35, 2, 3⟩ (2 ^ 100 % 35) 100 = Run.ok (some proof)) ∧
    (∃ proof, pokeStarProve pokeEnv 1 ⟨25, 5, 3⟩ 0 (-1) = Run.ok (some proof)) ∧
    (∃ proof, poeProve pokeEnv 1 2 35 (2 ^ 100 % 35) 100 = Run.ok (some proof)) ∧
    (∃ proof, zkpokeProve pokeEnv 1 ⟨35, 2, 3⟩ 4 5 (4 ^ 5 % 35) 7 8 9 = Run.ok (some proof)) := by
  have h1 : (pokeStarProve pokeEnv 1 ⟨35, 2, 3⟩ (2 ^ 100 % 35) 100).run = some (.ok (some ⟨some (2 ^ 7 % 35), some 9⟩)) := by
    decide +kernel
  have h2 : (pokeStarProve pokeEnv 1 ⟨25, 5, 3⟩ 0 (-1)).run = some (.ok (some ⟨some 0, some 12⟩)) := by decide +kernel
  have h3 : (poeProve pokeEnv 1 2 35 (2 ^ 100 % 35) 100).run = some (.ok (some ⟨some (2 ^ 7 % 35)⟩)) := by decide +kernel
  refine ⟨⟨_, h1⟩, ⟨_, h2⟩, ⟨_, h3⟩, ?_⟩
  obtain ⟨proof, hp, -⟩ := C44_zkpoke_complete pokeEnv 1 35 (by decide) 2 3 4 5 (4 ^ 5 % 35) 7 8 9 (by decide) (by decide)
    (by decide) (.inl (by decide)) (by unfold IsPower; decide +kernel) fun _ _ _ => ⟨13, rfl, by decide⟩
  exact ⟨proof, hp⟩

end Verif.Props
