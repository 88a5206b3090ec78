import Verif.Lemmas.RangeProof
import Verif.Props.Poke
import Verif.Props.ThreeSquares

/-! # Properties of the range proof and the argument of positivity (C50 - C56, C58, C59) -/

namespace Verif.Props
open Verif.Go Verif.Model Verif.Lemmas Verif.Spec

/-- Public parameters as made by a setup: positive modulus, non-negative bases that are invertible. -/
structure GoodParams (pp : PublicParameters) : Prop where
  modulus : 1 ≤ pp.N
  g_nonneg : 0 ≤ pp.G
  h_nonneg : 0 ≤ pp.H
  g_unit : Int.gcd pp.G pp.N = 1
  h_unit : Int.gcd pp.H pp.N = 1

theorem good35 : GoodParams ⟨35, 4, 9⟩ :=
  ⟨by decide, by decide, by decide, by decide, by decide⟩

/-! ## C50, C51: range proof -/

/-- `RPProver.Prove(x)` can return `proof`: some result of `ThreeSquares`, some coins. -/
def RPProves (T : TSEnv) (K : Nat) (E : Env) (p : RPProver) (x : Int) (proof : RangeProof) : Prop :=
  ∃ ts coins p', ThreeSquaresReturns T K (rpTarget p x) ts ∧ rpProve E p x ts coins = .ok (proof, p')

theorem C50_complete_of_squares (E : Env) (p : RPProver) (hpp : GoodParams p.pp) (x : Int) (ts : Int3)
    (hts : ts.t0 ^ 2 + ts.t1 ^ 2 + ts.t2 ^ 2 = 4 * (p.b - x) * (x - p.a) + 1) (coins : RPCoins) (v : RPVerifier)
    (hv : v.pp = p.pp ∧ v.a = p.a ∧ v.b = p.b) :
    ∃ proof p', rpProve E p x ts coins = .ok (proof, p') ∧
      (∃ c, proof.c = some c ∧ IsCommit p.pp.N p.pp.G p.pp.H x p.r c) ∧
      rpVerify E v (some proof) = .ok true := by
  obtain ⟨⟨N, G, H⟩, r, a, b, c, ca, sigma, x4, c3, randM4, r4, randS4⟩ := p
  obtain ⟨pp', a', b', cm, c4, ca'⟩ := v
  obtain ⟨h1, h2, h3⟩ := hv
  simp only at h1 h2 h3 hts hpp
  subst h1 h2 h3
  obtain ⟨hN, hG, hH, hgu, hhu⟩ := hpp
  simp only at hN hG hH hgu hhu
  obtain ⟨n, rfl⟩ : ∃ n : Nat, N = n := ⟨N.toNat, by omega⟩
  have : NeZero n := ⟨by omega⟩
  obtain ⟨g, hg⟩ := (isUnit_iff_gcd (N := n) G).2 hgu
  obtain ⟨h, hh⟩ := (isUnit_iff_gcd (N := n) H).2 hhu
  obtain ⟨rc, m4, s4, σ⟩ := coins
  have E1 : ∀ A B : Int, bigExp (gh g h A B) 4 (n : Int) = some (gh g h (A * 4) (B * 4)) :=
    fun A B => bigExp_gh g h A B 4
  simp only [rpProve, calC_gh G H hG hH g h hg hh, calCa_gh G H hG hH g h hg hh, res_ok_bind, rpCommitForX, commitFromTS,
    commitGH_gh G H hG hH g h hg hh, rpCommit, rpFirstPartH, rpSecondPartH, bigExp_H H hH g h hh, bigExp_gh, nonNil_some,
    modN_gh, mulExpMod_gh]
  refine ⟨_, _, rfl, ⟨_, rfl, isCommit_gh G H hG hH g h hg hh x r⟩, ?_⟩
  simp only [rpVerify, nonNil_some, res_ok_bind, rpVerifySetup, modInverse_gh, bigExp_G G hG g h hg, modN_gh,
    Option.getD_some, E1, rpVerifyResponse, rpVerifyParams, rpResponseOf, verifyParam_gh G H hG hH g h hg hh,
    bigExp_H H hH g h hh, mulExpMod_G G H hG hH g h hg hh, mulExpMod_gh]
  congr 1
  rw [decide_eq_true_iff]
  generalize (rpChallenge E ⟨n, G, H⟩ a' b' ⟨gh g h ts.t0 rc.t0, gh g h ts.t1 rc.t1, gh g h ts.t2 rc.t2⟩ : Int) = e
  congr 1
  · congr 1 <;> apply gh_congr <;> ring
  · apply gh_congr
    · linear_combination (-e) * hts
    · ring

theorem C50_range_proof_complete (T : TSEnv) (K : Nat) (E : Env) (p : RPProver) (hpp : GoodParams p.pp) (x : Int)
    (ts : Int3) (hts : ThreeSquaresReturns T K (rpTarget p x) ts) (coins : RPCoins) (v : RPVerifier)
    (hv : v.pp = p.pp ∧ v.a = p.a ∧ v.b = p.b) :
    ∃ proof p', rpProve E p x ts coins = .ok (proof, p') ∧
      (∃ c, proof.c = some c ∧ IsCommit p.pp.N p.pp.G p.pp.H x p.r c) ∧
      rpVerify E v (some proof) = .ok true := by
  refine C50_complete_of_squares E p hpp x ts ?_ coins v hv
  rw [(C48_never_wrong T K _ ts hts).1]
  unfold rpTarget
  ring

/-- A range proof for 3 in [1, 8]: 4 * 5 * 2 + 1 = 41 = 6² + 2² + 1². -/
example : (6 : Int) ^ 2 + 2 ^ 2 + 1 ^ 2 = 4 * (8 - 3) * (3 - 1) + 1 := by norm_num

example : ∃ proof, RPProves tsEnv 2 pokeEnv (newRPProver ⟨35, 4, 9⟩ 6 1 8) 3 proof ∧
    rpVerify pokeEnv (newRPVerifier ⟨35, 4, 9⟩ 1 8) (some proof) = .ok true := by
  have hsq : Nat.sqrt 41 = 6 := Nat.sqrt_add_eq 6 (a := 5) (by omega)
  have hc : candidate 41 (0 + 0 * 2) = 5 := by simp [candidate, hsq]
  obtain ⟨t, ht⟩ := C49_some_run_returns tsEnv 2 41 0 0 (by omega) (by omega) (fun _ h => by omega)
    (by rw [hc]; norm_num) (by rw [hc]) (.inl (by rw [hc]; norm_num))
  have ht' : ThreeSquaresReturns tsEnv 2 (rpTarget (newRPProver ⟨35, 4, 9⟩ 6 1 8) 3) t := ht
  obtain ⟨proof, p', h1, -, h2⟩ := C50_range_proof_complete tsEnv 2 pokeEnv _ good35 3 t ht'
    ⟨⟨1, 2, 3⟩, ⟨4, 5, 6, 7⟩, ⟨8, 9, 10, 11⟩, 12⟩ (newRPVerifier ⟨35, 4, 9⟩ 1 8) ⟨rfl, rfl, rfl⟩
  exact ⟨proof, ⟨t, _, p', ht', h1⟩, h2⟩

/-- C51. -/
theorem C51_out_of_range_never (T : TSEnv) (K : Nat) (E : Env) (p : RPProver) (x : Int) (hab : p.a ≤ p.b)
    (hx : x < p.a ∨ p.b < x) (proof : RangeProof) : ¬ RPProves T K E p x proof := by
  rintro ⟨ts, coins, p', ⟨h0, -⟩, -⟩
  unfold rpTarget at h0
  rcases hx with hx | hx
  · have h1 : (p.b - x) * (x - p.a) < 0 := Int.mul_neg_of_pos_of_neg (by omega) (by omega)
    generalize (p.b - x) * (x - p.a) = y at *
    omega
  · have h1 : (p.b - x) * (x - p.a) < 0 := Int.mul_neg_of_neg_of_pos (by omega) (by omega)
    generalize (p.b - x) * (x - p.a) = y at *
    omega

/-- For a reversed range (`b < a`) the prover does make proofs, for the values strictly between `b` and `a`. -/
example : rpTarget (newRPProver ⟨35, 4, 9⟩ 6 8 1) 3 = 41 := by decide

/-! ## C53, C54: argument of positivity -/

def AoPProves (T : TSEnv) (K : Nat) (E : Env) (p : AoPProver) (x : Int) (proof : ArgOfPositivity) : Prop :=
  ∃ ts coins p', ThreeSquaresReturns T K (aopTarget x) ts ∧ aopProve E p x ts coins = .ok (proof, p')

theorem C53_complete_of_squares (E : Env) (p : AoPProver) (hpp : GoodParams p.pp) (x : Int) (ts : Int3)
    (hts : ts.t0 ^ 2 + ts.t1 ^ 2 + ts.t2 ^ 2 = 4 * x + 1) (coins : AoPCoins) :
    ∃ c, IsCommit p.pp.N p.pp.G p.pp.H x p.r c ∧
    ∃ proof p', aopProve E p x ts coins = .ok (proof, p') ∧ p'.C = c ∧
      ∀ v : AoPVerifier, v.pp = p.pp → v.c = c → aopVerify E v (some proof) = .ok true := by
  obtain ⟨⟨N, G, H⟩, r, C, s, x3, c3, randM3, r3, randS3⟩ := p
  simp only at hts hpp
  obtain ⟨hN, hG, hH, hgu, hhu⟩ := hpp
  simp only at hN hG hH hgu hhu
  obtain ⟨n, rfl⟩ : ∃ n : Nat, N = n := ⟨N.toNat, by omega⟩
  have : NeZero n := ⟨by omega⟩
  obtain ⟨g, hg⟩ := (isUnit_iff_gcd (N := n) G).2 hgu
  obtain ⟨h, hh⟩ := (isUnit_iff_gcd (N := n) H).2 hhu
  obtain ⟨rc, m3, s3, σ⟩ := coins
  refine ⟨_, isCommit_gh G H hG hH g h hg hh x r, ?_⟩
  simp only [aopProve, calC_gh G H hG hH g h hg hh, res_ok_bind, aopCommitForX, commitFromTS,
    commitGH_gh G H hG hH g h hg hh, aopCommit, aopFirstPartD, aopSecondPartD, mulExpMod_one, mulExpMod_gh,
    mulExpMod_H G H hG hH g h hg hh]
  refine ⟨_, _, rfl, rfl, ?_⟩
  rintro ⟨pp', c', cm, c3'⟩ h1 h2
  simp only at h1 h2
  subst h1 h2
  simp only [aopVerify, nonNil_some, res_ok_bind, aopVerifyResponse, aopVerifyParams, aopVerifyParams.aopHPow,
    aopResponseOf, verifyParam_gh G H hG hH g h hg hh, mulExpMod_one, mulExpMod_gh, bigExp_H H hH g h hh, modN_gh,
    mulExpMod_G G H hG hH g h hg hh]
  congr 1
  rw [decide_eq_true_iff]
  generalize (aopChallenge E ⟨n, G, H⟩ ⟨gh g h ts.t0 rc.t0, gh g h ts.t1 rc.t1, gh g h ts.t2 rc.t2⟩ : Int) = e
  congr 1
  · congr 1 <;> apply gh_congr <;> ring
  · apply gh_congr
    · linear_combination e * hts
    · ring

theorem C53_positivity_complete (T : TSEnv) (K : Nat) (E : Env) (p : AoPProver) (hpp : GoodParams p.pp) (x : Int)
    (ts : Int3) (hts : ThreeSquaresReturns T K (aopTarget x) ts) (coins : AoPCoins) :
    ∃ c, IsCommit p.pp.N p.pp.G p.pp.H x p.r c ∧
    ∃ proof p', aopProve E p x ts coins = .ok (proof, p') ∧ p'.C = c ∧
      ∀ v : AoPVerifier, v.pp = p.pp → v.c = c → aopVerify E v (some proof) = .ok true := by
  refine C53_complete_of_squares E p hpp x ts ?_ coins
  rw [(C48_never_wrong T K _ ts hts).1]
  unfold aopTarget
  ring

/-- 4 * 10 + 1 = 41 = 6² + 2² + 1². -/
example : GoodParams ⟨35, 4, 9⟩ ∧ ∃ t, ThreeSquaresReturns tsEnv 2 (aopTarget 10) t := by
  have hsq : Nat.sqrt 41 = 6 := Nat.sqrt_add_eq 6 (a := 5) (by omega)
  have hc : candidate 41 (0 + 0 * 2) = 5 := by simp [candidate, hsq]
  exact ⟨good35, C49_some_run_returns tsEnv 2 41 0 0 (by omega) (by omega) (fun _ h => by omega)
    (by rw [hc]; norm_num) (by rw [hc]) (.inl (by rw [hc]; norm_num))⟩

/-- C54. -/
theorem C54_negative_never (T : TSEnv) (K : Nat) (E : Env) (p : AoPProver) (x : Int) (hx : x < 0)
    (proof : ArgOfPositivity) : ¬ AoPProves T K E p x proof := by
  rintro ⟨ts, coins, p', ⟨h0, -⟩, -⟩
  unfold aopTarget at h0
  omega

/-! ## C83: which values can be proved -/

/-- For every value of the range some run of the prover returns a proof, and so for every non-negative value. -/
def C83_statement : Prop :=
  (∀ (T : TSEnv) (K : Nat) (E : Env) (p : RPProver), 1 ≤ K → GoodParams p.pp → ∀ x, p.a ≤ x → x ≤ p.b →
    ∃ proof, RPProves T K E p x proof) ∧
  ∀ (T : TSEnv) (K : Nat) (E : Env) (p : AoPProver), 1 ≤ K → GoodParams p.pp → ∀ x, 0 ≤ x → ∃ proof, AoPProves T K E p x proof

/-- The ends of a range cannot be proved. -/
theorem C83_ends_never (T : TSEnv) (K : Nat) (E : Env) (p : RPProver) (proof : RangeProof) :
    ¬ RPProves T K E p p.a proof ∧ ¬ RPProves T K E p p.b proof := by
  have h : ∀ x, rpTarget p x = 1 → ¬ RPProves T K E p x proof := by
    rintro x hx ⟨ts, -, -, hts, -⟩
    rw [hx] at hts
    exact C49_one_never T K ts hts
  constructor
  · apply h; unfold rpTarget; ring
  · apply h; unfold rpTarget; ring

/-- There are no arguments of positivity for 0 and 6. In ranges, the values with `(b - x) (x - a) = 6` cannot be proved. -/
theorem C83_inner_never (T : TSEnv) (K : Nat) (E : Env) :
    (∀ (p : AoPProver) proof, ¬ AoPProves T K E p 0 proof ∧ ¬ AoPProves T K E p 6 proof) ∧
    ∀ (p : RPProver) x proof, (p.b - x) * (x - p.a) = 6 → ¬ RPProves T K E p x proof := by
  refine ⟨fun p proof => ⟨?_, ?_⟩, ?_⟩
  · rintro ⟨ts, -, -, hts, -⟩
    exact C49_one_never T K ts hts
  · rintro ⟨ts, -, -, hts, -⟩
    exact C49_25_never T K ts hts
  · rintro p x proof hx ⟨ts, -, -, hts, -⟩
    have : rpTarget p x = 25 := by
      unfold rpTarget
      linear_combination 4 * hx
    rw [this] at hts
    exact C49_25_never T K ts hts

theorem C83_violated : ¬ C83_statement := by
  rintro ⟨h, -⟩
  obtain ⟨proof, hp⟩ := h tsEnv 8 pokeEnv (newRPProver ⟨35, 4, 9⟩ 6 1 8) (by decide) good35 1 (by decide) (by decide)
  exact (C83_ends_never tsEnv 8 pokeEnv (newRPProver ⟨35, 4, 9⟩ 6 1 8) proof).1 hp

/-- Exactly the values whose number can be decomposed can be proved; the proof is accepted (C50, C53). -/
theorem C83_provable_iff_partial (T : TSEnv) (K : Nat) (E : Env) :
    (∀ p : RPProver, GoodParams p.pp → ∀ x, p.a ≤ x → x ≤ p.b →
      ((∃ proof, RPProves T K E p x proof) ↔ Decomposable T K (4 * ((p.b - x) * (x - p.a)) + 1).toNat)) ∧
    ∀ p : AoPProver, GoodParams p.pp → ∀ x, 0 ≤ x →
      ((∃ proof, AoPProves T K E p x proof) ↔ Decomposable T K (4 * x + 1).toNat) := by
  constructor
  · intro p hpp x ha hb
    have h0 : 0 ≤ (p.b - x) * (x - p.a) := Int.mul_nonneg (by omega) (by omega)
    have ht : rpTarget p x = ((4 * ((p.b - x) * (x - p.a)) + 1).toNat : Int) := by
      have : rpTarget p x = 4 * ((p.b - x) * (x - p.a)) + 1 := by unfold rpTarget; ring
      rw [this]; omega
    rw [← C49_returns_iff T K _ (by omega), ← ht]
    constructor
    · rintro ⟨proof, ts, -, -, hts, -⟩
      exact ⟨ts, hts⟩
    · rintro ⟨ts, hts⟩
      obtain ⟨proof, p', h1, -⟩ := C50_range_proof_complete T K E p hpp x ts hts
        ⟨⟨1, 2, 3⟩, ⟨4, 5, 6, 7⟩, ⟨8, 9, 10, 11⟩, 12⟩ (newRPVerifier p.pp p.a p.b) ⟨rfl, rfl, rfl⟩
      exact ⟨proof, ts, _, p', hts, h1⟩
  · intro p hpp x h0
    have ht : aopTarget x = ((4 * x + 1).toNat : Int) := by
      have : aopTarget x = 4 * x + 1 := by unfold aopTarget; ring
      rw [this]; omega
    rw [← C49_returns_iff T K _ (by omega), ← ht]
    constructor
    · rintro ⟨proof, ts, -, -, hts, -⟩
      exact ⟨ts, hts⟩
    · rintro ⟨ts, hts⟩
      obtain ⟨c, -, proof, p', h1, -⟩ := C53_positivity_complete T K E p hpp x ts hts
        ⟨⟨1, 2, 3⟩, ⟨4, 5, 6⟩, ⟨7, 8, 9⟩, 10⟩
      exact ⟨proof, ts, _, p', hts, h1⟩

/-- The value 3 of [1, 8] can be proved with two CPUs, 10 is shown to be positive. -/
example : Decomposable tsEnv 2 (4 * 10 + 1 : Int).toNat := by
  have hsq : Nat.sqrt 41 = 6 := Nat.sqrt_add_eq 6 (a := 5) (by omega)
  refine ⟨0, by omega, 0, by simp, fun _ h => by omega, ?_⟩
  have hc : candidate (4 * 10 + 1 : Int).toNat (0 + 0 * 2) = 5 := by
    show candidate 41 (0 + 0 * 2) = 5
    simp [candidate, hsq]
  rw [hc]
  exact ⟨by omega, .inl (by norm_num), 1, by decide⟩

/-! ## C56: panics -/

theorem bigExp_isSome (N : Nat) [NeZero N] (x y : Int) (h : Int.gcd x N = 1) : ∃ v, bigExp x y N = some v := by
  cases hb : bigExp x y N with
  | none => exact absurd h ((bigExp_eq_none_iff x y).1 hb).2
  | some v => exact ⟨v, rfl⟩

theorem modN_ok (N : Nat) [NeZero N] (x : Int) : modN x N = .ok (x % N) := by
  unfold modN
  rw [if_neg (by have := natN_pos (N := N); omega)]

theorem mulExpMod_ok (N : Nat) [NeZero N] (w x y : Int) (h : Int.gcd x N = 1) : ∃ v, mulExpMod w x y N = .ok v := by
  obtain ⟨u, hu⟩ := bigExp_isSome N x y h
  exact ⟨_, by unfold mulExpMod; rw [hu, nonNil_some, res_ok_bind, modN_ok]⟩

theorem verifyParam_ok (N : Nat) [NeZero N] (G H z t c e : Int) (hG : Int.gcd G N = 1) (hH : Int.gcd H N = 1)
    (hc : Int.gcd c N = 1) : ∃ v, verifyParam ⟨N, G, H⟩ z t c e = .ok v := by
  obtain ⟨u, hu⟩ := bigExp_isSome N G z hG
  obtain ⟨v, hv⟩ := bigExp_isSome N H t hH
  obtain ⟨w, hw⟩ := bigExp_isSome N c e hc
  exact ⟨u * v * w % N, by unfold verifyParam; simp only [hu, hv, hw, nonNil_some, res_ok_bind, modN_ok]⟩

theorem gcd_mul_one (a b n : Int) (h1 : Int.gcd a n = 1) (h2 : Int.gcd b n = 1) : Int.gcd (a * b) n = 1 := by
  rw [← Int.isCoprime_iff_gcd_eq_one] at *
  exact h1.mul_left h2

theorem gcd_of_unit (N : Nat) [NeZero N] (v : Int) (u : (ZMod N)ˣ) (h : (u : ZMod N) = v) : Int.gcd v N = 1 :=
  (isUnit_iff_gcd v).1 ⟨u, h⟩

theorem gcd_emod_one (N : Nat) (a : Int) (h1 : Int.gcd a N = 1) : Int.gcd (a % N) N = 1 := by
  rw [Int.gcd_emod]; exact h1

theorem bigExp_gcd (N : Nat) [NeZero N] (x y v : Int) (hx : Int.gcd x N = 1) (h : bigExp x y N = some v) :
    Int.gcd v N = 1 := by
  obtain ⟨u, hu⟩ := (isUnit_iff_gcd (N := N) x).2 hx
  have hN := natN_pos (N := N)
  unfold bigExp at h
  rw [if_neg (by omega)] at h
  have hb : ∃ b, (if y < 0 then modInverse x N else some (x.natAbs : Int)) = some b ∧ Int.gcd b N = 1 := by
    split
    · refine ⟨_, modInverse_unit x u hu, ?_⟩
      exact gcd_of_unit N _ u⁻¹ (val_cast _).symm
    · refine ⟨_, rfl, ?_⟩
      rw [Int.gcd, Int.natAbs_natCast]; exact hx
  obtain ⟨b, hb1, hb2⟩ := hb
  rw [hb1] at h
  simp only [Option.map_some, Option.some.injEq] at h
  have h1 : Int.gcd (b ^ y.natAbs % N) N = 1 := by
    apply gcd_emod_one
    rw [← Int.isCoprime_iff_gcd_eq_one] at hb2 ⊢
    exact hb2.pow_left
  rw [← h]
  split
  · rw [Int.natAbs_natCast]
    rw [← Int.isCoprime_iff_gcd_eq_one] at h1 ⊢
    have h2 := h1.neg_left.add_mul_right_left 1
    rw [one_mul] at h2
    rw [sub_eq_neg_add]
    exact h2
  · exact h1

/-- The verifiers return for every proof value. -/
def C56_statement : Prop :=
  (∀ E (v : RPVerifier) proof, GoodParams v.pp → ∃ b, rpVerify E v proof = .ok b) ∧
  ∀ E (v : AoPVerifier) proof, GoodParams v.pp → ∃ b, aopVerify E v proof = .ok b

/-- The proof with commitment 0 makes the range verifier panic; so does a nil proof. -/
theorem C56_violated : ¬ C56_statement := by
  intro h
  obtain ⟨b, hb⟩ := h.1 pokeEnv (newRPVerifier ⟨35, 4, 9⟩ 1 8)
    (some ⟨some 0, ⟨1, 1, 1⟩, [], some ⟨⟨0, 0, 0, 0⟩, ⟨0, 0, 0, 0⟩, 0⟩⟩) good35
  revert hb
  simp only [rpVerify, nonNil_some, res_ok_bind, rpVerifySetup, newRPVerifier]
  rw [show modInverse 0 35 = none by decide]
  exact fun h => by cases h

/-- Every non-nil proof whose `c` has a common factor with `N` makes the range verifier panic. -/
theorem C56_bad_commitment_panics (E : Env) (v : RPVerifier) (c : Int) (hc : Int.gcd c v.pp.N ≠ 1) (c3 : Int3)
    (cm : Bytes) (resp : Option RPResponse) : (rpVerify E v (some ⟨some c, c3, cm, resp⟩)).panics = true := by
  have : modInverse c v.pp.N = none := by unfold modInverse; rw [if_neg hc]
  simp only [rpVerify, nonNil_some, res_ok_bind, rpVerifySetup, this]
  rfl

theorem C56_nil_panics (E : Env) (v : RPVerifier) (w : AoPVerifier) : (rpVerify E v none).panics = true ∧
    (aopVerify E w none).panics = true ∧ (∀ c c3 cm, (rpVerify E v (some ⟨c, c3, cm, none⟩)).panics = true) ∧
    ∀ c3 cm, (aopVerify E w (some ⟨c3, cm, none⟩)).panics = true := by
  refine ⟨rfl, rfl, ?_, fun _ _ => rfl⟩
  intro c c3 cm
  unfold rpVerify
  rw [nonNil_some, res_ok_bind]
  cases c with
  | none => rfl
  | some c =>
    simp only [nonNil_some, res_ok_bind]
    cases rpVerifySetup v c c3 cm with
    | error e => rfl
    | ok v' => rfl

/-- Run of the range verifier on a proof with invertible numbers: it returns, and what it returns is the comparison of
the hashes. -/
theorem rpVerify_returns (E : Env) (v : RPVerifier) (hpp : GoodParams v.pp) (c : Int) (hc : Int.gcd c v.pp.N = 1) (c3 : Int3)
    (h0 : Int.gcd c3.t0 v.pp.N = 1) (h1 : Int.gcd c3.t1 v.pp.N = 1) (h2 : Int.gcd c3.t2 v.pp.N = 1)
    (resp : RPResponse) :
    ∃ f4 last, ∃ v' : RPVerifier, (∀ cm, rpVerifySetup v c c3 cm = .ok { v' with commitment := cm }) ∧
      (∀ cm, rpVerifyParams E { v' with commitment := cm } resp = .ok (f4, last)) ∧
      ∀ cm, rpVerify E v (some ⟨some c, c3, cm, some resp⟩) = .ok (decide (newRPCommitment E f4 last = cm)) := by
  obtain ⟨⟨N, G, H⟩, a, b, cm0, c4, ca⟩ := v
  obtain ⟨hN, hG, hH, hgu, hhu⟩ := hpp
  simp only at hN hG hH hgu hhu hc h0 h1 h2
  obtain ⟨n, rfl⟩ : ∃ n : Nat, N = n := ⟨N.toNat, by omega⟩
  have : NeZero n := ⟨by omega⟩
  obtain ⟨u, hu⟩ := (isUnit_iff_gcd (N := n) c).2 hc
  have hinv := modInverse_unit c u hu
  obtain ⟨gb, hgb⟩ := bigExp_isSome n G b hgu
  obtain ⟨ga, hga⟩ := bigExp_isSome n G (-a) hgu
  have hc0 : Int.gcd ((((u⁻¹ : (ZMod n)ˣ) : ZMod n).val : Int) * gb % n) n = 1 :=
    gcd_emod_one n _ (gcd_mul_one _ _ _ (gcd_of_unit n _ u⁻¹ (val_cast _).symm) (bigExp_gcd n G b gb hgu hgb))
  have hca : Int.gcd (c * ga % n) n = 1 := gcd_emod_one n _ (gcd_mul_one _ _ _ hc (bigExp_gcd n G (-a) ga hgu hga))
  obtain ⟨ca4, hca4⟩ := bigExp_isSome n (c * ga % n) 4 hca
  have hca4' := bigExp_gcd n _ 4 ca4 hca hca4
  generalize hX : (((u⁻¹ : (ZMod n)ˣ) : ZMod n).val : Int) * gb % n = c0 at hc0
  generalize he : (rpChallenge E ⟨n, G, H⟩ a b ⟨c3.t0, c3.t1, c3.t2⟩ : Int) = e
  obtain ⟨f0, e0⟩ := verifyParam_ok n G H resp.Z4.t0 resp.T4.t0 c0 (-e) hgu hhu hc0
  obtain ⟨f1, e1⟩ := verifyParam_ok n G H resp.Z4.t1 resp.T4.t1 c3.t0 (-e) hgu hhu h0
  obtain ⟨f2, e2⟩ := verifyParam_ok n G H resp.Z4.t2 resp.T4.t2 c3.t1 (-e) hgu hhu h1
  obtain ⟨f3, e3⟩ := verifyParam_ok n G H resp.Z4.t3 resp.T4.t3 c3.t2 (-e) hgu hhu h2
  obtain ⟨l0, k0⟩ := bigExp_isSome n H resp.TAU hhu
  obtain ⟨l1, k1⟩ := mulExpMod_ok n l0 G e hgu
  obtain ⟨l2, k2⟩ := mulExpMod_ok n l1 ca4 resp.Z4.t0 hca4'
  obtain ⟨l3, k3⟩ := mulExpMod_ok n l2 c3.t0 (-resp.Z4.t1) h0
  obtain ⟨l4, k4⟩ := mulExpMod_ok n l3 c3.t1 (-resp.Z4.t2) h1
  obtain ⟨l5, k5⟩ := mulExpMod_ok n l4 c3.t2 (-resp.Z4.t3) h2
  refine ⟨⟨f0, f1, f2, f3⟩, l5, ⟨⟨n, G, H⟩, a, b, [], ⟨c0, c3.t0, c3.t1, c3.t2⟩, ca4⟩, fun cm => ?_, fun cm => ?_,
    fun cm => ?_⟩
  · simp only [nonNil_some, res_ok_bind, rpVerifySetup, hinv, hgb, hga, modN_ok, hX, Option.getD_some, hca4]
  · simp only [nonNil_some, res_ok_bind, rpVerifyParams, he, e0, e1, e2, e3, k0, k1, k2, k3, k4, k5]
  · simp only [rpVerify, nonNil_some, res_ok_bind, rpVerifySetup, hinv, hgb, hga, modN_ok, hX, Option.getD_some, hca4,
      rpVerifyResponse, rpVerifyParams, he, e0, e1, e2, e3, k0, k1, k2, k3, k4, k5]

theorem aopVerify_returns (E : Env) (v : AoPVerifier) (hpp : GoodParams v.pp) (hc : Int.gcd v.c v.pp.N = 1) (c3 : Int3)
    (h0 : Int.gcd c3.t0 v.pp.N = 1) (h1 : Int.gcd c3.t1 v.pp.N = 1) (h2 : Int.gcd c3.t2 v.pp.N = 1)
    (resp : AoPResponse) :
    ∃ f3 last, ∀ cm, aopVerify E v (some ⟨c3, cm, some resp⟩) = .ok (decide (newAoPCommitment E f3 last = cm)) := by
  obtain ⟨⟨N, G, H⟩, c, cm0, c30⟩ := v
  obtain ⟨hN, hG, hH, hgu, hhu⟩ := hpp
  simp only at hN hG hH hgu hhu hc h0 h1 h2
  obtain ⟨n, rfl⟩ : ∃ n : Nat, N = n := ⟨N.toNat, by omega⟩
  have : NeZero n := ⟨by omega⟩
  generalize he : (aopChallenge E ⟨n, G, H⟩ c3 : Int) = e
  obtain ⟨f0, e0⟩ := verifyParam_ok n G H resp.Z3.t0 resp.T3.t0 c3.t0 (-e) hgu hhu h0
  obtain ⟨f1, e1⟩ := verifyParam_ok n G H resp.Z3.t1 resp.T3.t1 c3.t1 (-e) hgu hhu h1
  obtain ⟨f2, e2⟩ := verifyParam_ok n G H resp.Z3.t2 resp.T3.t2 c3.t2 (-e) hgu hhu h2
  obtain ⟨l1, k1⟩ := mulExpMod_ok n 1 c3.t0 resp.Z3.t0 h0
  obtain ⟨l2, k2⟩ := mulExpMod_ok n l1 c3.t1 resp.Z3.t1 h1
  obtain ⟨l3, k3⟩ := mulExpMod_ok n l2 c3.t2 resp.Z3.t2 h2
  obtain ⟨p0, q0⟩ := bigExp_isSome n H resp.T hhu
  obtain ⟨p1, q1⟩ := mulExpMod_ok n p0 c (-e * 2 ^ 2) hc
  obtain ⟨l5, k5⟩ := mulExpMod_ok n (l3 * p1 % n) G (-e) hgu
  refine ⟨⟨f0, f1, f2⟩, l5, fun cm => ?_⟩
  simp only [aopVerify, nonNil_some, res_ok_bind, aopVerifyResponse, aopVerifyParams, aopVerifyParams.aopHPow, he, e0, e1,
    e2, k1, k2, k3, q0, q1, modN_ok, k5]

/-- The verifiers return for every proof whose pointers are non-nil and whose group elements are invertible. Missing from
`C56_statement`: nil pointers and non-invertible numbers. -/
theorem C56_returns_partial :
    (∀ E (v : RPVerifier), GoodParams v.pp → ∀ c c3 cm resp, Int.gcd c v.pp.N = 1 →
      (∀ d ∈ [c3.t0, c3.t1, c3.t2], Int.gcd d v.pp.N = 1) →
      ∃ b, rpVerify E v (some ⟨some c, c3, cm, some resp⟩) = .ok b) ∧
    ∀ E (v : AoPVerifier), GoodParams v.pp → ∀ c3 cm resp, Int.gcd v.c v.pp.N = 1 →
      (∀ d ∈ [c3.t0, c3.t1, c3.t2], Int.gcd d v.pp.N = 1) →
      ∃ b, aopVerify E v (some ⟨c3, cm, some resp⟩) = .ok b := by
  constructor
  · intro E v hpp c c3 cm resp hc h
    obtain ⟨f4, l, -, -, -, hf⟩ := rpVerify_returns E v hpp c hc c3 (h _ (by simp)) (h _ (by simp)) (h _ (by simp)) resp
    exact ⟨_, hf cm⟩
  · intro E v hpp c3 cm resp hc h
    obtain ⟨f4, l, hf⟩ := aopVerify_returns E v hpp hc c3 (h _ (by simp)) (h _ (by simp)) (h _ (by simp)) resp
    exact ⟨_, hf cm⟩

example : Int.gcd 2 35 = 1 ∧ ∀ d ∈ [(1 : Int), 3, 8], Int.gcd d 35 = 1 := by decide

/-! ## C52, C55: forged proofs -/

/-- A forged range proof: choose the response first (all zero) and the commitments (all one), run the verifier's own
computation and hash the result. Only public values are used. -/
def rpForge (E : Env) (pp : PublicParameters) (a b c : Int) : RangeProof :=
  let resp : RPResponse := ⟨⟨0, 0, 0, 0⟩, ⟨0, 0, 0, 0⟩, 0⟩
  let cm : Bytes := match rpVerifySetup (newRPVerifier pp a b) c ⟨1, 1, 1⟩ [] with
    | .error _ => []
    | .ok v => match rpVerifyParams E v resp with
      | .error _ => []
      | .ok (f4, last) => newRPCommitment E f4 last
  ⟨some c, ⟨1, 1, 1⟩, cm, some resp⟩

/-- The same for the argument of positivity. -/
def aopForge (E : Env) (pp : PublicParameters) (c : Int) : ArgOfPositivity :=
  let resp : AoPResponse := ⟨⟨0, 0, 0⟩, ⟨0, 0, 0⟩, 0⟩
  let cm : Bytes := match aopVerifyParams E { newAoPVerifier pp c with c3 := ⟨1, 1, 1⟩ } resp with
    | .error _ => []
    | .ok (f3, last) => newAoPCommitment E f3 last
  ⟨⟨1, 1, 1⟩, cm, some resp⟩

/-- Every commitment and every range has an accepted forged proof. -/
theorem C52_forge (E : Env) (pp : PublicParameters) (hpp : GoodParams pp) (a b c : Int) (hc : Int.gcd c pp.N = 1) :
    rpVerify E (newRPVerifier pp a b) (some (rpForge E pp a b c)) = .ok true := by
  have h1 : Int.gcd 1 pp.N = 1 := by simp
  obtain ⟨f4, last, v', hs, hp, h⟩ := rpVerify_returns E (newRPVerifier pp a b) hpp c hc ⟨1, 1, 1⟩ h1 h1 h1
    ⟨⟨0, 0, 0, 0⟩, ⟨0, 0, 0, 0⟩, 0⟩
  unfold rpForge
  simp only [hs, hp, h, decide_true]

theorem C55_forge (E : Env) (pp : PublicParameters) (hpp : GoodParams pp) (c : Int) (hc : Int.gcd c pp.N = 1) :
    aopVerify E (newAoPVerifier pp c) (some (aopForge E pp c)) = .ok true := by
  have h1 : Int.gcd 1 pp.N = 1 := by simp
  obtain ⟨f3, last, h⟩ := aopVerify_returns E (newAoPVerifier pp c) hpp hc ⟨1, 1, 1⟩ h1 h1 h1 ⟨⟨0, 0, 0⟩, ⟨0, 0, 0⟩, 0⟩
  have hk := h []
  simp only [aopVerify, nonNil_some, res_ok_bind, aopVerifyResponse] at hk
  unfold aopForge
  simp only
  cases hp : aopVerifyParams E { newAoPVerifier pp c with c3 := ⟨1, 1, 1⟩ } ⟨⟨0, 0, 0⟩, ⟨0, 0, 0⟩, 0⟩ with
  | error e =>
    have hp' : aopVerifyParams E { newAoPVerifier pp c with c3 := ⟨1, 1, 1⟩, commitment := [] }
      ⟨⟨0, 0, 0⟩, ⟨0, 0, 0⟩, 0⟩ = .error e := hp
    rw [hp'] at hk; cases hk
  | ok fl =>
    have hp' : ∀ cm, aopVerifyParams E { newAoPVerifier pp c with c3 := ⟨1, 1, 1⟩, commitment := cm }
      ⟨⟨0, 0, 0⟩, ⟨0, 0, 0⟩, 0⟩ = .ok fl := fun _ => hp
    simp only [aopVerify, nonNil_some, res_ok_bind, aopVerifyResponse]
    rw [hp']
    simp only [res_ok_bind, decide_true]

/-- An accepted range proof means that the commitment can be opened to a value in the range. -/
def C52_statement : Prop :=
  ∀ (E : Env) (pp : PublicParameters) (a b c : Int) (proof : RangeProof), GoodParams pp → proof.c = some c → a ≤ b →
    rpVerify E (newRPVerifier pp a b) (some proof) = .ok true →
    ∃ x r, a ≤ x ∧ x ≤ b ∧ IsCommit pp.N pp.G pp.H x r c

/-- An accepted argument of positivity means that the commitment can be opened to a non-negative value. -/
def C55_statement : Prop :=
  ∀ (E : Env) (pp : PublicParameters) (c : Int) (proof : ArgOfPositivity), GoodParams pp →
    aopVerify E (newAoPVerifier pp c) (some proof) = .ok true → ∃ x r, 0 ≤ x ∧ IsCommit pp.N pp.G pp.H x r c

/-- Modulo 5 the powers of 4 and 9 are ±1. -/
theorem no_opening (x r : Int) : ¬ IsCommit 35 4 9 x r 2 := by
  rintro ⟨gx, hr, h1, h2, h3⟩
  have key : ∀ (g y v : Int), ((g : ZMod 5) ^ 2 = 1) → IsPower 35 g y v → ((v : Int) : ZMod 5) ^ 2 = 1 := by
    intro g y v hg hp
    obtain ⟨-, -, h⟩ := hp
    have h5 : ∀ z : Int, (35 : Int) ∣ z → ((z : Int) : ZMod 5) = 0 := by
      intro z hz
      rw [ZMod.intCast_zmod_eq_zero_iff_dvd]
      exact Dvd.dvd.trans (by decide) hz
    split at h
    · have := h5 _ h
      push_cast at this
      rw [← sub_eq_zero.1 this, ← pow_mul, mul_comm, pow_mul, hg, one_pow]
    · have := h5 _ h
      push_cast at this
      have e := sub_eq_zero.1 this
      have e2 : ((v : ZMod 5) * (g : ZMod 5) ^ (-y).toNat) ^ 2 = 1 := by rw [e, one_pow]
      rw [mul_pow, ← pow_mul, mul_comm (-y).toNat, pow_mul, hg, one_pow, mul_one] at e2
      exact e2
  have k1 := key 4 x gx (by decide) h1
  have k2 := key 9 r hr (by decide) h2
  have h4 : ((2 : Int) : ZMod 5) = ((gx * hr : Int) : ZMod 5) := by
    rw [ZMod.intCast_eq_intCast_iff]
    have : (2 : Int) ≡ gx * hr [ZMOD 35] := by
      rw [h3]; exact Int.mod_modEq _ _
    exact this.of_dvd (by decide)
  push_cast at h4
  have h5 : ((2 : Int) : ZMod 5) ^ 2 = 1 := by
    rw [show ((2 : Int) : ZMod 5) = (2 : ZMod 5) from rfl, h4, mul_pow, k1, k2, one_mul]
  revert h5
  decide

/-- A forged proof for a commitment that has no opening at all. -/
theorem C52_violated : ¬ C52_statement := by
  intro h
  obtain ⟨x, r, -, -, hc⟩ := h pokeEnv ⟨35, 4, 9⟩ 0 10 2 (rpForge pokeEnv ⟨35, 4, 9⟩ 0 10 2) good35 rfl (by decide)
    (C52_forge pokeEnv ⟨35, 4, 9⟩ good35 0 10 2 (by decide))
  exact no_opening x r hc

theorem C55_violated : ¬ C55_statement := by
  intro h
  obtain ⟨x, r, -, hc⟩ := h pokeEnv ⟨35, 4, 9⟩ 2 (aopForge pokeEnv ⟨35, 4, 9⟩ 2) good35
    (C55_forge pokeEnv ⟨35, 4, 9⟩ good35 2 (by decide))
  exact no_opening x r hc

/-! What remains of C52 and C55: two accepted answers to different challenges for the same first message give the
relations between the committed values (`special soundness`). The forgeries above exist because the challenge does not
depend on the first message. -/

section sigma
variable {N : Nat} [NeZero N]

/-- The canonical representative of a residue class. -/
def rep (u : (ZMod N)ˣ) : Int := (((u : ZMod N)).val : Int)

theorem rep_cast (u : (ZMod N)ˣ) : (u : ZMod N) = ((rep u : Int) : ZMod N) := (val_cast _).symm

theorem rep_inj (u v : (ZMod N)ˣ) (h : rep u = rep v) : u = v := by
  apply Units.ext
  rw [rep_cast u, rep_cast v, h]

theorem rep_mul (u v : (ZMod N)ˣ) : rep u * rep v % N = rep (u * v) := by
  rw [emod_eq_val]
  unfold rep
  push_cast
  simp

theorem bigExp_rep (x y : Int) (hx : 0 ≤ x) (u : (ZMod N)ˣ) (hu : (u : ZMod N) = (x : ZMod N)) :
    bigExp x y N = some (rep (u ^ y)) := bigExp_unit x y hx u hu

theorem mulExpMod_rep (w : (ZMod N)ˣ) (x y : Int) (hx : 0 ≤ x) (u : (ZMod N)ˣ) (hu : (u : ZMod N) = (x : ZMod N)) :
    mulExpMod (rep w) x y N = .ok (rep (w * u ^ y)) := by
  unfold mulExpMod
  rw [bigExp_rep x y hx u hu, nonNil_some, res_ok_bind, modN_ok, rep_mul]

theorem mulExpMod_rep_one (x y : Int) (hx : 0 ≤ x) (u : (ZMod N)ˣ) (hu : (u : ZMod N) = (x : ZMod N)) :
    mulExpMod 1 x y N = .ok (rep (u ^ y)) := by
  unfold mulExpMod
  rw [bigExp_rep x y hx u hu, nonNil_some, res_ok_bind, modN_ok, one_mul]
  congr 1
  rw [emod_eq_val, ← rep_cast]
  rfl

theorem verifyParam_rep (G H z t c e : Int) (hG : 0 ≤ G) (hH : 0 ≤ H) (hc : 0 ≤ c) (g h u : (ZMod N)ˣ)
    (hg : (g : ZMod N) = (G : ZMod N)) (hh : (h : ZMod N) = (H : ZMod N)) (hu : (u : ZMod N) = (c : ZMod N)) :
    verifyParam ⟨N, G, H⟩ z t c e = .ok (rep (g ^ z * h ^ t * u ^ e)) := by
  unfold verifyParam
  simp only [bigExp_rep G z hG g hg, bigExp_rep H t hH h hh, bigExp_rep c e hc u hu, nonNil_some, res_ok_bind, modN_ok]
  congr 1
  rw [← rep_mul, ← rep_mul]
  exact ((Int.mod_modEq (rep (g ^ z) * rep (h ^ t)) N).mul_right _).symm

theorem cancel5 {M : Type*} [CommGroup M] (a a' b b' c c' x x' y y' z z' : M)
    (h : a * b * c * x⁻¹ * y⁻¹ * z⁻¹ = a' * b' * c' * x'⁻¹ * y'⁻¹ * z'⁻¹) :
    a * a'⁻¹ * (b * b'⁻¹) * (c * c'⁻¹) = x * x'⁻¹ * (y * y'⁻¹) * (z * z'⁻¹) := by
  have h1 : a * b * c * (x' * y' * z') = a' * b' * c' * (x * y * z) := by
    rw [← div_eq_div_iff_mul_eq_mul]
    simp only [div_eq_mul_inv, mul_inv_rev]
    simp only [mul_comm, mul_left_comm, mul_assoc] at h ⊢
    exact h
  rw [show x * x'⁻¹ * (y * y'⁻¹) * (z * z'⁻¹) = (x * y * z) / (x' * y' * z') by
    simp only [div_eq_mul_inv, mul_inv_rev, mul_comm, mul_left_comm, mul_assoc]]
  rw [show a * a'⁻¹ * (b * b'⁻¹) * (c * c'⁻¹) = (a * b * c) / (a' * b' * c') by
    simp only [div_eq_mul_inv, mul_inv_rev, mul_comm, mul_left_comm, mul_assoc]]
  rw [div_eq_div_iff_mul_eq_mul, h1, mul_comm]

theorem cancel6 {M : Type*} [CommGroup M] (a a' b b' c c' t t' x x' y y' : M)
    (h : a * b * c * (t * x⁻¹) * y⁻¹ = a' * b' * c' * (t' * x'⁻¹) * y'⁻¹) :
    x * x'⁻¹ * (y * y'⁻¹) = a * a'⁻¹ * (b * b'⁻¹) * (c * c'⁻¹) * (t * t'⁻¹) := by
  have h1 : a * b * c * t * (x' * y') = a' * b' * c' * t' * (x * y) := by
    rw [← div_eq_div_iff_mul_eq_mul]
    simp only [div_eq_mul_inv, mul_inv_rev]
    simp only [mul_comm, mul_left_comm, mul_assoc] at h ⊢
    exact h
  rw [show x * x'⁻¹ * (y * y'⁻¹) = (x * y) / (x' * y') by
    simp only [div_eq_mul_inv, mul_inv_rev, mul_comm, mul_left_comm, mul_assoc]]
  rw [show a * a'⁻¹ * (b * b'⁻¹) * (c * c'⁻¹) * (t * t'⁻¹) = (a * b * c * t) / (a' * b' * c' * t') by
    simp only [div_eq_mul_inv, mul_inv_rev, mul_comm, mul_left_comm, mul_assoc]]
  rw [div_eq_div_iff_mul_eq_mul, h1, mul_comm]

omit [NeZero N] in
theorem div_of_eq (g h u : (ZMod N)ˣ) (z z' t t' e e' : Int)
    (H : g ^ z * h ^ t * u ^ (-e) = g ^ z' * h ^ t' * u ^ (-e')) : u ^ (e - e') = g ^ (z - z') * h ^ (t - t') := by
  rw [zpow_neg, zpow_neg, ← div_eq_mul_inv, ← div_eq_mul_inv, div_eq_div_iff_mul_eq_mul] at H
  rw [zpow_sub, zpow_sub, zpow_sub, ← div_eq_mul_inv, ← div_eq_mul_inv, ← div_eq_mul_inv, div_mul_div_comm,
    div_eq_div_iff_mul_eq_mul, mul_comm, ← H, mul_comm]

/-- Special soundness of the range proof's equations: two runs of the verifier (challenges `e` and `e'` from any two hash
functions) that arrive at the same first message. Missing from `C52_statement`: the code lets the prover choose the first
message after the challenge, so accepted proofs need not come in such pairs. -/
theorem C52_special_soundness_partial (E E' : Env) (v : RPVerifier) (g h u0 u1 u2 u3 ua : (ZMod N)ˣ) (hN : v.pp.N = N)
    (hG : 0 ≤ v.pp.G) (hH : 0 ≤ v.pp.H) (h0 : 0 ≤ v.c4.t0) (h1 : 0 ≤ v.c4.t1) (h2 : 0 ≤ v.c4.t2) (h3 : 0 ≤ v.c4.t3)
    (ha : 0 ≤ v.ca) (hg : (g : ZMod N) = v.pp.G) (hh : (h : ZMod N) = v.pp.H) (hu0 : (u0 : ZMod N) = v.c4.t0)
    (hu1 : (u1 : ZMod N) = v.c4.t1) (hu2 : (u2 : ZMod N) = v.c4.t2) (hu3 : (u3 : ZMod N) = v.c4.t3)
    (hua : (ua : ZMod N) = v.ca) (z z' : RPResponse) (first : Int4 × Int)
    (hv : rpVerifyParams E v z = .ok first) (hv' : rpVerifyParams E' v z' = .ok first) (e e' : Int)
    (he : e = rpChallenge E v.pp v.a v.b ⟨v.c4.t1, v.c4.t2, v.c4.t3⟩)
    (he' : e' = rpChallenge E' v.pp v.a v.b ⟨v.c4.t1, v.c4.t2, v.c4.t3⟩) :
    u0 ^ (e - e') = g ^ (z.Z4.t0 - z'.Z4.t0) * h ^ (z.T4.t0 - z'.T4.t0) ∧
    u1 ^ (e - e') = g ^ (z.Z4.t1 - z'.Z4.t1) * h ^ (z.T4.t1 - z'.T4.t1) ∧
    u2 ^ (e - e') = g ^ (z.Z4.t2 - z'.Z4.t2) * h ^ (z.T4.t2 - z'.T4.t2) ∧
    u3 ^ (e - e') = g ^ (z.Z4.t3 - z'.Z4.t3) * h ^ (z.T4.t3 - z'.T4.t3) ∧
    h ^ (z.TAU - z'.TAU) * g ^ (e - e') * ua ^ (z.Z4.t0 - z'.Z4.t0) =
      u1 ^ (z.Z4.t1 - z'.Z4.t1) * u2 ^ (z.Z4.t2 - z'.Z4.t2) * u3 ^ (z.Z4.t3 - z'.Z4.t3) := by
  obtain ⟨⟨N', G, H⟩, a, b, cm, ⟨c0, c1, c2, c3⟩, ca⟩ := v
  simp only at *
  subst hN
  simp only [rpVerifyParams, ← he, ← he', verifyParam_rep G H _ _ _ _ hG hH h0 g h u0 hg hh hu0,
    verifyParam_rep G H _ _ _ _ hG hH h1 g h u1 hg hh hu1, verifyParam_rep G H _ _ _ _ hG hH h2 g h u2 hg hh hu2,
    verifyParam_rep G H _ _ _ _ hG hH h3 g h u3 hg hh hu3, res_ok_bind, bigExp_rep H _ hH h hh, nonNil_some,
    mulExpMod_rep _ G _ hG g hg, mulExpMod_rep _ ca _ ha ua hua, mulExpMod_rep _ c1 _ h1 u1 hu1,
    mulExpMod_rep _ c2 _ h2 u2 hu2, mulExpMod_rep _ c3 _ h3 u3 hu3, Except.ok.injEq] at hv hv'
  rw [← hv'] at hv
  simp only [Prod.mk.injEq, Int4.mk.injEq] at hv
  obtain ⟨⟨e0, e1, e2, e3⟩, e4⟩ := hv
  refine ⟨div_of_eq _ _ _ _ _ _ _ _ _ (rep_inj _ _ e0), div_of_eq _ _ _ _ _ _ _ _ _ (rep_inj _ _ e1),
    div_of_eq _ _ _ _ _ _ _ _ _ (rep_inj _ _ e2), div_of_eq _ _ _ _ _ _ _ _ _ (rep_inj _ _ e3), ?_⟩
  have k := rep_inj _ _ e4
  simp only [zpow_sub]
  simp only [zpow_neg] at k
  refine cancel5 _ _ _ _ _ _ _ _ _ _ _ _ k

/-- Special soundness of the equations of the argument of positivity. -/
theorem C55_special_soundness_partial (E E' : Env) (v : AoPVerifier) (g h u u0 u1 u2 : (ZMod N)ˣ) (hN : v.pp.N = N)
    (hG : 0 ≤ v.pp.G) (hH : 0 ≤ v.pp.H) (h0 : 0 ≤ v.c3.t0) (h1 : 0 ≤ v.c3.t1) (h2 : 0 ≤ v.c3.t2) (hc : 0 ≤ v.c)
    (hg : (g : ZMod N) = v.pp.G) (hh : (h : ZMod N) = v.pp.H) (hu0 : (u0 : ZMod N) = v.c3.t0)
    (hu1 : (u1 : ZMod N) = v.c3.t1) (hu2 : (u2 : ZMod N) = v.c3.t2) (hu : (u : ZMod N) = v.c)
    (z z' : AoPResponse) (first : Int3 × Int)
    (hv : aopVerifyParams E v z = .ok first) (hv' : aopVerifyParams E' v z' = .ok first) (e e' : Int)
    (he : e = aopChallenge E v.pp v.c3) (he' : e' = aopChallenge E' v.pp v.c3) :
    u0 ^ (e - e') = g ^ (z.Z3.t0 - z'.Z3.t0) * h ^ (z.T3.t0 - z'.T3.t0) ∧
    u1 ^ (e - e') = g ^ (z.Z3.t1 - z'.Z3.t1) * h ^ (z.T3.t1 - z'.T3.t1) ∧
    u2 ^ (e - e') = g ^ (z.Z3.t2 - z'.Z3.t2) * h ^ (z.T3.t2 - z'.T3.t2) ∧
    u ^ (4 * (e - e')) * g ^ (e - e') =
      u0 ^ (z.Z3.t0 - z'.Z3.t0) * u1 ^ (z.Z3.t1 - z'.Z3.t1) * u2 ^ (z.Z3.t2 - z'.Z3.t2) * h ^ (z.T - z'.T) := by
  obtain ⟨⟨N', G, H⟩, c, cm, ⟨c0, c1, c2⟩⟩ := v
  simp only at *
  subst hN
  simp only [aopVerifyParams, aopVerifyParams.aopHPow, ← he, ← he',
    verifyParam_rep G H _ _ _ _ hG hH h0 g h u0 hg hh hu0,
    verifyParam_rep G H _ _ _ _ hG hH h1 g h u1 hg hh hu1, verifyParam_rep G H _ _ _ _ hG hH h2 g h u2 hg hh hu2,
    res_ok_bind, bigExp_rep H _ hH h hh, nonNil_some, mulExpMod_rep_one c0 _ h0 u0 hu0,
    mulExpMod_rep _ G _ hG g hg, mulExpMod_rep _ c1 _ h1 u1 hu1, modN_ok, rep_mul,
    mulExpMod_rep _ c2 _ h2 u2 hu2, mulExpMod_rep _ c _ hc u hu, Except.ok.injEq] at hv hv'
  rw [← hv'] at hv
  simp only [Prod.mk.injEq, Int3.mk.injEq] at hv
  obtain ⟨⟨e0, e1, e2⟩, e4⟩ := hv
  refine ⟨div_of_eq _ _ _ _ _ _ _ _ _ (rep_inj _ _ e0), div_of_eq _ _ _ _ _ _ _ _ _ (rep_inj _ _ e1),
    div_of_eq _ _ _ _ _ _ _ _ _ (rep_inj _ _ e2), ?_⟩
  have k := rep_inj _ _ e4
  have q : ∀ e : Int, -e * 2 ^ 2 = -(4 * e) := fun e => by ring
  rw [q, q] at k
  rw [mul_sub]
  simp only [zpow_sub]
  simp only [zpow_neg] at k
  exact cancel6 _ _ _ _ _ _ _ _ _ _ _ _ k

end sigma

/-- A hash function that always gives 0. -/
def zeroEnv : Env := { pokeEnv with sha256 := fun _ => List.replicate 32 0, sha256_length := fun _ => rfl }

/-- Two runs with the same first message and the challenges 13 and 0: 3 in [1, 8], commitments without blinding. -/
example : rpVerifyParams pokeEnv ⟨⟨35, 4, 9⟩, 1, 8, [], ⟨9, 1, 16, 4⟩, 16⟩ ⟨⟨65, 78, 26, 13⟩, ⟨0, 0, 0, 0⟩, 0⟩ =
      .ok (⟨1, 1, 1, 1⟩, 1) ∧
    rpVerifyParams zeroEnv ⟨⟨35, 4, 9⟩, 1, 8, [], ⟨9, 1, 16, 4⟩, 16⟩ ⟨⟨0, 0, 0, 0⟩, ⟨0, 0, 0, 0⟩, 0⟩ =
      .ok (⟨1, 1, 1, 1⟩, 1) := by
  decide +kernel

/-- The same for the argument of positivity of 10. -/
example : aopVerifyParams pokeEnv ⟨⟨35, 4, 9⟩, 11, [], ⟨1, 16, 4⟩⟩ ⟨⟨78, 26, 13⟩, ⟨0, 0, 0⟩, 0⟩ = .ok (⟨1, 1, 1⟩, 1) ∧
    aopVerifyParams zeroEnv ⟨⟨35, 4, 9⟩, 11, [], ⟨1, 16, 4⟩⟩ ⟨⟨0, 0, 0⟩, ⟨0, 0, 0⟩, 0⟩ = .ok (⟨1, 1, 1⟩, 1) := by
  decide +kernel

/-! ## C59 -/

/-- The proof does not depend on what earlier calls left in the prover object. -/
theorem C59_range_prover_reuse (E : Env) (p q : RPProver) (h : p.pp = q.pp ∧ p.r = q.r ∧ p.a = q.a ∧ p.b = q.b) (x : Int)
    (ts : Int3) (coins : RPCoins) : rpProve E p x ts coins = rpProve E q x ts coins := by
  obtain ⟨pp, r, a, b, c, ca, sigma, x4, c3, randM4, r4, randS4⟩ := p
  obtain ⟨pp', r', a', b', c', ca', sigma', x4', c3', randM4', r4', randS4'⟩ := q
  obtain ⟨h1, h2, h3, h4⟩ := h
  simp only at h1 h2 h3 h4
  subst h1 h2 h3 h4
  simp only [rpProve, rpCommitForX, rpCommit, bind_assoc, res_ok_bind]

theorem C59_positivity_prover_reuse (E : Env) (p q : AoPProver) (h : p.pp = q.pp ∧ p.r = q.r) (x : Int)
    (ts : Int3) (coins : AoPCoins) : aopProve E p x ts coins = aopProve E q x ts coins := by
  obtain ⟨pp, r, C, s, x3, c3, randM3, r3, randS3⟩ := p
  obtain ⟨pp', r', C', s', x3', c3', randM3', r3', randS3'⟩ := q
  obtain ⟨h1, h2⟩ := h
  simp only at h1 h2
  subst h1 h2
  simp only [aopProve, aopCommitForX, aopCommit, bind_assoc, res_ok_bind]

/-- `Prove` keeps the inputs of the prover object. -/
theorem C59_inputs_kept (E : Env) (p p' : RPProver) (x : Int) (ts : Int3) (coins : RPCoins) (proof : RangeProof)
    (h : rpProve E p x ts coins = .ok (proof, p')) : p'.pp = p.pp ∧ p'.r = p.r ∧ p'.a = p.a ∧ p'.b = p.b := by
  unfold rpProve at h
  cases h1 : calC p.pp p.r x with
  | error e => rw [h1] at h; cases h
  | ok c =>
    rw [h1] at h
    simp only [res_ok_bind] at h
    cases h2 : calCa p.pp p.a c with
    | error e => rw [h2] at h; cases h
    | ok ca =>
      rw [h2] at h
      simp only [res_ok_bind, rpCommitForX] at h
      cases h3 : commitFromTS p.pp coins.rc ts with
      | error e => rw [h3] at h; cases h
      | ok c3 =>
        rw [h3] at h
        simp only [res_ok_bind, rpCommit] at h
        generalize rpFirstPartH _ _ _ = A at h
        cases A with
        | error e => cases h
        | ok A =>
          simp only [res_ok_bind] at h
          generalize rpSecondPartH _ _ = B at h
          cases B with
          | error e => cases h
          | ok B =>
            simp only [res_ok_bind, Except.ok.injEq, Prod.mk.injEq] at h
            rw [← h.2]
            exact ⟨rfl, rfl, rfl, rfl⟩

theorem C59_positivity_inputs_kept (E : Env) (p p' : AoPProver) (x : Int) (ts : Int3) (coins : AoPCoins)
    (proof : ArgOfPositivity) (h : aopProve E p x ts coins = .ok (proof, p')) : p'.pp = p.pp ∧ p'.r = p.r := by
  unfold aopProve at h
  cases h1 : calC p.pp p.r x with
  | error e => rw [h1] at h; cases h
  | ok c =>
    rw [h1] at h
    simp only [res_ok_bind, aopCommitForX] at h
    cases h3 : commitFromTS p.pp coins.rc ts with
    | error e => rw [h3] at h; cases h
    | ok c3 =>
      rw [h3] at h
      simp only [res_ok_bind, aopCommit] at h
      generalize aopFirstPartD _ _ _ = A at h
      cases A with
      | error e => cases h
      | ok A =>
        simp only [res_ok_bind] at h
        generalize aopSecondPartD _ _ = B at h
        cases B with
        | error e => cases h
        | ok B =>
          simp only [res_ok_bind, Except.ok.injEq, Prod.mk.injEq] at h
          rw [← h.2]
          exact ⟨rfl, rfl⟩

/-- States of a prover object after some calls of `Prove`. -/
inductive RPHistory (E : Env) (p : RPProver) : RPProver → Prop
  | new : RPHistory E p p
  | call {q q' : RPProver} {x : Int} {ts : Int3} {coins : RPCoins} {proof : RangeProof} :
      RPHistory E p q → rpProve E q x ts coins = .ok (proof, q') → RPHistory E p q'

inductive AoPHistory (E : Env) (p : AoPProver) : AoPProver → Prop
  | new : AoPHistory E p p
  | call {q q' : AoPProver} {x : Int} {ts : Int3} {coins : AoPCoins} {proof : ArgOfPositivity} :
      AoPHistory E p q → aopProve E q x ts coins = .ok (proof, q') → AoPHistory E p q'

/-- After any calls, `Prove` gives what a new prover object would give. -/
theorem C59_any_history (E : Env) (pp : PublicParameters) (r a b : Int) (q : RPProver)
    (hq : RPHistory E (newRPProver pp r a b) q) (x : Int) (ts : Int3) (coins : RPCoins) :
    rpProve E q x ts coins = rpProve E (newRPProver pp r a b) x ts coins := by
  apply C59_range_prover_reuse
  induction hq with
  | new => exact ⟨rfl, rfl, rfl, rfl⟩
  | call _ h ih =>
    have := C59_inputs_kept _ _ _ _ _ _ _ h
    exact ⟨this.1.trans ih.1, this.2.1.trans ih.2.1, this.2.2.1.trans ih.2.2.1, this.2.2.2.trans ih.2.2.2⟩

theorem C59_any_positivity_history (E : Env) (pp : PublicParameters) (r : Int) (q : AoPProver)
    (hq : AoPHistory E (newAoPProver pp r) q) (x : Int) (ts : Int3) (coins : AoPCoins) :
    aopProve E q x ts coins = aopProve E (newAoPProver pp r) x ts coins := by
  apply C59_positivity_prover_reuse
  induction hq with
  | new => exact ⟨rfl, rfl⟩
  | call _ h ih =>
    have := C59_positivity_inputs_kept _ _ _ _ _ _ _ h
    exact ⟨this.1.trans ih.1, this.2.trans ih.2⟩

/-- A history with one call. -/
example : ∃ q, RPHistory pokeEnv (newRPProver ⟨35, 4, 9⟩ 6 1 8) q ∧ q.c ≠ 0 := by
  refine ⟨_, .call (x := 3) (ts := ⟨6, 2, 1⟩) (coins := ⟨⟨1, 2, 3⟩, ⟨4, 5, 6, 7⟩, ⟨8, 9, 10, 11⟩, 12⟩) .new rfl, ?_⟩
  decide +kernel

theorem C59_positivity_verifier_reuse (E : Env) (v w : AoPVerifier) (h : v.pp = w.pp ∧ v.c = w.c)
    (proof : Option ArgOfPositivity) : aopVerify E v proof = aopVerify E w proof := by
  obtain ⟨pp, c, cm, c3⟩ := v
  obtain ⟨pp', c', cm', c3'⟩ := w
  obtain ⟨h1, h2⟩ := h
  simp only at h1 h2
  subst h1 h2
  rfl

/-- A verifier object can be reused as well. -/
theorem C59_verifier_reuse (E : Env) (v w : RPVerifier) (h : v.pp = w.pp ∧ v.a = w.a ∧ v.b = w.b) (proof : Option RangeProof) :
    rpVerify E v proof = rpVerify E w proof := by
  obtain ⟨pp, a, b, cm, c4, ca⟩ := v
  obtain ⟨pp', a', b', cm', c4', ca'⟩ := w
  obtain ⟨h1, h2, h3⟩ := h
  simp only at h1 h2 h3
  subst h1 h2 h3
  rfl

/-! ## C58 -/

/-- The challenge of the verifier depends on all of the statement and the first message: different public parameters,
ranges, commitments `c`, commitments `c1..c3` or hashed first messages give different hash inputs. -/
def C58_statement : Prop :=
  ∀ (pp pp' : PublicParameters) (a b a' b' : Int) (p p' : RangeProof),
    (pp, a, b, p.c, p.commit3, p.commitment) ≠ (pp', a', b', p'.c, p'.commit3, p'.commitment) →
    rpSerialize pp a b p.commit3 ≠ rpSerialize pp' a' b' p'.commit3

/-- The same for the argument of positivity; `c` is in the verifier object. -/
def C58_positivity_statement : Prop :=
  ∀ (pp pp' : PublicParameters) (c c' : Int) (p p' : ArgOfPositivity),
    (pp, c, p.commit3, p.commitment) ≠ (pp', c', p'.commit3, p'.commitment) →
    aopSerialize pp p.commit3 ≠ aopSerialize pp' p'.commit3

theorem C58_positivity_violated : ¬ C58_positivity_statement := by
  intro h
  exact h ⟨35, 4, 9⟩ ⟨35, 4, 9⟩ 2 3 ⟨⟨1, 1, 1⟩, [1], none⟩ ⟨⟨1, 1, 1⟩, [2], none⟩ (by simp) rfl

/-- The commitment `c` and the first message are not hashed. -/
theorem C58_violated : ¬ C58_statement := by
  intro h
  exact h ⟨35, 4, 9⟩ ⟨35, 4, 9⟩ 0 10 0 10 ⟨some 2, ⟨1, 1, 1⟩, [1], none⟩ ⟨some 3, ⟨1, 1, 1⟩, [2], none⟩
    (by simp) rfl

/-- Nor is the range bound: `[1, 23]` and `[12, 3]` give the same challenge. -/
theorem C58_ranges_collide (E : Env) (pp : PublicParameters) (c3 : Int3) :
    rpChallenge E pp 1 23 c3 = rpChallenge E pp 12 3 c3 := by
  unfold rpChallenge rpSerialize
  have : ∀ A, A ++ intString 1 ++ intString 23 = A ++ intString 12 ++ intString 3 := by
    intro A
    rw [List.append_assoc, List.append_assoc, show intString 1 ++ intString 23 = intString 12 ++ intString 3 by decide]
  rw [this]

/-- The two protocols are not separated: an argument of positivity and a range proof can have the same challenge. -/
theorem C58_protocols_collide (E : Env) (pp : PublicParameters) :
    aopChallenge E pp ⟨1, 2, 345⟩ = rpChallenge E pp 1 2 ⟨3, 4, 5⟩ := by
  unfold aopChallenge rpChallenge aopSerialize rpSerialize
  have : ∀ A, A ++ intString 1 ++ intString 2 ++ intString 345 =
      A ++ intString 1 ++ intString 2 ++ intString 3 ++ intString 4 ++ intString 5 := by
    intro A
    simp only [List.append_assoc]
    rw [show intString 345 = intString 3 ++ (intString 4 ++ intString 5) by decide]
  rw [this]
  rfl

theorem intString_injective (x y : Int) (h : intString x = intString y) : x = y := by
  have hd : ∀ n : Nat, ∀ l, itoa n ≠ 45 :: l := by
    intro n l hl
    have := itoa_allDigits n 45 (by rw [hl]; simp)
    revert this
    decide
  unfold intString at h
  split at h <;> split at h
  · have := itoa_injective _ _ (List.cons.inj h).2
    omega
  · exact absurd h.symm (hd _ _)
  · exact absurd h (hd _ _)
  · have := itoa_injective _ _ h
    omega

/-- What is bound: with the same parameters and range, and `c1..c3` of the same lengths, different `c1..c3` give different
hash inputs. Missing from `C58_statement`: `c`, the first message, and strings of different lengths. -/
theorem C58_binds_commitments_partial (pp : PublicParameters) (a b : Int) (c3 d3 : Int3)
    (h0 : (intString c3.t0).length = (intString d3.t0).length) (h1 : (intString c3.t1).length = (intString d3.t1).length)
    (hne : c3 ≠ d3) : rpSerialize pp a b c3 ≠ rpSerialize pp a b d3 := by
  intro h
  unfold rpSerialize at h
  simp only [List.append_assoc, List.append_cancel_left_eq] at h
  obtain ⟨e0, h⟩ := List.append_inj h h0
  obtain ⟨e1, e2⟩ := List.append_inj h h1
  obtain ⟨a0, a1, a2⟩ := c3
  obtain ⟨b0, b1, b2⟩ := d3
  simp only at e0 e1 e2
  rw [intString_injective _ _ e0, intString_injective _ _ e1, intString_injective _ _ e2] at hne
  exact hne rfl

theorem C58_positivity_binds_partial (pp : PublicParameters) (c3 d3 : Int3)
    (h0 : (intString c3.t0).length = (intString d3.t0).length) (h1 : (intString c3.t1).length = (intString d3.t1).length)
    (hne : c3 ≠ d3) : aopSerialize pp c3 ≠ aopSerialize pp d3 := by
  intro h
  unfold aopSerialize at h
  simp only [List.append_assoc, List.append_cancel_left_eq] at h
  obtain ⟨e0, h⟩ := List.append_inj h h0
  obtain ⟨e1, e2⟩ := List.append_inj h h1
  obtain ⟨a0, a1, a2⟩ := c3
  obtain ⟨b0, b1, b2⟩ := d3
  simp only at e0 e1 e2
  rw [intString_injective _ _ e0, intString_injective _ _ e1, intString_injective _ _ e2] at hne
  exact hne rfl

/-- With the lengths of the decimal strings fixed, all that is hashed is bound: also the parameters and the range. The length
of the last string need not be fixed. -/
theorem C58_binds_hashed_partial (pp pp' : PublicParameters) (a b a' b' : Int) (c3 d3 : Int3)
    (hlen : [pp.G, pp.H, pp.N, a, b, c3.t0, c3.t1].map (fun z => (intString z).length) =
      [pp'.G, pp'.H, pp'.N, a', b', d3.t0, d3.t1].map (fun z => (intString z).length)) :
    rpSerialize pp a b c3 = rpSerialize pp' a' b' d3 ↔ (pp, a, b, c3) = (pp', a', b', d3) := by
  refine ⟨fun h => ?_, fun h => by cases h; rfl⟩
  simp only [List.map_cons, List.map_nil, List.cons.injEq, and_true] at hlen
  obtain ⟨l0, l1, l2, l3, l4, l5, l6⟩ := hlen
  unfold rpSerialize at h
  simp only [List.append_assoc, List.append_cancel_left_eq] at h
  obtain ⟨e0, h⟩ := List.append_inj h l0
  obtain ⟨e1, h⟩ := List.append_inj h l1
  obtain ⟨e2, h⟩ := List.append_inj h l2
  obtain ⟨e3, h⟩ := List.append_inj h l3
  obtain ⟨e4, h⟩ := List.append_inj h l4
  obtain ⟨e5, h⟩ := List.append_inj h l5
  obtain ⟨e6, e7⟩ := List.append_inj h l6
  obtain ⟨N, G, H⟩ := pp
  obtain ⟨N', G', H'⟩ := pp'
  obtain ⟨a0, a1, a2⟩ := c3
  obtain ⟨b0, b1, b2⟩ := d3
  simp only at e0 e1 e2 e3 e4 e5 e6 e7
  rw [intString_injective _ _ e0, intString_injective _ _ e1, intString_injective _ _ e2, intString_injective _ _ e3,
    intString_injective _ _ e4, intString_injective _ _ e5, intString_injective _ _ e6, intString_injective _ _ e7]

theorem C58_positivity_binds_hashed_partial (pp pp' : PublicParameters) (c3 d3 : Int3)
    (hlen : [pp.G, pp.H, pp.N, c3.t0, c3.t1].map (fun z => (intString z).length) =
      [pp'.G, pp'.H, pp'.N, d3.t0, d3.t1].map (fun z => (intString z).length)) :
    aopSerialize pp c3 = aopSerialize pp' d3 ↔ (pp, c3) = (pp', d3) := by
  refine ⟨fun h => ?_, fun h => by cases h; rfl⟩
  simp only [List.map_cons, List.map_nil, List.cons.injEq, and_true] at hlen
  obtain ⟨l0, l1, l2, l5, l6⟩ := hlen
  unfold aopSerialize at h
  simp only [List.append_assoc, List.append_cancel_left_eq] at h
  obtain ⟨e0, h⟩ := List.append_inj h l0
  obtain ⟨e1, h⟩ := List.append_inj h l1
  obtain ⟨e2, h⟩ := List.append_inj h l2
  obtain ⟨e5, h⟩ := List.append_inj h l5
  obtain ⟨e6, e7⟩ := List.append_inj h l6
  obtain ⟨N, G, H⟩ := pp
  obtain ⟨N', G', H'⟩ := pp'
  obtain ⟨a0, a1, a2⟩ := c3
  obtain ⟨b0, b1, b2⟩ := d3
  simp only at e0 e1 e2 e5 e6 e7
  rw [intString_injective _ _ e0, intString_injective _ _ e1, intString_injective _ _ e2,
    intString_injective _ _ e5, intString_injective _ _ e6, intString_injective _ _ e7]

example : (intString 12).length = (intString 34).length ∧ (⟨12, 5, 6⟩ : Int3) ≠ ⟨34, 5, 6⟩ := by decide

/-- Two ranges whose bounds have as many digits are told apart. -/
example : rpSerialize ⟨35, 4, 9⟩ 10 23 ⟨12, 5, 6⟩ ≠ rpSerialize ⟨35, 4, 9⟩ 12 30 ⟨12, 5, 6⟩ := by
  rw [Ne, C58_binds_hashed_partial _ _ _ _ _ _ _ _ (by decide)]
  decide

end Verif.Props
