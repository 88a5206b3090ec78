import Verif.Props.RangeProof

/-! # Property C56, continued: exactly which proof values make the verifiers panic -/

namespace Verif.Props
open Verif.Go Verif.Model Verif.Lemmas Verif.Spec

/-- `d^y` modulo `N` exists: the exponent is not negative, or `d` has an inverse. -/
def PowerExists (N d y : Int) : Prop := 0 ≤ y ∨ Int.gcd d N = 1

theorem bind_returns {α β : Type} {m : Res α} {f : α → Res β} {C : Prop} (h : ∀ a, m = .ok a → ((∃ b, f a = .ok b) ↔ C)) :
    (∃ b, (m >>= f) = .ok b) ↔ (∃ a, m = .ok a) ∧ C := by
  cases m with
  | error e => exact ⟨fun ⟨b, hb⟩ => (by cases hb), fun ⟨⟨a, ha⟩, _⟩ => (by cases ha)⟩
  | ok a => exact ⟨fun hb => ⟨⟨a, rfl⟩, (h a rfl).1 hb⟩, fun hc => (h a rfl).2 hc.2⟩

theorem ok_returns {α : Type} (a : α) : (∃ b, (Except.ok a : Res α) = .ok b) ↔ True := ⟨fun _ => trivial, fun _ => ⟨a, rfl⟩⟩

theorem power_returns (n : Nat) [NeZero n] (x y : Int) : (∃ v, nonNil (bigExp x y n) = .ok v) ↔ PowerExists n x y := by
  have h := bigExp_eq_none_iff (N := n) x y
  cases hb : bigExp x y n with
  | none =>
    obtain ⟨h1, h2⟩ := h.1 hb
    exact ⟨fun ⟨v, hv⟩ => (by cases hv), fun h' => h'.elim (fun h3 => by omega) (fun h3 => absurd h3 h2)⟩
  | some v =>
    refine ⟨fun _ => ?_, fun _ => ⟨v, rfl⟩⟩
    by_contra hc
    rw [PowerExists, not_or] at hc
    rw [h.2 ⟨by omega, hc.2⟩] at hb
    cases hb

theorem mulExpMod_returns (n : Nat) [NeZero n] (w x y : Int) : (∃ v, mulExpMod w x y n = .ok v) ↔ PowerExists n x y := by
  unfold mulExpMod
  rw [bind_returns (C := True) (fun a _ => by rw [modN_ok]; exact ok_returns _), power_returns, and_true]

theorem verifyParam_returns (n : Nat) [NeZero n] (G H z t c e : Int) (hG : Int.gcd G n = 1) (hH : Int.gcd H n = 1) :
    (∃ v, verifyParam ⟨n, G, H⟩ z t c e = .ok v) ↔ PowerExists n c e := by
  obtain ⟨u, hu⟩ := bigExp_isSome n G z hG
  obtain ⟨v, hv⟩ := bigExp_isSome n H t hH
  unfold verifyParam
  simp only [hu, hv, nonNil_some, res_ok_bind]
  rw [bind_returns (C := True) (fun a _ => by rw [modN_ok]; exact ok_returns _), power_returns, and_true]

theorem power_bind {β : Type} {n : Nat} [NeZero n] {x y : Int} {f : Int → Res β} {C : Prop}
    (h : ∀ a, (∃ b, f a = .ok b) ↔ C) : (∃ b, (nonNil (bigExp x y n) >>= f) = .ok b) ↔ PowerExists n x y ∧ C := by
  rw [bind_returns fun a _ => h a, power_returns]

theorem mulExpMod_bind {β : Type} {n : Nat} [NeZero n] {w x y : Int} {f : Int → Res β} {C : Prop}
    (h : ∀ a, (∃ b, f a = .ok b) ↔ C) : (∃ b, (mulExpMod w x y n >>= f) = .ok b) ↔ PowerExists n x y ∧ C := by
  rw [bind_returns fun a _ => h a, mulExpMod_returns]

theorem verifyParam_bind {β : Type} {n : Nat} [NeZero n] {G H z t c e : Int} (hG : Int.gcd G n = 1) (hH : Int.gcd H n = 1)
    {f : Int → Res β} {C : Prop} (h : ∀ a, (∃ b, f a = .ok b) ↔ C) :
    (∃ b, (verifyParam ⟨n, G, H⟩ z t c e >>= f) = .ok b) ↔ PowerExists n c e ∧ C := by
  rw [bind_returns fun a _ => h a, verifyParam_returns n G H z t c e hG hH]

/-- The powers of the commitments `c1, c2, c3` that the range verifier computes exist. -/
def RangePowers (e : Nat) (N : Int) (c3 : Int3) (z : Int4) : Prop :=
  (Int.gcd c3.t0 N = 1 ∨ e = 0 ∧ z.t1 ≤ 0) ∧ (Int.gcd c3.t1 N = 1 ∨ e = 0 ∧ z.t2 ≤ 0) ∧
    (Int.gcd c3.t2 N = 1 ∨ e = 0 ∧ z.t3 ≤ 0)

/-- The powers that the verifier of positivity computes exist. -/
def PositivityPowers (e : Nat) (N c : Int) (c3 z : Int3) : Prop :=
  (Int.gcd c3.t0 N = 1 ∨ e = 0 ∧ 0 ≤ z.t0) ∧ (Int.gcd c3.t1 N = 1 ∨ e = 0 ∧ 0 ≤ z.t1) ∧
    (Int.gcd c3.t2 N = 1 ∨ e = 0 ∧ 0 ≤ z.t2) ∧ (Int.gcd c N = 1 ∨ e = 0)

theorem rpVerifyParams_returns (E : Env) (v : RPVerifier) (hpp : GoodParams v.pp) (resp : RPResponse)
    (h0 : Int.gcd v.c4.t0 v.pp.N = 1) (hca : Int.gcd v.ca v.pp.N = 1) :
    (∃ x, rpVerifyParams E v resp = .ok x) ↔
      RangePowers (rpChallenge E v.pp v.a v.b ⟨v.c4.t1, v.c4.t2, v.c4.t3⟩) v.pp.N ⟨v.c4.t1, v.c4.t2, v.c4.t3⟩ resp.Z4 := by
  obtain ⟨⟨N, G, H⟩, a, b, cm0, c4, ca⟩ := v
  obtain ⟨hN, hG, hH, hgu, hhu⟩ := hpp
  simp only at hN hG hH hgu hhu h0 hca ⊢
  obtain ⟨n, rfl⟩ : ∃ n : Nat, N = n := ⟨N.toNat, by omega⟩
  have : NeZero n := ⟨by omega⟩
  unfold rpVerifyParams
  simp only
  generalize rpChallenge E ⟨n, G, H⟩ a b ⟨c4.t1, c4.t2, c4.t3⟩ = e
  refine (verifyParam_bind hgu hhu fun _ => verifyParam_bind hgu hhu fun _ => verifyParam_bind hgu hhu fun _ =>
    verifyParam_bind hgu hhu fun _ => power_bind fun _ => mulExpMod_bind fun _ => mulExpMod_bind fun _ => mulExpMod_bind fun _ =>
    mulExpMod_bind fun _ => mulExpMod_bind fun _ => ok_returns _).trans ?_
  unfold PowerExists RangePowers
  simp only [h0, hca, hgu, hhu]
  constructor
  · rintro ⟨-, h1, h2, h3, -, -, -, k1, k2, k3, -⟩
    refine ⟨?_, ?_, ?_⟩ <;> by_contra hc <;> rw [not_or, not_and_or] at hc <;> omega
  · rintro ⟨h1, h2, h3⟩
    refine ⟨.inr trivial, ?_, ?_, ?_, .inr trivial, .inr trivial, .inr trivial, ?_, ?_, ?_, trivial⟩ <;>
      by_contra hc <;> rw [not_or] at hc <;> omega

theorem aopVerifyParams_returns (E : Env) (v : AoPVerifier) (hpp : GoodParams v.pp) (resp : AoPResponse) :
    (∃ x, aopVerifyParams E v resp = .ok x) ↔
      PositivityPowers (aopChallenge E v.pp v.c3) v.pp.N v.c v.c3 resp.Z3 := by
  obtain ⟨⟨N, G, H⟩, c, cm0, c3⟩ := v
  obtain ⟨hN, hG, hH, hgu, hhu⟩ := hpp
  simp only at hN hG hH hgu hhu ⊢
  obtain ⟨n, rfl⟩ : ∃ n : Nat, N = n := ⟨N.toNat, by omega⟩
  have : NeZero n := ⟨by omega⟩
  unfold aopVerifyParams aopVerifyParams.aopHPow
  simp only [modN_ok, res_ok_bind]
  generalize aopChallenge E ⟨n, G, H⟩ c3 = e
  refine (verifyParam_bind hgu hhu fun _ => verifyParam_bind hgu hhu fun _ => verifyParam_bind hgu hhu fun _ =>
    mulExpMod_bind fun _ => mulExpMod_bind fun _ => mulExpMod_bind fun _ =>
    (bind_returns fun _ _ => mulExpMod_bind fun _ => ok_returns _).trans
      (and_congr_left' (power_bind fun _ => mulExpMod_returns n _ _ _))).trans ?_
  unfold PowerExists PositivityPowers
  simp only [hgu, hhu]
  constructor
  · rintro ⟨h1, h2, h3, k1, k2, k3, ⟨-, h4⟩, -⟩
    refine ⟨?_, ?_, ?_, ?_⟩ <;> by_contra hc <;> rw [not_or] at hc <;> omega
  · rintro ⟨h1, h2, h3, h4⟩
    refine ⟨?_, ?_, ?_, ?_, ?_, ?_, ⟨.inr trivial, ?_⟩, .inr trivial, trivial⟩ <;>
      by_contra hc <;> rw [not_or] at hc <;> omega

theorem rpVerifySetup_returns (v : RPVerifier) (hpp : GoodParams v.pp) (c : Int) (hc : Int.gcd c v.pp.N = 1) (c3 : Int3)
    (cm : Bytes) : ∃ c0 ca, rpVerifySetup v c c3 cm = .ok ⟨v.pp, v.a, v.b, cm, ⟨c0, c3.t0, c3.t1, c3.t2⟩, ca⟩ ∧
      Int.gcd c0 v.pp.N = 1 ∧ Int.gcd ca v.pp.N = 1 := by
  obtain ⟨⟨N, G, H⟩, a, b, cm0, c4, ca⟩ := v
  obtain ⟨hN, hG, hH, hgu, hhu⟩ := hpp
  simp only at hN hG hH hgu hhu hc
  obtain ⟨n, rfl⟩ : ∃ n : Nat, N = n := ⟨N.toNat, by omega⟩
  have : NeZero n := ⟨by omega⟩
  obtain ⟨u, hu⟩ := (isUnit_iff_gcd (N := n) c).2 hc
  have hinv := modInverse_unit c u hu
  obtain ⟨gb, hgb⟩ := bigExp_isSome n G b hgu
  obtain ⟨ga, hga⟩ := bigExp_isSome n G (-a) hgu
  have hc0 : Int.gcd ((((u⁻¹ : (ZMod n)ˣ) : ZMod n).val : Int) * gb % n) n = 1 :=
    gcd_emod_one n _ (gcd_mul_one _ _ _ (gcd_of_unit n _ u⁻¹ (val_cast _).symm) (bigExp_gcd n G b gb hgu hgb))
  have hca : Int.gcd (c * ga % n) n = 1 := gcd_emod_one n _ (gcd_mul_one _ _ _ hc (bigExp_gcd n G (-a) ga hgu hga))
  obtain ⟨ca4, hca4⟩ := bigExp_isSome n (c * ga % n) 4 hca
  refine ⟨_, ca4, ?_, hc0, bigExp_gcd n _ 4 ca4 hca hca4⟩
  simp only [nonNil_some, res_ok_bind, rpVerifySetup, hinv, hgb, hga, modN_ok, Option.getD_some, hca4]

/-- Exactly which values of a range proof make the verifier return: no pointer is nil, `c` has an inverse, and each of
`c1, c2, c3` has an inverse or is only raised to powers that are not negative. On all others it panics. -/
theorem C56_range_returns_iff (E : Env) (v : RPVerifier) (hpp : GoodParams v.pp) (proof : Option RangeProof) :
    (∃ b, rpVerify E v proof = .ok b) ↔ ∃ c c3 cm resp, proof = some ⟨some c, c3, cm, some resp⟩ ∧ Int.gcd c v.pp.N = 1 ∧
      RangePowers (rpChallenge E v.pp v.a v.b c3) v.pp.N c3 resp.Z4 := by
  have key : ∀ c c3 cm resp, Int.gcd c v.pp.N = 1 → ((∃ b, rpVerify E v (some ⟨some c, c3, cm, some resp⟩) = .ok b) ↔
      RangePowers (rpChallenge E v.pp v.a v.b c3) v.pp.N c3 resp.Z4) := by
    intro c c3 cm resp hc
    obtain ⟨c0, ca, hs, h0, h1⟩ := rpVerifySetup_returns v hpp c hc c3 cm
    simp only [rpVerify, nonNil_some, res_ok_bind, hs, rpVerifyResponse]
    rw [bind_returns (C := True) (fun a _ => ok_returns _), and_true]
    exact rpVerifyParams_returns E ⟨v.pp, v.a, v.b, cm, ⟨c0, c3.t0, c3.t1, c3.t2⟩, ca⟩ hpp resp h0 h1
  constructor
  · intro h
    match proof with
    | none => obtain ⟨b, hb⟩ := h; cases hb
    | some ⟨none, _, _, _⟩ => obtain ⟨b, hb⟩ := h; cases hb
    | some ⟨some c, c3, cm, none⟩ =>
      obtain ⟨b, hb⟩ := h
      have := (C56_nil_panics E v ⟨v.pp, 0, [], ⟨0, 0, 0⟩⟩).2.2.1 (some c) c3 cm
      rw [hb] at this
      cases this
    | some ⟨some c, c3, cm, some resp⟩ =>
      have hc : Int.gcd c v.pp.N = 1 := by
        by_contra hc
        obtain ⟨b, hb⟩ := h
        have := C56_bad_commitment_panics E v c hc c3 cm (some resp)
        rw [hb] at this
        cases this
      exact ⟨c, c3, cm, resp, rfl, hc, (key c c3 cm resp hc).1 h⟩
  · rintro ⟨c, c3, cm, resp, rfl, hc, h⟩
    exact (key c c3 cm resp hc).2 h

/-- The same for the argument of positivity. -/
theorem C56_positivity_returns_iff (E : Env) (v : AoPVerifier) (hpp : GoodParams v.pp) (proof : Option ArgOfPositivity) :
    (∃ b, aopVerify E v proof = .ok b) ↔ ∃ c3 cm resp, proof = some ⟨c3, cm, some resp⟩ ∧
      PositivityPowers (aopChallenge E v.pp c3) v.pp.N v.c c3 resp.Z3 := by
  have key : ∀ c3 cm resp, ((∃ b, aopVerify E v (some ⟨c3, cm, some resp⟩) = .ok b) ↔
      PositivityPowers (aopChallenge E v.pp c3) v.pp.N v.c c3 resp.Z3) := by
    intro c3 cm resp
    simp only [aopVerify, nonNil_some, res_ok_bind, aopVerifyResponse]
    rw [bind_returns (C := True) (fun a _ => ok_returns _), and_true]
    exact aopVerifyParams_returns E ⟨v.pp, v.c, cm, c3⟩ hpp resp
  constructor
  · intro h
    match proof with
    | none => obtain ⟨b, hb⟩ := h; cases hb
    | some ⟨_, _, none⟩ => obtain ⟨b, hb⟩ := h; cases hb
    | some ⟨c3, cm, some resp⟩ => exact ⟨c3, cm, resp, rfl, (key c3 cm resp).1 h⟩
  · rintro ⟨c3, cm, resp, rfl, h⟩
    exact (key c3 cm resp).2 h

/-- Hence, if the challenge is not 0, one commitment with a common factor with `N` is enough to make either verifier
panic. -/
theorem C56_bad_square_panics (E : Env) (v : RPVerifier) (w : AoPVerifier) (hv : GoodParams v.pp) (hw : GoodParams w.pp)
    (c : Option Int) (c3 : Int3) (cm : Bytes) (resp : Option RPResponse) (resp' : Option AoPResponse) :
    ((∃ d ∈ [c3.t0, c3.t1, c3.t2], Int.gcd d v.pp.N ≠ 1) → rpChallenge E v.pp v.a v.b c3 ≠ 0 →
      ∀ b, rpVerify E v (some ⟨c, c3, cm, resp⟩) ≠ .ok b) ∧
    ((∃ d ∈ [w.c, c3.t0, c3.t1, c3.t2], Int.gcd d w.pp.N ≠ 1) → aopChallenge E w.pp c3 ≠ 0 →
      ∀ b, aopVerify E w (some ⟨c3, cm, resp'⟩) ≠ .ok b) := by
  constructor
  · rintro ⟨d, hd, hg⟩ he b hb
    obtain ⟨c', c3', cm', r', h, -, h0, h1, h2⟩ := (C56_range_returns_iff E v hv _).1 ⟨b, hb⟩
    cases h
    simp only [List.mem_cons, List.not_mem_nil, or_false] at hd
    rcases hd with rfl | rfl | rfl
    · exact h0.elim hg fun h => he h.1
    · exact h1.elim hg fun h => he h.1
    · exact h2.elim hg fun h => he h.1
  · rintro ⟨d, hd, hg⟩ he b hb
    obtain ⟨c3', cm', r', h, h0, h1, h2, h3⟩ := (C56_positivity_returns_iff E w hw _).1 ⟨b, hb⟩
    cases h
    simp only [List.mem_cons, List.not_mem_nil, or_false] at hd
    rcases hd with rfl | rfl | rfl | rfl
    · exact h3.elim hg fun h => he h
    · exact h0.elim hg fun h => he h.1
    · exact h1.elim hg fun h => he h.1
    · exact h2.elim hg fun h => he h.1

example : GoodParams ⟨35, 4, 9⟩ ∧ (∃ d ∈ [(2 : Int), 5, 3], Int.gcd d 35 ≠ 1) ∧
    rpChallenge pokeEnv ⟨35, 4, 9⟩ 1 8 ⟨2, 5, 3⟩ ≠ 0 ∧ aopChallenge pokeEnv ⟨35, 4, 9⟩ ⟨2, 5, 3⟩ ≠ 0 ∧
    ¬ RangePowers 13 35 ⟨2, 5, 3⟩ ⟨0, 0, 0, 0⟩ ∧ RangePowers 13 35 ⟨2, 4, 3⟩ ⟨0, 7, -2, 0⟩ ∧
    RangePowers 0 35 ⟨2, 5, 3⟩ ⟨0, 7, -2, 0⟩ ∧ PositivityPowers 13 35 2 ⟨2, 4, 3⟩ ⟨1, -1, 0⟩ := by
  refine ⟨good35, by decide, by decide +kernel, by decide +kernel, ?_, ?_, ?_, ?_⟩ <;>
    simp only [RangePowers, PositivityPowers] <;> decide

end Verif.Props
