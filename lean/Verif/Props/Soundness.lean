import Verif.Props.RangeProof
import Verif.Lemmas.Sigma
import Mathlib.Tactic.NormNum
import Mathlib.Tactic.Positivity
import Mathlib.Tactic.Linarith

/-! # Decision logic of the range and positivity verifiers (C80) and what two accepted proofs give (C52, C55) -/

namespace Verif.Props
open Verif.Go Verif.Model Verif.Lemmas Verif.Spec

section
variable {N : Nat} [NeZero N]

/-- The numbers `x` and `y` stand for the residues `u` and are usable as bases. -/
def Stands (u : (ZMod N)ˣ) (x : Int) : Prop := 0 ≤ x ∧ (u : ZMod N) = (x : ZMod N)

/-- Concatenation of the hashes of the numbers. -/
def hashAll (E : Env) (l : List ((ZMod N)ˣ)) : Bytes := (l.map fun u : (ZMod N)ˣ => E.sha256 (natBytes (u : ZMod N).val)).flatten

/-- The challenge of the range proof, from the text that is hashed. -/
def rangeChallenge (E : Env) (G H N a b : Int) (k : Int3) : Nat :=
  setBytes (E.sha256 (ascii "c = (g^x)(h^r), x is non-negative" ++ intString G ++ intString H ++ intString N ++
    intString a ++ intString b ++ intString k.t0 ++ intString k.t1 ++ intString k.t2))

/-- The challenge of the argument of positivity. -/
def positivityChallenge (E : Env) (G H N : Int) (k : Int3) : Nat :=
  setBytes (E.sha256 (ascii "c = (g^x)(h^r), x is non-negative" ++ intString G ++ intString H ++ intString N ++
    intString k.t0 ++ intString k.t1 ++ intString k.t2))

def four (v : Int4) : Fin 4 → Int := ![v.t0, v.t1, v.t2, v.t3]
def three (v : Int3) : Fin 3 → Int := ![v.t0, v.t1, v.t2]

theorem absBytes_rep (u : (ZMod N)ˣ) : absBytes (rep u) = natBytes (u : ZMod N).val := by
  unfold absBytes rep; rw [Int.natAbs_natCast]

theorem rep_nonneg (u : (ZMod N)ˣ) : 0 ≤ rep u := Int.natCast_nonneg _

theorem modN_rep (x : Int) (u : (ZMod N)ˣ) (hu : (u : ZMod N) = (x : ZMod N)) : modN x N = .ok (rep u) := by
  rw [modN_ok, emod_eq_val, ← hu]; rfl

/-! ## C80 -/

/-- The range verifier accepts exactly when the proof's commitment is the list of hashes of the first message that fits the
challenge and the answers. What earlier calls left in the verifier object has no influence. -/
theorem C80_range_decision (E : Env) (v : RPVerifier) (hN : v.pp.N = N) (g h uc : (ZMod N)ˣ) (k : Fin 3 → (ZMod N)ˣ)
    (c : Int) (c3 : Int3) (hg : Stands g v.pp.G) (hh : Stands h v.pp.H) (hc : (uc : ZMod N) = (c : ZMod N))
    (hk : ∀ i, Stands (k i) (three c3 i)) (resp : RPResponse) (cm : Bytes) (f : Fin 4 → (ZMod N)ˣ) (l : (ZMod N)ˣ)
    (fits : RangeFits g h uc v.a v.b k (rangeChallenge E v.pp.G v.pp.H v.pp.N v.a v.b c3) (four resp.Z4) (four resp.T4)
      resp.TAU f l) :
    rpVerify E v (some ⟨some c, c3, cm, some resp⟩) = .ok (decide (cm = hashAll E [f 0, f 1, f 2, f 3, l])) := by
  obtain ⟨⟨N', G, H⟩, a, b, cm0, c40, ca0⟩ := v
  obtain ⟨k0, k1, k2⟩ := c3
  obtain ⟨⟨z0, z1, z2, z3⟩, ⟨t0, t1, t2, t3⟩, tau⟩ := resp
  simp only at hN hg hh fits
  subst hN
  obtain ⟨hv, hsq, hsum⟩ := fits
  have hk0 : Stands (k 0) k0 := hk 0
  have hk1 : Stands (k 1) k1 := hk 1
  have hk2 : Stands (k 2) k2 := hk 2
  have s0 := hsq 0
  have s1 := hsq 1
  have s2 := hsq 2
  simp only [four, Fin.succ_zero_eq_one, Fin.prod_univ_three, Matrix.cons_val_zero, Matrix.cons_val_one,
    Fin.succ_one_eq_two, Matrix.cons_val] at hv s0 s1 s2 hsum
  rw [show (2 : Fin 3).succ = 3 from rfl] at s2 hsum
  simp only [Matrix.cons_val] at s2 hsum
  generalize he : (rangeChallenge E G H (N : Int) a b ⟨k0, k1, k2⟩ : Int) = e at *
  have he' : (rpChallenge E ⟨N, G, H⟩ a b ⟨k0, k1, k2⟩ : Int) = e := he
  have hinv : modInverse c N = some (rep uc⁻¹) := modInverse_unit c uc hc
  have hm0 : modN (rep uc⁻¹ * rep (g ^ b)) N = .ok (rep (uc⁻¹ * g ^ b)) := by rw [modN_ok, rep_mul]
  have hma : modN (c * rep (g ^ (-a))) N = .ok (rep (uc * g ^ (-a))) := by
    apply modN_rep
    push_cast
    rw [← hc, ← rep_cast]
  have hca : bigExp (rep (uc * g ^ (-a))) 4 N = some (rep ((uc * g ^ (-a)) ^ (4 : Int))) :=
    bigExp_rep _ 4 (rep_nonneg _) _ (rep_cast _)
  simp only [rpVerify, nonNil_some, res_ok_bind, rpVerifySetup, hinv, bigExp_rep G _ hg.1 g hg.2, hm0,
    Option.getD_some, hma, hca, rpVerifyResponse, rpVerifyParams, he',
    verifyParam_rep G H _ _ _ _ hg.1 hh.1 (rep_nonneg (uc⁻¹ * g ^ b)) g h _ hg.2 hh.2 (rep_cast _),
    verifyParam_rep G H _ _ _ _ hg.1 hh.1 hk0.1 g h (k 0) hg.2 hh.2 hk0.2,
    verifyParam_rep G H _ _ _ _ hg.1 hh.1 hk1.1 g h (k 1) hg.2 hh.2 hk1.2,
    verifyParam_rep G H _ _ _ _ hg.1 hh.1 hk2.1 g h (k 2) hg.2 hh.2 hk2.2, bigExp_rep H _ hh.1 h hh.2,
    mulExpMod_rep _ G _ hg.1 g hg.2, mulExpMod_rep _ _ _ (rep_nonneg ((uc * g ^ (-a)) ^ (4 : Int))) _ (rep_cast _),
    mulExpMod_rep _ k0 _ hk0.1 (k 0) hk0.2, mulExpMod_rep _ k1 _ hk1.1 (k 1) hk1.2,
    mulExpMod_rep _ k2 _ hk2.1 (k 2) hk2.2]
  congr 1
  rw [decide_eq_decide]
  have e0 : g ^ z0 * h ^ t0 * (uc⁻¹ * g ^ b) ^ (-e) = f 0 := by rw [← hv, zpow_neg, mul_inv_cancel_right]
  have e1 : g ^ z1 * h ^ t1 * k 0 ^ (-e) = f 1 := by rw [← s0, zpow_neg, mul_inv_cancel_right]
  have e2 : g ^ z2 * h ^ t2 * k 1 ^ (-e) = f 2 := by rw [← s1, zpow_neg, mul_inv_cancel_right]
  have e3 : g ^ z3 * h ^ t3 * k 2 ^ (-e) = f 3 := by rw [← s2, zpow_neg, mul_inv_cancel_right]
  have e4 : h ^ tau * g ^ e * ((uc * g ^ (-a)) ^ (4 : Int)) ^ z0 * k 0 ^ (-z1) * k 1 ^ (-z2) * k 2 ^ (-z3) = l := by
    rw [zpow_neg g, show (4 : Int) = ((4 : Nat) : Int) from rfl, zpow_natCast, ← hsum]
    simp only [zpow_neg, mul_assoc]
    rw [mul_left_comm (k 2 ^ z3), mul_left_comm (k 2 ^ z3), mul_inv_cancel, mul_one, mul_left_comm (k 1 ^ z2),
      mul_inv_cancel, mul_one, mul_inv_cancel, mul_one]
  rw [e0, e1, e2, e3, e4]
  simp only [newRPCommitment, absBytes_rep, hashAll, List.map_cons, List.map_nil, List.flatten_cons, List.flatten_nil,
    List.append_nil, List.append_assoc]
  exact eq_comm

/-- The same for the verifier of the argument of positivity. -/
theorem C80_positivity_decision (E : Env) (v : AoPVerifier) (hN : v.pp.N = N) (g h uc : (ZMod N)ˣ)
    (k : Fin 3 → (ZMod N)ˣ) (c3 : Int3) (hg : Stands g v.pp.G) (hh : Stands h v.pp.H) (hc : Stands uc v.c)
    (hk : ∀ i, Stands (k i) (three c3 i)) (resp : AoPResponse) (cm : Bytes) (f : Fin 3 → (ZMod N)ˣ) (l : (ZMod N)ˣ)
    (fits : PositivityFits g h uc k (positivityChallenge E v.pp.G v.pp.H v.pp.N c3) (three resp.Z3) (three resp.T3)
      resp.T f l) :
    aopVerify E v (some ⟨c3, cm, some resp⟩) = .ok (decide (cm = hashAll E [f 0, f 1, f 2, l])) := by
  obtain ⟨⟨N', G, H⟩, c, cm0, c30⟩ := v
  obtain ⟨k0, k1, k2⟩ := c3
  obtain ⟨⟨z0, z1, z2⟩, ⟨t0, t1, t2⟩, tau⟩ := resp
  simp only at hN hg hh hc fits
  subst hN
  obtain ⟨hsq, hsum⟩ := fits
  have hk0 : Stands (k 0) k0 := hk 0
  have hk1 : Stands (k 1) k1 := hk 1
  have hk2 : Stands (k 2) k2 := hk 2
  have s0 := hsq 0
  have s1 := hsq 1
  have s2 := hsq 2
  simp only [three, Fin.prod_univ_three, Matrix.cons_val_zero, Matrix.cons_val_one, Matrix.cons_val] at s0 s1 s2 hsum
  generalize he : (positivityChallenge E G H (N : Int) ⟨k0, k1, k2⟩ : Int) = e at *
  have he' : (aopChallenge E ⟨N, G, H⟩ ⟨k0, k1, k2⟩ : Int) = e := he
  simp only [aopVerify, nonNil_some, res_ok_bind, aopVerifyResponse, aopVerifyParams, aopVerifyParams.aopHPow, he',
    verifyParam_rep G H _ _ _ _ hg.1 hh.1 hk0.1 g h (k 0) hg.2 hh.2 hk0.2,
    verifyParam_rep G H _ _ _ _ hg.1 hh.1 hk1.1 g h (k 1) hg.2 hh.2 hk1.2,
    verifyParam_rep G H _ _ _ _ hg.1 hh.1 hk2.1 g h (k 2) hg.2 hh.2 hk2.2, bigExp_rep H _ hh.1 h hh.2,
    mulExpMod_rep _ G _ hg.1 g hg.2, mulExpMod_rep_one k0 _ hk0.1 (k 0) hk0.2,
    mulExpMod_rep _ k1 _ hk1.1 (k 1) hk1.2, modN_ok, rep_mul,
    mulExpMod_rep _ k2 _ hk2.1 (k 2) hk2.2, mulExpMod_rep _ c _ hc.1 uc hc.2]
  congr 1
  rw [decide_eq_decide]
  have e0 : g ^ z0 * h ^ t0 * k 0 ^ (-e) = f 0 := by rw [← s0, zpow_neg, mul_inv_cancel_right]
  have e1 : g ^ z1 * h ^ t1 * k 1 ^ (-e) = f 1 := by rw [← s1, zpow_neg, mul_inv_cancel_right]
  have e2 : g ^ z2 * h ^ t2 * k 2 ^ (-e) = f 2 := by rw [← s2, zpow_neg, mul_inv_cancel_right]
  have e4 : k 0 ^ z0 * k 1 ^ z1 * k 2 ^ z2 * (h ^ tau * uc ^ (-e * 2 ^ 2)) * g ^ (-e) = l := by
    have : l = h ^ tau * (k 0 ^ z0 * k 1 ^ z1 * k 2 ^ z2) * ((uc ^ 4 * g) ^ e)⁻¹ := by
      rw [← hsum, mul_inv_cancel_right]
    rw [this, mul_zpow, mul_inv, ← zpow_natCast, ← zpow_mul, ← zpow_neg, ← zpow_neg,
      show -(((4 : Nat) : Int) * e) = -e * 2 ^ 2 by push_cast; ring]
    simp only [mul_comm, mul_left_comm, mul_assoc]
  rw [e0, e1, e2, e4]
  simp only [newAoPCommitment, absBytes_rep, hashAll, List.map_cons, List.map_nil, List.flatten_cons, List.flatten_nil,
    List.append_nil, List.append_assoc]
  exact eq_comm

/-- There is a first message for every challenge and every set of answers, so the decision theorems cover every proof with
invertible numbers. -/
theorem C80_first_message_exists (g h uc : (ZMod N)ˣ) (k : Fin 3 → (ZMod N)ˣ) (a b e tau : Int) :
    (∀ z t, ∃ f l, RangeFits g h uc a b k e z t tau f l) ∧ ∀ z t, ∃ f l, PositivityFits g h uc k e z t tau f l := by
  constructor
  · intro z t
    refine ⟨Fin.cons (g ^ z 0 * h ^ t 0 * ((uc⁻¹ * g ^ b) ^ e)⁻¹) fun i => g ^ z i.succ * h ^ t i.succ * (k i ^ e)⁻¹,
      h ^ tau * g ^ e * ((uc * (g ^ a)⁻¹) ^ 4) ^ z 0 * (∏ i, k i ^ z i.succ)⁻¹, ⟨?_, fun i => ?_, ?_⟩⟩
    · rw [Fin.cons_zero, inv_mul_cancel_right]
    · rw [Fin.cons_succ, inv_mul_cancel_right]
    · rw [inv_mul_cancel_right]
  · intro z t
    exact ⟨fun i => g ^ z i * h ^ t i * (k i ^ e)⁻¹, h ^ tau * (∏ i, k i ^ z i) * ((uc ^ 4 * g) ^ e)⁻¹,
      fun i => inv_mul_cancel_right _ _, inv_mul_cancel_right _ _⟩

/-! ## What two accepted proofs give -/

theorem accepts_iff {p q : Prop} [Decidable p] (h : (.ok (decide p) : Res Bool) = .ok true) (hq : p = q) : q := by
  rw [← hq]; simpa using h

/-- Two range proofs with the same commitments and the same first message, accepted for different challenges: either the
two first messages collide under the hash (excluded by `nocol`), or the answers give an explicit relation `g^A h^B = 1`;
if that relation is trivial in `g` and the answers divide, the commitment's power `c^d` is opened to a value in the range.
Missing from `C52_statement`: the code lets the prover choose the first message after the challenge; and the relation and
the division are excluded only by the strong RSA assumption. -/
theorem C52_extraction_partial (E E' : Env) (v : RPVerifier) (hN : v.pp.N = N) (g h uc : (ZMod N)ˣ)
    (k : Fin 3 → (ZMod N)ˣ) (c : Int) (c3 : Int3) (hg : Stands g v.pp.G) (hh : Stands h v.pp.H)
    (hc : (uc : ZMod N) = (c : ZMod N)) (hk : ∀ i, Stands (k i) (three c3 i)) (r r' : RPResponse) (cm : Bytes)
    (f f' : Fin 4 → (ZMod N)ˣ) (l l' : (ZMod N)ˣ) (e e' : Int)
    (he : e = rangeChallenge E v.pp.G v.pp.H v.pp.N v.a v.b c3)
    (he' : e' = rangeChallenge E' v.pp.G v.pp.H v.pp.N v.a v.b c3)
    (fits : RangeFits g h uc v.a v.b k e (four r.Z4) (four r.T4) r.TAU f l)
    (fits' : RangeFits g h uc v.a v.b k e' (four r'.Z4) (four r'.T4) r'.TAU f' l')
    (acc : rpVerify E v (some ⟨some c, c3, cm, some r⟩) = .ok true)
    (acc' : rpVerify E' v (some ⟨some c, c3, cm, some r'⟩) = .ok true)
    (nocol : hashAll E [f 0, f 1, f 2, f 3, l] = hashAll E' [f' 0, f' 1, f' 2, f' 3, l'] → f = f' ∧ l = l')
    (hab : v.a ≤ v.b) (hd : e ≠ e') :
    ∃ A B : Int,
      A = (e - e') * (e - e') +
          4 * (r.Z4.t0 - r'.Z4.t0) * ((v.b - v.a) * (e - e') - (r.Z4.t0 - r'.Z4.t0)) -
        ((r.Z4.t1 - r'.Z4.t1) * (r.Z4.t1 - r'.Z4.t1) + (r.Z4.t2 - r'.Z4.t2) * (r.Z4.t2 - r'.Z4.t2) +
          (r.Z4.t3 - r'.Z4.t3) * (r.Z4.t3 - r'.Z4.t3)) ∧
      B = (r.TAU - r'.TAU) * (e - e') - 4 * (r.Z4.t0 - r'.Z4.t0) * (r.T4.t0 - r'.T4.t0) -
        ((r.Z4.t1 - r'.Z4.t1) * (r.T4.t1 - r'.T4.t1) + (r.Z4.t2 - r'.Z4.t2) * (r.T4.t2 - r'.T4.t2) +
          (r.Z4.t3 - r'.Z4.t3) * (r.T4.t3 - r'.T4.t3)) ∧
      g ^ A * h ^ B = 1 ∧
      ∀ m, A = 0 → r.Z4.t0 - r'.Z4.t0 = (e - e') * m →
        v.a ≤ v.b - m ∧ v.b - m ≤ v.b ∧
        uc ^ (e - e') = g ^ ((v.b - m) * (e - e')) * h ^ (r'.T4.t0 - r.T4.t0) := by
  subst he he'
  rw [C80_range_decision E v hN g h uc k c c3 hg hh hc hk r cm f l fits] at acc
  rw [C80_range_decision E' v hN g h uc k c c3 hg hh hc hk r' cm f' l' fits'] at acc'
  obtain ⟨rfl, rfl⟩ := nocol ((accepts_iff acc rfl).symm.trans (accepts_iff acc' rfl))
  generalize (rangeChallenge E v.pp.G v.pp.H v.pp.N v.a v.b c3 : Int) = e at *
  generalize (rangeChallenge E' v.pp.G v.pp.H v.pp.N v.a v.b c3 : Int) = e' at *
  obtain ⟨k1, k2⟩ := range_extract g h uc v.a v.b k e e' _ _ _ _ _ _ f l fits fits'
  simp only [four, Matrix.cons_val_zero, Matrix.cons_val_one, Matrix.cons_val] at k1 k2
  refine ⟨_, _, rfl, rfl, k2, ?_⟩
  intro m hA hm
  rw [hm] at hA k1
  obtain ⟨h1, h2⟩ := range_of_squares v.a v.b m (e - e') _ hab (sub_ne_zero.2 hd)
    (by nlinarith [mul_self_nonneg (r.Z4.t1 - r'.Z4.t1), mul_self_nonneg (r.Z4.t2 - r'.Z4.t2),
      mul_self_nonneg (r.Z4.t3 - r'.Z4.t3)]) hA
  refine ⟨h1, h2, ?_⟩
  rw [mul_zpow, inv_zpow, ← zpow_mul] at k1
  rw [inv_mul_eq_iff_eq_mul] at k1
  have k3 : uc ^ (e - e') = g ^ (v.b * (e - e')) * (g ^ ((e - e') * m) * h ^ (r.T4.t0 - r'.T4.t0))⁻¹ := by
    rw [k1, mul_inv_cancel_right]
  rw [k3, mul_inv, ← zpow_neg, ← zpow_neg, ← mul_assoc, ← zpow_add]
  congr 2
  · ring
  · ring

/-- Two arguments of positivity with the same commitments and the same first message, accepted for different challenges:
if the sum of squares divides, a power of the commitment is opened to a non-negative value. -/
theorem C55_extraction_partial (E E' : Env) (v : AoPVerifier) (hN : v.pp.N = N) (g h uc : (ZMod N)ˣ)
    (k : Fin 3 → (ZMod N)ˣ) (c3 : Int3) (hg : Stands g v.pp.G) (hh : Stands h v.pp.H) (hc : Stands uc v.c)
    (hk : ∀ i, Stands (k i) (three c3 i)) (r r' : AoPResponse) (cm : Bytes)
    (f f' : Fin 3 → (ZMod N)ˣ) (l l' : (ZMod N)ˣ) (e e' : Int)
    (he : e = positivityChallenge E v.pp.G v.pp.H v.pp.N c3)
    (he' : e' = positivityChallenge E' v.pp.G v.pp.H v.pp.N c3)
    (fits : PositivityFits g h uc k e (three r.Z3) (three r.T3) r.T f l)
    (fits' : PositivityFits g h uc k e' (three r'.Z3) (three r'.T3) r'.T f' l')
    (acc : aopVerify E v (some ⟨c3, cm, some r⟩) = .ok true)
    (acc' : aopVerify E' v (some ⟨c3, cm, some r'⟩) = .ok true)
    (nocol : hashAll E [f 0, f 1, f 2, l] = hashAll E' [f' 0, f' 1, f' 2, l'] → f = f' ∧ l = l') (hd : e ≠ e') :
    ∃ X Y : Int,
      X = (r.Z3.t0 - r'.Z3.t0) ^ 2 + (r.Z3.t1 - r'.Z3.t1) ^ 2 + (r.Z3.t2 - r'.Z3.t2) ^ 2 - (e - e') ^ 2 ∧
      Y = (r.T - r'.T) * (e - e') + ((r.Z3.t0 - r'.Z3.t0) * (r.T3.t0 - r'.T3.t0) +
        (r.Z3.t1 - r'.Z3.t1) * (r.T3.t1 - r'.T3.t1) + (r.Z3.t2 - r'.Z3.t2) * (r.T3.t2 - r'.T3.t2)) ∧
      uc ^ (4 * (e - e') ^ 2) = g ^ X * h ^ Y ∧ ∀ x, X = 4 * (e - e') ^ 2 * x → 0 ≤ x := by
  subst he he'
  rw [C80_positivity_decision E v hN g h uc k c3 hg hh hc hk r cm f l fits] at acc
  rw [C80_positivity_decision E' v hN g h uc k c3 hg hh hc hk r' cm f' l' fits'] at acc'
  obtain ⟨rfl, rfl⟩ := nocol ((accepts_iff acc rfl).symm.trans (accepts_iff acc' rfl))
  generalize (positivityChallenge E v.pp.G v.pp.H v.pp.N c3 : Int) = e at *
  generalize (positivityChallenge E' v.pp.G v.pp.H v.pp.N c3 : Int) = e' at *
  have k1 := positivity_extract g h uc k e e' _ _ _ _ _ _ f l fits fits'
  simp only [three, Matrix.cons_val_zero, Matrix.cons_val_one, Matrix.cons_val] at k1
  refine ⟨_, _, rfl, rfl, ?_, ?_⟩
  · rw [show 4 * (e - e') ^ 2 = 4 * (e - e') * (e - e') by ring, k1]
    congr 2
    ring
  · intro x hx
    have h2 : 0 < (e - e') ^ 2 := by
      have := mul_self_pos.2 (sub_ne_zero.2 hd)
      nlinarith
    by_contra hc
    have : x ≤ -1 := by omega
    nlinarith [sq_nonneg (r.Z3.t0 - r'.Z3.t0), sq_nonneg (r.Z3.t1 - r'.Z3.t1), sq_nonneg (r.Z3.t2 - r'.Z3.t2)]

end

/-- A hash function that differs from `pokeEnv` on long inputs, where it gives 0. -/
def shortEnv : Env :=
  { pokeEnv with
    sha256 := fun m => if m.length ≤ 4 then List.replicate 31 0 ++ [13] else List.replicate 32 0
    sha256_length := fun m => by split <;> rfl }

/-- The unit of `ZMod 35` with the given value and inverse. -/
def u35 (x y : ZMod 35) (h : x * y = 1) : (ZMod 35)ˣ := ⟨x, y, h, by rw [mul_comm]; exact h⟩

/-- The numbers of C50's example, the value 3 in [1, 8], with the challenges 13 and 0. -/
example : ∃ (g h uc : (ZMod 35)ˣ) (k : Fin 3 → (ZMod 35)ˣ) (f : Fin 4 → (ZMod 35)ˣ) (l : (ZMod 35)ˣ),
    Stands g 4 ∧ Stands h 9 ∧ (uc : ZMod 35) = ((29 : Int) : ZMod 35) ∧ (∀ i, Stands (k i) (three ⟨1, 16, 4⟩ i)) ∧
    RangeFits g h uc 1 8 k (rangeChallenge pokeEnv 4 9 35 1 8 ⟨1, 16, 4⟩) (four ⟨65, 78, 26, 13⟩) (four ⟨0, 0, 0, 0⟩) 0
      f l ∧
    RangeFits g h uc 1 8 k (rangeChallenge shortEnv 4 9 35 1 8 ⟨1, 16, 4⟩) (four ⟨0, 0, 0, 0⟩) (four ⟨0, 0, 0, 0⟩) 0
      f l := by
  have e1 : (rangeChallenge pokeEnv 4 9 35 1 8 ⟨1, 16, 4⟩) = 13 := by decide +kernel
  have e2 : (rangeChallenge shortEnv 4 9 35 1 8 ⟨1, 16, 4⟩) = 0 := by decide +kernel
  rw [e1, e2]
  refine ⟨u35 4 9 (by decide), u35 9 4 (by decide), u35 29 29 (by decide),
    ![1, u35 16 11 (by decide), u35 4 9 (by decide)], fun _ => 1, 1, ⟨by decide, by decide⟩, ⟨by decide, by decide⟩,
    by decide, ?_, ?_, ?_⟩
  · intro i
    fin_cases i <;> exact ⟨by decide, by decide⟩
  · constructor
    · decide +kernel
    · decide +kernel
    · decide +kernel
  · constructor
    · decide +kernel
    · decide +kernel
    · decide +kernel

/-- Both proofs are accepted. -/
example : ∀ cm, cm = (List.replicate 5 (pokeEnv.sha256 [1])).flatten →
    rpVerify pokeEnv (newRPVerifier ⟨35, 4, 9⟩ 1 8)
      (some ⟨some 29, ⟨1, 16, 4⟩, cm, some ⟨⟨65, 78, 26, 13⟩, ⟨0, 0, 0, 0⟩, 0⟩⟩) = .ok true ∧
    rpVerify shortEnv (newRPVerifier ⟨35, 4, 9⟩ 1 8)
      (some ⟨some 29, ⟨1, 16, 4⟩, cm, some ⟨⟨0, 0, 0, 0⟩, ⟨0, 0, 0, 0⟩, 0⟩⟩) = .ok true := by
  rintro _ rfl
  decide +kernel

/-- The value 10 with commitment 11, and the challenges 13 and 0. -/
example : ∃ (g h uc : (ZMod 35)ˣ) (k : Fin 3 → (ZMod 35)ˣ) (f : Fin 3 → (ZMod 35)ˣ) (l : (ZMod 35)ˣ),
    Stands g 4 ∧ Stands h 9 ∧ Stands uc 11 ∧ (∀ i, Stands (k i) (three ⟨1, 16, 4⟩ i)) ∧
    PositivityFits g h uc k (positivityChallenge pokeEnv 4 9 35 ⟨1, 16, 4⟩) (three ⟨78, 26, 13⟩) (three ⟨0, 0, 0⟩) 0 f l ∧
    PositivityFits g h uc k (positivityChallenge shortEnv 4 9 35 ⟨1, 16, 4⟩) (three ⟨0, 0, 0⟩) (three ⟨0, 0, 0⟩) 0 f l := by
  have e1 : (positivityChallenge pokeEnv 4 9 35 ⟨1, 16, 4⟩) = 13 := by decide +kernel
  have e2 : (positivityChallenge shortEnv 4 9 35 ⟨1, 16, 4⟩) = 0 := by decide +kernel
  rw [e1, e2]
  refine ⟨u35 4 9 (by decide), u35 9 4 (by decide), u35 11 16 (by decide),
    ![1, u35 16 11 (by decide), u35 4 9 (by decide)], fun _ => 1, 1, ⟨by decide, by decide⟩, ⟨by decide, by decide⟩,
    ⟨by decide, by decide⟩, ?_, ?_, ?_⟩
  · intro i
    fin_cases i <;> exact ⟨by decide, by decide⟩
  · constructor <;> decide +kernel
  · constructor <;> decide +kernel

/-- Both arguments are accepted. -/
example : ∀ cm, cm = (List.replicate 4 (pokeEnv.sha256 [1])).flatten →
    aopVerify pokeEnv (newAoPVerifier ⟨35, 4, 9⟩ 11)
      (some ⟨⟨1, 16, 4⟩, cm, some ⟨⟨78, 26, 13⟩, ⟨0, 0, 0⟩, 0⟩⟩) = .ok true ∧
    aopVerify shortEnv (newAoPVerifier ⟨35, 4, 9⟩ 11)
      (some ⟨⟨1, 16, 4⟩, cm, some ⟨⟨0, 0, 0⟩, ⟨0, 0, 0⟩, 0⟩⟩) = .ok true := by
  rintro _ rfl
  decide +kernel

end Verif.Props
