import Verif.Model.Setup
import Verif.Lemmas.BigInt
import Verif.Lemmas.Bytes
import Verif.Lemmas.Hashes
import Mathlib.FieldTheory.Finite.Basic
import Mathlib.Tactic.NormNum.Prime
import Mathlib.Data.Nat.Size

/-!
# Properties of parameter generation (C22 - C25)
-/

namespace Verif.Props
open Verif.Go Verif.Model Verif.Lemmas

/-- A safe prime: `p` and `(p-1)/2` are prime. -/
def SafePrime (p : Nat) : Prop := p.Prime ∧ ∃ p' : Nat, p'.Prime ∧ p = 2 * p' + 1

/-- `x` is a square modulo `m`. -/
def SquareMod (x m : Int) : Prop := ∃ s : Int, m ∣ s * s - x

/-! ## Lemmas -/

theorem pow_half_of_square (p : Nat) (hp : p.Prime) (hodd : p % 2 = 1) (s x : Int) (h : (p : Int) ∣ s * s - x)
    (hx : Int.gcd x p = 1) (k : Nat) : (p : Int) ∣ x ^ ((p - 1) / 2 * k) - 1 := by
  have : Fact p.Prime := ⟨hp⟩
  rw [← ZMod.intCast_zmod_eq_zero_iff_dvd] at h ⊢
  push_cast at h ⊢
  have hsx : (x : ZMod p) = (s : ZMod p) ^ 2 := by rw [sq]; exact (sub_eq_zero.1 h).symm
  have hx0 : (x : ZMod p) ≠ 0 := by
    intro h0
    rw [ZMod.intCast_zmod_eq_zero_iff_dvd] at h0
    have h1 := Int.dvd_gcd h0 (dvd_refl (p : Int))
    rw [hx] at h1
    have h2 : p ∣ 1 := by exact_mod_cast h1
    exact hp.one_lt.ne' (Nat.dvd_one.1 h2)
  have hs0 : (s : ZMod p) ≠ 0 := by
    intro h0; rw [h0] at hsx; exact hx0 (by rw [hsx]; ring)
  rw [hsx, pow_mul, ← pow_mul (s : ZMod p), show 2 * ((p - 1) / 2) = p - 1 by omega, ZMod.pow_card_sub_one_eq_one hs0, one_pow, sub_self]

/-- C22: for distinct safe primes the number computed by `getOrder` is an exponent of the invertible squares. -/
theorem C22_order_is_exponent (p q : Nat) (hp : SafePrime p) (hq : SafePrime q) (hpq : p ≠ q) (g : Int)
    (hg : Int.gcd g (p * q) = 1) (hs : SquareMod g (p * q)) :
    (p * q : Int) ∣ g ^ (getOrder p q).natAbs - 1 := by
  obtain ⟨hp1, p', hp', hpe⟩ := hp
  obtain ⟨hq1, q', hq', hqe⟩ := hq
  obtain ⟨s, hs⟩ := hs
  have hgp : Int.gcd g p = 1 := by
    have := Int.gcd_dvd_gcd_of_dvd_right g (show (p : Int) ∣ p * q from Dvd.intro _ rfl)
    rw [hg] at this; exact Nat.dvd_one.1 this
  have hgq : Int.gcd g q = 1 := by
    have := Int.gcd_dvd_gcd_of_dvd_right g (show (q : Int) ∣ p * q from Dvd.intro_left _ rfl)
    rw [hg] at this; exact Nat.dvd_one.1 this
  have e1 : (getOrder p q).natAbs = (p - 1) / 2 * ((q - 1) / 2) := by
    have h1 : ((p : Int) - 1) / 2 = ((p - 1) / 2 : Nat) := by omega
    have h2 : ((q : Int) - 1) / 2 = ((q - 1) / 2 : Nat) := by omega
    unfold getOrder
    rw [h1, h2, ← Nat.cast_mul, Int.natAbs_natCast]
  rw [e1]
  have a1 := pow_half_of_square p hp1 (by omega) s g (dvd_trans (Dvd.intro _ rfl) hs) hgp ((q - 1) / 2)
  have a2 := pow_half_of_square q hq1 (by omega) s g (dvd_trans (Dvd.intro_left _ rfl) hs) hgq ((p - 1) / 2)
  rw [mul_comm] at a2
  have hcop : IsCoprime (p : Int) (q : Int) := by
    rw [Nat.isCoprime_iff_coprime]
    exact (Nat.coprime_primes hp1 hq1).2 hpq
  exact hcop.mul_dvd a1 a2

example : SafePrime 7 ∧ SafePrime 11 ∧ Int.gcd 4 (7 * 11) = 1 ∧ SquareMod 4 (7 * 11) ∧ getOrder 7 11 = 15 :=
  ⟨⟨by norm_num, 3, by norm_num, by norm_num⟩, ⟨by norm_num, 5, by norm_num, by norm_num⟩, by decide, ⟨2, by norm_num⟩,
    by decide⟩

theorem jacobi_one_iff (p : Nat) (hp : p.Prime) (x : Int) :
    jacobiSym x p = 1 ↔ Int.gcd x p = 1 ∧ SquareMod x p := by
  have : Fact p.Prime := ⟨hp⟩
  rw [← jacobiSym.legendreSym.to_jacobiSym]
  have hgcd : Int.gcd x p = 1 ↔ (x : ZMod p) ≠ 0 := by
    rw [Ne, ZMod.intCast_zmod_eq_zero_iff_dvd, ← Int.isCoprime_iff_gcd_eq_one]
    rw [isCoprime_comm]
    exact (Nat.prime_iff_prime_int.1 hp).coprime_iff_not_dvd
  have hsq : SquareMod x p ↔ IsSquare (x : ZMod p) := by
    constructor
    · rintro ⟨s, hs⟩
      rw [← ZMod.intCast_zmod_eq_zero_iff_dvd] at hs
      push_cast at hs
      exact ⟨s, (sub_eq_zero.1 hs).symm⟩
    · rintro ⟨r, hr⟩
      refine ⟨(r.val : Int), ?_⟩
      rw [← ZMod.intCast_zmod_eq_zero_iff_dvd]
      push_cast
      rw [ZMod.natCast_zmod_val, hr, sub_self]
  rw [hgcd, hsq]
  constructor
  · intro h
    have h0 : (x : ZMod p) ≠ 0 := by
      intro h0
      rw [(legendreSym.eq_zero_iff p x).2 h0] at h; cases h
    exact ⟨h0, (legendreSym.eq_one_iff p h0).1 h⟩
  · rintro ⟨h0, h1⟩
    exact (legendreSym.eq_one_iff p h0).2 h1

/-- C23: for odd primes `isQR` never panics and accepts exactly the invertible squares modulo `p*q`. -/
theorem C23_isQR (p q : Nat) (hp : p.Prime) (hq : q.Prime) (hp2 : p ≠ 2) (hq2 : q ≠ 2) (hpq : p ≠ q) (x : Int) :
    ∃ b, isQR x p q = .ok b ∧ (b = true ↔ Int.gcd x (p * q) = 1 ∧ SquareMod x (p * q)) := by
  have hpo : p % 2 ≠ 0 := by have := hp.eq_two_or_odd; omega
  have hqo : q % 2 ≠ 0 := by have := hq.eq_two_or_odd; omega
  have hcop : IsCoprime (p : Int) (q : Int) := by
    rw [Nat.isCoprime_iff_coprime]
    exact (Nat.coprime_primes hp hq).2 hpq
  have hsq : SquareMod x (p * q) ↔ SquareMod x p ∧ SquareMod x q := by
    constructor
    · rintro ⟨s, hs⟩
      exact ⟨⟨s, dvd_trans (Dvd.intro _ rfl) hs⟩, ⟨s, dvd_trans (Dvd.intro_left _ rfl) hs⟩⟩
    · rintro ⟨⟨s, hs⟩, ⟨t, ht⟩⟩
      obtain ⟨a, b, hab⟩ := id hcop
      -- `s` modulo `p` and `t` modulo `q`
      refine ⟨s * (b * q) + t * (a * p), hcop.mul_dvd ?_ ?_⟩
      · have : (s * (b * q) + t * (a * p)) * (s * (b * q) + t * (a * p)) - x =
            (s * s - x) + p * (a * (t - s) * (2 * s + (t - s) * (a * p))) := by
          have hb : b * q = 1 - a * p := by linarith
          rw [hb]; ring
        rw [this]
        exact dvd_add hs (Dvd.intro _ rfl)
      · have : (s * (b * q) + t * (a * p)) * (s * (b * q) + t * (a * p)) - x =
            (t * t - x) + q * (b * (s - t) * (2 * t + (s - t) * (b * q))) := by
          have hb : a * p = 1 - b * q := by linarith
          rw [hb]; ring
        rw [this]
        exact dvd_add ht (Dvd.intro _ rfl)
  have hg : Int.gcd x (p * q) = 1 ↔ Int.gcd x p = 1 ∧ Int.gcd x q = 1 := by
    simp only [← Int.isCoprime_iff_gcd_eq_one]
    exact IsCoprime.mul_right_iff
  unfold isQR bigJacobi
  rw [if_neg hpo, if_neg hqo]
  simp only [bind, Except.bind]
  by_cases hJ : jacobiSym x p = 1
  · rw [if_pos hJ]
    refine ⟨_, rfl, ?_⟩
    rw [decide_eq_true_iff, jacobi_one_iff q hq]
    rw [jacobi_one_iff p hp] at hJ
    rw [hsq, hg]
    tauto
  · rw [if_neg hJ]
    refine ⟨_, rfl, ?_⟩
    rw [jacobi_one_iff p hp] at hJ
    rw [hsq, hg]
    constructor
    · intro h; cases h
    · intro h; exact absurd ⟨h.1.1, h.2.1⟩ hJ

example : isQR 4 7 11 = .ok true ∧ isQR 2 7 11 = .ok false ∧ isQR 7 7 11 = .ok false := by decide +kernel

/-! ## C24 (sieve part violated) -/

theorem getSuitablePrime_spec (test : Nat → Bool) (cand : Nat → Nat) (fuel pos r pos' : Nat)
    (h : getSuitablePrime test cand fuel pos = some (r, pos')) : (∃ i, r = cand i) ∧ test r = true := by
  induction fuel generalizing pos with
  | zero => cases h
  | succ fuel ih =>
    rw [getSuitablePrime] at h
    split at h
    · exact ih _ h
    · split at h
      · exact ih _ h
      · rename_i ht
        injection h with h
        injection h with h1 h2
        subst h1
        exact ⟨⟨pos, rfl⟩, by simpa using ht⟩

theorem getSafePrime_spec (test : Nat → Bool) (cand : Nat → Nat) (fuel pos r pos' : Nat)
    (h : getSafePrime test cand fuel pos = some (r, pos')) :
    ∃ i, r = 2 * cand i + 1 ∧ test (cand i) = true ∧ test r = true := by
  induction fuel generalizing pos with
  | zero => cases h
  | succ fuel ih =>
    rw [getSafePrime] at h
    split at h
    · cases h
    · rename_i s pos'' hs
      obtain ⟨⟨i, rfl⟩, ht⟩ := getSuitablePrime_spec _ _ _ _ _ _ hs
      dsimp only at h
      split at h
      · exact ih _ h
      · rename_i ht2
        injection h with h
        injection h with h1 h2
        subst h1
        exact ⟨i, by omega, ht, by simpa using ht2⟩

/-- The sieve as the comment in the code describes it. -/
def sieveSpec (x : Int) : Prop := ∀ r ∈ [3, 5, 7, 11, 13, 17, 19, 23, 29, 31, 37], ¬ (r : Int) ∣ 2 * x + 1

/-- C24 as stated: results are safe primes of 1024 bits, and the sieve rejects exactly the numbers `x` for which
`2x+1` has a small factor. -/
def C24_statement : Prop :=
  (∀ (test : Nat → Bool) (cand : Nat → Nat) (fuel pos r pos' : Nat), (∀ i, (cand i).size = 1023) →
    getSafePrime test cand fuel pos = some (r, pos') →
      r.size = 1024 ∧ test r = true ∧ test ((r - 1) / 2) = true) ∧
  ∀ x : Int, safePrimeSieve x = true ↔ sieveSpec x

/-- The sieve lets everything through. -/
theorem C24_sieve_accepts_everything (x : Int) : safePrimeSieve x = true := by
  unfold safePrimeSieve testRemainder
  simp

/-- The code violates C24: the sieve accepts 7, although 2*7+1 is divisible by 3 and 5. -/
theorem C24_violated : ¬ C24_statement := by
  intro h
  have := (h.2 7).1 (C24_sieve_accepts_everything 7) 3 (by decide)
  exact this (by decide)

/-- What holds: every number returned has one bit more than the candidates (1023 in the code, so 1024), passes the
test, and so does its half. -/
theorem C24_getSafePrime_partial (test : Nat → Bool) (cand : Nat → Nat) (fuel pos r pos' b : Nat)
    (hsize : ∀ i, (cand i).size = b) (h : getSafePrime test cand fuel pos = some (r, pos')) :
    r.size = b + 1 ∧ test r = true ∧ test ((r - 1) / 2) = true ∧ r = 2 * ((r - 1) / 2) + 1 := by
  obtain ⟨i, rfl, h1, h2⟩ := getSafePrime_spec _ _ _ _ _ _ h
  have hs : (2 * cand i + 1).size = b + 1 := by
    have h0 : Nat.bit true (cand i) = 2 * cand i + 1 := rfl
    rw [← h0, Nat.size_bit (by rw [h0]; omega), hsize i]
  refine ⟨hs, h2, ?_, ?_⟩
  · rw [show (2 * cand i + 1 - 1) / 2 = cand i by omega]; exact h1
  · omega

/-- C24, the comment's congruence: `x = (r-1)/2 mod r` holds exactly if the odd number `r` divides `2x+1`. So the
comparison that the code computes and ignores is the right one. -/
theorem C24_congruence (x r : Int) (hr : 0 < r) (hodd : r % 2 = 1) : x % r = (r - 1) / 2 ↔ r ∣ 2 * x + 1 := by
  have h1 := Int.emod_nonneg x (show r ≠ 0 by omega)
  have h2 := Int.emod_lt_of_pos x hr
  have h3 := Int.emod_add_mul_ediv x r
  constructor
  · intro h
    rw [h] at h3
    refine ⟨2 * (x / r) + 1, ?_⟩
    have : 2 * ((r - 1) / 2) = r - 1 := by omega
    linear_combination (-2) * h3 + this
  · intro h
    have hd : r ∣ 2 * (x % r) + 1 := by
      have : 2 * (x % r) + 1 = (2 * x + 1) - r * (2 * (x / r)) := by linear_combination 2 * h3
      rw [this]
      exact dvd_sub h (Dvd.intro _ rfl)
    obtain ⟨k, hk⟩ := hd
    have hk1 : k = 1 := by
      have a : 0 < k := by
        by_contra hneg
        have : r * k ≤ 0 := Int.mul_nonpos_of_nonneg_of_nonpos hr.le (by omega)
        omega
      have b : k < 2 := by
        by_contra hneg
        have : r * 2 ≤ r * k := Int.mul_le_mul_of_nonneg_left (by omega) hr.le
        omega
      omega
    subst hk1
    omega

example : getSafePrime (fun n => decide (n = 5 ∨ n = 11)) (fun i => i + 3) 4 0 = some (11, 3) := by decide

/-! ## C22, C23 and C24 together: `TrustedSetupForQRN` -/

theorem getRanQR_spec (rnd : Nat → Nat) (p q fuel pos g : Nat) (h : getRanQR rnd p q fuel pos = Run.ok g) :
    isQR g p q = .ok true := by
  induction fuel generalizing pos with
  | zero => cases h
  | succ fuel ih =>
    rw [getRanQR] at h
    obtain ⟨flag, hf, h⟩ := (run_bind_ok_iff _ _ _).1 h
    rw [liftRes_ok_iff] at hf
    cases flag with
    | false => exact ih _ h
    | true =>
      have := run_ok_inj h
      rw [← this]; exact hf

/-- If the primality test is sound, the two primes differ and the candidates have `b` bits (1023 in the code), the generated parameters are: a product of two safe
primes, an invertible square `g`, and `h = g^r mod N`, where `r` is the full random number. -/
theorem C22_trustedSetupForQRN (test : Nat → Bool) (cand rnd : Nat → Nat) (r fuel : Nat) (N g p q b : Nat) (h : Int)
    (hsound : ∀ n, test n = true → n.Prime) (hpq : p ≠ q) (hsize : ∀ i, (cand i).size = b)
    (hrun : trustedSetupForQRN test cand rnd r fuel = Run.ok (N, g, h, p, q)) :
    N = p * q ∧ SafePrime p ∧ SafePrime q ∧ p.size = b + 1 ∧ q.size = b + 1 ∧
    Int.gcd g N = 1 ∧ SquareMod g N ∧ (N : Int) ∣ h - (g : Int) ^ r ∧ 0 ≤ h ∧ h < N := by
  unfold trustedSetupForQRN at hrun
  obtain ⟨⟨p0, pos1⟩, hp, hrun⟩ := (run_bind_ok_iff _ _ _).1 hrun
  obtain ⟨⟨q0, pos2⟩, hq, hrun⟩ := (run_bind_ok_iff _ _ _).1 hrun
  obtain ⟨g0, hg, hrun⟩ := (run_bind_ok_iff _ _ _).1 hrun
  rw [liftLoop_ok_iff] at hp hq
  have hrun := run_ok_inj hrun
  simp only [Prod.mk.injEq] at hrun
  obtain ⟨rfl, rfl, hh, rfl, rfl⟩ := hrun
  have hsafe : ∀ p pos pos', getSafePrime test cand fuel pos = some (p, pos') →
      SafePrime p ∧ p.size = b + 1 ∧ p ≠ 2 := by
    intro p pos pos' hp
    obtain ⟨h1, h2, h3, h4⟩ := C24_getSafePrime_partial _ _ _ _ _ _ _ hsize hp
    refine ⟨⟨hsound _ h2, _, hsound _ h3, h4⟩, h1, ?_⟩
    have := (hsound _ h3).two_le
    omega
  obtain ⟨sp, szp, p2⟩ := hsafe _ _ _ hp
  obtain ⟨sq, szq, q2⟩ := hsafe _ _ _ hq
  obtain ⟨bb, hb1, hb2⟩ := C23_isQR p0 q0 sp.1 sq.1 p2 q2 hpq g0
  rw [getRanQR_spec _ _ _ _ _ _ hg] at hb1
  injection hb1 with hb1
  obtain ⟨hgc, hsq⟩ := hb2.1 hb1.symm
  have : NeZero (p0 * q0) := ⟨Nat.mul_ne_zero sp.1.ne_zero sq.1.ne_zero⟩
  have hord : 0 < getOrder p0 q0 := by
    unfold getOrder
    have h1 := sp.1.two_le; have h2 := sq.1.two_le
    have h3 : (0 : Int) < ((p0 : Int) - 1) / 2 := by omega
    have h4 : (0 : Int) < ((q0 : Int) - 1) / 2 := by omega
    positivity
  have hnn : 0 ≤ (r : Int) % getOrder p0 q0 := Int.emod_nonneg _ hord.ne'
  rw [bigExp_nonneg (N := p0 * q0) _ _ hnn] at hh
  simp only [Option.getD_some] at hh
  refine ⟨rfl, sp, sq, szp, szq, by push_cast; exact hgc, by push_cast; exact hsq, ?_, ?_, ?_⟩
  · rw [← ZMod.intCast_zmod_eq_zero_iff_dvd, ← hh]
    push_cast
    rw [ZMod.natCast_zmod_val, sub_eq_zero]
    have hexp := C22_order_is_exponent p0 q0 sp sq hpq g0 hgc hsq
    have hexp' : ((g0 : Nat) : ZMod (p0 * q0)) ^ (getOrder p0 q0).natAbs = 1 := by
      have h1 : ((p0 * q0 : Nat) : Int) ∣ (g0 : Int) ^ (getOrder p0 q0).natAbs - 1 := by push_cast; exact hexp
      rw [← ZMod.intCast_zmod_eq_zero_iff_dvd] at h1
      push_cast at h1
      exact sub_eq_zero.1 h1
    have hr : r = ((r : Int) % getOrder p0 q0).natAbs + (getOrder p0 q0).natAbs * (r / (getOrder p0 q0).natAbs) := by
      have h1 : getOrder p0 q0 = ((getOrder p0 q0).natAbs : Int) := by omega
      have h2 : ((r : Int) % getOrder p0 q0).natAbs = r % (getOrder p0 q0).natAbs := by
        conv_lhs => rw [h1]
        rw [← Int.natCast_mod, Int.natAbs_natCast]
      rw [h2, Nat.mod_add_div]
    conv_rhs => rw [hr, pow_add, pow_mul, hexp', one_pow, mul_one]
  · rw [← hh]; positivity
  · rw [← hh]; exact val_lt_int _

example : (trustedSetupForQRN (fun n => n == 2 || n == 3 || n == 5 || n == 7) (fun i => if i = 0 then 2 else 3)
    (fun i => i + 2) 17 5).run = some (.ok (35, 4, 9, 5, 7)) := by decide +kernel

/-! ## C25 -/

/-- C25: the built-in parameters. -/
theorem C25_trusted_parameters :
    trustedSetup = ((n2048 : Int), (g2048 : Int), (h2048 : Int)) ∧
    2 ^ 2047 ≤ n2048 ∧ n2048 < 2 ^ 2048 ∧ n2048 % 2 = 1 ∧
    1 < g2048 ∧ g2048 < n2048 ∧ 1 < h2048 ∧ h2048 < n2048 ∧
    Nat.gcd g2048 n2048 = 1 ∧ Nat.gcd h2048 n2048 = 1 := by
  refine ⟨?_, ?_⟩
  · unfold trustedSetup
    rw [setString_itoa, setString_itoa, setString_itoa]; rfl
  · decide +kernel

/-- C25, consequence: powers of `G` and `H` are defined for every exponent, also negative ones. -/
theorem C25_all_exponents (e : Int) :
    (∃ r, bigExp g2048 e n2048 = some r ∧ 0 < r ∧ r < n2048) ∧
    ∃ r, bigExp h2048 e n2048 = some r ∧ 0 < r ∧ r < n2048 := by
  have : NeZero n2048 := ⟨by decide +kernel⟩
  have : Fact (1 < n2048) := ⟨by decide +kernel⟩
  have key : ∀ x : Nat, Nat.gcd x n2048 = 1 → ∃ r, bigExp x e n2048 = some r ∧ 0 < r ∧ r < n2048 := by
    intro x hx
    have hu : IsUnit ((x : Int) : ZMod n2048) := by
      rw [isUnit_iff_gcd]; exact_mod_cast hx
    obtain ⟨u, hu⟩ := hu
    refine ⟨_, bigExp_unit (N := n2048) x e (by omega) u hu, ?_, val_lt_int _⟩
    have : ((↑(u ^ e) : ZMod n2048)).val ≠ 0 := by
      rw [Ne, ZMod.val_eq_zero]
      exact (u ^ e).ne_zero
    omega
  have h := C25_trusted_parameters.2
  exact ⟨key _ h.2.2.2.2.2.2.2.1, key _ h.2.2.2.2.2.2.2.2⟩

end Verif.Props
