import Mathlib.RingTheory.RootsOfUnity.PrimitiveRoots
import Verif.Props.HidingCommit

/-! # Property C109: what `g` and `h` of `TrustedSetupForQRN` generate -/

namespace Verif.Props
open Verif.Go Verif.Model Verif.Lemmas Verif.Spec

/-- Every invertible square modulo `N` is a power of `g`. -/
def GeneratesSquares (N g : Int) : Prop :=
  ∀ y : Int, Int.gcd y N = 1 → SquareMod y N → ∃ k, IsPower N g k (y % N)

/-- C109: the two numbers printed by the setup generate the squares. -/
def C109_statement : Prop :=
  ∀ (pp : PublicParameters) (p q b : Nat), FromSetup pp p q b → GeneratesSquares pp.N pp.G ∧ GeneratesSquares pp.N pp.H

/-- Modulo a safe prime every square that is not 1 generates the squares. -/
theorem square_power (p p' : Nat) (hp : p.Prime) (hp' : p'.Prime) (e : p = 2 * p' + 1) (g y : Int) (hg : Int.gcd g p = 1)
    (hgs : SquareMod g p) (hg1 : ¬ (p : Int) ∣ g - 1) (hy : Int.gcd y p = 1) (hys : SquareMod y p) :
    (p : Int) ∣ g ^ p' - 1 ∧ ∃ i : Nat, (p : Int) ∣ g ^ i - y := by
  have : Fact p.Prime := ⟨hp⟩
  obtain ⟨s, hs⟩ := hgs
  obtain ⟨t, ht⟩ := hys
  have e1 : (p - 1) / 2 * 1 = p' := by omega
  have h1 := pow_half_of_square p hp (by omega) s g hs hg 1
  have h2 := pow_half_of_square p hp (by omega) t y ht hy 1
  rw [e1] at h1 h2
  refine ⟨h1, ?_⟩
  rw [← ZMod.intCast_zmod_eq_zero_iff_dvd] at h1 h2 hg1
  push_cast at h1 h2 hg1
  have hprim : IsPrimitiveRoot (g : ZMod p) p' := by
    have : Fact p'.Prime := ⟨hp'⟩
    have ho := orderOf_eq_prime (sub_eq_zero.1 h1) (fun h => hg1 (sub_eq_zero.2 h))
    rw [← ho]
    exact IsPrimitiveRoot.orderOf _
  have : NeZero p' := ⟨hp'.ne_zero⟩
  obtain ⟨i, -, hi⟩ := hprim.eq_pow_of_pow_eq_one (sub_eq_zero.1 h2)
  refine ⟨i, ?_⟩
  rw [← ZMod.intCast_zmod_eq_zero_iff_dvd]
  push_cast
  rw [hi, sub_self]

theorem gcd_left {x p q : Int} (h : Int.gcd x (p * q) = 1) : Int.gcd x p = 1 := by
  have := Int.gcd_dvd_gcd_of_dvd_right x (show p ∣ p * q from Dvd.intro _ rfl)
  rw [h] at this; exact Nat.dvd_one.1 this

theorem squareMod_left {x p q : Int} (h : SquareMod x (p * q)) : SquareMod x p := by
  obtain ⟨s, hs⟩ := h
  exact ⟨s, dvd_trans (Dvd.intro _ rfl) hs⟩

theorem dvd_pow_of_mod {m g y : Int} {o i k : Nat} (ho : m ∣ g ^ o - 1) (hi : m ∣ g ^ i - y) (hk : k ≡ i [MOD o]) :
    m ∣ g ^ k - y := by
  have ho' : g ^ o ≡ 1 [ZMOD m] := (Int.modEq_iff_dvd.2 ho).symm
  have key : ∀ a : Nat, g ^ a ≡ g ^ (a % o) [ZMOD m] := by
    intro a
    have h1 := (ho'.pow (a / o)).mul_left (g ^ (a % o))
    rw [one_pow, mul_one, ← pow_mul, ← pow_add, Nat.mod_add_div] at h1
    exact h1
  have h2 : g ^ k ≡ g ^ i [ZMOD m] := by
    have h3 := key k
    rw [show k % o = i % o from hk] at h3
    exact h3.trans (key i).symm
  exact Int.modEq_iff_dvd.1 ((Int.modEq_iff_dvd.2 hi).trans h2.symm)

/-- For a product of two safe primes, a square `g` generates the squares exactly if `g - 1` is invertible. -/
theorem generates_iff (p q : Nat) (hp : SafePrime p) (hq : SafePrime q) (hpq : p ≠ q) (g : Int)
    (hg : Int.gcd g (p * q) = 1) (hs : SquareMod g (p * q)) :
    GeneratesSquares (p * q) g ↔ Int.gcd (g - 1) (p * q) = 1 := by
  have hp1 := hp.1
  have hq1 := hq.1
  obtain ⟨-, p', hp', ep⟩ := hp
  obtain ⟨-, q', hq', eq⟩ := hq
  have hpq' : p' ≠ q' := by omega
  have hcop : IsCoprime (p : Int) (q : Int) := by
    rw [Nat.isCoprime_iff_coprime]
    exact (Nat.coprime_primes hp1 hq1).2 hpq
  have hN : (1 : Int) ≤ p * q := by
    have h1 := hp1.pos
    have h2 := hq1.pos
    exact_mod_cast Nat.mul_pos h1 h2
  constructor
  · intro h
    have h4 : Int.gcd 4 (p * q) = 1 := by
      rw [show (4 : Int) = 2 ^ 2 by norm_num]
      have : IsCoprime (2 : Int) (p * q) := by
        refine IsCoprime.mul_right ?_ ?_
        · exact ⟨-p', 1, by rw [ep]; push_cast; ring⟩
        · exact ⟨-q', 1, by rw [eq]; push_cast; ring⟩
      exact Int.isCoprime_iff_gcd_eq_one.1 this.pow_left
    obtain ⟨k, hk⟩ := h 4 h4 ⟨2, by norm_num⟩
    have no3 : ∀ r r' : Nat, r.Prime → r'.Prime → r = 2 * r' + 1 → ¬ (r : Int) ∣ 3 := by
      intro r r' hr hr' e hd
      have h1 : r ∣ 3 := by exact_mod_cast hd
      have h2 := (Nat.prime_dvd_prime_iff_eq hr Nat.prime_three).1 h1
      have := hr'.two_le
      omega
    have key : ∀ r : Nat, r.Prime → (r : Int) ∣ p * q → ¬ (r : Int) ∣ 3 → ¬ (r : Int) ∣ g - 1 := by
      intro r hr hd h3 h1
      have hg1 : ∀ j : Nat, (r : Int) ∣ g ^ j - 1 := fun j => dvd_trans h1 (by simpa using sub_dvd_pow_sub_pow g 1 j)
      have h4m : (r : Int) ∣ 4 % (p * q) - 4 := dvd_trans hd (by
        have := Int.emod_add_mul_ediv 4 ((p : Int) * q)
        exact ⟨-(4 / (p * q)), by linarith⟩)
      obtain ⟨-, -, hk⟩ := hk
      refine h3 ?_
      split at hk
      · have h5 := dvd_trans hd hk
        have h6 := hg1 k.toNat
        have h7 := dvd_sub h6 h5
        have h8 := dvd_sub h7 h4m
        rw [show g ^ k.toNat - 1 - (g ^ k.toNat - 4 % (p * q)) - (4 % (p * q) - 4) = 3 by ring] at h8
        exact h8
      · have h5 := dvd_trans hd hk
        have h6 := hg1 (-k).toNat
        have h7 := dvd_sub h5 (Dvd.dvd.mul_left h6 (4 % (p * q)))
        have h8 := dvd_sub h7 h4m
        rw [show 4 % ((p : Int) * q) * g ^ (-k).toNat - 1 - 4 % (p * q) * (g ^ (-k).toNat - 1) - (4 % (p * q) - 4) = 3 by
          ring] at h8
        exact h8
    have a1 := key p hp1 (Dvd.intro _ rfl) (no3 p p' hp1 hp' ep)
    have a2 := key q hq1 (Dvd.intro_left _ rfl) (no3 q q' hq1 hq' eq)
    rw [← Int.isCoprime_iff_gcd_eq_one]
    refine IsCoprime.mul_right ?_ ?_
    · exact ((Nat.prime_iff_prime_int.1 hp1).coprime_iff_not_dvd.2 a1).symm
    · exact ((Nat.prime_iff_prime_int.1 hq1).coprime_iff_not_dvd.2 a2).symm
  · intro h y hy hys
    have one : ∀ r : Nat, r.Prime → (r : Int) ∣ p * q → ¬ (r : Int) ∣ g - 1 := by
      intro r hr hd h1
      have h2 := Int.dvd_gcd h1 hd
      rw [h] at h2
      have h3 : r ∣ 1 := by exact_mod_cast h2
      exact hr.one_lt.ne' (Nat.dvd_one.1 h3)
    obtain ⟨o1, i, hi⟩ := square_power p p' hp1 hp' ep g y (gcd_left hg) (squareMod_left hs) (one p hp1 (Dvd.intro _ rfl))
      (gcd_left hy) (squareMod_left hys)
    rw [mul_comm] at hg hs hy hys
    obtain ⟨o2, j, hj⟩ := square_power q q' hq1 hq' eq g y (gcd_left hg) (squareMod_left hs) (one q hq1 (Dvd.intro_left _ rfl))
      (gcd_left hy) (squareMod_left hys)
    obtain ⟨k, hk1, hk2⟩ := Nat.chineseRemainder ((Nat.coprime_primes hp' hq').2 hpq') i j
    have hd := hcop.mul_dvd (dvd_pow_of_mod o1 hi hk1) (dvd_pow_of_mod o2 hj hk2)
    refine ⟨k, Int.emod_nonneg _ (by omega), Int.emod_lt_of_pos _ (by omega), ?_⟩
    rw [if_pos (by omega), Int.toNat_natCast]
    have := Int.emod_add_mul_ediv y ((p : Int) * q)
    have h2 : g ^ k - y % (p * q) = (g ^ k - y) + p * q * (y / (p * q)) := by linarith
    rw [h2]
    exact dvd_add hd (Dvd.intro _ rfl)

/-! ## The setup -/

theorem setup_facts {pp : PublicParameters} {p q b : Nat} (hs : FromSetup pp p q b) :
    SafePrime p ∧ SafePrime q ∧ pp.N = p * q ∧ Int.gcd pp.G (p * q) = 1 ∧ SquareMod pp.G (p * q) ∧
      ∃ r : Nat, pp.N ∣ pp.H - pp.G ^ r ∧ 0 ≤ pp.H ∧ pp.H < pp.N := by
  obtain ⟨hpq, test, cand, rnd, r, fuel, N, g, hsound, hsize, hr, hrb, hrun, hN, hG⟩ := hs
  obtain ⟨rfl, hp, hq, -, -, hg, hsq, hh, h0, h1⟩ := C22_trustedSetupForQRN _ _ _ _ _ _ _ _ _ _ _ hsound hpq hsize hrun
  rw [hN, hG]
  push_cast at hg hsq hh h1 ⊢
  exact ⟨hp, hq, rfl, hg, hsq, r, hh, h0, h1⟩

/-- A power of a power. -/
theorem power_trans {n : Nat} [NeZero n] {A B k j c : Int} (hA : IsUnit (A : ZMod n)) (h1 : IsPower n A k (B % n))
    (h2 : IsPower n B j c) : IsPower n A (k * j) c := by
  obtain ⟨a, ha⟩ := hA
  rw [isPower_iff] at h1 h2 ⊢
  refine ⟨fun _ => ⟨a, ha⟩, ?_⟩
  have h3 : (B : ZMod n) = ((a ^ k : (ZMod n)ˣ) : ZMod n) := by
    have := h1.2
    rw [emod_eq_val, ← ha, gpow_unit] at this
    exact ZMod.val_injective n (by exact_mod_cast this)
  rw [h2.2, h3, gpow_unit, ← ha, gpow_unit, zpow_mul]

/-- C109 holds exactly if `g - 1` is invertible, both for `g` and for `h`. -/
theorem C109_iff_partial (pp : PublicParameters) (p q b : Nat) (hs : FromSetup pp p q b) :
    (GeneratesSquares pp.N pp.G ↔ Int.gcd (pp.G - 1) pp.N = 1) ∧ (GeneratesSquares pp.N pp.H ↔ Int.gcd (pp.G - 1) pp.N = 1) := by
  obtain ⟨hp, hq, hN, hg, hsq, r, hr, h0, h1⟩ := setup_facts hs
  have first := generates_iff p q hp hq hs.differ pp.G hg hsq
  rw [← hN] at first
  refine ⟨first, Iff.trans ⟨?_, ?_⟩ first⟩ <;> obtain ⟨p', q', -, -, -, -, -, hb⟩ := setup_bases hs <;>
    obtain ⟨N, G, H⟩ := pp <;> have hN1 : 1 ≤ N := hb.good.modulus <;>
    obtain ⟨n, rfl⟩ : ∃ n : Nat, N = n := ⟨N.toNat, by omega⟩ <;>
    have : NeZero n := ⟨by omega⟩ <;> simp only at *
  · intro h y hy hys
    obtain ⟨j, hj⟩ := h y hy hys
    have hpow : IsPower n G r (H % n) := by
      refine ⟨Int.emod_nonneg _ (by omega), Int.emod_lt_of_pos _ (by omega), ?_⟩
      rw [if_pos (by omega), Int.toNat_natCast, Int.emod_eq_of_lt h0 h1]
      have := dvd_neg.2 hr
      rwa [neg_sub] at this
    exact ⟨_, power_trans ((isUnit_iff_gcd G).2 hb.good.g_unit) hpow hj⟩
  · intro h y hy hys
    obtain ⟨j, hj⟩ := h y hy hys
    obtain ⟨k, hk⟩ := hb.power
    exact ⟨_, power_trans ((isUnit_iff_gcd H).2 hb.good.h_unit) hk hj⟩

/-- At most `p + q` of the `p q` numbers that `getRanQR` can draw fail the condition. -/
theorem C109_rare_partial (p q : Nat) (hp : p.Prime) (hq : q.Prime) :
    ((Finset.range (p * q)).filter fun y : Nat => Int.gcd ((y : Int) - 1) (p * q) ≠ 1).card ≤ p + q := by
  classical
  have sub : ((Finset.range (p * q)).filter fun y : Nat => Int.gcd ((y : Int) - 1) (p * q) ≠ 1) ⊆
      (Finset.range p).image (fun i : Nat => 1 + q * i) ∪ (Finset.range q).image (fun i : Nat => 1 + p * i) := by
    intro y hy
    rw [Finset.mem_filter, Finset.mem_range] at hy
    have main : ∀ r r' : Nat, r.Prime → y < r * r' → (r : Int) ∣ y - 1 → ∃ i < r', 1 + r * i = y := by
      intro r r' hr hlt hd
      have hy1 : 1 ≤ y := by
        by_contra h0
        have h0 : y = 0 := by omega
        subst h0
        have h2 : (r : Int) ∣ 1 := by
          have := dvd_neg.2 hd
          simpa using this
        exact hr.one_lt.ne' (Nat.dvd_one.1 (by exact_mod_cast h2))
      obtain ⟨z, rfl⟩ : ∃ z, y = 1 + z := ⟨y - 1, by omega⟩
      have hd' : r ∣ z := by
        push_cast at hd
        rw [add_sub_cancel_left] at hd
        exact_mod_cast hd
      obtain ⟨i, rfl⟩ := hd'
      exact ⟨i, Nat.lt_of_mul_lt_mul_left (a := r) (by omega), rfl⟩
    have hor : (p : Int) ∣ y - 1 ∨ (q : Int) ∣ y - 1 := by
      by_contra h
      push Not at h
      refine hy.2 ?_
      rw [← Int.isCoprime_iff_gcd_eq_one]
      refine IsCoprime.mul_right ?_ ?_
      · exact ((Nat.prime_iff_prime_int.1 hp).coprime_iff_not_dvd.2 h.1).symm
      · exact ((Nat.prime_iff_prime_int.1 hq).coprime_iff_not_dvd.2 h.2).symm
    rw [Finset.mem_union, Finset.mem_image, Finset.mem_image]
    rcases hor with h | h
    · obtain ⟨i, hi, e⟩ := main p q hp hy.1 h
      exact Or.inr ⟨i, Finset.mem_range.2 hi, e⟩
    · obtain ⟨i, hi, e⟩ := main q p hq (by rw [mul_comm]; exact hy.1) h
      exact Or.inl ⟨i, Finset.mem_range.2 hi, e⟩
  refine (Finset.card_le_card sub).trans ((Finset.card_union_le _ _).trans ?_)
  have h1 := Finset.card_image_le (s := Finset.range p) (f := fun i => 1 + q * i)
  have h2 := Finset.card_image_le (s := Finset.range q) (f := fun i => 1 + p * i)
  rw [Finset.card_range] at h1 h2
  omega

theorem isQR_one (p q : Nat) (hp : p % 2 = 1) (hq : q % 2 = 1) : isQR ((1 : Nat) : Int) p q = .ok true := by
  unfold isQR bigJacobi
  rw [if_neg (by omega), if_neg (by omega), Nat.cast_one, jacobiSym.one_left, jacobiSym.one_left]
  rfl

/-- Whatever the other random numbers are, the setup accepts the number 1 for `g`; then `h` is 1 too. -/
theorem C109_one (test : Nat → Bool) (cand rnd : Nat → Nat) (r fuel N g p q : Nat) (h : Int)
    (hrun : trustedSetupForQRN test cand rnd r fuel = Run.ok (N, g, h, p, q)) (hN : 1 < N) :
    trustedSetupForQRN test cand (fun _ => 1) r fuel = Run.ok (N, 1, 1, p, q) := by
  unfold trustedSetupForQRN at hrun ⊢
  obtain ⟨⟨p0, pos1⟩, hp, hrun⟩ := (run_bind_ok_iff _ _ _).1 hrun
  obtain ⟨⟨q0, pos2⟩, hq, hrun⟩ := (run_bind_ok_iff _ _ _).1 hrun
  obtain ⟨g0, hg, hrun⟩ := (run_bind_ok_iff _ _ _).1 hrun
  have hrun := run_ok_inj hrun
  simp only [Prod.mk.injEq] at hrun
  obtain ⟨hNe, -, -, rfl, rfl⟩ := hrun
  simp only at hNe hg hq
  rw [hp, run_ok_bind, hq, run_ok_bind]
  rw [liftLoop_ok_iff] at hp hq
  obtain ⟨i, hpi, -, -⟩ := getSafePrime_spec _ _ _ _ _ _ hp
  obtain ⟨j, hqj, -, -⟩ := getSafePrime_spec _ _ _ _ _ _ hq
  have hone : getRanQR (fun _ => 1) p0 q0 fuel 0 = Run.ok 1 := by
    cases fuel with
    | zero => cases hg
    | succ f =>
      rw [getRanQR, isQR_one p0 q0 (by omega) (by omega)]
      rfl
  simp only [hone, run_ok_bind]
  have hord : 0 ≤ (r : Int) % getOrder p0 q0 ∨ getOrder (p0 : Int) q0 = 0 := by
    by_cases h0 : getOrder (p0 : Int) q0 = 0
    · exact .inr h0
    · exact .inl (Int.emod_nonneg _ h0)
  have hnn : 0 ≤ (r : Int) % getOrder p0 q0 := by
    rcases hord with h | h
    · exact h
    · rw [h, Int.emod_zero]; omega
  rw [hNe]
  have : NeZero N := ⟨by omega⟩
  have : Fact (1 < N) := ⟨hN⟩
  have hb : (bigExp ((1 : Nat) : Int) ((r : Int) % getOrder p0 q0) N).getD 0 = 1 := by
    rw [bigExp_nonneg (N := N) _ _ hnn]
    simp [ZMod.val_one]
  rw [hb]
  rfl

/-- The setup with the primes 47 and 59 that draws 1. -/
theorem setup_draws_one : FromSetup ⟨2773, 1, 1⟩ 47 59 5 := by
  obtain ⟨hd, test, cand, rnd, r, fuel, N, g, h1, h2, h3, h4, hrun, hN, hG⟩ := setup2773
  have hN' : N = 2773 := by simp only at hN; omega
  subst hN'
  exact ⟨hd, test, cand, fun _ => 1, r, fuel, 2773, 1, h1, h2, h3, h4,
    C109_one test cand rnd r fuel 2773 g 47 59 _ hrun (by norm_num), rfl, rfl⟩

/-- C109 is violated: nothing excludes `g = 1`. -/
theorem C109_violated : ¬ C109_statement := by
  intro h
  have h1 := ((C109_iff_partial _ _ _ _ setup_draws_one).1.1 (h _ _ _ _ setup_draws_one).1)
  exact absurd h1 (by decide +kernel)

/-- With 4 the setup is good: both numbers generate the squares. -/
example : GeneratesSquares 2773 4 ∧ GeneratesSquares 2773 2288 :=
  ⟨(C109_iff_partial _ _ _ _ setup2773).1.2 (by decide +kernel), (C109_iff_partial _ _ _ _ setup2773).2.2 (by decide +kernel)⟩

example : Nat.Prime 47 ∧ Nat.Prime 59 := ⟨by norm_num, by norm_num⟩

/-- For 5 and 7 these are 11 of 35 numbers. -/
example : ((Finset.range (5 * 7)).filter fun y : Nat => Int.gcd ((y : Int) - 1) ((5 : Nat) * (7 : Nat)) ≠ 1).card = 11 := by
  decide +kernel

end Verif.Props
