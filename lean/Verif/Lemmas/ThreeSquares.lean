import Verif.Model.ThreeSquares
import Mathlib.NumberTheory.LegendreSymbol.Basic
import Mathlib.Tactic.Ring
import Mathlib.Tactic.LinearCombination
import Mathlib.Tactic.Zify
import Mathlib.RingTheory.Coprime.Lemmas

/-! # Lemmas about the three square decomposition -/

namespace Verif.Lemmas
open Verif.Go Verif.Model

theorem intCast_eq_mk (a : Int) : (a : GaussianInt) = ⟨a, 0⟩ := by
  ext <;> simp

theorem mul_star_eq (g : GaussianInt) : g * star g = ((g.re * g.re + g.im * g.im : Int) : GaussianInt) := by
  ext <;> simp <;> ring

/-- Bezout for the external gcd. -/
theorem gcd_bezout (E : TSEnv) (a b : GaussianInt) : ∃ x y, E.gcd a b = x * a + y * b := by
  have h := EuclideanDomain.gcd_eq_gcd_ab a b
  have hd : EuclideanDomain.gcd a b ∣ E.gcd a b :=
    E.dvd_gcd a b _ (EuclideanDomain.gcd_dvd_left a b) (EuclideanDomain.gcd_dvd_right a b)
  obtain ⟨c, hc⟩ := hd
  refine ⟨EuclideanDomain.gcdA a b * c, EuclideanDomain.gcdB a b * c, ?_⟩
  rw [hc, h]; ring

theorem intCast_dvd_intCast_gauss (a b : Int) (h : (a : GaussianInt) ∣ (b : GaussianInt)) : a ∣ b := by
  obtain ⟨c, hc⟩ := h
  have := congrArg Zsqrtd.re hc
  simp at this
  exact ⟨c.re, this⟩

/-- The gcd of `s + i` and an odd `p` dividing `s² + 1` has norm `p`. -/
theorem gcd_norm (E : TSEnv) (s p : Nat) (hp : p % 2 = 1) (hs : (p : Int) ∣ (s : Int) * s + 1) :
    let g := gaussianIntGCD E s p
    g.re * g.re + g.im * g.im = p := by
  intro g
  have hg1 : g ∣ ⟨s, 1⟩ := E.gcd_dvd_left _ _
  have hg2 : g ∣ ((p : Int) : GaussianInt) := by rw [intCast_eq_mk]; exact E.gcd_dvd_right _ _
  obtain ⟨x, y, hxy⟩ := gcd_bezout E ⟨s, 1⟩ ⟨p, 0⟩
  have hgdef : g = x * ⟨s, 1⟩ + y * ((p : Int) : GaussianInt) := by rw [intCast_eq_mk]; exact hxy
  -- `p` divides the norm
  have h1 : (p : Int) ∣ g.re * g.re + g.im * g.im := by
    apply intCast_dvd_intCast_gauss
    rw [← mul_star_eq]
    obtain ⟨k, hk⟩ := hs
    have hn : (⟨s, 1⟩ : GaussianInt) * star ⟨s, 1⟩ = ((p : Int) : GaussianInt) * ((k : Int) : GaussianInt) := by
      rw [mul_star_eq, ← Int.cast_mul, ← hk]
      simp
    have hst : star ((p : Int) : GaussianInt) = ((p : Int) : GaussianInt) := by
      ext <;> simp
    refine ⟨x * star x * ((k : Int) : GaussianInt) + x * ⟨s, 1⟩ * star y + y * star x * star ⟨s, 1⟩ +
      y * star y * ((p : Int) : GaussianInt), ?_⟩
    conv_lhs => rw [hgdef]
    rw [star_add, star_mul', star_mul', hst]
    linear_combination (x * star x) * hn
  -- the norm divides `p`
  have h2 : g.re * g.re + g.im * g.im ∣ (p : Int) := by
    apply intCast_dvd_intCast_gauss
    rw [← mul_star_eq]
    have hsg1 : star g ∣ star ⟨s, 1⟩ := by
      obtain ⟨c, hc⟩ := hg1
      exact ⟨star c, by rw [hc, star_mul']⟩
    have hsg2 : star g ∣ ((p : Int) : GaussianInt) := by
      obtain ⟨c, hc⟩ := hg2
      refine ⟨star c, ?_⟩
      rw [← star_mul', ← hc]
      ext <;> simp
    refine IsCoprime.mul_dvd ?_ hg2 hsg2
    obtain ⟨c1, hc1⟩ := hg1
    obtain ⟨c2, hc2⟩ := hsg1
    obtain ⟨c3, hc3⟩ := hg2
    obtain ⟨k, hk⟩ : ∃ k : Int, (p : Int) = 2 * k + 1 := ⟨((p / 2 : Nat) : Int), by omega⟩
    have hi : (⟨s, 1⟩ : GaussianInt) - star ⟨s, 1⟩ = ⟨0, 2⟩ := by ext <;> simp
    have h2i : (⟨0, -1⟩ : GaussianInt) * ⟨0, 2⟩ = 2 := by ext <;> simp
    have hone : ((p : Int) : GaussianInt) = 2 * (k : GaussianInt) + 1 := by
      rw [hk]; push_cast; rfl
    refine ⟨c3 - ⟨0, -1⟩ * c1 * (k : GaussianInt), ⟨0, -1⟩ * c2 * (k : GaussianInt), ?_⟩
    have e : (2 : GaussianInt) = ⟨0, -1⟩ * (g * c1 - star g * c2) := by rw [← hc1, ← hc2, hi, h2i]
    rw [hc3] at hone
    linear_combination hone + (k : GaussianInt) * e
  have h3 : 0 ≤ g.re * g.re + g.im * g.im := add_nonneg (mul_self_nonneg _) (mul_self_nonneg _)
  exact Int.dvd_antisymm h3 (by omega) h2 h1

theorem norm_dvd (g a : GaussianInt) (h : g ∣ a) :
    g.re * g.re + g.im * g.im ∣ a.re * a.re + a.im * a.im := by
  obtain ⟨c, rfl⟩ := h
  exact ⟨c.re * c.re + c.im * c.im, by simp; ring⟩

/-- For `p = 3 (mod 4)` the gcd is a unit. -/
theorem gcd_norm_three (E : TSEnv) (u p : Nat) (hp : p % 4 = 3) (hu : u ^ ((p - 1) / 2) % p = p - 1) :
    let g := gaussianIntGCD E (u ^ ((p - 1) / 2 / 2) % p) p
    g.re * g.re + g.im * g.im = 1 := by
  intro g
  set s := u ^ ((p - 1) / 2 / 2) % p with hs
  have hg1 := norm_dvd g ⟨s, 1⟩ (E.gcd_dvd_left _ _)
  have hg2 := norm_dvd g ⟨p, 0⟩ (E.gcd_dvd_right _ _)
  simp only [mul_zero, add_zero, mul_one] at hg1 hg2
  have h3 : 0 ≤ g.re * g.re + g.im * g.im := add_nonneg (mul_self_nonneg _) (mul_self_nonneg _)
  obtain ⟨m, hm⟩ := Int.eq_ofNat_of_zero_le h3
  rw [hm] at hg1 hg2 ⊢
  norm_cast at hg1 hg2 ⊢
  rw [Nat.eq_one_iff_not_exists_prime_dvd]
  intro q hq hqm
  have hqp : q ∣ p := by
    rcases hq.dvd_mul.1 (hqm.trans hg2) with h | h <;> exact h
  have hqs : q ∣ s * s + 1 := hqm.trans hg1
  have hF : Fact q.Prime := ⟨hq⟩
  have hp0 : ((p : Nat) : ZMod q) = 0 := (ZMod.natCast_eq_zero_iff _ _).2 hqp
  have e1 : (s : ZMod q) * s + 1 = 0 := by
    have := (ZMod.natCast_eq_zero_iff (s * s + 1) q).2 hqs
    push_cast at this; exact this
  have hmod : ∀ a b : Nat, a % p = b → (a : ZMod q) = b := by
    intro a b h
    rw [← h]
    conv_lhs => rw [← Nat.mod_add_div a p]
    push_cast
    rw [hp0]; ring
  have e2 : (u : ZMod q) ^ ((p - 1) / 2) = -1 := by
    have := hmod _ _ hu
    rw [Nat.cast_sub (by omega), hp0] at this
    push_cast at this
    rw [this]; ring
  have e3 : (s : ZMod q) = (u : ZMod q) ^ ((p - 1) / 2 / 2) := by
    have := hmod _ _ hs.symm
    push_cast at this
    exact this.symm
  have e4 : (s : ZMod q) * s * u = -1 := by
    rw [e3, ← pow_add, ← pow_succ, ← e2]
    congr 1
    omega
  have e5 : (u : ZMod q) = 1 := by linear_combination (u : ZMod q) * e1 - e4
  rw [e5, one_pow] at e2
  have e6 : ((2 : Nat) : ZMod q) = 0 := by push_cast; linear_combination e2
  have h2 := (ZMod.natCast_eq_zero_iff _ _).1 e6
  have : q = 2 := (Nat.prime_dvd_prime_iff_eq hq Nat.prime_two).1 h2
  subst this
  omega

theorem findTwoSquaresLoop_some (E : TSEnv) (p : Nat) (coins : List Nat) (g : GaussianInt)
    (h : findTwoSquaresLoop E p coins = some g) : ∃ r ∈ coins, (2 * r) ^ ((p - 1) / 2) % p = p - 1 ∧
      g = gaussianIntGCD E ((2 * r) ^ ((p - 1) / 2 / 2) % p) p := by
  induction coins with
  | nil => cases h
  | cons r rs ih =>
    simp only [findTwoSquaresLoop] at h
    split at h
    · rename_i hc
      cases h
      exact ⟨r, by simp, hc, rfl⟩
    · obtain ⟨r', hr', h'⟩ := ih h
      exact ⟨r', by simp [hr'], h'⟩

/-- A usable result is a sum of two squares. -/
theorem two_squares (E : TSEnv) (p : Nat) (hp : 2 ≤ p) (coins : List Nat) (g : GaussianInt)
    (h : findTwoSquares E p coins = some g) (hv : isValidGaussianIntGCD (some g) = true) :
    g.re * g.re + g.im * g.im = p := by
  obtain ⟨r, -, hu, hg⟩ := findTwoSquaresLoop_some E p coins g h
  have hcase : p % 4 = 1 ∨ p % 4 = 3 ∨ p % 2 = 0 := by omega
  rcases hcase with h1 | h1 | h1
  · rw [hg]
    apply gcd_norm E _ p (by omega)
    rw [← Int.modEq_zero_iff_dvd]
    have e1 : (((2 * r) ^ ((p - 1) / 2 / 2) % p : Nat) : Int) * (((2 * r) ^ ((p - 1) / 2 / 2) % p : Nat) : Int) ≡
        (((2 * r) ^ ((p - 1) / 2) : Nat) : Int) [ZMOD p] := by
      have : (2 * r) ^ ((p - 1) / 2) = (2 * r) ^ ((p - 1) / 2 / 2) * (2 * r) ^ ((p - 1) / 2 / 2) := by
        rw [← pow_add]; congr 1; omega
      rw [this]
      rw [← Nat.cast_mul, Int.natCast_modEq_iff]
      exact Nat.ModEq.mul (Nat.mod_modEq _ _) (Nat.mod_modEq _ _)
    have e2 : (((2 * r) ^ ((p - 1) / 2) : Nat) : Int) ≡ ((p - 1 : Nat) : Int) [ZMOD p] := by
      rw [Int.natCast_modEq_iff]
      unfold Nat.ModEq
      rw [hu, Nat.mod_eq_of_lt (by omega)]
    have e3 := (e1.trans e2).add_right 1
    refine e3.trans ?_
    rw [Nat.cast_sub (by omega)]
    simp [Int.ModEq]
  · exfalso
    have hn := gcd_norm_three E (2 * r) p h1 hu
    rw [← hg] at hn
    have hre : g.re.natAbs * g.re.natAbs + g.im.natAbs * g.im.natAbs = 1 := by
      zify; simpa using hn
    unfold isValidGaussianIntGCD at hv
    have : (g.re.natAbs = 1 ∧ g.im.natAbs = 0) ∨ (g.re.natAbs = 0 ∧ g.im.natAbs = 1) := by
      generalize g.re.natAbs = a at *
      generalize g.im.natAbs = b at *
      have ha : a ≤ 1 := by nlinarith
      have hb : b ≤ 1 := by nlinarith
      interval_cases a <;> interval_cases b <;> simp_all
    rcases this with h | h <;> simp [h] at hv
  · by_cases h2 : p = 2
    · subst h2
      have hd1 : g ∣ ⟨1, 1⟩ := by
        rw [hg]
        exact E.gcd_dvd_left _ _
      have hd2 : (⟨1, 1⟩ : GaussianInt) ∣ g := by
        rw [hg]
        refine E.dvd_gcd _ _ _ (dvd_refl _) ?_
        exact ⟨⟨1, -1⟩, by ext <;> simp⟩
      have n1 := norm_dvd _ _ hd1
      have n2 := norm_dvd _ _ hd2
      exact Int.dvd_antisymm (add_nonneg (mul_self_nonneg _) (mul_self_nonneg _)) (by norm_num) n1 n2
    · exfalso
      have hk : (p - 1) / 2 ≠ 0 := by omega
      have he : 2 ∣ (2 * r) ^ ((p - 1) / 2) := dvd_pow (Dvd.intro _ rfl) hk
      have : 2 ∣ (2 * r) ^ ((p - 1) / 2) % p := (Nat.dvd_mod_iff (by omega)).2 he
      omega

theorem exists_coin (p : Nat) (hp : p.Prime) (h4 : p % 4 = 1) :
    ∃ r, r < p / 2 ∧ (2 * r) ^ ((p - 1) / 2) % p = p - 1 := by
  have hF : Fact p.Prime := ⟨hp⟩
  have hhalf : (p - 1) / 2 = p / 2 := by omega
  have h2 : ¬ (1 : ZMod p) = -1 := by
    intro h
    have e6 : ((2 : Nat) : ZMod p) = 0 := by push_cast; linear_combination h
    have h2 := (ZMod.natCast_eq_zero_iff _ _).1 e6
    have := Nat.le_of_dvd (by omega) h2
    have := hp.two_le
    omega
  obtain ⟨a, ha⟩ := FiniteField.exists_nonsquare (F := ZMod p) (by
    rw [ZMod.ringChar_zmod_n]; omega)
  have ha0 : a ≠ 0 := by rintro rfl; exact ha ⟨0, by simp⟩
  have hpow : a ^ (p / 2) = -1 := by
    rcases ZMod.pow_div_two_eq_neg_one_or_one p ha0 with h | h
    · exact absurd ((ZMod.euler_criterion p ha0).2 h) ha
    · exact h
  have hev : Even (p / 2) := by rw [Nat.even_iff]; omega
  have key : ∃ w : Nat, w % 2 = 0 ∧ w < p ∧ ((w : Nat) : ZMod p) ^ (p / 2) = -1 := by
    have hv := ZMod.val_lt a
    have hv0 : a.val ≠ 0 := by rw [Ne, ZMod.val_eq_zero]; exact ha0
    by_cases h : a.val % 2 = 0
    · exact ⟨a.val, h, hv, by rw [ZMod.natCast_zmod_val]; exact hpow⟩
    · refine ⟨p - a.val, by omega, by omega, ?_⟩
      rw [Nat.cast_sub (by omega), ZMod.natCast_self, ZMod.natCast_zmod_val, zero_sub, hev.neg_pow, hpow]
  obtain ⟨w, hw2, hwp, hw⟩ := key
  have hne : w ≠ p - 1 := by
    rintro rfl
    rw [Nat.cast_sub (by omega), ZMod.natCast_self, Nat.cast_one, zero_sub, hev.neg_pow, one_pow] at hw
    exact h2 hw
  refine ⟨w / 2, by omega, ?_⟩
  rw [show 2 * (w / 2) = w by omega, hhalf]
  have : ((w ^ (p / 2) : Nat) : ZMod p) = ((p - 1 : Nat) : ZMod p) := by
    push_cast
    rw [hw, Nat.cast_sub (by omega), ZMod.natCast_self, Nat.cast_one, zero_sub]
  rw [ZMod.natCast_eq_natCast_iff'] at this
  rw [this, Nat.mod_eq_of_lt (by omega)]

/-- For a prime `p = 1 (mod 4)` some random numbers give a usable result. -/
theorem exists_found_of_coin (E : TSEnv) (p : Nat) (hp : 2 ≤ p) (h4 : p % 4 = 1) (r : Nat) (hr : r < p / 2)
    (hu : (2 * r) ^ ((p - 1) / 2) % p = p - 1) :
    ∃ coins g, CoinsOK p coins ∧ findTwoSquares E p coins = some g ∧ isValidGaussianIntGCD (some g) = true := by
  refine ⟨List.replicate 10 r, gaussianIntGCD E ((2 * r) ^ ((p - 1) / 2 / 2) % p) p, ⟨by simp [maxUFindingIter], ?_⟩, ?_, ?_⟩
  · intro x hx
    rw [List.eq_of_mem_replicate hx]; exact hr
  · simp only [findTwoSquares, List.replicate_succ, findTwoSquaresLoop, if_pos hu]
  · have hv : ∀ g, findTwoSquares E p [r] = some g → g.re * g.re + g.im * g.im = p := by
      intro g hg
      obtain ⟨r', hr', hu', hg'⟩ := findTwoSquaresLoop_some E p _ g hg
      rw [hg']
      apply gcd_norm E _ p (by omega)
      rw [← Int.modEq_zero_iff_dvd]
      have e1 : (((2 * r') ^ ((p - 1) / 2 / 2) % p : Nat) : Int) * (((2 * r') ^ ((p - 1) / 2 / 2) % p : Nat) : Int) ≡
          (((2 * r') ^ ((p - 1) / 2) : Nat) : Int) [ZMOD p] := by
        have : (2 * r') ^ ((p - 1) / 2) = (2 * r') ^ ((p - 1) / 2 / 2) * (2 * r') ^ ((p - 1) / 2 / 2) := by
          rw [← pow_add]; congr 1; omega
        rw [this]
        rw [← Nat.cast_mul, Int.natCast_modEq_iff]
        exact Nat.ModEq.mul (Nat.mod_modEq _ _) (Nat.mod_modEq _ _)
      have e2 : (((2 * r') ^ ((p - 1) / 2) : Nat) : Int) ≡ ((p - 1 : Nat) : Int) [ZMOD p] := by
        rw [Int.natCast_modEq_iff]
        unfold Nat.ModEq
        rw [hu', Nat.mod_eq_of_lt (by omega)]
      have e3 := (e1.trans e2).add_right 1
      refine e3.trans ?_
      rw [Nat.cast_sub (by omega)]
      simp [Int.ModEq]
    have := hv _ (by simp only [findTwoSquares, findTwoSquaresLoop, if_pos hu]; rfl)
    generalize gaussianIntGCD E ((2 * r) ^ ((p - 1) / 2 / 2) % p) p = g at *
    have hn : g.re.natAbs * g.re.natAbs + g.im.natAbs * g.im.natAbs = p := by
      zify; simpa using this
    have hp5 : 5 ≤ p := by omega
    unfold isValidGaussianIntGCD
    simp only
    split
    · rename_i h; rw [h.1, h.2] at hn; omega
    · split
      · rename_i h; rw [h.1, h.2] at hn; omega
      · split
        · rename_i h; rw [h.1, h.2] at hn; omega
        · rfl

theorem exists_found (E : TSEnv) (p : Nat) (hp : p.Prime) (h4 : p % 4 = 1) :
    ∃ coins g, CoinsOK p coins ∧ findTwoSquares E p coins = some g ∧ isValidGaussianIntGCD (some g) = true := by
  obtain ⟨r, hr, hu⟩ := exists_coin p hp h4
  exact exists_found_of_coin E p hp.two_le h4 r hr hu

theorem newInt3_spec (a b c : Int) : let t := newInt3 a b c
    List.Perm [t.t0, t.t1, t.t2] [(a.natAbs : Int), (b.natAbs : Int), (c.natAbs : Int)] ∧
      t.t1 ≤ t.t0 ∧ t.t2 ≤ t.t1 ∧ 0 ≤ t.t2 := by
  simp only [newInt3, swapIfLess]
  have ha : (0 : Int) ≤ (a.natAbs : Int) := by omega
  have hb : (0 : Int) ≤ (b.natAbs : Int) := by omega
  have hc : (0 : Int) ≤ (c.natAbs : Int) := by omega
  generalize (a.natAbs : Int) = a at *
  generalize (b.natAbs : Int) = b at *
  generalize (c.natAbs : Int) = c at *
  split_ifs <;> simp only at * <;> refine ⟨?_, by omega, by omega, by omega⟩ <;>
    (rw [List.perm_iff_count]; intro x; simp only [List.count_cons, List.count_nil, zero_add]; try omega)

theorem newInt4_spec (a b c d : Int) : let t := newInt4 a b c d
    List.Perm [t.t0, t.t1, t.t2, t.t3]
        [(a.natAbs : Int), (b.natAbs : Int), (c.natAbs : Int), (d.natAbs : Int)] ∧
      t.t1 ≤ t.t0 ∧ t.t2 ≤ t.t1 ∧ t.t3 ≤ t.t2 ∧ 0 ≤ t.t3 := by
  simp only [newInt4, swapIfLess]
  have ha : (0 : Int) ≤ (a.natAbs : Int) := by omega
  have hb : (0 : Int) ≤ (b.natAbs : Int) := by omega
  have hc : (0 : Int) ≤ (c.natAbs : Int) := by omega
  have hd : (0 : Int) ≤ (d.natAbs : Int) := by omega
  generalize (a.natAbs : Int) = a at *
  generalize (b.natAbs : Int) = b at *
  generalize (c.natAbs : Int) = c at *
  generalize (d.natAbs : Int) = d at *
  split_ifs <;> simp only at * <;> refine ⟨?_, by omega, by omega, by omega, by omega⟩ <;>
    (rw [List.perm_iff_count]; intro x; simp only [List.count_cons, List.count_nil, zero_add]; try omega)

namespace ThreeSqL
open ThreeSq

/-- The decomposition is right. -/
def Good (n : Nat) (t : Int3) : Prop :=
  t.t0 ^ 2 + t.t1 ^ 2 + t.t2 ^ 2 = n ∧ t.t1 ≤ t.t0 ∧ t.t2 ≤ t.t1 ∧ 0 ≤ t.t2

theorem good_newInt3 (n : Nat) (x a b : Int) (h : x * x + (a * a + b * b) = n) : Good n (newInt3 x a b) := by
  obtain ⟨hp, h1, h2, h3⟩ := newInt3_spec x a b
  refine ⟨?_, h1, h2, h3⟩
  have := (hp.map (fun y : Int => y ^ 2)).sum_eq
  simp only [List.map_cons, List.map_nil, List.sum_cons, List.sum_nil, Int.natCast_natAbs, sq_abs] at this
  rw [← h]
  linear_combination this

/-- Invariant: what the goroutines hold is right. -/
def Inv (n : Nat) (s : St) : Prop :=
  (∀ i, match s.workers i with
    | .search x p => x * x + p = n ∧ 2 ≤ p
    | .send t => Good n t
    | _ => True) ∧
  match s.main with
  | .got t => Good n t
  | .ret t => Good n t
  | _ => True

theorem inv_update (n : Nat) (s : St) (i : Nat) (w : Worker) (m : Main) (h : Inv n s)
    (hw : match w with
      | .search x p => x * x + p = n ∧ 2 ≤ p
      | .send t => Good n t
      | _ => True)
    (hm : match m with
      | .got t => Good n t
      | .ret t => Good n t
      | _ => True) : Inv n { main := m, workers := Function.update s.workers i w } := by
  refine ⟨?_, hm⟩
  intro j
  by_cases hj : j = i
  · subst hj; simp only [Function.update_self]; exact hw
  · simp only [Function.update_of_ne hj]; exact h.1 j

theorem inv_step (E : TSEnv) (K n : Nat) (s s' : St) (h : Inv n s) (hs : Step E K n s s') : Inv n s' := by
  have hm := h.2
  cases hs with
  | spawn k hm' hk => exact inv_update n s k _ _ h trivial trivial
  | spawned hm' => exact ⟨h.1, trivial⟩
  | ret t hm' => rw [hm'] at hm; exact ⟨h.1, hm⟩
  | ctxDone i cnt hw hc => exact inv_update n s i _ _ h trivial hm
  | negX i cnt hw hc hx => exact inv_update n s i _ _ h trivial hm
  | smallP i cnt hw hc hx hp => exact inv_update n s i _ _ h trivial hm
  | filtered i cnt hw hc hx hp hf => exact inv_update n s i _ _ h trivial hm
  | search i cnt hw hc hx hp hf =>
    refine inv_update n s i _ _ h ?_ hm
    refine ⟨?_, by omega⟩
    rw [Int.toNat_of_nonneg (by omega)]
    unfold candP
    ring
  | again i x p coins hw hcoins hv => exact h
  | found i x p coins g hw hcoins hg hv =>
    have hi := h.1 i
    rw [hw] at hi
    refine inv_update n s i _ _ h ?_ hm
    have := two_squares E p hi.2 coins g hg hv
    exact good_newInt3 n x g.re g.im (by rw [this]; exact hi.1)
  | send i t hw hm' =>
    have hi := h.1 i
    rw [hw] at hi
    exact inv_update n s i _ _ h trivial hi
  | drop i t hw hm' => exact inv_update n s i _ _ h trivial hm

theorem inv_reach (E : TSEnv) (K n : Nat) (s : St) (h : Reach E K n s) : Inv n s := by
  induction h with
  | refl => exact ⟨fun i => trivial, trivial⟩
  | tail _ hs ih => exact inv_step E K n _ _ ih hs

/-- No usable result exists for the counters in `S`: the caller waits forever. -/
def Useless (E : TSEnv) (n cnt : Nat) : Prop :=
  0 ≤ halfX n cnt → 2 ≤ candP n cnt → ¬ Filtered E (candP n cnt).toNat →
    ∀ coins, CoinsOK (candP n cnt).toNat coins →
      isValidGaussianIntGCD (findTwoSquares E (candP n cnt).toNat coins) = false

def NoResult (E : TSEnv) (S : Nat → Prop) (s : St) : Prop :=
  (∀ i, match s.workers i with
    | .idle => True
    | .top cnt => S cnt
    | .search _ p => ∀ coins, CoinsOK p coins → isValidGaussianIntGCD (findTwoSquares E p coins) = false
    | .send _ => False
    | .exited => True) ∧
  match s.main with
  | .spawn _ => True
  | .recv => True
  | _ => False

theorem noResult_update (E : TSEnv) (S : Nat → Prop) (s : St) (i : Nat) (w : Worker) (m : Main) (h : NoResult E S s)
    (hw : match w with
      | .idle => True
      | .top cnt => S cnt
      | .search _ p => ∀ coins, CoinsOK p coins → isValidGaussianIntGCD (findTwoSquares E p coins) = false
      | .send _ => False
      | .exited => True)
    (hm : match m with
      | .spawn _ => True
      | .recv => True
      | _ => False) : NoResult E S { main := m, workers := Function.update s.workers i w } := by
  refine ⟨?_, hm⟩
  intro j
  by_cases hj : j = i
  · subst hj; simp only [Function.update_self]; exact hw
  · simp only [Function.update_of_ne hj]; exact h.1 j

theorem never_returns (E : TSEnv) (K n : Nat) (S : Nat → Prop) (h0 : ∀ i < K, S i)
    (hS : ∀ c, S c → 0 ≤ halfX n c → 2 ≤ candP n c → Filtered E (candP n c).toNat → S (c + K))
    (hu : ∀ c, S c → Useless E n c) (s : St) (h : Reach E K n s) : NoResult E S s := by
  induction h with
  | refl => exact ⟨fun i => trivial, trivial⟩
  | @tail s s' _ hs ih =>
    have hm := ih.2
    cases hs with
    | spawn k hm' hk => exact noResult_update E S s k _ _ ih (h0 k hk) trivial
    | spawned hm' => exact ⟨ih.1, trivial⟩
    | ret t hm' => rw [hm'] at hm; exact hm.elim
    | ctxDone i cnt hw hc => exact noResult_update E S s i _ _ ih trivial hm
    | negX i cnt hw hc hx => exact noResult_update E S s i _ _ ih trivial hm
    | smallP i cnt hw hc hx hp => exact noResult_update E S s i _ _ ih trivial hm
    | filtered i cnt hw hc hx hp hf =>
      have hi := ih.1 i
      rw [hw] at hi
      exact noResult_update E S s i _ _ ih (hS cnt hi (by omega) (by omega) hf) hm
    | search i cnt hw hc hx hp hf =>
      have hi := ih.1 i
      rw [hw] at hi
      exact noResult_update E S s i _ _ ih (hu cnt hi (by omega) (by omega) hf) hm
    | again i x p coins hw hcoins hv => exact ih
    | found i x p coins g hw hcoins hg hv =>
      have hi := ih.1 i
      rw [hw] at hi
      have := hi coins hcoins
      rw [hg, hv] at this
      cases this
    | send i t hw hm' =>
      have hi := ih.1 i
      rw [hw] at hi
      exact hi.elim
    | drop i t hw hm' =>
      have hi := ih.1 i
      rw [hw] at hi
      exact hi.elim

theorem exec_trans {σ : Type} {step : σ → σ → Prop} {a b c : σ} (h1 : Exec step a b) (h2 : Exec step b c) :
    Exec step a c := by
  induction h2 with
  | refl => exact h1
  | tail _ hs ih => exact .tail ih hs

/-- The counter of worker `i` on its way to round `j`. -/
def OnTrack (E : TSEnv) (K n i j : Nat) (w : Worker) : Prop :=
  match w with
  | .top cnt => ∃ j' ≤ j, cnt = i + j' * K
  | .search x p => x = 2 * halfX n (i + j * K) ∧ p = (candP n (i + j * K)).toNat
  | _ => True

theorem onTrack_reach (E : TSEnv) (K n i j : Nat)
    (hj : ∀ j' < j, Filtered E (candP n (i + j' * K)).toNat)
    (hf : ¬ Filtered E (candP n (i + j * K)).toNat) (s : St) (h : Reach E K n s) : OnTrack E K n i j (s.workers i) := by
  have upd : ∀ (s : St) (k : Nat) (w : Worker) (m : Main), OnTrack E K n i j (s.workers i) →
      (k = i → OnTrack E K n i j w) → OnTrack E K n i j (St.workers { main := m, workers := Function.update s.workers k w } i) := by
    intro s k w m h hw
    by_cases hk : i = k
    · subst hk; simp only [Function.update_self]; exact hw rfl
    · simp only [Function.update_of_ne hk]; exact h
  induction h with
  | refl => trivial
  | @tail s s' _ hs ih =>
    cases hs with
    | spawn k hm' hk => exact upd s k _ _ ih (fun e => ⟨0, Nat.zero_le _, by simp [e]⟩)
    | spawned hm' => exact ih
    | ret t hm' => exact ih
    | ctxDone k cnt hw hc => exact upd s k _ _ ih (fun e => trivial)
    | negX k cnt hw hc hx => exact upd s k _ _ ih (fun e => trivial)
    | smallP k cnt hw hc hx hp => exact upd s k _ _ ih (fun e => trivial)
    | filtered k cnt hw hc hx hp hfl =>
      refine upd s k _ _ ih (fun e => ?_)
      subst e
      rw [hw] at ih
      obtain ⟨j', hj', rfl⟩ := ih
      have hne : j' ≠ j := by rintro rfl; exact hf hfl
      exact ⟨j' + 1, by omega, by ring⟩
    | search k cnt hw hc hx hp hfl =>
      refine upd s k _ _ ih (fun e => ?_)
      subst e
      rw [hw] at ih
      obtain ⟨j', hj', rfl⟩ := ih
      have hne : j' = j := by
        by_contra hne
        exact hfl (hj j' (by omega))
      subst hne
      exact ⟨rfl, rfl⟩
    | again k x p coins hw hcoins hv => exact ih
    | found k x p coins g hw hcoins hg hv => exact upd s k _ _ ih (fun e => trivial)
    | send k t hw hm' => exact upd s k _ _ ih (fun e => trivial)
    | drop k t hw hm' => exact upd s k _ _ ih (fun e => trivial)

/-- With the caller waiting, a worker on its way to a candidate with a usable random number can make the caller return. -/
theorem can_return (E : TSEnv) (K n i j : Nat)
    (hj : ∀ j' < j, 0 ≤ halfX n (i + j' * K) ∧ 2 ≤ candP n (i + j' * K) ∧ Filtered E (candP n (i + j' * K)).toNat)
    (hx : 0 ≤ halfX n (i + j * K)) (h2 : 2 ≤ (candP n (i + j * K)).toNat) (h4 : (candP n (i + j * K)).toNat % 4 = 1)
    (hr : ∃ r < (candP n (i + j * K)).toNat / 2, (2 * r) ^ (((candP n (i + j * K)).toNat - 1) / 2) %
      (candP n (i + j * K)).toNat = (candP n (i + j * K)).toNat - 1)
    (hf : ¬ Filtered E (candP n (i + j * K)).toNat) (s : St) (h : Reach E K n s) (hm : s.main = .recv)
    (hidle : s.workers i ≠ .idle) (hex : s.workers i ≠ .exited) :
    ∃ s' t, Exec (Step E K n) s s' ∧ s'.main = .ret t := by
  have hfin : ∀ s t, s.main = .recv → s.workers i = .send t → ∃ s' t, Exec (Step E K n) s s' ∧ s'.main = .ret t := by
    intro s t hm hw
    exact ⟨_, t, .tail (.tail (.refl _) (.send s i t hw hm)) (.ret _ t rfl), rfl⟩
  have hsearch : ∀ s, s.main = .recv → s.workers i = .search (2 * halfX n (i + j * K)) (candP n (i + j * K)).toNat →
      ∃ s' t, Exec (Step E K n) s s' ∧ s'.main = .ret t := by
    intro s hm hw
    obtain ⟨r, hr1, hr2⟩ := hr
    obtain ⟨coins, g, hc, hg, hv⟩ := exists_found_of_coin E _ h2 h4 r hr1 hr2
    obtain ⟨s', t, h1, h2⟩ := hfin (setWorker s i (.send (newInt3 (2 * halfX n (i + j * K)) g.re g.im)))
      (newInt3 (2 * halfX n (i + j * K)) g.re g.im) hm (by simp [setWorker])
    exact ⟨s', t, exec_trans (.tail (.refl _) (.found s i _ _ coins g hw hc hg hv)) h1, h2⟩
  have htop : ∀ d s, d ≤ j → s.main = .recv → s.workers i = .top (i + (j - d) * K) →
      ∃ s' t, Exec (Step E K n) s s' ∧ s'.main = .ret t := by
    intro d
    induction d with
    | zero =>
      intro s _ hm hw
      rw [Nat.sub_zero] at hw
      obtain ⟨s', t, h1, h3⟩ := hsearch (setWorker s i (.search (2 * halfX n (i + j * K)) (candP n (i + j * K)).toNat)) hm
        (by simp [setWorker])
      exact ⟨s', t, exec_trans (.tail (.refl _) (.search s i _ hw (by rw [hm]; exact id) (by omega) (by omega) hf)) h1, h3⟩
    | succ d ih =>
      intro s hd hm hw
      obtain ⟨f1, f2, f3⟩ := hj (j - (d + 1)) (by omega)
      obtain ⟨s', t, h1, h2⟩ := ih (setWorker s i (.top (i + (j - (d + 1)) * K + K))) (by omega) hm (by
        simp only [setWorker, Function.update_self]
        congr 1
        rw [show j - d = j - (d + 1) + 1 by omega]
        ring)
      exact ⟨s', t, exec_trans (.tail (.refl _) (.filtered s i _ hw (by rw [hm]; exact id) (by omega) (by omega) f3)) h1, h2⟩
  have ht := onTrack_reach E K n i j (fun j' hj' => (hj j' hj').2.2) hf s h
  cases hw : s.workers i with
  | idle => exact absurd hw hidle
  | exited => exact absurd hw hex
  | top cnt =>
    rw [hw] at ht
    obtain ⟨j', hj', rfl⟩ := ht
    exact htop (j - j') s (by omega) hm (by rw [hw, show j - (j - j') = j' by omega])
  | search x p =>
    rw [hw] at ht
    exact hsearch s hm (by rw [hw, ht.1, ht.2])
  | send t => exact hfin s t hm hw

/-- Worker `i` of `K` gets to its candidate number `j` and can find a result there. -/
def Finds (E : TSEnv) (K n i j : Nat) : Prop :=
  0 ≤ halfX n (i + j * K) ∧
  (∀ j' < j, 0 ≤ halfX n (i + j' * K) ∧ 2 ≤ candP n (i + j' * K) ∧ Filtered E (candP n (i + j' * K)).toNat) ∧
  2 ≤ (candP n (i + j * K)).toNat ∧ ¬ Filtered E (candP n (i + j * K)).toNat ∧
  ∃ r < (candP n (i + j * K)).toNat / 2, (2 * r) ^ (((candP n (i + j * K)).toNat - 1) / 2) %
      (candP n (i + j * K)).toNat = (candP n (i + j * K)).toNat - 1

theorem finds_of_returns (E : TSEnv) (K n : Nat) (s : St) (h : Reach E K n s) (t : Int3) (hm : s.main = .ret t) :
    ∃ i < K, ∃ j, Finds E K n i j := by
  by_contra hno
  have hno' : ∀ i < K, ∀ j, ¬ Finds E K n i j := fun i hi j hf => hno ⟨i, hi, j, hf⟩
  have := never_returns E K n
    (fun c => ∃ i < K, ∃ j, c = i + j * K ∧
      ∀ j' < j, 0 ≤ halfX n (i + j' * K) ∧ 2 ≤ candP n (i + j' * K) ∧ Filtered E (candP n (i + j' * K)).toNat)
    (fun i hi => ⟨i, hi, 0, by simp, fun _ h => by omega⟩)
    (by
      rintro c ⟨i, hi, j, rfl, hj⟩ h1 h2 h3
      refine ⟨i, hi, j + 1, by ring, fun j' hj' => ?_⟩
      rcases Nat.lt_succ_iff_lt_or_eq.1 hj' with h | rfl
      · exact hj j' h
      · exact ⟨h1, h2, h3⟩)
    (by
      rintro c ⟨i, hi, j, rfl, hj⟩ h1 h2 h3 coins hc
      cases hg : findTwoSquares E (candP n (i + j * K)).toNat coins with
      | none => rfl
      | some g =>
        obtain ⟨r, hr, hu, -⟩ := findTwoSquaresLoop_some E _ coins g hg
        exact absurd ⟨h1, hj, by omega, h3, r, hc.2 r hr, hu⟩ (hno' i hi j)) s h
  have := this.2
  rw [hm] at this
  exact this

end ThreeSqL

end Verif.Lemmas
