import Verif.Spec.Sigma
import Mathlib.Tactic.LinearCombination
import Mathlib.Tactic.Module
import Mathlib.Tactic.Linarith
import Mathlib.Algebra.Group.TypeTags.Basic

/-! # Two first messages that fit two challenges

The computations are done in additive notation. -/

namespace Verif.Lemmas
open Verif.Spec

theorem range_extract_add {M : Type*} [AddCommGroup M] {g h c k0 k1 k2 f0 f1 f2 f3 l : M}
    {a b e e' z0 z1 z2 z3 t0 t1 t2 t3 tau z0' z1' z2' z3' t0' t1' t2' t3' tau' : Int}
    (v : f0 + e • (-c + b • g) = z0 • g + t0 • h) (v' : f0 + e' • (-c + b • g) = z0' • g + t0' • h)
    (s0 : f1 + e • k0 = z1 • g + t1 • h) (s0' : f1 + e' • k0 = z1' • g + t1' • h)
    (s1 : f2 + e • k1 = z2 • g + t2 • h) (s1' : f2 + e' • k1 = z2' • g + t2' • h)
    (s2 : f3 + e • k2 = z3 • g + t3 • h) (s2' : f3 + e' • k2 = z3' • g + t3' • h)
    (S : l + (z1 • k0 + z2 • k1 + z3 • k2) = tau • h + e • g + z0 • (4 : Int) • (c + -(a • g)))
    (S' : l + (z1' • k0 + z2' • k1 + z3' • k2) = tau' • h + e' • g + z0' • (4 : Int) • (c + -(a • g))) :
    ((e - e') * (e - e') + 4 * (z0 - z0') * ((b - a) * (e - e') - (z0 - z0')) -
        ((z1 - z1') * (z1 - z1') + (z2 - z2') * (z2 - z2') + (z3 - z3') * (z3 - z3'))) • g +
      ((tau - tau') * (e - e') - 4 * (z0 - z0') * (t0 - t0') -
        ((z1 - z1') * (t1 - t1') + (z2 - z2') * (t2 - t2') + (z3 - z3') * (t3 - t3'))) • h = 0 := by
  linear_combination (norm := module) (-(e - e')) • (S - S') + (z1 - z1') • (s0 - s0') + (z2 - z2') • (s1 - s1') +
    (z3 - z3') • (s2 - s2') + (4 * (z0 - z0')) • (v - v')

theorem positivity_extract_add {M : Type*} [AddCommGroup M] {g h c k0 k1 k2 f0 f1 f2 l : M}
    {e e' z0 z1 z2 t0 t1 t2 tau z0' z1' z2' t0' t1' t2' tau' : Int}
    (s0 : f0 + e • k0 = z0 • g + t0 • h) (s0' : f0 + e' • k0 = z0' • g + t0' • h)
    (s1 : f1 + e • k1 = z1 • g + t1 • h) (s1' : f1 + e' • k1 = z1' • g + t1' • h)
    (s2 : f2 + e • k2 = z2 • g + t2 • h) (s2' : f2 + e' • k2 = z2' • g + t2' • h)
    (S : l + e • ((4 : Int) • c + g) = tau • h + (z0 • k0 + z1 • k1 + z2 • k2))
    (S' : l + e' • ((4 : Int) • c + g) = tau' • h + (z0' • k0 + z1' • k1 + z2' • k2)) :
    (4 * (e - e') * (e - e')) • c =
      (((z0 - z0') * (z0 - z0') + (z1 - z1') * (z1 - z1') + (z2 - z2') * (z2 - z2')) - (e - e') * (e - e')) • g +
      ((tau - tau') * (e - e') +
        ((z0 - z0') * (t0 - t0') + (z1 - z1') * (t1 - t1') + (z2 - z2') * (t2 - t2'))) • h := by
  linear_combination (norm := module) (e - e') • (S - S') + (z0 - z0') • (s0 - s0') + (z1 - z1') • (s1 - s1') +
    (z2 - z2') • (s2 - s2')

variable {N : Nat}

/-- Two sets of answers for the same first message of the range proof. -/
theorem range_extract (g h c : (ZMod N)ˣ) (a b : Int) (k : Fin 3 → (ZMod N)ˣ) (e e' : Int) (z z' t t' : Fin 4 → Int)
    (tau tau' : Int) (f : Fin 4 → (ZMod N)ˣ) (l : (ZMod N)ˣ) (H : RangeFits g h c a b k e z t tau f l)
    (H' : RangeFits g h c a b k e' z' t' tau' f l) :
    (c⁻¹ * g ^ b) ^ (e - e') = g ^ (z 0 - z' 0) * h ^ (t 0 - t' 0) ∧
    g ^ ((e - e') * (e - e') + 4 * (z 0 - z' 0) * ((b - a) * (e - e') - (z 0 - z' 0)) -
        ((z 1 - z' 1) * (z 1 - z' 1) + (z 2 - z' 2) * (z 2 - z' 2) + (z 3 - z' 3) * (z 3 - z' 3))) *
      h ^ ((tau - tau') * (e - e') - 4 * (z 0 - z' 0) * (t 0 - t' 0) -
        ((z 1 - z' 1) * (t 1 - t' 1) + (z 2 - z' 2) * (t 2 - t' 2) + (z 3 - z' 3) * (t 3 - t' 3))) = 1 := by
  have tr : ∀ x y : (ZMod N)ˣ, x = y → Additive.ofMul x = Additive.ofMul y := fun x y h => by rw [h]
  have tr' : ∀ x y : (ZMod N)ˣ, Additive.ofMul x = Additive.ofMul y → x = y := fun x y h => Additive.ofMul.injective h
  obtain ⟨v, s, S⟩ := H
  obtain ⟨v', s', S'⟩ := H'
  have s0 := tr _ _ (s 0)
  have s1 := tr _ _ (s 1)
  have s2 := tr _ _ (s 2)
  have s0' := tr _ _ (s' 0)
  have s1' := tr _ _ (s' 1)
  have s2' := tr _ _ (s' 2)
  replace v := tr _ _ v
  replace v' := tr _ _ v'
  replace S := tr _ _ S
  replace S' := tr _ _ S'
  simp only [Fin.succ_zero_eq_one, Fin.prod_univ_three, Fin.succ_one_eq_two, show (2 : Fin 3).succ = 3 from rfl,
    ofMul_mul, ofMul_zpow, ofMul_inv, ofMul_pow] at v v' s0 s1 s2 s0' s1' s2' S S'
  rw [← natCast_zsmul] at S S'
  constructor
  · apply tr'
    simp only [ofMul_mul, ofMul_zpow, ofMul_inv]
    linear_combination (norm := module) v - v'
  · apply tr'
    simp only [ofMul_mul, ofMul_zpow, ofMul_one]
    exact range_extract_add v v' s0 s0' s1 s1' s2 s2' S S'

/-- Two sets of answers for the same first message of the argument of positivity. -/
theorem positivity_extract (g h c : (ZMod N)ˣ) (k : Fin 3 → (ZMod N)ˣ) (e e' : Int) (z z' t t' : Fin 3 → Int)
    (tau tau' : Int) (f : Fin 3 → (ZMod N)ˣ) (l : (ZMod N)ˣ) (H : PositivityFits g h c k e z t tau f l)
    (H' : PositivityFits g h c k e' z' t' tau' f l) :
    c ^ (4 * (e - e') * (e - e')) =
      g ^ (((z 0 - z' 0) * (z 0 - z' 0) + (z 1 - z' 1) * (z 1 - z' 1) + (z 2 - z' 2) * (z 2 - z' 2)) -
        (e - e') * (e - e')) *
      h ^ ((tau - tau') * (e - e') +
        ((z 0 - z' 0) * (t 0 - t' 0) + (z 1 - z' 1) * (t 1 - t' 1) + (z 2 - z' 2) * (t 2 - t' 2))) := by
  have tr : ∀ x y : (ZMod N)ˣ, x = y → Additive.ofMul x = Additive.ofMul y := fun x y h => by rw [h]
  have tr' : ∀ x y : (ZMod N)ˣ, Additive.ofMul x = Additive.ofMul y → x = y := fun x y h => Additive.ofMul.injective h
  obtain ⟨s, S⟩ := H
  obtain ⟨s', S'⟩ := H'
  have s0 := tr _ _ (s 0)
  have s1 := tr _ _ (s 1)
  have s2 := tr _ _ (s 2)
  have s0' := tr _ _ (s' 0)
  have s1' := tr _ _ (s' 1)
  have s2' := tr _ _ (s' 2)
  replace S := tr _ _ S
  replace S' := tr _ _ S'
  simp only [Fin.prod_univ_three, ofMul_mul, ofMul_zpow, ofMul_pow] at s0 s1 s2 s0' s1' s2' S S'
  rw [← natCast_zsmul] at S S'
  apply tr'
  simp only [ofMul_mul, ofMul_zpow]
  exact positivity_extract_add s0 s0' s1 s1' s2 s2' S S'

/-- The range from the equation over the integers. -/
theorem range_of_squares (a b m d w : Int) (hab : a ≤ b) (hd : d ≠ 0) (hw : 0 ≤ w)
    (h : d * d + 4 * (d * m) * ((b - a) * d - d * m) - w = 0) : a ≤ b - m ∧ b - m ≤ b := by
  have h1 : 0 ≤ d * d * (1 + 4 * m * ((b - a) - m)) := by nlinarith
  have h2 : 0 < d * d := by have := mul_self_pos.2 hd; exact this
  have h3 : 0 ≤ 1 + 4 * m * ((b - a) - m) := nonneg_of_mul_nonneg_right h1 h2
  have h4 : 0 ≤ m * ((b - a) - m) := by
    by_contra hc
    have : m * ((b - a) - m) ≤ -1 := by omega
    nlinarith
  constructor
  · by_contra hc
    have : b - a - m ≤ -1 := by omega
    have : 0 < m := by omega
    nlinarith
  · by_contra hc
    have : m ≤ -1 := by omega
    have : 0 < b - a - m := by omega
    nlinarith

end Verif.Lemmas
