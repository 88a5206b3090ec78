import Verif.Model.RangeProof
import Verif.Spec.Commitment
import Verif.Lemmas.Poke
import Mathlib.Tactic.Ring
import Mathlib.Tactic.LinearCombination

/-! # Lemmas about the range proof and the argument of positivity

All numbers of an honest run are of the form `g^A h^B`; `gh` is that number and the lemmas run the code on such numbers. -/

namespace Verif.Lemmas
open Verif.Go Verif.Model Verif.Spec

variable {N : Nat} [NeZero N]

/-- The canonical integer of `g^A h^B`. -/
def gh (g h : (ZMod N)ˣ) (A B : Int) : Int := (((g ^ A * h ^ B : (ZMod N)ˣ) : ZMod N).val : Int)

theorem gh_nonneg (g h : (ZMod N)ˣ) (A B : Int) : 0 ≤ gh g h A B := Int.natCast_nonneg _

theorem gh_cast (g h : (ZMod N)ˣ) (A B : Int) : ((gh g h A B : Int) : ZMod N) = ((g ^ A * h ^ B : (ZMod N)ˣ) : ZMod N) :=
  val_cast _

theorem gh_congr (g h : (ZMod N)ˣ) {A B A' B' : Int} (h1 : A = A') (h2 : B = B') : gh g h A B = gh g h A' B' := by
  rw [h1, h2]

theorem gh_mul_units (g h : (ZMod N)ˣ) (A B A' B' : Int) :
    g ^ A * h ^ B * (g ^ A' * h ^ B') = g ^ (A + A') * h ^ (B + B') := by
  rw [zpow_add, zpow_add, mul_mul_mul_comm]

theorem gh_pow_units (g h : (ZMod N)ˣ) (A B y : Int) : (g ^ A * h ^ B) ^ y = g ^ (A * y) * h ^ (B * y) := by
  rw [mul_zpow, ← zpow_mul, ← zpow_mul]

theorem bigExp_G (G : Int) (hG : 0 ≤ G) (g h : (ZMod N)ˣ) (hg : (g : ZMod N) = G) (y : Int) :
    bigExp G y N = some (gh g h y 0) := by
  rw [bigExp_unit G y hG g hg]
  simp [gh]

theorem bigExp_H (H : Int) (hH : 0 ≤ H) (g h : (ZMod N)ˣ) (hh : (h : ZMod N) = H) (y : Int) :
    bigExp H y N = some (gh g h 0 y) := by
  rw [bigExp_unit H y hH h hh]
  simp [gh]

theorem bigExp_gh (g h : (ZMod N)ˣ) (A B y : Int) : bigExp (gh g h A B) y N = some (gh g h (A * y) (B * y)) := by
  rw [bigExp_unit _ y (gh_nonneg g h A B) (g ^ A * h ^ B) (gh_cast g h A B).symm, gh_pow_units]
  rfl

theorem bigExp_gh_mul (g h : (ZMod N)ˣ) (A B A' B' y : Int) :
    bigExp (gh g h A B * gh g h A' B') y N = some (gh g h ((A + A') * y) ((B + B') * y)) := by
  rw [bigExp_unit _ y (Int.mul_nonneg (gh_nonneg g h A B) (gh_nonneg g h A' B')) (g ^ (A + A') * h ^ (B + B')),
    gh_pow_units]
  · rfl
  · push_cast
    rw [gh_cast, gh_cast, ← Units.val_mul, ← Units.val_mul, gh_mul_units]

theorem modN_gh (g h : (ZMod N)ˣ) (A B A' B' : Int) :
    modN (gh g h A B * gh g h A' B') N = .ok (gh g h (A + A') (B + B')) := by
  unfold modN
  rw [if_neg (by have := natN_pos (N := N); omega), emod_eq_val]
  push_cast
  rw [gh_cast, gh_cast, ← Units.val_mul, gh_mul_units]
  rfl

theorem modN_gh3 (g h : (ZMod N)ˣ) (A B A' B' A'' B'' : Int) :
    modN (gh g h A B * gh g h A' B' * gh g h A'' B'') N = .ok (gh g h (A + A' + A'') (B + B' + B'')) := by
  unfold modN
  rw [if_neg (by have := natN_pos (N := N); omega), emod_eq_val]
  push_cast
  rw [gh_cast, gh_cast, gh_cast, ← Units.val_mul, ← Units.val_mul, gh_mul_units, gh_mul_units]
  rfl

theorem modInverse_gh (g h : (ZMod N)ˣ) (A B : Int) : modInverse (gh g h A B) N = some (gh g h (-A) (-B)) := by
  rw [modInverse_unit _ (g ^ A * h ^ B) (gh_cast g h A B).symm]
  congr 2
  rw [mul_inv, zpow_neg, zpow_neg]

theorem gh_zero (g h : (ZMod N)ˣ) (hN : 1 < N) : gh g h 0 0 = 1 := by
  unfold gh
  have : Fact (1 < N) := ⟨hN⟩
  simp [ZMod.val_one]

theorem nonNil_some {α : Type} (v : α) : nonNil (some v) = .ok v := rfl

theorem res_ok_bind {α β : Type} (v : α) (f : α → Res β) : (Except.ok v >>= f : Res β) = f v := rfl

theorem mulExpMod_gh (g h : (ZMod N)ˣ) (A B A' B' y : Int) :
    mulExpMod (gh g h A B) (gh g h A' B') y N = .ok (gh g h (A + A' * y) (B + B' * y)) := by
  unfold mulExpMod
  rw [bigExp_gh, nonNil_some, res_ok_bind, modN_gh]

theorem mulExpMod_one (g h : (ZMod N)ˣ) (A' B' y : Int) :
    mulExpMod 1 (gh g h A' B') y N = .ok (gh g h (A' * y) (B' * y)) := by
  unfold mulExpMod
  rw [bigExp_gh, nonNil_some, res_ok_bind, one_mul]
  unfold modN
  rw [if_neg (by have := natN_pos (N := N); omega), emod_eq_val, gh_cast]
  rfl

section honest
variable (G H : Int) (hG : 0 ≤ G) (hH : 0 ≤ H) (g h : (ZMod N)ˣ) (hg : (g : ZMod N) = G) (hh : (h : ZMod N) = H)
include hG hH hg hh

theorem mulExpMod_G (A B y : Int) : mulExpMod (gh g h A B) G y N = .ok (gh g h (A + y) B) := by
  unfold mulExpMod
  rw [bigExp_G G hG g h hg, nonNil_some, res_ok_bind, modN_gh, add_zero]

theorem mulExpMod_H (A B y : Int) : mulExpMod (gh g h A B) H y N = .ok (gh g h A (B + y)) := by
  unfold mulExpMod
  rw [bigExp_H H hH g h hh, nonNil_some, res_ok_bind, modN_gh, add_zero]

theorem commitGH_gh (x r : Int) : commitGH ⟨N, G, H⟩ x r = .ok (gh g h x r) := by
  unfold commitGH
  simp only [bigExp_G G hG g h hg, bigExp_H H hH g h hh, nonNil_some, res_ok_bind, modN_gh, add_zero, zero_add]

theorem calC_gh (r x : Int) : calC ⟨N, G, H⟩ r x = .ok (gh g h x r) := commitGH_gh G H hG hH g h hg hh x r

theorem calCa_gh (a A B : Int) : calCa ⟨N, G, H⟩ a (gh g h A B) = .ok (gh g h ((A - a) * 4) (B * 4)) := by
  unfold calCa
  simp only [bigExp_G G hG g h hg, nonNil_some, res_ok_bind, bigExp_gh_mul, Option.getD_some, add_zero]
  rfl

theorem verifyParam_gh (z t A B negE : Int) :
    verifyParam ⟨N, G, H⟩ z t (gh g h A B) negE = .ok (gh g h (z + A * negE) (t + B * negE)) := by
  unfold verifyParam
  simp only [bigExp_G G hG g h hg, bigExp_H H hH g h hh, bigExp_gh, nonNil_some, res_ok_bind, modN_gh3, add_zero,
    zero_add]

theorem isCommit_gh (x r : Int) : IsCommit N G H x r (gh g h x r) := by
  refine ⟨gh g h x 0, gh g h 0 r, ?_, ?_, ?_⟩
  · rw [isPower_iff]
    refine ⟨fun _ => ⟨g, hg⟩, ?_⟩
    rw [← hg, gpow_unit]; simp [gh]
  · rw [isPower_iff]
    refine ⟨fun _ => ⟨h, hh⟩, ?_⟩
    rw [← hh, gpow_unit]; simp [gh]
  · have := modN_gh g h x 0 0 r
    unfold modN at this
    rw [if_neg (by have := natN_pos (N := N); omega)] at this
    rw [add_zero, zero_add] at this
    exact (Except.ok.inj this).symm

end honest

end Verif.Lemmas
