import Verif.Props.SetupErrors
import Mathlib.Tactic.NormNum.LegendreSymbol

/-! # The built-in parameters and the setup (C147) -/

namespace Verif.Props
open Verif.Go Verif.Model Verif.Lemmas Verif.Spec

/-- What can be checked of the parameters without the factors of the modulus. -/
structure LooksLikeSetup (N g h : Nat) : Prop where
  bits : N.size = 2048
  residue : N % 12 = 1
  composite : ¬ N.Prime
  gBelow : g < 2 ^ 2047
  hBelow : h < N
  gJacobi : jacobiSym g N = 1
  hJacobi : jacobiSym h N = 1

/-- C147: whatever is printed by `TrustedSetupForQRN` looks like this, and so do the constants of the code; and some run of
`RandomSetupForUniversalHash` with an exact test for primes prints the constants P, A and B of the code. -/
def C147_statement : Prop :=
  (∀ (S : SetupSource) (test : Nat → Bool) (fuel : Nat) (v : SetupResult) (s : Cell Bytes), SizedSource S →
    (∀ n, test n = true → n.Prime) → trustedSetupDraw S test fuel freshCell = (.ok v, s) →
    LooksLikeSetup v.N v.g v.h.toNat) ∧
  LooksLikeSetup n2048 g2048 h2048 ∧
  ∃ (S : SetupSource) (test : Nat → Bool) (fuel : Nat) (s : Cell Bytes), SizedSource S ∧
    (∀ i bits r, S.prime i bits = some r → r.Prime) ∧ (∀ n, test n = true ↔ n.Prime) ∧
    randomSetupDraw S test fuel freshCell = (.ok (uhP, uhA, uhB), s)

/-- A safe prime above 7 is 11 modulo 12. -/
theorem safePrime_mod (p p' : Nat) (hp : p.Prime) (hp' : p'.Prime) (e : p = 2 * p' + 1) (h3 : 3 < p') : p % 12 = 11 := by
  have h1 : p' % 2 = 1 := by
    rcases hp'.eq_two_or_odd with h | h <;> omega
  have h2 : p' % 3 ≠ 0 := fun h => by
    have := (Nat.prime_dvd_prime_iff_eq Nat.prime_three hp').1 (Nat.dvd_of_mod_eq_zero h)
    omega
  have h4 : p % 3 ≠ 0 := fun h => by
    have := (Nat.prime_dvd_prime_iff_eq Nat.prime_three hp).1 (Nat.dvd_of_mod_eq_zero h)
    omega
  have h5 : p' % 3 = 2 := by
    subst e
    have : p' % 3 = 0 ∨ p' % 3 = 1 ∨ p' % 3 = 2 := by omega
    rcases this with h | h | h <;> omega
  have h6 : p' % 6 = 5 := by omega
  omega

theorem isQR_jacobi (x : Int) (p q : Nat) (hp : p % 2 = 1) (hq : q % 2 = 1) (h : isQR x p q = .ok true) :
    jacobiSym x p = 1 ∧ jacobiSym x q = 1 := by
  unfold isQR bigJacobi at h
  rw [if_neg (by omega), if_neg (by omega)] at h
  by_cases h1 : jacobiSym x p = 1
  · refine ⟨h1, ?_⟩
    have h2 : (Except.ok (decide (jacobiSym x q = 1)) : Res Bool) = .ok true := by
      rw [← h]
      exact (if_pos h1).symm
    exact of_decide_eq_true (Except.ok.inj h2)
  · have h2 : (Except.ok false : Res Bool) = .ok true := by
      rw [← h]
      exact (if_neg h1).symm
    cases Except.ok.inj h2

theorem run_looks (S : SetupSource) (test : Nat → Bool) (fuel : Nat) (v : SetupResult) (s : Cell Bytes) (hS : SizedSource S)
    (hsound : ∀ n, test n = true → n.Prime) (h : trustedSetupDraw S test fuel freshCell = (.ok v, s)) :
    LooksLikeSetup v.N v.g v.h.toNat := by
  obtain ⟨b1, b2, b3, -, -, -, b4, -⟩ := C146_sizes S test fuel v s hS hsound h
  obtain ⟨-, -, ⟨k, hg⟩, -⟩ := trustedSetupDraw_ok S test fuel v _ _ h
  obtain ⟨e, sp, sq, hqr, m, hh⟩ := setup_result S test fuel v s hsound h
  have mod : ∀ p, SafePrime p → p.size = 1024 → p % 12 = 11 := by
    rintro p ⟨hp, p', hp', e⟩ hz
    refine safePrime_mod p p' hp hp' e ?_
    have : 2 ^ 4 ≤ p := Nat.lt_size.1 (by omega)
    omega
  have mp := mod _ sp b2
  have mq := mod _ sq b3
  obtain ⟨j1, j2⟩ := isQR_jacobi _ _ _ (by omega) (by omega) hqr
  have np : NeZero v.p := ⟨sp.1.ne_zero⟩
  have nq : NeZero v.q := ⟨sq.1.ne_zero⟩
  have hj : jacobiSym v.g v.N = 1 := by rw [e, jacobiSym.mul_right, j1, j2]; rfl
  refine ⟨b1, ?_, ?_, ?_, ?_, hj, ?_⟩
  · rw [e, Nat.mul_mod, mp, mq]
  · rw [e]
    exact Nat.not_prime_mul sp.1.ne_one sq.1.ne_one
  · exact lt_of_lt_of_eq (hS.below _ _ _ hg) (congrArg (fun n => 2 ^ n) (by omega : 2048 - 1 = 2047))
  · omega
  · rw [hh, Int.toNat_natCast, Int.natCast_mod, ← jacobiSym.mod_left, Nat.cast_pow, jacobiSym.pow_left, hj, one_pow]

theorem n2048_composite : ¬ n2048.Prime := by
  intro hp
  have : Fact n2048.Prime := ⟨hp⟩
  have h2 : ((2 : Nat) : ZMod n2048) ≠ 0 := by
    intro h0
    have := (ZMod.natCast_eq_zero_iff 2 n2048).1 h0
    have := Nat.le_of_dvd (by omega) this
    exact absurd this (by decide +kernel)
  have h1 := ZMod.pow_card_sub_one_eq_one h2
  have h3 : powMod n2048 2048 2 (n2048 - 1) ≠ 1 := by decide +kernel
  rw [powMod_eq _ _ _ _ (by decide +kernel)] at h3
  apply h3
  have h4 : ((2 ^ (n2048 - 1) : Nat) : ZMod n2048) = ((1 : Nat) : ZMod n2048) := by
    rw [Nat.cast_pow, h1, Nat.cast_one]
  rw [ZMod.natCast_eq_natCast_iff, Nat.ModEq] at h4
  rw [h4]
  exact Nat.mod_eq_of_lt hp.one_lt

set_option maxRecDepth 100000 in
theorem g2048_jacobi : jacobiSym (g2048 : Nat) n2048 = 1 := by
  unfold g2048 n2048
  norm_num1

set_option maxRecDepth 100000 in
theorem h2048_jacobi : jacobiSym (h2048 : Nat) n2048 = 1 := by
  unfold h2048 n2048
  norm_num1

/-- The constant P of the code is a prime number. -/
theorem uhP_prime : uhP.Prime := prime_of_pratt uhP
    [(3, 2, [2]), (17, 3, [2, 2, 2, 2]), (19, 2, [2, 3, 3]), (5, 2, [2, 2]), (11, 2, [2, 5]), (41, 6, [2, 2, 2, 5]), (83,
    2, [2, 41]), (152389, 7, [2, 2, 3, 3, 3, 17, 83]), (1357785991, 3, [2, 3, 3, 3, 3, 5, 11, 152389]), (7, 3, [2, 3]),
    (13, 2, [2, 2, 3]), (23, 5, [2, 11]), (47, 5, [2, 23]), (53, 2, [2, 2, 13]), (743, 5, [2, 7, 53]), (1487, 5, [2,
    743]), (67, 2, [2, 3, 11]), (269, 2, [2, 2, 67]), (3229, 6, [2, 2, 3, 269]), (46939688849, 3, [2, 2, 2, 2, 13, 47,
    1487, 3229]), (93879377699, 2, [2, 46939688849]), (1123736151057031, 12, [2, 3, 3, 5, 7, 19, 93879377699]), (5701, 2,
    [2, 2, 3, 5, 5, 19]), (43, 3, [2, 3, 7]), (31649, 3, [2, 2, 2, 2, 2, 23, 43]), (93059, 2, [2, 7, 17, 17, 23]),
    (3139609094207, 5, [2, 13, 41, 31649, 93059]), (73, 5, [2, 2, 2, 3, 3]), (19206793189, 2, [2, 2, 3, 3, 11, 11, 11, 17,
    17, 19, 73]), (45981062894467, 2, [2, 3, 3, 7, 19, 19206793189]), (113, 3, [2, 2, 2, 2, 7]), (80683, 3, [2, 3, 7, 17,
    113]), (29, 2, [2, 2, 7]), (59, 2, [2, 29]), (64901, 2, [2, 2, 5, 5, 11, 59]), (129803, 2, [2, 64901]), (9829, 10, [2,
    2, 3, 3, 3, 7, 13]), (688031, 7, [2, 5, 7, 9829]), (357233951573, 2, [2, 2, 129803, 688031]), (345872482977172309, 2,
    [2, 2, 3, 80683, 357233951573]), (30742939662812780561538718868664402798175664061469, 2, [2, 2, 3, 3, 3, 5701,
    3139609094207, 45981062894467, 345872482977172309]),
    (90906479945022450706608444255860322124872501190254782434061962615363326054763, 11, [2, 3, 17, 19, 1357785991,
    1123736151057031, 30742939662812780561538718868664402798175664061469])]
    (by decide +kernel)

theorem uhP_size : uhP.size = 256 := size_of_bounds _ 255 (by decide +kernel) (by decide +kernel)

/-- The source that gives `p`, `a` and `b`. -/
def threeNumbers (p a b : Nat) : SetupSource where
  prime _ bits := if bits = 256 then some p else none
  int i max := if max = p then some (if i = 1 then a else b) else none

theorem threeNumbers_prime (p a b i bits r : Nat) (h : (threeNumbers p a b).prime i bits = some r) : bits = 256 ∧ r = p := by
  unfold threeNumbers at h
  dsimp only at h
  split at h
  · rename_i hb
    exact ⟨hb, (Option.some.inj h).symm⟩
  · cases h

theorem threeNumbers_sized (p a b : Nat) (hp : p.size = 256) (ht : 3 * 2 ^ (256 - 2) ≤ p) (ha : a < p) (hb : b < p) :
    SizedSource (threeNumbers p a b) := by
  refine ⟨?_, ?_, ?_⟩
  · intro i bits r h
    obtain ⟨rfl, rfl⟩ := threeNumbers_prime _ _ _ _ _ _ h
    exact hp
  · intro i bits r h
    obtain ⟨rfl, rfl⟩ := threeNumbers_prime _ _ _ _ _ _ h
    exact ht
  · intro i max v h
    unfold threeNumbers at h
    dsimp only at h
    split at h
    · rename_i hm
      have := Option.some.inj h
      split at this <;> omega
    · cases h

theorem threeNumbers_run (p a b : Nat) (test : Nat → Bool) (ht : test p = true) (hp : p ≠ 0) :
    ∃ s, randomSetupDraw (threeNumbers p a b) test 1 freshCell = (.ok (p, a, b), s) := by
  have h1 : getPrime256Draw (threeNumbers p a b) test 1 freshCell = (.ok p, ⟨[some (p : Int)], []⟩) := by
    rw [getPrime256Draw, draw_bind_ok _ _ freshCell ⟨[some (p : Int)], []⟩ p
      ((mustReturn_ok_iff _ _ _ _).2 ((randPrime_ok_iff _ _ _ _ _).2 ⟨by omega, rfl, rfl⟩)), ht]
    rfl
  have h2 : Draw.mustReturn (randBelow (threeNumbers p a b) p) ⟨[some (p : Int)], ([] : Bytes)⟩ =
      (.ok a, ⟨[some (p : Int), some (a : Int)], []⟩) :=
    (mustReturn_ok_iff _ _ _ _).2 ((randBelow_ok_iff _ _ _ _ _).2 ⟨hp, if_pos rfl, rfl⟩)
  have h3 : Draw.mustReturn (randBelow (threeNumbers p a b) p) ⟨[some (p : Int), some (a : Int)], ([] : Bytes)⟩ =
      (.ok b, ⟨[some (p : Int), some (a : Int), some (b : Int)], []⟩) :=
    (mustReturn_ok_iff _ _ _ _).2 ((randBelow_ok_iff _ _ _ _ _).2 ⟨hp, if_pos rfl, rfl⟩)
  unfold randomSetupDraw
  rw [draw_bind_ok _ _ _ _ _ h1, draw_bind_ok _ _ _ _ _ h2, draw_bind_ok _ _ _ _ _ h3]
  exact ⟨_, rfl⟩

/-- C147 holds. -/
theorem C147_builtin : C147_statement := by
  refine ⟨run_looks, ⟨size_of_bounds _ 2047 (by decide +kernel) (by decide +kernel), by decide +kernel, n2048_composite,
    by decide +kernel, by decide +kernel, g2048_jacobi, h2048_jacobi⟩, ?_⟩
  obtain ⟨s, hs⟩ := threeNumbers_run uhP uhA uhB exactTest ((exactTest_iff _).2 uhP_prime) uhP_prime.ne_zero
  refine ⟨_, exactTest, 1, s, threeNumbers_sized _ _ _ uhP_size (by decide +kernel) (by decide +kernel) (by decide +kernel), ?_,
    exactTest_iff, hs⟩
  intro i bits r h
  rw [(threeNumbers_prime _ _ _ _ _ _ h).2]
  exact uhP_prime

/-- A completed run to which the first part applies. -/
example : ∃ v s, trustedSetupDraw (twoPrimes setupPrime1 setupPrime2) exactTest 1 freshCell = (.ok v, s) ∧ v.N % 12 = 1 := by
  obtain ⟨v, s, hr, -⟩ := twoPrimes_run setupPrime1 setupPrime2 exactTest ((exactTest_iff _).2 setupPrime1_prime)
    ((exactTest_iff _).2 setupPrime2_prime) ((exactTest_iff _).2 setupPrime1_safe) ((exactTest_iff _).2 setupPrime2_safe)
  exact ⟨v, s, hr, (run_looks _ _ _ _ _ (twoPrimes_sized _ _ setupPrime1_size setupPrime2_size setupPrime1_top setupPrime2_top)
    (fun n => (exactTest_iff n).1) hr).residue⟩

end Verif.Props
