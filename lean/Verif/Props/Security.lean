import Verif.Props.Accumulator
import Verif.Props.Representatives
import Verif.Props.Poke
import Mathlib.Data.Int.GCD
import Mathlib.Tactic.NormNum.Prime
import Mathlib.FieldTheory.Finite.Basic
import Mathlib.GroupTheory.OrderOfElement

/-!
# Properties C88 to C90: what a forger must be able to compute

Nothing here assumes that a problem is hard. The theorems say which number is computed from a forgery, by an explicit
formula.
-/

namespace Verif.Props
open Verif.Go Verif.Model Verif.Lemmas Verif.Spec

variable {N : Nat}

/-! ## C88 -/

/-- Shamir's trick: the number computed from `g`, `w` with `w^e = g^P` by the extended Euclidean algorithm. -/
def shamir (g w : (ZMod N)ˣ) (e P : Nat) : (ZMod N)ˣ := g ^ (Nat.gcdA e P) * w ^ (Nat.gcdB e P)

theorem shamir_pow (g w : (ZMod N)ˣ) (e P : Nat) (h : w ^ e = g ^ P) : shamir g w e P ^ e = g ^ Nat.gcd e P := by
  have h' : w ^ (e : Int) = g ^ (P : Int) := by rw [zpow_natCast, zpow_natCast, h]
  rw [shamir, mul_pow, ← zpow_natCast, ← zpow_natCast (w ^ _), ← zpow_mul, ← zpow_mul, mul_comm (Nat.gcdB e P) (e : Int),
    zpow_mul w, h', ← zpow_mul, ← zpow_add, ← zpow_natCast, Nat.gcd_eq_gcd_ab, mul_comm (Nat.gcdA e P)]

/-- A number `w` with `w^e ≡ acc` for invertible `acc` is invertible. -/
theorem unit_of_pow {w e : Nat} (he : e ≠ 0) {c : (ZMod N)ˣ} (h : (w : ZMod N) ^ e = c) :
    ∃ u : (ZMod N)ˣ, (u : ZMod N) = w ∧ u ^ e = c := by
  have hu : IsUnit (w : ZMod N) := by
    rw [← isUnit_pow_iff he, h]; exact c.isUnit
  obtain ⟨u, hu⟩ := hu
  refine ⟨u, hu, Units.ext ?_⟩
  rw [Units.val_pow_eq_pow_val, hu, h]

theorem accumulateNewPow_cast (w e N : Nat) : ((accumulateNewPow w e N : Nat) : ZMod N) = (w : ZMod N) ^ e := by
  rw [accumulateNewPow, expMod, ZMod.natCast_mod, Nat.cast_pow]

/-- C88, the computation: whoever shows a number `w` that verifies for `e` against the accumulator that `AccAndProve`
returned has an `e`-th root of `G^d`, where `d` is the greatest common divisor of `e` and the accumulated product. -/
theorem C88_forged_root (E : Env) (fuel : Nat) (set : List Bytes) (enc : Int) (setup : Setup) (rep : List Nat)
    (out : Nat × List Nat) (hrep : genRepresentatives E fuel set enc = Run.ok rep) (hne : set ≠ [])
    (hout : accAndProve E fuel set enc setup = Run.ok out) (g : (ZMod setup.N)ˣ) (hg : (g : ZMod setup.N) = setup.G)
    (e w : Nat) (he : e ≠ 0) (hw : accumulateNewPow w e setup.N = out.1) :
    ∃ u : (ZMod setup.N)ˣ, (u : ZMod setup.N) = w ∧ u ^ e = g ^ rep.prod ∧
      shamir g u e rep.prod ^ e = g ^ Nat.gcd e rep.prod := by
  obtain ⟨o, ho, h1, -⟩ := C02_accAndProve E fuel set enc setup rep hrep hne
  rw [hout] at ho
  have ho := run_ok_inj ho
  subst ho
  have h2 : (w : ZMod setup.N) ^ e = ((g ^ rep.prod : (ZMod setup.N)ˣ) : ZMod setup.N) := by
    rw [← accumulateNewPow_cast, hw, h1, ZMod.natCast_mod, Nat.cast_pow, Units.val_pow_eq_pow_val, hg]
  obtain ⟨u, hu, h3⟩ := unit_of_pow he h2
  exact ⟨u, hu, h3, shamir_pow g u e _ h3⟩

/-- C88 for prime representatives: if the primality test is right about the numbers it accepts, a witness for a string
whose representative is not accumulated gives a root of `G` of prime degree. -/
theorem C88_prime_representatives (E : Env) (hp : ∀ n, E.probablyPrime n = true → n.Prime) (fuel : Nat)
    (set : List Bytes) (enc : Int) (henc : enc ≠ 7) (setup : Setup) (rep : List Nat) (out : Nat × List Nat)
    (hrep : genRepresentatives E fuel set enc = Run.ok rep) (hne : set ≠ [])
    (hout : accAndProve E fuel set enc setup = Run.ok out) (g : (ZMod setup.N)ˣ) (hg : (g : ZMod setup.N) = setup.G)
    (s : Bytes) (f e w : Nat) (hs : hashToPrime E f s = some e) (hnew : e ∉ rep)
    (hw : accumulateNewPow w e setup.N = out.1) :
    e.Prime ∧ ∃ u : (ZMod setup.N)ˣ, (u : ZMod setup.N) = w ∧ shamir g u e rep.prod ^ e = g := by
  have hprime : ∀ (f : Nat) (v : Bytes) (r : Nat), hashToPrime E f v = some r → r.Prime := by
    intro f v r h
    obtain ⟨k, -, h2, -⟩ := (C16_hashToPrime_first_prime E v r).1 ⟨f, h⟩
    exact hp _ h2
  have he := hprime f s e hs
  refine ⟨he, ?_⟩
  obtain ⟨u, hu, -, h⟩ := C88_forged_root E fuel set enc setup rep out hrep hne hout g hg e w he.ne_zero hw
  refine ⟨u, hu, ?_⟩
  have hco : Nat.gcd e rep.prod = 1 := by
    rw [← Nat.coprime_iff_gcd_eq_one, he.coprime_iff_not_dvd, Prime.dvd_prod_iff he.prime]
    rintro ⟨r, hr, hd⟩
    have hF := (C15_default_is_hashToPrime E fuel set enc henc rep).1 hrep
    obtain ⟨v, -, hv⟩ : ∃ v ∈ set, hashToPrime E fuel v = some r := by
      obtain ⟨i, hi, rfl⟩ := List.mem_iff_getElem.1 hr
      have hi' : i < set.length := by rw [hF.length_eq]; exact hi
      exact ⟨set[i], List.getElem_mem hi', by simpa using hF.get hi' hi⟩
    exact hnew (((Nat.prime_dvd_prime_iff_eq he (hprime _ _ _ hv)).1 hd) ▸ hr)
  rw [hco, pow_one] at h
  exact h

/-- C88 for DI representatives: a witness for a representative that does not divide the accumulated product gives a root
of `G` of degree at least 2, up to an element of order dividing `d`; there is no such element besides 1 if `d` is
coprime to the number of invertible residues. -/
theorem C88_di_representatives (E : Env) (fuel : Nat) (set : List Bytes) (enc : Int) (setup : Setup) (rep : List Nat)
    (out : Nat × List Nat) (hrep : genRepresentatives E fuel set enc = Run.ok rep) (hne : set ≠ [])
    (hout : accAndProve E fuel set enc setup = Run.ok out) (hN : setup.N ≠ 0)
    (g : (ZMod setup.N)ˣ) (hg : (g : ZMod setup.N) = setup.G)
    (input : List Nat) (w : Nat) (hnew : ¬ diHashPoseidon E input ∣ rep.prod)
    (hw : accumulateNewPow w (diHashPoseidon E input) setup.N = out.1) :
    ∃ d k : Nat, d = Nat.gcd (diHashPoseidon E input) rep.prod ∧ d * k = diHashPoseidon E input ∧ 2 ≤ k ∧
      ∃ u : (ZMod setup.N)ˣ, (u : ZMod setup.N) = w ∧
        (shamir g u (diHashPoseidon E input) rep.prod ^ k * g⁻¹) ^ d = 1 ∧
        (Nat.Coprime d setup.N.totient → shamir g u (diHashPoseidon E input) rep.prod ^ k = g) := by
  have h0 : diHashPoseidon E input ≠ 0 := by
    have h1 := (C18_diHash_range E input).1
    have h2 : 0 < 2 ^ 1023 := pow_pos (by decide) _
    exact fun h => by rw [h] at h1; exact absurd h2 (Nat.not_lt.2 h1)
  obtain ⟨u, hu, -, h⟩ := C88_forged_root E fuel set enc setup rep out hrep hne hout g hg _ w h0 hw
  generalize diHashPoseidon E input = e at *
  obtain ⟨k, hk⟩ := Nat.gcd_dvd_left e rep.prod
  have hk2 : 2 ≤ k := by
    rcases k with _ | _ | k
    · rw [Nat.mul_zero] at hk; exact absurd hk h0
    · exact absurd (by rw [hk, Nat.zero_add, Nat.mul_one]; exact Nat.gcd_dvd_right _ _) hnew
    · omega
  have ht : (shamir g u e rep.prod ^ k * g⁻¹) ^ (Nat.gcd e rep.prod) = 1 := by
    rw [mul_pow, ← pow_mul, mul_comm k, ← hk, h, inv_pow, mul_inv_cancel]
  refine ⟨_, k, rfl, hk.symm, hk2, u, hu, ht, ?_⟩
  intro hco
  have : NeZero setup.N := ⟨hN⟩
  have h1 : orderOf (shamir g u e rep.prod ^ k * g⁻¹) ∣ Nat.gcd e rep.prod := orderOf_dvd_of_pow_eq_one ht
  have h2 : orderOf (shamir g u e rep.prod ^ k * g⁻¹) ∣ setup.N.totient := orderOf_dvd_of_pow_eq_one (ZMod.pow_totient _)
  have h3 : orderOf (shamir g u e rep.prod ^ k * g⁻¹) = 1 :=
    Nat.dvd_one.1 (hco ▸ Nat.dvd_gcd h1 h2)
  rw [orderOf_eq_one_iff, mul_inv_eq_one] at h3
  exact h3

/-- C88: two sets of strings with different products of representatives and the same accumulator give a positive multiple
of the order of `G`. -/
theorem C88_same_accumulator (E : Env) (f1 f2 : Nat) (set1 set2 : List Bytes) (enc : Int) (setup : Setup)
    (rep1 rep2 : List Nat) (o1 o2 : Nat × List Nat) (h1 : genRepresentatives E f1 set1 enc = Run.ok rep1)
    (h2 : genRepresentatives E f2 set2 enc = Run.ok rep2) (n1 : set1 ≠ []) (n2 : set2 ≠ [])
    (a1 : accAndProve E f1 set1 enc setup = Run.ok o1) (a2 : accAndProve E f2 set2 enc setup = Run.ok o2)
    (heq : o1.1 = o2.1) (hlt : rep1.prod < rep2.prod) (g : (ZMod setup.N)ˣ) (hg : (g : ZMod setup.N) = setup.G) :
    0 < rep2.prod - rep1.prod ∧ g ^ (rep2.prod - rep1.prod) = 1 := by
  refine ⟨by omega, ?_⟩
  obtain ⟨p1, e1, q1, -⟩ := C02_accAndProve E f1 set1 enc setup rep1 h1 n1
  obtain ⟨p2, e2, q2, -⟩ := C02_accAndProve E f2 set2 enc setup rep2 h2 n2
  rw [a1] at e1
  rw [a2] at e2
  have e1 := run_ok_inj e1
  have e2 := run_ok_inj e2
  subst e1 e2
  have h : g ^ rep1.prod = g ^ rep2.prod := by
    apply Units.ext
    rw [Units.val_pow_eq_pow_val, Units.val_pow_eq_pow_val, hg, ← Nat.cast_pow, ← Nat.cast_pow, ← ZMod.natCast_mod,
      ← q1, heq, q2, ZMod.natCast_mod]
  have h' : g ^ rep1.prod * g ^ (rep2.prod - rep1.prod) = g ^ rep1.prod := by
    rw [← pow_add, show rep1.prod + (rep2.prod - rep1.prod) = rep2.prod by omega, h]
  exact mul_eq_left.1 h'

/-- A hash for examples whose primality test is right. -/
def primeEnv : Env where
  sha256 := fun b => List.replicate 31 0 ++ [if b = [50] then 13 else 11]
  sha256_length := by intro b; simp
  probablyPrime := fun n => decide n.Prime
  poseidon := fun _ => 0
  poseidon_lt := by intro l; decide

theorem pow_mod_35 (a k r : Nat) (h : a ^ 12 % 35 = 1) : a ^ (12 * k + r) % 35 = a ^ r % 35 := by
  rw [pow_add, pow_mul, Nat.mul_mod, Nat.pow_mod (a ^ 12), h, one_pow, Nat.mul_mod (1 % 35)]
  simp

theorem two_add_pos (m : Nat) : 0 < 2 + m := by omega

theorem min1024_mod_12 : ∃ k, min1024 = 12 * k + 8 := by
  refine ⟨min1024 / 12, ?_⟩
  have : min1024 % 12 = 8 := by unfold min1024; decide +kernel
  omega

/-- 18 verifies for the string "3", with representative 11, though only "2", with representative 13, is accumulated. -/
example : ∃ out, accAndProve primeEnv 1 [[50]] 0 ⟨35, 2⟩ = Run.ok out ∧ hashToPrime primeEnv 1 [51] = some 11 ∧
    11 ∉ [13] ∧ accumulateNewPow 18 11 35 = out.1 ∧ ∃ u : (ZMod 35)ˣ, (u : ZMod 35) = (18 : Nat) ∧
      shamir (ZMod.unitOfCoprime 2 (by decide)) u 11 13 ^ 11 = ZMod.unitOfCoprime 2 (by decide) := by
  have hp : primeEnv.probablyPrime 13 = true ∧ primeEnv.probablyPrime 11 = true :=
    ⟨decide_eq_true (show Nat.Prime 13 by norm_num), decide_eq_true (show Nat.Prime 11 by norm_num)⟩
  have h13 : hashToPrime primeEnv 1 [50] = some 13 := by
    have : setBytes (primeEnv.sha256 [50]) = 13 := by decide
    simp only [hashToPrime, hashToPrimeLoop, this, hp.1, if_true]
  have h11 : hashToPrime primeEnv 1 [51] = some 11 := by
    have : setBytes (primeEnv.sha256 [51]) = 11 := by decide
    simp only [hashToPrime, hashToPrimeLoop, this, hp.2, if_true]
  have hrep := (C15_default_is_hashToPrime primeEnv 1 [[50]] 0 (by decide) [13]).2 (.cons h13 .nil)
  obtain ⟨out, ho, h1, -⟩ := C02_accAndProve primeEnv 1 [[50]] 0 ⟨35, 2⟩ [13] hrep (by simp)
  have hacc : accumulateNewPow 18 11 35 = out.1 := by rw [h1]; decide
  obtain ⟨-, u, hu, h⟩ := C88_prime_representatives primeEnv (fun n h => of_decide_eq_true h) 1 [[50]] 0 (by decide) ⟨35, 2⟩ [13] out
    hrep (by simp) ho (ZMod.unitOfCoprime 2 (by decide)) (ZMod.coe_unitOfCoprime _ _) [51] 1 11 18 h11 (by decide) hacc
  exact ⟨out, ho, h11, by decide, hacc, u, hu, by simpa using h⟩

theorem forged_di (m k : Nat) (hm : m = 12 * k + 8) (d : Nat) (hd : d = 3 + m)
    (hrep : genRepresentatives exampleEnv 3 [[50]] diHashFromPoseidon = Run.ok [2 + m]) :
    ∃ rep out, genRepresentatives exampleEnv 3 [[50]] diHashFromPoseidon = Run.ok rep ∧
      accAndProve exampleEnv 3 [[50]] diHashFromPoseidon ⟨35, 2⟩ = Run.ok out ∧
      ¬ d ∣ rep.prod ∧ accumulateNewPow 4 d 35 = out.1 := by
  obtain ⟨out, ho, h1, -⟩ := C02_accAndProve exampleEnv 3 [[50]] diHashFromPoseidon ⟨35, 2⟩ _ hrep (by simp)
  subst hd hm
  refine ⟨_, out, hrep, ho, ?_, ?_⟩
  · rw [List.prod_singleton]
    intro h
    have := Nat.le_of_dvd (two_add_pos _) h
    omega
  · rw [h1, List.prod_singleton]
    unfold accumulateNewPow expMod
    rw [show 3 + (12 * k + 8) = 12 * k + 11 by omega, show 2 + (12 * k + 8) = 12 * k + 10 by omega,
      pow_mod_35 _ _ _ (by decide), pow_mod_35 _ _ _ (by decide)]
    decide

/-- 4 verifies for the DI representative of 3, though only "2" is accumulated. -/
example : ∃ rep out, genRepresentatives exampleEnv 3 [[50]] diHashFromPoseidon = Run.ok rep ∧
    accAndProve exampleEnv 3 [[50]] diHashFromPoseidon ⟨35, 2⟩ = Run.ok out ∧
    ¬ diHashPoseidon exampleEnv [3] ∣ rep.prod ∧ accumulateNewPow 4 (diHashPoseidon exampleEnv [3]) 35 = out.1 := by
  have hrep : genRepresentatives exampleEnv 3 [[50]] diHashFromPoseidon = Run.ok [2 + min1024] := by
    rw [genRepresentatives_ok_iff]
    exact .cons (exampleRepOf _ 2 (by decide) (by omega)) .nil
  have hd : diHashPoseidon exampleEnv [3] = 3 + min1024 := by
    unfold diHashPoseidon
    rw [show exampleEnv.poseidon [3] = 3 from rfl]
  obtain ⟨k, hk⟩ := min1024_mod_12
  exact forged_di min1024 k hk _ hd hrep

theorem same_di (M : Nat) (h1 : genRepresentatives exampleEnv 3 [[50]] diHashFromPoseidon = Run.ok [2 + M])
    (h2 : genRepresentatives exampleEnv 3 [[49, 52]] diHashFromPoseidon = Run.ok [14 + M]) :
    ∃ o1 o2, accAndProve exampleEnv 3 [[50]] diHashFromPoseidon ⟨35, 2⟩ = Run.ok o1 ∧
      accAndProve exampleEnv 3 [[49, 52]] diHashFromPoseidon ⟨35, 2⟩ = Run.ok o2 ∧ o1.1 = o2.1 ∧
      (ZMod.unitOfCoprime 2 (by decide) : (ZMod 35)ˣ) ^ 12 = 1 := by
  obtain ⟨o1, a1, e1, -⟩ := C02_accAndProve exampleEnv 3 _ _ ⟨35, 2⟩ _ h1 (by simp)
  obtain ⟨o2, a2, e2, -⟩ := C02_accAndProve exampleEnv 3 _ _ ⟨35, 2⟩ _ h2 (by simp)
  have he : 2 ^ (2 + M) % 35 = 2 ^ (14 + M) % 35 := by
    rw [show 14 + M = 12 + (2 + M) by omega, pow_add 2 12, Nat.mul_mod (2 ^ 12), show 2 ^ 12 % 35 = 1 by decide, one_mul,
      Nat.mod_mod]
  rw [List.prod_singleton] at e1 e2
  dsimp only at e1 e2
  have heq : o1.1 = o2.1 := by rw [e1, e2, he]
  have h := (C88_same_accumulator exampleEnv 3 3 [[50]] [[49, 52]] _ ⟨35, 2⟩ _ _ o1 o2 h1 h2 (by simp) (by simp) a1 a2 heq
    (by rw [List.prod_singleton, List.prod_singleton]; omega) (ZMod.unitOfCoprime 2 (by decide))
    (ZMod.coe_unitOfCoprime _ _)).2
  rw [List.prod_singleton, List.prod_singleton, show 14 + M - (2 + M) = 12 by omega] at h
  exact ⟨o1, o2, a1, a2, heq, h⟩

/-- 2 has the order 12 modulo 35: the sets of 2 and of 14 have the same accumulator. -/
example : ∃ o1 o2, accAndProve exampleEnv 3 [[50]] diHashFromPoseidon ⟨35, 2⟩ = Run.ok o1 ∧
    accAndProve exampleEnv 3 [[49, 52]] diHashFromPoseidon ⟨35, 2⟩ = Run.ok o2 ∧ o1.1 = o2.1 ∧
    (ZMod.unitOfCoprime 2 (by decide) : (ZMod 35)ˣ) ^ 12 = 1 := by
  refine same_di min1024 ?_ ?_
  · rw [genRepresentatives_ok_iff]
    exact .cons (exampleRepOf _ 2 (by decide) (by omega)) .nil
  · rw [genRepresentatives_ok_iff]
    exact .cons (exampleRepOf _ 14 (by decide) (by omega)) .nil

/-! ## C89 -/

/-- The witness of an element is unique among the reduced numbers. -/
def C89_statement : Prop :=
  ∀ (E : Env) (fuel : Nat) (set : List Bytes) (enc : Int) (setup : Setup) (rep : List Nat) (out : Nat × List Nat),
    genRepresentatives E fuel set enc = Run.ok rep → set ≠ [] → setup.G < setup.N → Nat.Coprime setup.G setup.N →
    accAndProve E fuel set enc setup = Run.ok out →
    ∀ (i w : Nat) (hi : i < rep.length), w < setup.N → accumulateNewPow w rep[i] setup.N = out.1 → out.2[i]? = some w

/-- C89: for an even representative, as half of the DI representatives are, `N - w` verifies whenever `w` does. -/
theorem C89_negated_witness (N w e : Nat) (hw : w ≤ N) (he : Even e) :
    accumulateNewPow (N - w) e N = accumulateNewPow w e N := by
  have h : (((N - w : Nat) : ZMod N)) ^ e = (w : ZMod N) ^ e := by
    rw [Nat.cast_sub hw, ZMod.natCast_self, zero_sub, he.neg_pow]
  unfold accumulateNewPow expMod
  have := (ZMod.natCast_eq_natCast_iff ((N - w) ^ e) (w ^ e) N).1 (by push_cast; exact h)
  exact this

theorem even_representative : Even (2 + min1024) := by
  have h : min1024 = 2 ^ 1023 := by unfold min1024; rfl
  rw [h]
  exact even_two.add (Nat.even_pow.2 ⟨even_two, by decide⟩)

theorem two_witnesses (e : Nat) (hev : Even e) (hpos : 0 < e) (k acc w : Nat) (hk : acc = 2 ^ k % 35)
    (hv : w ^ e % 35 = acc) (hs : ∀ v, v < 35 → v ^ e % 35 = acc → w = v) : False := by
  have hw : w < 35 := by
    have := hs (w % 35) (Nat.mod_lt _ (by decide)) (by rw [← hv, ← Nat.pow_mod])
    have := Nat.mod_lt w (show 0 < 35 by decide)
    omega
  have hw0 : w ≠ 0 := by
    rintro rfl
    rw [Nat.zero_pow hpos] at hv
    have hd := Nat.dvd_of_mod_eq_zero (hk.symm.trans hv.symm)
    have hc : Nat.Coprime 35 (2 ^ k) := Nat.Coprime.pow_right _ (by decide)
    exact absurd (Nat.Coprime.eq_one_of_dvd hc hd) (by decide)
  have hneg : (35 - w) ^ e % 35 = w ^ e % 35 := C89_negated_witness 35 w _ (by omega) hev
  have := hs (35 - w) (by omega) (by rw [hneg, hv])
  omega

theorem not_unique (h : C89_statement) (e : Nat) (hev : Even e) (hpos : 0 < e)
    (hrep : genRepresentatives exampleEnv 3 [[50], [50]] diHashFromPoseidon = Run.ok [e, e]) : False := by
  obtain ⟨out, hout, h1, h2, h3⟩ := C02_accAndProve exampleEnv 3 [[50], [50]] diHashFromPoseidon ⟨35, 2⟩ _ hrep (by simp)
  have hs := h exampleEnv 3 [[50], [50]] diHashFromPoseidon ⟨35, 2⟩ _ out hrep (by simp) (by decide) (by decide) hout 0
  have hlen : 0 < out.2.length := by rw [h2]; simp
  have hv : out.2[0] ^ e % 35 = out.1 := h3 0 (by simp) hlen
  have hs : ∀ w, w < 35 → w ^ e % 35 = out.1 → out.2[0] = w := by
    intro w hw hacc
    have := hs w (by simp) hw hacc
    rw [List.getElem?_eq_getElem hlen] at this
    injection this
  exact two_witnesses e hev hpos _ _ _ h1 hv hs

theorem C89_violated : ¬ C89_statement := by
  intro h
  refine not_unique h (2 + min1024) even_representative (two_add_pos min1024) ?_
  rw [genRepresentatives_ok_iff]
  exact .cons (exampleRepOf _ 2 (by decide) (by omega)) (.cons (exampleRepOf _ 2 (by decide) (by omega)) .nil)

/-- C89, what holds: the witness of an element is unique if the representative is coprime to the number of invertible
residues, as with a prime representative that does not divide it. -/
theorem C89_unique_partial (E : Env) (fuel : Nat) (set : List Bytes) (enc : Int) (setup : Setup) (rep : List Nat)
    (out : Nat × List Nat) (hrep : genRepresentatives E fuel set enc = Run.ok rep) (hne : set ≠ [])
    (hN : setup.N ≠ 0) (hG : Nat.Coprime setup.G setup.N) (hout : accAndProve E fuel set enc setup = Run.ok out)
    (i w : Nat) (hi : i < rep.length) (hi' : i < out.2.length) (h0 : rep[i] ≠ 0)
    (hco : Nat.Coprime rep[i] setup.N.totient) (hw : accumulateNewPow w rep[i] setup.N = out.1) :
    w % setup.N = out.2[i] % setup.N := by
  obtain ⟨o, ho, h1, -, h3⟩ := C02_accAndProve E fuel set enc setup rep hrep hne
  rw [hout] at ho
  have ho := run_ok_inj ho
  subst ho
  have hv := h3 i hi hi'
  set g : (ZMod setup.N)ˣ := ZMod.unitOfCoprime setup.G hG with hg
  have hc : ((out.1 : Nat) : ZMod setup.N) = ((g ^ rep.prod : (ZMod setup.N)ˣ) : ZMod setup.N) := by
    rw [h1, ZMod.natCast_mod, Nat.cast_pow, Units.val_pow_eq_pow_val, hg, ZMod.coe_unitOfCoprime]
  obtain ⟨u, hu, hue⟩ := unit_of_pow h0 (c := g ^ rep.prod) (w := w) (by rw [← accumulateNewPow_cast, hw, hc])
  obtain ⟨v, hv', hve⟩ := unit_of_pow h0 (c := g ^ rep.prod) (w := out.2[i])
    (by rw [← accumulateNewPow_cast, ← hc]; exact congrArg _ hv)
  have : NeZero setup.N := ⟨hN⟩
  have e1 : (u * v⁻¹) ^ rep[i] = 1 := by rw [mul_pow, hue, inv_pow, hve, mul_inv_cancel]
  have d1 := orderOf_dvd_of_pow_eq_one e1
  have d2 : orderOf (u * v⁻¹) ∣ setup.N.totient := orderOf_dvd_of_pow_eq_one (ZMod.pow_totient _)
  have d3 : orderOf (u * v⁻¹) = 1 := Nat.dvd_one.1 (hco ▸ Nat.dvd_gcd d1 d2)
  rw [orderOf_eq_one_iff, mul_inv_eq_one] at d3
  have := (ZMod.natCast_eq_natCast_iff w out.2[i] setup.N).1 (by rw [← hu, ← hv', d3])
  exact this

/-- A representative coprime to the number of invertible residues. -/
example : Nat.Coprime (3 + min1024) (Nat.totient 35) ∧
    genRepresentatives exampleEnv 3 [[51]] diHashFromPoseidon = Run.ok [3 + min1024] := by
  refine ⟨?_, ?_⟩
  · have : Nat.totient 35 = 24 := by decide +kernel
    rw [this]
    unfold min1024
    decide +kernel
  · rw [genRepresentatives_ok_iff]
    exact .cons (exampleRepOf _ 3 (by decide) (by omega)) .nil

example : accumulateNewPow 33 (2 + min1024) 35 = accumulateNewPow 2 (2 + min1024) 35 :=
  C89_negated_witness 35 2 _ (by decide) even_representative

/-! ## C90 -/

/-- C90 for PoE: the accepted proofs are exactly the roots of degree `l` of `C base^(-x)`, shifted by a known power of
the base. So an accepted proof of a false statement is a root of a number other than 1, of a degree fixed by the hash
after the statement. -/
theorem C90_poe_exact (E : Env) (fuel : Nat) (N : Nat) (hN : N ≠ 0) (base C x Q : Int) (l : Nat)
    (hl : HasPrimeChallenge E fuel (poeTranscript base N C x) l) (b c : (ZMod N)ˣ) (hb : (b : ZMod N) = base)
    (hc : (c : ZMod N) = C) :
    poeVerify E fuel base N C x (some ⟨some Q⟩) = Run.ok true ↔
      (0 ≤ C ∧ C < N) ∧ ∃ q : (ZMod N)ˣ, (q : ZMod N) = Q ∧ (q * b ^ (-(x / l))) ^ l = c * b ^ (-x) := by
  obtain ⟨r, hr, hiff⟩ := C46_poe E fuel N hN base C x Q l hl
  have hl0 := hl.2
  have hx : (b : ZMod N) ^ (x % (l : Int)).toNat = ((b ^ (x % (l : Int)) : (ZMod N)ˣ) : ZMod N) := by
    rw [← Units.val_pow_eq_pow_val, ← zpow_natCast, Int.toNat_of_nonneg (Int.emod_nonneg _ (by omega))]
  have hdm : x = (l : Int) * (x / l) + x % l := (Int.mul_ediv_add_emod x l).symm
  have key : ∀ q : (ZMod N)ˣ, q ^ l * b ^ (x % (l : Int)) = c ↔ (q * b ^ (-(x / l))) ^ l = c * b ^ (-x) := by
    intro q
    rw [mul_pow, ← zpow_natCast (b ^ _), ← zpow_mul, zpow_neg b x, eq_mul_inv_iff_mul_eq, mul_assoc,
      ← zpow_add]
    have : -(x / (l : Int)) * l + x = x % l := by rw [Int.emod_def]; ring
    rw [this]
  rw [hr]
  constructor
  · intro h
    obtain ⟨h1, h2⟩ := hiff.1 (run_ok_inj h)
    refine ⟨h1, ?_⟩
    rw [← hb, hx, ← hc] at h2
    have hq : IsUnit (Q : ZMod N) := by
      rw [← isUnit_pow_iff hl0]
      have h4 : IsUnit ((Q : ZMod N) ^ l * ((b ^ (x % (l : Int)) : (ZMod N)ˣ) : ZMod N)) := by rw [h2]; exact c.isUnit
      exact (IsUnit.mul_iff.1 h4).1
    obtain ⟨q, hq⟩ := hq
    refine ⟨q, hq, (key q).1 (Units.ext ?_)⟩
    push_cast
    rw [hq, ← h2]
  · rintro ⟨h1, q, hq, h2⟩
    congr 1
    rw [hiff]
    refine ⟨h1, ?_⟩
    rw [← hb, hx, ← hc, ← hq, ← (key q).2 h2]
    push_cast
    rfl

/-- C90 for PoE: a false statement needs a root of a number other than 1. -/
theorem C90_poe_false_statement (E : Env) (fuel : Nat) (N : Nat) (hN : N ≠ 0) (base C x Q : Int) (l : Nat)
    (hl : HasPrimeChallenge E fuel (poeTranscript base N C x) l) (b c : (ZMod N)ˣ) (hb : (b : ZMod N) = base)
    (hc : (c : ZMod N) = C) (hfalse : c ≠ b ^ x)
    (hacc : poeVerify E fuel base N C x (some ⟨some Q⟩) = Run.ok true) :
    ∃ q : (ZMod N)ˣ, (q : ZMod N) = Q ∧ (q * b ^ (-(x / l))) ^ l = c * b ^ (-x) ∧ c * b ^ (-x) ≠ 1 := by
  obtain ⟨-, q, hq, h⟩ := (C90_poe_exact E fuel N hN base C x Q l hl b c hb hc).1 hacc
  refine ⟨q, hq, h, ?_⟩
  rw [zpow_neg, Ne, mul_inv_eq_one]
  exact hfalse

/-- C90 for PoKE*: an accepted proof for `C = G^x` carries the residue of `x`, or a root of `G` of prime degree is computed
from it. -/
theorem C90_pokeStar (E : Env) (fuel : Nat) (N : Nat) (hN : N ≠ 0) (G H C Q R x : Int) (l : Nat) (hlp : l.Prime)
    (hl : HasPrimeChallenge E fuel (pokeStarTranscript ⟨N, G, H⟩ C) l) (hG : 0 ≤ G) (g : (ZMod N)ˣ)
    (hg : (g : ZMod N) = G) (hC : ((g ^ x : (ZMod N)ˣ) : ZMod N) = C)
    (hacc : pokeStarVerify E fuel ⟨N, G, H⟩ C (some ⟨some Q, some R⟩) = Run.ok true) :
    ∃ q : (ZMod N)ˣ, (q : ZMod N) = Q ∧ q ^ l = g ^ (x - R) ∧
      ((l : Int) ∣ x - R ∨ (g ^ Int.gcdA l (x - R) * q ^ Int.gcdB l (x - R)) ^ l = g) := by
  obtain ⟨b, hb, hiff⟩ := C46_pokeStar E fuel N hN G H C Q R l hl (.inl hG)
  rw [hb] at hacc
  have h2 := (hiff.1 (run_ok_inj hacc)).2
  rw [← hg, gpow_unit, ← hC] at h2
  have hq : IsUnit (Q : ZMod N) := by
    rw [← isUnit_pow_iff hl.2]
    have h4 : IsUnit ((Q : ZMod N) ^ l * ((g ^ R : (ZMod N)ˣ) : ZMod N)) := by rw [h2]; exact Units.isUnit _
    exact (IsUnit.mul_iff.1 h4).1
  obtain ⟨q, hq⟩ := hq
  have h3 : q ^ l * g ^ R = g ^ x := by
    apply Units.ext
    rw [← h2, ← hq]
    push_cast
    rfl
  have h5 : q ^ l = g ^ (x - R) := by rw [zpow_sub, ← h3, mul_inv_cancel_right]
  refine ⟨q, hq, h5, ?_⟩
  by_cases hd : (l : Int) ∣ x - R
  · exact .inl hd
  · right
    have hgcd : Int.gcd l (x - R) = 1 := by
      rw [← Int.isCoprime_iff_gcd_eq_one, Prime.coprime_iff_not_dvd (Nat.prime_iff_prime_int.1 hlp)]
      exact hd
    have hbez := Int.gcd_eq_gcd_ab l (x - R)
    rw [hgcd] at hbez
    have h5' : q ^ (l : Int) = g ^ (x - R) := by rw [zpow_natCast, h5]
    rw [mul_pow, ← zpow_natCast, ← zpow_natCast (q ^ _), ← zpow_mul, ← zpow_mul, mul_comm (Int.gcdB _ _) (l : Int),
      zpow_mul q, h5', ← zpow_mul, ← zpow_add, mul_comm (Int.gcdA _ _), ← hbez]
    exact zpow_one g

/-- A false statement of PoE that is accepted, and a PoKE* proof with a residue that is not the one of the exponent. -/
example : HasPrimeChallenge pokeEnv 1 (poeTranscript 2 35 3 20) 13 ∧
    (poeVerify pokeEnv 1 2 35 3 20 (some ⟨some 26⟩)).run = some (.ok true) ∧ ((2 : ZMod 35) ^ 20 ≠ 3) ∧
    HasPrimeChallenge pokeEnv 1 (pokeStarTranscript ⟨35, 2, 3⟩ 16) 13 ∧
    (pokeStarVerify pokeEnv 1 ⟨35, 2, 3⟩ 16 (some ⟨some 8, some 1⟩)).run = some (.ok true) ∧ (2 : ZMod 35) ^ 4 = 16 ∧
    ¬ (13 : Int) ∣ 4 - 1 := by
  refine ⟨by unfold HasPrimeChallenge; decide +kernel, by decide +kernel, by decide +kernel,
    by unfold HasPrimeChallenge; decide +kernel, by decide +kernel, by decide +kernel, by decide⟩

end Verif.Props
