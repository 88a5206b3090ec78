import Verif.Props.Security
import Mathlib.Algebra.Polynomial.Roots
import Mathlib.Algebra.Polynomial.Inductions

/-!
# Properties C118 and C119: what the product of the representatives says about the set

An accumulator only depends on the product of the representatives. C118: the representative of a string that is not in the set does not
divide the product. C119: the product determines the representatives.
-/

namespace Verif.Props
open Verif.Go Verif.Model Verif.Lemmas Verif.Spec

/-! ## C118 -/

/-- C118: the representative of another string does not divide the accumulated product. -/
def C118_statement : Prop :=
  ∀ (E : Env) (fuel : Nat) (enc : Int) (set : List Bytes) (s : Bytes) (rep : List Nat) (e : Nat),
    (∀ n, E.probablyPrime n = true → n.Prime) → PoseidonInjective E →
    genRepresentatives E fuel set enc = Run.ok rep → genRepresentatives E fuel [s] enc = Run.ok [e] →
    e ∉ rep → ¬ e ∣ rep.prod

theorem representatives_prime (E : Env) (hp : ∀ n, E.probablyPrime n = true → n.Prime) (fuel : Nat) (enc : Int) (henc : enc ≠ 7)
    (set : List Bytes) (rep : List Nat) (h : genRepresentatives E fuel set enc = Run.ok rep) : ∀ r ∈ rep, r.Prime := by
  have hF := (C15_default_is_hashToPrime E fuel set enc henc rep).1 h
  intro r hr
  obtain ⟨i, hi, rfl⟩ := List.mem_iff_getElem.1 hr
  have hi' : i < set.length := by rw [hF.length_eq]; exact hi
  have h1 : hashToPrime E fuel set[i] = some rep[i] := by simpa using hF.get hi' hi
  obtain ⟨k, -, h2, -⟩ := (C16_hashToPrime_first_prime E set[i] rep[i]).1 ⟨fuel, h1⟩
  exact hp _ h2

/-- C118 for prime representatives. -/
theorem C118_prime_partial (E : Env) (fuel : Nat) (enc : Int) (henc : enc ≠ 7) (set : List Bytes) (s : Bytes) (rep : List Nat) (e : Nat)
    (hp : ∀ n, E.probablyPrime n = true → n.Prime) (h : genRepresentatives E fuel set enc = Run.ok rep)
    (hs : genRepresentatives E fuel [s] enc = Run.ok [e]) (hnew : e ∉ rep) : ¬ e ∣ rep.prod := by
  have he := representatives_prime E hp fuel enc henc _ _ hs e (by simp)
  rw [Prime.dvd_prod_iff he.prime]
  rintro ⟨r, hr, hd⟩
  exact hnew ((Nat.prime_dvd_prime_iff_eq he (representatives_prime E hp fuel enc henc _ _ h r hr)).1 hd ▸ hr)

/-- Modulo `D + c` the product of the `D + a` is the product of the differences. -/
theorem dvd_prod_differences (D c : Int) (l : List Int) : D + c ∣ (l.map (fun a => D + a)).prod - (l.map (fun a => a - c)).prod := by
  induction l with
  | nil => simp
  | cons a l ih =>
    simp only [List.map_cons, List.prod_cons]
    have e : (D + a) * (l.map (fun a => D + a)).prod - (a - c) * (l.map (fun a => a - c)).prod =
        (D + c) * (l.map (fun a => D + a)).prod + (a - c) * ((l.map (fun a => D + a)).prod - (l.map (fun a => a - c)).prod) := by ring
    rw [e]
    exact dvd_add (dvd_mul_right _ _) (dvd_mul_of_dvd_right ih _)

theorem natAbs_prod_le (A : Nat) (c : Nat) (hc : c < A) (l : List Nat) (hl : ∀ a ∈ l, a < A) :
    ((l.map (fun a : Nat => (a : Int) - c)).prod).natAbs ≤ A ^ l.length := by
  induction l with
  | nil => simp
  | cons a l ih =>
    simp only [List.map_cons, List.prod_cons, List.length_cons, Int.natAbs_mul]
    have h1 : ((a : Int) - c).natAbs ≤ A := by
      have := hl a (by simp)
      omega
    calc _ ≤ A * A ^ l.length := Nat.mul_le_mul h1 (ih (fun b hb => hl b (by simp [hb])))
      _ = A ^ (l.length + 1) := by rw [pow_succ']

/-- Numbers `D + a` with `a < A`: if `A^k < D`, none divides a product of `k` others. -/
theorem no_division (A D c : Nat) (hc : c < A) (l : List Nat) (hl : ∀ a ∈ l, a < A) (hk : A ^ l.length < D) (hnew : c ∉ l) :
    ¬ D + c ∣ (l.map (fun a => D + a)).prod := by
  intro h
  have h1 := dvd_prod_differences D c (l.map (fun a : Nat => (a : Int)))
  rw [List.map_map, List.map_map] at h1
  have h2 : ((D + c : Nat) : Int) ∣ (((l.map (fun a => D + a)).prod : Nat) : Int) := Int.natCast_dvd_natCast.2 h
  rw [Nat.cast_list_prod, List.map_map] at h2
  have e1 : (l.map ((fun a : Int => (D : Int) + a) ∘ fun a : Nat => (a : Int))) = l.map ((fun n : Nat => (n : Int)) ∘ fun a => D + a) := by
    apply List.map_congr_left
    intro a _
    simp
  rw [e1] at h1
  push_cast at h2
  have h3 : ((D : Int) + c) ∣ (l.map ((fun a : Int => a - c) ∘ fun a : Nat => (a : Int))).prod := by
    have := dvd_sub h2 h1
    rwa [sub_sub_cancel] at this
  have h4 := natAbs_prod_le A c hc l hl
  have h5 : (l.map ((fun a : Int => a - c) ∘ fun a : Nat => (a : Int))).prod ≠ 0 := by
    apply List.prod_ne_zero
    simp only [List.mem_map, Function.comp_apply, not_exists, not_and]
    intro a ha h0
    have : a = c := by omega
    exact hnew (this ▸ ha)
  have h6 := Nat.le_of_dvd (Int.natAbs_pos.2 h5) (Int.natAbs_dvd_natAbs.2 h3)
  have e2 : (l.map ((fun a : Int => a - c) ∘ fun a : Nat => (a : Int))).prod = (l.map (fun a : Nat => (a : Int) - c)).prod := rfl
  rw [e2] at h6
  have e3 : ((D : Int) + c).natAbs = D + c := by omega
  omega

/-- Four numbers below the field order have a product below 2^1023. -/
theorem frOrder_pow_lt (k : Nat) (hk : k ≤ 4) : frOrder ^ k < min1024 := by
  have h1 : frOrder ^ 4 < min1024 := by unfold min1024 frOrder; decide +kernel
  exact lt_of_le_of_lt (Nat.pow_le_pow_right (by decide) hk) h1

attribute [local irreducible] min1024

/-- The DI representatives of a set come from numbers below the field order. -/
theorem di_offsets (E : Env) (fuel : Nat) (set : List Bytes) (rep : List Nat)
    (h : genRepresentatives E fuel set diHashFromPoseidon = Run.ok rep) :
    ∃ l : List Nat, l.length = set.length ∧ (∀ a ∈ l, a < frOrder) ∧ rep = l.map (fun a => min1024 + a) := by
  have hlen := C15_one_per_string E fuel set _ rep h
  have key : ∀ r ∈ rep, ∃ e, r = diHashPoseidon E e := fun r hr => di_representative_form E fuel set rep h r hr
  rw [← hlen]
  clear h hlen
  induction rep with
  | nil => exact ⟨[], rfl, by simp, rfl⟩
  | cons r rep ih =>
    obtain ⟨l, h1, h2, h3⟩ := ih (fun r hr => key r (by simp [hr]))
    obtain ⟨e, he⟩ := key r (by simp)
    refine ⟨E.poseidon e :: l, by simp [h1], ?_, ?_⟩
    · intro a ha
      rcases List.mem_cons.1 ha with rfl | ha
      · exact E.poseidon_lt e
      · exact h2 a ha
    · rw [List.map_cons, ← h3, he, diHash_eq, Nat.add_comm]

/-- C118 for DI representatives and sets of at most four strings. -/
theorem C118_di_partial (E : Env) (fuel : Nat) (set : List Bytes) (s : Bytes) (rep : List Nat) (e : Nat) (hlen : set.length ≤ 4)
    (h : genRepresentatives E fuel set diHashFromPoseidon = Run.ok rep)
    (hs : genRepresentatives E fuel [s] diHashFromPoseidon = Run.ok [e]) (hnew : e ∉ rep) : ¬ e ∣ rep.prod := by
  obtain ⟨l, h1, h2, rfl⟩ := di_offsets E fuel set rep h
  obtain ⟨m, m1, m2, m3⟩ := di_offsets E fuel [s] [e] hs
  obtain ⟨c, rfl⟩ := List.length_eq_one_iff.1 m1
  have m4 : e = min1024 + c := (List.cons.inj m3).1
  rw [m4] at hnew ⊢
  refine no_division frOrder min1024 c (m2 c (by simp)) l h2 (frOrder_pow_lt _ (by rw [h1]; exact hlen)) ?_
  intro hc
  exact hnew (List.mem_map.2 ⟨c, hc, rfl⟩)

theorem idEnv_representative (fuel n : Nat) (hn : n < frOrder) :
    repOf idEnv fuel diHashFromPoseidon (itoa n) = Run.ok (min1024 + n) := by
  unfold repOf
  rw [if_pos rfl, liftRes_ok_iff]
  unfold diRepresentative elementFromString
  rw [setString_itoa]
  have h1 : elementFromBigInt (n : Int) = n := by
    unfold elementFromBigInt
    rw [Int.emod_eq_of_lt (by omega) (by exact_mod_cast hn)]
    simp
  have h2 : idEnv.poseidon [n] = n := Nat.mod_eq_of_lt hn
  show Except.ok (idEnv.poseidon [elementFromBigInt n] + min1024) = _
  rw [h1, h2, Nat.add_comm]

/-- Five numbers whose product is 2^1023. -/
def fivePowers : List Nat := [2 ^ 253, 2 ^ 252, 2 ^ 251, 2 ^ 250, 2 ^ 17]

theorem fivePowers_lt : ∀ a ∈ fivePowers, a < frOrder := by unfold fivePowers frOrder; decide +kernel

theorem fivePowers_pos : ∀ a ∈ fivePowers, 0 < a := by unfold fivePowers; decide +kernel

theorem fivePowers_prod : fivePowers.prod = min1024 := by unfold fivePowers min1024; decide +kernel

theorem fivePowers_representatives (fuel : Nat) : genRepresentatives idEnv fuel (fivePowers.map itoa) diHashFromPoseidon =
    Run.ok (fivePowers.map (fun a => min1024 + a)) := by
  rw [genRepresentatives_ok_iff, List.forall₂_map_left_iff, List.forall₂_map_right_iff]
  exact List.forall₂_same.2 (fun a ha => idEnv_representative fuel a (fivePowers_lt a ha))

theorem zero_representative (fuel : Nat) : genRepresentatives idEnv fuel [itoa 0] diHashFromPoseidon = Run.ok [min1024] := by
  rw [genRepresentatives_ok_iff]
  exact .cons (idEnv_representative fuel 0 (by decide)) .nil

/-- The representative of "3" does not divide the one of "2". -/
example : ¬ min1024 + 3 ∣ [min1024 + 2].prod := by
  have r : ∀ n, n < frOrder → genRepresentatives idEnv 1 [itoa n] diHashFromPoseidon = Run.ok [min1024 + n] := fun n hn =>
    (genRepresentatives_ok_iff ..).2 (.cons (idEnv_representative 1 n hn) .nil)
  exact C118_di_partial idEnv 1 [itoa 2] (itoa 3) _ _ (by simp) (r 2 (by decide)) (r 3 (by decide))
    (fun h => absurd (List.mem_singleton.1 h) (by omega))

theorem dvd_prod_shift (D : Nat) (l : List Nat) (h : D ∣ l.prod) : D ∣ (l.map (fun a => D + a)).prod := by
  have key : ∀ l : List Nat, (l.map (fun a => D + a)).prod ≡ l.prod [MOD D] := by
    intro l
    induction l with
    | nil => exact Nat.ModEq.refl _
    | cons a l ih =>
      simp only [List.map_cons, List.prod_cons]
      exact Nat.ModEq.mul (by simp [Nat.ModEq]) ih
  exact (Nat.modEq_zero_iff_dvd.1 ((key l).trans (Nat.modEq_zero_iff_dvd.2 h)))

theorem five_division : min1024 ∣ (fivePowers.map (fun a => min1024 + a)).prod :=
  dvd_prod_shift _ _ (by rw [fivePowers_prod])

/-- C118 fails for five strings and an injective hash: the representative of "0" divides the product of the representatives of five
powers of two. -/
theorem C118_violated : ¬ C118_statement := by
  intro h
  refine h idEnv 1 diHashFromPoseidon (fivePowers.map itoa) (itoa 0) _ min1024 ?_ idEnv_injective (fivePowers_representatives 1)
    (zero_representative 1) ?_ five_division
  · intro n hn
    have : n = 2 := by simpa [idEnv] using hn
    rw [this]
    exact Nat.prime_two
  · intro hm
    obtain ⟨a, ha, he⟩ := List.mem_map.1 hm
    have := fivePowers_pos a ha
    omega

/-- What a division is good for: everybody can compute a witness for a number that divides the product, whatever the setup is. -/
theorem C118_forged (E : Env) (fuel : Nat) (set : List Bytes) (enc : Int) (setup : Setup) (rep : List Nat) (e : Nat)
    (hrep : genRepresentatives E fuel set enc = Run.ok rep) (hne : set ≠ []) (he : e ∣ rep.prod) :
    ∃ out, accAndProve E fuel set enc setup = Run.ok out ∧
      accumulateNewPow (accumulateNewPow setup.G (rep.prod / e) setup.N) e setup.N = out.1 := by
  obtain ⟨out, h1, h2, -⟩ := C02_accAndProve E fuel set enc setup rep hrep hne
  refine ⟨out, h1, ?_⟩
  rw [h2]
  unfold accumulateNewPow expMod
  rw [← Nat.pow_mod, ← pow_mul, Nat.div_mul_cancel he]

/-- So with that hash "0" has a witness in the accumulator of the five strings, for every setup. -/
theorem C118_forged_five (setup : Setup) :
    ∃ out w, accAndProve idEnv 1 (fivePowers.map itoa) diHashFromPoseidon setup = Run.ok out ∧
      accumulateNewPow w min1024 setup.N = out.1 := by
  obtain ⟨out, h1, h2⟩ := C118_forged idEnv 1 (fivePowers.map itoa) diHashFromPoseidon setup _ min1024 (fivePowers_representatives 1)
    (by unfold fivePowers; simp) five_division
  exact ⟨out, _, h1, h2⟩

/-! ## C119 -/

/-- C119: two sets with the same accumulator have the same representatives, or the difference of the two products is a multiple of the
order of `G` other than 0. -/
def C119_statement : Prop :=
  ∀ (E : Env) (f1 f2 : Nat) (set1 set2 : List Bytes) (enc : Int) (setup : Setup) (rep1 rep2 : List Nat) (o1 o2 : Nat × List Nat)
    (g : (ZMod setup.N)ˣ),
    (∀ n, E.probablyPrime n = true → n.Prime) → set1 ≠ [] → set2 ≠ [] → (g : ZMod setup.N) = setup.G →
    genRepresentatives E f1 set1 enc = Run.ok rep1 → genRepresentatives E f2 set2 enc = Run.ok rep2 →
    accAndProve E f1 set1 enc setup = Run.ok o1 → accAndProve E f2 set2 enc setup = Run.ok o2 → o1.1 = o2.1 →
    rep1.Perm rep2 ∨ (rep1.prod ≠ rep2.prod ∧ g ^ ((rep1.prod : Int) - rep2.prod) = 1)

/-- The accumulators decide, if the products do. -/
theorem binding_of_products (E : Env) (f1 f2 : Nat) (set1 set2 : List Bytes) (enc : Int) (setup : Setup) (rep1 rep2 : List Nat)
    (o1 o2 : Nat × List Nat) (g : (ZMod setup.N)ˣ) (n1 : set1 ≠ []) (n2 : set2 ≠ []) (hg : (g : ZMod setup.N) = setup.G)
    (h1 : genRepresentatives E f1 set1 enc = Run.ok rep1) (h2 : genRepresentatives E f2 set2 enc = Run.ok rep2)
    (a1 : accAndProve E f1 set1 enc setup = Run.ok o1) (a2 : accAndProve E f2 set2 enc setup = Run.ok o2) (heq : o1.1 = o2.1)
    (hprod : rep1.prod = rep2.prod → rep1.Perm rep2) :
    rep1.Perm rep2 ∨ (rep1.prod ≠ rep2.prod ∧ g ^ ((rep1.prod : Int) - rep2.prod) = 1) := by
  rcases lt_trichotomy rep1.prod rep2.prod with hlt | heq' | hlt
  · obtain ⟨_, h⟩ := C88_same_accumulator E f1 f2 set1 set2 enc setup rep1 rep2 o1 o2 h1 h2 n1 n2 a1 a2 heq hlt g hg
    refine .inr ⟨hlt.ne, ?_⟩
    rw [← neg_sub, zpow_neg, ← Nat.cast_sub hlt.le, zpow_natCast, h, inv_one]
  · exact .inl (hprod heq')
  · obtain ⟨_, h⟩ := C88_same_accumulator E f2 f1 set2 set1 enc setup rep2 rep1 o2 o1 h2 h1 n2 n1 a2 a1 heq.symm hlt g hg
    refine .inr ⟨hlt.ne', ?_⟩
    rw [← Nat.cast_sub hlt.le, zpow_natCast, h]

/-- C119 for prime representatives. -/
theorem C119_prime_partial (E : Env) (f1 f2 : Nat) (set1 set2 : List Bytes) (enc : Int) (henc : enc ≠ 7) (setup : Setup) (rep1 rep2 : List Nat)
    (o1 o2 : Nat × List Nat) (g : (ZMod setup.N)ˣ) (hp : ∀ n, E.probablyPrime n = true → n.Prime)
    (n1 : set1 ≠ []) (n2 : set2 ≠ []) (hg : (g : ZMod setup.N) = setup.G)
    (h1 : genRepresentatives E f1 set1 enc = Run.ok rep1) (h2 : genRepresentatives E f2 set2 enc = Run.ok rep2)
    (a1 : accAndProve E f1 set1 enc setup = Run.ok o1) (a2 : accAndProve E f2 set2 enc setup = Run.ok o2) (heq : o1.1 = o2.1) :
    rep1.Perm rep2 ∨ (rep1.prod ≠ rep2.prod ∧ g ^ ((rep1.prod : Int) - rep2.prod) = 1) := by
  refine binding_of_products E f1 f2 set1 set2 enc setup rep1 rep2 o1 o2 g n1 n2 hg h1 h2 a1 a2 heq ?_
  intro h
  have p1 := representatives_prime E hp f1 enc henc _ _ h1
  have p2 := representatives_prime E hp f2 enc henc _ _ h2
  exact (Nat.primeFactorsList_unique h p1).trans (Nat.primeFactorsList_unique rfl p2).symm

open Polynomial in
/-- Polynomials with coefficients below `D` are determined by their value at `D`. -/
theorem poly_eq_of_eval (D : Nat) : ∀ (n : Nat) (p q : ℕ[X]), p.natDegree ≤ n → q.natDegree ≤ n → (∀ i, p.coeff i < D) →
    (∀ i, q.coeff i < D) → p.eval D = q.eval D → p = q := by
  intro n
  induction n with
  | zero =>
    intro p q hp hq hpc hqc h
    rw [Polynomial.eq_C_of_natDegree_le_zero hp, Polynomial.eq_C_of_natDegree_le_zero hq] at h ⊢
    simpa using h
  | succ n ih =>
    intro p q hp hq hpc hqc h
    have ep := Polynomial.divX_mul_X_add p
    have eq := Polynomial.divX_mul_X_add q
    rw [← ep, ← eq] at h
    simp only [eval_add, eval_mul, eval_X, eval_C] at h
    have h0 : p.coeff 0 = q.coeff 0 := by
      have := congrArg (· % D) h
      simpa [Nat.mul_add_mod_of_lt, Nat.add_mod, Nat.mod_eq_of_lt (hpc 0), Nat.mod_eq_of_lt (hqc 0)] using this
    have hD : 0 < D := lt_of_le_of_lt (Nat.zero_le _) (hpc 0)
    have h1 : p.divX.eval D = q.divX.eval D := by
      rw [h0] at h
      exact Nat.eq_of_mul_eq_mul_right hD (Nat.add_right_cancel h)
    have h2 := ih p.divX q.divX (by rw [natDegree_divX_eq_natDegree_tsub_one]; omega) (by rw [natDegree_divX_eq_natDegree_tsub_one]; omega)
      (fun i => by rw [coeff_divX]; exact hpc _) (fun i => by rw [coeff_divX]; exact hqc _) h1
    rw [← ep, ← eq, h2, h0]

open Polynomial in
theorem coeff_le_eval_one (p : ℕ[X]) (i : Nat) : p.coeff i ≤ p.eval 1 := by
  rw [eval_eq_sum, Polynomial.sum]
  by_cases h : i ∈ p.support
  · simp only [one_pow, mul_one]
    exact Finset.single_le_sum (f := fun i => p.coeff i) (fun _ _ => Nat.zero_le _) h
  · rw [notMem_support_iff.1 h]
    exact Nat.zero_le _

open Polynomial in
/-- Numbers `D + a` with `a < A`: if `A^k < D`, the product of at most `k` of them determines them. -/
theorem product_determines (A D k : Nat) (hA : 0 < A) (hk : A ^ k < D) (l m : List Nat) (hl : ∀ a ∈ l, a < A) (hm : ∀ a ∈ m, a < A)
    (hll : l.length ≤ k) (hml : m.length ≤ k) (h : (l.map (fun a => D + a)).prod = (m.map (fun a => D + a)).prod) : l.Perm m := by
  let P : List Nat → ℕ[X] := fun l => (l.map (fun a => X + C a)).prod
  have hev : ∀ (l : List Nat) (x : Nat), (P l).eval x = (l.map (fun a => x + a)).prod := by
    intro l x
    induction l with
    | nil => simp [P]
    | cons a l ih =>
      have : P (a :: l) = (X + C a) * P l := by simp [P]
      rw [this, eval_mul, ih]
      simp
  have hco : ∀ l : List Nat, (∀ a ∈ l, a < A) → l.length ≤ k → ∀ i, (P l).coeff i < D := by
    intro l hl hlk i
    refine lt_of_le_of_lt (coeff_le_eval_one _ _) ?_
    rw [hev]
    refine lt_of_le_of_lt ?_ hk
    refine le_trans ?_ (Nat.pow_le_pow_right hA hlk)
    clear hlk
    induction l with
    | nil => simp
    | cons a l ih =>
      simp only [List.map_cons, List.prod_cons, List.length_cons]
      rw [pow_succ']
      have := hl a (by simp)
      exact Nat.mul_le_mul (by omega) (ih (fun b hb => hl b (by simp [hb])))
  have hpq : P l = P m := poly_eq_of_eval D (max (P l).natDegree (P m).natDegree) _ _ (le_max_left _ _) (le_max_right _ _) (hco l hl hll)
    (hco m hm hml) (by rw [hev, hev]; exact h)
  have hroots : ∀ l : List Nat, ((P l).map (Nat.castRingHom ℤ)).roots = (l.map (fun a : Nat => -(a : Int)) : Multiset Int) := by
    intro l
    rw [← Polynomial.roots_multiset_prod_X_sub_C ((l.map (fun a : Nat => -(a : Int)) : List Int) : Multiset Int)]
    congr 1
    simp only [P, Polynomial.map_list_prod, Multiset.map_coe, Multiset.prod_coe, List.map_map]
    congr 1
    apply List.map_congr_left
    intro a _
    simp
  have h1 := hroots l
  rw [hpq, hroots m, Multiset.coe_eq_coe] at h1
  have h2 := h1.map (fun z : Int => z.natAbs)
  rw [List.map_map, List.map_map] at h2
  have e : ((fun z : Int => z.natAbs) ∘ fun a : Nat => -(a : Int)) = id := by
    funext a
    simp
  rw [e, List.map_id, List.map_id] at h2
  exact h2.symm

theorem representatives_append (E : Env) (fuel : Nat) (enc : Int) (a b : List Bytes) (rep : List Nat)
    (h : genRepresentatives E fuel (a ++ b) enc = Run.ok rep) :
    ∃ r s, rep = r ++ s ∧ genRepresentatives E fuel a enc = Run.ok r ∧ genRepresentatives E fuel b enc = Run.ok s := by
  rw [genRepresentatives_ok_iff] at h
  simp only [genRepresentatives_ok_iff]
  induction a generalizing rep with
  | nil => exact ⟨[], rep, rfl, .nil, h⟩
  | cons v a ih =>
    rw [List.cons_append] at h
    cases h with
    | cons h1 h2 =>
      obtain ⟨r, s, rfl, h3, h4⟩ := ih _ h2
      exact ⟨_ :: r, s, rfl, .cons h1 h3, h4⟩

theorem di_representatives_fuel (E : Env) (f1 f2 : Nat) (set : List Bytes) :
    genRepresentatives E f1 set diHashFromPoseidon = genRepresentatives E f2 set diHashFromPoseidon := by
  rw [genRepresentatives_eq, genRepresentatives_eq]
  have h : repOf E f1 diHashFromPoseidon = repOf E f2 diHashFromPoseidon := by
    funext v
    unfold repOf
    rw [if_pos rfl, if_pos rfl]
  rw [h]

/-- C119 for DI representatives and sets that differ in at most four strings. Missing: sets that differ in more. -/
theorem C119_di_partial (E : Env) (f1 f2 : Nat) (common only1 only2 : List Bytes) (setup : Setup) (rep1 rep2 : List Nat)
    (o1 o2 : Nat × List Nat) (g : (ZMod setup.N)ˣ) (l1 : only1.length ≤ 4) (l2 : only2.length ≤ 4)
    (n1 : common ++ only1 ≠ []) (n2 : common ++ only2 ≠ []) (hg : (g : ZMod setup.N) = setup.G)
    (h1 : genRepresentatives E f1 (common ++ only1) diHashFromPoseidon = Run.ok rep1)
    (h2 : genRepresentatives E f2 (common ++ only2) diHashFromPoseidon = Run.ok rep2)
    (a1 : accAndProve E f1 (common ++ only1) diHashFromPoseidon setup = Run.ok o1)
    (a2 : accAndProve E f2 (common ++ only2) diHashFromPoseidon setup = Run.ok o2) (heq : o1.1 = o2.1) :
    rep1.Perm rep2 ∨ (rep1.prod ≠ rep2.prod ∧ g ^ ((rep1.prod : Int) - rep2.prod) = 1) := by
  refine binding_of_products E f1 f2 _ _ _ setup rep1 rep2 o1 o2 g n1 n2 hg h1 h2 a1 a2 heq ?_
  intro h
  obtain ⟨r, s, rfl, c1, d1⟩ := representatives_append E f1 _ _ _ _ h1
  obtain ⟨r', s', rfl, c2, d2⟩ := representatives_append E f2 _ _ _ _ h2
  rw [di_representatives_fuel E f2 f1, c1] at c2
  have hr := run_ok_inj c2
  subst hr
  obtain ⟨k, -, -, ek⟩ := di_offsets E f1 common r c1
  obtain ⟨l, e1, b1, rfl⟩ := di_offsets E f1 only1 s d1
  obtain ⟨m, e2, b2, rfl⟩ := di_offsets E f2 only2 s' d2
  rw [List.prod_append, List.prod_append] at h
  have hpos : 0 < r.prod := by
    apply List.prod_pos
    intro a ha
    rw [ek] at ha
    obtain ⟨x, -, rfl⟩ := List.mem_map.1 ha
    have := frOrder_pow_lt 0 (by decide)
    omega
  have h' := Nat.eq_of_mul_eq_mul_left hpos h
  exact ((product_determines frOrder min1024 4 (by decide) (frOrder_pow_lt 4 (le_refl _)) l m b1 b2 (by omega) (by omega) h').map _).append_left r

theorem accumulator_of_one (E : Env) (fuel : Nat) (set : List Bytes) (enc : Int) (setup : Setup) (rep : List Nat)
    (hrep : genRepresentatives E fuel set enc = Run.ok rep) (hne : set ≠ []) (hG : setup.G = 1) :
    ∃ out, accAndProve E fuel set enc setup = Run.ok out ∧ out.1 = 1 % setup.N := by
  obtain ⟨o1, h1, q1, -⟩ := C02_accAndProve E fuel set enc setup rep hrep hne
  exact ⟨o1, h1, by rw [q1, hG, one_pow]⟩

/-- The two sets {"2"} and {"3"} of DI representatives have the same accumulator modulo 3 with base 1. -/
example : ∃ o1 o2, accAndProve idEnv 1 [itoa 2] diHashFromPoseidon ⟨3, 1⟩ = Run.ok o1 ∧ accAndProve idEnv 1 [itoa 3] diHashFromPoseidon ⟨3, 1⟩ = Run.ok o2 ∧
    o1.1 = o2.1 := by
  have r : ∀ n, n < frOrder → genRepresentatives idEnv 1 [itoa n] diHashFromPoseidon = Run.ok [min1024 + n] := fun n hn =>
    (genRepresentatives_ok_iff ..).2 (.cons (idEnv_representative 1 n hn) .nil)
  obtain ⟨o1, h1, q1⟩ := accumulator_of_one idEnv 1 [itoa 2] diHashFromPoseidon ⟨3, 1⟩ _ (r 2 (by decide)) (by simp) rfl
  obtain ⟨o2, h2, q2⟩ := accumulator_of_one idEnv 1 [itoa 3] diHashFromPoseidon ⟨3, 1⟩ _ (r 3 (by decide)) (by simp) rfl
  exact ⟨o1, o2, h1, h2, q1.trans q2.symm⟩

theorem primeEnv_representatives : genRepresentatives primeEnv 1 [[50]] 0 = Run.ok [13] ∧
    genRepresentatives primeEnv 1 [[51]] 0 = Run.ok [11] := by
  have hp : primeEnv.probablyPrime 13 = true ∧ primeEnv.probablyPrime 11 = true :=
    ⟨decide_eq_true (show Nat.Prime 13 by norm_num), decide_eq_true (show Nat.Prime 11 by norm_num)⟩
  have h13 : hashToPrime primeEnv 1 [50] = some 13 := by
    have : setBytes (primeEnv.sha256 [50]) = 13 := by decide
    simp only [hashToPrime, hashToPrimeLoop, this, hp.1, if_true]
  have h11 : hashToPrime primeEnv 1 [51] = some 11 := by
    have : setBytes (primeEnv.sha256 [51]) = 11 := by decide
    simp only [hashToPrime, hashToPrimeLoop, this, hp.2, if_true]
  exact ⟨(C15_default_is_hashToPrime primeEnv 1 [[50]] 0 (by decide) [13]).2 (.cons h13 .nil),
    (C15_default_is_hashToPrime primeEnv 1 [[51]] 0 (by decide) [11]).2 (.cons h11 .nil)⟩

/-- The prime of "3" does not divide that of "2". -/
example : ¬ 11 ∣ [13].prod :=
  C118_prime_partial primeEnv 1 0 (by decide) [[50]] [51] [13] 11 (fun _ h => of_decide_eq_true h)
    primeEnv_representatives.1 primeEnv_representatives.2 (by decide)

/-- {"2"} and {"3"} have the same accumulator modulo 3 with base 2; the accumulators tell 2^(13 - 11) = 1 modulo 3. -/
example : ∃ o1 o2, accAndProve primeEnv 1 [[50]] 0 ⟨3, 2⟩ = Run.ok o1 ∧ accAndProve primeEnv 1 [[51]] 0 ⟨3, 2⟩ = Run.ok o2 ∧
    o1.1 = o2.1 ∧ (ZMod.unitOfCoprime 2 (by decide) : (ZMod 3)ˣ) ^ (([13].prod : Int) - [11].prod) = 1 := by
  obtain ⟨h1, h2⟩ := primeEnv_representatives
  obtain ⟨o1, a1, q1, -⟩ := C02_accAndProve primeEnv 1 [[50]] 0 ⟨3, 2⟩ _ h1 (by simp)
  obtain ⟨o2, a2, q2, -⟩ := C02_accAndProve primeEnv 1 [[51]] 0 ⟨3, 2⟩ _ h2 (by simp)
  have he : o1.1 = o2.1 := by rw [q1, q2]; decide
  refine ⟨o1, o2, a1, a2, he, ?_⟩
  rcases C119_prime_partial primeEnv 1 1 [[50]] [[51]] 0 (by decide) ⟨3, 2⟩ [13] [11] o1 o2 (ZMod.unitOfCoprime 2 (by decide))
    (fun _ h => of_decide_eq_true h) (by simp) (by simp) (ZMod.coe_unitOfCoprime _ _) h1 h2 a1 a2 he with h | h
  · exact absurd h (by decide)
  · simpa using h.2

end Verif.Props
