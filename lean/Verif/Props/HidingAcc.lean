import Mathlib.Algebra.Field.ZMod
import Mathlib.Data.Nat.GCD.BigOperators
import Mathlib.Data.ZMod.Basic
import Verif.Lemmas.Periodic
import Verif.Model.AccCoins
import Verif.Props.Accumulator

/-! # Property C101: what the accumulator of `ZKAccumulate` tells about the set -/

namespace Verif.Props
open Verif.Go Verif.Model Verif.Lemmas Verif.Spec

/-- The accumulators of two sets of the same size cannot be told apart with an advantage above 2^-128. -/
def C101_statement : Prop :=
  ∀ (E : Env) (fuel : Nat) (set set' : List Bytes) (enc : Int) (setup : Setup) (rep rep' : List Nat),
    genRepresentatives E fuel set enc = Run.ok rep → genRepresentatives E fuel set' enc = Run.ok rep' →
    set.length = set'.length → set ≠ [] → Nat.Coprime setup.G setup.N →
    Close (2 ^ 128) randomizers (zkAccOf E fuel set enc setup) (zkAccOf E fuel set' enc setup)

theorem zkAccOf_eq (E : Env) (fuel : Nat) (set : List Bytes) (enc : Int) (setup : Setup) (rep : List Nat)
    (h : genRepresentatives E fuel set enc = Run.ok rep) (hne : set ≠ []) (r : Nat) :
    zkAccOf E fuel set enc setup r = some (setup.G ^ (r * rep.prod) % setup.N) := by
  obtain ⟨acc, ps, h1, h2, -⟩ := C12_zkAccumulate E fuel r set enc setup rep h hne
  unfold zkAccOf
  rw [h1, ← h2]
  rfl

theorem pow_periodic (G N m : Nat) (hm : G ^ m % N = 1 % N) (n : Nat) : G ^ (n % m) % N = G ^ n % N := by
  have h : G ^ m ≡ 1 [MOD N] := hm
  conv_rhs => rw [← Nat.div_add_mod n m, pow_add, pow_mul]
  have := ((h.pow (n / m)).mul_right (G ^ (n % m))).symm
  rw [one_pow, one_mul] at this
  exact this

/-- C101 (part): let `m` be an exponent with `G^m = 1`. If `m` has no common factor with the representatives, the difference
of the numbers of randomizers is at most the distance of 2^2047 to the multiples of `m`. -/
theorem C101_coprime_partial (E : Env) (fuel : Nat) (set set' : List Bytes) (enc : Int) (setup : Setup)
    (rep rep' : List Nat) (h : genRepresentatives E fuel set enc = Run.ok rep)
    (h' : genRepresentatives E fuel set' enc = Run.ok rep') (hne : set ≠ []) (hne' : set' ≠ []) (m : Nat) (hm0 : 0 < m)
    (hm : setup.G ^ m % setup.N = 1 % setup.N) (hc : ∀ x ∈ rep, Nat.Coprime x m) (hc' : ∀ x ∈ rep', Nat.Coprime x m)
    (test : Option Nat → Prop) :
    passes randomizers (zkAccOf E fuel set enc setup) test ≤ passes randomizers (zkAccOf E fuel set' enc setup) test +
      min (2 ^ 2047 % m) (m - 2 ^ 2047 % m) := by
  have hp := Nat.coprime_list_prod_left_iff.2 hc
  have hp' := Nat.coprime_list_prod_left_iff.2 hc'
  have e1 : zkAccOf E fuel set enc setup = fun r => some (setup.G ^ (r * rep.prod) % setup.N) :=
    funext fun r => zkAccOf_eq E fuel set enc setup rep h hne r
  have e2 : zkAccOf E fuel set' enc setup = fun r => some (setup.G ^ (r * rep'.prod) % setup.N) :=
    funext fun r => zkAccOf_eq E fuel set' enc setup rep' h' hne' r
  have hper : ∀ P r, (fun r => some (setup.G ^ (r * P) % setup.N)) (r + m) = (fun r => some (setup.G ^ (r * P) % setup.N)) r := by
    intro P r
    simp only [Option.some.injEq]
    rw [← pow_periodic _ _ m hm ((r + m) * P), ← pow_periodic _ _ m hm (r * P), add_mul, Nat.add_mul_mod_self_left]
  rw [e1, e2]
  have hmod : ∀ r, (fun n => some (setup.G ^ n % setup.N)) (r % m) = (fun n => some (setup.G ^ n % setup.N)) r := fun r => by
    simp only [pow_periodic _ _ m hm r]
  have q1 := passes_permuted (fun n => some (setup.G ^ n % setup.N)) m rep.prod hm0 hp hmod test
  have q2 := passes_permuted (fun n => some (setup.G ^ n % setup.N)) m rep'.prod hm0 hp' hmod test
  exact passes_periodic_le _ _ m hm0 (hper _) (hper _) test (q1.trans q2.symm) min2048

/-- C101 (part): with an order of at most 1920 bits the set is hidden. -/
theorem C101_small_order_partial (E : Env) (fuel : Nat) (set set' : List Bytes) (enc : Int) (setup : Setup)
    (rep rep' : List Nat) (h : genRepresentatives E fuel set enc = Run.ok rep)
    (h' : genRepresentatives E fuel set' enc = Run.ok rep') (hne : set ≠ []) (hne' : set' ≠ []) (m : Nat) (hm0 : 0 < m)
    (hm : setup.G ^ m % setup.N = 1 % setup.N) (hc : ∀ x ∈ rep, Nat.Coprime x m) (hc' : ∀ x ∈ rep', Nat.Coprime x m)
    (hs : m ≤ 2 ^ 1920) :
    Close (2 ^ 128) randomizers (zkAccOf E fuel set enc setup) (zkAccOf E fuel set' enc setup) := by
  intro test
  have h1 := C101_coprime_partial E fuel set set' enc setup rep rep' h h' hne hne' m hm0 hm hc hc' test
  have h2 := C101_coprime_partial E fuel set' set enc setup rep' rep h' h hne' hne m hm0 hm hc' hc test
  have h3 : randomizers.card = 2 ^ 2047 := Finset.card_range _
  have h4 : 2 ^ 2047 = 2 ^ 127 * 2 ^ 1920 := by rw [← pow_add]
  have h5 : min (2 ^ 2047 % m) (m - 2 ^ 2047 % m) * 2 ≤ m := by
    have := Nat.mod_lt (2 ^ 2047) hm0
    omega
  rw [h3, h4]
  rw [h4] at h1 h2 h5
  generalize min (2 ^ 127 * 2 ^ 1920 % m) (m - 2 ^ 127 * 2 ^ 1920 % m) = d at h1 h2 h5
  generalize passes randomizers (zkAccOf E fuel set enc setup) test = a at h1 h2 ⊢
  generalize passes randomizers (zkAccOf E fuel set' enc setup) test = b at h1 h2 ⊢
  have h6 : 2 ^ 128 = 2 ^ 127 * 2 := by rw [← pow_succ]
  rw [h6]
  generalize 2 ^ 1920 = X at *
  generalize 2 ^ 127 = Y at *
  have h7 : d * (Y * 2) ≤ Y * X := by nlinarith
  constructor <;> nlinarith

/-! ## Leak through even representatives -/

theorem not_isSquare_odd_pow {p : Nat} [Fact p.Prime] (g : ZMod p) (hg : ¬ IsSquare g) (n : Nat) (hn : n % 2 = 1) :
    ¬ IsSquare (g ^ n) := by
  rintro ⟨y, hy⟩
  have h0 : g ^ (n / 2) ≠ 0 := by
    intro h
    exact hg (by rw [eq_zero_of_pow_eq_zero h]; exact ⟨0, by simp⟩)
  apply hg
  refine ⟨y / g ^ (n / 2), ?_⟩
  rw [div_mul_div_comm, ← hy, eq_div_iff (mul_ne_zero h0 h0)]
  conv_rhs => rw [← Nat.div_add_mod n 2, hn]
  ring

/-- The accumulator is a square modulo `p`. -/
def AccSquareMod (p : Nat) (acc : Option Nat) : Prop := ∃ a y, acc = some a ∧ a ≡ y * y [MOD p]

theorem accSquareMod_iff {p : Nat} [Fact p.Prime] (G N n : Nat) (hp : p ∣ N) :
    AccSquareMod p (some (G ^ n % N)) ↔ IsSquare ((G : ZMod p) ^ n) := by
  have h : ((G ^ n % N : Nat) : ZMod p) = (G : ZMod p) ^ n := by
    rw [← Nat.cast_pow, ZMod.natCast_eq_natCast_iff, Nat.ModEq, Nat.mod_mod_of_dvd _ hp]
  constructor
  · rintro ⟨a, y, ha, hy⟩
    rw [Option.some.injEq] at ha
    subst ha
    rw [← ZMod.natCast_eq_natCast_iff, h] at hy
    exact ⟨y, by rw [hy]; push_cast; rfl⟩
  · rintro ⟨y, hy⟩
    refine ⟨_, y.val, rfl, ?_⟩
    rw [← ZMod.natCast_eq_natCast_iff, h, hy]
    push_cast
    rw [ZMod.natCast_zmod_val]

theorem count_even (n : Nat) : (n * 2 + 0).count (fun r => r % 2 = 0) = n := by
  rw [count_blocks _ 2 (fun r => by omega)]
  simp [Nat.count_succ]

/-- C101 (leak): if `G` is no square modulo a prime factor of `N`, every accumulator of a set with an even representative is
a square modulo that factor, and exactly half of the accumulators of a set of odd representatives. -/
theorem C101_even_leak (E : Env) (fuel : Nat) (set set' : List Bytes) (enc : Int) (setup : Setup)
    (rep rep' : List Nat) (h : genRepresentatives E fuel set enc = Run.ok rep)
    (h' : genRepresentatives E fuel set' enc = Run.ok rep') (hne : set ≠ []) (hne' : set' ≠ []) (p : Nat) (hp : p.Prime)
    (hd : p ∣ setup.N) (hG : ∀ y, ¬ setup.G ≡ y * y [MOD p]) (x : Nat) (hx : x ∈ rep) (hx2 : x % 2 = 0)
    (hodd : ∀ x ∈ rep', x % 2 = 1) :
    passes randomizers (zkAccOf E fuel set enc setup) (AccSquareMod p) = 2 ^ 2047 ∧
      passes randomizers (zkAccOf E fuel set' enc setup) (AccSquareMod p) = 2 ^ 2046 := by
  classical
  have : Fact p.Prime := ⟨hp⟩
  have hg : ¬ IsSquare (setup.G : ZMod p) := by
    rintro ⟨y, hy⟩
    apply hG y.val
    rw [← ZMod.natCast_eq_natCast_iff, hy]
    push_cast
    rw [ZMod.natCast_zmod_val]
  have e1 : zkAccOf E fuel set enc setup = fun r => some (setup.G ^ (r * rep.prod) % setup.N) :=
    funext fun r => zkAccOf_eq E fuel set enc setup rep h hne r
  have e2 : zkAccOf E fuel set' enc setup = fun r => some (setup.G ^ (r * rep'.prod) % setup.N) :=
    funext fun r => zkAccOf_eq E fuel set' enc setup rep' h' hne' r
  have hs : ∀ r, AccSquareMod p (some (setup.G ^ (r * rep.prod) % setup.N)) := by
    intro r
    rw [accSquareMod_iff _ _ _ hd]
    obtain ⟨c, hc⟩ := (Nat.dvd_of_mod_eq_zero hx2).trans (List.dvd_prod hx)
    exact ⟨(setup.G : ZMod p) ^ (r * c), by rw [hc, ← pow_add]; congr 1; ring⟩
  have ho : rep'.prod % 2 = 1 := by
    have : Nat.Coprime rep'.prod 2 := Nat.coprime_list_prod_left_iff.2 fun x hx =>
      (Nat.odd_iff.2 (hodd x hx)).coprime_two_right
    exact Nat.odd_iff.1 (Nat.coprime_two_right.1 this)
  have hs' : ∀ r, AccSquareMod p (some (setup.G ^ (r * rep'.prod) % setup.N)) ↔ r % 2 = 0 := by
    intro r
    rw [accSquareMod_iff _ _ _ hd]
    constructor
    · intro hsq
      by_contra hr
      exact not_isSquare_odd_pow _ hg _ (by rw [Nat.mul_mod, ho, show r % 2 = 1 by omega]) hsq
    · intro hr
      obtain ⟨c, hc⟩ := Nat.dvd_of_mod_eq_zero hr
      exact ⟨(setup.G : ZMod p) ^ (c * rep'.prod), by rw [hc, ← pow_add]; congr 1; ring⟩
  constructor
  · rw [e1]
    unfold passes
    rw [Finset.filter_true_of_mem fun r _ => hs r]
    exact Finset.card_range _
  · rw [e2]
    unfold randomizers
    rw [passes_range]
    simp only [hs']
    have := count_even (2 ^ 2046)
    rwa [Nat.add_zero, ← pow_succ] at this

theorem oneRep : genRepresentatives exampleEnv 3 [[49]] diHashFromPoseidon = Run.ok [1 + min1024] := by
  rw [genRepresentatives_ok_iff]
  exact .cons (exampleRepOf _ 1 (by decide) (by omega)) .nil

theorem twoRep : genRepresentatives exampleEnv 3 [[50]] diHashFromPoseidon = Run.ok [2 + min1024] := by
  rw [genRepresentatives_ok_iff]
  exact .cons (exampleRepOf _ 2 (by decide) (by omega)) .nil

theorem min1024_even : min1024 % 2 = 0 := by
  unfold min1024
  decide +kernel

/-- The two sets `{"2"}` and `{"1"}`, accumulated with `N = 35` and `G = 2`. -/
theorem C101_half : passes randomizers (zkAccOf exampleEnv 3 [[50]] diHashFromPoseidon ⟨35, 2⟩) (AccSquareMod 5) = 2 ^ 2047 ∧
    passes randomizers (zkAccOf exampleEnv 3 [[49]] diHashFromPoseidon ⟨35, 2⟩) (AccSquareMod 5) = 2 ^ 2046 := by
  have he := min1024_even
  have h1 := oneRep
  have h2 := twoRep
  generalize min1024 = M at he h1 h2
  refine C101_even_leak exampleEnv 3 [[50]] [[49]] diHashFromPoseidon ⟨35, 2⟩ _ _ h2 h1 (by simp) (by simp) 5 (by decide)
    (by decide) ?_ (2 + M) (by simp) (by omega) (by simp; omega)
  intro y hy
  have : y % 5 = 0 ∨ y % 5 = 1 ∨ y % 5 = 2 ∨ y % 5 = 3 ∨ y % 5 = 4 := by omega
  have hy' : 2 = y * y % 5 := hy
  rw [Nat.mul_mod] at hy'
  rcases this with h | h | h | h | h <;> rw [h] at hy' <;> simp at hy'

theorem not_close_half {α β : Type} (coins : Finset α) (f g : α → β) (test : β → Prop) (X : Nat) (hX : 0 < X)
    (hc : coins.card = X * 2) (hf : passes coins f test = X * 2) (hg : passes coins g test = X) (K : Nat) (hK : 2 < K) :
    ¬ Close K coins f g := by
  intro h
  have h1 := (h test).1
  rw [hc, hf, hg] at h1
  nlinarith

/-- C101: the accumulator tells apart the sets `{"2"}` and `{"1"}` under the hash that skips the search for primes. -/
theorem C101_violated : ¬ C101_statement := by
  intro h
  have h1 := h exampleEnv 3 [[50]] [[49]] diHashFromPoseidon ⟨35, 2⟩ _ _ twoRep oneRep rfl (by simp) (by decide)
  obtain ⟨h2, h3⟩ := C101_half
  have h4 : randomizers.card = 2 ^ 2047 := Finset.card_range _
  have h5 : 2 ^ 2047 = 2 ^ 2046 * 2 := by rw [← pow_succ]
  have h6 : 0 < 2 ^ 2046 := Nat.two_pow_pos _
  rw [h5] at h2 h4
  generalize 2 ^ 2046 = X at h2 h3 h4 h6
  exact not_close_half _ _ _ _ X h6 h4 h2 h3 _ (by norm_num) h1

/-- Two sets that the conditions of the partial theorems allow: `{"5"}` and `{"9"}` have representatives without a common
factor with 12, and `2 ^ 12 = 1` modulo 35. -/
example : Close (2 ^ 128) randomizers (zkAccOf exampleEnv 3 [[53]] diHashFromPoseidon ⟨35, 2⟩)
    (zkAccOf exampleEnv 3 [[57]] diHashFromPoseidon ⟨35, 2⟩) := by
  have h5 : genRepresentatives exampleEnv 3 [[53]] diHashFromPoseidon = Run.ok [5 + min1024] := by
    rw [genRepresentatives_ok_iff]
    exact .cons (exampleRepOf _ 5 (by decide) (by omega)) .nil
  have h9 : genRepresentatives exampleEnv 3 [[57]] diHashFromPoseidon = Run.ok [9 + min1024] := by
    rw [genRepresentatives_ok_iff]
    exact .cons (exampleRepOf _ 9 (by decide) (by omega)) .nil
  have hM : min1024 % 12 = 8 := by
    unfold min1024
    decide +kernel
  generalize min1024 = M at h5 h9 hM
  have hcop : ∀ k, (k + M) % 12 = 1 ∨ (k + M) % 12 = 5 → Nat.Coprime (k + M) 12 := by
    intro k hk
    rw [Nat.coprime_comm]
    unfold Nat.Coprime
    rw [Nat.gcd_rec]
    rcases hk with h | h <;> rw [h] <;> rfl
  refine C101_small_order_partial exampleEnv 3 [[53]] [[57]] _ ⟨35, 2⟩ _ _ h5 h9 (by simp) (by simp) 12 (by decide) (by decide)
    ?_ ?_ (Nat.le_trans (by decide) (Nat.pow_le_pow_right (by decide) (show 4 ≤ 1920 by decide)))
  · intro x hx
    rw [List.mem_singleton.1 hx]
    exact hcop 5 (by omega)
  · intro x hx
    rw [List.mem_singleton.1 hx]
    exact hcop 9 (by omega)

end Verif.Props
