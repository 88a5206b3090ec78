import Verif.Lemmas.Precompute

/-!
# C151: powers with negative exponents

`AccumulateNew` and `accumulate`, accumulator/accumulator.go:225-236, do not look at the result of `Exp`.
-/

namespace Verif.Props

open Verif.Go Verif.Model Verif.Lemmas

/-! ## Specification -/

/-- `r` is the residue of `g ^ p` modulo `N`; for a negative `p` the inverse of `g ^ |p|`. -/
def IsPowerMod (g p : Int) (N : Nat) (r : Int) : Prop :=
  0 ≤ r ∧ r < N ∧ (if 0 ≤ p then r ≡ g ^ p.natAbs [ZMOD N] else r * g ^ p.natAbs ≡ 1 [ZMOD N])

/-- **C151.** What `AccumulateNew` returns is the power, whenever there is one, and nothing is returned as a power if there is
none. -/
def C151_statement : Prop := ∀ (g p : Int) (N : Nat), 1 ≤ N → IsPowerMod g p N (accumulateInt g p N)

/-! ## Theorems -/

theorem modEq_iff_cast (N : Nat) (a b : Int) : a ≡ b [ZMOD N] ↔ (a : ZMod N) = (b : ZMod N) :=
  (ZMod.intCast_eq_intCast_iff a b N).symm

/-- Without an inverse the base comes back. -/
theorem C151_base_returned (g p : Int) (N : Nat) (hN : 1 ≤ N) (hp : p < 0) (hg : Int.gcd g N ≠ 1) :
    accumulateInt g p N = g ∧ ∀ r, ¬ IsPowerMod g p N r := by
  have : NeZero N := ⟨by omega⟩
  refine ⟨?_, fun r hr => ?_⟩
  · unfold accumulateInt
    rw [(bigExp_eq_none_iff (N := N) g p).2 ⟨hp, hg⟩]
    rfl
  · obtain ⟨-, -, h⟩ := hr
    rw [if_neg (by omega), modEq_iff_cast] at h
    push_cast at h
    refine hg ((isUnit_iff_gcd g).1 ?_)
    have hu : IsUnit ((g : ZMod N) ^ p.natAbs) := IsUnit.of_mul_eq_one_right _ h
    exact (isUnit_pow_iff (by omega)).1 hu

theorem power_nonneg (g p : Int) (N : Nat) (hN : 1 ≤ N) (hp : 0 ≤ p) : IsPowerMod g p N (accumulateInt g p N) := by
  have : NeZero N := ⟨by omega⟩
  rw [accumulateInt_eq g p hp]
  refine ⟨by positivity, by exact_mod_cast ZMod.val_lt _, ?_⟩
  rw [if_pos hp, modEq_iff_cast]
  push_cast
  rw [ZMod.natCast_val, ZMod.cast_id']
  rfl

/-- What comes back if there is an inverse, with the sign that `Exp` adds for negative bases. -/
theorem power_neg (g p : Int) (N : Nat) (hN : 1 ≤ N) (hp : p < 0) (hg : Int.gcd g N = 1) :
    ∃ r, accumulateInt g p N = r ∧ 0 ≤ r ∧ r < N ∧
      (r : ZMod N) * (g : ZMod N) ^ p.natAbs = if g < 0 ∧ p % 2 = 1 then -1 else 1 := by
  have : NeZero N := ⟨by omega⟩
  obtain ⟨u, hu⟩ := (isUnit_iff_gcd (N := N) g).2 hg
  have hi := modInverse_unit g u hu
  set i : Int := (((↑(u⁻¹) : ZMod N).val : Nat) : Int) with hidef
  have hinv : (i : ZMod N) * (g : ZMod N) = 1 := by
    rw [hidef, Int.cast_natCast, ZMod.natCast_val, ZMod.cast_id', id, ← hu, Units.inv_mul]
  cases hb : bigExp g p N with
  | none => exact absurd hg ((bigExp_eq_none_iff (N := N) g p).1 hb).2
  | some r =>
    obtain ⟨h0, h1⟩ := bigExp_range hb
    refine ⟨r, by unfold accumulateInt; rw [hb]; rfl, h0, h1, ?_⟩
    unfold bigExp at hb
    rw [if_neg (by omega)] at hb
    simp only [if_pos hp, hi, Option.map_some, Option.some.injEq] at hb
    have hz : ((i ^ p.natAbs % (N : Int) : Int) : ZMod N) * (g : ZMod N) ^ p.natAbs = 1 := by
      rw [ZMod.intCast_mod]
      push_cast
      rw [← mul_pow, hinv, one_pow]
    by_cases hs : g < 0 ∧ p % 2 = 1
    · rw [if_pos hs]
      by_cases hzero : i ^ p.natAbs % (N : Int) = 0
      · rw [if_neg (by simp [hzero])] at hb
        rw [← hb, hz]
        rw [hzero, Int.cast_zero, zero_mul] at hz
        rw [← hz, neg_zero]
      · rw [if_pos ⟨hzero, hs.1, hs.2⟩] at hb
        rw [← hb]
        push_cast [Int.natAbs_natCast] at hz ⊢
        rw [sub_mul, hz, ZMod.natCast_self, zero_mul, zero_sub]
    · rw [if_neg hs]
      rw [if_neg (fun h => hs h.2)] at hb
      rw [← hb, hz]

/-- C151, exactly: the result is the power if and only if the exponent is not negative, or the base has an inverse and is not
negative or the exponent is even (for the moduli 1 and 2 the sign does not matter). -/
theorem C151_iff_partial (g p : Int) (N : Nat) (hN : 1 ≤ N) :
    IsPowerMod g p N (accumulateInt g p N) ↔ 0 ≤ p ∨ Int.gcd g N = 1 ∧ (0 ≤ g ∨ p % 2 = 0 ∨ N ≤ 2) := by
  have : NeZero N := ⟨by omega⟩
  by_cases hp : 0 ≤ p
  · simp [hp, power_nonneg g p N hN hp]
  · by_cases hg : Int.gcd g N = 1
    · obtain ⟨r, hr, h0, h1, h⟩ := power_neg g p N hN (by omega) hg
      rw [hr]
      unfold IsPowerMod
      rw [if_neg hp, modEq_iff_cast]
      push_cast
      rw [h]
      simp only [h0, h1, true_and, hp, hg, false_or]
      by_cases hs : g < 0 ∧ p % 2 = 1
      · rw [if_pos hs]
        constructor
        · intro h2
          right; right
          have h3 : ((2 : Nat) : ZMod N) = 0 := by
            push_cast
            rw [← one_add_one_eq_two]
            nth_rw 1 [← h2]
            exact neg_add_cancel 1
          exact Nat.le_of_dvd (by decide) ((ZMod.natCast_eq_zero_iff 2 N).1 h3)
        · rintro (h2 | h2 | h2)
          · omega
          · omega
          · have h3 : ((2 : Nat) : ZMod N) = 0 := (ZMod.natCast_eq_zero_iff 2 N).2 (by
              have : N = 1 ∨ N = 2 := by omega
              rcases this with rfl | rfl <;> decide)
            push_cast at h3
            rw [← one_add_one_eq_two] at h3
            exact (eq_neg_of_add_eq_zero_left h3).symm
      · rw [if_neg hs]
        simp only [true_iff]
        omega
    · obtain ⟨-, h2⟩ := C151_base_returned g p N hN (by omega) hg
      simp only [hp, hg, false_and, or_self, iff_false]
      exact h2 _

/-- In `accumulate` an element without a power is passed over. -/
theorem C151_skipped (g v : Int) (N : Nat) (hN : 1 ≤ N) (set : List Int) (hv : v < 0) (hg : Int.gcd g N ≠ 1) :
    accumulateIntSet g N (v :: set) = accumulateIntSet g N set := by
  have : NeZero N := ⟨by omega⟩
  unfold accumulateIntSet
  rw [List.foldl_cons, (bigExp_eq_none_iff (N := N) g v).2 ⟨hv, hg⟩]
  rfl

theorem prod_of_nonneg : ∀ l : List Int, (∀ v ∈ l, 0 ≤ v) → 0 ≤ l.prod
  | [], _ => by decide
  | v :: l, h => by
    rw [List.prod_cons]
    exact mul_nonneg (h v List.mem_cons_self) (prod_of_nonneg l fun w hw => h w (List.mem_cons_of_mem _ hw))

/-- For elements that are not negative `accumulate` gives the power to their product. -/
theorem C151_set_partial (N : Nat) (hN : 1 ≤ N) : ∀ (set : List Int) (g : Int), set ≠ [] → (∀ v ∈ set, 0 ≤ v) →
    IsPowerMod g set.prod N (accumulateIntSet g N set) := by
  have : NeZero N := ⟨by omega⟩
  intro set
  induction set with
  | nil => intro g h _; exact absurd rfl h
  | cons v set ih =>
    intro g _ hv
    have h0 := hv v List.mem_cons_self
    have hset : ∀ w ∈ set, 0 ≤ w := fun w hw => hv w (List.mem_cons_of_mem _ hw)
    have hprod : 0 ≤ set.prod := prod_of_nonneg set hset
    have hstep : (bigExp g v N).getD g = accumulateInt g v N := rfl
    have e : accumulateIntSet g N (v :: set) = accumulateIntSet (accumulateInt g v N) N set := rfl
    rw [e, List.prod_cons]
    by_cases hne : set = []
    · subst hne
      rw [List.prod_nil, mul_one]
      exact power_nonneg g v N hN h0
    · obtain ⟨h1, h2, h3⟩ := ih (accumulateInt g v N) hne hset
      refine ⟨h1, h2, ?_⟩
      rw [if_pos hprod, modEq_iff_cast] at h3
      rw [if_pos (mul_nonneg h0 hprod), modEq_iff_cast, h3]
      push_cast
      rw [accumulateInt_cast g v h0, ← pow_mul, Int.natAbs_mul]

/-- **C151** is violated: 2 has no inverse modulo 4, and -2 modulo 5 has the inverse 2, not 3. -/
theorem C151_violated : ¬ C151_statement := by
  intro h
  exact (C151_base_returned 2 (-1) 4 (by decide) (by decide) (by decide)).2 _ (h 2 (-1) 4 (by decide))

example : accumulateInt 6 (-1) 4 = 6 := by decide
example : accumulateInt (-2) (-1) 5 = 3 := by decide +kernel
example : IsPowerMod 3 (-2) 7 (accumulateInt 3 (-2) 7) := (C151_iff_partial 3 (-2) 7 (by decide)).2 (by decide)
example : accumulateIntSet 2 4 [-3, 1] = 2 := by decide +kernel

end Verif.Props
