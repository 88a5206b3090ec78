import Verif.Lemmas.UniversalHash
import Mathlib.Tactic.NormNum.Prime
import Mathlib.Tactic.Linarith
import Mathlib.Tactic.IntervalCases

/-!
# Property C91: collisions of the universal hash
-/

namespace Verif.Props
open Verif.Go Verif.Model Verif.Lemmas Finset

/-- The parameters `(A, B)` below `P` for which `x` and `y` have the same hash. -/
def collisions (P : Nat) (x y : Int) : Finset (Nat × Nat) :=
  (range P ×ˢ range P).filter fun p => universalHashToInt p.1 p.2 P x = universalHashToInt p.1 p.2 P y

/-- The values of the hash: the odd numbers up to `P`. -/
def outputs (P : Nat) : Finset Nat := (range (P + 1)).filter fun n => n % 2 = 1

/-- Over the parameters that `RandomSetupForUniversalHash` draws, two different inputs collide at most as often as for a
random function (the definition of a universal family). -/
def C91_statement : Prop :=
  ∀ (P : Nat), P.Prime → P % 2 = 1 → ∀ x y : Nat, x < P → y < P → x ≠ y →
    (collisions P x y).card * (outputs P).card ≤ (range P ×ˢ range P).card

/-- C91: the exact number of colliding parameters. -/
theorem C91_collision_count (P : Nat) (hodd : P % 2 = 1) (x y : Int) (hco : IsCoprime (x - y) (P : Int)) :
    (collisions P x y).card = 2 * P - 1 := by
  have hP : 0 < P := by omega
  obtain ⟨m, rfl⟩ : ∃ m, P = 2 * m + 1 := ⟨P / 2, by omega⟩
  have h1 : collisions (2 * m + 1) x y = (range (2 * m + 1) ×ˢ range (2 * m + 1)).filter
      (fun p => uhVal (2 * m + 1) x p.1 p.2 / 2 = uhVal (2 * m + 1) y p.1 p.2 / 2) := by
    unfold collisions
    exact filter_congr fun p _ => uh_eq_iff hP x y p.1 p.2
  rw [h1, card_filter_comp (range (2 * m + 1) ×ˢ range (2 * m + 1))
    (fun p => (uhVal (2 * m + 1) x p.1 p.2, uhVal (2 * m + 1) y p.1 p.2)) (uhVal_pair_inj hP x y hco)
    (fun p _ => mem_product.2 ⟨mem_range.2 (uhVal_lt hP _ _ _), mem_range.2 (uhVal_lt hP _ _ _)⟩)
    (fun q => q.1 / 2 = q.2 / 2), pair_count]
  omega

/-- C91: inputs that are congruent modulo `P` always collide. -/
theorem C91_congruent (P : Nat) (x y : Int) (h : (P : Int) ∣ x - y) (A B : Int) :
    universalHashToInt A B P x = universalHashToInt A B P y := by
  have : x * A % (P : Int) = y * A % P := by
    rw [Int.emod_eq_emod_iff_emod_sub_eq_zero, ← sub_mul]
    exact Int.emod_eq_zero_of_dvd (h.mul_right _)
  unfold universalHashToInt
  simp only [this]

theorem outputs_card (P : Nat) (hodd : P % 2 = 1) : (outputs P).card = (P + 1) / 2 := by
  obtain ⟨m, rfl⟩ : ∃ m, P = 2 * m + 1 := ⟨P / 2, by omega⟩
  have : outputs (2 * m + 1) = (range (m + 1)).image fun i => 2 * i + 1 := by
    ext n
    simp only [outputs, mem_filter, mem_range, mem_image]
    constructor
    · rintro ⟨h1, h2⟩; exact ⟨n / 2, by omega, by omega⟩
    · rintro ⟨i, h1, rfl⟩; omega
  rw [this, card_image_of_injective _ (fun a b h => by simpa using h), card_range]
  omega

/-- C91: every value is one of `outputs`, and every one of them is a value if `A` is coprime to `P`. -/
theorem C91_preimages (P : Nat) (hodd : P % 2 = 1) (A B : Nat) (hco : IsCoprime (A : Int) (P : Int)) (o : Nat)
    (ho : o ∈ outputs P) :
    ((range P).filter fun x => universalHashToInt A B P (x : Nat) = o).card = if o = P then 1 else 2 := by
  have hP : 0 < P := by omega
  have ho := mem_filter.1 ho
  have hlt := mem_range.1 ho.1
  have h1 : (range P).filter (fun x => universalHashToInt A B P (x : Nat) = o) =
      (range P).filter (fun x : Nat => uhVal P x A B / 2 = o / 2) := by
    apply filter_congr
    intro x _
    rw [uh_eq hP]
    omega
  rw [h1, card_filter_comp (range P) (fun x => uhVal P x A B) (uhVal_inj hP A B hco)
    (fun x _ => mem_range.2 (uhVal_lt hP _ _ _)) (fun u => u / 2 = o / 2)]
  split
  · have : (range P).filter (fun u => u / 2 = o / 2) = {o - 1} := by
      ext u; simp only [mem_filter, mem_range, mem_singleton]; omega
    rw [this, card_singleton]
  · have : (range P).filter (fun u => u / 2 = o / 2) = {o - 1, o} := by
      ext u; simp only [mem_filter, mem_range, mem_insert, mem_singleton]; omega
    rw [this, card_pair (by omega)]

/-- C91: the bound of a universal family is exceeded for every odd `P`, because `A = 0` can be drawn. -/
theorem C91_never_universal (P : Nat) (hodd : P % 2 = 1) (x y : Int) (hco : IsCoprime (x - y) (P : Int))
    (hP : 1 < P) : (range P ×ˢ range P).card < (collisions P x y).card * (outputs P).card := by
  rw [C91_collision_count P hodd x y hco, outputs_card P hodd, card_product, card_range]
  obtain ⟨m, rfl⟩ : ∃ m, P = 2 * m + 1 := ⟨P / 2, by omega⟩
  have e1 : 2 * (2 * m + 1) - 1 = 4 * m + 1 := by omega
  have e2 : (2 * m + 1 + 1) / 2 = m + 1 := by omega
  rw [e1, e2]
  nlinarith

theorem C91_violated : ¬ C91_statement := by
  intro h
  have h1 := h 3 (by norm_num) (by decide) 0 1 (by decide) (by decide) (by decide)
  have h2 := C91_never_universal 3 (by decide) (0 : Nat) (1 : Nat) ⟨-1, 0, by norm_num⟩ (by decide)
  omega

/-- C91, what holds: without `A = 0` the family is universal; two inputs collide for one in `P` of the parameters. -/
theorem C91_universal_partial (P : Nat) (hodd : P % 2 = 1) (x y : Int) (hco : IsCoprime (x - y) (P : Int)) :
    ((collisions P x y).filter fun p => p.1 ≠ 0).card = P - 1 ∧
    ((collisions P x y).filter fun p => p.1 ≠ 0).card * P = ((range P ×ˢ range P).filter fun p => p.1 ≠ 0).card := by
  have hP : 0 < P := by omega
  have hz : ((collisions P x y).filter fun p => p.1 = 0) = (range P).image fun b => (0, b) := by
    ext ⟨a, b⟩
    simp only [collisions, mem_filter, mem_product, mem_range, mem_image, Prod.mk.injEq]
    constructor
    · rintro ⟨⟨⟨-, hb⟩, -⟩, rfl⟩; exact ⟨b, hb, rfl, rfl⟩
    · rintro ⟨b', hb, rfl, rfl⟩
      refine ⟨⟨⟨hP, hb⟩, ?_⟩, rfl⟩
      simp only [universalHashToInt, Nat.cast_zero, mul_zero]
  have hz0 : ((range P ×ˢ range P).filter fun p => p.1 = 0) = (range P).image fun b => (0, b) := by
    ext ⟨a, b⟩
    simp only [mem_filter, mem_product, mem_range, mem_image, Prod.mk.injEq]
    constructor
    · rintro ⟨⟨-, hb⟩, rfl⟩; exact ⟨b, hb, rfl, rfl⟩
    · rintro ⟨b', hb, rfl, rfl⟩; exact ⟨⟨hP, hb⟩, rfl⟩
  have hi : ((range P).image fun b => ((0 : Nat), b)).card = P := by
    rw [card_image_of_injective _ (fun a b h => by simpa using h), card_range]
  have h1 := card_filter_add_card_filter_not (s := collisions P x y) (fun p => p.1 = 0)
  rw [hz, hi, C91_collision_count P hodd x y hco] at h1
  have h2 := card_filter_add_card_filter_not (s := range P ×ˢ range P) (fun p => p.1 = 0)
  rw [hz0, hi, card_product, card_range] at h2
  have e : ((collisions P x y).filter fun p => p.1 ≠ 0).card = P - 1 := by
    have : ((collisions P x y).filter fun p => ¬ p.1 = 0).card = P - 1 := by omega
    exact this
  refine ⟨e, ?_⟩
  rw [e]
  have : ((range P ×ˢ range P).filter fun p => ¬ p.1 = 0).card = P * P - P := by omega
  rw [Nat.sub_mul, one_mul]
  exact this.symm

/-- C91: what `RandomSetupForUniversalHash` prints: the first candidate that passes the test, and any two numbers below
it. -/
theorem C91_setup (test : Nat → Bool) (cand : Nat → Nat) (p a b : Nat) :
    (∃ rndA rndB fuel, randomSetupForUniversalHash test cand rndA rndB fuel = Run.ok (p, a, b)) ↔
      a < p ∧ b < p ∧ ∃ k, p = cand k ∧ test p = true ∧ ∀ j, j < k → test (cand j) = false := by
  have hloop : ∀ fuel pos, getPrime256 test cand fuel pos = some p ↔
      ∃ k, k < fuel ∧ p = cand (pos + k) ∧ test p = true ∧ ∀ j, j < k → test (cand (pos + j)) = false := by
    intro fuel
    induction fuel with
    | zero => intro pos; simp [getPrime256]
    | succ f ih =>
      intro pos
      unfold getPrime256
      dsimp only
      cases ht : test (cand pos) with
      | true =>
        simp only [Bool.true_eq_false, if_false, Option.some.injEq]
        constructor
        · rintro rfl; exact ⟨0, by omega, rfl, ht, fun j hj => absurd hj (by omega)⟩
        · rintro ⟨k, -, rfl, -, h⟩
          rcases k with _ | k
          · rfl
          · have := h 0 (by omega); rw [Nat.add_zero, ht] at this; cases this
      | false =>
        simp only [if_true]
        rw [ih]
        constructor
        · rintro ⟨k, h1, rfl, h2, h3⟩
          refine ⟨k + 1, by omega, by rw [Nat.add_assoc, Nat.add_comm 1], h2, ?_⟩
          intro j hj
          rcases j with _ | j
          · exact ht
          · have := h3 j (by omega); rwa [Nat.add_assoc, Nat.add_comm 1] at this
        · rintro ⟨k, h1, h4, h2, h3⟩
          rcases k with _ | k
          · rw [Nat.add_zero] at h4; subst h4; rw [ht] at h2; cases h2
          · refine ⟨k, by omega, by rw [h4, Nat.add_assoc, Nat.add_comm 1], h2, ?_⟩
            intro j hj
            have := h3 (j + 1) (by omega); rwa [Nat.add_assoc, Nat.add_comm 1]
  constructor
  · rintro ⟨rndA, rndB, fuel, h⟩
    unfold randomSetupForUniversalHash at h
    rw [run_bind_ok_iff] at h
    obtain ⟨q, hq, h⟩ := h
    rw [liftLoop_ok_iff] at hq
    by_cases h0 : q = 0
    · rw [if_pos h0, run_bind_ok_iff] at h
      obtain ⟨u, hu, -⟩ := h
      rw [liftRes_ok_iff] at hu
      cases hu
    · rw [if_neg h0] at h
      have h := run_ok_inj h
      simp only [Prod.mk.injEq] at h
      obtain ⟨rfl, rfl, rfl⟩ := h
      obtain ⟨k, -, h1, h2, h3⟩ := (hloop fuel 0).1 hq
      simp only [Nat.zero_add] at h1 h3
      exact ⟨Nat.mod_lt _ (by omega), Nat.mod_lt _ (by omega), k, h1, h2, h3⟩
  · rintro ⟨ha, hb, k, h1, h2, h3⟩
    refine ⟨a, b, k + 1, ?_⟩
    unfold randomSetupForUniversalHash
    rw [run_bind_ok_iff]
    refine ⟨p, (liftLoop_ok_iff _ _).2 ((hloop (k + 1) 0).2 ⟨k, by omega, by simpa using h1, h2, by simpa using h3⟩), ?_⟩
    rw [if_neg (by omega), Nat.mod_eq_of_lt ha, Nat.mod_eq_of_lt hb]
    rfl

/-- C91: with the parameters in the code, every odd number below `P` has exactly two preimages below `P`, and `P` has
one. -/
theorem C91_code_parameters (o : Nat) (ho : o ∈ outputs uhP) :
    ((range uhP).filter fun x => universalHashToInt uhA uhB uhP (x : Nat) = o).card = if o = uhP then 1 else 2 :=
  C91_preimages uhP (by decide +kernel) uhA uhB (Nat.isCoprime_iff_coprime.2 (by decide +kernel)) o ho

example : 5 ∈ outputs uhP ∧ uhP ∈ outputs uhP ∧ IsCoprime ((7 : Int) - 3) (5 : Nat) ∧ (collisions 5 7 3).card = 9 := by
  refine ⟨?_, ?_, ⟨-1, 1, by norm_num⟩, by decide +kernel⟩
  · exact mem_filter.2 ⟨mem_range.2 (by unfold uhP; omega), by decide⟩
  · exact mem_filter.2 ⟨mem_range.2 (by omega), by decide +kernel⟩

example : ∃ rndA rndB fuel, randomSetupForUniversalHash (fun n => n == 13) (fun i => i + 11) rndA rndB fuel =
    Run.ok (13, 0, 4) :=
  (C91_setup _ _ _ _ _).2 ⟨by decide, by decide, 2, rfl, rfl, by intro j hj; interval_cases j <;> rfl⟩

end Verif.Props
