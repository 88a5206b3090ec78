import Verif.Props.MultiSwap
import Verif.Lemmas.Periodic
import Verif.Spec.Coins
import Mathlib.GroupTheory.OrderOfElement
import Mathlib.Data.ZMod.Units

/-!
# Property C125: the randomizers of MultiSwap blind the accumulators

The accumulator before an update is the power of the middle accumulator by the product of the removed representatives and the
blinding factors (experiments/finaltests.go:526-536 and 567). The circuit restricts the randomizers to 32 bits
(zkmultiswap/circuit.go:38-39).
-/

namespace Verif.Props
open Verif.Go Verif.Model Verif.Lemmas Verif.Spec

/-- The randomizers that the circuit accepts. -/
def circuitRandomizers : Finset Nat := Finset.range (2 ^ 32)

/-- The accumulator that belongs to the product `P` of representatives and the randomizer `r`. -/
def blinded {N : Nat} (E : Env) (mid : (ZMod N)ˣ) (P r : Nat) : (ZMod N)ˣ := mid ^ (P * blinding E r)

/-- C125: for every product, the blinded accumulator for a random randomizer and a random power of the middle accumulator are
told apart by no test with an advantage above 2^-128. -/
def C125_statement : Prop := ∀ (E : Env) (N : Nat) (mid : (ZMod N)ˣ) (P : Nat), 0 < orderOf mid → Nat.Coprime P (orderOf mid) →
  ∀ test : (ZMod N)ˣ → Prop,
    passes circuitRandomizers (blinded E mid P) test * orderOf mid * 2 ^ 128 ≤
      passes (Finset.range (orderOf mid)) (fun k => mid ^ k) test * circuitRandomizers.card * 2 ^ 128 +
        circuitRandomizers.card * orderOf mid ∧
    passes (Finset.range (orderOf mid)) (fun k => mid ^ k) test * circuitRandomizers.card * 2 ^ 128 ≤
      passes circuitRandomizers (blinded E mid P) test * orderOf mid * 2 ^ 128 + circuitRandomizers.card * orderOf mid

theorem passes_all {α β : Type} (coins : Finset α) (f : α → β) (test : β → Prop) (h : ∀ w ∈ coins, test (f w)) :
    passes coins f test = coins.card := by
  classical
  rw [passes, Finset.filter_true_of_mem h]

theorem passes_le_card {α β : Type} (coins : Finset α) (f : α → β) (test : β → Prop) (T : Finset β) (hf : Set.InjOn f coins)
    (h : ∀ w ∈ coins, test (f w) → f w ∈ T) : passes coins f test ≤ T.card := by
  classical
  rw [passes]
  refine Finset.card_le_card_of_injOn f (fun k hk => ?_) (fun a ha b hb hab => ?_)
  · obtain ⟨h1, h2⟩ := Finset.mem_filter.1 hk
    exact h k h1 h2
  · exact hf (Finset.mem_filter.1 ha).1 (Finset.mem_filter.1 hb).1 hab

theorem told_apart {N : Nat} (coins : Finset Nat) (E : Env) (mid : (ZMod N)ˣ) (P : Nat) :
    ∃ test : (ZMod N)ˣ → Prop, passes coins (blinded E mid P) test = coins.card ∧
      passes (Finset.range (orderOf mid)) (fun k => mid ^ k) test ≤ coins.card := by
  classical
  refine ⟨fun u => u ∈ coins.image (blinded E mid P), passes_all _ _ _ fun r hr => Finset.mem_image_of_mem _ hr, ?_⟩
  refine le_trans (passes_le_card _ _ _ (coins.image (blinded E mid P)) ?_ fun _ _ h => h) Finset.card_image_le
  intro a ha b hb hab
  exact pow_injOn_Iio_orderOf (Finset.mem_range.1 ha) (Finset.mem_range.1 hb) hab

/-- C125: if the order is at least 2^33, one test always succeeds for the blinded accumulator, and for at most half of the
powers. The test knows the product and tries all randomizers, so a guess of the removed records is confirmed. -/
theorem C125_told_apart (E : Env) (N : Nat) (mid : (ZMod N)ˣ) (P : Nat) (hm : 2 ^ 33 ≤ orderOf mid) :
    ∃ test : (ZMod N)ˣ → Prop, passes circuitRandomizers (blinded E mid P) test = circuitRandomizers.card ∧
      passes (Finset.range (orderOf mid)) (fun k => mid ^ k) test * 2 ≤ orderOf mid := by
  obtain ⟨test, h1, h2⟩ := told_apart circuitRandomizers E mid P
  refine ⟨test, h1, ?_⟩
  have h3 : circuitRandomizers.card = 2 ^ 32 := Finset.card_range _
  omega

/-- 4 modulo 3^26. -/
def four3 : (ZMod (3 ^ 26))ˣ := ZMod.unitOfCoprime 4 (by decide +kernel)

theorem cube_iterate (M x n : Nat) : (fun y => y ^ 3 % M)^[n] (x % M) = x ^ 3 ^ n % M := by
  induction n generalizing x with
  | zero => simp
  | succ n ih => rw [Function.iterate_succ_apply, ← Nat.pow_mod, ih, ← pow_mul, pow_succ' 3 n]

theorem four3_pow (n : Nat) : four3 ^ n = 1 ↔ 4 ^ n % 3 ^ 26 = 1 := by
  rw [← Units.val_inj, Units.val_pow_eq_pow_val, four3, ZMod.coe_unitOfCoprime, Units.val_one]
  have h := ZMod.natCast_eq_natCast_iff' (4 ^ n) 1 (3 ^ 26)
  rw [Nat.cast_pow, Nat.cast_one] at h
  exact h

theorem four3_order : orderOf four3 = 3 ^ 25 := by
  have : Fact (Nat.Prime 3) := ⟨by decide⟩
  refine orderOf_eq_prime_pow ?_ ?_
  · rw [four3_pow, ← cube_iterate]
    decide +kernel
  · rw [four3_pow, ← cube_iterate]
    decide +kernel

theorem C125_violated : ¬ C125_statement := by
  intro h
  have ho : (2 : Nat) ^ 33 ≤ orderOf four3 := by rw [four3_order]; decide +kernel
  obtain ⟨test, h1, h2⟩ := C125_told_apart sumEnv (3 ^ 26) four3 1 ho
  have h3 := (h sumEnv (3 ^ 26) four3 1 (by omega) (Nat.coprime_one_left _) test).1
  rw [h1] at h3
  have h4 : circuitRandomizers.card = 2 ^ 32 := Finset.card_range _
  rw [h4] at h3
  generalize orderOf four3 = m at *
  generalize passes (Finset.range m) (fun k => four3 ^ k) test = p at *
  omega

theorem even_powers {N : Nat} (coins : Finset Nat) (b : Nat → Nat) (mid : (ZMod N)ˣ) (P w : Nat) (h0 : 0 < orderOf mid)
    (hP : Nat.Coprime P (orderOf mid))
    (hw : ∀ k < orderOf mid, passes coins (fun r => b r % orderOf mid) (· = k) = w) (test : (ZMod N)ˣ → Prop) :
    passes coins (fun r => mid ^ (P * b r)) test = w * passes (Finset.range (orderOf mid)) (fun k => mid ^ k) test := by
  classical
  rw [← passes_permuted (fun k => mid ^ k) (orderOf mid) P h0 hP (fun r => pow_mod_orderOf mid r) test]
  unfold passes at hw ⊢
  have key : ∀ r, mid ^ (P * b r) = mid ^ (b r % orderOf mid * P) := fun r => by
    rw [pow_mul mid (b r % orderOf mid), pow_mod_orderOf, ← pow_mul, mul_comm]
  rw [Finset.card_eq_sum_card_fiberwise (f := fun r => b r % orderOf mid)
    (t := {k ∈ Finset.range (orderOf mid) | test (mid ^ (k * P))})]
  · rw [Finset.sum_congr rfl (g := fun _ => w), Finset.sum_const, smul_eq_mul, mul_comm]
    intro k hk
    rw [Finset.mem_filter, Finset.mem_range] at hk
    refine Eq.trans ?_ (hw k hk.1)
    rw [Finset.filter_filter]
    refine congrArg Finset.card (Finset.ext fun r => ?_)
    simp only [Finset.mem_filter]
    refine ⟨fun h => ⟨h.1, h.2.2⟩, fun h => ⟨h.1, ?_, h.2⟩⟩
    rw [key, h.2]
    exact hk.2
  · intro r hr
    rw [Finset.mem_coe, Finset.mem_filter] at hr ⊢
    exact ⟨Finset.mem_range.2 (Nat.mod_lt _ h0), by rw [← key]; exact hr.2⟩

/-- C125, what holds: if the blinding factors are spread evenly over the exponents, so are the blinded accumulators, for every
product without common factor with the order. Missing from the full statement: 2^32 randomizers cannot be spread evenly over
more than 2^32 exponents. -/
theorem C125_even_partial (E : Env) (N : Nat) (mid : (ZMod N)ˣ) (P w : Nat) (h0 : 0 < orderOf mid)
    (hP : Nat.Coprime P (orderOf mid))
    (hw : ∀ k < orderOf mid, passes circuitRandomizers (fun r => blinding E r % orderOf mid) (· = k) = w)
    (test : (ZMod N)ˣ → Prop) :
    passes circuitRandomizers (blinded E mid P) test = w * passes (Finset.range (orderOf mid)) (fun k => mid ^ k) test :=
  even_powers circuitRandomizers (blinding E) mid P w h0 hP hw test

/-- A hash for the example: the blinding factor of a randomizer is the randomizer. -/
def plainEnv : Env := { sumEnv with
  poseidon := fun l => if l.tail = [0] then l.headD 0 % frOrder else 1
  poseidon_lt := fun l => by
    split
    · exact Nat.mod_lt _ (by decide)
    · decide +kernel }

theorem plainEnv_blinding (r : Nat) (h : r < frOrder) : blinding plainEnv r = r := by
  have h0 : plainEnv.poseidon [r, 0] = r := Nat.mod_eq_of_lt h
  rw [blinding, Finset.prod_eq_single_of_mem 0 (Finset.mem_range.2 (by decide)), h0]
  intro i _ hi
  exact if_neg (by simpa using hi)

theorem passes_same {α β : Type} (coins : Finset α) (f g : α → β) (test : β → Prop) (h : ∀ w ∈ coins, f w = g w) :
    passes coins f test = passes coins g test := by
  classical
  rw [passes, passes]
  refine congrArg Finset.card (Finset.filter_congr fun r hr => ?_)
  rw [h r hr]

theorem passes_mod (m w k : Nat) (hk : k < m) : passes (Finset.range (w * m)) (fun r => r % m) (· = k) = w := by
  classical
  rw [passes]
  conv_rhs => rw [← Finset.card_range w]
  symm
  refine Finset.card_bij (fun j _ => j * m + k) ?_ ?_ ?_
  · intro j hj
    rw [Finset.mem_range] at hj
    simp only [Finset.mem_filter, Finset.mem_range, Nat.mul_add_mod_self_right, Nat.mod_eq_of_lt hk, and_true]
    calc j * m + k < j * m + m := by omega
      _ = (j + 1) * m := by ring
      _ ≤ w * m := Nat.mul_le_mul_right _ hj
  · intro a _ b _ hab
    exact Nat.eq_of_mul_eq_mul_right (by omega) (Nat.add_right_cancel hab)
  · intro r hr
    simp only [Finset.mem_filter, Finset.mem_range] at hr
    refine ⟨r / m, Finset.mem_range.2 (Nat.div_lt_of_lt_mul (by rw [mul_comm]; exact hr.1)), ?_⟩
    rw [← hr.2]
    exact Nat.div_add_mod' r m

/-- 6 has order 2 modulo 35; the randomizers are spread evenly over its two powers. -/
example : ∃ mid : (ZMod 35)ˣ, orderOf mid = 2 ∧ Nat.Coprime 3 (orderOf mid) ∧
    ∀ k < orderOf mid, passes circuitRandomizers (fun r => blinding plainEnv r % orderOf mid) (· = k) = 2 ^ 31 := by
  have ho : orderOf (⟨6, 6, by decide, by decide⟩ : (ZMod 35)ˣ) = 2 := orderOf_eq_prime (by decide +kernel) (by decide +kernel)
  refine ⟨_, ho, by rw [ho]; decide, ?_⟩
  rw [ho]
  intro k hk
  rw [← passes_mod 2 (2 ^ 31) k hk, circuitRandomizers, ← pow_succ]
  have h : ∀ M ≤ frOrder, passes (Finset.range M) (fun r => blinding plainEnv r % 2) (· = k) =
      passes (Finset.range M) (fun r => r % 2) (· = k) := by
    intro M hM
    refine passes_same _ _ _ _ fun r hr => ?_
    rw [plainEnv_blinding r (lt_of_lt_of_le (Finset.mem_range.1 hr) hM)]
  exact h _ (by decide +kernel)

end Verif.Props
