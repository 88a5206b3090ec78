import Verif.Lemmas.CurveOrder
import Verif.Lemmas.Solidity
import Mathlib.GroupTheory.OrderOfElement
import Mathlib.GroupTheory.Perm.Cycle.Type

/-! # Orders of points of BN254, by computation in the kernel -/

namespace Verif.Lemmas.BN254Order

open Verif.Lemmas.CurveOrder Verif.Spec.BN254 Verif.Lemmas.Solidity WeierstrassCurve

/-- Numbers modulo m. -/
def natOps (m : Nat) : Ops Nat where
  mul a b := a * b % m
  sub a b := (a + (m - b % m)) % m
  smul n a := n * a % m

/-- Numbers modulo m with a square root of -1. -/
def pairOps (m : Nat) : Ops (Nat × Nat) where
  mul a b := ((a.1 * b.1 + (m - a.2 * b.2 % m)) % m, (a.1 * b.2 + a.2 * b.1) % m)
  sub a b := ((a.1 + (m - b.1 % m)) % m, (a.2 + (m - b.2 % m)) % m)
  smul n a := (n * a.1 % m, n * a.2 % m)

/-- Evaluates the number before going on. -/
def force {β : Type} (n : Nat) (f : Nat → β) : β := Nat.rec (f 0) (fun k _ => f (k + 1)) n

theorem force_eq {β : Type} (n : Nat) (f : Nat → β) : force n f = f n := by cases n <;> rfl

/-- Evaluates a pair. -/
def force2 {β : Type} (n : Nat × Nat) (f : Nat × Nat → β) : β := force n.1 fun a => force n.2 fun b => f (a, b)

theorem force2_eq {β : Type} (n : Nat × Nat) (f : Nat × Nat → β) : force2 n f = f n := by
  simp only [force2, force_eq]

/-- Double-and-add on pairs, with evaluated coordinates in every step. -/
def run2 (m : Nat) (x y : Nat × Nat) : List Bool → Jac (Nat × Nat) → Jac (Nat × Nat)
  | [], j => j
  | b :: l, j =>
    let s := j.step (pairOps m) x y b
    force2 s.X fun X => force2 s.Y fun Y => force2 s.Z fun Z => run2 m x y l ⟨X, Y, Z⟩

theorem run2_eq (m : Nat) (x y : Nat × Nat) (l : List Bool) (j : Jac (Nat × Nat)) :
    run2 m x y l j = l.foldl (Jac.step (pairOps m) x y) j := by
  induction l generalizing j with
  | nil => rfl
  | cons b l ih => simp only [run2, force2_eq, ih, List.foldl_cons]

/-- Binary digits of `n` below the first one, the highest first. -/
def bits : Nat → Nat → List Bool → List Bool
  | 0, _, l => l
  | f + 1, n, l => if n ≤ 1 then l else bits f (n / 2) ((n % 2 == 1) :: l)

/-- The digits of r - 1. -/
def rBits : List Bool := bits 254 (r - 1) []

theorem rBits_eq : ofBits 1 rBits + 1 = r := by decide +kernel

/-- Is (r - 1) times the point (x, y) its inverse? -/
def check2 (x y : Nat × Nat) : Bool :=
  let o := pairOps q
  let j := run2 q x y rBits ⟨x, y, (1, 0)⟩
  let ZZ := o.mul j.Z j.Z
  (j.Z.1 % q != 0 || j.Z.2 % q != 0) && j.X == o.mul x ZZ && j.Y == o.sub (0, 0) (o.mul y (o.mul ZZ j.Z))

/-- Double-and-add on numbers. -/
def run1 (m x y : Nat) : List Bool → Jac Nat → Jac Nat
  | [], j => j
  | b :: l, j =>
    let s := j.step (natOps m) x y b
    force s.X fun X => force s.Y fun Y => force s.Z fun Z => run1 m x y l ⟨X, Y, Z⟩

theorem run1_eq (m x y : Nat) (l : List Bool) (j : Jac Nat) : run1 m x y l j = l.foldl (Jac.step (natOps m) x y) j := by
  induction l generalizing j with
  | nil => rfl
  | cons b l ih => simp only [run1, force_eq, ih, List.foldl_cons]

/-- Is (r - 1) times the point (x, y) its inverse? -/
def check1 (x y : Nat) : Bool :=
  let o := natOps q
  let j := run1 q x y rBits ⟨x, y, 1⟩
  let ZZ := o.mul j.Z j.Z
  j.Z % q != 0 && j.X == o.mul x ZZ && j.Y == o.sub 0 (o.mul y (o.mul ZZ j.Z))

theorem generator_check : check1 1 2 = true := by decide +kernel

open Verif.Model.Solidity in
theorem keys_check : ∀ vk ∈ [notusKey, contractKey, testKey], ∀ Q ∈ [vk.beta2, vk.gamma2, vk.delta2],
    check2 (Q.x1, Q.x0) (Q.y1, Q.y0) = true := by decide +kernel

attribute [local irreducible] q r

theorem cast_sub (a b : Nat) : ((a + (q - b % q) : Nat) : ZMod q) = a - b := by
  have h : b % q ≤ q := (Nat.mod_lt _ (by have := q_gt; omega)).le
  rw [Nat.cast_add, Nat.cast_sub h]
  simp [sub_eq_add_neg]

theorem natHom : (natOps q).Hom (fieldOps (ZMod q)) (fun a : Nat => (a : ZMod q)) where
  mul a b := by simp [natOps, fieldOps]
  sub a b := by
    show (((a + (q - b % q)) % q : Nat) : ZMod q) = a - b
    rw [ZMod.natCast_mod, cast_sub]
  smul n a := by simp [natOps, fieldOps]

/-- The pair as an element of the field. -/
def toFq2 (a : Nat × Nat) : Fq2 := ⟨a.1, a.2⟩

theorem pairHom : (pairOps q).Hom (fieldOps Fq2) toFq2 where
  mul a b := by
    ext
    · show (((a.1 * b.1 + (q - a.2 * b.2 % q)) % q : Nat) : ZMod q) = _
      rw [ZMod.natCast_mod, cast_sub]
      simp [toFq2, fieldOps, sub_eq_add_neg]
    · simp [pairOps, toFq2, fieldOps]
  sub a b := by
    ext
    · show (((a.1 + (q - b.1 % q)) % q : Nat) : ZMod q) = _
      rw [ZMod.natCast_mod, cast_sub]
      simp [toFq2, fieldOps]
    · show (((a.2 + (q - b.2 % q)) % q : Nat) : ZMod q) = _
      rw [ZMod.natCast_mod, cast_sub]
      simp [toFq2, fieldOps]
  smul n a := by
    ext <;> simp [pairOps, toFq2, fieldOps]

theorem check1_ok (x y : Nat) (h : check1 x y = true) (hn : curve.Nonsingular (x : ZMod q) (y : ZMod q)) :
    r • (Affine.Point.some _ _ hn : Point) = 0 := by
  simp only [check1, Bool.and_eq_true, bne_iff_ne, beq_iff_eq] at h
  obtain ⟨⟨hz, hx⟩, hy⟩ := h
  have hj := foldl_map natHom x y rBits ⟨x, y, 1⟩
  rw [← run1_eq] at hj
  rw [← rBits_eq]
  generalize run1 q x y rBits ⟨x, y, 1⟩ = j at *
  have e : (Jac.map (fun a : Nat => (a : ZMod q)) ⟨x, y, 1⟩) = ⟨(x : ZMod q), (y : ZMod q), 1⟩ := by simp [Jac.map]
  rw [e] at hj
  refine order_of_foldl rfl rfl rfl rfl _ _ hn rBits _ hj.symm ?_ ?_ ?_
  · show ((j.Z : Nat) : ZMod q) ≠ 0
    rw [Ne, ZMod.natCast_eq_zero_iff]
    exact fun h => hz (Nat.mod_eq_zero_of_dvd h)
  · show ((j.X : Nat) : ZMod q) = _
    rw [hx, natHom.mul, natHom.mul]
    simp [fieldOps, Jac.map, pow_two]
  · show ((j.Y : Nat) : ZMod q) = _
    rw [hy, natHom.sub, natHom.mul, natHom.mul, natHom.mul]
    simp [fieldOps, Jac.map, pow_succ]

theorem check2_ok (x y : Nat × Nat) (h : check2 x y = true) (hn : twist.Nonsingular (toFq2 x) (toFq2 y)) :
    r • (Affine.Point.some _ _ hn : twist.Point) = 0 := by
  simp only [check2, Bool.and_eq_true, Bool.or_eq_true, bne_iff_ne, beq_iff_eq] at h
  obtain ⟨⟨hz, hx⟩, hy⟩ := h
  have hj := foldl_map pairHom x y rBits ⟨x, y, (1, 0)⟩
  rw [← run2_eq] at hj
  rw [← rBits_eq]
  generalize run2 q x y rBits ⟨x, y, (1, 0)⟩ = j at *
  have e : Jac.map toFq2 ⟨x, y, (1, 0)⟩ = ⟨toFq2 x, toFq2 y, 1⟩ := by
    have h1 : toFq2 (1, 0) = 1 := by
      ext
      · exact Nat.cast_one
      · exact Nat.cast_zero
    simp only [Jac.map, h1]
  rw [e] at hj
  refine order_of_foldl rfl rfl rfl rfl _ _ hn rBits _ hj.symm ?_ ?_ ?_
  · show toFq2 j.Z ≠ 0
    intro h
    have h1 : ((j.Z.1 : Nat) : ZMod q) = 0 := congrArg QuadraticAlgebra.re h
    have h2 : ((j.Z.2 : Nat) : ZMod q) = 0 := congrArg QuadraticAlgebra.im h
    rw [ZMod.natCast_eq_zero_iff] at h1 h2
    rcases hz with hz | hz
    · exact hz (Nat.mod_eq_zero_of_dvd h1)
    · exact hz (Nat.mod_eq_zero_of_dvd h2)
  · show toFq2 j.X = _
    rw [hx, pairHom.mul, pairHom.mul]
    simp [fieldOps, Jac.map, pow_two]
  · show toFq2 j.Y = _
    have h0 : toFq2 (0, 0) = 0 := by ext <;> simp [toFq2]
    rw [hy, pairHom.sub, pairHom.mul, pairHom.mul, pairHom.mul, h0]
    simp [fieldOps, Jac.map, pow_succ]

/-! ## The number of points of the curve -/

theorem q_odd : q % 2 = 1 := by decide +kernel

theorem two_ne : (2 : ZMod q) ≠ 0 := by
  have h : ((2 : Nat) : ZMod q) ≠ 0 := by
    rw [Ne, ZMod.natCast_eq_zero_iff]
    intro h
    have := Nat.le_of_dvd (by decide) h
    have := q_gt
    omega
  exact_mod_cast h

/-- First coordinate and the half in which the second one lies. -/
def half : Point → Option (ZMod q × Bool)
  | .zero => none
  | .some x y _ => some (x, decide (2 * y.val < q))

theorem half_injective : Function.Injective half := by
  intro P Q h
  match P, Q with
  | .zero, .zero => rfl
  | .zero, .some _ _ _ => cases h
  | .some _ _ _, .zero => cases h
  | .some x y hn, .some x' y' hn' =>
    simp only [half, Option.some.injEq, Prod.mk.injEq, decide_eq_decide] at h
    obtain ⟨rfl, hh⟩ := h
    have h1 := (equation_iff _ _).1 hn.1
    have h2 := (equation_iff _ _).1 hn'.1
    have h3 : (y - y') * (y + y') = 0 := by linear_combination h1 - h2
    rcases mul_eq_zero.1 h3 with h | h
    · have := sub_eq_zero.1 h
      subst this
      rfl
    · exfalso
      have hy : y = -y' := eq_neg_of_add_eq_zero_left h
      have h0 := some_ne hn'
      have : NeZero y' := ⟨h0⟩
      rw [hy, ZMod.val_neg_of_ne_zero] at hh
      have h4 := ZMod.val_lt y'
      have := q_odd
      omega

instance : Finite Point := Finite.of_injective half half_injective

theorem card_option (n : Nat) [NeZero n] : Nat.card (Option (ZMod n × Bool)) = 2 * n + 1 := by
  simp [mul_comm]

theorem card_le : Nat.card Point ≤ 2 * q + 1 := by
  have h := Nat.card_le_card_of_injective half half_injective
  rwa [card_option] at h

theorem r_prime : Nat.Prime r := by
  unfold r
  exact bn254_r_prime

theorem no_two (P : Point) (h : 2 • P = 0) : P = 0 := by
  match P with
  | .zero => rfl
  | .some x y hn =>
    exfalso
    rw [two_nsmul, add_eq_zero_iff_eq_neg, Affine.Point.neg_some, Affine.Point.some.injEq, negY_eq] at h
    have h2 : 2 * y = 0 := by linear_combination h.2
    exact mul_ne_zero two_ne (some_ne hn) h2

theorem three_r : 2 * q + 1 < 3 * r := by decide +kernel

theorem order_of_some (n x y : Nat)
    (h : ∀ hn : curve.Nonsingular (x : ZMod q) (y : ZMod q), n • (Affine.Point.some _ _ hn : Point) = 0) (G : Point)
    (he : Encodes x y G) : n • G = 0 := by
  match G with
  | .zero => exact nsmul_zero n
  | .some x y hn =>
    obtain ⟨_, _, h1, h2⟩ := he
    subst h1 h2
    exact h hn

theorem order_of_check1 (x y : Nat) (hc : check1 x y = true) (G : Point) (he : Encodes x y G) : r • G = 0 :=
  order_of_some r x y (check1_ok x y hc) G he

/-- A group with an element of prime order p, fewer than 3 p elements and no element of order two has p elements. -/
theorem card_of {A : Type} [AddCommGroup A] [Finite A] (p n : Nat) (hp : p.Prime) (g : A) (hg : g ≠ 0) (ho : p • g = 0)
    (hn : Nat.card A ≤ n) (hlt : n < 3 * p) (h2 : ∀ a : A, 2 • a = 0 → a = 0) : Nat.card A = p := by
  have := Fact.mk hp
  obtain ⟨k, hk⟩ : p ∣ Nat.card A := addOrderOf_eq_prime ho hg ▸ addOrderOf_dvd_natCard g
  have h3 : Nat.card A ≠ 0 := Nat.card_pos.ne'
  have hk3 : k < 3 := by
    by_contra h
    have : p * 3 ≤ p * k := Nat.mul_le_mul_left _ (by omega)
    omega
  have hk0 : k ≠ 0 := by rintro rfl; simp at hk; exact h3 hk
  have hk2 : k ≠ 2 := by
    rintro rfl
    have := Fact.mk Nat.prime_two
    obtain ⟨P, hP⟩ := exists_prime_addOrderOf_dvd_card' (G := A) 2 ⟨p, by rw [hk, mul_comm]⟩
    have h0 := h2 P (by rw [← hP]; exact addOrderOf_nsmul_eq_zero P)
    rw [h0, addOrderOf_zero] at hP
    omega
  have : k = 1 := by omega
  rw [hk, this, mul_one]

theorem card_eq : Nat.card Point = r := by
  obtain ⟨G, hG, he⟩ := checkG1_ok ⟨1, 2⟩ (by decide +kernel)
  exact card_of r (2 * q + 1) r_prime G hG (order_of_check1 1 2 generator_check G he) card_le three_r no_two

/-- Every point but zero has order r. -/
theorem point_order (P : Point) (h : P ≠ 0) : addOrderOf P = r := by
  have := Fact.mk r_prime
  exact addOrderOf_eq_prime (card_eq ▸ card_nsmul_eq_zero') h

/-! ## Points of the second group -/

theorem nine_ne : (⟨9, 1⟩ : Fq2) ≠ 0 := by
  intro h
  have : (1 : ZMod q) = 0 := congrArg QuadraticAlgebra.im h
  exact one_ne_zero this

theorem cast_ne (n : Nat) (h0 : n ≠ 0) (h1 : n < 1000) : (n : Fq2) ≠ 0 := by
  intro h
  have h : ((n : Nat) : ZMod q) = 0 := by
    have := congrArg QuadraticAlgebra.re h
    simpa using this
  rw [ZMod.natCast_eq_zero_iff] at h
  have := Nat.le_of_dvd (by omega) h
  have := q_gt
  omega

theorem twist_equation (x y : Fq2) : twist.Equation x y ↔ ⟨9, 1⟩ * y ^ 2 = ⟨9, 1⟩ * x ^ 3 + 3 := by
  have h9 := nine_ne
  rw [Affine.equation_iff]
  simp only [twist, zero_mul, add_zero]
  generalize (⟨9, 1⟩ : Fq2) = c at *
  constructor
  · intro h
    rw [h]
    field_simp
  · intro h
    have : c * y ^ 2 = c * (x ^ 3 + 3 / c) := by rw [h]; field_simp
    exact mul_left_cancel₀ h9 this

theorem twist_nonsingular (x y : Fq2) (h : twist.Equation x y) : twist.Nonsingular x y := by
  rw [← Affine.equation_iff_nonsingular_of_Δ_ne_zero]
  · exact h
  · have h9 := nine_ne
    have h3 := cast_ne 3 (by decide) (by decide)
    have h432 := cast_ne 432 (by decide) (by decide)
    have : twist.Δ = - (432 * (3 / ⟨9, 1⟩) ^ 2) := by
      simp only [WeierstrassCurve.Δ, WeierstrassCurve.b₂, WeierstrassCurve.b₄, WeierstrassCurve.b₆, WeierstrassCurve.b₈, twist]
      ring
    rw [this]
    refine neg_ne_zero.2 (mul_ne_zero (by exact_mod_cast h432) (pow_ne_zero 2 (div_ne_zero (by exact_mod_cast h3) h9)))

end Verif.Lemmas.BN254Order
