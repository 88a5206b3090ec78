import Mathlib.AlgebraicGeometry.EllipticCurve.Affine.Point
import Mathlib.Data.ZMod.Basic
import Mathlib.Algebra.QuadraticAlgebra.Basic
import Mathlib.NumberTheory.LegendreSymbol.Basic
import Verif.Lemmas.BN254

/-!
# The curve BN254, apart from the model

`q` is the order of the base field, `r` the order of the scalar field (EIP-196). Points of G1 are the points of
y² = x³ + 3 with Mathlib's group law.
-/

namespace Verif.Spec.BN254

/-- Order of the base field. -/
def q : Nat := 21888242871839275222246405745257275088696311157297823662689037894645226208583

/-- Order of the scalar field. -/
def r : Nat := 21888242871839275222246405745257275088548364400416034343698204186575808495617

instance : Fact q.Prime := ⟨Lemmas.bn254_q_prime⟩

/-- The curve y² = x³ + 3. -/
def curve : WeierstrassCurve.Affine (ZMod q) := { a₁ := 0, a₂ := 0, a₃ := 0, a₄ := 0, a₆ := 3 }

/-- Points of G1. -/
abbrev Point := curve.Point

/-- The two words `x`, `y` are the encoding of the point: zero is (0, 0), every other point is given by its reduced
coordinates. -/
def Encodes (x y : Nat) : Point → Prop
  | .zero => x = 0 ∧ y = 0
  | .some x' y' _ => x < q ∧ y < q ∧ (x : ZMod q) = x' ∧ (y : ZMod q) = y'

/-- The words split into groups of six. -/
def Pairs {G2 : Type} (enc2 : Nat → Nat → Nat → Nat → G2 → Prop) : List Nat → List (Point × G2) → Prop
  | [], [] => True
  | x :: y :: a :: b :: c :: d :: ws, (P, Q) :: l => Encodes x y P ∧ enc2 a b c d Q ∧ Pairs enc2 ws l
  | _, _ => False

/-- What EIP-196 and EIP-197 say about a successful call of the three precompiled contracts. `G2` is the second group
with the encoding `enc2`, `T` the target group written additively, `e` the pairing. -/
structure Eip {G2 T : Type} [AddCommGroup G2] [AddCommGroup T] (enc2 : Nat → Nat → Nat → Nat → G2 → Prop)
    (e : Point →+ G2 →+ T) (ecAdd ecMul : List Nat → Option (Nat × Nat)) (ecPairing : List Nat → Option Nat) : Prop where
  unique : ∀ a b c d Q Q', enc2 a b c d Q → enc2 a b c d Q' → Q = Q'
  add : ∀ x₁ y₁ x₂ y₂ z, ecAdd [x₁, y₁, x₂, y₂] = some z →
    ∃ P Q, Encodes x₁ y₁ P ∧ Encodes x₂ y₂ Q ∧ Encodes z.1 z.2 (P + Q)
  mul : ∀ x y s z, ecMul [x, y, s] = some z → ∃ P, Encodes x y P ∧ Encodes z.1 z.2 (s • P)
  pairing : ∀ ws v, ecPairing ws = some v →
    ∃ l, Pairs enc2 ws l ∧ (v ≠ 0 ↔ (l.map fun x => e x.1 x.2).sum = 0)

/-- The calls succeed on proper inputs: there is enough gas. -/
structure EnoughGas {G2 : Type} (enc2 : Nat → Nat → Nat → Nat → G2 → Prop)
    (ecAdd ecMul : List Nat → Option (Nat × Nat)) (ecPairing : List Nat → Option Nat) : Prop where
  add : ∀ x₁ y₁ x₂ y₂ P Q, Encodes x₁ y₁ P → Encodes x₂ y₂ Q → (ecAdd [x₁, y₁, x₂, y₂]).isSome
  mul : ∀ x y s P, Encodes x y P → (ecMul [x, y, s]).isSome
  pairing : ∀ ws l, Pairs enc2 ws l → (ecPairing ws).isSome

/-- The field of the second group: F_q with a square root `u` of -1. -/
abbrev Fq2 := QuadraticAlgebra (ZMod q) (-1) 0

/-- The words are reduced and, read as `x0 * u + x1` and `y0 * u + y1`, satisfy y² = x³ + 3 / (9 + u). -/
def OnTwist (x0 x1 y0 y1 : Nat) : Prop :=
  (x0 < q ∧ x1 < q ∧ y0 < q ∧ y1 < q) ∧
    (⟨9, 1⟩ : Fq2) * (⟨y1, y0⟩ : Fq2) ^ 2 = (⟨9, 1⟩ : Fq2) * (⟨x1, x0⟩ : Fq2) ^ 3 + 3

/-- q is 3 modulo 4, so -1 is not a square in F_q. -/
instance : Fact (∀ a : ZMod q, a ^ 2 ≠ -1 + 0 * a) := ⟨fun a h => by
  rw [zero_mul, add_zero] at h
  have h3 : q % 4 = 3 := by decide +kernel
  exact ZMod.mod_four_ne_three_of_sq_eq_neg_one h h3⟩

/-- The twist y² = x³ + 3 / (9 + u). -/
noncomputable def twist : WeierstrassCurve.Affine Fq2 := { a₁ := 0, a₂ := 0, a₃ := 0, a₄ := 0, a₆ := 3 / ⟨9, 1⟩ }

noncomputable instance : DecidableEq Fq2 := Classical.decEq _

/-- Points of the second group: the points of the twist whose order divides r (EIP-197). -/
noncomputable def TwistGroup : AddSubgroup twist.Point := (nsmulAddMonoidHom r : twist.Point →+ twist.Point).ker

/-- The four words are the encoding of the point of the twist (EIP-197): zero is (0, 0, 0, 0), every other point is given by
its reduced coordinates, the imaginary part first. -/
def EncodesTwist (x0 x1 y0 y1 : Nat) : twist.Point → Prop
  | .zero => x0 = 0 ∧ x1 = 0 ∧ y0 = 0 ∧ y1 = 0
  | .some x y _ => (x0 < q ∧ x1 < q ∧ y0 < q ∧ y1 < q) ∧ (⟨x1, x0⟩ : Fq2) = x ∧ (⟨y1, y0⟩ : Fq2) = y

/-- The encoding of the second group. -/
def Encodes2 (x0 x1 y0 y1 : Nat) (Q : TwistGroup) : Prop := EncodesTwist x0 x1 y0 y1 Q

end Verif.Spec.BN254
