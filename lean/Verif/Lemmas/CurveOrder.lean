import Mathlib.AlgebraicGeometry.EllipticCurve.Affine.Point
import Mathlib.Tactic.FieldSimp
import Mathlib.Tactic.LinearCombination

/-!
# Multiples of a point by computation

Points of y² = x³ + b in Jacobian coordinates: (X, Y, Z) with Z ≠ 0 stands for (X / Z², Y / Z³). The third coordinate of a
result is a multiple of all earlier ones, so it suffices to check that the last one is not zero.
-/

namespace Verif.Lemmas.CurveOrder

open WeierstrassCurve

/-- Jacobian coordinates. -/
structure Jac (F : Type) where
  X : F
  Y : F
  Z : F

/-- The operations needed; `smul n a` is the multiple by a small number. -/
structure Ops (C : Type) where
  mul : C → C → C
  sub : C → C → C
  smul : Nat → C → C

variable {C : Type}

/-- Doubling. -/
def Jac.dbl (o : Ops C) (j : Jac C) : Jac C :=
  let B := o.mul j.Y j.Y
  let D := o.smul 4 (o.mul j.X B)
  let E := o.smul 3 (o.mul j.X j.X)
  let X' := o.sub (o.mul E E) (o.smul 2 D)
  ⟨X', o.sub (o.mul E (o.sub D X')) (o.smul 8 (o.mul B B)), o.smul 2 (o.mul j.Y j.Z)⟩

/-- Addition of the point (x, y). -/
def Jac.add (o : Ops C) (j : Jac C) (x y : C) : Jac C :=
  let ZZ := o.mul j.Z j.Z
  let H := o.sub (o.mul x ZZ) j.X
  let R := o.sub (o.mul y (o.mul ZZ j.Z)) j.Y
  let HH := o.mul H H
  let V := o.mul j.X HH
  let HHH := o.mul H HH
  let X' := o.sub (o.sub (o.mul R R) HHH) (o.smul 2 V)
  ⟨X', o.sub (o.mul R (o.sub V X')) (o.mul j.Y HHH), o.mul j.Z H⟩

/-- One step of double-and-add. -/
def Jac.step (o : Ops C) (x y : C) (j : Jac C) (b : Bool) : Jac C :=
  match b with
  | true => (j.dbl o).add o x y
  | false => j.dbl o

/-- Image of the coordinates under a map. -/
def Jac.map {D : Type} (f : C → D) (j : Jac C) : Jac D := ⟨f j.X, f j.Y, f j.Z⟩

/-- A map that respects the operations. -/
structure Ops.Hom {D : Type} (o : Ops C) (o' : Ops D) (f : C → D) : Prop where
  mul : ∀ a b, f (o.mul a b) = o'.mul (f a) (f b)
  sub : ∀ a b, f (o.sub a b) = o'.sub (f a) (f b)
  smul : ∀ n a, f (o.smul n a) = o'.smul n (f a)

theorem step_map {D : Type} {o : Ops C} {o' : Ops D} {f : C → D} (h : o.Hom o' f) (x y : C) (j : Jac C) (b : Bool) :
    (j.step o x y b).map f = (j.map f).step o' (f x) (f y) b := by
  cases b <;> simp only [Jac.step, Jac.add, Jac.dbl, Jac.map, h.mul, h.sub, h.smul]

theorem foldl_map {D : Type} {o : Ops C} {o' : Ops D} {f : C → D} (h : o.Hom o' f) (x y : C) (l : List Bool) (j : Jac C) :
    (l.foldl (Jac.step o x y) j).map f = l.foldl (Jac.step o' (f x) (f y)) (j.map f) := by
  induction l generalizing j with
  | nil => rfl
  | cons b l ih => rw [List.foldl_cons, List.foldl_cons, ih, step_map h]

section
variable {F : Type} [Field F] [DecidableEq F]

/-- The operations of a field. -/
def fieldOps (F : Type) [Field F] : Ops F := ⟨(· * ·), (· - ·), fun n a => n * a⟩

/-- The coordinates stand for the point. -/
def Jac.Is {W : Affine F} (j : Jac F) : W.Point → Prop
  | .zero => False
  | .some x y _ => j.Z ≠ 0 ∧ j.X = x * j.Z ^ 2 ∧ j.Y = y * j.Z ^ 3

theorem dbl_is {W : Affine F} (h1 : W.a₁ = 0) (h2 : W.a₂ = 0) (h3 : W.a₃ = 0) (h4 : W.a₄ = 0) (j : Jac F) (P : W.Point)
    (h : j.Is P) (hz : (j.dbl (fieldOps F)).Z ≠ 0) : (j.dbl (fieldOps F)).Is (P + P) := by
  match P with
  | .zero => exact h.elim
  | .some x y hn =>
    obtain ⟨hZ, hX, hY⟩ := h
    obtain ⟨X, Y, Z⟩ := j
    simp only [Jac.dbl, fieldOps, Nat.cast_ofNat] at hz hZ hX hY ⊢
    have two : (2 : F) ≠ 0 := left_ne_zero_of_mul hz
    have hY0 : Y ≠ 0 := left_ne_zero_of_mul (right_ne_zero_of_mul hz)
    have hy : y ≠ 0 := by rintro rfl; simp at hY; exact hY0 hY
    have hne : y ≠ W.negY x y := by
      rw [Affine.negY, h1, h3]
      intro h
      have : 2 * y = 0 := by linear_combination h
      exact (mul_ne_zero two hy) this
    rw [Affine.Point.add_self_of_Y_ne hne]
    have hsl : W.slope x x y y = 3 * x ^ 2 / (2 * y) := by
      rw [Affine.slope_of_Y_ne rfl hne, Affine.negY, h1, h2, h3, h4]
      congr 1 <;> ring
    refine ⟨hz, ?_, ?_⟩
    · rw [Affine.addX, hsl, h1, h2, hX, hY]
      field_simp
      ring
    · rw [Affine.addY, Affine.negAddY, Affine.negY, Affine.addX, hsl, h1, h2, h3, hX, hY]
      field_simp
      ring

theorem add_is {W : Affine F} (h1 : W.a₁ = 0) (h2 : W.a₂ = 0) (h3 : W.a₃ = 0) (j : Jac F) (P : W.Point)
    (x y : F) (hn : W.Nonsingular x y)
    (h : j.Is P) (hz : (j.add (fieldOps F) x y).Z ≠ 0) : (j.add (fieldOps F) x y).Is (P + .some x y hn) := by
  match P with
  | .zero => exact h.elim
  | .some x' y' hn' =>
    obtain ⟨hZ, hX, hY⟩ := h
    obtain ⟨X, Y, Z⟩ := j
    simp only [Jac.add, fieldOps, Nat.cast_ofNat] at hz hZ hX hY ⊢
    have hH := right_ne_zero_of_mul hz
    have hx : x - x' ≠ 0 := by
      intro h
      apply hH
      rw [hX, sub_eq_zero.1 h]
      ring
    have hne : x' ≠ x := fun h => hx (sub_eq_zero.2 h.symm)
    have hx' : x' - x ≠ 0 := sub_ne_zero.2 hne
    rw [Affine.Point.add_of_X_ne hne]
    have hsl : W.slope x' x y' y = (y' - y) / (x' - x) := Affine.slope_of_X_ne hne
    refine ⟨hz, ?_, ?_⟩
    · rw [Affine.addX, hsl, h1, h2, hX, hY]
      field_simp
      ring
    · rw [Affine.addY, Affine.negAddY, Affine.negY, Affine.addX, hsl, h1, h2, h3, hX, hY]
      field_simp
      ring

omit [DecidableEq F] in
theorem step_z (x y : F) (j : Jac F) (b : Bool) (h : (j.step (fieldOps F) x y b).Z ≠ 0) : (j.dbl (fieldOps F)).Z ≠ 0 ∧ j.Z ≠ 0 := by
  have h' : (j.dbl (fieldOps F)).Z ≠ 0 := by
    cases b with
    | false => exact h
    | true => exact left_ne_zero_of_mul h
  exact ⟨h', right_ne_zero_of_mul (right_ne_zero_of_mul h')⟩

omit [DecidableEq F] in
theorem foldl_z (x y : F) (l : List Bool) (j : Jac F) (h : (l.foldl (Jac.step (fieldOps F) x y) j).Z ≠ 0) : j.Z ≠ 0 := by
  induction l generalizing j with
  | nil => exact h
  | cons b l ih => exact (step_z x y j b (ih _ h)).2

/-- The number with the given binary digits, after the digits of `n`. -/
def ofBits (n : Nat) (l : List Bool) : Nat := l.foldl (fun n b => 2 * n + b.toNat) n

theorem foldl_is {W : Affine F} (h1 : W.a₁ = 0) (h2 : W.a₂ = 0) (h3 : W.a₃ = 0) (h4 : W.a₄ = 0) (x y : F)
    (hn : W.Nonsingular x y) (l : List Bool) (j : Jac F) (n : Nat) (h : j.Is (n • Affine.Point.some x y hn))
    (hz : (l.foldl (Jac.step (fieldOps F) x y) j).Z ≠ 0) :
    (l.foldl (Jac.step (fieldOps F) x y) j).Is (ofBits n l • Affine.Point.some x y hn) := by
  induction l generalizing j n with
  | nil => exact h
  | cons b l ih =>
    rw [List.foldl_cons] at hz ⊢
    rw [ofBits, List.foldl_cons]
    apply ih _ _ _ hz
    have hs := foldl_z x y l _ hz
    have hd := dbl_is h1 h2 h3 h4 j _ h (step_z x y j b hs).1
    rw [← two_nsmul, ← mul_nsmul] at hd
    cases b with
    | false => simpa [Jac.step, mul_comm] using hd
    | true =>
      have := add_is h1 h2 h3 _ _ x y hn hd hs
      rw [← succ_nsmul] at this
      simpa [Jac.step, mul_comm] using this

/-- If double-and-add ends in the coordinates of the inverse of the point, one more addition gives zero. -/
theorem order_of_foldl {W : Affine F} (h1 : W.a₁ = 0) (h2 : W.a₂ = 0) (h3 : W.a₃ = 0) (h4 : W.a₄ = 0) (x y : F)
    (hn : W.Nonsingular x y) (l : List Bool) (j : Jac F) (hj : l.foldl (Jac.step (fieldOps F) x y) ⟨x, y, 1⟩ = j)
    (hz : j.Z ≠ 0) (hx : j.X = x * j.Z ^ 2) (hy : j.Y = - y * j.Z ^ 3) :
    (ofBits 1 l + 1) • Affine.Point.some x y hn = 0 := by
  have h := foldl_is h1 h2 h3 h4 x y hn l ⟨x, y, 1⟩ 1 (by rw [one_nsmul]; exact ⟨one_ne_zero, by simp, by simp⟩)
    (by rw [hj]; exact hz)
  rw [hj] at h
  rw [succ_nsmul]
  generalize ofBits 1 l • Affine.Point.some x y hn = P at h
  match P with
  | .zero => exact h.elim
  | .some x' y' hn' =>
    obtain ⟨_, hX, hY⟩ := h
    have e1 : x' = x := mul_right_cancel₀ (pow_ne_zero 2 hz) (hX.symm.trans hx)
    have e2 : y' = -y := mul_right_cancel₀ (pow_ne_zero 3 hz) (hY.symm.trans hy)
    apply Affine.Point.add_of_Y_eq e1
    rw [e2, Affine.negY, h1, h3]
    ring

end

end Verif.Lemmas.CurveOrder
