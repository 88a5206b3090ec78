import Mathlib.Algebra.BigOperators.Group.List.Basic

/-!
# Specification of accumulators and membership witnesses

Nothing here refers to the model of the code.
-/

namespace Verif.Spec

/-- Product of all elements of `xs` except the one at position `i`. -/
def allBut (xs : List Nat) (i : Nat) : Nat := (xs.eraseIdx i).prod

/-- Accumulator of the set `xs`: `base` raised to the product of all elements, modulo `N`. -/
def accumulator (base N : Nat) (xs : List Nat) : Nat := base ^ xs.prod % N

/-- Membership witness of the element at position `i`. -/
def witness (base N : Nat) (xs : List Nat) (i : Nat) : Nat := base ^ allBut xs i % N

/-- All witnesses, in the order of the set. -/
def witnesses (base N : Nat) (xs : List Nat) : List Nat := (List.range xs.length).map (witness base N xs)

/-- Membership check of the accumulator scheme: the witness raised to the element gives the accumulator. -/
def verifies (N acc w x : Nat) : Prop := w ^ x % N = acc

end Verif.Spec
