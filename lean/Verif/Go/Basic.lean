/-!
# Go results and slices

Basic conventions for the model of Go code.
-/

namespace Verif.Go

/-- Result of running Go code to its end: a value, or a run-time panic (explicit `panic`, index out of
range, division by zero, nil dereference ...). The string is only a label for the reader. -/
abbrev Res (α : Type) := Except String α

/-- A Go panic. -/
def goPanic {α : Type} (msg : String) : Res α := Except.error msg

/-- `true` if the run ended in a panic. -/
def Res.panics {α : Type} : Res α → Bool
  | .ok _ => false
  | .error _ => true

/-- Go slice expression `l[a:b]` on the value level. All uses in the code have `a ≤ b ≤ len l`, in which case
the slice expression does not panic. -/
def slice {α : Type} (l : List α) (a b : Nat) : List α := (l.drop a).take (b - a)

/-- Go index expression `l[i]`: panics if out of range. -/
def index {α : Type} (l : List α) (i : Nat) : Res α :=
  match l[i]? with
  | some v => .ok v
  | none => goPanic "index out of range"

end Verif.Go
