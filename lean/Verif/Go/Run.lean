import Verif.Go.Basic

/-!
# Runs that may fail to finish

`Run α` is the result of running code with a bound on the number of loop iterations: `none` if the bound was too
small, otherwise a value or a panic.
-/

namespace Verif.Go

/-- Result of a bounded run. -/
abbrev Run (α : Type) := ExceptT String Option α

/-- A piece of loop-free code inside a bounded run. -/
def liftRes {α : Type} (r : Res α) : Run α := ExceptT.mk (some r)

/-- A loop result inside a bounded run. -/
def liftLoop {α : Type} (r : Option α) : Run α := ExceptT.mk (r.map Except.ok)

/-- The run ended with value `v`. -/
def Run.ok {α : Type} (v : α) : Run α := ExceptT.mk (some (Except.ok v))

end Verif.Go
