import Mathlib.Data.List.Range

/-!
# What a precomputation table holds
-/

namespace Verif.Spec

/-- The entries of a table with `k` entries: `b` as it was given, then `b^e`, `b^(e^2)`, … modulo `n`. -/
def tableEntries (b n e k : Nat) : List Nat := (List.range k).map fun j => if j = 0 then b else b ^ e ^ j % n

end Verif.Spec
