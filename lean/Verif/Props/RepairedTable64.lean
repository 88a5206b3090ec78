import Verif.Props.IntTable

/-!
# The byte-chunk table with a check of the machine integers (C134)

As in RepairedSmall: the function is changed where the counterexample of the property comes from, and the property is proved.
-/

namespace Verif.Props
open Verif.Go Verif.Model Verif.Lemmas

/-- precompute/precompute.go:19-34 `NewTable` with a panic if one of the products of lines 25 and 26 does not fit an `int`, or if the
chunk size is not positive. -/
def newTable64Checked (maxLen : Nat) (g n elementUpperBound : Int) (numElements : Nat) (byteChunkSize : Int) : Res Table64 :=
  if byteChunkSize ≤ 0 ∨ 2 ^ 63 ≤ byteChunkSize * 8 ∨ 2 ^ 63 ≤ elementUpperBound.natAbs.size * numElements then goPanic "overflow"
  else newTable64 maxLen g n elementUpperBound numElements byteChunkSize

/-- C134 for the checked function: whenever it returns the table has the declared number of entries, for all numbers of elements
and chunk sizes. -/
theorem C134_repaired_partial (maxLen : Nat) (g n ub : Int) (m : Nat) (c : Int) (t : Table64)
    (h : newTable64Checked maxLen g n ub m c = .ok t) : (t.table.length : Int) = ub.natAbs.size * m / (c * 8) := by
  unfold newTable64Checked at h
  split at h
  · cases h
  · rename_i hc
    have hc0 : 0 < c := by omega
    have ht := ((C134_no_overflow_partial maxLen g n ub m c hc0 (by omega) (by omega) t).1 h).1
    obtain ⟨k, rfl⟩ : ∃ k : Nat, c = k := ⟨c.toNat, by omega⟩
    rw [Int.toNat_natCast] at ht
    unfold newTable at ht
    dsimp only at ht
    split at ht
    · cases ht
    · split at ht
      · cases ht
      · rename_i h0
        have e := congrArg Table.table (Except.ok.inj ht)
        have e2 : t.table = g :: newTableLoop n (2 ^ (k * 8)) (ub.natAbs.size * m / (k * 8) - 1) g := e.symm
        rw [e2, List.length_cons, newTableLoop_length]
        have : ub.natAbs.size * m / (k * 8) - 1 + 1 = ub.natAbs.size * m / (k * 8) := Nat.sub_add_cancel (Nat.pos_of_ne_zero h0)
        rw [this]
        push_cast
        rfl

/-- Where nothing overflows the check changes nothing. -/
theorem C134_repaired_same_partial (maxLen : Nat) (g n ub : Int) (m : Nat) (c : Int) (hc0 : 0 < c) (hc : c * 8 < 2 ^ 63)
    (hm : ub.natAbs.size * m < 2 ^ 63) : newTable64Checked maxLen g n ub m c = newTable64 maxLen g n ub m c := by
  unfold newTable64Checked
  rw [if_neg (by omega)]

/-- The table of two elements of 16 bits is made, the one of `C134_small_table` is refused. -/
example : newTable64Checked 4 3 35 65535 2 1 = newTable64 4 3 35 65535 2 1 ∧
    newTable64Checked 2 3 35 65535 (2 ^ 60 + 1) 1 = goPanic "overflow" ∧
    (newTable64 4 3 35 65535 2 1).panics = false := by
  refine ⟨C134_repaired_same_partial 4 3 35 65535 2 1 (by decide) (by decide) (by decide), ?_, by decide⟩
  unfold newTable64Checked
  rw [if_pos (by decide)]

end Verif.Props
