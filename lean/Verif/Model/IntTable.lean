import Verif.Model.Precompute
import Verif.Go.Exec

/-!
# precompute/precompute.go with the 64-bit `int` of Go

`Model/Precompute` has unbounded lengths. Here the arithmetic of `NewTable` and the channel sizes of `Compute` are that of Go on
a 64-bit machine, with arguments of type `int` that may be negative. `make` panics for lengths above `maxLen`, which depends on the
machine.
-/

namespace Verif.Model
open Verif.Go

/-- An `int` result: the number with the same remainder modulo 2^64 in [-2^63, 2^63). -/
def wrap64 (x : Int) : Int := Int.bmod x (2 ^ 64)

/-- precompute/precompute.go:11-16 `Table` with the chunk size as `int`. -/
structure Table64 where
  n : Int
  byteChunkSize : Int
  table : List Int
deriving DecidableEq, Repr

/-- The same table for `Model/Precompute`, which knows positive chunk sizes only. -/
def Table64.toTable (t : Table64) : Table := ⟨t.n, t.byteChunkSize.toNat, t.table⟩

/-- precompute/precompute.go:19-34 `NewTable`. `numElements` is a `uint64`, `byteChunkSize` an `int`. The conversion of line 25 and
the product wrap; so do the products of lines 26 and 29. In line 29 a negative number becomes an unsigned number of at least 2^63,
and a shift by that much panics. -/
def newTable64 (maxLen : Nat) (g n elementUpperBound : Int) (numElements : Nat) (byteChunkSize : Int) : Res Table64 :=
  let maxBitLen := wrap64 (elementUpperBound.natAbs.size * wrap64 numElements)
  let chunkBits := wrap64 (byteChunkSize * 8)
  if chunkBits = 0 then goPanic "integer divide by zero"
  else
    let numByteChunks := wrap64 (maxBitLen.tdiv chunkBits)
    if numByteChunks < 0 ∨ maxLen < numByteChunks then goPanic "makeslice: len out of range"
    else if numByteChunks = 0 then goPanic "index out of range"
    else if chunkBits < 0 then goPanic "makeslice: len out of range"
    else .ok { n := n, byteChunkSize := byteChunkSize,
               table := g :: newTableLoop n (2 ^ chunkBits.toNat) (numByteChunks.toNat - 1) g }

/-- precompute/precompute.go:37-77 `Compute(x, numRoutine)` with an `int` may return `v`: lines 39 and 40 panic for sizes that `make`
refuses; what follows is the transition system of `Model/Precompute`. -/
def ComputeReturns (maxLen : Nat) (t : Table) (x : Int) (numRoutine : Int) (v : Int) : Prop :=
  (0 ≤ wrap64 (numRoutine * 4) ∧ wrap64 (numRoutine * 4) ≤ maxLen) ∧ (0 ≤ numRoutine ∧ numRoutine ≤ maxLen) ∧
  ∃ s, Exec (TableCompute.Step t (natBytes x.natAbs) numRoutine.toNat)
    (TableCompute.init t (natBytes x.natAbs) numRoutine.toNat) s ∧ s.main = .returned v

end Verif.Model
