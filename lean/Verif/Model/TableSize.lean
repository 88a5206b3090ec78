import Verif.Model.ManualBench
import Verif.Model.RepoTests

/-!
# The size of the precomputation table (experiments/finaltests.go:210-224 and 294-302)

`multiexp.NewPrecomputeTable` is external. What is taken over from the text that the code prints: the table has
`TableSize` rows of 64 numbers. That the numbers are the powers with exponents `2^k` is assumed where it is used.
-/

namespace Verif.Model
open Verif.Go

/-- experiments/finaltests.go:222-223: the numbers that `TestPreComputeTableSize` prints about a table with `tableSize` rows. -/
structure PrintedSize where
  rows : Nat
  columns : Nat
  elementSize : Nat
  bytes : Nat
deriving DecidableEq, Repr

/-- experiments/finaltests.go:222-223. `bits.UintSize` is 64; the division is the last operation. -/
def printedSize (tableSize : Nat) : PrintedSize :=
  { rows := tableSize, columns := 64, elementSize := 64, bytes := tableSize * 64 * 64 / 8 }

/-- experiments/finaltests.go:211-224 `TestPreComputeTableSize`; `newTable` is `multiexp.NewPrecomputeTable`, it gets `G`, `N`
and the length in words and returns the rows of the table. -/
def testPreComputeTableSize (newTable : Nat → Nat → Nat → List (List Nat)) (setSize : Nat) : PrintedSize :=
  let setup := builtinSetup
  let maxLen := preComputeDIWords setSize
  let table := newTable setup.G setup.N maxLen
  printedSize table.length

/-- experiments/finaltests.go:295-302 `TestDifferentPrecomputationTableSize`. -/
def testDifferentPrecomputationTableSize (newTable : Nat → Nat → Nat → List (List Nat)) : List PrintedSize :=
  [1024, 4096, 16384, 65536, 262144, 1048576].map (testPreComputeTableSize newTable)

/-- experiments/finaltests.go:267-283 `TestDifferentGroupingSize` for an `int`: the division of line 273 truncates, the loop
does nothing if `repeatNum` is not positive. `makeTable` is `multiexp.NewPrecomputeTable` in line 275, which may panic. -/
def testDifferentGroupingSizeInt (E : Env) (fuel G N : Nat) (r1 : Nat → Nat) (makeTable : Int → Res Unit) (setSize : Int) :
    Run (List PreComputeRun) := do
  let maxLen := (setSize * 2048).tdiv 64
  if setSize = 0 then liftRes (goPanic "integer divide by zero")
  else
    let repeatNum := Int.tdiv 262144 setSize
    liftRes (makeTable maxLen)
    (List.range repeatNum.toNat).mapM (fun i => do
      let _ ← liftRes (genBenchSetInt setSize)
      preComputeDISingleThread E fuel G N (r1 i) setSize.toNat)

end Verif.Model
