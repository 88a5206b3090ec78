import Verif.Model.Benchmarks

/-!
# The manual benchmarks (accumulator/manualbench.go) and the remaining programs of `experiments`

Times and the texts that are printed are not modelled; the numbers that are printed about the values are.
-/

namespace Verif.Model
open Verif.Go

/-- accumulator/manualbench.go:73-79 `GenBenchSet` for an `int`: `make` panics for a negative length. -/
def genBenchSetInt (num : Int) : Res (List Bytes) :=
  if num < 0 then goPanic "makeslice: len out of range" else .ok (genBenchSet num.toNat)

/-! ## accumulator/manualbench.go -/

/-- accumulator/manualbench.go:10-19 `ManualBench`: what the timed call returns. -/
def manualBench (E : Env) (fuel : Nat) (setup : Setup) (testSetSize : Int) : Run (Nat × List Nat) := do
  let set ← liftRes (genBenchSetInt testSetSize)
  accAndProve E fuel set diHashFromPoseidon setup

/-- accumulator/manualbench.go:23-32 `ManualBenchZKAcc`; `r` is drawn inside `ZKAccumulate`. -/
def manualBenchZKAcc (E : Env) (fuel r : Nat) (setup : Setup) (testSetSize : Int) : Run (Nat × List Nat) := do
  let set ← liftRes (genBenchSetInt testSetSize)
  zkAccumulate E fuel r set diHashFromPoseidon setup

/-- accumulator/manualbench.go:35-44 `ManualBenchIter`. -/
def manualBenchIter (E : Env) (fuel : Nat) (setup : Setup) (testSetSize : Int) : Run (Nat × List Nat) := do
  let set ← liftRes (genBenchSetInt testSetSize)
  accAndProveIter E fuel set diHashFromPoseidon setup

/-- accumulator/manualbench.go:48-57 `ManualBenchParallel`: possible results over all schedules. -/
inductive ManualBenchParallel (E : Env) (setup : Setup) (numWorkers : Nat) (testSetSize : Int) : Res (Nat × List Nat) → Prop
  | run (set : List Bytes) (r : Res (Nat × List Nat)) : genBenchSetInt testSetSize = .ok set →
      AccAndProveParallel E set diHashFromPoseidon setup numWorkers r →
      ManualBenchParallel E setup numWorkers testSetSize r
  | noSet (msg : String) : genBenchSetInt testSetSize = goPanic msg →
      ManualBenchParallel E setup numWorkers testSetSize (goPanic msg)

/-- accumulator/manualbench.go:61-70 `ManualBenchIterParallel`: possible results over all schedules. -/
inductive ManualBenchIterParallel (E : Env) (setup : Setup) (numWorkers powerOfTwo : Nat) (testSetSize : Int) :
    Res (Nat × List (Option Nat)) → Prop
  | run (set : List Bytes) (r : Res (Nat × List (Option Nat))) : genBenchSetInt testSetSize = .ok set →
      AccAndProveIterParallel E set diHashFromPoseidon setup numWorkers powerOfTwo r →
      ManualBenchIterParallel E setup numWorkers powerOfTwo testSetSize r
  | noSet (msg : String) : genBenchSetInt testSetSize = goPanic msg →
      ManualBenchIterParallel E setup numWorkers powerOfTwo testSetSize (goPanic msg)

/-! ## experiments/integers.go

The set sizes are constants of the code, here they are parameters. `big.Int.BitLen` is `Nat.size`. -/

/-- experiments/integers.go:12-23 `TestFirstLayerPercentage` (10000 elements): the proofs of the timed call. -/
def testFirstLayerPercentage (E : Env) (fuel G N setSize : Nat) : Run (List Nat) := do
  let rep ← genRepresentatives E fuel (genBenchSet setSize) diHashFromPoseidon
  liftRes (proveMembershipParallel G N rep 2).eval

/-- experiments/integers.go:26-45 `TestMembership` (1000000 elements): the result of the timed `AccumulateNew`. -/
def experimentMembership (E : Env) (fuel G N setSize : Nat) : Run Nat := do
  let rep ← genRepresentatives E fuel (genBenchSet setSize) diHashFromPoseidon
  let prod := setProductRecursiveFast rep
  Run.ok (accumulateNewPow G prod N)

/-- experiments/integers.go:48-68 `TestProduct` (1000000 elements): the two lengths that are printed. The first product is
commented out (line 54), so `prod` still has its zero value when it is printed. -/
def experimentProduct (E : Env) (fuel setSize : Nat) : Run (List Nat) := do
  let prod := 0
  let first := Nat.size prod
  let rep ← genRepresentatives E fuel (genBenchSet setSize) diHashFromPoseidon
  let prod := setProductRecursive rep
  Run.ok [first, Nat.size prod]

/-- experiments/integers.go:85-87: the loop of `TestProduct2`; `prod` is only read, and `rep[0]` is read in every round. -/
def divLoop (prod : Nat) (rep : List Nat) : Nat → Nat → Res Nat
  | 0, temp => .ok temp
  | k + 1, _ => do
    let r0 ← index rep 0
    if r0 = 0 then goPanic "division by zero" else divLoop prod rep k (prod / r0)

/-- experiments/integers.go:71-93 `TestProduct2` (1000000 elements): the two lengths that are printed, and `temp`. -/
def experimentProduct2 (E : Env) (fuel setSize : Nat) : Run (List Nat × Nat) := do
  let rep ← genRepresentatives E fuel (genBenchSet setSize) diHashFromPoseidon
  let prod := setProductRecursive rep
  let first := Nat.size prod
  let temp ← liftRes (divLoop prod rep 100 0)
  Run.ok ([first, Nat.size prod], temp)

/-- experiments/integers.go:96-116 `TestProduct3` (10000 elements): the two lengths that are printed. -/
def experimentProduct3 (E : Env) (fuel setSize : Nat) : Run (List Nat) := do
  let rep ← genRepresentatives E fuel (genBenchSet setSize) diHashFromPoseidon
  let prod := setProductRecursiveFast rep
  let first := Nat.size prod
  let prod := setProductRecursive rep
  Run.ok [first, Nat.size prod]

/-! ## experiments/finaltests.go -/

/-- experiments/finaltests.go:273 `repeatNum := max / setSize`. -/
def groupingRepeat (setSize : Nat) : Res Nat :=
  if setSize = 0 then goPanic "integer divide by zero" else .ok (262144 / setSize)

/-- experiments/finaltests.go:267-283 `TestDifferentGroupingSize`: the rounds of the timed loop; `r1 i` is drawn in round
`i`. The table of line 275 is external (its size is `preComputeDIWords`); negative sizes are in `Model/TableSize`. -/
def testDifferentGroupingSize (E : Env) (fuel G N : Nat) (r1 : Nat → Nat) (setSize : Nat) : Run (List PreComputeRun) := do
  let repeatNum ← liftRes (groupingRepeat setSize)
  (List.range repeatNum).mapM (fun i => preComputeDISingleThread E fuel G N (r1 i) setSize)

/-- experiments/finaltests.go:286-292 `TestDifferentGroupSize`: the sizes of its calls of `TestDifferentGroupingSize`. -/
def groupSizes : List Nat := [1024, 4096, 16384, 65536, 262144]

/-- experiments/finaltests.go:286-292 `TestDifferentGroupSize`; `r1 n i` is drawn in round `i` for size `n`. -/
def testDifferentGroupSize (E : Env) (fuel G N : Nat) (r1 : Nat → Nat → Nat) : Run (List (List PreComputeRun)) :=
  groupSizes.mapM (fun n => testDifferentGroupingSize E fuel G N (r1 n) n)

/-- experiments/finaltests.go:137-144 `TestDifferentMembership`; `r1 n` is drawn in the call for size `n`. -/
def testDifferentMembership (E : Env) (fuel G N : Nat) (r1 : Nat → Nat) : Run (List PreComputeRun) :=
  (groupSizes ++ [1048576]).mapM (fun n => testRSAMembershipPreCompute E fuel G N (r1 n) n)

/-- experiments/finaltests.go:228-242: the sizes and limits of `TestDifferentMembershipForDI`. -/
def membershipDICalls : List (Nat × Int) :=
  [(16384, 0), (16384, 2), (16384, 4), (65536, 0), (65536, 2), (65536, 4), (262144, 0), (262144, 2), (262144, 4)]

/-- experiments/finaltests.go:227-245 `TestDifferentMembershipForDI`; `r1 c` is drawn in call `c`. -/
def testDifferentMembershipForDI (E : Env) (fuel G N : Nat) (r1 : Nat × Int → Nat) : Run (List PreComputeRun) :=
  membershipDICalls.mapM (fun c => testRSAMembershipPreComputeDIParallel E fuel G N (r1 c) c.1 c.2)

/-- experiments/finaltests.go:248-254 `TestDifferentMembershipForDISingleThread`; the same sizes. -/
def testDifferentMembershipForDISingleThread (E : Env) (fuel G N : Nat) (r1 : Nat → Nat) : Run (List PreComputeRun) :=
  groupSizes.mapM (fun n => testRSAMembershipPreCompute E fuel G N (r1 n) n)

end Verif.Model
