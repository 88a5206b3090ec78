import Verif.Model.AccProve
import Verif.Model.MulExp
import Verif.Model.Setup
import Verif.Model.Precompute
import Verif.Model.MultiSwap

/-!
# The tests and micro-benchmarks of the repository (`*_test.go`)

A test is modelled by the value of its checks: `true` if no check calls `t.Errorf`, `false` if one does, a panic if the code
under test or the test itself panics. What a test draws at random is a parameter. Not modelled: the messages, the printing
of transcripts, and errors of `crypto/rand` (they cannot occur with the default reader).
-/

namespace Verif.Model
open Verif.Go

/-! ## accumulator -/

/-- The parameters of `TrustedSetup` as natural numbers (see `trustedSetup`). -/
def builtinSetup : Setup := { N := n2048, G := g2048 }

/-- accumulator/accumulator_test.go:12-29 `TestSetup`. `big.Int.BitLen` is `Nat.size`. -/
def testSetup : Bool :=
  decide (Nat.gcd builtinSetup.N builtinSetup.G = 1) && decide (min1024.size = 1024) && decide (min2048.size = 2048)

/-- accumulator/accumulator_test.go:160-167 `GenTestSet`; `draw i` is the result of call `i` of
`rand.Intn(100000000)`. -/
def genDrawnSet (draw : Nat → Nat) (num : Nat) : List Bytes := (List.range num).map (fun i => itoa (draw i))

/-- accumulator/accumulator_test.go:42, 49 and 92: `AccumulateNew(proofs[i], rep[i], setup.N)`. -/
def witnessAcc (setup : Setup) (rep proofs : List Nat) (i : Nat) : Res Nat := do
  let p ← index proofs i
  let r ← index rep i
  .ok (accumulateNewPow p r setup.N)

/-- accumulator/accumulator_test.go:34-52, 55-70 and 73-86: the part of `TestAccAndProve` for one set. `i` is the index
that is compared with both accumulators, `more` the indices compared with the first only. -/
def accAndProveCheck (E : Env) (fuel : Nat) (setup : Setup) (set : List Bytes) (i : Nat) (more : List Nat) : Run Bool := do
  let (acc, proofs) ← accAndProve E fuel set hashToPrimeFromSha256 setup
  let ok := decide (set.length = proofs.length)
  let rep ← genRepresentatives E fuel set hashToPrimeFromSha256
  let acc2 := accumulateNew setup.G setup.N rep
  let acc3 ← liftRes (witnessAcc setup rep proofs i)
  let ok := ok && decide (acc = acc3)
  let ok := ok && decide (acc2 = acc3)
  let rest ← liftRes (more.mapM (witnessAcc setup rep proofs))
  Run.ok (rest.foldl (fun ok acc3 => ok && decide (acc = acc3)) ok)

/-- accumulator/accumulator_test.go:31-87 `TestAccAndProve`; the three sets are drawn independently. -/
def testAccAndProve (E : Env) (fuel : Nat) (draw1 draw2 draw3 : Nat → Nat) : Run Bool := do
  let a ← accAndProveCheck E fuel builtinSetup (genDrawnSet draw1 3072) 5 [1]
  let b ← accAndProveCheck E fuel builtinSetup (genDrawnSet draw2 17) 7 []
  let c ← accAndProveCheck E fuel builtinSetup (genDrawnSet draw3 254) 252 []
  Run.ok (a && b && c)

/-- accumulator/accumulator_test.go:89-94 `genAccts`. -/
def genAccts (E : Env) (fuel : Nat) (set : List Bytes) (setup : Setup) (proofs : List Nat) (idx : Nat) : Run (Nat × Nat) := do
  let rep ← genRepresentatives E fuel set hashToPrimeFromSha256
  let acc1 := accumulateNew setup.G setup.N rep
  let acc2 ← liftRes (witnessAcc setup rep proofs idx)
  Run.ok (acc1, acc2)

/-- accumulator/accumulator_test.go:144-155: the checks of one case of `TestAccAndProveIter`; a failing check returns. -/
def accChecks (acc acc1 acc2 proofLen wantProofLen : Nat) : Bool :=
  if proofLen ≠ wantProofLen then false
  else if acc ≠ acc2 then false
  else if acc1 ≠ acc2 then false
  else true

/-- accumulator/accumulator_test.go:141-156: one case of `TestAccAndProveIter`. -/
def accAndProveIterCheck (E : Env) (fuel : Nat) (set : List Bytes) (idx wantProofLen : Nat) : Run Bool := do
  let (acc, proofs) ← accAndProveIter E fuel set hashToPrimeFromSha256 builtinSetup
  let (acc1, acc2) ← genAccts E fuel set builtinSetup proofs idx
  Run.ok (accChecks acc acc1 acc2 proofs.length wantProofLen)

/-- accumulator/accumulator_test.go:96-158 `TestAccAndProveIter`. -/
def testAccAndProveIter (E : Env) (fuel : Nat) (draw1 draw2 draw3 : Nat → Nat) : Run Bool := do
  let a ← accAndProveIterCheck E fuel (genDrawnSet draw1 16) 5 16
  let b ← accAndProveIterCheck E fuel (genDrawnSet draw2 17) 7 17
  let c ← accAndProveIterCheck E fuel (genDrawnSet draw3 254) 253 254
  Run.ok (a && b && c)

/-- A slice of pointers as a slice of numbers; using a nil pointer panics. The test uses only `proofs[idx]`. -/
def derefAt (proofs : List (Option Nat)) (idx : Nat) : Res Nat := do
  match ← index proofs idx with
  | none => goPanic "nil pointer dereference"
  | some p => .ok p

/-- accumulator/concurrent_test.go:50-65: one case of `TestAccAndProveIterParallel` after `AccAndProveIterParallel` has given
`r`. -/
def iterParallelCheck (E : Env) (fuel : Nat) (set : List Bytes) (idx wantProofLen : Nat) (r : Res (Nat × List (Option Nat))) :
    Run Bool := do
  let (acc, proofs) ← liftRes r
  let rep ← genRepresentatives E fuel set hashToPrimeFromSha256
  let acc1 := accumulateNew builtinSetup.G builtinSetup.N rep
  let p ← liftRes (derefAt proofs idx)
  let q ← liftRes (index rep idx)
  let acc2 := accumulateNewPow p q builtinSetup.N
  Run.ok (accChecks acc acc1 acc2 proofs.length wantProofLen)

/-- accumulator/concurrent_test.go:5-67 `TestAccAndProveIterParallel`: the size of the set, the index and the expected number
of proofs of each case (lines 18-47). -/
def iterParallelCases : List (Nat × Nat × Nat) := [(16, 5, 16), (17, 7, 17), (254, 253, 254)]

/-- accumulator/common_test.go:7-25 `TestProduct`; `par` is the value that `SetProductParallel(rep, 2)` gives. -/
def testProduct (rep : List Nat) (par : Nat) : Bool :=
  let prodRecursive := setProductRecursiveFast rep
  let prodNative := setProduct2 rep
  decide (prodRecursive = par) && decide (prodRecursive = prodNative)

/-- accumulator/mulexp_test.go:9-26 `TestCommonBits`. -/
def testCommonBits : Bool := decide (commonBits 1024 1025 = 1024) && decide (commonBits 7 1025 = 1)

/-- accumulator/mulexp_test.go:28-56 `TestGCB` for the words of the drawn numbers `a` and `b`. -/
def testGCB (a b : List (BitVec 64)) : Bool :=
  let (result, aCopy, bCopy) := gcb a b
  let sum := wordsVal aCopy + wordsVal bCopy
  let sum := sum + wordsVal result
  let sum := sum + wordsVal result
  let sum2 := wordsVal a + wordsVal b
  decide (sum = sum2)

/-- accumulator/mulexp_test.go:58-82 `TestSimpleExp` for the drawn numbers. A `big.Int` keeps its value 0 if `Exp` returns
nil. -/
def testSimpleExp (g x N : Int) : Res Bool := do
  let result2 := (bigExp g x N).getD 0
  let result ← simpleExp g x N
  .ok (decide (result = result2))

/-! ## accumulator/benchmark_test.go -/

/-- accumulator/benchmark_test.go:143-147: the loop of `BenchmarkExp` for `b.N = n`; the results are dropped. -/
def benchmarkExp (G N : Int) (set : List Int) (n : Nat) : Res Unit :=
  (List.range n).forM (fun i => do
    let e ← index set i
    let _temp := (bigExp G e N).getD 0
    .ok ())

/-- accumulator/benchmark_test.go:166-168: the loop of `BenchmarkDoubleExp`, `i = 1, ..., n - 1`. -/
def benchmarkDoubleExp (G N : Nat) (set : List Nat) (n : Nat) : Res Unit :=
  (List.range (n - 1)).forM (fun k => do
    let e0 ← index set k
    let e1 ← index set (k + 1)
    let _temp := doubleExp G e0 e1 N
    .ok ())

/-- accumulator/benchmark_test.go:187-189: the loop of `BenchmarkFourfoldExp`, `i = 4, ..., n - 1`, always with the first four
numbers. -/
def benchmarkFourfoldExp (G N : Nat) (set : List Nat) (n : Nat) : Res Unit :=
  (List.range (n - 4)).forM (fun _ => do
    let e0 ← index set 0
    let e1 ← index set 1
    let e2 ← index set 2
    let e3 ← index set 3
    let _temp := fourfoldExp G N e0 e1 e2 e3
    .ok ())

/-- accumulator/benchmark_test.go:206-208: the loop of `BenchmarkSimpleExp`; it does not depend on `b.N`. -/
def benchmarkSimpleExp (G N : Int) (set : List Int) : Res Unit :=
  (List.range set.length).forM (fun i => do
    let e ← index set i
    let _ ← simpleExp G e N
    .ok ())

/-- accumulator/benchmark_test.go:225-227: the loop of `BenchmarkGCB`. `GCB` changes both operands, so each round works on
what the round before left; the result is the final content of the set. -/
def benchmarkGCB (set : List (List (BitVec 64))) : Res (List (List (BitVec 64))) :=
  (List.range (set.length - 1)).foldlM (fun set k => do
    let a ← index set k
    let b ← index set (k + 1)
    let (_, a', b') := gcb a b
    .ok ((set.set k a').set (k + 1) b')) set

/-! ## fiat-shamir -/

/-- fiat-shamir/transcript_test.go:9-13 `TestConstants` (`bitLimit` is 240). -/
def testConstants : Bool := decide (min253.size = 240)

/-- fiat-shamir/transcript_test.go:16, 44 and 65. -/
def testStrings : List Bytes := [ascii "111", ascii "aaa", ascii "333"]

/-- `var trans Transcript`: the zero value. -/
def zeroTranscript : Transcript := { info := [], maxlength := 0 }

/-- fiat-shamir/transcript_test.go:15-41 `TestTranscript`. -/
def testTranscript (E : Env) (fuel : Nat) : Option Bool := do
  let trans1 := initTranscript testStrings lenDefault
  let trans2 := zeroTranscript.appendSlice testStrings
  let trans3 := (zeroTranscript.appendSlice (slice testStrings 0 2)).append (testStrings.getD 2 [])
  let (challenge1, _) ← trans1.getChallengeAndAppend E fuel
  let (challenge2, _) ← trans2.getChallengeAndAppend E fuel
  let (challenge3, _) ← trans3.getChallengeAndAppend E fuel
  return decide (challenge1 = challenge2) && decide (challenge1 = challenge3)

/-- fiat-shamir/transcript_test.go:43-62 `TestChallenge`: the two checks. -/
def testChallenge (E : Env) (fuel : Nat) : Option (Bool × Bool) := do
  let trans1 := initTranscript testStrings lenDefault
  let (challenge1, trans1) ← trans1.getChallengeAndAppend E fuel
  let (challenge2, _) ← trans1.getChallengeAndAppend E fuel
  let check1 := decide (challenge1 ≠ challenge2)
  let trans2 := initTranscript testStrings lenDefault
  let trans2 := trans2.append (itoa challenge1)
  let (challenge3, _) ← trans2.getChallengeAndAppend E fuel
  return (check1, decide (challenge3 = challenge2))

/-- fiat-shamir/transcript_test.go:64-89 `TestPrimeChallengeLength`. -/
def testPrimeChallengeLength (E : Env) (fuel : Nat) : Option Bool := do
  let trans1 := initTranscript testStrings lenMax252
  let (challenge1, trans1) ← trans1.getChallengeAndAppend E fuel
  let (challenge2, _) ← trans1.getChallengeAndAppend E fuel
  return E.probablyPrime challenge1 && E.probablyPrime challenge2 &&
    decide (challenge1 < frOrder) && decide (challenge2 < frOrder) &&
    decide (challenge1 < min253) && decide (challenge2 < min253)

/-- fiat-shamir/transcript_test.go:96-113: the function that `FuzzChallenge` runs on an input. -/
def fuzzChallenge (E : Env) (fuel : Nat) (testInput : Bytes) : Option Bool := do
  let trans1 := initTranscript [testInput] lenDefault
  let (challenge1, _) ← trans1.getChallengeAndAppend E fuel
  let ok := E.probablyPrime challenge1
  let trans1 := initTranscript [testInput] lenMax252
  let (challenge1, _) ← trans1.getChallengeAndAppend E fuel
  let ok := ok && E.probablyPrime challenge1
  let ok := ok && decide (challenge1 < frOrder)
  return ok && decide (challenge1 < min253)

/-! ## precompute -/

/-- precompute/precompute_test.go:60-70 `getAcc` and 150-156 `accumulate`. -/
def testAccumulate (G N : Int) (reps : List Int) : Int := reps.foldl (fun acc v => (bigExp acc v N).getD 0) G

/-- precompute/precompute_test.go:79-86 `getSmallReps`. -/
def smallReps : List Int := [21, 32, 15, 17]

/-- precompute/precompute_test.go:88-90 `getSmallRepProd`. -/
def smallRepProd : Int := 171360

/-- precompute/precompute_test.go:111-117: the table of the small case; the setup is that of lines 72-77. -/
def smallTable : Res Table := newTable 2 1000003 32 smallReps.length 1

/-- precompute/precompute_test.go:126-132: the table of the large case. -/
def largeTable : Res Table := newTable g2048 n2048 ((1 <<< 2048) - 1) 1000 512

/-- precompute/precompute_test.go:167-172: the table of `BenchmarkPrecompute`. -/
def benchTable : Res Table := newTable g2048 n2048 ((1 <<< 2048) - 1) 1000 1024

/-- precompute/precompute_test.go:39-51 `getSet`, `getRepresentations`. -/
def largeReps (E : Env) (fuel : Nat) : Run (List Nat) := genRepresentatives E fuel (genBenchSet 1000) diHashFromPoseidon

/-- precompute/precompute_test.go:141-146: the comparison of one case. `reflect.DeepEqual` compares the sign and the words;
0 can have two representations (nil and an empty slice), so it is counted as a failure here. -/
def tableCheck (got want : Int) : Bool := decide (got = want) && decide (got ≠ 0)

/-! ## zkmultiswap -/

/-- `frontend.NewWitness(assignment, ecc.BN254)` followed by `Public()`: the public part of the witness. -/
def publicOf (c : Circuit) : List Nat := publicVector c

/-- zkmultiswap/zkmultiswap_test.go:15-53 `TestPublicWitness` for the set made by `GenTestSet`. -/
def testPublicWitness (testSet : UpdateSet32) : Res Bool := do
  let assignment ← assignCircuit testSet
  let publicWitness := publicOf assignment
  let publicPart := testSet.publicPart
  let publicWitness2 := publicOf (assignCircuitHelper publicPart)
  let ok := decide (publicWitness = publicWitness2)
  let assignment := { assignment with currentEpochNum := 666 }
  let publicWitness := publicOf assignment
  .ok (ok && decide (publicWitness ≠ publicWitness2))

/-- zkmultiswap/zkmultiswap_test.go:55-65 `TestZkMultiSwap` for the set made by `GenTestSet`: the solver accepts. -/
def testZkMultiSwap (E : Env) (testSet : UpdateSet32) : Res Bool := do
  let witness ← assignCircuit testSet
  define E witness

/-- zkmultiswap/zkmultiswap_test.go:67-107: the changes that `TestZkMultiSwapFailCases` makes to a right assignment, in order.
The numbers of lines 101 and 105 are the challenges of the set. -/
def failCases (testSet : UpdateSet32) : List (Circuit → Circuit) :=
  [ fun w => { w with updatedBalances := w.updatedBalances.set 0 5 },
    fun w => { w with originalSum := 10 },
    fun w => { w with updatedSum := 10 },
    fun w => { w with originalBalances := w.originalBalances.set 0 10 },
    fun w => { w with originalBalances := w.originalBalances.set 0 1000000000,
                      updatedBalances := w.updatedBalances.set 0 1000000000 },
    fun w => { w with remainderR1 := elementFromBigInt testSet.challengeL1 },
    fun w => { w with remainderR2 := elementFromBigInt testSet.challengeL2 } ]

/-- One case of `TestZkMultiSwapFailCases`: the solver rejects. -/
def failCheck (E : Env) (testSet : UpdateSet32) (change : Circuit → Circuit) : Res Bool := do
  let witness ← assignCircuit testSet
  let solved ← define E (change witness)
  .ok (!solved)

end Verif.Model
