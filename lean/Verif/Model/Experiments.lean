import Verif.Model.MultiSwap
import Verif.Model.Accumulator
import Mathlib.Data.Nat.Size

/-!
# experiments: the swap flows, the PoKE runs and the range of products

Times, prints, key files, `Prove` and `Verify` are not modelled. `multiexp.ExpParallel` and the precompute table are
external: `ExpParallel` returns the power of the base modulo `N`. Bases and moduli are non-negative. `fuel` bounds the
search for primes. Goroutine programs are evaluated with `Prog.eval`, which C05, C09 and C11 show to be the result of
every schedule.
-/

namespace Verif.Model
open Verif.Go

/-- What the PoKE experiment computes: challenge, quotient, remainder and `Q`. -/
structure PokeRun where
  l : Nat
  quotient : Nat
  remainder : Nat
  Q : Nat
deriving DecidableEq, Repr

/-- experiments/finaltests.go:305-321 `PoKE`. The function keeps nothing; the model returns what it computes. `DivMod`
by zero panics. -/
def pokeExperiment (E : Env) (fuel : Nat) (base exp newAcc N : Nat) : Run PokeRun := do
  let l ← liftLoop (hashToPrime E fuel (natBytes newAcc ++ natBytes base))
  if l = 0 then liftRes (goPanic "division by zero")
  else Run.ok { l := l, quotient := exp / l, remainder := exp % l, Q := accumulateNewPow base (exp / l) N }

/-- experiments/finaltests.go:154-174: one round of `TestPoKE`, for a set of `num` elements. The results are `accNew`
and `AccTest3`, the two values that a reader of the output compares. `Mod` by zero panics. -/
def testPoKERound (E : Env) (fuel : Nat) (num G N : Nat) : Run (Nat × Nat) := do
  let set := genBenchSet num
  let rep ← genRepresentatives E fuel set hashToPrimeFromSha256
  let exp := setProductRecursiveFast rep
  let accNew := accumulateNewPow G exp N
  let l ← liftLoop (hashToPrime E fuel (itoa G ++ itoa accNew))
  if l = 0 then liftRes (goPanic "division by zero")
  else
    let quotient := exp / l
    let remainder := exp % l
    let Q := accumulateNewPow G quotient N
    let accTest1 := accumulateNewPow Q l N
    let accTest2 := accumulateNewPow G remainder N
    if N = 0 then liftRes (goPanic "division by zero")
    else Run.ok (accNew, accTest1 * accTest2 % N)

/-- The values of one run of a swap experiment. -/
structure SwapRun where
  removeSet : List Nat
  insertSet : List Nat
  unchanged : List Nat
  prod1 : Nat
  prod2 : Nat
  removedRanProd : Nat
  insertedRanProd : Nat
  proofs : List Nat
  originalProd : Nat
  accOri : Nat
  accMid : Nat
  poke : PokeRun
  accOld : Nat
  accNew : Nat
  ret : UpdateSet32

/-- experiments/finaltests.go:484-515 (629-660 in `TestNotusParallel`): removed and inserted representatives. -/
def swapPairs (E : Env) (n : UInt32) : Res (List (Nat × Nat)) :=
  let userID := (List.range n.toNat).map testNumber
  let originalBalances := (List.range n.toNat).map testNumber
  let originalUpdEpoch := (List.range n.toNat).map (fun _ => (10 : UInt32))
  let originalHashes := (List.range n.toNat).map (fun i => ((testNumber i).toNat : Int))
  let updatedBalances := (List.range n.toNat).map testNumber
  (List.range n.toNat).mapM (fun i => do
    let id ← index userID i
    let ob ← index originalBalances i
    let oe ← index originalUpdEpoch i
    let oh ← index originalHashes i
    let ub ← index updatedBalances i
    testPair E id ob oe oh ub testEpochNum)

/-- experiments/finaltests.go:574-597 (719-742): challenges, remainders, the update set `ret` and its `IsValid`. -/
def swapUpdateSet (E : Env) (fuel : Nat) (n : UInt32) (G N accOld accMid accNew prod1 prod2 : Nat) :
    Run UpdateSet32 := do
  let transcript := setupTranscript G N accOld accMid accNew testEpochNum
  let (challengeL1, transcript) ← liftLoop (transcript.getChallengeAndAppend E fuel)
  let (challengeL2, _) ← liftLoop (transcript.getChallengeAndAppend E fuel)
  if challengeL1 = 0 then liftRes (goPanic "division by zero")
  else if challengeL2 = 0 then liftRes (goPanic "division by zero")
  else
    let ret : UpdateSet32 :=
      { challengeL1 := challengeL1
        challengeL2 := challengeL2
        remainderR1 := (prod1 % challengeL1 : Nat)
        remainderR2 := (prod2 % challengeL2 : Nat)
        currentEpochNum := testEpochNum
        deltaModL1 := (min1024 % challengeL1 : Nat)
        deltaModL2 := (min1024 % challengeL2 : Nat)
        randomizer1 := 200
        randomizer2 := 300
        originalSum := testOriginalSum
        updatedSum := testOriginalSum
        userID := (List.range n.toNat).map testNumber
        originalBalances := (List.range n.toNat).map testNumber
        originalHashes := (List.range n.toNat).map (fun i => ((testNumber i).toNat : Int))
        originalUpdEpoch := (List.range n.toNat).map (fun _ => (10 : UInt32))
        updatedBalances := (List.range n.toNat).map testNumber }
    if ret.isValid = false then liftRes (goPanic "error in TestMultiSwap, the generated test set is invalid")
    else liftRes (.ok ret)

/-- experiments/finaltests.go:543 (688) `maxLen`: number of 64-bit words of the precompute table, in `uint32`. -/
def tableWords (setsize : UInt32) : UInt32 := setsize * 2048 / 64

/-- experiments/finaltests.go:472-597 `TestNotusMultiSwap` up to the check of `ret`. `setsize - updatedSetSize` is a
`uint32` subtraction. `unchanged` has no spare capacity, so the two `append`s do not share memory. -/
def notusMultiSwap (E : Env) (fuel : Nat) (G N : Nat) (setsize updatedSetSize : UInt32) : Run SwapRun := do
  let pairs ← liftRes (swapPairs E updatedSetSize)
  let removeSet := pairs.map Prod.fst
  let insertSet := pairs.map Prod.snd
  let prod1 := setProductRecursiveFast removeSet
  let prod2 := setProductRecursiveFast insertSet
  let removedRanProd := timesRandomizer E 200 1
  let insertedRanProd := timesRandomizer E 300 1
  let prod1 := timesRandomizer E 200 prod1
  let prod2 := timesRandomizer E 300 prod2
  let unchangedSet := genBenchSet (setsize - updatedSetSize).toNat
  let unchanged ← genRepresentatives E fuel unchangedSet diHashFromPoseidon
  let newSet1 := unchanged ++ insertSet
  let proofs ← liftRes (proveMembershipParallelWithTableWithRandomizer G insertedRanProd N newSet1 0).eval
  let original := unchanged ++ removeSet
  let originalProd := setProductRecursiveFast original
  let originalProd := originalProd * removedRanProd
  let accOri := expMod G originalProd N
  let accMid := expMod G originalProd N
  let poke ← pokeExperiment E fuel accMid removedRanProd accOri N
  let accOld := expMod accMid prod1 N
  let accNew := expMod accMid prod2 N
  let ret ← swapUpdateSet E fuel updatedSetSize G N accOld accMid accNew prod1 prod2
  Run.ok { removeSet, insertSet, unchanged, prod1, prod2, removedRanProd, insertedRanProd, proofs, originalProd, accOri,
           accMid, poke, accOld, accNew, ret }

/-- experiments/finaltests.go:617-742 `TestNotusParallel` up to the check of `ret`. Both products are made from
`removeSet` (lines 661-662). -/
def notusParallel (E : Env) (fuel : Nat) (G N : Nat) (setsize updatedSetSize : UInt32) : Run SwapRun := do
  let pairs ← liftRes (swapPairs E updatedSetSize)
  let removeSet := pairs.map Prod.fst
  let insertSet := pairs.map Prod.snd
  let prod1 ← liftRes (setProductParallel removeSet 4).eval
  let prod2 ← liftRes (setProductParallel removeSet 4).eval
  let removedRanProd := timesRandomizer E 200 1
  let insertedRanProd := timesRandomizer E 300 1
  let prod1 := timesRandomizer E 200 prod1
  let prod2 := timesRandomizer E 300 prod2
  let unchangedSet := genBenchSet (setsize - updatedSetSize).toNat
  let unchanged ← genRepresentatives E fuel unchangedSet diHashFromPoseidon
  let newSet1 := unchanged ++ insertSet
  let proofs ← liftRes (proveMembershipParallelWithTableWithRandomizer G insertedRanProd N newSet1 5).eval
  let original := unchanged ++ removeSet
  let originalProd := setProductRecursiveFast original
  let originalProd := originalProd * removedRanProd
  let accOri := expMod G originalProd N
  let accMid := expMod G originalProd N
  let poke ← pokeExperiment E fuel accMid removedRanProd accOri N
  let accOld := expMod accMid prod1 N
  let accNew := expMod accMid prod2 N
  let ret ← swapUpdateSet E fuel updatedSetSize G N accOld accMid accNew prod1 prod2
  Run.ok { removeSet, insertSet, unchanged, prod1, prod2, removedRanProd, insertedRanProd, proofs, originalProd, accOri,
           accMid, poke, accOld, accNew, ret }

/-- experiments/integers.go:117-123 `genDIMin`. -/
def genDIMin (size : Nat) : List Nat := (List.range size).map (fun _ => min1024)

/-- experiments/integers.go:125-138 `genDIMax`. -/
def genDIMax (size : Nat) : List Nat := (List.range size).map (fun _ => min1024 + 1 <<< 256)

/-- experiments/integers.go:141-159 `TestRange` for a set of `setSize` elements (1000000 in the code): the bit lengths of
the difference, of the lower and of the upper product. -/
def testRange (setSize : Nat) : Nat × Nat × Nat :=
  let set1 := genDIMax setSize
  let set2 := genDIMin setSize
  let prodUpper := setProductRecursive set1
  let prodLower := setProductRecursive set2
  ((prodUpper - prodLower).size, prodLower.size, prodUpper.size)

end Verif.Model
