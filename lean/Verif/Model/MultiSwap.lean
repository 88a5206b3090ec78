import Verif.Model.SwapTranscript
import Verif.Model.Products
import Verif.Go.BigInt

/-!
# zkmultiswap: circuit, assignments, test sets and public witness

A `frontend.Variable` with a value is the canonical representative (a natural number below `frOrder`) of an element of
the scalar field of BN254. The gadgets of gnark (`ToBinary`, `AssertIsLess`, `MulModP`, the in-circuit Poseidon) are
external code; the definitions `toBinary`, `assertIsLess`, `mulModP` and the use of `Env.poseidon` below state what is
assumed of them. Groth16 itself, the key files and the compilation to R1CS are not modelled: `define` evaluates the
constraints on an assignment.
-/

namespace Verif.Model
open Verif.Go

/-- zkmultiswap/common.go:26 `BitLength`. -/
def bitLength : Nat := 32

/-- zkmultiswap/common.go:28 `CurrentEpochNum`. -/
def testEpochNum : UInt32 := 1000000

/-- zkmultiswap/common.go:30 `OriginalSum`. -/
def testOriginalSum : UInt32 := 10000

/-! ## gnark -/

/-- `api.Add` on canonical representatives. -/
def fieldAdd (a b : Nat) : Nat := (a + b) % frOrder

/-- `api.Sub` on canonical representatives. -/
def fieldSub (a b : Nat) : Nat := (((a : Int) - b) % (frOrder : Int)).toNat

/-- `api.ToBinary(v, n)`: satisfiable exactly if `v` has `n` bits. -/
def toBinary (v n : Nat) : Bool := decide (v < 2 ^ n)

/-- `api.AssertIsLess(a, b)` of the gnark fork: comparison of the canonical representatives. -/
def assertIsLess (a b : Nat) : Bool := decide (a < b)

/-- `api.MulModP(a, b, p)` of the gnark fork: the product of the canonical representatives, as integers, reduced modulo
`p`. For `p = 0` there is no witness; every circuit below also asserts that something is less than `p`. -/
def mulModP (a b p : Nat) : Nat := a * b % p

/-! ## The circuit -/

/-- zkmultiswap/circuit.go:11-34 `Circuit` with a value for each variable. -/
structure Circuit where
  challengeL1 : Nat
  challengeL2 : Nat
  remainderR1 : Nat
  remainderR2 : Nat
  currentEpochNum : Nat
  deltaModL1 : Nat
  deltaModL2 : Nat
  randomizer1 : Nat
  randomizer2 : Nat
  originalSum : Nat
  updatedSum : Nat
  userID : List Nat
  originalBalances : List Nat
  originalHashes : List Nat
  originalUpdEpoch : List Nat
  updatedBalances : List Nat
deriving DecidableEq, Repr

/-- zkmultiswap/circuit.go:57-59: one comparison of neighbouring ids. -/
def checkIDs (c : Circuit) (ok : Bool) (i : Nat) : Res Bool := do
  let a ← index c.userID i
  let b ← index c.userID (i + 1)
  .ok (ok && assertIsLess a b)

/-- zkmultiswap/circuit.go:62-66: the range checks of one user. -/
def checkUser (c : Circuit) (ok : Bool) (i : Nat) : Res Bool := do
  let ob ← index c.originalBalances i
  let ok := ok && toBinary ob bitLength
  let oe ← index c.originalUpdEpoch i
  let ok := ok && assertIsLess oe c.currentEpochNum
  let ub ← index c.updatedBalances i
  .ok (ok && toBinary ub bitLength)

/-- The three values that the main loop updates: `remainder1`, `remainder2`, `tempSum`. -/
structure LoopState where
  remainder1 : Nat
  remainder2 : Nat
  tempSum : Nat
deriving DecidableEq, Repr

/-- zkmultiswap/circuit.go:72-85: one round of the main loop. -/
def userRound (E : Env) (c : Circuit) (st : LoopState) (i : Nat) : Res LoopState := do
  let id ← index c.userID i
  let ob ← index c.originalBalances i
  let oe ← index c.originalUpdEpoch i
  let oh ← index c.originalHashes i
  let tempHash0 := E.poseidon [id, ob, oe, oh]
  let tempHash1 := fieldAdd tempHash0 c.deltaModL1
  let remainder1 := mulModP st.remainder1 tempHash1 c.challengeL1
  let ub ← index c.updatedBalances i
  let tempHash2 := E.poseidon [id, ub, c.currentEpochNum, tempHash0]
  let tempHash2 := fieldAdd tempHash2 c.deltaModL2
  let remainder2 := mulModP st.remainder2 tempHash2 c.challengeL2
  let tempSum := fieldSub st.tempSum ob
  let tempSum := fieldAdd tempSum ub
  .ok { remainder1, remainder2, tempSum }

/-- zkmultiswap/circuit.go:87-93: one round of the randomizer loop. -/
def randomizerRound (E : Env) (c : Circuit) (st : LoopState) (i : Nat) : LoopState :=
  let tempHash := E.poseidon [c.randomizer1, i]
  let remainder1 := mulModP st.remainder1 tempHash c.challengeL1
  let tempHash := E.poseidon [c.randomizer2, i]
  let remainder2 := mulModP st.remainder2 tempHash c.challengeL2
  { st with remainder1, remainder2 }

/-- zkmultiswap/circuit.go:37-99 `Define` evaluated on an assignment: `ok true` if all constraints hold, `ok false` if
one fails. Unequal lengths fail while the circuit is compiled (comparison of constants), an empty set fails with an
index error; both are panics here. -/
def define (E : Env) (c : Circuit) : Res Bool := do
  let ok := toBinary c.randomizer1 bitLength
  let ok := ok && toBinary c.randomizer2 bitLength
  let ok := ok && assertIsLess c.deltaModL1 c.challengeL1
  let ok := ok && assertIsLess c.deltaModL2 c.challengeL2
  if c.userID.length ≠ c.originalBalances.length then goPanic "non-equal constant values"
  else if c.userID.length ≠ c.originalHashes.length then goPanic "non-equal constant values"
  else if c.userID.length ≠ c.originalUpdEpoch.length then goPanic "non-equal constant values"
  else if c.userID.length ≠ c.updatedBalances.length then goPanic "non-equal constant values"
  else do
    let ok := ok && assertIsLess c.remainderR1 c.challengeL1
    let ok := ok && assertIsLess c.remainderR2 c.challengeL2
    let ok := ok && toBinary c.currentEpochNum bitLength
    let ok := ok && toBinary c.originalSum bitLength
    let ok := ok && toBinary c.updatedSum bitLength
    let ok ← (List.range (c.userID.length - 1)).foldlM (checkIDs c) ok
    let ok ← (List.range c.userID.length).foldlM (checkUser c) ok
    let tempSum := c.originalSum
    let ob0 ← index c.originalBalances 0
    let tempSum := fieldSub tempSum ob0
    let ub0 ← index c.updatedBalances 0
    let tempSum := fieldAdd tempSum ub0
    let st ← (List.range c.userID.length).foldlM (userRound E c) { remainder1 := 1, remainder2 := 1, tempSum }
    let st := (List.range 8).foldl (randomizerRound E c) st
    let ok := ok && decide (st.remainder1 = c.remainderR1)
    let ok := ok && decide (st.remainder2 = c.remainderR2)
    .ok (ok && decide (st.tempSum = c.updatedSum))

/-! ## Update sets and assignments -/

/-- zkmultiswap/common.go:37-54 `UpdateSet32`. -/
structure UpdateSet32 where
  challengeL1 : Int
  challengeL2 : Int
  remainderR1 : Int
  remainderR2 : Int
  currentEpochNum : UInt32
  deltaModL1 : Int
  deltaModL2 : Int
  randomizer1 : Int
  randomizer2 : Int
  originalSum : UInt32
  updatedSum : UInt32
  userID : List UInt32
  originalBalances : List UInt32
  originalHashes : List Int
  originalUpdEpoch : List UInt32
  updatedBalances : List UInt32
deriving DecidableEq, Repr

/-- zkmultiswap/common.go:57-65 `PublicInfo`. -/
structure PublicInfo where
  challengeL1 : Int
  challengeL2 : Int
  remainderR1 : Int
  remainderR2 : Int
  currentEpochNum : UInt32
  deltaModL1 : Int
  deltaModL2 : Int
deriving DecidableEq, Repr

/-- zkmultiswap/common.go:68-85 `IsValid`. -/
def UpdateSet32.isValid (input : UpdateSet32) : Bool :=
  if input.userID.length < 2 then false
  else if input.userID.length ≠ input.originalBalances.length then false
  else if input.userID.length ≠ input.originalHashes.length then false
  else if input.userID.length ≠ input.originalUpdEpoch.length then false
  else if input.userID.length ≠ input.updatedBalances.length then false
  else true

/-- zkmultiswap/common.go:187-197 `PublicPart`. -/
def UpdateSet32.publicPart (input : UpdateSet32) : PublicInfo :=
  { challengeL1 := input.challengeL1
    challengeL2 := input.challengeL2
    remainderR1 := input.remainderR1
    remainderR2 := input.remainderR2
    currentEpochNum := input.currentEpochNum
    deltaModL1 := input.deltaModL1
    deltaModL2 := input.deltaModL2 }

/-- zkmultiswap/circuit.go:102-129 `InitCircuitWithSize`. -/
def initCircuitWithSize (size : UInt32) : Circuit :=
  { challengeL1 := 1
    challengeL2 := 1
    remainderR1 := 0
    remainderR2 := 0
    currentEpochNum := 1
    deltaModL1 := 0
    deltaModL2 := 0
    randomizer1 := 1
    randomizer2 := 1
    originalSum := 1
    updatedSum := 1
    userID := (List.range size.toNat).map (fun i => i)
    originalBalances := (List.range size.toNat).map (fun _ => 0)
    originalHashes := (List.range size.toNat).map (fun _ => 1)
    originalUpdEpoch := (List.range size.toNat).map (fun _ => 0)
    updatedBalances := (List.range size.toNat).map (fun _ => 0) }

/-- zkmultiswap/circuit.go:132-163 `AssignCircuit`. The reduction of the integers modulo the field order, which
`frontend.NewWitness` does later, is included here (`elementFromBigInt`, `elementFromUint32`). -/
def assignCircuit (input : UpdateSet32) : Res Circuit :=
  if input.isValid = false then goPanic "error in InitCircuit, the input set is invalid"
  else do
    let size := input.originalBalances.length
    let userID ← (List.range size).mapM (fun i => index input.userID i)
    let originalBalances ← (List.range size).mapM (fun i => index input.originalBalances i)
    let originalHashes ← (List.range size).mapM (fun i => index input.originalHashes i)
    let originalUpdEpoch ← (List.range size).mapM (fun i => index input.originalUpdEpoch i)
    let updatedBalances ← (List.range size).mapM (fun i => index input.updatedBalances i)
    .ok { challengeL1 := elementFromBigInt input.challengeL1
          challengeL2 := elementFromBigInt input.challengeL2
          remainderR1 := elementFromBigInt input.remainderR1
          remainderR2 := elementFromBigInt input.remainderR2
          currentEpochNum := elementFromUint32 input.currentEpochNum
          deltaModL1 := elementFromBigInt input.deltaModL1
          deltaModL2 := elementFromBigInt input.deltaModL2
          randomizer1 := elementFromBigInt input.randomizer1
          randomizer2 := elementFromBigInt input.randomizer2
          originalSum := elementFromUint32 input.originalSum
          updatedSum := elementFromUint32 input.updatedSum
          userID := userID.map elementFromUint32
          originalBalances := originalBalances.map elementFromUint32
          originalHashes := originalHashes.map elementFromBigInt
          originalUpdEpoch := originalUpdEpoch.map elementFromUint32
          updatedBalances := updatedBalances.map elementFromUint32 }

/-- zkmultiswap/circuit.go:166-177 `AssignCircuitHelper`. -/
def assignCircuitHelper (input : PublicInfo) : Circuit :=
  { initCircuitWithSize 1 with
    challengeL1 := elementFromBigInt input.challengeL1
    challengeL2 := elementFromBigInt input.challengeL2
    remainderR1 := elementFromBigInt input.remainderR1
    remainderR2 := elementFromBigInt input.remainderR2
    currentEpochNum := elementFromUint32 input.currentEpochNum
    deltaModL1 := elementFromBigInt input.deltaModL1
    deltaModL2 := elementFromBigInt input.deltaModL2 }

/-! ## Public witness -/

/-- `frontend.NewWitness(assignment, ecc.BN254, frontend.PublicOnly())`: the variables tagged `public` in the order of
the struct, zkmultiswap/circuit.go:14-23. -/
def publicVector (c : Circuit) : List Nat :=
  [c.challengeL1, c.challengeL2, c.remainderR1, c.remainderR2, c.currentEpochNum, c.deltaModL1, c.deltaModL2]

/-- zkmultiswap/zkmultiswap.go:112-120 `GenPublicWitness`. -/
def genPublicWitness (publicInfo : PublicInfo) : List Nat := publicVector (assignCircuitHelper publicInfo)

/-- zkmultiswap/zkmultiswap.go:92-109 `VerifyPublicWitness` (`reflect.DeepEqual` of the vectors of field elements). -/
def verifyPublicWitness (publicWitness : List Nat) (publicInfo : PublicInfo) : Bool :=
  decide (publicWitness = publicVector (assignCircuitHelper publicInfo))

/-- `uint256.Int.SetFromBig`, which keeps the low 256 bits. -/
def uint256FromBig (v : Int) : Nat := (v % (2 ^ 256 : Int)).toNat

/-- zkmultiswap/common.go:353-359 and 386-389: the seven numbers printed as inputs for the contract. -/
def contractInputs (publicInfo : PublicInfo) : List Nat :=
  [publicInfo.challengeL1, publicInfo.challengeL2, (publicInfo.currentEpochNum.toNat : Int), publicInfo.deltaModL1,
    publicInfo.deltaModL2, publicInfo.remainderR1, publicInfo.remainderR2].map uint256FromBig

/-! ## Test sets -/

/-- zkmultiswap/common.go:112: `i*2 + 1` in `uint32`. -/
def testNumber (i : Nat) : UInt32 := UInt32.ofNat i * 2 + 1

/-- zkmultiswap/common.go:127-134: the removed and the inserted representative of one user. The two results of
`PoseidonAndDIHash` are `poseidonhash` and the removed representative. -/
def testPair (E : Env) (userID originalBalance originalUpdEpoch : UInt32) (originalHash : Int)
    (updatedBalance currentEpochNum : UInt32) : Res (Nat × Nat) := do
  let oh ← elementFromString (intString originalHash)
  let (poseidonhash, removed) := poseidonAndDIHash E
    [elementFromUint32 userID, elementFromUint32 originalBalance, elementFromUint32 originalUpdEpoch, oh]
  let inserted := diHashPoseidon E
    [elementFromUint32 userID, elementFromUint32 updatedBalance, elementFromUint32 currentEpochNum, poseidonhash]
  .ok (removed, inserted)

/-- zkmultiswap/common.go:143-151: the product of one randomizer. -/
def timesRandomizer (E : Env) (randomizer : Int) (prod : Nat) : Nat :=
  (List.range 8).foldl
    (fun prod i => prod * E.poseidon [elementFromBigInt randomizer, elementFromUint32 (UInt32.ofNat i)]) prod

/-- zkmultiswap/common.go:102-184 `GenTestSet`. `accMid` is the result of `getRandomAcc` (lines 87-92). `Mod` by zero
panics. -/
def genTestSet (E : Env) (fuel : Nat) (setsize : UInt32) (G N accMid : Int) : Run UpdateSet32 := do
  let userID := (List.range setsize.toNat).map testNumber
  let originalBalances := (List.range setsize.toNat).map testNumber
  let originalUpdEpoch := (List.range setsize.toNat).map (fun _ => (10 : UInt32))
  let originalHashes := (List.range setsize.toNat).map (fun i => ((testNumber i).toNat : Int))
  let updatedBalances := (List.range setsize.toNat).map testNumber
  let pairs ← liftRes ((List.range setsize.toNat).mapM (fun i => do
    let id ← index userID i
    let ob ← index originalBalances i
    let oe ← index originalUpdEpoch i
    let oh ← index originalHashes i
    let ub ← index updatedBalances i
    testPair E id ob oe oh ub testEpochNum))
  let prod1 := setProductRecursiveFast (pairs.map Prod.fst)
  let prod2 := setProductRecursiveFast (pairs.map Prod.snd)
  let prod1 := timesRandomizer E 200 prod1
  let prod2 := timesRandomizer E 300 prod2
  let accOld := (bigExp accMid prod1 N).getD 0
  let accNew := (bigExp accMid prod2 N).getD 0
  let transcript := setupTranscript G N accOld accMid accNew testEpochNum
  let (challengeL1, transcript) ← liftLoop (transcript.getChallengeAndAppend E fuel)
  let (challengeL2, _) ← liftLoop (transcript.getChallengeAndAppend E fuel)
  if challengeL1 = 0 then liftRes (goPanic "division by zero")
  else if challengeL2 = 0 then liftRes (goPanic "division by zero")
  else
    let ret : UpdateSet32 :=
      { challengeL1 := challengeL1
        challengeL2 := challengeL2
        remainderR1 := (prod1 % challengeL1 : Nat)
        remainderR2 := (prod2 % challengeL2 : Nat)
        currentEpochNum := testEpochNum
        deltaModL1 := (min1024 % challengeL1 : Nat)
        deltaModL2 := (min1024 % challengeL2 : Nat)
        randomizer1 := 200
        randomizer2 := 300
        originalSum := testOriginalSum
        updatedSum := testOriginalSum
        userID, originalBalances, originalHashes, originalUpdEpoch, updatedBalances }
    if ret.isValid = false then liftRes (goPanic "error in GenTestSet, the generated test set is invalid")
    else liftRes (.ok ret)

end Verif.Model
