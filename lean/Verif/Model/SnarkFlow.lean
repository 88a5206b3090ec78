import Verif.Model.Contract
import Verif.Model.MerkleSwap

/-!
# Keys on disk, proving and verifying

zkmultiswap/zkmultiswap.go, the test functions of zkmultiswap/common.go:199-391, merkleswap/common.go:58-194, main.go:40-49
and zkmultiswap/gnark-tests/solidity (contract/main.go and solidity_groth16_test.go).

Groth16 of gnark is a parameter. The library writes several files per key; here there is one file with the constraint
system, one with the proving key and one with the verifying key. The functions here run to their end or panic; a process
that is stopped while it writes is in `Model/Interrupted.lean`. Errors of the file system are in
`Model/FileErrors.lean`.
-/

namespace Verif.Model.SnarkFlow
open Verif.Go Verif.Model

/-- Constraint systems: the compiled circuits of `zkmultiswap` and `merkleswap`, which depend on the size only. -/
inductive System where
  | multi (size : Nat)
  | merkle (size : Nat)
deriving DecidableEq, Repr

/-- Assignments of the two circuits. -/
inductive Assignment where
  | multi (c : Circuit)
  | merkle (c : MerkleSwap.Circuit)
deriving DecidableEq, Repr

/-- `groth16` of gnark. `Coin` is the randomness of a call. `prove` is `ProveRoll` with `IgnoreSolverError`; `none` is an
error. `verify` is `groth16.Verify`. -/
structure Snark where
  Coin : Type
  PK : Type
  VK : Type
  Proof : Type
  setup : System → Coin → PK × VK
  prove : System → PK → Assignment → Coin → Option Proof
  verify : VK → List Nat → Proof → Bool

/-- Contents of files. -/
inductive File (S : Snark) where
  | ccs (sys : System)
  | pk (k : S.PK)
  | vk (k : S.VK)
  /-- a contract exported for this key -/
  | sol (k : S.VK)
  /-- a file that was created and not filled, see `Model/Interrupted.lean`; reading it is an error -/
  | cut

/-- The directory. -/
abbrev Disk (S : Snark) := Bytes → Option (File S)

/-- Write a file. -/
def write {S : Snark} (d : Disk S) (name : Bytes) (f : File S) : Disk S := fun n => if n = name then some f else d n

/-- Read a file of a given kind. -/
def readCcs {S : Snark} (d : Disk S) (name : Bytes) : Option System :=
  match d name with
  | some (.ccs s) => some s
  | _ => none

/-- Read a proving key. -/
def readPk {S : Snark} (d : Disk S) (name : Bytes) : Option S.PK :=
  match d name with
  | some (.pk k) => some k
  | _ => none

/-- Read a verifying key. -/
def readVk {S : Snark} (d : Disk S) (name : Bytes) : Option S.VK :=
  match d name with
  | some (.vk k) => some k
  | _ => none

/-- `name + ".ccs.save"`. -/
def ccsName (fileName : Bytes) : Bytes := fileName ++ ascii ".ccs.save"

/-- The proving key of `SetupLazyWithDump`. -/
def pkName (fileName : Bytes) : Bytes := fileName ++ ascii ".pk.save"

/-- `name + ".vk.save"`. -/
def vkName (fileName : Bytes) : Bytes := fileName ++ ascii ".vk.save"

/-- `groth16.SetupLazyWithDump(r1cs, fileName)`. -/
def setupWithDump {S : Snark} (sys : System) (coin : S.Coin) (fileName : Bytes) (d : Disk S) : Disk S :=
  let d := write d (ccsName fileName) (.ccs sys)
  let d := write d (pkName fileName) (.pk (S.setup sys coin).1)
  write d (vkName fileName) (.vk (S.setup sys coin).2)

/-- zkmultiswap/zkmultiswap.go:20-32 `LoadVerifyingKey`; `none` is the error. -/
def loadVerifyingKey {S : Snark} (d : Disk S) (filepath : Bytes) : Option S.VK := readVk d (vkName filepath)

/-- zkmultiswap/common.go:33 `KeyPathPrefix`. -/
def keyPathPrefix : Bytes := ascii "zkmultiswap"

/-- `KeyPathPrefix + "_" + strconv.FormatInt(int64(size), 10)`. -/
def keyFile (size : Nat) : Bytes := keyPathPrefix ++ ascii "_" ++ itoa size

/-- `frontend.Compile` of `InitCircuitWithSize(size)`: a panic in `Define` is returned as an error (`none`). -/
def compile (E : Env) (size : UInt32) : Option System :=
  match define E (initCircuitWithSize size) with
  | .ok _ => some (.multi size.toNat)
  | .error _ => none

/-- zkmultiswap/zkmultiswap.go:36-53 `SetupZkMultiswap`. -/
def setupZkMultiswap {S : Snark} (E : Env) (size : UInt32) (coin : S.Coin) (d : Disk S) : Res (Disk S) :=
  match compile E size with
  | none => goPanic "compile"
  | some sys => .ok (setupWithDump sys coin (keyFile size.toNat) d)

/-- zkmultiswap/zkmultiswap.go:56-89 `Prove`; `none` is an error. -/
def prove {S : Snark} (input : UpdateSet32) (coin : S.Coin) (d : Disk S) : Res (Option S.Proof) :=
  let fileName := keyFile input.userID.length
  match readPk d (pkName fileName) with
  | none => .ok none
  | some pk =>
    match readCcs d (ccsName fileName) with
    | none => .ok none
    | some r1cs => do
      let assignment ← assignCircuit input
      .ok (S.prove r1cs pk (.multi assignment) coin)

/-- zkmultiswap/zkmultiswap.go:123-143 `Verify`. -/
def verify {S : Snark} (proof : S.Proof) (setsize : UInt32) (publicInfo : PublicInfo) (d : Disk S) : Res Bool :=
  match loadVerifyingKey d (keyFile setsize.toNat) with
  | none => goPanic "r1cs init error"
  | some vk => .ok (S.verify vk (genPublicWitness publicInfo) proof)

/-- zkmultiswap/common.go:199-206 `isCircuitExist`, also in experiments/finaltests.go:462-469; errors of `os.Stat` other than
a missing file are in `Model/FileErrors.lean`. -/
def isCircuitExist {S : Snark} (d : Disk S) (testSetSize : UInt32) : Bool := (d (ccsName (keyFile testSetSize.toNat))).isSome

/-- zkmultiswap/common.go:210-219, the start of `TestMultiSwap` (and lines 239-248, and experiments/finaltests.go:473-483,
618-628). -/
def ensureKeys {S : Snark} (E : Env) (testSetSize : UInt32) (coin : S.Coin) (d : Disk S) : Res (Disk S) :=
  if isCircuitExist d testSetSize then .ok d else setupZkMultiswap E testSetSize coin d

/-- zkmultiswap/common.go:209-235 `TestMultiSwap`; the result is true for "Verification passed". `accMid` is the random
accumulator of `GenTestSet`. -/
def testMultiSwap {S : Snark} (E : Env) (fuel : Nat) (G N accMid : Int) (coin coin' : S.Coin) (testSetSize : UInt32)
    (d : Disk S) : Run (Disk S × Bool) := do
  let d ← liftRes (ensureKeys E testSetSize coin d)
  let testSet ← genTestSet E fuel testSetSize G N accMid
  let publicInfo := testSet.publicPart
  match ← liftRes (prove testSet coin' d) with
  | none => liftRes (goPanic "Error during Prove")
  | some proof =>
    let flag ← liftRes (verify proof testSetSize publicInfo d)
    Run.ok (d, flag)

/-- zkmultiswap/common.go:238-262 `TestMultiSwapAndOutputSmartContract`. -/
def outputContract {S : Snark} (E : Env) (coin : S.Coin) (testSetSize : UInt32) (d : Disk S) : Res (Disk S) := do
  let d ← ensureKeys E testSetSize coin d
  match loadVerifyingKey d (keyFile testSetSize.toNat) with
  | none => goPanic "read file error"
  | some vk => .ok (write d (ascii "contract_g16.sol") (.sol vk))

/-- What `TestMultiSwapAndOutputSmartContract2` ends with: an error, "Verification failed", or the proof and the inputs
that are printed. -/
inductive Outcome (S : Snark) where
  | err
  | failed
  | printed (proof : S.Proof) (input : List Nat)

/-- zkmultiswap/common.go:265-391 `TestMultiSwapAndOutputSmartContract2`. `coin` is used by `SetupZkMultiswap` (line 271),
`coin2` by `groth16.Setup` (line 272), `coin'` by `Prove`. -/
def outputContract2 {S : Snark} (E : Env) (fuel : Nat) (G N accMid : Int) (coin coin2 coin' : S.Coin) (testSetSize : UInt32)
    (d : Disk S) : Run (Disk S × Outcome S) := do
  match compile E testSetSize with
  | none => Run.ok (d, .err)
  | some r1cs =>
    let d ← liftRes (setupZkMultiswap E testSetSize coin d)
    let pk := (S.setup r1cs coin2).1
    let vk := (S.setup r1cs coin2).2
    let d := write d (ascii "Notus.g16.vk") (.vk vk)
    let d := write d (ascii "Notus.g16.pk") (.pk pk)
    let d := write d (ascii "Notuscontract_g16.sol") (.sol vk)
    let testSet ← genTestSet E fuel testSetSize G N accMid
    let publicInfo := testSet.publicPart
    match ← liftRes (prove testSet coin' d) with
    | none => liftRes (goPanic "Error during Prove")
    | some proof =>
      let flag ← liftRes (verify proof testSetSize publicInfo d)
      if flag = false then Run.ok (d, .failed)
      else Run.ok (d, .printed proof (contractInputs publicInfo))

/-- Coins of one run of `testbasicprocess`. -/
structure BasicCoins (S : Snark) where
  accMid1 : Int
  accMid2 : Int
  c1 : S.Coin
  c2 : S.Coin
  c3 : S.Coin
  c4 : S.Coin
  c5 : S.Coin
  c6 : S.Coin

/-- main.go:40-49 `testbasicprocess` without `TestPoKE`, for a set of size `n` (10 in the code). -/
def basicProcess {S : Snark} (E : Env) (fuel : Nat) (G N : Int) (n : UInt32) (r : BasicCoins S) (d : Disk S) :
    Run (Disk S × Outcome S) := do
  let (d, _) ← testMultiSwap E fuel G N r.accMid1 r.c1 r.c2 n d
  let d ← liftRes (outputContract E r.c3 n d)
  match ← outputContract2 E fuel G N r.accMid2 r.c4 r.c5 r.c6 n d with
  | (_, .err) => liftRes (goPanic "err")
  | res => Run.ok res

/-- What a contract exported for the key `vk` answers to a proof and inputs; `false` includes a failed call. This is the
range check and the equation of C70 and C84. -/
def contractAccepts {S : Snark} (vk : S.VK) (input : List Nat) (proof : S.Proof) : Bool :=
  input.all (fun v => decide (v < frOrder)) && S.verify vk input proof

/-! ## zkmultiswap/gnark-tests/solidity -/

/-- zkmultiswap/gnark-tests/solidity/contract/main.go:26-62 `generateGroth16`, in its own directory; the file name has no size. An error of `Compile` is
returned and logged (`none`). -/
def generateGroth16 {S : Snark} (E : Env) (coin : S.Coin) (d : Disk S) : Option (Disk S) :=
  match compile E 5 with
  | none => none
  | some r1cs =>
    let d := setupWithDump r1cs coin keyPathPrefix d
    match readVk d (vkName keyPathPrefix) with
    | none => none
    | some vk => some (write d (ascii "Notuscontract_g16.sol") (.sol vk))

/-- zkmultiswap/gnark-tests/solidity/solidity_groth16_test.go:95-201 `TestVerifyProof` with the files read in `SetupTest`: the answers of the contract to the
proof and to the proof with the first input replaced by 42. Here the deployed contract is the
one in the directory; Model/GoGenerate.lean has the test with the contract of the Go binding. A missing file ends the test
(panic). -/
def contractTest {S : Snark} (E : Env) (fuel : Nat) (G N accMid : Int) (coin' : S.Coin) (d : Disk S) : Run (Bool × Bool) := do
  let testSet ← genTestSet E fuel 5 G N accMid
  let assignment ← liftRes (assignCircuit testSet)
  match readCcs d (ccsName keyPathPrefix), readPk d (pkName keyPathPrefix), d (ascii "Notuscontract_g16.sol") with
  | some r1cs, some pk, some (.sol vk) =>
    match S.prove r1cs pk (.multi assignment) coin' with
    | none => liftRes (goPanic "proving failed")
    | some proof =>
      let input := List.ofFn (Contract.testInput testSet.publicPart)
      Run.ok (contractAccepts vk input proof, contractAccepts vk (42 :: input.tail) proof)
  | _, _, _ => liftRes (goPanic "missing file")

/-! ## merkleswap -/

/-- merkleswap/common.go:21 and 122. -/
def merkleKeyFile (size : Nat) : Bytes := ascii "merkleswap" ++ ascii "_" ++ itoa size

/-- merkleswap/common.go:111-128 `SetupZkMultiswap`. -/
def merkleSetup {S : Snark} (E : Env) (size : UInt32) (coin : S.Coin) (d : Disk S) : Res (Disk S) :=
  match MerkleSwap.define E (MerkleSwap.initCircuitWithSize size) with
  | .error _ => goPanic "compile"
  | .ok _ => .ok (setupWithDump (.merkle size.toNat) coin (merkleKeyFile size.toNat) d)

/-- merkleswap/common.go:131-165 `Prove`. -/
def merkleProve {S : Snark} (E : Env) (testSetSize : UInt32) (coin : S.Coin) (d : Disk S) : Option S.Proof :=
  let fileName := merkleKeyFile testSetSize.toNat
  match readPk d (pkName fileName) with
  | none => none
  | some pk =>
    match readCcs d (ccsName fileName) with
    | none => none
    | some r1cs => S.prove r1cs pk (.merkle (MerkleSwap.assignCircuit E testSetSize)) coin

/-- merkleswap/common.go:168-194 `Verify`. -/
def merkleVerify {S : Snark} (E : Env) (proof : S.Proof) (setsize : UInt32) (d : Disk S) : Res Bool :=
  match loadVerifyingKey d (merkleKeyFile setsize.toNat) with
  | none => goPanic "r1cs init error"
  | some vk => .ok (S.verify vk (MerkleSwap.publicVector (MerkleSwap.assignCircuit E setsize)) proof)

/-- merkleswap/common.go:58-83 `TestMerkleMultiSwap`. -/
def testMerkleMultiSwap {S : Snark} (E : Env) (coin coin' : S.Coin) (testSetSize : UInt32) (d : Disk S) :
    Res (Disk S × Bool) := do
  let d ← if (d (ccsName (merkleKeyFile testSetSize.toNat))).isSome then .ok d else merkleSetup E testSetSize coin d
  match merkleProve E testSetSize coin' d with
  | none => goPanic "Error during Prove"
  | some proof =>
    let flag ← merkleVerify E proof testSetSize d
    .ok (d, flag)

end Verif.Model.SnarkFlow
