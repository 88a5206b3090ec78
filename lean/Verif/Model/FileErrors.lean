import Verif.Model.Interrupted

/-!
# Errors of the file system

zkmultiswap/zkmultiswap.go:20-89, 123-143, zkmultiswap/common.go:199-391, merkleswap/common.go:58-194 and
zkmultiswap/gnark-tests/solidity/contract/main.go:26-62 once more, now with file operations that can fail and with the files
that the functions open themselves. `bad n` says whether operation number `n` of the run fails. The files that the library opens
(`SetupLazyWithDump`, `ReadSegmentProveKey`, `LoadR1CSFromFile`, `ProveRoll`) are not counted as open; these calls can fail too.
A nil `*os.File` can be read and closed, both return an error.
-/

namespace Verif.Model.SnarkFlow
open Verif.Go Verif.Model

variable {S : Snark}

/-- The directory, the files that are open (by name), and the number of file operations so far. -/
structure FState (S : Snark) where
  disk : Disk S
  opened : List Bytes
  tick : Nat

/-- One more operation. -/
def FState.next (s : FState S) : FState S := { s with tick := s.tick + 1 }

/-- Programs with file operations. -/
abbrev FM (S : Snark) (α : Type) := StateT (FState S) Run α

/-- A part of a program without file operations. -/
def noFiles {α : Type} (r : Run α) : FM S α := fun s => r >>= fun a => Run.ok (a, s)

/-- `os.Open(name)`; `none` is the nil file. -/
def osOpen (bad : Nat → Bool) (name : Bytes) : FM S (Option Bytes) := fun s =>
  if bad s.tick || (s.disk name).isNone then Run.ok (none, s.next)
  else Run.ok (some name, { s.next with opened := name :: s.opened })

/-- `os.Create(name)`; `none` is an error. -/
def osCreate (bad : Nat → Bool) (name : Bytes) : FM S (Option Bytes) := fun s =>
  if bad s.tick then Run.ok (none, s.next)
  else Run.ok (some name, { s.next with disk := write s.disk name .cut, opened := name :: s.opened })

/-- `verifyingKey.ReadFrom(f)`; `none` is an error. -/
def readKey (bad : Nat → Bool) (f : Option Bytes) : FM S (Option S.VK) := fun s =>
  match f with
  | none => Run.ok (none, s.next)
  | some name => Run.ok (if bad s.tick then none else readVk s.disk name, s.next)

/-- `f.Close()`; true without an error. The file is released in any case. -/
def closeFile (bad : Nat → Bool) (f : Option Bytes) : FM S Bool := fun s =>
  match f with
  | none => Run.ok (false, s.next)
  | some name => Run.ok (!bad s.tick, { s.next with opened := s.opened.erase name })

/-- `WriteRawTo(f)` and `ExportSolidity(f)`; true without an error. After an error the file is not filled. -/
def fillFile (bad : Nat → Bool) (name : Bytes) (content : File S) : FM S Bool := fun s =>
  if bad s.tick then Run.ok (false, s.next) else Run.ok (true, { s.next with disk := write s.disk name content })

/-- Results of `os.Stat`. -/
inductive Stat where
  | found
  | missing
  | other
deriving DecidableEq, Repr

/-- `os.Stat(name)`. -/
def osStat (bad : Nat → Bool) (name : Bytes) : FM S Stat := fun s =>
  Run.ok (if bad s.tick then .other else if (s.disk name).isSome then .found else .missing, s.next)

/-- Reading a file inside the library. -/
def libRead {α : Type} (bad : Nat → Bool) (read : Disk S → Bytes → Option α) (name : Bytes) : FM S (Option α) := fun s =>
  Run.ok (if bad s.tick then none else read s.disk name, s.next)

/-- Creating a file inside the library. -/
def libCreate (bad : Nat → Bool) (name : Bytes) : FM S Bool := fun s =>
  if bad s.tick then Run.ok (false, s.next) else Run.ok (true, { s.next with disk := write s.disk name .cut })

/-- An operation of the library that changes nothing and can fail; true without an error. -/
def libTouch (bad : Nat → Bool) : FM S Bool := fun s => Run.ok (!bad s.tick, s.next)

/-- `groth16.SetupLazyWithDump`, writing its files in this order; it stops at the first error. -/
def dumpF (bad : Nat → Bool) (sys : System) (coin : S.Coin) (base : Bytes) : List Part → FM S Bool
  | [] => pure true
  | p :: ps => do
    if ← libCreate bad (p.name base) then
      if ← fillFile bad (p.name base) (p.whole sys coin) then dumpF bad sys coin base ps else pure false
    else pure false

/-- zkmultiswap/zkmultiswap.go:20-32 `LoadVerifyingKey`, the same in merkleswap/common.go:95-107; `none` is an error. -/
def loadVerifyingKeyF (bad : Nat → Bool) (filepath : Bytes) : FM S (Option S.VK) := do
  let f ← osOpen bad (vkName filepath)
  match ← readKey bad f with
  | none => pure none
  | some k =>
    if ← closeFile bad f then pure (some k) else pure none

/-- zkmultiswap/zkmultiswap.go:36-53 `SetupZkMultiswap`. -/
def setupZkMultiswapF (bad : Nat → Bool) (order : List Part) (E : Env) (size : UInt32) (coin : S.Coin) : FM S Unit :=
  match compile E size with
  | none => noFiles (liftRes (goPanic "compile"))
  | some sys => do
    if ← dumpF bad sys coin (keyFile size.toNat) order then pure ()
    else noFiles (liftRes (goPanic "SetupLazyWithDump"))

/-- zkmultiswap/zkmultiswap.go:56-89 `Prove`; `none` is an error. `ProveRoll` reads the segments of the key once more. -/
def proveF (bad : Nat → Bool) (input : UpdateSet32) (coin : S.Coin) : FM S (Option S.Proof) := do
  let fileName := keyFile input.userID.length
  match ← libRead bad readPk (pkName fileName) with
  | none => pure none
  | some pk =>
    match ← libRead bad readCcs (ccsName fileName) with
    | none => pure none
    | some r1cs => do
      let assignment ← noFiles (liftRes (assignCircuit input))
      if ← libTouch bad then pure (S.prove r1cs pk (.multi assignment) coin) else pure none

/-- zkmultiswap/zkmultiswap.go:123-143 `Verify`. -/
def verifyF (bad : Nat → Bool) (proof : S.Proof) (setsize : UInt32) (publicInfo : PublicInfo) : FM S Bool := do
  match ← loadVerifyingKeyF bad (keyFile setsize.toNat) with
  | none => noFiles (liftRes (goPanic "r1cs init error"))
  | some vk => pure (S.verify vk (genPublicWitness publicInfo) proof)

/-- zkmultiswap/common.go:199-206 and merkleswap/common.go:85-92 `isCircuitExist`: an error of `os.Stat` other than a missing file
counts as a file. -/
def isCircuitExistF (bad : Nat → Bool) (base : Bytes) : FM S Bool := do
  match ← osStat bad (ccsName base) with
  | .found => pure true
  | .missing => pure false
  | .other => pure true

/-- zkmultiswap/common.go:210-219, the start of `TestMultiSwap`, and lines 239-248. -/
def ensureKeysF (bad : Nat → Bool) (order : List Part) (E : Env) (testSetSize : UInt32) (coin : S.Coin) : FM S Unit := do
  if ← isCircuitExistF bad (keyFile testSetSize.toNat) then pure () else setupZkMultiswapF bad order E testSetSize coin

/-- zkmultiswap/common.go:209-235 `TestMultiSwap`; the result is true for "Verification passed". -/
def testMultiSwapF (bad : Nat → Bool) (order : List Part) (E : Env) (fuel : Nat) (G N accMid : Int) (coin coin' : S.Coin)
    (testSetSize : UInt32) : FM S Bool := do
  ensureKeysF bad order E testSetSize coin
  let testSet ← noFiles (genTestSet E fuel testSetSize G N accMid)
  let publicInfo := testSet.publicPart
  match ← proveF bad testSet coin' with
  | none => noFiles (liftRes (goPanic "Error during Prove"))
  | some proof => verifyF bad proof testSetSize publicInfo

/-- zkmultiswap/common.go:238-262 `TestMultiSwapAndOutputSmartContract`: the file of the contract is not closed. -/
def outputContractF (bad : Nat → Bool) (order : List Part) (E : Env) (coin : S.Coin) (testSetSize : UInt32) : FM S Unit := do
  ensureKeysF bad order E testSetSize coin
  match ← loadVerifyingKeyF bad (keyFile testSetSize.toNat) with
  | none => noFiles (liftRes (goPanic "read file error"))
  | some vk =>
    match ← osCreate bad (ascii "contract_g16.sol") with
    | none => noFiles (liftRes (goPanic "Create"))
    | some f =>
      if ← fillFile bad f (.sol vk) then pure () else noFiles (liftRes (goPanic "ExportSolidity"))

/-- zkmultiswap/common.go:276-304: create and fill; true without an error. The file is not closed. -/
def createAndFill (bad : Nat → Bool) (name : Bytes) (content : File S) : FM S Bool := do
  match ← osCreate bad name with
  | none => pure false
  | some f => fillFile bad f content

/-- zkmultiswap/common.go:265-391 `TestMultiSwapAndOutputSmartContract2`. -/
def outputContract2F (bad : Nat → Bool) (order : List Part) (E : Env) (fuel : Nat) (G N accMid : Int)
    (coin coin2 coin' : S.Coin) (testSetSize : UInt32) : FM S (Outcome S) := do
  match compile E testSetSize with
  | none => pure .err
  | some r1cs =>
    setupZkMultiswapF bad order E testSetSize coin
    let pk := (S.setup r1cs coin2).1
    let vk := (S.setup r1cs coin2).2
    if ← createAndFill bad (ascii "Notus.g16.vk") (.vk vk) then
      if ← createAndFill bad (ascii "Notus.g16.pk") (.pk pk) then
        if ← createAndFill bad (ascii "Notuscontract_g16.sol") (.sol vk) then
          let testSet ← noFiles (genTestSet E fuel testSetSize G N accMid)
          let publicInfo := testSet.publicPart
          match ← proveF bad testSet coin' with
          | none => noFiles (liftRes (goPanic "Error during Prove"))
          | some proof =>
            let flag ← verifyF bad proof testSetSize publicInfo
            if flag = false then pure .failed else pure (.printed proof (contractInputs publicInfo))
        else pure .err
      else pure .err
    else pure .err

/-- zkmultiswap/gnark-tests/solidity/contract/main.go:26-62 `generateGroth16`; true if the returned error is nil. Errors of reading
and closing the key are only printed. `junk` is the key after a failed read, or `none` if the library cannot export such a key. -/
def generateGroth16F (bad : Nat → Bool) (order : List Part) (E : Env) (coin : S.Coin) (junk : Option S.VK) : FM S Bool := do
  match compile E 5 with
  | none => pure false
  | some r1cs =>
    if ← dumpF bad r1cs coin keyPathPrefix order then
      let f ← osOpen bad (vkName keyPathPrefix)
      let key ← readKey bad f
      let _ ← closeFile bad f
      match ← osCreate bad (ascii "Notuscontract_g16.sol") with
      | none => pure false
      | some g =>
        match key <|> junk with
        | none => pure false
        | some vk => fillFile bad g (.sol vk)
    else pure false

/-! ## merkleswap -/

/-- merkleswap/common.go:111-128 `SetupZkMultiswap`. -/
def merkleSetupF (bad : Nat → Bool) (order : List Part) (E : Env) (size : UInt32) (coin : S.Coin) : FM S Unit :=
  match MerkleSwap.define E (MerkleSwap.initCircuitWithSize size) with
  | .error _ => noFiles (liftRes (goPanic "compile"))
  | .ok _ => do
    if ← dumpF bad (.merkle size.toNat) coin (merkleKeyFile size.toNat) order then pure ()
    else noFiles (liftRes (goPanic "SetupLazyWithDump"))

/-- merkleswap/common.go:131-165 `Prove`. -/
def merkleProveF (bad : Nat → Bool) (E : Env) (testSetSize : UInt32) (coin : S.Coin) : FM S (Option S.Proof) := do
  let fileName := merkleKeyFile testSetSize.toNat
  match ← libRead bad readPk (pkName fileName) with
  | none => pure none
  | some pk =>
    match ← libRead bad readCcs (ccsName fileName) with
    | none => pure none
    | some r1cs =>
      if ← libTouch bad then pure (S.prove r1cs pk (.merkle (MerkleSwap.assignCircuit E testSetSize)) coin) else pure none

/-- merkleswap/common.go:168-194 `Verify`. -/
def merkleVerifyF (bad : Nat → Bool) (E : Env) (proof : S.Proof) (setsize : UInt32) : FM S Bool := do
  match ← loadVerifyingKeyF bad (merkleKeyFile setsize.toNat) with
  | none => noFiles (liftRes (goPanic "r1cs init error"))
  | some vk => pure (S.verify vk (MerkleSwap.publicVector (MerkleSwap.assignCircuit E setsize)) proof)

/-- merkleswap/common.go:58-83 `TestMerkleMultiSwap`. -/
def testMerkleMultiSwapF (bad : Nat → Bool) (order : List Part) (E : Env) (coin coin' : S.Coin) (testSetSize : UInt32) :
    FM S Bool := do
  if ← isCircuitExistF bad (merkleKeyFile testSetSize.toNat) then pure () else merkleSetupF bad order E testSetSize coin
  match ← merkleProveF bad E testSetSize coin' with
  | none => noFiles (liftRes (goPanic "Error during Prove"))
  | some proof => merkleVerifyF bad E proof testSetSize

end Verif.Model.SnarkFlow
