import Verif.Model.SnarkFlow

/-!
# Setups that are interrupted

zkmultiswap/zkmultiswap.go:36-53, zkmultiswap/common.go:199-391 and merkleswap/common.go:58-128 once more, now with the
directory at every moment of a run: a process that is stopped (out of memory, Ctrl-C, a crash of the machine) leaves one of
these directories behind. `os.Create` makes an empty file that is filled afterwards. The order in which
`groth16.SetupLazyWithDump` writes its files is not in the repository; it is a parameter. A file that was not filled cannot
be read: the readers return an error.
-/

namespace Verif.Model.SnarkFlow
open Verif.Go Verif.Model

variable {S : Snark}

/-- The files of a setup. -/
inductive Part where
  | ccs
  | pk
  | vk
deriving DecidableEq, Repr

/-- The name of a file of the setup `base`. -/
def Part.name (base : Bytes) : Part → Bytes
  | .ccs => ccsName base
  | .pk => pkName base
  | .vk => vkName base

/-- The content of a file of a setup. -/
def Part.whole (sys : System) (coin : S.Coin) : Part → File S
  | .ccs => .ccs sys
  | .pk => .pk (S.setup sys coin).1
  | .vk => .vk (S.setup sys coin).2

/-- A program that writes the key files: its steps, for a constraint system, the randomness and a file name. -/
abbrev SetupProg (S : Snark) := System → S.Coin → Bytes → List (Disk S → Disk S)

/-- `groth16.SetupLazyWithDump` (called in zkmultiswap/zkmultiswap.go:48 and merkleswap/common.go:123), writing its files in
this order: each file is created and then filled. -/
def dumpSteps (order : List Part) : SetupProg S := fun sys coin base =>
  order.flatMap fun p => [fun d => write d (p.name base) .cut, fun d => write d (p.name base) (p.whole sys coin)]

/-- The directory after all steps. -/
def after (steps : List (Disk S → Disk S)) (d : Disk S) : Disk S := steps.foldl (fun d f => f d) d

/-- The directory before, between and after the steps. -/
def visits (steps : List (Disk S → Disk S)) (d : Disk S) : List (Disk S) := steps.scanl (fun d f => f d) d

/-- zkmultiswap/zkmultiswap.go:36-53: the directories during `SetupZkMultiswap`. -/
def setupVisits (σ : SetupProg S) (E : Env) (size : UInt32) (coin : S.Coin) (d : Disk S) : List (Disk S) :=
  match compile E size with
  | none => [d]
  | some sys => visits (σ sys coin (keyFile size.toNat)) d

/-- zkmultiswap/common.go:210-219: the directories during the start of `TestMultiSwap`. These are the directories during
`TestMultiSwap`, `TestNotusMultiSwap` and `TestNotusParallel` (experiments/finaltests.go:473-483, 618-628) as a whole: the
rest of these functions writes no files. -/
def ensureVisits (σ : SetupProg S) (E : Env) (size : UInt32) (coin : S.Coin) (d : Disk S) : List (Disk S) :=
  if isCircuitExist d size then [d] else setupVisits σ E size coin d

/-- zkmultiswap/common.go:239-248: the directory after the start of `TestMultiSwapAndOutputSmartContract`. -/
def ensureEnd (σ : SetupProg S) (E : Env) (size : UInt32) (coin : S.Coin) (d : Disk S) : Res (Disk S) :=
  if isCircuitExist d size then .ok d
  else
    match compile E size with
    | none => goPanic "compile"
    | some sys => .ok (after (σ sys coin (keyFile size.toNat)) d)

/-- zkmultiswap/common.go:238-262: the directories during `TestMultiSwapAndOutputSmartContract`. -/
def outputVisits (σ : SetupProg S) (E : Env) (size : UInt32) (coin : S.Coin) (d : Disk S) : List (Disk S) :=
  ensureVisits σ E size coin d ++
    match ensureEnd σ E size coin d with
    | .error _ => []
    | .ok d1 =>
      match loadVerifyingKey d1 (keyFile size.toNat) with
      | none => []
      | some vk => visits [fun d => write d (ascii "contract_g16.sol") .cut,
          fun d => write d (ascii "contract_g16.sol") (.sol vk)] d1

/-- zkmultiswap/common.go:276-303: the steps that write the files of the second setup and the contract. -/
def notusSteps (pk : S.PK) (vk : S.VK) : List (Disk S → Disk S) :=
  [fun d => write d (ascii "Notus.g16.vk") .cut, fun d => write d (ascii "Notus.g16.vk") (.vk vk),
   fun d => write d (ascii "Notus.g16.pk") .cut, fun d => write d (ascii "Notus.g16.pk") (.pk pk),
   fun d => write d (ascii "Notuscontract_g16.sol") .cut, fun d => write d (ascii "Notuscontract_g16.sol") (.sol vk)]

/-- zkmultiswap/common.go:265-391: the directories during `TestMultiSwapAndOutputSmartContract2`. -/
def output2Visits (σ : SetupProg S) (E : Env) (size : UInt32) (coin coin2 : S.Coin) (d : Disk S) : List (Disk S) :=
  match compile E size with
  | none => [d]
  | some r1cs => visits (σ r1cs coin (keyFile size.toNat) ++ notusSteps (S.setup r1cs coin2).1 (S.setup r1cs coin2).2) d

/-- merkleswap/common.go:111-128: the directories during `SetupZkMultiswap`. -/
def merkleSetupVisits (σ : SetupProg S) (E : Env) (size : UInt32) (coin : S.Coin) (d : Disk S) : List (Disk S) :=
  match MerkleSwap.define E (MerkleSwap.initCircuitWithSize size) with
  | .error _ => [d]
  | .ok _ => visits (σ (.merkle size.toNat) coin (merkleKeyFile size.toNat)) d

/-- merkleswap/common.go:58-83: the directories during `TestMerkleMultiSwap`. -/
def merkleTestVisits (σ : SetupProg S) (E : Env) (size : UInt32) (coin : S.Coin) (d : Disk S) : List (Disk S) :=
  if (d (ccsName (merkleKeyFile size.toNat))).isSome then [d] else merkleSetupVisits σ E size coin d

/-- Not in the code: a setup that first removes the file that `isCircuitExist` looks for and makes it in one step (by
renaming) when the keys are there. -/
def repairedSteps : SetupProg S := fun sys coin base =>
  [fun d n => if n = ccsName base then none else d n,
   fun d => write d (pkName base) .cut, fun d => write d (pkName base) (.pk (S.setup sys coin).1),
   fun d => write d (vkName base) .cut, fun d => write d (vkName base) (.vk (S.setup sys coin).2),
   fun d => write d (ccsName base) (.ccs sys)]

end Verif.Model.SnarkFlow
