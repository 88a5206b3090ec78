import Verif.Model.SnarkFlow

/-!
# zkmultiswap/gnark-tests/solidity: the steps of `go generate`, the test after them, and the workflow that runs the tests

In the test the deployed contract is the one whose bytecode stands in the Go binding. The binding is a file of the
repository, written by the last of three steps; the keys are written by the first one and are not in the repository
(.gitignore: `*.save`).
-/

namespace Verif.Model.GoGenerate
open Verif.Go Verif.Model Verif.Model.SnarkFlow

/-- The directory. `combined` is abi/combined.json and `binding` is solidity_groth16.go; of both only the key in the bytecode
is kept. The Solidity source `Notuscontract_g16.sol` and the keys are on `disk`. -/
structure SolDir (S : Snark) where
  disk : Disk S
  combined : Option S.VK
  binding : S.VK

/-- The Solidity source. -/
def solName : Bytes := ascii "Notuscontract_g16.sol"

/-- The directory in a checkout: the source, abi/combined.json and solidity_groth16.go are for one key. There are no key
files. -/
def checkout {S : Snark} (vk : S.VK) : SolDir S := ⟨write (fun _ => none) solName (.sol vk), some vk, vk⟩

/-- zkmultiswap/gnark-tests/solidity/generate.go:3 `go run contract/main.go`; `none` if the command fails. -/
def runContractMain {S : Snark} (E : Env) (coin : S.Coin) (t : SolDir S) : Option (SolDir S) :=
  (generateGroth16 E coin t.disk).map fun d => { t with disk := d }

/-- zkmultiswap/gnark-tests/solidity/generate.go:4 `solc … Notuscontract_g16.sol -o abi --overwrite`. -/
def solc {S : Snark} (t : SolDir S) : Option (SolDir S) :=
  match t.disk solName with
  | some (.sol vk) => some { t with combined := some vk }
  | _ => none

/-- zkmultiswap/gnark-tests/solidity/generate.go:5 `abigen --combined-json abi/combined.json … --out solidity_groth16.go`. -/
def abigen {S : Snark} (t : SolDir S) : Option (SolDir S) := t.combined.map fun vk => { t with binding := vk }

/-- zkmultiswap/gnark-tests/solidity/generate.go:3-5: `go generate` runs the commands in order and stops at the first that
fails. -/
def goGenerate {S : Snark} (E : Env) (coin : S.Coin) (t : SolDir S) : Option (SolDir S) := do
  let t ← runContractMain E coin t
  let t ← solc t
  abigen t

/-- zkmultiswap/gnark-tests/solidity/solidity_groth16_test.go:53-93 `SetupTest`: what the test reads, and whether all
assertions hold. An error for the constraint system or the verifying key fails an assertion and the test goes on; an error
for the proving key is only printed. The simulated chain and the deployment are left out (C149). -/
def setupTest {S : Snark} (t : SolDir S) : Option System × Option S.PK × Bool :=
  let r1cs := readCcs t.disk (ccsName keyPathPrefix)
  let pk := readPk t.disk (pkName keyPathPrefix)
  let vk := readVk t.disk (vkName keyPathPrefix)
  (r1cs, pk, r1cs.isSome && vk.isSome)

/-- zkmultiswap/gnark-tests/solidity/solidity_groth16_test.go:49-51 and 95-201: `TestRunExportSolidityTestSuiteGroth16` with its one test
`TestVerifyProof`. The result is `true` if no assertion failed. `t.pk[0]` (line 106) panics without a proving key,
`ProveRoll` without a constraint system, and `proof.WriteRawTo` (line 131) without a proof. The contract is the one of the
binding. A failed call counts as the answer false (C70 says when calls fail; not for these inputs). -/
def suiteTest {S : Snark} (E : Env) (fuel : Nat) (G N accMid : Int) (coin' : S.Coin) (t : SolDir S) : Run Bool :=
  let (r1cs, pk, read) := setupTest t
  do
  let testSet ← genTestSet E fuel 5 G N accMid
  let assignment ← liftRes (assignCircuit testSet)
  match pk, r1cs with
  | none, _ => liftRes (goPanic "index out of range")
  | some _, none => liftRes (goPanic "no constraint system")
  | some pk, some r1cs =>
    match S.prove r1cs pk (.multi assignment) coin' with
    | none => liftRes (goPanic "no proof")
    | some proof =>
      let input := List.ofFn (Contract.testInput testSet.publicPart)
      let res := contractAccepts t.binding input proof
      let res2 := contractAccepts t.binding (42 :: input.tail) proof
      Run.ok (read && res && !res2)

/-! ## The workflow -/

/-- What `go test -v` says about one package: lines while its tests run, its import path, and whether it passed. -/
structure Package where
  verbose : List (List Char)
  path : List Char
  passed : Bool

/-- The lines for one package. Times are left out. -/
def packageLines (p : Package) : List (List Char) :=
  p.verbose ++ [(if p.passed then "ok  \t".toList else "FAIL\t".toList) ++ p.path]

/-- `go test -v ./...`: the exit status and the lines; the last line is `FAIL` if a package failed. -/
def goTest (ps : List Package) : Nat × List (List Char) :=
  if ps.all (·.passed) then (0, ps.flatMap packageLines) else (1, ps.flatMap packageLines ++ ["FAIL".toList])

/-- `grep -v pattern` (the pattern has no special characters): the exit status is 1 if no line is left. -/
def grepV (pattern : List Char) (lines : List (List Char)) : Nat × List (List Char) :=
  let out := lines.filter fun l => !decide (pattern <:+: l)
  (if out = [] then 1 else 0, out)

/-- The pattern in .github/workflows/go.yml:40. -/
def ciPattern : List Char := "/zkmultiswap/gnark-tests/".toList

/-- .github/workflows/go.yml:39-40, the step `Test`: the exit status of the pipe. The workflow names no shell, so the line is
run by `bash -e`, without `pipefail`: the status of a pipe is that of its last command. With `pipefail` it is that of the
last command that failed. -/
def ciStep (pipefail : Bool) (ps : List Package) : Nat :=
  let (s1, out) := goTest ps
  let (s2, _) := grepV ciPattern out
  if pipefail && s2 == 0 then s1 else s2

end Verif.Model.GoGenerate
