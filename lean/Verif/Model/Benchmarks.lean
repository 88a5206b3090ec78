import Verif.Model.SnarkFlow
import Verif.Model.Experiments
import Verif.Model.AccProve
import Verif.Model.Setup
import Verif.Model.RangeProof
import Verif.Model.Poke
import Verif.Model.ThreeSquares

/-!
# The benchmark programs of `experiments` and of `main.go`

Times and prints are not modelled. `TrustedSetup` is a parameter (`N`, `G`, `H`), random numbers are parameters.
-/

namespace Verif.Model
open Verif.Go

/-! ## TestBasicZKrsa -/

/-- The random numbers of `TestBasicZKrsa`: `GenRandomizer` (line 52), the ten-bit prime of line 61, and the coins of the
two provers. The `h` of lines 63-74 is drawn until it is coprime to `N` and then not used. -/
structure ZkRsaCoins where
  randomizer : Nat
  r : Int
  aop : AoPCoins
  k : Int
  rhox : Int
  rhok : Int

/-- experiments/finaltests.go:43-97 `TestBasicZKrsa` for a set of `setSize` elements (65536 in the code). `ts` is what
`ThreeSquares` returns inside `Prove` (line 78). -/
def testBasicZKrsa (E : Env) (fuel : Nat) (N G : Nat) (H : Int) (setSize : Nat) (c : ZkRsaCoins) (ts : Int3) :
    Run Nat := do
  let set := genBenchSet setSize
  let rep ← genRepresentatives E fuel set diHashFromPoseidon
  let randomizedBase := accumulateNewPow G c.randomizer N
  let exp := setProductRecursiveFast rep
  let acc := accumulateNewPow randomizedBase exp N
  let pp : PublicParameters := { N := N, G := G, H := H }
  let prover := newAoPProver pp c.r
  let (aop, prover) ← liftRes (aopProve E prover 100 ts c.aop)
  let verifier := newAoPVerifier pp prover.C
  let ok ← liftRes (aopVerify E verifier (some aop))
  if ok = false then liftRes (goPanic "zkAoP verification failed")
  else
    let exponent : Int := 666
    let C : Int := (expMod G exponent.toNat N : Nat)
    match ← zkpokeProve E fuel pp pp.G exponent C c.k c.rhox c.rhok with
    | none => liftRes (goPanic "error not empty for TestPoKEStar")
    | some pokeproof =>
      let flag ← zkpokeVerify E fuel pp pp.G C (some pokeproof)
      if flag = false then liftRes (goPanic "did not pass verification")
      else Run.ok acc

/-- A run of `TestBasicZKrsa` on a machine with `K` CPUs that comes to its end. -/
def BasicZKrsaEnds (T : TSEnv) (K : Nat) (E : Env) (fuel N G : Nat) (H : Int) (setSize : Nat) (c : ZkRsaCoins) : Prop :=
  ∃ ts acc, ThreeSquaresReturns T K (aopTarget 100) ts ∧ testBasicZKrsa E fuel N G H setSize c ts = Run.ok acc

/-! ## Precomputation of membership proofs -/

/-- experiments/finaltests.go:116-117 `maxLen` of `TestRSAMembershipPreCompute`: words of 64 bits. `int` arithmetic; no
slice is long enough for an overflow. -/
def preComputeWords (setSize : Nat) : Nat := setSize * 1025 / 64

/-- experiments/finaltests.go:191 (216, 270) `maxLen` of `TestRSAMembershipPreComputeDIParallel`, `TestPreComputeTableSize`
and `TestDifferentGroupingSize`. -/
def preComputeDIWords (setSize : Nat) : Nat := setSize * 2048 / 64

/-- What a precomputation benchmark does: the representatives, the words of the table, the exponents for which the table
is used (accumulator/accumulator.go:90, accumulator/concurrent.go:201), and the proofs. -/
structure PreComputeRun where
  rep : List Nat
  words : Nat
  exponents : List Nat
  proofs : List Nat

/-- The four exponents as a list. -/
def exponentList (r : Nat) (set : List Nat) : List Nat :=
  let e := fourExponents r set
  [e.1, e.2.1, e.2.2.1, e.2.2.2]

/-- experiments/finaltests.go:106-134 `TestRSAMembershipPreCompute`; `r1` is drawn by `GenRandomizer`. -/
def testRSAMembershipPreCompute (E : Env) (fuel G N r1 setSize : Nat) : Run PreComputeRun := do
  let set := genBenchSet setSize
  let rep ← genRepresentatives E fuel set diHashFromPoseidon
  let words := preComputeWords setSize
  let proofs ← liftRes (proveMembershipParallelWithTableWithRandomizer G r1 N rep 0).eval
  let _ ← liftRes (index proofs 0)
  Run.ok { rep, words, exponents := exponentList r1 rep, proofs }

/-- experiments/finaltests.go:180-208 `TestRSAMembershipPreComputeDIParallel`. With a positive limit the exponents are made
without the randomizer (accumulator/concurrent.go:187-201). -/
def testRSAMembershipPreComputeDIParallel (E : Env) (fuel G N r1 setSize : Nat) (limit : Int) : Run PreComputeRun := do
  let set := genBenchSet setSize
  let rep ← genRepresentatives E fuel set diHashFromPoseidon
  let words := preComputeDIWords setSize
  let proofs ← liftRes (proveMembershipParallelWithTableWithRandomizer G r1 N (slice rep 0 setSize) limit).eval
  let _ ← liftRes (index proofs 0)
  Run.ok { rep, words, exponents := exponentList (if limit ≤ 0 then r1 else 1) rep, proofs }

/-- experiments/finaltests.go:256-264 `preComputeDISingleThread`, with the table of `TestDifferentGroupingSize`. -/
def preComputeDISingleThread (E : Env) (fuel G N r1 setSize : Nat) : Run PreComputeRun := do
  let set := genBenchSet setSize
  let rep ← genRepresentatives E fuel set diHashFromPoseidon
  let proofs ← liftRes (proveMembershipSingleThreadWithRandomizer G r1 N rep)
  Run.ok { rep, words := preComputeDIWords setSize, exponents := exponentList r1 rep, proofs }

/-- experiments/finaltests.go:24-40 `TestMembershipVerify` for a set of `setSize` elements (10 in the code): the
accumulator of `AccAndProve` and the value that every round of the loop computes. -/
def testMembershipVerify (E : Env) (fuel : Nat) (setup : Setup) (setSize : Nat) : Run (Nat × Nat) := do
  let set := genBenchSet setSize
  let rep ← genRepresentatives E fuel set diHashFromPoseidon
  let (acc, proofs) ← accAndProve E fuel set diHashFromPoseidon setup
  let p0 ← liftRes (index proofs 0)
  let r0 ← liftRes (index rep 0)
  Run.ok (acc, accumulateNewPow p0 r0 setup.N)

/-! ## The swap experiments to their end -/

open SnarkFlow in
/-- experiments/finaltests.go:599-613 (746-760): a fresh test set is proved and verified; `ret` is not used. -/
def swapFinish {S : Snark} (E : Env) (fuel : Nat) (G N : Nat) (accMid : Int) (coin' : S.Coin) (updatedSetSize : UInt32)
    (d : Disk S) : Run (UpdateSet32 × Bool) := do
  let testSet ← genTestSet E fuel updatedSetSize G N accMid
  let publicInfo := testSet.publicPart
  match ← liftRes (prove testSet coin' d) with
  | none => liftRes (goPanic "Error during Prove")
  | some proof =>
    let flag ← liftRes (verify proof updatedSetSize publicInfo d)
    Run.ok (testSet, flag)

open SnarkFlow in
/-- experiments/finaltests.go:472-614 `TestNotusMultiSwap`: the directory, the values of the swap, the set that was proved,
and whether "Verification passed" is printed. -/
def testNotusMultiSwap {S : Snark} (E : Env) (fuel : Nat) (G N : Nat) (accMid : Int) (coin coin' : S.Coin)
    (setsize updatedSetSize : UInt32) (d : Disk S) : Run (Disk S × SwapRun × UpdateSet32 × Bool) := do
  let d ← liftRes (ensureKeys E updatedSetSize coin d)
  let v ← notusMultiSwap E fuel G N setsize updatedSetSize
  let (testSet, flag) ← swapFinish E fuel G N accMid coin' updatedSetSize d
  Run.ok (d, v, testSet, flag)

open SnarkFlow in
/-- experiments/finaltests.go:617-761 `TestNotusParallel`. -/
def testNotusParallel {S : Snark} (E : Env) (fuel : Nat) (G N : Nat) (accMid : Int) (coin coin' : S.Coin)
    (setsize updatedSetSize : UInt32) (d : Disk S) : Run (Disk S × SwapRun × UpdateSet32 × Bool) := do
  let d ← liftRes (ensureKeys E updatedSetSize coin d)
  let v ← notusParallel E fuel G N setsize updatedSetSize
  let (testSet, flag) ← swapFinish E fuel G N accMid coin' updatedSetSize d
  Run.ok (d, v, testSet, flag)

/-! ## main.go -/

/-- The calls that `main` makes into the other packages. -/
inductive MainCall where
  | testPoKE
  | testMultiSwap (n : UInt32)
  | outputContract (n : UInt32)
  | outputContract2 (n : UInt32)
  | testMembershipVerify
  | testNotusMultiSwap (setsize updated : UInt32)
  | testRSAMembershipPreCompute (setSize : Nat)
  | testNotusParallel (setsize updated : UInt32)
  | preComputeDIParallel (setSize : Nat) (limit : Int)
  | testMerkleMultiSwap (n : UInt32)
deriving DecidableEq, Repr

/-- main.go:40-49 `testbasicprocess`. -/
def basicProcessCalls : List MainCall :=
  [.testPoKE, .testMultiSwap 10, .outputContract 10, .outputContract2 10]

/-- main.go:22-38 `testMembershipproof`. -/
def membershipCalls : List MainCall := [.testMembershipVerify]

/-- main.go:51-59 `singleCoreComponentProfiler`; `int` division, then conversion to `uint32`. -/
def profilerCalls (updateRates : Nat) : List MainCall :=
  [.testNotusMultiSwap 16384 (UInt32.ofNat (16384 / updateRates)),
   .testNotusMultiSwap 32768 (UInt32.ofNat (32768 / updateRates)),
   .testNotusMultiSwap 65536 (UInt32.ofNat (65536 / updateRates))]

/-- experiments/finaltests.go:248-254 `TestDifferentMembershipForDISingleThread`. -/
def singleThreadCalls : List MainCall :=
  [.testRSAMembershipPreCompute 1024, .testRSAMembershipPreCompute 4096, .testRSAMembershipPreCompute 16384,
   .testRSAMembershipPreCompute 65536, .testRSAMembershipPreCompute 262144]

/-- main.go:61-87 `testNotusParallel` with experiments/finaltests.go:764-771 `TestMultiSwapWithDifferentSize`. -/
def parallelCalls (updateRates : Nat) : List MainCall :=
  [.testMultiSwap 256, .testMultiSwap 512, .testMultiSwap 1024, .testMultiSwap 2048, .testMultiSwap 4096,
   .testMultiSwap 8192,
   .testNotusParallel 32768 (UInt32.ofNat (32768 / updateRates)),
   .preComputeDIParallel 32768 5, .preComputeDIParallel 65536 5,
   .testNotusParallel 65536 (UInt32.ofNat (65536 / updateRates)),
   .testNotusParallel 131072 (UInt32.ofNat (131072 / updateRates)),
   .testNotusParallel 262144 (UInt32.ofNat (262144 / updateRates)),
   .testNotusParallel 524288 (UInt32.ofNat (524288 / updateRates))]

/-- main.go:89-185 `main`: the calls for the number that was entered; `none` is an input that is no integer. -/
def mainCalls (input : Option Int) : List MainCall :=
  let updateRates := 64
  match input with
  | none => []
  | some number =>
    if number = 1 then basicProcessCalls
    else if number = 2 then membershipCalls
    else if number = 3 then profilerCalls updateRates
    else if number = 4 then singleThreadCalls
    else if number = 5 then parallelCalls updateRates
    else if number = 6 then [.testMerkleMultiSwap 1024]
    else if number = 9 then
      basicProcessCalls ++ membershipCalls ++ profilerCalls updateRates ++ singleThreadCalls ++
        parallelCalls updateRates ++ [.testMerkleMultiSwap 1024]
    else []

/-- The random numbers of one call. -/
structure CallCoins (S : SnarkFlow.Snark) where
  accMid : Int
  coin : S.Coin
  coin2 : S.Coin
  coin' : S.Coin
  r1 : Nat

open SnarkFlow in
/-- One call of `main`; the result is the directory and whether what the call prints or compares is in order. For
`TestPoKE` (experiments/finaltests.go:147-177) these are the two numbers that are printed in each of its two rounds, for
`TestMembershipVerify` the accumulator and the power of the proof. -/
def runCall {S : Snark} (E : Env) (fuel : Nat) (G N : Nat) (c : CallCoins S) (d : Disk S) : MainCall → Run (Disk S × Bool)
  | .testPoKE => do
    let (a0, b0) ← testPoKERound E fuel 10 G N
    let (a1, b1) ← testPoKERound E fuel 11 G N
    Run.ok (d, decide (a0 = b0) && decide (a1 = b1))
  | .testMultiSwap n => testMultiSwap E fuel G N c.accMid c.coin c.coin' n d
  | .outputContract n => do
    let d ← liftRes (outputContract E c.coin n d)
    Run.ok (d, true)
  | .outputContract2 n => do
    match ← outputContract2 E fuel G N c.accMid c.coin c.coin2 c.coin' n d with
    | (_, .err) => liftRes (goPanic "err")
    | (d, .failed) => Run.ok (d, false)
    | (d, .printed _ _) => Run.ok (d, true)
  | .testMembershipVerify => do
    let (acc, v) ← testMembershipVerify E fuel { N := N, G := G } 10
    Run.ok (d, decide (acc = v))
  | .testNotusMultiSwap s u => do
    let (d, _, _, flag) ← testNotusMultiSwap E fuel G N c.accMid c.coin c.coin' s u d
    Run.ok (d, flag)
  | .testRSAMembershipPreCompute n => do
    let _ ← testRSAMembershipPreCompute E fuel G N c.r1 n
    Run.ok (d, true)
  | .testNotusParallel s u => do
    let (d, _, _, flag) ← testNotusParallel E fuel G N c.accMid c.coin c.coin' s u d
    Run.ok (d, flag)
  | .preComputeDIParallel n limit => do
    let _ ← testRSAMembershipPreComputeDIParallel E fuel G N c.r1 n limit
    Run.ok (d, true)
  | .testMerkleMultiSwap n => liftRes (testMerkleMultiSwap E c.coin c.coin' n d)

open SnarkFlow in
/-- Calls one after the other; `coins k` is used by call number `k`. -/
def runCalls {S : Snark} (E : Env) (fuel : Nat) (G N : Nat) (coins : Nat → CallCoins S) :
    List MainCall → Nat → Disk S → Run (Disk S × List Bool)
  | [], _, d => Run.ok (d, [])
  | call :: rest, k, d => do
    let (d, b) ← runCall E fuel G N (coins k) d call
    let (d, bs) ← runCalls E fuel G N coins rest (k + 1) d
    Run.ok (d, b :: bs)

open SnarkFlow in
/-- main.go:89-185 `main`. -/
def runMain {S : Snark} (E : Env) (fuel : Nat) (G N : Nat) (coins : Nat → CallCoins S) (input : Option Int) (d : Disk S) :
    Run (Disk S × List Bool) := runCalls E fuel G N coins (mainCalls input) 0 d

end Verif.Model
