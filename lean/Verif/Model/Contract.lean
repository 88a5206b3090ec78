import Verif.Go.Bytes
import Verif.Model.MultiSwap
import Mathlib.Data.Fin.VecNotation

/-!
# The call of the contract in the Go test

zkmultiswap/gnark-tests/solidity/solidity_groth16_test.go:129-188. `WriteRawTo` (gnark) is not modelled: the functions start
from the bytes it writes.
-/

namespace Verif.Model.Contract
open Verif.Go Verif.Model

/-- The arguments `a`, `b`, `c` of `verifyProof`, zkmultiswap/gnark-tests/solidity/solidity_groth16_test.go:138-143. `b0` is `b[0]`. -/
structure ProofWords where
  a : Nat × Nat
  b0 : Nat × Nat
  b1 : Nat × Nat
  c : Nat × Nat
deriving DecidableEq, Repr

/-- zkmultiswap/gnark-tests/solidity/solidity_groth16_test.go:129. -/
def fpSize : Nat := 4 * 8

/-- `new(big.Int).SetBytes(proofBytes[fpSize*i : fpSize*(i+1)])`. The slice expression panics if the bytes are too short (the
model compares with the length, Go with the capacity). -/
def word (proofBytes : Bytes) (i : Nat) : Res Nat :=
  if fpSize * (i + 1) ≤ proofBytes.length then .ok (setBytes (slice proofBytes (fpSize * i) (fpSize * (i + 1))))
  else goPanic "slice bounds out of range"

/-- zkmultiswap/gnark-tests/solidity/solidity_groth16_test.go:149-156, the same as zkmultiswap/common.go:345-352. -/
def proofWords (proofBytes : Bytes) : Res ProofWords := do
  let a0 ← word proofBytes 0
  let a1 ← word proofBytes 1
  let b00 ← word proofBytes 2
  let b01 ← word proofBytes 3
  let b10 ← word proofBytes 4
  let b11 ← word proofBytes 5
  let c0 ← word proofBytes 6
  let c1 ← word proofBytes 7
  .ok { a := (a0, a1), b0 := (b00, b01), b1 := (b10, b11), c := (c0, c1) }

/-- zkmultiswap/gnark-tests/solidity/solidity_groth16_test.go:159-165: the public inputs. The call encodes a number as `uint256` by its low 256 bits
(`abi.Pack` of go-ethereum). -/
def testInput (publicInfo : PublicInfo) : Fin 7 → Nat :=
  ![uint256FromBig publicInfo.challengeL1, uint256FromBig publicInfo.challengeL2, uint256FromBig publicInfo.remainderR1,
    uint256FromBig publicInfo.remainderR2, uint256FromBig (publicInfo.currentEpochNum.toNat : Int),
    uint256FromBig publicInfo.deltaModL1, uint256FromBig publicInfo.deltaModL2]

end Verif.Model.Contract
