import Verif.Go.Run
import Verif.Go.Bytes

/-!
# Hashes and representatives (accumulator/hashes.go, accumulator/genRep.go, accumulator/manualbench.go)

SHA-256, Poseidon and `ProbablyPrime` are external; they are arbitrary functions here.
-/

namespace Verif.Model
open Verif.Go

/-- Order of the BN254 scalar field (gnark-crypto `fr.Modulus()`). -/
def frOrder : Nat := 21888242871839275222246405745257275088548364400416034343698204186575808495617

/-- External functions. -/
structure Env where
  /-- `crypto/sha256` -/
  sha256 : Bytes → Bytes
  sha256_length : ∀ b, (sha256 b).length = 32
  /-- `big.Int.ProbablyPrime` (in Go a deterministic function of the number and the number of rounds) -/
  probablyPrime : Nat → Bool
  /-- `poseidon.Poseidon` on canonical representatives of field elements -/
  poseidon : List Nat → Nat
  poseidon_lt : ∀ l, poseidon l < frOrder

/-- `Min1024`, accumulator/accumulator.go:13. -/
def min1024 : Nat := 2 ^ (1024 - 1)

/-- `Min2048`, accumulator/accumulator.go:14. -/
def min2048 : Nat := 2 ^ (2048 - 1)

/-- accumulator/hashes.go:12-16 `ElementFromBigInt`: canonical representative of the field element. -/
def elementFromBigInt (v : Int) : Nat := (v % (frOrder : Int)).toNat

/-- accumulator/hashes.go:19-27 `ElementFromString`. -/
def elementFromString (v : Bytes) : Res Nat :=
  match setString v with
  | none => goPanic "Error parsing hex number"
  | some n => .ok (elementFromBigInt n)

/-- accumulator/hashes.go:30-34 `ElementFromUint32`. -/
def elementFromUint32 (v : UInt32) : Nat := elementFromBigInt v.toNat

/-- accumulator/hashes.go:47-58: the loop of `HashToPrime`; `hashTemp` is the current digest. -/
def hashToPrimeLoop (E : Env) : Nat → Bytes → Option Nat
  | 0, _ => none
  | fuel + 1, hashTemp =>
    if E.probablyPrime (setBytes hashTemp) then some (setBytes hashTemp)
    else hashToPrimeLoop E fuel (E.sha256 hashTemp)

/-- accumulator/hashes.go:37-60 `HashToPrime`, with a bound on the number of primality tests. -/
def hashToPrime (E : Env) (fuel : Nat) (input : Bytes) : Option Nat := hashToPrimeLoop E fuel (E.sha256 input)

/-- accumulator/hashes.go:63-73 `SHA256ToInt`. -/
def sha256ToInt (E : Env) (input : Bytes) : Nat := setBytes (E.sha256 input)

/-- accumulator/hashes.go:76-84 `PoseidonWith2Inputs`. -/
def poseidonWith2Inputs (E : Env) (inputs : List Int) : Res Nat :=
  match inputs with
  | [a, b] => .ok (E.poseidon [elementFromBigInt a, elementFromBigInt b])
  | _ => goPanic "PoseidonWith2Inputs requires 2 inputs"

/-- accumulator/hashes.go:87-97 `UniversalHashToInt` for parameters `A`, `B`, `P` (`Mod` is Euclidean). -/
def universalHashToInt (A B P input : Int) : Int :=
  let ret := input * A
  let ret := ret % P
  let ret := ret + B
  let ret := ret % P
  if ret % 2 = 0 then ret + 1 else ret

/-- accumulator/hashes.go:100-106 `DIHashPoseidon`. -/
def diHashPoseidon (E : Env) (input : List Nat) : Nat := E.poseidon input + min1024

/-- accumulator/hashes.go:109-115 `PoseidonAndDIHash`. -/
def poseidonAndDIHash (E : Env) (input : List Nat) : Nat × Nat := (E.poseidon input, E.poseidon input + min1024)

/-- accumulator/genRep.go:9-15 `genRepWithHashToPrimeFromSHA256`. -/
def genRepWithHashToPrimeFromSHA256 (E : Env) (fuel : Nat) (set : List Bytes) : Run (List Nat) :=
  set.mapM (fun v => liftLoop (hashToPrime E fuel v))

/-- accumulator/genRep.go:17-26, one element. -/
def diRepresentative (E : Env) (v : Bytes) : Res Nat := do
  let e ← elementFromString v
  .ok (E.poseidon [e] + min1024)

/-- accumulator/genRep.go:17-26 `genRepWithDIHashFromPoseidon`. -/
def genRepWithDIHashFromPoseidon (E : Env) (set : List Bytes) : Run (List Nat) :=
  set.mapM (fun v => liftRes (diRepresentative E v))

/-- The `iota` constants of accumulator/common.go:29-31 (sixth and seventh line of the const block, from 0). -/
def hashToPrimeFromSha256 : Int := 6
def diHashFromPoseidon : Int := 7

/-- accumulator/accumulator.go:34-43 `GenRepresentatives`. -/
def genRepresentatives (E : Env) (fuel : Nat) (set : List Bytes) (encodeType : Int) : Run (List Nat) :=
  if encodeType = hashToPrimeFromSha256 then genRepWithHashToPrimeFromSHA256 E fuel set
  else if encodeType = diHashFromPoseidon then genRepWithDIHashFromPoseidon E set
  else genRepWithHashToPrimeFromSHA256 E fuel set

/-- accumulator/manualbench.go:73-79 `GenBenchSet` (`num ≥ 0`; a negative `num` panics in `make`). -/
def genBenchSet (num : Nat) : List Bytes := (List.range num).map itoa

/-- accumulator/common.go:223-228 `GetPseudoRandomElement`: the decimal number as a byte string (nothing random). -/
def getPseudoRandomElement (input : Int) : Bytes := intString input

end Verif.Model
