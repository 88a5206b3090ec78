import Verif.Go.Bytes

/-!
# Keccak-256

The hash that names the functions of a contract (`abi.Method.ID` of go-ethereum, used by the binding in
zkmultiswap/gnark-tests/solidity/solidity_groth16.go:383). From the Keccak reference: 1600 bits of state as one number, lane
`x + 5 y` in bits `64 (x + 5 y)` and up; rate 136 bytes; padding `0x01 … 0x80`.
-/

namespace Verif.Model.Keccak

open Verif.Go

def laneMod : Nat := 2 ^ 64

/-- Lane `i` of the state. -/
def lane (s i : Nat) : Nat := (s >>> (64 * i)) % laneMod

/-- The number with the lanes `f 0`, …, `f (k - 1)`. -/
def pack (k : Nat) (f : Nat → Nat) : Nat := (List.range k).foldl (fun acc i => acc ||| (f i <<< (64 * i))) 0

/-- Rotation of a lane to the left. -/
def rotl (v n : Nat) : Nat := ((v <<< n) ||| (v >>> (64 - n))) % laneMod

/-- The distances of the step ρ. -/
def offsets : List Nat :=
  [0, 1, 62, 28, 27, 36, 44, 6, 55, 20, 3, 10, 43, 25, 39, 41, 45, 15, 21, 8, 18, 2, 61, 56, 14]

/-- The constants of the step ι. -/
def roundConstants : List Nat :=
  [0x0000000000000001, 0x0000000000008082, 0x800000000000808a, 0x8000000080008000, 0x000000000000808b, 0x0000000080000001,
   0x8000000080008081, 0x8000000000008009, 0x000000000000008a, 0x0000000000000088, 0x0000000080008009, 0x000000008000000a,
   0x000000008000808b, 0x800000000000008b, 0x8000000000008089, 0x8000000000008003, 0x8000000000008002, 0x8000000000000080,
   0x000000000000800a, 0x800000008000000a, 0x8000000080008081, 0x8000000000008080, 0x0000000080000001, 0x8000000080008008]

/-- The parities of the columns. -/
def columns (s : Nat) : Nat :=
  pack 5 fun x => lane s x ^^^ lane s (x + 5) ^^^ lane s (x + 10) ^^^ lane s (x + 15) ^^^ lane s (x + 20)

/-- θ. -/
def theta (s : Nat) : Nat :=
  let c := columns s
  pack 25 fun i => lane s i ^^^ lane c ((i + 4) % 5) ^^^ rotl (lane c ((i + 1) % 5)) 1

/-- ρ and π: lane `(x, y)` of the result is lane `(x + 3 y, x)` of the argument, rotated. -/
def rhoPi (s : Nat) : Nat :=
  pack 25 fun i =>
    let src := (i % 5 + 3 * (i / 5)) % 5 + 5 * (i % 5)
    rotl (lane s src) (offsets.getD src 0)

/-- χ. -/
def chi (s : Nat) : Nat :=
  pack 25 fun i =>
    let row := 5 * (i / 5)
    lane s i ^^^ ((laneMod - 1 - lane s (row + (i + 1) % 5)) &&& lane s (row + (i + 2) % 5))

/-- One round; the constant goes into lane 0. -/
def keccakRound (s rc : Nat) : Nat := chi (rhoPi (theta s)) ^^^ rc

/-- Keccak-f[1600]. -/
def keccakF (s : Nat) : Nat := roundConstants.foldl keccakRound s

/-- Bytes as a number, the first byte the lowest. -/
def littleEndian (l : Bytes) : Nat := l.foldr (fun b acc => b.toNat + 256 * acc) 0

/-- All blocks of 136 bytes, the last one padded; `fuel` bounds their number. -/
def absorb : Nat → Nat → Bytes → Nat
  | 0, s, _ => s
  | fuel + 1, s, l =>
    if l.length < 136 then keccakF (s ^^^ littleEndian l ^^^ (1 <<< (8 * l.length)) ^^^ (0x80 <<< (8 * 135)))
    else absorb fuel (keccakF (s ^^^ littleEndian (l.take 136))) (l.drop 136)

/-- Keccak-256. -/
def keccak256 (l : Bytes) : Bytes :=
  let s := absorb (l.length / 136 + 1) 0 l
  (List.range 32).map fun i => UInt8.ofNat ((s >>> (8 * i)) % 256)

end Verif.Model.Keccak
