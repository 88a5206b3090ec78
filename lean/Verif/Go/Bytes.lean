import Verif.Go.Basic
import Mathlib.Data.Nat.Digits.Defs

/-!
# Byte strings, decimal strings, big-endian integers

A Go `string` and a `[]byte` value are lists of bytes.
-/

namespace Verif.Go

/-- Byte strings. -/
abbrev Bytes := List UInt8

/-- `new(big.Int).SetBytes(b)`: big-endian. -/
def setBytes (b : Bytes) : Nat := b.foldl (fun acc c => acc * 256 + c.toNat) 0

/-- `x.Bytes()`: the magnitude of `x`, big-endian, without leading zeros. -/
def natBytes (n : Nat) : Bytes := ((Nat.digits 256 n).reverse).map UInt8.ofNat

/-- Byte of a decimal digit. -/
def digitByte (d : Nat) : UInt8 := UInt8.ofNat (48 + d)

/-- `strconv.Itoa` / `big.Int.String` of a non-negative number. -/
def itoa (n : Nat) : Bytes :=
  if n = 0 then [digitByte 0] else ((Nat.digits 10 n).reverse).map digitByte

/-- `big.Int.String` of an integer. -/
def intString (n : Int) : Bytes := if n < 0 then 45 :: itoa n.natAbs else itoa n.natAbs

/-- Value of a decimal digit, if it is one. -/
def digitVal (c : UInt8) : Option Nat := if 48 ≤ c.toNat ∧ c.toNat ≤ 57 then some (c.toNat - 48) else none

/-- Digits only, at least one. -/
def parseDigits (b : Bytes) : Option Nat :=
  if b = [] then none
  else b.foldl (fun acc c => match acc, digitVal c with
    | some a, some d => some (a * 10 + d)
    | _, _ => none) (some 0)

/-- `new(big.Int).SetString(v, 10)`: an optional sign, then one or more decimal digits, nothing else. -/
def setString (v : Bytes) : Option Int :=
  match v with
  | 45 :: rest => (parseDigits rest).map (fun n : Nat => -(n : Int))
  | 43 :: rest => (parseDigits rest).map (fun n : Nat => (n : Int))
  | _ => (parseDigits v).map (fun n : Nat => (n : Int))

/-- A string constant (ASCII). -/
def ascii (s : String) : Bytes := s.toList.map (fun c => UInt8.ofNat c.toNat)

/-- `x.String()` for a pointer `x *big.Int`; a nil pointer gives `<nil>`. -/
def ptrString : Option Int → Bytes
  | none => ascii "<nil>"
  | some n => intString n

end Verif.Go
