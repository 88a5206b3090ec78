import Verif.Go.Basic
import Mathlib.Data.Nat.Size
import Mathlib.Data.Nat.Digits.Defs

/-!
# accumulator/mulexp.go: `SimpleExp`, `GCB`, `CommonBits`

Machine words have 64 bits. A big integer's magnitude is its slice of words, least significant first.
-/

namespace Verif.Model
open Verif.Go

/-! ## SimpleExp -/

/-- `x.Bits()` of a normalised non-negative integer. -/
def bitsOf (x : Nat) : List Nat := Nat.digits (2 ^ 64) x

/-- accumulator/mulexp.go:27-35, one round of the inner loop; the state is `(output, gCopy)`. -/
def simpleExpBit (n : Int) (word : Nat) (j : Nat) (s : Int × Int) : Int × Int :=
  let mask := 1 <<< j
  let output := if word &&& mask = mask then s.1 * s.2 % n else s.1
  (output, s.2 * s.2 % n)

/-- accumulator/mulexp.go:27-35, the first `m` rounds of the inner loop (`m = 64` in the code). -/
def simpleExpWord (n : Int) (word : Nat) (m : Nat) (s : Int × Int) : Int × Int :=
  (List.range m).foldl (fun s j => simpleExpBit n word j s) s

/-- accumulator/mulexp.go:25-37, the outer loop from index `i`: the body adds 64 to `i`, the loop header 1 more. -/
def simpleExpLoop (n : Int) (bits : List Nat) (bitLen : Nat) (i : Nat) (s : Int × Int) : Res Int :=
  if i < bitLen then do
    let w ← index bits (i / 64)
    simpleExpLoop n bits bitLen (i + 64 + 1) (simpleExpWord n w 64 s)
  else .ok s.1
termination_by bitLen - i

/-- accumulator/mulexp.go:11-40 `SimpleExp`. The final call of `multiexp.DoubleExp`, whose result is dropped, is left
out. -/
def simpleExp (g x n : Int) : Res Int :=
  if g ≤ 1 ∨ n ≤ 1 ∨ x < 1 then goPanic "invalid input for function SimpleExp"
  else simpleExpLoop n (bitsOf x.natAbs) x.natAbs.size 0 (1, g)

/-! ## GCB -/

/-- accumulator/mulexp.go:67-79 `CommonBits`. -/
def commonBitsLoop (a b : BitVec 64) (m : Nat) : BitVec 64 :=
  (List.range m).foldl (fun ret i =>
    let mask := (1 : BitVec 64) <<< i
    if a &&& mask = mask ∧ b &&& mask = mask then ret ||| mask else ret) 0

/-- accumulator/mulexp.go:67-79 `CommonBits`. -/
def commonBits (a b : BitVec 64) : BitVec 64 := commonBitsLoop a b 32

/-- Remove leading zero words (`nat.norm`). -/
def normWords (l : List (BitVec 64)) : List (BitVec 64) := (l.reverse.dropWhile (· == 0)).reverse

/-- accumulator/mulexp.go:45-64 `GCB` on two different objects. Returns the words of the result and the words of both
operands after the call: `Bits` gives access to the operands' own words, and the loop overwrites them. `SetBits`
normalises the result. -/
def gcb (a b : List (BitVec 64)) : List (BitVec 64) × List (BitVec 64) × List (BitVec 64) :=
  let maxBitLen := if a.length > b.length then b.length else a.length
  let ret := (List.range maxBitLen).map (fun i => commonBits (a.getD i 0) (b.getD i 0))
  let sub := fun (l : List (BitVec 64)) => l.mapIdx (fun i w => if i < maxBitLen then w - ret.getD i 0 else w)
  (normWords ret, sub a, sub b)

/-- accumulator/mulexp.go:45-64 `GCB` called with the same object twice: `bitStringA` and `bitStringB` are one slice,
so the common part is subtracted twice. Returns the result and the operand afterwards. -/
def gcbSame (a : List (BitVec 64)) : List (BitVec 64) × List (BitVec 64) :=
  let ret := a.map (fun w => commonBits w w)
  (normWords ret, a.map (fun w => w - commonBits w w - commonBits w w))

/-- The number that a slice of words stands for. -/
def wordsVal : List (BitVec 64) → Nat
  | [] => 0
  | w :: l => w.toNat + 2 ^ 64 * wordsVal l

/-- Representation invariant of `big.Int`: the most significant word is not zero. -/
def Normalised (l : List (BitVec 64)) : Prop := l.getLast? ≠ some 0

instance (l : List (BitVec 64)) : Decidable (Normalised l) := by unfold Normalised; infer_instance

/-- `x.Sign()` for a non-negative `x`: 0 exactly if there are no words. -/
def signOf (l : List (BitVec 64)) : Int := if l.length = 0 then 0 else 1

end Verif.Model
