import Verif.Go.Bytes

/-! # Lines and words of a text -/

namespace Verif.Spec
open Verif.Go

/-- A text cut at every byte `c`. -/
def pieces (c : UInt8) : Bytes → List Bytes
  | [] => [[]]
  | x :: l =>
    if x = c then [] :: pieces c l
    else
      match pieces c l with
      | [] => [[x]]
      | w :: ws => (x :: w) :: ws

/-- The lines of a text. -/
def linesOf (b : Bytes) : List Bytes := pieces 10 b

/-- The words of a text: cut at newlines and spaces. -/
def wordsOf (b : Bytes) : List Bytes := (linesOf b).flatMap (pieces 32)

/-- A word of the text is the decimal number of a proper factor of `N`. -/
def ShowsFactor (out : Bytes) (N : Nat) : Prop := ∃ d, 1 < d ∧ d < N ∧ d ∣ N ∧ itoa d ∈ wordsOf out

/-- A line of the text starts with the label. -/
def ShowsLine (out : Bytes) (label : String) : Prop := ∃ l ∈ linesOf out, ascii label <+: l

example : wordsOf (ascii "N = 15\n") = [ascii "N", ascii "=", ascii "15", []] := by decide

example : ShowsFactor (ascii "a 15 b\nx 3\n") 15 := ⟨3, by decide⟩

end Verif.Spec
