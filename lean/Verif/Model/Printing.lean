import Verif.Model.Precompute
import Verif.Model.Transcript
import Verif.Go.Bytes

/-!
# What the printing functions write

proof/parameters.go `Int4.String`, precompute/comfromtable.go `PrintTable`, fiat-shamir/transcript.go `Print`. The text is a byte string.
-/

namespace Verif.Model
open Verif.Go

/-- `fmt.Println` of operands whose texts are given: a space between each two, a newline at the end. -/
def printLine : List Bytes → Bytes
  | [] => [10]
  | [a] => a ++ [10]
  | a :: b :: l => a ++ 32 :: printLine (b :: l)

/-- proof/parameters.go:77-86 `(*Int4).String`; the four pointers may be nil. -/
def int4String (f0 f1 f2 f3 : Option Int) : Bytes :=
  let res := ascii "{"
  let res := [f0, f1, f2].foldl (fun res f => res ++ ptrString f ++ ascii ", ") res
  let res := res ++ ptrString f3
  res ++ ascii "}"

/-- precompute/comfromtable.go:27-30: the loop of `PrintTable` from index `i` on, `k` rounds left. -/
def printTableLoop (p : PreTable) : Nat → Nat → Res Bytes
  | 0, _ => .ok []
  | k + 1, i => do
    let b ← index p.base i
    let l1 := printLine [ascii "BaseString", itoa i, ascii " = \"", intString b, ascii "\""]
    let n ← index p.n i
    let l2 := printLine [ascii "n", itoa i, ascii " = ", itoa n]
    let rest ← printTableLoop p k (i + 1)
    .ok (l1 ++ l2 ++ rest)

/-- precompute/comfromtable.go:26-31 `PrintTable`: the whole text, or a panic if there are fewer offsets than bases. -/
def printTable (p : PreTable) : Res Bytes := printTableLoop p p.base.length 0

/-- fiat-shamir/transcript.go:39-41: the loop of `Print` from index `i` on. -/
def printInfo : Nat → List Bytes → Bytes
  | _, [] => []
  | i, s :: l => printLine [ascii "Info[", itoa i, ascii "] = ", s] ++ printInfo (i + 1) l

/-- fiat-shamir/transcript.go:37-42 `Print`. -/
def Transcript.print (t : Transcript) : Bytes :=
  printLine [ascii "The transcript has ", itoa t.info.length, ascii "strings as info."] ++ printInfo 0 t.info

end Verif.Model
