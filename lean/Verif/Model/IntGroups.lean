import Verif.Model.ThreeSquares

/-!
# proof/parameters.go: the number groups as groups of pointers

`Int4` is an array of four pointers to integers, and `NewInt4`, `Mul` and `Div` write through these pointers. The model of
`Verif.Model.ThreeSquares` works on values; this one keeps the pointers, so that two of them can be the same.
-/

namespace Verif.Model
open Verif.Go

/-- The memory: the value of the `big.Int` at each address. Nil pointers are not modelled here. -/
abbrev IntHeap := Nat → Int

/-- `p.Set(v)`: only the integer at `p` changes. -/
def IntHeap.write (h : IntHeap) (p : Nat) (v : Int) : IntHeap := fun q => if q = p then v else h q

/-- proof/parameters.go:32 `Int4`: four addresses. -/
structure Int4Ptr where
  p0 : Nat
  p1 : Nat
  p2 : Nat
  p3 : Nat
deriving DecidableEq, Repr

/-- The four addresses in order. -/
def Int4Ptr.toList (f : Int4Ptr) : List Nat := [f.p0, f.p1, f.p2, f.p3]

/-- The four numbers a group points to. -/
def Int4Ptr.read (f : Int4Ptr) (h : IntHeap) : Int4 := ⟨h f.p0, h f.p1, h f.p2, h f.p3⟩

/-- `w.Abs(w)`. -/
def absAt (h : IntHeap) (p : Nat) : IntHeap := h.write p (h p).natAbs

/-- `if a.Cmp(b) == -1 { a, b = b, a }` on pointers: the pointers change places, the numbers stay. -/
def swapPtrIfLess (h : IntHeap) (p : Nat × Nat) : Nat × Nat := if h p.1 < h p.2 then (p.2, p.1) else p

/-- proof/parameters.go:35-60 `NewInt4`, with the pointers. The result shares the integers of the caller. -/
def newInt4Ptr (h : IntHeap) (w1 w2 w3 w4 : Nat) : IntHeap × Int4Ptr :=
  let h := absAt h w1
  let h := absAt h w2
  let h := absAt h w3
  let h := absAt h w4
  let (w1, w2) := swapPtrIfLess h (w1, w2)
  let (w1, w3) := swapPtrIfLess h (w1, w3)
  let (w1, w4) := swapPtrIfLess h (w1, w4)
  let (w2, w3) := swapPtrIfLess h (w2, w3)
  let (w2, w4) := swapPtrIfLess h (w2, w4)
  let (w3, w4) := swapPtrIfLess h (w3, w4)
  (h, ⟨w1, w2, w3, w4⟩)

/-- proof/parameters.go:65, one round: `f[i].Mul(f[i], n)`. -/
def mulAt (n : Nat) (h : IntHeap) (p : Nat) : IntHeap := h.write p (h p * h n)

/-- proof/parameters.go:63-67 `(*Int4).Mul`: the loop over the four pointers; `n` is read again in every round. -/
def Int4Ptr.mul (f : Int4Ptr) (h : IntHeap) (n : Nat) : IntHeap := f.toList.foldl (mulAt n) h

/-- proof/parameters.go:72, one round: `f[i].Div(f[i], n)`. -/
def divAt (n : Nat) (h : IntHeap) (p : Nat) : Res IntHeap :=
  if h n = 0 then goPanic "division by zero" else .ok (h.write p (h p / h n))

/-- proof/parameters.go:70-74 `(*Int4).Div`. -/
def Int4Ptr.div (f : Int4Ptr) (h : IntHeap) (n : Nat) : Res IntHeap := f.toList.foldlM (divAt n) h

end Verif.Model
