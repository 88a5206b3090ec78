import Verif.Go.ForkJoin

/-!
# Products of sets (accumulator/common.go)

`big.Int.Mul` and `bigfft.Mul` are multiplication; the functions are generic in the number type so that the same
model is used for `Int` (the API) and for the non-negative exponents of the accumulator.
-/

namespace Verif.Model
open Verif.Go

variable {α : Type} [One α] [Mul α]

/-- accumulator/common.go:103-112 `SetProduct` (slice of values). -/
def setProduct (inputSet : List α) : α :=
  inputSet.foldl (fun ret v => ret * v) 1

/-- accumulator/common.go:115-124 `SetProduct2` (slice of pointers). -/
def setProduct2 (inputSet : List α) : α :=
  inputSet.foldl (fun ret v => ret * v) 1

/-- accumulator/common.go:127-148 `SetProductRecursive`. -/
def setProductRecursive (inputSet : List α) : α :=
  if _h : inputSet.length ≤ 2 then
    inputSet.foldl (fun ret v => ret * v) 1
  else
    let prod1 := setProductRecursive (slice inputSet 0 (inputSet.length / 2))
    let prod2 := setProductRecursive (slice inputSet (inputSet.length / 2) inputSet.length)
    prod1 * prod2
termination_by inputSet.length
decreasing_by all_goals simp only [slice, List.length_take, List.length_drop]; omega

/-- accumulator/common.go:151-166 `SetProductRecursiveFast` (with `bigfft.Mul`). -/
def setProductRecursiveFast (inputSet : List α) : α :=
  if _h : inputSet.length ≤ 2 then
    inputSet.foldl (fun ret v => ret * v) 1
  else
    let prod1 := setProductRecursiveFast (slice inputSet 0 (inputSet.length / 2))
    let prod2 := setProductRecursiveFast (slice inputSet (inputSet.length / 2) inputSet.length)
    prod1 * prod2
termination_by inputSet.length
decreasing_by all_goals simp only [slice, List.length_take, List.length_drop]; omega

/-- Combination of two received products: accumulator/common.go:186-190, 214-218. -/
def mulPair : List α → Res α
  | [prod1, prod2] => .ok (prod1 * prod2)
  | _ => goPanic "unreachable: two channels"

/-- accumulator/common.go:194-220 `setProductParallelWithChan` as a goroutine program. -/
def setProductParallelWithChan (inputSet : List α) (limit : Int) : Prog α :=
  if limit = 0 then .ret (.ok (setProductRecursiveFast inputSet))
  else if _h : inputSet.length ≤ 2 then .ret (.ok (setProductRecursiveFast inputSet))
  else
    .fork 2
      (fun i => if i = 0
        then setProductParallelWithChan (slice inputSet 0 (inputSet.length / 2)) (limit - 1)
        else setProductParallelWithChan (slice inputSet (inputSet.length / 2) inputSet.length) (limit - 1))
      mulPair
termination_by inputSet.length
decreasing_by all_goals simp only [slice, List.length_take, List.length_drop]; omega

/-- accumulator/common.go:170-191 `SetProductParallel`: the calling goroutine runs the same program and returns the
value. -/
def setProductParallel (inputSet : List α) (limit : Int) : Prog α :=
  if limit = 0 then .ret (.ok (setProductRecursiveFast inputSet))
  else if inputSet.length ≤ 2 then .ret (.ok (setProductRecursiveFast inputSet))
  else
    .fork 2
      (fun i => if i = 0
        then setProductParallelWithChan (slice inputSet 0 (inputSet.length / 2)) (limit - 1)
        else setProductParallelWithChan (slice inputSet (inputSet.length / 2) inputSet.length) (limit - 1))
      mulPair

end Verif.Model
