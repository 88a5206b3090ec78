import Verif.Model.Accumulator

/-!
# `ProveMembershipIter` and the words of its integers

A `big.Int` is a header with a slice of words. `ProveMembershipIter(*setup.G, …)` copies the header only, so the copy and
`setup.G` have the same words. This model of accumulator/accumulator.go:136-184 keeps track of the words: `Words` is a memory of
word arrays (each holding one number), and an integer is the number of its array.

From `math/big` (external): `new(big.Int).Set(x)` takes a new array, and `z.Exp(z, y, m)` with non-negative `y` takes a new
array for the result, as the base of the power is not overwritten. Both leave all other arrays alone.
-/

namespace Verif.Model
open Verif.Go

/-- Word arrays `0, …, next - 1` are in use; `mem a` is the number in array `a`. -/
structure Words where
  mem : Nat → Nat
  next : Nat

/-- A new array that holds `v`. -/
def Words.alloc (w : Words) (v : Nat) : Words × Nat :=
  ({ mem := fun a => if a = w.next then v else w.mem a, next := w.next + 1 }, w.next)

/-- An operation that writes its result to the words of the integer it is called on, such as `z.SetBit`, or `z.Add` with enough
room. -/
def Words.overwrite (w : Words) (a v : Nat) : Words := { w with mem := fun b => if b = a then v else w.mem b }

/-- accumulator/accumulator.go:231-236 `accumulate`: `g.Exp(g, v, N)` for every `v`. -/
def accumulateW (N : Nat) : List Nat → Words × Nat → Words × Nat
  | [], s => s
  | v :: vs, (w, a) => accumulateW N vs (w.alloc (expMod (w.mem a) v N))

/-- accumulator/accumulator.go:252-255 `accumulateNew`. -/
def accumulateNewW (N : Nat) (vs : List Nat) (s : Words × Nat) : Words × Nat :=
  accumulateW N vs (s.1.alloc (s.1.mem s.2))

/-- accumulator/accumulator.go:128-133 `proofNode`; `arr` is the array of `proof`. -/
structure WordNode where
  left : Nat
  right : Nat
  arr : Nat
deriving DecidableEq, Repr

/-- accumulator/accumulator.go:169-184 `insertNewProofNode`. -/
def insertNewProofNodeW (w : Words) (iter : WordNode) (N : Nat) (set : List Nat) : Words × WordNode × WordNode :=
  let left := iter.left
  let right := iter.right
  let mid := left + (right - left) / 2
  let new := accumulateNewW N (slice set left mid) (w, iter.arr)
  let old := accumulateW N (slice set mid right) (new.1, iter.arr)
  (old.1, { left := left, right := mid, arr := old.2 }, { left := mid, right := right, arr := new.2 })

/-- accumulator/accumulator.go:152-159: one pass over the linked list. -/
def iterPassW (N : Nat) (set : List Nat) : Words → List WordNode → Words × List WordNode × Bool
  | w, [] => (w, [], false)
  | w, iter :: rest =>
    if iter.right - iter.left ≤ 1 then
      let r := iterPassW N set w rest
      (r.1, iter :: r.2.1, r.2.2)
    else
      let p := insertNewProofNodeW w iter N set
      let r := iterPassW N set p.1 rest
      (r.1, p.2.1 :: p.2.2 :: r.2.1, true)

/-- accumulator/accumulator.go:149-160: the loop `for finishFlag`. -/
def iterLoopW (N : Nat) (set : List Nat) : Nat → Words → List WordNode → Option (Words × List WordNode)
  | 0, _, _ => none
  | fuel + 1, w, nodes =>
    let r := iterPassW N set w nodes
    if r.2.2 then iterLoopW N set fuel r.1 r.2.1 else some (r.1, r.2.1)

/-- accumulator/accumulator.go:136-167 `ProveMembershipIter(*g, N, set)` where `g` has the words `base`: the arrays of the
returned witnesses. The parameter is a copy of the header, with the same words. -/
def proveMembershipIterW (fuel : Nat) (w : Words) (base N : Nat) (set : List Nat) : Option (Words × List Nat) :=
  if set.length ≤ 0 then some (w, [])
  else
    (iterLoopW N set fuel w [{ left := 0, right := set.length, arr := base }]).map
      (fun r => (r.1, r.2.map (fun n => n.arr)))

end Verif.Model
