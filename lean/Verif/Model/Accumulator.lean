import Verif.Model.Products

/-!
# Membership proofs (accumulator/accumulator.go, accumulator/concurrent.go)

Elements, bases and moduli are non-negative (`Nat`); for those `big.Int.Exp(x, y, m)` is `x ^ y % m`, also for
`m = 0` (Go: no reduction; Lean: `a % 0 = a`) and `m = 1`.  `multiexp.DoubleExp`, `FourfoldExp`,
`FourfoldExpPrecomputed`, `FourfoldExpPrecomputedParallel` are external: they return the powers of the base modulo `N`
(trusted, see DESIGN.md).  Slice bounds `n/4 ≤ n/2 ≤ 3n/4 ≤ n` always hold, so the slice expressions do not panic.
-/

namespace Verif.Model
open Verif.Go

/-- `big.Int.Exp` on non-negative arguments. -/
def expMod (x y m : Nat) : Nat := x ^ y % m

/-- `multiexp.DoubleExp(base, {e0, e1}, N)` (external). -/
def doubleExp (base e0 e1 N : Nat) : Nat × Nat := (expMod base e0 N, expMod base e1 N)

/-- `multiexp.FourfoldExp(base, N, {e0, e1, e2, e3})` and its precomputed versions (external). -/
def fourfoldExp (base N e0 e1 e2 e3 : Nat) : Nat × Nat × Nat × Nat :=
  (expMod base e0 N, expMod base e1 N, expMod base e2 N, expMod base e3 N)

/-- accumulator/accumulator.go:225-229 `AccumulateNew`. -/
def accumulateNewPow (g power N : Nat) : Nat := expMod g power N

/-- accumulator/accumulator.go:231-236 `accumulate`. The Go function overwrites `g`; the model returns the new value. -/
def accumulate (g N : Nat) (set : List Nat) : Nat := set.foldl (fun g v => expMod g v N) g

/-- accumulator/accumulator.go:252-255 `accumulateNew` (works on a copy of `g`). -/
def accumulateNew (g N : Nat) (set : List Nat) : Nat := accumulate g N set

/-- accumulator/accumulator.go:186-222 `handleSmallSet`. -/
def handleSmallSet (base N : Nat) (set : List Nat) : Res (List Nat) :=
  match set with
  | [x0, x1, x2, x3] =>
    let x0x1Prod := x0 * x1
    let x2x3Prod := x2 * x3
    let x0Prod := x2x3Prod * x1
    let x1Prod := x2x3Prod * x0
    let x2Prod := x0x1Prod * x3
    let x3Prod := x0x1Prod * x2
    let f := fourfoldExp base N x0Prod x1Prod x2Prod x3Prod
    .ok [f.1, f.2.1, f.2.2.1, f.2.2.2]
  | [x0, x1, x2] =>
    let x0Prod := x1 * x2
    let x1Prod := x0 * x2
    let x2Prod := x0 * x1
    let d := doubleExp base x0Prod x1Prod N
    .ok [d.1, d.2, accumulateNewPow base x2Prod N]
  | [x0, x1] =>
    let d := doubleExp base x1 x0 N
    .ok [d.1, d.2]
  | [_] => .ok [base]
  | _ => goPanic "Error in handleSmallSet, set size"

/-- The four exponents of accumulator/accumulator.go:106-117 (also :80-89 with `r = randomizer`, and
accumulator/concurrent.go:59-72, 113-126, 187-200, 244-257). `r` multiplies `leftProd` and `rightProd`. -/
def fourExponents (r : Nat) (set : List Nat) : Nat × Nat × Nat × Nat :=
  let n := set.length
  let leftProd := setProductRecursiveFast (slice set (n / 2) n) * r
  let rightProd := setProductRecursiveFast (slice set 0 (n / 2)) * r
  let leftleftProd := setProductRecursiveFast (slice set (n / 4) (n / 2))
  let leftrightProd := setProductRecursiveFast (slice set 0 (n / 4))
  let rightleftProd := setProductRecursiveFast (slice set (n * 3 / 4) n)
  let rightrightProd := setProductRecursiveFast (slice set (n / 2) (n * 3 / 4))
  (leftProd * leftleftProd, leftProd * leftrightProd, rightProd * rightleftProd, rightProd * rightrightProd)

/-- accumulator/accumulator.go:100-125 `ProveMembership`. -/
def proveMembership (base N : Nat) (set : List Nat) : Res (List Nat) :=
  if _h : set.length ≤ 4 then handleSmallSet base N set
  else do
    let n := set.length
    let e := fourExponents 1 set
    let bases := fourfoldExp base N e.1 e.2.1 e.2.2.1 e.2.2.2
    let p0 ← proveMembership bases.1 N (slice set 0 (n / 4))
    let p1 ← proveMembership bases.2.1 N (slice set (n / 4) (n / 2))
    let p2 ← proveMembership bases.2.2.1 N (slice set (n / 2) (n * 3 / 4))
    let p3 ← proveMembership bases.2.2.2 N (slice set (n * 3 / 4) n)
    .ok (((p0 ++ p1) ++ p2) ++ p3)
termination_by set.length
decreasing_by all_goals simp only [slice, List.length_take, List.length_drop]; omega

/-- accumulator/accumulator.go:73-97 `ProveMembershipSingleThreadWithRandomizer` (the table is for `base` and `N`). -/
def proveMembershipSingleThreadWithRandomizer (base randomizer N : Nat) (set : List Nat) : Res (List Nat) := do
  let n := set.length
  let e := fourExponents randomizer set
  let bases := fourfoldExp base N e.1 e.2.1 e.2.2.1 e.2.2.2
  let p0 ← proveMembership bases.1 N (slice set 0 (n / 4))
  let p1 ← proveMembership bases.2.1 N (slice set (n / 4) (n / 2))
  let p2 ← proveMembership bases.2.2.1 N (slice set (n / 2) (n * 3 / 4))
  let p3 ← proveMembership bases.2.2.2 N (slice set (n * 3 / 4) n)
  .ok (((p0 ++ p1) ++ p2) ++ p3)

/-! ## Iterative version -/

/-- accumulator/accumulator.go:128-133 `proofNode`; the `next` pointers are the order of the list. -/
structure ProofNode where
  left : Nat
  right : Nat
  proof : Nat
deriving DecidableEq, Repr

/-- accumulator/accumulator.go:169-184 `insertNewProofNode`: the node is cut in two; returns the updated node and the
new node behind it. The new node's proof is computed from the old value of `iter.proof`, before the in-place update. -/
def insertNewProofNode (iter : ProofNode) (N : Nat) (set : List Nat) : ProofNode × ProofNode :=
  let left := iter.left
  let right := iter.right
  let mid := left + (right - left) / 2
  let newProofNode : ProofNode :=
    { left := mid, right := right, proof := accumulateNew iter.proof N (slice set left mid) }
  let iter' : ProofNode := { left := left, right := mid, proof := accumulate iter.proof N (slice set mid right) }
  (iter', newProofNode)

/-- accumulator/accumulator.go:152-159: one pass over the linked list; the flag is `finishFlag`. -/
def iterPass (N : Nat) (set : List Nat) : List ProofNode → List ProofNode × Bool
  | [] => ([], false)
  | iter :: rest =>
    if iter.right - iter.left ≤ 1 then
      let r := iterPass N set rest
      (iter :: r.1, r.2)
    else
      let p := insertNewProofNode iter N set
      let r := iterPass N set rest
      (p.1 :: p.2 :: r.1, true)

/-- accumulator/accumulator.go:149-160: the loop `for finishFlag`; `none` if the given number of passes was not enough
to leave the loop. -/
def iterLoop (N : Nat) (set : List Nat) : Nat → List ProofNode → Option (List ProofNode)
  | 0, _ => none
  | fuel + 1, nodes =>
    let r := iterPass N set nodes
    if r.2 then iterLoop N set fuel r.1 else some r.1

/-- accumulator/accumulator.go:136-167 `ProveMembershipIter`, with a bound on the number of passes. Go returns a nil
slice for an empty set, which is the empty list here. -/
def proveMembershipIterFuel (fuel : Nat) (base N : Nat) (set : List Nat) : Option (List Nat) :=
  if set.length ≤ 0 then some []
  else
    (iterLoop N set fuel [{ left := 0, right := set.length, proof := base }]).map
      (fun nodes => nodes.map (fun n => n.proof))

/-! ## Fork-join versions -/

/-- Concatenation of the received slices: accumulator/concurrent.go:94-97, 148-151, 222-225, 310. -/
def appendAll (ps : List (List Nat)) : Res (List Nat) := .ok (ps.foldl (fun a b => a ++ b) [])

/-- accumulator/concurrent.go:287-313 `proveMembershipWithChan`. -/
def proveMembershipWithChan (base N : Nat) (set : List Nat) (limit : Int) : Prog (List Nat) :=
  if limit ≤ 0 then .ret (proveMembership base N set)
  else if _h : set.length ≤ 4 then .ret (handleSmallSet base N set)
  else
    let n := set.length
    let leftProd := setProductRecursiveFast (slice set (n / 2) n)
    let rightProd := setProductRecursiveFast (slice set 0 (n / 2))
    let bases := doubleExp base leftProd rightProd N
    .fork 2
      (fun i => if i = 0
        then proveMembershipWithChan bases.1 N (slice set 0 (n / 2)) (limit - 1)
        else proveMembershipWithChan bases.2 N (slice set (n / 2) n) (limit - 1))
      appendAll
termination_by set.length
decreasing_by all_goals simp only [slice, List.length_take, List.length_drop]; omega

/-- The four goroutines started in accumulator/concurrent.go:73-97 (also :127-151, :201-225, :258-282). -/
def fourWorkers (base N : Nat) (set : List Nat) (limit : Int) : Prog (List Nat) :=
  let n := set.length
  let e := fourExponents 1 set
  let bases := fourfoldExp base N e.1 e.2.1 e.2.2.1 e.2.2.2
  .fork 4
    (fun i => match i with
      | 0 => proveMembershipWithChan bases.1 N (slice set 0 (n / 4)) limit
      | 1 => proveMembershipWithChan bases.2.1 N (slice set (n / 4) (n / 2)) limit
      | 2 => proveMembershipWithChan bases.2.2.1 N (slice set (n / 2) (n * 3 / 4)) limit
      | 3 => proveMembershipWithChan bases.2.2.2 N (slice set (n * 3 / 4) n) limit)
    appendAll

/-- accumulator/concurrent.go:48-98 `ProveMembershipParallel`. -/
def proveMembershipParallel (base N : Nat) (set : List Nat) (limit : Int) : Prog (List Nat) :=
  if limit ≤ 0 then .ret (proveMembership base N set)
  else if set.length ≤ 4 then .ret (handleSmallSet base N set)
  else fourWorkers base N set (limit - 2)

/-- accumulator/concurrent.go:102-171 `ProveMembershipParallelWithTable` (the table is for `base` and `N`). -/
def proveMembershipParallelWithTable (base N : Nat) (set : List Nat) (limit : Int) : Prog (List Nat) :=
  if limit ≤ 0 then .ret (proveMembership base N set)
  else if set.length ≤ 4 then .ret (handleSmallSet base N set)
  else fourWorkers base N set (limit - 2)

/-- accumulator/concurrent.go:176-226 `ProveMembershipParallelWithTableWithRandomizer`; there is no small-set case
(commented out in the code). -/
def proveMembershipParallelWithTableWithRandomizer (base randomizer N : Nat) (set : List Nat) (limit : Int) :
    Prog (List Nat) :=
  if limit ≤ 0 then .ret (proveMembershipSingleThreadWithRandomizer base randomizer N set)
  else fourWorkers base N set (limit - 2)

/-- accumulator/concurrent.go:231-284 `ProveMembershipParallelWithTableWithRandomizerWithChan`: as above, the value is
sent on the channel argument. -/
def proveMembershipParallelWithTableWithRandomizerWithChan (base randomizer N : Nat) (set : List Nat) (limit : Int) :
    Prog (List Nat) :=
  if limit ≤ 0 then .ret (proveMembershipSingleThreadWithRandomizer base randomizer N set)
  else fourWorkers base N set (limit - 2)

/-- accumulator/concurrent.go:372-375, the loop of `calNumWorkers`; `fuel` bounds the iterations. -/
def calNumWorkersLoop (numCPUs : Nat) : Nat → Nat × Nat → Option (Nat × Nat)
  | 0, _ => none
  | fuel + 1, (numWorkers, pow) =>
    if numWorkers ≤ numCPUs then calNumWorkersLoop numCPUs fuel (numWorkers * 2, pow + 1)
    else some (numWorkers, pow)

/-- accumulator/concurrent.go:368-378 `calNumWorkers` for a machine with `numCPUs` CPUs: number of workers and its
logarithm (Go: `numWorkersPowerOfTwo - 1`, -1 only for `numCPUs = 0`, which does not exist). -/
def calNumWorkers (fuel numCPUs : Nat) : Option (Nat × Int) :=
  (calNumWorkersLoop numCPUs fuel (1, 0)).map (fun r => (r.1 / 2, (r.2 : Int) - 1))

end Verif.Model
