import Verif.Model.Accumulator

/-!
# Exponents of the membership provers

The functions of accumulator/accumulator.go:100-255 and accumulator/concurrent.go:48-98, 287-313 once more, with the list of all exponents that are passed to `big.Int.Exp`,
`DoubleExp` and `FourfoldExp`. The results are those of `Verif.Model.Accumulator` (proved in `Verif.Props.Work`).
-/

namespace Verif.Model
open Verif.Go

/-- accumulator/accumulator.go:231-236 `accumulate`: the value and the exponents. -/
def accumulateL (g N : Nat) (set : List Nat) : Nat × List Nat :=
  set.foldl (fun s v => (expMod s.1 v N, s.2 ++ [v])) (g, [])

/-- accumulator/accumulator.go:252-255 `accumulateNew`. -/
def accumulateNewL (g N : Nat) (set : List Nat) : Nat × List Nat := accumulateL g N set

/-- accumulator/accumulator.go:186-222 `handleSmallSet`: the witnesses and the exponents. -/
def handleSmallSetL (base N : Nat) (set : List Nat) : Res (List Nat × List Nat) :=
  match set with
  | [x0, x1, x2, x3] =>
    let x0x1Prod := x0 * x1
    let x2x3Prod := x2 * x3
    let x0Prod := x2x3Prod * x1
    let x1Prod := x2x3Prod * x0
    let x2Prod := x0x1Prod * x3
    let x3Prod := x0x1Prod * x2
    let f := fourfoldExp base N x0Prod x1Prod x2Prod x3Prod
    .ok ([f.1, f.2.1, f.2.2.1, f.2.2.2], [x0Prod, x1Prod, x2Prod, x3Prod])
  | [x0, x1, x2] =>
    let x0Prod := x1 * x2
    let x1Prod := x0 * x2
    let x2Prod := x0 * x1
    let d := doubleExp base x0Prod x1Prod N
    .ok ([d.1, d.2, accumulateNewPow base x2Prod N], [x0Prod, x1Prod, x2Prod])
  | [x0, x1] =>
    let d := doubleExp base x1 x0 N
    .ok ([d.1, d.2], [x1, x0])
  | [_] => .ok ([base], [])
  | _ => goPanic "Error in handleSmallSet, set size"

/-- accumulator/accumulator.go:100-125 `ProveMembership`: the witnesses and the exponents. -/
def proveMembershipL (base N : Nat) (set : List Nat) : Res (List Nat × List Nat) :=
  if _h : set.length ≤ 4 then handleSmallSetL base N set
  else do
    let n := set.length
    let e := fourExponents 1 set
    let bases := fourfoldExp base N e.1 e.2.1 e.2.2.1 e.2.2.2
    let p0 ← proveMembershipL bases.1 N (slice set 0 (n / 4))
    let p1 ← proveMembershipL bases.2.1 N (slice set (n / 4) (n / 2))
    let p2 ← proveMembershipL bases.2.2.1 N (slice set (n / 2) (n * 3 / 4))
    let p3 ← proveMembershipL bases.2.2.2 N (slice set (n * 3 / 4) n)
    .ok (((p0.1 ++ p1.1) ++ p2.1) ++ p3.1, [e.1, e.2.1, e.2.2.1, e.2.2.2] ++ p0.2 ++ p1.2 ++ p2.2 ++ p3.2)
termination_by set.length
decreasing_by all_goals simp only [slice, List.length_take, List.length_drop]; omega

/-- accumulator/accumulator.go:169-184 `insertNewProofNode`. -/
def insertNewProofNodeL (iter : ProofNode) (N : Nat) (set : List Nat) : ProofNode × ProofNode × List Nat :=
  let left := iter.left
  let right := iter.right
  let mid := left + (right - left) / 2
  let new := accumulateNewL iter.proof N (slice set left mid)
  let old := accumulateL iter.proof N (slice set mid right)
  ({ left := left, right := mid, proof := old.1 }, { left := mid, right := right, proof := new.1 }, new.2 ++ old.2)

/-- accumulator/accumulator.go:152-159: one pass over the linked list. -/
def iterPassL (N : Nat) (set : List Nat) : List ProofNode → List ProofNode × Bool × List Nat
  | [] => ([], false, [])
  | iter :: rest =>
    if iter.right - iter.left ≤ 1 then
      let r := iterPassL N set rest
      (iter :: r.1, r.2.1, r.2.2)
    else
      let p := insertNewProofNodeL iter N set
      let r := iterPassL N set rest
      (p.1 :: p.2.1 :: r.1, true, p.2.2 ++ r.2.2)

/-- accumulator/accumulator.go:149-160: the loop `for finishFlag`. -/
def iterLoopL (N : Nat) (set : List Nat) : Nat → List ProofNode → Option (List ProofNode × List Nat)
  | 0, _ => none
  | fuel + 1, nodes =>
    let r := iterPassL N set nodes
    if r.2.1 then (iterLoopL N set fuel r.1).map (fun s => (s.1, r.2.2 ++ s.2)) else some (r.1, r.2.2)

/-- accumulator/accumulator.go:136-167 `ProveMembershipIter`: the witnesses and the exponents. -/
def proveMembershipIterL (fuel : Nat) (base N : Nat) (set : List Nat) : Option (List Nat × List Nat) :=
  if set.length ≤ 0 then some ([], [])
  else
    (iterLoopL N set fuel [{ left := 0, right := set.length, proof := base }]).map
      (fun r => (r.1.map (fun n => n.proof), r.2))

/-- Concatenation of the received slices (accumulator/concurrent.go:94-97, 310) and of the exponents, after the own ones. -/
def appendAllL (own : List Nat) (ps : List (List Nat × List Nat)) : Res (List Nat × List Nat) :=
  .ok (ps.foldl (fun a b => a ++ b.1) [], ps.foldl (fun a b => a ++ b.2) own)

/-- accumulator/concurrent.go:287-313 `proveMembershipWithChan`: the witnesses and the exponents. -/
def proveMembershipWithChanL (base N : Nat) (set : List Nat) (limit : Int) : Prog (List Nat × List Nat) :=
  if limit ≤ 0 then .ret (proveMembershipL base N set)
  else if _h : set.length ≤ 4 then .ret (handleSmallSetL base N set)
  else
    let n := set.length
    let leftProd := setProductRecursiveFast (slice set (n / 2) n)
    let rightProd := setProductRecursiveFast (slice set 0 (n / 2))
    let bases := doubleExp base leftProd rightProd N
    .fork 2
      (fun i => if i = 0
        then proveMembershipWithChanL bases.1 N (slice set 0 (n / 2)) (limit - 1)
        else proveMembershipWithChanL bases.2 N (slice set (n / 2) n) (limit - 1))
      (appendAllL [leftProd, rightProd])
termination_by set.length
decreasing_by all_goals simp only [slice, List.length_take, List.length_drop]; omega

/-- accumulator/concurrent.go:48-98 `ProveMembershipParallel`: the witnesses and the exponents. -/
def proveMembershipParallelL (base N : Nat) (set : List Nat) (limit : Int) : Prog (List Nat × List Nat) :=
  if limit ≤ 0 then .ret (proveMembershipL base N set)
  else if set.length ≤ 4 then .ret (handleSmallSetL base N set)
  else
    let n := set.length
    let e := fourExponents 1 set
    let bases := fourfoldExp base N e.1 e.2.1 e.2.2.1 e.2.2.2
    .fork 4
      (fun i => match i with
        | 0 => proveMembershipWithChanL bases.1 N (slice set 0 (n / 4)) (limit - 2)
        | 1 => proveMembershipWithChanL bases.2.1 N (slice set (n / 4) (n / 2)) (limit - 2)
        | 2 => proveMembershipWithChanL bases.2.2.1 N (slice set (n / 2) (n * 3 / 4)) (limit - 2)
        | 3 => proveMembershipWithChanL bases.2.2.2 N (slice set (n * 3 / 4) n) (limit - 2))
      (appendAllL [e.1, e.2.1, e.2.2.1, e.2.2.2])

end Verif.Model
