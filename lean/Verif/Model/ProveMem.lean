import Verif.Go.SharedMem
import Verif.Model.Accumulator

/-!
# The recursive provers and the product functions on shared memory

accumulator/accumulator.go, accumulator/concurrent.go and accumulator/common.go once more, now with the integers in memory: the sets
are lists of pointers, and every operation says which integers it reads and which one it writes. The functions are written with
a continuation `k`, which is what the caller does with the result.

External, assumed: `bigfft.Mul` and the functions of `multiexp` read their arguments and return new integers (`multiexp` may use
goroutines and a table, which only it uses). Slices are values here: each function makes its own slices of pointers.
-/

namespace Verif.Model
open Verif.Go Verif.Go.Mem

/-- `bigfft.Mul(x, y)`, and `ret.Mul(x, y)` for a new `ret`. -/
def mulM (x y : Nat) (k : Nat → MProg) : MProg := .alloc [x, y] (fun vs => vs.getD 0 0 * vs.getD 1 0) k

/-- `new(big.Int).Set(x)`, or `ret.Set(x)` for a `ret` that was not used before. -/
def copyM (x : Nat) (k : Nat → MProg) : MProg := .alloc [x] (fun vs => vs.getD 0 0) k

/-- `ret.Set(x)`. -/
def assignM (ret x : Nat) (k : MProg) : MProg := .store ret [x] (fun vs => vs.getD 0 0) k

/-- One result of `multiexp.DoubleExp` or `multiexp.FourfoldExp` (external). -/
def powerM (base N e : Nat) (k : Nat → MProg) : MProg :=
  .alloc [base, N, e] (fun vs => expMod (vs.getD 0 0) (vs.getD 2 0) (vs.getD 1 0)) k

/-- `multiexp.DoubleExp(base, {e0, e1}, N)` (external). -/
def doubleExpM (base e0 e1 N : Nat) (k : Nat → Nat → MProg) : MProg :=
  powerM base N e0 fun b0 => powerM base N e1 fun b1 => k b0 b1

/-- `multiexp.FourfoldExp(base, N, {e0, e1, e2, e3})` and its precomputed versions (external). -/
def fourfoldExpM (base N e0 e1 e2 e3 : Nat) (k : Nat → Nat → Nat → Nat → MProg) : MProg :=
  powerM base N e0 fun b0 => powerM base N e1 fun b1 => powerM base N e2 fun b2 => powerM base N e3 fun b3 => k b0 b1 b2 b3

/-- accumulator/accumulator.go:225-229 `AccumulateNew`: a copy of `g`, which `Exp` then overwrites. -/
def accumulateNewPowM (g power N : Nat) (k : Nat → MProg) : MProg :=
  copyM g fun ret => .store ret [g, N, power] (fun vs => expMod (vs.getD 0 0) (vs.getD 2 0) (vs.getD 1 0)) (k ret)

/-- accumulator/accumulator.go:231-236 `accumulate`: overwrites `g` in every round. -/
def accumulateM (g N : Nat) : List Nat → MProg → MProg
  | [], k => k
  | v :: set, k => .store g [g, N, v] (fun vs => expMod (vs.getD 0 0) (vs.getD 2 0) (vs.getD 1 0)) (accumulateM g N set k)

/-- accumulator/accumulator.go:252-255 `accumulateNew`. -/
def accumulateNewM (g N : Nat) (set : List Nat) (k : Nat → MProg) : MProg :=
  copyM g fun acc => accumulateM acc N set (k acc)

/-- accumulator/common.go:156-158: the loop of `SetProductRecursiveFast`; `ret` is overwritten in every round. -/
def productLoopM (ret : Nat) : List Nat → MProg → MProg
  | [], k => k
  | x :: xs, k => mulM ret x fun p => assignM ret p (productLoopM ret xs k)

/-- accumulator/common.go:151-166 `SetProductRecursiveFast`. -/
def setProductRecursiveFastM (inputSet : List Nat) (k : Nat → MProg) : MProg :=
  if _h : inputSet.length ≤ 2 then .alloc [] (fun _ => 1) fun ret => productLoopM ret inputSet (k ret)
  else
    setProductRecursiveFastM (slice inputSet 0 (inputSet.length / 2)) fun prod1 =>
    setProductRecursiveFastM (slice inputSet (inputSet.length / 2) inputSet.length) fun prod2 =>
    mulM prod1 prod2 fun p => copyM p k
termination_by inputSet.length
decreasing_by all_goals simp only [slice, List.length_take, List.length_drop]; omega

/-- The product of two received products: accumulator/common.go:186-190, 214-218. -/
def mulReceivedM (outs : Fin 2 → List Nat) : MProg :=
  match outs 0, outs 1 with
  | [prod1], [prod2] => mulM prod1 prod2 fun ret => .ret [ret]
  | _, _ => .panic

/-- accumulator/common.go:170-191 `SetProductParallel` and 194-220 `setProductParallelWithChan`. -/
def setProductParallelM (inputSet : List Nat) (limit : Int) : MProg :=
  if limit = 0 then setProductRecursiveFastM inputSet fun ret => .ret [ret]
  else if _h : inputSet.length ≤ 2 then setProductRecursiveFastM inputSet fun ret => .ret [ret]
  else
    .fork 2
      (fun i => if i = 0 then setProductParallelM (slice inputSet 0 (inputSet.length / 2)) (limit - 1)
        else setProductParallelM (slice inputSet (inputSet.length / 2) inputSet.length) (limit - 1))
      mulReceivedM
termination_by inputSet.length
decreasing_by all_goals simp only [slice, List.length_take, List.length_drop]; omega

/-- accumulator/accumulator.go:186-222 `handleSmallSet`. -/
def handleSmallSetM (base N : Nat) (set : List Nat) (k : List Nat → MProg) : MProg :=
  match set with
  | [x0, x1, x2, x3] =>
    mulM x0 x1 fun x0x1Prod => mulM x2 x3 fun x2x3Prod =>
    mulM x2x3Prod x1 fun x0Prod => mulM x2x3Prod x0 fun x1Prod =>
    mulM x0x1Prod x3 fun x2Prod => mulM x0x1Prod x2 fun x3Prod =>
    fourfoldExpM base N x0Prod x1Prod x2Prod x3Prod fun f0 f1 f2 f3 => k [f0, f1, f2, f3]
  | [x0, x1, x2] =>
    mulM x1 x2 fun x0Prod => mulM x0 x2 fun x1Prod => mulM x0 x1 fun x2Prod =>
    doubleExpM base x0Prod x1Prod N fun d0 d1 => accumulateNewPowM base x2Prod N fun d2 => k [d0, d1, d2]
  | [x0, x1] => doubleExpM base x1 x0 N fun d0 d1 => k [d0, d1]
  | [_] => copyM base fun ret => k [ret]
  | _ => .panic

/-- accumulator/accumulator.go:77-78: the product is multiplied by the randomizer, if there is one. -/
def scaleM (r : Option Nat) (prod : Nat) (k : Nat → MProg) : MProg :=
  match r with
  | none => k prod
  | some r => mulM prod r k

/-- The four exponents of accumulator/accumulator.go:106-117 (`r = none`), also :75-89 with the randomizer, and
accumulator/concurrent.go:59-72, 113-126, 187-200, 244-257. -/
def fourExponentsM (r : Option Nat) (set : List Nat) (k : Nat → Nat → Nat → Nat → MProg) : MProg :=
  let n := set.length
  setProductRecursiveFastM (slice set (n / 2) n) fun leftProd =>
  setProductRecursiveFastM (slice set 0 (n / 2)) fun rightProd =>
  scaleM r leftProd fun leftProd => scaleM r rightProd fun rightProd =>
  setProductRecursiveFastM (slice set (n / 4) (n / 2)) fun leftleftProd =>
  setProductRecursiveFastM (slice set 0 (n / 4)) fun leftrightProd =>
  setProductRecursiveFastM (slice set (n * 3 / 4) n) fun rightleftProd =>
  setProductRecursiveFastM (slice set (n / 2) (n * 3 / 4)) fun rightrightProd =>
  mulM leftProd leftleftProd fun e0 => mulM leftProd leftrightProd fun e1 =>
  mulM rightProd rightleftProd fun e2 => mulM rightProd rightrightProd fun e3 => k e0 e1 e2 e3

/-- accumulator/accumulator.go:100-125 `ProveMembership`. -/
def proveMembershipM (base N : Nat) (set : List Nat) (k : List Nat → MProg) : MProg :=
  if _h : set.length ≤ 4 then handleSmallSetM base N set k
  else
    let n := set.length
    fourExponentsM none set fun e0 e1 e2 e3 =>
    fourfoldExpM base N e0 e1 e2 e3 fun b0 b1 b2 b3 =>
    proveMembershipM b0 N (slice set 0 (n / 4)) fun p0 =>
    proveMembershipM b1 N (slice set (n / 4) (n / 2)) fun p1 =>
    proveMembershipM b2 N (slice set (n / 2) (n * 3 / 4)) fun p2 =>
    proveMembershipM b3 N (slice set (n * 3 / 4) n) fun p3 => k (((p0 ++ p1) ++ p2) ++ p3)
termination_by set.length
decreasing_by all_goals simp only [slice, List.length_take, List.length_drop]; omega

/-- accumulator/accumulator.go:73-97 `ProveMembershipSingleThreadWithRandomizer`. -/
def proveMembershipSingleThreadWithRandomizerM (base randomizer N : Nat) (set : List Nat) (k : List Nat → MProg) : MProg :=
  let n := set.length
  fourExponentsM (some randomizer) set fun e0 e1 e2 e3 =>
  fourfoldExpM base N e0 e1 e2 e3 fun b0 b1 b2 b3 =>
  proveMembershipM b0 N (slice set 0 (n / 4)) fun p0 =>
  proveMembershipM b1 N (slice set (n / 4) (n / 2)) fun p1 =>
  proveMembershipM b2 N (slice set (n / 2) (n * 3 / 4)) fun p2 =>
  proveMembershipM b3 N (slice set (n * 3 / 4) n) fun p3 => k (((p0 ++ p1) ++ p2) ++ p3)

/-- accumulator/concurrent.go:287-313 `proveMembershipWithChan`; the two goroutines get the same set and `N`. -/
def proveMembershipWithChanM (base N : Nat) (set : List Nat) (limit : Int) : MProg :=
  if limit ≤ 0 then proveMembershipM base N set .ret
  else if _h : set.length ≤ 4 then handleSmallSetM base N set .ret
  else
    let n := set.length
    setProductRecursiveFastM (slice set (n / 2) n) fun leftProd =>
    setProductRecursiveFastM (slice set 0 (n / 2)) fun rightProd =>
    doubleExpM base leftProd rightProd N fun b0 b1 =>
    .fork 2
      (fun i => if i = 0 then proveMembershipWithChanM b0 N (slice set 0 (n / 2)) (limit - 1)
        else proveMembershipWithChanM b1 N (slice set (n / 2) n) (limit - 1))
      (fun outs => .ret (outs 0 ++ outs 1))
termination_by set.length
decreasing_by all_goals simp only [slice, List.length_take, List.length_drop]; omega

/-- The four goroutines of accumulator/concurrent.go:59-97 (also :113-151, :187-225, :244-282). -/
def fourWorkersM (base N : Nat) (set : List Nat) (limit : Int) (k : List Nat → MProg) : MProg :=
  let n := set.length
  fourExponentsM none set fun e0 e1 e2 e3 =>
  fourfoldExpM base N e0 e1 e2 e3 fun b0 b1 b2 b3 =>
  .fork 4
    (fun i => match i with
      | 0 => proveMembershipWithChanM b0 N (slice set 0 (n / 4)) limit
      | 1 => proveMembershipWithChanM b1 N (slice set (n / 4) (n / 2)) limit
      | 2 => proveMembershipWithChanM b2 N (slice set (n / 2) (n * 3 / 4)) limit
      | 3 => proveMembershipWithChanM b3 N (slice set (n * 3 / 4) n) limit)
    (fun outs => k (((outs 0 ++ outs 1) ++ outs 2) ++ outs 3))

/-- accumulator/concurrent.go:48-98 `ProveMembershipParallel`, and 102-171 `ProveMembershipParallelWithTable` for a table that
belongs to `base` and `N`. -/
def proveMembershipParallelM (base N : Nat) (set : List Nat) (limit : Int) (k : List Nat → MProg) : MProg :=
  if limit ≤ 0 then proveMembershipM base N set k
  else if set.length ≤ 4 then handleSmallSetM base N set k
  else fourWorkersM base N set (limit - 2) k

/-- accumulator/concurrent.go:176-226 `ProveMembershipParallelWithTableWithRandomizer` and 231-284 `…WithChan`. -/
def proveMembershipParallelWithTableWithRandomizerM (base randomizer N : Nat) (set : List Nat) (limit : Int)
    (k : List Nat → MProg) : MProg :=
  if limit ≤ 0 then proveMembershipSingleThreadWithRandomizerM base randomizer N set k
  else fourWorkersM base N set (limit - 2) k

/-- accumulator/accumulator.go:56, accumulator/concurrent.go:25, accumulator/zkacc.go:33: the accumulator is made from the
first witness. It is the first address of the result here. -/
def accFromProofsM (N : Nat) (rep proofs : List Nat) : MProg :=
  match proofs, rep with
  | p0 :: _, x0 :: _ => accumulateNewPowM p0 x0 N fun acc => .ret (acc :: proofs)
  | _, _ => .panic

/-- accumulator/accumulator.go:46-59 `AccAndProve` (`limit = 0`) and accumulator/concurrent.go:15-28 `AccAndProveParallel` (`limit`
is the number of workers), after `GenRepresentatives`, which has returned `rep`. -/
def accAndProveM (G N : Nat) (rep : List Nat) (limit : Int) : MProg :=
  proveMembershipParallelM G N rep limit fun proofs => accFromProofsM N rep proofs

/-- accumulator/zkacc.go:20-36 `ZKAccumulate` after `GenRepresentatives` and `GenRandomizer`, which have returned `rep` and `r`. -/
def zkAccumulateM (G N r : Nat) (rep : List Nat) : MProg :=
  accumulateNewPowM G r N fun base => proveMembershipM base N rep fun proofs => accFromProofsM N rep proofs

end Verif.Model
