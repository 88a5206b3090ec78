import Verif.Model.ThreeSquares

/-!
# proof/three_square.go with the target of the provers

`commitForX` of both provers gives `ThreeSquares` a pooled integer (proof/range_proof.go:212-213, 220, proof/zkaop.go:174-175,
178) and the workers read it through the pointer (proof/three_square.go:57). Here the target is a cell: `commitForX` puts it back
when it returns, and from then on other goroutines may write to it. A worker that has passed the outer `select` reads the target in
a step of its own; in `Verif.Model.ThreeSq` both are one step. The other pooled integers of the workers are their own
(`Verif.Model.Pool`).
-/

namespace Verif.Model
open Verif.Go

namespace SharedTarget

/-- A goroutine running `routineFindTS` (proof/three_square.go:38-77). -/
inductive Worker where
  /-- not started -/
  | idle
  /-- at the outer `select` (line 48) with counter `cnt` -/
  | top (cnt : Nat)
  /-- in the default branch (line 52), the target not yet read -/
  | reading (cnt : Nat)
  /-- in the loop of lines 65-68 -/
  | search (x : Int) (p : Nat)
  /-- at the inner `select` (line 69) -/
  | send (t : Int3)
  | exited
deriving Repr

structure St where
  main : ThreeSq.Main
  workers : Nat → Worker
  /-- the integer `n` points to -/
  target : Int
  /-- the deferred `iPool.Put(target)` of `commitForX` has run -/
  pooled : Bool

def setWorker (s : St) (i : Nat) (w : Worker) : St := { s with workers := Function.update s.workers i w }

/-- proof/three_square.go:57 with the value `v` of the target; `rt` is computed before the goroutines start (lines 27-28). -/
def candP (n : Nat) (v : Int) (cnt : Nat) : Int := v - (2 * ThreeSq.halfX n cnt) * (2 * ThreeSq.halfX n cnt)

/-- Steps of `commitForX` from the call of `ThreeSquares(n)` on, with `K` goroutines; `put` tells whether the target is put back
into the pool (the code does). -/
inductive Step (E : TSEnv) (put : Bool) (K n : Nat) : St → St → Prop
  /-- proof/three_square.go:33 -/
  | spawn (s : St) (k : Nat) (hm : s.main = .spawn k) (hk : k < K) :
      Step E put K n s { s with main := .spawn (k + 1), workers := Function.update s.workers k (.top k) }
  | spawned (s : St) (hm : s.main = .spawn K) : Step E put K n s { s with main := .recv }
  /-- deferred `cancel` -/
  | ret (s : St) (t : Int3) (hm : s.main = .got t) : Step E put K n s { s with main := .ret t }
  /-- proof/range_proof.go:213, proof/zkaop.go:175: deferred `iPool.Put(target)` -/
  | put (s : St) (t : Int3) (hm : s.main = .ret t) (hb : put = true) : Step E put K n s { s with pooled := true }
  /-- another goroutine has got the integer from the pool and writes `v` to it -/
  | write (s : St) (v : Int) (hp : s.pooled = true) : Step E put K n s { s with target := v }
  /-- lines 49-50 -/
  | ctxDone (s : St) (i cnt : Nat) (hw : s.workers i = .top cnt) (hc : s.main.cancelled) :
      Step E put K n s (setWorker s i .exited)
  /-- line 51 -/
  | default (s : St) (i cnt : Nat) (hw : s.workers i = .top cnt) (hc : ¬ s.main.cancelled) :
      Step E put K n s (setWorker s i (.reading cnt))
  /-- lines 53-55 -/
  | negX (s : St) (i cnt : Nat) (hw : s.workers i = .reading cnt) (hx : ThreeSq.halfX n cnt < 0) :
      Step E put K n s (setWorker s i .exited)
  /-- lines 57-60 -/
  | smallP (s : St) (i cnt : Nat) (hw : s.workers i = .reading cnt) (hx : ¬ ThreeSq.halfX n cnt < 0)
      (hp : candP n s.target cnt < 2) : Step E put K n s (setWorker s i .exited)
  /-- lines 57, 61-64 -/
  | filtered (s : St) (i cnt : Nat) (hw : s.workers i = .reading cnt) (hx : ¬ ThreeSq.halfX n cnt < 0)
      (hp : ¬ candP n s.target cnt < 2) (hf : ThreeSq.Filtered E (candP n s.target cnt).toNat) :
      Step E put K n s (setWorker s i (.top (cnt + K)))
  /-- lines 57, 65 -/
  | search (s : St) (i cnt : Nat) (hw : s.workers i = .reading cnt) (hx : ¬ ThreeSq.halfX n cnt < 0)
      (hp : ¬ candP n s.target cnt < 2) (hf : ¬ ThreeSq.Filtered E (candP n s.target cnt).toNat) :
      Step E put K n s (setWorker s i (.search (2 * ThreeSq.halfX n cnt) (candP n s.target cnt).toNat))
  /-- lines 65-68: a round that gives no usable result -/
  | again (s : St) (i : Nat) (x : Int) (p : Nat) (coins : List Nat) (hw : s.workers i = .search x p)
      (hcoins : CoinsOK p coins) (hv : isValidGaussianIntGCD (findTwoSquares E p coins) = false) : Step E put K n s s
  /-- lines 65-68: a usable result -/
  | found (s : St) (i : Nat) (x : Int) (p : Nat) (coins : List Nat) (g : GaussianInt) (hw : s.workers i = .search x p)
      (hcoins : CoinsOK p coins) (hg : findTwoSquares E p coins = some g) (hv : isValidGaussianIntGCD (some g) = true) :
      Step E put K n s (setWorker s i (.send (newInt3 x g.re g.im)))
  /-- lines 70-71: the send happens if the caller is waiting -/
  | send (s : St) (i : Nat) (t : Int3) (hw : s.workers i = .send t) (hm : s.main = .recv) :
      Step E put K n s { s with main := .got t, workers := Function.update s.workers i .exited }
  /-- lines 72-73: nobody is waiting, the result is dropped -/
  | drop (s : St) (i : Nat) (t : Int3) (hw : s.workers i = .send t) (hm : s.main ≠ .recv) :
      Step E put K n s (setWorker s i .exited)

def init (n : Nat) : St := { main := .spawn 0, workers := fun _ => .idle, target := n, pooled := false }

/-- `s` can occur in a run. -/
def Reach (E : TSEnv) (put : Bool) (K n : Nat) (s : St) : Prop := Exec (Step E put K n) (init n) s

end SharedTarget

end Verif.Model
