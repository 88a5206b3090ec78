import Verif.Go.Basic
import Verif.Go.Exec
import Mathlib.NumberTheory.Zsqrtd.GaussianInt
import Mathlib.Data.Nat.Size

/-!
# proof/parameters.go (number groups) and proof/three_square.go

The pool of integers is not modelled here (see the pool model); in these functions every pooled integer is put back when
the function returns and nothing pooled is returned.
-/

namespace Verif.Model
open Verif.Go

/-- proof/parameters.go:123 `Int3`. -/
structure Int3 where
  t0 : Int
  t1 : Int
  t2 : Int
deriving DecidableEq, Repr

/-- proof/parameters.go:32 `Int4`. -/
structure Int4 where
  t0 : Int
  t1 : Int
  t2 : Int
  t3 : Int
deriving DecidableEq, Repr

/-- `if a.Cmp(b) == -1 { a, b = b, a }`. -/
def swapIfLess (p : Int × Int) : Int × Int := if p.1 < p.2 then (p.2, p.1) else p

/-- proof/parameters.go:126-141 `NewInt3`. The numbers passed in are replaced by their absolute values in place; callers do
not use them again. -/
def newInt3 (w1 w2 w3 : Int) : Int3 :=
  let w1 : Int := w1.natAbs
  let w2 : Int := w2.natAbs
  let w3 : Int := w3.natAbs
  let (w1, w2) := swapIfLess (w1, w2)
  let (w1, w3) := swapIfLess (w1, w3)
  let (w2, w3) := swapIfLess (w2, w3)
  ⟨w1, w2, w3⟩

/-- proof/parameters.go:35-60 `NewInt4`. -/
def newInt4 (w1 w2 w3 w4 : Int) : Int4 :=
  let w1 : Int := w1.natAbs
  let w2 : Int := w2.natAbs
  let w3 : Int := w3.natAbs
  let w4 : Int := w4.natAbs
  let (w1, w2) := swapIfLess (w1, w2)
  let (w1, w3) := swapIfLess (w1, w3)
  let (w1, w4) := swapIfLess (w1, w4)
  let (w2, w3) := swapIfLess (w2, w3)
  let (w2, w4) := swapIfLess (w2, w4)
  let (w3, w4) := swapIfLess (w3, w4)
  ⟨w1, w2, w3, w4⟩

/-- proof/parameters.go:63-67 `(*Int4).Mul`. -/
def Int4.mul (f : Int4) (n : Int) : Int4 := ⟨f.t0 * n, f.t1 * n, f.t2 * n, f.t3 * n⟩

/-- proof/parameters.go:70-74 `(*Int4).Div`: Euclidean division, panics for zero. -/
def Int4.div (f : Int4) (n : Int) : Res Int4 :=
  if n = 0 then goPanic "division by zero" else .ok ⟨f.t0 / n, f.t1 / n, f.t2 / n, f.t3 / n⟩

/-- proof/three_square.go:149-158 `Verify`. -/
def verifyThreeSquares (target : Int) (ti : Int3) : Bool :=
  let sum := 0
  let sum := sum + ti.t0 * ti.t0
  let sum := sum + ti.t1 * ti.t1
  let sum := sum + ti.t2 * ti.t2
  decide (sum = target)

/-- External code used by three_square.go. `gcd` is `comp.GaussianInt.GCD` (go-bigcomplex); any greatest common divisor is
allowed. `probablyPrime` is `big.Int.ProbablyPrime(0)`; any answers are allowed. -/
structure TSEnv where
  probablyPrime : Nat → Bool
  gcd : GaussianInt → GaussianInt → GaussianInt
  gcd_dvd_left : ∀ a b, gcd a b ∣ a
  gcd_dvd_right : ∀ a b, gcd a b ∣ b
  dvd_gcd : ∀ a b d, d ∣ a → d ∣ b → d ∣ gcd a b

/-- proof/three_square.go:13. -/
def maxUFindingIter : Nat := 10

/-- proof/three_square.go:14. -/
def bitLenThreshold : Nat := 13

/-- proof/three_square.go:133-145 `gaussianIntGCD`. -/
def gaussianIntGCD (E : TSEnv) (s p : Nat) : GaussianInt := E.gcd ⟨s, 1⟩ ⟨p, 0⟩

/-- proof/three_square.go:92-106: the loop of `findTwoSquares` over the random numbers still to be drawn. -/
def findTwoSquaresLoop (E : TSEnv) (n : Nat) : List Nat → Option GaussianInt
  | [] => none
  | r :: rs =>
    let u := 2 * r
    let powU := (n - 1) / 2
    if u ^ powU % n = n - 1 then some (gaussianIntGCD E (u ^ (powU / 2) % n) n)
    else findTwoSquaresLoop E n rs

/-- The values `frand.BigIntn(halfN)` can return (`halfN` positive: callers have `n ≥ 2`). -/
def CoinsOK (n : Nat) (coins : List Nat) : Prop := coins.length = maxUFindingIter ∧ ∀ r ∈ coins, r < n / 2

/-- proof/three_square.go:79-107 `findTwoSquares` with its ten random numbers. -/
def findTwoSquares (E : TSEnv) (n : Nat) (coins : List Nat) : Option GaussianInt := findTwoSquaresLoop E n coins

/-- proof/three_square.go:109-131 `isValidGaussianIntGCD`. -/
def isValidGaussianIntGCD : Option GaussianInt → Bool
  | none => false
  | some g =>
    if g.re.natAbs = 1 ∧ g.im.natAbs = 0 then false
    else if g.re.natAbs = 0 ∧ g.im.natAbs = 1 then false
    else if g.re.natAbs = 1 ∧ g.im.natAbs = 1 then false
    else true

namespace ThreeSq

/-- A goroutine running `routineFindTS` (proof/three_square.go:38-77). -/
inductive Worker where
  /-- not started -/
  | idle
  /-- at the outer `select` (line 48) with counter `cnt` -/
  | top (cnt : Nat)
  /-- in the loop of lines 65-68 -/
  | search (x : Int) (p : Nat)
  /-- at the inner `select` (line 69) -/
  | send (t : Int3)
  | exited
deriving Repr

/-- The caller (proof/three_square.go:26-36). -/
inductive Main where
  /-- in the loop of lines 32-34; `k` goroutines started -/
  | spawn (k : Nat)
  /-- blocked in `<-resChan` (line 35) -/
  | recv
  /-- has received, `cancel` not yet called -/
  | got (t : Int3)
  /-- `cancel` called and returned -/
  | ret (t : Int3)
deriving Repr

structure St where
  main : Main
  workers : Nat → Worker

/-- proof/three_square.go:27-28: `rt`. -/
def rtOf (n : Nat) : Nat := Nat.sqrt n / 2

/-- proof/three_square.go:52-56: `x`, before the sign test the half of it. -/
def halfX (n cnt : Nat) : Int := (rtOf n : Int) - cnt

/-- proof/three_square.go:57. -/
def candP (n cnt : Nat) : Int := (n : Int) - (2 * halfX n cnt) * (2 * halfX n cnt)

/-- proof/three_square.go:61. -/
def Filtered (E : TSEnv) (p : Nat) : Prop := bitLenThreshold < p.size ∧ E.probablyPrime p = false

def setWorker (s : St) (i : Nat) (w : Worker) : St := { s with workers := Function.update s.workers i w }

def Main.cancelled : Main → Prop
  | .ret _ => True
  | _ => False

/-- Steps of `ThreeSquares(n)` with `K` goroutines (`K` is `runtime.NumCPU()`). -/
inductive Step (E : TSEnv) (K n : Nat) : St → St → Prop
  /-- line 33 -/
  | spawn (s : St) (k : Nat) (hm : s.main = .spawn k) (hk : k < K) :
      Step E K n s { main := .spawn (k + 1), workers := Function.update s.workers k (.top k) }
  | spawned (s : St) (hm : s.main = .spawn K) : Step E K n s { s with main := .recv }
  /-- deferred `cancel` -/
  | ret (s : St) (t : Int3) (hm : s.main = .got t) : Step E K n s { s with main := .ret t }
  /-- lines 49-50 -/
  | ctxDone (s : St) (i cnt : Nat) (hw : s.workers i = .top cnt) (hc : s.main.cancelled) :
      Step E K n s (setWorker s i .exited)
  /-- lines 53-55 -/
  | negX (s : St) (i cnt : Nat) (hw : s.workers i = .top cnt) (hc : ¬ s.main.cancelled) (hx : halfX n cnt < 0) :
      Step E K n s (setWorker s i .exited)
  /-- lines 58-60 -/
  | smallP (s : St) (i cnt : Nat) (hw : s.workers i = .top cnt) (hc : ¬ s.main.cancelled) (hx : ¬ halfX n cnt < 0)
      (hp : candP n cnt < 2) : Step E K n s (setWorker s i .exited)
  /-- lines 61-64 -/
  | filtered (s : St) (i cnt : Nat) (hw : s.workers i = .top cnt) (hc : ¬ s.main.cancelled) (hx : ¬ halfX n cnt < 0)
      (hp : ¬ candP n cnt < 2) (hf : Filtered E (candP n cnt).toNat) :
      Step E K n s (setWorker s i (.top (cnt + K)))
  /-- line 65 reached -/
  | search (s : St) (i cnt : Nat) (hw : s.workers i = .top cnt) (hc : ¬ s.main.cancelled) (hx : ¬ halfX n cnt < 0)
      (hp : ¬ candP n cnt < 2) (hf : ¬ Filtered E (candP n cnt).toNat) :
      Step E K n s (setWorker s i (.search (2 * halfX n cnt) (candP n cnt).toNat))
  /-- lines 65-68: a round that gives no usable result -/
  | again (s : St) (i : Nat) (x : Int) (p : Nat) (coins : List Nat) (hw : s.workers i = .search x p)
      (hcoins : CoinsOK p coins) (hv : isValidGaussianIntGCD (findTwoSquares E p coins) = false) : Step E K n s s
  /-- lines 65-68: a usable result -/
  | found (s : St) (i : Nat) (x : Int) (p : Nat) (coins : List Nat) (g : GaussianInt) (hw : s.workers i = .search x p)
      (hcoins : CoinsOK p coins) (hg : findTwoSquares E p coins = some g) (hv : isValidGaussianIntGCD (some g) = true) :
      Step E K n s (setWorker s i (.send (newInt3 x g.re g.im)))
  /-- lines 70-71: the send happens if the caller is waiting -/
  | send (s : St) (i : Nat) (t : Int3) (hw : s.workers i = .send t) (hm : s.main = .recv) :
      Step E K n s { main := .got t, workers := Function.update s.workers i .exited }
  /-- lines 72-73: nobody is waiting, the result is dropped -/
  | drop (s : St) (i : Nat) (t : Int3) (hw : s.workers i = .send t) (hm : s.main ≠ .recv) :
      Step E K n s (setWorker s i .exited)

def init : St := { main := .spawn 0, workers := fun _ => .idle }

/-- `s` can occur in a run of `ThreeSquares(n)`. -/
def Reach (E : TSEnv) (K n : Nat) (s : St) : Prop := Exec (Step E K n) init s

end ThreeSq

/-- proof/three_square.go:26-36 `ThreeSquares` may return `t`. A negative number panics in `Sqrt` (line 27), so nothing is
returned. The error result is always nil. -/
def ThreeSquaresReturns (E : TSEnv) (K : Nat) (n : Int) (t : Int3) : Prop :=
  0 ≤ n ∧ ∃ s, ThreeSq.Reach E K n.toNat s ∧ s.main = .ret t

end Verif.Model
