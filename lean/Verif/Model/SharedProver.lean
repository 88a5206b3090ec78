import Verif.Model.RangeProof

/-!
# One prover object used by several goroutines

`RPProver` keeps the secret numbers, coins and commitments of the proof being made in its own fields. Here goroutines that were given
the same object take turns. Simplified: only three steps for a call of `Prove`, so a violation needs no unlikely interleaving.
-/

namespace Verif.Model
open Verif.Go

/-- What a goroutine was asked to prove, the three squares it finds and its coins. -/
structure ProveTask where
  x : Int
  ts : Int3
  coins : RPCoins

/-- How far a call of `Prove` has come; the local variables `cx` and `commitment`. -/
inductive ProvePhase where
  | start
  | committedX (cx : Int3)
  | committed (cx : Int3) (commitment : Bytes)
  | done (proof : RangeProof)
  | panicked (msg : String)

/-- The object and the calls of the goroutines. -/
structure SharedProver where
  obj : RPProver
  phase : Nat → ProvePhase

/-- The call of goroutine `i` reaches another phase. -/
def SharedProver.goto (s : SharedProver) (i : Nat) (obj : RPProver) (ph : ProvePhase) : SharedProver :=
  { obj := obj, phase := fun j => if j = i then ph else s.phase j }

/-- proof/range_proof.go:167-185 `Prove`, one part per step: lines 168-172 with `commitForX` (210-240), line 176 with `commit` (255-289),
and lines 180-184 with `response` (336-372). Line 184 reads `r.c` again. -/
def SharedProver.step (E : Env) (tasks : Nat → ProveTask) (s : SharedProver) (i : Nat) : SharedProver :=
  match s.phase i with
  | .start =>
    let r : Res RPProver := do
      let c ← calC s.obj.pp s.obj.r (tasks i).x
      let ca ← calCa s.obj.pp s.obj.a c
      rpCommitForX { s.obj with c := c, ca := ca } (tasks i).x (tasks i).ts (tasks i).coins.rc
    match r with
    | .ok p => s.goto i p (.committedX p.c3)
    | .error e => s.goto i s.obj (.panicked e)
  | .committedX cx =>
    match rpCommit E s.obj (tasks i).coins with
    | .ok (cm, p) => s.goto i p (.committed cx cm)
    | .error e => s.goto i s.obj (.panicked e)
  | .committed cx cm =>
    s.goto i s.obj (.done { c := some s.obj.c, commit3 := cx, commitment := cm, response := some (rpResponseOf E s.obj) })
  | .done _ => s
  | .panicked _ => s

/-- A schedule names the goroutine of every step. -/
def SharedProver.run (E : Env) (tasks : Nat → ProveTask) (s : SharedProver) (schedule : List Nat) : SharedProver :=
  schedule.foldl (SharedProver.step E tasks) s

/-- All goroutines are about to call `Prove` on `p`. -/
def sharedProver (p : RPProver) : SharedProver := { obj := p, phase := fun _ => .start }

/-- What a goroutine was asked to prove positive, the three squares it finds and its coins. -/
structure AoPTask where
  x : Int
  ts : Int3
  coins : AoPCoins

/-- How far a call of `ZKAoPProver.Prove` has come. -/
inductive AoPPhase where
  | start
  | committedX (cx : Int3)
  | committed (cx : Int3) (commitment : Bytes)
  | done (proof : ArgOfPositivity)
  | panicked (msg : String)

/-- The object and the calls of the goroutines. -/
structure SharedAoPProver where
  obj : AoPProver
  phase : Nat → AoPPhase

/-- The call of goroutine `i` reaches another phase. -/
def SharedAoPProver.goto (s : SharedAoPProver) (i : Nat) (obj : AoPProver) (ph : AoPPhase) : SharedAoPProver :=
  { obj := obj, phase := fun j => if j = i then ph else s.phase j }

/-- proof/zkaop.go:154-169 `Prove`, one part per step: lines 155-156 with `commitForX` (172-194), line 160 with `commit` (209-243),
and lines 164-168 with `response` (285-316). -/
def SharedAoPProver.step (E : Env) (tasks : Nat → AoPTask) (s : SharedAoPProver) (i : Nat) : SharedAoPProver :=
  match s.phase i with
  | .start =>
    let r : Res AoPProver := do
      let C ← calC s.obj.pp s.obj.r (tasks i).x
      aopCommitForX { s.obj with C := C } (tasks i).ts (tasks i).coins.rc
    match r with
    | .ok p => s.goto i p (.committedX p.c3)
    | .error e => s.goto i s.obj (.panicked e)
  | .committedX cx =>
    match aopCommit E s.obj (tasks i).coins with
    | .ok (cm, p) => s.goto i p (.committed cx cm)
    | .error e => s.goto i s.obj (.panicked e)
  | .committed cx cm =>
    s.goto i s.obj (.done { commit3 := cx, commitment := cm, response := some (aopResponseOf E s.obj) })
  | .done _ => s
  | .panicked _ => s

/-- A schedule names the goroutine of every step. -/
def SharedAoPProver.run (E : Env) (tasks : Nat → AoPTask) (s : SharedAoPProver) (schedule : List Nat) : SharedAoPProver :=
  schedule.foldl (SharedAoPProver.step E tasks) s

/-- All goroutines are about to call `Prove` on `p`. -/
def sharedAoPProver (p : AoPProver) : SharedAoPProver := { obj := p, phase := fun _ => .start }

end Verif.Model
