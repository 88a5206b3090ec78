import Verif.Model.RangeProof
import Mathlib.Logic.Function.Basic

/-!
# The shared pool of integers

proof/cache.go:10-19: `iPool` is a `sync.Pool` of `*big.Int`, used by all goroutines. A goroutine is a straight-line
program over pointer variables; loops over a fixed number of rounds are unrolled, and the programs of the workers with data
dependent loops are given for every number of rounds. `Get` returns any pooled cell or a new one, and the garbage collector
may drop pooled cells. A method call on a `big.Int` (read the operands, write the receiver) is one step.

The arguments of a function that no goroutine changes (parameters, coins, the fields of the prover) are constants of the
program.
-/

namespace Verif.Model.Pool
open Verif.Go Verif.Model

/-- Instructions; variables are numbers. -/
inductive Instr where
  /-- `r := iPool.Get().(*big.Int)` -/
  | get (r : Nat)
  /-- `r := new(big.Int)` -/
  | fresh (r : Nat)
  /-- `iPool.Put(r)` -/
  | put (r : Nat)
  /-- `d.Op(srcs...)` -/
  | set (d : Nat) (srcs : List Nat) (f : List Int → Int)
  /-- `d.Op(...)` with operands that other goroutines may be changing: any value can come out -/
  | havoc (d : Nat)
  /-- the value of `r` is used: compared, converted to bytes, or given to the random number generator -/
  | out (r : Nat)

/-- One goroutine. -/
structure Thread where
  code : List Instr
  regs : Nat → Nat
  outs : List Int

structure State where
  heap : Nat → Int
  next : Nat
  pool : List Nat
  threads : Nat → Thread

/-- What the scheduler and the pool choose. -/
inductive Choice where
  | none
  /-- which pooled cell `Get` returns -/
  | cell (c : Nat)
  /-- the value of a `havoc` -/
  | val (v : Int)

/-- A new cell for variable `r`. -/
def State.alloc (s : State) (i : Nat) (r : Nat) (k : List Instr) : State :=
  { s with
    heap := Function.update s.heap s.next 0
    next := s.next + 1
    threads := Function.update s.threads i
      ⟨k, Function.update (s.threads i).regs r s.next, (s.threads i).outs⟩ }

/-- One step of goroutine `i`. -/
def stepFn (s : State) (i : Nat) (ch : Choice) : Option State :=
  let t := s.threads i
  match t.code with
  | [] => none
  | .get r :: k =>
    match ch with
    | .cell c =>
      if c ∈ s.pool then
        some { s with
          pool := s.pool.erase c
          threads := Function.update s.threads i ⟨k, Function.update t.regs r c, t.outs⟩ }
      else none
    | _ => some (s.alloc i r k)
  | .fresh r :: k => some (s.alloc i r k)
  | .put r :: k =>
    some { s with pool := t.regs r :: s.pool, threads := Function.update s.threads i ⟨k, t.regs, t.outs⟩ }
  | .set d srcs f :: k =>
    some { s with
      heap := Function.update s.heap (t.regs d) (f (srcs.map fun r => s.heap (t.regs r)))
      threads := Function.update s.threads i ⟨k, t.regs, t.outs⟩ }
  | .havoc d :: k =>
    match ch with
    | .val v =>
      some { s with
        heap := Function.update s.heap (t.regs d) v
        threads := Function.update s.threads i ⟨k, t.regs, t.outs⟩ }
    | _ => none
  | .out r :: k =>
    some { s with threads := Function.update s.threads i ⟨k, t.regs, t.outs ++ [s.heap (t.regs r)]⟩ }

/-- A step of some goroutine, or of the garbage collector. -/
def Step (s t : State) : Prop :=
  (∃ i ch, stepFn s i ch = some t) ∨ ∃ c ∈ s.pool, t = { s with pool := s.pool.erase c }

/-- All goroutines at the beginning; the pool may have cells with any values. -/
structure Start (progs : Nat → List Instr) (s : State) : Prop where
  code : ∀ i, (s.threads i).code = progs i
  outs : ∀ i, (s.threads i).outs = []
  nodup : s.pool.Nodup
  bound : ∀ c ∈ s.pool, c < s.next

/-! ## The programs of the code -/

/-- `Exp` where it does not return nil. -/
def ex (x y N : Int) : Int := (bigExp x y N).getD 0

/-- The first operand. -/
def a0 : List Int → Int := fun l => l.getD 0 0

/-- `d.Set(constant)` and operations with constant operands only. -/
def const (d : Nat) (v : Int) : Instr := .set d [] fun _ => v

/-- `d.Mul(d, s)` and `d.Mod(d, N)`. -/
def mulMod (d s : Nat) (N : Int) : List Instr :=
  [.set d [d, s] fun l => l.getD 0 0 * l.getD 1 0, .set d [d] fun l => l.getD 0 0 % N]

/-- proof/parameters.go:111-120 `freshRandCoin(n)`. -/
def coinProg (n tmp : Nat) : List Instr :=
  [.get tmp, .set tmp [n] a0, .set tmp [tmp] fun l => a0 l + 1, .out tmp, .put tmp]

/-- proof/range_proof.go:188-195 `calC`; the result is in variable `d`. -/
def calCProg (pp : PublicParameters) (r x : Int) (d opt : Nat) : List Instr :=
  [.fresh d, const d (ex pp.G x pp.N), .get opt, const opt (ex pp.H r pp.N)] ++ mulMod d opt pp.N ++ [.put opt]

/-- proof/range_proof.go:198-207 `calCa`; the argument `c` is in variable `c`. Two new integers are put into the pool. -/
def calCaProg (pp : PublicParameters) (a : Int) (c d negA opt : Nat) : List Instr :=
  [.fresh negA, const negA (-a), .fresh opt, .set opt [negA] fun l => ex pp.G (a0 l) pp.N, .fresh d, .set d [c] a0,
    .set d [d, opt] fun l => l.getD 0 0 * l.getD 1 0, .set d [d] fun l => ex (a0 l) 4 pp.N, .put opt, .put negA]

/-- proof/range_proof.go:243-252 `newRPCommitFromFS`, proof/zkaop.go:197-206 `newZKAoPCommitFromTS` and, with four
numbers, proof/range_proof.go:292-302 `firstPartH` (proof/zkaop.go:246-256 `firstPartD`): `g^a_i h^b_i mod n` in variables `d`,
`d + 1`, ... -/
def pairsProg (pp : PublicParameters) (opt : Nat) : Nat → List (Int × Int) → List Instr
  | _, [] => []
  | d, (a, b) :: l =>
    [.fresh d, const d (ex pp.G a pp.N), const opt (ex pp.H b pp.N)] ++ mulMod d opt pp.N ++ pairsProg pp opt (d + 1) l

/-- The same with the pooled variable. -/
def commitGHProg (pp : PublicParameters) (opt d : Nat) (l : List (Int × Int)) : List Instr :=
  .get opt :: pairsProg pp opt d l ++ [.put opt]

/-- proof/range_proof.go:210-218, 237: the target of the three squares is pooled. -/
def rpTargetProg (a b x : Int) (target opt : Nat) : List Instr :=
  [.get target, const target (b - x), .get opt, const opt (x - a),
    .set target [target, opt] fun l => l.getD 0 0 * l.getD 1 0, .set target [target] fun l => a0 l * 2 ^ 2,
    .set target [target] fun l => a0 l + 1, .out target, .put opt, .put target]

/-- proof/zkaop.go:172-178. -/
def aopTargetProg (x : Int) (target : Nat) : List Instr :=
  [.get target, const target x, .set target [target] fun l => a0 l * 2 ^ 2, .set target [target] fun l => a0 l + 1,
    .out target, .put target]

/-- One factor `c_i^(-m_i)` of proof/range_proof.go:319-325. -/
def negFactor (result opt negM : Nat) (c m N : Int) : List Instr :=
  [const negM (-m), .set opt [negM] fun l => ex c (a0 l) N] ++ mulMod result opt N

/-- The computation of proof/range_proof.go:307-325 after `result` has been taken. -/
def secondPartHBody (p : RPProver) (m : Int4) (result opt negM : Nat) : List Instr :=
  [const result (ex p.pp.H p.sigma p.pp.N), .get opt, const opt (ex p.ca p.randM4.t0 p.pp.N)] ++
    mulMod result opt p.pp.N ++ [.get negM] ++
    negFactor result opt negM p.c3.t0 m.t1 p.pp.N ++ negFactor result opt negM p.c3.t1 m.t2 p.pp.N ++
    negFactor result opt negM p.c3.t2 m.t3 p.pp.N ++ [.put negM, .put opt]

/-- proof/range_proof.go:305-327 `secondPartH`: the deferred `Put(result)` runs before the caller reads `result`. -/
def secondPartHProg (p : RPProver) (m : Int4) (result opt negM : Nat) : List Instr :=
  .get result :: secondPartHBody p m result opt negM ++ [.put result]

/-- proof/zkaop.go:259-276 `secondPartD`. -/
def secondPartDProg (p : AoPProver) (m : Int3) (d opt hPow : Nat) : List Instr :=
  [.fresh d, const d 1, .get opt, const opt (ex p.c3.t0 m.t0 p.pp.N)] ++ mulMod d opt p.pp.N ++
    const opt (ex p.c3.t1 m.t1 p.pp.N) :: mulMod d opt p.pp.N ++
    const opt (ex p.c3.t2 m.t2 p.pp.N) :: mulMod d opt p.pp.N ++
    [.get hPow, const hPow (ex p.pp.H p.s p.pp.N)] ++ mulMod d hPow p.pp.N ++ [.put hPow, .put opt]

/-- proof/range_proof.go:255-289 `commit` with `firstPartH`, `secondPartH` and the reads of `newRPCommitment`
(lines 108-112); `sp` is the security parameter and `B` is `rpB`. `second` is the code of `secondPartH`. -/
def rpCommitWith (second : List Instr) (p : RPProver) (m s : Int4) (sp B : Nat) : List Instr :=
  [.get 0, const 0 sp, .set 0 [0] fun l => a0 l * 2, .set 0 [0] fun l => a0 l + B, .get 1,
    .set 1 [0] fun l => 2 ^ (a0 l).toNat] ++
    coinProg 1 2 ++ coinProg 1 2 ++ coinProg 1 2 ++ coinProg 1 2 ++
    [.get 3, const 3 (4 ^ sp), .set 3 [3] fun l => a0 l * p.pp.N] ++
    coinProg 3 2 ++ coinProg 3 2 ++ coinProg 3 2 ++ coinProg 3 2 ++
    .set 3 [3] (fun l => a0 l * 2 ^ B) :: coinProg 3 2 ++
    commitGHProg p.pp 4 10 [(m.t0, s.t0), (m.t1, s.t1), (m.t2, s.t2), (m.t3, s.t3)] ++
    second ++
    [.out 10, .out 11, .out 12, .out 13, .out 5] ++ [.put 3, .put 1, .put 0]

/-- proof/range_proof.go:255-289 `commit`. -/
def rpCommitProg (p : RPProver) (m s : Int4) (sp B : Nat) : List Instr :=
  rpCommitWith (secondPartHProg p m 5 6 7) p m s sp B

/-- proof/zkaop.go:209-243 `commit`. -/
def aopCommitProg (p : AoPProver) (m s : Int3) (sp B : Nat) : List Instr :=
  [.get 0, const 0 sp, .set 0 [0] fun l => a0 l * 2, .set 0 [0] fun l => a0 l + B, .get 1,
    .set 1 [0] fun l => 2 ^ (a0 l).toNat] ++
    coinProg 1 2 ++ coinProg 1 2 ++ coinProg 1 2 ++
    [.get 3, const 3 (4 ^ sp), .set 3 [3] fun l => a0 l * p.pp.N] ++
    coinProg 3 2 ++ coinProg 3 2 ++ coinProg 3 2 ++
    .set 3 [3] (fun l => a0 l * 2 ^ (B / 2)) :: coinProg 3 2 ++
    commitGHProg p.pp 4 10 [(m.t0, s.t0), (m.t1, s.t1), (m.t2, s.t2)] ++
    secondPartDProg p m 5 6 7 ++
    [.out 10, .out 11, .out 12, .out 5] ++ [.put 3, .put 1, .put 0]

/-- proof/range_proof.go:350-372: the end of `response`. -/
def rpResponseProg (p : RPProver) (e : Int) : List Instr :=
  [.get 0, const 0 0, .get 1, const 1 (p.x4.t1 * p.r4.t1), .set 0 [0, 1] fun l => l.getD 0 0 + l.getD 1 0,
    const 1 (p.x4.t2 * p.r4.t2), .set 0 [0, 1] fun l => l.getD 0 0 + l.getD 1 0,
    const 1 (p.x4.t3 * p.r4.t3), .set 0 [0, 1] fun l => l.getD 0 0 + l.getD 1 0,
    .fresh 2, const 2 (p.x4.t0 * p.r4.t0), .set 2 [2] fun l => a0 l * 2 ^ 2,
    .set 2 [2, 0] fun l => l.getD 0 0 + l.getD 1 0, .set 2 [2] fun l => a0 l * e,
    .set 2 [2] fun l => a0 l + p.sigma, .put 1, .put 0, .out 2]

/-- proof/zkaop.go:301-315: the end of `response`. -/
def aopResponseProg (p : AoPProver) (e : Int) : List Instr :=
  [.fresh 0, const 0 (p.r * 2 ^ 2), .get 1,
    const 1 (p.x3.t0 * p.r3.t0), .set 0 [0, 1] fun l => l.getD 0 0 - l.getD 1 0,
    const 1 (p.x3.t1 * p.r3.t1), .set 0 [0, 1] fun l => l.getD 0 0 - l.getD 1 0,
    const 1 (p.x3.t2 * p.r3.t2), .set 0 [0, 1] fun l => l.getD 0 0 - l.getD 1 0,
    .set 0 [0] fun l => a0 l * e, .set 0 [0] fun l => a0 l + p.s, .put 1, .out 0]

/-- One of the first parameters of a verifier (proof/range_proof.go:433-444, proof/zkaop.go:368-379); `-e` is in variable `negE`. -/
def paramProg (pp : PublicParameters) (z t c : Int) (d negE opt : Nat) : List Instr :=
  [.fresh d, const d (ex pp.G z pp.N), const opt (ex pp.H t pp.N),
    .set d [d, opt] fun l => l.getD 0 0 * l.getD 1 0, .set opt [negE] fun l => ex c (a0 l) pp.N] ++ mulMod d opt pp.N

/-- proof/range_proof.go:425-484 `VerifyResponse`; `e` is the challenge. -/
def rpVerifyProg (v : RPVerifier) (resp : RPResponse) (e : Int) : List Instr :=
  [.get 0, const 0 (-e), .get 1] ++
    paramProg v.pp resp.Z4.t0 resp.T4.t0 v.c4.t0 10 0 1 ++ paramProg v.pp resp.Z4.t1 resp.T4.t1 v.c4.t1 11 0 1 ++
    paramProg v.pp resp.Z4.t2 resp.T4.t2 v.c4.t2 12 0 1 ++ paramProg v.pp resp.Z4.t3 resp.T4.t3 v.c4.t3 13 0 1 ++
    [.fresh 2, const 2 (ex v.pp.H resp.TAU v.pp.N), const 1 (ex v.pp.G e v.pp.N)] ++ mulMod 2 1 v.pp.N ++
    const 1 (ex v.ca resp.Z4.t0 v.pp.N) :: mulMod 2 1 v.pp.N ++
    [const 1 (-resp.Z4.t1), .set 1 [1] fun l => ex v.c4.t1 (a0 l) v.pp.N] ++ mulMod 2 1 v.pp.N ++
    [const 1 (-resp.Z4.t2), .set 1 [1] fun l => ex v.c4.t2 (a0 l) v.pp.N] ++ mulMod 2 1 v.pp.N ++
    [const 1 (-resp.Z4.t3), .set 1 [1] fun l => ex v.c4.t3 (a0 l) v.pp.N] ++ mulMod 2 1 v.pp.N ++
    [.out 10, .out 11, .out 12, .out 13, .out 2, .put 2, .put 1, .put 0]

/-- proof/zkaop.go:359-424 `VerifyResponse`. -/
def aopVerifyProg (v : AoPVerifier) (resp : AoPResponse) (e : Int) : List Instr :=
  [.get 0, const 0 (-e), .get 1] ++
    paramProg v.pp resp.Z3.t0 resp.T3.t0 v.c3.t0 10 0 1 ++ paramProg v.pp resp.Z3.t1 resp.T3.t1 v.c3.t1 11 0 1 ++
    paramProg v.pp resp.Z3.t2 resp.T3.t2 v.c3.t2 12 0 1 ++
    [.fresh 2, const 2 1, const 1 (ex v.c3.t0 resp.Z3.t0 v.pp.N)] ++ mulMod 2 1 v.pp.N ++
    const 1 (ex v.c3.t1 resp.Z3.t1 v.pp.N) :: mulMod 2 1 v.pp.N ++
    const 1 (ex v.c3.t2 resp.Z3.t2 v.pp.N) :: mulMod 2 1 v.pp.N ++
    [.get 3, .get 4, .set 4 [0] fun l => a0 l * 2 ^ 2, const 3 (ex v.pp.H resp.T v.pp.N),
      .set 1 [4] fun l => ex v.c (a0 l) v.pp.N] ++ mulMod 3 1 v.pp.N ++ mulMod 2 3 v.pp.N ++
    .set 1 [0] (fun l => ex v.pp.G (a0 l) v.pp.N) :: mulMod 2 1 v.pp.N ++
    [.out 10, .out 11, .out 12, .out 2, .put 4, .put 3, .put 2, .put 1, .put 0]

/-- proof/three_square.go:149-158 `Verify`. -/
def verifyTSProg (t : Int3) : List Instr :=
  [.get 0, const 0 0, .get 1, const 1 (t.t0 * t.t0), .set 0 [0, 1] fun l => l.getD 0 0 + l.getD 1 0,
    const 1 (t.t1 * t.t1), .set 0 [0, 1] fun l => l.getD 0 0 + l.getD 1 0,
    const 1 (t.t2 * t.t2), .set 0 [0, 1] fun l => l.getD 0 0 + l.getD 1 0, .out 0, .put 1, .put 0]

/-- proof/three_square.go:79-107 `findTwoSquares` with `rounds` failed rounds; `found` tells whether another round
succeeds. The argument is a pooled integer of the caller that may depend on changing values. `u` is variable 3 (pooled,
never used) and then a new integer. -/
def twoSquaresProg (rounds : Nat) (found : Bool) : List Instr :=
  [.get 10, .havoc 10, .get 11, .havoc 11, .get 12, .havoc 12, .get 13, .get 14, .get 15] ++
    (List.replicate rounds [Instr.fresh 16, .havoc 16, .havoc 14]).flatten ++
    (if found then [.fresh 16, .havoc 16, .havoc 14, .havoc 11, .havoc 15] else []) ++
    [.put 15, .put 14, .put 13, .put 12, .put 11, .put 10]

/-- proof/three_square.go:109-131 `isValidGaussianIntGCD` for a non-nil argument. -/
def validGcdProg : List Instr := [.get 20, .havoc 20, .get 21, .havoc 21, .put 21, .put 20]

/-- One candidate of proof/three_square.go:47-74: `none` is a composite number, otherwise the calls of `findTwoSquares`
(failed rounds, success) each followed by the test of its result. -/
def candidateProg : Option (List (Nat × Bool)) → List Instr
  | none => [.fresh 4, .havoc 4, .havoc 4, .havoc 2, .havoc 2, .havoc 0]
  | some calls => [.fresh 4, .havoc 4, .havoc 4, .havoc 2, .havoc 2] ++
      (calls.map fun c => twoSquaresProg c.1 c.2 ++ if c.2 then validGcdProg else []).flatten

/-- proof/three_square.go:38-77 `routineFindTS` as seen by the other goroutines. The target `nn` is the pooled integer of
`commitForX`, which is put back as soon as one worker has answered (line 34): the other workers may read any value. -/
def workerProg (start step : Int) (cands : List (Option (List (Nat × Bool)))) : List Instr :=
  [.get 0, const 0 start, .get 1, const 1 step, .get 2, .get 3] ++ (cands.map candidateProg).flatten ++
    [.put 3, .put 2, .put 1, .put 0]

/-- The programs that use the pool. -/
inductive CodeProg : List Instr → Prop
  | idle : CodeProg []
  | calC (pp r x) : CodeProg (calCProg pp r x 0 1 ++ [.out 0])
  | calCa (pp a c) : CodeProg ([.fresh 0, const 0 c] ++ calCaProg pp a 0 1 2 3 ++ [.out 1])
  | commitFromTS (pp) (rc ts : Int3) : CodeProg
      (commitGHProg pp 0 10 [(ts.t0, rc.t0), (ts.t1, rc.t1), (ts.t2, rc.t2)] ++ [.out 10, .out 11, .out 12])
  | rpTarget (a b x) : CodeProg (rpTargetProg a b x 0 1)
  | aopTarget (x) : CodeProg (aopTargetProg x 0)
  | rpCommit (p m s sp B) : CodeProg (rpCommitProg p m s sp B)
  | aopCommit (p m s sp B) : CodeProg (aopCommitProg p m s sp B)
  | rpResponse (p e) : CodeProg (rpResponseProg p e)
  | aopResponse (p e) : CodeProg (aopResponseProg p e)
  | rpVerify (v resp e) : CodeProg (rpVerifyProg v resp e)
  | aopVerify (v resp e) : CodeProg (aopVerifyProg v resp e)
  | verifyTS (t) : CodeProg (verifyTSProg t)
  | worker (start step cands) : CodeProg (workerProg start step cands)

end Verif.Model.Pool
