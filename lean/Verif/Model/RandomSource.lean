import Verif.Model.Coins
import Verif.Model.PokeCoins
import Verif.Model.AccProve

/-!
# Calls of the random source that may fail

The other models take the drawn numbers as inputs. Here `rand.Int(rand.Reader, max)` is a call that can return an error, and the
functions that draw are modelled with their error paths and with the fields of the prover object, which are written one after
the other. Leaving a function by an error keeps what was written so far.
-/

namespace Verif.Model
open Verif.Go

/-- How a call ends without a result: a panic, an error return, or not within the given bound of loop iterations. -/
inductive Stop where
  | panic
  | error
  | loop
deriving DecidableEq, Repr

/-- The random source: what the call with this number gives for a limit, `none` for an error. -/
abbrev Source := Nat → Int → Option Int

/-- The results of all calls of the random source so far, and the fields of the object. -/
structure Cell (P : Type) where
  log : List (Option Int)
  obj : P
deriving DecidableEq, Repr

/-- A function with access to the random source and to an object. -/
def Draw (P α : Type) := Cell P → Except Stop α × Cell P

/-- Statements one after the other; a panic or an error ends the function. -/
def Draw.bind {P α β : Type} (m : Draw P α) (f : α → Draw P β) : Draw P β := fun s =>
  match m s with
  | (.ok v, s') => f v s'
  | (.error e, s') => (.error e, s')

instance (P : Type) : Monad (Draw P) where
  pure v := fun s => (.ok v, s)
  bind := Draw.bind

/-- End of a function. -/
def Draw.stop {P α : Type} (e : Stop) : Draw P α := fun s => (.error e, s)

/-- The object. -/
def Draw.obj {P : Type} : Draw P P := fun s => (.ok s.obj, s)

/-- Write to fields of the object. -/
def Draw.write {P : Type} (f : P → P) : Draw P Unit := fun s => (.ok (), { s with obj := f s.obj })

/-- Code without draws that may panic. -/
def Draw.res {P α : Type} (r : Res α) : Draw P α := fun s =>
  match r with
  | .ok v => (.ok v, s)
  | .error _ => (.error .panic, s)

/-- Code without draws that may panic, with a bound for its loops. -/
def Draw.run {P α : Type} (r : Run α) : Draw P α := fun s =>
  match ExceptT.run r with
  | some (.ok v) => (.ok v, s)
  | some (.error _) => (.error .panic, s)
  | none => (.error .loop, s)

/-- `if err != nil { panic(err) }` after the call. -/
def Draw.mustReturn {P α : Type} (m : Draw P α) : Draw P α := fun s =>
  match m s with
  | (.error .error, s') => (.error .panic, s')
  | r => r

/-- `rand.Int(rand.Reader, max)`: panics for `max ≤ 0`, otherwise a number or an error. -/
def randInt {P : Type} (S : Source) (max : Int) : Draw P Int := fun s =>
  if max ≤ 0 then (.error .panic, s)
  else
    let s' := { s with log := s.log ++ [S s.log.length max] }
    match S s.log.length max with
    | some v => (.ok v, s')
    | none => (.error .error, s')

/-! ## proof/parameters.go -/

/-- proof/parameters.go:111-120 `freshRandCoin`. -/
def freshCoin {P : Type} (S : Source) (n : Int) : Draw P Int := randInt S (n + 1)

/-- proof/parameters.go:89-97 `newFourRandCoins`. -/
def newFourRandCoins {P : Type} (S : Source) (n : Int) : Draw P Int4 := do
  let c0 ← freshCoin S n
  let c1 ← freshCoin S n
  let c2 ← freshCoin S n
  let c3 ← freshCoin S n
  return ⟨c0, c1, c2, c3⟩

/-- proof/parameters.go:100-108 `newThreeRandCoins`. -/
def newThreeRandCoins {P : Type} (S : Source) (n : Int) : Draw P Int3 := do
  let c0 ← freshCoin S n
  let c1 ← freshCoin S n
  let c2 ← freshCoin S n
  return ⟨c0, c1, c2⟩

/-! ## proof/range_proof.go -/

/-- proof/range_proof.go:210-240 `commitForX`, with the three squares found. -/
def rpCommitForXDraw (S : Source) (x : Int) (ts : Int3) : Draw RPProver Int3 := do
  Draw.write fun p => { p with x4 := { p.x4 with t0 := p.b - x } }
  Draw.write fun p => { p with x4 := { p.x4 with t1 := ts.t0, t2 := ts.t1, t3 := ts.t2 } }
  Draw.write fun p => { p with r4 := { p.r4 with t0 := -p.r } }
  let p ← Draw.obj
  let rc ← newThreeRandCoins S p.pp.N
  Draw.write fun p => { p with r4 := { p.r4 with t1 := rc.t0, t2 := rc.t1, t3 := rc.t2 } }
  let c3 ← Draw.res (commitFromTS p.pp rc ts)
  Draw.write fun p => { p with c3 := c3 }
  return c3

/-- proof/range_proof.go:255-289 `commit`. -/
def rpCommitDraw (S : Source) (E : Env) : Draw RPProver Bytes := do
  let m4 ← newFourRandCoins S mLimit
  Draw.write fun p => { p with randM4 := m4 }
  let p ← Draw.obj
  let s4 ← newFourRandCoins S (sLimit p.pp)
  Draw.write fun p => { p with randS4 := s4 }
  let sigma ← freshCoin S (sigmaLimit p.pp)
  Draw.write fun p => { p with sigma := sigma }
  let p ← Draw.obj
  let d4 ← Draw.res (rpFirstPartH p m4 s4)
  let d ← Draw.res (rpSecondPartH p m4)
  return newRPCommitment E d4 d

/-- proof/range_proof.go:36-44 `NewRangeProof`, 167-185 `Prove`; `ts` is the result of `ThreeSquares`. -/
def rpProveDraw (S : Source) (E : Env) (x : Int) (ts : Int3) : Draw RPProver RangeProof := do
  let p ← Draw.obj
  let c ← Draw.res (calC p.pp p.r x)
  Draw.write fun p => { p with c := c }
  let ca ← Draw.res (calCa p.pp p.a c)
  Draw.write fun p => { p with ca := ca }
  Draw.write fun p => { p with x4 := { p.x4 with t0 := p.b - x } }
  Draw.write fun p => { p with r4 := { p.r4 with t0 := p.r } }
  let cx ← rpCommitForXDraw S x ts
  let commitment ← rpCommitDraw S E
  let p ← Draw.obj
  return { c := some p.c, commit3 := cx, commitment := commitment, response := some (rpResponseOf E p) }

/-! ## proof/zkaop.go -/

/-- proof/zkaop.go:172-194 `commitForX`, with the three squares found. -/
def aopCommitForXDraw (S : Source) (ts : Int3) : Draw AoPProver Int3 := do
  Draw.write fun p => { p with x3 := ts }
  let p ← Draw.obj
  let rc ← newThreeRandCoins S p.pp.N
  Draw.write fun p => { p with r3 := rc }
  let c3 ← Draw.res (commitFromTS p.pp rc ts)
  Draw.write fun p => { p with c3 := c3 }
  return c3

/-- proof/zkaop.go:209-243 `commit`. -/
def aopCommitDraw (S : Source) (E : Env) : Draw AoPProver Bytes := do
  let m3 ← newThreeRandCoins S mLimit
  Draw.write fun p => { p with randM3 := m3 }
  let p ← Draw.obj
  let s3 ← newThreeRandCoins S (sLimit p.pp)
  Draw.write fun p => { p with randS3 := s3 }
  let s ← freshCoin S (aopLastLimit p.pp)
  Draw.write fun p => { p with s := s }
  let p ← Draw.obj
  let d3 ← Draw.res (aopFirstPartD p m3 s3)
  let d ← Draw.res (aopSecondPartD p m3)
  return newAoPCommitment E d3 d

/-- proof/zkaop.go:33-40 `NewArgOfPositivity`, 154-169 `Prove`; `ts` is the result of `ThreeSquares`. -/
def aopProveDraw (S : Source) (E : Env) (x : Int) (ts : Int3) : Draw AoPProver ArgOfPositivity := do
  let p ← Draw.obj
  let C ← Draw.res (calC p.pp p.r x)
  Draw.write fun p => { p with C := C }
  let cx ← aopCommitForXDraw S ts
  let commitment ← aopCommitDraw S E
  let p ← Draw.obj
  return { commit3 := cx, commitment := commitment, response := some (aopResponseOf E p) }

/-! ## proof/poke.go -/

/-- proof/poke.go:74-123 `ZKPoKEProve` with failing draws. The part after the draws is that of `zkpokeProve`. -/
def zkpokeProveDraw (S : Source) (E : Env) (fuel : Nat) (pp : PublicParameters) (u x w : Int) : Draw Unit ZKPoKEProof := do
  if expStmt u x pp.N ≠ w then Draw.stop .error
  else
    let b := zkpokeBound pp
    let k ← randInt S b
    let rhox ← randInt S b
    let rhok ← randInt S b
    let z ← Draw.run (multiExp pp.G x pp.H rhox pp.N)
    let Ag ← Draw.run (multiExp pp.G k pp.H rhok pp.N)
    let Au := bigExp u k pp.N
    let (c, t) := (zkpokeTranscript pp u w (some z) (some Ag) Au).getIntChallenge E
    let (l, _) ← Draw.run (liftLoop (t.getPrimeChallenge E fuel))
    let sx := (c : Int) * x + k
    let srho := (c : Int) * rhox + rhok
    let (qx, rx) ← Draw.run (divMod sx l)
    let (qrho, rrho) ← Draw.run (divMod srho l)
    let Qg ← Draw.run (multiExp pp.G qx pp.H qrho pp.N)
    let Qu := bigExp u qx pp.N
    return { z := some z, Ag := some Ag, Au := Au, Qg := some Qg, Qu := Qu, rx := some rx, rrho := some rrho }

/-! ## accumulator/zkacc.go -/

/-- accumulator/zkacc.go:11-17 `GenRandomizer`. -/
def genRandomizerDraw (S : Source) : Draw Unit Int := Draw.mustReturn (randInt S min2048)

/-- accumulator/zkacc.go:20-36 `ZKAccumulate`. Random numbers are not negative. -/
def zkAccumulateDraw (S : Source) (E : Env) (fuel : Nat) (set : List Bytes) (encodeType : Int) (setup : Setup) :
    Draw Unit (Nat × List Nat) := do
  let rep ← Draw.run (genRepresentatives E fuel set encodeType)
  let r ← genRandomizerDraw S
  let base := accumulateNewPow setup.G r.toNat setup.N
  let proofs ← Draw.run (liftRes (proveMembership base setup.N rep))
  Draw.run (liftRes (accFromProofs setup.N rep proofs))

/-! ## accumulator/benchmark_test.go -/

/-- accumulator/benchmark_test.go:78-80 (also 97-99, 136-138, 158-160, 179-181, 198-200, 217-219):
`for i := range set { set[i], err = crand.Int(crand.Reader, max) }`. Gives the set, nil where the call failed, and whether `err`
is set after the loop. -/
def benchDrawLoop {P : Type} (S : Source) (max : Int) : Nat → List (Option Int) → Bool → Draw P (List (Option Int) × Bool)
  | 0, set, err => return (set, err)
  | n + 1, set, _ => fun s =>
    match randInt S max s with
    | (.ok v, s') => benchDrawLoop S max n (set ++ [some v]) false s'
    | (.error .error, s') => benchDrawLoop S max n (set ++ [none]) true s'
    | (.error e, s') => (.error e, s')

/-- accumulator/benchmark_test.go:75-83 (and the same lines of the other benchmarks): a set of `n` numbers below `max`;
`b.Fatal(err)` ends the benchmark, here an error. -/
def benchDrawSet (S : Source) (max : Int) (n : Nat) : Draw Unit (List (Option Int)) := do
  let (set, err) ← benchDrawLoop S max n [] false
  if err then Draw.stop .error else return set

/-- accumulator/benchmark_test.go:109-117 `groupElementMul`; `prev` is `set[i-1]`, the numbers are dropped. -/
def groupElementMulFrom (N : Int) (prev : Option Int) : List (Option Int) → Res Unit
  | [] => .ok ()
  | x :: xs => do
    let a ← nonNil x
    let b ← nonNil prev
    let _temp ← modN (a * b) N
    groupElementMulFrom N x xs

/-- accumulator/benchmark_test.go:109-117 `groupElementMul`: nothing is done for `i = 0`. -/
def groupElementMul (N : Int) : List (Option Int) → Res Unit
  | [] => .ok ()
  | x :: xs => groupElementMulFrom N x xs

/-- accumulator/benchmark_test.go:119-126 `groupElementSquare`: nothing is done for `i = 0`. -/
def groupElementSquare (N : Int) (set : List (Option Int)) : Res Unit :=
  (set.drop 1).forM fun x => do
    let a ← nonNil x
    let _temp := (bigExp a 2 N).getD 0
    .ok ()

/-- accumulator/benchmark_test.go:72-89 `BenchmarkGroupElementMul` with `b.N = rounds`. -/
def benchmarkGroupElementMul (S : Source) (N : Int) (setSize rounds : Nat) : Draw Unit Unit := do
  let set ← benchDrawSet S N setSize
  Draw.res ((List.range rounds).forM fun _ => groupElementMul N set)

/-- accumulator/benchmark_test.go:91-107 `BenchmarkGroupElementSquare` with `b.N = rounds`. -/
def benchmarkGroupElementSquare (S : Source) (N : Int) (setSize rounds : Nat) : Draw Unit Unit := do
  let set ← benchDrawSet S N setSize
  Draw.res ((List.range rounds).forM fun _ => groupElementSquare N set)

end Verif.Model
