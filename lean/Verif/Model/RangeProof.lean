import Verif.Model.Hashes
import Verif.Model.Poke
import Verif.Model.ThreeSquares

/-!
# proof/range_proof.go and proof/zkaop.go

Random coins and the result of `ThreeSquares` are arguments. `rand.Int` fails only if the system's random source fails; that
error path is in Model/RandomSource. The integer pool is not modelled here (see Model/Pool). The loops over three or four numbers are
written out. The numbers inside proofs and responses are non-nil; the pointers `proof`, `proof.c` and `proof.response` may
be nil.
-/

namespace Verif.Model
open Verif.Go

/-- Use of a pointer that is nil: panic. -/
def nonNil {α : Type} (p : Option α) : Res α :=
  match p with
  | none => goPanic "invalid memory address or nil pointer dereference"
  | some v => .ok v

/-- `z.Mod(x, n)`. -/
def modN (x n : Int) : Res Int := if n = 0 then goPanic "division by zero" else .ok (x % n)

/-- Public parameters are also used with the word "bytes": `x.Bytes()`. -/
def absBytes (x : Int) : Bytes := natBytes x.natAbs

/-- proof/range_proof.go:188-195 `calC`. -/
def calC (pp : PublicParameters) (r x : Int) : Res Int := do
  let c ← nonNil (bigExp pp.G x pp.N)
  let opt ← nonNil (bigExp pp.H r pp.N)
  modN (c * opt) pp.N

/-- proof/range_proof.go:198-207 `calCa`. The last `Exp` is a statement; its exponent is 4. -/
def calCa (pp : PublicParameters) (a c : Int) : Res Int := do
  let opt ← nonNil (bigExp pp.G (-a) pp.N)
  let ca := c * opt
  .ok ((bigExp ca 4 pp.N).getD ca)

/-- proof/range_proof.go:247-249, proof/zkaop.go:201-203: one commitment `g^x h^r`; also firstPartH (297-299) and firstPartD
(251-253). -/
def commitGH (pp : PublicParameters) (x r : Int) : Res Int := do
  let c ← nonNil (bigExp pp.G x pp.N)
  let opt ← nonNil (bigExp pp.H r pp.N)
  modN (c * opt) pp.N

/-- proof/range_proof.go:243-252 `newRPCommitFromFS`, proof/zkaop.go:197-206 `newZKAoPCommitFromTS`. -/
def commitFromTS (pp : PublicParameters) (coins ts : Int3) : Res Int3 := do
  let c0 ← commitGH pp ts.t0 coins.t0
  let c1 ← commitGH pp ts.t1 coins.t1
  let c2 ← commitGH pp ts.t2 coins.t2
  .ok ⟨c0, c1, c2⟩

/-! ## Range proof -/

/-- proof/range_proof.go:14. -/
def rpChallengeStatement : Bytes := ascii "c = (g^x)(h^r), x is non-negative"

/-- proof/range_proof.go:70-82 `serialize`. -/
def rpSerialize (pp : PublicParameters) (a b : Int) (c3 : Int3) : Bytes :=
  rpChallengeStatement ++ intString pp.G ++ intString pp.H ++ intString pp.N ++ intString a ++ intString b ++
    intString c3.t0 ++ intString c3.t1 ++ intString c3.t2

/-- proof/range_proof.go:57-67 `newRPChallenge`, 85-100 `sha256`, `bigInt`. The prover (330-333 `calChallengeBigInt`) and the
verifier (415-422 `challenge`) pass their fields. -/
def rpChallenge (E : Env) (pp : PublicParameters) (a b : Int) (c3 : Int3) : Nat :=
  setBytes (E.sha256 (rpSerialize pp a b c3))

/-- proof/range_proof.go:103-107 `rpResponse`. -/
structure RPResponse where
  Z4 : Int4
  T4 : Int4
  TAU : Int
deriving DecidableEq, Repr

/-- proof/range_proof.go:22-33 `RangeProof`. -/
structure RangeProof where
  c : Option Int
  commit3 : Int3
  commitment : Bytes
  response : Option RPResponse
deriving DecidableEq, Repr

/-- proof/range_proof.go:110-136 `newRPCommitment`; the same computation is at lines 463-482. -/
def newRPCommitment (E : Env) (d4 : Int4) (d : Int) : Bytes :=
  E.sha256 (absBytes d4.t0) ++ E.sha256 (absBytes d4.t1) ++ E.sha256 (absBytes d4.t2) ++ E.sha256 (absBytes d4.t3) ++
    E.sha256 (absBytes d)

/-- proof/range_proof.go:139-152 `RPProver`. The fields after `b` are nil at first; they are overwritten by `Prove`. -/
structure RPProver where
  pp : PublicParameters
  r : Int
  a : Int
  b : Int
  c : Int := 0
  ca : Int := 0
  sigma : Int := 0
  x4 : Int4 := ⟨0, 0, 0, 0⟩
  c3 : Int3 := ⟨0, 0, 0⟩
  randM4 : Int4 := ⟨0, 0, 0, 0⟩
  r4 : Int4 := ⟨0, 0, 0, 0⟩
  randS4 : Int4 := ⟨0, 0, 0, 0⟩

/-- proof/range_proof.go:155-164 `NewRPProver`. -/
def newRPProver (pp : PublicParameters) (r a b : Int) : RPProver := { pp := pp, r := r, a := a, b := b }

/-- The coins of one call of `Prove`: lines 231, 263, 273, 280. -/
structure RPCoins where
  rc : Int3
  m4 : Int4
  s4 : Int4
  sigma : Int

/-- proof/range_proof.go:212-219: the number to decompose. -/
def rpTarget (p : RPProver) (x : Int) : Int := (p.b - x) * (x - p.a) * 2 ^ 2 + 1

/-- proof/range_proof.go:210-240 `commitForX`, with the three squares found. -/
def rpCommitForX (p : RPProver) (x : Int) (ts rc : Int3) : Res RPProver := do
  let p := { p with x4 := ⟨p.b - x, ts.t0, ts.t1, ts.t2⟩ }
  let p := { p with r4 := ⟨-p.r, rc.t0, rc.t1, rc.t2⟩ }
  let c3 ← commitFromTS p.pp rc ts
  .ok { p with c3 := c3 }

/-- proof/range_proof.go:292-302 `firstPartH`. -/
def rpFirstPartH (p : RPProver) (m s : Int4) : Res Int4 := do
  let h0 ← commitGH p.pp m.t0 s.t0
  let h1 ← commitGH p.pp m.t1 s.t1
  let h2 ← commitGH p.pp m.t2 s.t2
  let h3 ← commitGH p.pp m.t3 s.t3
  .ok ⟨h0, h1, h2, h3⟩

/-- `result.Mul(result, opt.Exp(c, y, N)); result.Mod(result, N)`. -/
def mulExpMod (result c y N : Int) : Res Int := do
  let opt ← nonNil (bigExp c y N)
  modN (result * opt) N

/-- proof/range_proof.go:305-327 `secondPartH`. The `Exp` of line 307 is applied to a pooled integer and its result used,
nil panics. The `Exp` of line 311 is a statement with a coin as exponent (coins are non-negative, so it does not fail). -/
def rpSecondPartH (p : RPProver) (m : Int4) : Res Int := do
  let result ← nonNil (bigExp p.pp.H p.sigma p.pp.N)
  let opt ← nonNil (bigExp p.ca p.randM4.t0 p.pp.N)
  let result ← modN (result * opt) p.pp.N
  let result ← mulExpMod result p.c3.t0 (-m.t1) p.pp.N
  let result ← mulExpMod result p.c3.t1 (-m.t2) p.pp.N
  mulExpMod result p.c3.t2 (-m.t3) p.pp.N

/-- proof/range_proof.go:255-289 `commit`. -/
def rpCommit (E : Env) (p : RPProver) (coins : RPCoins) : Res (Bytes × RPProver) := do
  let p := { p with randM4 := coins.m4 }
  let p := { p with randS4 := coins.s4 }
  let p := { p with sigma := coins.sigma }
  let d4 ← rpFirstPartH p coins.m4 coins.s4
  let d ← rpSecondPartH p coins.m4
  .ok (newRPCommitment E d4 d, p)

/-- proof/range_proof.go:336-372 `response`. -/
def rpResponseOf (E : Env) (p : RPProver) : RPResponse :=
  let e : Int := rpChallenge E p.pp p.a p.b p.c3
  let z4 : Int4 := ⟨e * p.x4.t0 + p.randM4.t0, e * p.x4.t1 + p.randM4.t1, e * p.x4.t2 + p.randM4.t2,
    e * p.x4.t3 + p.randM4.t3⟩
  let t4 : Int4 := ⟨e * p.r4.t0 + p.randS4.t0, e * p.r4.t1 + p.randS4.t1, e * p.r4.t2 + p.randS4.t2,
    e * p.r4.t3 + p.randS4.t3⟩
  let sumXR := 0 + p.x4.t1 * p.r4.t1 + p.x4.t2 * p.r4.t2 + p.x4.t3 * p.r4.t3
  let tau := p.x4.t0 * p.r4.t0
  let tau := tau * 2 ^ 2
  let tau := tau + sumXR
  let tau := tau * e
  let tau := tau + p.sigma
  ⟨z4, t4, tau⟩

/-- proof/range_proof.go:167-185 `Prove`; `ts` is the result of `ThreeSquares (rpTarget p x)`. -/
def rpProve (E : Env) (p : RPProver) (x : Int) (ts : Int3) (coins : RPCoins) : Res (RangeProof × RPProver) := do
  let c ← calC p.pp p.r x
  let p := { p with c := c }
  let ca ← calCa p.pp p.a p.c
  let p := { p with ca := ca }
  let p ← rpCommitForX p x ts coins.rc
  let cx := p.c3
  let (commitment, p) ← rpCommit E p coins
  let response := rpResponseOf E p
  .ok ({ c := some p.c, commit3 := cx, commitment := commitment, response := some response }, p)

/-- proof/range_proof.go:375-382 `RPVerifier`. -/
structure RPVerifier where
  pp : PublicParameters
  a : Int
  b : Int
  commitment : Bytes := []
  c4 : Int4 := ⟨0, 0, 0, 0⟩
  ca : Int := 0

/-- proof/range_proof.go:385-393 `NewRPVerifier`. -/
def newRPVerifier (pp : PublicParameters) (a b : Int) : RPVerifier := { pp := pp, a := a, b := b }

/-- proof/range_proof.go:433-444: one of the first four parameters. -/
def verifyParam (pp : PublicParameters) (z t c negE : Int) : Res Int := do
  let v ← nonNil (bigExp pp.G z pp.N)
  let opt ← nonNil (bigExp pp.H t pp.N)
  let v := v * opt
  let opt ← nonNil (bigExp c negE pp.N)
  modN (v * opt) pp.N

/-- proof/range_proof.go:426-461: the numbers hashed by `VerifyResponse`. -/
def rpVerifyParams (E : Env) (v : RPVerifier) (resp : RPResponse) : Res (Int4 × Int) := do
  let c : Int := rpChallenge E v.pp v.a v.b ⟨v.c4.t1, v.c4.t2, v.c4.t3⟩
  let f0 ← verifyParam v.pp resp.Z4.t0 resp.T4.t0 v.c4.t0 (-c)
  let f1 ← verifyParam v.pp resp.Z4.t1 resp.T4.t1 v.c4.t1 (-c)
  let f2 ← verifyParam v.pp resp.Z4.t2 resp.T4.t2 v.c4.t2 (-c)
  let f3 ← verifyParam v.pp resp.Z4.t3 resp.T4.t3 v.c4.t3 (-c)
  let lastH ← nonNil (bigExp v.pp.H resp.TAU v.pp.N)
  let lastH ← mulExpMod lastH v.pp.G c v.pp.N
  let lastH ← mulExpMod lastH v.ca resp.Z4.t0 v.pp.N
  let lastH ← mulExpMod lastH v.c4.t1 (-resp.Z4.t1) v.pp.N
  let lastH ← mulExpMod lastH v.c4.t2 (-resp.Z4.t2) v.pp.N
  let lastH ← mulExpMod lastH v.c4.t3 (-resp.Z4.t3) v.pp.N
  .ok (⟨f0, f1, f2, f3⟩, lastH)

/-- proof/range_proof.go:425-484 `VerifyResponse`. -/
def rpVerifyResponse (E : Env) (v : RPVerifier) (response : Option RPResponse) : Res Bool := do
  let resp ← nonNil response
  let (f4, lastH) ← rpVerifyParams E v resp
  .ok (decide (newRPCommitment E f4 lastH = v.commitment))

/-- proof/range_proof.go:397-410: the fields set by `Verify`. The `Exp` of line 406 is a statement: without an inverse its
receiver keeps the value `-a`. -/
def rpVerifySetup (v : RPVerifier) (c : Int) (commit3 : Int3) (commitment : Bytes) : Res RPVerifier := do
  let c0 ← nonNil (modInverse c v.pp.N)
  let opt ← nonNil (bigExp v.pp.G v.b v.pp.N)
  let c0 ← modN (c0 * opt) v.pp.N
  let v := { v with c4 := ⟨c0, commit3.t0, commit3.t1, commit3.t2⟩ }
  let opt := (bigExp v.pp.G (-v.a) v.pp.N).getD (-v.a)
  let ca ← modN (c * opt) v.pp.N
  let v := { v with ca := (bigExp ca 4 v.pp.N).getD ca }
  .ok { v with commitment := commitment }

/-- proof/range_proof.go:396-412 `Verify`. -/
def rpVerify (E : Env) (v : RPVerifier) (proof : Option RangeProof) : Res Bool := do
  let proof ← nonNil proof
  let c ← nonNil proof.c
  let v ← rpVerifySetup v c proof.commit3 proof.commitment
  rpVerifyResponse E v proof.response

/-! ## Argument of positivity -/

/-- proof/zkaop.go:14. -/
def zkAoPChallengeStatement : Bytes := ascii "c = (g^x)(h^r), x is non-negative"

/-- proof/zkaop.go:63-73 `serialize`. -/
def aopSerialize (pp : PublicParameters) (c3 : Int3) : Bytes :=
  zkAoPChallengeStatement ++ intString pp.G ++ intString pp.H ++ intString pp.N ++
    intString c3.t0 ++ intString c3.t1 ++ intString c3.t2

/-- proof/zkaop.go:52-60 `newZKAoPChallenge`, 76-91 `sha256`, `bigInt`; 279-282 `calChallengeBigInt` of the prover and 349-356
`challenge` of the verifier pass their fields. -/
def aopChallenge (E : Env) (pp : PublicParameters) (c3 : Int3) : Nat := setBytes (E.sha256 (aopSerialize pp c3))

/-- proof/zkaop.go:94-98 `zkAoPResponse`. -/
structure AoPResponse where
  Z3 : Int3
  T3 : Int3
  T : Int
deriving DecidableEq, Repr

/-- proof/zkaop.go:21-30 `ArgOfPositivity`. -/
structure ArgOfPositivity where
  commit3 : Int3
  commitment : Bytes
  response : Option AoPResponse
deriving DecidableEq, Repr

/-- proof/zkaop.go:101-127 `newZKAoPCommitment`; the same computation is at lines 403-422. -/
def newAoPCommitment (E : Env) (d3 : Int3) (d : Int) : Bytes :=
  E.sha256 (absBytes d3.t0) ++ E.sha256 (absBytes d3.t1) ++ E.sha256 (absBytes d3.t2) ++ E.sha256 (absBytes d)

/-- proof/zkaop.go:130-141 `ZKAoPProver`. -/
structure AoPProver where
  pp : PublicParameters
  r : Int
  C : Int := 0
  s : Int := 0
  x3 : Int3 := ⟨0, 0, 0⟩
  c3 : Int3 := ⟨0, 0, 0⟩
  randM3 : Int3 := ⟨0, 0, 0⟩
  r3 : Int3 := ⟨0, 0, 0⟩
  randS3 : Int3 := ⟨0, 0, 0⟩

/-- proof/zkaop.go:144-151 `NewZKAoPProver`. -/
def newAoPProver (pp : PublicParameters) (r : Int) : AoPProver := { pp := pp, r := r }

/-- The coins of one call of `Prove`: lines 185, 217, 227, 234. -/
structure AoPCoins where
  rc : Int3
  m3 : Int3
  s3 : Int3
  s : Int

/-- proof/zkaop.go:174-177: the number to decompose. -/
def aopTarget (x : Int) : Int := x * 2 ^ 2 + 1

/-- proof/zkaop.go:172-194 `commitForX`, with the three squares found. -/
def aopCommitForX (p : AoPProver) (ts rc : Int3) : Res AoPProver := do
  let p := { p with x3 := ts }
  let p := { p with r3 := rc }
  let c3 ← commitFromTS p.pp rc ts
  .ok { p with c3 := c3 }

/-- proof/zkaop.go:246-256 `firstPartD`. -/
def aopFirstPartD (p : AoPProver) (m s : Int3) : Res Int3 := do
  let h0 ← commitGH p.pp m.t0 s.t0
  let h1 ← commitGH p.pp m.t1 s.t1
  let h2 ← commitGH p.pp m.t2 s.t2
  .ok ⟨h0, h1, h2⟩

/-- proof/zkaop.go:259-276 `secondPartD`. -/
def aopSecondPartD (p : AoPProver) (m : Int3) : Res Int := do
  let d ← mulExpMod 1 p.c3.t0 m.t0 p.pp.N
  let d ← mulExpMod d p.c3.t1 m.t1 p.pp.N
  let d ← mulExpMod d p.c3.t2 m.t2 p.pp.N
  mulExpMod d p.pp.H p.s p.pp.N

/-- proof/zkaop.go:209-243 `commit`. -/
def aopCommit (E : Env) (p : AoPProver) (coins : AoPCoins) : Res (Bytes × AoPProver) := do
  let p := { p with randM3 := coins.m3 }
  let p := { p with randS3 := coins.s3 }
  let p := { p with s := coins.s }
  let d3 ← aopFirstPartD p coins.m3 coins.s3
  let d ← aopSecondPartD p coins.m3
  .ok (newAoPCommitment E d3 d, p)

/-- proof/zkaop.go:285-316 `response`. -/
def aopResponseOf (E : Env) (p : AoPProver) : AoPResponse :=
  let e : Int := aopChallenge E p.pp p.c3
  let z3 : Int3 := ⟨e * p.x3.t0 + p.randM3.t0, e * p.x3.t1 + p.randM3.t1, e * p.x3.t2 + p.randM3.t2⟩
  let t3 : Int3 := ⟨e * p.r3.t0 + p.randS3.t0, e * p.r3.t1 + p.randS3.t1, e * p.r3.t2 + p.randS3.t2⟩
  let t := p.r * 2 ^ 2
  let t := t - p.x3.t0 * p.r3.t0
  let t := t - p.x3.t1 * p.r3.t1
  let t := t - p.x3.t2 * p.r3.t2
  let t := t * e
  let t := t + p.s
  ⟨z3, t3, t⟩

/-- proof/zkaop.go:154-169 `Prove`; `ts` is the result of `ThreeSquares (aopTarget x)`. -/
def aopProve (E : Env) (p : AoPProver) (x : Int) (ts : Int3) (coins : AoPCoins) : Res (ArgOfPositivity × AoPProver) := do
  let C ← calC p.pp p.r x
  let p := { p with C := C }
  let p ← aopCommitForX p ts coins.rc
  let cx := p.c3
  let (commitment, p) ← aopCommit E p coins
  .ok ({ commit3 := cx, commitment := commitment, response := some (aopResponseOf E p) }, p)

/-- proof/zkaop.go:319-325 `ZKAoPVerifier`. -/
structure AoPVerifier where
  pp : PublicParameters
  c : Int
  commitment : Bytes := []
  c3 : Int3 := ⟨0, 0, 0⟩

/-- proof/zkaop.go:328-335 `NewZKAoPVerifier`. -/
def newAoPVerifier (pp : PublicParameters) (c : Int) : AoPVerifier := { pp := pp, c := c }

/-- proof/zkaop.go:360-401: the numbers hashed by `VerifyResponse`. -/
def aopVerifyParams (E : Env) (v : AoPVerifier) (resp : AoPResponse) : Res (Int3 × Int) := do
  let e : Int := aopChallenge E v.pp v.c3
  let f0 ← verifyParam v.pp resp.Z3.t0 resp.T3.t0 v.c3.t0 (-e)
  let f1 ← verifyParam v.pp resp.Z3.t1 resp.T3.t1 v.c3.t1 (-e)
  let f2 ← verifyParam v.pp resp.Z3.t2 resp.T3.t2 v.c3.t2 (-e)
  let lastH ← mulExpMod 1 v.c3.t0 resp.Z3.t0 v.pp.N
  let lastH ← mulExpMod lastH v.c3.t1 resp.Z3.t1 v.pp.N
  let lastH ← mulExpMod lastH v.c3.t2 resp.Z3.t2 v.pp.N
  let hPow ← aopHPow v e resp.T
  let lastH ← modN (lastH * hPow) v.pp.N
  let lastH ← mulExpMod lastH v.pp.G (-e) v.pp.N
  .ok (⟨f0, f1, f2⟩, lastH)
where
  /-- proof/zkaop.go:391-397. The `Exp` of line 395 is a statement on a pooled integer; without an inverse of `h` the
  pooled integer keeps its old value, which is modelled as a panic here and as it is in `Model/PooledVerify`. -/
  aopHPow (v : AoPVerifier) (e T : Int) : Res Int := do
    let hPow ← nonNil (bigExp v.pp.H T v.pp.N)
    mulExpMod hPow v.c (-e * 2 ^ 2) v.pp.N

/-- proof/zkaop.go:359-424 `VerifyResponse`. -/
def aopVerifyResponse (E : Env) (v : AoPVerifier) (response : Option AoPResponse) : Res Bool := do
  let resp ← nonNil response
  let (f3, lastH) ← aopVerifyParams E v resp
  .ok (decide (newAoPCommitment E f3 lastH = v.commitment))

/-- proof/zkaop.go:338-346 `Verify`. -/
def aopVerify (E : Env) (v : AoPVerifier) (proof : Option ArgOfPositivity) : Res Bool := do
  let proof ← nonNil proof
  let v := { v with c3 := proof.commit3 }
  let v := { v with commitment := proof.commitment }
  aopVerifyResponse E v proof.response

end Verif.Model
