import Verif.Model.RangeProof

/-!
# The pooled integer in `VerifyResponse` of the argument of positivity

proof/zkaop.go:391-397. `hPowTMulCPowNeg4E` comes from the pool and holds whatever its last user left in it. Line 395 is
`hPowTMulCPowNeg4E.Exp(r.pp.H, response.T, r.pp.N)`; the result of the call is not looked at. If `response.T` is negative and `h`
has no inverse, `Exp` returns nil and leaves the receiver alone. `Model/RangeProof` calls this a panic; here the old value is used,
as in the code.
-/

namespace Verif.Model
open Verif.Go

/-- proof/zkaop.go:391-397; `old` is the value in the pooled integer. -/
def aopHPowPooled (old : Int) (v : AoPVerifier) (e T : Int) : Res Int :=
  mulExpMod ((bigExp v.pp.H T v.pp.N).getD old) v.c (-e * 2 ^ 2) v.pp.N

/-- proof/zkaop.go:360-401: the numbers hashed by `VerifyResponse`. -/
def aopVerifyParamsPooled (E : Env) (old : Int) (v : AoPVerifier) (resp : AoPResponse) : Res (Int3 × Int) := do
  let e : Int := aopChallenge E v.pp v.c3
  let f0 ← verifyParam v.pp resp.Z3.t0 resp.T3.t0 v.c3.t0 (-e)
  let f1 ← verifyParam v.pp resp.Z3.t1 resp.T3.t1 v.c3.t1 (-e)
  let f2 ← verifyParam v.pp resp.Z3.t2 resp.T3.t2 v.c3.t2 (-e)
  let lastH ← mulExpMod 1 v.c3.t0 resp.Z3.t0 v.pp.N
  let lastH ← mulExpMod lastH v.c3.t1 resp.Z3.t1 v.pp.N
  let lastH ← mulExpMod lastH v.c3.t2 resp.Z3.t2 v.pp.N
  let hPow ← aopHPowPooled old v e resp.T
  let lastH ← modN (lastH * hPow) v.pp.N
  let lastH ← mulExpMod lastH v.pp.G (-e) v.pp.N
  .ok (⟨f0, f1, f2⟩, lastH)

/-- proof/zkaop.go:359-424 `VerifyResponse`. -/
def aopVerifyResponsePooled (E : Env) (old : Int) (v : AoPVerifier) (response : Option AoPResponse) : Res Bool := do
  let resp ← nonNil response
  let (f3, lastH) ← aopVerifyParamsPooled E old v resp
  .ok (decide (newAoPCommitment E f3 lastH = v.commitment))

/-- proof/zkaop.go:338-346 `Verify`. -/
def aopVerifyPooled (E : Env) (old : Int) (v : AoPVerifier) (proof : Option ArgOfPositivity) : Res Bool := do
  let proof ← nonNil proof
  let v := { v with c3 := proof.commit3 }
  let v := { v with commitment := proof.commitment }
  aopVerifyResponsePooled E old v proof.response

end Verif.Model
