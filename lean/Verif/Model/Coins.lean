import Verif.Model.RangeProof

/-!
# The random numbers of the range proof and the argument of positivity

`freshRandCoin(n)` (proof/parameters.go:111-120) draws from `0, …, n`. The numbers of one proof are numbered in the order in
which `commit` draws them.
-/

namespace Verif.Model

/-- proof/parameters.go:10 `securityParam`. -/
def securityParam : Nat := 128

/-- proof/range_proof.go:19 `rpB`, proof/zkaop.go:18 `zkAoPB`. -/
def boundB : Nat := 4096

/-- proof/range_proof.go:257-262, proof/zkaop.go:211-216 `mLmt`. -/
def mLimit : Int := 2 ^ (securityParam * 2 + boundB)

/-- proof/range_proof.go:269-271, proof/zkaop.go:223-225 `sLmt`. -/
def sLimit (pp : PublicParameters) : Int := 4 ^ securityParam * pp.N

/-- proof/range_proof.go:278: the limit of `sigma`. -/
def sigmaLimit (pp : PublicParameters) : Int := sLimit pp * 2 ^ boundB

/-- proof/zkaop.go:232: the limit of `s`. -/
def aopLastLimit (pp : PublicParameters) : Int := sLimit pp * 2 ^ (boundB / 2)

/-- proof/range_proof.go:255-284: the limits of `m0, …, m3`, `s0, …, s3` and `sigma`. -/
def rpLimits (pp : PublicParameters) : Fin 9 → Int :=
  ![mLimit, mLimit, mLimit, mLimit, sLimit pp, sLimit pp, sLimit pp, sLimit pp, sigmaLimit pp]

/-- proof/range_proof.go:231, proof/zkaop.go:185: the limits of the numbers drawn by `commitForX`. -/
def rcLimits (pp : PublicParameters) : Fin 3 → Int := ![pp.N, pp.N, pp.N]

/-- The coins of `Prove` with `rc` already drawn by `commitForX`. -/
def rpCoins (rc : Int3) (w : Fin 9 → Int) : RPCoins :=
  { rc := rc, m4 := ⟨w 0, w 1, w 2, w 3⟩, s4 := ⟨w 4, w 5, w 6, w 7⟩, sigma := w 8 }

/-- proof/zkaop.go:209-238: the limits of `m0, m1, m2`, `s0, s1, s2` and `s`. -/
def aopLimits (pp : PublicParameters) : Fin 7 → Int :=
  ![mLimit, mLimit, mLimit, sLimit pp, sLimit pp, sLimit pp, aopLastLimit pp]

/-- The coins of `Prove` with `rc` already drawn by `commitForX`. -/
def aopCoins (rc : Int3) (w : Fin 7 → Int) : AoPCoins :=
  { rc := rc, m3 := ⟨w 0, w 1, w 2⟩, s3 := ⟨w 3, w 4, w 5⟩, s := w 6 }

/-- The proof that is returned; `none` for a panic. -/
def rpProofOf (E : Env) (p : RPProver) (x : Int) (ts : Int3) (coins : RPCoins) : Option RangeProof :=
  match rpProve E p x ts coins with
  | .ok (proof, _) => some proof
  | .error _ => none

/-- The proof that is returned; `none` for a panic. -/
def aopProofOf (E : Env) (p : AoPProver) (x : Int) (ts : Int3) (coins : AoPCoins) : Option ArgOfPositivity :=
  match aopProve E p x ts coins with
  | .ok (proof, _) => some proof
  | .error _ => none

end Verif.Model
