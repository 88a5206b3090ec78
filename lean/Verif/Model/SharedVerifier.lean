import Verif.Model.RangeProof

/-!
# One verifier object used by several goroutines

`RPVerifier` and `ZKAoPVerifier` keep what they are working on in their own fields. Here every statement of `Verify` that writes a
field is a step of its own, and goroutines that were given the same object take turns. Simplified: `VerifyResponse`, which only reads
the fields, is one step; a statement on private integers belongs to the next step that writes a field.
-/

namespace Verif.Model
open Verif.Go

/-- A call of `Verify`: the statements that write fields, then the decision. -/
structure VerifyCall (V : Type) where
  todo : List (V → Res V)
  decision : V → Res Bool
  result : Option (Res Bool) := none

/-- The object and the calls of the goroutines. -/
structure SharedState (V : Type) where
  obj : V
  calls : Nat → VerifyCall V

/-- Goroutine `i` does its next step. After a panic and after its decision it does nothing. -/
def SharedState.step {V : Type} (s : SharedState V) (i : Nat) : SharedState V :=
  let c := s.calls i
  match c.result with
  | some _ => s
  | none =>
    match c.todo with
    | [] => { s with calls := fun j => if j = i then { c with result := some (c.decision s.obj) } else s.calls j }
    | f :: rest =>
      match f s.obj with
      | .ok v => { obj := v, calls := fun j => if j = i then { c with todo := rest } else s.calls j }
      | .error e => { s with calls := fun j => if j = i then { c with result := some (.error e) } else s.calls j }

/-- A schedule names the goroutine of every step. -/
def SharedState.run {V : Type} (s : SharedState V) (schedule : List Nat) : SharedState V := schedule.foldl SharedState.step s

/-- proof/range_proof.go:396-412 `Verify` of `RPVerifier`; line 400 is two steps for `c4[0]`: the `Mul` reads the field again. -/
def rpVerifyCall (E : Env) (proof : Option RangeProof) : VerifyCall RPVerifier where
  todo := [
    -- :397 r.c4[0] = new(big.Int).ModInverse(proof.c, r.pp.N)
    fun v => do
      let p ← nonNil proof
      let c ← nonNil p.c
      let c0 ← nonNil (modInverse c v.pp.N)
      .ok { v with c4 := { v.c4 with t0 := c0 } },
    -- :400 r.c4[0].Mul(r.c4[0], opt.Exp(r.pp.G, r.b, r.pp.N))
    fun v => do
      let opt ← nonNil (bigExp v.pp.G v.b v.pp.N)
      .ok { v with c4 := { v.c4 with t0 := v.c4.t0 * opt } },
    -- :401 r.c4[0].Mod(r.c4[0], r.pp.N)
    fun v => do
      let c0 ← modN v.c4.t0 v.pp.N
      .ok { v with c4 := { v.c4 with t0 := c0 } },
    -- :402-404
    fun v => do
      let p ← nonNil proof
      .ok { v with c4 := { v.c4 with t1 := p.commit3.t0 } },
    fun v => do
      let p ← nonNil proof
      .ok { v with c4 := { v.c4 with t2 := p.commit3.t1 } },
    fun v => do
      let p ← nonNil proof
      .ok { v with c4 := { v.c4 with t3 := p.commit3.t2 } },
    -- :405-407 r.ca = new(big.Int).Mul(proof.c, opt)
    fun v => do
      let p ← nonNil proof
      let c ← nonNil p.c
      let opt := (bigExp v.pp.G (-v.a) v.pp.N).getD (-v.a)
      .ok { v with ca := c * opt },
    -- :408 r.ca.Mod(r.ca, r.pp.N)
    fun v => do
      let ca ← modN v.ca v.pp.N
      .ok { v with ca := ca },
    -- :409 r.ca.Exp(r.ca, big4, r.pp.N)
    fun v => .ok { v with ca := (bigExp v.ca 4 v.pp.N).getD v.ca },
    -- :410 r.commitment = proof.commitment
    fun v => do
      let p ← nonNil proof
      .ok { v with commitment := p.commitment }]
  decision := fun v => do
    let p ← nonNil proof
    rpVerifyResponse E v p.response

/-- proof/zkaop.go:338-346 `Verify` of `ZKAoPVerifier`. -/
def aopVerifyCall (E : Env) (proof : Option ArgOfPositivity) : VerifyCall AoPVerifier where
  todo := [
    -- :341-343
    fun v => do
      let p ← nonNil proof
      .ok { v with c3 := { v.c3 with t0 := p.commit3.t0 } },
    fun v => do
      let p ← nonNil proof
      .ok { v with c3 := { v.c3 with t1 := p.commit3.t1 } },
    fun v => do
      let p ← nonNil proof
      .ok { v with c3 := { v.c3 with t2 := p.commit3.t2 } },
    -- :344
    fun v => do
      let p ← nonNil proof
      .ok { v with commitment := p.commitment }]
  decision := fun v => do
    let p ← nonNil proof
    aopVerifyResponse E v p.response

/-- Goroutine `i` calls `Verify(proofs i)` on the range verifier `v`. -/
def rpShared (E : Env) (v : RPVerifier) (proofs : Nat → Option RangeProof) : SharedState RPVerifier :=
  { obj := v, calls := fun i => rpVerifyCall E (proofs i) }

/-- The same for a verifier of arguments of positivity. -/
def aopShared (E : Env) (v : AoPVerifier) (proofs : Nat → Option ArgOfPositivity) : SharedState AoPVerifier :=
  { obj := v, calls := fun i => aopVerifyCall E (proofs i) }

end Verif.Model
