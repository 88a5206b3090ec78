import Verif.Go.Bytes

/-!
# The interop tests

zkmultiswap/gnark-tests/ecc/interop/bn254/interop_test.go and zkmultiswap/gnark-tests/ecc/interop/bls12-381/interop_test.go compare
gnark-crypto with other libraries on drawn values. The libraries are not part of the repository; here they are any functions
(`Side` for gnark-crypto, `Foreign` for another library). What a test does with one draw is a function that returns its
truth value and the texts that it logs. The text of an error of a library is "err". Paths below are relative to zkmultiswap/gnark-tests/ecc/interop.
Simplifications: points are compared by equality (the code compares X and Y); a library never panics; the repetition by gopter
is left to the theorems, which speak about single draws or about all of them.
-/

namespace Verif.Model.Interop

open Verif.Go

/-- One of the groups G1, G2 of gnark-crypto: generator, `ScalarMultiplication`, `AddAssign`, `Marshal`, `Unmarshal`, `Bytes`. -/
structure Side (P : Type) where
  gen : P
  smul : P → Nat → P
  add : P → P → P
  marshal : P → Bytes
  unmarshal : Bytes → Option P
  bytes : P → Bytes

/-- The same group in another library. -/
structure Foreign (Q : Type) where
  smul : Q → Nat → Q
  add : Q → Q → Q
  marshal : Q → Bytes
  unmarshal : Bytes → Option Q
  toCompressed : Q → Bytes
  fromCompressed : Bytes → Option Q

/-- The truth value of a draw and what is logged. -/
abbrev Verdict := Bool × List String

/-- `if err != nil { t.Log(err); return false }`. -/
def orLog {Q : Type} (o : Option Q) (k : Q → Verdict) : Verdict :=
  match o with
  | none => (false, ["err"])
  | some q => k q

/-- `if err != nil { return false }`. -/
def orFail {Q : Type} (o : Option Q) (k : Q → Verdict) : Verdict :=
  match o with
  | none => (false, [])
  | some q => k q

/-- `if !bytes.Equal(x, y) { t.Log(msg); return false }`. -/
def orDiffers (x y : Bytes) (msg : String) (k : Verdict) : Verdict := if x = y then k else (false, [msg])

/-- `cloudflareG1`, `cloudflareG2`, `googleG1`, `googleG2`, bn254/interop_test.go:516-546: a point of gnark-crypto in another
library. -/
def toForeign {P Q : Type} (S : Side P) (F : Foreign Q) (p : P) : Option Q := F.unmarshal (S.marshal p)

/-- One draw of the tests `TestG1AffineSerializationInterop` and `TestG2AffineSerializationInterop`, bn254/interop_test.go:37-81 and
93-137 (two libraries each), bls12-381/interop_test.go:36-57 and 93-114. -/
def roundTrip {P Q : Type} [DecidableEq P] (S : Side P) (F : Foreign Q) (a : Nat) : Verdict :=
  let start := S.smul S.gen a
  orLog (toForeign S F start) fun other =>
  orFail (S.unmarshal (F.marshal other)) fun back =>
  (decide (start = back), [])

/-- The draws with compressed points, bls12-381/interop_test.go:59-81 and 116-138. -/
def roundTripCompressed {P Q : Type} [DecidableEq P] (S : Side P) (F : Foreign Q) (a : Nat) : Verdict :=
  let start := S.smul S.gen a
  orLog (F.fromCompressed (S.bytes start)) fun other =>
  orFail (S.unmarshal (F.toCompressed other)) fun back =>
  (decide (start = back), [])

/-- The target group of gnark-crypto: `Marshal`, `Unmarshal`, `FinalExponentiation`. -/
structure Target (T : Type) where
  marshal : T → Bytes
  unmarshal : Bytes → Option T
  finalExp : T → T

/-- The target group of another library. -/
structure ForeignTarget (U : Type) where
  marshal : U → Bytes
  unmarshal : Bytes → Option U

/-- One draw of `TestGTSerializationInterop` with cloudflare, bn254/interop_test.go:149-166. -/
def roundTripGT {T U : Type} [DecidableEq T] (S : Target T) (F : ForeignTarget U) (start : T) : Verdict :=
  orLog (F.unmarshal (S.marshal start)) fun other =>
  orFail (S.unmarshal (F.marshal other)) fun back =>
  (decide (start = back), [])

/-- One draw of `TestGTSerializationInterop` with google, bn254/interop_test.go:168-184: nothing is logged. -/
def roundTripGTGoogle {T U : Type} [DecidableEq T] (S : Target T) (F : ForeignTarget U) (start : T) : Verdict :=
  orFail (F.unmarshal (S.marshal start)) fun other =>
  orFail (S.unmarshal (F.marshal other)) fun back =>
  (decide (start = back), [])

/-- One draw of `TestGTSerializationInterop`, bls12-381/interop_test.go:150-168: the drawn element is first moved into the
subgroup. -/
def roundTripGTBls {T U : Type} [DecidableEq T] (S : Target T) (F : ForeignTarget U) (drawn : T) : Verdict :=
  let start := S.finalExp drawn
  orLog (F.unmarshal (S.marshal start)) fun other =>
  orFail (S.unmarshal (F.marshal other)) fun back =>
  (decide (start = back), [])

/-- One draw of the two properties of `TestScalarMultiplicationInterop`, bn254/interop_test.go:196-233 and 235-271. -/
def scalarBody {P Q R : Type} (S : Side P) (g : Foreign Q) (c : Foreign R) (a e : Nat) : Verdict :=
  let start := S.smul S.gen a
  orLog (toForeign S g start) fun gPoint =>
  orLog (toForeign S c start) fun cPoint =>
  let stop := S.smul start e
  orDiffers (g.marshal (g.smul gPoint e)) (S.marshal stop) "scalar multiplication between google and gnark-crypto is different" <|
  orDiffers (c.marshal (c.smul cPoint e)) (S.marshal stop) "scalar multiplication between cloudflare and gnark-crypto is different" <|
  (true, [])

/-- The same for bls12-381, bls12-381/interop_test.go:180-208 and 210-238. -/
def scalarBodyBls {P Q : Type} (S : Side P) (F : Foreign Q) (a e : Nat) : Verdict :=
  let start := S.smul S.gen a
  orLog (F.unmarshal (S.marshal start)) fun other =>
  orDiffers (F.marshal (F.smul other e)) (S.marshal (S.smul start e))
    "scalar multiplication between bls12-381 and gnark-crypto is different" <|
  (true, [])

/-- One draw of `TestPointAdditionInterop`, bn254/interop_test.go:281-373: both points are multiples of the generators, to which the
generators are added. -/
def additionBody {P₁ P₂ Q₁ Q₂ R₁ R₂ : Type} (S₁ : Side P₁) (S₂ : Side P₂) (g₁ : Foreign Q₁) (g₂ : Foreign Q₂) (c₁ : Foreign R₁)
    (c₂ : Foreign R₂) (a : Nat) : Verdict :=
  let p₁ := S₁.smul S₁.gen a
  let p₂ := S₂.smul S₂.gen a
  orLog (toForeign S₁ g₁ p₁) fun g1g =>
  orLog (toForeign S₁ c₁ p₁) fun g1c =>
  orLog (toForeign S₂ g₂ p₂) fun g2g =>
  orLog (toForeign S₂ c₂ p₂) fun g2c =>
  orLog (toForeign S₁ g₁ S₁.gen) fun g1gGen =>
  orLog (toForeign S₁ c₁ S₁.gen) fun g1cGen =>
  orLog (toForeign S₂ g₂ S₂.gen) fun g2gGen =>
  orLog (toForeign S₂ c₂ S₂.gen) fun g2cGen =>
  let r₁ := S₁.add p₁ S₁.gen
  let r₂ := S₂.add p₂ S₂.gen
  orDiffers (S₁.marshal r₁) (c₁.marshal (c₁.add g1c g1cGen)) "g1 point addition doesn't match google implementation" <|
  orDiffers (S₁.marshal r₁) (g₁.marshal (g₁.add g1g g1gGen)) "g1 point addition doesn't match cloudflare implementation" <|
  orDiffers (S₂.marshal r₂) (c₂.marshal (c₂.add g2c g2cGen)) "g2 point addition doesn't match google implementation" <|
  orDiffers (S₂.marshal r₂) (g₂.marshal (g₂.add g2g g2gGen)) "g2 point addition doesn't match cloudflare implementation" <|
  (true, [])

/-- The same for bls12-381, bls12-381/interop_test.go:249-307. -/
def additionBodyBls {P₁ P₂ Q₁ Q₂ : Type} (S₁ : Side P₁) (S₂ : Side P₂) (f₁ : Foreign Q₁) (f₂ : Foreign Q₂) (a : Nat) : Verdict :=
  let p₁ := S₁.smul S₁.gen a
  let p₂ := S₂.smul S₂.gen a
  orFail (f₁.unmarshal (S₁.marshal p₁)) fun otherG1 =>
  orFail (f₁.unmarshal (S₁.marshal S₁.gen)) fun otherG1Gen =>
  orFail (f₂.unmarshal (S₂.marshal p₂)) fun otherG2 =>
  orFail (f₂.unmarshal (S₂.marshal S₂.gen)) fun otherG2Gen =>
  orDiffers (S₁.marshal (S₁.add p₁ S₁.gen)) (f₁.marshal (f₁.add otherG1 otherG1Gen))
    "g1 point addition doesn't match other implementation" <|
  orDiffers (S₂.marshal (S₂.add p₂ S₂.gen)) (f₂.marshal (f₂.add otherG2 otherG2Gen))
    "g2 point addition doesn't match other implementation" <|
  (true, [])

/-- One draw of `TestPairingInterop`, bn254/interop_test.go:384-433. `pair`, `gPair`, `cPair` are the three pairings as bytes; the
error of `bn254.Pair` is ignored. -/
def pairingBody {P₁ P₂ Q₁ Q₂ R₁ R₂ : Type} (S₁ : Side P₁) (S₂ : Side P₂) (g₁ : Foreign Q₁) (g₂ : Foreign Q₂) (c₁ : Foreign R₁)
    (c₂ : Foreign R₂) (pair : P₁ → P₂ → Bytes) (gPair : Q₁ → Q₂ → Bytes) (cPair : R₁ → R₂ → Bytes) (a : Nat) : Verdict :=
  let p₁ := S₁.smul S₁.gen a
  let p₂ := S₂.smul S₂.gen a
  orLog (toForeign S₁ g₁ p₁) fun g1g =>
  orLog (toForeign S₂ g₂ p₂) fun g2g =>
  orLog (toForeign S₁ c₁ p₁) fun g1c =>
  orLog (toForeign S₂ c₂ p₂) fun g2c =>
  orDiffers (pair p₁ p₂) (gPair g1g g2g) "pairing doesn't match google implementation" <|
  orDiffers (pair p₁ p₂) (cPair g1c g2c) "pairing doesn't match cloudflare implementation" <|
  (true, [])

/-- The same for bls12-381, bls12-381/interop_test.go:318-351. -/
def pairingBodyBls {P₁ P₂ Q₁ Q₂ : Type} (S₁ : Side P₁) (S₂ : Side P₂) (f₁ : Foreign Q₁) (f₂ : Foreign Q₂) (pair : P₁ → P₂ → Bytes)
    (fPair : Q₁ → Q₂ → Bytes) (a : Nat) : Verdict :=
  let p₁ := S₁.smul S₁.gen a
  let p₂ := S₂.smul S₂.gen a
  orFail (f₁.unmarshal (S₁.marshal p₁)) fun otherG1 =>
  orFail (f₂.unmarshal (S₂.marshal p₂)) fun otherG2 =>
  orDiffers (pair p₁ p₂) (fPair otherG1 otherG2) "pairing doesn't match other implementation" <|
  (true, [])

/-- `genFp`, bn254/interop_test.go:548-557 and bls12-381/interop_test.go:390-399: `b` are the random bytes (`fp.Bytes` many), `p` is
the prime of the field; `SetBytes` reduces. -/
def genFp (p : Nat) (b : Bytes) : Nat := setBytes b % p

/-- An element of the field of degree twelve, by its coordinates in the order C0.B0.A0, C0.B0.A1, ..., C1.B2.A1. -/
structure Twelve where
  c0b0a0 : Nat
  c0b0a1 : Nat
  c0b1a0 : Nat
  c0b1a1 : Nat
  c0b2a0 : Nat
  c0b2a1 : Nat
  c1b0a0 : Nat
  c1b0a1 : Nat
  c1b1a0 : Nat
  c1b1a1 : Nat
  c1b2a0 : Nat
  c1b2a1 : Nat
  deriving DecidableEq

/-- `genGT`, bn254/interop_test.go:559-606 and bls12-381/interop_test.go:401-448: `n` is `fp.Bytes`, `b` are the `12 * n` random bytes
of line 575 (417), `offset` moves by `n`; the twelve drawn field elements `values` are not used. -/
def genGT (p n : Nat) (_values : List Nat) (b : Bytes) : Twelve :=
  let at_ (offset : Nat) : Nat := setBytes ((b.drop offset).take n) % p
  { c0b0a0 := at_ 0, c0b0a1 := at_ n, c0b1a0 := at_ (n + n), c0b1a1 := at_ (n + n + n), c0b2a0 := at_ (n + n + n + n),
    c0b2a1 := at_ (n + n + n + n + n), c1b0a0 := at_ (n + n + n + n + n + n), c1b0a1 := at_ (n + n + n + n + n + n + n),
    c1b1a0 := at_ (n + n + n + n + n + n + n + n), c1b1a1 := at_ (n + n + n + n + n + n + n + n + n),
    c1b2a0 := at_ (n + n + n + n + n + n + n + n + n + n), c1b2a1 := at_ (n + n + n + n + n + n + n + n + n + n + n) }

end Verif.Model.Interop
