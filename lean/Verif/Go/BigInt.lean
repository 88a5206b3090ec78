import Mathlib.Data.Int.GCD

/-!
# `math/big` operations used by the proofs (Go 1.19 sources of `math/big/int.go` as reference)

Integers are Lean integers. The library's arithmetic is trusted (see DESIGN.md); what is written down here is which
value each call returns, in particular for negative exponents and missing inverses.
-/

namespace Verif.Go

/-- `new(big.Int).ModInverse(g, n)`: `none` stands for the nil pointer returned if `g` and `n` are not relatively
prime. Otherwise the inverse in `[0, |n|)`. -/
def modInverse (g n : Int) : Option Int :=
  if Int.gcd g n = 1 then some (Int.gcdA (g % n) n % n) else none

/-- `z.Exp(x, y, m)`; `m = 0` also stands for a nil modulus. `none`: the call returns nil (and leaves `z` as it was).
The sign correction at the end of the Go function looks at the sign of `x` even if `x` was replaced by its inverse. -/
def bigExp (x y m : Int) : Option Int :=
  if m = 0 then
    some (if y ≤ 0 then 1 else x ^ y.natAbs)
  else
    let base : Option Int := if y < 0 then modInverse x m else some (x.natAbs : Int)
    base.map (fun b : Int =>
      let z : Int := b ^ y.natAbs % m
      if z ≠ 0 ∧ x < 0 ∧ y % 2 = 1 then (m.natAbs : Int) - z else z)

end Verif.Go
