import Verif.Model.Hashes
import Verif.Model.Products
import Verif.Model.Setup

/-! # `GenerateG` -/

namespace Verif.Model
open Verif.Go

/-- accumulator/common.go:83-87: `k` numbers; the first is the hash of `input`, every other one the hash of the bytes of the one
before it. -/
def generateGBuffer (E : Env) : Nat → Bytes → List Nat
  | 0, _ => []
  | k + 1, input => sha256ToInt E input :: generateGBuffer E k (natBytes (sha256ToInt E input))

/-- accumulator/common.go:82-100 `GenerateG` for the modulus `N` (in the code `N2048String`, which is hashed as the string of its
decimal digits): the number that is printed, the greatest common divisor, and if the message of lines 96-98 is printed. -/
def generateG (E : Env) (N : Nat) : Nat × Nat × Bool :=
  let buffer := generateGBuffer E 8 (itoa N)
  let prod := setProduct buffer
  let prod := prod % N
  let gcd := Nat.gcd N prod
  (prod, gcd, gcd ≠ 1)

end Verif.Model
