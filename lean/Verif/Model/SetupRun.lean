import Verif.Model.RandomSource
import Verif.Model.Setup
import Verif.Model.Printing

/-!
# The setup functions with their output and a random source that may fail

accumulator/common.go:230-409 once more. `Model/Setup` takes the drawn numbers as streams and returns the parameters; here each
call of `crand.Prime` and `crand.Int` gives a number or an error, the calls are numbered, and the printed text is part of the
result, also if the function panics. The object of `Draw` is the text that was printed so far.
-/

namespace Verif.Model
open Verif.Go

/-- The random source of the setup: what the call with this number gives, `none` for an error. `prime` is asked for a number of
bits, `int` for a limit. -/
structure SetupSource where
  prime : Nat → Nat → Option Nat
  int : Nat → Nat → Option Nat

/-- `crand.Prime(crand.Reader, bits)`; an error for fewer than two bits. -/
def randPrime {P : Type} (S : SetupSource) (bits : Nat) : Draw P Nat := fun s =>
  if bits < 2 then (.error .error, s)
  else
    match S.prime s.log.length bits with
    | some v => (.ok v, { s with log := s.log ++ [some (v : Int)] })
    | none => (.error .error, { s with log := s.log ++ [none] })

/-- `crand.Int(crand.Reader, max)`; panics for 0. -/
def randBelow {P : Type} (S : SetupSource) (max : Nat) : Draw P Nat := fun s =>
  if max = 0 then (.error .panic, s)
  else
    match S.int s.log.length max with
    | some v => (.ok v, { s with log := s.log ++ [some (v : Int)] })
    | none => (.error .error, { s with log := s.log ++ [none] })

/-- `fmt.Println(label, text)`. -/
def printTwo (label : String) (text : Bytes) : Draw Bytes Unit := Draw.write (fun out => out ++ printLine [ascii label, text])

/-- accumulator/common.go:346-364 `getSuitablePrime`; `RSABitLength/2-1` is 1023. -/
def getSuitablePrimeDraw (S : SetupSource) (test : Nat → Bool) : Nat → Draw Bytes Nat
  | 0 => Draw.stop .loop
  | fuel + 1 => do
    let ranNum ← Draw.mustReturn (randPrime S (2048 / 2 - 1))
    if safePrimeSieve ranNum = false then getSuitablePrimeDraw S test fuel
    else if test ranNum = false then getSuitablePrimeDraw S test fuel
    else return ranNum

/-- accumulator/common.go:367-383 `getSafePrime`, with the line it prints. -/
def getSafePrimeDraw (S : SetupSource) (test : Nat → Bool) : Nat → Draw Bytes Nat
  | 0 => Draw.stop .loop
  | fuel + 1 => do
    let r ← getSuitablePrimeDraw S test (fuel + 1)
    let ranNum := r * 2 + 1
    if test ranNum = false then getSafePrimeDraw S test fuel
    else do
      printTwo "Found one safe prime = " (itoa ranNum)
      return ranNum

/-- accumulator/common.go:385-403 `getRanQR`. -/
def getRanQRDraw (S : SetupSource) (p q : Nat) : Nat → Draw Bytes Nat
  | 0 => Draw.stop .loop
  | fuel + 1 => do
    let ranNum ← Draw.mustReturn (randBelow S min2048)
    let flag ← Draw.res (isQR ranNum p q)
    if flag = false then getRanQRDraw S p q fuel else return ranNum

/-- What `TrustedSetupForQRN` computes. -/
structure SetupResult where
  N : Nat
  g : Nat
  h : Int
  p : Nat
  q : Nat
deriving DecidableEq, Repr

/-- accumulator/common.go:231-251 `TrustedSetupForQRN`. -/
def trustedSetupDraw (S : SetupSource) (test : Nat → Bool) (fuel : Nat) : Draw Bytes SetupResult := do
  let p ← getSafePrimeDraw S test fuel
  let q ← getSafePrimeDraw S test fuel
  printTwo "Bit length of p = " (itoa p.size)
  printTwo "Bit length of q = " (itoa q.size)
  let N := p * q
  let g ← getRanQRDraw S p q fuel
  let r ← Draw.mustReturn (randPrime S 2048)
  let order := getOrder p q
  let randomNum : Int := (r : Int) % order
  let h := (bigExp g randomNum N).getD 0
  printTwo "N = " (itoa N)
  printTwo "g = " (itoa g)
  printTwo "h = " (intString h)
  return ⟨N, g, h, p, q⟩

/-- accumulator/common.go:269-283 `getPrime256`; `securityPara*2` is 256. -/
def getPrime256Draw (S : SetupSource) (test : Nat → Bool) : Nat → Draw Bytes Nat
  | 0 => Draw.stop .loop
  | fuel + 1 => do
    let ranNum ← Draw.mustReturn (randPrime S (128 * 2))
    if test ranNum = false then getPrime256Draw S test fuel else return ranNum

/-- accumulator/common.go:254-267 `RandomSetupForUniversalHash`. -/
def randomSetupDraw (S : SetupSource) (test : Nat → Bool) (fuel : Nat) : Draw Bytes (Nat × Nat × Nat) := do
  let p ← getPrime256Draw S test fuel
  let a ← Draw.mustReturn (randBelow S p)
  let b ← Draw.mustReturn (randBelow S p)
  printTwo "P = " (itoa p)
  printTwo "A = " (itoa a)
  printTwo "B = " (itoa b)
  return (p, a, b)

/-- A program starts without draws and without output. -/
def freshCell : Cell Bytes := ⟨[], []⟩

end Verif.Model
