import Verif.Model.Hashes

/-!
# fiat-shamir/transcript.go

SHA-256 and `ProbablyPrime` are the arbitrary functions of `Env`. `HashToPrime` loops until the primality test accepts;
`fuel` bounds the number of tests and `none` means that the bound was too small.
-/

namespace Verif.Model
open Verif.Go

/-- fiat-shamir/transcript.go:17 `ChallengeLength` (a `uint32`). -/
abbrev ChallengeLength := UInt32

/-- fiat-shamir/transcript.go:25: `iota` is 2 on this line of the block. -/
def lenDefault : ChallengeLength := 2

/-- fiat-shamir/transcript.go:27. -/
def lenMax252 : ChallengeLength := 3

/-- fiat-shamir/transcript.go:9-14: `1 << (bitLimit - 1)` with `bitLimit = 240`. -/
def min253 : Nat := 2 ^ (240 - 1)

/-- fiat-shamir/transcript.go:31-34 `Transcript`; the slice `info` is its list of strings (see `Model/SliceHeap.lean` for
the memory). -/
structure Transcript where
  info : List Bytes
  maxlength : ChallengeLength
deriving DecidableEq, Repr

/-- fiat-shamir/transcript.go:45-51 `InitTranscript`. -/
def initTranscript (input : List Bytes) (length : ChallengeLength) : Transcript :=
  { info := [] ++ input, maxlength := length }

/-- fiat-shamir/transcript.go:54-56 `Append`. -/
def Transcript.append (t : Transcript) (newInfo : Bytes) : Transcript := { t with info := t.info ++ [newInfo] }

/-- fiat-shamir/transcript.go:59-61 `AppendSlice`. -/
def Transcript.appendSlice (t : Transcript) (newInfo : List Bytes) : Transcript := { t with info := t.info ++ newInfo }

/-- fiat-shamir/transcript.go:87-101 `wrapNumber`. -/
def wrapNumber (input : Bytes) (length : ChallengeLength) : Nat :=
  let ret := setBytes input
  if length = lenDefault then ret
  else if length = lenMax252 then (if ret ≠ min253 then ret % min253 else ret)
  else ret

/-- fiat-shamir/transcript.go:107-112 and 135-140: the bytes written to the hash. -/
def hashInput (input : List Bytes) : Bytes := input.foldl (fun acc s => acc ++ s) []

/-- fiat-shamir/transcript.go:116-127: the loop of `HashToPrime`. -/
def fsPrimeLoop (E : Env) (length : ChallengeLength) : Nat → Nat → Option Nat
  | 0, _ => none
  | fuel + 1, ret =>
    if E.probablyPrime ret then some ret
    else fsPrimeLoop E length fuel (wrapNumber (E.sha256 (natBytes ret)) length)

/-- fiat-shamir/transcript.go:105-129 `HashToPrime`. -/
def fsHashToPrime (E : Env) (fuel : Nat) (input : List Bytes) (length : ChallengeLength) : Option Nat :=
  fsPrimeLoop E length fuel (wrapNumber (E.sha256 (hashInput input)) length)

/-- fiat-shamir/transcript.go:133-144 `HashToInt`. -/
def fsHashToInt (E : Env) (input : List Bytes) (length : ChallengeLength) : Nat :=
  wrapNumber (E.sha256 (hashInput input)) length

/-- fiat-shamir/transcript.go:64-69 `GetChallengeAndAppendTranscript`. -/
def Transcript.getChallengeAndAppend (E : Env) (fuel : Nat) (t : Transcript) : Option (Nat × Transcript) := do
  let ret ← fsHashToPrime E fuel t.info t.maxlength
  return (ret, t.append (itoa ret))

/-- fiat-shamir/transcript.go:72-77 `GetPrimeChallengeUsingTranscript`. -/
def Transcript.getPrimeChallenge (E : Env) (fuel : Nat) (t : Transcript) : Option (Nat × Transcript) := do
  let ret ← fsHashToPrime E fuel t.info t.maxlength
  return (ret, t.append (itoa ret))

/-- fiat-shamir/transcript.go:80-85 `GetIntChallengeUsingTranscript`. -/
def Transcript.getIntChallenge (E : Env) (t : Transcript) : Nat × Transcript :=
  let ret := fsHashToInt E t.info t.maxlength
  (ret, t.append (itoa ret))

/-- One call of a method of `Transcript`. -/
inductive TOp where
  | append (s : Bytes)
  | appendSlice (l : List Bytes)
  | challenge
  | primeChallenge
  | intChallenge
deriving DecidableEq, Repr

/-- A sequence of calls: the challenges returned, in order, and the final transcript. -/
def runOps (E : Env) (fuel : Nat) : Transcript → List TOp → Option (List Nat × Transcript)
  | t, [] => some ([], t)
  | t, .append s :: ops => runOps E fuel (t.append s) ops
  | t, .appendSlice l :: ops => runOps E fuel (t.appendSlice l) ops
  | t, .challenge :: ops => do
    let (c, t') ← t.getChallengeAndAppend E fuel
    let (cs, t'') ← runOps E fuel t' ops
    return (c :: cs, t'')
  | t, .primeChallenge :: ops => do
    let (c, t') ← t.getPrimeChallenge E fuel
    let (cs, t'') ← runOps E fuel t' ops
    return (c :: cs, t'')
  | t, .intChallenge :: ops =>
    let (c, t') := t.getIntChallenge E
    match runOps E fuel t' ops with
    | none => none
    | some (cs, t'') => some (c :: cs, t'')

end Verif.Model
