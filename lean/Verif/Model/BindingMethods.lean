import Verif.Model.VerifierCode
import Verif.Model.PairingCode

/-!
# The other methods of the Go binding

zkmultiswap/gnark-tests/solidity/solidity_groth16.go:47-61, 159-203, 220-233, 332-376 and 398-407: the methods of `PairingRaw`,
`VerifierRaw` and of the types for reading and writing only, which all hand over to `bind.BoundContract`, and the sessions.

`bind.BoundContract` belongs to go-ethereum (v1.12.0, go.mod:8) and is external. It is taken to do what it documents: `Call`
and `Transact` pack the name of a method and its arguments by the ABI; the empty name stands for the constructor, which has
no arguments here. `Transfer` sends no data. A transaction that is sent is executed with the value of its options; if it does not
succeed, its value is not taken. Not modelled: the choice of gas and nonce, signatures, the block of a call, and the check of
`transact` that estimates the gas before sending (it refuses only transactions that would fail).
-/

namespace Verif.Model.EvmMachine

open Verif.Go

/-- The arguments `params` of a raw call: none, those of `verifyProof`, or any others. -/
inductive RawArgs
  | none
  | proof (a b0 b1 c : Int × Int) (input : Fin 7 → Int)
  | other

/-- The methods in the ABI of `Verifier`, zkmultiswap/gnark-tests/solidity/solidity_groth16.go:207. -/
def verifierMethods : List String := ["verifyProof"]

/-- The methods in the ABI of `Pairing`, zkmultiswap/gnark-tests/solidity/solidity_groth16.go:34: there are none. -/
def pairingMethods : List String := []

/-- `abi.Pack` of go-ethereum for an ABI in which each method has the arguments of `verifyProof`, as called at
zkmultiswap/gnark-tests/solidity/solidity_groth16.go:172, 183, 345 and 356. -/
def packCall (methods : List String) (method : String) (args : RawArgs) : Res Bytes :=
  if method = "" then
    match args with
    | .none => .ok []
    | _ => .error "argument count mismatch"
  else if method ∈ methods then
    match args with
    | .proof a b0 b1 c input => .ok (callData a b0 b1 c input)
    | _ => .error "argument mismatch"
  else .error "method not found"

/-- `VerifierRaw.Call`, zkmultiswap/gnark-tests/solidity/solidity_groth16.go:344-346 (and 363-365), with an empty list for the
results. The result of `verifyProof` is a truth value; no other method has a result. -/
def verifierRawCall (E : Solidity.Evm) (gas : Nat → Nat) (fuel : Nat) (method : String) (args : RawArgs) : Option (Res Bool) :=
  match packCall verifierMethods method args with
  | .error m => some (.error m)
  | .ok data =>
    match run verifierCode ⟨0, data, gas, E⟩ fuel with
    | none => none
    | some (.returned l) => if method = "" then some (.error "abi: could not locate named method or event") else some (unpackBool l)
    | some _ => some (.error "execution failed")

/-- `VerifierSession.VerifyProof` and `VerifierCallerSession.VerifyProof`,
zkmultiswap/gnark-tests/solidity/solidity_groth16.go:398-400 and 405-407: the method with the options of the session. -/
def sessionVerifyProof (E : Solidity.Evm) (gas : Nat → Nat) (fuel : Nat) (a b0 b1 c : Int × Int) (input : Fin 7 → Int) :
    Option (Res Bool) := bindingVerifyProof E gas fuel a b0 b1 c input

/-- A transaction made with the binding: `Transfer` (zkmultiswap/gnark-tests/solidity/solidity_groth16.go:177-179, 196-198,
350-352, 369-371) or `Transact` (182-184, 201-203, 355-357, 374-376). -/
inductive TxCall
  | transfer
  | transact (method : String) (args : RawArgs)

/-- The data of the transaction. -/
def TxCall.data (methods : List String) : TxCall → Res Bytes
  | .transfer => .ok []
  | .transact method args => packCall methods method args

/-- What is at an address. -/
structure Account where
  code : List Nat
  balance : Nat

/-- What surrounds a transaction: its value, the numbers that `GAS` reads, the precompiled contracts. -/
structure TxWorld where
  value : Nat
  gas : Nat → Nat
  evm : Solidity.Evm

/-- `DeployVerifier`, zkmultiswap/gnark-tests/solidity/solidity_groth16.go:220-233: the account it leaves, if it succeeds. -/
def deployVerifier (t : TxWorld) (fuel : Nat) : Option Account :=
  match run deployCode ⟨t.value, [], t.gas, t.evm⟩ fuel with
  | some (.returned l) => some ⟨l, t.value⟩
  | _ => none

/-- `DeployPairing`, zkmultiswap/gnark-tests/solidity/solidity_groth16.go:47-61, for the address `self`. -/
def deployPairing (self : Nat) (t : TxWorld) (fuel : Nat) : Option Account :=
  match runLib pairingDeploy self ⟨t.value, [], t.gas, t.evm⟩ fuel with
  | some (.returned l) => some ⟨l, t.value⟩
  | _ => none

/-- Whether the transaction was executed with success, and the account after it. -/
def Account.receive (acc : Account) (value : Nat) : Option Outcome → Bool × Account
  | some (.returned _) => (true, { acc with balance := acc.balance + value })
  | _ => (false, acc)

/-- A transaction to the contract `Verifier`. One that cannot be packed is not sent. -/
def sendVerifier (fuel : Nat) (acc : Account) (t : TxWorld) (c : TxCall) : Bool × Account :=
  match c.data verifierMethods with
  | .error _ => (false, acc)
  | .ok data => acc.receive t.value (run (Code.ofBytes acc.code) ⟨t.value, data, t.gas, t.evm⟩ fuel)

/-- A transaction to the library `Pairing` at the address `self`. -/
def sendPairing (self fuel : Nat) (acc : Account) (t : TxWorld) (c : TxCall) : Bool × Account :=
  match c.data pairingMethods with
  | .error _ => (false, acc)
  | .ok data => acc.receive t.value (runLib (Code.ofBytes acc.code) self ⟨t.value, data, t.gas, t.evm⟩ fuel)

/-- Transactions in a row. -/
def sendAll (send : Account → TxWorld → TxCall → Bool × Account) (acc : Account) (l : List (TxWorld × TxCall)) : Account :=
  l.foldl (fun acc x => (send acc x.1 x.2).2) acc

end Verif.Model.EvmMachine
