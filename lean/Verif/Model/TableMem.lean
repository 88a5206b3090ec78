import Verif.Model.ProveMem
import Verif.Model.Precompute

/-!
# The precomputation tables on shared memory

precompute/comfromtable.go and precompute/precompute.go with the integers in memory, as in `Model/ProveMem`. The values are natural
numbers here. A table is a list of pointers; nobody writes the slices after the table is made.

Control flow that depends on a value (the length of `x`, its bytes) gets that value as an argument; the integer `x` is read where the
code reads it. The goroutines are joined before the caller multiplies the results. In the code the multiplications begin earlier, but
they touch only the product and integers whose goroutine has sent them and is done with them; `arrival` is the order in which they
are received. The channels are in `Model/Precompute`.
-/

namespace Verif.Model
open Verif.Go Verif.Go.Mem

/-- A new integer with a value that depends on no other. -/
def constM (v : Nat) (k : Nat → MProg) : MProg := .alloc [] (fun _ => v) k

/-- `prod.Mul(&prod, v)`. -/
def mulIntoM (prod v : Nat) (k : MProg) : MProg := .store prod [prod, v] (fun vs => vs.getD 0 0 * vs.getD 1 0) k

/-- `prod.Mod(&prod, N)`. -/
def modIntoM (prod N : Nat) (k : MProg) : MProg := .store prod [prod, N] (fun vs => vs.getD 0 0 % vs.getD 1 0) k

/-- precompute/comfromtable.go:50-54: the loop of `GenPreTable`, `r` rounds left. -/
def genPreTableLoopM (N step : Nat) : Nat → Nat → (List Nat → MProg) → MProg
  | 0, _, k => k []
  | r + 1, prev, k => accumulateNewPowM prev step N fun b => genPreTableLoopM N step r b fun rest => k (b :: rest)

/-- precompute/comfromtable.go:34-57 `GenPreTable`: the bases. The other column is `preTableN`. -/
def genPreTableM (base N bitLen tableSize : Nat) : MProg :=
  if bitLen ≤ tableSize then .panic
  else if tableSize = 0 then .panic
  else copyM base fun b0 => constM (2 ^ (bitLen / tableSize)) fun step =>
    genPreTableLoopM N step (tableSize - 1) b0 fun rest => .ret (b0 :: rest)

/-- precompute/comfromtable.go:46 and 51: the column `n`. -/
def preTableN (bitLen tableSize : Nat) : List Nat := (List.range tableSize).map fun i => i * (bitLen / tableSize)

/-- precompute/comfromtable.go:92-100: the parts of `x`, `r` rounds left, next index `i + 1`. -/
def splitM (n : List Nat) (xCopy : Nat) : Nat → Nat → (List Nat → MProg) → MProg
  | 0, _, k => copyM xCopy fun last => k [last]
  | r + 1, i, k =>
    let d := n.getD (i + 1) 0 - n.getD i 0
    constM (2 ^ d) fun modulo =>
    .alloc [xCopy, modulo] (fun vs => vs.getD 0 0 % vs.getD 1 0) fun sub =>
    .store xCopy [xCopy] (fun vs => vs.getD 0 0 / 2 ^ d) (splitM n xCopy r (i + 1) fun rest => k (sub :: rest))

/-- precompute/comfromtable.go:62-100 and 137-169: the checks and the parts; pairs of base and exponent. `length` is `x.BitLen()`. -/
def tablePartsM (table n : List Nat) (x length : Nat) (k : List (Nat × Nat) → MProg) : MProg :=
  if table.length ≠ n.length then .panic
  else if table.length < 1 then .panic
  else if length < 1 then .panic
  else copyM x fun xCopy => splitM n xCopy (findCounter n length) 0 fun subX => k (table.zip subX)

/-- precompute/comfromtable.go:127-129: the rounds after the first. -/
def tableLoopM (prod N : Nat) : List (Nat × Nat) → MProg → MProg
  | [], k => k
  | p :: ps, k => accumulateNewPowM p.1 p.2 N fun temp => mulIntoM prod temp (modIntoM prod N (tableLoopM prod N ps k))

/-- precompute/comfromtable.go:60-132 `ComputeFromTable`. -/
def computeFromTableM (table n : List Nat) (x length N : Nat) : MProg :=
  tablePartsM table n x length fun parts => constM 1 fun prod =>
    match parts with
    | [] => .ret [prod]
    | p :: ps => accumulateNewPowM p.1 p.2 N fun temp => mulIntoM prod temp (tableLoopM prod N ps (.ret [prod]))

/-- precompute/comfromtable.go:188-191 and precompute/precompute.go:53-55: the received integers are multiplied. -/
def collectM (prod N : Nat) : List Nat → MProg → MProg
  | [], k => k
  | v :: vs, k => mulIntoM prod v (modIntoM prod N (collectM prod N vs k))

/-- precompute/comfromtable.go:203-207 `getAccumulate`. -/
def getAccumulateM (N : Nat) (p : Nat × Nat) : MProg := powerM p.1 N p.2 fun ret => .ret [ret]

/-- precompute/comfromtable.go:135-201 `ComputeFromTableParallel`. -/
def computeFromTableParallelM (arrival : List Nat → List Nat) (table n : List Nat) (x length N : Nat) : MProg :=
  tablePartsM table n x length fun parts => constM 1 fun prod =>
    .fork parts.length (fun i => getAccumulateM N parts[i])
      (fun outs => collectM prod N (arrival ((List.finRange parts.length).flatMap outs)) (.ret [prod]))

/-- precompute/precompute.go:30-32: the loop of `NewTable`. -/
def newTableLoopM (N opt : Nat) : Nat → Nat → (List Nat → MProg) → MProg
  | 0, _, k => k []
  | r + 1, prev, k => powerM prev N opt fun b => newTableLoopM N opt r b fun rest => k (b :: rest)

/-- precompute/precompute.go:19-34 `NewTable` for `numByteChunks` entries; `t.g` and `t.n` are the arguments themselves. -/
def newTableM (g N numByteChunks byteChunkSize : Nat) : MProg :=
  if numByteChunks = 0 then .panic
  else copyM g fun b0 => constM (2 ^ (byteChunkSize * 8)) fun opt =>
    newTableLoopM N opt (numByteChunks - 1) b0 fun rest => .ret (b0 :: rest)

/-- precompute/precompute.go:88-99: the loop of `routineCompute` on the inputs that this worker takes; `opt` is overwritten in every
round. -/
def routineLoopM (table : List Nat) (N opt : Nat) (xBytes : Bytes) : List Input → (List Nat → MProg) → MProg
  | [], k => k []
  | i :: is, k =>
    .store opt [] (fun _ => setBytes (slice xBytes i.left i.right)) <|
    match table[i.tableIdx]? with
    | none => .panic
    | some b => powerM b N opt fun res => routineLoopM table N opt xBytes is fun rest => k (res :: rest)

/-- precompute/precompute.go:85-100 `routineCompute`. -/
def routineComputeM (table : List Nat) (N : Nat) (xBytes : Bytes) (is : List Input) : MProg :=
  constM 0 fun opt => routineLoopM table N opt xBytes is .ret

/-- precompute/precompute.go:37-77 `Compute` with `numRoutine` workers; `taken i` are the inputs that worker `i` takes. -/
def tableComputeM (arrival : List Nat → List Nat) (table : List Nat) (N x : Nat) (xBytes : Bytes) (numRoutine : Nat)
    (taken : Fin numRoutine → List Input) : MProg :=
  copyM x fun _ => constM 1 fun res =>
    .fork numRoutine (fun i => routineComputeM table N xBytes (taken i))
      (fun outs => collectM res N (arrival ((List.finRange numRoutine).flatMap outs)) (.ret [res]))

end Verif.Model
