import Verif.Go.Run
import Verif.Go.Bytes
import Verif.Go.BigInt
import Mathlib.Data.Nat.Size

/-!
# precompute/comfromtable.go and precompute/precompute.go

Lengths and table indices are unbounded; `Model/IntTable` has `NewTable` and `Compute` with the `int` of Go.
-/

namespace Verif.Model
open Verif.Go

/-- accumulator/accumulator.go:225-229 `AccumulateNew` on integers: the receiver of `Exp` is a copy of `g`, which is returned if
`Exp` fails. -/
def accumulateInt (g power N : Int) : Int := (bigExp g power N).getD g

/-- accumulator/accumulator.go:231-236 and 252-255 `accumulate` and `accumulateNew` on integers: the receiver of `Exp` is `g`
itself, which stays as it is if `Exp` fails. -/
def accumulateIntSet (g N : Int) (set : List Int) : Int := set.foldl (fun g v => (bigExp g v N).getD g) g

/-! ## comfromtable.go -/

/-- precompute/comfromtable.go:20-23 `PreTable`. -/
structure PreTable where
  base : List Int
  n : List Nat
deriving DecidableEq, Repr

/-- precompute/comfromtable.go:50-54: the loop, `k` rounds left, last entries `b` and `m`. -/
def genPreTableLoop (N : Int) (stepSize : Nat) : Nat → Int → Nat → List Int × List Nat
  | 0, _, _ => ([], [])
  | k + 1, b, m =>
    let step : Int := (bigExp 2 stepSize 0).getD 0
    let m' := m + stepSize
    let b' := accumulateInt b step N
    let rest := genPreTableLoop N stepSize k b' m'
    (b' :: rest.1, m' :: rest.2)

/-- precompute/comfromtable.go:34-57 `GenPreTable`. -/
def genPreTable (base N : Int) (bitLen tableSize : Int) : Res PreTable :=
  if bitLen ≤ tableSize then goPanic "invalid table size, larger than intput bitLen"
  else if tableSize < 0 then goPanic "makeslice: len out of range"
  else if tableSize = 0 then goPanic "integer divide by zero"
  else
    let stepSize := (bitLen / tableSize).toNat
    let rest := genPreTableLoop N stepSize (tableSize.toNat - 1) base 0
    .ok { base := base :: rest.1, n := 0 :: rest.2 }

/-- precompute/comfromtable.go:80-87: number of the first entry with `n[i] ≥ length`, capped at the last index. -/
def findCounter (n : List Nat) (length : Nat) : Nat :=
  let i := n.findIdx (fun v => decide (v ≥ length))
  if i = n.length then i - 1 else i

/-- precompute/comfromtable.go:92-100: the parts of `x`. `k` rounds left, next index `i + 1`. -/
def splitLoop (n : List Nat) : Nat → Nat → Int → List Int
  | 0, _, xCopy => [xCopy]
  | k + 1, i, xCopy =>
    let d := n.getD (i + 1) 0 - n.getD i 0
    let modulo : Int := (bigExp 2 d 0).getD 0
    (xCopy % modulo) :: splitLoop n k (i + 1) (xCopy / 2 ^ d)

/-- precompute/comfromtable.go:62-100 and 137-169: the checks and the splitting shared by both functions; the pairs of base and
exponent. -/
def tableParts (t : PreTable) (x : Int) : Res (List (Int × Int)) :=
  if t.base.length ≠ t.n.length then goPanic "invalid pre-compute table, unbalanced"
  else if t.base.length < 1 then goPanic "invalid pre-compute table, too small"
  else if x < 1 then goPanic "invalid x, negative"
  else
    let iCounter := findCounter t.n x.natAbs.size
    .ok (t.base.zip (splitLoop t.n iCounter 0 x))

/-- precompute/comfromtable.go:60-132 `ComputeFromTable`: the first product is not reduced separately. -/
def computeFromTable (t : PreTable) (x N : Int) : Res Int := do
  let parts ← tableParts t x
  match parts with
  | [] => .ok 1
  | p :: ps => .ok (ps.foldl (fun prod q => prod * accumulateInt q.1 q.2 N % N) (1 * accumulateInt p.1 p.2 N))

/-! ### precompute/comfromtable.go:135-201 `ComputeFromTableParallel` as a transition system -/

namespace TableParallel

/-- precompute/comfromtable.go:186-200: the caller. -/
inductive MainSt where
  /-- in the `range` loop of lines 188-198 with counter `i` -/
  | loop (i : Nat) (prod : Int)
  | returned (prod : Int)
deriving DecidableEq, Repr

/-- Global state of precompute/comfromtable.go:171-200. `pending`: goroutines that have not sent yet. -/
structure State where
  pending : List (Int × Int)
  queue : List Int
  closed : Bool
  main : MainSt
  crashed : Bool
deriving DecidableEq, Repr

/-- precompute/comfromtable.go:174-184: all goroutines started, channel of capacity `iCounter` (one less than the number of goroutines). -/
def init (parts : List (Int × Int)) : State :=
  { pending := parts, queue := [], closed := false, main := .loop 0 1, crashed := false }

/-- precompute/comfromtable.go:203-207 `getAccumulate`, the value sent. -/
def value (N : Int) (p : Int × Int) : Int := (bigExp p.1 p.2 N).getD 0

/-- One step of precompute/comfromtable.go:186-207; the scheduler chooses. `total` is `iCounter + 1`. -/
inductive Step (N : Int) (total : Nat) : State → State → Prop
  /-- line 206: send into the buffer -/
  | send (s : State) (l r : List (Int × Int)) (p : Int × Int) :
      s.crashed = false → s.pending = l ++ p :: r → s.closed = false → s.queue.length < total - 1 →
      Step N total s { s with pending := l ++ r, queue := s.queue ++ [value N p] }
  /-- lines 206 and 188-193: direct hand-over to the waiting caller, not the last value -/
  | hand (s : State) (l r : List (Int × Int)) (p : Int × Int) (i : Nat) (prod : Int) :
      s.crashed = false → s.pending = l ++ p :: r → s.closed = false → s.queue = [] → s.main = .loop i prod →
      i + 1 ≠ total →
      Step N total s { s with pending := l ++ r, main := .loop (i + 1) (prod * value N p % N) }
  /-- lines 206 and 188-198: direct hand-over of the last value; `close(c)`, `break`, `return` -/
  | handLast (s : State) (l r : List (Int × Int)) (p : Int × Int) (i : Nat) (prod : Int) :
      s.crashed = false → s.pending = l ++ p :: r → s.closed = false → s.queue = [] → s.main = .loop i prod →
      i + 1 = total →
      Step N total s { s with pending := l ++ r, main := .returned (prod * value N p % N), closed := true }
  /-- send on a closed channel -/
  | sendClosed (s : State) (l r : List (Int × Int)) (p : Int × Int) :
      s.crashed = false → s.pending = l ++ p :: r → s.closed = true → Step N total s { s with crashed := true }
  /-- lines 188-193: receive from the buffer -/
  | recv (s : State) (i : Nat) (prod v : Int) (q : List Int) :
      s.crashed = false → s.queue = v :: q → s.main = .loop i prod → i + 1 ≠ total →
      Step N total s { s with queue := q, main := .loop (i + 1) (prod * v % N) }
  /-- lines 188-198: receive the last value -/
  | recvLast (s : State) (i : Nat) (prod v : Int) (q : List Int) :
      s.crashed = false → s.queue = v :: q → s.main = .loop i prod → i + 1 = total → s.closed = false →
      Step N total s { s with queue := q, main := .returned (prod * v % N), closed := true }
  /-- the `range` loop ends because the channel is closed and empty -/
  | rangeEnd (s : State) (i : Nat) (prod : Int) :
      s.crashed = false → s.queue = [] → s.closed = true → s.main = .loop i prod →
      Step N total s { s with main := .returned prod }

end TableParallel

/-! ## precompute.go -/

/-- precompute/precompute.go:11-16 `Table` (chunk size in bytes). -/
structure Table where
  n : Int
  byteChunkSize : Nat
  table : List Int
deriving DecidableEq, Repr

/-- precompute/precompute.go:30-32: `k` entries after `b`. -/
def newTableLoop (n : Int) (opt : Int) : Nat → Int → List Int
  | 0, _ => []
  | k + 1, b => let b' := (bigExp b opt n).getD 0; b' :: newTableLoop n opt k b'

/-- precompute/precompute.go:19-34 `NewTable`. -/
def newTable (g n : Int) (elementUpperBound : Int) (numElements : Nat) (byteChunkSize : Nat) : Res Table :=
  let maxBitLen := elementUpperBound.natAbs.size * numElements
  if byteChunkSize = 0 then goPanic "integer divide by zero"
  else
    let numByteChunks := maxBitLen / (byteChunkSize * 8)
    if numByteChunks = 0 then goPanic "index out of range"
    else .ok { n := n, byteChunkSize := byteChunkSize,
               table := g :: newTableLoop n (2 ^ (byteChunkSize * 8)) (numByteChunks - 1) g }

/-- precompute/precompute.go:79-83 `input`. -/
structure Input where
  left : Nat
  right : Nat
  tableIdx : Nat
deriving DecidableEq, Repr

/-- precompute/precompute.go:63-75: the inputs in the order in which they are sent, from position `i`. For a chunk size
of 0 the Go loop never ends; no such table exists. -/
def inputs (c len : Nat) (i : Nat) : List Input :=
  if h : 0 < i ∧ 0 < c then
    { left := i - c, right := i, tableIdx := (len - i) / c } :: inputs c len (i - c)
  else []
termination_by i

/-- precompute/precompute.go:93-94: the result for one input; `none`: index or slice out of range. -/
def chunkValue (t : Table) (xBytes : Bytes) (i : Input) : Option Int :=
  if i.left ≤ i.right ∧ i.right ≤ xBytes.length then
    (t.table[i.tableIdx]?).map (fun b => (bigExp b (setBytes (slice xBytes i.left i.right)) t.n).getD 0)
  else none

namespace TableCompute

/-- Worker goroutine, lines 85-100. -/
inductive Worker where
  | idle
  | got (i : Input)
  /-- blocked in line 95 -/
  | sending (v : Int)
  | stopped
deriving DecidableEq, Repr

/-- Collector goroutine, lines 47-62. -/
inductive ColSt where
  /-- in the `range` loop -/
  | running (counter : Int) (res : Int)
  /-- blocked in line 58 -/
  | sending (res : Int)
  | finished
deriving DecidableEq, Repr

/-- Caller. -/
inductive MainSt where
  /-- in the loop of lines 63-75 or in line 76 (nothing left) -/
  | dispatch (rest : List Input)
  | returned (res : Int)
deriving DecidableEq, Repr

/-- Global state. -/
structure State where
  main : MainSt
  inQ : List Input
  workers : List Worker
  outQ : List Int
  col : ColSt
  crashed : Bool
deriving DecidableEq, Repr

/-- lines 49-52 -/
def counter0 (t : Table) (xBytes : Bytes) : Nat :=
  if xBytes.length % t.byteChunkSize ≠ 0 then xBytes.length / t.byteChunkSize + 1
  else xBytes.length / t.byteChunkSize

/-- State after lines 38-62 of `Compute(x, k)`. -/
def init (t : Table) (xBytes : Bytes) (k : Nat) : State :=
  { main := .dispatch (inputs t.byteChunkSize xBytes.length xBytes.length), inQ := [],
    workers := List.replicate k .idle, outQ := [], col := .running (counter0 t xBytes) 1, crashed := false }

/-- One step of `Compute(x, k)`; the scheduler chooses. The channels have capacities `4k` and `k`. The `default` branch
of the worker's `select` changes nothing and is not a step here. -/
inductive Step (t : Table) (xBytes : Bytes) (k : Nat) : State → State → Prop
  /-- line 70 -/
  | dispatch (s : State) (i : Input) (rest : List Input) :
      s.crashed = false → s.main = .dispatch (i :: rest) → s.inQ.length < 4 * k →
      Step t xBytes k s { s with main := .dispatch rest, inQ := s.inQ ++ [i] }
  /-- line 92 -/
  | take (s : State) (l r : List Worker) (i : Input) (q : List Input) :
      s.crashed = false → s.workers = l ++ .idle :: r → s.inQ = i :: q →
      Step t xBytes k s { s with workers := l ++ .got i :: r, inQ := q }
  /-- lines 93-94 -/
  | compute (s : State) (l r : List Worker) (i : Input) (v : Int) :
      s.crashed = false → s.workers = l ++ .got i :: r → chunkValue t xBytes i = some v →
      Step t xBytes k s { s with workers := l ++ .sending v :: r }
  /-- lines 93-94: index out of range, the program crashes -/
  | computePanic (s : State) (l r : List Worker) (i : Input) :
      s.crashed = false → s.workers = l ++ .got i :: r → chunkValue t xBytes i = none →
      Step t xBytes k s { s with crashed := true }
  /-- line 95 -/
  | put (s : State) (l r : List Worker) (v : Int) :
      s.crashed = false → s.workers = l ++ .sending v :: r → s.outQ.length < k →
      Step t xBytes k s { s with workers := l ++ .idle :: r, outQ := s.outQ ++ [v] }
  /-- lines 53-56: not the last value -/
  | collect (s : State) (cnt res v : Int) (q : List Int) :
      s.crashed = false → s.col = .running cnt res → s.outQ = v :: q → cnt - 1 ≠ 0 →
      Step t xBytes k s { s with col := .running (cnt - 1) (res * v % t.n), outQ := q }
  /-- lines 53-58 -/
  | collectLast (s : State) (cnt res v : Int) (q : List Int) :
      s.crashed = false → s.col = .running cnt res → s.outQ = v :: q → cnt - 1 = 0 →
      Step t xBytes k s { s with col := .sending (res * v % t.n), outQ := q }
  /-- lines 58 and 76: hand over on `resChan`; `cancel` runs -/
  | handOver (s : State) (res : Int) :
      s.crashed = false → s.main = .dispatch [] → s.col = .sending res →
      Step t xBytes k s { s with main := .returned res, col := .finished }
  /-- line 90: after the return an idle worker sees the cancelled context -/
  | stop (s : State) (l r : List Worker) (res : Int) :
      s.crashed = false → s.workers = l ++ .idle :: r → s.main = .returned res →
      Step t xBytes k s { s with workers := l ++ .stopped :: r }

end TableCompute

end Verif.Model
