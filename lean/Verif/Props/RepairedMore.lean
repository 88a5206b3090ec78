import Verif.Props.Transcript
import Verif.Props.RandomSource
import Verif.Props.SnarkFlow

/-!
# Further functions with small repairs (C37, C87, C132)

As in RepairedSmall: the function is changed where the counterexample of the property comes from, and the property is proved.
-/

namespace Verif.Props
open Verif.Go Verif.Model Verif.Model.SnarkFlow Verif.Spec Verif.Lemmas Verif.Lemmas.SnarkFlow

/-! ## C37: reduce the value 2^239 too -/

/-- fiat-shamir/transcript.go:87-101 `wrapNumber` without the comparison of line 94. -/
def wrapNumberRepaired (input : Bytes) (length : ChallengeLength) : Nat :=
  let ret := setBytes input
  if length = lenDefault then ret
  else if length = lenMax252 then ret % min253
  else ret

/-- fiat-shamir/transcript.go:116-127: the loop of `HashToPrime` with the repaired `wrapNumber`. -/
def primeLoopRepaired (E : Env) (length : ChallengeLength) : Nat → Nat → Option Nat
  | 0, _ => none
  | fuel + 1, ret =>
    if E.probablyPrime ret then some ret
    else primeLoopRepaired E length fuel (wrapNumberRepaired (E.sha256 (natBytes ret)) length)

/-- fiat-shamir/transcript.go:105-129 `HashToPrime` with the repaired `wrapNumber`. -/
def hashToPrimeRepaired (E : Env) (fuel : Nat) (input : List Bytes) (length : ChallengeLength) : Option Nat :=
  primeLoopRepaired E length fuel (wrapNumberRepaired (E.sha256 (hashInput input)) length)

/-- fiat-shamir/transcript.go:133-144 `HashToInt` with the repaired `wrapNumber`. -/
def hashToIntRepaired (E : Env) (input : List Bytes) (length : ChallengeLength) : Nat :=
  wrapNumberRepaired (E.sha256 (hashInput input)) length

theorem wrapRepaired_max (b : Bytes) : wrapNumberRepaired b lenMax252 < 2 ^ 239 := by
  unfold wrapNumberRepaired
  rw [if_neg (by decide), if_pos rfl]
  exact Nat.mod_lt _ (by unfold min253; positivity)

theorem wrapRepaired_default (b : Bytes) (hb : b.length = 32) : wrapNumberRepaired b lenDefault < 2 ^ 256 := by
  have h := wrap_default b hb
  unfold wrapNumber at h
  unfold wrapNumberRepaired
  rw [if_pos rfl] at h ⊢
  exact h

theorem primeLoopRepaired_spec (E : Env) (length : ChallengeLength) (P : Nat → Prop)
    (hP : ∀ b : Bytes, b.length = 32 → P (wrapNumberRepaired b length)) (fuel : Nat) (x c : Nat) (hx : P x)
    (h : primeLoopRepaired E length fuel x = some c) : P c ∧ E.probablyPrime c = true := by
  induction fuel generalizing x with
  | zero => cases h
  | succ fuel ih =>
    simp only [primeLoopRepaired] at h
    split at h
    · rename_i hp
      injection h with h
      rw [← h]
      exact ⟨hx, hp⟩
    · exact ih _ (hP _ (E.sha256_length _)) h

/-- C37 with `wrapNumber` reducing every number: all four bounds of `C37_statement`, for every primality test. -/
theorem C37_repaired_partial (E : Env) (fuel : Nat) (input : List Bytes) (c : Nat) :
    (hashToPrimeRepaired E fuel input lenMax252 = some c → c < 2 ^ 239 ∧ E.probablyPrime c = true) ∧
    (hashToIntRepaired E input lenMax252 = c → c < 2 ^ 239) ∧
    (hashToPrimeRepaired E fuel input lenDefault = some c → c < 2 ^ 256 ∧ E.probablyPrime c = true) ∧
    (hashToIntRepaired E input lenDefault = c → c < 2 ^ 256) := by
  refine ⟨fun h => ?_, fun h => ?_, fun h => ?_, fun h => ?_⟩
  · exact primeLoopRepaired_spec E lenMax252 (fun c => c < 2 ^ 239) (fun b _ => wrapRepaired_max b) fuel _ c
      (wrapRepaired_max _) h
  · rw [← h]; exact wrapRepaired_max _
  · exact primeLoopRepaired_spec E lenDefault (fun c => c < 2 ^ 256) (fun b hb => wrapRepaired_default b hb) fuel _ c
      (wrapRepaired_default _ (E.sha256_length _)) h
  · rw [← h]; exact wrapRepaired_default _ (E.sha256_length _)

/-- C37: the repair changes the challenge for the digest 2^239 only. -/
theorem C37_repaired_same_partial (E : Env) (input : List Bytes) (length : ChallengeLength)
    (h : setBytes (E.sha256 input.flatten) ≠ 2 ^ 239) : hashToIntRepaired E input length = fsHashToInt E input length := by
  unfold hashToIntRepaired fsHashToInt wrapNumberRepaired wrapNumber
  rw [hashInput_eq]
  have hm : min253 = 2 ^ 239 := rfl
  rw [← hm] at h
  dsimp only
  rw [if_pos h]

/-- The digest of the counterexample now gives the challenge zero; it was 2^239. -/
example : hashToIntRepaired boundaryEnv [] lenMax252 = 0 ∧ fsHashToInt boundaryEnv [] lenMax252 = 2 ^ 239 := by
  decide +kernel

example : hashToPrimeRepaired exEnv 1 [ascii "a"] lenMax252 = some 13 ∧
    setBytes (exEnv.sha256 ([ascii "a"] : List Bytes).flatten) ≠ 2 ^ 239 := by
  decide +kernel

/-! ## C87: no `IgnoreSolverError` -/

/-- zkmultiswap/zkmultiswap.go:56-89 `Prove` without the option of line 81: `ProveRoll` gives the error of the solver if the
constraints do not hold. -/
def proveStrict {S : Snark} (E : Env) (input : UpdateSet32) (coin : S.Coin) (d : Disk S) : Res (Option S.Proof) :=
  let fileName := keyFile input.userID.length
  match readPk d (pkName fileName) with
  | none => .ok none
  | some pk =>
    match readCcs d (ccsName fileName) with
    | none => .ok none
    | some r1cs => do
      let assignment ← assignCircuit input
      .ok (if Satisfied E (.multi assignment) then S.prove r1cs pk (.multi assignment) coin else none)

/-- C87 with the solver's error reported: `Prove` gives an error for every set that the circuit rejects, on every directory,
and for a set that the circuit accepts it does what the code does. -/
theorem C87_repaired_partial (E : Env) (S : Snark) (d : Disk S) (u : UpdateSet32) (c : Circuit) (k : S.Coin)
    (h : assignCircuit u = .ok c) :
    (define E c = .ok false → proveStrict E u k d = .ok none) ∧
    (define E c = .ok true → proveStrict E u k d = prove u k d) := by
  constructor
  · intro hd
    unfold proveStrict
    dsimp only
    cases readPk d (pkName (keyFile u.userID.length)) with
    | none => rfl
    | some pk =>
      cases readCcs d (ccsName (keyFile u.userID.length)) with
      | none => rfl
      | some r =>
        have hn : ¬ Satisfied E (.multi c) := by
          intro hs
          have hs' : define E c = .ok true := hs
          rw [hd] at hs'
          cases hs'
        dsimp only
        rw [h, res_ok_bind, if_neg hn]
  · intro hd
    unfold proveStrict prove
    dsimp only
    cases readPk d (pkName (keyFile u.userID.length)) with
    | none => rfl
    | some pk =>
      cases readCcs d (ccsName (keyFile u.userID.length)) with
      | none => rfl
      | some r =>
        dsimp only
        rw [h, res_ok_bind, res_ok_bind, if_pos (show Satisfied E (.multi c) from hd)]

/-- The set of the counterexample is refused on the directory where the code proves it. -/
example : ∃ d : Disk (idealSnark sumEnv), proveStrict sumEnv changedSet (0 : Nat) d = .ok none ∧
    ∃ p, prove changedSet (0 : Nat) d = .ok (some p) := by
  obtain ⟨c, h1, h2⟩ := C63_first_changed_rejected sumEnv changedSet (by decide) changedSet_honest (by decide)
  obtain ⟨p, hp⟩ := C87_no_error (idealSnark_ignores sumEnv) (u := changedSet)
    (setup_keyAt (S := idealSnark sumEnv) (.multi 2) (0 : Nat) (keyFile 2) (fun _ => none)) h1 (0 : Nat)
  exact ⟨_, (C87_repaired_partial sumEnv _ _ changedSet c _ h1).1 h2, p, hp⟩

/-! ## C132: look at the error inside the loop -/

/-- accumulator/benchmark_test.go:96-103: `b.Fatal(err)` inside the loop, after every call of `crand.Int`. -/
def benchDrawRepaired {P : Type} (S : Source) (max : Int) : Nat → List (Option Int) → Draw P (List (Option Int))
  | 0, set => return set
  | n + 1, set => do
    let v ← randInt S max
    benchDrawRepaired S max n (set ++ [some v])

/-- accumulator/benchmark_test.go:91-107 `BenchmarkGroupElementSquare` with the error looked at inside the loop. -/
def benchmarkSquareRepaired (S : Source) (N : Int) (setSize rounds : Nat) : Draw Unit Unit := do
  let set ← benchDrawRepaired S N setSize []
  Draw.res ((List.range rounds).forM fun _ => groupElementSquare N set)

theorem benchDrawRepaired_ok {P : Type} (S : Source) (max : Int) (n : Nat) (set out : List (Option Int)) (s s' : Cell P)
    (h : benchDrawRepaired S max n set s = (.ok out, s')) :
    ∃ vals : List Int, vals.length = n ∧ out = set ++ vals.map some ∧ s'.log = s.log ++ vals.map some ∧ s'.obj = s.obj ∧
      DrawnFrom S s.log.length (List.replicate n max) vals := by
  induction n generalizing set s with
  | zero =>
    obtain ⟨rfl, rfl⟩ := (draw_pure_ok_iff ..).1 h
    exact ⟨[], rfl, by simp, by simp, rfl, trivial⟩
  | succ n ih =>
    obtain ⟨v, s1, h1, h2⟩ := (draw_bind_ok_iff ..).1 h
    obtain ⟨hm, hv, rfl⟩ := (randInt_ok_iff ..).1 h1
    obtain ⟨vals, hl, ho, hlog, hobj, hd⟩ := ih _ _ h2
    refine ⟨v :: vals, by simp [hl], by simp [ho], by simp [hlog], hobj, ?_⟩
    rw [List.replicate_succ]
    refine ⟨hm, hv, ?_⟩
    simpa using hd

/-- C132 with the error looked at inside the loop: the benchmark that dropped a failure reports it, for every modulus, size
and number of rounds, and the set it works on holds the numbers drawn. With `C132_reports_partial` for the other functions
this is all of `C132_statement`. -/
theorem C132_repaired_partial (S : Source) (E : Env) :
    ((∀ x ts, Reports (rpProveDraw S E x ts)) ∧ (∀ x ts, Reports (aopProveDraw S E x ts)) ∧
    (∀ fuel pp u x w, Reports (zkpokeProveDraw S E fuel pp u x w)) ∧ Reports (genRandomizerDraw S) ∧
    (∀ fuel set encodeType setup, Reports (zkAccumulateDraw S E fuel set encodeType setup)) ∧
    (∀ rounds, 0 < rounds → Reports (benchmarkGroupElementMul S n2048 10000 rounds)) ∧
    (∀ rounds, 0 < rounds → Reports (benchmarkSquareRepaired S n2048 10000 rounds))) ∧
    (∀ N setSize rounds, Reports (benchmarkSquareRepaired S N setSize rounds)) := by
  have key : ∀ N setSize rounds, Reports (benchmarkSquareRepaired S N setSize rounds) := by
    intro N setSize rounds s v s' h
    obtain ⟨set, s1, h1, h2⟩ := (draw_bind_ok_iff ..).1 h
    obtain ⟨vals, -, -, hlog, -⟩ := benchDrawRepaired_ok S N setSize [] set s s1 h1
    obtain ⟨-, rfl⟩ := (draw_res_ok_iff ..).1 h2
    exact ⟨vals.map some, hlog, by simp⟩
  obtain ⟨h1, h2, h3, h4, h5, h6⟩ := C132_reports_partial S E
  exact ⟨⟨h1, h2, h3, h4, h5, h6, fun rounds _ => key _ _ rounds⟩, key⟩

/-- Two draws that succeed: the benchmark ends without an error. If the first fails, it stops there. -/
example : benchmarkSquareRepaired (fun _ _ => some 3) 35 2 1 ⟨[], ()⟩ = (.ok (), ⟨[some 3, some 3], ()⟩) ∧
    (benchmarkSquareRepaired (fun k _ => if k = 0 then none else some 3) 35 2 1 ⟨[], ()⟩).2.log = [none] := by
  constructor <;> rfl

end Verif.Props
