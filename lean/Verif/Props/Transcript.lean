import Verif.Lemmas.Transcript
import Verif.Lemmas.SliceHeap
import Verif.Model.Poke
import Verif.Model.SwapTranscript
import Mathlib.Tactic.NormNum

/-!
# Properties of the Fiat-Shamir transcript (C35 - C40)
-/

namespace Verif.Props
open Verif.Go Verif.Model Verif.Lemmas

/-! ## C35 -/

/-- What a transcript sees: a string, or a request for a challenge. -/
inductive Event where
  | str (s : Bytes)
  | prime
  | int
deriving DecidableEq, Repr

/-- The events of one call. -/
def events : TOp → List Event
  | .append s => [.str s]
  | .appendSlice l => l.map .str
  | .challenge => [.prime]
  | .primeChallenge => [.prime]
  | .intChallenge => [.int]

/-- Specification: the challenges of a list of events, where `h` is all that was seen before. A challenge is computed
from the concatenation of everything seen before, and is seen itself in decimal. -/
def specChallenges (prime int : Bytes → Option Nat) : Bytes → List Event → Option (List Nat)
  | _, [] => some []
  | h, .str s :: es => specChallenges prime int (h ++ s) es
  | h, .prime :: es =>
    match prime h with
    | none => none
    | some c => (specChallenges prime int (h ++ itoa c) es).map (c :: ·)
  | h, .int :: es =>
    match int h with
    | none => none
    | some c => (specChallenges prime int (h ++ itoa c) es).map (c :: ·)

/-- Challenges as functions of the bytes seen. -/
def primeOf (E : Env) (fuel : Nat) (length : ChallengeLength) (h : Bytes) : Option Nat :=
  fsPrimeLoop E length fuel (wrapNumber (E.sha256 h) length)

def intOf (E : Env) (length : ChallengeLength) (h : Bytes) : Option Nat := some (wrapNumber (E.sha256 h) length)

theorem spec_strs (prime int : Bytes → Option Nat) (l : List Bytes) (h : Bytes) (es : List Event) :
    specChallenges prime int h (l.map .str ++ es) = specChallenges prime int (h ++ l.flatten) es := by
  induction l generalizing h with
  | nil => simp
  | cons a l ih =>
    rw [List.map_cons, List.cons_append, specChallenges, ih, List.flatten_cons, List.append_assoc]

theorem runOps_spec (E : Env) (fuel : Nat) (ops : List TOp) (t : Transcript) :
    (runOps E fuel t ops).map Prod.fst =
      specChallenges (primeOf E fuel t.maxlength) (intOf E t.maxlength) (hashInput t.info) (ops.flatMap events) := by
  induction ops generalizing t with
  | nil => rfl
  | cons op ops ih =>
    rw [List.flatMap_cons]
    cases op with
    | append s =>
      simp only [runOps, events, List.cons_append, List.nil_append, specChallenges]
      rw [ih]
      simp [Transcript.append, hashInput_eq]
    | appendSlice l =>
      simp only [runOps, events]
      rw [ih, spec_strs]
      simp [Transcript.appendSlice, hashInput_eq]
    | challenge =>
      simp only [runOps, events, List.cons_append, List.nil_append, specChallenges, Transcript.getChallengeAndAppend]
      show _ = match fsHashToPrime E fuel t.info t.maxlength with
        | none => none
        | some c => _
      cases h : fsHashToPrime E fuel t.info t.maxlength with
      | none => rfl
      | some c =>
        have := ih (t.append (itoa c))
        simp only [bind, Option.bind, pure]
        rw [show hashInput t.info ++ itoa c = hashInput (t.append (itoa c)).info by simp [Transcript.append, hashInput_eq]]
        have hm : (t.append (itoa c)).maxlength = t.maxlength := rfl
        rw [hm] at this
        rw [← this]
        cases runOps E fuel (t.append (itoa c)) ops with
        | none => rfl
        | some r => rfl
    | primeChallenge =>
      simp only [runOps, events, List.cons_append, List.nil_append, specChallenges, Transcript.getPrimeChallenge]
      show _ = match fsHashToPrime E fuel t.info t.maxlength with
        | none => none
        | some c => _
      cases h : fsHashToPrime E fuel t.info t.maxlength with
      | none => rfl
      | some c =>
        have := ih (t.append (itoa c))
        simp only [bind, Option.bind, pure]
        rw [show hashInput t.info ++ itoa c = hashInput (t.append (itoa c)).info by simp [Transcript.append, hashInput_eq]]
        have hm : (t.append (itoa c)).maxlength = t.maxlength := rfl
        rw [hm] at this
        rw [← this]
        cases runOps E fuel (t.append (itoa c)) ops with
        | none => rfl
        | some r => rfl
    | intChallenge =>
      simp only [runOps, events, List.cons_append, List.nil_append, specChallenges, Transcript.getIntChallenge, intOf]
      have := ih (t.append (itoa (fsHashToInt E t.info t.maxlength)))
      have hm : (t.append (itoa (fsHashToInt E t.info t.maxlength))).maxlength = t.maxlength := rfl
      rw [hm] at this
      rw [show hashInput t.info ++ itoa (wrapNumber (E.sha256 (hashInput t.info)) t.maxlength) =
        hashInput (t.append (itoa (fsHashToInt E t.info t.maxlength))).info by
          simp [Transcript.append, hashInput_eq, fsHashToInt]]
      rw [← this]
      cases runOps E fuel (t.append (itoa (fsHashToInt E t.info t.maxlength))) ops with
      | none => rfl
      | some r => rfl

/-- The challenges are those of the specification: they depend on the strings and requests only. -/
theorem C35_challenges_spec (E : Env) (fuel : Nat) (input : List Bytes) (length : ChallengeLength) (ops : List TOp) :
    (runOps E fuel (initTranscript input length) ops).map Prod.fst =
      specChallenges (primeOf E fuel length) (intOf E length) [] (input.map .str ++ ops.flatMap events) := by
  rw [runOps_spec, spec_strs]
  simp [initTranscript, hashInput_eq]

/-- Two parties with the same strings and requests get the same challenges, however the strings were added. -/
theorem C35_same_events (E : Env) (fuel : Nat) (length : ChallengeLength) (in1 in2 : List Bytes) (ops1 ops2 : List TOp)
    (h : in1.map Event.str ++ ops1.flatMap events = in2.map Event.str ++ ops2.flatMap events) :
    (runOps E fuel (initTranscript in1 length) ops1).map Prod.fst =
      (runOps E fuel (initTranscript in2 length) ops2).map Prod.fst := by
  rw [C35_challenges_spec, C35_challenges_spec, h]

/-- The same strings through `InitTranscript`, `AppendSlice` and `Append`, between two requests. -/
example : ([ascii "a", ascii "b"] : List Bytes).map Event.str ++
      [TOp.primeChallenge, .append (ascii "c"), .append (ascii "d"), .intChallenge].flatMap events =
    ([] : List Bytes).map Event.str ++
      [TOp.append (ascii "a"), .appendSlice [ascii "b"], .challenge, .appendSlice [ascii "c", ascii "d"],
        .intChallenge].flatMap events := by decide

/-! ## C36 -/

theorem runOps_prefix (E : Env) (fuel : Nat) (ops : List TOp) (t t'' : Transcript) (cs : List Nat)
    (h : runOps E fuel t ops = some (cs, t'')) : ∃ rest, t''.info = t.info ++ rest := by
  induction ops generalizing t cs with
  | nil => simp only [runOps] at h; injection h with h; injection h with h1 h2; exact ⟨[], by rw [← h2]; simp⟩
  | cons op ops ih =>
    cases op with
    | append s =>
      obtain ⟨r, hr⟩ := ih _ _ h
      exact ⟨s :: r, by rw [hr]; simp [Transcript.append]⟩
    | appendSlice l =>
      obtain ⟨r, hr⟩ := ih _ _ h
      exact ⟨l ++ r, by rw [hr]; simp [Transcript.appendSlice]⟩
    | challenge =>
      simp only [runOps, Transcript.getChallengeAndAppend] at h
      cases hc : fsHashToPrime E fuel t.info t.maxlength with
      | none => rw [hc] at h; cases h
      | some c =>
        rw [hc] at h
        simp only [bind, Option.bind, pure] at h
        cases hr : runOps E fuel (t.append (itoa c)) ops with
        | none => rw [hr] at h; cases h
        | some r =>
          rw [hr] at h
          injection h with h
          injection h with h1 h2
          obtain ⟨rest, hrest⟩ := ih _ r.1 (by rw [hr, ← h2])
          exact ⟨itoa c :: rest, by rw [hrest]; simp [Transcript.append]⟩
    | primeChallenge =>
      simp only [runOps, Transcript.getPrimeChallenge] at h
      cases hc : fsHashToPrime E fuel t.info t.maxlength with
      | none => rw [hc] at h; cases h
      | some c =>
        rw [hc] at h
        simp only [bind, Option.bind, pure] at h
        cases hr : runOps E fuel (t.append (itoa c)) ops with
        | none => rw [hr] at h; cases h
        | some r =>
          rw [hr] at h
          injection h with h
          injection h with h1 h2
          obtain ⟨rest, hrest⟩ := ih _ r.1 (by rw [hr, ← h2])
          exact ⟨itoa c :: rest, by rw [hrest]; simp [Transcript.append]⟩
    | intChallenge =>
      simp only [runOps, Transcript.getIntChallenge] at h
      cases hr : runOps E fuel (t.append (itoa (fsHashToInt E t.info t.maxlength))) ops with
      | none => rw [hr] at h; cases h
      | some r =>
        rw [hr] at h
        injection h with h
        injection h with h1 h2
        obtain ⟨rest, hrest⟩ := ih _ r.1 (by rw [hr, ← h2])
        exact ⟨itoa (fsHashToInt E t.info t.maxlength) :: rest, by rw [hrest]; simp [Transcript.append]⟩

/-- A request for a challenge on transcript `t` returns `c` and leaves `t'`. -/
def Requests (E : Env) (fuel : Nat) (t : Transcript) (c : Nat) (t' : Transcript) : Prop :=
  t.getChallengeAndAppend E fuel = some (c, t') ∨ t.getPrimeChallenge E fuel = some (c, t') ∨
    t.getIntChallenge E = (c, t')

/-- The bytes hashed for any later challenge begin with those hashed for this one followed by the challenge in decimal. So
they differ. -/
theorem C36_challenge_chaining (E : Env) (fuel : Nat) (t t' t'' : Transcript) (c : Nat) (cs : List Nat) (ops : List TOp)
    (h : Requests E fuel t c t') (h2 : runOps E fuel t' ops = some (cs, t'')) :
    (∃ rest, hashInput t''.info = hashInput t.info ++ itoa c ++ rest) ∧ hashInput t''.info ≠ hashInput t.info := by
  have ht : t' = t.append (itoa c) := by
    rcases h with h | h | h
    · exact ((getPrimeChallenge_iff E fuel t t' c).1 h).2
    · exact ((getPrimeChallenge_iff E fuel t t' c).1 h).2
    · simp only [Transcript.getIntChallenge] at h
      injection h with h1 h2
      rw [← h2, h1]
  obtain ⟨rest, hr⟩ := runOps_prefix E fuel ops t' t'' cs h2
  have h3 : hashInput t''.info = hashInput t.info ++ itoa c ++ rest.flatten := by
    rw [hr, ht]; simp [Transcript.append, hashInput_eq]
  refine ⟨⟨_, h3⟩, ?_⟩
  intro h4
  rw [h4, List.append_assoc] at h3
  have h5 := congrArg List.length h3
  rw [List.length_append, List.length_append] at h5
  have := itoa_ne_nil c
  have := List.length_pos_iff.2 this
  omega

/-- A hash for examples. -/
def exEnv : Env where
  sha256 := fun _ => List.replicate 31 0 ++ [13]
  sha256_length := by intro b; rfl
  probablyPrime := fun n => n == 13
  poseidon := fun _ => 0
  poseidon_lt := by intro l; decide

example : Requests exEnv 1 (initTranscript [ascii "a"] lenMax252) 13
    ⟨[ascii "a", ascii "13"], lenMax252⟩ := by
  refine .inr (.inl ?_)
  decide +kernel

/-! ## C37 -/

/-- With `Max252` every challenge is below 2^239, with `Default` below 2^256, and prime challenges pass the test. -/
def C37_statement : Prop :=
  ∀ (E : Env) (fuel : Nat) (input : List Bytes) (c : Nat),
    (fsHashToPrime E fuel input lenMax252 = some c → c < 2 ^ 239 ∧ E.probablyPrime c = true) ∧
    (fsHashToInt E input lenMax252 = c → c < 2 ^ 239) ∧
    (fsHashToPrime E fuel input lenDefault = some c → c < 2 ^ 256 ∧ E.probablyPrime c = true) ∧
    (fsHashToInt E input lenDefault = c → c < 2 ^ 256)

/-- A hash function with the value 2^239. -/
def boundaryEnv : Env where
  sha256 := fun _ => [0, 0, 128] ++ List.replicate 29 0
  sha256_length := by intro b; rfl
  probablyPrime := fun n => n == 13
  poseidon := fun _ => 0
  poseidon_lt := by intro l; decide

/-- The value 2^239 is not reduced (line 94 of transcript.go). -/
theorem C37_violated : ¬ C37_statement := by
  intro h
  have := (h boundaryEnv 0 [] (fsHashToInt boundaryEnv [] lenMax252)).2.1 rfl
  revert this
  decide +kernel

theorem wrap_max (b : Bytes) : wrapNumber b lenMax252 ≤ 2 ^ 239 := by
  unfold wrapNumber
  rw [if_neg (by decide), if_pos rfl]
  split
  · exact (Nat.mod_lt _ (by unfold min253; positivity)).le
  · rename_i h; rw [not_not.1 h]; unfold min253; norm_num

theorem wrap_default (b : Bytes) (hb : b.length = 32) : wrapNumber b lenDefault < 2 ^ 256 := by
  unfold wrapNumber
  rw [if_pos rfl]
  have := setBytes_lt b
  rw [hb] at this
  calc setBytes b < 256 ^ 32 := this
    _ = 2 ^ 256 := by norm_num

/-- Everything but the value 2^239 itself for `HashToInt`; prime challenges are below 2^239 because 2^239 does not pass the
primality test. Missing from `C37_statement`: the strict bound for `HashToInt`, and for prime challenges with a primality
test that accepts the even number 2^239. -/
theorem C37_range_partial (E : Env) (fuel : Nat) (input : List Bytes) (c : Nat) :
    (fsHashToPrime E fuel input lenMax252 = some c → c ≤ 2 ^ 239 ∧ E.probablyPrime c = true ∧
      (E.probablyPrime (2 ^ 239) = false → c < 2 ^ 239)) ∧
    (fsHashToInt E input lenMax252 = c → c ≤ 2 ^ 239) ∧
    (fsHashToPrime E fuel input lenDefault = some c → c < 2 ^ 256 ∧ E.probablyPrime c = true) ∧
    (fsHashToInt E input lenDefault = c → c < 2 ^ 256) := by
  refine ⟨fun h => ?_, fun h => ?_, fun h => ?_, fun h => ?_⟩
  · have hp := fsHashToPrime_prime E fuel input _ c h
    have hle : c ≤ 2 ^ 239 := fsPrimeLoop_range E lenMax252 (fun c => c ≤ 2 ^ 239) (fun b _ => wrap_max b) fuel _ c
      (wrap_max _) h
    refine ⟨hle, hp, fun h2 => ?_⟩
    refine lt_of_le_of_ne hle ?_
    rintro rfl
    rw [h2] at hp; cases hp
  · rw [← h]; exact wrap_max _
  · exact ⟨fsPrimeLoop_range E lenDefault (fun c => c < 2 ^ 256) (fun b hb => wrap_default b hb) fuel _ c
      (wrap_default _ (E.sha256_length _)) h, fsHashToPrime_prime E fuel input _ c h⟩
  · rw [← h]; exact wrap_default _ (E.sha256_length _)

/-- `HashToInt` gives 2^239 exactly for the digest 2^239; every other digest is reduced below it. -/
theorem C37_boundary (E : Env) (input : List Bytes) :
    fsHashToInt E input lenMax252 = 2 ^ 239 ↔ setBytes (E.sha256 (hashInput input)) = 2 ^ 239 := by
  unfold fsHashToInt wrapNumber
  rw [if_neg (by decide), if_pos rfl]
  have hm : min253 = 2 ^ 239 := rfl
  rw [hm]
  generalize (2 : Nat) ^ 239 = M at *
  split
  · rename_i h
    refine ⟨fun h2 => ?_, fun h2 => absurd h2 h⟩
    by_cases hM : M = 0
    · subst hM; rw [Nat.mod_zero] at h2; exact h2
    · have := Nat.mod_lt (setBytes (E.sha256 (hashInput input))) (by omega : M > 0)
      omega
  · rename_i h
    exact Iff.rfl

/-- Challenges fit in the BN254 scalar field. -/
theorem C37_below_field_order (E : Env) (fuel : Nat) (input : List Bytes) (c : Nat)
    (h : fsHashToPrime E fuel input lenMax252 = some c ∨ fsHashToInt E input lenMax252 = c) : c < frOrder := by
  have : (2 : Nat) ^ 239 < frOrder := by unfold frOrder; norm_num
  obtain ⟨h1, h2, -⟩ := C37_range_partial E fuel input c
  rcases h with h | h
  · exact lt_of_le_of_lt (h1 h).1 this
  · exact lt_of_le_of_lt (h2 h) this

/-- The value of an integer challenge: the digest of the concatenated strings, reduced modulo 2^239 (with the exception of
the value 2^239 itself) or taken as it is. -/
theorem C37_value (E : Env) (input : List Bytes) (d : Nat) (hd : d = setBytes (E.sha256 input.flatten)) :
    fsHashToInt E input lenMax252 = (if d = 2 ^ 239 then 2 ^ 239 else d % 2 ^ 239) ∧ fsHashToInt E input lenDefault = d := by
  rw [← hashInput_eq] at hd
  unfold fsHashToInt wrapNumber
  rw [if_neg (by decide), if_pos rfl, if_pos rfl, ← hd]
  have hm : min253 = 2 ^ 239 := rfl
  rw [hm]
  refine ⟨?_, rfl⟩
  by_cases h : d = 2 ^ 239
  · rw [if_pos h, if_neg (not_not.2 h), h]
  · rw [if_neg h, if_pos h]

/-- The numbers of the two lengths. -/
example : lenDefault = 2 ∧ lenMax252 = 3 := ⟨rfl, rfl⟩

/-- A prime challenge is the first number that passes the test in the sequence digest, digest of its bytes, and so on. -/
theorem C37_first_prime (E : Env) (fuel : Nat) (input : List Bytes) (length : ChallengeLength) (c : Nat) :
    fsHashToPrime E fuel input length = some c ↔
      ∃ k, k < fuel ∧ c = (fun x => wrapNumber (E.sha256 (natBytes x)) length)^[k] (fsHashToInt E input length) ∧
        E.probablyPrime c = true ∧
        ∀ j, j < k → E.probablyPrime
          ((fun x => wrapNumber (E.sha256 (natBytes x)) length)^[j] (fsHashToInt E input length)) = false :=
  fsPrimeLoop_iff E length fuel _ c

example : fsHashToPrime exEnv 1 [ascii "a"] lenMax252 = some 13 := by decide +kernel

/-! ## C38 -/

/-- Different lists of strings give different hash inputs. -/
def C38_statement : Prop := ∀ l1 l2 : List Bytes, hashInput l1 = hashInput l2 → l1 = l2

/-- Two different PoKE* statements have the same transcript bytes: G = 2, N = 35 and G = 23, N = 5. -/
theorem C38_violated : ¬ C38_statement := by
  intro h
  have := h (pokeStarTranscript ⟨35, 2, 3⟩ 4).info (pokeStarTranscript ⟨5, 23, 3⟩ 4).info (by decide +kernel)
  revert this
  decide +kernel

/-- They get the same challenge, whatever the hash function. -/
theorem C38_same_challenge (E : Env) (fuel : Nat) :
    ((pokeStarTranscript ⟨35, 2, 3⟩ 4).getPrimeChallenge E fuel).map Prod.fst =
    ((pokeStarTranscript ⟨5, 23, 3⟩ 4).getPrimeChallenge E fuel).map Prod.fst := by
  have : hashInput (pokeStarTranscript ⟨35, 2, 3⟩ 4).info = hashInput (pokeStarTranscript ⟨5, 23, 3⟩ 4).info := by
    decide +kernel
  have h2 : fsHashToPrime E fuel (pokeStarTranscript ⟨35, 2, 3⟩ 4).info (pokeStarTranscript ⟨35, 2, 3⟩ 4).maxlength =
      fsHashToPrime E fuel (pokeStarTranscript ⟨5, 23, 3⟩ 4).info (pokeStarTranscript ⟨5, 23, 3⟩ 4).maxlength := by
    unfold fsHashToPrime
    rw [this]; rfl
  unfold Transcript.getPrimeChallenge
  rw [h2]
  cases fsHashToPrime E fuel (pokeStarTranscript ⟨5, 23, 3⟩ 4).info (pokeStarTranscript ⟨5, 23, 3⟩ 4).maxlength <;> rfl

/-- Lists whose strings have the same lengths give different hash inputs. Missing from `C38_statement`: lists of strings of
different lengths. -/
theorem C38_same_lengths_partial (l1 l2 : List Bytes) (hl : l1.map List.length = l2.map List.length)
    (h : hashInput l1 = hashInput l2) : l1 = l2 := by
  rw [hashInput_eq, hashInput_eq] at h
  induction l1 generalizing l2 with
  | nil =>
    cases l2 with
    | nil => rfl
    | cons b l2 => simp at hl
  | cons a l1 ih =>
    cases l2 with
    | nil => simp at hl
    | cons b l2 =>
      rw [List.map_cons, List.map_cons, List.cons.injEq] at hl
      rw [List.flatten_cons, List.flatten_cons] at h
      obtain ⟨h1, h2⟩ := List.append_inj h hl.1
      rw [h1, ih l2 hl.2 h2]

/-- Exactly the lists with the same concatenation collide. -/
theorem C38_collide_iff (l1 l2 : List Bytes) : hashInput l1 = hashInput l2 ↔ l1.flatten = l2.flatten := by
  rw [hashInput_eq, hashInput_eq]

example : ([ascii "ab", ascii "c"] : List Bytes).map List.length = [ascii "ax", ascii "y"].map List.length := by decide

/-! ## C39 -/

/-- First bytes of a decimal number. -/
theorem intString_head (n : Int) : ∃ c r, intString n = c :: r ∧ (c = 45 ∨ (48 ≤ c.toNat ∧ c.toNat ≤ 57)) := by
  unfold intString
  split
  · exact ⟨45, _, rfl, .inl rfl⟩
  · cases h : itoa n.natAbs with
    | nil => exact absurd h (itoa_ne_nil _)
    | cons c r =>
      refine ⟨c, r, rfl, .inr ?_⟩
      have := itoa_allDigits n.natAbs c (by rw [h]; simp)
      exact this

/-- The four kinds of transcripts. -/
inductive Statement where
  | pokeStar (pp : PublicParameters) (C : Int)
  | poe (base mod C x : Int)
  | zkpoke (pp : PublicParameters) (u w : Int) (z Ag Au : Option Int)
  | multiSwap (G N accOld accMid accNew : Int) (epoch : UInt32)

/-- The protocol of a statement. -/
def Statement.protocol : Statement → Nat
  | .pokeStar .. => 0
  | .poe .. => 1
  | .zkpoke .. => 2
  | .multiSwap .. => 3

/-- The transcript a prover or verifier starts with. -/
def Statement.transcript : Statement → Transcript
  | .pokeStar pp C => pokeStarTranscript pp C
  | .poe b m C x => poeTranscript b m C x
  | .zkpoke pp u w z Ag Au => zkpokeTranscript pp u w z Ag Au
  | .multiSwap G N o m n e => setupTranscript G N o m n e

/-- The third and the first byte tell the protocol. -/
def tagOf (b : Bytes) : Nat :=
  match b with
  | 80 :: 111 :: 75 :: _ => 0
  | 80 :: 111 :: 69 :: _ => 1
  | 90 :: _ => 2
  | _ => 3

theorem tagOf_transcript (s : Statement) (rest : List Bytes) :
    tagOf (hashInput (s.transcript.info ++ rest)) = s.protocol := by
  rw [hashInput_eq]
  cases s with
  | pokeStar pp C => rfl
  | poe b m C x => rfl
  | zkpoke pp u w z Ag Au => rfl
  | multiSwap G N o m n e =>
    obtain ⟨c, r, hc, hd⟩ := intString_head G
    simp only [Statement.transcript, setupTranscript, initTranscript, Transcript.append, List.nil_append, hc,
      List.flatten_cons, List.cons_append, Statement.protocol]
    unfold tagOf
    split
    · rename_i h; injection h with h1 h2; subst h1; exfalso; revert hd; decide
    · rename_i h; injection h with h1 h2; subst h1; exfalso; revert hd; decide
    · rename_i h; injection h with h1 h2; subst h1; exfalso; revert hd; decide
    · rfl

/-- Two different protocols never hash the same bytes, for all statement values and all later strings and challenges. -/
theorem C39_tags_separate (E : Env) (fuel : Nat) (s1 s2 : Statement) (hp : s1.protocol ≠ s2.protocol)
    (ops1 ops2 : List TOp) (cs1 cs2 : List Nat) (t1 t2 : Transcript)
    (h1 : runOps E fuel s1.transcript ops1 = some (cs1, t1)) (h2 : runOps E fuel s2.transcript ops2 = some (cs2, t2)) :
    hashInput t1.info ≠ hashInput t2.info := by
  obtain ⟨r1, e1⟩ := runOps_prefix _ _ _ _ _ _ h1
  obtain ⟨r2, e2⟩ := runOps_prefix _ _ _ _ _ _ h2
  intro h
  rw [e1, e2] at h
  have := congrArg tagOf h
  rw [tagOf_transcript, tagOf_transcript] at this
  exact hp this

example : (Statement.poe 2 35 4 2).protocol ≠ (Statement.pokeStar ⟨35, 2, 3⟩ 4).protocol ∧
    (runOps exEnv 1 (Statement.poe 2 35 4 2).transcript [.primeChallenge]).isSome = true ∧
    (runOps exEnv 1 (Statement.pokeStar ⟨35, 2, 3⟩ 4).transcript [.primeChallenge]).isSome = true := by decide +kernel

/-! ## C40 -/

open Verif.Model.SliceHeap Verif.Lemmas.SliceHeap in
/-- Specification of the transcripts' strings, given the strings in the caller's slices at the time of the action. -/
def specInfos (callers infos : List (List Bytes)) : Act → List (List Bytes)
  | .init j _ => match callers[j]? with
    | none => infos
    | some c => infos ++ [c]
  | .tAppend t v _ => match infos[t]? with
    | none => infos
    | some i => infos.set t (i ++ [v])
  | .tAppendSlice t j _ => match infos[t]?, callers[j]? with
    | some i, some c => infos.set t (i ++ c)
    | _, _ => infos
  | _ => infos

open Verif.Model.SliceHeap Verif.Lemmas.SliceHeap in
/-- After any history, every action changes the strings of the transcripts only as specified: writes by the caller change
nothing, and strings are taken over by value. -/
theorem C40_transcripts_isolated (l : List Act) (a : Act) :
    infoView (act (run l) a) = specInfos (callerView (run l)) (infoView (run l)) a := by
  have hw := wf_run l
  generalize run l = s at hw
  cases a with
  | make vs extra => exact (wf_make s hw vs extra).2
  | write j i v => exact (wf_write s hw j i v).2
  | reslice j lo hi => exact (wf_reslice s hw j lo hi).2
  | append j vs extra => exact (wf_append s hw j vs extra).2
  | init j extra =>
    rw [(wf_init s hw j extra).2.1]
    simp only [specInfos]
    cases (callerView s)[j]? with
    | none => simp
    | some c => rfl
  | tAppend t v extra =>
    simp only [specInfos, act]
    cases hi : s.infos[t]? with
    | none => simp [infoView, hi]
    | some i =>
      rw [(wf_tAppend s hw t i hi [v] extra).2.1]
      simp [infoView, hi]
  | tAppendSlice t j extra =>
    simp only [specInfos, act]
    cases hi : s.infos[t]? with
    | none => simp [infoView, hi]
    | some i =>
      cases hj : s.callers[j]? with
      | none => simp [infoView, callerView, hi, hj]
      | some c =>
        rw [(wf_tAppend s hw t i hi (contents s.heap c) extra).2.1]
        simp [infoView, callerView, hi, hj]

open Verif.Model.SliceHeap Verif.Lemmas.SliceHeap in
/-- Operations on transcripts do not change the strings in the caller's slices. -/
theorem C40_callers_unchanged (l : List Act) (a : Act)
    (ha : (∃ j e, a = .init j e) ∨ (∃ t v e, a = .tAppend t v e) ∨ ∃ t j e, a = .tAppendSlice t j e) :
    callerView (act (run l) a) = callerView (run l) := by
  have hw := wf_run l
  generalize run l = s at hw
  rcases ha with ⟨j, e, rfl⟩ | ⟨t, v, e, rfl⟩ | ⟨t, j, e, rfl⟩
  · exact (wf_init s hw j e).2.2
  · simp only [act]
    cases hi : s.infos[t]? with
    | none => rfl
    | some i => exact (wf_tAppend s hw t i hi [v] e).2.2
  · simp only [act]
    cases hi : s.infos[t]? with
    | none => rfl
    | some i =>
      cases hj : s.callers[j]? with
      | none => rfl
      | some c => exact (wf_tAppend s hw t i hi (contents s.heap c) e).2.2

open Verif.Model.SliceHeap Verif.Lemmas.SliceHeap in
/-- The caller makes a slice, a transcript takes it, the caller overwrites its element: the transcript keeps the old one. -/
example : infoView (run [.make [ascii "a"] 2, .init 0 1, .write 0 0 (ascii "b"), .tAppend 0 (ascii "c") 0]) =
      [[ascii "a", ascii "c"]] ∧
    callerView (run [.make [ascii "a"] 2, .init 0 1, .write 0 0 (ascii "b"), .tAppend 0 (ascii "c") 0]) =
      [[ascii "b"]] := by decide

end Verif.Props
