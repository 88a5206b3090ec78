import Verif.Model.RepoTests
import Verif.Props.Transcript
import Verif.Props.Precompute
import Verif.Props.MultiSwap
import Verif.Props.Setup
import Verif.Props.Benchmarks

/-!
# The tests of packages fiat-shamir (C105), precompute (C106) and zkmultiswap (C107)
-/

namespace Verif.Props
open Verif.Go Verif.Model Verif.Lemmas Verif.Spec

/-! ## C105 -/

/-- The strings hashed for a challenge do not depend on how the transcript was filled, and length 0 is handled like
`Default`. -/
theorem wrap_zero (b : Bytes) : wrapNumber b 0 = wrapNumber b lenDefault := by
  unfold wrapNumber
  rw [if_neg (by decide), if_neg (by decide), if_pos rfl]

theorem loop_zero (E : Env) (fuel x : Nat) : fsPrimeLoop E 0 fuel x = fsPrimeLoop E lenDefault fuel x := by
  induction fuel generalizing x with
  | zero => rfl
  | succ f ih => rw [fsPrimeLoop, fsPrimeLoop, wrap_zero, ih]

theorem prime_zero (E : Env) (fuel : Nat) (input : List Bytes) :
    fsHashToPrime E fuel input 0 = fsHashToPrime E fuel input lenDefault := by
  rw [fsHashToPrime, fsHashToPrime, wrap_zero, loop_zero]

theorem challenge_some (E : Env) (fuel : Nat) (t : Transcript) :
    t.getChallengeAndAppend E fuel = (fsHashToPrime E fuel t.info t.maxlength).map (fun c => (c, t.append (itoa c))) := by
  unfold Transcript.getChallengeAndAppend
  cases fsHashToPrime E fuel t.info t.maxlength <;> rfl

/-- `TestConstants` passes. -/
theorem C105_constants : testConstants = true := by decide +kernel

/-- `TestTranscript` passes for every hash function and primality test: it reports nothing, whatever bound on the loops is
used, and it returns as soon as `HashToPrime` does on the three strings. -/
theorem C105_transcript (E : Env) (fuel : Nat) :
    testTranscript E fuel = (fsHashToPrime E fuel [ascii "111", ascii "aaa", ascii "333"] lenDefault).map (fun _ => true) := by
  change testTranscript E fuel = (fsHashToPrime E fuel testStrings lenDefault).map (fun _ => true)
  unfold testTranscript
  simp only [challenge_some]
  have e1 : (initTranscript testStrings lenDefault).info = testStrings := rfl
  have e2 : (zeroTranscript.appendSlice testStrings).info = testStrings := rfl
  have e3 : ((zeroTranscript.appendSlice (slice testStrings 0 2)).append (testStrings.getD 2 [])).info = testStrings := rfl
  have m1 : (initTranscript testStrings lenDefault).maxlength = lenDefault := rfl
  have m2 : (zeroTranscript.appendSlice testStrings).maxlength = 0 := rfl
  have m3 : ((zeroTranscript.appendSlice (slice testStrings 0 2)).append (testStrings.getD 2 [])).maxlength = 0 := rfl
  rw [e1, e2, e3, m1, m2, m3, prime_zero]
  cases fsHashToPrime E fuel testStrings lenDefault with
  | none => rfl
  | some c => simp

/-- `TestChallenge`: the second check always passes; the first one fails exactly if the second challenge repeats the
first, which depends on the hash function. -/
theorem C105_challenge (E : Env) (fuel : Nat) (a b : Bool) (h : testChallenge E fuel = some (a, b)) :
    b = true ∧ ∃ c1 c2, fsHashToPrime E fuel [ascii "111", ascii "aaa", ascii "333"] lenDefault = some c1 ∧
      fsHashToPrime E fuel [ascii "111", ascii "aaa", ascii "333", itoa c1] lenDefault = some c2 ∧ (a = false ↔ c1 = c2) := by
  change b = true ∧ ∃ c1 c2, fsHashToPrime E fuel testStrings lenDefault = some c1 ∧
    fsHashToPrime E fuel (testStrings ++ [itoa c1]) lenDefault = some c2 ∧ (a = false ↔ c1 = c2)
  unfold testChallenge at h
  simp only [challenge_some] at h
  have e1 : (initTranscript testStrings lenDefault).info = testStrings := rfl
  have m1 : (initTranscript testStrings lenDefault).maxlength = lenDefault := rfl
  rw [e1, m1] at h
  cases h1 : fsHashToPrime E fuel testStrings lenDefault with
  | none => rw [h1] at h; cases h
  | some c1 =>
    rw [h1] at h
    have e2 : ((initTranscript testStrings lenDefault).append (itoa c1)).info = testStrings ++ [itoa c1] := rfl
    have m2 : ((initTranscript testStrings lenDefault).append (itoa c1)).maxlength = lenDefault := rfl
    simp only [Option.map_some, Option.bind_eq_bind, Option.bind_some] at h
    rw [e2, m2] at h
    cases h2 : fsHashToPrime E fuel (testStrings ++ [itoa c1]) lenDefault with
    | none => rw [h2] at h; cases h
    | some c2 =>
      rw [h2] at h
      simp only [Option.map_some, Option.bind_some] at h
      injection h with h
      injection h with ha hb
      refine ⟨by rw [← hb]; simp, c1, c2, rfl, h2, ?_⟩
      rw [← ha]; simp

theorem max_challenge (E : Env) (hE : E.probablyPrime (2 ^ 239) = false) (fuel : Nat) (input : List Bytes) (c : Nat)
    (h : fsHashToPrime E fuel input lenMax252 = some c) :
    E.probablyPrime c = true ∧ decide (c < frOrder) = true ∧ decide (c < min253) = true := by
  obtain ⟨-, h2, h3⟩ := (C37_range_partial E fuel input c).1 h
  exact ⟨h2, decide_eq_true (C37_below_field_order E fuel input c (.inl h)), decide_eq_true (h3 hE)⟩

/-- `TestPrimeChallengeLength` passes for every hash function and every primality test that rejects 2^239. -/
theorem C105_primeLength (E : Env) (hE : E.probablyPrime (2 ^ 239) = false) (fuel : Nat) (r : Bool)
    (h : testPrimeChallengeLength E fuel = some r) : r = true := by
  unfold testPrimeChallengeLength at h
  simp only [challenge_some] at h
  cases h1 : fsHashToPrime E fuel (initTranscript testStrings lenMax252).info (initTranscript testStrings lenMax252).maxlength with
  | none => rw [h1] at h; cases h
  | some c1 =>
    rw [h1] at h
    simp only [Option.map_some, Option.bind_eq_bind, Option.bind_some] at h
    cases h2 : fsHashToPrime E fuel ((initTranscript testStrings lenMax252).append (itoa c1)).info
        ((initTranscript testStrings lenMax252).append (itoa c1)).maxlength with
    | none => rw [h2] at h; cases h
    | some c2 =>
      rw [h2] at h
      simp only [Option.map_some, Option.bind_some] at h
      injection h with h
      obtain ⟨p1, q1, r1⟩ := max_challenge E hE fuel _ c1 h1
      obtain ⟨p2, q2, r2⟩ := max_challenge E hE fuel _ c2 h2
      rw [← h, p1, p2, q1, q2, r1, r2]; rfl

/-- The fuzz target passes on every input, for every hash function and every primality test that rejects 2^239; it returns
as soon as both challenges are found. -/
theorem C105_fuzz (E : Env) (hE : E.probablyPrime (2 ^ 239) = false) (fuel : Nat) (input : Bytes) :
    (∀ r, fuzzChallenge E fuel input = some r → r = true) ∧
    ∀ c d, fsHashToPrime E fuel [input] lenDefault = some c → fsHashToPrime E fuel [input] lenMax252 = some d →
      fuzzChallenge E fuel input = some true := by
  have key : ∀ c d, fsHashToPrime E fuel [input] lenDefault = some c → fsHashToPrime E fuel [input] lenMax252 = some d →
      fuzzChallenge E fuel input = some true := by
    intro c d h1 h2
    unfold fuzzChallenge
    simp only [challenge_some]
    have e1 : ∀ l, (initTranscript [input] l).info = [input] := fun _ => rfl
    have m1 : ∀ l, (initTranscript [input] l).maxlength = l := fun _ => rfl
    rw [e1, e1, m1, m1, h1, h2]
    have p := fsHashToPrime_prime E fuel _ _ c h1
    obtain ⟨p2, q2, r2⟩ := max_challenge E hE fuel _ d h2
    simp only [Option.map_some, Option.bind_eq_bind, Option.bind_some]
    rw [p, p2, q2, r2]; rfl
  refine ⟨fun r h => ?_, key⟩
  cases h1 : fsHashToPrime E fuel [input] lenDefault with
  | none =>
    unfold fuzzChallenge at h
    simp only [challenge_some] at h
    have e1 : (initTranscript [input] lenDefault).info = [input] := rfl
    have m1 : (initTranscript [input] lenDefault).maxlength = lenDefault := rfl
    rw [e1, m1, h1] at h; cases h
  | some c =>
    cases h2 : fsHashToPrime E fuel [input] lenMax252 with
    | none =>
      unfold fuzzChallenge at h
      simp only [challenge_some] at h
      have e1 : ∀ l, (initTranscript [input] l).info = [input] := fun _ => rfl
      have m1 : ∀ l, (initTranscript [input] l).maxlength = l := fun _ => rfl
      rw [e1, e1, m1, m1, h1, h2] at h; cases h
    | some d =>
      rw [key c d h1 h2] at h
      injection h with h; exact h.symm

/-- The condition on the primality test is needed: with a test that accepts 2^239 there is a hash function for which the
fuzz target fails. -/
theorem C105_fuzz_needs_test : ∃ E : Env, E.probablyPrime (2 ^ 239) = true ∧ fuzzChallenge E 1 [] = some false :=
  ⟨{ boundaryEnv with probablyPrime := fun _ => true }, rfl, by decide +kernel⟩

example : exEnv.probablyPrime (2 ^ 239) = false ∧ fuzzChallenge exEnv 1 (ascii "Hello, world") = some true ∧
    testTranscript exEnv 1 = some true ∧ testPrimeChallengeLength exEnv 1 = some true ∧
    testChallenge exEnv 1 = some (false, true) := by decide +kernel

/-! ## C106 -/

/-- `Compute(x, k)` on table `t` meets the check of the test against `want`, whatever the schedule: no goroutine panics, some
goroutine can move until the result is returned, only a result that passes the check is returned, every execution ends, and
one of them returns. -/
structure ComputePasses (t : Table) (x : Int) (k : Nat) (want : Int) : Prop where
  safe : ∀ s, Exec (TableCompute.Step t (natBytes x.natAbs) k) (TableCompute.init t (natBytes x.natAbs) k) s →
    s.crashed = false ∧ ((∃ v, s.main = .returned v) ∨ ∃ s', TableCompute.Step t (natBytes x.natAbs) k s s') ∧
    ∀ v, s.main = .returned v → tableCheck v want = true
  ends : AlwaysStops (TableCompute.Step t (natBytes x.natAbs) k) (TableCompute.init t (natBytes x.natAbs) k)
  returns : ∃ s v, Exec (TableCompute.Step t (natBytes x.natAbs) k) (TableCompute.init t (natBytes x.natAbs) k) s ∧
    s.main = .returned v

theorem testAccumulate_cast (N : Nat) [NeZero N] (reps : List Int) (h : ∀ e ∈ reps, 0 ≤ e) (g : Int) :
    ((testAccumulate g N reps : Int) : ZMod N) = (g : ZMod N) ^ reps.prod.natAbs ∧
    (reps ≠ [] → 0 ≤ testAccumulate g N reps ∧ testAccumulate g N reps < N) := by
  induction reps generalizing g with
  | nil => exact ⟨by simp [testAccumulate], fun h => absurd rfl h⟩
  | cons e l ih =>
    have he := h e List.mem_cons_self
    have hl := fun x hx => h x (List.mem_cons_of_mem _ hx)
    have hstep : testAccumulate g N (e :: l) = testAccumulate (((g : ZMod N) ^ e.natAbs).val : Nat) N l := by
      show testAccumulate ((bigExp g e N).getD 0) N l = _
      rw [bigExp_nonneg g e he]; rfl
    obtain ⟨h1, h2⟩ := ih hl (((g : ZMod N) ^ e.natAbs).val : Nat)
    rw [hstep]
    refine ⟨?_, fun _ => ?_⟩
    · rw [h1, List.prod_cons, Int.natAbs_mul, pow_mul]
      simp
    · by_cases hn : l = []
      · subst hn
        have := ZMod.val_lt ((g : ZMod N) ^ e.natAbs)
        simp only [testAccumulate, List.foldl_nil]
        omega
      · exact h2 hn

theorem testAccumulate_eq (N : Nat) [NeZero N] (reps : List Int) (h : ∀ e ∈ reps, 0 ≤ e) (hne : reps ≠ []) (g : Int) :
    testAccumulate g N reps = g ^ reps.prod.natAbs % N := by
  obtain ⟨h1, h2⟩ := testAccumulate_cast N reps h g
  obtain ⟨h3, h4⟩ := h2 hne
  rw [← Int.emod_eq_of_lt h3 h4]
  apply (ZMod.intCast_eq_intCast_iff' _ _ N).1
  rw [h1]; push_cast; rfl

theorem pow_emod_ne_zero (g n : Nat) (hn : 2 ≤ n) (hg : Nat.gcd g n = 1) (k : Nat) : (g : Int) ^ k % n ≠ 0 := by
  intro h
  have hd : n ∣ g ^ k := by
    have := Int.dvd_of_emod_eq_zero h
    exact_mod_cast this
  have hc : Nat.Coprime (g ^ k) n := Nat.Coprime.pow_left k hg
  have := Nat.Coprime.eq_one_of_dvd hc.symm hd
  omega

/-- Every table for which the capacity is a whole number of chunks passes such a test. -/
theorem compute_passes (g n : Nat) (ub : Int) (m c : Nat) (t : Table) (hn : 2 ≤ n) (hg : Nat.gcd g n = 1)
    (ht : newTable g n ub m c = .ok t) (hdiv : c * 8 ∣ ub.natAbs.size * m) (reps : List Int) (hl : reps.length = m)
    (hm : m ≠ 0) (he : ∀ e ∈ reps, 1 ≤ e ∧ e ≤ ub) (k : Nat) (hk : 1 ≤ k) :
    ComputePasses t reps.prod k (testAccumulate g n reps) := by
  have : NeZero n := ⟨by omega⟩
  have hne : reps ≠ [] := by rintro rfl; exact hm hl.symm
  obtain ⟨p1, p2⟩ := prod_lt_two_pow reps ub hne he
  obtain ⟨hok, hcs, hlen⟩ := newTable_ok (N := n) g ub m c t ht
  have hfit : Fits t reps.prod := by
    unfold Fits
    rw [hcs, hlen]
    have hsz : reps.prod.natAbs.size ≤ ub.natAbs.size * m := by
      rw [Nat.size_le, ← hl]
      zify
      rw [abs_of_pos (by omega)]
      exact p2
    obtain ⟨d, hd⟩ := hdiv
    have hcpos : 0 < c * 8 := by have := hok.chunk; omega
    rw [hd, Nat.mul_div_cancel_left _ hcpos]
    rw [hd, Nat.mul_assoc, Nat.mul_left_comm] at hsz
    omega
  have hn1 : (1 : Int) ≤ (n : Int) := by omega
  obtain ⟨h1, h2⟩ := C32_compute_all_schedules g n ub m c t hn1 ht reps.prod (by omega) hfit k hk
  obtain ⟨⟨s, hs, hv⟩, -, -⟩ := C34_returns_partial g n ub m c t hn1 ht reps.prod (by omega) hfit k hk
  refine ⟨fun s hs => ?_, h2, s, _, hs, hv⟩
  obtain ⟨a, b, d⟩ := h1 s hs
  refine ⟨a, b, fun v hv => ?_⟩
  have hw := testAccumulate_eq n reps (fun e h => by have := he e h; omega) hne (g : Int)
  rw [d v hv, hw]
  unfold tableCheck
  rw [decide_eq_true rfl, decide_eq_true (pow_emod_ne_zero g n hn hg _)]; rfl

theorem newTable_some (g n ub : Int) (m c : Nat) (hc : c ≠ 0) (h : ub.natAbs.size * m / (c * 8) ≠ 0) :
    ∃ t, newTable g n ub m c = .ok t := by
  unfold newTable
  simp only [if_neg hc, if_neg h]
  exact ⟨_, rfl⟩

/-- The small case of `TestTable_Compute` passes under every schedule; the literal 171360 is the product of the four
numbers. -/
theorem C106_small : ∃ t, smallTable = .ok t ∧ t.table.length = 3 ∧
    ComputePasses t smallRepProd 4 (testAccumulate 2 1000003 smallReps) := by
  obtain ⟨t, ht⟩ := newTable_some 2 1000003 32 smallReps.length 1 (by decide) (by decide +kernel)
  have h := compute_passes 2 1000003 32 smallReps.length 1 t (by decide) (by decide +kernel) ht (by decide +kernel) smallReps
    rfl (by decide) (by decide) 4 (by decide)
  have : NeZero (1000003 : Nat) := ⟨by decide⟩
  obtain ⟨-, -, hlen⟩ := newTable_ok (N := 1000003) 2 32 smallReps.length 1 t ht
  refine ⟨t, ht, by rw [hlen]; decide +kernel, ?_⟩
  have hp : smallReps.prod = smallRepProd := by decide
  rw [← hp]
  exact h

theorem ub2048 (ub : Int) (h : ub = (1 <<< 2048) - 1) : ub.natAbs.size = 2048 ∧ ∀ x : Nat, x ≤ 2 ^ 1024 → (x : Int) ≤ ub := by
  have h1 : ub = 2 ^ 2048 - 1 := by rw [h]; decide +kernel
  have h2 : (2 : Int) ^ 1024 ≤ 2 ^ 2048 - 1 := by decide +kernel
  refine ⟨by rw [h]; decide +kernel, fun x hx => ?_⟩
  have : (x : Int) ≤ 2 ^ 1024 := by exact_mod_cast hx
  rw [h1]
  exact le_trans this h2

/-- A table like those of the test file, on the built-in parameters. -/
theorem large_passes (E : Env) (c d : Nat) (hc : c ≠ 0) (hd : 2048 * 1000 = c * 8 * d) (k : Nat) (hk : 1 ≤ k) :
    ∃ t, newTable g2048 n2048 ((1 <<< 2048) - 1) 1000 c = .ok t ∧ t.table.length = d ∧
      ComputePasses t ((setProductRecursive (benchReps E 1000) : Nat) : Int) k
        (testAccumulate g2048 n2048 ((benchReps E 1000).map Int.ofNat)) := by
  obtain ⟨-, n1, -, -, -, -, -, -, hg, -⟩ := C25_trusted_parameters
  have hn : 2 ≤ n2048 := le_trans (by decide +kernel) n1
  generalize hub : ((1 <<< 2048) - 1 : Int) = ub
  obtain ⟨u1, u2⟩ := ub2048 ub hub.symm
  have hcpos : 0 < c * 8 := by omega
  have hq : ub.natAbs.size * 1000 / (c * 8) = d := by rw [u1, hd, Nat.mul_div_cancel_left _ hcpos]
  have hdne : d ≠ 0 := by rintro rfl; omega
  obtain ⟨t, ht⟩ := newTable_some g2048 n2048 ub 1000 c hc (by rw [hq]; exact hdne)
  have : NeZero n2048 := ⟨by omega⟩
  obtain ⟨-, -, hlen⟩ := newTable_ok (N := n2048) g2048 ub 1000 c t ht
  refine ⟨t, ht, by rw [hlen, hq], ?_⟩
  have hb := benchReps_bounds E 1000
  have hbl := benchReps_length E 1000
  generalize benchReps E 1000 = reps at hb hbl
  have hprod : ((setProductRecursive reps : Nat) : Int) = (reps.map Int.ofNat).prod := by
    rw [setProductRecursive_eq]
    exact Nat.cast_list_prod reps
  rw [hprod]
  refine compute_passes g2048 n2048 ub 1000 c t hn hg ht ⟨d, by rw [u1]; exact hd⟩ _ (by rw [List.length_map, hbl])
    (by decide) ?_ k hk
  intro e he
  obtain ⟨x, hx, rfl⟩ := List.mem_map.1 he
  obtain ⟨h1, h2⟩ := hb x hx
  exact ⟨Int.ofNat_le.2 (le_trans Nat.one_le_two_pow h1), u2 x h2⟩

/-- The large case of `TestTable_Compute` passes for every hash function and under every schedule. -/
theorem C106_large (E : Env) (fuel : Nat) : ∃ reps t, largeReps E fuel = Run.ok reps ∧ reps.length = 1000 ∧
    largeTable = .ok t ∧ t.table.length = 500 ∧
    ComputePasses t ((setProductRecursive reps : Nat) : Int) 4 (testAccumulate g2048 n2048 (reps.map Int.ofNat)) := by
  obtain ⟨t, ht, hl, hp⟩ := large_passes E 512 500 (by decide) (by decide) 4 (by decide)
  exact ⟨_, t, genBench_reps E fuel 1000, benchReps_length E 1000, ht, hl, hp⟩

/-- `BenchmarkPrecompute` times a computation that returns under every schedule, with the value of the loop timed by
`BenchmarkAccumulate`. -/
theorem C106_benchmark (E : Env) (fuel : Nat) : ∃ reps t, largeReps E fuel = Run.ok reps ∧
    benchTable = .ok t ∧ t.table.length = 250 ∧
    ComputePasses t ((setProductRecursive reps : Nat) : Int) 4 (testAccumulate g2048 n2048 (reps.map Int.ofNat)) := by
  obtain ⟨t, ht, hl, hp⟩ := large_passes E 1024 250 (by decide) (by decide) 4 (by decide)
  exact ⟨_, t, genBench_reps E fuel 1000, ht, hl, hp⟩

/-- The small table and the expected value. -/
example : smallTable = .ok ⟨1000003, 1, [2, 156649, 525101]⟩ ∧ testAccumulate 2 1000003 smallReps = 114379 := by
  decide +kernel

/-! ## C107 -/

/-- The tests of package zkmultiswap on sets of 10 users report nothing, whatever the hash functions. -/
def C107_statement : Prop :=
  ∀ (E : Env) (fuel : Nat) (G N accMid : Int) (u : UpdateSet32), genTestSet E fuel 10 G N accMid = Run.ok u →
    testPublicWitness u = .ok true ∧ ∀ change ∈ failCases u, failCheck E u change = .ok true

theorem failCheck_iff (E : Env) (u : UpdateSet32) (change : Circuit → Circuit) (hv : u.isValid = true)
    (hl : Lens (change (assigned u))) :
    (failCheck E u change = .ok true ↔ ¬ Sat E (change (assigned u))) ∧
    (failCheck E u change = .ok false ↔ Sat E (change (assigned u))) := by
  obtain ⟨b, hb⟩ := define_total E _ hl
  unfold failCheck
  rw [(C66_assignCircuit u).2 hv, except_bind_ok, hb, except_bind_ok, ← accepts_iff, hb]
  cases b <;> simp

/-- `TestPublicWitness` passes for a set of any size. -/
theorem C107_publicWitness_partial (E : Env) (fuel : Nat) (n : UInt32) (G N accMid : Int) (u : UpdateSet32)
    (h : genTestSet E fuel n G N accMid = Run.ok u) : testPublicWitness u = .ok true := by
  obtain ⟨L1, L2, -, -, -, -, h3, rfl⟩ := (genTestSet_ok_iff E fuel n G N accMid u).1 h
  have hv : (testSet E n.toNat L1 L2).isValid = true := by rw [testSet_isValid]; exact decide_eq_true h3
  have ha := (C66_assignCircuit _).2 hv
  have hp := (C65_public_part _ _ ha).1
  unfold testPublicWitness
  rw [ha, except_bind_ok]
  have e : publicOf (assignCircuitHelper (testSet E n.toNat L1 L2).publicPart) = publicOf (assigned (testSet E n.toNat L1 L2)) :=
    hp.symm
  simp only [e, Except.ok.injEq, decide_true, Bool.true_and, decide_eq_true_eq]
  intro hc
  have h4 := congrArg (fun l => l.getD 4 0) hc
  have h5 : (666 : Nat) = 1000000 := h4
  omega

/-- `TestZkMultiSwap` passes if no record hash overflows the field when delta is added; the size is that of the test. -/
theorem C107_zkMultiSwap_partial (E : Env) (fuel : Nat) (G N accMid : Int) (u : UpdateSet32)
    (h : genTestSet E fuel 512 G N accMid = Run.ok u) (ho : NoOverflow E u) : testZkMultiSwap E u = .ok true := by
  obtain ⟨-, -, -, -, h1⟩ := C64_genTestSet_partial E fuel 512 G N accMid u (by decide) h
  obtain ⟨c, h2, h3⟩ := h1 ho
  unfold testZkMultiSwap
  rw [h2, except_bind_ok, h3]

/-- The ten balances, ids and hashes of the test. -/
def tenNumbers : List Nat := [1, 3, 5, 7, 9, 11, 13, 15, 17, 19]

theorem assigned_ten (E : Env) (L1 L2 : Nat) :
    (assigned (testSet E 10 L1 L2)).userID = tenNumbers ∧
    (assigned (testSet E 10 L1 L2)).originalBalances = tenNumbers ∧
    (assigned (testSet E 10 L1 L2)).updatedBalances = tenNumbers ∧
    (assigned (testSet E 10 L1 L2)).originalHashes = tenNumbers ∧
    (assigned (testSet E 10 L1 L2)).originalUpdEpoch = List.replicate 10 10 := by
  have h1 : ((List.range 10).map testNumber).map UInt32.toNat = tenNumbers := by decide
  have h2 : ((List.range 10).map (fun i => ((testNumber i).toNat : Int))).map elementFromBigInt = tenNumbers := by
    decide +kernel
  have h3 : ((List.range 10).map (fun _ => (10 : UInt32))).map UInt32.toNat = List.replicate 10 10 := by decide
  exact ⟨h1, h1, h1, h2, h3⟩

theorem ten_cases (n : Nat) (h : n < 10) : n = 0 ∨ n = 1 ∨ n = 2 ∨ n = 3 ∨ n = 4 ∨ n = 5 ∨ n = 6 ∨ n = 7 ∨ n = 8 ∨ n = 9 := by
  omega

/-- All cases but that of lines 93-97 pass, for every hash function: the solver rejects. Missing from `C107_statement`: case
number 4. -/
theorem C107_failCases_partial (E : Env) (fuel : Nat) (G N accMid : Int) (u : UpdateSet32)
    (h : genTestSet E fuel 10 G N accMid = Run.ok u) (k : Nat) (hk : k ≠ 4) (change : Circuit → Circuit)
    (hc : (failCases u)[k]? = some change) : failCheck E u change = .ok true := by
  obtain ⟨L1, L2, -, -, -, -, h3, hu⟩ := (genTestSet_ok_iff E fuel 10 G N accMid u).1 h
  have hu : u = testSet E 10 L1 L2 := hu
  have hv : u.isValid = true := by rw [hu, testSet_isValid]; rfl
  obtain ⟨a1, a2, a3, a4, a5⟩ := assigned_ten E L1 L2
  rw [← hu] at a1 a2 a3 a4 a5
  have os : (assigned u).originalSum = 10000 := by rw [hu]; rfl
  have us : (assigned u).updatedSum = 10000 := by rw [hu]; rfl
  have c1 : (assigned u).challengeL1 = elementFromBigInt u.challengeL1 := rfl
  have c2 : (assigned u).challengeL2 = elementFromBigInt u.challengeL2 := rfl
  have key : ∀ c : Circuit, Sat E c → c.userID = tenNumbers → ∀ ob ub : List Nat, ∀ so su : Nat, c.originalBalances = ob →
      c.updatedBalances = ub → c.originalSum = so → c.updatedSum = su →
      (su : Int) = so + balanceChange ob ub 10 + (col ub 0 - col ob 0) := by
    rintro c hs h1 ob ub so su rfl rfl rfl rfl
    have hlen : c.userID.length = 10 := by rw [h1]; rfl
    have := C60_first_counts_twice_partial E c (by rw [hlen]; decide) ((accepts_iff E c).2 hs)
    rwa [hlen] at this
  have hlens : Lens (change (assigned u)) := by
    simp only [failCases] at hc
    rcases k with _ | _ | _ | _ | _ | _ | _ | k <;> simp at hc
    all_goals subst hc
    all_goals refine ⟨?_, ?_, ?_, ?_, ?_⟩
    all_goals simp [a1, a2, a3, a4, a5, tenNumbers]
  rw [(failCheck_iff E u change hv hlens).1]
  intro hs
  simp only [failCases] at hc
  rcases k with _ | _ | _ | _ | _ | _ | _ | k <;> simp at hc
  · subst hc
    have := key _ hs a1 tenNumbers (tenNumbers.set 0 5) 10000 10000 a2 (by simp only [a3]) os us
    revert this; decide +kernel
  · subst hc
    have := key _ hs a1 tenNumbers tenNumbers 10 10000 a2 a3 rfl us
    revert this; decide +kernel
  · subst hc
    have := key _ hs a1 tenNumbers tenNumbers 10000 10 a2 a3 os rfl
    revert this; decide +kernel
  · subst hc
    have := key _ hs a1 (tenNumbers.set 0 10) tenNumbers 10000 10000 (by simp only [a2]) a3 os us
    revert this; decide +kernel
  · exact hk rfl
  · subst hc
    have := hs.rem1
    simp only [c1] at this
    omega
  · subst hc
    have := hs.rem2
    simp only [c2] at this
    omega

/-- The change of lines 93-97 with an arbitrary balance. -/
def setFirst (v : Nat) (w : Circuit) : Circuit :=
  { w with originalBalances := w.originalBalances.set 0 v, updatedBalances := w.updatedBalances.set 0 v }

theorem failCases_four (u : UpdateSet32) : (failCases u)[4]? = some (setFirst 1000000000) := rfl

theorem setFirst_lens (E : Env) (L1 L2 v : Nat) : Lens (setFirst v (assigned (testSet E 10 L1 L2))) := by
  obtain ⟨a1, a2, a3, a4, a5⟩ := assigned_ten E L1 L2
  refine ⟨?_, ?_, ?_, ?_, ?_⟩ <;> simp [setFirst, a1, a2, a3, a4, a5, tenNumbers]

theorem setFirst_sum (c : Circuit) (v : Nat) (h2 : c.originalBalances = tenNumbers)
    (h3 : c.updatedBalances = tenNumbers) (hs : c.originalSum = 10000) : sumEnd (setFirst v c) = 10000 := by
  have hm := sumEnd_modEq (setFirst v c)
  have hl := sumEnd_lt (setFirst v c)
  have e : ∀ i, (((userAt (setFirst v c) i).ub : Int) - (userAt (setFirst v c) i).ob) = 0 := by
    intro i
    simp only [userAt, setFirst, h2, h3]; omega
  simp only [e, List.map_const', List.sum_replicate, smul_zero, add_zero] at hm
  have e2 : (setFirst v c).originalSum = 10000 := hs
  rw [e2] at hm
  have := hm.eq
  have hr : (frOrder : Int) > 2 ^ 100 := by decide
  rw [Int.emod_eq_of_lt (by omega) (by omega), Int.emod_eq_of_lt (by decide) (by decide)] at this
  omega

/-- Balance of user `i` of the test after the change. -/
def balanceOf (v i : Nat) : Nat := if i = 0 then v else 2 * i + 1

/-- The record of user `i` before the update: id and last hash `2i+1`, updated in epoch 10. -/
def tenOld (E : Env) (v i : Nat) : Nat := E.poseidon [2 * i + 1, balanceOf v i, 10, 2 * i + 1]

/-- The record of user `i` after the update in epoch 1000000. -/
def tenNew (E : Env) (v i : Nat) : Nat := E.poseidon [2 * i + 1, balanceOf v i, 1000000, tenOld E v i]

/-- The product of which the circuit takes the remainder, for ten records, an offset and a randomizer. -/
def swapProduct (E : Env) (record : Nat → Nat) (delta randomizer : Nat) : Nat :=
  (∏ i ∈ Finset.range 10, (record i + delta) % frOrder) * ∏ j ∈ Finset.range 8, E.poseidon [randomizer, j]

theorem setFirst_products (E : Env) (c : Circuit) (v : Nat) (h1 : c.userID = tenNumbers) (h2 : c.originalBalances = tenNumbers)
    (h3 : c.updatedBalances = tenNumbers) (h4 : c.originalHashes = tenNumbers)
    (h5 : c.originalUpdEpoch = List.replicate 10 10) (he : c.currentEpochNum = 1000000) :
    prodR1 E (setFirst v c) = swapProduct E (tenOld E v) c.deltaModL1 c.randomizer1 ∧
    prodR2 E (setFirst v c) = swapProduct E (tenNew E v) c.deltaModL2 c.randomizer2 := by
  have k0 : ∀ i, i < 10 → hash0 E (setFirst v c) i = tenOld E v i := by
    intro i hi
    simp only [hash0, userAt, setFirst, h1, h2, h4, h5, tenOld]
    rcases ten_cases i hi with rfl | rfl | rfl | rfl | rfl | rfl | rfl | rfl | rfl | rfl <;> rfl
  have k2 : ∀ i, i < 10 → hash2 E (setFirst v c) i = tenNew E v i := by
    intro i hi
    rw [hash2, k0 i hi]
    simp only [userAt, setFirst, h1, h3, he, tenNew]
    rcases ten_cases i hi with rfl | rfl | rfl | rfl | rfl | rfl | rfl | rfl | rfl | rfl <;> rfl
  have hl : (setFirst v c).userID.length = 10 := by simp only [setFirst, h1]; rfl
  constructor
  · rw [prodR1, hl, list_range_prod, list_range_prod, swapProduct]
    congr 1
    exact Finset.prod_congr rfl (fun i hi => by rw [k0 i (Finset.mem_range.1 hi)]; rfl)
  · rw [prodR2, hl, list_range_prod, list_range_prod, swapProduct]
    congr 1
    exact Finset.prod_congr rfl (fun i hi => by rw [k2 i (Finset.mem_range.1 hi)]; rfl)

theorem testSet_bounds (E : Env) (n L1 L2 : Nat) (p1 : 0 < L1) (p2 : 0 < L2) :
    (0 ≤ (testSet E n L1 L2).remainderR1 ∧ (testSet E n L1 L2).remainderR1 < L1) ∧
    (0 ≤ (testSet E n L1 L2).remainderR2 ∧ (testSet E n L1 L2).remainderR2 < L2) ∧
    (∃ d : Nat, (testSet E n L1 L2).deltaModL1 = d ∧ d < L1) ∧ ∃ d : Nat, (testSet E n L1 L2).deltaModL2 = d ∧ d < L2 := by
  refine ⟨?_, ?_, ⟨_, rfl, Nat.mod_lt _ p1⟩, _, rfl, Nat.mod_lt _ p2⟩
  · have e : ∃ x : Nat, (testSet E n L1 L2).remainderR1 = (x % L1 : Nat) := ⟨_, rfl⟩
    obtain ⟨x, e⟩ := e
    rw [e]; exact ⟨Int.natCast_nonneg _, Int.ofNat_lt.2 (Nat.mod_lt _ p1)⟩
  · have e : ∃ x : Nat, (testSet E n L1 L2).remainderR2 = (x % L2 : Nat) := ⟨_, rfl⟩
    obtain ⟨x, e⟩ := e
    rw [e]; exact ⟨Int.natCast_nonneg _, Int.ofNat_lt.2 (Nat.mod_lt _ p2)⟩

/-- What decides the case of lines 93-97: the solver accepts the changed balances, so that the test fails, exactly if the
two remainders computed from them are those of the set. No range check takes part: 1000000000 is below 2^32. Above that
bound the case is rejected for every hash function. -/
theorem C107_range_case_partial (E : Env) (fuel : Nat) (G N accMid : Int) (u : UpdateSet32)
    (h : genTestSet E fuel 10 G N accMid = Run.ok u) (v : Nat) :
    (failCheck E u (setFirst v) = .ok true ∨ failCheck E u (setFirst v) = .ok false) ∧
    (2 ^ 32 ≤ v → failCheck E u (setFirst v) = .ok true) ∧
    (v < 2 ^ 32 → (failCheck E u (setFirst v) = .ok false ↔
      swapProduct E (tenOld E v) u.deltaModL1.toNat 200 % u.challengeL1.toNat = u.remainderR1.toNat ∧
      swapProduct E (tenNew E v) u.deltaModL2.toNat 300 % u.challengeL2.toNat = u.remainderR2.toNat)) := by
  obtain ⟨L1, L2, g1, g2, p1, p2, h3, hu⟩ := (genTestSet_ok_iff E fuel 10 G N accMid u).1 h
  have hu : u = testSet E 10 L1 L2 := hu
  have q1 := C37_below_field_order E fuel _ L1 (Or.inl g1)
  have q2 := C37_below_field_order E fuel _ L2 (Or.inl g2)
  have hh := testSet_honest E 10 L1 L2 (by decide) (by decide) p1 p2 q1 q2
  have hv : u.isValid = true := by rw [hu, testSet_isValid]; rfl
  have hl : Lens (setFirst v (assigned u)) := by rw [hu]; exact setFirst_lens E L1 L2 v
  obtain ⟨f1, f2⟩ := failCheck_iff E u (setFirst v) hv hl
  obtain ⟨a1, a2, a3, a4, a5⟩ := assigned_ten E L1 L2
  rw [← hu] at a1 a2 a3 a4 a5 hh
  refine ⟨?_, fun hv2 => ?_, fun hv2 => ?_⟩
  · by_cases hs : Sat E (setFirst v (assigned u))
    · exact .inr (f2.2 hs)
    · exact .inl (f1.2 hs)
  · rw [f1]
    intro hs
    have h0 := (hs.users 0 hl.2.2.2.2).1
    have e : (setFirst v (assigned u)).originalBalances.getD 0 0 = v := by simp [setFirst, a2, tenNumbers]
    omega
  · have k1 : u.challengeL1 = L1 := by rw [hu]; rfl
    have k2 : u.challengeL2 = L2 := by rw [hu]; rfl
    obtain ⟨r1, r2, ⟨dd1, d1, m1⟩, dd2, d2, m2⟩ := testSet_bounds E 10 L1 L2 p1 p2
    rw [← hu] at r1 r2 d1 d2
    have E1 : (setFirst v (assigned u)).challengeL1 = L1 := by
      show elementFromBigInt u.challengeL1 = L1
      rw [k1, element_of_range _ (by omega) (by omega)]; rfl
    have E2 : (setFirst v (assigned u)).challengeL2 = L2 := by
      show elementFromBigInt u.challengeL2 = L2
      rw [k2, element_of_range _ (by omega) (by omega)]; rfl
    have E3 : (setFirst v (assigned u)).remainderR1 = u.remainderR1.toNat := element_of_range _ r1.1 (by omega)
    have E4 : (setFirst v (assigned u)).remainderR2 = u.remainderR2.toNat := element_of_range _ r2.1 (by omega)
    have E5 : (setFirst v (assigned u)).deltaModL1 = dd1 := by
      show elementFromBigInt u.deltaModL1 = dd1
      rw [d1, element_of_range _ (by omega) (by omega)]; rfl
    have E6 : (setFirst v (assigned u)).deltaModL2 = dd2 := by
      show elementFromBigInt u.deltaModL2 = dd2
      rw [d2, element_of_range _ (by omega) (by omega)]; rfl
    have ep : (setFirst v (assigned u)).currentEpochNum = 1000000 := by rw [hu]; rfl
    have rd1 : (setFirst v (assigned u)).randomizer1 = 200 := by
      rw [hu]; show elementFromBigInt 200 = 200; decide +kernel
    have rd2 : (setFirst v (assigned u)).randomizer2 = 300 := by
      rw [hu]; show elementFromBigInt 300 = 300; decide +kernel
    obtain ⟨pr1, pr2⟩ := setFirst_products E (assigned u) v a1 a2 a3 a4 a5 ep
    have x1 : (assigned u).deltaModL1 = u.deltaModL1.toNat := by
      rw [d1, Int.toNat_natCast]; exact E5
    have x2 : (assigned u).deltaModL2 = u.deltaModL2.toNat := by
      rw [d2, Int.toNat_natCast]; exact E6
    have y1 : (assigned u).randomizer1 = 200 := rd1
    have y2 : (assigned u).randomizer2 = 300 := rd2
    rw [x1, y1] at pr1
    rw [x2, y2] at pr2
    rw [← pr1, ← pr2, f2, k1, k2, Int.toNat_natCast, Int.toNat_natCast]
    constructor
    · intro hs
      have w1 := hs.r1
      have w2 := hs.r2
      rw [E1, E3] at w1
      rw [E2, E4] at w2
      exact ⟨w1, w2⟩
    · rintro ⟨w1, w2⟩
      have os : (assigned u).originalSum = 10000 := by rw [hu]; rfl
      have us : (setFirst v (assigned u)).updatedSum = 10000 := by rw [hu]; rfl
      have uid : (setFirst v (assigned u)).userID = tenNumbers := a1
      have oe : (setFirst v (assigned u)).originalUpdEpoch = List.replicate 10 10 := a5
      have ob : (setFirst v (assigned u)).originalBalances = tenNumbers.set 0 v := by simp only [setFirst, a2]
      have ub : (setFirst v (assigned u)).updatedBalances = tenNumbers.set 0 v := by simp only [setFirst, a3]
      refine ⟨hl, by rw [rd1]; decide, by rw [rd2]; decide, by rw [E5, E1]; exact m1, by rw [E6, E2]; exact m2,
        by rw [E3, E1]; omega, by rw [E4, E2]; omega, by rw [ep]; decide, ?_, by rw [us]; decide, ?_, ?_,
        by rw [E1, E3]; exact w1, by rw [E2, E4]; exact w2, ?_⟩
      · show (assigned u).originalSum < 2 ^ 32
        rw [os]; decide
      · rw [uid]; intro i hi
        have hi : i + 1 < 10 := hi
        rcases ten_cases i (by omega) with rfl | rfl | rfl | rfl | rfl | rfl | rfl | rfl | rfl | rfl <;>
          first | decide | omega
      · rw [uid, ob, ub, oe, ep]; intro i hi
        have hi : i < 10 := hi
        rcases ten_cases i hi with rfl | rfl | rfl | rfl | rfl | rfl | rfl | rfl | rfl | rfl <;>
          first | exact ⟨hv2, by decide, hv2⟩ | simp [tenNumbers]
      · rw [us]
        exact setFirst_sum (assigned u) v a2 a3 os

/-- A hash function that gives the same value for all records: the solver accepts the changed balances. -/
theorem C107_violated : ¬ C107_statement := by
  intro h
  have hg : genTestSet exEnv 1 10 2 35 4 = Run.ok (testSet exEnv 10 13 13) :=
    (genTestSet_ok_iff _ _ _ _ _ _ _).2 ⟨13, 13, exEnv_prime _, exEnv_prime _, by decide, by decide, by decide, rfl⟩
  have h1 := (h exEnv 1 2 35 4 _ hg).2 (setFirst 1000000000) (List.mem_of_getElem? (failCases_four _))
  have e1 : ∀ f d r, swapProduct exEnv f d r = 0 := fun _ _ _ => Nat.mul_zero _
  have h2 := ((C107_range_case_partial exEnv 1 2 35 4 _ hg 1000000000).2.2 (by decide)).2 (by
    rw [e1, e1]
    have b : ∀ r, blinding exEnv r = 0 := fun _ => rfl
    have r1 : (testSet exEnv 10 13 13).remainderR1 = 0 := by
      simp only [testSet, b, Nat.mul_zero, Nat.zero_mod, Nat.cast_zero]
    have r2 : (testSet exEnv 10 13 13).remainderR2 = 0 := by
      simp only [testSet, b, Nat.mul_zero, Nat.zero_mod, Nat.cast_zero]
    rw [r1, r2]
    exact ⟨Nat.zero_mod _, Nat.zero_mod _⟩)
  rw [h2] at h1
  cases h1

/-- A hash function that depends on the balance, for the example. -/
def squareEnv : Env where
  sha256 := fun _ => List.replicate 31 0 ++ [13]
  sha256_length := by intro b; rfl
  probablyPrime := fun n => n == 13
  poseidon := fun l => (l.getD 1 0 * l.getD 1 0 + l.getD 1 0 + 4) % frOrder
  poseidon_lt := fun _ => Nat.mod_lt _ (by decide)

/-- With a hash function that depends on the balances the product changes: the hypotheses hold and the case is rejected. -/
example : ∃ u, genTestSet squareEnv 1 10 2 35 4 = Run.ok u ∧
    swapProduct squareEnv (tenOld squareEnv 1) u.deltaModL1.toNat 200 % u.challengeL1.toNat ≠
    swapProduct squareEnv (tenOld squareEnv 1000000000) u.deltaModL1.toNat 200 % u.challengeL1.toNat := by
  have hp : ∀ l : List Bytes, fsHashToPrime squareEnv 1 l lenMax252 = some 13 := by
    intro l
    have : wrapNumber (List.replicate 31 0 ++ [13]) lenMax252 = 13 := by decide +kernel
    simp only [fsHashToPrime, fsPrimeLoop, squareEnv, this]
    rfl
  refine ⟨testSet squareEnv 10 13 13, (genTestSet_ok_iff _ _ _ _ _ _ _).2
      ⟨13, 13, hp _, hp _, by decide, by decide, by decide, rfl⟩, ?_⟩
  have d : (testSet squareEnv 10 13 13).deltaModL1.toNat = 8 := by
    show (((2 ^ 1023 % 13 : Nat) : Int)).toNat = 8
    decide +kernel
  have c : (testSet squareEnv 10 13 13).challengeL1.toNat = 13 := rfl
  rw [d, c]
  decide +kernel

end Verif.Props
