import Verif.Lemmas.Expected

/-!
# Properties of accumulators and membership proofs (C01 - C14)

Specification: `Verif.Spec.Accumulator` (`accumulator`, `witness`, `verifies`), `Verif.Go.Exec` (`AlwaysGives`,
`AlwaysStops`).
-/

namespace Verif.Props
open Verif.Go Verif.Model Verif.Spec Verif.Lemmas

/-! ## C01 -/

/-- C01: the recursive prover returns one witness per element, each the base to the product of the other elements, and
each verifies. -/
theorem C01_proveMembership_correct (base N : Nat) (set : List Nat) (hne : set ≠ []) (hb : base < N) :
    ∃ ps, proveMembership base N set = .ok ps ∧ ps.length = set.length ∧
      ∀ (i : Nat) (h : i < set.length) (h' : i < ps.length),
        ps[i] = base ^ (set.eraseIdx i).prod % N ∧ ps[i] ^ set[i] % N = base ^ set.prod % N := by
  refine ⟨_, proveMembership_expected base N set hne, expected_length _ _ _, ?_⟩
  intro i h h'
  have he := expected_of_reduced base N set (Nat.mod_eq_of_lt hb)
  refine ⟨?_, expected_verifies base N set i h h'⟩
  simp only [he, witnesses_getElem]
  rfl

/-- C01, any base (also not reduced): no panic on a non-empty set, and the witnesses verify. -/
theorem C01_proveMembership_never_panics (base N : Nat) (set : List Nat) (hne : set ≠ []) :
    ∃ ps, proveMembership base N set = .ok ps ∧ ps.length = set.length ∧
      ∀ (i : Nat) (h : i < set.length) (h' : i < ps.length), ps[i] ^ set[i] % N = base ^ set.prod % N :=
  ⟨_, proveMembership_expected base N set hne, expected_length _ _ _,
    fun i h h' => expected_verifies base N set i h h'⟩

example : ∃ ps, proveMembership 2 35 [3, 5, 7, 11, 13, 17] = .ok ps ∧ ps.length = 6 ∧
    ∀ (i : Nat) (h : i < 6) (h' : i < ps.length),
      ps[i] = 2 ^ ([3, 5, 7, 11, 13, 17].eraseIdx i).prod % 35 ∧
      ps[i] ^ [3, 5, 7, 11, 13, 17][i] % 35 = 2 ^ [3, 5, 7, 11, 13, 17].prod % 35 :=
  C01_proveMembership_correct 2 35 [3, 5, 7, 11, 13, 17] (by simp) (by decide)

/-! ## C02 -/

/-- The returned pair is right for the representatives `rep`: the accumulator of `rep`, and one verifying witness per
element in order. -/
def AccProofsOk (setup : Setup) (rep : List Nat) (out : Nat × List Nat) : Prop :=
  out.1 = setup.G ^ rep.prod % setup.N ∧ out.2.length = rep.length ∧
  ∀ (i : Nat) (h : i < rep.length) (h' : i < out.2.length), out.2[i] ^ rep[i] % setup.N = out.1

theorem accProofsOk_expected (setup : Setup) (rep : List Nat) :
    AccProofsOk setup rep (accumulator setup.G setup.N rep, expected setup.G setup.N rep) :=
  ⟨rfl, expected_length _ _ _, fun i h h' => expected_verifies _ _ _ i h h'⟩

theorem rep_ne_nil {E : Env} {fuel : Nat} {set : List Bytes} {enc : Int} {rep : List Nat}
    (h : genRepresentatives E fuel set enc = Run.ok rep) (hne : set ≠ []) : rep ≠ [] := by
  intro h0
  have := genRepresentatives_length _ _ _ _ _ h
  rw [h0] at this
  exact hne (List.eq_nil_of_length_eq_zero this.symm)

/-- C02 for `AccAndProve`. -/
theorem C02_accAndProve (E : Env) (fuel : Nat) (set : List Bytes) (enc : Int) (setup : Setup) (rep : List Nat)
    (hrep : genRepresentatives E fuel set enc = Run.ok rep) (hne : set ≠ []) :
    ∃ out, accAndProve E fuel set enc setup = Run.ok out ∧ AccProofsOk setup rep out := by
  have hr := rep_ne_nil hrep hne
  refine ⟨_, ?_, accProofsOk_expected setup rep⟩
  unfold accAndProve
  rw [run_bind_ok_iff]
  refine ⟨rep, hrep, ?_⟩
  rw [run_bind_ok_iff]
  refine ⟨_, (liftRes_ok_iff _ _).2 (proveMembership_expected _ _ _ hr), ?_⟩
  rw [liftRes_ok_iff, accFromProofs_expected _ _ _ hr]

/-- C02 for `AccAndProveIter` (any sufficient bound on the loop; `fuel ≥ set.length` suffices, see C04). -/
theorem C02_accAndProveIter (E : Env) (fuel : Nat) (set : List Bytes) (enc : Int) (setup : Setup) (rep : List Nat)
    (hrep : genRepresentatives E fuel set enc = Run.ok rep) (hne : set ≠ []) (hf : set.length ≤ fuel) :
    ∃ out, accAndProveIter E fuel set enc setup = Run.ok out ∧ AccProofsOk setup rep out := by
  have hr := rep_ne_nil hrep hne
  refine ⟨_, ?_, accProofsOk_expected setup rep⟩
  unfold accAndProveIter
  rw [run_bind_ok_iff]
  refine ⟨rep, hrep, ?_⟩
  rw [run_bind_ok_iff]
  refine ⟨_, (liftLoop_ok_iff _ _).2 (iter_expected _ _ _ fuel ?_), ?_⟩
  · rw [genRepresentatives_length _ _ _ _ _ hrep]; exact hf
  rw [liftRes_ok_iff, accFromProofs_expected _ _ _ hr]

/-- C02 for `AccAndProveParallel`: every outcome, in every schedule. -/
theorem C02_accAndProveParallel (E : Env) (set : List Bytes) (enc : Int) (setup : Setup) (numWorkers : Nat)
    (hne : set ≠ []) (r : Res (Nat × List Nat)) (h : AccAndProveParallel E set enc setup numWorkers r) :
    ∃ fuel rep out, genRepresentatives E fuel set enc = Run.ok rep ∧ r = .ok out ∧ AccProofsOk setup rep out := by
  cases h with
  | ok fuel rep proofs hrep hs =>
    have hr := rep_ne_nil hrep hne
    have h1 := (alwaysGives_eval _).value _ hs
    rw [parallel_expected _ _ _ _ hr] at h1
    injection h1 with h1
    subst h1
    exact ⟨fuel, rep, _, hrep, accFromProofs_expected _ _ _ hr, accProofsOk_expected setup rep⟩
  | crash fuel rep msg hrep hs =>
    have hr := rep_ne_nil hrep hne
    obtain ⟨e, he⟩ := (alwaysGives_eval _).panic hs
    rw [parallel_expected _ _ _ _ hr] at he
    cases he

/-- C02 for `AccAndProveIterParallel`: every outcome, in every schedule, on a machine with `2^k` workers; no entry of
the returned slice is nil. -/
theorem C02_accAndProveIterParallel (E : Env) (set : List Bytes) (enc : Int) (setup : Setup) (k : Nat)
    (hne : set ≠ []) (r : Res (Nat × List (Option Nat)))
    (h : AccAndProveIterParallel E set enc setup (2 ^ k) k r) :
    ∃ fuel rep out, genRepresentatives E fuel set enc = Run.ok rep ∧ r = .ok (out.1, out.2.map some) ∧
      AccProofsOk setup rep out := by
  cases h with
  | mk fuel rep proofs hrep hs =>
    have hr := rep_ne_nil hrep hne
    have h1 := iterParallel_expected _ _ _ _ _ hs
    subst h1
    exact ⟨fuel, rep, _, hrep, accFromPointers_expected _ _ _ hr, accProofsOk_expected setup rep⟩

/-- A concrete environment for the examples: constant digest, everything "prime", Poseidon adds its inputs. -/
def exampleEnv : Env where
  sha256 := fun b => UInt8.ofNat b.length :: List.replicate 31 1
  sha256_length := by simp
  probablyPrime := fun n => n % 2 == 1
  poseidon := fun l => l.sum % 1000
  poseidon_lt := fun l => Nat.lt_of_lt_of_le (Nat.mod_lt _ (by decide)) (by decide)

theorem exampleRepOf (v : Bytes) (n : Nat) (h : setString v = some (n : Int)) (hn : n < 1000) :
    repOf exampleEnv 3 diHashFromPoseidon v = Run.ok (n + min1024) := by
  unfold repOf
  rw [if_pos rfl, liftRes_ok_iff]
  unfold diRepresentative elementFromString
  rw [h]
  have h1 : elementFromBigInt (n : Int) = n := by
    unfold elementFromBigInt
    rw [Int.emod_eq_of_lt (by omega) (by unfold frOrder; omega)]; simp
  show Except.ok (exampleEnv.poseidon [elementFromBigInt (n : Int)] + min1024) = _
  rw [h1]
  show Except.ok ((n + 0) % 1000 + min1024) = _
  rw [Nat.add_zero, Nat.mod_eq_of_lt hn]

theorem exampleRep : genRepresentatives exampleEnv 3 [[49], [50], [49, 48]] diHashFromPoseidon
      = Run.ok [1 + min1024, 2 + min1024, 10 + min1024] := by
  rw [genRepresentatives_ok_iff]
  exact .cons (exampleRepOf _ 1 (by decide) (by omega)) (.cons (exampleRepOf _ 2 (by decide) (by omega))
    (.cons (exampleRepOf _ 10 (by decide) (by omega)) .nil))

example : ∃ rep, genRepresentatives exampleEnv 3 [[49], [50], [49, 48]] diHashFromPoseidon = Run.ok rep ∧ rep.length = 3 ∧
    ∃ out, accAndProve exampleEnv 3 [[49], [50], [49, 48]] diHashFromPoseidon ⟨35, 2⟩ = Run.ok out ∧
      AccProofsOk ⟨35, 2⟩ rep out := by
  have h := exampleRep
  exact ⟨_, h, rfl, C02_accAndProve exampleEnv 3 _ _ ⟨35, 2⟩ _ h (by simp)⟩

example : ∃ out, accAndProveIter exampleEnv 3 [[49], [50], [49, 48]] diHashFromPoseidon ⟨35, 2⟩ = Run.ok out ∧
    AccProofsOk ⟨35, 2⟩ [1 + min1024, 2 + min1024, 10 + min1024] out :=
  C02_accAndProveIter exampleEnv 3 _ _ ⟨35, 2⟩ _ exampleRep (by simp) (by decide)

/-! ## C03 -/

/-- C03: all provers return the same list, for every base, modulus, set, limit, CPU count and schedule. -/
theorem C03_all_provers_agree (base N : Nat) (set : List Nat) (hne : set ≠ []) :
    ∃ ps, proveMembership base N set = .ok ps ∧
      (∀ fuel ps', proveMembershipIterFuel fuel base N set = some ps' → ps' = ps) ∧
      (∃ fuel, proveMembershipIterFuel fuel base N set = some ps) ∧
      (∀ limit, AlwaysGives (proveMembershipParallel base N set limit) (.ok ps)) ∧
      (∀ limit, AlwaysGives (proveMembershipParallelWithTable base N set limit) (.ok ps)) ∧
      (∀ k ps', IterParallelReturns base N set (2 ^ k) k ps' → ps' = ps.map some) := by
  refine ⟨_, proveMembership_expected base N set hne, ?_, ⟨set.length, iter_expected _ _ _ _ (Nat.le_refl _)⟩,
    ?_, ?_, ?_⟩
  · intro fuel ps' h; exact iter_any_fuel _ _ _ _ _ h
  · intro limit; rw [← parallel_expected base N set limit hne]; exact alwaysGives_eval _
  · intro limit; rw [← parallelWithTable_expected base N set limit hne]; exact alwaysGives_eval _
  · intro k ps' h; exact iterParallel_expected _ _ _ _ _ h

example : ∃ ps, proveMembership 2 35 [3, 5, 7] = .ok ps ∧ ps = [2 ^ 35 % 35, 2 ^ 21 % 35, 2 ^ 15 % 35] ∧
    ∀ limit, AlwaysGives (proveMembershipParallel 2 35 [3, 5, 7] limit) (.ok ps) := by
  obtain ⟨ps, h1, -, -, h2, -⟩ := C03_all_provers_agree 2 35 [3, 5, 7] (by simp)
  refine ⟨ps, h1, ?_, h2⟩
  simp [proveMembership, handleSmallSet, doubleExp, accumulateNewPow, expMod] at h1
  simp [← h1]

/-! ## C04 -/

/-- C04: the loop of the iterative prover ends after at most `set.length` passes (one for the empty set) and the result
has one correct witness per element; more iterations change nothing. -/
theorem C04_iter_terminates_correct (base N : Nat) (set : List Nat) (hb : base < N) (fuel : Nat)
    (hf : set.length ≤ fuel) :
    ∃ ps, proveMembershipIterFuel fuel base N set = some ps ∧ ps.length = set.length ∧
      ∀ (i : Nat) (h : i < set.length) (h' : i < ps.length),
        ps[i] = base ^ (set.eraseIdx i).prod % N ∧ ps[i] ^ set[i] % N = base ^ set.prod % N := by
  refine ⟨_, iter_expected base N set fuel hf, expected_length _ _ _, ?_⟩
  intro i h h'
  have he := expected_of_reduced base N set (Nat.mod_eq_of_lt hb)
  refine ⟨?_, expected_verifies base N set i h h'⟩
  simp only [he, witnesses_getElem]
  rfl

example : ∃ ps, proveMembershipIterFuel 5 2 35 [3, 5, 7, 11, 13] = some ps ∧ ps.length = 5 ∧
    ∀ (i : Nat) (h : i < 5) (h' : i < ps.length),
      ps[i] = 2 ^ ([3, 5, 7, 11, 13].eraseIdx i).prod % 35 ∧
      ps[i] ^ [3, 5, 7, 11, 13][i] % 35 = 2 ^ [3, 5, 7, 11, 13].prod % 35 :=
  C04_iter_terminates_correct 2 35 [3, 5, 7, 11, 13] (by decide) 5 (by simp)

/-! ## C05 -/

/-- C05: in every schedule the parallel prover gives the result of the sequential one; no deadlock, no infinite run.
Also when the sequential prover panics (empty set). -/
theorem C05_parallel_schedule_independent (base N : Nat) (set : List Nat) (limit : Int) :
    AlwaysGives (proveMembershipParallel base N set limit) (proveMembership base N set) := by
  by_cases hne : set = []
  · subst hne
    have h := alwaysGives_eval (proveMembershipParallel base N [] limit)
    obtain ⟨e, he⟩ := parallel_nil base N limit
    rw [he] at h
    refine ⟨fun v hv => (by have := h.value v hv; cases this), fun _ => ?_, h.noDeadlock, h.stops⟩
    simp [proveMembership, handleSmallSet, goPanic]
  · rw [proveMembership_expected _ _ _ hne, ← parallel_expected base N set limit hne]
    exact alwaysGives_eval _

/-- C05 for the recursive goroutine `proveMembershipWithChan` itself, as started with any base, set and limit. -/
theorem C05_withChan_schedule_independent (base N : Nat) (set : List Nat) (limit : Int) :
    AlwaysGives (proveMembershipWithChan base N set limit) (proveMembership base N set) := by
  by_cases hne : set = []
  · subst hne
    have h := alwaysGives_eval (proveMembershipWithChan base N [] limit)
    obtain ⟨e, he⟩ := withChan_eval_nil base N limit
    rw [he] at h
    refine ⟨fun v hv => (by have := h.value v hv; cases this), fun _ => ?_, h.noDeadlock, h.stops⟩
    simp [proveMembership, handleSmallSet, goPanic]
  · have h0 : 0 < set.length := List.length_pos_iff.2 hne
    have : (proveMembershipWithChan base N set limit).eval = proveMembership base N set := by
      by_cases h1 : set.length = 1
      · unfold proveMembershipWithChan
        split
        · rw [Prog.eval]
        · rw [dif_pos (by omega), Prog.eval, handleSmallSet_of_le _ _ _ (by omega)]
      · rw [withChan_eval _ _ _ _ h0 (.inr (by omega)), proveMembership_eq _ _ _ h0 (.inr (by omega))]
    rw [← this]; exact alwaysGives_eval _

/-- The statement is not vacuous: there is a schedule that delivers the value. -/
theorem C05_parallel_delivers (base N : Nat) (set : List Nat) (limit : Int) (hne : set ≠ []) :
    ∃ ps, proveMembership base N set = .ok ps ∧
      Steps (.run (proveMembershipParallel base N set limit)) (.send ps) :=
  ⟨_, proveMembership_expected _ _ _ hne, exists_send _ _ (parallel_expected _ _ _ _ hne)⟩

example : AlwaysGives (proveMembershipParallel 2 35 [3, 5, 7, 11, 13, 17, 19, 23, 29] 4)
    (proveMembership 2 35 [3, 5, 7, 11, 13, 17, 19, 23, 29]) := C05_parallel_schedule_independent ..

/-! ## C06 -/

/-- C06: the parallel iterative prover on a machine with `2^k` workers (see C14), set larger than twice that. In every
reachable state: nothing has crashed (no send on a closed channel, no double close); the call has returned or some
goroutine can move; a returned slice holds the right witness at every position. There is no infinite run. -/
theorem C06_iterParallel_all_schedules (base N : Nat) (set : List Nat) (k : Nat) (hl : 2 ^ k * 2 < set.length) :
    let c : IterParallel.Call := ⟨N, set, base, 2 ^ k, k⟩
    (∀ s, IterParallel.Reachable c s →
      s.crashed = false ∧
      ((∃ ps, s.main = .returned ps) ∨ ∃ s', IterParallel.Step c s s') ∧
      ∀ ps, s.main = .returned ps → ps.length = set.length ∧
        ∀ (i : Nat) (h : i < set.length), ps[i]? = some (some (base ^ (set.eraseIdx i).prod % N))) ∧
    AlwaysStops (IterParallel.Step c) (IterParallel.init c) := by
  intro c
  have hc : IterParallel.CallOk c := ⟨rfl, hl⟩
  constructor
  · intro s hs
    obtain ⟨rn, co, hi⟩ := IterParallel.inv_reachable c hc s hs
    refine ⟨hi.notCrashed, IterParallel.progress c hc s rn co hi, ?_⟩
    intro ps hps
    have := IterParallel.returned_eq c s rn co hi ps hps
    subst this
    refine ⟨by simp [witnesses_length, c], ?_⟩
    intro i h
    rw [List.getElem?_map, List.getElem?_eq_getElem (by rw [witnesses_length]; exact h), witnesses_getElem]
    rfl
  · exact alwaysStops_of_measure _ (fun s => ∃ rn co, IterParallel.Inv c s rn co) (IterParallel.weight c) _
      ⟨_, _, IterParallel.inv_init c hc⟩
      (fun a b ⟨rn, co, h⟩ hs => IterParallel.inv_step c hc a b rn co h hs)
      (fun a b ⟨rn, co, h⟩ hs => IterParallel.step_weight c a b rn co h hs)

/-- C06: some run returns, for every size of set. -/
theorem C06_some_run_returns (base N : Nat) (set : List Nat) (k : Nat) : ∃ ps, IterParallelReturns base N set (2 ^ k) k ps := by
  by_cases hl : set.length ≤ 2 ^ k * 2
  · exact ⟨_, .small _ _ hl (iter_expected base N set set.length (Nat.le_refl _))⟩
  · obtain ⟨h1, h2⟩ := C06_iterParallel_all_schedules base N set k (by omega)
    obtain ⟨s, hs, ps, hps⟩ := exists_done _ (IterParallel.Reachable ⟨N, set, base, 2 ^ k, k⟩)
      (fun s => ∃ ps, s.main = .returned ps) _ .init (fun _ _ h hs => .step h hs) (fun s hs => (h1 s hs).2.1) h2
    exact ⟨ps, .large s ps hl hs hps⟩

/-- C02: the parallel functions return in some run whenever the representatives are found, so the theorems above are not
empty. -/
theorem C02_parallel_some_run (E : Env) (fuel : Nat) (set : List Bytes) (enc : Int) (setup : Setup) (rep : List Nat)
    (hrep : genRepresentatives E fuel set enc = Run.ok rep) (hne : set ≠ []) (k : Nat) :
    (∃ out, AccAndProveParallel E set enc setup (2 ^ k) (.ok out)) ∧
    ∃ out, AccAndProveIterParallel E set enc setup (2 ^ k) k (.ok out) := by
  have hr := rep_ne_nil hrep hne
  constructor
  · have := AccAndProveParallel.ok (E := E) (set := set) (encodeType := enc) (setup := setup) (numWorkers := 2 ^ k) fuel
      rep _ hrep (exists_send _ _ (parallel_expected _ _ _ _ hr))
    rw [accFromProofs_expected _ _ _ hr] at this
    exact ⟨_, this⟩
  · obtain ⟨ps, h⟩ := C06_some_run_returns setup.G setup.N rep k
    obtain rfl := iterParallel_expected _ _ _ _ _ h
    have := AccAndProveIterParallel.mk (E := E) (set := set) (encodeType := enc) (setup := setup) fuel rep _ hrep h
    rw [accFromPointers_expected _ _ _ hr] at this
    exact ⟨_, this⟩

/-- Both calls can return, and what they return is right. -/
example : (∃ out, AccAndProveParallel exampleEnv [[49], [50], [49, 48]] diHashFromPoseidon ⟨35, 2⟩ 4 (.ok out) ∧
      ∃ rep, AccProofsOk ⟨35, 2⟩ rep out) ∧
    ∃ out, AccAndProveIterParallel exampleEnv [[49], [50], [49, 48]] diHashFromPoseidon ⟨35, 2⟩ (2 ^ 2) 2 (.ok out) ∧
      ∃ rep out', out = (out'.1, out'.2.map some) ∧ AccProofsOk ⟨35, 2⟩ rep out' := by
  obtain ⟨⟨o1, h1⟩, o2, h2⟩ := C02_parallel_some_run exampleEnv 3 _ _ ⟨35, 2⟩ _ exampleRep (by simp) 2
  obtain ⟨-, rep1, out1, -, e1, g1⟩ := C02_accAndProveParallel _ _ _ _ _ (by simp) _ h1
  obtain ⟨-, rep2, out2, -, e2, g2⟩ := C02_accAndProveIterParallel _ _ _ _ _ (by simp) _ h2
  injection e1 with e1
  injection e2 with e2
  subst e1
  exact ⟨⟨_, h1, rep1, g1⟩, _, h2, rep2, out2, e2, g2⟩

/-- C06, segments: in every reachable state the segments on their way (sent start nodes, running workers, results in
the `receivers` channel) do not overlap: no position lies in two of them. Together with the theorem above (every
position has its witness at the end) each position is written exactly once. -/
theorem C06_segments_disjoint (base N : Nat) (set : List Nat) (k : Nat) (hl : 2 ^ k * 2 < set.length)
    (s : IterParallel.State) (h : IterParallel.Reachable ⟨N, set, base, 2 ^ k, k⟩ s) (i : Nat) :
    s.nodeQ.countP (fun n => decide (n.left ≤ i) && decide (i < n.right)) +
    s.workers.countP (fun n => decide (n.left ≤ i) && decide (i < n.right)) +
    s.recvQ.countP (fun n => decide (n.left ≤ i) && decide (i < n.right)) ≤ 1 := by
  have hc : IterParallel.CallOk ⟨N, set, base, 2 ^ k, k⟩ := ⟨rfl, hl⟩
  obtain ⟨rn, co, hi⟩ := IterParallel.inv_reachable _ hc s h
  have hperm : (s.tasks.flatMap (IterParallel.taskLeaves ⟨N, set, base, 2 ^ k, k⟩) ++ (s.nodeQ ++ (s.workers ++ (rn ++ co)))).Perm
      (IterParallel.allLeaves ⟨N, set, base, 2 ^ k, k⟩) := by
    rw [List.perm_iff_count]
    intro a
    have := hi.perm a
    simp only [List.count_append]
    omega
  have h1 := hperm.countP_eq (IterParallel.covers i)
  have h2 := IterParallel.leaves_cover N set k (IterParallel.rootNode ⟨N, set, base, 2 ^ k, k⟩) i (Nat.zero_le _)
  have h3 : List.countP (IterParallel.covers i) (IterParallel.allLeaves ⟨N, set, base, 2 ^ k, k⟩) ≤ 1 := by
    unfold IterParallel.allLeaves
    rw [h2]; split <;> omega
  have h4 : s.recvQ.countP (fun n => decide (n.left ≤ i) && decide (i < n.right))
      = rn.countP (IterParallel.covers i) := by
    rw [hi.recv, List.countP_map]; rfl
  have h5 : (fun n : ProofNode => decide (n.left ≤ i) && decide (i < n.right)) = IterParallel.covers i := rfl
  rw [h4, h5]
  simp only [List.countP_append] at h1
  omega

example : AlwaysStops (IterParallel.Step ⟨35, [3, 5, 7, 11, 13], 2, 2 ^ 1, 1⟩)
      (IterParallel.init ⟨35, [3, 5, 7, 11, 13], 2, 2 ^ 1, 1⟩) :=
  (C06_iterParallel_all_schedules 2 35 [3, 5, 7, 11, 13] 1 (by decide)).2

example (i : Nat) : (IterParallel.init ⟨35, [3, 5, 7, 11, 13], 2, 2 ^ 1, 1⟩).nodeQ.countP
    (fun n => decide (n.left ≤ i) && decide (i < n.right)) ≤ 1 := by
  have := C06_segments_disjoint 2 35 [3, 5, 7, 11, 13] 1 (by decide) _ .init i
  omega

/-- The small case of the same function: it runs the sequential algorithm. -/
theorem C06_small_sets (base N : Nat) (set : List Nat) (k : Nat) (hl : set.length ≤ 2 ^ k * 2) (hb : base < N) :
    IterParallelReturns base N set (2 ^ k) k ((witnesses base N set).map some) := by
  have h := iter_expected base N set set.length (Nat.le_refl _)
  rw [expected_of_reduced _ _ _ (Nat.mod_eq_of_lt hb)] at h
  exact .small _ _ hl h

example : (2 : Nat) ^ 2 * 2 < [3, 5, 7, 11, 13, 17, 19, 23, 29, 31, 37].length := by decide

/-! ## C07 -/

theorem perm_eraseIdx_prod (xs ys : List Nat) (h : xs.Perm ys) (i j : Nat) (hi : i < xs.length) (hj : j < ys.length)
    (hx : xs[i] = ys[j]) : (xs.eraseIdx i).prod = (ys.eraseIdx j).prod := by
  apply List.Perm.prod_eq
  have h1 : (xs[i] :: xs.eraseIdx i).Perm xs := List.getElem_cons_eraseIdx_perm hi
  have h2 : (ys[j] :: ys.eraseIdx j).Perm ys := List.getElem_cons_eraseIdx_perm hj
  rw [hx] at h1
  exact (h1.trans (h.trans h2.symm)).cons_inv

/-- C07: for two orders of the same strings the accumulator is the same, and equal strings get equal witnesses. -/
theorem C07_order_independent (E : Env) (fuel : Nat) (set set' : List Bytes) (enc : Int) (setup : Setup)
    (hp : set.Perm set') (acc : Nat) (ps : List Nat)
    (h : accAndProve E fuel set enc setup = Run.ok (acc, ps)) :
    ∃ ps', accAndProve E fuel set' enc setup = Run.ok (acc, ps') ∧
      ∀ (i j : Nat) (hi : i < set.length) (hj : j < set'.length), set[i] = set'[j] → ps[i]? = ps'[j]? := by
  have hne : set ≠ [] := by
    rintro rfl
    unfold accAndProve at h
    rw [run_bind_ok_iff] at h
    obtain ⟨rep, hrep, h⟩ := h
    obtain rfl := List.eq_nil_of_length_eq_zero (by simpa using genRepresentatives_length _ _ _ _ _ hrep)
    rw [run_bind_ok_iff] at h
    obtain ⟨q, hq, -⟩ := h
    rw [liftRes_ok_iff] at hq
    simp [proveMembership, handleSmallSet, goPanic] at hq
  have h0 := h
  unfold accAndProve at h0
  rw [run_bind_ok_iff] at h0
  obtain ⟨rep, hrep, h0⟩ := h0
  rw [run_bind_ok_iff] at h0
  obtain ⟨q, hq, h0⟩ := h0
  rw [liftRes_ok_iff, proveMembership_expected _ _ _ (rep_ne_nil hrep hne)] at hq
  injection hq with hq
  subst hq
  rw [liftRes_ok_iff, accFromProofs_expected _ _ _ (rep_ne_nil hrep hne)] at h0
  injection h0 with h0
  injection h0 with ha hps
  -- representatives of the permuted list
  classical
  have hF := (genRepresentatives_ok_iff ..).1 hrep
  have hsome : ∀ v ∈ set, ∃ r, repOf E fuel enc v = Run.ok r := by
    intro v hv
    obtain ⟨i, hi, rfl⟩ := List.getElem_of_mem hv
    have hi' : i < rep.length := by rw [← hF.length_eq]; exact hi
    exact ⟨rep[i], by simpa using hF.get hi hi'⟩
  let f : Bytes → Nat := fun v => if hv : ∃ r, repOf E fuel enc v = Run.ok r then hv.choose else 0
  have hf : ∀ v r, repOf E fuel enc v = Run.ok r → f v = r := by
    intro v r hr
    have hv : ∃ r, repOf E fuel enc v = Run.ok r := ⟨r, hr⟩
    have : f v = hv.choose := dif_pos hv
    rw [this]; exact run_ok_inj (hv.choose_spec.symm.trans hr)
  have hrep_map : ∀ (l : List Bytes) (rep : List Nat),
      List.Forall₂ (fun v r => repOf E fuel enc v = Run.ok r) l rep → rep = l.map f := by
    intro l rep hl
    induction hl with
    | nil => rfl
    | cons hb _ ih => rw [List.map_cons, hf _ _ hb, ← ih]
  have hmapF : ∀ l : List Bytes, (∀ v ∈ l, v ∈ set) →
      List.Forall₂ (fun v r => repOf E fuel enc v = Run.ok r) l (l.map f) := by
    intro l hl
    induction l with
    | nil => exact .nil
    | cons v l ih =>
      refine .cons ?_ (ih (fun w hw => hl w (List.mem_cons_of_mem _ hw)))
      obtain ⟨r, hr⟩ := hsome v (hl v List.mem_cons_self)
      rw [hf v r hr]; exact hr
  have hrepeq := hrep_map set rep hF
  have hrep' : genRepresentatives E fuel set' enc = Run.ok (set'.map f) :=
    (genRepresentatives_ok_iff ..).2 (hmapF set' (fun v hv => hp.symm.subset hv))
  have hne' : set' ≠ [] := by intro h'; subst h'; exact hne (hp.eq_nil)
  have hpm : rep.Perm (set'.map f) := by rw [hrepeq]; exact hp.map f
  refine ⟨expected setup.G setup.N (set'.map f), ?_, ?_⟩
  · unfold accAndProve
    rw [run_bind_ok_iff]
    refine ⟨_, hrep', ?_⟩
    rw [run_bind_ok_iff]
    refine ⟨_, (liftRes_ok_iff _ _).2 (proveMembership_expected _ _ _ (rep_ne_nil hrep' hne')), ?_⟩
    rw [liftRes_ok_iff, accFromProofs_expected _ _ _ (rep_ne_nil hrep' hne'), ← ha]
    unfold accumulator
    rw [hpm.prod_eq]
  · intro i j hi hj hij
    have hl : rep.length = set.length := by rw [hrepeq, List.length_map]
    have hl' : set'.length = set.length := hp.length_eq.symm
    rw [← hps]
    by_cases h1 : set.length = 1
    · have hi0 : i = 0 := by omega
      have hj0 : j = 0 := by omega
      subst hi0 hj0
      unfold expected
      rw [if_pos (by omega), if_pos (by rw [List.length_map]; omega)]
    · have hi' : i < (witnesses setup.G setup.N rep).length := by
        rw [witnesses_length, hl]; exact hi
      have hj' : j < (witnesses setup.G setup.N (set'.map f)).length := by
        rw [witnesses_length, List.length_map]; exact hj
      rw [expected_of_two _ _ _ (by omega), expected_of_two _ _ _ (by rw [List.length_map]; omega),
        List.getElem?_eq_getElem hi', List.getElem?_eq_getElem hj', witnesses_getElem, witnesses_getElem]
      unfold witness allBut
      rw [perm_eraseIdx_prod rep (set'.map f) hpm i j (by rw [hl]; exact hi)
        (by rw [List.length_map]; exact hj) (by simp [hrepeq, hij])]

example : ([[49], [50], [49, 48]] : List Bytes).Perm [[49, 48], [49], [50]] := by decide

/-! ## C08 -/

/-- C08: sizes at which the entry points panic. `limit` arbitrary. -/
theorem C08_panic_sizes (base r N : Nat) (set : List Nat) (limit : Int) :
    ((proveMembership base N set).panics = true ↔ set = []) ∧
    (proveMembershipIterFuel set.length base N [] = some []) ∧
    (∀ k ps, IterParallelReturns base N [] (2 ^ k) k ps ↔ ps = []) ∧
    ((proveMembershipSingleThreadWithRandomizer base r N set).panics = true ↔ set.length < 4) ∧
    ((∃ e, (proveMembershipParallel base N set limit).eval = .error e) ↔ set = []) ∧
    ((∃ e, (proveMembershipParallelWithTable base N set limit).eval = .error e) ↔ set = []) ∧
    ((∃ e, (proveMembershipParallelWithTableWithRandomizer base r N set limit).eval = .error e) ↔ set.length < 4) ∧
    ((∃ e, (proveMembershipParallelWithTableWithRandomizerWithChan base r N set limit).eval = .error e)
      ↔ set.length < 4) := by
  have hR : (proveMembershipSingleThreadWithRandomizer base r N set).panics = true ↔ set.length < 4 := by
    constructor
    · intro h
      by_contra h4
      rw [randomized_eq base r N set (by omega)] at h
      simp [Res.panics] at h
    · exact randomized_small base r N set
  have hRP : (∃ e, (proveMembershipParallelWithTableWithRandomizer base r N set limit).eval = .error e)
      ↔ set.length < 4 := by
    unfold proveMembershipParallelWithTableWithRandomizer
    split
    · rw [← hR]
      simp only [Prog.eval]
      cases proveMembershipSingleThreadWithRandomizer base r N set <;> simp [Res.panics]
    · constructor
      · rintro ⟨e, he⟩
        by_contra h4
        rw [fourWorkers_eval _ _ _ _ (by omega)] at he
        cases he
      · exact fourWorkers_eval_small _ _ _ _
  have hP : (∃ e, (proveMembershipParallel base N set limit).eval = .error e) ↔ set = [] := by
    constructor
    · rintro ⟨e, he⟩
      by_contra h
      rw [parallel_expected _ _ _ _ h] at he
      cases he
    · rintro rfl; exact parallel_nil _ _ _
  refine ⟨?_, by simp [proveMembershipIterFuel], ?_, hR, hP, hP, hRP, hRP⟩
  · constructor
    · intro h
      by_contra hne
      rw [proveMembership_expected _ _ _ hne] at h
      simp [Res.panics] at h
    · rintro rfl; exact proveMembership_nil _ _
  · intro k ps
    constructor
    · intro h
      rw [iterParallel_expected _ _ _ _ _ h]; rfl
    · rintro rfl
      exact .small 0 [] (by simp) (by simp [proveMembershipIterFuel])

/-- C08 for the `AccAndProve` family: with the representatives given, they panic exactly on the empty set. -/
theorem C08_accAndProve_panics_iff (E : Env) (fuel : Nat) (set : List Bytes) (enc : Int) (setup : Setup)
    (rep : List Nat) (hrep : genRepresentatives E fuel set enc = Run.ok rep) (hf : set.length ≤ fuel) (k : Nat) :
    ((∃ e, accAndProve E fuel set enc setup = liftRes (.error e)) ↔ set = []) ∧
    ((∃ e, accAndProveIter E fuel set enc setup = liftRes (.error e)) ↔ set = []) ∧
    ((∃ e, AccAndProveParallel E set enc setup (2 ^ k) (.error e)) ↔ set = []) ∧
    ((∃ e, AccAndProveIterParallel E set enc setup (2 ^ k) k (.error e)) ↔ set = []) := by
  have hbind : ∀ {α : Type} (f : List Nat → Run α), (genRepresentatives E fuel set enc >>= f) = f rep := by
    intro α f; rw [hrep]; rfl
  have hnil : set = [] → rep = [] := by
    intro h
    have := genRepresentatives_length _ _ _ _ _ hrep
    rw [h] at this
    exact List.eq_nil_of_length_eq_zero this
  have hok_ne_err : ∀ {α : Type} (a : α) (e : String), (Run.ok a : Run α) ≠ liftRes (.error e) := by
    intro α a e h
    have : some (Except.ok a : Except String α) = some (.error e) := h
    injection this with this; cases this
  refine ⟨⟨?_, ?_⟩, ⟨?_, ?_⟩, ⟨?_, ?_⟩, ⟨?_, ?_⟩⟩
  · rintro ⟨e, he⟩
    by_contra hne
    obtain ⟨out, ho, -⟩ := C02_accAndProve E fuel set enc setup rep hrep hne
    rw [ho] at he; exact hok_ne_err _ _ he
  · intro h
    rw [accAndProve, hbind, hnil h]
    exact ⟨"Error in handleSmallSet, set size", by simp [proveMembership, handleSmallSet, goPanic]; rfl⟩
  · rintro ⟨e, he⟩
    by_contra hne
    obtain ⟨out, ho, -⟩ := C02_accAndProveIter E fuel set enc setup rep hrep hne hf
    rw [ho] at he; exact hok_ne_err _ _ he
  · intro h
    rw [accAndProveIter, hbind, hnil h]
    exact ⟨"index out of range", by simp [proveMembershipIterFuel]; rfl⟩
  · rintro ⟨e, he⟩
    by_contra hne
    obtain ⟨_, _, _, _, ho, -⟩ := C02_accAndProveParallel E set enc setup _ hne _ he
    cases ho
  · intro h
    have hc : Steps (.run (proveMembershipParallel setup.G setup.N [] ((2 ^ k : Nat) : Int))) .crash := by
      have hk : ¬ ((2 ^ k : Nat) : Int) ≤ 0 := by
        have : 0 < 2 ^ k := Nat.two_pow_pos k
        omega
      unfold proveMembershipParallel
      rw [if_neg hk, if_pos (by simp)]
      exact .tail (.refl _) (.retPanic _)
    refine ⟨"panic in goroutine", .crash fuel rep _ hrep ?_⟩
    rw [hnil h]; exact hc
  · rintro ⟨e, he⟩
    by_contra hne
    obtain ⟨_, _, _, _, ho, -⟩ := C02_accAndProveIterParallel E set enc setup k hne _ he
    cases ho
  · intro h
    refine ⟨"index out of range", ?_⟩
    have := AccAndProveIterParallel.mk (E := E) (set := set) (encodeType := enc) (setup := setup)
      (numWorkers := 2 ^ k) (powerOfTwo := k) fuel rep [] hrep
      (by rw [hnil h]; exact .small 0 [] (by simp) (by simp [proveMembershipIterFuel]))
    exact this

example : (proveMembershipSingleThreadWithRandomizer 2 9 35 [3, 5, 7]).panics = true ∧
    (proveMembershipSingleThreadWithRandomizer 2 9 35 [3, 5, 7, 11]).panics = false := by
  constructor
  · exact ((C08_panic_sizes 2 9 35 [3, 5, 7] 0).2.2.2.1).2 (by decide)
  · have h := (C08_panic_sizes 2 9 35 [3, 5, 7, 11] 0).2.2.2.1
    cases hp : (proveMembershipSingleThreadWithRandomizer 2 9 35 [3, 5, 7, 11]).panics with
    | false => rfl
    | true => exact absurd (h.1 hp) (by decide)

/-! ## C09 -/

/-- C09: all product routines, on signed integers; the parallel one for every limit and schedule. -/
theorem C09_products (l : List Int) :
    setProduct l = l.prod ∧ setProduct2 l = l.prod ∧ setProductRecursive l = l.prod ∧
    setProductRecursiveFast l = l.prod ∧ ∀ limit, AlwaysGives (setProductParallel l limit) (.ok l.prod) := by
  refine ⟨setProduct_eq l, setProduct2_eq l, setProductRecursive_eq l, setProductRecursiveFast_eq l, ?_⟩
  intro limit
  rw [← setProductParallel_eval l limit]
  exact alwaysGives_eval _

example : ([] : List Int).prod = 1 ∧ ([3, -5, 7, 2, 11] : List Int).prod = -2310 := by decide

/-! ## C10 -/

/-- C10: randomised witnesses. -/
theorem C10_randomized_correct (base r N : Nat) (set : List Nat) (h4 : 4 ≤ set.length) :
    ∃ ps, proveMembershipSingleThreadWithRandomizer base r N set = .ok ps ∧ ps.length = set.length ∧
      ∀ (i : Nat) (h : i < set.length) (h' : i < ps.length),
        ps[i] = base ^ (r * (set.eraseIdx i).prod) % N ∧ ps[i] ^ set[i] % N = base ^ (r * set.prod) % N := by
  refine ⟨_, randomized_eq base r N set h4, witnesses_length _ _ _, ?_⟩
  intro i h h'
  rw [witnesses_getElem]
  have hv := witness_verifies (base ^ r) N set i h
  unfold verifies accumulator at hv
  rw [← pow_mul] at hv
  refine ⟨?_, hv⟩
  unfold witness allBut; rw [← pow_mul]

example : ∃ ps, proveMembershipSingleThreadWithRandomizer 2 9 35 [3, 5, 7, 11] = .ok ps ∧ ps.length = 4 ∧
    ∀ (i : Nat) (h : i < 4) (h' : i < ps.length),
      ps[i] = 2 ^ (9 * ([3, 5, 7, 11].eraseIdx i).prod) % 35 ∧
      ps[i] ^ [3, 5, 7, 11][i] % 35 = 2 ^ (9 * [3, 5, 7, 11].prod) % 35 :=
  C10_randomized_correct 2 9 35 [3, 5, 7, 11] (by decide)

/-! ## C11 (violated) -/

/-- C11 as stated: the result does not depend on the limit. -/
def C11_statement : Prop :=
  ∀ (base r N : Nat) (set : List Nat), 4 ≤ set.length → ∀ l1 l2 : Int,
    (proveMembershipParallelWithTableWithRandomizer base r N set l1).eval
      = (proveMembershipParallelWithTableWithRandomizer base r N set l2).eval

/-- The code violates C11: with a positive limit the randomizer is ignored. -/
theorem C11_violated : ¬ C11_statement := by
  intro h
  have := h 2 2 101 [3, 5, 7, 11] (by decide) 0 1
  unfold proveMembershipParallelWithTableWithRandomizer at this
  rw [if_pos (by decide), if_neg (by decide), Prog.eval, fourWorkers_eval _ _ _ _ (by decide),
    randomized_eq _ _ _ _ (by decide)] at this
  injection this with this
  revert this
  decide +kernel

theorem randomizer_eval (base r N : Nat) (set : List Nat) (h4 : 4 ≤ set.length) (limit : Int) :
    (proveMembershipParallelWithTableWithRandomizer base r N set limit).eval
    = (.ok ((List.range set.length).map
      (fun i => base ^ ((if limit ≤ 0 then r else 1) * (set.eraseIdx i).prod) % N))) := by
  unfold proveMembershipParallelWithTableWithRandomizer
  by_cases hl : limit ≤ 0
  · rw [if_pos hl, Prog.eval, randomized_eq _ _ _ _ h4]
    simp only [if_pos hl, witnesses]
    congr 2; funext i; unfold witness allBut; rw [← pow_mul]
  · rw [if_neg hl, fourWorkers_eval _ _ _ _ h4]
    simp only [if_neg hl, witnesses, one_mul]
    rfl

/-- What holds instead, exactly: for `limit ≤ 0` every schedule gives the randomised witnesses of C10, for `limit > 0`
the witnesses without randomizer. -/
theorem C11_randomizer_partial (base r N : Nat) (set : List Nat) (h4 : 4 ≤ set.length) (limit : Int) :
    AlwaysGives (proveMembershipParallelWithTableWithRandomizer base r N set limit)
      (.ok ((List.range set.length).map
        (fun i => base ^ ((if limit ≤ 0 then r else 1) * (set.eraseIdx i).prod) % N))) ∧
    AlwaysGives (proveMembershipParallelWithTableWithRandomizerWithChan base r N set limit)
      (.ok ((List.range set.length).map
        (fun i => base ^ ((if limit ≤ 0 then r else 1) * (set.eraseIdx i).prod) % N))) := by
  have key := randomizer_eval base r N set h4 limit
  refine ⟨?_, ?_⟩
  · rw [← key]; exact alwaysGives_eval _
  · rw [← key]; exact alwaysGives_eval _

example : 4 ≤ [3, 5, 7, 11, 13].length := by decide

/-- When the limit makes no difference: between two limits on the same side of zero always; otherwise exactly if the randomizer
changes no witness. -/
theorem C11_same_iff_partial (base r N : Nat) (set : List Nat) (h4 : 4 ≤ set.length) (l1 l2 : Int) :
    (proveMembershipParallelWithTableWithRandomizer base r N set l1).eval
        = (proveMembershipParallelWithTableWithRandomizer base r N set l2).eval ↔
      ((l1 ≤ 0 ↔ l2 ≤ 0) ∨
        ∀ i < set.length, base ^ (r * (set.eraseIdx i).prod) % N = base ^ (set.eraseIdx i).prod % N) := by
  rw [randomizer_eval base r N set h4 l1, randomizer_eval base r N set h4 l2, Except.ok.injEq, List.map_inj_left]
  simp only [List.mem_range]
  by_cases h1 : l1 ≤ 0 <;> by_cases h2 : l2 ≤ 0 <;> simp only [h1, h2, if_true, if_false, one_mul]
  · simp
  · simp
  · simp only [iff_true, false_or]
    exact ⟨fun h i hi => (h i hi).symm, fun h i hi => (h i hi).symm⟩
  · simp

/-! ## C12 -/

/-- C12: value of the zero-knowledge accumulator, its own witnesses, and the witnesses of the randomised prover with
the same randomizer. -/
theorem C12_zkAccumulate (E : Env) (fuel r : Nat) (set : List Bytes) (enc : Int) (setup : Setup) (rep : List Nat)
    (hrep : genRepresentatives E fuel set enc = Run.ok rep) (hne : set ≠ []) :
    ∃ acc ps, zkAccumulate E fuel r set enc setup = Run.ok (acc, ps) ∧
      acc = setup.G ^ (r * rep.prod) % setup.N ∧ ps.length = set.length ∧
      (∀ (i : Nat) (h : i < rep.length) (h' : i < ps.length), ps[i] ^ rep[i] % setup.N = acc) ∧
      (4 ≤ set.length → ∀ qs, proveMembershipSingleThreadWithRandomizer setup.G r setup.N rep = .ok qs →
        ∀ (i : Nat) (h : i < rep.length) (h' : i < qs.length), qs[i] ^ rep[i] % setup.N = acc) := by
  have hr := rep_ne_nil hrep hne
  have hlen := genRepresentatives_length _ _ _ _ _ hrep
  have hacc : accumulator (setup.G ^ r % setup.N) setup.N rep = setup.G ^ (r * rep.prod) % setup.N := by
    unfold accumulator; rw [pow_mod_pow]
  refine ⟨setup.G ^ (r * rep.prod) % setup.N, expected (setup.G ^ r % setup.N) setup.N rep, ?_, rfl, ?_, ?_, ?_⟩
  · unfold zkAccumulate
    rw [run_bind_ok_iff]
    refine ⟨rep, hrep, ?_⟩
    rw [run_bind_ok_iff]
    refine ⟨_, (liftRes_ok_iff _ _).2 (proveMembership_expected _ _ _ hr), ?_⟩
    rw [liftRes_ok_iff]
    unfold accumulateNewPow expMod
    rw [accFromProofs_expected _ _ _ hr, hacc]
  · rw [expected_length, hlen]
  · intro i h h'
    have := expected_verifies (setup.G ^ r % setup.N) setup.N rep i h h'
    rw [hacc] at this
    exact this
  · intro h4 qs hq i h h'
    obtain ⟨ps, hp, -, hps⟩ := C10_randomized_correct setup.G r setup.N rep (by omega)
    rw [hp] at hq
    injection hq with hq
    subst hq
    exact (hps i h h').2

example : ∃ acc ps, zkAccumulate exampleEnv 3 5 [[49], [50], [49, 48]] diHashFromPoseidon ⟨35, 2⟩ = Run.ok (acc, ps) ∧
    acc = (⟨35, 2⟩ : Setup).G ^ (5 * [1 + min1024, 2 + min1024, 10 + min1024].prod) % (⟨35, 2⟩ : Setup).N := by
  obtain ⟨acc, ps, h1, h2, -⟩ := C12_zkAccumulate exampleEnv 3 5 _ _ ⟨35, 2⟩ _ exampleRep (by simp)
  exact ⟨acc, ps, h1, h2⟩

/-! ## C13 -/

/-- C13: with a table for the same base, every limit and schedule gives the result of the table-free prover. -/
theorem C13_table_equals_no_table (base N : Nat) (set : List Nat) (limit : Int) :
    AlwaysGives (proveMembershipParallelWithTable base N set limit) (proveMembership base N set) :=
  C05_parallel_schedule_independent base N set limit

example : AlwaysGives (proveMembershipParallelWithTable 2 35 [3, 5, 7, 11, 13, 17] 2)
    (proveMembership 2 35 [3, 5, 7, 11, 13, 17]) := C13_table_equals_no_table ..

/-! ## C14 -/

theorem calNumWorkersLoop_spec (n fuel k : Nat) (h : 2 * n < fuel + k) (hk : 2 ^ k ≤ 2 * n) :
    ∃ k', (∀ f, fuel ≤ f → calNumWorkersLoop n f (2 ^ k, k) = some (2 ^ k', k')) ∧ n < 2 ^ k' ∧ 2 ^ k' ≤ 2 * n := by
  induction fuel generalizing k with
  | zero =>
    exfalso
    have : k < 2 ^ k := Nat.lt_two_pow_self
    omega
  | succ fuel ih =>
    by_cases hle : 2 ^ k ≤ n
    · obtain ⟨k', h1, h2, h3⟩ := ih (k + 1) (by omega) (by rw [pow_succ]; omega)
      refine ⟨k', ?_, h2, h3⟩
      intro f hf
      obtain ⟨f', rfl⟩ : ∃ f', f = f' + 1 := ⟨f - 1, by omega⟩
      rw [calNumWorkersLoop, if_pos hle, ← pow_succ]
      exact h1 f' (by omega)
    · refine ⟨k, ?_, by omega, hk⟩
      intro f hf
      obtain ⟨f', rfl⟩ : ∃ f', f = f' + 1 := ⟨f - 1, by omega⟩
      rw [calNumWorkersLoop, if_neg hle]

/-- C14. `numCPUs ≥ 1` on every machine; the loop ends (any bound from `2 * numCPUs + 1` on gives the result). -/
theorem C14_calNumWorkers (numCPUs : Nat) (h : 1 ≤ numCPUs) :
    ∃ w k : Nat, (∀ fuel, 2 * numCPUs + 1 ≤ fuel → calNumWorkers fuel numCPUs = some (w, (k : Int))) ∧ w = 2 ^ k ∧
      w ≤ numCPUs ∧ numCPUs < 2 * w := by
  obtain ⟨k', h1, h2, h3⟩ := calNumWorkersLoop_spec numCPUs (2 * numCPUs + 1) 0 (by omega) (by omega)
  obtain ⟨k, rfl⟩ : ∃ k, k' = k + 1 := by
    cases k' with
    | zero => simp at h2; omega
    | succ k => exact ⟨k, rfl⟩
  rw [pow_succ] at h2 h3
  refine ⟨2 ^ k, k, ?_, rfl, by omega, by omega⟩
  intro fuel hf
  unfold calNumWorkers
  have := h1 fuel hf
  rw [pow_zero] at this
  rw [this, Option.map_some, pow_succ]
  simp

example : calNumWorkers 20 6 = some (4, 2) := by decide

end Verif.Props
