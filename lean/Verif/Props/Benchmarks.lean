import Verif.Model.Benchmarks
import Verif.Props.Experiments
import Verif.Props.SnarkFlow
import Verif.Props.RangeProof
import Verif.Props.Poke
import Verif.Props.Setup

/-! # Properties C94 - C97: the benchmark programs -/

namespace Verif.Props
open Verif.Go Verif.Model Verif.Lemmas Verif.Spec Verif.Model.SnarkFlow Verif.Lemmas.SnarkFlow

/-! ## C94 -/

/-- The random numbers of the code are not negative. -/
structure CoinsDrawn (c : ZkRsaCoins) : Prop where
  k : 0 ≤ c.k
  rhox : 0 ≤ c.rhox
  rhok : 0 ≤ c.rhok

/-- The prime challenge of the proof of exponent is found within `fuel` rounds. -/
def ZkChallenges (E : Env) (fuel N G : Nat) (H : Int) : Prop :=
  ∀ w z Ag Au, ∃ l, HasPrimeChallenge E fuel ((zkpokeTranscript ⟨N, G, H⟩ G w z Ag Au).getIntChallenge E).2 l

/-- `TestBasicZKrsa` can come to its end on every machine. -/
def C94_statement : Prop :=
  ∀ (T : TSEnv) (K : Nat) (E : Env) (fuel N G : Nat) (H : Int) (setSize : Nat) (c : ZkRsaCoins), 1 ≤ K →
    GoodParams ⟨N, G, H⟩ → CoinsDrawn c → ZkChallenges E fuel N G H → BasicZKrsaEnds T K E fuel N G H setSize c

theorem sqrt401 : Nat.sqrt 401 = 20 := Nat.sqrt_add_eq 20 (a := 1) (by omega)

/-- The number that is decomposed is 401, and some goroutine finds squares exactly on machines with four CPUs or more. -/
theorem decomposable401 (T : TSEnv) (K : Nat) : Decomposable T K 401 ↔ 4 ≤ K := by
  constructor
  · rintro ⟨i, hi, j, hle, hskip, h2, -, r, hr, hu⟩
    by_contra hK
    rw [sqrt401] at hle
    have small : ∀ c, candidate 401 c < 2 ^ 13 := by
      intro c
      unfold candidate
      omega
    have hj : j = 0 := by
      by_contra hj
      have := (hskip 0 (by omega)).1
      have := small (i + 0 * K)
      omega
    subst hj
    rw [Nat.zero_mul, Nat.add_zero] at *
    have e0 : candidate 401 0 = 1 := by simp [candidate, sqrt401]
    have e1 : candidate 401 1 = 77 := by simp [candidate, sqrt401]
    have e2 : candidate 401 2 = 145 := by simp [candidate, sqrt401]
    have k1 : ∀ r < 77 / 2, (2 * r) ^ ((77 - 1) / 2) % 77 ≠ 77 - 1 := by decide +kernel
    have k2 : ∀ r < 145 / 2, (2 * r) ^ ((145 - 1) / 2) % 145 ≠ 145 - 1 := by decide +kernel
    obtain rfl | rfl | rfl : i = 0 ∨ i = 1 ∨ i = 2 := by omega
    · rw [e0] at h2; omega
    · rw [e1] at hr hu; exact k1 r hr hu
    · rw [e2] at hr hu; exact k2 r hr hu
  · intro hK
    have e3 : candidate 401 (3 + 0 * K) = 205 := by simp [candidate, sqrt401]
    refine ⟨3, by omega, 0, by rw [sqrt401]; omega, fun _ h => absurd h (Nat.not_lt_zero _), ?_, ?_, 16, ?_, ?_⟩
    · rw [e3]; omega
    · rw [e3]; left; omega
    · rw [e3]; omega
    · rw [e3]; decide +kernel

theorem returns401_iff (T : TSEnv) (K : Nat) : (∃ ts, ThreeSquaresReturns T K (aopTarget 100) ts) ↔ 4 ≤ K := by
  have e : aopTarget 100 = ((401 : Nat) : Int) := by unfold aopTarget; norm_num
  rw [e, C49_returns_iff T K 401 (by omega), decomposable401]

/-- With fewer than four CPUs no run ends, whatever the parameters and the random numbers. -/
theorem C94_few_cpus (T : TSEnv) (K : Nat) (hK : K < 4) (E : Env) (fuel N G : Nat) (H : Int) (setSize : Nat)
    (c : ZkRsaCoins) : ¬ BasicZKrsaEnds T K E fuel N G H setSize c := by
  rintro ⟨ts, acc, h, -⟩
  have := (returns401_iff T K).1 ⟨ts, h⟩
  omega

/-- Whatever squares are found, the rest of the program succeeds; the accumulator is that of the representatives, with the
randomizer in the base. -/
theorem C94_rest (T : TSEnv) (K : Nat) (E : Env) (fuel N G : Nat) (H : Int) (setSize : Nat) (c : ZkRsaCoins)
    (hpp : GoodParams ⟨N, G, H⟩) (hc : CoinsDrawn c) (hl : ZkChallenges E fuel N G H) (ts : Int3)
    (hts : ThreeSquaresReturns T K (aopTarget 100) ts) :
    testBasicZKrsa E fuel N G H setSize c ts = Run.ok (accumulator (G ^ c.randomizer) N
      ((List.range setSize).map (fun i => E.poseidon [i % frOrder] + min1024))) := by
  obtain ⟨C, -, proof, p', h1, h2, h3⟩ :=
    C53_positivity_complete T K E (newAoPProver ⟨N, G, H⟩ c.r) hpp 100 ts hts c.aop
  have hN : N ≠ 0 := by
    have : (1 : Int) ≤ N := hpp.modulus
    omega
  have hw : IsPower N G 666 ((expMod G (666 : Int).toNat N : Nat) : Int) := by
    refine ⟨by omega, ?_, ?_⟩
    · exact_mod_cast Nat.mod_lt _ (Nat.pos_of_ne_zero hN)
    · rw [if_pos (by norm_num), expMod]
      push_cast
      exact Int.dvd_self_sub_emod
  obtain ⟨pr, h4, h5⟩ := C44_zkpoke_complete E fuel N hN G H G 666 _ c.k c.rhox c.rhok hc.k hc.rhox hc.rhok
    (.inl (by norm_num)) hw (hl _)
  have h6 : aopVerify E (newAoPVerifier ⟨N, G, H⟩ p'.C) (some proof) = .ok true := h3 _ rfl h2
  unfold testBasicZKrsa
  simp only [C20_genBenchSet_accepted, run_ok_bind, h1, liftRes_ok, h6]
  rw [if_neg (by simp)]
  rw [h4]
  simp only [run_ok_bind]
  rw [h5]
  simp only [run_ok_bind]
  rw [if_neg (by simp), accumulateNewPow, accumulateNewPow, setProductRecursiveFast_eq, expMod, expMod, accumulator,
    ← Nat.pow_mod]

/-- With four CPUs or more some run ends, and every run in which the squares are found succeeds. Missing from
`C94_statement`: machines with one, two or three CPUs. -/
theorem C94_ends_partial (T : TSEnv) (K : Nat) (hK : 4 ≤ K) (E : Env) (fuel N G : Nat) (H : Int) (setSize : Nat)
    (c : ZkRsaCoins) (hpp : GoodParams ⟨N, G, H⟩) (hc : CoinsDrawn c) (hl : ZkChallenges E fuel N G H) :
    BasicZKrsaEnds T K E fuel N G H setSize c := by
  obtain ⟨ts, hts⟩ := (returns401_iff T K).2 hK
  exact ⟨ts, _, hts, C94_rest T K E fuel N G H setSize c hpp hc hl ts hts⟩

/-- The parameters of `TrustedSetup` are good. -/
theorem trusted_good : GoodParams ⟨n2048, g2048, h2048⟩ := by
  obtain ⟨-, h1, -, -, h2, -, h3, -, h4, h5⟩ := C25_trusted_parameters
  refine ⟨?_, Int.natCast_nonneg _, Int.natCast_nonneg _, ?_, ?_⟩
  · show (1 : Int) ≤ (n2048 : Int)
    exact_mod_cast le_trans Nat.one_le_two_pow h1
  · exact_mod_cast h4
  · exact_mod_cast h5

theorem poke_challenges (N G : Nat) (H : Int) : ZkChallenges pokeEnv 1 N G H :=
  fun w z Ag Au => ⟨13, by
    have hp : ∀ l, fsHashToPrime pokeEnv 1 l lenMax252 = some 13 := fun l => by
      have : wrapNumber (List.replicate 31 0 ++ [13]) lenMax252 = 13 := by decide +kernel
      simp only [fsHashToPrime, fsPrimeLoop, pokeEnv, this]
      rfl
    exact hp _, by decide⟩

theorem C94_violated : ¬ C94_statement := by
  intro h
  exact C94_few_cpus tsEnv 2 (by omega) pokeEnv 1 35 4 9 8 ⟨3, 7, ⟨⟨1, 2, 3⟩, ⟨4, 5, 6⟩, ⟨7, 8, 9⟩, 10⟩, 1, 2, 3⟩
    (h tsEnv 2 pokeEnv 1 35 4 9 8 _ (by omega) good35 ⟨by decide, by decide, by decide⟩ (poke_challenges _ _ _))

/-- The program of the repository, on four CPUs. -/
example : BasicZKrsaEnds tsEnv 4 pokeEnv 1 n2048 g2048 h2048 65536
    ⟨3, 7, ⟨⟨1, 2, 3⟩, ⟨4, 5, 6⟩, ⟨7, 8, 9⟩, 10⟩, 1, 2, 3⟩ :=
  C94_ends_partial _ _ (by omega) _ _ _ _ _ _ _ trusted_good ⟨by decide, by decide, by decide⟩ (poke_challenges _ _ _)

/-- On two CPUs it does not end. -/
example : ¬ BasicZKrsaEnds tsEnv 2 pokeEnv 1 n2048 g2048 h2048 65536
    ⟨3, 7, ⟨⟨1, 2, 3⟩, ⟨4, 5, 6⟩, ⟨7, 8, 9⟩, 10⟩, 1, 2, 3⟩ := C94_few_cpus _ _ (by omega) _ _ _ _ _ _ _

/-- Squares exist on four CPUs, and then the rest succeeds. -/
example : ∃ ts acc, ThreeSquaresReturns tsEnv 4 (aopTarget 100) ts ∧
    testBasicZKrsa pokeEnv 1 35 4 9 8 ⟨3, 7, ⟨⟨1, 2, 3⟩, ⟨4, 5, 6⟩, ⟨7, 8, 9⟩, 10⟩, 1, 2, 3⟩ ts = Run.ok acc := by
  obtain ⟨ts, h⟩ := (returns401_iff tsEnv 4).2 le_rfl
  exact ⟨ts, _, h, C94_rest tsEnv 4 pokeEnv 1 35 4 9 8 _ good35 ⟨by decide, by decide, by decide⟩
    (poke_challenges _ _ _) ts h⟩

/-! ## C95 -/

/-- The precomputed table has a bit for every bit of the exponents. -/
def TableCovers (v : PreComputeRun) : Prop := ∀ e ∈ v.exponents, e < 2 ^ (64 * v.words)

/-- In every benchmark of the precomputation the table covers the exponents; `GenRandomizer` (accumulator/zkacc.go:11-17)
draws a number below 2^2047. -/
def C95_statement : Prop :=
  ∀ (E : Env) (fuel G N r1 n : Nat) (v : PreComputeRun), r1 < 2 ^ 2047 →
    (testRSAMembershipPreCompute E fuel G N r1 n = Run.ok v ∨
      (∃ limit, testRSAMembershipPreComputeDIParallel E fuel G N r1 n limit = Run.ok v) ∨
      preComputeDISingleThread E fuel G N r1 n = Run.ok v) → TableCovers v

/-- The representatives of the benchmark set. -/
def benchReps (E : Env) (n : Nat) : List Nat := (List.range n).map (fun i => E.poseidon [i % frOrder] + 2 ^ 1023)

theorem benchReps_length (E : Env) (n : Nat) : (benchReps E n).length = n := by
  rw [benchReps, List.length_map, List.length_range]

theorem benchReps_bounds (E : Env) (n : Nat) : ∀ x ∈ benchReps E n, 2 ^ 1023 ≤ x ∧ x ≤ 2 ^ 1024 := by
  intro x hx
  obtain ⟨i, -, rfl⟩ := List.mem_map.1 hx
  exact ⟨Nat.le_add_left _ _, (rep_lt E _).le⟩

theorem genBench_reps (E : Env) (fuel n : Nat) :
    genRepresentatives E fuel (genBenchSet n) diHashFromPoseidon = Run.ok (benchReps E n) := by
  rw [C20_genBenchSet_accepted, benchReps, min1024_eq]

theorem preCompute_ok_iff (E : Env) (fuel G N r1 n : Nat) (v : PreComputeRun) :
    testRSAMembershipPreCompute E fuel G N r1 n = Run.ok v ↔
      4 ≤ n ∧ v = ⟨benchReps E n, preComputeWords n, exponentList r1 (benchReps E n),
        witnesses (G ^ r1) N (benchReps E n)⟩ := by
  unfold testRSAMembershipPreCompute
  simp only [genBench_reps, run_ok_bind, run_bind_ok_iff, liftRes_ok_iff, parallelWithRandomizer_ok_iff, le_refl, if_true,
    benchReps_length]
  constructor
  · rintro ⟨ps, ⟨h, rfl⟩, _, -, h2⟩
    exact ⟨h, (run_ok_inj h2).symm⟩
  · rintro ⟨h, rfl⟩
    exact ⟨_, ⟨h, rfl⟩, _, index_ok _ 0 0 (by rw [witnesses_length, benchReps_length]; omega), rfl⟩

theorem preComputeDI_ok_iff (E : Env) (fuel G N r1 n : Nat) (limit : Int) (v : PreComputeRun) :
    testRSAMembershipPreComputeDIParallel E fuel G N r1 n limit = Run.ok v ↔
      4 ≤ n ∧ v = ⟨benchReps E n, preComputeDIWords n, exponentList (if limit ≤ 0 then r1 else 1) (benchReps E n),
        witnesses (G ^ (if limit ≤ 0 then r1 else 1)) N (benchReps E n)⟩ := by
  have hs : slice (benchReps E n) 0 n = benchReps E n := by
    have := slice_full (benchReps E n)
    rwa [benchReps_length] at this
  unfold testRSAMembershipPreComputeDIParallel
  simp only [genBench_reps, run_ok_bind, run_bind_ok_iff, liftRes_ok_iff, hs, parallelWithRandomizer_ok_iff,
    benchReps_length]
  constructor
  · rintro ⟨ps, ⟨h, rfl⟩, _, -, h2⟩
    exact ⟨h, (run_ok_inj h2).symm⟩
  · rintro ⟨h, rfl⟩
    exact ⟨_, ⟨h, rfl⟩, _, index_ok _ 0 0 (by rw [witnesses_length, benchReps_length]; omega), rfl⟩

theorem preComputeSingle_ok_iff (E : Env) (fuel G N r1 n : Nat) (v : PreComputeRun) :
    preComputeDISingleThread E fuel G N r1 n = Run.ok v ↔
      4 ≤ n ∧ v = ⟨benchReps E n, preComputeDIWords n, exponentList r1 (benchReps E n),
        witnesses (G ^ r1) N (benchReps E n)⟩ := by
  have h0 := parallelWithRandomizer_ok_iff G r1 N (benchReps E n) 0
  rw [show (proveMembershipParallelWithTableWithRandomizer G r1 N (benchReps E n) 0).eval =
    proveMembershipSingleThreadWithRandomizer G r1 N (benchReps E n) from rfl] at h0
  unfold preComputeDISingleThread
  simp only [genBench_reps, run_ok_bind, run_bind_ok_iff, liftRes_ok_iff, h0, le_refl, if_true, benchReps_length]
  constructor
  · rintro ⟨ps, ⟨h, rfl⟩, h2⟩
    exact ⟨h, (run_ok_inj h2).symm⟩
  · rintro ⟨h, rfl⟩
    exact ⟨_, ⟨h, rfl⟩, rfl⟩

/-- Quarter number `j` of a set. -/
def quarter (set : List Nat) (j : Nat) : List Nat :=
  (set.drop (set.length * j / 4)).take (set.length * (j + 1) / 4 - set.length * j / 4)

theorem exponents_quarters (r : Nat) (set : List Nat) :
    ∃ e : Fin 4 → Nat, exponentList r set = List.ofFn e ∧ ∀ j, e j * (quarter set j).prod = r * set.prod := by
  have h0 : quarter set 0 = slice set 0 (set.length / 4) := by simp [quarter, slice]
  have h1 : quarter set 1 = slice set (set.length / 4) (set.length / 2) := by
    have : set.length * 2 / 4 = set.length / 2 := by omega
    simp [quarter, slice, this]
  have h2 : quarter set 2 = slice set (set.length / 2) (set.length * 3 / 4) := by
    have : set.length * 2 / 4 = set.length / 2 := by omega
    simp [quarter, slice, this]
  have h3 : quarter set 3 = slice set (set.length * 3 / 4) set.length := by
    have : set.length * 4 / 4 = set.length := by omega
    simp [quarter, slice, this]
  have hp : set.prod = (slice set 0 (set.length / 4)).prod * (slice set (set.length / 4) (set.length / 2)).prod *
      ((slice set (set.length / 2) (set.length * 3 / 4)).prod * (slice set (set.length * 3 / 4) set.length).prod) := by
    rw [← List.prod_append, ← List.prod_append, ← List.prod_append, slice_append_mid _ _ _ _ (by omega) (by omega),
      slice_append_mid _ _ _ _ (by omega) (by omega), slice_append_mid _ _ _ _ (by omega) (by omega), slice_full]
  refine ⟨![_, _, _, _], by simp only [exponentList]; rfl, fun j => ?_⟩
  rw [hp]
  fin_cases j
  all_goals
    simp only [fourExponents_eq, List.prod_append, Fin.reduceFinMk, Fin.val_zero, Fin.val_one, Fin.val_two, Matrix.cons_val,
      Matrix.cons_val_zero, Matrix.cons_val_one]
  · rw [h0]; ring
  · rw [h1]; ring
  · rw [h2]; ring
  · rw [h3]; ring

/-- The exponents for which the table is used are those of the four quarters: each times the product of its quarter is the
randomizer times the product of the set. With a positive limit the randomizer is missing. -/
theorem C95_exponents (E : Env) (fuel G N r1 n : Nat) (v : PreComputeRun) (limit : Int)
    (h : testRSAMembershipPreCompute E fuel G N r1 n = Run.ok v ∧ limit = 0 ∨
      testRSAMembershipPreComputeDIParallel E fuel G N r1 n limit = Run.ok v ∨
      preComputeDISingleThread E fuel G N r1 n = Run.ok v ∧ limit = 0) :
    ∃ e : Fin 4 → Nat, v.exponents = List.ofFn e ∧
      ∀ j, e j * (quarter v.rep j).prod = (if limit ≤ 0 then r1 else 1) * v.rep.prod := by
  rcases h with ⟨h, rfl⟩ | h | ⟨h, rfl⟩
  · obtain ⟨-, rfl⟩ := (preCompute_ok_iff E fuel G N r1 n v).1 h
    exact exponents_quarters r1 _
  · obtain ⟨-, rfl⟩ := (preComputeDI_ok_iff E fuel G N r1 n limit v).1 h
    exact exponents_quarters _ _
  · obtain ⟨-, rfl⟩ := (preComputeSingle_ok_iff E fuel G N r1 n v).1 h
    exact exponents_quarters r1 _

theorem three_lt (P Q : List Nat) (r b c k : Nat) (hP : ∀ x ∈ P, x ≤ 2 ^ b) (hQ : ∀ x ∈ Q, x ≤ 2 ^ b) (hr : r < 2 ^ c)
    (hk : P.length + Q.length ≤ k) : P.prod * r * Q.prod < 2 ^ (b * k + c) := by
  have h1 := (prod_between P 0 (2 ^ b) (fun x hx => ⟨Nat.zero_le _, hP x hx⟩)).2
  have h2 := (prod_between Q 0 (2 ^ b) (fun x hx => ⟨Nat.zero_le _, hQ x hx⟩)).2
  rw [← pow_mul] at h1 h2
  have h3 : P.prod * Q.prod ≤ 2 ^ (b * k) := by
    refine le_trans (Nat.mul_le_mul h1 h2) ?_
    rw [← pow_add, ← Nat.mul_add]
    exact Nat.pow_le_pow_right (by decide) (Nat.mul_le_mul_left _ hk)
  rw [Nat.mul_right_comm, pow_add]
  exact Nat.mul_lt_mul_of_le_of_lt h3 hr (by positivity)

/-- Upper bound of the exponents of the first layer. -/
theorem exponents_lt (r b c : Nat) (set : List Nat) (hs : ∀ x ∈ set, x ≤ 2 ^ b) (hr : r < 2 ^ c) :
    ∀ e ∈ exponentList r set, e < 2 ^ (b * (set.length - set.length / 4) + c) := by
  have hm : ∀ i j, ∀ x ∈ slice set i j, x ≤ 2 ^ b := fun i j x hx =>
    hs x (List.mem_of_mem_drop (List.mem_of_mem_take hx))
  have hm2 : ∀ i j k l, ∀ x ∈ slice set i j ++ slice set k l, x ≤ 2 ^ b := fun i j k l x hx =>
    (List.mem_append.1 hx).elim (hm _ _ x) (hm _ _ x)
  have hA := slice_length set 0 (set.length / 4) (by omega)
  have hB := slice_length set (set.length / 4) (set.length / 2) (by omega)
  have hC := slice_length set (set.length / 2) (set.length * 3 / 4) (by omega)
  have hD := slice_length set (set.length * 3 / 4) set.length (by omega)
  intro e he
  simp only [exponentList, fourExponents_eq, List.mem_cons, List.not_mem_nil, or_false] at he
  rcases he with rfl | rfl | rfl | rfl
  all_goals
    refine three_lt _ _ r b c _ (hm2 _ _ _ _) (hm _ _) hr ?_
    rw [List.length_append]
    omega

/-- Lower bound of the first exponent. -/
theorem first_exponent_ge (r a c : Nat) (set : List Nat) (hs : ∀ x ∈ set, 2 ^ a ≤ x) (hr : 2 ^ c ≤ r) :
    ∃ e ∈ exponentList r set, 2 ^ (a * (set.length - set.length / 4) + c) ≤ e := by
  have hm : ∀ i j, ∀ x ∈ slice set i j, 2 ^ a ≤ x := fun i j x hx =>
    hs x (List.mem_of_mem_drop (List.mem_of_mem_take hx))
  have key : ∀ P : List Nat, (∀ x ∈ P, 2 ^ a ≤ x) → 2 ^ (a * P.length) ≤ P.prod := by
    intro P hP
    induction P with
    | nil => simp
    | cons x P ih =>
      rw [List.length_cons, List.prod_cons, Nat.mul_succ, pow_add, Nat.mul_comm]
      exact Nat.mul_le_mul (hP x (by simp)) (ih fun y hy => hP y (by simp [hy]))
  have hB := slice_length set (set.length / 4) (set.length / 2) (by omega)
  have hC := slice_length set (set.length / 2) (set.length * 3 / 4) (by omega)
  have hD := slice_length set (set.length * 3 / 4) set.length (by omega)
  refine ⟨_, by simp only [exponentList, fourExponents_eq]; exact List.mem_cons_self, ?_⟩
  have h1 := key (slice set (set.length / 2) (set.length * 3 / 4) ++ slice set (set.length * 3 / 4) set.length)
    fun x hx => (List.mem_append.1 hx).elim (hm _ _ x) (hm _ _ x)
  have h2 := key (slice set (set.length / 4) (set.length / 2)) (hm _ _)
  rw [List.length_append] at h1
  have h3 := Nat.mul_le_mul (Nat.mul_le_mul h1 hr) h2
  refine le_trans (le_of_eq ?_) h3
  rw [← pow_add, ← pow_add]
  congr 1
  rw [hB, hC, hD, Nat.add_right_comm, ← Nat.mul_add]
  congr 2
  omega

/-- The table of `TestRSAMembershipPreCompute` covers the exponents for every randomizer exactly when the set has eight
elements or more. -/
theorem C95_first_partial (E : Env) (fuel G N n : Nat) (h4 : 4 ≤ n) :
    (∀ r1 v, r1 < 2 ^ 2047 → testRSAMembershipPreCompute E fuel G N r1 n = Run.ok v → TableCovers v) ↔ 8 ≤ n := by
  constructor
  · intro h
    by_contra hn
    have h1 := h (2 ^ 2046) _ (Nat.pow_lt_pow_right (by decide) (by decide))
      ((preCompute_ok_iff E fuel G N (2 ^ 2046) n _).2 ⟨h4, rfl⟩)
    obtain ⟨e, he, hge⟩ := first_exponent_ge (2 ^ 2046) 1023 2046 (benchReps E n)
      (fun x hx => (benchReps_bounds E n x hx).1) (le_refl _)
    have hlt := lt_of_le_of_lt hge (h1 e he)
    have := (Nat.pow_lt_pow_iff_right (by decide : 1 < 2)).1 hlt
    rw [benchReps_length] at this
    have hw : preComputeWords n = n * 1025 / 64 := rfl
    simp only [hw] at this
    omega
  · intro hn r1 v hr h
    obtain ⟨-, rfl⟩ := (preCompute_ok_iff E fuel G N r1 n v).1 h
    intro e he
    refine lt_of_lt_of_le (exponents_lt r1 1024 2047 _ (fun x hx => (benchReps_bounds E n x hx).2) hr e he) ?_
    refine Nat.pow_le_pow_right (by decide) ?_
    rw [benchReps_length]
    have hw : preComputeWords n = n * 1025 / 64 := rfl
    simp only [hw]
    omega

/-- The tables of the other two programs always cover the exponents. -/
theorem C95_others_partial (E : Env) (fuel G N r1 n : Nat) (hr : r1 < 2 ^ 2047) (v : PreComputeRun)
    (h : (∃ limit, testRSAMembershipPreComputeDIParallel E fuel G N r1 n limit = Run.ok v) ∨
      preComputeDISingleThread E fuel G N r1 n = Run.ok v) : TableCovers v := by
  have key : ∀ r, r < 2 ^ 2047 → 4 ≤ n → ∀ e ∈ exponentList r (benchReps E n), e < 2 ^ (64 * preComputeDIWords n) := by
    intro r hr h4 e he
    refine lt_of_lt_of_le (exponents_lt r 1024 2047 _ (fun x hx => (benchReps_bounds E n x hx).2) hr e he) ?_
    refine Nat.pow_le_pow_right (by decide) ?_
    rw [benchReps_length]
    have hw : preComputeDIWords n = n * 2048 / 64 := rfl
    simp only [hw]
    omega
  rcases h with ⟨limit, h⟩ | h
  · obtain ⟨h4, rfl⟩ := (preComputeDI_ok_iff E fuel G N r1 n limit v).1 h
    refine key _ ?_ h4
    split_ifs
    · exact hr
    · exact Nat.one_lt_two_pow (by decide)
  · obtain ⟨h4, rfl⟩ := (preComputeSingle_ok_iff E fuel G N r1 n v).1 h
    exact key _ hr h4

theorem C95_violated : ¬ C95_statement := by
  intro h
  have h1 := (C95_first_partial sumEnv 1 16 29 4 (by omega)).1 fun r1 v hr hv => h sumEnv 1 16 29 r1 4 v hr (.inl hv)
  omega

/-- Every proof of the benchmarks raised to its representative is the accumulator of the set. -/
theorem C95_proofs (E : Env) (fuel G N r1 n : Nat) (v : PreComputeRun)
    (h : testRSAMembershipPreCompute E fuel G N r1 n = Run.ok v ∨ preComputeDISingleThread E fuel G N r1 n = Run.ok v) :
    v.rep.length = n ∧ v.proofs.length = n ∧ ∀ i (hi : i < v.rep.length) (hp : i < v.proofs.length),
      v.proofs[i] ^ v.rep[i] % N = G ^ (r1 * v.rep.prod) % N := by
  have hv : v.rep = benchReps E n ∧ v.proofs = witnesses (G ^ r1) N (benchReps E n) := by
    rcases h with h | h
    · obtain ⟨-, rfl⟩ := (preCompute_ok_iff E fuel G N r1 n v).1 h
      exact ⟨rfl, rfl⟩
    · obtain ⟨-, rfl⟩ := (preComputeSingle_ok_iff E fuel G N r1 n v).1 h
      exact ⟨rfl, rfl⟩
  obtain ⟨h1, h2⟩ := hv
  refine ⟨by rw [h1, benchReps_length], by rw [h2, witnesses_length, benchReps_length], ?_⟩
  intro i hi hp
  have hw := witness_verifies (G ^ r1) N (benchReps E n) i (by rwa [← h1])
  simp only [h1, h2, witnesses_getElem]
  rw [verifies, accumulator, ← pow_mul] at hw
  exact hw

/-- The swap experiments: below 2^21 elements the table covers the exponents of the membership proofs. -/
theorem C95_swap_partial (E : Env) (fuel G N : Nat) (setsize updated : UInt32) (v : SwapRun)
    (hs : setsize.toNat < 2 ^ 21) (hu : updated ≤ setsize)
    (h : notusMultiSwap E fuel G N setsize updated = Run.ok v ∨ notusParallel E fuel G N setsize updated = Run.ok v) :
    ∀ e ∈ exponentList v.insertedRanProd (v.unchanged ++ v.insertSet), e < 2 ^ (64 * (tableWords setsize).toNat) := by
  have hv : 2 ≤ updated.toNat ∧ v.insertedRanProd = Experiments.factor E 300 ∧
      v.unchanged ++ v.insertSet = Experiments.kept E (setsize - updated).toNat ++ Experiments.inserted E updated.toNat := by
    rcases h with h | h
    · obtain ⟨l, L1, L2, hc, rfl⟩ := (notusMultiSwap_ok_iff E fuel G N setsize updated v).1 h
      exact ⟨hc.users, rfl, rfl⟩
    · obtain ⟨l, L1, L2, hc, rfl⟩ := (notusParallel_ok_iff E fuel G N setsize updated v).1 h
      exact ⟨hc.users, rfl, rfl⟩
  obtain ⟨h2, h3, h4⟩ := hv
  have hu' := UInt32.le_iff_toNat_le.1 hu
  have hlen : (Experiments.kept E (setsize - updated).toNat ++ Experiments.inserted E updated.toNat).length =
      setsize.toNat := by
    rw [List.length_append, Experiments.kept, Experiments.inserted, List.length_map, List.length_map, List.length_range,
      List.length_range, UInt32.toNat_sub_of_le _ _ hu]
    omega
  have hb : ∀ x ∈ Experiments.kept E (setsize - updated).toNat ++ Experiments.inserted E updated.toNat,
      x ≤ 2 ^ 1024 := by
    intro x hx
    rcases List.mem_append.1 hx with hx | hx
    all_goals
      obtain ⟨i, -, rfl⟩ := List.mem_map.1 hx
      exact (rep_lt E _).le
  have ht : 64 * (tableWords setsize).toNat = 2048 * setsize.toNat := by
    rw [tableWords, UInt32.toNat_div, UInt32.toNat_mul]
    have e1 : (2048 : UInt32).toNat = 2048 := rfl
    have e2 : (64 : UInt32).toNat = 64 := rfl
    rw [e1, e2]
    omega
  intro e he
  rw [h3, h4] at he
  refine lt_of_lt_of_le (exponents_lt _ 1024 2032 _ hb (factor_lt E 300) e he) ?_
  refine Nat.pow_le_pow_right (by decide) ?_
  rw [hlen, ht]
  omega

/-- A run of each precomputation with eight elements. -/
example : (∃ v, testRSAMembershipPreCompute sumEnv 1 16 29 3 8 = Run.ok v) ∧
    (∃ v, testRSAMembershipPreComputeDIParallel sumEnv 1 16 29 3 8 5 = Run.ok v) ∧
    (∃ v, preComputeDISingleThread sumEnv 1 16 29 3 8 = Run.ok v) :=
  ⟨⟨_, (preCompute_ok_iff ..).2 ⟨by decide, rfl⟩⟩, ⟨_, (preComputeDI_ok_iff ..).2 ⟨by decide, rfl⟩⟩,
    ⟨_, (preComputeSingle_ok_iff ..).2 ⟨by decide, rfl⟩⟩⟩

/-- Eight elements and the randomizer 3: the tables are large enough. -/
example : ∃ v w, testRSAMembershipPreCompute sumEnv 1 16 29 3 8 = Run.ok v ∧ TableCovers v ∧ v.proofs.length = 8 ∧
    testRSAMembershipPreComputeDIParallel sumEnv 1 16 29 3 8 5 = Run.ok w ∧ TableCovers w := by
  obtain ⟨v, h1⟩ : ∃ v, testRSAMembershipPreCompute sumEnv 1 16 29 3 8 = Run.ok v :=
    ⟨_, (preCompute_ok_iff ..).2 ⟨by decide, rfl⟩⟩
  obtain ⟨w, h2⟩ : ∃ v, testRSAMembershipPreComputeDIParallel sumEnv 1 16 29 3 8 5 = Run.ok v :=
    ⟨_, (preComputeDI_ok_iff ..).2 ⟨by decide, rfl⟩⟩
  have hr : 3 < 2 ^ 2047 := lt_of_lt_of_le (b := 2 ^ 2) (by decide) (Nat.pow_le_pow_right (by decide) (by decide))
  exact ⟨v, w, h1, (C95_first_partial sumEnv 1 16 29 8 (by decide)).2 le_rfl 3 _ hr h1,
    (C95_proofs _ _ _ _ _ _ _ (.inl h1)).2.1, h2, C95_others_partial _ _ _ _ _ _ hr _ (.inl ⟨_, h2⟩)⟩

/-! ## C96 -/

/-- The searches for prime challenges end, with positive numbers. -/
structure PrimesFound (E : Env) (fuel : Nat) : Prop where
  hash : ∀ b, ∃ l, 0 < l ∧ hashToPrime E fuel b = some l
  transcript : ∀ info, ∃ l, 0 < l ∧ fsHashToPrime E fuel info lenMax252 = some l

/-- The sizes with which the programs work. -/
def SizesOk : MainCall → Prop
  | .testPoKE => True
  | .testMultiSwap n => 2 ≤ n.toNat ∧ n.toNat ≤ 8192
  | .outputContract n => 2 ≤ n.toNat ∧ n.toNat ≤ 8192
  | .outputContract2 n => 2 ≤ n.toNat ∧ n.toNat ≤ 8192
  | .testMembershipVerify => True
  | .testNotusMultiSwap s n => 2 ≤ n.toNat ∧ n.toNat ≤ 8192 ∧ n ≤ s ∧ 4 ≤ s.toNat ∧ s.toNat < 2 ^ 21
  | .testRSAMembershipPreCompute n => 8 ≤ n
  | .testNotusParallel s n => 2 ≤ n.toNat ∧ n.toNat ≤ 8192 ∧ n ≤ s ∧ 4 ≤ s.toNat ∧ s.toNat < 2 ^ 21
  | .preComputeDIParallel n _ => 4 ≤ n
  | .testMerkleMultiSwap n => n.toNat ≠ 0

instance (c : MainCall) : Decidable (SizesOk c) := by
  cases c <;> (unfold SizesOk; infer_instance)

/-- C96: all sizes that `main` uses are in range. -/
theorem C96_sizes (input : Option Int) : ∀ c ∈ mainCalls input, SizesOk c := by
  have h1 : ∀ c ∈ basicProcessCalls, SizesOk c := by decide
  have h2 : ∀ c ∈ membershipCalls, SizesOk c := by decide
  have h3 : ∀ c ∈ profilerCalls 64, SizesOk c := by decide
  have h4 : ∀ c ∈ singleThreadCalls, SizesOk c := by decide
  have h5 : ∀ c ∈ parallelCalls 64, SizesOk c := by decide
  have h6 : ∀ c ∈ [MainCall.testMerkleMultiSwap 1024], SizesOk c := by decide
  unfold mainCalls
  split
  · simp
  · simp only
    split_ifs
    · exact h1
    · exact h2
    · exact h3
    · exact h4
    · exact h5
    · exact h6
    · intro c hc
      simp only [List.mem_append] at hc
      rcases hc with ((((hc | hc) | hc) | hc) | hc) | hc
      · exact h1 c hc
      · exact h2 c hc
      · exact h3 c hc
      · exact h4 c hc
      · exact h5 c hc
      · exact h6 c hc
    · simp

variable {S : Snark}

/-- Proof and verification of a fresh test set. -/
theorem finish_runs {E : Env} (hC : Complete E S) (hI : IgnoresErrors S) {d : Disk S} {fuel : Nat} {n : UInt32}
    {G N accMid : Int} {u : UpdateSet32} {c : S.Coin} (hn : n.toNat ≤ 2 ^ 31)
    (hg : genTestSet E fuel n G N accMid = Run.ok u) (hk : KeyAt d (keyFile n.toNat) (.multi n.toNat) c) (k : S.Coin) :
    ∃ p b, prove u k d = .ok (some p) ∧ verify p n u.publicPart d = .ok b ∧ (NoOverflow E u → b = true) := by
  obtain ⟨-, hl, hv, -, hs⟩ := C64_genTestSet_partial E fuel n G N accMid u hn hg
  obtain ⟨p, hp⟩ := C87_no_error hI (u := u) (by rwa [hl]) ((C66_assignCircuit u).2 hv) k
  refine ⟨p, _, hp, verify_of_keyAt p _ hk, fun ho => ?_⟩
  obtain ⟨c', h1, h2⟩ := hs ho
  obtain ⟨p', h3, h4⟩ := C85_prove_verify hC hl hk h1 h2 k
  rw [hp] at h3
  injection h3 with h3
  injection h3 with h3
  subst h3
  rw [verify_of_keyAt p _ hk] at h4
  injection h4

theorem genTestSet_runs {E : Env} {fuel : Nat} (hP : PrimesFound E fuel) (n : UInt32) (h2 : 2 ≤ n.toNat) (G N accMid : Int) :
    ∃ u, genTestSet E fuel n G N accMid = Run.ok u := by
  obtain ⟨L1, p1, h1⟩ := hP.transcript [intString G, intString N, itoa 1000000]
  obtain ⟨L2, p2, h3⟩ := hP.transcript [intString G, intString N, itoa 1000000, itoa L1]
  exact ⟨_, (genTestSet_ok_iff ..).2 ⟨L1, L2, h1, h3, p1, p2, h2, rfl⟩⟩

theorem ensureKeys_runs {E : Env} {d : Disk S} (hr : Reach E d) (n : UInt32) (hn : n.toNat ≠ 0) (coin : S.Coin) :
    ∃ d', ensureKeys E n coin d = .ok d' ∧ Reach E d' ∧ ∃ c, KeyAt d' (keyFile n.toNat) (.multi n.toNat) c := by
  have hd := C85_keys E d hr
  obtain ⟨d', h⟩ := ensureKeys_total E n coin d hd hn
  refine ⟨d', h, ?_, (ensureKeys_keyAt hd h).2⟩
  rcases (ensureKeys_ok_iff E n coin d d' hd).1 h with ⟨c, -, rfl⟩ | ⟨-, h0, rfl⟩
  · exact hr
  · exact .setup n coin hr ((setupZkMultiswap_ok_iff ..).2 ⟨h0, rfl⟩)

theorem challenges_run {E : Env} {fuel : Nat} (hP : PrimesFound E fuel) (G N : Nat) (s n : UInt32) (h2 : 2 ≤ n.toNat)
    (hns : n ≤ s) (h4 : 4 ≤ s.toNat) : ∃ l L1 L2, Challenges E fuel G N (s - n).toNat n.toNat l L1 L2 := by
  obtain ⟨l, p0, h0⟩ := hP.hash _
  obtain ⟨L1, p1, h1⟩ := hP.transcript [itoa G, itoa N, itoa 1000000]
  obtain ⟨L2, p2, h3⟩ := hP.transcript [itoa G, itoa N, itoa 1000000, itoa L1]
  have := UInt32.le_iff_toNat_le.1 hns
  exact ⟨l, L1, L2, by rw [UInt32.toNat_sub_of_le _ _ hns]; omega, h2, h0, p0, h1, h3, p1, p2⟩

theorem poke_runs {E : Env} {fuel : Nat} (hP : PrimesFound E fuel) (num G N : Nat) (hN : 0 < N) :
    ∃ a, testPoKERound E fuel num G N = Run.ok (a, a) := by
  have hf : ∀ set : List Bytes, ∃ rep, List.Forall₂ (fun v r => hashToPrime E fuel v = some r) set rep := by
    intro set
    induction set with
    | nil => exact ⟨[], .nil⟩
    | cons b set ih =>
      obtain ⟨rep, h⟩ := ih
      obtain ⟨l, -, hl⟩ := hP.hash b
      exact ⟨l :: rep, .cons hl h⟩
  obtain ⟨rep, h⟩ := hf (genBenchSet num)
  obtain ⟨l, hl, h2⟩ := hP.hash (itoa G ++ itoa (accumulator G N rep))
  obtain ⟨⟨a, b⟩, hv⟩ := C77_testPoKE_returns E fuel num G N rep hN l hl
    ((C15_default_is_hashToPrime E fuel _ _ (by decide) rep).2 h) h2
  obtain ⟨rfl, -⟩ := C77_testPoKE E fuel num G N a b hv
  exact ⟨_, hv⟩

/-- `TestMembershipVerify` computes the accumulator in every round. -/
theorem C96_membershipVerify (E : Env) (fuel : Nat) (setup : Setup) (n : Nat) (hn : 0 < n) :
    testMembershipVerify E fuel setup n =
      Run.ok (accumulator setup.G setup.N (benchReps E n), accumulator setup.G setup.N (benchReps E n)) := by
  have hne : genBenchSet n ≠ [] := by
    rw [← List.length_pos_iff, genBenchSet, List.length_map, List.length_range]; exact hn
  obtain ⟨⟨acc, ps⟩, h1, h2, h3, h4⟩ := C02_accAndProve E fuel (genBenchSet n) diHashFromPoseidon setup _
    (genBench_reps E fuel n) hne
  simp only at h2 h3 h4
  have hb := benchReps_length E n
  have e0 : 0 < (benchReps E n).length := by omega
  have e1 : 0 < ps.length := by omega
  unfold testMembershipVerify
  simp only [genBench_reps, h1, run_ok_bind, index_ok _ 0 0 e0, index_ok _ 0 0 e1, liftRes_ok]
  have := h4 0 e0 e1
  rw [h2] at this
  have g0 : (benchReps E n).getD 0 0 = (benchReps E n)[0] := by simp [e0]
  have g1 : ps.getD 0 0 = ps[0] := by simp [e1]
  rw [accumulateNewPow, expMod, g0, g1, this, h2]
  rfl

theorem merkle_runs {E : Env} (hC : Complete E S) {d : Disk S} (hr : Reach E d) (coin coin' : S.Coin) (n : UInt32)
    (hn : n.toNat ≠ 0) : ∃ d', testMerkleMultiSwap E coin coin' n d = .ok (d', true) ∧ Reach E d' := by
  obtain ⟨d', h⟩ := C85_merkle_passes hC hr coin coin' n hn
  exact ⟨d', h, .merkleTest coin coin' n hr h⟩

theorem swapFinish_runs {E : Env} (hC : Complete E S) (hI : IgnoresErrors S) {fuel : Nat} (hP : PrimesFound E fuel)
    {d : Disk S} {n : UInt32} {c : S.Coin} (hk : KeyAt d (keyFile n.toNat) (.multi n.toNat) c) (G N : Nat) (accMid : Int)
    (k : S.Coin) (h2 : 2 ≤ n.toNat) (hn : n.toNat ≤ 8192) :
    ∃ u b, swapFinish E fuel G N accMid k n d = Run.ok (u, b) ∧ genTestSet E fuel n G N accMid = Run.ok u ∧
      (NoOverflow E u → b = true) := by
  obtain ⟨u, hu⟩ := genTestSet_runs hP n h2 G N accMid
  obtain ⟨p, b, h3, h4, h5⟩ := finish_runs hC hI (by omega) hu hk k
  refine ⟨u, b, ?_, hu, h5⟩
  unfold swapFinish
  simp only [hu, run_ok_bind, h3, h4, liftRes_ok]

/-- One call of `main`: it returns, and what it checks is in order. -/
theorem call_runs {E : Env} (hC : Complete E S) (hI : IgnoresErrors S) {fuel : Nat} (hP : PrimesFound E fuel)
    (G N : Nat) (hN : 0 < N) (c : CallCoins S) {d : Disk S} (hr : Reach E d) (call : MainCall) (hs : SizesOk call) :
    ∃ d' b, runCall E fuel G N c d call = Run.ok (d', b) ∧ Reach E d' ∧
      ((∀ (n : UInt32) u, n.toNat ≤ 8192 → genTestSet E fuel n G N c.accMid = Run.ok u → NoOverflow E u) → b = true) := by
  cases call with
  | testPoKE =>
    obtain ⟨a, ha⟩ := poke_runs hP 10 G N hN
    obtain ⟨b, hb⟩ := poke_runs hP 11 G N hN
    exact ⟨d, true, by simp only [runCall, ha, hb, run_ok_bind, decide_true, Bool.and_self], hr, fun _ => rfl⟩
  | testMultiSwap n =>
    obtain ⟨h2, h3⟩ := hs
    obtain ⟨d', h4, h5, cc, h6⟩ := ensureKeys_runs hr n (by omega) c.coin
    obtain ⟨u, hu⟩ := genTestSet_runs hP n h2 G N c.accMid
    obtain ⟨p, b, h7, h8, h9⟩ := finish_runs hC hI (by omega) hu h6 c.coin'
    exact ⟨d', b, (testMultiSwap_ok_iff ..).2 ⟨u, p, h4, hu, h7, h8⟩, h5, fun h => h9 (h n u h3 hu)⟩
  | outputContract n =>
    obtain ⟨h2, h3⟩ := hs
    obtain ⟨d', h4, h5, cc, h6⟩ := ensureKeys_runs hr n (by omega) c.coin
    have ho := (outputContract_ok_iff E c.coin n d _).2 ⟨d', _, h4, readVk_of h6.2.2, rfl⟩
    exact ⟨_, true, by simp only [runCall, ho, liftRes_ok, run_ok_bind], .output c.coin n hr ho, fun _ => rfl⟩
  | outputContract2 n =>
    obtain ⟨h2, h3⟩ := hs
    obtain ⟨u, hu⟩ := genTestSet_runs hP n h2 G N c.accMid
    obtain ⟨p, b, h7, h8, h9⟩ := finish_runs hC hI (by omega) hu (disk2_keyAt n.toNat c.coin c.coin2 d) c.coin'
    have ho := (outputContract2_ok_iff E fuel G N c.accMid c.coin c.coin2 c.coin' n d _ _).2
      (Or.inr ⟨by omega, rfl, u, p, b, hu, h7, h8, rfl⟩)
    refine ⟨_, b, ?_, .output2 fuel G N c.accMid c.coin c.coin2 c.coin' n hr ho, fun h => h9 (h n u h3 hu)⟩
    rw [runCall, ho]
    cases b <;> rfl
  | testMembershipVerify =>
    refine ⟨d, true, ?_, hr, fun _ => rfl⟩
    simp only [runCall, C96_membershipVerify E fuel ⟨N, G⟩ 10 (by decide), run_ok_bind, decide_true]
  | testNotusMultiSwap s n =>
    obtain ⟨h2, h3, hns, h4, -⟩ := hs
    obtain ⟨d', h5, h6, cc, h7⟩ := ensureKeys_runs hr n (by omega) c.coin
    obtain ⟨l, L1, L2, hc⟩ := challenges_run hP G N s n h2 hns h4
    have hv := (notusMultiSwap_ok_iff E fuel G N s n _).2 ⟨l, L1, L2, hc, rfl⟩
    obtain ⟨u, b, h8, hu, h9⟩ := swapFinish_runs hC hI hP h7 G N c.accMid c.coin' h2 h3
    refine ⟨d', b, ?_, h6, fun h => h9 (h n u h3 hu)⟩
    simp only [runCall, testNotusMultiSwap, h5, hv, h8, liftRes_ok, run_ok_bind]
  | testRSAMembershipPreCompute n =>
    have hs : 8 ≤ n := hs
    have hv := (preCompute_ok_iff E fuel G N c.r1 n _).2 ⟨by omega, rfl⟩
    exact ⟨d, true, by simp only [runCall, hv, run_ok_bind], hr, fun _ => rfl⟩
  | testNotusParallel s n =>
    obtain ⟨h2, h3, hns, h4, -⟩ := hs
    obtain ⟨d', h5, h6, cc, h7⟩ := ensureKeys_runs hr n (by omega) c.coin
    obtain ⟨l, L1, L2, hc⟩ := challenges_run hP G N s n h2 hns h4
    have hv := (notusParallel_ok_iff E fuel G N s n _).2 ⟨l, L1, L2, hc, rfl⟩
    obtain ⟨u, b, h8, hu, h9⟩ := swapFinish_runs hC hI hP h7 G N c.accMid c.coin' h2 h3
    refine ⟨d', b, ?_, h6, fun h => h9 (h n u h3 hu)⟩
    simp only [runCall, testNotusParallel, h5, hv, h8, liftRes_ok, run_ok_bind]
  | preComputeDIParallel n limit =>
    have hs : 4 ≤ n := hs
    have hv := (preComputeDI_ok_iff E fuel G N c.r1 n limit _).2 ⟨hs, rfl⟩
    exact ⟨d, true, by simp only [runCall, hv, run_ok_bind], hr, fun _ => rfl⟩
  | testMerkleMultiSwap n =>
    obtain ⟨d', h, h'⟩ := merkle_runs hC hr c.coin c.coin' n hs
    exact ⟨d', true, by rw [runCall, h, liftRes_ok], h', fun _ => rfl⟩

theorem calls_run {E : Env} (hC : Complete E S) (hI : IgnoresErrors S) {fuel : Nat} (hP : PrimesFound E fuel)
    (G N : Nat) (hN : 0 < N) (coins : Nat → CallCoins S) (calls : List MainCall) (hs : ∀ c ∈ calls, SizesOk c) :
    ∀ (k : Nat) (d : Disk S), Reach E d → ∃ d' bs, runCalls E fuel G N coins calls k d = Run.ok (d', bs) ∧ Reach E d' ∧
      bs.length = calls.length ∧
      ((∀ (n : UInt32) accMid u, n.toNat ≤ 8192 → genTestSet E fuel n G N accMid = Run.ok u → NoOverflow E u) →
        ∀ b ∈ bs, b = true) := by
  induction calls with
  | nil => exact fun k d hr => ⟨d, [], rfl, hr, rfl, fun _ => by simp⟩
  | cons call rest ih =>
    intro k d hr
    obtain ⟨d1, b, h1, h2, h3⟩ := call_runs hC hI hP G N hN (coins k) hr call (hs call (by simp))
    obtain ⟨d2, bs, h4, h5, h6, h7⟩ := ih (fun c hc => hs c (by simp [hc])) (k + 1) d1 h2
    refine ⟨d2, b :: bs, ?_, h5, by simp [h6], fun h => ?_⟩
    · simp only [runCalls, h1, h4, run_ok_bind]
    · intro x hx
      rcases List.mem_cons.1 hx with rfl | hx
      · exact h3 fun n u hn hu => h n _ u hn hu
      · exact h7 h x hx

/-- C96: for every input, on every directory that the programs left behind, `main` comes to its end without a panic. All
that is checked passes if no record hash overflows the field. -/
theorem C96_main {E : Env} (hC : Complete E S) (hI : IgnoresErrors S) {fuel : Nat} (hP : PrimesFound E fuel)
    (G N : Nat) (hN : 0 < N) (coins : Nat → CallCoins S) (input : Option Int) (d : Disk S) (hr : Reach E d) :
    ∃ d' bs, runMain E fuel G N coins input d = Run.ok (d', bs) ∧ Reach E d' ∧ bs.length = (mainCalls input).length ∧
      ((∀ (n : UInt32) accMid u, n.toNat ≤ 8192 → genTestSet E fuel n G N accMid = Run.ok u → NoOverflow E u) →
        ∀ b ∈ bs, b = true) :=
  calls_run hC hI hP G N hN coins _ (C96_sizes input) 0 d hr

/-- C96: the inputs on which nothing is done. -/
theorem C96_other_inputs (E : Env) (fuel G N : Nat) (coins : Nat → CallCoins S) (input : Option Int) (d : Disk S) :
    (mainCalls input = [] ↔ input ≠ some 1 ∧ input ≠ some 2 ∧ input ≠ some 3 ∧ input ≠ some 4 ∧ input ≠ some 5 ∧
      input ≠ some 6 ∧ input ≠ some 9) ∧
    (mainCalls input = [] → runMain E fuel G N coins input d = Run.ok (d, [])) := by
  refine ⟨?_, fun h => by rw [runMain, h]; rfl⟩
  cases input with
  | none => simp [mainCalls]
  | some n =>
    simp only [mainCalls, Option.some.injEq, ne_eq]
    split_ifs with h1 h2 h3 h4 h5 h6 h9
    all_goals simp_all [basicProcessCalls, membershipCalls, profilerCalls, singleThreadCalls, parallelCalls]

/-- C96: in all calls of `main` the precomputed tables cover the exponents. -/
theorem C96_tables (E : Env) (fuel G N r1 : Nat) (hr : r1 < 2 ^ 2047) (input : Option Int) (v : PreComputeRun) :
    (∀ n, .testRSAMembershipPreCompute n ∈ mainCalls input → testRSAMembershipPreCompute E fuel G N r1 n = Run.ok v →
      TableCovers v) ∧
    (∀ n limit, .preComputeDIParallel n limit ∈ mainCalls input →
      testRSAMembershipPreComputeDIParallel E fuel G N r1 n limit = Run.ok v → TableCovers v) := by
  refine ⟨fun n hn h => ?_, fun n limit _ h => C95_others_partial E fuel G N r1 n hr v (.inl ⟨limit, h⟩)⟩
  have h8 : 8 ≤ n := C96_sizes input _ hn
  exact (C95_first_partial E fuel G N n (by omega)).2 h8 r1 v hr h

theorem flat_found : PrimesFound flatEnv 1 :=
  ⟨fun b => ⟨13, by decide, flat_hash b⟩, fun i => ⟨13, by decide, flat_prime i⟩⟩

theorem testSet_delta_lt (E : Env) (n L1 L2 : Nat) (h1 : 0 < L1) (h2 : 0 < L2) :
    (testSet E n L1 L2).deltaModL1.toNat < L1 ∧ (testSet E n L1 L2).deltaModL2.toNat < L2 := by
  simp only [testSet, Int.toNat_natCast]
  exact ⟨Nat.mod_lt _ h1, Nat.mod_lt _ h2⟩

theorem flat_noOverflow (n : UInt32) (G N accMid : Int) (u : UpdateSet32)
    (h : genTestSet flatEnv 1 n G N accMid = Run.ok u) : NoOverflow flatEnv u := by
  obtain ⟨L1, L2, h1, h2, p1, p2, -, rfl⟩ := (genTestSet_ok_iff ..).1 h
  have e := testSet_delta_lt flatEnv n.toNat L1 L2 p1 p2
  rw [flat_prime] at h1 h2
  injection h1 with h1
  injection h2 with h2
  intro i _
  have h3 : oldHash flatEnv (testSet flatEnv n.toNat L1 L2) i = 2 := rfl
  have h4 : newHash flatEnv (testSet flatEnv n.toNat L1 L2) i = 2 := rfl
  have h5 : 100 < frOrder := by decide
  omega

/-- All experiments, with ideal proofs and a constant hash: every flag is true. -/
example : ∃ (d' : Disk (idealSnark flatEnv)) (bs : List Bool),
    runMain flatEnv 1 g2048 n2048 (S := idealSnark flatEnv) (fun k => ⟨4, k, (k + 100 : Nat), (k + 200 : Nat), 7⟩) (some 9)
      (fun _ => none) = Run.ok (d', bs) ∧ bs.length = (mainCalls (some 9)).length ∧ ∀ b ∈ bs, b = true := by
  obtain ⟨d', bs, h1, -, h2, h3⟩ := C96_main (idealSnark_complete flatEnv) (idealSnark_ignores flatEnv) flat_found g2048 n2048
    (lt_of_lt_of_le (Nat.two_pow_pos _) C25_trusted_parameters.2.1) (fun k => ⟨4, k, (k + 100 : Nat), (k + 200 : Nat), 7⟩)
    (some 9) (fun _ => none) .empty
  exact ⟨d', bs, h1, h2, h3 fun n a u _ hu => flat_noOverflow n _ _ a u hu⟩

example : ∀ c ∈ mainCalls (some 9), SizesOk c := C96_sizes (some 9)

example : testMembershipVerify sumEnv 1 ⟨29, 16⟩ 8 =
    Run.ok (accumulator 16 29 (benchReps sumEnv 8), accumulator 16 29 (benchReps sumEnv 8)) :=
  C96_membershipVerify sumEnv 1 ⟨29, 16⟩ 8 (by decide)

/-- For the number 7 nothing runs. -/
example : runMain flatEnv 1 g2048 n2048 (S := idealSnark flatEnv) (fun k => ⟨4, k, (k + 100 : Nat), (k + 200 : Nat), 7⟩)
    (some 7) (fun _ => none) = Run.ok (fun _ => none, []) :=
  (C96_other_inputs _ _ _ _ _ _ _).2 ((C96_other_inputs flatEnv 1 g2048 n2048 (S := idealSnark flatEnv)
    (fun k => ⟨4, k, (k + 100 : Nat), (k + 200 : Nat), 7⟩) (some 7) (fun _ => none)).1.2 (by decide))

/-! ## C97 -/

/-- What the swap experiments prove and verify at their end is the update that they computed. -/
def C97_statement : Prop :=
  ∀ (E : Env) (S : Snark) (fuel G N : Nat) (accMid : Int) (coin coin' : S.Coin) (setsize updated : UInt32) (d d' : Disk S)
    (v : SwapRun) (u : UpdateSet32) (flag : Bool),
    (testNotusMultiSwap E fuel G N accMid coin coin' setsize updated d = Run.ok (d', v, u, flag) ∨
      testNotusParallel E fuel G N accMid coin coin' setsize updated d = Run.ok (d', v, u, flag)) → u = v.ret

theorem swapFinish_ok_iff (E : Env) (fuel G N : Nat) (accMid : Int) (k : S.Coin) (n : UInt32) (d : Disk S) (u : UpdateSet32)
    (b : Bool) : swapFinish E fuel G N accMid k n d = Run.ok (u, b) ↔
      ∃ p, genTestSet E fuel n G N accMid = Run.ok u ∧ prove u k d = .ok (some p) ∧ verify p n u.publicPart d = .ok b := by
  unfold swapFinish
  simp only [run_bind_ok_iff, liftRes_ok_iff]
  constructor
  · rintro ⟨u', h2, o, h3, h4⟩
    cases o with
    | none => exact absurd ((liftRes_ok_iff _ _).1 h4) (by simp [goPanic])
    | some p =>
      obtain ⟨b', h5, h6⟩ := (run_bind_ok_iff _ _ _).1 h4
      have h6 := run_ok_inj h6
      injection h6 with h6 h7
      subst h6 h7
      exact ⟨p, h2, h3, (liftRes_ok_iff _ _).1 h5⟩
  · rintro ⟨p, h2, h3, h4⟩
    exact ⟨u, h2, some p, h3, (run_bind_ok_iff _ _ _).2 ⟨b, (liftRes_ok_iff _ _).2 h4, rfl⟩⟩

theorem notusTest_ok_iff (E : Env) (fuel G N : Nat) (accMid : Int) (coin coin' : S.Coin) (s n : UInt32) (d d' : Disk S)
    (v : SwapRun) (u : UpdateSet32) (b : Bool) :
    (testNotusMultiSwap E fuel G N accMid coin coin' s n d = Run.ok (d', v, u, b) ↔
      ensureKeys E n coin d = .ok d' ∧ notusMultiSwap E fuel G N s n = Run.ok v ∧
        swapFinish E fuel G N accMid coin' n d' = Run.ok (u, b)) ∧
    (testNotusParallel E fuel G N accMid coin coin' s n d = Run.ok (d', v, u, b) ↔
      ensureKeys E n coin d = .ok d' ∧ notusParallel E fuel G N s n = Run.ok v ∧
        swapFinish E fuel G N accMid coin' n d' = Run.ok (u, b)) := by
  unfold testNotusMultiSwap testNotusParallel
  simp only [run_bind_ok_iff, liftRes_ok_iff]
  constructor
  all_goals
    constructor
    · rintro ⟨d1, h1, v', h2, ⟨u', b'⟩, h3, h4⟩
      have h4 := run_ok_inj h4
      simp only [Prod.mk.injEq] at h4
      obtain ⟨rfl, rfl, rfl, rfl⟩ := h4
      exact ⟨h1, h2, h3⟩
    · rintro ⟨h1, h2, h3⟩
      exact ⟨d', h1, v, h2, (u, b), h3, rfl⟩

/-- `TestNotusMultiSwap` proves the set that it computed. Missing from `C97_statement`: `TestNotusParallel`. -/
theorem C97_multi_partial (E : Env) (fuel G N : Nat) (accMid : Int) (coin coin' : S.Coin) (s n : UInt32) (d d' : Disk S)
    (v : SwapRun) (u : UpdateSet32) (b : Bool)
    (h : testNotusMultiSwap E fuel G N accMid coin coin' s n d = Run.ok (d', v, u, b)) : u = v.ret := by
  obtain ⟨-, h2, h3⟩ := (notusTest_ok_iff E fuel G N accMid coin coin' s n d d' v u b).1.1 h
  obtain ⟨p, h4, -, -⟩ := (swapFinish_ok_iff ..).1 h3
  have h5 := (C79_multi_partial E fuel G N s n v accMid h2).1
  rw [h4] at h5
  exact run_ok_inj h5

/-- `TestNotusParallel` proves a set that differs from the computed one at most in the second remainder. -/
theorem C97_parallel_partial (E : Env) (fuel G N : Nat) (accMid : Int) (coin coin' : S.Coin) (s n : UInt32) (d d' : Disk S)
    (v : SwapRun) (u : UpdateSet32) (b : Bool)
    (h : testNotusParallel E fuel G N accMid coin coin' s n d = Run.ok (d', v, u, b)) :
    v.ret = { u with remainderR2 := v.ret.remainderR2 } ∧
      v.ret.remainderR2 = (((Experiments.removed E n.toNat).prod * Experiments.factor E 300 : Nat) : Int) % u.challengeL2 := by
  obtain ⟨-, h2, h3⟩ := (notusTest_ok_iff E fuel G N accMid coin coin' s n d d' v u b).2.1 h
  obtain ⟨p, h4, -, -⟩ := (swapFinish_ok_iff ..).1 h3
  obtain ⟨u', h5, h6⟩ := C79_parallel_partial E fuel G N s n v accMid h2
  rw [h4] at h5
  obtain rfl := run_ok_inj h5
  have e1 : v.ret.challengeL2 = u.challengeL2 := by rw [h6]
  have e2 := congrArg UpdateSet32.remainderR2 h6
  simp only [e1] at e2
  refine ⟨?_, e2⟩
  rw [e1, ← e2] at h6
  exact h6

/-- The last part of both experiments is the run of `TestMultiSwap` with the same numbers: the verdict that is printed does
not depend on the accumulators, the membership proofs and the remainders that were computed before. -/
theorem C97_verdict (E : Env) (fuel G N : Nat) (accMid : Int) (coin coin' : S.Coin) (s n : UInt32) (d d' : Disk S)
    (v : SwapRun) (u : UpdateSet32) (b : Bool)
    (h : testNotusMultiSwap E fuel G N accMid coin coin' s n d = Run.ok (d', v, u, b) ∨
      testNotusParallel E fuel G N accMid coin coin' s n d = Run.ok (d', v, u, b)) :
    testMultiSwap E fuel G N accMid coin coin' n d = Run.ok (d', b) := by
  have h' : ensureKeys E n coin d = .ok d' ∧ swapFinish E fuel G N accMid coin' n d' = Run.ok (u, b) := by
    rcases h with h | h
    · exact ⟨((notusTest_ok_iff ..).1.1 h).1, ((notusTest_ok_iff ..).1.1 h).2.2⟩
    · exact ⟨((notusTest_ok_iff ..).2.1 h).1, ((notusTest_ok_iff ..).2.1 h).2.2⟩
  obtain ⟨p, h1, h2, h3⟩ := (swapFinish_ok_iff ..).1 h'.2
  exact (testMultiSwap_ok_iff ..).2 ⟨u, p, h'.1, h1, h2, h3⟩

/-- If the circuit accepts the set that `TestNotusParallel` proved and the computed one differs from it, the circuit rejects
the computed one. -/
theorem C97_ret_rejected (E : Env) (fuel G N : Nat) (accMid : Int) (coin coin' : S.Coin) (s n : UInt32) (d d' : Disk S)
    (v : SwapRun) (u : UpdateSet32) (b : Bool) (hn : n.toNat ≤ 2 ^ 31)
    (h : testNotusParallel E fuel G N accMid coin coin' s n d = Run.ok (d', v, u, b))
    (ha : ∃ c, assignCircuit u = .ok c ∧ define E c = .ok true) (hne : v.ret ≠ u) :
    ∃ c, assignCircuit v.ret = .ok c ∧ define E c = .ok false := by
  obtain ⟨hret, hrem⟩ := C97_parallel_partial E fuel G N accMid coin coin' s n d d' v u b h
  obtain ⟨-, -, h3⟩ := (notusTest_ok_iff E fuel G N accMid coin coin' s n d d' v u b).2.1 h
  obtain ⟨p, h4, -, -⟩ := (swapFinish_ok_iff ..).1 h3
  obtain ⟨-, -, hv, hh, -⟩ := C64_genTestSet_partial E fuel n G N accMid u hn h4
  have hv' : v.ret.isValid = true := by rw [hret]; exact hv
  obtain ⟨c, c1, c2⟩ := ha
  rw [(C66_assignCircuit u).2 hv] at c1
  injection c1 with c1
  subst c1
  obtain ⟨c', b', d1, d2⟩ := C66_define_total E v.ret hv'
  refine ⟨c', d1, ?_⟩
  cases b' with
  | false => exact d2
  | true =>
    exfalso
    rw [(C66_assignCircuit v.ret).2 hv'] at d1
    injection d1 with d1
    subst d1
    have e1 := (C61_remainders E _ c2).2
    have e2 := (C61_remainders E _ d2).2
    have e3 : (assigned v.ret).remainderR2 = (assigned u).remainderR2 := by
      rw [e2, e1, hret]; rfl
    have hL := hh.challenge2
    have r1 : 0 ≤ v.ret.remainderR2 ∧ v.ret.remainderR2 < frOrder := by
      rw [hrem]
      exact ⟨Int.emod_nonneg _ (by omega), lt_trans (Int.emod_lt_of_pos _ hL.1) hL.2⟩
    have r2 : 0 ≤ u.remainderR2 ∧ u.remainderR2 < frOrder := by
      rw [hh.remainder2]
      exact ⟨Int.emod_nonneg _ (by omega), lt_trans (Int.emod_lt_of_pos _ hL.1) hL.2⟩
    have e4 : elementFromBigInt v.ret.remainderR2 = elementFromBigInt u.remainderR2 := e3
    have e5 : v.ret.remainderR2 = u.remainderR2 := by
      simp only [elementFromBigInt] at e4
      rw [Int.emod_eq_of_lt r1.1 r1.2, Int.emod_eq_of_lt r2.1 r2.2] at e4
      omega
    apply hne
    rw [hret, e5]

/-- Four users, all updated: the computed set has the remainder 0. -/
theorem C97_run : ∃ (d' : Disk (idealSnark sumEnv)) (v : SwapRun) (u : UpdateSet32),
    testNotusParallel sumEnv 1 16 29 4 (0 : Nat) (1 : Nat) 4 4 (fun _ => none : Disk (idealSnark sumEnv)) =
      Run.ok (d', v, u, true) ∧ v.ret ≠ u := by
  have hc := sum_challenges 16 29 ((4 : UInt32) - 4).toNat (4 : UInt32).toNat (by decide) (by decide)
  have hw := (notusParallel_ok_iff sumEnv 1 16 29 4 4 _).2 ⟨13, 13, 13, hc, rfl⟩
  obtain ⟨d', h5, h6, cc, h7⟩ := ensureKeys_runs (S := idealSnark sumEnv) (E := sumEnv) .empty 4 (by decide) (0 : Nat)
  have hP : PrimesFound sumEnv 1 := ⟨fun b => ⟨13, by decide, sum_hash b⟩, fun i => ⟨13, by decide, sum_prime i⟩⟩
  obtain ⟨u, b, h8, hu, h9⟩ := swapFinish_runs (idealSnark_complete sumEnv) (idealSnark_ignores sumEnv) hP h7 16 29 4
    (1 : Nat) (by decide) (by decide)
  have hg := sumEnv_testSet 4 (by decide) 16 29 4
  have e : testSet sumEnv (4 : UInt32).toNat 13 13 = u := run_ok_inj (hg.symm.trans hu)
  subst e
  have hb : b = true := h9 (by unfold NoOverflow; decide +kernel)
  subst hb
  refine ⟨d', _, _, (notusTest_ok_iff ..).2.2 ⟨h5, hw, h8⟩, ?_⟩
  intro h
  have := congrArg UpdateSet32.remainderR2 h
  revert this
  decide +kernel

theorem C97_violated : ¬ C97_statement := by
  intro h
  obtain ⟨d', v, u, h1, h2⟩ := C97_run
  exact h2 (h sumEnv (idealSnark sumEnv) _ _ _ _ _ _ _ _ _ _ _ _ _ (.inr h1)).symm

/-- In that run the circuit rejects the computed set, though "Verification passed" is printed. -/
theorem C97_run_rejected : ∃ (d' : Disk (idealSnark sumEnv)) (v : SwapRun) (u : UpdateSet32) (c : Circuit),
    testNotusParallel sumEnv 1 16 29 4 (0 : Nat) (1 : Nat) 4 4 (fun _ => none : Disk (idealSnark sumEnv)) =
      Run.ok (d', v, u, true) ∧ assignCircuit v.ret = .ok c ∧ define sumEnv c = .ok false := by
  obtain ⟨d', v, u, h1, h2⟩ := C97_run
  obtain ⟨u', c', h3, h4, h5⟩ := C85_test_sound (idealSnark_binding sumEnv) .empty _ _ _ _ _ _ _
    (C97_verdict _ _ _ _ _ _ _ _ _ _ _ _ _ _ (.inr h1))
  obtain ⟨p, h6, -, -⟩ := (swapFinish_ok_iff ..).1 ((notusTest_ok_iff ..).2.1 h1).2.2
  obtain rfl := run_ok_inj (h6.symm.trans h3)
  obtain ⟨c, h7, h8⟩ := C97_ret_rejected _ _ _ _ _ _ _ _ _ _ _ _ _ _ (by decide) h1 ⟨c', h4, h5⟩ h2
  exact ⟨d', v, u, c, h1, h7, h8⟩

/-- `TestNotusMultiSwap` with four users, all updated: it proves the set that it computed. -/
example : ∃ (d' : Disk (idealSnark sumEnv)) (v : SwapRun) (u : UpdateSet32),
    testNotusMultiSwap sumEnv 1 16 29 4 (0 : Nat) (1 : Nat) 4 4 (fun _ => none : Disk (idealSnark sumEnv)) =
      Run.ok (d', v, u, true) ∧ u = v.ret := by
  have hc := sum_challenges 16 29 ((4 : UInt32) - 4).toNat (4 : UInt32).toNat (by decide) (by decide)
  have hw := (notusMultiSwap_ok_iff sumEnv 1 16 29 4 4 _).2 ⟨13, 13, 13, hc, rfl⟩
  obtain ⟨d', h5, h6, cc, h7⟩ := ensureKeys_runs (S := idealSnark sumEnv) (E := sumEnv) .empty 4 (by decide) (0 : Nat)
  have hP : PrimesFound sumEnv 1 := ⟨fun b => ⟨13, by decide, sum_hash b⟩, fun i => ⟨13, by decide, sum_prime i⟩⟩
  obtain ⟨u, b, h8, hu, h9⟩ := swapFinish_runs (idealSnark_complete sumEnv) (idealSnark_ignores sumEnv) hP h7 16 29 4
    (1 : Nat) (by decide) (by decide)
  have hg := sumEnv_testSet 4 (by decide) 16 29 4
  have e : testSet sumEnv (4 : UInt32).toNat 13 13 = u := run_ok_inj (hg.symm.trans hu)
  subst e
  have hb : b = true := h9 (by unfold NoOverflow; decide +kernel)
  subst hb
  have hr := (notusTest_ok_iff ..).1.2 ⟨h5, hw, h8⟩
  exact ⟨d', _, _, hr, C97_multi_partial _ _ _ _ _ _ _ _ _ _ _ _ _ _ hr⟩

end Verif.Props
