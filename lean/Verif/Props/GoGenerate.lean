import Verif.Model.GoGenerate
import Verif.Props.SnarkFlow

/-!
# C160, C161: the Solidity test after the steps of `go generate`, and the workflow that runs the tests
-/

namespace Verif.Props
open Verif.Go Verif.Model Verif.Model.SnarkFlow Verif.Model.GoGenerate Verif.Spec Verif.Lemmas Verif.Lemmas.SnarkFlow

variable {S : Snark}

/-! ## C160 -/

/-- Directories that arise from a checkout by running the commands of generate.go, in any order and any number of times. The
files of the checkout are for the key of a setup with the coin `c0`. -/
inductive ReachDir (E : Env) (c0 : S.Coin) : SolDir S → Prop
  | checkout : ReachDir E c0 (checkout (S.setup (.multi 5) c0).2)
  | main {t t' : SolDir S} (coin : S.Coin) : ReachDir E c0 t → runContractMain E coin t = some t' → ReachDir E c0 t'
  | solc {t t' : SolDir S} : ReachDir E c0 t → solc t = some t' → ReachDir E c0 t'
  | abigen {t t' : SolDir S} : ReachDir E c0 t → abigen t = some t' → ReachDir E c0 t'

/-- The test set can be generated, without an overflow of a balance, and 42 is not taken for a prime. -/
def TestSetOk (E : Env) (fuel : Nat) (G N accMid : Int) : Prop :=
  (∃ u, genTestSet E fuel 5 G N accMid = Run.ok u ∧ NoOverflow E u) ∧ E.probablyPrime 42 = false

/-- The keys in the directory and the binding come from one setup. -/
def OneSetup (t : SolDir S) : Prop :=
  ∃ c, KeyAt t.disk keyPathPrefix (.multi 5) c ∧ t.binding = (S.setup (.multi 5) c).2

/-- The Solidity test passes in every directory that the commands can leave. -/
def C160_statement : Prop :=
  ∀ (E : Env) (S : Snark), Complete E S → Binding E S → ∀ (c0 : S.Coin) (t : SolDir S), ReachDir E c0 t →
    ∀ (fuel : Nat) (G N accMid : Int) (k : S.Coin), TestSetOk E fuel G N accMid →
      suiteTest E fuel G N accMid k t = Run.ok true

/-- The first step always succeeds; it writes keys of one setup and the source for them. -/
theorem runContractMain_eq (E : Env) (coin : S.Coin) (t : SolDir S) :
    runContractMain E coin t = some ⟨write (setupWithDump (.multi 5) coin keyPathPrefix t.disk) solName
      (.sol (S.setup (.multi 5) coin).2), t.combined, t.binding⟩ := by
  have hcomp : compile E 5 = some (.multi 5) := by rw [compile_eq, if_neg (by decide)]; rfl
  have hk := setup_keyAt (.multi 5) coin keyPathPrefix t.disk
  unfold runContractMain generateGroth16
  rw [hcomp]
  simp only [readVk_of hk.2.2, Option.map_some]
  rfl

/-- After the first step. -/
theorem main_keyAt (coin : S.Coin) (d : Disk S) (vk : S.VK) :
    KeyAt (write (setupWithDump (.multi 5) coin keyPathPrefix d) solName (.sol vk)) keyPathPrefix (.multi 5) coin :=
  (write_other_keyAt other_notus _ _ _ _).2 (setup_keyAt _ _ _ _)

/-- What holds in every reachable directory: the key files are missing or belong together, and source, combined.json and
binding are each for the key of some setup. -/
structure SolDirOk (t : SolDir S) : Prop where
  keys : KeyGroup t.disk keyPathPrefix (.multi 5)
  sol : ∃ c, t.disk solName = some (.sol (S.setup (.multi 5) c).2)
  combined : ∃ c, t.combined = some (S.setup (.multi 5) c).2
  binding : ∃ c, t.binding = (S.setup (.multi 5) c).2

theorem solDirOk_of_reach {E : Env} {c0 : S.Coin} {t : SolDir S} (h : ReachDir E c0 t) : SolDirOk t := by
  induction h with
  | checkout =>
    exact ⟨(write_other_group other_notus _ _ _).2 (Or.inl ⟨rfl, rfl, rfl⟩), ⟨c0, write_same (fun _ => none) solName _⟩, ⟨c0, rfl⟩, ⟨c0, rfl⟩⟩
  | @main t1 _ coin _ h ih =>
    rw [runContractMain_eq] at h
    injection h with h
    subst h
    exact ⟨Or.inr ⟨coin, main_keyAt _ _ _⟩, ⟨coin, write_same (setupWithDump (.multi 5) coin keyPathPrefix t1.disk) solName _⟩, ih.combined, ih.binding⟩
  | solc _ h ih =>
    obtain ⟨c, hc⟩ := ih.sol
    simp only [GoGenerate.solc, hc, Option.some.injEq] at h
    subst h
    exact ⟨ih.keys, ⟨c, hc⟩, ⟨c, rfl⟩, ih.binding⟩
  | abigen _ h ih =>
    obtain ⟨c, hc⟩ := ih.combined
    simp only [GoGenerate.abigen, hc, Option.map_some, Option.some.injEq] at h
    subst h
    exact ⟨ih.keys, ih.sol, ⟨c, rfl⟩, ⟨c, rfl⟩⟩

/-- The test with keys of one setup and a binding for any setup. -/
theorem suiteTest_keyAt {E : Env} (hC : Complete E S) (hB : Binding E S) {t : SolDir S} {c b : S.Coin}
    (hk : KeyAt t.disk keyPathPrefix (.multi 5) c) (hb : t.binding = (S.setup (.multi 5) b).2) {fuel : Nat}
    {G N accMid : Int} (k : S.Coin) (hg : TestSetOk E fuel G N accMid) :
    ∃ r, suiteTest E fuel G N accMid k t = Run.ok r ∧ (r = true ↔ b = c) := by
  obtain ⟨⟨u, hu, ho⟩, h42⟩ := hg
  obtain ⟨w, p, h3, h6, a1, a2⟩ := test_answers hC hB c k hu ho h42
  refine ⟨contractAccepts t.binding (List.ofFn (Contract.testInput u.publicPart)) p &&
    !contractAccepts t.binding (42 :: (List.ofFn (Contract.testInput u.publicPart)).tail) p, ?_, ?_⟩
  · unfold suiteTest
    simp only [setupTest, readCcs_of hk.1, readPk_of hk.2.1, readVk_of hk.2.2, run_bind_ok_iff, liftRes_ok_iff]
    refine ⟨u, hu, w, h3, ?_⟩
    simp only [h6, Option.isSome_some, Bool.and_self, Bool.true_and]
  · constructor
    · intro h
      rw [Bool.and_eq_true, contractAccepts, Bool.and_eq_true, hb] at h
      exact (hB _ _ _ _ _ _ _ _ h6 h.1.2).2.1
    · rintro rfl
      rw [hb, a1, a2]
      rfl

/-- Without key files the test panics. -/
theorem suiteTest_none {E : Env} {t : SolDir S} (hp : t.disk (pkName keyPathPrefix) = none) {fuel : Nat} {G N accMid : Int}
    (k : S.Coin) (b : Bool) : suiteTest E fuel G N accMid k t ≠ Run.ok b := by
  unfold suiteTest
  simp only [setupTest, readPk, hp, ne_eq, run_bind_ok_iff, liftRes_ok_iff]
  rintro ⟨_, _, _, _, h⟩
  cases h

/-- C160: in a directory that the commands can leave, the test passes exactly if the keys and the binding come from one
setup. -/
theorem C160_iff_partial {E : Env} (hC : Complete E S) (hB : Binding E S) {c0 : S.Coin} {t : SolDir S}
    (hr : ReachDir E c0 t) {fuel : Nat} {G N accMid : Int} (k : S.Coin) (hg : TestSetOk E fuel G N accMid) :
    suiteTest E fuel G N accMid k t = Run.ok true ↔ OneSetup t := by
  have ht := solDirOk_of_reach hr
  obtain ⟨b, hb⟩ := ht.binding
  constructor
  · intro h
    rcases ht.keys with ⟨-, h2, -⟩ | ⟨c, hk⟩
    · exact absurd h (suiteTest_none h2 k true)
    · obtain ⟨r, h1, h2⟩ := suiteTest_keyAt hC hB hk hb k hg
      rw [h] at h1
      injection h1 with h1
      injection h1 with h1
      have := h2.1 h1.symm
      subst this
      exact ⟨_, hk, hb⟩
  · rintro ⟨c, hk, hb⟩
    obtain ⟨r, h1, h2⟩ := suiteTest_keyAt hC hB hk hb k hg
    rw [h1, h2.2 rfl]

/-- C160: in any directory, also one that the commands cannot leave, the test passes only if all three key files are there. -/
theorem C160_needs_files (E : Env) (t : SolDir S) (fuel : Nat) (G N accMid : Int) (k : S.Coin)
    (h : suiteTest E fuel G N accMid k t = Run.ok true) : (readCcs t.disk (ascii "zkmultiswap.ccs.save")).isSome ∧
      (readPk t.disk (ascii "zkmultiswap.pk.save")).isSome ∧ (readVk t.disk (ascii "zkmultiswap.vk.save")).isSome := by
  have n1 : ascii "zkmultiswap.ccs.save" = ccsName keyPathPrefix := by decide +kernel
  have n2 : ascii "zkmultiswap.pk.save" = pkName keyPathPrefix := by decide +kernel
  have n3 : ascii "zkmultiswap.vk.save" = vkName keyPathPrefix := by decide +kernel
  rw [n1, n2, n3]
  unfold suiteTest at h
  simp only [setupTest, run_bind_ok_iff, liftRes_ok_iff] at h
  obtain ⟨u, -, w, -, h⟩ := h
  split at h
  · cases h
  · cases h
  · rename_i hp hc
    split at h
    · cases h
    · injection h with h
      injection h with h
      rw [Bool.and_eq_true, Bool.and_eq_true, Bool.and_eq_true] at h
      exact ⟨h.1.1.1, by rw [hp]; rfl, h.1.1.2⟩

/-- C160: all three commands together always succeed, and after them the test passes. -/
theorem C160_generate_partial {E : Env} (hC : Complete E S) (hB : Binding E S) (coin : S.Coin) (t : SolDir S) :
    ∃ t', goGenerate E coin t = some t' ∧ OneSetup t' ∧ ∀ (fuel : Nat) (G N accMid : Int) (k : S.Coin),
      TestSetOk E fuel G N accMid → suiteTest E fuel G N accMid k t' = Run.ok true := by
  have hs : goGenerate E coin t = some ⟨write (setupWithDump (.multi 5) coin keyPathPrefix t.disk) solName
      (.sol (S.setup (.multi 5) coin).2), some (S.setup (.multi 5) coin).2, (S.setup (.multi 5) coin).2⟩ := by
    simp only [goGenerate, runContractMain_eq, GoGenerate.solc, write_same, GoGenerate.abigen, Option.bind_eq_bind,
      Option.bind_some, Option.map_some]
  refine ⟨_, hs, ⟨coin, main_keyAt _ _ _, rfl⟩, ?_⟩
  intro fuel G N accMid k hg
  obtain ⟨r, h1, h2⟩ := suiteTest_keyAt hC hB (b := coin) (t := ⟨write (setupWithDump (.multi 5) coin keyPathPrefix t.disk)
    solName (.sol (S.setup (.multi 5) coin).2), some (S.setup (.multi 5) coin).2, (S.setup (.multi 5) coin).2⟩)
    (main_keyAt coin t.disk (S.setup (.multi 5) coin).2) rfl k hg
  rw [h1, h2.2 rfl]

/-- C160: in a checkout the test panics, for there are no keys. -/
theorem C160_checkout_fails (E : Env) (vk : S.VK) (fuel : Nat) (G N accMid : Int) (k : S.Coin) (b : Bool) :
    suiteTest E fuel G N accMid k (checkout vk) ≠ Run.ok b :=
  suiteTest_none (by
    have := (write_other_group (S := S) other_notus (.sol vk) keyPathPrefix (.multi 5) (d := fun _ => none)).2
      (Or.inl ⟨rfl, rfl, rfl⟩)
    rcases this with h | ⟨c, h⟩
    · exact h.2.1
    · exact absurd ((write_other_keyAt other_notus _ _ _ _).1 h).1 (by simp)) k b

/-- Directories reached from a checkout without `solc`, by setups with other coins than that of the checkout. -/
inductive NoSolc (E : Env) (c0 : S.Coin) : SolDir S → Prop
  | checkout : NoSolc E c0 (checkout (S.setup (.multi 5) c0).2)
  | main {t t' : SolDir S} (coin : S.Coin) : coin ≠ c0 → NoSolc E c0 t → runContractMain E coin t = some t' → NoSolc E c0 t'
  | abigen {t t' : SolDir S} : NoSolc E c0 t → abigen t = some t' → NoSolc E c0 t'

/-- C160: without `solc` the test never passes: keys of a new setup do not fit the contract of the checkout. Running `abigen`
does not help, it writes the same binding again. -/
theorem C160_noSolc_fails {E : Env} (hC : Complete E S) (hB : Binding E S) {c0 : S.Coin} {t : SolDir S} (hr : NoSolc E c0 t)
    {fuel : Nat} {G N accMid : Int} (k : S.Coin) (hg : TestSetOk E fuel G N accMid) :
    t.binding = (S.setup (.multi 5) c0).2 ∧ suiteTest E fuel G N accMid k t ≠ Run.ok true := by
  have hinv : t.binding = (S.setup (.multi 5) c0).2 ∧ t.combined = some (S.setup (.multi 5) c0).2 ∧
      (t.disk (pkName keyPathPrefix) = none ∨ ∃ c, c ≠ c0 ∧ KeyAt t.disk keyPathPrefix (.multi 5) c) := by
    induction hr with
    | checkout =>
      refine ⟨rfl, rfl, Or.inl ?_⟩
      exact write_ne (fun _ => none) (.sol (S.setup (.multi 5) c0).2) (other_notus keyPathPrefix).2.1.symm
    | main coin hne _ h ih =>
      rw [runContractMain_eq] at h
      injection h with h
      subst h
      exact ⟨ih.1, ih.2.1, Or.inr ⟨coin, hne, main_keyAt _ _ _⟩⟩
    | abigen _ h ih =>
      simp only [GoGenerate.abigen, ih.2.1, Option.map_some, Option.some.injEq] at h
      subst h
      exact ⟨rfl, rfl, ih.2.2⟩
  obtain ⟨hb, -, h | ⟨c, hne, hk⟩⟩ := hinv
  · exact ⟨hb, suiteTest_none h k true⟩
  · refine ⟨hb, fun h => hne ?_⟩
    obtain ⟨r, h1, h2⟩ := suiteTest_keyAt hC hB hk hb k hg
    rw [h] at h1
    injection h1 with h1
    injection h1 with h1
    exact (h2.1 h1.symm).symm

/-- The hypotheses on the test set can be met. -/
theorem sumEnv_testSetOk : TestSetOk sumEnv 1 2 35 4 :=
  ⟨⟨_, sumEnv_testSet 5 (by decide) 2 35 4, by unfold NoOverflow; decide +kernel⟩, by decide +kernel⟩

theorem C160_violated : ¬ C160_statement := fun h =>
  C160_checkout_fails (S := idealSnark sumEnv) sumEnv (.multi 5, (0 : Nat)) 1 2 35 4 (2 : Nat) true
    (h sumEnv (idealSnark sumEnv) (idealSnark_complete _) (idealSnark_binding _) (0 : Nat) _ .checkout 1 2 35 4 (2 : Nat)
      sumEnv_testSetOk)

/-- Keys of a new setup beside the old binding: the test fails also when all files are there. -/
example : ∃ t : SolDir (idealSnark sumEnv), ReachDir sumEnv (0 : Nat) t ∧
    KeyAt t.disk keyPathPrefix (.multi 5) (1 : Nat) ∧ suiteTest sumEnv 1 2 35 4 (2 : Nat) t ≠ Run.ok true := by
  have hm := runContractMain_eq sumEnv (S := idealSnark sumEnv) (1 : Nat) (checkout (.multi 5, (0 : Nat)))
  refine ⟨_, .main (1 : Nat) .checkout hm, main_keyAt _ _ _, ?_⟩
  exact (C160_noSolc_fails (idealSnark_complete _) (idealSnark_binding _)
    (.main (1 : Nat) (show (1 : Nat) ≠ 0 by decide) .checkout hm) (2 : Nat) sumEnv_testSetOk).2

/-- After `go generate` in a checkout the test passes. -/
example : ∃ t : SolDir (idealSnark sumEnv), goGenerate sumEnv (1 : Nat) (checkout (S := idealSnark sumEnv) (.multi 5, (0 : Nat))) = some t ∧
    suiteTest sumEnv 1 2 35 4 (2 : Nat) t = Run.ok true := by
  obtain ⟨t, h1, -, h2⟩ := C160_generate_partial (idealSnark_complete sumEnv) (idealSnark_binding sumEnv) (1 : Nat)
    (checkout (S := idealSnark sumEnv) (.multi 5, (0 : Nat)))
  exact ⟨t, h1, h2 1 2 35 4 (2 : Nat) sumEnv_testSetOk⟩

/-! ## C161 -/

/-- The step `Test` of the workflow fails if a package fails. -/
def C161_statement : Prop := ∀ ps : List Package, (∃ p ∈ ps, p.passed = false) → ciStep false ps ≠ 0

/-- If a line without the pattern is printed, `grep -v` succeeds, and only then. -/
theorem grepV_zero (pattern : List Char) (lines : List (List Char)) :
    (grepV pattern lines).1 = 0 ↔ ∃ l ∈ lines, ¬ pattern <:+: l := by
  simp only [grepV]
  split_ifs with h
  · rw [List.filter_eq_nil_iff] at h
    constructor
    · intro h; cases h
    · rintro ⟨l, hl, hn⟩
      exact absurd (h l hl) (by simp [hn])
  · constructor
    · intro _
      obtain ⟨l, hl⟩ := List.exists_mem_of_ne_nil _ h
      rw [List.mem_filter] at hl
      exact ⟨l, hl.1, by simpa using hl.2⟩
    · intro _; rfl

theorem goTest_failed {ps : List Package} (h : ∃ p ∈ ps, p.passed = false) :
    goTest ps = (1, ps.flatMap packageLines ++ ["FAIL".toList]) := by
  obtain ⟨p, hp, hf⟩ := h
  rw [goTest, if_neg]
  intro ha
  rw [List.all_eq_true] at ha
  rw [ha p hp] at hf
  cases hf

theorem fail_line : ¬ ciPattern <:+: "FAIL".toList := by decide +kernel

/-- C161: whenever a package fails, whichever it is, the step succeeds: the last line of the output passes the filter. -/
theorem C161_failure_passes {ps : List Package} (h : ∃ p ∈ ps, p.passed = false) : ciStep false ps = 0 := by
  have := (grepV_zero ciPattern (goTest ps).2).2 ⟨"FAIL".toList, by rw [goTest_failed h]; simp, fail_line⟩
  simpa [ciStep] using this

/-- C161: if the step fails then every package passed, and every line of the output names the directory. -/
theorem C161_step_fails_iff (ps : List Package) :
    ciStep false ps ≠ 0 ↔ (∀ p ∈ ps, p.passed = true) ∧
      ∀ p ∈ ps, ∀ l ∈ packageLines p, "/zkmultiswap/gnark-tests/".toList <:+: l := by
  change _ ↔ _ ∧ ∀ p ∈ ps, ∀ l ∈ packageLines p, ciPattern <:+: l
  constructor
  · intro h
    have h1 : ∀ p ∈ ps, p.passed = true := by
      intro p hp
      by_contra hf
      exact h (C161_failure_passes ⟨p, hp, by simpa using hf⟩)
    refine ⟨h1, ?_⟩
    have h2 : goTest ps = (0, ps.flatMap packageLines) := by rw [goTest, if_pos (List.all_eq_true.2 h1)]
    intro p hp l hl
    by_contra hn
    apply h
    have := (grepV_zero ciPattern (goTest ps).2).2 ⟨l, by rw [h2]; exact List.mem_flatMap.2 ⟨p, hp, hl⟩, hn⟩
    simpa [ciStep] using this
  · rintro ⟨h1, h2⟩ h
    have h3 : goTest ps = (0, ps.flatMap packageLines) := by rw [goTest, if_pos (List.all_eq_true.2 h1)]
    have h : (grepV ciPattern (goTest ps).2).1 = 0 := by simpa [ciStep] using h
    obtain ⟨l, hl, hn⟩ := (grepV_zero _ _).1 h
    rw [h3] at hl
    obtain ⟨p, hp, hl⟩ := List.mem_flatMap.1 hl
    exact hn (h2 p hp l hl)

/-- C161: with `pipefail` the step fails if a package fails. -/
theorem C161_pipefail_partial {ps : List Package} (h : ∃ p ∈ ps, p.passed = false) : ciStep true ps ≠ 0 := by
  have h1 := goTest_failed h
  intro h2
  unfold ciStep at h2
  simp only [h1, Bool.true_and, beq_iff_eq] at h2
  generalize (grepV ciPattern _).1 = s at h2
  split_ifs at h2 with h3
  exact h3 h2

/-- C161: `go test` prints a line for a failed package below the directory, and the log of the step does not have it. -/
theorem C161_not_logged {ps : List Package} {p : Package} (hp : p ∈ ps) (hf : p.passed = false)
    (hd : "/zkmultiswap/gnark-tests/".toList <:+: p.path) : "FAIL\t".toList ++ p.path ∈ (goTest ps).2 ∧
      "FAIL\t".toList ++ p.path ∉ (grepV "/zkmultiswap/gnark-tests/".toList (goTest ps).2).2 := by
  revert hd
  generalize "/zkmultiswap/gnark-tests/".toList = pat
  intro hd
  constructor
  · rw [goTest_failed ⟨p, hp, hf⟩, List.mem_append]
    exact Or.inl (List.mem_flatMap.2 ⟨p, hp, by simp [packageLines, hf]⟩)
  · intro h
    simp only [grepV, List.mem_filter] at h
    have : pat <:+: "FAIL\t".toList ++ p.path := hd.trans (List.suffix_append _ _).isInfix
    exact absurd this (by simpa using h.2)

/-- The package that C160 is about fails in a checkout, and the step succeeds. -/
theorem C161_example : ciStep false [⟨["panic: runtime error".toList],
    "github.com/jiajunxin/rsa_accumulator/zkmultiswap/gnark-tests/solidity".toList, false⟩] = 0 :=
  C161_failure_passes ⟨_, List.mem_singleton.2 rfl, rfl⟩

theorem C161_violated : ¬ C161_statement := fun h => h _ ⟨_, List.mem_singleton.2 rfl, rfl⟩ C161_example

/-- Only packages below the directory, all passing, and no other line: the step fails. -/
example : ciStep false [⟨[], "rsa_accumulator/zkmultiswap/gnark-tests/solidity".toList, true⟩] ≠ 0 :=
  (C161_step_fails_iff _).2 ⟨by simp, by
    intro p hp l hl
    rw [List.mem_singleton] at hp
    subst hp
    rw [packageLines, List.nil_append, List.mem_singleton] at hl
    subst hl
    decide +kernel⟩

end Verif.Props
