import Verif.Props.MultiSwap
import Verif.Props.Experiments
import Verif.Props.Printing
import Verif.Props.PooledVerify
import Verif.Props.Interop
import Verif.Props.IterWords
import Verif.Props.Goroutines

/-!
# Repaired outputs, table sizes and limits (C68, C78, C93, C114, C136, C148, C157)

As in RepairedSmall: the function is changed where the counterexample of the property comes from, and the property is proved.
-/

namespace Verif.Props
open Verif.Go Verif.Model Verif.Model.Interop Verif.Spec Verif.Lemmas

/-! ## C68: print the inputs in the order of the circuit -/

/-- zkmultiswap/common.go:353-359 and 386-389 with the remainders before the epoch and the deltas. -/
def contractInputsRepaired (publicInfo : PublicInfo) : List Nat :=
  [publicInfo.challengeL1, publicInfo.challengeL2, publicInfo.remainderR1, publicInfo.remainderR2,
    (publicInfo.currentEpochNum.toNat : Int), publicInfo.deltaModL1, publicInfo.deltaModL2].map uint256FromBig

/-- C68 with the five values in their places: what is printed is the public vector of the circuit. -/
theorem C68_repaired_partial (p : PublicInfo) (h : InField p) : contractInputsRepaired p = genPublicWitness p := by
  obtain ⟨v0, v1, v2, v3, v4, v5, v6, h1, h2⟩ := C68_printed_order_partial p h
  rw [h1]
  simp only [contractInputs, List.map_cons, List.map_nil, List.cons.injEq, and_true] at h2
  obtain ⟨a0, a1, a4, a5, a6, a2, a3⟩ := h2
  simp only [contractInputsRepaired, List.map_cons, List.map_nil, a0, a1, a2, a3, a4, a5, a6]

example : InField goodSet.publicPart ∧ contractInputs goodSet.publicPart ≠ contractInputsRepaired goodSet.publicPart := by
  refine ⟨by unfold InField; decide +kernel, by decide +kernel⟩

/-! ## C78: compute the number of words in 64 bits -/

/-- experiments/finaltests.go:543 (688) with `uint64(setsize)`. -/
def tableWordsRepaired (setsize : UInt32) : UInt64 := setsize.toUInt64 * 2048 / 64

theorem tableWordsRepaired_eq (setsize : UInt32) : (tableWordsRepaired setsize).toNat = 32 * setsize.toNat := by
  have h := setsize.toNat_lt
  rw [tableWordsRepaired, UInt64.toNat_div, UInt64.toNat_mul, UInt32.toNat_toUInt64]
  have e1 : (2048 : UInt64).toNat = 2048 := rfl
  have e2 : (64 : UInt64).toNat = 64 := rfl
  rw [e1, e2]
  omega

/-- C78 without the overflow: the table has enough words for every number of elements. -/
theorem C78_repaired_partial (E : Env) (fuel G N : Nat) (setsize updated : UInt32) (v : SwapRun) (hu : updated ≤ setsize)
    (h : notusMultiSwap E fuel G N setsize updated = Run.ok v ∨ notusParallel E fuel G N setsize updated = Run.ok v) :
    v.originalProd < 2 ^ (64 * (tableWordsRepaired setsize).toNat) := by
  have hv : 2 ≤ updated.toNat ∧ v.originalProd = (Experiments.kept E (setsize - updated).toNat).prod *
      (Experiments.removed E updated.toNat).prod * Experiments.factor E 200 := by
    rcases h with h | h
    · obtain ⟨l, L1, L2, hc, rfl⟩ := (notusMultiSwap_ok_iff E fuel G N setsize updated v).1 h
      exact ⟨hc.users, rfl⟩
    · obtain ⟨l, L1, L2, hc, rfl⟩ := (notusParallel_ok_iff E fuel G N setsize updated v).1 h
      exact ⟨hc.users, rfl⟩
  have hu' := UInt32.le_iff_toNat_le.1 hu
  have hk : (setsize - updated).toNat + updated.toNat = setsize.toNat := by
    rw [UInt32.toNat_sub_of_le _ _ hu]
    omega
  rw [hv.2, tableWordsRepaired_eq]
  refine lt_of_lt_of_le (swap_original_lt _ _ _) ?_
  rw [hk]
  exact Nat.pow_le_pow_right (by decide) (by omega)

/-- The size of the counterexample: no words in the code, 2^26 with the repair. There is a run with it. -/
example : (tableWords 2097152).toNat = 0 ∧ (tableWordsRepaired 2097152).toNat = 2 ^ 26 ∧
    ∃ v, notusMultiSwap flatEnv 1 16 29 2097152 2 = Run.ok v := by
  refine ⟨by decide, by decide, ?_⟩
  have hc := flat_challenges 16 29 ((2097152 : UInt32) - 2).toNat (2 : UInt32).toNat (by decide) (by decide)
  exact ⟨_, (notusMultiSwap_ok_iff flatEnv 1 16 29 2097152 2 _).2 ⟨13, 13, 13, hc, rfl⟩⟩

/-! ## C93: stop splitting at a limit of zero or less -/

/-- accumulator/common.go:170-191 `SetProductParallel` with the test `limit <= 0`: a negative limit is a limit of zero. -/
def setProductParallelRepaired (inputSet : List Int) (limit : Int) : Prog Int :=
  if limit ≤ 0 then .ret (.ok (setProductRecursiveFast inputSet)) else setProductParallel inputSet limit

/-- C93 with the repaired test: one constant for all limits and all the functions, as in `C93_statement`. -/
theorem C93_repaired_partial : ∃ K : Nat, ∀ limit : Int,
    (∀ set : List Int, AtMost (setProductParallelRepaired set limit) (K * 2 ^ limit.toNat)) ∧
    (∀ base r N set, AtMost (proveMembershipParallel base N set limit) (K * 2 ^ limit.toNat) ∧
      AtMost (proveMembershipParallelWithTable base N set limit) (K * 2 ^ limit.toNat) ∧
      AtMost (proveMembershipParallelWithTableWithRandomizer base r N set limit) (K * 2 ^ limit.toNat) ∧
      AtMost (proveMembershipParallelWithTableWithRandomizerWithChan base r N set limit) (K * 2 ^ limit.toNat)) := by
  refine ⟨2, fun limit => ⟨fun set => ?_, fun base r N set => C93_provers_partial base r N set limit⟩⟩
  unfold setProductParallelRepaired
  by_cases h : limit ≤ 0
  · rw [if_pos h]
    exact atMost_of_size _ _ (by simp [Prog.size])
  · rw [if_neg h]
    obtain ⟨k, rfl⟩ : ∃ k : Nat, limit = k := ⟨limit.toNat, by omega⟩
    intro c hc
    have := (C93_products_partial set k).1 c hc
    rw [Int.toNat_natCast]
    omega

/-- With the limit -1 there is no goroutine besides the calling one; the code starts at least two for four elements. -/
example : AtMost (setProductParallelRepaired [2, 3, 5, 7] (-1)) 0 ∧
    ∀ m, AtMost (setProductParallel ([2, 3, 5, 7] : List Int) (-1)) m → 2 ≤ m := by
  refine ⟨atMost_of_size _ _ (by simp [setProductParallelRepaired, Prog.size]), fun m hm => ?_⟩
  have := C93_negative_limit [2, 3, 5, 7] (-1) (by decide) m hm
  simpa using this

/-! ## C114: copy the words of `setup.G` -/

/-- accumulator/accumulator.go:136-167 `ProveMembershipIter` called with `*new(big.Int).Set(g)`. -/
def proveMembershipIterCopied (fuel : Nat) (w : Words) (base N : Nat) (set : List Nat) : Option (Words × List Nat) :=
  proveMembershipIterW fuel (w.alloc (w.mem base)).1 (w.alloc (w.mem base)).2 N set

theorem iterW_new (fuel : Nat) (w w' : Words) (base N : Nat) (set ps : List Nat) (hb : base < w.next) (h2 : 2 ≤ set.length)
    (h : proveMembershipIterW fuel w base N set = some (w', ps)) : (∀ p ∈ ps, w.next ≤ p) ∧ ∀ b < w.next, w'.mem b = w.mem b := by
  unfold proveMembershipIterW at h
  rw [if_neg (by omega)] at h
  obtain ⟨-, k2⟩ := iterLoopW_spec N set w.next fuel w [{ left := 0, right := set.length, arr := base }] (Nat.le_refl _)
    (by simpa using hb)
    (by
      intro n hn
      simp only [List.map_cons, List.map_nil, List.mem_singleton, valueNode] at hn
      subst hn
      exact ⟨by simp only; omega, Nat.le_refl _, .inr (by simpa using h2)⟩)
    (by simp) (by simp)
  rcases hl : iterLoopW N set fuel w [{ left := 0, right := set.length, arr := base }] with _ | ⟨w1, nodes⟩
  · rw [hl] at h
    cases h
  · rw [hl] at h
    simp only [Option.map_some, Option.some.injEq, Prod.mk.injEq] at h
    obtain ⟨rfl, rfl⟩ := h
    obtain ⟨-, l2, l3⟩ := k2 _ _ hl
    refine ⟨fun p hp => ?_, l2⟩
    obtain ⟨n, hn, rfl⟩ := List.mem_map.1 hp
    obtain ⟨-, m2, m3⟩ := l3 n hn
    by_contra hlt
    have := m2 (by omega)
    omega

/-- C114 with a copy of the words: every returned witness has its own words, for sets of any size, and `setup.G` keeps its
value. -/
theorem C114_repaired_partial (fuel : Nat) (w w' : Words) (base N : Nat) (set ps : List Nat) (hb : base < w.next)
    (h : proveMembershipIterCopied fuel w base N set = some (w', ps)) : OwnWords w' base ps ∧ w'.mem base = w.mem base := by
  unfold proveMembershipIterCopied at h
  have hn : (w.alloc (w.mem base)).1.next = w.next + 1 := rfl
  have ha : (w.alloc (w.mem base)).2 = w.next := rfl
  rw [ha] at h
  by_cases h2 : 2 ≤ set.length
  · obtain ⟨h3, h4⟩ := iterW_new _ _ _ _ _ _ _ (by omega) h2 h
    obtain ⟨h5, -, -⟩ := C114_partial _ _ _ _ _ _ _ (by omega) h2 h
    refine ⟨fun i j v p hp => ⟨?_, (h5 i j v p hp).2⟩, ?_⟩
    · have := h3 p (List.mem_of_getElem? hp)
      simp only [Words.overwrite]
      rw [if_neg (by omega)]
    · rw [h4 base (by omega), alloc_mem _ _ _ hb]
  · match set, h2 with
    | [], _ =>
      unfold proveMembershipIterW at h
      rw [if_pos (by simp)] at h
      simp only [Option.some.injEq, Prod.mk.injEq] at h
      obtain ⟨rfl, rfl⟩ := h
      exact ⟨fun i j v p hp => by simp at hp, alloc_mem _ _ _ hb⟩
    | [x], _ =>
      rcases fuel with _ | fuel
      · simp [proveMembershipIterW, iterLoopW] at h
      · rw [(C114_single fuel _ _ N x).1] at h
        simp only [Option.some.injEq, Prod.mk.injEq] at h
        obtain ⟨rfl, rfl⟩ := h
        refine ⟨fun i j v p hp => ?_, alloc_mem _ _ _ hb⟩
        have hi : i = 0 := by
          by_contra hi
          rw [List.getElem?_eq_none (by simp; omega)] at hp
          cases hp
        subst hi
        cases hp
        constructor
        · simp only [Words.overwrite]
          rw [if_neg (by omega)]
        · intro q hq hij
          rw [List.getElem?_eq_none (by simp; omega)] at hq
          cases hq
    | _ :: _ :: _, h2 => exact absurd (by simp) h2

/-- One element: the witness is array 1, `setup.G` is array 0. -/
example : ∃ w', proveMembershipIterCopied 1 ⟨fun _ => 2, 1⟩ 0 35 [3] = some (w', [1]) ∧ OwnWords w' 0 [1] := by
  have h := (C114_single 0 (Words.alloc ⟨fun _ => 2, 1⟩ 2).1 1 35 3).1
  exact ⟨_, h, (C114_repaired_partial 1 ⟨fun _ => 2, 1⟩ _ 0 35 [3] [1] (by decide) h).1⟩

/-! ## C136: print the length before each string -/

/-- fiat-shamir/transcript.go:39-41 with the length of the string before it. -/
def printInfoRepaired : Nat → List Bytes → Bytes
  | _, [] => []
  | i, s :: l => printLine [ascii "Info[", itoa i, ascii "] = ", itoa s.length, s] ++ printInfoRepaired (i + 1) l

/-- fiat-shamir/transcript.go:37-42 `Print` with the length of each string. -/
def printRepaired (t : Transcript) : Bytes :=
  printLine [ascii "The transcript has ", itoa t.info.length, ascii "strings as info."] ++ printInfoRepaired 0 t.info

theorem printInfoRepaired_cons (i : Nat) (s : Bytes) (l : List Bytes) :
    printInfoRepaired i (s :: l) = (ascii "Info[" ++ 32 :: (itoa i ++ 32 :: (ascii "] = " ++ [32]))) ++
      (itoa s.length ++ 32 :: (s ++ 10 :: printInfoRepaired (i + 1) l)) := by
  simp [printInfoRepaired, printLine]

theorem printInfoRepaired_inj (l m : List Bytes) (i : Nat) (hlm : l.length = m.length)
    (h : printInfoRepaired i l = printInfoRepaired i m) : l = m := by
  induction l generalizing m i with
  | nil =>
    cases m with
    | nil => rfl
    | cons y m => cases hlm
  | cons x l ih =>
    cases m with
    | nil => cases hlm
    | cons y m =>
      rw [printInfoRepaired_cons, printInfoRepaired_cons] at h
      obtain ⟨h1, h2⟩ := cut_at (itoa_no _ 32 (by decide)) (itoa_no _ 32 (by decide)) (List.append_cancel_left h)
      obtain ⟨h3, h4⟩ := List.append_inj h2 (itoa_injective _ _ h1)
      rw [h3, ih m (i + 1) (by simpa using hlm) (List.cons.inj h4).2]

/-- C136 with the lengths printed: transcripts with the same text have the same strings, whatever bytes they contain. The other
two parts are as for the code. -/
theorem C136_repaired_partial (s t : Transcript) (h : printRepaired s = printRepaired t) : s.info = t.info := by
  have e : ∀ t : Transcript, printRepaired t = ascii "The transcript has " ++ 32 :: (itoa t.info.length ++ 32 ::
      (ascii "strings as info." ++ 10 :: printInfoRepaired 0 t.info)) := by
    intro t
    simp [printRepaired, printLine]
  rw [e, e] at h
  have h := (List.cons.inj (List.append_cancel_left h)).2
  obtain ⟨h1, h⟩ := cut_at (itoa_no _ 32 (by decide)) (itoa_no _ 32 (by decide)) h
  exact printInfoRepaired_inj _ _ 0 (itoa_injective _ _ h1) (List.cons.inj (List.append_cancel_left h)).2

/-- The two transcripts of the counterexample. -/
example : printRepaired ⟨[ascii "a\nInfo[ 1 ] =  b", ascii "c"], 1⟩ ≠
    printRepaired ⟨[ascii "a", ascii "b\nInfo[ 1 ] =  c"], 1⟩ := by decide +kernel

/-! ## C148: look at the result of `Exp` -/

/-- proof/zkaop.go:338-346 `Verify`, which rejects the proof if `Exp` of line 395 returns nil; `old` is the value in the pooled
integer. -/
def aopVerifyNilChecked (E : Env) (old : Int) (v : AoPVerifier) (proof : Option ArgOfPositivity) : Res Bool := do
  let p ← nonNil proof
  let r ← nonNil p.response
  if bigExp v.pp.H r.T v.pp.N = none then .ok false else aopVerifyPooled E old v proof

/-- C148 with the result of `Exp` looked at: the pool plays no role, for any parameters and proof, and exactly the proofs are
accepted that the verifier without a pool accepts. -/
theorem C148_repaired_partial (E : Env) (v : AoPVerifier) (proof : Option ArgOfPositivity) :
    (∀ old old', aopVerifyNilChecked E old v proof = aopVerifyNilChecked E old' v proof) ∧
    (∀ old, aopVerifyNilChecked E old v proof = .ok true ↔ aopVerify E v proof = .ok true) := by
  have key : ∀ p r y old, proof = some p → p.response = some r → bigExp v.pp.H r.T v.pp.N = some y →
      aopVerifyPooled E old v proof = aopVerify E v proof := by
    rintro p r y old rfl hr hb
    simp only [aopVerifyPooled, aopVerifyResponsePooled, aopVerifyParamsPooled, aopHPowPooled, aopVerify, aopVerifyResponse,
      aopVerifyParams, aopVerifyParams.aopHPow, nonNil_some, res_ok_bind, hr, hb, Option.getD_some]
  cases proof with
  | none => exact ⟨fun _ _ => rfl, fun _ => ⟨fun h => h, fun h => h⟩⟩
  | some p =>
    cases hr : p.response with
    | none =>
      have e : ∀ old, aopVerifyNilChecked E old v (some p) = aopVerify E v (some p) := by
        intro old
        simp only [aopVerifyNilChecked, aopVerify, aopVerifyResponse, nonNil_some, res_ok_bind, hr]
        rfl
      exact ⟨fun _ _ => by rw [e, e], fun _ => by rw [e]⟩
    | some r =>
      cases hb : bigExp v.pp.H r.T v.pp.N with
      | some y =>
        have e : ∀ old, aopVerifyNilChecked E old v (some p) = aopVerify E v (some p) := by
          intro old
          rw [← key p r y old rfl hr hb]
          simp only [aopVerifyNilChecked, nonNil_some, res_ok_bind, hr, hb]
          rw [if_neg (Option.some_ne_none y)]
        exact ⟨fun _ _ => by rw [e, e], fun _ => by rw [e]⟩
      | none =>
        have e : ∀ old, aopVerifyNilChecked E old v (some p) = .ok false := by
          intro old
          simp only [aopVerifyNilChecked, nonNil_some, res_ok_bind, hr, hb]
          rw [if_pos trivial]
        refine ⟨fun _ _ => by rw [e, e], fun old => ⟨fun h => ?_, fun h => ?_⟩⟩
        · rw [e] at h
          cases h
        · exfalso
          unfold aopVerify aopVerifyResponse at h
          obtain ⟨p', hp', h⟩ := (res_bind_ok_iff _ _ _).1 h
          cases hp'
          obtain ⟨r', hr', h⟩ := (res_bind_ok_iff _ _ _).1 h
          rw [hr] at hr'
          cases hr'
          obtain ⟨q, hq, -⟩ := (res_bind_ok_iff _ _ _).1 h
          unfold aopVerifyParams at hq
          obtain ⟨f0, k0, hq⟩ := (res_bind_ok_iff _ _ _).1 hq
          obtain ⟨f1, k1, hq⟩ := (res_bind_ok_iff _ _ _).1 hq
          obtain ⟨f2, k2, hq⟩ := (res_bind_ok_iff _ _ _).1 hq
          obtain ⟨l0, k3, hq⟩ := (res_bind_ok_iff _ _ _).1 hq
          obtain ⟨l1, k4, hq⟩ := (res_bind_ok_iff _ _ _).1 hq
          obtain ⟨l2, k5, hq⟩ := (res_bind_ok_iff _ _ _).1 hq
          obtain ⟨hh, k6, hq⟩ := (res_bind_ok_iff _ _ _).1 hq
          unfold aopVerifyParams.aopHPow at k6
          obtain ⟨x, k7, k6⟩ := (res_bind_ok_iff _ _ _).1 k6
          simp only [hb] at k7
          cases k7

/-- The proof of the counterexample is rejected with 1 and with 2 in the pool; a proof with an inverse is accepted. -/
example : aopVerifyNilChecked keepEnv 1 (newAoPVerifier ⟨15, 1, 3⟩ 1) (some (emptyProof keepEnv 1)) = .ok false ∧
    aopVerifyNilChecked keepEnv 2 (newAoPVerifier ⟨15, 1, 3⟩ 1) (some (emptyProof keepEnv 1)) = .ok false ∧
    aopVerifyNilChecked keepEnv 1 (newAoPVerifier ⟨15, 1, 2⟩ 1) (some (emptyProof keepEnv 8)) = .ok true := by decide +kernel

/-! ## C157: exchange the names in the messages -/

/-- bn254/interop_test.go:281-373 `TestPointAdditionInterop` with the names in the messages exchanged. -/
def additionBodyRepaired {P₁ P₂ Q₁ Q₂ R₁ R₂ : Type} (S₁ : Side P₁) (S₂ : Side P₂) (g₁ : Foreign Q₁) (g₂ : Foreign Q₂)
    (c₁ : Foreign R₁) (c₂ : Foreign R₂) (a : Nat) : Verdict :=
  let p₁ := S₁.smul S₁.gen a
  let p₂ := S₂.smul S₂.gen a
  orLog (toForeign S₁ g₁ p₁) fun g1g =>
  orLog (toForeign S₁ c₁ p₁) fun g1c =>
  orLog (toForeign S₂ g₂ p₂) fun g2g =>
  orLog (toForeign S₂ c₂ p₂) fun g2c =>
  orLog (toForeign S₁ g₁ S₁.gen) fun g1gGen =>
  orLog (toForeign S₁ c₁ S₁.gen) fun g1cGen =>
  orLog (toForeign S₂ g₂ S₂.gen) fun g2gGen =>
  orLog (toForeign S₂ c₂ S₂.gen) fun g2cGen =>
  let r₁ := S₁.add p₁ S₁.gen
  let r₂ := S₂.add p₂ S₂.gen
  orDiffers (S₁.marshal r₁) (c₁.marshal (c₁.add g1c g1cGen)) "g1 point addition doesn't match cloudflare implementation" <|
  orDiffers (S₁.marshal r₁) (g₁.marshal (g₁.add g1g g1gGen)) "g1 point addition doesn't match google implementation" <|
  orDiffers (S₂.marshal r₂) (c₂.marshal (c₂.add g2c g2cGen)) "g2 point addition doesn't match cloudflare implementation" <|
  orDiffers (S₂.marshal r₂) (g₂.marshal (g₂.add g2g g2gGen)) "g2 point addition doesn't match google implementation" <|
  (true, [])

/-- C157 with the names exchanged: the message of the addition test names the library that differs. With `C157_scalar_partial` and
`C157_pairing_partial` this is all of `C157_statement`. -/
theorem C157_repaired_partial {P₁ P₂ Q₁ Q₂ R₁ R₂ : Type} (S₁ : Side P₁) (S₂ : Side P₂) (g₁ : Foreign Q₁) (g₂ : Foreign Q₂)
    (c₁ : Foreign R₁) (c₂ : Foreign R₂) (a : Nat) : ∀ m ∈ (additionBodyRepaired S₁ S₂ g₁ g₂ c₁ c₂ a).2,
      (Names m "google" → ¬ (AddAgrees S₁ g₁ (S₁.smul S₁.gen a) S₁.gen ∧ AddAgrees S₂ g₂ (S₂.smul S₂.gen a) S₂.gen)) ∧
      (Names m "cloudflare" → ¬ (AddAgrees S₁ c₁ (S₁.smul S₁.gen a) S₁.gen ∧ AddAgrees S₂ c₂ (S₂.smul S₂.gen a) S₂.gen)) := by
  intro m hm
  have no : (Names "err" "google" → False) ∧ (Names "err" "cloudflare" → False) := ⟨by decide +kernel, by decide +kernel⟩
  have key : ∀ {P Q : Type} (S : Side P) (F : Foreign Q) (p : P) (q s : Q), F.unmarshal (S.marshal p) = some q →
      F.unmarshal (S.marshal S.gen) = some s → S.marshal (S.add p S.gen) ≠ F.marshal (F.add q s) → ¬ AddAgrees S F p S.gen := by
    rintro P Q S F p q s h1 h2 hne ⟨x, y, e1, e2, e3⟩
    rw [h1] at e1
    rw [h2] at e2
    cases e1
    cases e2
    exact hne e3.symm
  unfold additionBodyRepaired at hm
  rcases orLog_log _ _ _ hm with ⟨_, rfl⟩ | ⟨x1, h1, hm⟩
  · exact ⟨fun h => (no.1 h).elim, fun h => (no.2 h).elim⟩
  rcases orLog_log _ _ _ hm with ⟨_, rfl⟩ | ⟨x2, h2, hm⟩
  · exact ⟨fun h => (no.1 h).elim, fun h => (no.2 h).elim⟩
  rcases orLog_log _ _ _ hm with ⟨_, rfl⟩ | ⟨x3, h3, hm⟩
  · exact ⟨fun h => (no.1 h).elim, fun h => (no.2 h).elim⟩
  rcases orLog_log _ _ _ hm with ⟨_, rfl⟩ | ⟨x4, h4, hm⟩
  · exact ⟨fun h => (no.1 h).elim, fun h => (no.2 h).elim⟩
  rcases orLog_log _ _ _ hm with ⟨_, rfl⟩ | ⟨x5, h5, hm⟩
  · exact ⟨fun h => (no.1 h).elim, fun h => (no.2 h).elim⟩
  rcases orLog_log _ _ _ hm with ⟨_, rfl⟩ | ⟨x6, h6, hm⟩
  · exact ⟨fun h => (no.1 h).elim, fun h => (no.2 h).elim⟩
  rcases orLog_log _ _ _ hm with ⟨_, rfl⟩ | ⟨x7, h7, hm⟩
  · exact ⟨fun h => (no.1 h).elim, fun h => (no.2 h).elim⟩
  rcases orLog_log _ _ _ hm with ⟨_, rfl⟩ | ⟨x8, h8, hm⟩
  · exact ⟨fun h => (no.1 h).elim, fun h => (no.2 h).elim⟩
  rcases orDiffers_log _ _ _ _ _ hm with ⟨hd, rfl⟩ | ⟨_, hm⟩
  · exact ⟨fun h => absurd h (by decide +kernel), fun _ h => key S₁ c₁ _ x2 x6 h2 h6 hd h.1⟩
  rcases orDiffers_log _ _ _ _ _ hm with ⟨hd, rfl⟩ | ⟨_, hm⟩
  · exact ⟨fun _ h => key S₁ g₁ _ x1 x5 h1 h5 hd h.1, fun h => absurd h (by decide +kernel)⟩
  rcases orDiffers_log _ _ _ _ _ hm with ⟨hd, rfl⟩ | ⟨_, hm⟩
  · exact ⟨fun h => absurd h (by decide +kernel), fun _ h => key S₂ c₂ _ x4 x8 h4 h8 hd h.2⟩
  rcases orDiffers_log _ _ _ _ _ hm with ⟨hd, rfl⟩ | ⟨_, hm⟩
  · exact ⟨fun _ h => key S₂ g₂ _ x3 x7 h3 h7 hd h.2, fun h => absurd h (by decide +kernel)⟩
  · cases hm

/-- The libraries of the counterexample: cloudflare adds wrongly, and is named. -/
example : (additionBodyRepaired toySide toySide (toyForeign (· + ·)) (toyForeign (· + ·)) (toyForeign fun _ _ => 0)
    (toyForeign (· + ·)) 1).2 = ["g1 point addition doesn't match cloudflare implementation"] := by decide +kernel

end Verif.Props
