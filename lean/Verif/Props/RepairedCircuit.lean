import Verif.Props.MultiSwap

/-!
# C60, C63, C74: the swap circuit with its two faults repaired

`defineRepaired` is `define` without the two lines that apply the change of the first balance before the loop
(zkmultiswap/circuit.go:70-71) and with the check of the last id that is commented out there (line 60). It is not code of the
repository. The theorems show that these lines are the whole cause of what C60 and C74 found, and all but the overflow of what
C63 found.
-/

namespace Verif.Props
open Verif.Go Verif.Model Verif.Lemmas Verif.Spec

/-- `define` (zkmultiswap/circuit.go:37-99) with the three lines changed. -/
def defineRepaired (E : Env) (c : Circuit) : Res Bool := do
  let ok := toBinary c.randomizer1 bitLength
  let ok := ok && toBinary c.randomizer2 bitLength
  let ok := ok && assertIsLess c.deltaModL1 c.challengeL1
  let ok := ok && assertIsLess c.deltaModL2 c.challengeL2
  if c.userID.length ≠ c.originalBalances.length then goPanic "non-equal constant values"
  else if c.userID.length ≠ c.originalHashes.length then goPanic "non-equal constant values"
  else if c.userID.length ≠ c.originalUpdEpoch.length then goPanic "non-equal constant values"
  else if c.userID.length ≠ c.updatedBalances.length then goPanic "non-equal constant values"
  else do
    let ok := ok && assertIsLess c.remainderR1 c.challengeL1
    let ok := ok && assertIsLess c.remainderR2 c.challengeL2
    let ok := ok && toBinary c.currentEpochNum bitLength
    let ok := ok && toBinary c.originalSum bitLength
    let ok := ok && toBinary c.updatedSum bitLength
    let ok ← (List.range (c.userID.length - 1)).foldlM (checkIDs c) ok
    let last ← index c.userID (c.userID.length - 1)
    let ok := ok && toBinary last bitLength
    let ok ← (List.range c.userID.length).foldlM (checkUser c) ok
    let st ← (List.range c.userID.length).foldlM (userRound E c) { remainder1 := 1, remainder2 := 1, tempSum := c.originalSum }
    let st := (List.range 8).foldl (randomizerRound E c) st
    let ok := ok && decide (st.remainder1 = c.remainderR1)
    let ok := ok && decide (st.remainder2 = c.remainderR2)
    .ok (ok && decide (st.tempSum = c.updatedSum))

/-- What `tempSum` is at the end. -/
def sumRepaired (c : Circuit) : Nat :=
  (List.range c.userID.length).foldl (fun s i => fieldAdd (fieldSub s (userAt c i).ob) (userAt c i).ub) c.originalSum

/-- `defineRepaired` on assignments with correct lengths. -/
theorem defineRepaired_eq (E : Env) (c : Circuit) (h : Lens c) :
    defineRepaired E c = .ok (
      toBinary c.randomizer1 bitLength && toBinary c.randomizer2 bitLength
      && assertIsLess c.deltaModL1 c.challengeL1 && assertIsLess c.deltaModL2 c.challengeL2
      && assertIsLess c.remainderR1 c.challengeL1 && assertIsLess c.remainderR2 c.challengeL2
      && toBinary c.currentEpochNum bitLength && toBinary c.originalSum bitLength && toBinary c.updatedSum bitLength
      && (List.range (c.userID.length - 1)).all (fun i => assertIsLess (userAt c i).id (userAt c (i + 1)).id)
      && toBinary (c.userID.getD (c.userID.length - 1) 0) bitLength
      && (List.range c.userID.length).all (fun i => toBinary (userAt c i).ob bitLength
          && assertIsLess (userAt c i).oe c.currentEpochNum && toBinary (userAt c i).ub bitLength)
      && decide ((List.range 8).foldl (fun r i => mulModP r (E.poseidon [c.randomizer1, i]) c.challengeL1)
          ((List.range c.userID.length).foldl
            (fun r i => mulModP r (fieldAdd (hash0 E c i) c.deltaModL1) c.challengeL1) 1) = c.remainderR1)
      && decide ((List.range 8).foldl (fun r i => mulModP r (E.poseidon [c.randomizer2, i]) c.challengeL2)
          ((List.range c.userID.length).foldl
            (fun r i => mulModP r (fieldAdd (hash2 E c i) c.deltaModL2) c.challengeL2) 1) = c.remainderR2)
      && decide (sumRepaired c = c.updatedSum)) := by
  obtain ⟨h1, h2, h3, h4, h0⟩ := h
  have e1 : ∀ b, (List.range (c.userID.length - 1)).foldlM (checkIDs c) b =
      .ok (b && (List.range (c.userID.length - 1)).all
        (fun i => assertIsLess (userAt c i).id (userAt c (i + 1)).id)) := by
    intro b
    rw [← foldl_and]
    apply foldlM_ok
    intro i hi s
    have hi := List.mem_range.1 hi
    rw [checkIDs, index_ok _ i 0 (by omega), index_ok _ (i + 1) 0 (by omega)]
    rfl
  have e2 : ∀ b, (List.range c.userID.length).foldlM (checkUser c) b =
      .ok (b && (List.range c.userID.length).all (fun i => toBinary (userAt c i).ob bitLength
          && assertIsLess (userAt c i).oe c.currentEpochNum && toBinary (userAt c i).ub bitLength)) := by
    intro b
    rw [← foldl_and]
    apply foldlM_ok
    intro i hi s
    have hi := List.mem_range.1 hi
    rw [checkUser, index_ok c.originalBalances i 0 (by omega), index_ok c.originalUpdEpoch i 0 (by omega),
      index_ok c.updatedBalances i 0 (by omega)]
    simp only [except_bind_ok, userAt, Bool.and_assoc]
  have e3 : ∀ st, (List.range c.userID.length).foldlM (userRound E c) st =
      .ok ((List.range c.userID.length).foldl (roundPure E c) st) := by
    intro st
    apply foldlM_ok
    intro i hi s
    have hi := List.mem_range.1 hi
    rw [userRound, index_ok c.userID i 0 (by omega), index_ok c.originalBalances i 0 (by omega),
      index_ok c.originalUpdEpoch i 0 (by omega), index_ok c.originalHashes i 0 (by omega),
      index_ok c.updatedBalances i 0 (by omega)]
    rfl
  rw [defineRepaired, if_neg (by simp [h1]), if_neg (by simp [h2]), if_neg (by simp [h3]), if_neg (by simp [h4])]
  simp only [e1, e2, e3, except_bind_ok, index_ok c.userID (c.userID.length - 1) 0 (by omega), foldl_roundPure,
    foldl_randomizer]
  rfl

theorem defineRepaired_ok_lens (E : Env) (c : Circuit) (b : Bool) (h : defineRepaired E c = .ok b) : Lens c := by
  rw [defineRepaired] at h
  by_cases h1 : c.userID.length ≠ c.originalBalances.length
  · rw [if_pos h1] at h; cases h
  rw [if_neg h1] at h
  by_cases h2 : c.userID.length ≠ c.originalHashes.length
  · rw [if_pos h2] at h; cases h
  rw [if_neg h2] at h
  by_cases h3 : c.userID.length ≠ c.originalUpdEpoch.length
  · rw [if_pos h3] at h; cases h
  rw [if_neg h3] at h
  by_cases h4 : c.userID.length ≠ c.updatedBalances.length
  · rw [if_pos h4] at h; cases h
  rw [if_neg h4] at h
  refine ⟨by omega, by omega, by omega, by omega, ?_⟩
  by_contra h0
  have h5 : c.userID = [] := List.eq_nil_of_length_eq_zero (by omega)
  rw [h5] at h
  simp [index, goPanic, bind, Except.bind, pure, Except.pure] at h

/-- Acceptance, written as a proposition. -/
structure SatRepaired (E : Env) (c : Circuit) : Prop where
  lens : Lens c
  rand1 : c.randomizer1 < 2 ^ 32
  rand2 : c.randomizer2 < 2 ^ 32
  delta1 : c.deltaModL1 < c.challengeL1
  delta2 : c.deltaModL2 < c.challengeL2
  rem1 : c.remainderR1 < c.challengeL1
  rem2 : c.remainderR2 < c.challengeL2
  epoch : c.currentEpochNum < 2 ^ 32
  osum : c.originalSum < 2 ^ 32
  usum : c.updatedSum < 2 ^ 32
  ids : ∀ i, i + 1 < c.userID.length → c.userID.getD i 0 < c.userID.getD (i + 1) 0
  users : ∀ i, i < c.userID.length → c.originalBalances.getD i 0 < 2 ^ 32 ∧
    c.originalUpdEpoch.getD i 0 < c.currentEpochNum ∧ c.updatedBalances.getD i 0 < 2 ^ 32
  r1 : prodR1 E c % c.challengeL1 = c.remainderR1
  r2 : prodR2 E c % c.challengeL2 = c.remainderR2
  last : c.userID.getD (c.userID.length - 1) 0 < 2 ^ 32
  sum : sumRepaired c = c.updatedSum

theorem repaired_iff (E : Env) (c : Circuit) : defineRepaired E c = .ok true ↔ SatRepaired E c := by
  constructor
  · intro h
    have hl := defineRepaired_ok_lens E c true h
    rw [defineRepaired_eq E c hl] at h
    simp only [Except.ok.injEq, Bool.and_eq_true, decide_eq_true_eq, toBinary_iff, assertIsLess_iff,
      List.all_eq_true, List.mem_range] at h
    obtain ⟨⟨⟨⟨⟨⟨⟨⟨⟨⟨⟨⟨⟨⟨a1, a2⟩, a3⟩, a4⟩, a5⟩, a6⟩, a7⟩, a8⟩, a9⟩, a10⟩, al⟩, a11⟩, a12⟩, a13⟩, a14⟩ := h
    rw [remainder_eq _ (by omega)] at a12 a13
    exact ⟨hl, a1, a2, a3, a4, a5, a6, a7, a8, a9, fun i hi => a10 i (by omega),
      fun i hi => ⟨(a11 i hi).1.1, (a11 i hi).1.2, (a11 i hi).2⟩, a12, a13, al, a14⟩
  · intro h
    rw [defineRepaired_eq E c h.lens]
    simp only [Except.ok.injEq, Bool.and_eq_true, decide_eq_true_eq, toBinary_iff, assertIsLess_iff,
      List.all_eq_true, List.mem_range]
    have d1 := h.delta1
    have d2 := h.delta2
    rw [remainder_eq _ (by omega), remainder_eq _ (by omega)]
    exact ⟨⟨⟨⟨⟨⟨⟨⟨⟨⟨⟨⟨⟨⟨h.rand1, h.rand2⟩, h.delta1⟩, h.delta2⟩, h.rem1⟩, h.rem2⟩, h.epoch⟩, h.osum⟩, h.usum⟩,
      fun i hi => h.ids i (by omega)⟩, h.last⟩,
      fun i hi => ⟨⟨(h.users i hi).1, (h.users i hi).2.1⟩, (h.users i hi).2.2⟩⟩, h.r1⟩, h.r2⟩, h.sum⟩

theorem sumRepaired_modEq (c : Circuit) : (sumRepaired c : Int) ≡ c.originalSum +
    ((List.range c.userID.length).map (fun i => ((userAt c i).ub : Int) - (userAt c i).ob)).sum [ZMOD frOrder] :=
  foldl_sum (fun i => (userAt c i).ob) (fun i => (userAt c i).ub) _ _

/-- C60: the repaired circuit enforces the balance sum. -/
theorem C60_repaired_partial (E : Env) (c : Circuit) (hn : c.userID.length < 2 ^ 63) (h : defineRepaired E c = .ok true) :
    (c.updatedSum : Int) = c.originalSum + balanceChange c.originalBalances c.updatedBalances c.userID.length := by
  have s := (repaired_iff E c).1 h
  have h1 := sumRepaired_modEq c
  rw [s.sum, list_range_sum] at h1
  have hb := sum_bound (fun i => (userAt c i).ub) (fun i => (userAt c i).ob) c.userID.length
    (fun i hi => (s.users i hi).2.2) (fun i hi => (s.users i hi).1)
  have hu := s.usum
  have ho := s.osum
  have e : balanceChange c.originalBalances c.updatedBalances c.userID.length =
      ∑ i ∈ Finset.range c.userID.length, (((userAt c i).ub : Int) - (userAt c i).ob) := by
    unfold balanceChange
    exact Finset.sum_congr rfl (fun i _ => rfl)
  rw [e]
  generalize ∑ i ∈ Finset.range c.userID.length, (((userAt c i).ub : Int) - (userAt c i).ob) = S at *
  rw [abs_le] at hb
  have h2 := h1.dvd
  have hr : (frOrder : Int) > 2 ^ 100 := by decide
  have h3 := Int.eq_zero_of_abs_lt_dvd h2 (by rw [abs_lt]; constructor <;> push_cast at * <;> omega)
  omega

/-- C74: in the repaired circuit all ids have at most 32 bits. -/
theorem C74_repaired_partial (E : Env) (c : Circuit) (h : defineRepaired E c = .ok true) : ∀ id ∈ c.userID, id < 2 ^ 32 := by
  have s := (repaired_iff E c).1 h
  have hmono : ∀ k i, i + k < c.userID.length → c.userID.getD i 0 ≤ c.userID.getD (i + k) 0 := by
    intro k
    induction k with
    | zero => intro i _; exact Nat.le_refl _
    | succ k ih =>
      intro i hi
      have := s.ids (i + k) (by omega)
      have := ih i (by omega)
      rw [← Nat.add_assoc]
      omega
  intro id hid
  obtain ⟨i, hi, rfl⟩ := List.getElem_of_mem hid
  have := hmono (c.userID.length - 1 - i) i (by omega)
  rw [show i + (c.userID.length - 1 - i) = c.userID.length - 1 by omega] at this
  have hl := s.last
  have e : c.userID.getD i 0 = c.userID[i] := by simp [hi]
  rw [← e]
  omega

/-- C63: the repaired circuit accepts every honest set in which no record hash plus delta overflows the field, also if the
first balance changes. -/
theorem C63_repaired_partial (E : Env) (u : UpdateSet32) (hn : u.userID.length < 2 ^ 63) (h : HonestUpdate E u)
    (o1 : ∀ i, i < u.userID.length → oldHash E u i + u.deltaModL1.toNat < frOrder)
    (o2 : ∀ i, i < u.userID.length → newHash E u i + u.deltaModL2.toNat < frOrder) :
    ∃ c, assignCircuit u = .ok c ∧ defineRepaired E c = .ok true := by
  obtain ⟨h1, h2⟩ : (((∏ i ∈ Finset.range u.userID.length, (oldHash E u i + u.deltaModL1.toNat) % frOrder) *
        blinding E u.randomizer1.toNat : Nat) : Int) % u.challengeL1 = u.remainderR1 ∧
      (((∏ i ∈ Finset.range u.userID.length, (newHash E u i + u.deltaModL2.toNat) % frOrder) *
        blinding E u.randomizer2.toNat : Nat) : Int) % u.challengeL2 = u.remainderR2 := by
    have d1 := h.delta1
    have d2 := h.delta2
    have r1 := h.remainder1
    have r2 := h.remainder2
    have e : (2 ^ 1023 : Int) = ((2 ^ 1023 : Nat) : Int) := by push_cast; rfl
    rw [e] at d1 d2
    generalize (2 ^ 1023 : Nat) = D at *
    exact ⟨honest_prod _ _ _ _ D _ _ h.challenge1.1 d1 o1 r1, honest_prod _ _ _ _ D _ _ h.challenge2.1 d2 o2 r2⟩
  obtain ⟨l1, l2, l3, l4⟩ := h.lens
  have hv := honest_isValid h
  have hsize := h.size
  have hr : (frOrder : Int) > 2 ^ 100 := by decide
  have hc1 := h.challenge1
  have hc2 := h.challenge2
  have hd1 : 0 ≤ u.deltaModL1 ∧ u.deltaModL1 < u.challengeL1 := by
    rw [h.delta1]; exact ⟨Int.emod_nonneg _ (by omega), Int.emod_lt_of_pos _ hc1.1⟩
  have hd2 : 0 ≤ u.deltaModL2 ∧ u.deltaModL2 < u.challengeL2 := by
    rw [h.delta2]; exact ⟨Int.emod_nonneg _ (by omega), Int.emod_lt_of_pos _ hc2.1⟩
  have hm1 : 0 ≤ u.remainderR1 ∧ u.remainderR1 < u.challengeL1 := by
    rw [h.remainder1]; exact ⟨Int.emod_nonneg _ (by omega), Int.emod_lt_of_pos _ hc1.1⟩
  have hm2 : 0 ≤ u.remainderR2 ∧ u.remainderR2 < u.challengeL2 := by
    rw [h.remainder2]; exact ⟨Int.emod_nonneg _ (by omega), Int.emod_lt_of_pos _ hc2.1⟩
  have eL1 : (assigned u).challengeL1 = u.challengeL1.toNat := element_of_range _ (by omega) (by omega)
  have eL2 : (assigned u).challengeL2 = u.challengeL2.toNat := element_of_range _ (by omega) (by omega)
  have eD1 : elementFromBigInt u.deltaModL1 = u.deltaModL1.toNat := element_of_range _ (by omega) (by omega)
  have eD2 : elementFromBigInt u.deltaModL2 = u.deltaModL2.toNat := element_of_range _ (by omega) (by omega)
  have eD1' : (assigned u).deltaModL1 = u.deltaModL1.toNat := eD1
  have eD2' : (assigned u).deltaModL2 = u.deltaModL2.toNat := eD2
  have eR1 : (assigned u).remainderR1 = u.remainderR1.toNat := element_of_range _ (by omega) (by omega)
  have eR2 : (assigned u).remainderR2 = u.remainderR2.toNat := element_of_range _ (by omega) (by omega)
  have hra1 := h.randomizer1
  have hra2 := h.randomizer2
  have eA1 : (assigned u).randomizer1 = u.randomizer1.toNat := element_of_range _ (by omega) (by omega)
  have eA2 : (assigned u).randomizer2 = u.randomizer2.toNat := element_of_range _ (by omega) (by omega)
  have en : (assigned u).userID.length = u.userID.length := by simp [assigned]
  have eob : ∀ i, (assigned u).originalBalances.getD i 0 = (col u.originalBalances i).toNat :=
    fun i => getD_map_toNat _ i
  have eub : ∀ i, (assigned u).updatedBalances.getD i 0 = (col u.updatedBalances i).toNat :=
    fun i => getD_map_toNat _ i
  -- the sum
  have hsum : balanceChange (assigned u).originalBalances (assigned u).updatedBalances (assigned u).userID.length =
      (u.updatedSum.toNat : Int) - u.originalSum.toNat := by
    rw [h.sum, balanceChange, en]
    have : ∀ i, ((((col (assigned u).updatedBalances i : Nat) : Int)) - ((col (assigned u).originalBalances i : Nat) : Int)) =
        ((col u.updatedBalances i).toNat : Int) - ((col u.originalBalances i).toNat : Int) := by
      intro i
      have a := eob i
      have b := eub i
      simp only [col] at *
      rw [a, b]
    simp only [this]
    omega
  refine ⟨assigned u, (C66_assignCircuit u).2 hv, ?_⟩
  rw [repaired_iff]
  have p1 := assigned_prodR1 E u hra1
  have p2 := assigned_prodR2 E u hra2
  rw [eD1] at p1
  rw [eD2] at p2
  refine ⟨⟨?_, ?_, ?_, ?_, ?_⟩, ?_, ?_, ?_, ?_, ?_, ?_, ?_, ?_, ?_, ?_, ?_, ?_, ?_, ?_, ?_⟩
  · simp [assigned, l1]
  · simp [assigned, l2]
  · simp [assigned, l3]
  · simp [assigned, l4]
  · omega
  · rw [eA1]; omega
  · rw [eA2]; omega
  · rw [eD1', eL1]; omega
  · rw [eD2', eL2]; omega
  · rw [eR1, eL1]; omega
  · rw [eR2, eL2]; omega
  · exact u.currentEpochNum.toNat_lt
  · exact u.originalSum.toNat_lt
  · exact u.updatedSum.toNat_lt
  · intro i hi
    rw [en] at hi
    have := List.pairwise_iff_getElem.1 h.ids i (i + 1) (by omega) hi (by omega)
    have e := getD_map_toNat u.userID
    have e' : (assigned u).userID = u.userID.map UInt32.toNat := rfl
    rw [e', e, e]
    have q1 : u.userID.getD i 0 = u.userID[i] := by simp [show i < u.userID.length by omega]
    have q2 : u.userID.getD (i + 1) 0 = u.userID[i + 1] := by simp [hi]
    rw [q1, q2]
    exact this
  · intro i hi
    rw [en] at hi
    refine ⟨?_, ?_, ?_⟩
    · rw [eob]; exact UInt32.toNat_lt _
    · have e' : (assigned u).originalUpdEpoch.getD i 0 = (u.originalUpdEpoch.getD i 0).toNat := getD_map_toNat _ i
      rw [e']
      have hl : i < u.originalUpdEpoch.length := by omega
      have q1 : u.originalUpdEpoch.getD i 0 = u.originalUpdEpoch[i] := by simp [hl]
      rw [q1]
      exact h.epochs _ (List.getElem_mem hl)
    · rw [eub]; exact UInt32.toNat_lt _
  · rw [p1, eL1, eR1]
    zify
    rw [Int.toNat_of_nonneg hc1.1.le, Int.toNat_of_nonneg hm1.1, ← h1]
    push_cast
    rfl
  · rw [p2, eL2, eR2]
    zify
    rw [Int.toNat_of_nonneg hc2.1.le, Int.toNat_of_nonneg hm2.1, ← h2]
    push_cast
    rfl
  · have e' : (assigned u).userID = u.userID.map UInt32.toNat := rfl
    rw [e', getD_map_toNat]
    exact UInt32.toNat_lt _
  · have hm := sumRepaired_modEq (assigned u)
    have hs2 : ((List.range (assigned u).userID.length).map
        (fun i => ((userAt (assigned u) i).ub : Int) - (userAt (assigned u) i).ob)).sum =
        (u.updatedSum.toNat : Int) - u.originalSum.toNat := hsum
    rw [hs2] at hm
    have e4 : ((assigned u).originalSum : Int) = u.originalSum.toNat := rfl
    rw [e4] at hm
    have hlt : sumRepaired (assigned u) < frOrder := by
      have : ∀ (l : List Nat) (a : Nat), a < frOrder →
          l.foldl (fun s i => fieldAdd (fieldSub s (userAt (assigned u) i).ob) (userAt (assigned u) i).ub) a < frOrder := by
        intro l
        induction l with
        | nil => intro a h; exact h
        | cons x l ih => intro a _; rw [List.foldl_cons]; exact ih _ (fieldAdd_lt _ _)
      exact this _ _ (by exact_mod_cast uint32_lt_frOrder u.originalSum)
    have hlt2 := uint32_lt_frOrder u.updatedSum
    have h5 : (sumRepaired (assigned u) : Int) ≡ (u.updatedSum.toNat : Int) [ZMOD frOrder] := by
      refine hm.trans ?_
      have : (u.originalSum.toNat : Int) + ((u.updatedSum.toNat : Int) - u.originalSum.toNat) = u.updatedSum.toNat := by
        ring
      rw [this]
    rw [Int.ModEq, Int.emod_eq_of_lt (by omega) (by omega), Int.emod_eq_of_lt (by omega) hlt2] at h5
    have e3 : (assigned u).updatedSum = u.updatedSum.toNat := rfl
    rw [e3]
    omega

/-- The set that the circuit rejects (C63) is accepted by the repaired one, and the assignments that violate C60 and C74 are
rejected. -/
example : (∃ c, assignCircuit changedSet = .ok c ∧ define sumEnv c = .ok false ∧ defineRepaired sumEnv c = .ok true) ∧
    defineRepaired sumEnv mintCircuit = .ok false ∧ defineRepaired sumEnv wideCircuit = .ok false ∧
    defineRepaired sumEnv goodCircuit = .ok true := by
  refine ⟨⟨assigned changedSet, (C66_assignCircuit _).2 (by decide), ?_, ?_⟩, ?_, ?_, ?_⟩ <;> decide +kernel

/-- Hypotheses of `C63_repaired_partial`, with a set whose first balance changes. -/
example : HonestUpdate sumEnv changedSet ∧ col changedSet.updatedBalances 0 ≠ col changedSet.originalBalances 0 ∧
    (∀ i, i < changedSet.userID.length → oldHash sumEnv changedSet i + changedSet.deltaModL1.toNat < frOrder) ∧
    (∀ i, i < changedSet.userID.length → newHash sumEnv changedSet i + changedSet.deltaModL2.toNat < frOrder) :=
  ⟨changedSet_honest, by decide, by decide +kernel, by decide +kernel⟩

end Verif.Props
