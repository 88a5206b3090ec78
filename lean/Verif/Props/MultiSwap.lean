import Verif.Lemmas.MultiSwap
import Verif.Spec.MultiSwap
import Verif.Props.Transcript

/-!
# Properties of MultiSwap (C60 - C68)
-/

namespace Verif.Props
open Verif.Go Verif.Model Verif.Lemmas Verif.Spec

/-- A small hash function for the examples: the sum of the inputs. -/
def sumEnv : Env where
  sha256 := fun _ => List.replicate 31 0 ++ [13]
  sha256_length := by intro b; rfl
  probablyPrime := fun n => n == 13
  poseidon := fun l => l.sum % frOrder
  poseidon_lt := fun _ => Nat.mod_lt _ (by decide)

theorem list_range_prod {f : Nat → Nat} (n : Nat) : ((List.range n).map f).prod = ∏ i ∈ Finset.range n, f i := rfl

theorem list_range_sum {f : Nat → Int} (n : Nat) : ((List.range n).map f).sum = ∑ i ∈ Finset.range n, f i := rfl

/-! ## C60 -/

/-- An accepted assignment changes the sum by the change of the balances. -/
def C60_statement : Prop :=
  ∀ (E : Env) (c : Circuit), Canonical c → define E c = .ok true →
    (c.updatedSum : Int) = c.originalSum + balanceChange c.originalBalances c.updatedBalances c.userID.length

theorem sum_bound (f g : Nat → Nat) (n : Nat) (hf : ∀ i < n, f i < 2 ^ 32) (hg : ∀ i < n, g i < 2 ^ 32) :
    |∑ i ∈ Finset.range n, ((f i : Int) - g i)| ≤ n * 2 ^ 32 := by
  induction n with
  | zero => simp
  | succ n ih =>
    rw [Finset.sum_range_succ]
    have h1 := ih (fun i hi => hf i (by omega)) (fun i hi => hg i (by omega))
    have h2 := hf n (by omega)
    have h3 := hg n (by omega)
    rw [abs_le] at h1 ⊢
    push_cast
    constructor <;> omega

/-- What the circuit really enforces: the change of the first balance counts twice. -/
theorem C60_first_counts_twice_partial (E : Env) (c : Circuit) (hn : c.userID.length < 2 ^ 63)
    (h : define E c = .ok true) :
    (c.updatedSum : Int) = c.originalSum + balanceChange c.originalBalances c.updatedBalances c.userID.length +
      (col c.updatedBalances 0 - col c.originalBalances 0) := by
  have s := (accepts_iff E c).1 h
  have h1 := sumEnd_modEq c
  rw [s.sum, list_range_sum] at h1
  have hb := sum_bound (fun i => (userAt c i).ub) (fun i => (userAt c i).ob) c.userID.length
    (fun i hi => (s.users i hi).2.2) (fun i hi => (s.users i hi).1)
  have h0 := s.users 0 s.lens.2.2.2.2
  have hu := s.usum
  have ho := s.osum
  have e : balanceChange c.originalBalances c.updatedBalances c.userID.length =
      ∑ i ∈ Finset.range c.userID.length, (((userAt c i).ub : Int) - (userAt c i).ob) := by
    unfold balanceChange
    exact Finset.sum_congr rfl (fun i _ => rfl)
  rw [e]
  have e1 : col c.updatedBalances 0 = (userAt c 0).ub := rfl
  have e2 : col c.originalBalances 0 = (userAt c 0).ob := rfl
  rw [e1, e2]
  have h01 : (userAt c 0).ob < 2 ^ 32 := h0.1
  have h02 : (userAt c 0).ub < 2 ^ 32 := h0.2.2
  generalize ∑ i ∈ Finset.range c.userID.length, (((userAt c i).ub : Int) - (userAt c i).ob) = S at *
  generalize (userAt c 0).ub = u0 at *
  generalize (userAt c 0).ob = o0 at *
  rw [abs_le] at hb
  have h2 := h1.dvd
  have hr : (frOrder : Int) > 2 ^ 100 := by decide
  have h3 := Int.eq_zero_of_abs_lt_dvd h2 (by rw [abs_lt]; constructor <;> push_cast at * <;> omega)
  omega

/-- If the balance of the first user does not change the sum is right. -/
theorem C60_sum_partial (E : Env) (c : Circuit) (hn : c.userID.length < 2 ^ 63) (h : define E c = .ok true)
    (h0 : col c.updatedBalances 0 = col c.originalBalances 0) :
    (c.updatedSum : Int) = c.originalSum + balanceChange c.originalBalances c.updatedBalances c.userID.length := by
  rw [C60_first_counts_twice_partial E c hn h, h0]; omega

/-- If it changes the sum is wrong. -/
theorem C60_wrong_sum (E : Env) (c : Circuit) (hn : c.userID.length < 2 ^ 63) (h : define E c = .ok true)
    (h0 : col c.updatedBalances 0 ≠ col c.originalBalances 0) :
    (c.updatedSum : Int) ≠ c.originalSum + balanceChange c.originalBalances c.updatedBalances c.userID.length := by
  rw [C60_first_counts_twice_partial E c hn h]; omega

/-- Two users, the balance of the first goes from 5 to 6; the sum goes up by 2. -/
def mintCircuit : Circuit :=
  { challengeL1 := 1009, challengeL2 := 1013, remainderR1 := 779, remainderR2 := 830, currentEpochNum := 20
    deltaModL1 := 480, deltaModL2 := 22, randomizer1 := 200, randomizer2 := 300, originalSum := 10000
    updatedSum := 10002, userID := [1, 2], originalBalances := [5, 7], originalHashes := [3, 4]
    originalUpdEpoch := [10, 10], updatedBalances := [6, 7] }

/-- The same with the change at the second user. -/
def goodCircuit : Circuit := { mintCircuit with remainderR2 := 426, updatedBalances := [5, 9] }

theorem mint_canonical : Canonical mintCircuit := by
  refine ⟨?_, ?_, ?_⟩ <;> decide +kernel

theorem C60_violated : ¬ C60_statement := by
  intro h
  have := h sumEnv mintCircuit mint_canonical (by decide +kernel)
  revert this
  decide +kernel

example : goodCircuit.userID.length < 2 ^ 63 ∧ define sumEnv goodCircuit = .ok true ∧
    col goodCircuit.updatedBalances 0 = col goodCircuit.originalBalances 0 ∧
    balanceChange goodCircuit.originalBalances goodCircuit.updatedBalances 2 = 2 := by decide +kernel

example : mintCircuit.userID.length < 2 ^ 63 ∧ define sumEnv mintCircuit = .ok true ∧
    col mintCircuit.updatedBalances 0 ≠ col mintCircuit.originalBalances 0 ∧
    balanceChange mintCircuit.originalBalances mintCircuit.updatedBalances 2 = 1 := by decide +kernel

/-! ## C61 -/

/-- The remainders of an accepted assignment are those of the products of record hash plus delta (added in the field)
and of the blinding factors; the new record contains the hash of the old one. -/
theorem C61_remainders (E : Env) (c : Circuit) (h : define E c = .ok true) :
    c.remainderR1 = ((∏ i ∈ Finset.range c.userID.length, (oldRecord E c i + c.deltaModL1) % frOrder) *
      blinding E c.randomizer1) % c.challengeL1 ∧
    c.remainderR2 = ((∏ i ∈ Finset.range c.userID.length, (newRecord E c i + c.deltaModL2) % frOrder) *
      blinding E c.randomizer2) % c.challengeL2 := by
  have s := (accepts_iff E c).1 h
  exact ⟨s.r1.symm, s.r2.symm⟩

theorem prod_delta (f : Nat → Nat) (d L D b n : Nat) (hd : d = D % L) (ho : ∀ i, i < n → f i + d < frOrder) :
    ((∏ i ∈ Finset.range n, (f i + d) % frOrder) * b) % L = ((∏ i ∈ Finset.range n, (f i + D)) * b) % L := by
  have : ∀ n, (∀ i, i < n → f i + d < frOrder) →
      (∏ i ∈ Finset.range n, (f i + d) % frOrder) ≡ (∏ i ∈ Finset.range n, (f i + D)) [MOD L] := by
    intro n
    induction n with
    | zero => intro _; simp [Nat.ModEq.refl]
    | succ n ih =>
      intro ho
      rw [Finset.prod_range_succ, Finset.prod_range_succ]
      refine Nat.ModEq.mul (ih (fun i hi => ho i (by omega))) ?_
      rw [Nat.mod_eq_of_lt (ho n (by omega)), hd]
      exact (Nat.mod_modEq _ _).add_left _
  exact (this n ho).mul_right b

/-- If no sum overflows the field and the deltas are the reduced `2^1023`, the remainders are those of the products of
the real representatives `hash + 2^1023`. -/
theorem C61_real_representatives (E : Env) (c : Circuit) (h : define E c = .ok true)
    (d1 : c.deltaModL1 = 2 ^ 1023 % c.challengeL1) (d2 : c.deltaModL2 = 2 ^ 1023 % c.challengeL2)
    (o1 : ∀ i, i < c.userID.length → oldRecord E c i + c.deltaModL1 < frOrder)
    (o2 : ∀ i, i < c.userID.length → newRecord E c i + c.deltaModL2 < frOrder) :
    c.remainderR1 = ((∏ i ∈ Finset.range c.userID.length, (oldRecord E c i + 2 ^ 1023)) *
      blinding E c.randomizer1) % c.challengeL1 ∧
    c.remainderR2 = ((∏ i ∈ Finset.range c.userID.length, (newRecord E c i + 2 ^ 1023)) *
      blinding E c.randomizer2) % c.challengeL2 := by
  obtain ⟨h1, h2⟩ := C61_remainders E c h
  rw [h1, h2]
  exact ⟨prod_delta _ _ _ _ _ _ d1 o1, prod_delta _ _ _ _ _ _ d2 o2⟩

example : define sumEnv goodCircuit = .ok true ∧ goodCircuit.deltaModL1 = 2 ^ 1023 % goodCircuit.challengeL1 ∧
    goodCircuit.deltaModL2 = 2 ^ 1023 % goodCircuit.challengeL2 ∧
    (∀ i, i < goodCircuit.userID.length → oldRecord sumEnv goodCircuit i + goodCircuit.deltaModL1 < frOrder) ∧
    (∀ i, i < goodCircuit.userID.length → newRecord sumEnv goodCircuit i + goodCircuit.deltaModL2 < frOrder) := by
  decide +kernel

/-! ## C62 -/

theorem mem_getD {l : List Nat} {v : Nat} (h : v ∈ l) : ∃ i, i < l.length ∧ l.getD i 0 = v := by
  obtain ⟨i, hi, rfl⟩ := List.mem_iff_getElem.1 h
  exact ⟨i, hi, by simp [hi]⟩

theorem getD_lt_of_step (l : List Nat) (h : ∀ i, i + 1 < l.length → l.getD i 0 < l.getD (i + 1) 0) (i d : Nat)
    (hd : i + (d + 1) < l.length) : l.getD i 0 < l.getD (i + (d + 1)) 0 := by
  induction d with
  | zero => exact h i hd
  | succ d ih => exact lt_trans (ih (by omega)) (h (i + (d + 1)) hd)

theorem pairwise_of_step (l : List Nat) (h : ∀ i, i + 1 < l.length → l.getD i 0 < l.getD (i + 1) 0) :
    l.Pairwise (· < ·) := by
  rw [List.pairwise_iff_getElem]
  intro i j hi hj hij
  have := getD_lt_of_step l h i (j - i - 1) (by omega)
  rw [show i + (j - i - 1 + 1) = j by omega] at this
  simpa [hi, hj] using this

/-- Ranges, freshness and distinct users in an accepted assignment. -/
theorem C62_ranges (E : Env) (c : Circuit) (h : define E c = .ok true) :
    (∀ b ∈ c.originalBalances, b < 2 ^ 32) ∧ (∀ b ∈ c.updatedBalances, b < 2 ^ 32) ∧
    c.originalSum < 2 ^ 32 ∧ c.updatedSum < 2 ^ 32 ∧ c.randomizer1 < 2 ^ 32 ∧ c.randomizer2 < 2 ^ 32 ∧
    c.currentEpochNum < 2 ^ 32 ∧ (∀ e ∈ c.originalUpdEpoch, e < c.currentEpochNum) ∧
    c.userID.Pairwise (· < ·) ∧ c.userID.Nodup ∧
    c.deltaModL1 < c.challengeL1 ∧ c.deltaModL2 < c.challengeL2 ∧
    c.remainderR1 < c.challengeL1 ∧ c.remainderR2 < c.challengeL2 ∧
    0 < c.userID.length ∧ c.originalBalances.length = c.userID.length ∧ c.updatedBalances.length = c.userID.length ∧
    c.originalHashes.length = c.userID.length ∧ c.originalUpdEpoch.length = c.userID.length := by
  have s := (accepts_iff E c).1 h
  obtain ⟨l1, l2, l3, l4, l0⟩ := s.lens
  have hp := pairwise_of_step c.userID s.ids
  refine ⟨?_, ?_, s.osum, s.usum, s.rand1, s.rand2, s.epoch, ?_, hp, ?_, s.delta1, s.delta2, s.rem1, s.rem2, l0, l1,
    l4, l2, l3⟩
  · intro b hb
    obtain ⟨i, hi, rfl⟩ := mem_getD hb
    exact (s.users i (by omega)).1
  · intro b hb
    obtain ⟨i, hi, rfl⟩ := mem_getD hb
    exact (s.users i (by omega)).2.2
  · intro b hb
    obtain ⟨i, hi, rfl⟩ := mem_getD hb
    exact (s.users i (by omega)).2.1
  · exact hp.imp (fun h => Nat.ne_of_lt h)

example : define sumEnv goodCircuit = .ok true ∧ goodCircuit.userID = [1, 2] := by decide +kernel

/-- Each of the checks matters: changing one value of an accepted assignment makes it rejected. -/
example : define sumEnv { goodCircuit with userID := [2, 2] } = .ok false ∧
    define sumEnv { goodCircuit with originalUpdEpoch := [10, 20] } = .ok false ∧
    define sumEnv { goodCircuit with updatedBalances := [5, 2 ^ 32] } = .ok false ∧
    define sumEnv { goodCircuit with remainderR1 := 779 + 1009 } = .ok false ∧
    (define sumEnv { goodCircuit with updatedBalances := [5] }).panics = true ∧
    (define sumEnv ⟨1009, 1013, 779, 426, 20, 480, 22, 200, 300, 10000, 10000, [], [], [], [], []⟩).panics = true := by decide +kernel

/-! ## C66 -/

/-- `IsValid` decides: at least two users and equal lengths. -/
theorem C66_isValid_iff (u : UpdateSet32) : u.isValid = true ↔
    2 ≤ u.userID.length ∧ u.originalBalances.length = u.userID.length ∧ u.originalHashes.length = u.userID.length ∧
      u.originalUpdEpoch.length = u.userID.length ∧ u.updatedBalances.length = u.userID.length := by
  rw [UpdateSet32.isValid]
  split_ifs <;> simp <;> omega

/-- The assignment of a valid set. -/
def assigned (u : UpdateSet32) : Circuit :=
  { challengeL1 := elementFromBigInt u.challengeL1
    challengeL2 := elementFromBigInt u.challengeL2
    remainderR1 := elementFromBigInt u.remainderR1
    remainderR2 := elementFromBigInt u.remainderR2
    currentEpochNum := u.currentEpochNum.toNat
    deltaModL1 := elementFromBigInt u.deltaModL1
    deltaModL2 := elementFromBigInt u.deltaModL2
    randomizer1 := elementFromBigInt u.randomizer1
    randomizer2 := elementFromBigInt u.randomizer2
    originalSum := u.originalSum.toNat
    updatedSum := u.updatedSum.toNat
    userID := u.userID.map UInt32.toNat
    originalBalances := u.originalBalances.map UInt32.toNat
    originalHashes := u.originalHashes.map elementFromBigInt
    originalUpdEpoch := u.originalUpdEpoch.map UInt32.toNat
    updatedBalances := u.updatedBalances.map UInt32.toNat }

theorem uint32_lt_frOrder (v : UInt32) : (v.toNat : Int) < (frOrder : Int) := by
  have h1 : v.toNat < 2 ^ 32 := v.toNat_lt
  have h2 : (frOrder : Int) > 2 ^ 100 := by decide
  omega

theorem elementFromUint32_eq (v : UInt32) : elementFromUint32 v = v.toNat := by
  rw [elementFromUint32, elementFromBigInt, Int.emod_eq_of_lt (by omega) (uint32_lt_frOrder v), Int.toNat_natCast]

theorem elementFromUint32_funext : elementFromUint32 = UInt32.toNat := funext elementFromUint32_eq

theorem column_ok {α : Type} [Inhabited α] (l : List α) (n : Nat) (h : l.length = n) :
    (List.range n).mapM (fun i => index l i) = .ok l := by
  subst h
  rw [mapM_ok _ (fun i => l.getD i default) _ (fun i hi => index_ok l i default (List.mem_range.1 hi)), map_getD_range]

/-- `AssignCircuit` panics on invalid sets; on valid ones no index is out of range and every value is the value of the
set reduced modulo the field order. -/
theorem C66_assignCircuit (u : UpdateSet32) :
    (u.isValid = false → (assignCircuit u).panics = true) ∧ (u.isValid = true → assignCircuit u = .ok (assigned u)) := by
  constructor
  · intro h; rw [assignCircuit, if_pos h]; rfl
  · intro h
    obtain ⟨h0, h1, h2, h3, h4⟩ := (C66_isValid_iff u).1 h
    rw [assignCircuit, if_neg (by simp [h])]
    simp only [column_ok u.userID _ h1.symm, column_ok u.originalBalances _ rfl,
      column_ok u.originalHashes _ (h2.trans h1.symm), column_ok u.originalUpdEpoch _ (h3.trans h1.symm),
      column_ok u.updatedBalances _ (h4.trans h1.symm), except_bind_ok, elementFromUint32_funext]
    rfl

/-- The circuit can be evaluated on every valid set: no panic. -/
theorem C66_define_total (E : Env) (u : UpdateSet32) (h : u.isValid = true) :
    ∃ c b, assignCircuit u = .ok c ∧ define E c = .ok b := by
  obtain ⟨h0, h1, h2, h3, h4⟩ := (C66_isValid_iff u).1 h
  obtain ⟨b, hb⟩ := define_total E (assigned u)
    (by refine ⟨?_, ?_, ?_, ?_, ?_⟩ <;> simp [assigned, h1, h2, h3, h4]; omega)
  exact ⟨_, b, (C66_assignCircuit u).2 h, hb⟩

/-- Two users; the second balance goes from 7 to 9. -/
def goodSet : UpdateSet32 :=
  { challengeL1 := 1009, challengeL2 := 1013, remainderR1 := 779, remainderR2 := 426, currentEpochNum := 20
    deltaModL1 := 480, deltaModL2 := 22, randomizer1 := 200, randomizer2 := 300, originalSum := 10000
    updatedSum := 10002, userID := [1, 2], originalBalances := [5, 7], originalHashes := [3, 4]
    originalUpdEpoch := [10, 10], updatedBalances := [5, 9] }

example : goodSet.isValid = true ∧ assignCircuit goodSet = .ok goodCircuit ∧
    ({ goodSet with originalHashes := [3] } : UpdateSet32).isValid = false := by decide +kernel

/-! ## C63 -/

/-- Every honest update set satisfies the circuit. -/
def C63_statement : Prop :=
  ∀ (E : Env) (u : UpdateSet32), HonestUpdate E u → ∃ c, assignCircuit u = .ok c ∧ define E c = .ok true

theorem honest_isValid {E : Env} {u : UpdateSet32} (h : HonestUpdate E u) : u.isValid = true :=
  (C66_isValid_iff u).2 ⟨h.size, h.lens⟩

theorem getD_map_toNat (l : List UInt32) (i : Nat) : (l.map UInt32.toNat).getD i 0 = (l.getD i 0).toNat := by
  by_cases h : i < l.length
  · simp [h]
  · simp [List.getD_eq_getElem?_getD, Nat.le_of_not_lt h]

theorem elementFromBigInt_zero : elementFromBigInt 0 = 0 := by decide

theorem getD_map_element (l : List Int) (i : Nat) :
    (l.map elementFromBigInt).getD i 0 = (l.getD i 0 % (frOrder : Int)).toNat := by
  by_cases h : i < l.length
  · simp [h, elementFromBigInt]
  · simp [List.getD_eq_getElem?_getD, Nat.le_of_not_lt h]

theorem element_of_range (v : Int) (h0 : 0 ≤ v) (h1 : v < frOrder) : elementFromBigInt v = v.toNat := by
  rw [elementFromBigInt, Int.emod_eq_of_lt h0 h1]

theorem assigned_hash0 (E : Env) (u : UpdateSet32) (i : Nat) : hash0 E (assigned u) i = oldHash E u i := by
  simp only [hash0, userAt, assigned, getD_map_toNat, getD_map_element, oldHash]
  rfl

theorem assigned_hash2 (E : Env) (u : UpdateSet32) (i : Nat) : hash2 E (assigned u) i = newHash E u i := by
  rw [hash2, assigned_hash0]
  simp only [userAt, assigned, getD_map_toNat, newHash]
  rfl

/-- The remainder that the circuit computes for the removed records. -/
theorem assigned_prodR1 (E : Env) (u : UpdateSet32) (hr : 0 ≤ u.randomizer1 ∧ u.randomizer1 < 2 ^ 32) :
    prodR1 E (assigned u) =
      (∏ i ∈ Finset.range u.userID.length, (oldHash E u i + elementFromBigInt u.deltaModL1) % frOrder) *
        blinding E u.randomizer1.toNat := by
  have h2 : (frOrder : Int) > 2 ^ 100 := by decide
  have e : (assigned u).randomizer1 = u.randomizer1.toNat := element_of_range _ hr.1 (by omega)
  have e2 : (assigned u).userID.length = u.userID.length := by simp [assigned]
  rw [prodR1, e, e2]
  simp only [assigned_hash0]
  rfl

theorem assigned_prodR2 (E : Env) (u : UpdateSet32) (hr : 0 ≤ u.randomizer2 ∧ u.randomizer2 < 2 ^ 32) :
    prodR2 E (assigned u) =
      (∏ i ∈ Finset.range u.userID.length, (newHash E u i + elementFromBigInt u.deltaModL2) % frOrder) *
        blinding E u.randomizer2.toNat := by
  have h2 : (frOrder : Int) > 2 ^ 100 := by decide
  have e : (assigned u).randomizer2 = u.randomizer2.toNat := element_of_range _ hr.1 (by omega)
  have e2 : (assigned u).userID.length = u.userID.length := by simp [assigned]
  rw [prodR2, e, e2]
  simp only [assigned_hash2]
  rfl

/-- Exactly which honest sets are accepted: those that do not change the first balance and for which adding in the
field does not change the remainders. -/
theorem C63_accepted_iff (E : Env) (u : UpdateSet32) (hn : u.userID.length < 2 ^ 63) (h : HonestUpdate E u) :
    (∃ c, assignCircuit u = .ok c ∧ define E c = .ok true) ↔
      col u.updatedBalances 0 = col u.originalBalances 0 ∧
      (((∏ i ∈ Finset.range u.userID.length, (oldHash E u i + u.deltaModL1.toNat) % frOrder) *
        blinding E u.randomizer1.toNat : Nat) : Int) % u.challengeL1 = u.remainderR1 ∧
      (((∏ i ∈ Finset.range u.userID.length, (newHash E u i + u.deltaModL2.toNat) % frOrder) *
        blinding E u.randomizer2.toNat : Nat) : Int) % u.challengeL2 = u.remainderR2 := by
  obtain ⟨l1, l2, l3, l4⟩ := h.lens
  have hv := honest_isValid h
  have hsize := h.size
  have hr : (frOrder : Int) > 2 ^ 100 := by decide
  have hc1 := h.challenge1
  have hc2 := h.challenge2
  have hd1 : 0 ≤ u.deltaModL1 ∧ u.deltaModL1 < u.challengeL1 := by
    rw [h.delta1]; exact ⟨Int.emod_nonneg _ (by omega), Int.emod_lt_of_pos _ hc1.1⟩
  have hd2 : 0 ≤ u.deltaModL2 ∧ u.deltaModL2 < u.challengeL2 := by
    rw [h.delta2]; exact ⟨Int.emod_nonneg _ (by omega), Int.emod_lt_of_pos _ hc2.1⟩
  have hm1 : 0 ≤ u.remainderR1 ∧ u.remainderR1 < u.challengeL1 := by
    rw [h.remainder1]; exact ⟨Int.emod_nonneg _ (by omega), Int.emod_lt_of_pos _ hc1.1⟩
  have hm2 : 0 ≤ u.remainderR2 ∧ u.remainderR2 < u.challengeL2 := by
    rw [h.remainder2]; exact ⟨Int.emod_nonneg _ (by omega), Int.emod_lt_of_pos _ hc2.1⟩
  have eL1 : (assigned u).challengeL1 = u.challengeL1.toNat := element_of_range _ (by omega) (by omega)
  have eL2 : (assigned u).challengeL2 = u.challengeL2.toNat := element_of_range _ (by omega) (by omega)
  have eD1 : elementFromBigInt u.deltaModL1 = u.deltaModL1.toNat := element_of_range _ (by omega) (by omega)
  have eD2 : elementFromBigInt u.deltaModL2 = u.deltaModL2.toNat := element_of_range _ (by omega) (by omega)
  have eD1' : (assigned u).deltaModL1 = u.deltaModL1.toNat := eD1
  have eD2' : (assigned u).deltaModL2 = u.deltaModL2.toNat := eD2
  have eR1 : (assigned u).remainderR1 = u.remainderR1.toNat := element_of_range _ (by omega) (by omega)
  have eR2 : (assigned u).remainderR2 = u.remainderR2.toNat := element_of_range _ (by omega) (by omega)
  have hra1 := h.randomizer1
  have hra2 := h.randomizer2
  have eA1 : (assigned u).randomizer1 = u.randomizer1.toNat := element_of_range _ (by omega) (by omega)
  have eA2 : (assigned u).randomizer2 = u.randomizer2.toNat := element_of_range _ (by omega) (by omega)
  have en : (assigned u).userID.length = u.userID.length := by simp [assigned]
  have eob : ∀ i, (assigned u).originalBalances.getD i 0 = (col u.originalBalances i).toNat :=
    fun i => getD_map_toNat _ i
  have eub : ∀ i, (assigned u).updatedBalances.getD i 0 = (col u.updatedBalances i).toNat :=
    fun i => getD_map_toNat _ i
  -- the sum
  have hsum : balanceChange (assigned u).originalBalances (assigned u).updatedBalances (assigned u).userID.length =
      (u.updatedSum.toNat : Int) - u.originalSum.toNat := by
    rw [h.sum, balanceChange, en]
    have : ∀ i, ((((col (assigned u).updatedBalances i : Nat) : Int)) - ((col (assigned u).originalBalances i : Nat) : Int)) =
        ((col u.updatedBalances i).toNat : Int) - ((col u.originalBalances i).toNat : Int) := by
      intro i
      have a := eob i
      have b := eub i
      simp only [col] at *
      rw [a, b]
    simp only [this]
    omega
  have key : (∃ c, assignCircuit u = .ok c ∧ define E c = .ok true) ↔ Sat E (assigned u) := by
    rw [(C66_assignCircuit u).2 hv, ← accepts_iff]
    constructor
    · rintro ⟨c, h1, h2⟩; injection h1 with h1; rw [h1]; exact h2
    · intro h; exact ⟨_, rfl, h⟩
  rw [key]
  have p1 := assigned_prodR1 E u hra1
  have p2 := assigned_prodR2 E u hra2
  rw [eD1] at p1
  rw [eD2] at p2
  constructor
  · intro s
    have hd := (accepts_iff E _).2 s
    refine ⟨?_, ?_, ?_⟩
    · have := C60_first_counts_twice_partial E (assigned u) (by omega) hd
      rw [hsum] at this
      have e1 : col (assigned u).updatedBalances 0 = (col u.updatedBalances 0).toNat := eub 0
      have e2 : col (assigned u).originalBalances 0 = (col u.originalBalances 0).toNat := eob 0
      have e3 : (assigned u).updatedSum = u.updatedSum.toNat := rfl
      have e4 : (assigned u).originalSum = u.originalSum.toNat := rfl
      rw [e1, e2, e3, e4] at this
      exact UInt32.toNat_inj.1 (by omega)
    · have := s.r1
      rw [p1, eL1, eR1] at this
      rw [← Int.toNat_of_nonneg hm1.1, ← this, Int.natCast_mod, Int.toNat_of_nonneg hc1.1.le]
    · have := s.r2
      rw [p2, eL2, eR2] at this
      rw [← Int.toNat_of_nonneg hm2.1, ← this, Int.natCast_mod, Int.toNat_of_nonneg hc2.1.le]
  · rintro ⟨h0, h1, h2⟩
    refine ⟨⟨?_, ?_, ?_, ?_, ?_⟩, ?_, ?_, ?_, ?_, ?_, ?_, ?_, ?_, ?_, ?_, ?_, ?_, ?_, ?_⟩
    · simp [assigned, l1]
    · simp [assigned, l2]
    · simp [assigned, l3]
    · simp [assigned, l4]
    · omega
    · rw [eA1]; omega
    · rw [eA2]; omega
    · rw [eD1', eL1]; omega
    · rw [eD2', eL2]; omega
    · rw [eR1, eL1]; omega
    · rw [eR2, eL2]; omega
    · exact u.currentEpochNum.toNat_lt
    · exact u.originalSum.toNat_lt
    · exact u.updatedSum.toNat_lt
    · intro i hi
      rw [en] at hi
      have := List.pairwise_iff_getElem.1 h.ids i (i + 1) (by omega) hi (by omega)
      have e := getD_map_toNat u.userID
      have e' : (assigned u).userID = u.userID.map UInt32.toNat := rfl
      rw [e', e, e]
      have q1 : u.userID.getD i 0 = u.userID[i] := by simp [show i < u.userID.length by omega]
      have q2 : u.userID.getD (i + 1) 0 = u.userID[i + 1] := by simp [hi]
      rw [q1, q2]
      exact this
    · intro i hi
      rw [en] at hi
      refine ⟨?_, ?_, ?_⟩
      · rw [eob]; exact UInt32.toNat_lt _
      · have e' : (assigned u).originalUpdEpoch.getD i 0 = (u.originalUpdEpoch.getD i 0).toNat := getD_map_toNat _ i
        rw [e']
        have hl : i < u.originalUpdEpoch.length := by omega
        have q1 : u.originalUpdEpoch.getD i 0 = u.originalUpdEpoch[i] := by simp [hl]
        rw [q1]
        exact h.epochs _ (List.getElem_mem hl)
      · rw [eub]; exact UInt32.toNat_lt _
    · rw [p1, eL1, eR1]
      zify
      rw [Int.toNat_of_nonneg hc1.1.le, Int.toNat_of_nonneg hm1.1, ← h1]
      push_cast
      rfl
    · rw [p2, eL2, eR2]
      zify
      rw [Int.toNat_of_nonneg hc2.1.le, Int.toNat_of_nonneg hm2.1, ← h2]
      push_cast
      rfl
    · have hm := sumEnd_modEq (assigned u)
      have e0 : ((userAt (assigned u) 0).ub : Int) - (userAt (assigned u) 0).ob = 0 := by
        have a : (userAt (assigned u) 0).ub = (col u.updatedBalances 0).toNat := eub 0
        have b : (userAt (assigned u) 0).ob = (col u.originalBalances 0).toNat := eob 0
        rw [a, b, h0]; omega
      have hs2 : ((List.range (assigned u).userID.length).map
          (fun i => ((userAt (assigned u) i).ub : Int) - (userAt (assigned u) i).ob)).sum =
          (u.updatedSum.toNat : Int) - u.originalSum.toNat := hsum
      rw [e0, hs2] at hm
      have e4 : ((assigned u).originalSum : Int) = u.originalSum.toNat := rfl
      rw [e4] at hm
      have hlt := sumEnd_lt (assigned u)
      have hlt2 := uint32_lt_frOrder u.updatedSum
      have h5 : (sumEnd (assigned u) : Int) ≡ (u.updatedSum.toNat : Int) [ZMOD frOrder] := by
        refine hm.trans ?_
        have : (u.originalSum.toNat : Int) + 0 + ((u.updatedSum.toNat : Int) - u.originalSum.toNat) = u.updatedSum.toNat := by
          ring
        rw [this]
      rw [Int.ModEq, Int.emod_eq_of_lt (by omega) (by omega), Int.emod_eq_of_lt (by omega) hlt2] at h5
      have e3 : (assigned u).updatedSum = u.updatedSum.toNat := rfl
      rw [e3]
      omega

theorem honest_prod (f : Nat → Nat) (d L R : Int) (D b n : Nat) (hL : 0 < L) (hd : d = D % L)
    (ho : ∀ i, i < n → f i + d.toNat < frOrder)
    (hR : R = ((∏ i ∈ Finset.range n, ((f i + D : Nat) : Int)) * (b : Int)) % L) :
    (((∏ i ∈ Finset.range n, (f i + d.toNat) % frOrder) * b : Nat) : Int) % L = R := by
  have hd' : d.toNat = D % L.toNat := by
    zify
    rw [Int.toNat_of_nonneg hL.le, Int.toNat_of_nonneg (by rw [hd]; exact Int.emod_nonneg _ (by omega)), hd]
  have := prod_delta f d.toNat L.toNat D b n hd' ho
  rw [hR, ← Nat.cast_prod, ← Int.natCast_mul]
  have e : L = (L.toNat : Int) := (Int.toNat_of_nonneg hL.le).symm
  rw [e, ← Int.natCast_mod, ← Int.natCast_mod, this]

/-- Honest sets that keep the first balance and in which no record hash plus delta overflows the field are accepted. -/
theorem C63_accepted_partial (E : Env) (u : UpdateSet32) (hn : u.userID.length < 2 ^ 63) (h : HonestUpdate E u)
    (h0 : col u.updatedBalances 0 = col u.originalBalances 0)
    (o1 : ∀ i, i < u.userID.length → oldHash E u i + u.deltaModL1.toNat < frOrder)
    (o2 : ∀ i, i < u.userID.length → newHash E u i + u.deltaModL2.toNat < frOrder) :
    ∃ c, assignCircuit u = .ok c ∧ define E c = .ok true := by
  rw [C63_accepted_iff E u hn h]
  have d1 := h.delta1
  have d2 := h.delta2
  have r1 := h.remainder1
  have r2 := h.remainder2
  have e : (2 ^ 1023 : Int) = ((2 ^ 1023 : Nat) : Int) := by push_cast; rfl
  rw [e] at d1 d2
  generalize (2 ^ 1023 : Nat) = D at *
  exact ⟨h0, honest_prod _ _ _ _ D _ _ h.challenge1.1 d1 o1 r1, honest_prod _ _ _ _ D _ _ h.challenge2.1 d2 o2 r2⟩

/-- Every honest set that changes the first balance is rejected. -/
theorem C63_first_changed_rejected (E : Env) (u : UpdateSet32) (hn : u.userID.length < 2 ^ 63) (h : HonestUpdate E u)
    (h0 : col u.updatedBalances 0 ≠ col u.originalBalances 0) :
    ∃ c, assignCircuit u = .ok c ∧ define E c = .ok false := by
  obtain ⟨c, b, h1, h2⟩ := C66_define_total E u (honest_isValid h)
  refine ⟨c, h1, ?_⟩
  cases b with
  | false => exact h2
  | true => exact absurd ((C63_accepted_iff E u hn h).1 ⟨c, h1, h2⟩).1 h0

/-- An honest set whose first balance goes from 5 to 6. -/
def changedSet : UpdateSet32 :=
  { goodSet with updatedSum := 10001, remainderR2 := 830, updatedBalances := [6, 7] }

/-- An honest set without any change of balances; the hash of the second record is close to the field order. -/
def overflowSet : UpdateSet32 :=
  { goodSet with
    updatedSum := 10000, remainderR1 := 234, remainderR2 := 864, updatedBalances := [5, 7]
    originalHashes := [3, 21888242871839275222246405745257275088548364400416034343698204186575808495587] }

theorem changedSet_honest : HonestUpdate sumEnv changedSet := by
  constructor <;> decide +kernel

theorem overflowSet_honest : HonestUpdate sumEnv overflowSet := by
  constructor <;> decide +kernel

theorem goodSet_honest : HonestUpdate sumEnv goodSet := by
  constructor <;> decide +kernel

theorem C63_violated : ¬ C63_statement := by
  intro h
  obtain ⟨c, h1, h2⟩ := h sumEnv changedSet changedSet_honest
  obtain ⟨c', h3, h4⟩ := C63_first_changed_rejected sumEnv changedSet (by decide) changedSet_honest (by decide)
  rw [h1] at h3
  injection h3 with h3
  rw [← h3, h2] at h4
  cases h4

/-- Independently of the balances: an honest set that changes no balance can be rejected because record hash plus delta
is reduced modulo the field order. -/
theorem C63_overflow_violated :
    ¬ ∀ (E : Env) (u : UpdateSet32), HonestUpdate E u → u.updatedBalances = u.originalBalances →
      ∃ c, assignCircuit u = .ok c ∧ define E c = .ok true := by
  intro h
  have := (C63_accepted_iff sumEnv overflowSet (by decide) overflowSet_honest).1
    (h sumEnv overflowSet overflowSet_honest (by decide))
  revert this
  decide +kernel

example : goodSet.userID.length < 2 ^ 63 ∧ col goodSet.updatedBalances 0 = col goodSet.originalBalances 0 ∧
    (∀ i, i < goodSet.userID.length → oldHash sumEnv goodSet i + goodSet.deltaModL1.toNat < frOrder) ∧
    (∀ i, i < goodSet.userID.length → newHash sumEnv goodSet i + goodSet.deltaModL2.toNat < frOrder) := by
  decide +kernel

example : assignCircuit goodSet = .ok goodCircuit ∧ define sumEnv goodCircuit = .ok true := by decide +kernel

/-! ## C64 -/

/-- No record hash plus delta overflows the field. -/
def NoOverflow (E : Env) (u : UpdateSet32) : Prop :=
  ∀ i, i < u.userID.length → oldHash E u i + u.deltaModL1.toNat < frOrder ∧
    newHash E u i + u.deltaModL2.toNat < frOrder

/-- `GenTestSet(n)` gives a set that passes `IsValid` and the circuit for `n ≥ 2`, and panics for smaller `n`. -/
def C64_statement : Prop :=
  ∀ (E : Env) (fuel : Nat) (n : UInt32) (G N accMid : Int),
    (∀ u, genTestSet E fuel n G N accMid = Run.ok u → 2 ≤ n.toNat ∧ u.isValid = true ∧
      (NoOverflow E u → ∃ c, assignCircuit u = .ok c ∧ define E c = .ok true))

/-- The set that `GenTestSet` builds, for given challenges. -/
def testSet (E : Env) (n L1 L2 : Nat) : UpdateSet32 :=
  let base : UpdateSet32 :=
    { challengeL1 := L1, challengeL2 := L2, remainderR1 := 0, remainderR2 := 0, currentEpochNum := 1000000
      deltaModL1 := (2 ^ 1023 % L1 : Nat), deltaModL2 := (2 ^ 1023 % L2 : Nat)
      randomizer1 := 200, randomizer2 := 300, originalSum := 10000, updatedSum := 10000
      userID := (List.range n).map testNumber
      originalBalances := (List.range n).map testNumber
      originalHashes := (List.range n).map (fun i => ((testNumber i).toNat : Int))
      originalUpdEpoch := (List.range n).map (fun _ => 10)
      updatedBalances := (List.range n).map testNumber }
  { base with
    remainderR1 := (((∏ i ∈ Finset.range n, (oldHash E base i + 2 ^ 1023)) * blinding E 200) % L1 : Nat)
    remainderR2 := (((∏ i ∈ Finset.range n, (newHash E base i + 2 ^ 1023)) * blinding E 300) % L2 : Nat) }

theorem intString_nat (k : Nat) : intString (k : Int) = itoa k := by
  rw [intString, if_neg (by omega), Int.natAbs_natCast]

theorem elementFromString_nat (k : Nat) : elementFromString (intString (k : Int)) = .ok (elementFromBigInt k) := by
  rw [elementFromString, intString_nat, setString_itoa]

theorem getD_map_range {α : Type} (f : Nat → α) (d : α) (n i : Nat) (h : i < n) :
    ((List.range n).map f).getD i d = f i := by simp [h]

theorem timesRandomizer_eq (E : Env) (r : Int) (h0 : 0 ≤ r) (h1 : r < 2 ^ 32) (p : Nat) :
    timesRandomizer E r p = p * blinding E r.toNat := by
  have hr : (frOrder : Int) > 2 ^ 100 := by decide
  have e : elementFromBigInt r = r.toNat := element_of_range r h0 (by omega)
  have : ∀ (l : List Nat), (∀ i ∈ l, i < 8) → ∀ a : Nat,
      l.foldl (fun prod i => prod * E.poseidon [r.toNat, elementFromUint32 (UInt32.ofNat i)]) a =
        a * (l.map (fun i => E.poseidon [r.toNat, i])).prod := by
    intro l
    induction l with
    | nil => intro _ a; simp
    | cons x l ih =>
      intro hl a
      have hx : elementFromUint32 (UInt32.ofNat x) = x := by
        rw [elementFromUint32_eq, UInt32.toNat_ofNat']
        have := hl x (by simp)
        omega
      rw [List.foldl_cons, ih (fun i hi => hl i (by simp [hi])), hx, List.map_cons, List.prod_cons, Nat.mul_assoc]
  rw [timesRandomizer, e, this _ (fun i hi => List.mem_range.1 hi)]
  rfl

attribute [local irreducible] min1024

theorem testPairs_ok (E : Env) (n L1 L2 : Nat) :
    (List.range n).mapM (fun i => (do
      let id ← index ((List.range n).map testNumber) i
      let ob ← index ((List.range n).map testNumber) i
      let oe ← index ((List.range n).map (fun _ => (10 : UInt32))) i
      let oh ← index ((List.range n).map (fun i => ((testNumber i).toNat : Int))) i
      let ub ← index ((List.range n).map testNumber) i
      testPair E id ob oe oh ub testEpochNum : Res (Nat × Nat))) =
    .ok ((List.range n).map (fun i =>
      (oldHash E (testSet E n L1 L2) i + min1024, newHash E (testSet E n L1 L2) i + min1024))) := by
  apply mapM_ok
  intro i hi
  have hi := List.mem_range.1 hi
  rw [index_ok _ i 0 (by simp [hi]), index_ok _ i 0 (by simp [hi]), index_ok _ i 0 (by simp [hi])]
  simp only [except_bind_ok, getD_map_range _ _ n i hi, testPair, elementFromString_nat, poseidonAndDIHash,
    diHashPoseidon, elementFromUint32_eq]
  have e1 : oldHash E (testSet E n L1 L2) i = E.poseidon [(testNumber i).toNat, (testNumber i).toNat,
      (10 : UInt32).toNat, elementFromBigInt ((testNumber i).toNat : Int)] := by
    simp only [oldHash, testSet, col, getD_map_range _ _ n i hi, elementFromBigInt]
  have e2 : newHash E (testSet E n L1 L2) i = E.poseidon [(testNumber i).toNat, (testNumber i).toNat,
      testEpochNum.toNat, oldHash E (testSet E n L1 L2) i] := by
    rw [newHash]
    simp only [testSet, col, getD_map_range _ _ n i hi, testEpochNum]
  rw [e2, e1]

theorem testSet_isValid (E : Env) (n L1 L2 : Nat) : (testSet E n L1 L2).isValid = decide (2 ≤ n) := by
  rw [Bool.eq_iff_iff, C66_isValid_iff]
  simp [testSet]

/-- `GenTestSet` gives a result exactly if there are two challenges, neither is zero and `n ≥ 2`. -/
theorem genTestSet_ok_iff (E : Env) (fuel : Nat) (n : UInt32) (G N accMid : Int) (u : UpdateSet32) :
    genTestSet E fuel n G N accMid = Run.ok u ↔
      ∃ L1 L2, fsHashToPrime E fuel [intString G, intString N, itoa 1000000] lenMax252 = some L1 ∧
        fsHashToPrime E fuel [intString G, intString N, itoa 1000000, itoa L1] lenMax252 = some L2 ∧
        0 < L1 ∧ 0 < L2 ∧ 2 ≤ n.toNat ∧ u = testSet E n.toNat L1 L2 := by
  have hc : ∀ (t : Transcript) (r : Nat × Transcript), t.getChallengeAndAppend E fuel = some r ↔
      fsHashToPrime E fuel t.info t.maxlength = some r.1 ∧ r.2 = t.append (itoa r.1) :=
    fun t r => getPrimeChallenge_iff E fuel t r.2 r.1
  have hfin : ∀ L1 L2 : Nat,
      (if L1 = 0 then liftRes (goPanic "division by zero")
        else if L2 = 0 then liftRes (goPanic "division by zero")
        else if (testSet E n.toNat L1 L2).isValid = false then
          liftRes (goPanic "error in GenTestSet, the generated test set is invalid")
        else liftRes (.ok (testSet E n.toNat L1 L2))) = Run.ok u ↔
      0 < L1 ∧ 0 < L2 ∧ 2 ≤ n.toNat ∧ u = testSet E n.toNat L1 L2 := by
    intro L1 L2
    rw [testSet_isValid]
    split_ifs with h1 h2 h3
    · rw [liftRes_ok_iff]; simp [goPanic, h1]
    · rw [liftRes_ok_iff]; simp [goPanic, h2]
    · rw [liftRes_ok_iff]
      simp only [goPanic, reduceCtorEq, false_iff]
      simp at h3
      omega
    · rw [liftRes_ok_iff]
      simp at h3
      simp only [Except.ok.injEq]
      constructor
      · intro h; exact ⟨by omega, by omega, by omega, h.symm⟩
      · rintro ⟨-, -, -, h⟩; exact h.symm
  have hset : ∀ L1 L2 : Nat, ({
        challengeL1 := L1
        challengeL2 := L2
        remainderR1 := (timesRandomizer E 200 (setProductRecursiveFast (((List.range n.toNat).map (fun i =>
          (oldHash E (testSet E n.toNat 0 0) i + min1024, newHash E (testSet E n.toNat 0 0) i + min1024))).map
            Prod.fst)) % L1 : Nat)
        remainderR2 := (timesRandomizer E 300 (setProductRecursiveFast (((List.range n.toNat).map (fun i =>
          (oldHash E (testSet E n.toNat 0 0) i + min1024, newHash E (testSet E n.toNat 0 0) i + min1024))).map
            Prod.snd)) % L2 : Nat)
        currentEpochNum := testEpochNum
        deltaModL1 := (min1024 % L1 : Nat)
        deltaModL2 := (min1024 % L2 : Nat)
        randomizer1 := 200
        randomizer2 := 300
        originalSum := testOriginalSum
        updatedSum := testOriginalSum
        userID := (List.range n.toNat).map testNumber
        originalBalances := (List.range n.toNat).map testNumber
        originalHashes := (List.range n.toNat).map (fun i => ((testNumber i).toNat : Int))
        originalUpdEpoch := (List.range n.toNat).map (fun _ => (10 : UInt32))
        updatedBalances := (List.range n.toNat).map testNumber } : UpdateSet32) = testSet E n.toNat L1 L2 := by
    intro L1 L2
    have hm : min1024 = 2 ^ 1023 := by unfold min1024; rfl
    rw [timesRandomizer_eq E 200 (by decide) (by decide), timesRandomizer_eq E 300 (by decide) (by decide),
      setProductRecursiveFast_eq, setProductRecursiveFast_eq, List.map_map, List.map_map, hm]
    rfl
  rw [genTestSet, testPairs_ok E n.toNat 0 0]
  simp only [run_bind_ok_iff, liftRes_ok_iff, liftLoop_ok_iff, hc, hset, Except.ok.injEq, exists_eq_left']
  constructor
  · rintro ⟨⟨L1, t1⟩, ⟨h1, h2⟩, ⟨L2, t2⟩, ⟨h3, h4⟩, h5⟩
    simp only at h1 h2 h3 h4 h5
    subst h2
    exact ⟨L1, L2, h1, h3, (hfin L1 L2).1 h5⟩
  · rintro ⟨L1, L2, h1, h2, h3⟩
    refine ⟨(L1, ⟨[intString G, intString N, itoa 1000000, itoa L1], lenMax252⟩), ⟨h1, rfl⟩, ?_⟩
    exact ⟨(L2, ⟨[intString G, intString N, itoa 1000000, itoa L1, itoa L2], lenMax252⟩), ⟨h2, rfl⟩,
      (hfin L1 L2).2 h3⟩

theorem testNumber_toNat (i : Nat) (h : i < 2 ^ 31) : (testNumber i).toNat = 2 * i + 1 := by
  rw [testNumber, UInt32.toNat_add, UInt32.toNat_mul, UInt32.toNat_ofNat']
  have e1 : (2 : UInt32).toNat = 2 := rfl
  have e2 : (1 : UInt32).toNat = 1 := rfl
  rw [e1, e2]
  omega

theorem testSet_honest (E : Env) (n L1 L2 : Nat) (h2 : 2 ≤ n) (hn : n ≤ 2 ^ 31) (p1 : 0 < L1) (p2 : 0 < L2)
    (q1 : L1 < frOrder) (q2 : L2 < frOrder) : HonestUpdate E (testSet E n L1 L2) := by
  have hsz : (testSet E n L1 L2).userID.length = n := by simp [testSet]
  constructor
  · rw [hsz]; exact h2
  · simp [testSet]
  · exact ⟨by simp [testSet, p1], by simp only [testSet]; omega⟩
  · exact ⟨by simp [testSet, p2], by simp only [testSet]; omega⟩
  · rw [hsz]
    have : (testSet E n L1 L2).remainderR1 = (((∏ i ∈ Finset.range n, (oldHash E (testSet E n L1 L2) i + 2 ^ 1023)) *
      blinding E 200) % L1 : Nat) := rfl
    rw [this, Int.natCast_mod, Int.natCast_mul, Nat.cast_prod]
    rfl
  · rw [hsz]
    have : (testSet E n L1 L2).remainderR2 = (((∏ i ∈ Finset.range n, (newHash E (testSet E n L1 L2) i + 2 ^ 1023)) *
      blinding E 300) % L2 : Nat) := rfl
    rw [this, Int.natCast_mod, Int.natCast_mul, Nat.cast_prod]
    rfl
  · have : (testSet E n L1 L2).deltaModL1 = (2 ^ 1023 % L1 : Nat) := rfl
    rw [this, Int.natCast_mod]; push_cast; rfl
  · have : (testSet E n L1 L2).deltaModL2 = (2 ^ 1023 % L2 : Nat) := rfl
    rw [this, Int.natCast_mod]; push_cast; rfl
  · show (0 : Int) ≤ 200 ∧ (200 : Int) < 2 ^ 32
    decide
  · show (0 : Int) ≤ 300 ∧ (300 : Int) < 2 ^ 32
    decide
  · have : (testSet E n L1 L2).userID = (List.range n).map testNumber := rfl
    rw [this, List.pairwise_map]
    refine List.Pairwise.imp_of_mem ?_ List.pairwise_lt_range
    intro a b ha hb hab
    have ha := List.mem_range.1 ha
    have hb := List.mem_range.1 hb
    show (testNumber a).toNat < (testNumber b).toNat
    rw [testNumber_toNat a (by omega), testNumber_toNat b (by omega)]
    omega
  · have : (testSet E n L1 L2).originalUpdEpoch = (List.range n).map (fun _ => 10) := rfl
    rw [this]
    intro e he
    obtain ⟨i, -, rfl⟩ := List.mem_map.1 he
    show (10 : UInt32) < 1000000
    decide
  · have : ∀ i, (((col (testSet E n L1 L2).updatedBalances i).toNat : Int) -
        (col (testSet E n L1 L2).originalBalances i).toNat) = 0 := by
      intro i
      have : (testSet E n L1 L2).updatedBalances = (testSet E n L1 L2).originalBalances := rfl
      rw [this]; omega
    simp only [this, Finset.sum_const_zero]
    rfl

/-- For `n ≤ 2^31` the sets of `GenTestSet` are honest, pass `IsValid`, and pass the circuit if nothing overflows. -/
theorem C64_genTestSet_partial (E : Env) (fuel : Nat) (n : UInt32) (G N accMid : Int) (u : UpdateSet32)
    (hn : n.toNat ≤ 2 ^ 31) (h : genTestSet E fuel n G N accMid = Run.ok u) :
    2 ≤ n.toNat ∧ u.userID.length = n.toNat ∧ u.isValid = true ∧ HonestUpdate E u ∧
      (NoOverflow E u → ∃ c, assignCircuit u = .ok c ∧ define E c = .ok true) := by
  obtain ⟨L1, L2, h1, h2, p1, p2, h3, rfl⟩ := (genTestSet_ok_iff E fuel n G N accMid u).1 h
  have q1 := C37_below_field_order E fuel _ L1 (Or.inl h1)
  have q2 := C37_below_field_order E fuel _ L2 (Or.inl h2)
  have hh := testSet_honest E n.toNat L1 L2 h3 hn p1 p2 q1 q2
  have hsz : (testSet E n.toNat L1 L2).userID.length = n.toNat := by simp [testSet]
  refine ⟨h3, hsz, honest_isValid hh, hh, ?_⟩
  intro ho
  exact C63_accepted_partial E _ (by omega) hh rfl (fun i hi => (ho i hi).1) (fun i hi => (ho i hi).2)

/-- `GenTestSet` panics or does not find a challenge for `n < 2`; for `n ≥ 2` it returns whenever the transcript gives
two positive challenges. -/
theorem C64_returns (E : Env) (fuel : Nat) (n : UInt32) (G N accMid : Int) :
    (n.toNat < 2 → ∀ u, genTestSet E fuel n G N accMid ≠ Run.ok u) ∧
    (2 ≤ n.toNat → ∀ L1 L2, 0 < L1 → 0 < L2 →
      fsHashToPrime E fuel [intString G, intString N, itoa 1000000] lenMax252 = some L1 →
      fsHashToPrime E fuel [intString G, intString N, itoa 1000000, itoa L1] lenMax252 = some L2 →
      ∃ u, genTestSet E fuel n G N accMid = Run.ok u ∧ u.challengeL1 = L1 ∧ u.challengeL2 = L2) := by
  constructor
  · intro h u hu
    obtain ⟨L1, L2, -, -, -, -, h3, -⟩ := (genTestSet_ok_iff E fuel n G N accMid u).1 hu
    omega
  · intro h L1 L2 p1 p2 h1 h2
    exact ⟨_, (genTestSet_ok_iff E fuel n G N accMid _).2 ⟨L1, L2, h1, h2, p1, p2, h, rfl⟩, rfl, rfl⟩

/-- `exEnv` finds the challenge 13 at once; all hashes are 0. -/
theorem exEnv_prime (l : List Bytes) : fsHashToPrime exEnv 1 l lenMax252 = some 13 := by
  have : wrapNumber (List.replicate 31 0 ++ [13]) lenMax252 = 13 := by decide +kernel
  simp only [fsHashToPrime, fsPrimeLoop, exEnv, this]
  rfl

/-- More than 2^31 users: the ids of the test set wrap around and the circuit rejects them. -/
theorem C64_large_rejected (E : Env) (n L1 L2 : Nat) (hn : 2 ^ 31 < n) :
    define E (assigned (testSet E n L1 L2)) ≠ .ok true := by
  intro h
  have s := (accepts_iff _ _).1 h
  have e : (assigned (testSet E n L1 L2)).userID = ((List.range n).map testNumber).map UInt32.toNat := rfl
  have := s.ids (2 ^ 31 - 1) (by rw [e, List.length_map, List.length_map, List.length_range]; omega)
  rw [e, getD_map_toNat, getD_map_toNat, getD_map_range _ _ _ _ (by omega), getD_map_range _ _ _ _ (by omega)] at this
  revert this
  decide

theorem C64_violated : ¬ C64_statement := by
  intro h
  obtain ⟨n, hn⟩ : ∃ n : UInt32, n.toNat = 2 ^ 31 + 1 := ⟨UInt32.ofNat (2 ^ 31 + 1), by decide⟩
  have hn2 : 2 ^ 31 < n.toNat := by omega
  have hn3 : 2 ≤ n.toNat := by omega
  clear hn
  have hs := (h exEnv 1 n 2 35 4 (testSet exEnv n.toNat 13 13)
    ((genTestSet_ok_iff _ _ _ _ _ _ _).2
      ⟨13, 13, exEnv_prime _, exEnv_prime _, by decide, by decide, hn3, rfl⟩)).2.2 ?_
  · obtain ⟨c, h1, h2⟩ := hs
    rw [(C66_assignCircuit _).2 (by rw [testSet_isValid]; exact decide_eq_true hn3)] at h1
    injection h1 with h1
    rw [← h1] at h2
    exact C64_large_rejected _ _ _ _ hn2 h2
  · intro i hi
    have e1 : ∀ u, oldHash exEnv u i = 0 := fun _ => rfl
    have e2 : ∀ u, newHash exEnv u i = 0 := fun _ => rfl
    rw [e1, e2]
    have hr : frOrder > 100 := by decide
    have d1 : ∀ n, (testSet exEnv n 13 13).deltaModL1.toNat = 2 ^ 1023 % 13 := fun _ => Int.toNat_natCast _
    have d2 : ∀ n, (testSet exEnv n 13 13).deltaModL2.toNat = 2 ^ 1023 % 13 := fun _ => Int.toNat_natCast _
    rw [d1, d2]
    have := Nat.mod_lt (2 ^ 1023) (show 0 < 13 by decide)
    omega

example : ∃ u, genTestSet sumEnv 1 2 2 35 4 = Run.ok u ∧ NoOverflow sumEnv u ∧ (2 : UInt32).toNat ≤ 2 ^ 31 := by
  have hp : ∀ l : List Bytes, fsHashToPrime sumEnv 1 l lenMax252 = some 13 := by
    intro l
    have : wrapNumber (List.replicate 31 0 ++ [13]) lenMax252 = 13 := by decide +kernel
    simp only [fsHashToPrime, fsPrimeLoop, sumEnv, this]
    rfl
  refine ⟨testSet sumEnv 2 13 13, (genTestSet_ok_iff _ _ _ _ _ _ _).2
      ⟨13, 13, hp _, hp _, by decide, by decide, by decide, rfl⟩, ?_, by decide⟩
  unfold NoOverflow
  decide +kernel

/-! ## C65 -/

/-- The seven public values as integers, in the order of the fields of `Circuit`. -/
def publicValues (p : PublicInfo) : List Int :=
  [p.challengeL1, p.challengeL2, p.remainderR1, p.remainderR2, (p.currentEpochNum.toNat : Int), p.deltaModL1,
    p.deltaModL2]

theorem genPublicWitness_eq (p : PublicInfo) : genPublicWitness p = (publicValues p).map elementFromBigInt := by
  simp only [genPublicWitness, publicVector, assignCircuitHelper, publicValues, List.map_cons, List.map_nil]
  rfl

theorem element_eq_iff (a b : Int) : elementFromBigInt a = elementFromBigInt b ↔ a ≡ b [ZMOD frOrder] := by
  have h0 : (frOrder : Int) ≠ 0 := by decide
  rw [elementFromBigInt, elementFromBigInt, Int.ModEq]
  have h1 := Int.emod_nonneg a h0
  have h2 := Int.emod_nonneg b h0
  omega

/-- The public part of the prover's assignment is the witness that the verifier builds from `PublicPart`: the seven
values modulo the field order, in the order of the circuit; and `VerifyPublicWitness` accepts it. -/
theorem C65_public_part (u : UpdateSet32) (c : Circuit) (h : assignCircuit u = .ok c) :
    publicVector c = genPublicWitness u.publicPart ∧
    genPublicWitness u.publicPart = (publicValues u.publicPart).map (fun v => (v % (frOrder : Int)).toNat) ∧
    verifyPublicWitness (publicVector c) u.publicPart = true := by
  have hv : u.isValid = true := by
    by_contra hv
    rw [assignCircuit, if_pos (by simpa using hv)] at h
    cases h
  rw [(C66_assignCircuit u).2 hv] at h
  injection h with h
  have e : publicVector c = genPublicWitness u.publicPart := by
    rw [← h, genPublicWitness_eq]
    have e5 : elementFromBigInt (u.currentEpochNum.toNat : Int) = u.currentEpochNum.toNat := elementFromUint32_eq _
    simp only [publicVector, assigned, publicValues, UpdateSet32.publicPart, List.map_cons, List.map_nil, e5]
  refine ⟨e, genPublicWitness_eq _, ?_⟩
  rw [e, verifyPublicWitness]
  exact decide_eq_true rfl

/-- `VerifyPublicWitness` compares the public values modulo the field order. -/
theorem C65_verify_iff (p q : PublicInfo) : verifyPublicWitness (genPublicWitness p) q = true ↔
    p.challengeL1 ≡ q.challengeL1 [ZMOD frOrder] ∧ p.challengeL2 ≡ q.challengeL2 [ZMOD frOrder] ∧
    p.remainderR1 ≡ q.remainderR1 [ZMOD frOrder] ∧ p.remainderR2 ≡ q.remainderR2 [ZMOD frOrder] ∧
    p.currentEpochNum = q.currentEpochNum ∧
    p.deltaModL1 ≡ q.deltaModL1 [ZMOD frOrder] ∧ p.deltaModL2 ≡ q.deltaModL2 [ZMOD frOrder] := by
  have e : verifyPublicWitness (genPublicWitness p) q = decide (genPublicWitness p = genPublicWitness q) := rfl
  rw [e, decide_eq_true_eq, genPublicWitness_eq, genPublicWitness_eq]
  have he : elementFromBigInt (p.currentEpochNum.toNat : Int) = elementFromBigInt (q.currentEpochNum.toNat : Int) ↔
      p.currentEpochNum = q.currentEpochNum := by
    have e : ∀ v : UInt32, elementFromBigInt (v.toNat : Int) = v.toNat := elementFromUint32_eq
    rw [e, e, UInt32.toNat_inj]
  simp only [publicValues, List.map_cons, List.map_nil, List.cons.injEq, element_eq_iff, and_true]
  rw [← element_eq_iff (p.currentEpochNum.toNat : Int), he]

/-- All values are field elements. -/
def InField (p : PublicInfo) : Prop := ∀ v ∈ publicValues p, 0 ≤ v ∧ v < frOrder

/-- For values in the field it accepts exactly the equal ones. -/
theorem C65_verify_exact (p q : PublicInfo) (hp : InField p) (hq : InField q) :
    verifyPublicWitness (genPublicWitness p) q = true ↔ p = q := by
  rw [C65_verify_iff]
  have key : ∀ a b : Int, (0 ≤ a ∧ a < frOrder) → (0 ≤ b ∧ b < frOrder) → (a ≡ b [ZMOD frOrder] ↔ a = b) := by
    intro a b ha hb
    rw [Int.ModEq, Int.emod_eq_of_lt ha.1 ha.2, Int.emod_eq_of_lt hb.1 hb.2]
  have hp' : ∀ v ∈ publicValues p, 0 ≤ v ∧ v < frOrder := hp
  have hq' : ∀ v ∈ publicValues q, 0 ≤ v ∧ v < frOrder := hq
  simp only [publicValues, List.mem_cons, List.not_mem_nil, or_false, forall_eq_or_imp, forall_eq] at hp' hq'
  obtain ⟨a1, a2, a3, a4, -, a6, a7⟩ := hp'
  obtain ⟨b1, b2, b3, b4, -, b6, b7⟩ := hq'
  rw [key _ _ a1 b1, key _ _ a2 b2, key _ _ a3 b3, key _ _ a4 b4, key _ _ a6 b6, key _ _ a7 b7]
  cases p; cases q
  simp

/-- Adding the field order to a challenge is not noticed. -/
theorem C65_congruent_values_accepted (p : PublicInfo) :
    verifyPublicWitness (genPublicWitness p) { p with challengeL1 := p.challengeL1 + frOrder } = true := by
  rw [C65_verify_iff]
  refine ⟨?_, rfl, rfl, rfl, rfl, rfl, rfl⟩
  rw [Int.ModEq, Int.add_emod_right]

example : assignCircuit goodSet = .ok goodCircuit ∧ InField goodSet.publicPart ∧
    publicVector goodCircuit = [1009, 1013, 779, 426, 20, 480, 22] ∧
    verifyPublicWitness (publicVector goodCircuit) goodSet.publicPart = true ∧
    verifyPublicWitness (publicVector goodCircuit) { goodSet.publicPart with remainderR1 := 426, remainderR2 := 779 } =
      false := by
  unfold InField
  decide +kernel

/-! ## C67 -/

/-- Different accumulators give different transcripts. -/
def C67_statement : Prop :=
  ∀ (G N old mid new old' mid' new' : Int) (epoch : UInt32), (old, mid, new) ≠ (old', mid', new') →
    hashInput (setupTranscript G N old mid new epoch).info ≠ hashInput (setupTranscript G N old' mid' new' epoch).info

theorem C67_violated : ¬ C67_statement := fun h => h 2 35 4 8 16 5 8 16 20 (by decide) rfl

/-- The accumulators do not enter the transcript at all: the challenges are those of `G`, `N` and the epoch. -/
theorem C67_challenges_ignore_accumulators (E : Env) (fuel : Nat) (G N old mid new old' mid' new' : Int)
    (epoch : UInt32) (ops : List TOp) :
    runOps E fuel (setupTranscript G N old mid new epoch) ops =
      runOps E fuel (setupTranscript G N old' mid' new' epoch) ops := rfl

/-- What is bound: for the same `G` and `N`, different epochs give different transcripts. -/
theorem C67_epoch_bound_partial (G N old mid new old' mid' new' : Int) (e e' : UInt32) (h : e ≠ e') :
    hashInput (setupTranscript G N old mid new e).info ≠ hashInput (setupTranscript G N old' mid' new' e').info := by
  intro heq
  have hi : ∀ x : UInt32, hashInput (setupTranscript G N old mid new x).info =
      intString G ++ (intString N ++ itoa x.toNat) := by
    intro x
    rw [hashInput_eq]
    simp [setupTranscript, initTranscript, Transcript.append]
  have hi' : hashInput (setupTranscript G N old' mid' new' e').info = intString G ++ (intString N ++ itoa e'.toNat) :=
    hi e'
  rw [hi, hi'] at heq
  have := List.append_cancel_left (List.append_cancel_left heq)
  exact h (UInt32.toNat_inj.1 (itoa_injective _ _ this))

example : (20 : UInt32) ≠ 21 := by decide

/-! ## C68 -/

/-- The inputs printed for the contract are the public vector of the circuit. -/
def C68_statement : Prop := ∀ p : PublicInfo, InField p → contractInputs p = genPublicWitness p

theorem C68_violated : ¬ C68_statement := by
  intro h
  have := h goodSet.publicPart (by unfold InField; decide +kernel)
  revert this
  decide +kernel

/-- What is printed: all seven values, the first two in their place, then the epoch and the deltas before the
remainders. -/
theorem C68_printed_order_partial (p : PublicInfo) (h : InField p) :
    ∃ v0 v1 v2 v3 v4 v5 v6, genPublicWitness p = [v0, v1, v2, v3, v4, v5, v6] ∧
      contractInputs p = [v0, v1, v4, v5, v6, v2, v3] := by
  have hu : ∀ v, 0 ≤ v ∧ v < (frOrder : Int) → uint256FromBig v = elementFromBigInt v := by
    intro v hv
    have hr : (frOrder : Int) < 2 ^ 256 := by decide
    rw [uint256FromBig, elementFromBigInt, Int.emod_eq_of_lt hv.1 hv.2, Int.emod_eq_of_lt hv.1 (by omega)]
  have h' : ∀ v ∈ publicValues p, 0 ≤ v ∧ v < frOrder := h
  simp only [publicValues, List.mem_cons, List.not_mem_nil, or_false, forall_eq_or_imp, forall_eq] at h'
  obtain ⟨a1, a2, a3, a4, a5, a6, a7⟩ := h'
  rw [genPublicWitness_eq]
  refine ⟨_, _, _, _, _, _, _, rfl, ?_⟩
  simp only [contractInputs, List.map_cons, List.map_nil]
  rw [hu _ a1, hu _ a2, hu _ a3, hu _ a4, hu _ a5, hu _ a6, hu _ a7]

/-- The printed inputs are right only if the five values that are out of place are all equal. -/
theorem C68_right_iff (p : PublicInfo) (h : InField p) : contractInputs p = genPublicWitness p ↔
    p.remainderR1 = p.currentEpochNum.toNat ∧ p.remainderR2 = p.remainderR1 ∧ p.deltaModL1 = p.remainderR1 ∧
      p.deltaModL2 = p.remainderR1 := by
  have hu : ∀ v, 0 ≤ v ∧ v < (frOrder : Int) → uint256FromBig v = v.toNat := by
    intro v hv
    have hr : (frOrder : Int) < 2 ^ 256 := by decide
    rw [uint256FromBig, Int.emod_eq_of_lt hv.1 (by omega)]
  have h' : ∀ v ∈ publicValues p, 0 ≤ v ∧ v < frOrder := h
  simp only [publicValues, List.mem_cons, List.not_mem_nil, or_false, forall_eq_or_imp, forall_eq] at h'
  obtain ⟨a1, a2, a3, a4, a5, a6, a7⟩ := h'
  rw [genPublicWitness_eq]
  simp only [contractInputs, publicValues, List.map_cons, List.map_nil]
  rw [hu _ a1, hu _ a2, hu _ a3, hu _ a4, hu _ a5, hu _ a6, hu _ a7, element_of_range _ a1.1 a1.2,
    element_of_range _ a2.1 a2.2, element_of_range _ a3.1 a3.2, element_of_range _ a4.1 a4.2,
    element_of_range _ a5.1 a5.2, element_of_range _ a6.1 a6.2, element_of_range _ a7.1 a7.2]
  simp only [List.cons.injEq, true_and, and_true]
  omega

example : InField goodSet.publicPart ∧ contractInputs goodSet.publicPart = [1009, 1013, 20, 480, 22, 779, 426] := by
  unfold InField
  decide +kernel

/-! ## C74 -/

/-- All ids of an accepted assignment have at most 32 bits. -/
def C74_statement : Prop :=
  ∀ (E : Env) (c : Circuit), Canonical c → define E c = .ok true → ∀ id ∈ c.userID, id < 2 ^ 32

/-- `goodCircuit` with the second id 2^32. -/
def wideCircuit : Circuit := { goodCircuit with remainderR1 := 677, remainderR2 := 588, userID := [1, 2 ^ 32] }

theorem C74_violated : ¬ C74_statement := by
  intro h
  have := h sumEnv wideCircuit (by refine ⟨?_, ?_, ?_⟩ <;> decide +kernel) (by decide +kernel) (2 ^ 32) (by decide)
  omega

/-- What the circuit does give: the ids increase, so the check of the last one that is commented out would bound all of
them; and an id is at least its position. -/
theorem C74_last_bounds_all_partial (E : Env) (c : Circuit) (h : define E c = .ok true) :
    (∀ i, i < c.userID.length → i ≤ col c.userID i) ∧
    ((∀ id ∈ c.userID, id < 2 ^ 32) ↔ col c.userID (c.userID.length - 1) < 2 ^ 32) := by
  have s := (accepts_iff E c).1 h
  have hs : ∀ i, i + 1 < c.userID.length → c.userID.getD i 0 < c.userID.getD (i + 1) 0 := fun i hi => s.ids i hi
  have hlt : 0 < c.userID.length := s.lens.2.2.2.2
  constructor
  · intro i
    induction i with
    | zero => intro _; exact Nat.zero_le _
    | succ i ih =>
      intro hi
      have h1 := ih (by omega)
      have h2 := hs i hi
      simp only [col] at h1 ⊢
      omega
  · constructor
    · intro h1
      apply h1
      simp [col, hlt]
    · intro h1 id hid
      obtain ⟨i, hi, rfl⟩ := mem_getD hid
      simp only [col] at h1
      by_cases hl : i = c.userID.length - 1
      · rw [hl]; exact h1
      · have := getD_lt_of_step c.userID hs i (c.userID.length - 1 - i - 1) (by omega)
        rw [show i + (c.userID.length - 1 - i - 1 + 1) = c.userID.length - 1 by omega] at this
        omega

example : define sumEnv goodCircuit = .ok true ∧ col goodCircuit.userID 1 < 2 ^ 32 ∧
    define sumEnv wideCircuit = .ok true := by decide +kernel

end Verif.Props
