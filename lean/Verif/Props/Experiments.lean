import Verif.Lemmas.Experiments
import Mathlib.Data.Nat.ModEq

/-! # Properties C72, C73, C76 - C79: the experiments -/

namespace Verif.Props
open Verif.Go Verif.Model Verif.Lemmas Verif.Spec

/-! ## C72 -/

/-- `p` is the product of `set` by one of the functions of the code, the parallel one under any schedule. -/
def ProductOf (set : List Nat) (p : Nat) : Prop :=
  p = setProduct set ∨ p = setProduct2 set ∨ p = setProductRecursive set ∨ p = setProductRecursiveFast set ∨
    ∃ limit, Steps (.run (setProductParallel set limit)) (.send p)

theorem productOf_eq (set : List Nat) (p : Nat) (h : ProductOf set p) : p = set.prod := by
  rcases h with h | h | h | h | ⟨limit, h⟩
  · rw [h, setProduct_eq]
  · rw [h, setProduct2_eq]
  · rw [h, setProductRecursive_eq]
  · rw [h, setProductRecursiveFast_eq]
  · have := (alwaysGives_eval _).value _ h
    rw [setProductParallel_eval] at this
    injection this with this
    exact this.symm

/-- From the accumulator of the kept elements with randomizer `rho`, raising to the product of the removed or inserted
elements, or accumulating them one after the other, gives the accumulator of the old or new set, in any order of its
elements. -/
theorem C72_swap (G N rho : Nat) (kept part set : List Nat) (p q : Nat) (hset : set.Perm (kept ++ part))
    (hp : ProductOf kept p) (hq : ProductOf part q) :
    expMod (expMod G (p * rho) N) q N = accumulator (G ^ rho) N set ∧
    accumulate (expMod G (p * rho) N) N part % N = accumulator (G ^ rho) N set := by
  have h1 : expMod (expMod G (p * rho) N) q N = accumulator (G ^ rho) N set := by
    rw [productOf_eq _ _ hp, productOf_eq _ _ hq, accumulator, hset.prod_eq, List.prod_append, expMod, expMod,
      pow_mod_pow, ← pow_mul]
    congr 2
    ring
  refine ⟨h1, ?_⟩
  rw [← h1, productOf_eq _ _ hq, accumulate_mod]
  rfl

/-- The membership proofs of the new set, made with the same randomizer, verify against the accumulator that the swap
gives. -/
theorem C72_proofs_verify (G N rho : Nat) (kept inserted : List Nat) (p q : Nat) (h4 : 4 ≤ kept.length + inserted.length)
    (hp : ProductOf kept p) (hq : ProductOf inserted q) :
    ∃ ps, proveMembershipSingleThreadWithRandomizer G rho N (kept ++ inserted) = .ok ps ∧
      ps.length = kept.length + inserted.length ∧
      ∀ (i : Nat) (h : i < (kept ++ inserted).length) (h' : i < ps.length),
        verifies N (expMod (expMod G (p * rho) N) q N) ps[i] (kept ++ inserted)[i] := by
  obtain ⟨ps, h1, h2, h3⟩ := C10_randomized_correct G rho N (kept ++ inserted) (by simpa using h4)
  refine ⟨ps, h1, by simpa using h2, ?_⟩
  intro i h h'
  rw [verifies, (h3 i h h').2, (C72_swap G N rho kept inserted _ p q (List.Perm.refl _) hp hq).1, accumulator, ← pow_mul]

example : ProductOf [3, 5, 7] 105 ∧ [7, 3, 11, 5].Perm ([3, 5, 7] ++ [11]) ∧
    accumulator (2 ^ 9) 35 [7, 3, 11, 5] = 8 := by
  refine ⟨Or.inl rfl, by decide, by decide +kernel⟩

/-! ## C73 -/

/-- The accumulators of a run fit together: the old accumulator is the original one, the proofs of the new set verify
against the new accumulator, and the statement given to `PoKE` is true. -/
structure Consistent (N : Nat) (v : SwapRun) : Prop where
  old : v.accOld = v.accOri
  new : ∀ (i : Nat) (h : i < (v.unchanged ++ v.insertSet).length) (h' : i < v.proofs.length),
    verifies N v.accNew v.proofs[i] (v.unchanged ++ v.insertSet)[i]
  poke : v.accMid ^ v.removedRanProd % N = v.accOri

def C73_statement : Prop :=
  ∀ (E : Env) (fuel G N : Nat) (setsize updated : UInt32) (v : SwapRun),
    (notusMultiSwap E fuel G N setsize updated = Run.ok v ∨ notusParallel E fuel G N setsize updated = Run.ok v) →
    Consistent N v

/-- What `TestNotusMultiSwap` computes, with `U`, `R`, `I` the products of kept, removed and inserted elements. The middle
accumulator contains the removed elements and the first randomizer, so the old one contains them twice and the new one
still contains them. The proofs are right for the set and the second randomizer. -/
theorem C73_multi_partial (E : Env) (fuel G N : Nat) (setsize updated : UInt32) (v : SwapRun)
    (h : notusMultiSwap E fuel G N setsize updated = Run.ok v) :
    let U := (Experiments.kept E (setsize - updated).toNat).prod
    let R := (Experiments.removed E updated.toNat).prod
    let I := (Experiments.inserted E updated.toNat).prod
    let r1 := Experiments.factor E 200
    let r2 := Experiments.factor E 300
    v.unchanged = Experiments.kept E (setsize - updated).toNat ∧ v.removeSet = Experiments.removed E updated.toNat ∧
    v.insertSet = Experiments.inserted E updated.toNat ∧
    v.accOri = G ^ (U * R * r1) % N ∧ v.accMid = G ^ (U * R * r1) % N ∧
    v.accOld = G ^ (U * R * r1 * (R * r1)) % N ∧ v.accNew = G ^ (U * R * r1 * (I * r2)) % N ∧
    v.proofs.length = (v.unchanged ++ v.insertSet).length ∧
    (∀ (i : Nat) (h : i < (v.unchanged ++ v.insertSet).length) (h' : i < v.proofs.length),
      verifies N (G ^ (r2 * (U * I)) % N) v.proofs[i] (v.unchanged ++ v.insertSet)[i]) ∧
    v.poke.Q ^ v.poke.l * v.accMid ^ v.poke.remainder % N = v.accMid ^ v.removedRanProd % N := by
  obtain ⟨l, L1, L2, hc, rfl⟩ := (notusMultiSwap_ok_iff E fuel G N setsize updated v).1 h
  refine ⟨rfl, rfl, rfl, rfl, rfl, pow_mod_pow _ _ _ _, pow_mod_pow _ _ _ _, witnesses_length _ _ _, ?_, ?_⟩
  · intro i h h'
    simp only [swapValues] at h h' ⊢
    rw [witnesses_getElem]
    have := witness_verifies (G ^ Experiments.factor E 300) N _ i h
    rw [accumulator, List.prod_append, ← pow_mul] at this
    exact this
  · simp only [swapValues]
    rw [Nat.mul_mod, pow_mod_pow, ← Nat.mul_mod, ← pow_add, Nat.div_add_mod']

/-- What `TestNotusParallel` computes: as above, but the new accumulator contains the removed elements where the
inserted ones belong, and the proofs are made without a randomizer. -/
theorem C73_parallel_partial (E : Env) (fuel G N : Nat) (setsize updated : UInt32) (v : SwapRun)
    (h : notusParallel E fuel G N setsize updated = Run.ok v) :
    let U := (Experiments.kept E (setsize - updated).toNat).prod
    let R := (Experiments.removed E updated.toNat).prod
    let I := (Experiments.inserted E updated.toNat).prod
    let r1 := Experiments.factor E 200
    let r2 := Experiments.factor E 300
    v.unchanged = Experiments.kept E (setsize - updated).toNat ∧ v.removeSet = Experiments.removed E updated.toNat ∧
    v.insertSet = Experiments.inserted E updated.toNat ∧
    v.accOri = G ^ (U * R * r1) % N ∧ v.accMid = G ^ (U * R * r1) % N ∧
    v.accOld = G ^ (U * R * r1 * (R * r1)) % N ∧ v.accNew = G ^ (U * R * r1 * (R * r2)) % N ∧
    v.proofs.length = (v.unchanged ++ v.insertSet).length ∧
    (∀ (i : Nat) (h : i < (v.unchanged ++ v.insertSet).length) (h' : i < v.proofs.length),
      verifies N (G ^ (U * I) % N) v.proofs[i] (v.unchanged ++ v.insertSet)[i]) ∧
    v.poke.Q ^ v.poke.l * v.accMid ^ v.poke.remainder % N = v.accMid ^ v.removedRanProd % N := by
  obtain ⟨l, L1, L2, hc, rfl⟩ := (notusParallel_ok_iff E fuel G N setsize updated v).1 h
  refine ⟨rfl, rfl, rfl, rfl, rfl, pow_mod_pow _ _ _ _, pow_mod_pow _ _ _ _, witnesses_length _ _ _, ?_, ?_⟩
  · intro i h h'
    simp only [swapValues] at h h' ⊢
    rw [witnesses_getElem, pow_one]
    have := witness_verifies G N _ i h
    rw [accumulator, List.prod_append] at this
    exact this
  · simp only [swapValues]
    rw [Nat.mul_mod, pow_mod_pow, ← Nat.mul_mod, ← pow_add, Nat.div_add_mod']

/-- A hash function with the constant value 2. -/
def flatEnv : Env where
  sha256 := fun _ => List.replicate 31 0 ++ [13]
  sha256_length := by intro b; rfl
  probablyPrime := fun n => n == 13
  poseidon := fun _ => 2
  poseidon_lt := fun _ => by decide

theorem flat_prime (l : List Bytes) : fsHashToPrime flatEnv 1 l lenMax252 = some 13 := by
  have : wrapNumber (List.replicate 31 0 ++ [13]) lenMax252 = 13 := by decide +kernel
  simp only [fsHashToPrime, fsPrimeLoop, flatEnv, this]
  rfl

theorem flat_hash (b : Bytes) : hashToPrime flatEnv 1 b = some 13 := by
  have : setBytes (List.replicate 31 0 ++ [13]) = 13 := by decide +kernel
  simp only [hashToPrime, hashToPrimeLoop, flatEnv, this]
  rfl

theorem flat_challenges (G N k n : Nat) (h4 : 4 ≤ k + n) (h2 : 2 ≤ n) : Challenges flatEnv 1 G N k n 13 13 13 :=
  ⟨h4, h2, flat_hash _, by decide, flat_prime _, flat_prime _, by decide, by decide⟩

/-- 16 has order 7 modulo 29. -/
theorem pow_sixteen (e : Nat) : 16 ^ e % 29 = 16 ^ (e % 7) % 29 := by
  conv_lhs => rw [← Nat.div_add_mod e 7, pow_add, pow_mul, Nat.mul_mod, Nat.pow_mod]
  rw [show 16 ^ 7 % 29 = 1 by decide, one_pow]
  simp

theorem flat_removed (n : Nat) : (Experiments.removed flatEnv n).prod = (2 + 2 ^ 1023) ^ n := by
  have : Experiments.removed flatEnv n = (List.range n).map (fun _ => 2 + 2 ^ 1023) := rfl
  rw [this, List.map_const', List.prod_replicate, List.length_range]

theorem flat_inserted (n : Nat) : Experiments.inserted flatEnv n = Experiments.removed flatEnv n := rfl

theorem flat_kept_zero : Experiments.kept flatEnv 0 = [] := rfl

theorem flat_factor (r : Nat) : Experiments.factor flatEnv r = 256 := by
  have : (fun i => flatEnv.poseidon [r, i]) = fun _ => 2 := rfl
  rw [Experiments.factor, this]
  decide

/-- The three parts of `Consistent` all fail. -/
def AllPartsFail (N : Nat) (v : SwapRun) : Prop :=
  v.accOld ≠ v.accOri ∧
  (∃ (i : Nat) (h : i < (v.unchanged ++ v.insertSet).length) (h' : i < v.proofs.length),
    ¬ verifies N v.accNew v.proofs[i] (v.unchanged ++ v.insertSet)[i]) ∧
  v.accMid ^ v.removedRanProd % N ≠ v.accOri

/-- In both flows all three parts fail: five users, all of them updated, `G = 16`, `N = 29`. -/
theorem C73_all_parts_fail : ∃ v w : SwapRun, notusMultiSwap flatEnv 1 16 29 5 5 = Run.ok v ∧
    notusParallel flatEnv 1 16 29 5 5 = Run.ok w ∧ AllPartsFail 29 v ∧ AllPartsFail 29 w := by
  have e0 : ((5 : UInt32) - 5).toNat = 0 := by decide
  have e5 : (5 : UInt32).toNat = 5 := by decide
  have hc := flat_challenges 16 29 ((5 : UInt32) - 5).toNat (5 : UInt32).toNat (by decide) (by decide)
  have hv := (notusMultiSwap_ok_iff flatEnv 1 16 29 5 5 _).2 ⟨13, 13, 13, hc, rfl⟩
  have hw := (notusParallel_ok_iff flatEnv 1 16 29 5 5 _).2 ⟨13, 13, 13, hc, rfl⟩
  refine ⟨_, _, hv, hw, ?_, ?_⟩
  · obtain ⟨h1, -, h2, h3, h4, h5, h6, h7, h8, -⟩ := C73_multi_partial _ _ _ _ _ _ _ hv
    have hr := (show (swapValues flatEnv 16 29 (5 - 5 : UInt32).toNat (5 : UInt32).toNat
      (Experiments.inserted flatEnv (5 : UInt32).toNat) (Experiments.factor flatEnv 300) 13 13 13).removedRanProd =
        Experiments.factor flatEnv 200 from rfl)
    rw [AllPartsFail]
    have hlen : 0 < ((swapValues flatEnv 16 29 (5 - 5 : UInt32).toNat (5 : UInt32).toNat
      (Experiments.inserted flatEnv (5 : UInt32).toNat) (Experiments.factor flatEnv 300) 13 13 13).unchanged ++
      (swapValues flatEnv 16 29 (5 - 5 : UInt32).toNat (5 : UInt32).toNat
      (Experiments.inserted flatEnv (5 : UInt32).toNat) (Experiments.factor flatEnv 300) 13 13 13).insertSet).length := by
      rw [h1, h2, e0, e5, List.length_append]
      simp [Experiments.inserted]
    have h9 := h8 0 hlen (by rw [h7]; exact hlen)
    refine ⟨?_, ⟨0, hlen, by rw [h7]; exact hlen, ?_⟩, ?_⟩
    · rw [h5, h3, e0, e5, flat_kept_zero, flat_removed, flat_factor, pow_sixteen, pow_sixteen (_ * _)]
      decide +kernel
    · rw [verifies] at h9 ⊢
      rw [h9, h6, e0, e5, flat_kept_zero, flat_inserted, flat_removed, flat_factor, flat_factor, pow_sixteen,
        pow_sixteen (_ * _)]
      decide +kernel
    · rw [hr, h4, h3, pow_mod_pow, e0, e5, flat_kept_zero, flat_removed, flat_factor, pow_sixteen, pow_sixteen (_ * _)]
      decide +kernel
  · obtain ⟨h1, -, h2, h3, h4, h5, h6, h7, h8, -⟩ := C73_parallel_partial _ _ _ _ _ _ _ hw
    have hr := (show (swapValues flatEnv 16 29 (5 - 5 : UInt32).toNat (5 : UInt32).toNat
      (Experiments.removed flatEnv (5 : UInt32).toNat) 1 13 13 13).removedRanProd =
        Experiments.factor flatEnv 200 from rfl)
    rw [AllPartsFail]
    have hlen : 0 < ((swapValues flatEnv 16 29 (5 - 5 : UInt32).toNat (5 : UInt32).toNat
      (Experiments.removed flatEnv (5 : UInt32).toNat) 1 13 13 13).unchanged ++
      (swapValues flatEnv 16 29 (5 - 5 : UInt32).toNat (5 : UInt32).toNat
      (Experiments.removed flatEnv (5 : UInt32).toNat) 1 13 13 13).insertSet).length := by
      rw [h1, h2, e0, e5, List.length_append]
      simp [Experiments.inserted]
    have h9 := h8 0 hlen (by rw [h7]; exact hlen)
    refine ⟨?_, ⟨0, hlen, by rw [h7]; exact hlen, ?_⟩, ?_⟩
    · rw [h5, h3, e0, e5, flat_kept_zero, flat_removed, flat_factor, pow_sixteen, pow_sixteen (_ * _)]
      decide +kernel
    · rw [verifies] at h9 ⊢
      rw [h9, h6, e0, e5, flat_kept_zero, flat_inserted, flat_removed, flat_factor, flat_factor, pow_sixteen,
        pow_sixteen (_ * _)]
      decide +kernel
    · rw [hr, h4, h3, pow_mod_pow, e0, e5, flat_kept_zero, flat_removed, flat_factor, pow_sixteen, pow_sixteen (_ * _)]
      decide +kernel

theorem C73_violated : ¬ C73_statement := by
  intro h
  obtain ⟨v, -, hv, -, hf, -⟩ := C73_all_parts_fail
  exact hf.1 (h _ _ _ _ _ _ _ (Or.inl hv)).old

/-! ## C76 -/

/-- The largest product grows by less than a factor of two. -/
theorem pow_succ_bound (a n : Nat) (h : n ≤ a) : (a + 1) ^ n * (a - n) ≤ a ^ (n + 1) := by
  induction n with
  | zero => simp
  | succ n ih =>
    have h1 := ih (by omega)
    obtain ⟨d, rfl⟩ : ∃ d, a = n + 1 + d := ⟨a - (n + 1), by omega⟩
    have e1 : n + 1 + d - n = d + 1 := by omega
    have e2 : n + 1 + d - (n + 1) = d := by omega
    rw [e1] at h1
    rw [e2, pow_succ (n + 1 + d + 1) n, pow_succ (n + 1 + d) (n + 1)]
    calc (n + 1 + d + 1) ^ n * (n + 1 + d + 1) * d
        = (n + 1 + d + 1) ^ n * ((n + 1 + d + 1) * d) := by ring
      _ ≤ (n + 1 + d + 1) ^ n * ((d + 1) * (n + 1 + d)) := by
          apply Nat.mul_le_mul_left
          nlinarith
      _ = (n + 1 + d + 1) ^ n * (d + 1) * (n + 1 + d) := by ring
      _ ≤ (n + 1 + d) ^ (n + 1) * (n + 1 + d) := Nat.mul_le_mul_right _ h1

theorem upper_product (n : Nat) (hn : n < 2 ^ 766) : (2 ^ 1023 + 2 ^ 256) ^ n < 2 * (2 ^ 1023) ^ n := by
  have e : (2 : Nat) ^ 1023 + 2 ^ 256 = 2 ^ 256 * (2 ^ 767 + 1) := by
    rw [Nat.mul_add, ← pow_add, Nat.mul_one]
  have e' : (2 : Nat) ^ 1023 = 2 ^ 256 * 2 ^ 767 := by rw [← pow_add]
  have h2 : (2 : Nat) ^ 767 = 2 ^ 766 * 2 := by rw [← pow_succ]
  rw [e, e', mul_pow, mul_pow]
  generalize (2 : Nat) ^ 767 = a at h2
  generalize (2 : Nat) ^ 766 = b at h2 hn
  have h1 := pow_succ_bound a n (by omega)
  have h3 : (a + 1) ^ n < 2 * a ^ n := by
    by_contra h4
    have h5 : 2 * a ^ n * (a - n) ≤ a ^ n * a :=
      le_trans (Nat.mul_le_mul_right _ (Nat.le_of_not_lt h4)) (by rw [← pow_succ]; exact h1)
    have h6 : 0 < a ^ n := Nat.pow_pos (by omega)
    have h7 : a < 2 * (a - n) := by omega
    have := Nat.mul_lt_mul_of_pos_left h7 h6
    nlinarith
  calc (2 ^ 256) ^ n * (a + 1) ^ n < (2 ^ 256) ^ n * (2 * a ^ n) :=
        Nat.mul_lt_mul_of_pos_left h3 (Nat.pow_pos (by positivity))
    _ = _ := by ring

theorem size_between (x k : Nat) (h1 : 2 ^ k ≤ x) (h2 : x < 2 ^ (k + 1)) : x.size = k + 1 := by
  apply le_antisymm
  · exact Nat.size_le.2 h2
  · exact Nat.lt_size.2 h1

theorem prod_between (l : List Nat) (a b : Nat) (h : ∀ x ∈ l, a ≤ x ∧ x ≤ b) :
    a ^ l.length ≤ l.prod ∧ l.prod ≤ b ^ l.length := by
  induction l with
  | nil => simp
  | cons x l ih =>
    obtain ⟨h1, h2⟩ := ih (fun y hy => h y (by simp [hy]))
    obtain ⟨h3, h4⟩ := h x (by simp)
    rw [List.length_cons, List.prod_cons, pow_succ, pow_succ, Nat.mul_comm (a ^ _), Nat.mul_comm (b ^ _)]
    exact ⟨Nat.mul_le_mul h3 h1, Nat.mul_le_mul h4 h2⟩

theorem prod_pos_of (l : List Nat) (h : ∀ x ∈ l, 0 < x) : 0 < l.prod := by
  induction l with
  | nil => simp
  | cons x l ih =>
    rw [List.prod_cons]
    exact Nat.mul_pos (h x (by simp)) (ih (fun y hy => h y (by simp [hy])))

theorem genDIMin_prod (n : Nat) : setProductRecursive (genDIMin n) = (2 ^ 1023) ^ n := by
  rw [setProductRecursive_eq, genDIMin, List.map_const', List.prod_replicate, List.length_range, min1024_eq]

theorem genDIMax_prod (n : Nat) : setProductRecursive (genDIMax n) = (2 ^ 1023 + 2 ^ 256) ^ n := by
  rw [setProductRecursive_eq, genDIMax, List.map_const', List.prod_replicate, List.length_range, min1024_eq,
    Nat.one_shiftLeft]

/-- The two products of `TestRange` bound the product of every set of DI representatives of that size. -/
theorem C76_products_in_range (E : Env) (fuel : Nat) (set : List Bytes) (rep : List Nat)
    (h : genRepresentatives E fuel set diHashFromPoseidon = Run.ok rep) :
    setProductRecursive (genDIMin set.length) ≤ rep.prod ∧ rep.prod ≤ setProductRecursive (genDIMax set.length) := by
  rw [genDIMin_prod, genDIMax_prod, ← C15_one_per_string E fuel set _ rep h]
  apply prod_between
  intro x hx
  obtain ⟨e, he⟩ := di_representative_form E fuel set rep h x hx
  obtain ⟨h1, h2, -, -⟩ := C18_diHash_range E e
  rw [← he] at h1 h2
  clear he
  have h3 : frOrder ≤ 2 ^ 256 := by decide
  generalize (2 : Nat) ^ 1023 = A at *
  generalize (2 : Nat) ^ 256 = B at *
  generalize frOrder = f at *
  exact ⟨h1, by omega⟩

/-- The bit lengths that `TestRange` prints for the lower and the upper product are equal, up to 2^766 elements: the
bit length of the product is the same for all sets of a size. -/
theorem C76_bit_lengths (n : Nat) (hn : n < 2 ^ 766) :
    (testRange n).2.1 = 1023 * n + 1 ∧ (testRange n).2.2 = 1023 * n + 1 := by
  have h1 : (2 : Nat) ^ (1023 * n) = (2 ^ 1023) ^ n := pow_mul _ _ _
  have h2 : (2 : Nat) ^ (1023 * n + 1) = 2 * (2 ^ 1023) ^ n := by rw [pow_succ, h1, Nat.mul_comm]
  have h3 := upper_product n hn
  have h4 : (2 ^ 1023 : Nat) ^ n ≤ (2 ^ 1023 + 2 ^ 256) ^ n := Nat.pow_le_pow_left (Nat.le_add_right _ _) n
  have h5 : 0 < (2 ^ 1023 : Nat) ^ n := Nat.pow_pos (by positivity)
  simp only [testRange, genDIMin_prod, genDIMax_prod]
  have h6 : ∀ x : Nat, 0 < x → x < 2 * x := by intros; omega
  exact ⟨size_between _ _ h1.le (lt_of_lt_of_eq (h6 _ h5) h2.symm),
    size_between _ _ (h1.le.trans h4) (lt_of_lt_of_eq h3 h2.symm)⟩

/-- The product of `n` DI representatives has exactly `1023 n + 1` bits. -/
theorem C76_product_bit_length (E : Env) (fuel : Nat) (set : List Bytes) (rep : List Nat) (hn : set.length < 2 ^ 766)
    (h : genRepresentatives E fuel set diHashFromPoseidon = Run.ok rep) :
    (setProductRecursiveFast rep).size = 1023 * set.length + 1 := by
  obtain ⟨h1, h2⟩ := C76_products_in_range E fuel set rep h
  obtain ⟨h3, h4⟩ := C76_bit_lengths set.length hn
  rw [setProductRecursiveFast_eq]
  exact le_antisymm (le_trans (Nat.size_le_size h2) h4.le) (le_trans h3.ge (Nat.size_le_size h1))

theorem pow_add_lower (A B n : Nat) : A ^ (n + 1) + (n + 1) * (B * A ^ n) ≤ (A + B) ^ (n + 1) := by
  induction n with
  | zero => simp
  | succ n ih =>
    calc A ^ (n + 1 + 1) + (n + 1 + 1) * (B * A ^ (n + 1))
        ≤ (A ^ (n + 1) + (n + 1) * (B * A ^ n)) * (A + B) := by
          have : (A ^ (n + 1) + (n + 1) * (B * A ^ n)) * (A + B) =
            A ^ (n + 1 + 1) + (n + 1 + 1) * (B * A ^ (n + 1)) + (n + 1) * (B * B * A ^ n) := by ring
          rw [this]; exact Nat.le_add_right _ _
      _ ≤ (A + B) ^ (n + 1) * (A + B) := Nat.mul_le_mul_right _ ih
      _ = _ := by rw [pow_succ _ (n + 1)]

theorem pow_add_upper (A B n : Nat) : (A + B) ^ (n + 1) ≤ A ^ (n + 1) + (n + 1) * (B * (A + B) ^ n) := by
  induction n with
  | zero => simp
  | succ n ih =>
    have h1 : A ^ (n + 1) ≤ (A + B) ^ (n + 1) := Nat.pow_le_pow_left (Nat.le_add_right _ _) _
    calc (A + B) ^ (n + 1 + 1) = (A + B) ^ (n + 1) * A + (A + B) ^ (n + 1) * B := by rw [pow_succ _ (n + 1)]; ring
      _ ≤ (A ^ (n + 1) + (n + 1) * (B * (A + B) ^ n)) * A + (A + B) ^ (n + 1) * B :=
          Nat.add_le_add_right (Nat.mul_le_mul_right _ ih) _
      _ = A ^ (n + 1 + 1) + (n + 1) * (B * ((A + B) ^ n * A)) + (A + B) ^ (n + 1) * B := by ring
      _ ≤ A ^ (n + 1 + 1) + (n + 1) * (B * ((A + B) ^ n * (A + B))) + (A + B) ^ (n + 1) * B := by gcongr; omega
      _ = _ := by ring

/-- The difference of the two products, which `TestRange` prints first: its bit length is known up to one bit. -/
theorem C76_difference (n : Nat) (hn : n + 1 < 2 ^ 766) :
    (testRange (n + 1)).1 = 1023 * n + 256 + (n + 1).size ∨ (testRange (n + 1)).1 = 1023 * n + 256 + (n + 1).size + 1 := by
  have hu : ((2 : Nat) ^ 1023 + 2 ^ 256) ^ n < 2 * (2 ^ 1023) ^ n := upper_product n (by omega)
  have h1 := pow_add_lower (2 ^ 1023) (2 ^ 256) n
  have h2 := pow_add_upper (2 ^ 1023) (2 ^ 256) n
  have e : ((2 : Nat) ^ 1023) ^ n = 2 ^ (1023 * n) := (pow_mul _ _ _).symm
  simp only [testRange, genDIMin_prod, genDIMax_prod]
  obtain ⟨k, hk⟩ : ∃ k, (n + 1).size = k + 1 := ⟨(n + 1).size - 1, by
    have : 0 < (n + 1).size := Nat.size_pos.2 (by omega)
    omega⟩
  have hl : 2 ^ k ≤ n + 1 := Nat.lt_size.1 (by omega)
  have hh : n + 1 < 2 ^ (k + 1) := Nat.size_le.1 (by omega)
  rw [hk]
  have lo : 2 ^ (1023 * n + 256 + k) ≤ ((2 : Nat) ^ 1023 + 2 ^ 256) ^ (n + 1) - (2 ^ 1023) ^ (n + 1) := by
    refine le_trans ?_ (Nat.le_sub_of_add_le' h1)
    rw [e, pow_add, pow_add]
    calc 2 ^ (1023 * n) * 2 ^ 256 * 2 ^ k ≤ 2 ^ (1023 * n) * 2 ^ 256 * (n + 1) := Nat.mul_le_mul_left _ hl
      _ = _ := by ring
  have hi : ((2 : Nat) ^ 1023 + 2 ^ 256) ^ (n + 1) - (2 ^ 1023) ^ (n + 1) < 2 ^ (1023 * n + 256 + k + 1 + 1) := by
    refine lt_of_le_of_lt (Nat.sub_le_of_le_add (h2.trans (Nat.add_comm _ _).le)) ?_
    calc (n + 1) * (2 ^ 256 * (2 ^ 1023 + 2 ^ 256) ^ n) ≤ (n + 1) * (2 ^ 256 * (2 * (2 ^ 1023) ^ n)) := by
          gcongr
      _ < 2 ^ (k + 1) * (2 ^ 256 * (2 * (2 ^ 1023) ^ n)) := by
          apply Nat.mul_lt_mul_of_pos_right hh
          positivity
      _ = _ := by
          have e2 : ∀ a b c : Nat, (2 : Nat) ^ (a + b + c + 1 + 1) = 2 ^ (c + 1) * (2 ^ b * (2 * 2 ^ a)) := by
            intro a b c
            ring
          rw [e, e2]
  have s1 := Nat.lt_size.2 lo
  have s2 := Nat.size_le.2 hi
  clear lo hi h1 h2 hu hn e
  omega

example : (testRange 2).1 = 1281 ∧ (testRange 2).2 = (2047, 2047) ∧ (1000000 : Nat) < 2 ^ 766 := by decide +kernel

/-! ## C77 -/

/-- The values that `TestPoKE` prints agree: `Q^l g^r` is the accumulator. -/
theorem C77_testPoKE (E : Env) (fuel num G N acc test : Nat) (h : testPoKERound E fuel num G N = Run.ok (acc, test)) :
    test = acc ∧ ∃ rep, genRepresentatives E fuel (genBenchSet num) hashToPrimeFromSha256 = Run.ok rep ∧
      acc = accumulator G N rep := by
  rw [testPoKERound, run_bind_ok_iff] at h
  obtain ⟨rep, h1, h⟩ := h
  rw [run_bind_ok_iff] at h
  obtain ⟨l, h2, h⟩ := h
  simp only at h
  split_ifs at h with hl hN
  · rw [liftRes_ok_iff] at h; cases h
  · rw [liftRes_ok_iff] at h; cases h
  · have h : some (Except.ok _) = some (Except.ok (acc, test)) := h
    injection h with h
    injection h with h
    injection h with h3 h4
    simp only [accumulateNewPow, expMod, setProductRecursiveFast_eq] at h3 h4
    refine ⟨?_, rep, h1, h3.symm⟩
    rw [← h3, ← h4, pow_mod_pow, ← Nat.mul_mod, ← pow_add, Nat.div_add_mod']

/-- It returns a value whenever all the primes are found, they are not 0 and `N` is not 0. -/
theorem C77_testPoKE_returns (E : Env) (fuel num G N : Nat) (rep : List Nat) (hN : 0 < N) (l : Nat) (hl : 0 < l)
    (h1 : genRepresentatives E fuel (genBenchSet num) hashToPrimeFromSha256 = Run.ok rep)
    (h2 : hashToPrime E fuel (itoa G ++ itoa (accumulator G N rep)) = some l) :
    ∃ v, testPoKERound E fuel num G N = Run.ok v := by
  rw [testPoKERound, h1, run_ok_bind]
  have e : accumulateNewPow G (setProductRecursiveFast rep) N = accumulator G N rep := by
    rw [accumulateNewPow, expMod, setProductRecursiveFast_eq, accumulator]
  simp only [e, h2, show ∀ x : Nat, liftLoop (some x) = Run.ok x from fun _ => rfl, run_ok_bind]
  rw [if_neg (by omega), if_neg (by omega)]
  exact ⟨_, rfl⟩

/-- The check that is commented out in `PoKE` would accept exactly the true statements. -/
theorem C77_poke_check (E : Env) (fuel base exp newAcc N : Nat) (p : PokeRun)
    (h : pokeExperiment E fuel base exp newAcc N = Run.ok p) :
    hashToPrime E fuel (natBytes newAcc ++ natBytes base) = some p.l ∧
    p.remainder < p.l ∧ (p.Q ^ p.l * base ^ p.remainder % N = newAcc ↔ base ^ exp % N = newAcc) := by
  obtain ⟨h1, h2, h3, h4, h5⟩ := (pokeExperiment_ok_iff E fuel base exp newAcc N p).1 h
  refine ⟨h1, by rw [h4]; exact Nat.mod_lt _ h2, ?_⟩
  rw [h5, h4, Nat.mul_mod, pow_mod_pow, ← Nat.mul_mod, ← pow_add, Nat.div_add_mod']

/-- A run over three elements. -/
example : ∃ v, testPoKERound flatEnv 1 3 16 29 = Run.ok v := by
  refine C77_testPoKE_returns flatEnv 1 3 16 29 [13, 13, 13] (by decide) 13 (by decide) ?_ (flat_hash _)
  rw [C15_default_is_hashToPrime _ _ _ _ (by decide)]
  exact .cons (flat_hash _) (.cons (flat_hash _) (.cons (flat_hash _) .nil))

/-! ## C78 -/

/-- The precompute table has enough words for the exponent of the accumulator. -/
def C78_statement : Prop :=
  ∀ (E : Env) (fuel G N : Nat) (setsize updated : UInt32) (v : SwapRun), updated ≤ setsize →
    (notusMultiSwap E fuel G N setsize updated = Run.ok v ∨ notusParallel E fuel G N setsize updated = Run.ok v) →
    v.originalProd < 2 ^ (64 * (tableWords setsize).toNat)

theorem rep_lt (E : Env) (l : List Nat) : E.poseidon l + 2 ^ 1023 < 2 ^ 1024 := by
  have := (C18_diHash_range E l).2.2.1
  rwa [diHashPoseidon, min1024_eq] at this

theorem factor_lt (E : Env) (r : Nat) : Experiments.factor E r < 2 ^ 2032 := by
  have h := prod_between ((List.range 8).map (fun i => E.poseidon [r, i])) 0 (frOrder - 1) (by
    intro x hx
    obtain ⟨i, -, rfl⟩ := List.mem_map.1 hx
    have := E.poseidon_lt [r, i]
    omega)
  rw [Experiments.factor]
  refine lt_of_le_of_lt h.2 ?_
  rw [List.length_map, List.length_range]
  decide +kernel

theorem swap_original_lt (E : Env) (k n : Nat) :
    (Experiments.kept E k).prod * (Experiments.removed E n).prod * Experiments.factor E 200 <
      2 ^ (1024 * (k + n) + 2032) := by
  have h1 := (prod_between (Experiments.kept E k) 0 (2 ^ 1024) (by
    intro x hx
    obtain ⟨i, -, rfl⟩ := List.mem_map.1 hx
    exact ⟨Nat.zero_le _, (rep_lt E _).le⟩)).2
  have h2 := (prod_between (Experiments.removed E n) 0 (2 ^ 1024) (by
    intro x hx
    obtain ⟨i, -, rfl⟩ := List.mem_map.1 hx
    exact ⟨Nat.zero_le _, (rep_lt E _).le⟩)).2
  have h3 := factor_lt E 200
  rw [Experiments.kept, List.length_map, List.length_range, ← pow_mul] at h1
  rw [Experiments.removed, List.length_map, List.length_range, ← pow_mul] at h2
  rw [Nat.mul_add, pow_add, pow_add]
  exact Nat.mul_lt_mul_of_le_of_lt (Nat.mul_le_mul h1 h2) h3 (by positivity)

/-- Below 2^21 elements the table is large enough. -/
theorem C78_table_partial (E : Env) (fuel G N : Nat) (setsize updated : UInt32) (v : SwapRun)
    (hs : setsize.toNat < 2 ^ 21) (hu : updated ≤ setsize)
    (h : notusMultiSwap E fuel G N setsize updated = Run.ok v ∨ notusParallel E fuel G N setsize updated = Run.ok v) :
    v.originalProd < 2 ^ (64 * (tableWords setsize).toNat) := by
  have hv : 2 ≤ updated.toNat ∧ v.originalProd = (Experiments.kept E (setsize - updated).toNat).prod *
      (Experiments.removed E updated.toNat).prod * Experiments.factor E 200 := by
    rcases h with h | h
    · obtain ⟨l, L1, L2, hc, rfl⟩ := (notusMultiSwap_ok_iff E fuel G N setsize updated v).1 h
      exact ⟨hc.users, rfl⟩
    · obtain ⟨l, L1, L2, hc, rfl⟩ := (notusParallel_ok_iff E fuel G N setsize updated v).1 h
      exact ⟨hc.users, rfl⟩
  have hk : (setsize - updated).toNat + updated.toNat = setsize.toNat := by
    rw [UInt32.toNat_sub_of_le _ _ hu]
    have := UInt32.le_iff_toNat_le.1 hu
    omega
  have hu' := UInt32.le_iff_toNat_le.1 hu
  have ht : 64 * (tableWords setsize).toNat = 2048 * setsize.toNat := by
    rw [tableWords, UInt32.toNat_div, UInt32.toNat_mul]
    have e1 : (2048 : UInt32).toNat = 2048 := rfl
    have e2 : (64 : UInt32).toNat = 64 := rfl
    rw [e1, e2]
    omega
  rw [hv.2]
  refine lt_of_lt_of_le (swap_original_lt _ _ _) ?_
  rw [hk, ht]
  exact Nat.pow_le_pow_right (by decide) (by omega)

/-- With 2^21 elements `setsize * 2048` wraps to 0 and the table is empty. -/
theorem C78_violated : ¬ C78_statement := by
  intro h
  have hc := flat_challenges 16 29 ((2097152 : UInt32) - 2).toNat (2 : UInt32).toNat (by decide) (by decide)
  have hv := (notusMultiSwap_ok_iff flatEnv 1 16 29 2097152 2 _).2 ⟨13, 13, 13, hc, rfl⟩
  have h1 := h flatEnv 1 16 29 2097152 2 _ (by decide) (Or.inl hv)
  have h2 : (tableWords 2097152).toNat = 0 := by decide
  rw [h2, Nat.mul_zero, pow_zero] at h1
  obtain ⟨m, hm⟩ : ∃ m, m = ((2097152 : UInt32) - 2).toNat := ⟨_, rfl⟩
  rw [← hm] at h1
  have h3 : 0 < (Experiments.kept flatEnv m).prod := by
    apply prod_pos_of
    intro x hx
    obtain ⟨i, -, rfl⟩ := List.mem_map.1 hx
    positivity
  have h4 : 0 < (Experiments.removed flatEnv (2 : UInt32).toNat).prod := by
    apply prod_pos_of
    intro x hx
    obtain ⟨i, -, rfl⟩ := List.mem_map.1 hx
    positivity
  have h5 : 0 < Experiments.factor flatEnv 200 := by rw [flat_factor]; decide
  have := Nat.mul_pos (Nat.mul_pos h3 h4) h5
  have h6 : (Experiments.kept flatEnv m).prod * (Experiments.removed flatEnv (2 : UInt32).toNat).prod *
    Experiments.factor flatEnv 200 < 1 := h1
  omega

/-! ## C79 -/

/-- The update set assembled by the experiments is honest. -/
def C79_statement : Prop :=
  ∀ (E : Env) (fuel G N : Nat) (setsize updated : UInt32) (v : SwapRun), updated.toNat ≤ 2 ^ 31 →
    (notusMultiSwap E fuel G N setsize updated = Run.ok v ∨ notusParallel E fuel G N setsize updated = Run.ok v) →
    HonestUpdate E v.ret

theorem oldHash_testSet (E : Env) (n L1 L2 i : Nat) (h : i < n) :
    oldHash E (testSet E n L1 L2) i = Experiments.oldRecord E i := by
  simp only [oldHash, testSet, col, getD_map_range _ _ n i h, testNumber_user]
  have hu := user_lt i
  rw [Int.emod_eq_of_lt (by omega) (by omega), Int.toNat_natCast]
  rfl

theorem newHash_testSet (E : Env) (n L1 L2 i : Nat) (h : i < n) :
    newHash E (testSet E n L1 L2) i = Experiments.newRecord E i := by
  rw [newHash, oldHash_testSet E n L1 L2 i h]
  simp only [testSet, col, getD_map_range _ _ n i h, testNumber_user]
  rfl

theorem testSet_flowSet (E : Env) (n L1 L2 : Nat) : testSet E n L1 L2 =
    flowSet n L1 L2 ((Experiments.removed E n).prod * Experiments.factor E 200)
      ((Experiments.inserted E n).prod * Experiments.factor E 300) := by
  have e1 : (∏ i ∈ Finset.range n, (oldHash E (testSet E n L1 L2) i + 2 ^ 1023)) = (Experiments.removed E n).prod := by
    rw [Experiments.removed, list_range_prod]
    exact Finset.prod_congr rfl (fun i hi => by rw [oldHash_testSet E n L1 L2 i (Finset.mem_range.1 hi)])
  have e2 : (∏ i ∈ Finset.range n, (newHash E (testSet E n L1 L2) i + 2 ^ 1023)) = (Experiments.inserted E n).prod := by
    rw [Experiments.inserted, list_range_prod]
    exact Finset.prod_congr rfl (fun i hi => by rw [newHash_testSet E n L1 L2 i (Finset.mem_range.1 hi)])
  rw [← e1, ← e2, ← factor_eq, ← factor_eq]
  rfl

/-- `TestNotusMultiSwap` assembles the same honest set as `GenTestSet`, whatever accumulator is given to the latter. -/
theorem C79_multi_partial (E : Env) (fuel G N : Nat) (setsize updated : UInt32) (v : SwapRun) (accMid : Int)
    (h : notusMultiSwap E fuel G N setsize updated = Run.ok v) :
    genTestSet E fuel updated G N accMid = Run.ok v.ret ∧ (updated.toNat ≤ 2 ^ 31 → HonestUpdate E v.ret) := by
  obtain ⟨l, L1, L2, hc, rfl⟩ := (notusMultiSwap_ok_iff E fuel G N setsize updated v).1 h
  have hg : genTestSet E fuel updated G N accMid = Run.ok (testSet E updated.toNat L1 L2) := by
    rw [genTestSet_ok_iff, intString_nat, intString_nat]
    exact ⟨L1, L2, hc.first, hc.second, hc.first_pos, hc.second_pos, hc.users, rfl⟩
  have e : (swapValues E G N (setsize - updated).toNat updated.toNat (Experiments.inserted E updated.toNat)
      (Experiments.factor E 300) l L1 L2).ret = testSet E updated.toNat L1 L2 := (testSet_flowSet _ _ _ _).symm
  rw [e]
  exact ⟨hg, fun hn => (C64_genTestSet_partial E fuel updated G N accMid _ hn hg).2.2.2.1⟩

/-- `TestNotusParallel` has everything right but the second remainder, which is the one of the removed elements. -/
theorem C79_parallel_partial (E : Env) (fuel G N : Nat) (setsize updated : UInt32) (v : SwapRun) (accMid : Int)
    (h : notusParallel E fuel G N setsize updated = Run.ok v) :
    ∃ u, genTestSet E fuel updated G N accMid = Run.ok u ∧ v.ret = { u with remainderR2 :=
      (((Experiments.removed E updated.toNat).prod * Experiments.factor E 300 : Nat) : Int) % v.ret.challengeL2 } := by
  obtain ⟨l, L1, L2, hc, rfl⟩ := (notusParallel_ok_iff E fuel G N setsize updated v).1 h
  refine ⟨testSet E updated.toNat L1 L2, ?_, ?_⟩
  · rw [genTestSet_ok_iff, intString_nat, intString_nat]
    exact ⟨L1, L2, hc.first, hc.second, hc.first_pos, hc.second_pos, hc.users, rfl⟩
  · rw [testSet_flowSet]
    rfl

theorem sum_prime (l : List Bytes) : fsHashToPrime sumEnv 1 l lenMax252 = some 13 := by
  have : wrapNumber (List.replicate 31 0 ++ [13]) lenMax252 = 13 := by decide +kernel
  simp only [fsHashToPrime, fsPrimeLoop, sumEnv, this]
  rfl

theorem sum_hash (b : Bytes) : hashToPrime sumEnv 1 b = some 13 := by
  have : setBytes (List.replicate 31 0 ++ [13]) = 13 := by decide +kernel
  simp only [hashToPrime, hashToPrimeLoop, sumEnv, this]
  rfl

theorem sum_challenges (G N k n : Nat) (h4 : 4 ≤ k + n) (h2 : 2 ≤ n) : Challenges sumEnv 1 G N k n 13 13 13 :=
  ⟨h4, h2, sum_hash _, by decide, sum_prime _, sum_prime _, by decide, by decide⟩

/-- Four users, all of them updated: the second remainder is 0 where it must not be. -/
theorem C79_violated : ¬ C79_statement := by
  intro h
  have hc := sum_challenges 16 29 ((4 : UInt32) - 4).toNat (4 : UInt32).toNat (by decide) (by decide)
  have hw := (notusParallel_ok_iff sumEnv 1 16 29 4 4 _).2 ⟨13, 13, 13, hc, rfl⟩
  have h1 := (h sumEnv 1 16 29 4 4 _ (by decide) (Or.inr hw)).remainder2
  revert h1
  decide +kernel

/-- A run of each flow. -/
example : (∃ v, notusMultiSwap sumEnv 1 16 29 9 4 = Run.ok v) ∧ (∃ v, notusParallel sumEnv 1 16 29 9 4 = Run.ok v) ∧
    (9 : UInt32).toNat < 2 ^ 21 :=
  ⟨⟨_, (notusMultiSwap_ok_iff sumEnv 1 16 29 9 4 _).2 ⟨13, 13, 13, sum_challenges _ _ _ _ (by decide) (by decide), rfl⟩⟩,
   ⟨_, (notusParallel_ok_iff sumEnv 1 16 29 9 4 _).2 ⟨13, 13, 13, sum_challenges _ _ _ _ (by decide) (by decide), rfl⟩⟩,
   by decide⟩

end Verif.Props
