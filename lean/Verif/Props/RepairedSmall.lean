import Verif.Props.MulExp
import Verif.Props.Setup
import Verif.Props.Precompute
import Verif.Props.Accumulator

/-!
# Small functions with their defect removed (C11, C24, C26, C28, C29, C33, C34)

For each of these properties the code has a counterexample. Here the function is changed in one place and the property,
as it was stated for the code, is proved. So the statements ask for nothing that a small change cannot give.
-/

namespace Verif.Props
open Verif.Go Verif.Model Verif.Spec Verif.Lemmas

/-! ## C26: `SimpleExp` with `i += 63` in the body of the loop -/

/-- accumulator/mulexp.go:25-37 with `i += 63` in line 36, so that the loop header makes it 64. -/
def simpleExpLoopRepaired (n : Int) (bits : List Nat) (bitLen : Nat) (i : Nat) (s : Int × Int) : Res Int :=
  if i < bitLen then do
    let w ← index bits (i / 64)
    simpleExpLoopRepaired n bits bitLen (i + 63 + 1) (simpleExpWord n w 64 s)
  else .ok s.1
termination_by bitLen - i

/-- accumulator/mulexp.go:11-40 `SimpleExp` with this loop. -/
def simpleExpRepaired (g x n : Int) : Res Int :=
  if g ≤ 1 ∨ n ≤ 1 ∨ x < 1 then goPanic "invalid input for function SimpleExp"
  else simpleExpLoopRepaired n (bitsOf x.natAbs) x.natAbs.size 0 (1, g)

theorem simpleExpLoopRepaired_spec (g n : Int) (hn : 1 < n) (x : Nat) :
    ∀ (d k : Nat), d = (x.size + 63) / 64 - k → ∀ (o c : Int), 0 ≤ o → o < n →
      o ≡ g ^ (x % 2 ^ (64 * k)) [ZMOD n] → c ≡ g ^ (2 ^ (64 * k)) [ZMOD n] →
      simpleExpLoopRepaired n (bitsOf x) x.size (64 * k) (o, c) = .ok (g ^ x % n) := by
  have hdone : ∀ (k : Nat) (o c : Int), ¬ 64 * k < x.size → 0 ≤ o → o < n → o ≡ g ^ (x % 2 ^ (64 * k)) [ZMOD n] →
      simpleExpLoopRepaired n (bitsOf x) x.size (64 * k) (o, c) = .ok (g ^ x % n) := by
    intro k o c hk h0 h1 ho
    rw [simpleExpLoopRepaired, if_neg hk]
    have hx : x % 2 ^ (64 * k) = x :=
      Nat.mod_eq_of_lt (lt_of_lt_of_le (Nat.lt_size_self x) (Nat.pow_le_pow_right (by norm_num) (by omega)))
    rw [hx] at ho
    unfold Int.ModEq at ho
    rw [Int.emod_eq_of_lt h0 h1] at ho
    rw [ho]
  intro d
  induction d with
  | zero => intro k hd o c h0 h1 ho _; exact hdone k o c (by omega) h0 h1 ho
  | succ d ih =>
    intro k hd o c h0 h1 ho hc
    by_cases hlt : 64 * k < x.size
    · rw [simpleExpLoopRepaired, if_pos hlt]
      have hq : 64 * k / 64 = k := by omega
      rw [hq]
      have hidx : k < (bitsOf x).length := size_le_words x _ (by omega)
      unfold index
      rw [bitsOf_getElem? x _ hidx]
      simp only [bind, Except.bind]
      have hw : wordAt x k % 2 ^ 64 = wordAt x k := by unfold wordAt; rw [Nat.mod_mod]
      obtain ⟨s1, s2, s3, s4⟩ := simpleExpWord_spec n hn (wordAt x k) 64 o c ⟨h0, h1⟩
      rw [show 64 * k + 63 + 1 = 64 * (k + 1) by ring]
      rw [← Prod.mk.eta (p := simpleExpWord n (wordAt x k) 64 (o, c))]
      apply ih (k + 1) (by omega) _ _ s3 s4
      · rw [← sum_words, Finset.sum_range_succ, sum_words, pow_add]
        refine s1.trans (ho.mul ?_)
        rw [hw, mul_comm (wordAt x _), pow_mul]
        exact hc.pow _
      · refine s2.trans ?_
        rw [show 64 * (k + 1) = 64 * k + 64 by ring, pow_add, pow_mul g]
        exact hc.pow _
    · exact hdone k o c hlt h0 h1 ho

/-- C26 for the repaired loop: the statement of C26 with `simpleExpRepaired`. -/
theorem C26_repaired_partial (g x n : Int) :
    (1 < g → 1 < n → 1 ≤ x → simpleExpRepaired g x n = .ok (g ^ x.natAbs % n)) ∧
    ((g ≤ 1 ∨ n ≤ 1 ∨ x < 1) → (simpleExpRepaired g x n).panics = true) := by
  constructor
  · intro hg hn hx
    unfold simpleExpRepaired
    rw [if_neg (by omega)]
    exact simpleExpLoopRepaired_spec g n hn x.natAbs _ 0 rfl 1 g (by omega) hn (by simp [Nat.mod_one]) (by simp)
  · intro h
    unfold simpleExpRepaired
    rw [if_pos h]; rfl

/-- An exponent of more than 64 bits. -/
example : simpleExpRepaired 3 (2 ^ 64) 7 = .ok (3 ^ (2 ^ 64 : Int).natAbs % 7) :=
  (C26_repaired_partial 3 (2 ^ 64) 7).1 (by decide) (by decide) (by decide)

/-! ## C28 and C29: `CommonBits` over 64 bits, operands set with `SetBits` -/

/-- accumulator/mulexp.go:45-79 with `i < 64` in line 70, and with `a.SetBits` and `b.SetBits` after the loop. -/
def gcbRepaired (a b : List (BitVec 64)) : List (BitVec 64) × List (BitVec 64) × List (BitVec 64) :=
  let maxBitLen := if a.length > b.length then b.length else a.length
  let ret := (List.range maxBitLen).map (fun i => commonBitsLoop (a.getD i 0) (b.getD i 0) 64)
  let sub := fun (l : List (BitVec 64)) => l.mapIdx (fun i w => if i < maxBitLen then w - ret.getD i 0 else w)
  (normWords ret, normWords (sub a), normWords (sub b))

theorem gcbRepaired_eq (a b : List (BitVec 64)) :
    gcbRepaired a b = (normWords (List.zipWith (fun v w => commonBitsLoop v w 64) a b),
      normWords (subPart a (List.zipWith (fun v w => commonBitsLoop v w 64) a b)),
      normWords (subPart b (List.zipWith (fun v w => commonBitsLoop v w 64) a b))) := by
  have hmin : (if a.length > b.length then b.length else a.length) = min a.length b.length := by
    split <;> omega
  have hret : (List.range (min a.length b.length)).map (fun i => commonBitsLoop (a.getD i 0) (b.getD i 0) 64)
      = List.zipWith (fun v w => commonBitsLoop v w 64) a b := by
    apply List.ext_getElem
    · simp
    · intro i h1 h2
      simp at h1
      simp [h1.1, h1.2]
  have hlen : min a.length b.length = (List.zipWith (fun v w => commonBitsLoop v w 64) a b).length := by simp
  unfold gcbRepaired
  simp only [hmin, hret]
  rw [hlen, mapIdx_eq_subPart, mapIdx_eq_subPart]

theorem zip_testBit_all (a b : List (BitVec 64)) (j : Nat) :
    (wordsVal (List.zipWith (fun v w => commonBitsLoop v w 64) a b)).testBit j =
      ((wordsVal a).testBit j && (wordsVal b).testBit j) := by
  induction a generalizing b j with
  | nil => simp [wordsVal]
  | cons w l ih =>
    cases b with
    | nil => simp [wordsVal]
    | cons v m =>
      rw [List.zipWith_cons_cons, wordsVal_testBit, wordsVal_testBit, wordsVal_testBit]
      split
      · rename_i hj
        rw [commonBitsLoop_getLsbD w v 64 (by omega)]
        simp [hj]
      · exact ih m (j - 64)

/-- C28 for the repaired function, and what C27 says about the operands. -/
theorem C28_repaired_partial (a b : List (BitVec 64)) :
    wordsVal (gcbRepaired a b).1 = wordsVal a &&& wordsVal b ∧
    wordsVal (gcbRepaired a b).2.1 + (wordsVal a &&& wordsVal b) = wordsVal a ∧
    wordsVal (gcbRepaired a b).2.2 + (wordsVal a &&& wordsVal b) = wordsVal b := by
  have h1 : wordsVal (List.zipWith (fun v w => commonBitsLoop v w 64) a b) = wordsVal a &&& wordsVal b := by
    apply Nat.eq_of_testBit_eq
    intro j
    rw [zip_testBit_all, Nat.testBit_and]
  rw [gcbRepaired_eq]
  simp only [normWords_val]
  refine ⟨h1, ?_, ?_⟩
  · rw [← h1]
    refine subPart_val _ _ (by simp) ?_
    intro i hi j
    simp only [List.length_zipWith] at hi
    rw [List.getElem_zipWith, commonBitsLoop_getLsbD _ _ 64 (by omega)]
    simp only [Bool.and_eq_true]
    rintro ⟨-, h, -⟩; exact h
  · rw [← h1]
    refine subPart_val _ _ (by simp) ?_
    intro i hi j
    simp only [List.length_zipWith] at hi
    rw [List.getElem_zipWith, commonBitsLoop_getLsbD _ _ 64 (by omega)]
    simp only [Bool.and_eq_true]
    rintro ⟨-, -, h⟩; exact h

theorem signOf_normalised (l : List (BitVec 64)) (hl : Normalised l) : signOf l = 0 ↔ wordsVal l = 0 := by
  cases l with
  | nil => exact ⟨fun _ => rfl, fun _ => rfl⟩
  | cons w m =>
    have h1 := (normalised_iff (w :: m) (by simp)).1 hl
    have h2 : 0 < 2 ^ (64 * ((w :: m).length - 1)) := Nat.two_pow_pos _
    have h3 : signOf (w :: m) = 1 := rfl
    rw [h3]
    constructor
    · intro h
      cases h
    · intro h
      omega

/-- C29 for the repaired function: operands stay normalised and `Sign` reports their values. -/
theorem C29_repaired_partial (a b : List (BitVec 64)) :
    (Normalised (gcbRepaired a b).2.1 ∧ Normalised (gcbRepaired a b).2.2) ∧
    (signOf (gcbRepaired a b).2.1 = 0 ↔ wordsVal (gcbRepaired a b).2.1 = 0) ∧
    (signOf (gcbRepaired a b).2.2 = 0 ↔ wordsVal (gcbRepaired a b).2.2 = 0) := by
  have h : Normalised (gcbRepaired a b).2.1 ∧ Normalised (gcbRepaired a b).2.2 := by
    rw [gcbRepaired_eq]
    exact ⟨normWords_normalised _, normWords_normalised _⟩
  exact ⟨h, signOf_normalised _ h.1, signOf_normalised _ h.2⟩

/-- The counterexamples of C28 and C29. -/
example : gcbRepaired [0x100000000] [0x100000000] = ([0x100000000], [], []) ∧
    gcbRepaired [1] [1] = ([1], [], []) ∧ gcbRepaired [0b1011, 5] [0b1100] = ([0b1000], [0b0011, 5], [0b0100]) := by
  decide

/-! ## C24: `testRemainder` with `return false` in its second branch -/

/-- accumulator/common.go:295-304 `testRemainder` with two different answers. -/
def testRemainderRepaired (input modulo : Int) : Bool :=
  if input % modulo ≠ (modulo - 1) / 2 then true else false

/-- accumulator/common.go:308-344 `safePrimeSieve` with this test. -/
def safePrimeSieveRepaired (input : Int) : Bool :=
  [3, 5, 7, 11, 13, 17, 19, 23, 29, 31, 37].all (fun r => testRemainderRepaired input r)

/-- C24 for the repaired test: the sieve rejects exactly the numbers `x` for which `2x+1` has a small factor, and so no
candidate is dropped for which `2x+1` is a prime above 37. -/
theorem C24_repaired_partial (x : Int) :
    (safePrimeSieveRepaired x = true ↔ sieveSpec x) ∧
    ∀ p : Nat, p.Prime → 37 < p → 2 * x + 1 = p → safePrimeSieveRepaired x = true := by
  have h1 : safePrimeSieveRepaired x = true ↔ sieveSpec x := by
    unfold safePrimeSieveRepaired sieveSpec
    rw [List.all_eq_true]
    refine forall₂_congr fun r hr => ?_
    have hr' : 0 < r ∧ r % 2 = 1 := by
      revert r; decide
    rw [← C24_congruence x r hr'.1 hr'.2]
    unfold testRemainderRepaired
    by_cases h : x % r = (r - 1) / 2 <;> simp [h]
  refine ⟨h1, fun p hp h37 hx => h1.2 fun r hr hd => ?_⟩
  rw [hx] at hd
  have hr' : 1 < r ∧ r ≤ 37 := by
    clear hd
    revert r; decide
  obtain ⟨k, rfl⟩ : ∃ k : Nat, r = k := ⟨r.toNat, by omega⟩
  have hk := (Nat.dvd_prime hp).1 (Int.natCast_dvd_natCast.1 hd)
  omega

example : safePrimeSieveRepaired 7 = false ∧ safePrimeSieveRepaired 41 = true ∧ Nat.Prime 83 := by
  refine ⟨by decide, by decide, by norm_num⟩

/-! ## C11: the parallel prover multiplies the randomizer into its exponents -/

/-- accumulator/concurrent.go:187-225 with the randomizer multiplied into `leftProd` and `rightProd`, as in
accumulator/accumulator.go:77-78. -/
def fourWorkersRepaired (base randomizer N : Nat) (set : List Nat) (limit : Int) : Prog (List Nat) :=
  let n := set.length
  let e := fourExponents randomizer set
  let bases := fourfoldExp base N e.1 e.2.1 e.2.2.1 e.2.2.2
  .fork 4
    (fun i => match i with
      | 0 => proveMembershipWithChan bases.1 N (slice set 0 (n / 4)) limit
      | 1 => proveMembershipWithChan bases.2.1 N (slice set (n / 4) (n / 2)) limit
      | 2 => proveMembershipWithChan bases.2.2.1 N (slice set (n / 2) (n * 3 / 4)) limit
      | 3 => proveMembershipWithChan bases.2.2.2 N (slice set (n * 3 / 4) n) limit)
    appendAll

/-- accumulator/concurrent.go:176-226 with these workers. -/
def proveWithRandomizerRepaired (base randomizer N : Nat) (set : List Nat) (limit : Int) : Prog (List Nat) :=
  if limit ≤ 0 then .ret (proveMembershipSingleThreadWithRandomizer base randomizer N set)
  else fourWorkersRepaired base randomizer N set (limit - 2)

theorem fourWorkersRepaired_eval (base r N : Nat) (set : List Nat) (limit : Int) (h4 : 4 ≤ set.length) :
    (fourWorkersRepaired base r N set limit).eval = .ok (witnesses (base ^ r) N set) := by
  have hA : (slice set 0 (set.length / 4)).length = set.length / 4 := by rw [slice_length _ _ _ (by omega)]; omega
  have hB := slice_length set (set.length / 4) (set.length / 2) (by omega)
  have hC := slice_length set (set.length / 2) (set.length * 3 / 4) (by omega)
  have hD := slice_length set (set.length * 3 / 4) set.length (by omega)
  have key : ∀ a b : Nat, base ^ (a * r * b) = (base ^ r) ^ (a * b) := fun a b => by
    rw [← pow_mul]; congr 1; ring
  unfold fourWorkersRepaired
  simp only [fourExponents_eq, fourfoldExp, expMod, key]
  rw [eval_fork_ok 4 _ appendAll
    [witnesses _ N (slice set 0 (set.length / 4)), witnesses _ N (slice set (set.length / 4) (set.length / 2)),
      witnesses _ N (slice set (set.length / 2) (set.length * 3 / 4)),
      witnesses _ N (slice set (set.length * 3 / 4) set.length)] rfl]
  · simp only [appendAll, List.foldl, List.nil_append]
    rw [← witnesses_append4, slice_quarters]
  · intro i
    match i with
    | 0 => exact withChan_eval _ _ _ _ (by omega) (.inl (Nat.mod_mod _ _))
    | 1 => exact withChan_eval _ _ _ _ (by omega) (.inl (Nat.mod_mod _ _))
    | 2 => exact withChan_eval _ _ _ _ (by omega) (.inl (Nat.mod_mod _ _))
    | 3 => exact withChan_eval _ _ _ _ (by omega) (.inl (Nat.mod_mod _ _))

/-- C11 for the repaired prover: under every schedule and for every limit the randomised witnesses. -/
theorem C11_repaired_partial (base r N : Nat) (set : List Nat) (h4 : 4 ≤ set.length) (limit : Int) :
    AlwaysGives (proveWithRandomizerRepaired base r N set limit)
      (.ok ((List.range set.length).map (fun i => base ^ (r * (set.eraseIdx i).prod) % N))) := by
  have key : (proveWithRandomizerRepaired base r N set limit).eval
      = .ok ((List.range set.length).map (fun i => base ^ (r * (set.eraseIdx i).prod) % N)) := by
    have hw : witnesses (base ^ r) N set
        = (List.range set.length).map (fun i => base ^ (r * (set.eraseIdx i).prod) % N) := by
      unfold witnesses witness allBut
      simp only [← pow_mul]
    unfold proveWithRandomizerRepaired
    by_cases hl : limit ≤ 0
    · rw [if_pos hl, Prog.eval, randomized_eq _ _ _ _ h4, hw]
    · rw [if_neg hl, fourWorkersRepaired_eval _ _ _ _ _ h4, hw]
  rw [← key]
  exact alwaysGives_eval _

/-- The counterexample of C11: both limits now give the same witnesses. -/
example : (proveWithRandomizerRepaired 2 2 101 [3, 5, 7, 11] 0).eval
    = (proveWithRandomizerRepaired 2 2 101 [3, 5, 7, 11] 1).eval := by
  unfold proveWithRandomizerRepaired
  rw [if_pos (by decide), if_neg (by decide), Prog.eval, randomized_eq _ _ _ _ (by decide),
    fourWorkersRepaired_eval _ _ _ _ _ (by decide)]

/-! ## C33: the number of chunks rounded up -/

/-- precompute/precompute.go:19-34 `NewTable` with the number of chunks rounded up. -/
def newTableRepaired (g n : Int) (elementUpperBound : Int) (numElements : Nat) (byteChunkSize : Nat) : Res Table :=
  let maxBitLen := elementUpperBound.natAbs.size * numElements
  if byteChunkSize = 0 then goPanic "integer divide by zero"
  else
    let numByteChunks := (maxBitLen + byteChunkSize * 8 - 1) / (byteChunkSize * 8)
    if numByteChunks = 0 then goPanic "index out of range"
    else .ok { n := n, byteChunkSize := byteChunkSize,
               table := g :: newTableLoop n (2 ^ (byteChunkSize * 8)) (numByteChunks - 1) g }

/-- The repaired table is a table of the code for as many full chunks. -/
theorem newTableRepaired_eq (g n ub : Int) (m c : Nat) :
    newTableRepaired g n ub m c
      = newTable g n ((2 ^ (c * 8) - 1 : Nat) : Int) ((ub.natAbs.size * m + c * 8 - 1) / (c * 8)) c := by
  unfold newTableRepaired newTable
  by_cases hc : c = 0
  · simp [hc]
  · have hs : (2 ^ (c * 8) - 1 : Nat).size = c * 8 := by
      apply le_antisymm
      · rw [Nat.size_le]
        have := Nat.two_pow_pos (c * 8)
        omega
      · have h1 : c * 8 - 1 < (2 ^ (c * 8) - 1 : Nat).size := by
          rw [Nat.lt_size]
          have : 2 ^ (c * 8) = 2 * 2 ^ (c * 8 - 1) := by rw [← pow_succ']; congr 1; omega
          have := Nat.two_pow_pos (c * 8 - 1)
          omega
        omega
    simp only [if_neg hc, Int.natAbs_natCast, hs, Nat.mul_div_cancel_left _ (show 0 < c * 8 by omega)]

/-- C33 for the repaired table: no product of as many elements crashes a worker, and every result is the power. -/
theorem C33_repaired_partial (g n ub : Int) (m c : Nat) (t : Table) (hn : 1 ≤ n) (ht : newTableRepaired g n ub m c = .ok t)
    (l : List Int) (hl : l.length = m) (he : ∀ e ∈ l, 1 ≤ e ∧ e ≤ ub) (k : Nat) (hk : 1 ≤ k) (s : TableCompute.State)
    (hs : Exec (TableCompute.Step t (natBytes l.prod.natAbs) k) (TableCompute.init t (natBytes l.prod.natAbs) k) s) :
    s.crashed = false ∧ ∀ v, s.main = .returned v → v = g ^ l.prod.toNat % n := by
  have ht' := ht
  rw [newTableRepaired_eq] at ht'
  have hc0 : c ≠ 0 := by
    rintro rfl
    unfold newTableRepaired at ht
    simp [goPanic] at ht
  have hn' := hn
  obtain ⟨N, rfl⟩ : ∃ N : Nat, n = N := ⟨n.toNat, by omega⟩
  have := neZero_of_pos hn'
  obtain ⟨-, hcs, hlen⟩ := newTable_ok (N := N) g _ _ c t ht'
  have hne : l ≠ [] := by
    rintro rfl
    simp at hl
    subst hl
    unfold newTableRepaired at ht
    rw [if_neg hc0] at ht
    simp only [Nat.mul_zero, Nat.zero_add, Nat.div_eq_of_lt (show c * 8 - 1 < c * 8 by omega), if_true] at ht
    cases ht
  obtain ⟨p1, p2⟩ := prod_lt_two_pow l ub hne he
  have hfit : Fits t l.prod := by
    unfold Fits
    rw [hcs]
    have hsz : l.prod.natAbs.size ≤ ub.natAbs.size * m := by
      rw [Nat.size_le, ← hl]
      zify
      rw [abs_of_pos (by omega)]
      exact p2
    have hq : t.table.length = (ub.natAbs.size * m + c * 8 - 1) / (c * 8) := by
      unfold newTableRepaired at ht
      rw [if_neg hc0] at ht
      simp only at ht
      split at ht
      · cases ht
      · injection ht with ht
        subst ht
        obtain ⟨h1, -⟩ := newTableLoop_get (N := N) (2 ^ (c * 8)) ((ub.natAbs.size * m + c * 8 - 1) / (c * 8) - 1) g
        push_cast at h1
        simp only [List.length_cons, h1]
        exact Nat.sub_add_cancel (Nat.pos_of_ne_zero ‹_›)
    rw [hq]
    have h1 := Nat.div_add_mod (ub.natAbs.size * m + c * 8 - 1) (c * 8)
    have h2 := Nat.mod_lt (ub.natAbs.size * m + c * 8 - 1) (show 0 < c * 8 by omega)
    generalize (ub.natAbs.size * m + c * 8 - 1) / (c * 8) = q at h1 ⊢
    generalize (ub.natAbs.size * m + c * 8 - 1) % (c * 8) = r at h1 h2
    generalize ub.natAbs.size * m = w at h1 hsz
    have h3 : c * 8 * q = 8 * (c * q) := by ring
    omega
  obtain ⟨h1, -⟩ := C32_compute_all_schedules g N _ _ c t hn ht' l.prod (by omega) hfit k hk
  obtain ⟨a, -, b⟩ := h1 s hs
  refine ⟨a, fun v hv => ?_⟩
  rw [b v hv, show l.prod.natAbs = l.prod.toNat by omega]

/-- Three elements below 16 with chunks of one byte: the code makes one chunk, the repaired table has two. -/
example : newTable 2 35 15 3 1 = .ok ⟨35, 1, [2]⟩ ∧ newTableRepaired 2 35 15 3 1 = .ok ⟨35, 1, [2, 16]⟩ ∧
    (∀ e ∈ ([15, 14, 13] : List Int), 1 ≤ e ∧ e ≤ 15) := by decide +kernel

/-! ## C34: `Compute` with an answer for 0 -/

/-- precompute/precompute.go:37-62 with `if len(xBytes) == 0 { return 1 mod n }` before the channels are made: for 0 no
goroutine is started. -/
def initRepaired (t : Table) (xBytes : Bytes) (k : Nat) : TableCompute.State :=
  if xBytes.length = 0 then
    { main := .returned (1 % t.n), inQ := [], workers := [], outQ := [], col := .finished, crashed := false }
  else TableCompute.init t xBytes k

/-- C34 for the repaired function: as long as it has not returned some goroutine can move, there are no endless runs, and
what is returned is the power. -/
theorem C34_repaired_partial (g n ub : Int) (m c : Nat) (t : Table) (hn : 1 ≤ n) (ht : newTable g n ub m c = .ok t)
    (x : Int) (hfit : Fits t x) (k : Nat) (hk : 1 ≤ k) :
    (∀ s, Exec (TableCompute.Step t (natBytes x.natAbs) k) (initRepaired t (natBytes x.natAbs) k) s →
      s.crashed = false ∧
      ((∃ v, s.main = .returned v) ∨ ∃ s', TableCompute.Step t (natBytes x.natAbs) k s s') ∧
      ∀ v, s.main = .returned v → v = g ^ x.natAbs % n) ∧
    AlwaysStops (TableCompute.Step t (natBytes x.natAbs) k) (initRepaired t (natBytes x.natAbs) k) := by
  by_cases hx : x = 0
  · subst hx
    have hb : natBytes (0 : Int).natAbs = [] := by decide
    have hnn : t.n = n := by
      have hn' := hn
      obtain ⟨N, rfl⟩ : ∃ N : Nat, n = N := ⟨n.toNat, by omega⟩
      have := neZero_of_pos hn'
      exact (newTable_ok (N := N) g ub m c t ht).1.modulus
    have hi : initRepaired t (natBytes (0 : Int).natAbs) k
        = { main := .returned (1 % n), inQ := [], workers := [], outQ := [], col := .finished, crashed := false } := by
      rw [hb]
      unfold initRepaired
      rw [if_pos (by rfl), hnn]
    have hno : ∀ s', ¬ TableCompute.Step t (natBytes (0 : Int).natAbs) k
        { main := .returned (1 % n), inQ := [], workers := [], outQ := [], col := .finished, crashed := false } s' := by
      intro s' h
      cases h <;> simp_all
    have hex : ∀ a s, Exec (TableCompute.Step t (natBytes (0 : Int).natAbs) k) a s →
        a = { main := .returned (1 % n), inQ := [], workers := [], outQ := [], col := .finished, crashed := false } →
        s = a := by
      intro a s h ha
      induction h with
      | refl => rfl
      | tail _ h2 ih =>
        rw [ih, ha] at h2
        exact absurd h2 (hno _)
    rw [hi]
    refine ⟨fun s hs => ?_, ?_⟩
    · rw [hex _ s hs rfl]
      refine ⟨rfl, .inl ⟨_, rfl⟩, fun v hv => ?_⟩
      injection hv with hv
      rw [← hv]
      simp
    · rintro ⟨f, h0, hf⟩
      have := hf 0
      rw [h0] at this
      exact hno _ this
  · have hne : (natBytes x.natAbs).length ≠ 0 := by
      rw [natBytes_length]
      have : 0 < x.natAbs.size := Nat.size_pos.2 (Int.natAbs_pos.2 hx)
      omega
    have hi : initRepaired t (natBytes x.natAbs) k = TableCompute.init t (natBytes x.natAbs) k := by
      unfold initRepaired
      rw [if_neg hne]
    rw [hi]
    exact C32_compute_all_schedules g n ub m c t hn ht x hx hfit k hk

/-- A table, the number 0 fits it, and the answer is there from the start. -/
example : newTable 2 35 15 4 1 = .ok ⟨35, 1, [2, 16]⟩ ∧ Fits ⟨35, 1, [2, 16]⟩ 0 ∧
    (initRepaired ⟨35, 1, [2, 16]⟩ (natBytes 0) 2).main = .returned 1 := by
  refine ⟨by decide +kernel, ?_, by decide +kernel⟩
  unfold Fits
  simp

end Verif.Props
