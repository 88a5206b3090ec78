import Verif.Props.Representatives
import Verif.Props.Precompute
import Verif.Props.MultiSwap
import Verif.Props.Benchmarks
import Verif.Props.Security
import Verif.Props.Poke
import Mathlib.GroupTheory.Perm.Cycle.Type

/-!
# Exact conditions for properties that hold only in part

The code violates C17, C19, C33, C34, C42, C64, C89 and C94. The theorems here say for which inputs each of them holds: the
condition is necessary and sufficient.
-/

namespace Verif.Props
open Verif.Go Verif.Model Verif.Lemmas Verif.Spec

/-! ## C17 -/

/-- `t` is a digest on the way from `s` to its representative: `k` times SHA-256, and none of these digests is a prime. -/
def OnTheWay (E : Env) (s t : Bytes) : Prop :=
  ∃ k, t = E.sha256^[k] s ∧ ∀ i, i < k → E.probablyPrime (setBytes (E.sha256^[i + 1] s)) = false

theorem onTheWay_same (E : Env) (s t : Bytes) (p : Nat) (h : OnTheWay E s t) :
    (∃ fuel, hashToPrime E fuel s = some p) ↔ ∃ fuel, hashToPrime E fuel t = some p := by
  obtain ⟨k, rfl, hk⟩ := h
  induction k with
  | zero => exact Iff.rfl
  | succ k ih =>
    rw [ih (fun i hi => hk i (by omega)), Function.iterate_succ_apply']
    refine C17_digest_has_same_representative E _ p ?_
    rw [← Function.iterate_succ_apply' E.sha256]
    exact hk k (by omega)

/-- C17, exact: unless SHA-256 collides, two strings have the same representative exactly if one of them is a digest on
the way from the other to its representative. -/
theorem C17_same_iff_partial (E : Env) (s t : Bytes)
    (hcol : ∀ i j, E.sha256^[i + 1] s = E.sha256^[j + 1] t → E.sha256^[i] s = E.sha256^[j] t) (p : Nat)
    (hp : ∃ fuel, hashToPrime E fuel s = some p) :
    (∃ fuel, hashToPrime E fuel t = some p) ↔ OnTheWay E s t ∨ OnTheWay E t s := by
  constructor
  · intro ht
    obtain ⟨k, h1, -, a1⟩ := (C16_hashToPrime_first_prime E s p).1 hp
    obtain ⟨k', h2, -, a2⟩ := (C16_hashToPrime_first_prime E t p).1 ht
    have heq : E.sha256^[k + 1] s = E.sha256^[k' + 1] t := by
      apply setBytes_inj
      · rw [Function.iterate_succ_apply', Function.iterate_succ_apply', E.sha256_length, E.sha256_length]
      · rw [← h1, ← h2]
    rcases Nat.le_total k k' with hk | hk
    · obtain ⟨d, rfl⟩ := Nat.exists_eq_add_of_le hk
      right
      rcases chain_collision E s t (k + 1) d (by rw [heq, show k + 1 + d = k + d + 1 by omega]) with h | ⟨i, -, h3, h4⟩
      · exact ⟨d, h, fun i hi => a2 i (by omega)⟩
      · exact absurd (hcol _ _ h4) h3
    · obtain ⟨d, rfl⟩ := Nat.exists_eq_add_of_le hk
      left
      rcases chain_collision E t s (k' + 1) d (by rw [← heq, show k' + 1 + d = k' + d + 1 by omega]) with h | ⟨i, -, h3, h4⟩
      · exact ⟨d, h, fun i hi => a1 i (by omega)⟩
      · exact absurd (hcol _ _ h4.symm).symm h3
  · rintro (h | h)
    · exact (onTheWay_same E s t p h).1 hp
    · exact (onTheWay_same E t s p h).2 hp

/-- With the SHA-256 of `swapEnv` the digests 2 and 4 do not collide, and 4 is on the way from 2 to the prime 2. -/
example : (∀ i j, swapEnv.sha256^[i + 1] (digest 2) = swapEnv.sha256^[j + 1] (digest 4) →
      swapEnv.sha256^[i] (digest 2) = swapEnv.sha256^[j] (digest 4)) ∧
    hashToPrime swapEnv 2 (digest 2) = some 2 ∧ OnTheWay swapEnv (digest 2) (digest 4) := by
  refine ⟨?_, by decide, 1, by decide, ?_⟩
  · have horb : ∀ i, (swapEnv.sha256^[i] (digest 2) = digest 2 ∨ swapEnv.sha256^[i] (digest 2) = digest 4) ∧
        (swapEnv.sha256^[i] (digest 4) = digest 2 ∨ swapEnv.sha256^[i] (digest 4) = digest 4) := by
      intro i
      have h24 : swapEnv.sha256 (digest 2) = digest 4 := by decide
      have h42 : swapEnv.sha256 (digest 4) = digest 2 := by decide
      induction i with
      | zero => exact ⟨.inl rfl, .inr rfl⟩
      | succ i ih =>
        obtain ⟨a, b⟩ := ih
        rw [Function.iterate_succ_apply', Function.iterate_succ_apply']
        constructor
        · rcases a with a | a <;> rw [a]
          · exact .inr h24
          · exact .inl h42
        · rcases b with b | b <;> rw [b]
          · exact .inr h24
          · exact .inl h42
    intro i j heq
    rw [Function.iterate_succ_apply', Function.iterate_succ_apply'] at heq
    rcases (horb i).1 with a | a <;> rcases (horb j).2 with b | b <;> rw [a, b] at heq ⊢ <;>
      revert heq <;> decide
  · intro i hi
    obtain rfl : i = 0 := by omega
    decide

/-! ## C19 -/

/-- The number that a sign and decimal digits stand for, most significant digit first. -/
def decimalValue (sign ds : Bytes) : Int :=
  let n : Nat := Nat.ofDigits 10 ((ds.map (fun c => c.toNat - 48)).reverse)
  if sign = [45] then -(n : Int) else n

/-- An optional sign, then at least one decimal digit. -/
def IsDecimal (v : Bytes) (n : Int) : Prop :=
  ∃ sign ds : Bytes, v = sign ++ ds ∧ (sign = [] ∨ sign = [45] ∨ sign = [43]) ∧ ds ≠ [] ∧
    (∀ c ∈ ds, 48 ≤ c.toNat ∧ c.toNat ≤ 57) ∧ n = decimalValue sign ds

theorem parseDigits_value (ds : Bytes) (hne : ds ≠ []) (hd : ∀ c ∈ ds, 48 ≤ c.toNat ∧ c.toNat ≤ 57) :
    parseDigits ds = some (Nat.ofDigits 10 ((ds.map (fun c => c.toNat - 48)).reverse)) := by
  have hb : ds = (ds.map (fun c => c.toNat - 48)).map digitByte := by
    rw [List.map_map]
    conv_lhs => rw [← List.map_id ds]
    refine List.map_congr_left (fun c hc => ?_)
    have := hd c hc
    apply UInt8.toNat_inj.1
    simp only [id, Function.comp, digitByte, UInt8.toNat_ofNat']
    omega
  rw [parseDigits_eq, if_neg hne, ← foldl_digits_reverse, List.reverse_reverse]
  conv_lhs => rw [hb]
  refine foldl_parseStep_digits _ ?_ 0
  intro d hdm
  obtain ⟨c, hc, rfl⟩ := List.mem_map.1 hdm
  have := hd c hc
  omega

theorem setString_value (v : Bytes) (n : Int) (h : IsDecimal v n) : setString v = some n := by
  obtain ⟨sign, ds, rfl, hs, hne, hd, rfl⟩ := h
  rcases hs with rfl | rfl | rfl
  · rw [List.nil_append, setString_of_digits _ hd, parseDigits_value ds hne hd]
    rfl
  · show (parseDigits ds).map _ = _
    rw [parseDigits_value ds hne hd]
    rfl
  · show (parseDigits ds).map _ = _
    rw [parseDigits_value ds hne hd]
    rfl

/-- C19, exact: two decimal strings have the same representative exactly if their numbers differ by a multiple of the
order of the field. -/
theorem C19_same_iff_partial (E : Env) (hE : PoseidonInjective E) (s t : Bytes) (m n : Int) (hs : IsDecimal s m)
    (ht : IsDecimal t n) : diRepresentative E s = diRepresentative E t ↔ (frOrder : Int) ∣ m - n := by
  have hpos : (0 : Int) < frOrder := by
    have : 0 < frOrder := by decide
    exact_mod_cast this
  have hrep : ∀ v k, IsDecimal v k → diRepresentative E v = .ok (E.poseidon [(k % (frOrder : Int)).toNat] + min1024) := by
    intro v k hv
    unfold diRepresentative elementFromString
    rw [setString_value v k hv]
    rfl
  rw [hrep s m hs, hrep t n ht]
  generalize hq : (frOrder : Int) = q at hpos
  have hm := Int.emod_nonneg m (show q ≠ 0 by omega)
  have hn := Int.emod_nonneg n (show q ≠ 0 by omega)
  have lm := Int.emod_lt_of_pos m hpos
  have ln := Int.emod_lt_of_pos n hpos
  rw [Int.dvd_iff_emod_eq_zero, ← Int.emod_eq_emod_iff_emod_sub_eq_zero]
  constructor
  · intro h
    have h1 := Except.ok.inj h
    have h2 := hE _ _ (by omega) (by omega) (Nat.add_right_cancel h1)
    omega
  · intro h
    rw [h]

/-- "-1" and the order of the field minus 1 have the same representative; "+7" and "007" as well. -/
example : IsDecimal [43, 55] 7 ∧ IsDecimal [48, 48, 55] 7 ∧ IsDecimal [45, 49] (-1) ∧ ¬ (frOrder : Int) ∣ 7 - (-1) := by
  refine ⟨⟨[43], [55], rfl, by decide, by decide, by decide, by decide⟩,
    ⟨[], [48, 48, 55], rfl, by decide, by decide, by decide, by decide⟩,
    ⟨[45], [49], rfl, by decide, by decide, by decide, by decide⟩, ?_⟩
  intro h
  have h1 := Int.le_of_dvd (by norm_num) h
  have h2 : 8 < frOrder := by decide
  omega

/-! ## C33 -/

theorem fits_iff (t : Table) (x : Int) : Fits t x ↔ x.natAbs < 2 ^ (8 * (t.byteChunkSize * t.table.length)) := by
  unfold Fits
  rw [← Nat.size_le]
  omega

theorem prod_le_pow (ub : Int) (l : List Int) (h : ∀ e ∈ l, 1 ≤ e ∧ e ≤ ub) : 1 ≤ l.prod ∧ l.prod ≤ ub ^ l.length := by
  induction l with
  | nil => simp
  | cons a l ih =>
    obtain ⟨i1, i2⟩ := ih (fun e he => h e (List.mem_cons_of_mem _ he))
    have ha := h a List.mem_cons_self
    rw [List.prod_cons, List.length_cons, pow_succ']
    exact ⟨one_le_mul_of_one_le_of_one_le ha.1 i1, mul_le_mul ha.2 i2 (by omega) (by omega)⟩

/-- C33, exact: no product of `m` elements up to `ub` makes `Compute` panic, exactly if the largest product has no more
bits than the chunks of the table. -/
theorem C33_capacity_iff_partial (g n ub : Int) (m c : Nat) (t : Table) (hn : 1 ≤ n) (hub : 1 ≤ ub)
    (ht : newTable g n ub m c = .ok t) :
    (∀ l : List Int, l.length = m → (∀ e ∈ l, 1 ≤ e ∧ e ≤ ub) → ∀ k : Nat, 1 ≤ k →
      ∀ s, Exec (TableCompute.Step t (natBytes l.prod.natAbs) k) (TableCompute.init t (natBytes l.prod.natAbs) k) s →
        s.crashed = false) ↔
    ub.natAbs ^ m < 2 ^ (8 * (c * (ub.natAbs.size * m / (c * 8)))) := by
  have hN := hn
  obtain ⟨N, rfl⟩ : ∃ N : Nat, n = N := ⟨n.toNat, by omega⟩
  have := neZero_of_pos hN
  obtain ⟨hok, hcs, hlen⟩ := newTable_ok (N := N) g ub m c t ht
  have key : ∀ x : Int, Fits t x ↔ x.natAbs < 2 ^ (8 * (c * (ub.natAbs.size * m / (c * 8)))) := by
    intro x
    rw [fits_iff, hcs, hlen]
  constructor
  · intro h
    by_contra hbig
    have hx : (List.replicate m ub).prod.natAbs = ub.natAbs ^ m := by rw [List.prod_replicate, Int.natAbs_pow]
    have hnf : ¬ Fits t (List.replicate m ub).prod := by rw [key, hx]; exact hbig
    have h1 := h (List.replicate m ub) (by simp) (fun e he => by rw [List.eq_of_mem_replicate he]; omega) 1 (by omega)
    obtain ⟨h2, -⟩ := C33_not_fits g N ub m c t hn ht _ hnf 1 (by omega)
    obtain ⟨s, hs, hc⟩ := reaches_end _ TableCompute.weight (fun a b h => TableCompute.step_weight _ _ _ a b h)
      (fun s => s.crashed = true) _ (fun s hs => (h2 s hs).2)
    have hc' : s.crashed = true := hc
    rw [h1 s hs] at hc'
    cases hc'
  · intro h l hl he k hk s hs
    obtain ⟨p1, p2⟩ := prod_le_pow ub l he
    rw [hl] at p2
    have hfit : Fits t l.prod := by
      rw [key]
      refine lt_of_le_of_lt ?_ h
      rw [← Int.natAbs_pow]
      omega
    exact ((C32_compute_all_schedules g N ub m c t hn ht l.prod (by omega) hfit k hk).1 s hs).1

/-- Three elements up to 255 in one-byte chunks fit although they are not the only ones; three elements up to 6 (nine
bits, one chunk) fit as well, because 6³ has eight bits; three elements up to 15 do not. -/
example : (255 : Int).natAbs ^ 3 < 2 ^ (8 * (1 * ((255 : Int).natAbs.size * 3 / (1 * 8)))) ∧
    (6 : Int).natAbs ^ 3 < 2 ^ (8 * (1 * ((6 : Int).natAbs.size * 3 / (1 * 8)))) ∧ ¬ 1 * 8 ∣ (6 : Int).natAbs.size * 3 ∧
    ¬ (15 : Int).natAbs ^ 3 < 2 ^ (8 * (1 * ((15 : Int).natAbs.size * 3 / (1 * 8)))) := by decide +kernel

/-! ## C34 -/

/-- C34, exact: `Compute(x, k)` can return exactly if `x` is not 0 and has no more bits than the chunks of the table; then
every run returns the power. -/
theorem C34_returns_iff_partial (g n ub : Int) (m c : Nat) (t : Table) (hn : 1 ≤ n) (ht : newTable g n ub m c = .ok t)
    (x : Int) (k : Nat) (hk : 1 ≤ k) :
    ((∃ s v, Exec (TableCompute.Step t (natBytes x.natAbs) k) (TableCompute.init t (natBytes x.natAbs) k) s ∧
      s.main = .returned v) ↔ x ≠ 0 ∧ x.natAbs < 2 ^ (8 * (t.byteChunkSize * t.table.length))) ∧
    (∀ s v, Exec (TableCompute.Step t (natBytes x.natAbs) k) (TableCompute.init t (natBytes x.natAbs) k) s →
      s.main = .returned v → v = g ^ x.natAbs % n) := by
  rw [← fits_iff]
  constructor
  · constructor
    · rintro ⟨s, v, hs, hv⟩
      constructor
      · rintro rfl
        exact (C34_zero_never_returns g n ub m c t hn ht k s hs).2.1 v hv
      · by_contra hf
        exact ((C33_not_fits g n ub m c t hn ht x hf k hk).1 s hs).1 v hv
    · rintro ⟨hx, hf⟩
      obtain ⟨⟨s, hs, hv⟩, -⟩ := C34_returns_partial g n ub m c t hn ht x hx hf k hk
      exact ⟨s, _, hs, hv⟩
  · intro s v hs hv
    by_cases hx : x = 0
    · subst hx
      exact absurd hv ((C34_zero_never_returns g n ub m c t hn ht k s hs).2.1 v)
    · by_cases hf : Fits t x
      · exact ((C32_compute_all_schedules g n ub m c t hn ht x hx hf k hk).1 s hs).2.2 v hv
      · exact absurd hv (((C33_not_fits g n ub m c t hn ht x hf k hk).1 s hs).1 v)

example : newTable 2 35 255 3 1 = .ok ⟨35, 1, [2, 16, 16]⟩ ∧ (-16777215 : Int).natAbs < 2 ^ (8 * (1 * 3)) ∧
    ¬ (16777216 : Int).natAbs < 2 ^ (8 * (1 * 3)) := by decide +kernel

/-! ## C42 -/

/-- What the provers compare the statement with, for negative exponents: `big.Int.Exp` looks at the sign of the base after
it was inverted, so the power of the absolute value is computed. -/
theorem expStmt_neg {N : Nat} [NeZero N] (g x : Int) (hx : x < 0) (hg : Int.gcd g N = 1) :
    expStmt g x N = expStmt (|g|) x N := by
  by_cases h0 : 0 ≤ g
  · rw [abs_of_nonneg h0]
  · obtain ⟨u, hu⟩ := (isUnit_iff_gcd (N := N) g).2 hg
    have hN := natN_pos (N := N)
    have hu' : ((-u : (ZMod N)ˣ) : ZMod N) = ((-g : Int) : ZMod N) := by rw [Units.val_neg, hu]; push_cast; rfl
    obtain ⟨k, rfl⟩ : ∃ k : Nat, x = -(k : Int) := ⟨x.natAbs, by omega⟩
    rw [abs_of_neg (by omega)]
    unfold expStmt
    rw [bigExp_unit (-g) _ (by omega) (-u) hu', Option.getD_some]
    unfold bigExp
    rw [if_neg (by omega)]
    simp only [if_pos hx, modInverse_unit g u hu, Option.map_some, Option.getD_some, Int.natAbs_neg, Int.natAbs_natCast]
    have hz : (((u⁻¹ : (ZMod N)ˣ) : ZMod N).val : Int) ^ k % (N : Int) = (((u⁻¹ ^ k : (ZMod N)ˣ) : ZMod N).val : Int) := by
      rw [emod_eq_val]
      push_cast
      rw [ZMod.natCast_zmod_val]
    rw [hz, zpow_neg, zpow_natCast, ← inv_pow, inv_neg]
    by_cases ho : (-(k : Int)) % 2 = 1
    · have hodd : Odd k := Nat.odd_iff.2 (by omega)
      rw [hodd.neg_pow, Units.val_neg, ZMod.neg_val]
      by_cases h1 : ((u⁻¹ ^ k : (ZMod N)ˣ) : ZMod N) = 0
      · rw [if_pos h1, h1, ZMod.val_zero]
        simp
      · have h2 : (((u⁻¹ ^ k : (ZMod N)ˣ) : ZMod N).val : Int) ≠ 0 := by
          intro h
          exact h1 ((ZMod.val_eq_zero _).1 (by exact_mod_cast h))
        rw [if_pos ⟨h2, by omega, ho⟩, if_neg h1, Nat.cast_sub (ZMod.val_lt _).le]
    · have heven : Even k := Nat.even_iff.2 (by omega)
      rw [if_neg (by tauto), heven.neg_pow]

theorem expStmt_cases (N : Int) (g x C : Int) (hN : 1 ≤ N) :
    expStmt g x N ≠ C ↔
      if 0 ≤ x then ¬ IsPower N g x C else if Int.gcd g N = 1 then ¬ IsPower N (|g|) x C else C ≠ 0 := by
  have hN' := hN
  obtain ⟨n, rfl⟩ : ∃ n : Nat, N = n := ⟨N.toNat, by omega⟩
  have : NeZero n := ⟨by omega⟩
  split
  · rename_i hx
    exact prove_none_iff _ _ _ _ hN (.inl hx)
  · rename_i hx
    split
    · rename_i hg
      rw [expStmt_neg g x (by omega) hg]
      exact prove_none_iff _ _ _ _ hN (.inr ⟨abs_nonneg g, by unfold Int.gcd at hg ⊢; rwa [Int.natAbs_abs]⟩)
    · rename_i hg
      have : expStmt g x n = 0 := by
        unfold expStmt
        rw [(bigExp_eq_none_iff g x).2 ⟨by omega, hg⟩]; rfl
      rw [this]
      exact ne_comm

/-- C42, exact, for all statements and all three provers: the prover refuses exactly if the claimed value is not the power;
for a negative exponent the power of the absolute value of the base counts, and where no power exists the value 0. -/
theorem C42_refuse_iff_partial :
    (∀ E fuel (pp : PublicParameters) C x, 1 ≤ pp.N → (pokeStarProve E fuel pp C x = Run.ok none ↔
      if 0 ≤ x then ¬ IsPower pp.N pp.G x C else if Int.gcd pp.G pp.N = 1 then ¬ IsPower pp.N (|pp.G|) x C else C ≠ 0)) ∧
    (∀ E fuel base mod C x, 1 ≤ mod → (poeProve E fuel base mod C x = Run.ok none ↔
      if 0 ≤ x then ¬ IsPower mod base x C else if Int.gcd base mod = 1 then ¬ IsPower mod (|base|) x C else C ≠ 0)) ∧
    ∀ E fuel (pp : PublicParameters) u x w k r1 r2, 1 ≤ pp.N → (zkpokeProve E fuel pp u x w k r1 r2 = Run.ok none ↔
      if 0 ≤ x then ¬ IsPower pp.N u x w else if Int.gcd u pp.N = 1 then ¬ IsPower pp.N (|u|) x w else w ≠ 0) := by
  refine ⟨?_, ?_, ?_⟩
  · intro E fuel pp C x hN
    rw [pokeStar_none, expStmt_cases _ _ _ _ hN]
  · intro E fuel base mod C x hN
    rw [poe_none, expStmt_cases _ _ _ _ hN]
  · intro E fuel pp u x w k r1 r2 hN
    rw [zkpoke_none, expStmt_cases _ _ _ _ hN]

/-- The inverse of -2 modulo 35 is 17, and the inverse of 2 is 18: for the base -2 the second one is accepted. -/
example : Int.gcd (-2) 35 = 1 ∧ IsPower 35 (-2) (-1) 17 ∧ IsPower 35 (|-2|) (-1) 18 ∧ ¬ IsPower 35 (-2) (-1) 18 := by
  refine ⟨by decide, ?_, ?_, ?_⟩ <;> unfold IsPower <;> decide +kernel

/-! ## C64 -/

/-- C64, exact: the circuit accepts the set of `GenTestSet` exactly for at most `2^31` users. -/
theorem C64_accepted_iff_partial (E : Env) (fuel : Nat) (n : UInt32) (G N accMid : Int) (u : UpdateSet32)
    (h : genTestSet E fuel n G N accMid = Run.ok u) (ho : NoOverflow E u) :
    (∃ c, assignCircuit u = .ok c ∧ define E c = .ok true) ↔ n.toNat ≤ 2 ^ 31 := by
  constructor
  · rintro ⟨c, h1, h2⟩
    by_contra hn
    obtain ⟨L1, L2, -, -, -, -, h3, rfl⟩ := (genTestSet_ok_iff E fuel n G N accMid u).1 h
    rw [(C66_assignCircuit _).2 (by rw [testSet_isValid]; exact decide_eq_true h3)] at h1
    have h1 := Except.ok.inj h1
    rw [← h1] at h2
    exact C64_large_rejected _ _ _ _ (by omega) h2
  · intro hn
    exact (C64_genTestSet_partial E fuel n G N accMid u hn h).2.2.2.2 ho

/-- The hypothesis is met: two users and the challenge 13. -/
example : genTestSet exEnv 1 2 2 35 4 = Run.ok (testSet exEnv 2 13 13) :=
  (genTestSet_ok_iff _ _ _ _ _ _ _).2 ⟨13, 13, exEnv_prime _, exEnv_prime _, by decide, by decide, by decide, rfl⟩

/-! ## C89 -/

/-- C89, exact: the witness of an element is the only one exactly if its representative is coprime to the number of
invertible residues. -/
theorem C89_unique_iff_partial (E : Env) (fuel : Nat) (set : List Bytes) (enc : Int) (setup : Setup) (rep : List Nat)
    (out : Nat × List Nat) (hrep : genRepresentatives E fuel set enc = Run.ok rep) (hne : set ≠ [])
    (hN : setup.N ≠ 0) (hG : Nat.Coprime setup.G setup.N) (hout : accAndProve E fuel set enc setup = Run.ok out)
    (i : Nat) (hi : i < rep.length) (hi' : i < out.2.length) (h0 : rep[i] ≠ 0) :
    (∀ w, accumulateNewPow w rep[i] setup.N = out.1 → w % setup.N = out.2[i] % setup.N) ↔
      Nat.Coprime rep[i] setup.N.totient := by
  constructor
  · intro h
    have hNZ : NeZero setup.N := ⟨hN⟩
    by_contra hco
    obtain ⟨p, hp, hd⟩ := Nat.Prime.not_coprime_iff_dvd.1 hco
    obtain ⟨d1, d2⟩ := hd
    have : Fact p.Prime := ⟨hp⟩
    obtain ⟨z, hz⟩ := exists_prime_orderOf_dvd_card (G := (ZMod setup.N)ˣ) p (by rw [ZMod.card_units_eq_totient]; exact d2)
    obtain ⟨o, ho, h1, -, h3⟩ := C02_accAndProve E fuel set enc setup rep hrep hne
    rw [hout] at ho
    have ho := run_ok_inj ho
    subst ho
    have hv := h3 i hi hi'
    set g : (ZMod setup.N)ˣ := ZMod.unitOfCoprime setup.G hG with hg
    have hc : ((out.1 : Nat) : ZMod setup.N) = ((g ^ rep.prod : (ZMod setup.N)ˣ) : ZMod setup.N) := by
      rw [h1, ZMod.natCast_mod, Nat.cast_pow, Units.val_pow_eq_pow_val, hg, ZMod.coe_unitOfCoprime]
    obtain ⟨v, hv', hve⟩ := unit_of_pow h0 (c := g ^ rep.prod) (w := out.2[i])
      (by rw [← accumulateNewPow_cast, ← hc]; exact congrArg _ hv)
    have hzp : z ^ rep[i] = 1 := orderOf_dvd_iff_pow_eq_one.1 (hz ▸ d1)
    have hval : (((z * v : (ZMod setup.N)ˣ) : ZMod setup.N).val : ZMod setup.N) = ((z * v : (ZMod setup.N)ˣ) : ZMod setup.N) :=
      ZMod.natCast_zmod_val _
    have hw := h ((z * v : (ZMod setup.N)ˣ) : ZMod setup.N).val ?_
    · have h4 := (ZMod.natCast_eq_natCast_iff _ _ setup.N).2 hw
      rw [hval, Units.val_mul, ← hv'] at h4
      have h5 : z * v = v := Units.ext (by rw [Units.val_mul]; exact h4)
      have h6 : z = 1 := mul_eq_right.1 h5
      rw [h6, orderOf_one] at hz
      exact hp.one_lt.ne hz
    · have h7 : ((accumulateNewPow ((z * v : (ZMod setup.N)ˣ) : ZMod setup.N).val rep[i] setup.N : Nat) : ZMod setup.N)
          = ((out.1 : Nat) : ZMod setup.N) := by
        rw [accumulateNewPow_cast, hval, hc, ← Units.val_pow_eq_pow_val, mul_pow, hzp, one_mul, hve]
      have h8 := (ZMod.natCast_eq_natCast_iff _ _ setup.N).1 h7
      have h9 : out.1 % setup.N = out.1 := by rw [h1, Nat.mod_mod]
      have h10 : accumulateNewPow ((z * v : (ZMod setup.N)ˣ) : ZMod setup.N).val rep[i] setup.N % setup.N
          = accumulateNewPow ((z * v : (ZMod setup.N)ˣ) : ZMod setup.N).val rep[i] setup.N := by
        unfold accumulateNewPow expMod
        rw [Nat.mod_mod]
      rw [← h10, ← h9]
      exact h8
  · intro hco w hw
    exact C89_unique_partial E fuel set enc setup rep out hrep hne hN hG hout i w hi hi' h0 hco hw

/-- Modulo 35 there are 24 invertible residues: the representative of "3" is coprime to 24, an even one is not. -/
example : ¬ Nat.Coprime (2 + min1024) (Nat.totient 35) ∧ Nat.Coprime (3 + min1024) (Nat.totient 35) := by
  have h : Nat.totient 35 = 24 := by decide +kernel
  rw [h]
  unfold min1024
  constructor <;> decide +kernel

/-! ## C94 -/

/-- C94, exact: the program can end exactly on machines with four CPUs or more. -/
theorem C94_ends_iff_partial (T : TSEnv) (K : Nat) (E : Env) (fuel N G : Nat) (H : Int) (setSize : Nat) (c : ZkRsaCoins)
    (hpp : GoodParams ⟨N, G, H⟩) (hc : CoinsDrawn c) (hl : ZkChallenges E fuel N G H) :
    BasicZKrsaEnds T K E fuel N G H setSize c ↔ 4 ≤ K := by
  constructor
  · intro h
    by_contra hK
    exact C94_few_cpus T K (by omega) E fuel N G H setSize c h
  · intro hK
    exact C94_ends_partial T K hK E fuel N G H setSize c hpp hc hl

example : ¬ BasicZKrsaEnds tsEnv 3 pokeEnv 1 n2048 g2048 h2048 65536
    ⟨3, 7, ⟨⟨1, 2, 3⟩, ⟨4, 5, 6⟩, ⟨7, 8, 9⟩, 10⟩, 1, 2, 3⟩ := by
  rw [C94_ends_iff_partial _ _ _ _ _ _ _ _ _ trusted_good ⟨by decide, by decide, by decide⟩ (poke_challenges _ _ _)]
  omega

end Verif.Props
