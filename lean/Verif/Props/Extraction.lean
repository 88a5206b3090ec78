import Verif.Props.Security
import Mathlib.Data.Int.GCD
import Mathlib.RingTheory.Coprime.Lemmas

/-!
# Property C121: what proofs of one statement for several challenges yield

The challenge is a function of the statement, so several challenges mean several hash functions, as in the usual rewinding
argument.
-/

namespace Verif.Props
open Verif.Go Verif.Model Verif.Spec Verif.Lemmas

/-- An answer `q^l a^R b^S = c` for the challenge `l`. -/
structure Answer (A : Type) where
  l : Nat
  q : A
  R : Int
  S : Int

/-- A number with given remainders for two coprime moduli. -/
theorem crt_int (m n : Nat) (h : Nat.Coprime m n) (a b : Int) : ∃ x : Int, (m : Int) ∣ x - a ∧ (n : Int) ∣ x - b := by
  obtain ⟨u, v, huv⟩ := Nat.isCoprime_iff_coprime.2 h
  refine ⟨a * (v * n) + b * (u * m), ⟨(b - a) * u, ?_⟩, ⟨(a - b) * v, ?_⟩⟩
  · linear_combination a * huv
  · linear_combination b * huv

/-- Two powers of coprime degrees that agree are a power of the product. -/
theorem common_power {A : Type} [CommGroup A] (m n : Nat) (h : Nat.Coprime m n) (y s t : A) (hs : s ^ m = y) (ht : t ^ n = y) :
    ∃ q : A, q ^ (m * n) = y := by
  obtain ⟨u, v, huv⟩ := Nat.isCoprime_iff_coprime.2 h
  refine ⟨t ^ u * s ^ v, ?_⟩
  have e1 : (t ^ u) ^ (m * n) = y ^ (u * m) := by
    rw [← ht, ← zpow_natCast (t ^ u), ← zpow_mul, ← zpow_natCast t, ← zpow_mul]
    congr 1; push_cast; ring
  have e2 : (s ^ v) ^ (m * n) = y ^ (v * n) := by
    rw [← hs, ← zpow_natCast (s ^ v), ← zpow_mul, ← zpow_natCast s, ← zpow_mul]
    congr 1; push_cast; ring
  rw [mul_pow, e1, e2, ← zpow_add, huv, zpow_one]

/-- Answers for pairwise coprime challenges combine to one answer for their product. -/
theorem combine_answers {A : Type} [CommGroup A] (a b c : A) (L : List (Answer A))
    (hco : L.Pairwise fun s t => Nat.Coprime s.l t.l) (h : ∀ t ∈ L, t.q ^ t.l * (a ^ t.R * b ^ t.S) = c) :
    ∃ (q : A) (X S : Int), q ^ (L.map Answer.l).prod * (a ^ X * b ^ S) = c ∧
      ∀ t ∈ L, (t.l : Int) ∣ X - t.R ∧ (t.l : Int) ∣ S - t.S := by
  induction L with
  | nil => exact ⟨c, 0, 0, by simp, by simp⟩
  | cons t L ih =>
    rw [List.pairwise_cons] at hco
    obtain ⟨q, X, S, hq, hd⟩ := ih hco.2 fun s hs => h s (List.mem_cons_of_mem _ hs)
    have hc : Nat.Coprime t.l (L.map Answer.l).prod := Nat.coprime_list_prod_right_iff.2 fun n hn => by
      obtain ⟨s, hs, rfl⟩ := List.mem_map.1 hn
      exact hco.1 s hs
    generalize hM : (L.map Answer.l).prod = M at *
    obtain ⟨X', ⟨i, hi⟩, ⟨j, hj⟩⟩ := crt_int t.l M hc t.R X
    obtain ⟨S', ⟨i', hi'⟩, ⟨j', hj'⟩⟩ := crt_int t.l M hc t.S S
    have ht := h t (List.mem_cons_self ..)
    -- the remaining factor is a power of both degrees
    have shift : ∀ (n : Nat) (q : A) (X S i i' : Int), q ^ n * (a ^ X * b ^ S) = c → X' - X = n * i → S' - S = n * i' →
        (q * (a ^ (-i) * b ^ (-i'))) ^ n = c * (a ^ X' * b ^ S')⁻¹ := by
      intro n q X S i i' h1 h2 h3
      have e2 : X' = X + n * i := by omega
      have e3 : S' = S + n * i' := by omega
      rw [← h1, e2, e3, mul_pow, mul_pow, ← zpow_natCast (a ^ _), ← zpow_natCast (b ^ _), ← zpow_mul, ← zpow_mul, zpow_add,
        zpow_add, mul_comm (-i), mul_comm (-i'), mul_neg, mul_neg, zpow_neg, zpow_neg]
      rw [eq_mul_inv_iff_mul_eq, mul_mul_mul_comm (a ^ X), ← mul_inv, mul_comm (a ^ X * b ^ S), mul_assoc, inv_mul_cancel_left]
    obtain ⟨w, hw⟩ := common_power t.l M hc _ _ _ (shift t.l t.q t.R t.S i i' ht hi hi') (shift M q X S j j' hq hj hj')
    refine ⟨w, X', S', ?_, ?_⟩
    · rw [List.map_cons, List.prod_cons, hM, hw, inv_mul_cancel_right]
    · intro s hs
      rcases List.mem_cons.1 hs with rfl | hs
      · exact ⟨⟨i, hi⟩, ⟨i', hi'⟩⟩
      · obtain ⟨h1, h2⟩ := hd s hs
        have hdvd : (s.l : Int) ∣ M := by
          rw [← hM]
          exact_mod_cast List.dvd_prod (List.mem_map_of_mem hs)
        refine ⟨?_, ?_⟩
        · have := dvd_add (hdvd.mul_right j) h1
          rwa [← hj, sub_add_sub_cancel] at this
        · have := dvd_add (hdvd.mul_right j') h2
          rwa [← hj', sub_add_sub_cancel] at this

/-- One run of the verifier of PoKE*: the hash function, the bound of the loop, the challenge and the proof. -/
structure StarRun where
  E : Env
  fuel : Nat
  l : Nat
  Q : Int
  R : Int

/-- The run accepts the statement `C`. -/
def StarRun.Accepts (s : StarRun) (N : Nat) (G H C : Int) : Prop :=
  HasPrimeChallenge s.E s.fuel (pokeStarTranscript ⟨N, G, H⟩ C) s.l ∧
    pokeStarVerify s.E s.fuel ⟨N, G, H⟩ C (some ⟨some s.Q, some s.R⟩) = Run.ok true

/-- An accepted answer as an equation of units. -/
theorem star_unit (N : Nat) (hN : N ≠ 0) (G H C : Int) (g c : (ZMod N)ˣ) (hG : 0 ≤ G) (hg : (g : ZMod N) = G)
    (hc : (c : ZMod N) = C) (s : StarRun) (h : s.Accepts N G H C) :
    ∃ q : (ZMod N)ˣ, (q : ZMod N) = s.Q ∧ q ^ s.l * g ^ s.R = c := by
  obtain ⟨hl, hacc⟩ := h
  obtain ⟨b, hb, hiff⟩ := C46_pokeStar s.E s.fuel N hN G H C s.Q s.R s.l hl (.inl hG)
  rw [hb] at hacc
  have h2 := (hiff.1 (run_ok_inj hacc)).2
  rw [← hg, gpow_unit, ← hc] at h2
  have hq : IsUnit (s.Q : ZMod N) := by
    rw [← isUnit_pow_iff hl.2]
    have h4 : IsUnit ((s.Q : ZMod N) ^ s.l * ((g ^ s.R : (ZMod N)ˣ) : ZMod N)) := by rw [h2]; exact Units.isUnit _
    exact (IsUnit.mul_iff.1 h4).1
  obtain ⟨q, hq⟩ := hq
  refine ⟨q, hq, Units.ext ?_⟩
  rw [← h2, ← hq]
  push_cast
  rfl

/-- A number divisible by pairwise coprime numbers is divisible by their product. -/
theorem prod_dvd_of_coprime {α : Type} (f : α → Nat) (L : List α) (hco : L.Pairwise fun s t => Nat.Coprime (f s) (f t)) (z : Int)
    (h : ∀ s ∈ L, (f s : Int) ∣ z) : (((L.map f).prod : Nat) : Int) ∣ z := by
  induction L with
  | nil => simp
  | cons s L ih =>
    rw [List.pairwise_cons] at hco
    rw [List.map_cons, List.prod_cons, Nat.cast_mul]
    refine IsCoprime.mul_dvd (Nat.isCoprime_iff_coprime.2 (Nat.coprime_list_prod_right_iff.2 fun n hn => ?_))
      (h s (List.mem_cons_self ..)) (ih hco.2 fun t ht => h t (List.mem_cons_of_mem _ ht))
    obtain ⟨t, ht, rfl⟩ := List.mem_map.1 hn
    exact hco.1 t ht

/-- Two numbers below `n` that differ by a multiple of `n` are equal. -/
theorem eq_of_dvd_sub {n X Y : Nat} (hX : X < n) (hY : Y < n) (h : (n : Int) ∣ Y - X) : Y = X := by
  obtain ⟨k, hk⟩ := h
  have h1 : k < 1 := by
    by_contra hc
    have : (n : Int) * 1 ≤ n * k := Int.mul_le_mul_of_nonneg_left (by omega) (by omega)
    omega
  have h2 : -1 < k := by
    by_contra hc
    have : (n : Int) * k ≤ n * (-1) := Int.mul_le_mul_of_nonneg_left (by omega) (by omega)
    omega
  have : k = 0 := by omega
  subst this
  omega

/-- C121 for PoKE*: accepted proofs of one statement for pairwise coprime challenges determine one exponent X below the
product L of the challenges, with the given residues, such that C is G^X times an L-th power. -/
theorem C121_pokeStar (N : Nat) (hN : N ≠ 0) (G H C : Int) (g c : (ZMod N)ˣ) (hG : 0 ≤ G) (hg : (g : ZMod N) = G)
    (hc : (c : ZMod N) = C) (L : List StarRun) (hco : L.Pairwise fun s t => Nat.Coprime s.l t.l)
    (hacc : ∀ s ∈ L, s.Accepts N G H C) :
    ∃ (q : (ZMod N)ˣ) (X : Nat), X < (L.map StarRun.l).prod ∧ (∀ s ∈ L, (s.l : Int) ∣ X - s.R) ∧
      q ^ (L.map StarRun.l).prod * g ^ X = c ∧
      ∀ Y : Nat, Y < (L.map StarRun.l).prod → (∀ s ∈ L, (s.l : Int) ∣ Y - s.R) → Y = X := by
  choose! f hf1 hf2 using fun s hs => star_unit N hN G H C g c hG hg hc s (hacc s hs)
  have hpos : 0 < (L.map StarRun.l).prod := Nat.pos_of_ne_zero (List.prod_ne_zero (by
    intro h0
    obtain ⟨s, hs, h0⟩ := List.mem_map.1 h0
    exact (hacc s hs).1.2 h0))
  let A : StarRun → Answer (ZMod N)ˣ := fun s => ⟨s.l, f s, s.R, 0⟩
  have hmap : (L.map A).map Answer.l = L.map StarRun.l := by rw [List.map_map]; rfl
  obtain ⟨q, X, S, hq, hd⟩ := combine_answers g 1 c (L.map A) (List.pairwise_map.2 hco) (by
    intro t ht
    obtain ⟨s, hs, rfl⟩ := List.mem_map.1 ht
    simpa [A] using hf2 s hs)
  rw [hmap, one_zpow, mul_one] at hq
  generalize hM : (L.map StarRun.l).prod = M at *
  have hM0 : (M : Int) ≠ 0 := by omega
  have hlM : ∀ s ∈ L, (s.l : Int) ∣ M := fun s hs => by
    rw [← hM]
    exact_mod_cast List.dvd_prod (List.mem_map_of_mem hs)
  have hX0 := Int.emod_nonneg X hM0
  have hX1 := Int.emod_lt_of_pos X (show 0 < (M : Int) by omega)
  have hres : ∀ s ∈ L, (s.l : Int) ∣ ((X % M).toNat : Int) - s.R := by
    intro s hs
    rw [Int.toNat_of_nonneg hX0]
    have h1 := (hd _ (List.mem_map_of_mem hs)).1
    have h2 : (s.l : Int) ∣ X - X % M := (hlM s hs).trans (by rw [Int.emod_def]; exact ⟨X / M, by ring⟩)
    have := dvd_sub h1 h2
    have e : X - (A s).R - (X - X % M) = X % M - s.R := by show X - s.R - _ = _; ring
    rwa [e] at this
  refine ⟨q * g ^ (X / M), (X % M).toNat, by omega, hres, ?_, ?_⟩
  · rw [mul_pow, ← zpow_natCast (g ^ (X / (M : Int))), ← zpow_mul, ← zpow_natCast g (X % (M : Int)).toNat, Int.toNat_of_nonneg hX0,
      mul_assoc, ← zpow_add, mul_comm _ (M : Int), Int.mul_ediv_add_emod, hq]
  · intro Y hY hYd
    refine eq_of_dvd_sub (by omega) hY ?_
    have h := prod_dvd_of_coprime StarRun.l L hco ((Y : Int) - ((X % (M : Int)).toNat : Int)) fun s hs => by
      have := dvd_sub (hYd s hs) (hres s hs)
      rwa [sub_sub_sub_cancel_right] at this
    rwa [hM] at h

/-- C121, consequence: if C = G^x for an exponent x below the product of prime challenges, the residues of the proofs give x
itself, or one of the proofs gives a root of G of prime degree. -/
theorem C121_exponent (N : Nat) (hN : N ≠ 0) (G H C : Int) (g : (ZMod N)ˣ) (hG : 0 ≤ G) (hg : (g : ZMod N) = G)
    (L : List StarRun) (hp : ∀ s ∈ L, s.l.Prime) (hco : L.Pairwise fun s t => s.l ≠ t.l) (x : Nat)
    (hC : ((g ^ x : (ZMod N)ˣ) : ZMod N) = C) (hx : x < (L.map StarRun.l).prod) (hacc : ∀ s ∈ L, s.Accepts N G H C) :
    (∀ Y : Nat, Y < (L.map StarRun.l).prod → (∀ s ∈ L, (s.l : Int) ∣ Y - s.R) → Y = x) ∨
    ∃ s ∈ L, ∃ q : (ZMod N)ˣ, (q : ZMod N) = s.Q ∧ (g ^ Int.gcdA s.l (x - s.R) * q ^ Int.gcdB s.l (x - s.R)) ^ s.l = g := by
  by_cases h : ∀ s ∈ L, (s.l : Int) ∣ (x : Int) - s.R
  · left
    intro Y hY hYd
    refine eq_of_dvd_sub hx hY (prod_dvd_of_coprime StarRun.l L ?_ _ fun s hs => ?_)
    · exact hco.imp_of_mem fun hs ht hne => (Nat.coprime_primes (hp _ hs) (hp _ ht)).2 hne
    · have := dvd_sub (hYd s hs) (h s hs)
      rwa [sub_sub_sub_cancel_right] at this
  · right
    push Not at h
    obtain ⟨s, hs, hnd⟩ := h
    obtain ⟨q, hq, -, hor⟩ := C90_pokeStar s.E s.fuel N hN G H C s.Q s.R x s.l (hp s hs) (hacc s hs).1 hG g hg
      (by rw [zpow_natCast]; exact hC) (hacc s hs).2
    exact ⟨s, hs, q, hq, hor.resolve_left hnd⟩

/-- One run of the verifier of ZKPoKE after a fixed first message: the hash function, the bound of the loop, the prime challenge
and the answers. -/
structure ZkRun where
  E : Env
  fuel : Nat
  l : Nat
  Qg : Int
  Qu : Int
  rx : Int
  rrho : Int

/-- The run accepts `(u, w)` after the first message `(z, Ag, Au)` with the challenge `c`. -/
def ZkRun.Accepts (s : ZkRun) (N : Nat) (G H u w z Ag Au : Int) (c : Nat) : Prop :=
  fsHashToInt s.E (zkpokeTranscript ⟨N, G, H⟩ u w (some z) (some Ag) (some Au)).info lenMax252 = c ∧
    HasPrimeChallenge s.E s.fuel
      ((zkpokeTranscript ⟨N, G, H⟩ u w (some z) (some Ag) (some Au)).getIntChallenge s.E).2 s.l ∧
    zkpokeVerify s.E s.fuel ⟨N, G, H⟩ u w
      (some ⟨some z, some Ag, some Au, some s.Qg, some s.Qu, some s.rx, some s.rrho⟩) = Run.ok true

/-- The accepted answers as equations of units. -/
theorem zk_units (N : Nat) (hN : N ≠ 0) (G H u w z Ag Au : Int) (c : Nat) (g h b t v α β : (ZMod N)ˣ) (hG : 0 ≤ G) (hH : 0 ≤ H)
    (hu : 0 ≤ u) (hg : (g : ZMod N) = G) (hh : (h : ZMod N) = H) (hb : (b : ZMod N) = u) (ht : (t : ZMod N) = z)
    (hv : (v : ZMod N) = w) (hα : (α : ZMod N) = Ag) (hβ : (β : ZMod N) = Au) (s : ZkRun)
    (hacc : s.Accepts N G H u w z Ag Au c) :
    ∃ q : (ZMod N)ˣ × (ZMod N)ˣ, q ^ s.l * ((g, b) ^ s.rx * (h, 1) ^ s.rrho) = (t ^ c * α, v ^ c * β) := by
  obtain ⟨rfl, hl, hacc⟩ := hacc
  obtain ⟨r, hr, hiff⟩ := C46_zkpoke s.E s.fuel N hN G H u w z Ag Au s.Qg s.Qu s.rx s.rrho s.l hl (.inl hG) (.inl hH) (.inl hu)
  rw [hr] at hacc
  obtain ⟨e1, e2⟩ := hiff.1 (run_ok_inj hacc)
  generalize fsHashToInt s.E (zkpokeTranscript ⟨N, G, H⟩ u w (some z) (some Ag) (some Au)).info lenMax252 = c at *
  rw [← hg, ← hh, gpow_unit, gpow_unit, ← ht, ← hα] at e1
  rw [← hb, gpow_unit, ← hv, ← hβ] at e2
  have unit : ∀ (Q : Int) (x y : (ZMod N)ˣ), (Q : ZMod N) ^ s.l * (x : ZMod N) = (y : ZMod N) →
      ∃ q : (ZMod N)ˣ, q ^ s.l * x = y := by
    intro Q x y hxy
    have hq : IsUnit (Q : ZMod N) := by
      rw [← isUnit_pow_iff hl.2]
      have h4 : IsUnit ((Q : ZMod N) ^ s.l * (x : ZMod N)) := by rw [hxy]; exact Units.isUnit _
      exact (IsUnit.mul_iff.1 h4).1
    obtain ⟨q, hq⟩ := hq
    refine ⟨q, Units.ext ?_⟩
    rw [← hxy, ← hq]
    push_cast
    rfl
  obtain ⟨q1, h1⟩ := unit s.Qg (g ^ s.rx * h ^ s.rrho) (t ^ c * α) (by push_cast; exact e1)
  obtain ⟨q2, h2⟩ := unit s.Qu (b ^ s.rx) (v ^ c * β) (by push_cast; exact e2)
  refine ⟨(q1, q2), Prod.ext ?_ ?_⟩
  · exact h1
  · show q2 ^ s.l * (b ^ s.rx * 1 ^ s.rrho) = _
    rw [one_zpow, mul_one]
    exact h2

/-- C121 for ZKPoKE: accepted answers after one first message and one integer challenge `c`, for pairwise coprime prime
challenges, combine to one pair of exponents X and S that fits both equations at once. -/
theorem C121_zkpoke (N : Nat) (hN : N ≠ 0) (G H u w z Ag Au : Int) (c : Nat) (g h b t v α β : (ZMod N)ˣ) (hG : 0 ≤ G) (hH : 0 ≤ H)
    (hu : 0 ≤ u) (hg : (g : ZMod N) = G) (hh : (h : ZMod N) = H) (hb : (b : ZMod N) = u) (ht : (t : ZMod N) = z)
    (hv : (v : ZMod N) = w) (hα : (α : ZMod N) = Ag) (hβ : (β : ZMod N) = Au) (L : List ZkRun)
    (hco : L.Pairwise fun s t => Nat.Coprime s.l t.l) (hacc : ∀ s ∈ L, s.Accepts N G H u w z Ag Au c) :
    ∃ (q q' : (ZMod N)ˣ) (X S : Int), (∀ s ∈ L, (s.l : Int) ∣ X - s.rx ∧ (s.l : Int) ∣ S - s.rrho) ∧
      q ^ (L.map ZkRun.l).prod * (g ^ X * h ^ S) = t ^ c * α ∧ q' ^ (L.map ZkRun.l).prod * b ^ X = v ^ c * β := by
  choose! f hf using fun s hs => zk_units N hN G H u w z Ag Au c g h b t v α β hG hH hu hg hh hb ht hv hα hβ s (hacc s hs)
  let A : ZkRun → Answer ((ZMod N)ˣ × (ZMod N)ˣ) := fun s => ⟨s.l, f s, s.rx, s.rrho⟩
  have hmap : (L.map A).map Answer.l = L.map ZkRun.l := by rw [List.map_map]; rfl
  obtain ⟨q, X, S, hq, hd⟩ := combine_answers (g, b) (h, 1) (t ^ c * α, v ^ c * β) (L.map A) (List.pairwise_map.2 hco) (by
    intro t ht
    obtain ⟨s, hs, rfl⟩ := List.mem_map.1 ht
    exact hf s hs)
  rw [hmap] at hq
  refine ⟨q.1, q.2, X, S, fun s hs => hd _ (List.mem_map_of_mem hs), congrArg Prod.fst hq, ?_⟩
  have h2 : q.2 ^ (L.map ZkRun.l).prod * (b ^ X * 1 ^ S) = v ^ c * β := congrArg Prod.snd hq
  rwa [one_zpow, mul_one] at h2

/-- C121, the second step for ZKPoKE: two integer challenges after the same first message remove it. What is left is the claimed
relation, raised to the difference of the challenges and up to powers of the products of the prime challenges. -/
theorem C121_zkpoke_difference (N : Nat) (hN : N ≠ 0) (G H u w z Ag Au : Int) (c d : Nat) (g h b t v α β : (ZMod N)ˣ) (hG : 0 ≤ G)
    (hH : 0 ≤ H) (hu : 0 ≤ u) (hg : (g : ZMod N) = G) (hh : (h : ZMod N) = H) (hb : (b : ZMod N) = u) (ht : (t : ZMod N) = z)
    (hv : (v : ZMod N) = w) (hα : (α : ZMod N) = Ag) (hβ : (β : ZMod N) = Au) (L M : List ZkRun)
    (hL : L.Pairwise fun s t => Nat.Coprime s.l t.l) (hM : M.Pairwise fun s t => Nat.Coprime s.l t.l)
    (haccL : ∀ s ∈ L, s.Accepts N G H u w z Ag Au c) (haccM : ∀ s ∈ M, s.Accepts N G H u w z Ag Au d) :
    ∃ (k : Nat) (q q' : (ZMod N)ˣ) (X S : Int), k = Nat.gcd (L.map ZkRun.l).prod (M.map ZkRun.l).prod ∧
      q ^ k * (g ^ X * h ^ S) = t ^ ((c : Int) - d) ∧ q' ^ k * b ^ X = v ^ ((c : Int) - d) := by
  obtain ⟨q, q', X, S, -, e1, e2⟩ := C121_zkpoke N hN G H u w z Ag Au c g h b t v α β hG hH hu hg hh hb ht hv hα hβ L hL haccL
  obtain ⟨p, p', Y, T, -, f1, f2⟩ := C121_zkpoke N hN G H u w z Ag Au d g h b t v α β hG hH hu hg hh hb ht hv hα hβ M hM haccM
  obtain ⟨m, hm⟩ := Nat.gcd_dvd_left (L.map ZkRun.l).prod (M.map ZkRun.l).prod
  obtain ⟨n, hn⟩ := Nat.gcd_dvd_right (L.map ZkRun.l).prod (M.map ZkRun.l).prod
  generalize Nat.gcd (L.map ZkRun.l).prod (M.map ZkRun.l).prod = k at *
  have key : ∀ (q p : (ZMod N)ˣ) (A B τ γ : (ZMod N)ˣ), q ^ (L.map ZkRun.l).prod * A = τ ^ c * γ →
      p ^ (M.map ZkRun.l).prod * B = τ ^ d * γ → (q ^ m * (p ^ n)⁻¹) ^ k * (A * B⁻¹) = τ ^ ((c : Int) - d) := by
    intro q p A B τ γ h1 h2
    rw [hm] at h1
    rw [hn] at h2
    have e : τ ^ ((c : Int) - d) = (τ ^ c * γ) * (τ ^ d * γ)⁻¹ := by
      rw [zpow_sub, zpow_natCast, zpow_natCast, mul_inv, mul_comm ((τ ^ d)⁻¹), mul_assoc, mul_inv_cancel_left]
    rw [e, ← h1, ← h2, mul_pow, inv_pow, ← pow_mul, ← pow_mul, mul_comm m, mul_comm n, mul_inv, mul_mul_mul_comm]
  refine ⟨k, q ^ m * (p ^ n)⁻¹, q' ^ m * (p' ^ n)⁻¹, X - Y, S - T, rfl, ?_, ?_⟩
  · rw [← key q p _ _ t α e1 f1, mul_inv, mul_mul_mul_comm (g ^ X), zpow_sub, zpow_sub]
  · rw [← key q' p' _ _ v β e2 f2, zpow_sub]

/-! ## Examples -/

/-- A second hash for examples: every challenge is 17. -/
def pokeEnv17 : Env := { pokeEnv with sha256 := fun _ => List.replicate 31 0 ++ [17], sha256_length := fun _ => rfl, probablyPrime := fun n => n == 17 }

/-- Proofs for 4^100 modulo 35 with the challenges 13 and 17: the residues 9 and 15 give the exponent 100. -/
def runs35 : List StarRun := [⟨pokeEnv, 1, 13, 4, 9⟩, ⟨pokeEnv17, 1, 17, 9, 15⟩]

theorem runs35_accept : ∀ s ∈ runs35, s.Accepts 35 4 9 11 := by
  intro s hs
  simp only [runs35, List.mem_cons, List.not_mem_nil, or_false] at hs
  rcases hs with rfl | rfl
  · obtain ⟨b, hb, hiff⟩ := C46_pokeStar pokeEnv 1 35 (by decide) 4 9 11 4 9 13 ⟨rfl, by decide⟩ (.inl (by decide))
    exact ⟨⟨rfl, by decide⟩, hb.trans (congrArg _ (hiff.2 (by decide +kernel)))⟩
  · obtain ⟨b, hb, hiff⟩ := C46_pokeStar pokeEnv17 1 35 (by decide) 4 9 11 9 15 17 ⟨rfl, by decide⟩ (.inl (by decide))
    exact ⟨⟨rfl, by decide⟩, hb.trans (congrArg _ (hiff.2 (by decide +kernel)))⟩

example : ∀ Y : Nat, Y < 221 → (∀ s ∈ runs35, (s.l : Int) ∣ Y - s.R) → Y = 100 := by
  rcases C121_exponent 35 (by decide) 4 9 11 ⟨4, 9, by decide, by decide⟩ (by decide) rfl runs35 (by decide) (by decide) 100
    (by decide +kernel) (by decide) runs35_accept with h | ⟨s, hs, -⟩
  · exact h
  · intro Y hY h
    have h1 := h ⟨pokeEnv, 1, 13, 4, 9⟩ (by simp [runs35])
    have h2 := h ⟨pokeEnv17, 1, 17, 9, 15⟩ (by simp [runs35])
    simp only at h1 h2
    omega

/-- Units modulo 35. -/
def unit4 : (ZMod 35)ˣ := ⟨4, 9, by decide, by decide⟩
/-- 9 is the inverse of 4. -/
def unit9 : (ZMod 35)ˣ := ⟨9, 4, by decide, by decide⟩
/-- 11 is 4^4. -/
def unit11 : (ZMod 35)ˣ := ⟨11, 16, by decide, by decide⟩
/-- 16 is 4^2. -/
def unit16 : (ZMod 35)ˣ := ⟨16, 11, by decide, by decide⟩

/-- A third hash for examples: the integer challenge is 13, and the prime challenge, found in the second step, is 11. -/
def pokeEnv11 : Env := { pokeEnv with
  sha256 := fun b => if b = [13] then List.replicate 31 0 ++ [11] else List.replicate 31 0 ++ [13]
  sha256_length := fun b => by by_cases h : b = [13] <;> simp [h]
  probablyPrime := fun n => n == 11 }

/-- Answers for 4^5 = 9 modulo 35 after the first message 11, 9, 16 and the integer challenge 13. -/
def zkRuns35 : List ZkRun := [⟨pokeEnv, 1, 13, 11, 9, 2, 3⟩, ⟨pokeEnv11, 2, 11, 9, 1, 1, 5⟩]

theorem zkRuns35_accept : ∀ s ∈ zkRuns35, s.Accepts 35 4 9 4 9 11 9 16 13 := by
  intro s hs
  simp only [zkRuns35, List.mem_cons, List.not_mem_nil, or_false] at hs
  rcases hs with rfl | rfl
  · have hl : HasPrimeChallenge pokeEnv 1
        ((zkpokeTranscript ⟨35, 4, 9⟩ 4 9 (some 11) (some 9) (some 16)).getIntChallenge pokeEnv).2 13 := ⟨rfl, by decide⟩
    obtain ⟨b, hb, hiff⟩ := C46_zkpoke pokeEnv 1 35 (by decide) 4 9 4 9 11 9 16 11 9 2 3 13 hl (.inl (by decide))
      (.inl (by decide)) (.inl (by decide))
    exact ⟨rfl, hl, hb.trans (congrArg _ (hiff.2 (by decide +kernel)))⟩
  · have hl : HasPrimeChallenge pokeEnv11 2
        ((zkpokeTranscript ⟨35, 4, 9⟩ 4 9 (some 11) (some 9) (some 16)).getIntChallenge pokeEnv11).2 11 :=
      ⟨by decide +kernel, by decide⟩
    obtain ⟨b, hb, hiff⟩ := C46_zkpoke pokeEnv11 2 35 (by decide) 4 9 4 9 11 9 16 9 1 1 5 11 hl (.inl (by decide))
      (.inl (by decide)) (.inl (by decide))
    exact ⟨by decide +kernel, hl, hb.trans (congrArg _ (hiff.2 (by decide +kernel)))⟩

/-- The two answers meet the hypotheses of C121; the combined exponents are 67 = 2 + 13 * 5 and 16 modulo 143. -/
example : ∃ (q q' : (ZMod 35)ˣ) (X S : Int), ((143 : Int) ∣ X - 67 ∧ (143 : Int) ∣ S - 16) ∧ q ^ 143 * (unit4 ^ X * unit9 ^ S) =
    unit11 ^ 13 * unit9 ∧ q' ^ 143 * unit4 ^ X = unit9 ^ 13 * unit16 := by
  obtain ⟨q, q', X, S, hd, h1, h2⟩ := C121_zkpoke 35 (by decide) 4 9 4 9 11 9 16 13 unit4 unit9 unit4 unit11 unit9 unit9 unit16
    (by decide) (by decide) (by decide) rfl rfl rfl rfl rfl rfl rfl zkRuns35 (by decide) zkRuns35_accept
  have d1 := hd ⟨pokeEnv, 1, 13, 11, 9, 2, 3⟩ (by simp [zkRuns35])
  have d2 := hd ⟨pokeEnv11, 2, 11, 9, 1, 1, 5⟩ (by simp [zkRuns35])
  simp only at d1 d2
  exact ⟨q, q', X, S, ⟨by omega, by omega⟩, h1, h2⟩

end Verif.Props
