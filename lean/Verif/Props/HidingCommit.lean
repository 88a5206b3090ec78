import Mathlib.RingTheory.RootsOfUnity.PrimitiveRoots
import Mathlib.Data.Nat.Totient
import Verif.Lemmas.Blind
import Verif.Props.HidingPoke
import Verif.Props.Setup

/-!
# Property C108: what commitments tell about the committed numbers

The random numbers of a commitment `g^x h^r` are drawn from `0, …, N`, but the powers of `h` repeat with the order of `h`, which
does not divide `N + 1`.
-/

namespace Verif.Props
open Verif.Go Verif.Model Verif.Lemmas Verif.Spec

/-- What `commitForX` sends for the three numbers `ts` with the random numbers `w`. -/
def commitsOf (pp : PublicParameters) (ts : Int3) (w : Fin 3 → Int) : Res Int3 := commitFromTS pp ⟨w 0, w 1, w 2⟩ ts

/-- The bases of the commitments: `g` is a power of `h`, and the powers of `h` repeat after `m` steps. -/
structure Bases (pp : PublicParameters) (m : Nat) : Prop where
  good : GoodParams pp
  power : ∃ k, IsPower pp.N pp.H k (pp.G % pp.N)
  pos : 0 < m
  period : pp.N ∣ pp.H ^ m - 1

/-- The parameters that `TrustedSetupForQRN` prints, if the primality test is right, the primes differ and have `b + 1` bits
and the number `r` from `crand.Prime` is a prime of another length than `b` bits (in the code: 1023 and 2048). -/
structure FromSetup (pp : PublicParameters) (p q b : Nat) : Prop where
  differ : p ≠ q
  run : ∃ test cand rnd r fuel N g, (∀ n, test n = true → n.Prime) ∧ (∀ i, (cand i).size = b) ∧ r.Prime ∧ r.size ≠ b ∧
    trustedSetupForQRN test cand rnd r fuel = Run.ok (N, g, pp.H, p, q) ∧ pp.N = N ∧ pp.G = g

/-- C108: with parameters from the setup, no test tells the commitments to one triple from the commitments to another one with an
advantage above `2^-(b-3)`, which is 2^-1020 for the lengths of the code. -/
def C108_statement : Prop :=
  ∀ (pp : PublicParameters) (p q b : Nat), FromSetup pp p q b → 3 ≤ b →
    ∀ ts ts' : Int3, Close (2 ^ (b - 3)) (box (rcLimits pp)) (commitsOf pp ts) (commitsOf pp ts')

section form
variable {N : Nat}

/-- With `g = h^k`, the number `x` only moves the random number by `k x`. -/
theorem gh_shift (g h : (ZMod N)ˣ) (k : Int) (hk : g = h ^ k) (x r : Int) : gh g h x r = gh 1 h 0 (r + k * x) := by
  unfold gh
  rw [hk, one_zpow, one_mul, ← zpow_mul, ← zpow_add, add_comm]

theorem gh_period (h : (ZMod N)ˣ) (m : Nat) (hm : h ^ m = 1) (r : Int) : gh 1 h 0 (r + m) = gh 1 h 0 r := by
  unfold gh
  rw [zpow_add, zpow_natCast, hm, mul_one]

end form

/-- The bases as elements of the group. -/
theorem bases_units {n : Nat} [NeZero n] {G H : Int} {m : Nat} (hb : Bases ⟨n, G, H⟩ m) :
    ∃ (g h : (ZMod n)ˣ) (k : Int), (g : ZMod n) = G ∧ (h : ZMod n) = H ∧ g = h ^ k ∧ h ^ m = 1 ∧ 0 ≤ G ∧ 0 ≤ H := by
  obtain ⟨⟨hN, hG, hH, hgu, hhu⟩, ⟨k, hk⟩, hm, hp⟩ := hb
  simp only at hN hG hH hgu hhu hk hp
  obtain ⟨g, hg⟩ := (isUnit_iff_gcd (N := n) G).2 hgu
  obtain ⟨h, hh⟩ := (isUnit_iff_gcd (N := n) H).2 hhu
  refine ⟨g, h, k, hg, hh, ?_, ?_, hG, hH⟩
  · have e := ((isPower_iff _ _ _).1 hk).2
    rw [← hh, gpow_unit, emod_eq_val, ← hg] at e
    exact Units.ext (ZMod.val_injective n (by exact_mod_cast e))
  · rw [← ZMod.intCast_zmod_eq_zero_iff_dvd] at hp
    push_cast at hp
    rw [← hh, sub_eq_zero] at hp
    exact Units.ext (by push_cast; exact hp)

/-- Every test: the advantage is at most three times the incomplete period of the `N + 1` random numbers. -/
theorem C108_bias (pp : PublicParameters) (m : Nat) (hb : Bases pp m) (K : Nat)
    (hK : slack pp.N m * (3 * K) ≤ (pp.N + 1).toNat) (ts ts' : Int3) :
    Close K (box (rcLimits pp)) (commitsOf pp ts) (commitsOf pp ts') := by
  obtain ⟨N, G, H⟩ := pp
  have hN : 1 ≤ N := hb.good.modulus
  obtain ⟨n, rfl⟩ : ∃ n : Nat, N = n := ⟨N.toNat, by omega⟩
  have : NeZero n := ⟨by omega⟩
  obtain ⟨g, h, k, hg, hh, hk, hm, hG, hH⟩ := bases_units hb
  have form : ∀ ts : Int3, commitsOf ⟨n, G, H⟩ ts = fun w =>
      (fun w : Fin 3 → Int => (Except.ok ⟨gh 1 h 0 (w 0), gh 1 h 0 (w 1), gh 1 h 0 (w 2)⟩ : Res Int3))
        (w + ![k * ts.t0, k * ts.t1, k * ts.t2]) := by
    intro ts
    funext w
    unfold commitsOf commitFromTS
    simp only [commitGH_gh G H hG hH g h hg hh, gh_shift g h k hk, res_ok_bind]
    rfl
  rw [form, form]
  refine close_of_periodic (rcLimits ⟨n, G, H⟩) ?_
    (fun w : Fin 3 → Int => (Except.ok ⟨gh 1 h 0 (w 0), gh 1 h 0 (w 1), gh 1 h 0 (w 2)⟩ : Res Int3)) (fun _ => m)
    (fun _ => hb.pos) ?_ K 3 (by norm_num) (fun _ => 1) (by simp) ?_ ![k * ts.t0, k * ts.t1, k * ts.t2]
    ![k * ts'.t0, k * ts'.t1, k * ts'.t2]
  · intro i
    unfold rcLimits
    fin_cases i <;> simp
  · intro i w
    have := gh_period h m hm
    fin_cases i <;> simp [this]
  · intro i
    have : rcLimits ⟨n, G, H⟩ i = n := by unfold rcLimits; fin_cases i <;> rfl
    rw [this, one_mul]
    exact hK

/-- The same for the commitment to one number. -/
theorem C108_single_bias (pp : PublicParameters) (m : Nat) (hb : Bases pp m) (K : Nat)
    (hK : slack pp.N m * K ≤ (pp.N + 1).toNat) (x x' : Int) :
    Close K (box fun _ : Fin 1 => pp.N) (fun w => calC pp (w 0) x) (fun w => calC pp (w 0) x') := by
  obtain ⟨N, G, H⟩ := pp
  have hN : 1 ≤ N := hb.good.modulus
  obtain ⟨n, rfl⟩ : ∃ n : Nat, N = n := ⟨N.toNat, by omega⟩
  have : NeZero n := ⟨by omega⟩
  obtain ⟨g, h, k, hg, hh, hk, hm, hG, hH⟩ := bases_units hb
  have form : ∀ x : Int, (fun w : Fin 1 → Int => calC ⟨n, G, H⟩ (w 0) x) = fun w =>
      (fun w : Fin 1 → Int => (Except.ok (gh 1 h 0 (w 0)) : Res Int)) (w + ![k * x]) := by
    intro x
    funext w
    rw [calC_gh G H hG hH g h hg hh, gh_shift g h k hk]
    rfl
  rw [form, form]
  refine close_of_periodic (fun _ : Fin 1 => (n : Int)) ?_ (fun w : Fin 1 → Int => (Except.ok (gh 1 h 0 (w 0)) : Res Int))
    (fun _ => m) (fun _ => hb.pos) ?_ K 1 (by norm_num) (fun _ => 1) (by simp) ?_ ![k * x] ![k * x']
  · intro i
    simp
  · intro i w
    have := gh_period h m hm
    fin_cases i
    simp [this]
  · intro i
    rw [one_mul, one_mul]
    exact hK

/-- The commitment `z` in the proofs of `ZKPoKEProve`, with random numbers below `N P`. -/
theorem C108_zkpoke_bias (pp : PublicParameters) (hpp : GoodParams pp) (hG : ∃ k, IsPower pp.N pp.H k (pp.G % pp.N))
    (P : Nat) (hP : 0 < P) (x x' : Int) :
    Close (2 * P) (box fun _ : Fin 3 => pp.N * P - 1) (fun w => multiExp pp.G x pp.H (w 1) pp.N)
      (fun w => multiExp pp.G x' pp.H (w 1) pp.N) := by
  obtain ⟨N, G, H⟩ := pp
  have hN : 1 ≤ N := hpp.modulus
  obtain ⟨n, rfl⟩ : ∃ n : Nat, N = n := ⟨N.toNat, by omega⟩
  have : NeZero n := ⟨by omega⟩
  have hb : Bases ⟨n, G, H⟩ (Fintype.card (ZMod n)ˣ) := by
    refine ⟨hpp, hG, Fintype.card_pos, ?_⟩
    obtain ⟨h, hh⟩ := (isUnit_iff_gcd (N := n) H).2 hpp.h_unit
    have := congrArg Units.val (pow_card_eq_one (x := h))
    show (n : Int) ∣ H ^ _ - 1
    rw [← ZMod.intCast_zmod_eq_zero_iff_dvd]
    push_cast
    rw [← hh, sub_eq_zero]
    rw [← Units.val_pow_eq_pow_val]
    exact this
  have hcard : Fintype.card (ZMod n)ˣ ≤ n := by
    rw [ZMod.card_units_eq_totient]
    exact Nat.totient_le n
  generalize Fintype.card (ZMod n)ˣ = m at hb hcard
  obtain ⟨g, h, k, hg, hh, hk, hm, hG, hH⟩ := bases_units hb
  have form : ∀ x : Int, (fun w : Fin 3 → Int => multiExp G x H (w 1) n) = fun w =>
      (fun w : Fin 3 → Int => (Run.ok (gh 1 h 0 (w 1)) : Run Int)) (w + ![0, k * x, 0]) := by
    intro x
    funext w
    rw [multiExp_eq _ _ _ _ (.inl hG) (.inl hH), ← hg, ← hh, gpow_unit, gpow_unit, ← Units.val_mul]
    exact congrArg Run.ok (gh_shift g h k hk x (w 1))
  show Close (2 * P) (box fun _ : Fin 3 => (n : Int) * P - 1) (fun w : Fin 3 → Int => multiExp G x H (w 1) n)
    (fun w : Fin 3 → Int => multiExp G x' H (w 1) n)
  rw [form, form]
  have hpos : 1 ≤ n * P := Nat.mul_pos (by omega) hP
  have hlim : (n : Int) * P - 1 + 1 = ((n * P : Nat) : Int) := by push_cast; ring
  refine close_of_periodic (fun _ : Fin 3 => (n : Int) * P - 1) ?_ (fun w => (Run.ok (gh 1 h 0 (w 1)) : Run Int)) ![1, m, 1]
    ?_ ?_ (2 * P) 1 (by norm_num) ![0, 1, 0] (by simp [Fin.sum_univ_succ]) ?_ ![0, k * x, 0] ![0, k * x', 0]
  · intro i
    omega
  · have := hb.pos
    intro i
    fin_cases i <;> simp [this]
  · intro i w
    have := gh_period h m hm
    fin_cases i <;> simp [this]
  · intro i
    rw [hlim, Int.toNat_natCast]
    have hs : slack (n * P - 1) m * 2 ≤ m := by
      unfold slack
      rw [hlim, Int.toNat_natCast]
      have := Nat.mod_lt (n * P) hb.pos
      omega
    have h1 : slack (n * P - 1) 1 = 0 := by
      unfold slack
      rw [Nat.mod_one]; rfl
    fin_cases i
    · simp [h1]
    · show slack (n * P - 1) m * (1 * (2 * P)) ≤ 1 * (n * P)
      rw [one_mul, one_mul, ← mul_assoc]
      exact Nat.mul_le_mul_right _ (hs.trans hcard)
    · simp [h1]

/-- The random number of `z` is so long that no condition on the modulus is needed. -/
theorem C108_zkpoke (pp : PublicParameters) (hpp : GoodParams pp) (hG : ∃ k, IsPower pp.N pp.H k (pp.G % pp.N)) (x x' : Int) :
    Close (2 ^ 255) (box (zkpokeLimits pp)) (fun w => multiExp pp.G x pp.H (w 1) pp.N)
      (fun w => multiExp pp.G x' pp.H (w 1) pp.N) := by
  obtain ⟨P, hP⟩ : ∃ P : Nat, P = 2 ^ 254 := ⟨_, rfl⟩
  have h1 : zkpokeLimits pp = fun _ => pp.N * P - 1 := by
    have : zkpokeBound pp = pp.N * P := by rw [hP]; push_cast; rfl
    funext i
    unfold zkpokeLimits
    rw [this]
    fin_cases i <;> rfl
  have h2 : 2 ^ 255 = 2 * P := by rw [hP, pow_succ']
  rw [h1, h2]
  exact C108_zkpoke_bias pp hpp hG P (by rw [hP]; positivity) x x'

/-! ## The parameters of the setup -/

theorem size_half (p : Nat) : (2 * p + 1).size = p.size + 1 := by
  have h0 : Nat.bit true p = 2 * p + 1 := rfl
  rw [← h0, Nat.size_bit (by rw [h0]; omega)]

/-- With parameters from the setup `g` is a power of `h`, and the powers of `h` repeat after `p' q'` steps. -/
theorem setup_bases {pp : PublicParameters} {p q b : Nat} (hs : FromSetup pp p q b) :
    ∃ p' q' : Nat, p = 2 * p' + 1 ∧ q = 2 * q' + 1 ∧ p'.size = b ∧ q'.size = b ∧ pp.N = p * q ∧ Bases pp (p' * q') := by
  obtain ⟨hpq, test, cand, rnd, r, fuel, N, g, hsound, hsize, hr, hrb, hrun, hN, hG⟩ := hs
  obtain ⟨N0, G, H⟩ := pp
  simp only at hrun hN hG
  subst hN hG
  obtain ⟨rfl, hp, hq, szp, szq, hg, hsq, hh, h0, h1⟩ := C22_trustedSetupForQRN _ _ _ _ _ _ _ _ _ _ _ hsound hpq hsize hrun
  have hexp := C22_order_is_exponent p q hp hq hpq g (by push_cast at hg; exact hg) (by push_cast at hsq; exact hsq)
  obtain ⟨hp1, p', hp', rfl⟩ := hp
  obtain ⟨hq1, q', hq', rfl⟩ := hq
  rw [size_half] at szp szq
  have e : (getOrder ((2 * p' + 1 : Nat) : Int) ((2 * q' + 1 : Nat) : Int)).natAbs = p' * q' := by
    have h1 : (((2 * p' + 1 : Nat) : Int) - 1) / 2 = (p' : Nat) := by omega
    have h2 : (((2 * q' + 1 : Nat) : Int) - 1) / 2 = (q' : Nat) := by omega
    unfold getOrder
    rw [h1, h2, ← Nat.cast_mul, Int.natAbs_natCast]
  rw [e] at hexp
  have hcop : Nat.Coprime r (p' * q') := by
    refine Nat.Coprime.mul_right ((Nat.coprime_primes hr hp').2 ?_) ((Nat.coprime_primes hr hq').2 ?_) <;>
      (rintro rfl; omega)
  have hm : 0 < p' * q' := Nat.mul_pos hp'.pos hq'.pos
  refine ⟨p', q', rfl, rfl, by omega, by omega, by push_cast; rfl, ?_⟩
  generalize hn : (2 * p' + 1) * (2 * q' + 1) = n at *
  have : NeZero n := ⟨by rw [← hn]; positivity⟩
  rw [← Nat.cast_mul, hn] at hexp
  obtain ⟨u, hu⟩ := (isUnit_iff_gcd (N := n) g).2 hg
  have hH : (H : ZMod n) = ((u ^ r : (ZMod n)ˣ) : ZMod n) := by
    rw [← ZMod.intCast_zmod_eq_zero_iff_dvd] at hh
    push_cast at hh hu ⊢
    rw [hu]
    exact sub_eq_zero.1 hh
  have hum : u ^ (p' * q') = 1 := by
    rw [← ZMod.intCast_zmod_eq_zero_iff_dvd] at hexp
    push_cast at hexp hu
    refine Units.ext ?_
    push_cast
    rw [hu]
    exact sub_eq_zero.1 hexp
  have hHu : IsUnit (H : ZMod n) := hH ▸ Units.isUnit _
  refine ⟨⟨by have := natN_pos (N := n); show (1 : Int) ≤ n; omega, by positivity, h0, hg, (isUnit_iff_gcd H).1 hHu⟩,
    ⟨Nat.gcdA r (p' * q'), ?_⟩, hm, ?_⟩
  · have hbez := Nat.gcd_eq_gcd_ab r (p' * q')
    rw [hcop] at hbez
    show IsPower n H _ ((g : Int) % n)
    rw [isPower_iff]
    refine ⟨fun _ => hHu, ?_⟩
    rw [emod_eq_val, hH, gpow_unit, ← zpow_natCast, ← zpow_mul, ← hu]
    have : u ^ ((r : Int) * Nat.gcdA r (p' * q')) = u := by
      have h2 : (r : Int) * Nat.gcdA r (p' * q') = 1 - ((p' * q' : Nat) : Int) * Nat.gcdB r (p' * q') := by
        rw [← Nat.cast_one, hbez]; ring
      rw [h2, zpow_sub, zpow_one, zpow_mul, zpow_natCast, hum, one_zpow, inv_one, mul_one]
    rw [this]
  · show (n : Int) ∣ H ^ (p' * q') - 1
    rw [← ZMod.intCast_zmod_eq_zero_iff_dvd]
    push_cast
    rw [hH, ← Units.val_pow_eq_pow_val, ← pow_mul, mul_comm, pow_mul, hum, one_pow, Units.val_one, sub_self]

/-- The incomplete period for a product of two safe primes. -/
theorem slack_safe (p' q' : Nat) : slack (((2 * p' + 1) * (2 * q' + 1) : Nat) : Int) (p' * q') ≤ 2 * p' + 2 * q' + 2 := by
  unfold slack
  have h : ((((2 * p' + 1) * (2 * q' + 1) : Nat) : Int) + 1).toNat = 2 * p' + 2 * q' + 2 + p' * q' * 4 := by
    have : ((((2 * p' + 1) * (2 * q' + 1) : Nat) : Int) + 1) = ((2 * p' + 2 * q' + 2 + p' * q' * 4 : Nat) : Int) := by
      push_cast; ring
    rw [this, Int.toNat_natCast]
  rw [h, Nat.add_mul_mod_self_left]
  exact (min_le_left _ _).trans (Nat.mod_le _ _)

/-- Three times the incomplete period is small against the number of random numbers. -/
theorem slack_small (p' q' T : Nat) (hT : 1 ≤ T) (hp : 4 * T ≤ p') (hq : 4 * T ≤ q') :
    (2 * p' + 2 * q' + 2) * (3 * T) ≤ (2 * p' + 1) * (2 * q' + 1) + 1 := by
  nlinarith [Nat.mul_le_mul_right q' hp, Nat.mul_le_mul_left p' hq, Nat.mul_le_mul hp hq]

theorem size_ge {a b : Nat} (ha : a.size = b) (hb : 3 ≤ b) : 4 * 2 ^ (b - 3) ≤ a := by
  obtain ⟨c, rfl⟩ : ∃ c, b = c + 3 := ⟨b - 3, by omega⟩
  have h1 : 2 ^ (c + 2) ≤ a := by
    by_contra h
    have := Nat.size_le.2 (not_le.1 h)
    omega
  have h2 : 2 ^ (c + 2) = 4 * 2 ^ c := by rw [pow_add]; ring
  rw [Nat.add_sub_cancel]
  omega

theorem C108 : C108_statement := by
  intro pp p q b hs hb ts ts'
  obtain ⟨p', q', rfl, rfl, szp, szq, hN, hbases⟩ := setup_bases hs
  have h1 := slack_small p' q' (2 ^ (b - 3)) Nat.one_le_two_pow (size_ge szp hb) (size_ge szq hb)
  refine C108_bias pp _ hbases _ ?_ ts ts'
  have hN' : pp.N = (((2 * p' + 1) * (2 * q' + 1) : Nat) : Int) := by rw [hN]; push_cast; ring
  rw [hN']
  refine (Nat.mul_le_mul_right _ (slack_safe p' q')).trans (h1.trans ?_)
  omega

/-- The setup with the primes 47 and 59: `b` is 5. -/
theorem setup2773 : FromSetup ⟨2773, 4, 2288⟩ 47 59 5 := by
  refine ⟨by norm_num, fun n => n == 23 || n == 29 || n == 47 || n == 59, fun i => if i = 0 then 23 else 29, fun i => i + 4, 37, 5,
    2773, 4, ?_, ?_, by norm_num, by decide +kernel, ?_, rfl, rfl⟩
  · intro n h
    simp only [Bool.or_eq_true, beq_iff_eq] at h
    rcases h with ((rfl | rfl) | rfl) | rfl <;> norm_num
  · intro i
    by_cases h : i = 0
    · subst h; decide +kernel
    · show (if i = 0 then 23 else 29).size = 5
      rw [if_neg h]; decide +kernel
  · apply ExceptT.ext
    decide +kernel

example : Close (2 ^ 2) (box (rcLimits ⟨2773, 4, 2288⟩)) (commitsOf ⟨2773, 4, 2288⟩ ⟨1, 2, 3⟩) (commitsOf ⟨2773, 4, 2288⟩ ⟨5, -7, 0⟩) :=
  C108 _ _ _ _ setup2773 (by norm_num) _ _

theorem bases2773 : Bases ⟨2773, 4, 2288⟩ 667 := by
  obtain ⟨p', q', hp, hq, -, -, -, hb⟩ := setup_bases setup2773
  have h1 : p' = 23 := by omega
  have h2 : q' = 29 := by omega
  subst h1 h2
  exact hb

/-- The last period of the 2774 random numbers has 106 of 667 steps. -/
example : Close 8 (box (rcLimits ⟨2773, 4, 2288⟩)) (commitsOf ⟨2773, 4, 2288⟩ ⟨1, 2, 3⟩) (commitsOf ⟨2773, 4, 2288⟩ ⟨5, -7, 0⟩) :=
  C108_bias _ _ bases2773 8 (by decide +kernel) _ _

example : Close 26 (box fun _ : Fin 1 => (2773 : Int)) (fun w => calC ⟨2773, 4, 2288⟩ (w 0) 1)
    (fun w => calC ⟨2773, 4, 2288⟩ (w 0) (-8)) := C108_single_bias _ _ bases2773 26 (by decide +kernel) _ _

example : Close (2 ^ 255) (box (zkpokeLimits ⟨35, 4, 9⟩)) (fun w => multiExp 4 1 9 (w 1) 35) (fun w => multiExp 4 2 9 (w 1) 35) :=
  C108_zkpoke ⟨35, 4, 9⟩ good35 ⟨5, by norm_num, by norm_num, by decide +kernel⟩ 1 2

/-! ## The number `r` must have no common factor with the order -/

/-- With a multiple of the order instead of a prime number the setup gives `h = 1`. -/
theorem setup_one : (trustedSetupForQRN (fun n => n == 2 || n == 3 || n == 5 || n == 7) (fun i => if i = 0 then 2 else 3)
    (fun i => i + 2) 6 5).run = some (.ok (35, 4, 1, 5, 7)) := by decide +kernel

theorem not_close_of_const {α β : Type} (coins : Finset α) (f g : α → β) (a b : β) (hab : a ≠ b) (hc : coins.Nonempty)
    (hf : ∀ w, f w = a) (hg : ∀ w, g w = b) : ¬ Close 2 coins f g := by
  intro h
  have h1 := (h fun o => o = a).1
  have h2 := passes_ge coins coins f (fun o => o = a) (subset_refl _) fun w _ => hf w
  rw [passes_eq_zero coins g _ fun w _ => by rw [hg]; exact Ne.symm hab] at h1
  have := hc.card_pos
  omega

/-- With `h = 1` the commitments are told apart by looking at them. -/
theorem C108_needs_prime : ¬ Close 2 (box (rcLimits ⟨35, 4, 1⟩)) (commitsOf ⟨35, 4, 1⟩ ⟨0, 0, 0⟩) (commitsOf ⟨35, 4, 1⟩ ⟨1, 0, 0⟩) := by
  intro h
  have hone : ∀ r : Int, bigExp 1 r 35 = some 1 := by
    intro r
    have : NeZero 35 := ⟨by norm_num⟩
    have := bigExp_unit (N := 35) 1 r (by norm_num) 1 (by simp)
    rw [show ((35 : Nat) : Int) = 35 from rfl] at this
    rw [this, one_zpow]
    rfl
  have hc : ∀ ts w, commitsOf ⟨35, 4, 1⟩ ts w = commitsOf ⟨35, 4, 1⟩ ts 0 := by
    intro ts w
    unfold commitsOf commitFromTS commitGH
    simp only [hone]
  have h1 : commitsOf ⟨35, 4, 1⟩ ⟨0, 0, 0⟩ 0 = .ok ⟨1, 1, 1⟩ := by decide +kernel
  have h2 : commitsOf ⟨35, 4, 1⟩ ⟨1, 0, 0⟩ 0 = .ok ⟨4, 1, 1⟩ := by decide +kernel
  have hne : commitsOf ⟨35, 4, 1⟩ ⟨0, 0, 0⟩ 0 ≠ commitsOf ⟨35, 4, 1⟩ ⟨1, 0, 0⟩ 0 := by
    rw [h1, h2]
    decide
  refine not_close_of_const _ _ _ _ _ hne ?_ (hc _) (hc _) h
  refine ⟨fun _ => 0, ?_⟩
  rw [mem_box]
  intro i
  refine ⟨le_refl _, ?_⟩
  unfold rcLimits
  fin_cases i <;> simp

/-! ## Consequence for `ZKPoKEProve` -/

/-- C102 without the condition on the commitments: with parameters from the setup the proofs for any two exponents of the same `w` are
close. -/
theorem C102_setup_partial (E : Env) (fuel : Nat) (pp : PublicParameters) (p q b : Nat) (hs : FromSetup pp p q b) (u w x x' : Int)
    (hu : 0 ≤ u) (huu : Int.gcd u pp.N = 1) (hx : IsPower pp.N u x w) (hx' : IsPower pp.N u x' w) :
    Close (2 ^ 13) (box (zkpokeLimits pp)) (zkpokeOf E fuel pp u x w) (zkpokeOf E fuel pp u x' w) := by
  obtain ⟨p', q', -, -, -, -, -, hb⟩ := setup_bases hs
  refine C102_partial E fuel pp u w x x' ⟨hb.good, hu, huu, hx, hx', ?_⟩
  clear hs hu huu hx hx'
  obtain ⟨N, G, H⟩ := pp
  have hN : 1 ≤ N := hb.good.modulus
  obtain ⟨n, rfl⟩ : ∃ n : Nat, N = n := ⟨N.toNat, by omega⟩
  have : NeZero n := ⟨by omega⟩
  obtain ⟨g, h, k, hg, hh, hk, hm, hG, hH⟩ := bases_units hb
  refine ⟨k * x - k * x', gh g h x 0, isCommit_gh G H hG hH g h hg hh x 0, ?_⟩
  have e : gh g h x 0 = gh g h x' (k * x - k * x') := by
    rw [gh_shift g h k hk, gh_shift g h k hk]
    exact gh_congr _ _ rfl (by ring)
  rw [e]
  exact isCommit_gh G H hG hH g h hg hh x' _

example : Close (2 ^ 13) (box (zkpokeLimits ⟨2773, 4, 2288⟩)) (zkpokeOf leakEnv 2 ⟨2773, 4, 2288⟩ 4 3 64)
    (zkpokeOf leakEnv 2 ⟨2773, 4, 2288⟩ 4 670 64) :=
  C102_setup_partial _ _ _ _ _ _ setup2773 _ _ _ _ (by norm_num) (by decide +kernel)
    ⟨by norm_num, by norm_num, by decide +kernel⟩ ⟨by norm_num, by norm_num, by decide +kernel⟩

end Verif.Props
