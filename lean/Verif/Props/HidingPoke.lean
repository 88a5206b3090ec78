import Mathlib.FieldTheory.Finite.Basic
import Verif.Lemmas.HidingPoke
import Verif.Model.PokeCoins
import Verif.Props.Hiding
import Verif.Props.Transcript

/-! # Property C102: what the proofs of `ZKPoKEProve` tell about the exponent -/

namespace Verif.Props
open Verif.Go Verif.Model Verif.Lemmas Verif.Spec

/-- Two exponents `x` and `x'` of the same `w` that, for some `β`, are committed to by the same numbers: `g^x = g^x' h^β`. -/
structure SameClaim (pp : PublicParameters) (u w x x' : Int) : Prop where
  good : GoodParams pp
  u_nonneg : 0 ≤ u
  u_unit : Int.gcd u pp.N = 1
  first : IsPower pp.N u x w
  second : IsPower pp.N u x' w
  commit : ∃ β d, IsCommit pp.N pp.G pp.H x 0 d ∧ IsCommit pp.N pp.G pp.H x' β d

/-- The proofs made with `x` and with `x'` cannot be told apart with an advantage above 2^-128. -/
def C102_statement : Prop :=
  ∀ (E : Env) (fuel : Nat) (pp : PublicParameters) (u w x x' : Int), SameClaim pp u w x x' →
    Close (2 ^ 128) (box (zkpokeLimits pp)) (zkpokeOf E fuel pp u x w) (zkpokeOf E fuel pp u x' w)

section form
variable {N : Nat} [NeZero N]

/-- The number of a power in the group. -/
def upow (v : (ZMod N)ˣ) (k : Int) : Int := (((v ^ k : (ZMod N)ˣ) : ZMod N).val : Int)

/-- The challenges of the proof, from the first three numbers. -/
def pokeC (E : Env) (G H : Int) (u w z Ag Au : Int) : Nat :=
  fsHashToInt E (zkpokeTranscript ⟨N, G, H⟩ u w (some z) (some Ag) (some Au)).info lenMax252

def pokeL (E : Env) (fuel : Nat) (G H : Int) (u w z Ag Au : Int) : Option Nat :=
  fsHashToPrime E fuel ((zkpokeTranscript ⟨N, G, H⟩ u w (some z) (some Ag) (some Au)).getIntChallenge E).2.info lenMax252

/-- The rest of the run. -/
def pokeRest (g h v : (ZMod N)ˣ) (z Ag Au sx srho : Int) : Option Nat → Run (Option ZKPoKEProof)
  | none => liftLoop none
  | some l => if l = 0 then liftRes (goPanic "division by zero") else
      Run.ok (some ⟨some z, some Ag, some Au, some (gh g h (sx / l) (srho / l)), some (upow v (sx / l)), some (sx % l),
        some (srho % l)⟩)

omit [NeZero N] in
theorem pokeRest_some (g h v : (ZMod N)ˣ) (z Ag Au sx srho : Int) {l : Nat} (hl : l ≠ 0) :
    pokeRest g h v z Ag Au sx srho (some l) = Run.ok (some ⟨some z, some Ag, some Au, some (gh g h (sx / l) (srho / l)),
      some (upow v (sx / l)), some (sx % l), some (srho % l)⟩) := by
  simp only [pokeRest, if_neg hl]

theorem zkpoke_form (E : Env) (fuel : Nat) (G H u w : Int) (hG : 0 ≤ G) (hH : 0 ≤ H) (hu : 0 ≤ u) (g h v : (ZMod N)ˣ)
    (hg : (g : ZMod N) = G) (hh : (h : ZMod N) = H) (hv : (v : ZMod N) = u) (x k rhox rhok : Int) (hw : w = upow v x) :
    zkpokeProve E fuel ⟨N, G, H⟩ u x w k rhox rhok =
      pokeRest g h v (gh g h x rhox) (gh g h k rhok) (upow v k)
        ((pokeC (N := N) E G H u w (gh g h x rhox) (gh g h k rhok) (upow v k) : Int) * x + k)
        ((pokeC (N := N) E G H u w (gh g h x rhox) (gh g h k rhok) (upow v k) : Int) * rhox + rhok)
        (pokeL (N := N) E fuel G H u w (gh g h x rhox) (gh g h k rhok) (upow v k)) := by
  have m1 : ∀ a b, multiExp G a H b N = Run.ok (gh g h a b) := by
    intro a b
    rw [multiExp_eq _ _ _ _ (.inl hG) (.inl hH), ← hg, ← hh, gpow_unit, gpow_unit, ← Units.val_mul]
    rfl
  have m2 : ∀ a, bigExp u a N = some (upow v a) := by
    intro a
    rw [bigExp_some _ _ (.inr ⟨hu, hv ▸ v.isUnit⟩), ← hv, gpow_unit]
    rfl
  have m3 : expStmt u x N = w := by
    rw [expStmt_eq _ _ (.inl hu), ← hv, gpow_unit, hw]
    rfl
  have hb : ¬ zkpokeBound ⟨N, G, H⟩ ≤ 0 := by
    have h := natN_pos (N := N)
    unfold zkpokeBound
    simp only [not_le]
    positivity
  unfold zkpokeProve
  simp only [ne_eq, m3, not_true_eq_false, if_false, hb, m1, m2, run_ok_bind]
  unfold pokeL Transcript.getPrimeChallenge
  show _ = pokeRest _ _ _ _ _ _ _ _ (fsHashToPrime E fuel ((zkpokeTranscript ⟨N, G, H⟩ u w (some (gh g h x rhox))
    (some (gh g h k rhok)) (some (upow v k))).getIntChallenge E).2.info ((zkpokeTranscript ⟨N, G, H⟩ u w (some (gh g h x rhox))
    (some (gh g h k rhok)) (some (upow v k))).getIntChallenge E).2.maxlength)
  cases fsHashToPrime E fuel ((zkpokeTranscript ⟨N, G, H⟩ u w (some (gh g h x rhox))
    (some (gh g h k rhok)) (some (upow v k))).getIntChallenge E).2.info ((zkpokeTranscript ⟨N, G, H⟩ u w (some (gh g h x rhox))
    (some (gh g h k rhok)) (some (upow v k))).getIntChallenge E).2.maxlength with
  | none => rfl
  | some l =>
    by_cases hl : l = 0
    · subst hl; rfl
    · rw [pokeRest_some _ _ _ _ _ _ _ _ hl]
      simp only [Option.bind_eq_bind, Option.bind_some, Option.pure_def, liftLoop_some, run_ok_bind, divMod_eq _ l hl, m1, m2]
      rfl

/-- Coins moved by multiples of the period give the same rest. -/
theorem pokeRest_periodic (g h v : (ZMod N)ˣ) (z Ag Au sx srho sx' srho' : Int) (L : Option Nat) (m : Int)
    (hgm : g ^ m = 1) (hhm : h ^ m = 1) (hvm : v ^ m = 1)
    (hs : ∀ l, L = some l → l ≠ 0 → ∃ s t, sx' = sx + l * (m * s) ∧ srho' = srho + l * (m * t)) :
    pokeRest g h v z Ag Au sx srho L = pokeRest g h v z Ag Au sx' srho' L := by
  unfold pokeRest
  cases L with
  | none => rfl
  | some l =>
    by_cases hl : l = 0
    · simp only [hl, if_true]
    · obtain ⟨s, t, rfl, rfl⟩ := hs l rfl hl
      have hl' : (l : Int) ≠ 0 := by exact_mod_cast hl
      have p : ∀ (a : (ZMod N)ˣ) (e s : Int), a ^ m = 1 → a ^ (e + m * s) = a ^ e := fun a e s ha => by
        rw [zpow_add, zpow_mul, ha, one_zpow, mul_one]
      simp only [if_neg hl, Int.add_mul_ediv_left _ _ hl', Int.add_mul_emod_self_left]
      unfold gh upow
      rw [p g _ _ hgm, p h _ _ hhm, p v _ _ hvm]

end form

theorem pokeL_le {N : Nat} (E : Env) (fuel : Nat) (G H u w z Ag Au : Int) (l : Nat)
    (h : pokeL (N := N) E fuel G H u w z Ag Au = some l) : l ≤ 2 ^ 239 := by
  unfold pokeL fsHashToPrime at h
  rw [fsPrimeLoop_iff] at h
  obtain ⟨k, -, rfl, -⟩ := h
  cases k with
  | zero => exact wrap_max _
  | succ k => rw [Function.iterate_succ_apply']; exact wrap_max _

section move
variable {N : Nat} [NeZero N]

theorem gh_inj {g h : (ZMod N)ˣ} {a b a' b' : Int} (e : gh g h a b = gh g h a' b') : g ^ a * h ^ b = g ^ a' * h ^ b' := by
  unfold gh at e
  exact Units.ext (ZMod.val_injective N (by exact_mod_cast e))

theorem zpow_emod_period (a : (ZMod N)ˣ) (m l e : Int) (ha : a ^ m = 1) : a ^ (e % (l * m)) = a ^ e := by
  conv_rhs => rw [← Int.emod_add_mul_ediv e (l * m), zpow_add, mul_comm l m, mul_assoc, zpow_mul a m, ha, one_zpow, mul_one]
  rw [mul_comm l m]

/-- How the coins for `x` are moved to become coins for `x'`. -/
def pokeShift (x x' b m : Int) (c : Nat) (L : Option Nat) : Fin 3 → Int :=
  ![(c * (x - x')) % ((max 1 (L.getD 1) : Nat) * m), b, (-(c * b)) % ((max 1 (L.getD 1) : Nat) * m)]

theorem poke_side (E : Env) (fuel : Nat) (G H u w x x' β : Int) (hG : 0 ≤ G) (hH : 0 ≤ H) (hu : 0 ≤ u) (g h v : (ZMod N)ˣ)
    (hg : (g : ZMod N) = G) (hh : (h : ZMod N) = H) (hv : (v : ZMod N) = u) (hw : w = upow v x) (hw' : w = upow v x')
    (hβ : g ^ x = g ^ x' * h ^ β) (L : Fin 3 → Int) (test : Run (Option ZKPoKEProof) → Prop) :
    passes (box L) (zkpokeOf E fuel ⟨N, G, H⟩ u x w) test ≤ passes (box L) (zkpokeOf E fuel ⟨N, G, H⟩ u x' w) test +
      ((box L).card - overlap L ![2 ^ 239 * N.totient, N.totient, 2 ^ 239 * N.totient]) := by
  have hm0 : 0 < N.totient := Nat.totient_pos.2 (Nat.pos_of_ne_zero (NeZero.ne N))
  have hper : ∀ a : (ZMod N)ˣ, a ^ (N.totient : Int) = 1 := fun a => by rw [zpow_natCast]; exact ZMod.pow_totient a
  have hvx : v ^ x = v ^ x' := by
    have := hw.symm.trans hw'
    unfold upow at this
    exact Units.ext (ZMod.val_injective N (by exact_mod_cast this))
  generalize N.totient = m at hm0 hper
  let c := fun v' : Fin 3 → Int => pokeC (N := N) E G H u w (gh g h x (v' 1)) (gh g h (v' 0) (v' 2)) (upow v (v' 0))
  let l := fun v' : Fin 3 → Int => pokeL (N := N) E fuel G H u w (gh g h x (v' 1)) (gh g h (v' 0) (v' 2)) (upow v (v' 0))
  have hb : h ^ (β % (m : Int)) = h ^ β := by
    have := zpow_emod_period h m 1 β (hper h)
    rwa [one_mul] at this
  have hlm : ∀ v', (0 : Int) < (max 1 ((l v').getD 1) : Nat) * (m : Int) := fun v' => by
    have : 0 < max 1 ((l v').getD 1) := by omega
    positivity
  -- the three first numbers do not change
  have e1 : ∀ v' : Fin 3 → Int, gh g h x' (v' 1 + β % m) = gh g h x (v' 1) := by
    intro v'
    unfold gh
    rw [zpow_add, hb, hβ]
    congr 3
    rw [mul_comm (h ^ v' 1), mul_assoc]
  have e2 : ∀ v' : Fin 3 → Int, upow v (v' 0 + (c v' * (x - x')) % ((max 1 ((l v').getD 1) : Nat) * m)) = upow v (v' 0) := by
    intro v'
    unfold upow
    rw [zpow_add, zpow_emod_period _ _ _ _ (hper v), mul_comm (c v' : Int), zpow_mul, zpow_sub, hvx, mul_inv_cancel, one_zpow,
      mul_one]
  have e3 : ∀ v' : Fin 3 → Int, gh g h (v' 0 + (c v' * (x - x')) % ((max 1 ((l v').getD 1) : Nat) * m))
      (v' 2 + (-(c v' * (β % m))) % ((max 1 ((l v').getD 1) : Nat) * m)) = gh g h (v' 0) (v' 2) := by
    intro v'
    unfold gh
    rw [zpow_add, zpow_add, zpow_emod_period _ _ _ _ (hper g), zpow_emod_period _ _ _ _ (hper h), mul_comm (c v' : Int) (x - x'),
      zpow_mul, zpow_sub, hβ, mul_comm (c v' : Int) (β % m), zpow_neg, zpow_mul, hb]
    congr 3
    rw [mul_comm (g ^ x'), mul_inv_cancel_right, mul_mul_mul_comm, mul_inv_cancel, mul_one]
  have f0 : ∀ v' : Fin 3 → Int, (v' + pokeShift x x' (β % m) m (c v') (l v')) 0 =
    v' 0 + (c v' * (x - x')) % ((max 1 ((l v').getD 1) : Nat) * m) := fun _ => rfl
  have f1 : ∀ v' : Fin 3 → Int, (v' + pokeShift x x' (β % m) m (c v') (l v')) 1 = v' 1 + β % m := fun _ => rfl
  have f2 : ∀ v' : Fin 3 → Int, (v' + pokeShift x x' (β % m) m (c v') (l v')) 2 =
    v' 2 + (-(c v' * (β % m))) % ((max 1 ((l v').getD 1) : Nat) * m) := fun _ => rfl
  refine passes_shift L _ (fun v' => pokeShift x x' (β % m) m (c v') (l v')) ?_ _ _ ?_ ?_ test
  · intro v' _ i
    have hl : max 1 ((l v').getD 1) ≤ 2 ^ 239 := by
      cases hL : l v' with
      | none => simp only [Option.getD_none]; norm_num
      | some n =>
        have := pokeL_le _ _ _ _ _ _ _ _ _ _ hL
        simp only [Option.getD_some]
        exact max_le (Nat.one_le_two_pow) this
    have hl' : ((max 1 ((l v').getD 1) : Nat) : Int) * m ≤ 2 ^ 239 * m :=
      mul_le_mul_of_nonneg_right (by exact_mod_cast hl) (by omega)
    have := hlm v'
    fin_cases i
    · exact ⟨Int.emod_nonneg _ (by omega), (Int.emod_lt_of_pos _ this).le.trans hl'⟩
    · exact ⟨Int.emod_nonneg _ (by omega), (Int.emod_lt_of_pos _ (by omega)).le⟩
    · exact ⟨Int.emod_nonneg _ (by omega), (Int.emod_lt_of_pos _ this).le.trans hl'⟩
  · intro v' _
    unfold zkpokeOf
    rw [zkpoke_form E fuel G H u w hG hH hu g h v hg hh hv x _ _ _ hw,
      zkpoke_form E fuel G H u w hG hH hu g h v hg hh hv x' _ _ _ hw', f0, f1, f2, e1, e2, e3]
    refine pokeRest_periodic g h v _ _ _ _ _ _ _ _ m (hper g) (hper h) (hper v) ?_
    intro n hn hn0
    have hmax : max 1 ((l v').getD 1) = n := by
      show max 1 ((pokeL (N := N) E fuel G H u w (gh g h x (v' 1)) (gh g h (v' 0) (v' 2)) (upow v (v' 0))).getD 1) = n
      rw [hn, Option.getD_some]
      omega
    rw [hmax]
    show ∃ s t, (c v' : Int) * x' + (v' 0 + c v' * (x - x') % (n * m)) = c v' * x + v' 0 + n * (m * s) ∧
      (c v' : Int) * (v' 1 + β % m) + (v' 2 + -(c v' * (β % m)) % (n * m)) = c v' * v' 1 + v' 2 + n * (m * t)
    refine ⟨-(c v' * (x - x') / (n * m)), -(-(c v' * (β % m)) / (n * m)), ?_, ?_⟩
    · linear_combination Int.emod_add_mul_ediv (c v' * (x - x')) (n * m)
    · linear_combination Int.emod_add_mul_ediv (-(c v' * (β % m))) (n * m)
  · intro a _ b _ hab
    have h0 := congrFun hab 0
    have h1 := congrFun hab 1
    have h2 := congrFun hab 2
    simp only [f0, f1, f2] at h0 h1 h2
    have t1 : gh g h x (a 1) = gh g h x (b 1) := by rw [← e1, h1, e1]
    have t2 : upow v (a 0) = upow v (b 0) := by rw [← e2, h0, e2]
    have t3 : gh g h (a 0) (a 2) = gh g h (b 0) (b 2) := by rw [← e3, h0, h2, e3]
    have tc : c a = c b := by simp only [c, t1, t2, t3]
    have tl : l a = l b := by simp only [l, t1, t2, t3]
    have : pokeShift x x' (β % m) m (c a) (l a) = pokeShift x x' (β % m) m (c b) (l b) := by rw [tc, tl]
    simp only [this] at hab
    exact add_right_cancel hab

end move

/-- C102 (part), for coins drawn below an arbitrary `B`: the advantage is at most `N (2^240 + 1) / B`. -/
theorem C102_masks_partial (E : Env) (fuel : Nat) (pp : PublicParameters) (u w x x' : Int) (hs : SameClaim pp u w x x')
    (K B : Nat) (hB : (K : Int) * ((2 ^ 240 + 1) * pp.N) ≤ B) (hB0 : 0 < B) :
    Close K (box fun _ : Fin 3 => (B : Int) - 1) (zkpokeOf E fuel pp u x w) (zkpokeOf E fuel pp u x' w) := by
  obtain ⟨⟨hN, hG, hH, hgu, hhu⟩, hu, huu, hx, hx', β, d, hd, hd'⟩ := hs
  obtain ⟨N, G, H⟩ := pp
  simp only at *
  obtain ⟨n, rfl⟩ : ∃ n : Nat, N = n := ⟨N.toNat, by omega⟩
  have : NeZero n := ⟨by omega⟩
  obtain ⟨g, hg⟩ := (isUnit_iff_gcd (N := n) G).2 hgu
  obtain ⟨h, hh⟩ := (isUnit_iff_gcd (N := n) H).2 hhu
  obtain ⟨v, hv⟩ := (isUnit_iff_gcd (N := n) u).2 huu
  have hw : w = upow v x := by rw [((isPower_iff _ _ _).1 hx).2, ← hv, gpow_unit]; rfl
  have hw' : w = upow v x' := by rw [((isPower_iff _ _ _).1 hx').2, ← hv, gpow_unit]; rfl
  have e : g ^ x = g ^ x' * h ^ β := by
    have t1 := isCommit_unique hN hd (isCommit_gh G H hG hH g h hg hh x 0)
    have t2 := isCommit_unique hN hd' (isCommit_gh G H hG hH g h hg hh x' β)
    have := gh_inj (t1.symm.trans t2)
    rwa [zpow_zero, mul_one] at this
  have e' : g ^ x' = g ^ x * h ^ (-β) := by rw [e, zpow_neg, mul_inv_cancel_right]
  intro test
  have s1 := poke_side E fuel G H u w x x' β hG hH hu g h v hg hh hv hw hw' e (fun _ => (B : Int) - 1) test
  have s2 := poke_side E fuel G H u w x' x (-β) hG hH hu g h v hg hh hv hw' hw e' (fun _ => (B : Int) - 1) test
  have hφ : (n.totient : Int) ≤ n := by exact_mod_cast Nat.totient_le n
  have hφ0 : (0 : Int) ≤ n.totient := by omega
  have s3 := outside_le (fun _ : Fin 3 => (B : Int) - 1) ![2 ^ 239 * n.totient, n.totient, 2 ^ 239 * n.totient]
    (K * (2 ^ 240 + 1)) (fun _ => by omega) ![2 ^ 239, 1, 2 ^ 239] (by
      have key : (n.totient : Int) * (K * (2 ^ 240 + 1)) ≤ B := by
        refine le_trans ?_ hB
        have : (n.totient : Int) * (K * (2 ^ 240 + 1)) ≤ n * (K * (2 ^ 240 + 1)) :=
          mul_le_mul_of_nonneg_right hφ (by positivity)
        linarith
      intro i
      rw [sub_add_cancel]
      fin_cases i
      · show |(2 ^ 239 * n.totient : Int)| * _ ≤ ((2 ^ 239 : Nat) : Int) * B
        rw [abs_of_nonneg (by positivity)]
        push_cast
        nlinarith
      · show |(n.totient : Int)| * _ ≤ ((1 : Nat) : Int) * B
        rw [abs_of_nonneg (by positivity)]
        push_cast
        linarith
      · show |(2 ^ 239 * n.totient : Int)| * _ ≤ ((2 ^ 239 : Nat) : Int) * B
        rw [abs_of_nonneg (by positivity)]
        push_cast
        nlinarith)
  have s4 : ∑ i : Fin 3, (![2 ^ 239, 1, 2 ^ 239] : Fin 3 → Nat) i = 2 ^ 240 + 1 := by
    rw [Fin.sum_univ_three]
    show 2 ^ 239 + 1 + 2 ^ 239 = 2 ^ 240 + 1
    norm_num
  rw [s4, ← mul_assoc, mul_comm (2 ^ 240 + 1)] at s3
  have s5 := Nat.le_of_mul_le_mul_right s3 (by positivity)
  constructor <;> nlinarith

/-- C102 (part): the advantage is at most 2^-13. Missing from the statement: 2^-128. -/
theorem C102_partial (E : Env) (fuel : Nat) (pp : PublicParameters) (u w x x' : Int) (hs : SameClaim pp u w x x') :
    Close (2 ^ 13) (box (zkpokeLimits pp)) (zkpokeOf E fuel pp u x w) (zkpokeOf E fuel pp u x' w) := by
  have hN := hs.good.modulus
  obtain ⟨B, hB⟩ := Int.eq_ofNat_of_zero_le (show 0 ≤ zkpokeBound pp by unfold zkpokeBound; positivity)
  have h1 : zkpokeLimits pp = fun _ => (B : Int) - 1 := by
    funext i
    unfold zkpokeLimits
    rw [hB]
    fin_cases i <;> rfl
  rw [h1]
  have h2 : pp.N * 2 ^ 254 = (B : Int) := hB
  refine C102_masks_partial E fuel pp u w x x' hs _ B ?_ ?_
  · rw [← h2]
    push_cast
    nlinarith
  · zify
    rw [← h2]
    positivity

/-- C102 (part): with coins that are 115 bits longer the statement would hold. -/
theorem C102_longer_masks_partial (E : Env) (fuel : Nat) (pp : PublicParameters) (u w x x' : Int)
    (hs : SameClaim pp u w x x') (B : Nat) (hB : pp.N * 2 ^ 369 ≤ B) :
    Close (2 ^ 128) (box fun _ : Fin 3 => (B : Int) - 1) (zkpokeOf E fuel pp u x w) (zkpokeOf E fuel pp u x' w) := by
  have hN := hs.good.modulus
  have h0 : (0 : Int) < pp.N * 2 ^ 369 := by positivity
  refine C102_masks_partial E fuel pp u w x x' hs _ B ?_ (by omega)
  refine le_trans ?_ hB
  have h1 : (2 : Int) ^ 369 = 2 ^ 128 * 2 ^ 241 := by rw [← pow_add]
  rw [h1]
  push_cast
  generalize pp.N = n at hN ⊢
  have h2 : (2 ^ 240 + 1) * n ≤ n * 2 ^ 241 := by nlinarith
  have h3 : (0 : Int) ≤ 2 ^ 128 := by positivity
  calc (2 ^ 128 : Int) * ((2 ^ 240 + 1) * n) ≤ 2 ^ 128 * (n * 2 ^ 241) := mul_le_mul_of_nonneg_left h2 h3
    _ = _ := by ring

/-! ## The masks are too short -/

/-- A prime below 2^239 that leaves a remainder of about half its size when it divides 35 * 2^254. -/
def leakPrime : Nat := 883423147247264828337604588120575067512362766499521907770908878535505599

/-- That remainder. -/
def leakRest : Nat := 441711573623632414168802294060287533756181383249760953885454439222968320

/-- A hash function and a primality test for which the challenges of `ZKPoKE` are 4 and `leakPrime`: the transcripts begin
with the letter Z. -/
def leakEnv : Env where
  sha256 := fun b => if b.head? = some 90 then List.replicate 31 0 ++ [4] else [0, 0, 127, 255, 252, 87, 197, 151, 23, 156, 152, 236, 229, 176, 22, 177, 211, 119, 67, 25, 217, 130, 235, 40, 37, 42, 189, 28, 9, 57, 182, 191]
  sha256_length := by intro b; split <;> rfl
  probablyPrime := fun n => n == leakPrime
  poseidon := fun _ => 0
  poseidon_lt := by intro l; decide

theorem leak_hash (l : List Bytes) : leakEnv.sha256 (hashInput (ascii "ZKPoKE" :: l)) = List.replicate 31 0 ++ [4] := by
  rw [hashInput_eq]
  rfl

theorem leak_c (u w z Ag Au : Int) : pokeC (N := 35) leakEnv 2 3 u w z Ag Au = 4 := by
  unfold pokeC fsHashToInt
  show wrapNumber (leakEnv.sha256 (hashInput (ascii "ZKPoKE" :: _))) lenMax252 = 4
  rw [leak_hash]
  decide +kernel

theorem leak_l (u w z Ag Au : Int) : pokeL (N := 35) leakEnv 2 2 3 u w z Ag Au = some leakPrime := by
  unfold pokeL fsHashToPrime
  show fsPrimeLoop leakEnv lenMax252 2 (wrapNumber (leakEnv.sha256 (hashInput (ascii "ZKPoKE" :: _))) lenMax252) = _
  rw [leak_hash]
  decide +kernel

/-- The answer `rx` is small. -/
def LowRx (r : Run (Option ZKPoKEProof)) : Prop :=
  ∃ p rx, r = Run.ok (some p) ∧ p.rx = some rx ∧ rx < leakRest

instance : NeZero (35 : Nat) := ⟨by decide⟩

def two35 : (ZMod 35)ˣ := ⟨2, 18, by decide, by decide⟩
def three35 : (ZMod 35)ˣ := ⟨3, 12, by decide, by decide⟩

theorem two35_period (n : Nat) : two35 ^ (12 * n) = 1 := by
  rw [pow_mul, show two35 ^ 12 = 1 by decide +kernel, one_pow]

theorem leak_low (x k rhox rhok : Int) (hx : upow two35 x = 18) (hk : 0 ≤ k) (hx0 : 0 ≤ x) :
    LowRx (zkpokeProve leakEnv 2 ⟨35, 2, 3⟩ 2 x 18 k rhox rhok) ↔ (4 * x.toNat + k.toNat) % leakPrime < leakRest := by
  have h := zkpoke_form (N := 35) leakEnv 2 2 3 2 18 (by decide) (by decide) (by decide) two35 three35 two35 rfl rfl rfl x k rhox
    rhok hx.symm
  rw [leak_c, leak_l, pokeRest_some _ _ _ _ _ _ _ _ (by decide)] at h
  have h' : zkpokeProve leakEnv 2 ⟨35, 2, 3⟩ 2 x 18 k rhox rhok = _ := h
  rw [h']
  obtain ⟨a, rfl⟩ := Int.eq_ofNat_of_zero_le hx0
  obtain ⟨b, rfl⟩ := Int.eq_ofNat_of_zero_le hk
  generalize leakPrime = P
  unfold LowRx
  generalize leakRest = R
  constructor
  · rintro ⟨p, rx, h1, h2, h3⟩
    have h4 := Option.some.inj (run_ok_inj h1)
    rw [← h4] at h2
    simp only [Option.some.injEq] at h2
    rw [← h2] at h3
    simp only [Int.toNat_natCast]
    exact_mod_cast h3
  · intro h1
    refine ⟨_, _, rfl, rfl, ?_⟩
    simp only [Int.toNat_natCast] at h1
    exact_mod_cast h1

/-- The first exponent is a multiple of the prime challenge; four times the second one leaves the remainder `leakRest`. -/
def leakX : Nat := leakPrime
def leakX' : Nat := leakPrime + leakRest / 4

theorem two35_pow (n : Nat) (h : n % 12 = 11) : two35 ^ (n : Int) = two35 ^ 11 := by
  rw [zpow_natCast]
  conv_lhs => rw [← Nat.div_add_mod n 12, h, pow_add, two35_period, one_mul]

theorem leakX_mod : leakX % 12 = 11 := by decide +kernel
theorem leakX'_mod : leakX' % 12 = 11 := by decide +kernel

theorem upow_two35 (n : Nat) (h : n % 12 = 11) : upow two35 (n : Int) = 18 := by
  unfold upow
  rw [two35_pow n h]
  decide +kernel

theorem leak_power (n : Nat) (h : n % 12 = 11) : IsPower (35 : Nat) 2 n 18 := by
  rw [isPower_iff]
  refine ⟨fun h => by omega, ?_⟩
  have h1 := upow_two35 n h
  unfold upow at h1
  rw [← gpow_unit] at h1
  exact h1.symm

theorem leak_same : SameClaim ⟨35, 2, 3⟩ 2 18 leakX leakX' where
  good := ⟨by decide, by decide, by decide, by decide, by decide⟩
  u_nonneg := by decide
  u_unit := by decide
  first := leak_power _ leakX_mod
  second := leak_power _ leakX'_mod
  commit := by
    have h1 := isCommit_gh (N := 35) 2 3 (by decide) (by decide) two35 three35 rfl rfl leakX 0
    have h2 := isCommit_gh (N := 35) 2 3 (by decide) (by decide) two35 three35 rfl rfl leakX' 0
    refine ⟨0, _, h1, ?_⟩
    have : gh two35 three35 leakX 0 = gh two35 three35 leakX' 0 := by
      unfold gh
      rw [two35_pow _ leakX_mod, two35_pow _ leakX'_mod]
    rw [this]
    exact h2

theorem leak_bound : 35 * 2 ^ 254 = 1146880 * leakPrime + leakRest := by decide +kernel

theorem leak_limit (i : Fin 3) : zkpokeLimits ⟨35, 2, 3⟩ i + 1 = ((1146880 * leakPrime + leakRest : Nat) : Int) := by
  rw [← leak_bound]
  have : zkpokeLimits ⟨35, 2, 3⟩ i = zkpokeBound ⟨35, 2, 3⟩ - 1 := by fin_cases i <;> rfl
  rw [this, sub_add_cancel]
  unfold zkpokeBound
  push_cast

theorem leak_first (R : Nat) (hR : R = ∏ j ∈ Finset.univ.erase (0 : Fin 3), (zkpokeLimits ⟨35, 2, 3⟩ j + 1).toNat) :
    passes (box (zkpokeLimits ⟨35, 2, 3⟩)) (zkpokeOf leakEnv 2 ⟨35, 2, 3⟩ 2 leakX 18) LowRx =
      (1146880 * leakRest + leakRest) * R := by
  rw [hR, ← count_low leakPrime 1146880 leakRest (by decide +kernel) (by decide +kernel)]
  refine passes_coordinate _ 0 _ (leak_limit 0) _ _ (fun k => k % leakPrime < leakRest) ?_
  intro v hv
  unfold zkpokeOf
  have hk := (hv 0).1
  generalize v 0 = k at hk ⊢
  rw [leak_low _ _ _ _ (upow_two35 _ leakX_mod) hk (Int.natCast_nonneg _), Int.toNat_natCast, leakX, Nat.mul_comm 4,
    Nat.mul_add_mod]

theorem leak_second (R : Nat) (hR : R = ∏ j ∈ Finset.univ.erase (0 : Fin 3), (zkpokeLimits ⟨35, 2, 3⟩ j + 1).toNat) :
    passes (box (zkpokeLimits ⟨35, 2, 3⟩)) (zkpokeOf leakEnv 2 ⟨35, 2, 3⟩ 2 leakX' 18) LowRx = 1146880 * leakRest * R := by
  rw [hR, ← count_low_shifted leakPrime 1146880 leakRest (by decide +kernel) (by decide +kernel)]
  refine passes_coordinate _ 0 _ (leak_limit 0) _ _ (fun k => (k + leakRest) % leakPrime < leakRest) ?_
  intro v hv
  unfold zkpokeOf
  have hk := (hv 0).1
  generalize v 0 = k at hk ⊢
  rw [leak_low _ _ _ _ (upow_two35 _ leakX'_mod) hk (Int.natCast_nonneg _), Int.toNat_natCast]
  have : 4 * leakX' = leakPrime * 4 + leakRest := by decide +kernel
  rw [this, Nat.add_assoc, Nat.mul_add_mod, Nat.add_comm leakRest]

/-- C102: two exponents whose proofs are told apart by the size of `rx` with an advantage of more than 2^-23. -/
theorem C102_advantage : (box (zkpokeLimits ⟨35, 2, 3⟩)).card +
      2 ^ 23 * passes (box (zkpokeLimits ⟨35, 2, 3⟩)) (zkpokeOf leakEnv 2 ⟨35, 2, 3⟩ 2 leakX' 18) LowRx <
    2 ^ 23 * passes (box (zkpokeLimits ⟨35, 2, 3⟩)) (zkpokeOf leakEnv 2 ⟨35, 2, 3⟩ 2 leakX 18) LowRx := by
  obtain ⟨R, hR⟩ : ∃ R, R = ∏ j ∈ Finset.univ.erase (0 : Fin 3), (zkpokeLimits ⟨35, 2, 3⟩ j + 1).toNat := ⟨_, rfl⟩
  have h0 : 0 < R := by
    rw [hR]
    refine Finset.prod_pos fun j _ => ?_
    rw [leak_limit, Int.toNat_natCast]
    decide +kernel
  rw [leak_first R hR, leak_second R hR, card_box, ← Finset.mul_prod_erase Finset.univ _ (Finset.mem_univ (0 : Fin 3)), ← hR,
    leak_limit, Int.toNat_natCast]
  have h1 : 1146880 * leakPrime + leakRest + 2 ^ 23 * (1146880 * leakRest) < 2 ^ 23 * (1146880 * leakRest + leakRest) := by
    decide +kernel
  calc _ = (1146880 * leakPrime + leakRest + 2 ^ 23 * (1146880 * leakRest)) * R := by ring
    _ < 2 ^ 23 * (1146880 * leakRest + leakRest) * R := Nat.mul_lt_mul_of_pos_right h1 h0
    _ = _ := by ring

/-- C102: the random numbers are too short for the security parameter. -/
theorem C102_violated : ¬ C102_statement := by
  intro h
  have h1 := (h leakEnv 2 ⟨35, 2, 3⟩ 2 18 leakX leakX' leak_same LowRx).1
  have h2 := C102_advantage
  generalize passes _ _ LowRx = a at h1 h2
  generalize passes _ _ LowRx = b at h1 h2
  generalize Finset.card _ = n at h1 h2
  have h3 : 2 ^ 128 = 2 ^ 23 * 2 ^ 105 := by norm_num
  rw [h3] at h1
  nlinarith

/-- The conditions of the partial theorems hold for these two exponents. -/
example : Close (2 ^ 13) (box (zkpokeLimits ⟨35, 2, 3⟩)) (zkpokeOf leakEnv 2 ⟨35, 2, 3⟩ 2 leakX 18)
    (zkpokeOf leakEnv 2 ⟨35, 2, 3⟩ 2 leakX' 18) := C102_partial _ _ _ _ _ _ _ leak_same

end Verif.Props
