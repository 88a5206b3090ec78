import Verif.Props.Poke
import Verif.Props.NilFields
import Verif.Props.VerifierPanics
import Verif.Props.IntGroups
import Verif.Props.GenerateG
import Verif.Props.NegativePower
import Verif.Props.SetupRun

/-!
# Functions with the missing checks added (C42, C56, C110, C111, C113, C144, C151)

As in RepairedSmall: the function is changed where the counterexample of the property comes from, and the property is proved.
-/

namespace Verif.Props
open Verif.Go Verif.Model Verif.Spec Verif.Lemmas

/-! ## C42 and C151: look at the result of `Exp`, and reduce the base first -/

/-- `Exp(g mod N, x, N)`, with nil for a power that does not exist. -/
def exactPower (g x N : Int) : Option Int := bigExp (g % N) x N

theorem exactPower_iff (g x N c : Int) (hN : 1 ≤ N) : exactPower g x N = some c ↔ IsPower N g x c := by
  obtain ⟨n, rfl⟩ : ∃ n : Nat, N = n := ⟨N.toNat, by omega⟩
  have : NeZero n := ⟨by omega⟩
  have hc : ((g % (n : Int) : Int) : ZMod n) = (g : ZMod n) := ZMod.intCast_mod g n
  have h0 : 0 ≤ g % (n : Int) := Int.emod_nonneg _ (by omega)
  rw [isPower_iff]
  unfold exactPower
  by_cases h : x < 0 → IsUnit (g : ZMod n)
  · have h1 : 0 ≤ x ∨ (0 ≤ g % (n : Int) ∧ IsUnit ((g % (n : Int) : Int) : ZMod n)) := by
      by_cases hx : 0 ≤ x
      · exact .inl hx
      · rw [hc]; exact .inr ⟨h0, h (by omega)⟩
    rw [bigExp_some _ _ h1, hc, Option.some.injEq]
    exact ⟨fun e => ⟨h, e.symm⟩, fun e => e.2.symm⟩
  · rw [Classical.not_imp] at h
    have h1 : bigExp (g % (n : Int)) x n = none :=
      (bigExp_eq_none_iff (N := n) _ _).2 ⟨h.1, fun hg => h.2 (by rw [← hc]; exact (isUnit_iff_gcd _).2 hg)⟩
    rw [h1]
    exact ⟨fun e => by simp at e, fun e => absurd (e.1 h.1) h.2⟩

theorem isPower_reduced (g x N c : Int) (hN : 1 ≤ N) : IsPower N (g % N) x c ↔ IsPower N g x c := by
  rw [← exactPower_iff _ _ _ _ hN, ← exactPower_iff _ _ _ _ hN]
  unfold exactPower
  rw [Int.emod_emod_of_dvd _ (dvd_refl N)]

theorem expStmt_of_exact (g x N c : Int) (h : exactPower g x N = some c) : expStmt (g % N) x N = c := by
  unfold exactPower at h
  unfold expStmt
  rw [h]; rfl

/-- The parameters with the base reduced. -/
def reducedParams (pp : PublicParameters) : PublicParameters := { pp with G := pp.G % pp.N }

/-- proof/poke.go:32-47 `PoKEStarProve`, with nil from `Exp` refused and the base reduced. -/
def pokeStarProveRepaired (E : Env) (fuel : Nat) (pp : PublicParameters) (C x : Int) : Run (Option PoKEStarProof) :=
  if exactPower pp.G x pp.N ≠ some C then Run.ok none else pokeStarProve E fuel (reducedParams pp) C x

/-- proof/poke.go:161-175 `PoEProve`, with nil from `Exp` refused and the base reduced. -/
def poeProveRepaired (E : Env) (fuel : Nat) (base mod C x : Int) : Run (Option PoEProof) :=
  if exactPower base x mod ≠ some C then Run.ok none else poeProve E fuel (base % mod) mod C x

/-- proof/poke.go:74-123 `ZKPoKEProve`, with nil from `Exp` refused and the base reduced. -/
def zkpokeProveRepaired (E : Env) (fuel : Nat) (pp : PublicParameters) (u x w k rhox rhok : Int) : Run (Option ZKPoKEProof) :=
  if exactPower u x pp.N ≠ some w then Run.ok none else zkpokeProve E fuel pp (u % pp.N) x w k rhox rhok

/-- C42 for the repaired provers: an error exactly for the false statements. -/
theorem C42_repaired_partial :
    (∀ E fuel (pp : PublicParameters) C x, 1 ≤ pp.N →
      (pokeStarProveRepaired E fuel pp C x = Run.ok none ↔ ¬ IsPower pp.N pp.G x C)) ∧
    (∀ E fuel base mod C x, 1 ≤ mod → (poeProveRepaired E fuel base mod C x = Run.ok none ↔ ¬ IsPower mod base x C)) ∧
    ∀ E fuel (pp : PublicParameters) u x w k r1 r2, 1 ≤ pp.N →
      (zkpokeProveRepaired E fuel pp u x w k r1 r2 = Run.ok none ↔ ¬ IsPower pp.N u x w) := by
  refine ⟨fun E fuel pp C x hN => ?_, fun E fuel base mod C x hN => ?_, fun E fuel pp u x w k r1 r2 hN => ?_⟩
  · rw [← exactPower_iff _ _ _ _ hN]
    unfold pokeStarProveRepaired
    by_cases h : exactPower pp.G x pp.N = some C
    · rw [if_neg (not_not.2 h), pokeStar_none]
      exact ⟨fun e => absurd (expStmt_of_exact _ _ _ _ h) e, fun e => absurd h e⟩
    · rw [if_pos h]; exact ⟨fun _ => h, fun _ => rfl⟩
  · rw [← exactPower_iff _ _ _ _ hN]
    unfold poeProveRepaired
    by_cases h : exactPower base x mod = some C
    · rw [if_neg (not_not.2 h), poe_none]
      exact ⟨fun e => absurd (expStmt_of_exact _ _ _ _ h) e, fun e => absurd h e⟩
    · rw [if_pos h]; exact ⟨fun _ => h, fun _ => rfl⟩
  · rw [← exactPower_iff _ _ _ _ hN]
    unfold zkpokeProveRepaired
    by_cases h : exactPower u x pp.N = some w
    · rw [if_neg (not_not.2 h), zkpoke_none]
      exact ⟨fun e => absurd (expStmt_of_exact _ _ _ _ h) e, fun e => absurd h e⟩
    · rw [if_pos h]; exact ⟨fun _ => h, fun _ => rfl⟩

/-- And for every true statement, also with negative bases and exponents, the proof is accepted. -/
theorem C42_repaired_complete_partial (E : Env) (fuel : Nat) (pp : PublicParameters) (base C x : Int) (l : Nat) (hN : 1 ≤ pp.N) :
    (IsPower pp.N pp.G x C → HasPrimeChallenge E fuel (pokeStarTranscript (reducedParams pp) C) l →
      ∃ proof, pokeStarProveRepaired E fuel pp C x = Run.ok (some proof) ∧
        pokeStarVerify E fuel (reducedParams pp) C (some proof) = Run.ok true) ∧
    (IsPower pp.N base x C → HasPrimeChallenge E fuel (poeTranscript (base % pp.N) pp.N C x) l →
      ∃ proof, poeProveRepaired E fuel base pp.N C x = Run.ok (some proof) ∧
        poeVerify E fuel (base % pp.N) pp.N C x (some proof) = Run.ok true) := by
  constructor
  · intro hC hl
    unfold pokeStarProveRepaired
    rw [if_neg (not_not.2 ((exactPower_iff _ _ _ _ hN).2 hC))]
    exact C41_pokeStar_complete E fuel (reducedParams pp) C x l hN (.inl (Int.emod_nonneg _ (by omega)))
      ((isPower_reduced _ _ _ _ hN).2 hC) hl
  · intro hC hl
    unfold poeProveRepaired
    rw [if_neg (not_not.2 ((exactPower_iff _ _ _ _ hN).2 hC))]
    exact C45_poe_complete E fuel (base % pp.N) pp.N C x l hN (.inl (Int.emod_nonneg _ (by omega)))
      ((isPower_reduced _ _ _ _ hN).2 hC) hl

/-- The false statement `5^(-1) = 0 (mod 35)` is refused, the true statement `(-2)^(-1) = 17 (mod 35)` is not. -/
example : pokeStarProveRepaired pokeEnv 1 ⟨35, 5, 3⟩ 0 (-1) = Run.ok none ∧ IsPower 35 (-2) (-1) 17 ∧
    HasPrimeChallenge pokeEnv 1 (pokeStarTranscript (reducedParams ⟨35, -2, 3⟩) 17) 13 := by
  refine ⟨(C42_repaired_partial.1 _ _ _ _ _ (by decide)).2 (by unfold IsPower; decide +kernel),
    by unfold IsPower; decide +kernel, by unfold HasPrimeChallenge; decide +kernel⟩

/-- C151 for `AccumulateNew` with these two changes: a number is returned exactly if it is the power. -/
theorem C151_repaired_partial (g p : Int) (N : Nat) (hN : 1 ≤ N) (r : Int) :
    exactPower g p N = some r ↔ IsPowerMod g p N r := by
  rw [exactPower_iff _ _ _ _ (by omega)]
  unfold IsPower IsPowerMod
  refine and_congr_right fun _ => and_congr_right fun _ => ?_
  by_cases hp : 0 ≤ p
  · rw [if_pos hp, if_pos hp, Int.modEq_iff_dvd, show p.natAbs = p.toNat by omega]
  · rw [if_neg hp, if_neg hp, Int.modEq_iff_dvd, show p.natAbs = (-p).toNat by omega, dvd_sub_comm]

example : exactPower (-2) (-1) 35 = some 17 ∧ exactPower 5 (-1) 35 = none ∧ accumulateInt 5 (-1) 35 = 5 := by decide +kernel

/-! ## C56: the numbers of a proof are looked at before they are used -/

/-- proof/range_proof.go:396-412 `Verify` with a check of the pointers and of the greatest common divisors with `N` first. -/
def rpVerifyChecked (E : Env) (v : RPVerifier) (proof : Option RangeProof) : Res Bool :=
  match proof with
  | some ⟨some c, c3, cm, some resp⟩ =>
    if Int.gcd c v.pp.N = 1 ∧ ∀ d ∈ [c3.t0, c3.t1, c3.t2], Int.gcd d v.pp.N = 1 then
      rpVerify E v (some ⟨some c, c3, cm, some resp⟩)
    else .ok false
  | _ => .ok false

/-- proof/zkaop.go:338-346 `Verify` with these checks. -/
def aopVerifyChecked (E : Env) (v : AoPVerifier) (proof : Option ArgOfPositivity) : Res Bool :=
  match proof with
  | some ⟨c3, cm, some resp⟩ =>
    if Int.gcd v.c v.pp.N = 1 ∧ ∀ d ∈ [c3.t0, c3.t1, c3.t2], Int.gcd d v.pp.N = 1 then
      aopVerify E v (some ⟨c3, cm, some resp⟩)
    else .ok false
  | _ => .ok false

/-- C56 for the checked verifiers: they return for every proof value, what they accept the verifiers of the code accept, and
a proof with invertible numbers gets the verdict of the code. -/
theorem C56_repaired_partial :
    (∀ E (v : RPVerifier) proof, GoodParams v.pp → (∃ b, rpVerifyChecked E v proof = .ok b) ∧
      (rpVerifyChecked E v proof = .ok true → rpVerify E v proof = .ok true)) ∧
    (∀ E (v : AoPVerifier) proof, GoodParams v.pp → (∃ b, aopVerifyChecked E v proof = .ok b) ∧
      (aopVerifyChecked E v proof = .ok true → aopVerify E v proof = .ok true)) ∧
    (∀ E (v : RPVerifier) c c3 cm resp, Int.gcd c v.pp.N = 1 → (∀ d ∈ [c3.t0, c3.t1, c3.t2], Int.gcd d v.pp.N = 1) →
      rpVerifyChecked E v (some ⟨some c, c3, cm, some resp⟩) = rpVerify E v (some ⟨some c, c3, cm, some resp⟩)) ∧
    ∀ E (v : AoPVerifier) c3 cm resp, Int.gcd v.c v.pp.N = 1 → (∀ d ∈ [c3.t0, c3.t1, c3.t2], Int.gcd d v.pp.N = 1) →
      aopVerifyChecked E v (some ⟨c3, cm, some resp⟩) = aopVerify E v (some ⟨c3, cm, some resp⟩) := by
  have no : ∀ P : Prop, (Except.ok false : Res Bool) = .ok true → P := fun P h => by cases h
  refine ⟨fun E v proof hpp => ?_, fun E v proof hpp => ?_, fun E v c c3 cm resp h1 h2 => if_pos ⟨h1, h2⟩,
    fun E v c3 cm resp h1 h2 => if_pos ⟨h1, h2⟩⟩
  · match proof with
    | none => exact ⟨⟨_, rfl⟩, no _⟩
    | some ⟨none, _, _, _⟩ => exact ⟨⟨_, rfl⟩, no _⟩
    | some ⟨some _, _, _, none⟩ => exact ⟨⟨_, rfl⟩, no _⟩
    | some ⟨some c, c3, cm, some resp⟩ =>
      unfold rpVerifyChecked
      simp only
      split
      · rename_i h
        exact ⟨C56_returns_partial.1 E v hpp c c3 cm resp h.1 h.2, id⟩
      · exact ⟨⟨_, rfl⟩, no _⟩
  · match proof with
    | none => exact ⟨⟨_, rfl⟩, no _⟩
    | some ⟨_, _, none⟩ => exact ⟨⟨_, rfl⟩, no _⟩
    | some ⟨c3, cm, some resp⟩ =>
      unfold aopVerifyChecked
      simp only
      split
      · rename_i h
        exact ⟨C56_returns_partial.2 E v hpp c3 cm resp h.1 h.2, id⟩
      · exact ⟨⟨_, rfl⟩, no _⟩

/-- The counterexample of C56 and a nil proof are refused. -/
example : rpVerifyChecked pokeEnv (newRPVerifier ⟨35, 4, 9⟩ 1 8)
      (some ⟨some 0, ⟨1, 1, 1⟩, [], some ⟨⟨0, 0, 0, 0⟩, ⟨0, 0, 0, 0⟩, 0⟩⟩) = .ok false ∧
    rpVerifyChecked pokeEnv (newRPVerifier ⟨35, 4, 9⟩ 1 8) none = .ok false ∧ GoodParams ⟨35, 4, 9⟩ :=
  ⟨by decide +kernel, rfl, good35⟩

/-! ## C110: the fields of the exponent proofs are compared with nil first -/

/-- proof/poke.go:50-60 with `proof.Q == nil || proof.R == nil` in the first check. -/
def pokeStarVerifyChecked (E : Env) (fuel : Nat) (pp : PublicParameters) (C : Int) (proof : Option PoKEStarProof) : Run Bool :=
  match proof with
  | some ⟨some Q, some R⟩ => pokeStarVerify E fuel pp C (some ⟨some Q, some R⟩)
  | _ => Run.ok false

/-- proof/poke.go:178-188 with `proof.Q == nil` in the first check. -/
def poeVerifyChecked (E : Env) (fuel : Nat) (base mod C x : Int) (proof : Option PoEProof) : Run Bool :=
  match proof with
  | some ⟨some Q⟩ => poeVerify E fuel base mod C x (some ⟨some Q⟩)
  | _ => Run.ok false

/-- proof/poke.go:126-153 with all seven fields in the first check. -/
def zkpokeVerifyChecked (E : Env) (fuel : Nat) (pp : PublicParameters) (u w : Int) (proof : Option ZKPoKEProof) : Run Bool :=
  match proof with
  | some ⟨some z, some Ag, some Au, some Qg, some Qu, some rx, some rrho⟩ =>
    zkpokeVerify E fuel pp u w (some ⟨some z, some Ag, some Au, some Qg, some Qu, some rx, some rrho⟩)
  | _ => Run.ok false

/-- C110 for the checked verifiers: the statement of C110. -/
theorem C110_repaired_partial (E : Env) (fuel : Nat) (pp : PublicParameters) (C u w base x : Int) (l : Nat) (hN : 1 ≤ pp.N) :
    (∀ proof, HasPrimeChallenge E fuel (pokeStarTranscript pp C) l → RunReturns (pokeStarVerifyChecked E fuel pp C proof)) ∧
    (∀ proof, HasPrimeChallenge E fuel (poeTranscript base pp.N C x) l →
      RunReturns (poeVerifyChecked E fuel base pp.N C x proof)) ∧
    ∀ proof : ZKPoKEProof,
      HasPrimeChallenge E fuel ((zkpokeTranscript pp u w proof.z proof.Ag proof.Au).getIntChallenge E).2 l →
      RunReturns (zkpokeVerifyChecked E fuel pp u w (some proof)) := by
  refine ⟨fun proof hl => ?_, fun proof hl => ?_, fun proof hl => ?_⟩
  · unfold pokeStarVerifyChecked
    split
    · exact (C110_pokeStar_partial E fuel pp C l hN hl _).2.2 ⟨nofun, nofun⟩
    · exact ⟨_, rfl⟩
  · unfold poeVerifyChecked
    split
    · exact (C110_poe_partial E fuel base pp.N C x l hN hl _).2.2 nofun
    · exact ⟨_, rfl⟩
  · unfold zkpokeVerifyChecked
    split
    · rename_i h
      cases h
      exact (C110_zkpoke_partial E fuel pp u w l hN _ hl).2.2 (by simp)
    · exact ⟨_, rfl⟩

/-- Whenever a verifier of the code returns, the checked one gives the same verdict: the check costs no proof. -/
theorem C110_repaired_same_partial (E : Env) (fuel : Nat) (pp : PublicParameters) (C : Int) (l : Nat) (hN : 1 ≤ pp.N)
    (hl : HasPrimeChallenge E fuel (pokeStarTranscript pp C) l) (proof : Option PoKEStarProof) (b : Bool)
    (h : pokeStarVerify E fuel pp C proof = Run.ok b) : pokeStarVerifyChecked E fuel pp C proof = Run.ok b := by
  match proof with
  | none => exact h
  | some ⟨some _, some _⟩ => exact h
  | some ⟨none, R⟩ => exact absurd rfl ((C110_pokeStar_partial E fuel pp C l hN hl ⟨none, R⟩).2.1 ⟨b, h⟩).1
  | some ⟨some Q, none⟩ => exact absurd rfl ((C110_pokeStar_partial E fuel pp C l hN hl ⟨some Q, none⟩).2.1 ⟨b, h⟩).2

/-- The same for PoE and ZKPoKE: a proof without nil gets the verdict of the code, and what the checked verifiers accept the code
accepts. -/
theorem C110_repaired_verdict_partial (E : Env) (fuel : Nat) (pp : PublicParameters) (base mod C x u w : Int) :
    (∀ Q, poeVerifyChecked E fuel base mod C x (some ⟨some Q⟩) = poeVerify E fuel base mod C x (some ⟨some Q⟩)) ∧
    (∀ proof, poeVerifyChecked E fuel base mod C x proof = Run.ok true → poeVerify E fuel base mod C x proof = Run.ok true) ∧
    (∀ z Ag Au Qg Qu rx rrho, zkpokeVerifyChecked E fuel pp u w
        (some ⟨some z, some Ag, some Au, some Qg, some Qu, some rx, some rrho⟩) =
      zkpokeVerify E fuel pp u w (some ⟨some z, some Ag, some Au, some Qg, some Qu, some rx, some rrho⟩)) ∧
    ∀ proof, zkpokeVerifyChecked E fuel pp u w proof = Run.ok true → zkpokeVerify E fuel pp u w proof = Run.ok true := by
  refine ⟨fun _ => rfl, fun proof h => ?_, fun _ _ _ _ _ _ _ => rfl, fun proof h => ?_⟩
  · unfold poeVerifyChecked at h
    split at h
    · exact h
    · cases run_ok_inj h
  · unfold zkpokeVerifyChecked at h
    split at h
    · exact h
    · cases run_ok_inj h

example : (match poeVerifyChecked pokeEnv 1 2 35 16 4 (some ⟨some 1⟩) with | .ok b => b | _ => false) = true ∧
    (match poeVerifyChecked pokeEnv 1 2 35 16 4 (some ⟨some 2⟩) with | .ok b => b | _ => true) = false ∧
    poeVerifyChecked pokeEnv 1 2 35 16 4 (some ⟨none⟩) = Run.ok false := ⟨by decide +kernel, by decide +kernel, rfl⟩

example : pokeStarVerifyChecked pokeEnv 1 ⟨35, 2, 3⟩ 16 (some ⟨none, none⟩) = Run.ok false ∧
    HasPrimeChallenge pokeEnv 1 (pokeStarTranscript ⟨35, 2, 3⟩ 16) 13 := by
  refine ⟨rfl, by unfold HasPrimeChallenge; decide +kernel⟩

/-! ## C111: the message needs a proper divisor -/

/-- accumulator/common.go:82-100 `GenerateG` with `gcd != N` as a second condition of the message. -/
def generateGRepaired (E : Env) (N : Nat) : Nat × Nat × Bool :=
  let r := generateG E N
  (r.1, r.2.1, r.2.2 && decide (r.2.1 ≠ N))

/-- C111 for the repaired function, for every modulus; the message is printed exactly if there is a factor. -/
theorem C111_repaired_partial (E : Env) (N : Nat) (hN : 1 ≤ N) :
    (generateGRepaired E N).2.2 = true ↔ 1 < (generateGRepaired E N).2.1 ∧ (generateGRepaired E N).2.1 < N ∧
      (generateGRepaired E N).2.1 ∣ N := by
  have hd : (generateGRepaired E N).2.1 ∣ N := Nat.gcd_dvd_left _ _
  have hle := Nat.le_of_dvd (by omega) hd
  have hpos := Nat.pos_of_dvd_of_pos hd (by omega)
  have hm : (generateGRepaired E N).2.2 = true ↔ (generateGRepaired E N).2.1 ≠ 1 ∧ (generateGRepaired E N).2.1 ≠ N := by
    unfold generateGRepaired generateG
    simp
  rw [hm]
  constructor
  · intro h; exact ⟨by omega, by omega, hd⟩
  · rintro ⟨h1, h2, -⟩; exact ⟨by omega, by omega⟩

/-- Both cases are there: with all digests 13 the product is `13^8`, which shares 13 with 26 and nothing with 35. -/
example : (generateGRepaired pokeEnv 26).2 = (13, true) ∧ (generateGRepaired pokeEnv 35).2 = (1, false) ∧
    (generateG pokeEnv 13).2 = (13, true) ∧ (generateGRepaired pokeEnv 13).2 = (13, false) := by decide +kernel

/-! ## C113: compute the four results before the first of them is stored -/

/-- proof/parameters.go:63-67 with the four products computed first and stored with `Set` afterwards. -/
def Int4Ptr.mulRepaired (f : Int4Ptr) (h : IntHeap) (n : Nat) : IntHeap :=
  (f.toList.map fun p => (p, h p * h n)).foldl (fun h' e => h'.write e.1 e.2) h

/-- proof/parameters.go:70-74 in the same way. -/
def Int4Ptr.divRepaired (f : Int4Ptr) (h : IntHeap) (n : Nat) : Res IntHeap :=
  if h n = 0 then goPanic "division by zero"
  else .ok ((f.toList.map fun p => (p, h p / h n)).foldl (fun h' e => h'.write e.1 e.2) h)

theorem stored_eq (v : Nat → Int) (l : List Nat) (h : IntHeap) (p : Nat) :
    (l.map fun p => (p, v p)).foldl (fun h' e => h'.write e.1 e.2) h p = if p ∈ l then v p else h p := by
  induction l generalizing h with
  | nil => simp
  | cons q l ih =>
    rw [List.map_cons, List.foldl_cons, ih]
    by_cases h1 : p ∈ l
    · simp [h1]
    · by_cases h2 : p = q
      · subst h2; simp [h1, IntHeap.write]
      · simp [h1, h2, IntHeap.write]

/-- C113 for the repaired functions: the statement of C113, also for groups in which pointers are equal. -/
theorem C113_repaired_partial (f : Int4Ptr) (n : Nat) (h : IntHeap) :
    (Scaled f n h (Int4Ptr.mulRepaired f h n) ∧ ∀ p ∉ f.toList, Int4Ptr.mulRepaired f h n p = h p) ∧
    (h n ≠ 0 → ∃ h', Int4Ptr.divRepaired f h n = .ok h' ∧ Divided f n h h' ∧ ∀ p ∉ f.toList, h' p = h p) ∧
    (h n = 0 → (Int4Ptr.divRepaired f h n).panics) := by
  refine ⟨⟨fun p hp => ?_, fun p hp => ?_⟩, fun hn => ⟨_, if_neg hn, fun p hp => ?_, fun p hp => ?_⟩, fun hn => ?_⟩
  · unfold Int4Ptr.mulRepaired
    rw [stored_eq (fun p => h p * h n), if_pos hp]
  · unfold Int4Ptr.mulRepaired
    rw [stored_eq (fun p => h p * h n), if_neg hp]
  · rw [stored_eq (fun p => h p / h n), if_pos hp]
  · rw [stored_eq (fun p => h p / h n), if_neg hp]
  · unfold Int4Ptr.divRepaired
    rw [if_pos hn]; rfl

/-- A group with a shared pointer that is also `n`. -/
example : (Int4Ptr.read ⟨0, 0, 1, 2⟩ (Int4Ptr.mulRepaired ⟨0, 0, 1, 2⟩ (fun p => p + 2) 0)) = ⟨4, 4, 6, 8⟩ ∧
    Int4Ptr.read ⟨0, 0, 1, 2⟩ (Int4Ptr.mul ⟨0, 0, 1, 2⟩ (fun p => p + 2) 0) = ⟨16, 16, 48, 64⟩ := by decide +kernel

/-! ## C144: the second prime is drawn until it differs from the first -/

/-- accumulator/common.go:234 with a loop around it. -/
def getOtherPrimeDraw (S : SetupSource) (test : Nat → Bool) (p : Nat) : Nat → Draw Bytes Nat
  | 0 => Draw.stop .loop
  | fuel + 1 => do
    let q ← getSafePrimeDraw S test (fuel + 1)
    if q = p then getOtherPrimeDraw S test p fuel else return q

/-- accumulator/common.go:231-251 `TrustedSetupForQRN` with this loop. -/
def trustedSetupRepaired (S : SetupSource) (test : Nat → Bool) (fuel : Nat) : Draw Bytes SetupResult := do
  let p ← getSafePrimeDraw S test fuel
  let q ← getOtherPrimeDraw S test p fuel
  printTwo "Bit length of p = " (itoa p.size)
  printTwo "Bit length of q = " (itoa q.size)
  let N := p * q
  let g ← getRanQRDraw S p q fuel
  let r ← Draw.mustReturn (randPrime S 2048)
  let order := getOrder p q
  let randomNum : Int := (r : Int) % order
  let h := (bigExp g randomNum N).getD 0
  printTwo "N = " (itoa N)
  printTwo "g = " (itoa g)
  printTwo "h = " (intString h)
  return ⟨N, g, h, p, q⟩

theorem getOtherPrimeDraw_ne (S : SetupSource) (test : Nat → Bool) (p : Nat) :
    ∀ fuel q s s', getOtherPrimeDraw S test p fuel s = (.ok q, s') → q ≠ p := by
  intro fuel
  induction fuel with
  | zero => intro q s s' h; simp [getOtherPrimeDraw, Draw.stop] at h
  | succ fuel ih =>
    intro q s s' h
    rw [getOtherPrimeDraw, draw_bind_ok_iff] at h
    obtain ⟨a, s1, -, h⟩ := h
    split at h
    · exact ih _ _ _ h
    · rename_i hne
      have : (Except.ok a, s1) = (Except.ok q, s') := h
      injection this with h1 _
      injection h1 with h1
      rw [← h1]; exact hne

/-- C144 for the repaired setup: the primes of a completed run differ, for every source and every test. A run of the code with
two different primes is a run of the repaired setup with the same result and output. -/
theorem C144_repaired_partial (S : SetupSource) (test : Nat → Bool) (fuel : Nat) (v : SetupResult) (s : Cell Bytes) :
    (trustedSetupRepaired S test fuel freshCell = (.ok v, s) → v.p ≠ v.q) ∧
    (trustedSetupDraw S test fuel freshCell = (.ok v, s) → v.p ≠ v.q → trustedSetupRepaired S test fuel freshCell = (.ok v, s)) := by
  constructor
  · intro h
    unfold trustedSetupRepaired at h
    rw [draw_bind_ok_iff] at h
    obtain ⟨p, s1, -, h⟩ := h
    rw [draw_bind_ok_iff] at h
    obtain ⟨q, s2, hq, h⟩ := h
    have hne := getOtherPrimeDraw_ne S test p fuel q s1 s2 hq
    iterate 7
      rw [draw_bind_ok_iff] at h
      obtain ⟨_, _, -, h⟩ := h
    injection h with h1 _
    injection h1 with h1
    rw [← h1]
    exact fun e => hne e.symm
  · intro h hne
    unfold trustedSetupDraw at h
    rw [draw_bind_ok_iff] at h
    obtain ⟨p, s1, hp, h⟩ := h
    rw [draw_bind_ok_iff] at h
    obtain ⟨q, s2, hq, h⟩ := h
    have hpq : q ≠ p := by
      have h' := h
      iterate 7
        rw [draw_bind_ok_iff] at h'
        obtain ⟨_, _, -, h'⟩ := h'
      injection h' with h1 _
      injection h1 with h1
      rw [← h1] at hne
      exact fun e => hne e.symm
    unfold trustedSetupRepaired
    rw [draw_bind_ok _ _ _ _ _ hp]
    have ho : getOtherPrimeDraw S test p fuel s1 = (.ok q, s2) := by
      cases fuel with
      | zero => simp [getSafePrimeDraw, Draw.stop] at hq
      | succ fuel =>
        rw [getOtherPrimeDraw, draw_bind_ok _ _ _ _ _ hq, if_neg hpq]
        rfl
    rw [draw_bind_ok _ _ _ _ _ ho]
    exact h

/-- The run of the code with two different primes. -/
example : ∃ v s, trustedSetupRepaired (twoPrimes setupPrime1 setupPrime2) exactTest 1 freshCell = (.ok v, s) ∧ v.p ≠ v.q := by
  obtain ⟨v, s, hr, e1, e2⟩ := twoPrimes_run setupPrime1 setupPrime2 exactTest ((exactTest_iff _).2 setupPrime1_prime)
    ((exactTest_iff _).2 setupPrime2_prime) ((exactTest_iff _).2 setupPrime1_safe) ((exactTest_iff _).2 setupPrime2_safe)
  have hne : v.p ≠ v.q := fun he => setupPrimes_differ (by omega)
  exact ⟨v, s, (C144_repaired_partial _ _ _ _ _).2 hr hne, hne⟩

end Verif.Props
