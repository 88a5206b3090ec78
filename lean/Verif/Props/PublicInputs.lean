import Verif.Props.SnarkFlow

/-!
# Property C128: are the public inputs of an accepted proof checked?

`DeltaModL1` and `DeltaModL2` are public inputs that should be the remainders of `Min1024 = 2^1023` (zkmultiswap/circuit.go:20-25).
Neither the circuit nor `Verify` (zkmultiswap/zkmultiswap.go:123-143) compares them with anything but the challenges, and
nothing is known about the challenges.
-/

namespace Verif.Props
open Verif.Go Verif.Model Verif.Lemmas Verif.Spec Verif.Model.SnarkFlow Verif.Lemmas.SnarkFlow

/-- The public remainders are those of the products of the representatives `hash + 2^1023` and of the blinding factors. -/
def TrueRemainders (E : Env) (u : UpdateSet32) : Prop :=
  u.remainderR1 = ((∏ i ∈ Finset.range u.userID.length, ((oldHash E u i + 2 ^ 1023 : Nat) : Int)) *
    (blinding E u.randomizer1.toNat : Int)) % u.challengeL1 ∧
  u.remainderR2 = ((∏ i ∈ Finset.range u.userID.length, ((newHash E u i + 2 ^ 1023 : Nat) : Int)) *
    (blinding E u.randomizer2.toNat : Int)) % u.challengeL2

/-- C128: if `Verify` accepts a proof of `Prove` with the public part of the set, and no sum of a hash and a delta leaves
the field, the remainders belong to the representatives of the records. -/
def C128_statement : Prop :=
  ∀ (E : Env) (S : Snark), Complete E S → Binding E S → ∀ (d : Disk S), Reach E d →
    ∀ (u : UpdateSet32) (k : S.Coin) (p : S.Proof) (n : UInt32), InField u.publicPart →
    0 ≤ u.randomizer1 ∧ u.randomizer1 < 2 ^ 32 → 0 ≤ u.randomizer2 ∧ u.randomizer2 < 2 ^ 32 → NoOverflow E u →
    prove u k d = .ok (some p) → verify p n u.publicPart d = .ok true → TrueRemainders E u

/-- Every pair of deltas below the challenges is accepted, with some remainders. -/
theorem C128_any_delta (E : Env) (c : Circuit) (h : define E c = .ok true) (δ1 δ2 : Nat) (h1 : δ1 < c.challengeL1)
    (h2 : δ2 < c.challengeL2) :
    ∃ r1 r2, define E { c with deltaModL1 := δ1, deltaModL2 := δ2, remainderR1 := r1, remainderR2 := r2 } = .ok true := by
  have s := (accepts_iff E c).1 h
  refine ⟨prodR1 E { c with deltaModL1 := δ1 } % c.challengeL1, prodR2 E { c with deltaModL2 := δ2 } % c.challengeL2,
    (accepts_iff _ _).2 ?_⟩
  exact ⟨s.lens, s.rand1, s.rand2, h1, h2, Nat.mod_lt _ (by omega), Nat.mod_lt _ (by omega), s.epoch, s.osum, s.usum,
    s.ids, s.users, rfl, rfl, s.sum⟩

/-- With a delta chosen for the first record the remainder of the removed records is 0, whatever the other records and the
randomizers are. -/
theorem C128_zero_remainder (E : Env) (c : Circuit) (h : define E c = .ok true)
    (hfit : oldRecord E c 0 + c.challengeL1 ≤ frOrder) :
    define E { c with deltaModL1 := (c.challengeL1 - oldRecord E c 0 % c.challengeL1) % c.challengeL1, remainderR1 := 0 } =
      .ok true := by
  have s := (accepts_iff E c).1 h
  have hL : 0 < c.challengeL1 := lt_of_le_of_lt (Nat.zero_le _) s.delta1
  rw [accepts_iff]
  refine ⟨s.lens, s.rand1, s.rand2, Nat.mod_lt _ hL, s.delta2, hL, s.rem2, s.epoch, s.osum, s.usum,
    s.ids, s.users, ?_, s.r2, s.sum⟩
  have hlen : 0 < c.userID.length := s.lens.2.2.2.2
  apply Nat.mod_eq_zero_of_dvd
  refine Dvd.dvd.mul_right ?_ _
  refine dvd_trans ?_ (List.dvd_prod (List.mem_map_of_mem (List.mem_range.2 hlen)))
  change c.challengeL1 ∣ (oldRecord E c 0 + _) % frOrder
  have hlt := Nat.mod_lt (c.challengeL1 - oldRecord E c 0 % c.challengeL1) hL
  rw [Nat.mod_eq_of_lt (show oldRecord E c 0 + (c.challengeL1 - oldRecord E c 0 % c.challengeL1) % c.challengeL1 < frOrder by
    omega)]
  rw [Nat.dvd_iff_mod_eq_zero, Nat.add_mod_mod, Nat.add_mod, Nat.mod_eq_zero_of_dvd]
  have h3 := Nat.mod_lt (oldRecord E c 0) hL
  generalize oldRecord E c 0 % c.challengeL1 = x at *
  by_cases hx : x = 0
  · rw [hx]; simp
  · rw [Nat.mod_eq_of_lt (show c.challengeL1 - x < c.challengeL1 by omega), Nat.add_sub_cancel' (by omega)]

/-- The challenges 1 are accepted for every update that is accepted for some challenges, with all other public numbers 0:
then the proof says nothing about the accumulators. -/
theorem C128_trivial_challenges (E : Env) (c : Circuit) (h : define E c = .ok true) :
    define E { c with
      challengeL1 := 1, challengeL2 := 1, deltaModL1 := 0, deltaModL2 := 0, remainderR1 := 0, remainderR2 := 0 } = .ok true := by
  have s := (accepts_iff E c).1 h
  rw [accepts_iff]
  exact ⟨s.lens, s.rand1, s.rand2, Nat.one_pos, Nat.one_pos, Nat.one_pos, Nat.one_pos, s.epoch, s.osum, s.usum,
    s.ids, s.users, Nat.mod_one _, Nat.mod_one _, s.sum⟩

example : define sumEnv goodCircuit = .ok true ∧ oldRecord sumEnv goodCircuit 0 + goodCircuit.challengeL1 ≤ frOrder ∧
    0 < goodCircuit.challengeL1 ∧ 0 < goodCircuit.challengeL2 := by decide +kernel

/-- The set of C66 with delta 0 instead of 480, and the remainder that goes with it. -/
def badDelta : UpdateSet32 := { goodSet with deltaModL1 := 0, remainderR1 := 139 }

theorem C128_violated : ¬ C128_statement := by
  intro h
  have hs := (setupZkMultiswap_ok_iff (S := idealSnark sumEnv) sumEnv 2 (0 : Nat) (fun _ => none) _).2 ⟨by decide, rfl⟩
  obtain ⟨c, h1, h2⟩ : ∃ c, assignCircuit badDelta = .ok c ∧ define sumEnv c = .ok true :=
    ⟨{ goodCircuit with deltaModL1 := 0, remainderR1 := 139 }, by decide +kernel, by decide +kernel⟩
  obtain ⟨p, h3, h4⟩ := C85_prove_verify (idealSnark_complete sumEnv) (u := badDelta) (n := 2) (by decide)
    (setup_keyAt (S := idealSnark sumEnv) (.multi 2) (0 : Nat) (keyFile 2) (fun _ => none)) h1 h2 (0 : Nat)
  have := (h sumEnv _ (idealSnark_complete _) (idealSnark_binding _) _ (.setup _ _ .empty hs) badDelta (0 : Nat) p 2
    (by unfold InField; decide +kernel) (by decide) (by decide) (by unfold NoOverflow; decide +kernel) h3 h4).1
  revert this
  decide +kernel

/-- What is missing in `Verify`: if the verifier compares the deltas with `2^1023`, accepted public inputs in the field are
those of the prover, and the remainders belong to the representatives. -/
theorem C128_checked_partial {E : Env} {S : Snark} (hB : Binding E S) {d : Disk S} (hr : Reach E d) {u : UpdateSet32}
    {k : S.Coin} {p : S.Proof} {n : UInt32} {i : PublicInfo} (hi : InField i) (hu : InField u.publicPart)
    (r1 : 0 ≤ u.randomizer1 ∧ u.randomizer1 < 2 ^ 32) (r2 : 0 ≤ u.randomizer2 ∧ u.randomizer2 < 2 ^ 32)
    (ho : NoOverflow E u) (d1 : i.deltaModL1 = 2 ^ 1023 % i.challengeL1) (d2 : i.deltaModL2 = 2 ^ 1023 % i.challengeL2)
    (h : prove u k d = .ok (some p)) (hv : verify p n i d = .ok true) :
    i = u.publicPart ∧ n.toNat = u.userID.length ∧ TrueRemainders E u := by
  obtain ⟨hn, hw, c, hc, hs⟩ := C85_verify_other hB (C85_keys E d hr) h n i hv
  have e : i = u.publicPart := by
    refine ((C65_verify_exact _ _ hu hi).1 ?_).symm
    rw [← hw]
    exact (C65_verify_exact _ _ hi hi).2 rfl
  refine ⟨e, hn, ?_⟩
  subst e
  have hval : u.isValid = true := by
    by_contra hval
    rw [assignCircuit, if_pos (by simpa using hval)] at hc
    cases hc
  rw [(C66_assignCircuit u).2 hval] at hc
  injection hc with hc
  subst hc
  have s := (accepts_iff E _).1 hs
  have hu' : ∀ v ∈ publicValues u.publicPart, 0 ≤ v ∧ v < frOrder := hu
  simp only [publicValues, List.mem_cons, List.not_mem_nil, or_false, forall_eq_or_imp, forall_eq] at hu'
  obtain ⟨a1, a2, a3, a4, -, a6, a7⟩ := hu'
  have cast : ∀ (R L δ : Int) (f : Nat → Nat) (P b m : Nat), (0 ≤ R ∧ R < frOrder) → (0 ≤ L ∧ L < frOrder) →
      (0 ≤ δ ∧ δ < frOrder) → δ = 2 ^ 1023 % L → (∀ j, j < m → f j + δ.toNat < frOrder) →
      P = (∏ j ∈ Finset.range m, (f j + elementFromBigInt δ) % frOrder) * b →
      P % elementFromBigInt L = elementFromBigInt R →
      R = ((∏ j ∈ Finset.range m, ((f j + 2 ^ 1023 : Nat) : Int)) * (b : Int)) % L := by
    intro R L δ f P b m hR hL hδ hd ho hP h
    rw [element_of_range _ hL.1 hL.2, element_of_range _ hR.1 hR.2, hP, element_of_range _ hδ.1 hδ.2] at h
    have hd' : δ.toNat = 2 ^ 1023 % L.toNat := by
      generalize hD : (1023 : Nat) = D at *
      obtain ⟨l, rfl⟩ := Int.eq_ofNat_of_zero_le hL.1
      rw [hd]
      have : ((2 : Int) ^ D % (l : Int)) = ((2 ^ D % l : Nat) : Int) := by push_cast; rfl
      rw [this, Int.toNat_natCast, Int.toNat_natCast]
    rw [prod_delta f _ _ _ b m hd' ho] at h
    rw [← Int.toNat_of_nonneg hR.1, ← h, ← Int.toNat_of_nonneg hL.1]
    simp only [Int.natCast_emod, Int.natCast_mul, Nat.cast_prod, Int.toNat_natCast]
  exact ⟨cast _ _ _ (oldHash E u) _ _ _ a3 a1 a6 d1 (fun j hj => (ho j hj).1) (assigned_prodR1 E u r1) s.r1,
    cast _ _ _ (newHash E u) _ _ _ a4 a2 a7 d2 (fun j hj => (ho j hj).2) (assigned_prodR2 E u r2) s.r2⟩

example : ∃ (d : Disk (idealSnark sumEnv)) (p : (idealSnark sumEnv).Proof), Reach sumEnv d ∧
    prove goodSet (0 : Nat) d = .ok (some p) ∧ verify p 2 goodSet.publicPart d = .ok true ∧ InField goodSet.publicPart ∧
    NoOverflow sumEnv goodSet ∧ goodSet.publicPart.deltaModL1 = 2 ^ 1023 % goodSet.publicPart.challengeL1 ∧
    goodSet.publicPart.deltaModL2 = 2 ^ 1023 % goodSet.publicPart.challengeL2 := by
  have hs := (setupZkMultiswap_ok_iff (S := idealSnark sumEnv) sumEnv 2 (0 : Nat) (fun _ => none) _).2 ⟨by decide, rfl⟩
  obtain ⟨p, h3, h4⟩ := C85_prove_verify (idealSnark_complete sumEnv) (u := goodSet) (n := 2) (c := goodCircuit) (by decide)
    (setup_keyAt (S := idealSnark sumEnv) (.multi 2) (0 : Nat) (keyFile 2) (fun _ => none)) (by decide +kernel)
    (by decide +kernel) (0 : Nat)
  exact ⟨_, p, .setup _ _ .empty hs, h3, h4, by unfold InField; decide +kernel, by unfold NoOverflow; decide +kernel,
    by decide +kernel, by decide +kernel⟩

end Verif.Props
