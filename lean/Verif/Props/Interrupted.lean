import Verif.Spec.Interrupted
import Verif.Props.SnarkFlow

/-! # Property C139: setups that are interrupted -/

namespace Verif.Props
open Verif.Go Verif.Model Verif.Lemmas Verif.Spec Verif.Model.SnarkFlow Verif.Lemmas.SnarkFlow

variable {S : Snark}

/-- `TestMultiSwap` passes (as in `C85_test_passes`) also after runs that were stopped. -/
def C139_statement : Prop :=
  ∀ (E : Env) (S : Snark) (order : List Part) (d : Disk S) (fuel : Nat) (G N accMid : Int) (coin coin' : S.Coin)
    (n : UInt32) (u : UpdateSet32), Complete E S → WritesAll order → Left (dumpSteps order) E d → n.toNat ≤ 2 ^ 31 →
    genTestSet E fuel n G N accMid = Run.ok u → NoOverflow E u →
    ∃ d', testMultiSwap E fuel G N accMid coin coin' n d = Run.ok (d', true)

/-! ## Steps -/

theorem visits_cons (f : Disk S → Disk S) (l : List (Disk S → Disk S)) (d : Disk S) :
    visits (f :: l) d = d :: visits l (f d) := List.scanl_cons

theorem visits_nil (d : Disk S) : visits [] d = [d] := List.scanl_nil

theorem start_mem (l : List (Disk S → Disk S)) (d : Disk S) : d ∈ visits l d := by
  cases l with
  | nil => exact List.mem_singleton.2 rfl
  | cons f l => rw [visits_cons]; exact List.mem_cons_self

theorem after_mem (l : List (Disk S → Disk S)) (d : Disk S) : after l d ∈ visits l d := by
  induction l generalizing d with
  | nil => exact List.mem_singleton.2 rfl
  | cons f l ih => rw [visits_cons]; exact List.mem_cons_of_mem _ (ih (f d))

theorem visits_append (a b : List (Disk S → Disk S)) (d d' : Disk S) :
    d' ∈ visits (a ++ b) d ↔ d' ∈ visits a d ∨ d' ∈ visits b (after a d) := by
  induction a generalizing d with
  | nil =>
    rw [List.nil_append, visits_nil, List.mem_singleton]
    exact ⟨Or.inr, fun h => h.elim (fun h => h ▸ start_mem b d) id⟩
  | cons f a ih =>
    rw [List.cons_append, visits_cons, visits_cons, List.mem_cons, List.mem_cons, ih (f d), or_assoc]
    rfl

theorem visits_keep {P : Disk S → Prop} {l : List (Disk S → Disk S)} {d : Disk S} (hd : P d)
    (hl : ∀ f ∈ l, ∀ d, P d → P (f d)) : ∀ d' ∈ visits l d, P d' := by
  induction l generalizing d with
  | nil => intro d' h; rw [visits_nil, List.mem_singleton] at h; exact h ▸ hd
  | cons f l ih =>
    intro d' h
    rw [visits_cons, List.mem_cons] at h
    rcases h with rfl | h
    · exact hd
    · exact ih (hl f List.mem_cons_self d hd) (fun g hg => hl g (List.mem_cons_of_mem _ hg)) d' h

/-- The six orders. -/
theorem orders {order : List Part} (h : WritesAll order) :
    order = [.ccs, .pk, .vk] ∨ order = [.pk, .ccs, .vk] ∨ order = [.pk, .vk, .ccs] ∨ order = [.ccs, .vk, .pk] ∨
      order = [.vk, .ccs, .pk] ∨ order = [.vk, .pk, .ccs] := by
  have h := List.mem_permutations.2 h
  simp [List.permutations, List.permutationsAux, List.permutationsAux.rec, List.permutationsAux2] at h
  tauto

theorem write_comm (d : Disk S) {n m : Bytes} (f g : File S) (h : n ≠ m) :
    write (write d n f) m g = write (write d m g) n f := by
  funext x
  simp only [write]
  split_ifs with h1 h2
  · exact absurd (h2.symm.trans h1) h
  all_goals rfl

theorem write_twice (d : Disk S) (n : Bytes) (f g : File S) : write (write d n f) n g = write d n g := by
  funext x
  simp only [write]
  split_ifs <;> rfl

/-- A setup that is not stopped ends, for every order of its files, with the directory of `setupWithDump`. -/
theorem C139_complete {order : List Part} (h : WritesAll order) (sys : System) (coin : S.Coin) (base : Bytes)
    (d : Disk S) : after (dumpSteps order sys coin base) d = setupWithDump sys coin base d := by
  have h1 := ccs_ne_pk base base
  have h2 := ccs_ne_vk base base
  have h3 := pk_ne_vk base base
  rcases orders h with rfl | rfl | rfl | rfl | rfl | rfl
  all_goals
    funext x
    simp only [after, dumpSteps, List.flatMap_cons, List.flatMap_nil, List.append_nil, List.cons_append, List.nil_append,
      List.foldl_cons, List.foldl_nil, setupWithDump, write, Part.name, Part.whole]
    by_cases e1 : x = ccsName base
    · subst e1
      simp [h1, h2]
    · by_cases e2 : x = pkName base
      · subst e2
        simp [h1.symm, h3]
      · by_cases e3 : x = vkName base
        · subst e3
          simp [h2.symm, h3.symm]
        · simp [e1, e2, e3]

theorem repaired_complete (sys : System) (coin : S.Coin) (base : Bytes) (d : Disk S) :
    after (repairedSteps sys coin base) d = setupWithDump sys coin base d := by
  have h1 := ccs_ne_pk base base
  have h2 := ccs_ne_vk base base
  have h3 := pk_ne_vk base base
  funext x
  simp only [after, repairedSteps, List.foldl_cons, List.foldl_nil, setupWithDump, write]
  by_cases e1 : x = ccsName base
  · subst e1
    simp [h1, h2]
  · by_cases e2 : x = pkName base
    · subst e2
      simp [h1.symm, h3]
    · by_cases e3 : x = vkName base
      · subst e3
        simp [h2.symm]
      · simp [e1, e2, e3]

theorem ensureEnd_eq {σ : SetupProg S} (hσ : ∀ sys coin base d, after (σ sys coin base) d = setupWithDump sys coin base d)
    (E : Env) (n : UInt32) (coin : S.Coin) (d : Disk S) : ensureEnd σ E n coin d = ensureKeys E n coin d := by
  unfold ensureEnd ensureKeys setupZkMultiswap
  split_ifs
  · rfl
  · cases compile E n with
    | none => rfl
    | some sys => simp only [hσ]

theorem ensureEnd_mem {σ : SetupProg S} {E : Env} {n : UInt32} {coin : S.Coin} {d d' : Disk S}
    (h : ensureEnd σ E n coin d = .ok d') : d' ∈ ensureVisits σ E n coin d := by
  unfold ensureEnd at h
  unfold ensureVisits setupVisits
  split_ifs at h ⊢
  · exact List.mem_singleton.2 (Except.ok.inj h).symm
  · cases hc : compile E n with
    | none => rw [hc] at h; cases h
    | some sys =>
      rw [hc] at h
      rw [← Except.ok.inj h]
      exact after_mem _ _

/-- Runs that are not stopped are among the runs considered here. -/
theorem C139_reach {order : List Part} (ho : WritesAll order) (E : Env) (d : Disk S) (h : Reach E d) :
    Left (dumpSteps order) E d := by
  have hσ : ∀ sys coin base d, after (dumpSteps (S := S) order sys coin base) d = setupWithDump sys coin base d :=
    C139_complete ho
  have test : ∀ {d d' : Disk S} {b : Bool} (fuel : Nat) (G N accMid : Int) (coin coin' : S.Coin) (n : UInt32),
      Left (dumpSteps order) E d → testMultiSwap E fuel G N accMid coin coin' n d = Run.ok (d', b) →
      Left (dumpSteps order) E d' := by
    intro d d' b fuel G N accMid coin coin' n hd h
    obtain ⟨u, p, h1, -⟩ := (testMultiSwap_ok_iff ..).1 h
    exact .test n coin hd (ensureEnd_mem ((ensureEnd_eq hσ E n coin d).trans h1))
  have output : ∀ {d d' : Disk S} (coin : S.Coin) (n : UInt32), Left (dumpSteps order) E d →
      outputContract E coin n d = .ok d' → Left (dumpSteps order) E d' := by
    intro d d' coin n hd h
    obtain ⟨d1, vk, h1, h2, rfl⟩ := (outputContract_ok_iff ..).1 h
    refine .output n coin hd (List.mem_append_right _ ?_)
    rw [ensureEnd_eq hσ, h1]
    simp only [h2]
    rw [← write_twice d1 _ .cut]
    exact after_mem _ _
  have output2 : ∀ {d d' : Disk S} {o : Outcome S} (fuel : Nat) (G N accMid : Int) (coin coin2 coin' : S.Coin)
      (n : UInt32), Left (dumpSteps order) E d →
      outputContract2 E fuel G N accMid coin coin2 coin' n d = Run.ok (d', o) → Left (dumpSteps order) E d' := by
    intro d d' o fuel G N accMid coin coin2 coin' n hd h
    rcases (outputContract2_ok_iff ..).1 h with ⟨-, rfl, -⟩ | ⟨hn, rfl, -⟩
    · exact hd
    · refine .output2 n coin coin2 hd ?_
      rw [output2Visits, compile_eq, if_neg hn, visits_append]
      right
      rw [hσ]
      have e : disk2 n.toNat coin coin2 d = after (notusSteps (S.setup (.multi n.toNat) coin2).1
          (S.setup (.multi n.toNat) coin2).2) (setupWithDump (.multi n.toNat) coin (keyFile n.toNat) d) := by
        simp only [disk2, after, notusSteps, List.foldl_cons, List.foldl_nil, write_twice]
      rw [e]
      exact after_mem _ _
  induction h with
  | empty => exact .empty
  | setup n coin _ h ih =>
    obtain ⟨hn, rfl⟩ := (setupZkMultiswap_ok_iff ..).1 h
    refine .setup n coin ih ?_
    rw [setupVisits, compile_eq, if_neg hn, ← hσ]
    exact after_mem _ _
  | test fuel G N accMid coin coin' n _ h ih => exact test _ _ _ _ _ _ _ ih h
  | output coin n _ h ih => exact output _ _ ih h
  | output2 fuel G N accMid coin coin2 coin' n _ h ih => exact output2 _ _ _ _ _ _ _ _ ih h
  | basic fuel G N n r _ h ih =>
    obtain ⟨d1, d2, b, h1, h2, h3, -⟩ := (basicProcess_ok_iff ..).1 h
    exact output2 _ _ _ _ _ _ _ _ (output _ _ (test _ _ _ _ _ _ _ ih h1) h2) h3
  | merkleSetup n coin _ h ih =>
    refine .merkleSetup n coin ih ?_
    have h' := (merkleSetup_ok_iff ..).1 h
    unfold merkleSetup at h
    unfold merkleSetupVisits
    cases hd : MerkleSwap.define E (MerkleSwap.initCircuitWithSize n) with
    | error m => rw [hd] at h; cases h
    | ok b =>
      rw [h', ← hσ]
      exact after_mem _ _
  | @merkleTest d d' b coin coin' n _ h ih =>
    refine .merkleTest n coin ih ?_
    unfold testMerkleMultiSwap at h
    unfold merkleTestVisits
    have key : ∀ d1 : Disk S, (do
        match merkleProve E n coin' d1 with
        | none => goPanic "Error during Prove"
        | some proof =>
          let flag ← merkleVerify E proof n d1
          .ok (d1, flag)) = Except.ok (d', b) → d' = d1 := by
      intro d1 h
      cases hp : merkleProve E n coin' d1 with
      | none => rw [hp] at h; simp [goPanic] at h
      | some p =>
        rw [hp] at h
        cases hv : merkleVerify E p n d1 with
        | error m => simp only [hv] at h; cases h
        | ok v =>
          simp only [hv, except_bind_ok, Except.ok.injEq, Prod.mk.injEq] at h
          exact h.1.symm
    split_ifs at h ⊢ with hi
    · rw [except_bind_ok] at h
      exact List.mem_singleton.2 (key d h)
    · cases hs : merkleSetup E n coin d with
      | error m => rw [hs] at h; cases h
      | ok d1 =>
        rw [hs, except_bind_ok] at h
        rw [key d1 h]
        have h' := (merkleSetup_ok_iff ..).1 hs
        unfold merkleSetup at hs
        unfold merkleSetupVisits
        cases hd : MerkleSwap.define E (MerkleSwap.initCircuitWithSize n) with
        | error m => rw [hd] at hs; cases hs
        | ok b => rw [h', ← hσ]; exact after_mem _ _

/-! ## What the files hold -/

/-- The files of one size are missing, not filled, or come from setups of this size. -/
structure Origin (d : Disk S) (n : Nat) : Prop where
  ccs : d (ccsName (keyFile n)) = none ∨ d (ccsName (keyFile n)) = some .cut ∨
    d (ccsName (keyFile n)) = some (.ccs (.multi n))
  pk : d (pkName (keyFile n)) = none ∨ d (pkName (keyFile n)) = some .cut ∨
    ∃ c, d (pkName (keyFile n)) = some (.pk (S.setup (.multi n) c).1)
  vk : d (vkName (keyFile n)) = none ∨ d (vkName (keyFile n)) = some .cut ∨
    ∃ c, d (vkName (keyFile n)) = some (.vk (S.setup (.multi n) c).2)

/-- Two directories with the same three files of size `n`. -/
def SameKeys (n : Nat) (d d' : Disk S) : Prop :=
  ∀ p : Part, d' (p.name (keyFile n)) = d (p.name (keyFile n))

theorem SameKeys.origin {n : Nat} {d d' : Disk S} (h : SameKeys n d d') (ho : Origin d n) : Origin d' n := by
  have h1 : d' (ccsName _) = d (ccsName _) := h .ccs
  have h2 : d' (pkName _) = d (pkName _) := h .pk
  have h3 : d' (vkName _) = d (vkName _) := h .vk
  exact ⟨by rw [h1]; exact ho.ccs, by rw [h2]; exact ho.pk, by rw [h3]; exact ho.vk⟩

theorem SameKeys.keyAt {n : Nat} {d d' : Disk S} (h : SameKeys n d d') (c : S.Coin) :
    KeyAt d' (keyFile n) (.multi n) c ↔ KeyAt d (keyFile n) (.multi n) c := by
  have h1 : d' (ccsName _) = d (ccsName _) := h .ccs
  have h2 : d' (pkName _) = d (pkName _) := h .pk
  have h3 : d' (vkName _) = d (vkName _) := h .vk
  unfold KeyAt
  rw [h1, h2, h3]

theorem SameKeys.damaged {n : Nat} {d d' : Disk S} (h : SameKeys n d d') (hd : Damaged d n) : Damaged d' n := by
  have h1 : d' (ccsName _) = d (ccsName _) := h .ccs
  exact ⟨by rw [h1]; exact hd.1, fun c hc => hd.2 c ((h.keyAt c).1 hc)⟩

theorem SameKeys.write_other {n : Nat} {d d' : Disk S} {name : Bytes} (h : SameKeys n d d') (ho : Other name)
    (f : File S) : SameKeys n d (write d' name f) := by
  obtain ⟨h1, h2, h3⟩ := ho (keyFile n)
  intro p
  cases p
  · exact (write_ne _ _ h1.symm).trans (h .ccs)
  · exact (write_ne _ _ h2.symm).trans (h .pk)
  · exact (write_ne _ _ h3.symm).trans (h .vk)

theorem part_ne {base base' : Bytes} (h : base ≠ base') (p q : Part) : p.name base ≠ q.name base' := by
  cases p <;> cases q
  · exact fun e => h (ccs_inj.1 e)
  · exact ccs_ne_pk _ _
  · exact ccs_ne_vk _ _
  · exact (ccs_ne_pk _ _).symm
  · exact fun e => h (pk_inj.1 e)
  · exact pk_ne_vk _ _
  · exact (ccs_ne_vk _ _).symm
  · exact (pk_ne_vk _ _).symm
  · exact fun e => h (vk_inj.1 e)

/-- A program whose steps change only files of its own name. -/
def OwnFiles (σ : SetupProg S) : Prop :=
  ∀ sys coin base, ∀ f ∈ σ sys coin base, ∀ base', base' ≠ base → ∀ (p : Part) (d : Disk S),
    f d (p.name base') = d (p.name base')

theorem dump_own (order : List Part) : OwnFiles (dumpSteps (S := S) order) := by
  intro sys coin base f hf base' hb p d
  obtain ⟨q, -, hq⟩ := List.mem_flatMap.1 hf
  simp only [List.mem_cons, List.not_mem_nil, or_false] at hq
  rcases hq with rfl | rfl <;> exact write_ne _ _ (part_ne hb p q)

theorem repaired_own : OwnFiles (repairedSteps (S := S)) := by
  intro sys coin base f hf base' hb p d
  simp only [repairedSteps, List.mem_cons, List.not_mem_nil, or_false] at hf
  rcases hf with rfl | rfl | rfl | rfl | rfl | rfl
  · exact if_neg (part_ne hb p .ccs)
  · exact write_ne _ _ (part_ne hb p .pk)
  · exact write_ne _ _ (part_ne hb p .pk)
  · exact write_ne _ _ (part_ne hb p .vk)
  · exact write_ne _ _ (part_ne hb p .vk)
  · exact write_ne _ _ (part_ne hb p .ccs)

theorem own_visits {σ : SetupProg S} (hσ : OwnFiles σ) (sys : System) (coin : S.Coin) (base : Bytes) (n : Nat)
    (hb : keyFile n ≠ base) (d : Disk S) : ∀ d' ∈ visits (σ sys coin base) d, SameKeys n d d' :=
  visits_keep (P := SameKeys n d) (fun _ => rfl) fun f hf d' h p => (hσ sys coin base f hf _ hb p d').trans (h p)

theorem notus_visits (pk : S.PK) (vk : S.VK) (n : Nat) (d : Disk S) : ∀ d' ∈ visits (notusSteps pk vk) d, SameKeys n d d' := by
  refine visits_keep (P := SameKeys n d) (fun _ => rfl) fun f hf d' h => ?_
  simp only [notusSteps, List.mem_cons, List.not_mem_nil, or_false] at hf
  rcases hf with rfl | rfl | rfl | rfl | rfl | rfl
  · exact h.write_other other_notusVk _
  · exact h.write_other other_notusVk _
  · exact h.write_other other_notusPk _
  · exact h.write_other other_notusPk _
  · exact h.write_other other_notus _
  · exact h.write_other other_notus _

theorem merkleSetup_same {σ : SetupProg S} (hσ : OwnFiles σ) (E : Env) (m : UInt32) (coin : S.Coin) (n : Nat) (d : Disk S) :
    ∀ d' ∈ merkleSetupVisits σ E m coin d, SameKeys n d d' := by
  intro d' h
  unfold merkleSetupVisits at h
  split at h
  · rw [List.mem_singleton.1 h]; exact fun _ => rfl
  · exact own_visits hσ _ _ _ _ (keyFile_ne_merkle _ _) _ _ h

theorem merkleTest_same {σ : SetupProg S} (hσ : OwnFiles σ) (E : Env) (m : UInt32) (coin : S.Coin) (n : Nat) (d : Disk S) :
    ∀ d' ∈ merkleTestVisits σ E m coin d, SameKeys n d d' := by
  intro d' h
  unfold merkleTestVisits at h
  split_ifs at h
  · rw [List.mem_singleton.1 h]; exact fun _ => rfl
  · exact merkleSetup_same hσ E m coin n d d' h

/-- What a claim about the files of size `n` needs in order to hold in every directory that is left behind: it does not
depend on other files and it holds throughout a setup of this size. -/
theorem left_keep {σ : SetupProg S} (hσ : OwnFiles σ) (E : Env) (n : Nat) (P : Disk S → Prop)
    (h0 : P (fun _ => none)) (hs : ∀ d d', SameKeys n d d' → P d → P d')
    (hv : ∀ d coin, P d → ∀ d' ∈ visits (σ (.multi n) coin (keyFile n)) d, P d') (d : Disk S) (h : Left σ E d) : P d := by
  have hself : ∀ d : Disk S, SameKeys n d d := fun _ _ => rfl
  have vis : ∀ {d : Disk S} (m : Nat) (coin : S.Coin), P d → ∀ d' ∈ visits (σ (.multi m) coin (keyFile m)) d, P d' := by
    intro d m coin hd d' hm
    by_cases e : m = n
    · subst e; exact hv d coin hd d' hm
    · exact hs d d' (own_visits hσ _ _ _ n (fun e' => e (keyFile_inj.1 e').symm) d d' hm) hd
  have setup : ∀ {d d' : Disk S} (m : UInt32) (coin : S.Coin), P d → d' ∈ setupVisits σ E m coin d → P d' := by
    intro d d' m coin hd hm
    rw [setupVisits, compile_eq] at hm
    split_ifs at hm
    · rw [List.mem_singleton.1 hm]; exact hd
    · exact vis _ _ hd d' hm
  have ensure : ∀ {d d' : Disk S} (m : UInt32) (coin : S.Coin), P d → d' ∈ ensureVisits σ E m coin d → P d' := by
    intro d d' m coin hd hm
    unfold ensureVisits at hm
    split_ifs at hm
    · rw [List.mem_singleton.1 hm]; exact hd
    · exact setup m coin hd hm
  induction h with
  | empty => exact h0
  | setup m coin _ h ih => exact setup m coin ih h
  | test m coin _ h ih => exact ensure m coin ih h
  | @output d d' m coin _ h ih =>
    unfold outputVisits at h
    rcases List.mem_append.1 h with h | h
    · exact ensure m coin ih h
    · cases he : ensureEnd σ E m coin d with
      | error _ => rw [he] at h; cases h
      | ok d1 =>
        rw [he] at h
        have h1 := ensure m coin ih (ensureEnd_mem he)
        cases hk : loadVerifyingKey d1 (keyFile m.toNat) with
        | none => simp only [hk] at h; cases h
        | some vk =>
          simp only [hk] at h
          refine hs d1 d' (visits_keep (P := SameKeys n d1) (hself d1) (fun f hf d2 h2 => ?_) d' h) h1
          simp only [List.mem_cons, List.not_mem_nil, or_false] at hf
          rcases hf with rfl | rfl <;> exact h2.write_other other_contract _
  | @output2 d d' m coin coin2 _ h ih =>
    rw [output2Visits, compile_eq] at h
    split_ifs at h
    · rw [List.mem_singleton.1 h]; exact ih
    · rcases (visits_append _ _ _ _).1 h with h | h
      · exact vis _ _ ih d' h
      · exact hs _ _ (notus_visits _ _ n _ _ h) (vis _ _ ih _ (after_mem _ _))
  | merkleSetup m coin _ h ih => exact hs _ _ (merkleSetup_same hσ E m coin n _ _ h) ih
  | merkleTest m coin _ h ih => exact hs _ _ (merkleTest_same hσ E m coin n _ _ h) ih

/-- In every directory that is left behind the files of a size are missing, not filled, or come from setups of this
size. -/
theorem C139_origin (order : List Part) (E : Env) (d : Disk S) (h : Left (dumpSteps order) E d) (n : Nat) :
    Origin d n := by
  refine left_keep (dump_own order) E n (fun d => Origin d n) ⟨.inl rfl, .inl rfl, .inl rfl⟩ (fun _ _ => SameKeys.origin)
    ?_ d h
  intro d coin hd
  refine visits_keep hd fun f hf d ho => ?_
  obtain ⟨q, -, hq⟩ := List.mem_flatMap.1 hf
  simp only [List.mem_cons, List.not_mem_nil, or_false] at hq
  have h1 := ccs_ne_pk (keyFile n) (keyFile n)
  have h2 := ccs_ne_vk (keyFile n) (keyFile n)
  have h3 := pk_ne_vk (keyFile n) (keyFile n)
  rcases hq with rfl | rfl <;> cases q <;> simp only [Part.name, Part.whole]
  · exact ⟨.inr (.inl (write_same ..)), by rw [write_ne _ _ h1.symm]; exact ho.pk, by rw [write_ne _ _ h2.symm]; exact ho.vk⟩
  · exact ⟨by rw [write_ne _ _ h1]; exact ho.ccs, .inr (.inl (write_same ..)), by rw [write_ne _ _ h3.symm]; exact ho.vk⟩
  · exact ⟨by rw [write_ne _ _ h2]; exact ho.ccs, by rw [write_ne _ _ h3]; exact ho.pk, .inr (.inl (write_same ..))⟩
  · exact ⟨.inr (.inr (write_same ..)), by rw [write_ne _ _ h1.symm]; exact ho.pk, by rw [write_ne _ _ h2.symm]; exact ho.vk⟩
  · exact ⟨by rw [write_ne _ _ h1]; exact ho.ccs, .inr (.inr ⟨coin, write_same ..⟩), by rw [write_ne _ _ h3.symm]; exact ho.vk⟩
  · exact ⟨by rw [write_ne _ _ h2]; exact ho.ccs, by rw [write_ne _ _ h3]; exact ho.pk, .inr (.inr ⟨coin, write_same ..⟩)⟩

/-! ## When the test passes -/

theorem test_on_keys {E : Env} (hC : Complete E S) (fuel : Nat) (G N accMid : Int) (coin coin' : S.Coin) (n : UInt32)
    (hn : n.toNat ≤ 2 ^ 31) (u : UpdateSet32) (hg : genTestSet E fuel n G N accMid = Run.ok u) (ho : NoOverflow E u)
    {d d' : Disk S} (he : ensureKeys E n coin d = .ok d') {c : S.Coin}
    (hk : KeyAt d' (keyFile n.toNat) (.multi n.toNat) c) :
    testMultiSwap E fuel G N accMid coin coin' n d = Run.ok (d', true) := by
  obtain ⟨-, hl, -, -, hs⟩ := C64_genTestSet_partial E fuel n G N accMid u hn hg
  obtain ⟨c1, h3, h4⟩ := hs ho
  obtain ⟨p, h5, h6⟩ := C85_prove_verify hC hl hk h3 h4 coin'
  exact (testMultiSwap_ok_iff ..).2 ⟨u, p, he, hg, h5, h6⟩

theorem test_on_good {E : Env} (hC : Complete E S) (fuel : Nat) (G N accMid : Int) (coin coin' : S.Coin) (n : UInt32)
    (hn : n.toNat ≤ 2 ^ 31) (u : UpdateSet32) (hg : genTestSet E fuel n G N accMid = Run.ok u) (ho : NoOverflow E u)
    (d : Disk S) (h : d (ccsName (keyFile n.toNat)) = none ∨ ∃ c, KeyAt d (keyFile n.toNat) (.multi n.toNat) c) :
    ∃ d', testMultiSwap E fuel G N accMid coin coin' n d = Run.ok (d', true) := by
  obtain ⟨h2, -⟩ := C64_genTestSet_partial E fuel n G N accMid u hn hg
  rcases h with h | ⟨c, hc⟩
  · refine ⟨_, test_on_keys hC fuel G N accMid coin coin' n hn u hg ho ?_ (setup_keyAt (.multi n.toNat) coin _ d)⟩
    rw [ensureKeys, isCircuitExist, h]
    exact (setupZkMultiswap_ok_iff ..).2 ⟨by omega, rfl⟩
  · refine ⟨d, test_on_keys hC fuel G N accMid coin coin' n hn u hg ho ?_ hc⟩
    rw [ensureKeys, isCircuitExist, hc.1]
    rfl

/-- The test passes exactly if the file that is looked for is missing, or all three files are there, filled, and come from
one setup. -/
theorem C139_passes_iff_partial {E : Env} (hC : Complete E S) (hB : Binding E S) (order : List Part) {d : Disk S}
    (hd : Left (dumpSteps order) E d) (fuel : Nat) (G N accMid : Int) (coin coin' : S.Coin) (n : UInt32)
    (hn : n.toNat ≤ 2 ^ 31) (u : UpdateSet32) (hg : genTestSet E fuel n G N accMid = Run.ok u) (ho : NoOverflow E u) :
    (∃ d', testMultiSwap E fuel G N accMid coin coin' n d = Run.ok (d', true)) ↔ ¬ Damaged d n.toNat := by
  obtain ⟨-, hl, -⟩ := C64_genTestSet_partial E fuel n G N accMid u hn hg
  constructor
  · rintro ⟨d', h⟩ ⟨hx, hno⟩
    obtain ⟨u', p, h1, h2, h3, h4⟩ := (testMultiSwap_ok_iff ..).1 h
    obtain rfl := run_ok_inj (h2.symm.trans hg)
    have hO := C139_origin order E d hd n.toNat
    have he : d' = d := by
      rw [ensureKeys, isCircuitExist, if_pos (Option.isSome_iff_ne_none.2 hx)] at h1
      exact (Except.ok.inj h1).symm
    subst he
    unfold prove at h3
    unfold verify loadVerifyingKey at h4
    simp only [hl] at h3
    rcases hO.pk with e | e | ⟨c, e⟩
    · simp [readPk, e] at h3
    · simp [readPk, e] at h3
    · rw [readPk_of e] at h3
      rcases hO.ccs with e1 | e1 | e1
      · exact hx e1
      · simp [readCcs, e1] at h3
      · rw [readCcs_of e1] at h3
        rcases hO.vk with e2 | e2 | ⟨c', e2⟩
        · simp [readVk, e2, goPanic] at h4
        · simp [readVk, e2, goPanic] at h4
        · rw [readVk_of e2] at h4
          cases ha : assignCircuit u' with
          | error m => simp only [ha] at h3; cases h3
          | ok a =>
            simp only [ha, except_bind_ok] at h3
            obtain ⟨-, rfl, -⟩ := hB _ _ _ _ _ _ _ _ (Except.ok.inj h3) (Except.ok.inj h4)
            exact hno _ ⟨e1, e, e2⟩
  · intro h
    refine test_on_good hC fuel G N accMid coin coin' n hn u hg ho d ?_
    by_contra hc
    rw [not_or, not_exists] at hc
    exact h hc

/-- A directory that is damaged for a size stays damaged, whatever tests of any size, setups of other sizes and Merkle tests
are run, to their end or not. -/
theorem C139_stays {σ : SetupProg S} (hσ : OwnFiles σ) (E : Env) (m : UInt32) (d d' : Disk S) (hd : Damaged d m.toNat)
    (h : Later σ E m d d') : Damaged d' m.toNat := by
  have vis : ∀ {d d' : Disk S} (n : UInt32) (coin : S.Coin), n ≠ m → Damaged d m.toNat →
      d' ∈ visits (σ (.multi n.toNat) coin (keyFile n.toNat)) d → Damaged d' m.toNat := by
    intro d d' n coin hnm hd hm
    refine (own_visits hσ _ _ _ m.toNat (fun e => hnm ?_) d d' hm).damaged hd
    exact UInt32.toNat_inj.1 (keyFile_inj.1 e).symm
  have setup : ∀ {d d' : Disk S} (n : UInt32) (coin : S.Coin), n ≠ m → Damaged d m.toNat →
      d' ∈ setupVisits σ E n coin d → Damaged d' m.toNat := by
    intro d d' n coin hnm hd hm
    rw [setupVisits, compile_eq] at hm
    split_ifs at hm
    · rw [List.mem_singleton.1 hm]; exact hd
    · exact vis n coin hnm hd hm
  have ensure : ∀ {d d' : Disk S} (n : UInt32) (coin : S.Coin), Damaged d m.toNat →
      d' ∈ ensureVisits σ E n coin d → Damaged d' m.toNat := by
    intro d d' n coin hd hm
    unfold ensureVisits at hm
    split_ifs at hm with hx
    · rw [List.mem_singleton.1 hm]; exact hd
    · refine setup n coin ?_ hd hm
      rintro rfl
      exact hx (Option.isSome_iff_ne_none.2 hd.1)
  induction h with
  | refl => exact hd
  | setup n coin hnm _ h ih => exact setup n coin hnm ih h
  | test n coin _ h ih => exact ensure n coin ih h
  | @output d1 d2 n coin _ h ih =>
    unfold outputVisits at h
    rcases List.mem_append.1 h with h | h
    · exact ensure n coin ih h
    · cases he : ensureEnd σ E n coin d1 with
      | error _ => rw [he] at h; cases h
      | ok d3 =>
        rw [he] at h
        have h1 := ensure n coin ih (ensureEnd_mem he)
        cases hk : loadVerifyingKey d3 (keyFile n.toNat) with
        | none => simp only [hk] at h; cases h
        | some vk =>
          simp only [hk] at h
          refine SameKeys.damaged (visits_keep (P := SameKeys m.toNat d3) (fun _ => rfl) (fun f hf d2 h2 => ?_) d2 h) h1
          simp only [List.mem_cons, List.not_mem_nil, or_false] at hf
          rcases hf with rfl | rfl <;> exact h2.write_other other_contract _
  | output2 n coin coin2 hnm _ h ih =>
    rw [output2Visits, compile_eq] at h
    split_ifs at h
    · rw [List.mem_singleton.1 h]; exact ih
    · rcases (visits_append _ _ _ _).1 h with h | h
      · exact vis n coin hnm ih h
      · exact (notus_visits _ _ m.toNat _ _ h).damaged (vis n coin hnm ih (after_mem _ _))
  | merkleSetup n coin _ h ih => exact (merkleSetup_same hσ E n coin m.toNat _ _ h).damaged ih
  | merkleTest n coin _ h ih => exact (merkleTest_same hσ E n coin m.toNat _ _ h).damaged ih

theorem left_later {σ : SetupProg S} {E : Env} {m : UInt32} {d d' : Disk S} (h : Left σ E d) (hl : Later σ E m d d') :
    Left σ E d' := by
  induction hl with
  | refl => exact h
  | setup n coin _ _ h ih => exact .setup n coin ih h
  | test n coin _ h ih => exact .test n coin ih h
  | output n coin _ h ih => exact .output n coin ih h
  | output2 n coin coin2 _ _ h ih => exact .output2 n coin coin2 ih h
  | merkleSetup n coin _ h ih => exact .merkleSetup n coin ih h
  | merkleTest n coin _ h ih => exact .merkleTest n coin ih h

/-- Once a directory is damaged for a size, `TestMultiSwap` of this size does not pass any more, whatever is run in
between other than a setup of this size. -/
theorem C139_never {E : Env} (hC : Complete E S) (hB : Binding E S) (order : List Part) {d d' : Disk S} (m : UInt32)
    (hd : Left (dumpSteps order) E d) (hx : Damaged d m.toNat) (h : Later (dumpSteps order) E m d d') (fuel : Nat)
    (G N accMid : Int) (coin coin' : S.Coin) (hm : m.toNat ≤ 2 ^ 31) (u : UpdateSet32)
    (hg : genTestSet E fuel m G N accMid = Run.ok u) (ho : NoOverflow E u) (d'' : Disk S) :
    testMultiSwap E fuel G N accMid coin coin' m d' ≠ Run.ok (d'', true) := fun ht =>
  (C139_passes_iff_partial hC hB order (left_later hd h) fuel G N accMid coin coin' m hm u hg ho).1 ⟨_, ht⟩
    (C139_stays (dump_own order) E m d d' hx h)

/-- A setup of the size repairs every directory. -/
theorem C139_healed {E : Env} (hC : Complete E S) (fuel : Nat) (G N accMid : Int) (c coin coin' : S.Coin) (n : UInt32)
    (hn : n.toNat ≤ 2 ^ 31) (u : UpdateSet32) (hg : genTestSet E fuel n G N accMid = Run.ok u) (ho : NoOverflow E u)
    (d : Disk S) : ∃ d', setupZkMultiswap E n c d = .ok d' ∧
      ∃ d'', testMultiSwap E fuel G N accMid coin coin' n d' = Run.ok (d'', true) := by
  obtain ⟨h2, -⟩ := C64_genTestSet_partial E fuel n G N accMid u hn hg
  exact ⟨_, (setupZkMultiswap_ok_iff ..).2 ⟨by omega, rfl⟩,
    test_on_good hC fuel G N accMid coin coin' n hn u hg ho _ (.inr ⟨c, setup_keyAt _ _ _ _⟩)⟩

/-! ## Damaged directories -/

theorem none_keyAt_of_cut {d : Disk S} {n : Nat} (h : d (ccsName (keyFile n)) = some .cut) : Damaged d n :=
  ⟨by rw [h]; exact Option.some_ne_none _, fun c hc => by
    have := h.symm.trans hc.1
    injection this with this
    cases this⟩

/-- For every order of the files and every size, the first `TestMultiSwap` in an empty directory, stopped at the right
moment, leaves a damaged directory. -/
theorem C139_any_order {order : List Part} (ho : WritesAll order) (E : Env) (n : UInt32) (hn : n.toNat ≠ 0)
    (coin : S.Coin) : ∃ d ∈ ensureVisits (dumpSteps order) E n coin (fun _ => none), Damaged d n.toNat := by
  have hc : ∃ d ∈ visits (dumpSteps order (.multi n.toNat) coin (keyFile n.toNat)) (fun _ => none : Disk S),
      d (ccsName (keyFile n.toNat)) = some .cut := by
    obtain ⟨a, b, rfl⟩ : ∃ a b, order = a ++ .ccs :: b :=
      List.append_of_mem ((List.Perm.mem_iff ho).2 (by simp))
    refine ⟨write (after (dumpSteps a (.multi n.toNat) coin (keyFile n.toNat)) (fun _ => none)) (ccsName (keyFile n.toNat))
      .cut, ?_, write_same ..⟩
    have e : dumpSteps (a ++ .ccs :: b) (.multi n.toNat) coin (keyFile n.toNat) =
        dumpSteps a (.multi n.toNat) coin (keyFile n.toNat) ++ ((fun d : Disk S => write d (ccsName (keyFile n.toNat)) .cut) ::
          (fun d => write d (ccsName (keyFile n.toNat)) (.ccs (.multi n.toNat))) ::
            dumpSteps b (.multi n.toNat) coin (keyFile n.toNat)) := by
      simp only [dumpSteps, List.flatMap_append, List.flatMap_cons, Part.name, Part.whole, List.cons_append, List.nil_append]
    rw [e, visits_append]
    right
    rw [visits_cons]
    exact List.mem_cons_of_mem _ (start_mem _ _)
  obtain ⟨d, h1, h2⟩ := hc
  refine ⟨d, ?_, none_keyAt_of_cut h2⟩
  rw [ensureVisits, isCircuitExist, if_neg (by simp), setupVisits, compile_eq, if_neg hn]
  exact h1

set_option linter.unusedSimpArgs false in
/-- For every order of the files, a second setup of the size that is stopped at the right moment leaves all three files
filled, with keys of two different setups: the test then returns and prints "Verification failed". -/
theorem C139_mixed {E : Env} (hI : IgnoresErrors S) (hB : Binding E S) {order : List Part} (ho : WritesAll order)
    (n : UInt32) (hn : n.toNat ≤ 2 ^ 31) (c1 c2 : S.Coin) (hc : c1 ≠ c2) (fuel : Nat) (G N accMid : Int)
    (coin coin' : S.Coin) (u : UpdateSet32) (hg : genTestSet E fuel n G N accMid = Run.ok u) :
    ∃ d1 ∈ ensureVisits (dumpSteps order) E n c1 (fun _ => none),
    ∃ d2 ∈ setupVisits (dumpSteps order) E n c2 d1,
      testMultiSwap E fuel G N accMid coin coin' n d2 = Run.ok (d2, false) := by
  obtain ⟨h2, hl, hv, -⟩ := C64_genTestSet_partial E fuel n G N accMid u hn hg
  have hn0 : n.toNat ≠ 0 := by omega
  have hd1 := setup_keyAt (.multi n.toNat) c1 (keyFile n.toNat) (fun _ => none : Disk S)
  refine ⟨setupWithDump (.multi n.toNat) c1 (keyFile n.toNat) (fun _ => none), ?_, ?_⟩
  · rw [ensureVisits, isCircuitExist, if_neg (by simp), setupVisits, compile_eq, if_neg hn0, ← C139_complete ho]
    exact after_mem _ _
  generalize setupWithDump (.multi n.toNat) c1 (keyFile n.toNat) (fun _ => none : Disk S) = d1 at hd1 ⊢
  have hmix : ∃ d2 ∈ visits (dumpSteps order (.multi n.toNat) c2 (keyFile n.toNat)) d1, ∃ a b, a ≠ b ∧
      d2 (ccsName (keyFile n.toNat)) = some (.ccs (.multi n.toNat)) ∧
      d2 (pkName (keyFile n.toNat)) = some (.pk (S.setup (.multi n.toNat) a).1) ∧
      d2 (vkName (keyFile n.toNat)) = some (.vk (S.setup (.multi n.toNat) b).2) := by
    obtain ⟨k1, k2, k3⟩ := hd1
    have e1 := ccs_ne_pk (keyFile n.toNat) (keyFile n.toNat)
    have e2 := ccs_ne_vk (keyFile n.toNat) (keyFile n.toNat)
    have e3 := pk_ne_vk (keyFile n.toNat) (keyFile n.toNat)
    have mem : ∀ (a b : List (Disk S → Disk S)), after a d1 ∈ visits (a ++ b) d1 := fun a b =>
      (visits_append a b d1 _).2 (.inl (after_mem a d1))
    have split : ∀ a b : List Part, dumpSteps (a ++ b) (.multi n.toNat) c2 (keyFile n.toNat) =
        dumpSteps a (.multi n.toNat) c2 (keyFile n.toNat) ++ dumpSteps (S := S) b (.multi n.toNat) c2 (keyFile n.toNat) := by
      intro a b
      simp only [dumpSteps, List.flatMap_append]
    rcases orders ho with rfl | rfl | rfl | rfl | rfl | rfl
    · refine ⟨_, by rw [show ([.ccs, .pk, .vk] : List Part) = [.ccs, .pk] ++ [.vk] from rfl, split]; exact mem _ _, c2, c1, hc.symm, ?_, ?_, ?_⟩ <;>
        simp [dumpSteps, after, Part.name, Part.whole, write, e1, e2, e3, e1.symm, e2.symm, e3.symm, k1, k2, k3]
    · refine ⟨_, by rw [show ([.pk, .ccs, .vk] : List Part) = [.pk] ++ [.ccs, .vk] from rfl, split]; exact mem _ _, c2, c1, hc.symm, ?_, ?_, ?_⟩ <;>
        simp [dumpSteps, after, Part.name, Part.whole, write, e1, e2, e3, e1.symm, e2.symm, e3.symm, k1, k2, k3]
    · refine ⟨_, by rw [show ([.pk, .vk, .ccs] : List Part) = [.pk] ++ [.vk, .ccs] from rfl, split]; exact mem _ _, c2, c1, hc.symm, ?_, ?_, ?_⟩ <;>
        simp [dumpSteps, after, Part.name, Part.whole, write, e1, e2, e3, e1.symm, e2.symm, e3.symm, k1, k2, k3]
    · refine ⟨_, by rw [show ([.ccs, .vk, .pk] : List Part) = [.ccs, .vk] ++ [.pk] from rfl, split]; exact mem _ _, c1, c2, hc, ?_, ?_, ?_⟩ <;>
        simp [dumpSteps, after, Part.name, Part.whole, write, e1, e2, e3, e1.symm, e2.symm, e3.symm, k1, k2, k3]
    · refine ⟨_, by rw [show ([.vk, .ccs, .pk] : List Part) = [.vk] ++ [.ccs, .pk] from rfl, split]; exact mem _ _, c1, c2, hc, ?_, ?_, ?_⟩ <;>
        simp [dumpSteps, after, Part.name, Part.whole, write, e1, e2, e3, e1.symm, e2.symm, e3.symm, k1, k2, k3]
    · refine ⟨_, by rw [show ([.vk, .pk, .ccs] : List Part) = [.vk] ++ [.pk, .ccs] from rfl, split]; exact mem _ _, c1, c2, hc, ?_, ?_, ?_⟩ <;>
        simp [dumpSteps, after, Part.name, Part.whole, write, e1, e2, e3, e1.symm, e2.symm, e3.symm, k1, k2, k3]
  obtain ⟨d2, hm, a, b, hab, j1, j2, j3⟩ := hmix
  refine ⟨d2, by rw [setupVisits, compile_eq, if_neg hn0]; exact hm, ?_⟩
  have ha := (C66_assignCircuit u).2 hv
  have hf := assign_fits ha
  rw [hl] at hf
  obtain ⟨p, hp⟩ := hI (.multi n.toNat) a _ coin' hf
  have he : ensureKeys E n coin d2 = .ok d2 := by
    rw [ensureKeys, isCircuitExist, j1]
    rfl
  have h3 : prove u coin' d2 = .ok (some p) := by
    unfold prove
    simp only [hl, readPk_of j2, readCcs_of j1, ha, except_bind_ok, hp]
  have h4 : verify p n u.publicPart d2 = .ok false := by
    unfold verify loadVerifyingKey
    rw [readVk_of j3]
    cases hb : S.verify (S.setup (.multi n.toNat) b).2 (genPublicWitness u.publicPart) p with
    | false => simp only [hb]
    | true => exact absurd (hB _ _ _ _ _ _ _ _ hp hb).2.1.symm hab
  exact (testMultiSwap_ok_iff ..).2 ⟨u, p, he, hg, h3, h4⟩

theorem all_parts : WritesAll [.ccs, .pk, .vk] := List.Perm.refl _

theorem C139_violated : ¬ C139_statement := by
  intro h
  obtain ⟨d, hd, hx⟩ := C139_any_order all_parts sumEnv 2 (by decide) (S := idealSnark sumEnv) (0 : Nat)
  have hl : Left (dumpSteps [.ccs, .pk, .vk]) sumEnv d := .test 2 (0 : Nat) .empty hd
  have hg := sumEnv_testSet 2 (by decide) 2 35 4
  have ho : NoOverflow sumEnv (testSet sumEnv (2 : UInt32).toNat 13 13) := by unfold NoOverflow; decide +kernel
  obtain ⟨d', ht⟩ := h sumEnv (idealSnark sumEnv) [.ccs, .pk, .vk] d 1 2 35 4 (1 : Nat) (2 : Nat) 2 _
    (idealSnark_complete _) all_parts hl (by decide) hg ho
  exact C139_never (idealSnark_complete _) (idealSnark_binding _) _ 2 hl hx .refl 1 2 35 4 (1 : Nat) (2 : Nat) (by decide) _
    hg ho d' ht

/-- A test of size 2 is stopped; afterwards tests of sizes 2 and 3 are run, and the one of size 2 never passes. -/
example : ∃ d : Disk (idealSnark sumEnv), Left (dumpSteps [.pk, .vk, .ccs]) sumEnv d ∧ Damaged d 2 ∧
    ∀ d1 ∈ ensureVisits (dumpSteps [.pk, .vk, .ccs]) sumEnv 3 (5 : Nat) d, ∀ (c c' : Nat) (d2 : Disk (idealSnark sumEnv)),
      testMultiSwap sumEnv 1 2 35 4 c c' 2 d1 ≠ Run.ok (d2, true) := by
  have hp : WritesAll [.pk, .vk, .ccs] := by unfold WritesAll; decide
  obtain ⟨d, hd, hx⟩ := C139_any_order hp sumEnv 2 (by decide) (S := idealSnark sumEnv) (0 : Nat)
  have hl : Left (dumpSteps [.pk, .vk, .ccs]) sumEnv d := .test 2 (0 : Nat) .empty hd
  refine ⟨d, hl, hx, fun d1 h1 c c' d2 => ?_⟩
  exact C139_never (idealSnark_complete _) (idealSnark_binding _) _ 2 hl hx (.test 3 (5 : Nat) .refl h1) 1 2 35 4 c c'
    (by decide) _ (sumEnv_testSet 2 (by decide) 2 35 4) (by unfold NoOverflow; decide +kernel) d2

/-- Two setups of size 2, the second one stopped: "Verification failed". -/
example : ∃ d2 : Disk (idealSnark sumEnv), Left (dumpSteps [.ccs, .vk, .pk]) sumEnv d2 ∧
    testMultiSwap sumEnv 1 2 35 4 (3 : Nat) (4 : Nat) 2 d2 = Run.ok (d2, false) := by
  have hp : WritesAll [.ccs, .vk, .pk] := by unfold WritesAll; decide
  obtain ⟨d1, h1, d2, h2, h3⟩ := C139_mixed (idealSnark_ignores sumEnv) (idealSnark_binding _) hp 2 (by decide) (0 : Nat)
    (1 : Nat) (show (0 : Nat) ≠ 1 by decide) 1 2 35 4 (3 : Nat) (4 : Nat) _ (sumEnv_testSet 2 (by decide) 2 35 4)
  exact ⟨d2, .setup 2 (1 : Nat) (.test 2 (0 : Nat) .empty h1) h2, h3⟩

/-! ## A setup that can be stopped -/

/-- With a setup that removes the file that is looked for and writes it last, in one step, the claim holds. -/
theorem C139_repaired {E : Env} (hC : Complete E S) {d : Disk S} (hd : Left repairedSteps E d) (fuel : Nat)
    (G N accMid : Int) (coin coin' : S.Coin) (n : UInt32) (hn : n.toNat ≤ 2 ^ 31) (u : UpdateSet32)
    (hg : genTestSet E fuel n G N accMid = Run.ok u) (ho : NoOverflow E u) :
    (∃ d', testMultiSwap E fuel G N accMid coin coin' n d = Run.ok (d', true)) ∧
      ensureEnd repairedSteps E n coin d = ensureKeys E n coin d := by
  refine ⟨test_on_good hC fuel G N accMid coin coin' n hn u hg ho d ?_, ensureEnd_eq repaired_complete E n coin d⟩
  refine left_keep repaired_own E n.toNat (fun d => d (ccsName (keyFile n.toNat)) = none ∨
    ∃ c, KeyAt d (keyFile n.toNat) (.multi n.toNat) c) (.inl rfl) ?_ ?_ d hd
  · intro d d' h hk
    have h1 : d' (ccsName _) = d (ccsName _) := h .ccs
    rw [h1]
    exact hk.imp id fun ⟨c, hc⟩ => ⟨c, (h.keyAt c).2 hc⟩
  · intro d c hk d' hm
    have h1 := ccs_ne_pk (keyFile n.toNat) (keyFile n.toNat)
    have h2 := ccs_ne_vk (keyFile n.toNat) (keyFile n.toNat)
    have hend := after_mem (repairedSteps (S := S) (.multi n.toNat) c (keyFile n.toNat)) d
    have hlast : KeyAt (after (repairedSteps (.multi n.toNat) c (keyFile n.toNat)) d) (keyFile n.toNat) (.multi n.toNat) c := by
      rw [repaired_complete]
      exact setup_keyAt _ _ _ _
    simp only [repairedSteps, visits_cons, visits_nil, List.mem_cons, List.not_mem_nil, or_false] at hm
    rcases hm with rfl | rfl | rfl | rfl | rfl | rfl | rfl
    · exact hk
    · exact .inl (by simp)
    · exact .inl (by simp [write, h1])
    · exact .inl (by simp [write, h1])
    · exact .inl (by simp [write, h1, h2])
    · exact .inl (by simp [write, h1, h2])
    · exact .inr ⟨c, hlast⟩

/-- Stopped at any of its steps, a first test with this setup leaves a directory in which the test passes. -/
example (d : Disk (idealSnark sumEnv)) (h : d ∈ ensureVisits repairedSteps sumEnv 2 (0 : Nat) (fun _ => none)) :
    ∃ d', testMultiSwap sumEnv 1 2 35 4 (1 : Nat) (2 : Nat) 2 d = Run.ok (d', true) :=
  (C139_repaired (idealSnark_complete _) (.test 2 (0 : Nat) .empty h) 1 2 35 4 (1 : Nat) (2 : Nat) 2 (by decide) _
    (sumEnv_testSet 2 (by decide) 2 35 4) (by unfold NoOverflow; decide +kernel)).1

end Verif.Props
