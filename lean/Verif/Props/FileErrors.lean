import Verif.Model.FileErrors
import Verif.Props.Interrupted

/-! # Properties C140 and C141: errors of the file system, and files that stay open -/

namespace Verif.Props
open Verif.Go Verif.Model Verif.Lemmas Verif.Spec Verif.Model.SnarkFlow Verif.Lemmas.SnarkFlow

variable {S : Snark}

/-- C140: whatever file operations fail, a function that returns without an error has the result and leaves the directory of a run
without failures. The directory before the run was made by runs without failures. -/
def C140_statement : Prop :=
  ∀ (S : Snark) (E : Env) (bad : Nat → Bool) (order : List Part) (s s' : FState S), WritesAll order → Reach E s.disk →
    (∀ fuel G N accMid coin coin' n b, testMultiSwapF bad order E fuel G N accMid coin coin' n s = Run.ok (b, s') →
      testMultiSwap E fuel G N accMid coin coin' n s.disk = Run.ok (s'.disk, b)) ∧
    (∀ coin n, outputContractF bad order E coin n s = Run.ok ((), s') → outputContract E coin n s.disk = .ok s'.disk) ∧
    (∀ fuel G N accMid coin coin2 coin' n o, o ≠ .err →
      outputContract2F bad order E fuel G N accMid coin coin2 coin' n s = Run.ok (o, s') →
      outputContract2 E fuel G N accMid coin coin2 coin' n s.disk = Run.ok (s'.disk, o)) ∧
    (∀ coin coin' n b, testMerkleMultiSwapF bad order E coin coin' n s = Run.ok (b, s') →
      testMerkleMultiSwap E coin coin' n s.disk = .ok (s'.disk, b)) ∧
    ∀ coin junk, generateGroth16F bad order E coin junk s = Run.ok (true, s') →
      generateGroth16 E coin s.disk = some s'.disk

/-- C141: a function that returns has closed the files it opened. -/
def C141_statement : Prop :=
  ∀ (S : Snark) (E : Env) (bad : Nat → Bool) (order : List Part) (s s' : FState S), WritesAll order → Reach E s.disk →
    (∀ fuel G N accMid coin coin' n b, testMultiSwapF bad order E fuel G N accMid coin coin' n s = Run.ok (b, s') →
      s'.opened = s.opened) ∧
    (∀ path r, loadVerifyingKeyF bad path s = Run.ok (r, s') → s'.opened = s.opened) ∧
    (∀ coin n, outputContractF bad order E coin n s = Run.ok ((), s') → s'.opened = s.opened) ∧
    (∀ fuel G N accMid coin coin2 coin' n o,
      outputContract2F bad order E fuel G N accMid coin coin2 coin' n s = Run.ok (o, s') → s'.opened = s.opened) ∧
    (∀ coin coin' n b, testMerkleMultiSwapF bad order E coin coin' n s = Run.ok (b, s') → s'.opened = s.opened) ∧
    ∀ coin junk b, generateGroth16F bad order E coin junk s = Run.ok (b, s') → s'.opened = s.opened

/-! ## Programs with files -/

theorem fm_bind_ok_iff {α β : Type} (x : FM S α) (f : α → FM S β) (s : FState S) (r : β × FState S) :
    (x >>= f) s = Run.ok r ↔ ∃ a s1, x s = Run.ok (a, s1) ∧ f a s1 = Run.ok r := by
  show (x s >>= fun p => f p.1 p.2) = Run.ok r ↔ _
  rw [run_bind_ok_iff]
  exact ⟨fun ⟨⟨a, s1⟩, h1, h2⟩ => ⟨a, s1, h1, h2⟩, fun ⟨a, s1, h1, h2⟩ => ⟨(a, s1), h1, h2⟩⟩

theorem fm_pure_ok {α : Type} {a b : α} {s s' : FState S} (h : (pure a : FM S α) s = Run.ok (b, s')) : a = b ∧ s = s' :=
  Prod.mk.inj (run_ok_inj h)

theorem noFiles_ok_iff {α : Type} (r : Run α) (s s' : FState S) (a : α) :
    noFiles r s = Run.ok (a, s') ↔ r = Run.ok a ∧ s' = s := by
  unfold noFiles
  rw [run_bind_ok_iff]
  constructor
  · rintro ⟨b, h1, h2⟩
    obtain ⟨rfl, rfl⟩ := Prod.mk.inj (run_ok_inj h2)
    exact ⟨h1, rfl⟩
  · rintro ⟨h, rfl⟩
    exact ⟨a, h, rfl⟩

theorem panic_not_ok {α : Type} {msg : String} {s s' : FState S} {a : α} :
    ¬ noFiles (liftRes (goPanic msg)) s = Run.ok (a, s') := by
  rw [noFiles_ok_iff, liftRes_ok_iff]
  rintro ⟨h, -⟩
  cases h

/-- The first operation is known. -/
theorem fm_bind_run {α β : Type} {x : FM S α} {f : α → FM S β} {s s1 : FState S} {a : α} (h : x s = Run.ok (a, s1)) :
    (x >>= f) s = f a s1 := by
  show (x s >>= fun p => f p.1 p.2) = _
  rw [h]
  rfl

/-- The same files, open or not; only the number of operations differs. -/
def SameFiles (s s' : FState S) : Prop := s'.disk = s.disk ∧ s'.opened = s.opened

theorem SameFiles.trans {s s1 s2 : FState S} (h : SameFiles s s1) (h' : SameFiles s1 s2) : SameFiles s s2 :=
  ⟨h'.1.trans h.1, h'.2.trans h.2⟩

theorem sameFiles_next (s : FState S) : SameFiles s s.next := ⟨rfl, rfl⟩

/-! ## The library -/

theorem libRead_ok {α : Type} {bad : Nat → Bool} {read : Disk S → Bytes → Option α} {name : Bytes} {s s' : FState S}
    {r : Option α} (h : libRead bad read name s = Run.ok (r, s')) :
    SameFiles s s' ∧ ∀ v, r = some v → read s.disk name = some v := by
  obtain ⟨rfl, rfl⟩ := Prod.mk.inj (run_ok_inj h)
  refine ⟨sameFiles_next s, fun v hv => ?_⟩
  split at hv
  · cases hv
  · exact hv

theorem libTouch_ok {bad : Nat → Bool} {s s' : FState S} {b : Bool} (h : libTouch bad s = Run.ok (b, s')) :
    SameFiles s s' := by
  obtain ⟨-, rfl⟩ := Prod.mk.inj (run_ok_inj h)
  exact sameFiles_next s

theorem libCreate_ok {bad : Nat → Bool} {name : Bytes} {s s' : FState S} {b : Bool}
    (h : libCreate bad name s = Run.ok (b, s')) :
    s'.opened = s.opened ∧ (b = true → s'.disk = write s.disk name .cut) := by
  unfold libCreate at h
  split at h
  · obtain ⟨rfl, rfl⟩ := Prod.mk.inj (run_ok_inj h)
    exact ⟨rfl, fun h => by cases h⟩
  · obtain ⟨rfl, rfl⟩ := Prod.mk.inj (run_ok_inj h)
    exact ⟨rfl, fun _ => rfl⟩

theorem fillFile_ok {bad : Nat → Bool} {name : Bytes} {c : File S} {s s' : FState S} {b : Bool}
    (h : fillFile bad name c s = Run.ok (b, s')) :
    s'.opened = s.opened ∧ (b = true → s'.disk = write s.disk name c) := by
  unfold fillFile at h
  split at h
  · obtain ⟨rfl, rfl⟩ := Prod.mk.inj (run_ok_inj h)
    exact ⟨rfl, fun h => by cases h⟩
  · obtain ⟨rfl, rfl⟩ := Prod.mk.inj (run_ok_inj h)
    exact ⟨rfl, fun _ => rfl⟩

theorem dumpF_ok {bad : Nat → Bool} {sys : System} {coin : S.Coin} {base : Bytes} {order : List Part} {s s' : FState S}
    {b : Bool} (h : dumpF bad sys coin base order s = Run.ok (b, s')) :
    s'.opened = s.opened ∧ (b = true → s'.disk = after (dumpSteps order sys coin base) s.disk) := by
  induction order generalizing s with
  | nil =>
    obtain ⟨rfl, rfl⟩ := fm_pure_ok h
    exact ⟨rfl, fun _ => rfl⟩
  | cons p ps ih =>
    unfold dumpF at h
    rw [fm_bind_ok_iff] at h; obtain ⟨b1, s1, h1, h⟩ := h
    obtain ⟨o1, d1⟩ := libCreate_ok h1
    cases b1 with
    | false =>
      obtain ⟨rfl, rfl⟩ := fm_pure_ok h
      exact ⟨o1, fun h => by cases h⟩
    | true =>
      rw [if_pos rfl, fm_bind_ok_iff] at h; obtain ⟨b2, s2, h2, h⟩ := h
      obtain ⟨o2, d2⟩ := fillFile_ok h2
      cases b2 with
      | false =>
        obtain ⟨rfl, rfl⟩ := fm_pure_ok h
        exact ⟨o2.trans o1, fun h => by cases h⟩
      | true =>
        obtain ⟨o3, d3⟩ := ih h
        refine ⟨o3.trans (o2.trans o1), fun hb => ?_⟩
        rw [d3 hb, d2 rfl, d1 rfl]
        rfl

/-! ## The functions -/

/-- `LoadVerifyingKey` closes the file exactly if it could open it and read a key, or could not open it. -/
theorem loadF_ok {bad : Nat → Bool} {path : Bytes} {s s' : FState S} {r : Option S.VK}
    (h : loadVerifyingKeyF bad path s = Run.ok (r, s')) :
    s'.disk = s.disk ∧ (∀ k, r = some k → loadVerifyingKey s.disk path = some k ∧ s'.opened = s.opened) ∧
      (s'.opened = s.opened ∨ r = none ∧ s'.opened = vkName path :: s.opened) := by
  unfold loadVerifyingKeyF at h
  rw [fm_bind_ok_iff] at h; obtain ⟨f, s1, h1, h⟩ := h
  rw [fm_bind_ok_iff] at h; obtain ⟨k, s2, h2, h⟩ := h
  unfold osOpen at h1
  split at h1
  · obtain ⟨rfl, rfl⟩ := Prod.mk.inj (run_ok_inj h1)
    obtain ⟨rfl, rfl⟩ := Prod.mk.inj (run_ok_inj h2)
    obtain ⟨rfl, rfl⟩ := fm_pure_ok h
    exact ⟨rfl, (fun k hk => by cases hk), .inl rfl⟩
  · obtain ⟨rfl, rfl⟩ := Prod.mk.inj (run_ok_inj h1)
    obtain ⟨hk, rfl⟩ := Prod.mk.inj (run_ok_inj h2)
    cases k with
    | none =>
      obtain ⟨rfl, rfl⟩ := fm_pure_ok h
      exact ⟨rfl, (fun k hk => by cases hk), .inr ⟨rfl, rfl⟩⟩
    | some k =>
      rw [fm_bind_ok_iff] at h; obtain ⟨b, s3, h3, h⟩ := h
      obtain ⟨-, rfl⟩ := Prod.mk.inj (run_ok_inj h3)
      have hrd : loadVerifyingKey s.disk path = some k := by
        split at hk
        · cases hk
        · exact hk
      have ho : (vkName path :: s.opened).erase (vkName path) = s.opened := List.erase_cons_head ..
      cases b with
      | true =>
        obtain ⟨rfl, rfl⟩ := fm_pure_ok h
        exact ⟨rfl, fun k hk => ⟨by rw [hrd, hk], ho⟩, .inl ho⟩
      | false =>
        obtain ⟨rfl, rfl⟩ := fm_pure_ok h
        exact ⟨rfl, (fun k hk => by cases hk), .inl ho⟩

theorem setupF_ok {bad : Nat → Bool} {order : List Part} (ho : WritesAll order) {E : Env} {n : UInt32} {coin : S.Coin}
    {s s' : FState S} (h : setupZkMultiswapF bad order E n coin s = Run.ok ((), s')) :
    s'.opened = s.opened ∧ setupZkMultiswap E n coin s.disk = .ok s'.disk := by
  unfold setupZkMultiswapF at h
  unfold setupZkMultiswap
  cases hc : compile E n with
  | none => rw [hc] at h; exact absurd h panic_not_ok
  | some sys =>
    rw [hc] at h
    rw [fm_bind_ok_iff] at h; obtain ⟨b, s1, h1, h⟩ := h
    obtain ⟨o1, d1⟩ := dumpF_ok h1
    cases b with
    | false => exact absurd h panic_not_ok
    | true =>
      obtain ⟨-, rfl⟩ := fm_pure_ok h
      exact ⟨o1, by rw [d1 rfl, C139_complete ho]⟩

theorem existF_ok {bad : Nat → Bool} {base : Bytes} {s s' : FState S} {b : Bool}
    (h : isCircuitExistF bad base s = Run.ok (b, s')) :
    SameFiles s s' ∧ (b = false → (s.disk (ccsName base)).isSome = false) := by
  unfold isCircuitExistF at h
  rw [fm_bind_ok_iff] at h; obtain ⟨r, s1, h1, h⟩ := h
  obtain ⟨hr, rfl⟩ := Prod.mk.inj (run_ok_inj h1)
  cases r with
  | found =>
    obtain ⟨rfl, rfl⟩ := fm_pure_ok h
    exact ⟨sameFiles_next s, fun h => by cases h⟩
  | other =>
    obtain ⟨rfl, rfl⟩ := fm_pure_ok h
    exact ⟨sameFiles_next s, fun h => by cases h⟩
  | missing =>
    obtain ⟨rfl, rfl⟩ := fm_pure_ok h
    refine ⟨sameFiles_next s, fun _ => ?_⟩
    by_contra hne
    rw [Bool.not_eq_false] at hne
    rw [if_pos hne] at hr
    split at hr <;> cases hr

theorem ensureF_ok {bad : Nat → Bool} {order : List Part} (ho : WritesAll order) {E : Env} {n : UInt32} {coin : S.Coin}
    {s s' : FState S} (h : ensureKeysF bad order E n coin s = Run.ok ((), s')) :
    s'.opened = s.opened ∧ (ensureKeys E n coin s.disk = .ok s'.disk ∨
      s'.disk = s.disk ∧ (s.disk (ccsName (keyFile n.toNat))).isSome = false) := by
  unfold ensureKeysF at h
  rw [fm_bind_ok_iff] at h; obtain ⟨b, s1, h1, h⟩ := h
  obtain ⟨⟨d1, o1⟩, e1⟩ := existF_ok h1
  unfold ensureKeys isCircuitExist
  cases b with
  | true =>
    obtain ⟨-, rfl⟩ := fm_pure_ok h
    refine ⟨o1, ?_⟩
    split
    · exact .inl (by rw [d1])
    · rename_i hn
      exact .inr ⟨d1, by simpa using hn⟩
  | false =>
    obtain ⟨o2, h2⟩ := setupF_ok ho h
    rw [if_neg (by rw [e1 rfl]; exact Bool.false_ne_true), ← d1]
    exact ⟨o2.trans o1, .inl h2⟩

theorem proveF_ok {bad : Nat → Bool} {u : UpdateSet32} {coin : S.Coin} {s s' : FState S} {r : Option S.Proof}
    (h : proveF bad u coin s = Run.ok (r, s')) :
    SameFiles s s' ∧ ∀ p, r = some p → prove u coin s.disk = .ok (some p) ∧
      ∃ sys, s.disk (ccsName (keyFile u.userID.length)) = some (.ccs sys) := by
  unfold proveF at h
  rw [fm_bind_ok_iff] at h; obtain ⟨pk, s1, h1, h⟩ := h
  obtain ⟨f1, r1⟩ := libRead_ok h1
  cases pk with
  | none =>
    obtain ⟨rfl, rfl⟩ := fm_pure_ok h
    exact ⟨f1, fun p hp => by cases hp⟩
  | some pk =>
    rw [fm_bind_ok_iff] at h; obtain ⟨ccs, s2, h2, h⟩ := h
    obtain ⟨f2, r2⟩ := libRead_ok h2
    cases ccs with
    | none =>
      obtain ⟨rfl, rfl⟩ := fm_pure_ok h
      exact ⟨f1.trans f2, fun p hp => by cases hp⟩
    | some r1cs =>
      rw [fm_bind_ok_iff] at h; obtain ⟨a, s3, h3, h⟩ := h
      rw [noFiles_ok_iff] at h3; obtain ⟨h3, rfl⟩ := h3
      rw [fm_bind_ok_iff] at h; obtain ⟨b, s4, h4, h⟩ := h
      have f4 := libTouch_ok h4
      cases b with
      | false =>
        obtain ⟨rfl, rfl⟩ := fm_pure_ok h
        exact ⟨(f1.trans f2).trans f4, fun p hp => by cases hp⟩
      | true =>
        obtain ⟨rfl, rfl⟩ := fm_pure_ok h
        refine ⟨(f1.trans f2).trans f4, fun p hp => ?_⟩
        have e1 := r1 pk rfl
        have e2 := r2 r1cs rfl
        rw [f1.1] at e2
        constructor
        · unfold prove
          simp only [e1, e2, (liftRes_ok_iff _ _).1 h3, except_bind_ok, hp]
        · unfold readCcs at e2
          split at e2
          · rename_i sys he
            exact ⟨sys, he⟩
          · cases e2

theorem verifyF_ok {bad : Nat → Bool} {p : S.Proof} {n : UInt32} {i : PublicInfo} {s s' : FState S} {b : Bool}
    (h : verifyF bad p n i s = Run.ok (b, s')) : SameFiles s s' ∧ verify p n i s.disk = .ok b := by
  unfold verifyF at h
  rw [fm_bind_ok_iff] at h; obtain ⟨k, s1, h1, h⟩ := h
  obtain ⟨d1, r1, -⟩ := loadF_ok h1
  cases k with
  | none => exact absurd h panic_not_ok
  | some vk =>
    obtain ⟨rfl, rfl⟩ := fm_pure_ok h
    obtain ⟨e1, o1⟩ := r1 vk rfl
    exact ⟨⟨d1, o1⟩, by unfold verify; rw [e1]⟩

theorem testSet_size {E : Env} {fuel : Nat} {n : UInt32} {G N accMid : Int} {u : UpdateSet32}
    (h : genTestSet E fuel n G N accMid = Run.ok u) : u.userID.length = n.toNat := by
  obtain ⟨L1, L2, -, -, -, -, -, rfl⟩ := (genTestSet_ok_iff E fuel n G N accMid u).1 h
  exact (List.length_map _).trans List.length_range

theorem testF_ok {bad : Nat → Bool} {order : List Part} (ho : WritesAll order) {E : Env} {fuel : Nat} {G N accMid : Int}
    {coin coin' : S.Coin} {n : UInt32} {s s' : FState S} {b : Bool}
    (h : testMultiSwapF bad order E fuel G N accMid coin coin' n s = Run.ok (b, s')) :
    s'.opened = s.opened ∧ testMultiSwap E fuel G N accMid coin coin' n s.disk = Run.ok (s'.disk, b) := by
  unfold testMultiSwapF at h
  rw [fm_bind_ok_iff] at h; obtain ⟨⟨⟩, s1, h1, h⟩ := h
  rw [fm_bind_ok_iff] at h; obtain ⟨u, s2, h2, h⟩ := h
  rw [noFiles_ok_iff] at h2; obtain ⟨h2, rfl⟩ := h2
  rw [fm_bind_ok_iff] at h; obtain ⟨r, s3, h3, h⟩ := h
  obtain ⟨o1, k1⟩ := ensureF_ok ho h1
  obtain ⟨f3, r3⟩ := proveF_ok h3
  cases r with
  | none => exact absurd h panic_not_ok
  | some p =>
    obtain ⟨f4, v4⟩ := verifyF_ok h
    obtain ⟨hp, sys, hc⟩ := r3 p rfl
    rw [testSet_size h2] at hc
    refine ⟨f4.2.trans (f3.2.trans o1), ?_⟩
    rcases k1 with k1 | ⟨k1, k2⟩
    · rw [testMultiSwap_ok_iff, f4.1, f3.1]
      rw [f3.1] at v4
      exact ⟨u, p, k1, h2, hp, v4⟩
    · rw [k1] at hc
      rw [hc] at k2
      cases k2

theorem createAndFill_ok {bad : Nat → Bool} {name : Bytes} {c : File S} {s s' : FState S} {b : Bool}
    (h : createAndFill bad name c s = Run.ok (b, s')) :
    (s'.opened = s.opened ∧ b = false ∨ s'.opened = name :: s.opened) ∧ (b = true → s'.disk = write s.disk name c) := by
  unfold createAndFill at h
  rw [fm_bind_ok_iff] at h; obtain ⟨f, s1, h1, h⟩ := h
  unfold osCreate at h1
  split at h1
  · obtain ⟨rfl, rfl⟩ := Prod.mk.inj (run_ok_inj h1)
    obtain ⟨rfl, rfl⟩ := fm_pure_ok h
    exact ⟨.inl ⟨rfl, rfl⟩, fun h => by cases h⟩
  · obtain ⟨rfl, rfl⟩ := Prod.mk.inj (run_ok_inj h1)
    obtain ⟨o2, d2⟩ := fillFile_ok h
    refine ⟨.inr o2, fun hb => ?_⟩
    rw [d2 hb]
    exact write_twice _ _ _ _

theorem outputF_ok {bad : Nat → Bool} {order : List Part} (ho : WritesAll order) {E : Env} {coin : S.Coin} {n : UInt32}
    {s s' : FState S} (h : outputContractF bad order E coin n s = Run.ok ((), s')) :
    s'.opened = ascii "contract_g16.sol" :: s.opened ∧ (outputContract E coin n s.disk = .ok s'.disk ∨
      (s.disk (ccsName (keyFile n.toNat))).isSome = false ∧ ∃ vk, loadVerifyingKey s.disk (keyFile n.toNat) = some vk ∧
        s'.disk = write s.disk (ascii "contract_g16.sol") (.sol vk)) := by
  unfold outputContractF at h
  rw [fm_bind_ok_iff] at h; obtain ⟨⟨⟩, s1, h1, h⟩ := h
  rw [fm_bind_ok_iff] at h; obtain ⟨k, s2, h2, h⟩ := h
  obtain ⟨o1, k1⟩ := ensureF_ok ho h1
  obtain ⟨d2, r2, -⟩ := loadF_ok h2
  cases k with
  | none => exact absurd h panic_not_ok
  | some vk =>
    obtain ⟨e2, o2⟩ := r2 vk rfl
    rw [fm_bind_ok_iff] at h; obtain ⟨f, s3, h3, h⟩ := h
    unfold osCreate at h3
    split at h3
    · obtain ⟨rfl, rfl⟩ := Prod.mk.inj (run_ok_inj h3)
      exact absurd h panic_not_ok
    · obtain ⟨rfl, rfl⟩ := Prod.mk.inj (run_ok_inj h3)
      rw [fm_bind_ok_iff] at h; obtain ⟨b, s4, h4, h⟩ := h
      obtain ⟨o4, d4⟩ := fillFile_ok h4
      cases b with
      | false => exact absurd h panic_not_ok
      | true =>
        obtain ⟨-, rfl⟩ := fm_pure_ok h
        have hd : s4.disk = write s1.disk (ascii "contract_g16.sol") (.sol vk) := by
          rw [d4 rfl, ← d2]
          exact write_twice _ _ _ _
        refine ⟨by rw [o4, ← o1, ← o2], ?_⟩
        rcases k1 with k1 | ⟨k1, k2⟩
        · exact .inl ((outputContract_ok_iff ..).2 ⟨s1.disk, vk, k1, e2, hd⟩)
        · rw [k1] at hd e2
          exact .inr ⟨k2, vk, e2, hd⟩

theorem generateF_ok {bad : Nat → Bool} {order : List Part} (ho : WritesAll order) {E : Env} {coin : S.Coin}
    {junk : Option S.VK} {s s' : FState S} {b : Bool} (h : generateGroth16F bad order E coin junk s = Run.ok (b, s')) :
    (s'.opened = s.opened ∧ b = false ∨ s'.opened = ascii "Notuscontract_g16.sol" :: s.opened) ∧
    (b = true → generateGroth16 E coin s.disk = some s'.disk ∨ ∃ vk, junk = some vk ∧
      s'.disk = write (setupWithDump (.multi 5) coin keyPathPrefix s.disk) (ascii "Notuscontract_g16.sol") (.sol vk)) := by
  unfold generateGroth16F at h
  unfold generateGroth16
  have h5 : compile E 5 = some (.multi 5) := compile_eq E 5
  rw [h5] at h ⊢
  dsimp only at h ⊢
  rw [fm_bind_ok_iff] at h; obtain ⟨b1, s1, h1, h⟩ := h
  obtain ⟨o1, d1⟩ := dumpF_ok h1
  cases b1 with
  | false =>
    obtain ⟨rfl, rfl⟩ := fm_pure_ok h
    exact ⟨.inl ⟨o1, rfl⟩, fun h => by cases h⟩
  | true =>
    have hd1 : s1.disk = setupWithDump (.multi 5) coin keyPathPrefix s.disk := by rw [d1 rfl, C139_complete ho]
    rw [if_pos rfl, fm_bind_ok_iff] at h; obtain ⟨f, s2, h2, h⟩ := h
    rw [fm_bind_ok_iff] at h; obtain ⟨key, s3, h3, h⟩ := h
    rw [fm_bind_ok_iff] at h; obtain ⟨c, s4, h4, h⟩ := h
    have hk : s4.disk = s1.disk ∧ s4.opened = s1.opened ∧ ∀ k, key = some k → readVk s1.disk (vkName keyPathPrefix) = some k := by
      unfold osOpen at h2
      split at h2
      · obtain ⟨rfl, rfl⟩ := Prod.mk.inj (run_ok_inj h2)
        obtain ⟨rfl, rfl⟩ := Prod.mk.inj (run_ok_inj h3)
        obtain ⟨-, rfl⟩ := Prod.mk.inj (run_ok_inj h4)
        exact ⟨rfl, rfl, fun k hk => by cases hk⟩
      · obtain ⟨rfl, rfl⟩ := Prod.mk.inj (run_ok_inj h2)
        obtain ⟨hk, rfl⟩ := Prod.mk.inj (run_ok_inj h3)
        obtain ⟨-, rfl⟩ := Prod.mk.inj (run_ok_inj h4)
        have ho : (vkName keyPathPrefix :: s1.opened).erase (vkName keyPathPrefix) = s1.opened := List.erase_cons_head ..
        refine ⟨rfl, ho, fun k e => ?_⟩
        rw [← hk] at e
        split at e
        · cases e
        · exact e
    obtain ⟨d4, o4, k4⟩ := hk
    rw [fm_bind_ok_iff] at h; obtain ⟨g, s5, h5, h⟩ := h
    unfold osCreate at h5
    split at h5
    · obtain ⟨rfl, rfl⟩ := Prod.mk.inj (run_ok_inj h5)
      obtain ⟨rfl, rfl⟩ := fm_pure_ok h
      exact ⟨.inl ⟨o4.trans o1, rfl⟩, fun h => by cases h⟩
    · obtain ⟨rfl, rfl⟩ := Prod.mk.inj (run_ok_inj h5)
      dsimp only at h
      cases hkj : (key <|> junk) with
      | none =>
        rw [hkj] at h
        obtain ⟨rfl, rfl⟩ := fm_pure_ok h
        exact ⟨.inr (by rw [← o1, ← o4]), fun h => by cases h⟩
      | some vk =>
        rw [hkj] at h
        obtain ⟨o6, d6⟩ := fillFile_ok h
        refine ⟨.inr (by rw [o6, ← o1, ← o4]), fun hb => ?_⟩
        have hd : s'.disk = write (setupWithDump (.multi 5) coin keyPathPrefix s.disk) (ascii "Notuscontract_g16.sol") (.sol vk) := by
          rw [d6 hb, ← hd1, ← d4]
          exact write_twice _ _ _ _
        cases key with
        | none => exact .inr ⟨vk, hkj, hd⟩
        | some k =>
          have e : k = vk := Option.some.inj hkj
          subst e
          have e4 := k4 k rfl
          rw [hd1] at e4
          rw [e4]
          exact .inl (by rw [hd])

/-- The three files are created in this order; after an error the later ones are missing. -/
theorem output2F_ok {bad : Nat → Bool} {order : List Part} (ho : WritesAll order) {E : Env} {fuel : Nat} {G N accMid : Int}
    {coin coin2 coin' : S.Coin} {n : UInt32} {s s' : FState S} {o : Outcome S}
    (h : outputContract2F bad order E fuel G N accMid coin coin2 coin' n s = Run.ok (o, s')) :
    (o = .err ∧ s'.opened <:+ [ascii "Notuscontract_g16.sol", ascii "Notus.g16.pk", ascii "Notus.g16.vk"] ++ s.opened ∨
      s'.opened = [ascii "Notuscontract_g16.sol", ascii "Notus.g16.pk", ascii "Notus.g16.vk"] ++ s.opened) ∧
    (o ≠ .err → outputContract2 E fuel G N accMid coin coin2 coin' n s.disk = Run.ok (s'.disk, o) ∧
      s'.opened = [ascii "Notuscontract_g16.sol", ascii "Notus.g16.pk", ascii "Notus.g16.vk"] ++ s.opened) := by
  unfold outputContract2F at h
  have hs0 : s.opened <:+ [ascii "Notuscontract_g16.sol", ascii "Notus.g16.pk", ascii "Notus.g16.vk"] ++ s.opened := ⟨_, rfl⟩
  have hs1 : ascii "Notus.g16.vk" :: s.opened <:+
      [ascii "Notuscontract_g16.sol", ascii "Notus.g16.pk", ascii "Notus.g16.vk"] ++ s.opened :=
    ⟨[ascii "Notuscontract_g16.sol", ascii "Notus.g16.pk"], rfl⟩
  have hs2 : ascii "Notus.g16.pk" :: ascii "Notus.g16.vk" :: s.opened <:+
      [ascii "Notuscontract_g16.sol", ascii "Notus.g16.pk", ascii "Notus.g16.vk"] ++ s.opened :=
    ⟨[ascii "Notuscontract_g16.sol"], rfl⟩
  rw [compile_eq] at h
  by_cases hn : n.toNat = 0
  · rw [if_pos hn] at h
    obtain ⟨rfl, rfl⟩ := fm_pure_ok h
    exact ⟨.inl ⟨rfl, hs0⟩, fun h => absurd rfl h⟩
  · rw [if_neg hn] at h
    dsimp only at h
    rw [fm_bind_ok_iff] at h; obtain ⟨⟨⟩, s1, h1, h⟩ := h
    obtain ⟨o1, d1⟩ := setupF_ok ho h1
    have d1 := ((setupZkMultiswap_ok_iff ..).1 d1).2
    rw [fm_bind_ok_iff] at h; obtain ⟨b2, s2, h2, h⟩ := h
    obtain ⟨o2, d2⟩ := createAndFill_ok h2
    cases b2 with
    | false =>
      obtain ⟨rfl, rfl⟩ := fm_pure_ok h
      refine ⟨.inl ⟨rfl, ?_⟩, fun h => absurd rfl h⟩
      rcases o2 with ⟨o2, -⟩ | o2
      · rw [o2, o1]; exact hs0
      · rw [o2, o1]; exact hs1
    | true =>
      have o2 : s2.opened = ascii "Notus.g16.vk" :: s.opened := by
        rcases o2 with ⟨-, e⟩ | o2
        · cases e
        · rw [o2, o1]
      rw [if_pos rfl, fm_bind_ok_iff] at h; obtain ⟨b3, s3, h3, h⟩ := h
      obtain ⟨o3, d3⟩ := createAndFill_ok h3
      cases b3 with
      | false =>
        obtain ⟨rfl, rfl⟩ := fm_pure_ok h
        refine ⟨.inl ⟨rfl, ?_⟩, fun h => absurd rfl h⟩
        rcases o3 with ⟨o3, -⟩ | o3
        · rw [o3, o2]; exact hs1
        · rw [o3, o2]; exact hs2
      | true =>
        have o3 : s3.opened = ascii "Notus.g16.pk" :: ascii "Notus.g16.vk" :: s.opened := by
          rcases o3 with ⟨-, e⟩ | o3
          · cases e
          · rw [o3, o2]
        rw [if_pos rfl, fm_bind_ok_iff] at h; obtain ⟨b4, s4, h4, h⟩ := h
        obtain ⟨o4, d4⟩ := createAndFill_ok h4
        cases b4 with
        | false =>
          obtain ⟨rfl, rfl⟩ := fm_pure_ok h
          refine ⟨.inl ⟨rfl, ?_⟩, fun h => absurd rfl h⟩
          rcases o4 with ⟨o4, -⟩ | o4
          · rw [o4, o3]; exact hs2
          · rw [o4, o3]; exact ⟨[], rfl⟩
        | true =>
          have o4 : s4.opened = [ascii "Notuscontract_g16.sol", ascii "Notus.g16.pk", ascii "Notus.g16.vk"] ++ s.opened := by
            rcases o4 with ⟨-, e⟩ | o4
            · cases e
            · rw [o4, o3]; rfl
          rw [if_pos rfl, fm_bind_ok_iff] at h; obtain ⟨u, s5, h5, h⟩ := h
          rw [noFiles_ok_iff] at h5; obtain ⟨h5, rfl⟩ := h5
          rw [fm_bind_ok_iff] at h; obtain ⟨r, s6, h6, h⟩ := h
          obtain ⟨f6, r6⟩ := proveF_ok h6
          cases r with
          | none => exact absurd h panic_not_ok
          | some p =>
            rw [fm_bind_ok_iff] at h; obtain ⟨b, s7, h7, h⟩ := h
            obtain ⟨f7, v7⟩ := verifyF_ok h7
            have hfin : s' = s7 ∧ o = if b = false then .failed else .printed p (contractInputs u.publicPart) := by
              cases b with
              | false => obtain ⟨rfl, rfl⟩ := fm_pure_ok h; exact ⟨rfl, rfl⟩
              | true => obtain ⟨rfl, rfl⟩ := fm_pure_ok h; exact ⟨rfl, rfl⟩
            obtain ⟨rfl, hob⟩ := hfin
            have hop := (f6.trans f7).2.trans o4
            refine ⟨.inr hop, fun _ => ⟨?_, hop⟩⟩
            have hd : s5.disk = disk2 n.toNat coin coin2 s.disk := by
              rw [d4 rfl, d3 rfl, d2 rfl, d1]
              rfl
            rw [outputContract2_ok_iff]
            refine .inr ⟨hn, by rw [(f6.trans f7).1, hd], u, p, b, h5, ?_, ?_, hob⟩
            · rw [(f6.trans f7).1]; exact (r6 p rfl).1
            · rw [f7.1]; exact v7

/-! ## merkleswap -/

theorem merkleSetupF_ok {bad : Nat → Bool} {order : List Part} (ho : WritesAll order) {E : Env} {n : UInt32} {coin : S.Coin}
    {s s' : FState S} (h : merkleSetupF bad order E n coin s = Run.ok ((), s')) :
    s'.opened = s.opened ∧ merkleSetup E n coin s.disk = .ok s'.disk := by
  unfold merkleSetupF at h
  unfold merkleSetup
  cases hc : MerkleSwap.define E (MerkleSwap.initCircuitWithSize n) with
  | error m => rw [hc] at h; exact absurd h panic_not_ok
  | ok v =>
    rw [hc] at h
    dsimp only at h
    rw [fm_bind_ok_iff] at h; obtain ⟨b, s1, h1, h⟩ := h
    obtain ⟨o1, d1⟩ := dumpF_ok h1
    cases b with
    | false => exact absurd h panic_not_ok
    | true =>
      obtain ⟨-, rfl⟩ := fm_pure_ok h
      exact ⟨o1, by rw [d1 rfl, C139_complete ho]⟩

theorem merkleProveF_ok {bad : Nat → Bool} {E : Env} {n : UInt32} {coin : S.Coin} {s s' : FState S} {r : Option S.Proof}
    (h : merkleProveF bad E n coin s = Run.ok (r, s')) :
    SameFiles s s' ∧ ∀ p, r = some p → merkleProve E n coin s.disk = some p ∧
      ∃ sys, s.disk (ccsName (merkleKeyFile n.toNat)) = some (.ccs sys) := by
  unfold merkleProveF at h
  rw [fm_bind_ok_iff] at h; obtain ⟨pk, s1, h1, h⟩ := h
  obtain ⟨f1, r1⟩ := libRead_ok h1
  cases pk with
  | none =>
    obtain ⟨rfl, rfl⟩ := fm_pure_ok h
    exact ⟨f1, fun p hp => by cases hp⟩
  | some pk =>
    dsimp only at h
    rw [fm_bind_ok_iff] at h; obtain ⟨ccs, s2, h2, h⟩ := h
    obtain ⟨f2, r2⟩ := libRead_ok h2
    cases ccs with
    | none =>
      obtain ⟨rfl, rfl⟩ := fm_pure_ok h
      exact ⟨f1.trans f2, fun p hp => by cases hp⟩
    | some r1cs =>
      dsimp only at h
      rw [fm_bind_ok_iff] at h; obtain ⟨b, s4, h4, h⟩ := h
      have f4 := libTouch_ok h4
      cases b with
      | false =>
        obtain ⟨rfl, rfl⟩ := fm_pure_ok h
        exact ⟨(f1.trans f2).trans f4, fun p hp => by cases hp⟩
      | true =>
        obtain ⟨rfl, rfl⟩ := fm_pure_ok h
        refine ⟨(f1.trans f2).trans f4, fun p hp => ?_⟩
        have e1 := r1 pk rfl
        have e2 := r2 r1cs rfl
        rw [f1.1] at e2
        constructor
        · unfold merkleProve
          simp only [e1, e2, hp]
        · unfold readCcs at e2
          split at e2
          · rename_i sys he
            exact ⟨sys, he⟩
          · cases e2

theorem merkleVerifyF_ok {bad : Nat → Bool} {E : Env} {p : S.Proof} {n : UInt32} {s s' : FState S} {b : Bool}
    (h : merkleVerifyF bad E p n s = Run.ok (b, s')) : SameFiles s s' ∧ merkleVerify E p n s.disk = .ok b := by
  unfold merkleVerifyF at h
  rw [fm_bind_ok_iff] at h; obtain ⟨k, s1, h1, h⟩ := h
  obtain ⟨d1, r1, -⟩ := loadF_ok h1
  cases k with
  | none => exact absurd h panic_not_ok
  | some vk =>
    obtain ⟨rfl, rfl⟩ := fm_pure_ok h
    obtain ⟨e1, o1⟩ := r1 vk rfl
    exact ⟨⟨d1, o1⟩, by unfold merkleVerify; rw [e1]⟩

/-- `TestMerkleMultiSwap` once the keys are there. -/
theorem merkleTest_eq {E : Env} {coin coin' : S.Coin} {n : UInt32} {d d1 : Disk S} {p : S.Proof} {b : Bool}
    (h1 : (if (d (ccsName (merkleKeyFile n.toNat))).isSome then Except.ok d else merkleSetup E n coin d) = .ok d1)
    (h2 : merkleProve E n coin' d1 = some p) (h3 : merkleVerify E p n d1 = .ok b) :
    testMerkleMultiSwap E coin coin' n d = .ok (d1, b) := by
  unfold testMerkleMultiSwap
  split_ifs at h1 ⊢
  · obtain rfl := Except.ok.inj h1
    simp only [h2, h3, except_bind_ok]
  · simp only [h1, h2, h3, except_bind_ok]

theorem merkleTestF_ok {bad : Nat → Bool} {order : List Part} (ho : WritesAll order) {E : Env} {coin coin' : S.Coin}
    {n : UInt32} {s s' : FState S} {b : Bool} (h : testMerkleMultiSwapF bad order E coin coin' n s = Run.ok (b, s')) :
    s'.opened = s.opened ∧ testMerkleMultiSwap E coin coin' n s.disk = .ok (s'.disk, b) := by
  unfold testMerkleMultiSwapF at h
  rw [fm_bind_ok_iff] at h; obtain ⟨e, s1, h1, h⟩ := h
  obtain ⟨f1, e1⟩ := existF_ok h1
  have main : ∀ s2 : FState S, s2.opened = s.opened →
      ((if (s.disk (ccsName (merkleKeyFile n.toNat))).isSome then Except.ok s.disk else merkleSetup E n coin s.disk) =
        .ok s2.disk ∨ s2.disk = s.disk ∧ (s.disk (ccsName (merkleKeyFile n.toNat))).isSome = false) →
      (do match ← merkleProveF bad E n coin' with
          | none => noFiles (liftRes (goPanic "Error during Prove"))
          | some proof => merkleVerifyF bad E proof n : FM S Bool) s2 = Run.ok (b, s') →
      s'.opened = s.opened ∧ testMerkleMultiSwap E coin coin' n s.disk = .ok (s'.disk, b) := by
    intro s2 o2 k2 h
    rw [fm_bind_ok_iff] at h; obtain ⟨r, s3, h3, h⟩ := h
    obtain ⟨f3, r3⟩ := merkleProveF_ok h3
    cases r with
    | none => exact absurd h panic_not_ok
    | some p =>
      obtain ⟨f4, v4⟩ := merkleVerifyF_ok h
      obtain ⟨hp, sys, hc⟩ := r3 p rfl
      refine ⟨(f3.trans f4).2.trans o2, ?_⟩
      rcases k2 with k2 | ⟨k1, k2⟩
      · rw [(f3.trans f4).1]
        rw [f3.1] at v4
        exact merkleTest_eq k2 hp v4
      · rw [k1] at hc
        rw [hc] at k2
        cases k2
  cases e with
  | true =>
    refine main s1 f1.2 ?_ h
    split
    · exact .inl (by rw [f1.1])
    · rename_i hne
      exact .inr ⟨f1.1, by simpa using hne⟩
  | false =>
    rw [if_neg Bool.false_ne_true, fm_bind_ok_iff] at h; obtain ⟨⟨⟩, s2, h2, h⟩ := h
    obtain ⟨o2, k2⟩ := merkleSetupF_ok ho h2
    refine main s2 (o2.trans f1.2) (.inl ?_) h
    rw [if_neg (by rw [e1 rfl]; exact Bool.false_ne_true), ← f1.1]
    exact k2

/-! ## Runs without failures -/

/-- No operation fails. -/
def neverBad : Nat → Bool := fun _ => false

theorem dumpF_never (sys : System) (coin : S.Coin) (base : Bytes) (order : List Part) (s : FState S) :
    ∃ s', dumpF neverBad sys coin base order s = Run.ok (true, s') := by
  induction order generalizing s with
  | nil => exact ⟨s, rfl⟩
  | cons p ps ih =>
    obtain ⟨s', h⟩ := ih ⟨write (write s.disk (p.name base) .cut) (p.name base) (p.whole sys coin), s.opened, s.tick + 1 + 1⟩
    exact ⟨s', h⟩

theorem load_never {path : Bytes} {k : S.VK} {s : FState S} (h : loadVerifyingKey s.disk path = some k) :
    ∃ s', loadVerifyingKeyF neverBad path s = Run.ok (some k, s') ∧ s'.disk = s.disk := by
  have hn : (neverBad s.tick || (s.disk (vkName path)).isNone) = false := by
    unfold loadVerifyingKey readVk at h
    split at h
    · rename_i he
      rw [he]
      rfl
    · cases h
  have h1 : osOpen neverBad (vkName path) s =
      Run.ok (some (vkName path), { s.next with opened := vkName path :: s.opened }) := by
    unfold osOpen
    rw [hn]
    rfl
  unfold loadVerifyingKeyF
  rw [fm_bind_run h1]
  have h2 : readKey neverBad (some (vkName path)) { s.next with opened := vkName path :: s.opened } =
      Run.ok (some k, FState.next { s.next with opened := vkName path :: s.opened }) := by
    show Run.ok (loadVerifyingKey s.disk path, _) = _
    rw [h]
  rw [fm_bind_run h2]
  exact ⟨_, rfl, rfl⟩

theorem setup_never {order : List Part} (ho : WritesAll order) {E : Env} {n : UInt32} {coin : S.Coin} {s : FState S}
    {d' : Disk S} (h : setupZkMultiswap E n coin s.disk = .ok d') :
    ∃ s', setupZkMultiswapF neverBad order E n coin s = Run.ok ((), s') ∧ s'.disk = d' := by
  have key : ∃ s', setupZkMultiswapF neverBad order E n coin s = Run.ok ((), s') := by
    unfold setupZkMultiswap at h
    unfold setupZkMultiswapF
    cases hc : compile E n with
    | none => rw [hc] at h; cases h
    | some sys =>
      obtain ⟨s1, h1⟩ := dumpF_never sys coin (keyFile n.toNat) order s
      dsimp only
      rw [fm_bind_run h1]
      exact ⟨s1, rfl⟩
  obtain ⟨s', h'⟩ := key
  refine ⟨s', h', ?_⟩
  have := (setupF_ok ho h').2
  rw [h] at this
  exact (Except.ok.inj this).symm

theorem exist_never (base : Bytes) (s : FState S) :
    isCircuitExistF neverBad base s = Run.ok ((s.disk (ccsName base)).isSome, s.next) := by
  unfold isCircuitExistF
  cases h : (s.disk (ccsName base)).isSome with
  | true =>
    have h1 : osStat neverBad (ccsName base) s = Run.ok (.found, s.next) := by
      unfold osStat
      rw [h]
      rfl
    rw [fm_bind_run h1]
    rfl
  | false =>
    have h1 : osStat neverBad (ccsName base) s = Run.ok (.missing, s.next) := by
      unfold osStat
      rw [h]
      rfl
    rw [fm_bind_run h1]
    rfl

theorem ensure_never {order : List Part} (ho : WritesAll order) {E : Env} {n : UInt32} {coin : S.Coin} {s : FState S}
    {d' : Disk S} (h : ensureKeys E n coin s.disk = .ok d') :
    ∃ s', ensureKeysF neverBad order E n coin s = Run.ok ((), s') ∧ s'.disk = d' := by
  unfold ensureKeys isCircuitExist at h
  unfold ensureKeysF
  rw [fm_bind_run (exist_never _ s)]
  cases hc : (s.disk (ccsName (keyFile n.toNat))).isSome with
  | true =>
    rw [hc] at h
    exact ⟨s.next, rfl, Except.ok.inj h⟩
  | false =>
    rw [hc] at h
    exact setup_never ho (s := s.next) h

theorem prove_never {u : UpdateSet32} {coin : S.Coin} {s : FState S} {p : S.Proof}
    (h : prove u coin s.disk = .ok (some p)) :
    ∃ s', proveF neverBad u coin s = Run.ok (some p, s') ∧ s'.disk = s.disk := by
  unfold prove at h
  unfold proveF
  dsimp only at h ⊢
  cases h1 : readPk s.disk (pkName (keyFile u.userID.length)) with
  | none => rw [h1] at h; cases h
  | some pk =>
    cases h2 : readCcs s.disk (ccsName (keyFile u.userID.length)) with
    | none => rw [h1, h2] at h; cases h
    | some r1cs =>
      rw [h1, h2] at h
      dsimp only at h
      cases h3 : assignCircuit u with
      | error m => rw [h3] at h; cases h
      | ok a =>
        rw [h3, except_bind_ok] at h
        have e1 : libRead neverBad readPk (pkName (keyFile u.userID.length)) s = Run.ok (some pk, s.next) := by
          rw [← h1]; rfl
        have e2 : libRead neverBad readCcs (ccsName (keyFile u.userID.length)) s.next = Run.ok (some r1cs, s.next.next) := by
          rw [← h2]; rfl
        have e3 : noFiles (liftRes (assignCircuit u)) s.next.next = Run.ok (a, s.next.next) :=
          (noFiles_ok_iff _ _ _ _).2 ⟨(liftRes_ok_iff _ _).2 h3, rfl⟩
        rw [h3] at e3
        rw [fm_bind_run e1]
        dsimp only
        rw [fm_bind_run e2]
        dsimp only
        rw [fm_bind_run e3]
        refine ⟨s.next.next.next, ?_, rfl⟩
        rw [← Except.ok.inj h]
        rfl

theorem verify_never {p : S.Proof} {n : UInt32} {i : PublicInfo} {s : FState S} {b : Bool}
    (h : verify p n i s.disk = .ok b) : ∃ s', verifyF neverBad p n i s = Run.ok (b, s') ∧ s'.disk = s.disk := by
  unfold verify at h
  cases hk : loadVerifyingKey s.disk (keyFile n.toNat) with
  | none => rw [hk] at h; cases h
  | some vk =>
    rw [hk] at h
    obtain ⟨s1, h1, d1⟩ := load_never hk
    unfold verifyF
    rw [fm_bind_run h1, ← Except.ok.inj h]
    exact ⟨s1, rfl, d1⟩

theorem test_never {order : List Part} (ho : WritesAll order) {E : Env} {fuel : Nat} {G N accMid : Int}
    {coin coin' : S.Coin} {n : UInt32} {s : FState S} {d' : Disk S} {b : Bool}
    (h : testMultiSwap E fuel G N accMid coin coin' n s.disk = Run.ok (d', b)) :
    ∃ s', testMultiSwapF neverBad order E fuel G N accMid coin coin' n s = Run.ok (b, s') ∧ s'.disk = d' := by
  obtain ⟨u, p, h1, h2, h3, h4⟩ := (testMultiSwap_ok_iff ..).1 h
  obtain ⟨s1, e1, rfl⟩ := ensure_never ho h1
  obtain ⟨s2, e2, d2⟩ := prove_never h3
  rw [← d2] at h4
  obtain ⟨s3, e3, d3⟩ := verify_never h4
  have eg : noFiles (genTestSet E fuel n G N accMid) s1 = Run.ok (u, s1) := (noFiles_ok_iff _ _ _ _).2 ⟨h2, rfl⟩
  unfold testMultiSwapF
  rw [fm_bind_run e1, fm_bind_run eg, fm_bind_run e2]
  exact ⟨s3, e3, d3.trans d2⟩

theorem output_never {order : List Part} (ho : WritesAll order) {E : Env} {coin : S.Coin} {n : UInt32} {s : FState S}
    {d' : Disk S} (h : outputContract E coin n s.disk = .ok d') :
    ∃ s', outputContractF neverBad order E coin n s = Run.ok ((), s') ∧ s'.disk = d' := by
  obtain ⟨d1, vk, h1, h2, rfl⟩ := (outputContract_ok_iff ..).1 h
  obtain ⟨s1, e1, rfl⟩ := ensure_never ho h1
  obtain ⟨s2, e2, d2⟩ := load_never h2
  unfold outputContractF
  rw [fm_bind_run e1, fm_bind_run e2, ← d2]
  exact ⟨_, rfl, write_twice _ _ _ _⟩

theorem output2_never {order : List Part} (ho : WritesAll order) {E : Env} {fuel : Nat} {G N accMid : Int}
    {coin coin2 coin' : S.Coin} {n : UInt32} {s : FState S} {d' : Disk S} {o : Outcome S}
    (h : outputContract2 E fuel G N accMid coin coin2 coin' n s.disk = Run.ok (d', o)) :
    ∃ s', outputContract2F neverBad order E fuel G N accMid coin coin2 coin' n s = Run.ok (o, s') ∧ s'.disk = d' := by
  unfold outputContract2F
  rw [compile_eq]
  rcases (outputContract2_ok_iff ..).1 h with ⟨hn, rfl, rfl⟩ | ⟨hn, rfl, u, p, b, h2, h3, h4, rfl⟩
  · rw [if_pos hn]
    exact ⟨s, rfl, rfl⟩
  · rw [if_neg hn]
    obtain ⟨s1, e1, d1⟩ := setup_never ho ((setupZkMultiswap_ok_iff E n coin s.disk _).2 ⟨hn, rfl⟩)
    dsimp only
    rw [fm_bind_run e1]
    have fill : ∀ (name : Bytes) (c : File S) (t : FState S),
        ∃ t', createAndFill neverBad name c t = Run.ok (true, t') ∧ t'.disk = write t.disk name c :=
      fun name c t => ⟨_, rfl, write_twice _ _ _ _⟩
    obtain ⟨s2, e2, d2⟩ := fill (ascii "Notus.g16.vk") (.vk (S.setup (.multi n.toNat) coin2).2) s1
    obtain ⟨s3, e3, d3⟩ := fill (ascii "Notus.g16.pk") (.pk (S.setup (.multi n.toNat) coin2).1) s2
    obtain ⟨s4, e4, d4⟩ := fill (ascii "Notuscontract_g16.sol") (.sol (S.setup (.multi n.toNat) coin2).2) s3
    have hd : s4.disk = disk2 n.toNat coin coin2 s.disk := by
      rw [d4, d3, d2, d1]
      rfl
    rw [← hd] at h3 h4
    obtain ⟨s5, e5, d5⟩ := prove_never h3
    rw [← d5] at h4
    obtain ⟨s6, e6, d6⟩ := verify_never h4
    have eg : noFiles (genTestSet E fuel n G N accMid) s4 = Run.ok (u, s4) := (noFiles_ok_iff _ _ _ _).2 ⟨h2, rfl⟩
    rw [fm_bind_run e2, if_pos rfl, fm_bind_run e3, if_pos rfl, fm_bind_run e4, if_pos rfl, fm_bind_run eg, fm_bind_run e5]
    dsimp only
    rw [fm_bind_run e6]
    refine ⟨s6, ?_, by rw [d6, d5, hd]⟩
    cases b <;> rfl

theorem generate_never {order : List Part} (ho : WritesAll order) {E : Env} {coin : S.Coin} (junk : Option S.VK)
    {s : FState S} {d' : Disk S} (h : generateGroth16 E coin s.disk = some d') :
    ∃ s', generateGroth16F neverBad order E coin junk s = Run.ok (true, s') ∧ s'.disk = d' := by
  have h5 : compile E 5 = some (.multi 5) := compile_eq E 5
  obtain ⟨s1, h1⟩ := dumpF_never (.multi 5) coin keyPathPrefix order s
  have d1 : s1.disk = setupWithDump (.multi 5) coin keyPathPrefix s.disk := by rw [(dumpF_ok h1).2 rfl, C139_complete ho]
  have hv : s1.disk (vkName keyPathPrefix) = some (.vk (S.setup (.multi 5) coin).2) := by
    rw [d1]
    exact (setup_keyAt (.multi 5) coin keyPathPrefix s.disk).2.2
  have h2 : osOpen neverBad (vkName keyPathPrefix) s1 =
      Run.ok (some (vkName keyPathPrefix), { s1.next with opened := vkName keyPathPrefix :: s1.opened }) := by
    unfold osOpen
    rw [hv]
    rfl
  have h3 : readKey neverBad (some (vkName keyPathPrefix)) { s1.next with opened := vkName keyPathPrefix :: s1.opened } =
      Run.ok (some (S.setup (.multi 5) coin).2,
        FState.next { s1.next with opened := vkName keyPathPrefix :: s1.opened }) := by
    show Run.ok (readVk s1.disk (vkName keyPathPrefix), _) = _
    rw [readVk_of hv]
  unfold generateGroth16F
  unfold generateGroth16 at h
  rw [h5] at h ⊢
  dsimp only at h ⊢
  rw [← d1, readVk_of hv] at h
  rw [fm_bind_run h1, if_pos rfl, fm_bind_run h2, fm_bind_run h3]
  exact ⟨_, rfl, (write_twice _ _ _ _).trans (Option.some.inj h)⟩

theorem merkleTest_ok_iff (E : Env) (coin coin' : S.Coin) (n : UInt32) (d d' : Disk S) (b : Bool) :
    testMerkleMultiSwap E coin coin' n d = .ok (d', b) ↔ ∃ p,
      (if (d (ccsName (merkleKeyFile n.toNat))).isSome then Except.ok d else merkleSetup E n coin d) = .ok d' ∧
        merkleProve E n coin' d' = some p ∧ merkleVerify E p n d' = .ok b := by
  constructor
  · intro h
    unfold testMerkleMultiSwap at h
    have main : ∀ d1 : Disk S, (do
        match merkleProve E n coin' d1 with
        | none => goPanic "Error during Prove"
        | some proof =>
          let flag ← merkleVerify E proof n d1
          .ok (d1, flag)) = Except.ok (d', b) → d' = d1 ∧ ∃ p, merkleProve E n coin' d1 = some p ∧
            merkleVerify E p n d1 = .ok b := by
      intro d1 h
      cases hp : merkleProve E n coin' d1 with
      | none => rw [hp] at h; simp [goPanic] at h
      | some p =>
        rw [hp] at h
        cases hv : merkleVerify E p n d1 with
        | error m => simp only [hv] at h; cases h
        | ok v =>
          simp only [hv, except_bind_ok, Except.ok.injEq, Prod.mk.injEq] at h
          exact ⟨h.1.symm, p, rfl, by rw [hv, h.2]⟩
    split_ifs at h ⊢ with hi
    · rw [except_bind_ok] at h
      obtain ⟨rfl, p, h1, h2⟩ := main d h
      exact ⟨p, rfl, h1, h2⟩
    · cases hs : merkleSetup E n coin d with
      | error m => rw [hs] at h; cases h
      | ok d1 =>
        rw [hs, except_bind_ok] at h
        obtain ⟨rfl, p, h1, h2⟩ := main d1 h
        exact ⟨p, rfl, h1, h2⟩
  · rintro ⟨p, h1, h2, h3⟩
    exact merkleTest_eq h1 h2 h3

theorem merkleTest_never {order : List Part} (ho : WritesAll order) {E : Env} {coin coin' : S.Coin} {n : UInt32}
    {s : FState S} {d' : Disk S} {b : Bool} (h : testMerkleMultiSwap E coin coin' n s.disk = .ok (d', b)) :
    ∃ s', testMerkleMultiSwapF neverBad order E coin coin' n s = Run.ok (b, s') ∧ s'.disk = d' := by
  obtain ⟨p, h1, h2, h3⟩ := (merkleTest_ok_iff ..).1 h
  have main : ∀ s1 : FState S, s1.disk = d' → ∃ s',
      (do match ← merkleProveF neverBad E n coin' with
          | none => noFiles (liftRes (goPanic "Error during Prove"))
          | some proof => merkleVerifyF neverBad E proof n : FM S Bool) s1 = Run.ok (b, s') ∧ s'.disk = d' := by
    rintro s1 rfl
    unfold merkleProve at h2
    dsimp only at h2
    cases e1 : readPk s1.disk (pkName (merkleKeyFile n.toNat)) with
    | none => rw [e1] at h2; cases h2
    | some pk =>
      cases e2 : readCcs s1.disk (ccsName (merkleKeyFile n.toNat)) with
      | none => rw [e1, e2] at h2; cases h2
      | some r1cs =>
        rw [e1, e2] at h2
        have f1 : libRead neverBad readPk (pkName (merkleKeyFile n.toNat)) s1 = Run.ok (some pk, s1.next) := by
          rw [← e1]; rfl
        have f2 : libRead neverBad readCcs (ccsName (merkleKeyFile n.toNat)) s1.next = Run.ok (some r1cs, s1.next.next) := by
          rw [← e2]; rfl
        have f3 : merkleProveF neverBad E n coin' s1 = Run.ok (some p, s1.next.next.next) := by
          unfold merkleProveF
          rw [fm_bind_run f1]
          dsimp only
          rw [fm_bind_run f2, ← h2]
          rfl
        rw [fm_bind_run f3]
        unfold merkleVerify at h3
        cases hk : loadVerifyingKey s1.disk (merkleKeyFile n.toNat) with
        | none => rw [hk] at h3; cases h3
        | some vk =>
          rw [hk] at h3
          obtain ⟨s4, h4, d4⟩ := load_never (s := s1.next.next.next) hk
          dsimp only
          unfold merkleVerifyF
          rw [fm_bind_run h4, ← Except.ok.inj h3]
          exact ⟨s4, rfl, d4⟩
  unfold testMerkleMultiSwapF
  rw [fm_bind_run (exist_never _ s)]
  split_ifs at h1 with hc
  · rw [hc]
    exact main s.next (Except.ok.inj h1)
  · rw [Bool.not_eq_true] at hc
    rw [hc, if_neg Bool.false_ne_true]
    have key : ∃ s', merkleSetupF neverBad order E n coin s.next = Run.ok ((), s') := by
      unfold merkleSetup at h1
      unfold merkleSetupF
      cases hm : MerkleSwap.define E (MerkleSwap.initCircuitWithSize n) with
      | error m => rw [hm] at h1; cases h1
      | ok v =>
        obtain ⟨s2, h2⟩ := dumpF_never (.merkle n.toNat) coin (merkleKeyFile n.toNat) order s.next
        dsimp only
        rw [fm_bind_run h2]
        exact ⟨s2, rfl⟩
    obtain ⟨s2, h2⟩ := key
    rw [fm_bind_run h2]
    refine main s2 ?_
    have := (merkleSetupF_ok ho h2).2
    have h1' : merkleSetup E n coin s.next.disk = .ok d' := h1
    rw [h1'] at this
    exact (Except.ok.inj this).symm

/-! ## C140 -/

/-- C140 for `TestMultiSwap`, in any directory: a run that returns despite failures has the result of a run without. -/
theorem C140_test_partial {bad : Nat → Bool} {order : List Part} (ho : WritesAll order) {E : Env} {fuel : Nat}
    {G N accMid : Int} {coin coin' : S.Coin} {n : UInt32} {s s' : FState S} {b : Bool}
    (h : testMultiSwapF bad order E fuel G N accMid coin coin' n s = Run.ok (b, s')) :
    testMultiSwap E fuel G N accMid coin coin' n s.disk = Run.ok (s'.disk, b) := (testF_ok ho h).2

/-- C140 for `TestMerkleMultiSwap`, in any directory. -/
theorem C140_merkle_partial {bad : Nat → Bool} {order : List Part} (ho : WritesAll order) {E : Env} {coin coin' : S.Coin}
    {n : UInt32} {s s' : FState S} {b : Bool} (h : testMerkleMultiSwapF bad order E coin coin' n s = Run.ok (b, s')) :
    testMerkleMultiSwap E coin coin' n s.disk = .ok (s'.disk, b) := (merkleTestF_ok ho h).2

/-- C140 for `TestMultiSwapAndOutputSmartContract2`, in any directory, if no error is returned. -/
theorem C140_output2_partial {bad : Nat → Bool} {order : List Part} (ho : WritesAll order) {E : Env} {fuel : Nat}
    {G N accMid : Int} {coin coin2 coin' : S.Coin} {n : UInt32} {s s' : FState S} {o : Outcome S} (he : o ≠ .err)
    (h : outputContract2F bad order E fuel G N accMid coin coin2 coin' n s = Run.ok (o, s')) :
    outputContract2 E fuel G N accMid coin coin2 coin' n s.disk = Run.ok (s'.disk, o) := ((output2F_ok ho h).2 he).1

/-- C140 for `TestMultiSwapAndOutputSmartContract`: it needs that the verifying key is missing whenever the constraint system is. -/
theorem C140_output_partial {bad : Nat → Bool} {order : List Part} (ho : WritesAll order) {E : Env} {coin : S.Coin}
    {n : UInt32} {s s' : FState S} (hr : Reach E s.disk) (h : outputContractF bad order E coin n s = Run.ok ((), s')) :
    outputContract E coin n s.disk = .ok s'.disk := by
  rcases (outputF_ok ho h).2 with h | ⟨h1, vk, h2, -⟩
  · exact h
  · exfalso
    rcases (C85_keys E s.disk hr n.toNat).1 with ⟨-, -, h3⟩ | ⟨c, hc⟩
    · rw [loadVerifyingKey, readVk, h3] at h2
      cases h2
    · rw [hc.1] at h1
      cases h1

/-- C140 for `generateGroth16`: it holds if the library cannot export a key that was not read. -/
theorem C140_generate_partial {bad : Nat → Bool} {order : List Part} (ho : WritesAll order) {E : Env} {coin : S.Coin}
    {s s' : FState S} (h : generateGroth16F bad order E coin none s = Run.ok (true, s')) :
    generateGroth16 E coin s.disk = some s'.disk := by
  rcases (generateF_ok ho h).2 rfl with h | ⟨vk, h, -⟩
  · exact h
  · cases h

/-- Without failures all five functions do what they do in the model without errors. -/
theorem C140_no_errors {order : List Part} (ho : WritesAll order) (E : Env) (s : FState S) (d' : Disk S) :
    (∀ fuel G N accMid coin coin' n b, testMultiSwap E fuel G N accMid coin coin' n s.disk = Run.ok (d', b) →
      ∃ s', testMultiSwapF (fun _ => false) order E fuel G N accMid coin coin' n s = Run.ok (b, s') ∧ s'.disk = d') ∧
    (∀ coin n, outputContract E coin n s.disk = .ok d' →
      ∃ s', outputContractF (fun _ => false) order E coin n s = Run.ok ((), s') ∧ s'.disk = d') ∧
    (∀ fuel G N accMid coin coin2 coin' n o,
      outputContract2 E fuel G N accMid coin coin2 coin' n s.disk = Run.ok (d', o) →
      ∃ s', outputContract2F (fun _ => false) order E fuel G N accMid coin coin2 coin' n s = Run.ok (o, s') ∧ s'.disk = d') ∧
    (∀ coin coin' n b, testMerkleMultiSwap E coin coin' n s.disk = .ok (d', b) →
      ∃ s', testMerkleMultiSwapF (fun _ => false) order E coin coin' n s = Run.ok (b, s') ∧ s'.disk = d') ∧
    ∀ coin junk, generateGroth16 E coin s.disk = some d' →
      ∃ s', generateGroth16F (fun _ => false) order E coin junk s = Run.ok (true, s') ∧ s'.disk = d' :=
  ⟨fun _ _ _ _ _ _ _ _ h => test_never ho h, fun _ _ h => output_never ho h, fun _ _ _ _ _ _ _ _ _ h => output2_never ho h,
    fun _ _ _ _ h => merkleTest_never ho h, fun _ junk h => generate_never ho junk h⟩

theorem dumpF_quiet {bad : Nat → Bool} (sys : System) (coin : S.Coin) (base : Bytes) (order : List Part) (s : FState S)
    (hb : ∀ k < 2 * order.length, bad (s.tick + k) = false) :
    ∃ s', dumpF bad sys coin base order s = Run.ok (true, s') ∧ s'.tick = s.tick + 2 * order.length := by
  induction order generalizing s with
  | nil => exact ⟨s, rfl, rfl⟩
  | cons p ps ih =>
    have b0 : bad s.tick = false := hb 0 (by simp)
    have b1 : bad (s.tick + 1) = false := hb 1 (by simp only [List.length_cons]; omega)
    obtain ⟨s', h, ht⟩ := ih
      ⟨write (write s.disk (p.name base) .cut) (p.name base) (p.whole sys coin), s.opened, s.tick + 1 + 1⟩ (by
        intro k hk
        have := hb (k + 2) (by simp only [List.length_cons]; omega)
        rwa [show s.tick + (k + 2) = s.tick + 1 + 1 + k by omega] at this)
    have e1 : libCreate bad (p.name base) s = Run.ok (true, { s.next with disk := write s.disk (p.name base) .cut }) := by
      unfold libCreate
      rw [b0]
      rfl
    have e2 : fillFile bad (p.name base) (p.whole sys coin) { s.next with disk := write s.disk (p.name base) .cut } =
        Run.ok (true, ⟨write (write s.disk (p.name base) .cut) (p.name base) (p.whole sys coin), s.opened, s.tick + 1 + 1⟩) := by
      unfold fillFile
      rw [show bad (FState.tick { s.next with disk := write s.disk (p.name base) .cut }) = false from b1]
      rfl
    refine ⟨s', ?_, ?_⟩
    · unfold dumpF
      rw [fm_bind_run e1, if_pos rfl, fm_bind_run e2, if_pos rfl]
      exact h
    · rw [ht]
      simp only [List.length_cons]
      omega

/-- If in `generateGroth16` the verifying key cannot be opened or read, and nothing else fails, nil is returned and the contract is
the one of the key that was not read. -/
theorem C140_generate_wrong {bad : Nat → Bool} {order : List Part} (ho : WritesAll order) (E : Env) (coin : S.Coin)
    (vk : S.VK) (s : FState S) (h6 : bad (s.tick + 6) = true ∨ bad (s.tick + 7) = true)
    (hb : ∀ k, k ≠ 6 → k ≠ 7 → bad (s.tick + k) = false) :
    ∃ s', generateGroth16F bad order E coin (some vk) s = Run.ok (true, s') ∧
      s'.disk = write (setupWithDump (.multi 5) coin keyPathPrefix s.disk) (ascii "Notuscontract_g16.sol") (.sol vk) := by
  have hl : order.length = 3 := ho.length_eq
  obtain ⟨s1, h1, t1⟩ := dumpF_quiet (bad := bad) (.multi 5) coin keyPathPrefix order s
    (fun k hk => hb k (by omega) (by omega))
  have d1 : s1.disk = setupWithDump (.multi 5) coin keyPathPrefix s.disk := by rw [(dumpF_ok h1).2 rfl, C139_complete ho]
  rw [hl] at t1
  have t1 : s1.tick = s.tick + 6 := t1
  have h5 : compile E 5 = some (.multi 5) := compile_eq E 5
  have mid : ∃ f s2 s3 c s4, osOpen bad (vkName keyPathPrefix) s1 = Run.ok (f, s2) ∧ readKey bad f s2 = Run.ok (none, s3) ∧
      closeFile bad f s3 = Run.ok (c, s4) ∧ s4.disk = s1.disk ∧ s4.tick = s.tick + 9 := by
    by_cases hop : (bad s1.tick || (s1.disk (vkName keyPathPrefix)).isNone) = true
    · refine ⟨none, s1.next, s1.next.next, false, s1.next.next.next, ?_, rfl, rfl, rfl, ?_⟩
      · unfold osOpen
        rw [if_pos hop]
      · show s1.tick + 1 + 1 + 1 = _
        omega
    · have hb6 : bad (s.tick + 6) = false := by
        rw [← t1]
        cases hx : bad s1.tick with
        | false => rfl
        | true => exact absurd (by rw [hx]; rfl) hop
      have hb7 : bad (s1.tick + 1) = true := by
        rw [t1]
        rcases h6 with h | h
        · rw [hb6] at h; cases h
        · exact h
      refine ⟨some (vkName keyPathPrefix), { s1.next with opened := vkName keyPathPrefix :: s1.opened },
        FState.next { s1.next with opened := vkName keyPathPrefix :: s1.opened }, _, _, ?_, ?_, rfl, rfl, ?_⟩
      · unfold osOpen
        rw [if_neg hop]
      · show Run.ok (if bad (s1.tick + 1) = true then none else _, _) = _
        rw [if_pos hb7]
      · show s1.tick + 1 + 1 + 1 = _
        omega
  obtain ⟨f, s2, s3, c, s4, e2, e3, e4, d4, t4⟩ := mid
  have e5 : osCreate bad (ascii "Notuscontract_g16.sol") s4 = Run.ok (some (ascii "Notuscontract_g16.sol"),
      { s4.next with disk := write s4.disk (ascii "Notuscontract_g16.sol") .cut,
                     opened := ascii "Notuscontract_g16.sol" :: s4.opened }) := by
    unfold osCreate
    rw [show bad s4.tick = false by rw [t4]; exact hb 9 (by omega) (by omega)]
    rfl
  have b10 : bad (s4.tick + 1) = false := by rw [t4]; exact hb 10 (by omega) (by omega)
  unfold generateGroth16F
  rw [h5]
  dsimp only
  rw [fm_bind_run h1, if_pos rfl, fm_bind_run e2, fm_bind_run e3, fm_bind_run e4, fm_bind_run e5, ← d1, ← d4]
  refine ⟨⟨write (write s4.disk (ascii "Notuscontract_g16.sol") .cut) (ascii "Notuscontract_g16.sol") (.sol vk),
    ascii "Notuscontract_g16.sol" :: s4.opened, s4.tick + 1 + 1⟩, ?_, write_twice _ _ _ _⟩
  show fillFile bad _ _ _ = _
  unfold fillFile
  rw [show bad (FState.tick { s4.next with disk := write s4.disk (ascii "Notuscontract_g16.sol") .cut,
                                           opened := ascii "Notuscontract_g16.sol" :: s4.opened }) = false from b10]
  rfl

/-- The run without failures writes the contract of the key of this setup. -/
theorem generate_value (E : Env) (coin : S.Coin) (d : Disk S) : generateGroth16 E coin d =
    some (write (setupWithDump (.multi 5) coin keyPathPrefix d) (ascii "Notuscontract_g16.sol")
      (.sol (S.setup (.multi 5) coin).2)) := by
  have h5 : compile E 5 = some (.multi 5) := compile_eq E 5
  unfold generateGroth16
  rw [h5]
  dsimp only
  rw [readVk_of (setup_keyAt (.multi 5) coin keyPathPrefix d).2.2]

/-- In an empty directory without failures: `generateGroth16` returns nil and `TestMerkleMultiSwap` passes, with the files of the
model without errors. -/
example : (∃ s' : FState (idealSnark sumEnv), generateGroth16F (fun _ => false) [.ccs, .pk, .vk] sumEnv (0 : Nat) none
      ⟨fun _ => none, [], 0⟩ = Run.ok (true, s') ∧
      generateGroth16 sumEnv (0 : Nat) (fun _ => none : Disk (idealSnark sumEnv)) = some s'.disk) ∧
    ∃ s' : FState (idealSnark sumEnv), testMerkleMultiSwapF (fun _ => false) [.ccs, .pk, .vk] sumEnv (0 : Nat) (1 : Nat) 3
      ⟨fun _ => none, [], 0⟩ = Run.ok (true, s') ∧
      testMerkleMultiSwap sumEnv (0 : Nat) (1 : Nat) 3 (fun _ => none : Disk (idealSnark sumEnv)) = .ok (s'.disk, true) := by
  constructor
  · obtain ⟨s', h, -⟩ := (C140_no_errors (S := idealSnark sumEnv) all_parts sumEnv ⟨fun _ => none, [], 0⟩ _).2.2.2.2 (0 : Nat) none
      (generate_value (S := idealSnark sumEnv) sumEnv (0 : Nat) (fun _ => none))
    exact ⟨s', h, C140_generate_partial all_parts h⟩
  · obtain ⟨d', h⟩ := C85_merkle_passes (S := idealSnark sumEnv) (idealSnark_complete sumEnv) .empty (0 : Nat) (1 : Nat) 3 (by decide)
    obtain ⟨s', h, -⟩ := (C140_no_errors (S := idealSnark sumEnv) all_parts sumEnv ⟨fun _ => none, [], 0⟩ _).2.2.2.1 (0 : Nat) (1 : Nat)
      3 true h
    exact ⟨s', h, C140_merkle_partial all_parts h⟩

theorem C140_violated : ¬ C140_statement := by
  intro h
  obtain ⟨s', h1, h2⟩ := C140_generate_wrong (S := idealSnark sumEnv) (bad := fun k => k == 7) all_parts sumEnv (0 : Nat)
    ((.multi 5, 1) : System × Nat) ⟨fun _ => none, [], 0⟩ (.inr rfl) (fun k _ h7 => by
      show (0 + k == 7) = false
      rw [Nat.zero_add]
      exact beq_false_of_ne h7)
  have h3 := (h (idealSnark sumEnv) sumEnv (fun k => k == 7) _ ⟨fun _ => none, [], 0⟩ s' all_parts .empty).2.2.2.2 (0 : Nat) _ h1
  have h4 := congrFun (Option.some.inj ((generate_value (S := idealSnark sumEnv) sumEnv (0 : Nat) _).symm.trans h3))
    (ascii "Notuscontract_g16.sol")
  rw [h2, write_same, write_same] at h4
  have h5 : (((.multi 5, 0) : System × Nat)) = (.multi 5, 1) := File.sol.inj (Option.some.inj h4)
  exact absurd (congrArg Prod.snd h5) (by decide)

/-- `TestMultiSwapAndOutputSmartContract` in a directory that a stopped setup has left: only the verifying key is there. If `os.Stat`
fails, the old key is exported; otherwise there is a new setup and its key is exported. -/
theorem C140_output_left (E : Env) (n : UInt32) (hn : n.toNat ≠ 0) (c0 c : S.Coin) :
    ∃ d : Disk S, Left (dumpSteps [.vk, .pk, .ccs]) E d ∧
      (∃ s', outputContractF (fun k => k == 0) [.vk, .pk, .ccs] E c n ⟨d, [], 0⟩ = Run.ok ((), s') ∧
        s'.disk (ascii "contract_g16.sol") = some (.sol (S.setup (.multi n.toNat) c0).2)) ∧
      ∃ s', outputContractF (fun _ => false) [.vk, .pk, .ccs] E c n ⟨d, [], 0⟩ = Run.ok ((), s') ∧
        s'.disk (ascii "contract_g16.sol") = some (.sol (S.setup (.multi n.toNat) c).2) := by
  have hw : WritesAll [.vk, .pk, .ccs] := by unfold WritesAll; decide
  let d : Disk S := write (write (fun _ => none) (vkName (keyFile n.toNat)) .cut) (vkName (keyFile n.toNat))
    (.vk (S.setup (.multi n.toNat) c0).2)
  have hv : loadVerifyingKey d (keyFile n.toNat) = some (S.setup (.multi n.toNat) c0).2 := readVk_of (write_same _ _ _)
  have hc : d (ccsName (keyFile n.toNat)) = none := by
    show write _ _ _ _ = _
    rw [write_ne _ _ (ccs_ne_vk _ _), write_ne _ _ (ccs_ne_vk _ _)]
  refine ⟨d, ?_, ?_, ?_⟩
  · refine .test n c0 .empty ?_
    unfold ensureVisits
    rw [if_neg (by exact Bool.false_ne_true)]
    unfold setupVisits
    rw [compile_eq, if_neg hn]
    show d ∈ visits _ _
    simp only [dumpSteps, List.flatMap_cons, visits_cons, List.cons_append, List.nil_append, List.mem_cons]
    exact .inr (.inr (.inl rfl))
  · refine ⟨⟨write (write d (ascii "contract_g16.sol") .cut) (ascii "contract_g16.sol") (.sol (S.setup (.multi n.toNat) c0).2),
      [ascii "contract_g16.sol"], 6⟩, ?_, ?_⟩
    rotate_left
    · dsimp only
      rw [write_same]
    have e1 : ensureKeysF (fun k => k == 0) [.vk, .pk, .ccs] E n c ⟨d, [], 0⟩ = Run.ok ((), ⟨d, [], 1⟩) := rfl
    have e2 : loadVerifyingKeyF (fun k => k == 0) (keyFile n.toNat) (⟨d, [], 1⟩ : FState S) =
        Run.ok (some (S.setup (.multi n.toNat) c0).2, ⟨d, [], 4⟩) := by
      have a1 : osOpen (fun k => k == 0) (vkName (keyFile n.toNat)) (⟨d, [], 1⟩ : FState S) =
          Run.ok (some (vkName (keyFile n.toNat)), ⟨d, [vkName (keyFile n.toNat)], 2⟩) := by
        have hx : d (vkName (keyFile n.toNat)) = some (.vk (S.setup (.multi n.toNat) c0).2) := write_same _ _ _
        unfold osOpen
        exact if_neg (by dsimp only; rw [hx]; exact Bool.false_ne_true)
      have a2 : readKey (fun k => k == 0) (some (vkName (keyFile n.toNat))) (⟨d, [vkName (keyFile n.toNat)], 2⟩ : FState S) =
          Run.ok (some (S.setup (.multi n.toNat) c0).2, ⟨d, [vkName (keyFile n.toNat)], 3⟩) := by
        rw [← hv]
        rfl
      have a3 : closeFile (fun k => k == 0) (some (vkName (keyFile n.toNat))) (⟨d, [vkName (keyFile n.toNat)], 3⟩ : FState S) =
          Run.ok (true, ⟨d, [], 4⟩) := by
        unfold closeFile
        simp [FState.next]
      unfold loadVerifyingKeyF
      rw [fm_bind_run a1, fm_bind_run a2]
      dsimp only
      rw [fm_bind_run a3]
      rfl
    unfold outputContractF
    rw [fm_bind_run e1, fm_bind_run e2]
    rfl
  · have hk := setup_keyAt (.multi n.toNat) c (keyFile n.toNat) d
    obtain ⟨s', h1, h2⟩ := output_never hw (E := E) (coin := c) (n := n) (s := ⟨d, [], 0⟩)
      ((outputContract_ok_iff ..).2 ⟨setupWithDump (.multi n.toNat) c (keyFile n.toNat) d, _, by
        unfold ensureKeys isCircuitExist
        rw [show (FState.disk ⟨d, [], 0⟩) = d from rfl, hc]
        exact (setupZkMultiswap_ok_iff ..).2 ⟨hn, rfl⟩, readVk_of hk.2.2, rfl⟩)
    exact ⟨s', h1, by rw [h2, write_same]⟩

/-! ## Failures that do no harm -/

/-- From operation `t` on the two programs do the same. -/
def AgreeFrom {α : Type} (t : Nat) (x y : FM S α) : Prop :=
  ∀ s, t ≤ s.tick → x s = y s ∧ ∀ a s', x s = Run.ok (a, s') → t ≤ s'.tick

theorem agree_bind {α β : Type} {t : Nat} {x y : FM S α} {f g : α → FM S β} (h : AgreeFrom t x y)
    (h' : ∀ a, AgreeFrom t (f a) (g a)) : AgreeFrom t (x >>= f) (y >>= g) := by
  intro s hs
  obtain ⟨h1, h2⟩ := h s hs
  constructor
  · show (x s >>= fun p => f p.1 p.2) = (y s >>= fun p => g p.1 p.2)
    rw [← h1]
    match hx : x s with
    | none => rfl
    | some (.error m) => rfl
    | some (.ok (a, s1)) => exact (h' a s1 (h2 a s1 hx)).1
  · intro b s' hb
    rw [fm_bind_ok_iff] at hb
    obtain ⟨a, s1, e1, e2⟩ := hb
    exact (h' a s1 (h2 a s1 e1)).2 b s' e2

theorem agree_pure {α : Type} (t : Nat) (a : α) : AgreeFrom t (pure a : FM S α) (pure a) :=
  fun s hs => ⟨rfl, fun b s' h => by obtain ⟨-, rfl⟩ := fm_pure_ok h; exact hs⟩

theorem agree_noFiles {α : Type} (t : Nat) (r : Run α) : AgreeFrom (S := S) t (noFiles r) (noFiles r) :=
  fun s hs => ⟨rfl, fun b s' h => by rw [noFiles_ok_iff] at h; rw [h.2]; exact hs⟩

/-- A program that does one file operation. -/
theorem agree_step {α : Type} {t : Nat} {x y : FM S α} (h : ∀ s, t ≤ s.tick → x s = y s)
    (h' : ∀ s a s', x s = Run.ok (a, s') → s'.tick = s.tick + 1) : AgreeFrom t x y :=
  fun s hs => ⟨h s hs, fun a s' e => by have := h' s a s' e; omega⟩

theorem agree_prove {bad : Nat → Bool} {t : Nat} (hb : ∀ k, t ≤ k → bad k = false) (u : UpdateSet32) (coin : S.Coin) :
    AgreeFrom t (proveF bad u coin) (proveF neverBad u coin) := by
  have rd : ∀ {α : Type} (r : Disk S → Bytes → Option α) (name : Bytes),
      AgreeFrom t (libRead bad r name) (libRead neverBad r name) := fun r name => agree_step
    (fun s hs => by unfold libRead; rw [hb _ hs]; rfl)
    (fun s a s' e => by obtain ⟨-, rfl⟩ := Prod.mk.inj (run_ok_inj e); rfl)
  have tc : AgreeFrom (S := S) t (libTouch bad) (libTouch neverBad) := agree_step
    (fun s hs => by unfold libTouch; rw [hb _ hs]; rfl)
    (fun s a s' e => by obtain ⟨-, rfl⟩ := Prod.mk.inj (run_ok_inj e); rfl)
  unfold proveF
  refine agree_bind (rd _ _) fun pk => ?_
  cases pk with
  | none => exact agree_pure _ _
  | some pk =>
    refine agree_bind (rd _ _) fun ccs => ?_
    cases ccs with
    | none => exact agree_pure _ _
    | some r1cs =>
      refine agree_bind (agree_noFiles _ _) fun a => agree_bind tc fun b => ?_
      cases b <;> exact agree_pure _ _

theorem agree_verify {bad : Nat → Bool} {t : Nat} (hb : ∀ k, t ≤ k → bad k = false) (p : S.Proof) (n : UInt32)
    (i : PublicInfo) : AgreeFrom t (verifyF bad p n i) (verifyF neverBad p n i) := by
  have op : ∀ name : Bytes, AgreeFrom (S := S) t (osOpen bad name) (osOpen neverBad name) := fun name => agree_step
    (fun s hs => by unfold osOpen; rw [hb _ hs]; rfl)
    (fun s a s' e => by
      unfold osOpen at e
      split at e
      · obtain ⟨-, rfl⟩ := Prod.mk.inj (run_ok_inj e); rfl
      · obtain ⟨-, rfl⟩ := Prod.mk.inj (run_ok_inj e); rfl)
  have rd : ∀ f : Option Bytes, AgreeFrom (S := S) t (readKey bad f) (readKey neverBad f) := fun f => agree_step
    (fun s hs => by cases f with
      | none => rfl
      | some name => unfold readKey; rw [hb _ hs]; rfl)
    (fun s a s' e => by cases f <;> (obtain ⟨-, rfl⟩ := Prod.mk.inj (run_ok_inj e); rfl))
  have cl : ∀ f : Option Bytes, AgreeFrom (S := S) t (closeFile bad f) (closeFile neverBad f) := fun f => agree_step
    (fun s hs => by cases f with
      | none => rfl
      | some name => unfold closeFile; rw [hb _ hs]; rfl)
    (fun s a s' e => by cases f <;> (obtain ⟨-, rfl⟩ := Prod.mk.inj (run_ok_inj e); rfl))
  unfold verifyF
  refine agree_bind ?_ fun k => ?_
  · unfold loadVerifyingKeyF
    refine agree_bind (op _) fun f => agree_bind (rd f) fun k => ?_
    cases k with
    | none => exact agree_pure _ _
    | some k =>
      refine agree_bind (cl f) fun b => ?_
      cases b <;> exact agree_pure _ _
  · cases k with
    | none => exact agree_noFiles _ _
    | some vk => exact agree_pure _ _

/-- If the keys are there, a failure of `os.Stat` alone does not disturb `TestMultiSwap`. -/
theorem C140_stat {bad : Nat → Bool} (order : List Part) {E : Env} {fuel : Nat} {G N accMid : Int} {coin coin' : S.Coin}
    {n : UInt32} {s : FState S} {b : Bool} {d' : Disk S} (hk : isCircuitExist s.disk n = true)
    (hb : ∀ k, s.tick < k → bad k = false)
    (h : testMultiSwap E fuel G N accMid coin coin' n s.disk = Run.ok (d', b)) :
    ∃ s', testMultiSwapF bad order E fuel G N accMid coin coin' n s = Run.ok (b, s') ∧ s'.disk = s.disk := by
  obtain ⟨u, p, h1, h2, h3, h4⟩ := (testMultiSwap_ok_iff ..).1 h
  rw [ensureKeys, if_pos hk] at h1
  obtain rfl := Except.ok.inj h1
  have e1 : ensureKeysF bad order E n coin s = Run.ok ((), s.next) := by
    have hx : isCircuitExistF bad (keyFile n.toNat) s = Run.ok (true, s.next) := by
      unfold isCircuitExistF
      have ho : ∃ r, osStat bad (ccsName (keyFile n.toNat)) s = Run.ok (r, s.next) ∧ r ≠ .missing := by
        refine ⟨_, rfl, ?_⟩
        rw [if_pos (c := (s.disk (ccsName (keyFile n.toNat))).isSome = true) hk]
        split <;> decide
      obtain ⟨r, hr, hne⟩ := ho
      rw [fm_bind_run hr]
      cases r with
      | found => rfl
      | other => rfl
      | missing => exact absurd rfl hne
    unfold ensureKeysF
    rw [fm_bind_run hx]
    rfl
  have hb' : ∀ k, s.tick + 1 ≤ k → bad k = false := fun k hk => hb k hk
  have eg : noFiles (genTestSet E fuel n G N accMid) s.next = Run.ok (u, s.next) := (noFiles_ok_iff _ _ _ _).2 ⟨h2, rfl⟩
  obtain ⟨s2, e2, d2⟩ := prove_never (s := s.next) h3
  have a2 := agree_prove hb' u coin' s.next (le_refl _)
  rw [e2] at a2
  have h4' : verify p n u.publicPart s2.disk = .ok b := by rw [d2]; exact h4
  obtain ⟨s3, e3, d3⟩ := verify_never h4'
  have a3 := agree_verify hb' p n u.publicPart s2 (a2.2 _ _ a2.1)
  rw [e3] at a3
  unfold testMultiSwapF
  rw [fm_bind_run e1, fm_bind_run eg, fm_bind_run a2.1]
  exact ⟨s3, a3.1, d3.trans d2⟩

/-- Two tests of size 2 in an empty directory; `os.Stat` fails in the second one, which passes all the same. -/
example : ∃ (d : Disk (idealSnark sumEnv)) (s' : FState (idealSnark sumEnv)),
    testMultiSwap sumEnv 1 2 35 4 (0 : Nat) (1 : Nat) 2 (fun _ => none) = Run.ok (d, true) ∧
    testMultiSwapF (fun k => k == 0) [.ccs, .pk, .vk] sumEnv 1 2 35 4 (2 : Nat) (3 : Nat) 2 ⟨d, [], 0⟩ = Run.ok (true, s') ∧
    s'.disk = d ∧ s'.opened = [] := by
  have hg := sumEnv_testSet 2 (by decide) 2 35 4
  have hno : NoOverflow sumEnv (testSet sumEnv (2 : UInt32).toNat 13 13) := by unfold NoOverflow; decide +kernel
  obtain ⟨d, h, ⟨c, hc⟩, -⟩ := C85_test_passes (S := idealSnark sumEnv) (idealSnark_complete sumEnv) .empty 1 2 35 4 (0 : Nat)
    (1 : Nat) 2 (by decide) _ hg hno
  obtain ⟨d2, h2, -⟩ := C85_test_passes (idealSnark_complete sumEnv) (.test 1 2 35 4 (0 : Nat) (1 : Nat) 2 .empty h) 1 2 35 4
    (2 : Nat) (3 : Nat) 2 (by decide) _ hg hno
  obtain ⟨s', h3, h4⟩ := C140_stat (bad := fun k => k == 0) [.ccs, .pk, .vk] (s := ⟨d, [], 0⟩)
    (by unfold isCircuitExist; dsimp only; rw [hc.1]; rfl) (fun k hk => beq_false_of_ne (Nat.ne_of_gt hk)) h2
  exact ⟨d, s', h, h3, h4, (testF_ok all_parts h3).1⟩

/-! ## C141 -/

/-- C141 for the functions that read the keys: tests, setups, `Prove` and `Verify` leave no file open when they return. -/
theorem C141_tests_partial {bad : Nat → Bool} {order : List Part} (ho : WritesAll order) {E : Env} {s s' : FState S} :
    (∀ fuel G N accMid coin coin' n b, testMultiSwapF bad order E fuel G N accMid coin coin' n s = Run.ok (b, s') →
      s'.opened = s.opened) ∧
    (∀ coin coin' n b, testMerkleMultiSwapF bad order E coin coin' n s = Run.ok (b, s') → s'.opened = s.opened) ∧
    (∀ n coin, setupZkMultiswapF bad order E n coin s = Run.ok ((), s') → s'.opened = s.opened) ∧
    (∀ n coin, merkleSetupF bad order E n coin s = Run.ok ((), s') → s'.opened = s.opened) ∧
    (∀ u coin r, proveF bad u coin s = Run.ok (r, s') → s'.opened = s.opened) ∧
    ∀ p n i b, verifyF bad p n i s = Run.ok (b, s') → s'.opened = s.opened :=
  ⟨fun _ _ _ _ _ _ _ _ h => (testF_ok ho h).1, fun _ _ _ _ h => (merkleTestF_ok ho h).1, fun _ _ h => (setupF_ok ho h).1,
    fun _ _ h => (merkleSetupF_ok ho h).1, fun _ _ _ h => (proveF_ok h).1.2, fun _ _ _ _ h => (verifyF_ok h).1.2⟩

/-- C141 for `LoadVerifyingKey`: it closes the file if and only if the file could not be opened or the key was read. -/
theorem C141_load_iff {bad : Nat → Bool} {path : Bytes} {s s' : FState S} {r : Option S.VK}
    (h : loadVerifyingKeyF bad path s = Run.ok (r, s')) : s'.opened = s.opened ↔
      bad s.tick = true ∨ s.disk (vkName path) = none ∨ bad (s.tick + 1) = false ∧ (readVk s.disk (vkName path)).isSome := by
  unfold loadVerifyingKeyF at h
  rw [fm_bind_ok_iff] at h; obtain ⟨f, s1, h1, h⟩ := h
  rw [fm_bind_ok_iff] at h; obtain ⟨k, s2, h2, h⟩ := h
  unfold osOpen at h1
  split at h1
  · rename_i hc
    obtain ⟨rfl, rfl⟩ := Prod.mk.inj (run_ok_inj h1)
    obtain ⟨rfl, rfl⟩ := Prod.mk.inj (run_ok_inj h2)
    obtain ⟨rfl, rfl⟩ := fm_pure_ok h
    refine ⟨fun _ => ?_, fun _ => rfl⟩
    rcases Bool.or_eq_true_iff.1 hc with hc | hc
    · exact .inl hc
    · exact .inr (.inl (Option.isNone_iff_eq_none.1 hc))
  · rename_i hc
    have hc1 : bad s.tick ≠ true := fun e => hc (by rw [e]; rfl)
    have hc2 : s.disk (vkName path) ≠ none := fun e => hc (by rw [e]; simp)
    obtain ⟨rfl, rfl⟩ := Prod.mk.inj (run_ok_inj h1)
    obtain ⟨hk, rfl⟩ := Prod.mk.inj (run_ok_inj h2)
    have hk : (if bad (s.tick + 1) = true then none else readVk s.disk (vkName path)) = k := hk
    cases k with
    | none =>
      obtain ⟨rfl, rfl⟩ := fm_pure_ok h
      constructor
      · intro e
        have e : vkName path :: s.opened = s.opened := e
        exact absurd (congrArg List.length e) (by simp)
      · rintro (e | e | ⟨e1, e2⟩)
        · exact absurd e hc1
        · exact absurd e hc2
        · rw [e1, if_neg Bool.false_ne_true] at hk
          rw [hk] at e2
          cases e2
    | some k =>
      rw [fm_bind_ok_iff] at h; obtain ⟨b, s3, h3, h⟩ := h
      obtain ⟨-, rfl⟩ := Prod.mk.inj (run_ok_inj h3)
      have ho : (vkName path :: s.opened).erase (vkName path) = s.opened := List.erase_cons_head ..
      have hs : s'.opened = s.opened := by
        cases b with
        | true => obtain ⟨-, rfl⟩ := fm_pure_ok h; exact ho
        | false => obtain ⟨-, rfl⟩ := fm_pure_ok h; exact ho
      refine ⟨fun _ => .inr (.inr ?_), fun _ => hs⟩
      split at hk
      · cases hk
      · rename_i hb
        exact ⟨by simpa using hb, by rw [hk]; rfl⟩

/-- `TestMultiSwapAndOutputSmartContract` always leaves the contract open. -/
theorem C141_output {bad : Nat → Bool} {order : List Part} (ho : WritesAll order) {E : Env} {coin : S.Coin} {n : UInt32}
    {s s' : FState S} (h : outputContractF bad order E coin n s = Run.ok ((), s')) :
    s'.opened = ascii "contract_g16.sol" :: s.opened := (outputF_ok ho h).1

/-- `TestMultiSwapAndOutputSmartContract2` leaves its three files open, or, after an error, those that it had created. -/
theorem C141_output2 {bad : Nat → Bool} {order : List Part} (ho : WritesAll order) {E : Env} {fuel : Nat} {G N accMid : Int}
    {coin coin2 coin' : S.Coin} {n : UInt32} {s s' : FState S} {o : Outcome S}
    (h : outputContract2F bad order E fuel G N accMid coin coin2 coin' n s = Run.ok (o, s')) :
    s'.opened <:+ [ascii "Notuscontract_g16.sol", ascii "Notus.g16.pk", ascii "Notus.g16.vk"] ++ s.opened ∧
    (o ≠ .err → s'.opened = [ascii "Notuscontract_g16.sol", ascii "Notus.g16.pk", ascii "Notus.g16.vk"] ++ s.opened) := by
  obtain ⟨h1, h2⟩ := output2F_ok ho h
  refine ⟨?_, fun he => (h2 he).2⟩
  rcases h1 with ⟨-, h1⟩ | h1
  · exact h1
  · rw [h1]

/-- `generateGroth16` closes the key but not the contract. -/
theorem C141_generate {bad : Nat → Bool} {order : List Part} (ho : WritesAll order) {E : Env} {coin : S.Coin}
    {junk : Option S.VK} {s s' : FState S} {b : Bool} (h : generateGroth16F bad order E coin junk s = Run.ok (b, s')) :
    (b = true → s'.opened = ascii "Notuscontract_g16.sol" :: s.opened) ∧
    (s'.opened = s.opened ∨ s'.opened = ascii "Notuscontract_g16.sol" :: s.opened) := by
  rcases (generateF_ok ho h).1 with ⟨h1, rfl⟩ | h1
  · exact ⟨(fun e => by cases e), .inl h1⟩
  · exact ⟨fun _ => h1, .inr h1⟩

theorem output_run (E : Env) (n : UInt32) (hn : n.toNat ≠ 0) (c : S.Coin) : ∃ s',
    outputContractF neverBad [.ccs, .pk, .vk] E c n ⟨fun _ => none, [], 0⟩ = Run.ok ((), s') := by
  have hk := setup_keyAt (.multi n.toNat) c (keyFile n.toNat) (fun _ => none)
  obtain ⟨s', h1, -⟩ := output_never all_parts (E := E) (coin := c) (n := n) (s := ⟨fun _ => none, [], 0⟩)
    ((outputContract_ok_iff ..).2 ⟨setupWithDump (.multi n.toNat) c (keyFile n.toNat) (fun _ => none), _,
      (setupZkMultiswap_ok_iff ..).2 ⟨hn, rfl⟩, readVk_of hk.2.2, rfl⟩)
  exact ⟨s', h1⟩

/-- Even without failures a file stays open. -/
theorem C141_violated : ¬ C141_statement := by
  intro h
  obtain ⟨s', h1⟩ := output_run (S := idealSnark sumEnv) sumEnv 2 (by decide) (0 : Nat)
  have h2 := (h (idealSnark sumEnv) sumEnv neverBad _ ⟨fun _ => none, [], 0⟩ s' all_parts .empty).2.2.1 (0 : Nat) 2 h1
  rw [C141_output all_parts h1] at h2
  exact absurd (congrArg List.length h2) (by simp)

/-- `k` calls leave `k` files open. -/
theorem C141_grows {bad : Nat → Bool} {order : List Part} (ho : WritesAll order) {E : Env} {coin : S.Coin} {n : UInt32}
    (k : Nat) {s s' : FState S}
    (h : (List.replicate k ()).forM (fun _ => outputContractF bad order E coin n) s = Run.ok ((), s')) :
    s'.opened.length = s.opened.length + k := by
  induction k generalizing s with
  | zero =>
    obtain ⟨-, rfl⟩ := fm_pure_ok h
    rfl
  | succ k ih =>
    rw [List.replicate_succ] at h
    have h : (outputContractF bad order E coin n >>= fun _ =>
        (List.replicate k ()).forM (fun _ => outputContractF bad order E coin n)) s = Run.ok ((), s') := h
    rw [fm_bind_ok_iff] at h; obtain ⟨⟨⟩, s1, h1, h⟩ := h
    rw [ih h, C141_output ho h1, List.length_cons]
    omega

/-- The verifying key cannot be read: the file stays open. -/
example : ∃ s', loadVerifyingKeyF (fun k => k == 1) (keyFile 2)
    (⟨write (fun _ => none) (vkName (keyFile 2)) (.vk (.multi 2, 0)), [], 0⟩ : FState (idealSnark sumEnv)) =
      Run.ok (none, s') ∧ s'.opened = [vkName (keyFile 2)] := by
  refine ⟨_, rfl, ?_⟩
  decide +kernel

end Verif.Props
