import Verif.Model.Printing
import Verif.Lemmas.Bytes
import Verif.Props.Binding

/-! # What is printed determines what was printed (C136) -/

namespace Verif.Props
open Verif.Go Verif.Model Verif.Lemmas

/-- Different values have different texts: groups of four numbers, tables (with as many offsets as bases) and the strings of
transcripts. -/
def C136_statement : Prop :=
  (∀ f0 f1 f2 f3 g0 g1 g2 g3 : Option Int, int4String f0 f1 f2 f3 = int4String g0 g1 g2 g3 →
    f0 = g0 ∧ f1 = g1 ∧ f2 = g2 ∧ f3 = g3) ∧
  (∀ (p q : PreTable) (o : Bytes), p.base.length = p.n.length → q.base.length = q.n.length →
    printTable p = .ok o → printTable q = .ok o → p = q) ∧
  (∀ s t : Transcript, s.print = t.print → s.info = t.info)

/-- Two texts cut at the first byte `c`. -/
theorem cut_at {c : UInt8} {a b r s : Bytes} (ha : c ∉ a) (hb : c ∉ b) (h : a ++ c :: r = b ++ c :: s) : a = b ∧ r = s := by
  induction a generalizing b with
  | nil =>
    cases b with
    | nil => simpa using h
    | cons y b =>
      simp only [List.nil_append, List.cons_append, List.cons.injEq] at h
      exact absurd (h.1 ▸ List.mem_cons_self) hb
  | cons x a ih =>
    cases b with
    | nil =>
      simp only [List.nil_append, List.cons_append, List.cons.injEq] at h
      exact absurd (h.1 ▸ List.mem_cons_self) ha
    | cons y b =>
      simp only [List.cons_append, List.cons.injEq] at h
      obtain ⟨h1, h2⟩ := ih (fun hc => ha (List.mem_cons_of_mem _ hc)) (fun hc => hb (List.mem_cons_of_mem _ hc)) h.2
      exact ⟨by rw [h.1, h1], h2⟩

theorem intString_bytes (n : Int) (c : UInt8) (hc : c ∈ intString n) : c = 45 ∨ (48 ≤ c.toNat ∧ c.toNat ≤ 57) := by
  unfold intString at hc
  split at hc
  · rcases List.mem_cons.1 hc with h | h
    · exact .inl h
    · exact .inr (itoa_allDigits _ c h)
  · exact .inr (itoa_allDigits _ c hc)

theorem ptrString_bytes (n : Option Int) (c : UInt8) (hc : c ∈ ptrString n) :
    c ∈ ascii "<nil>" ∨ c = 45 ∨ (48 ≤ c.toNat ∧ c.toNat ≤ 57) := by
  cases n with
  | none => exact .inl hc
  | some n => exact .inr (intString_bytes n c hc)

theorem ptrString_no (n : Option Int) (c : UInt8) (h1 : c ∉ ascii "<nil>") (h2 : c ≠ 45) (h3 : c.toNat < 48 ∨ 57 < c.toNat) :
    c ∉ ptrString n := by
  intro hc
  rcases ptrString_bytes n c hc with h | h | h
  · exact h1 h
  · exact h2 h
  · omega

theorem intString_no (n : Int) (c : UInt8) (h2 : c ≠ 45) (h3 : c.toNat < 48 ∨ 57 < c.toNat) : c ∉ intString n := by
  intro hc
  rcases intString_bytes n c hc with h | h
  · exact h2 h
  · omega

theorem itoa_no (n : Nat) (c : UInt8) (h3 : c.toNat < 48 ∨ 57 < c.toNat) : c ∉ itoa n := by
  intro hc
  have := itoa_allDigits n c hc
  omega

/-- The texts of groups of four numbers, nil pointers included. -/
theorem C136_int4_partial (f0 f1 f2 f3 g0 g1 g2 g3 : Option Int) (h : int4String f0 f1 f2 f3 = int4String g0 g1 g2 g3) :
    f0 = g0 ∧ f1 = g1 ∧ f2 = g2 ∧ f3 = g3 := by
  have e : ∀ a b c d, int4String a b c d =
      123 :: (ptrString a ++ 44 :: (32 :: (ptrString b ++ 44 :: (32 :: (ptrString c ++ 44 :: (32 :: (ptrString d ++ 125 :: []))))))) := by
    intro a b c d
    unfold int4String
    rw [show ascii "{" = [123] from by decide, show ascii ", " = [44, 32] from by decide,
      show ascii "}" = [125] from by decide]
    simp
  rw [e, e] at h
  have no : ∀ a, (44 : UInt8) ∉ ptrString a := fun a => ptrString_no a 44 (by decide) (by decide) (by decide)
  have no' : ∀ a, (125 : UInt8) ∉ ptrString a := fun a => ptrString_no a 125 (by decide) (by decide) (by decide)
  obtain ⟨h0, h⟩ := cut_at (no _) (no _) (List.cons.inj h).2
  obtain ⟨h1, h⟩ := cut_at (no _) (no _) (List.cons.inj h).2
  obtain ⟨h2, h⟩ := cut_at (no _) (no _) (List.cons.inj h).2
  obtain ⟨h3, -⟩ := cut_at (no' _) (no' _) (List.cons.inj h).2
  exact ⟨ptrString_inj _ _ h0, ptrString_inj _ _ h1, ptrString_inj _ _ h2, ptrString_inj _ _ h3⟩

/-! ## Tables -/

/-- The two lines of one entry. -/
def entryText (i : Nat) (b : Int) (n : Nat) : Bytes :=
  printLine [ascii "BaseString", itoa i, ascii " = \"", intString b, ascii "\""] ++
    printLine [ascii "n", itoa i, ascii " = ", itoa n]

def entriesText : Nat → List (Int × Nat) → Bytes
  | _, [] => []
  | i, e :: l => entryText i e.1 e.2 ++ entriesText (i + 1) l

theorem printTableLoop_eq (p : PreTable) (k i : Nat) (hk : i + k = p.base.length) (hn : p.base.length ≤ p.n.length) :
    printTableLoop p k i = .ok (entriesText i ((p.base.zip p.n).drop i)) := by
  induction k generalizing i with
  | zero =>
    rw [List.drop_eq_nil_of_le (by rw [List.length_zip]; omega)]
    rfl
  | succ k ih =>
    have h1 : i < p.base.length := by omega
    have h2 : i < p.n.length := by omega
    have h3 : i < (p.base.zip p.n).length := by rw [List.length_zip]; omega
    rw [List.drop_eq_getElem_cons h3, List.getElem_zip]
    unfold printTableLoop
    rw [ih (i + 1) (by omega)]
    simp [index, h1, h2, entriesText, entryText, bind, Except.bind]

theorem printTableLoop_short (p : PreTable) (k i : Nat) (hk : i + k = p.base.length) (hi : i ≤ p.n.length)
    (hn : p.n.length < p.base.length) : ∃ e, printTableLoop p k i = .error e := by
  induction k generalizing i with
  | zero => omega
  | succ k ih =>
    have h1 : i < p.base.length := by omega
    unfold printTableLoop
    by_cases h2 : i < p.n.length
    · obtain ⟨e, he⟩ := ih (i + 1) (by omega) (by omega)
      rw [he]
      simp [index, h1, h2, bind, Except.bind]
    · have : p.n[i]? = none := by simp; omega
      simp [index, h1, this, goPanic, bind, Except.bind]

/-- `PrintTable` returns exactly if every base has an offset. -/
theorem C136_table_returns (p : PreTable) : (∃ o, printTable p = .ok o) ↔ p.base.length ≤ p.n.length := by
  constructor
  · rintro ⟨o, ho⟩
    by_contra hn
    obtain ⟨e, he⟩ := printTableLoop_short p p.base.length 0 (by omega) (by omega) (by omega)
    rw [printTable, he] at ho
    cases ho
  · intro hn
    exact ⟨_, printTableLoop_eq p p.base.length 0 (by omega) hn⟩

theorem entryText_eq (i : Nat) (b : Int) (n : Nat) (r : Bytes) :
    entryText i b n ++ r =
      ascii "BaseString" ++ 32 :: (itoa i ++ 32 :: (ascii " = \"" ++ 32 :: (intString b ++ 32 :: (ascii "\"" ++ 10 ::
        (ascii "n" ++ 32 :: (itoa i ++ 32 :: (ascii " = " ++ 32 :: (itoa n ++ 10 :: r)))))))) := by
  simp [entryText, printLine]

theorem entriesText_inj (l m : List (Int × Nat)) (i : Nat) (h : entriesText i l = entriesText i m) : l = m := by
  have ne : ∀ (i : Nat) (e : Int × Nat) (l : List (Int × Nat)), entriesText i (e :: l) ≠ [] := by
    intro i e l h
    have := congrArg List.length h
    simp [entriesText, entryText, printLine] at this
  induction l generalizing m i with
  | nil =>
    cases m with
    | nil => rfl
    | cons e m => exact absurd h.symm (ne _ _ _)
  | cons e l ih =>
    cases m with
    | nil => exact absurd h (ne _ _ _)
    | cons f m =>
      obtain ⟨b, n⟩ := e
      obtain ⟨b', n'⟩ := f
      simp only [entriesText] at h
      rw [entryText_eq, entryText_eq] at h
      have h := (List.cons.inj (List.append_cancel_left h)).2
      have h := (List.cons.inj (List.append_cancel_left h)).2
      have h := (List.cons.inj (List.append_cancel_left h)).2
      obtain ⟨hb, h⟩ := cut_at (intString_no _ 32 (by decide) (by decide)) (intString_no _ 32 (by decide) (by decide)) h
      have h := (List.cons.inj (List.append_cancel_left h)).2
      have h := (List.cons.inj (List.append_cancel_left h)).2
      have h := (List.cons.inj (List.append_cancel_left h)).2
      have h := (List.cons.inj (List.append_cancel_left h)).2
      obtain ⟨hn, h⟩ := cut_at (itoa_no _ 10 (by decide)) (itoa_no _ 10 (by decide)) h
      rw [intString_inj _ _ hb, itoa_injective _ _ hn, ih m (i + 1) h]

/-- The text of a table gives the table back, except for offsets without a base. -/
theorem C136_table_partial (p q : PreTable) (o : Bytes) (hp : printTable p = .ok o) (hq : printTable q = .ok o) :
    p.base = q.base ∧ p.n.take p.base.length = q.n.take q.base.length := by
  have lp := (C136_table_returns p).1 ⟨o, hp⟩
  have lq := (C136_table_returns q).1 ⟨o, hq⟩
  rw [printTable, printTableLoop_eq p _ 0 (by omega) lp] at hp
  rw [printTable, printTableLoop_eq q _ 0 (by omega) lq] at hq
  injection hp with hp
  injection hq with hq
  have h := entriesText_inj _ _ 0 (hp.trans hq.symm)
  rw [List.drop_zero, List.drop_zero] at h
  have h1 := congrArg (List.map Prod.fst) h
  rw [List.map_fst_zip lp, List.map_fst_zip lq] at h1
  refine ⟨h1, ?_⟩
  have h2 := congrArg (List.map Prod.snd) h
  have key : ∀ (a : List Int) (b : List Nat), (a.zip b).map Prod.snd = b.take a.length := by
    intro a
    induction a with
    | nil => intro b; simp
    | cons x a ih =>
      intro b
      cases b with
      | nil => simp
      | cons y b => simp [ih]
  rwa [key, key] at h2

/-! ## Transcripts -/

theorem printInfo_inj (l m : List Bytes) (i : Nat) (hl : ∀ s ∈ l, (10 : UInt8) ∉ s) (hm : ∀ s ∈ m, (10 : UInt8) ∉ s)
    (h : printInfo i l = printInfo i m) : l = m := by
  have ne : ∀ (i : Nat) (s : Bytes) (l : List Bytes), printInfo i (s :: l) ≠ [] := by
    intro i s l h
    have := congrArg List.length h
    simp [printInfo, printLine] at this
  have e : ∀ (i : Nat) (s : Bytes) (l : List Bytes), printInfo i (s :: l) =
      ascii "Info[" ++ 32 :: (itoa i ++ 32 :: (ascii "] = " ++ 32 :: (s ++ 10 :: printInfo (i + 1) l))) := by
    intro i s l
    simp [printInfo, printLine]
  induction l generalizing m i with
  | nil =>
    cases m with
    | nil => rfl
    | cons s m => exact absurd h.symm (ne _ _ _)
  | cons s l ih =>
    cases m with
    | nil => exact absurd h (ne _ _ _)
    | cons t m =>
      rw [e, e] at h
      have h := (List.cons.inj (List.append_cancel_left h)).2
      have h := (List.cons.inj (List.append_cancel_left h)).2
      have h := (List.cons.inj (List.append_cancel_left h)).2
      obtain ⟨h1, h⟩ := cut_at (hl s List.mem_cons_self) (hm t List.mem_cons_self) h
      rw [h1, ih m (i + 1) (fun s hs => hl s (List.mem_cons_of_mem _ hs)) (fun s hs => hm s (List.mem_cons_of_mem _ hs)) h]

/-- Transcripts whose strings have no newline. Missing from `C136_statement`: strings with a newline. -/
theorem C136_transcript_partial (s t : Transcript) (hs : ∀ x ∈ s.info, (10 : UInt8) ∉ x) (ht : ∀ x ∈ t.info, (10 : UInt8) ∉ x)
    (h : s.print = t.print) : s.info = t.info := by
  have e : ∀ t : Transcript, t.print = ascii "The transcript has " ++ 32 :: (itoa t.info.length ++ 32 ::
      (ascii "strings as info." ++ 10 :: printInfo 0 t.info)) := by
    intro t
    simp [Transcript.print, printLine]
  rw [e, e] at h
  have h := (List.cons.inj (List.append_cancel_left h)).2
  obtain ⟨-, h⟩ := cut_at (itoa_no _ 32 (by decide)) (itoa_no _ 32 (by decide)) h
  have h := (List.cons.inj (List.append_cancel_left h)).2
  exact printInfo_inj _ _ 0 hs ht h

/-- The number of strings can always be read off. -/
theorem C136_transcript_count (s t : Transcript) (h : s.print = t.print) : s.info.length = t.info.length := by
  have e : ∀ t : Transcript, t.print = ascii "The transcript has " ++ 32 :: (itoa t.info.length ++ 32 ::
      (ascii "strings as info." ++ 10 :: printInfo 0 t.info)) := by
    intro t
    simp [Transcript.print, printLine]
  rw [e, e] at h
  have h := (List.cons.inj (List.append_cancel_left h)).2
  obtain ⟨h, -⟩ := cut_at (itoa_no _ 32 (by decide)) (itoa_no _ 32 (by decide)) h
  exact itoa_injective _ _ h

/-- Two transcripts of two strings each with the same text. -/
theorem C136_same_text :
    Transcript.print ⟨[ascii "a\nInfo[ 1 ] =  b", ascii "c"], 1⟩ =
      Transcript.print ⟨[ascii "a", ascii "b\nInfo[ 1 ] =  c"], 1⟩ := by decide +kernel

theorem C136_violated : ¬ C136_statement := by
  rintro ⟨-, -, h⟩
  have := h _ _ C136_same_text
  revert this
  decide +kernel

/-- A table and a group of numbers with their texts. -/
example : printTable ⟨[3, -4], [0, 12]⟩ =
      .ok (ascii "BaseString 0  = \" 3 \"\nn 0  =  0\nBaseString 1  = \" -4 \"\nn 1  =  12\n") ∧
    int4String (some 5) (some (-1)) none (some 0) = ascii "{5, -1, <nil>, 0}" ∧
    (printTable ⟨[3, 4], [0]⟩).panics = true ∧
    Transcript.print ⟨[ascii "x"], 1⟩ = ascii "The transcript has  1 strings as info.\nInfo[ 0 ] =  x\n" := by
  decide +kernel

end Verif.Props
