import Verif.Props.SetupRun

/-!
# The setup if the random source fails, and the sizes of the printed numbers (C145, C146)
-/

namespace Verif.Props
open Verif.Go Verif.Model Verif.Lemmas Verif.Spec

/-! ## C145 -/

/-- How a setup should end: it panics exactly if a call of the source failed, it never returns an error, and each of the labels
starts a line of the text exactly if the function came to its end. -/
structure EndsWell {α : Type} (r : Except Stop α × Cell Bytes) (labels : List String) : Prop where
  panics : r.1 = .error .panic ↔ none ∈ r.2.log
  noError : r.1 ≠ .error .error
  printed : ∀ l ∈ labels, ShowsLine r.2.obj l ↔ ∃ v, r.1 = .ok v

/-- C145: both setup functions, for every source, every sound test and every number of rounds. -/
def C145_statement : Prop :=
  ∀ (S : SetupSource) (test : Nat → Bool) (fuel : Nat), (∀ n, test n = true → n.Prime) →
    EndsWell (trustedSetupDraw S test fuel freshCell) ["N = ", "g = ", "h = "] ∧
    EndsWell (randomSetupDraw S test fuel freshCell) ["P = ", "A = ", "B = "]

/-- A step ends well: with a result and no failed call, with a panic right after a failed call, or out of rounds. -/
def StepEnds {α : Type} (m : Draw Bytes α) (s : Cell Bytes) (Q : α → Bytes → Prop) (J : Bytes → Prop) : Prop :=
  (∃ v L o, m s = (.ok v, ⟨s.log ++ L, o⟩) ∧ none ∉ L ∧ Q v o) ∨
  (∃ L o, m s = (.error .panic, ⟨s.log ++ L, o⟩) ∧ none ∈ L ∧ J o) ∨
  (∃ L o, m s = (.error .loop, ⟨s.log ++ L, o⟩) ∧ none ∉ L ∧ J o)

theorem stepEnds_bind {α β : Type} (m : Draw Bytes α) (f : α → Draw Bytes β) (s : Cell Bytes) (Q : α → Bytes → Prop)
    (R : β → Bytes → Prop) (J : Bytes → Prop) (hm : StepEnds m s Q J)
    (hf : ∀ v s', Q v s'.obj → StepEnds (f v) s' R J) : StepEnds (m >>= f) s R J := by
  rcases hm with ⟨v, L, o, h, hL, hQ⟩ | ⟨L, o, h, hL, hJ⟩ | ⟨L, o, h, hL, hJ⟩
  · rcases hf v ⟨s.log ++ L, o⟩ hQ with ⟨w, L', o', h', hL', hR⟩ | ⟨L', o', h', hL', hJ⟩ | ⟨L', o', h', hL', hJ⟩
    · exact .inl ⟨w, L ++ L', o', by rw [draw_bind_ok _ _ _ _ _ h, h']; simp, by simp [hL, hL'], hR⟩
    · exact .inr (.inl ⟨L ++ L', o', by rw [draw_bind_ok _ _ _ _ _ h, h']; simp, by simp [hL'], hJ⟩)
    · exact .inr (.inr ⟨L ++ L', o', by rw [draw_bind_ok _ _ _ _ _ h, h']; simp, by simp [hL, hL'], hJ⟩)
  · exact .inr (.inl ⟨L, o, draw_bind_error _ _ _ _ _ h, hL, hJ⟩)
  · exact .inr (.inr ⟨L, o, draw_bind_error _ _ _ _ _ h, hL, hJ⟩)

theorem stepEnds_mono {α : Type} (m : Draw Bytes α) (s : Cell Bytes) (Q Q' : α → Bytes → Prop) (J J' : Bytes → Prop)
    (hm : StepEnds m s Q J) (hQ : ∀ v o, Q v o → Q' v o) (hJ : ∀ o, J o → J' o) : StepEnds m s Q' J' := by
  rcases hm with ⟨v, L, o, h, hL, h1⟩ | ⟨L, o, h, hL, h1⟩ | ⟨L, o, h, hL, h1⟩
  · exact .inl ⟨v, L, o, h, hL, hQ _ _ h1⟩
  · exact .inr (.inl ⟨L, o, h, hL, hJ _ h1⟩)
  · exact .inr (.inr ⟨L, o, h, hL, hJ _ h1⟩)

theorem stepEnds_pure {α : Type} (v : α) (s : Cell Bytes) (Q : α → Bytes → Prop) (J : Bytes → Prop) (h : Q v s.obj) :
    StepEnds (pure v : Draw Bytes α) s Q J :=
  .inl ⟨v, [], s.obj, by rw [List.append_nil]; rfl, by simp, h⟩

theorem stepEnds_loop {α : Type} (s : Cell Bytes) (Q : α → Bytes → Prop) (J : Bytes → Prop) (h : J s.obj) :
    StepEnds (Draw.stop .loop : Draw Bytes α) s Q J :=
  .inr (.inr ⟨[], s.obj, by rw [List.append_nil]; rfl, by simp, h⟩)

theorem stepEnds_print (label : String) (text : Bytes) (s : Cell Bytes) (J : Bytes → Prop) :
    StepEnds (printTwo label text) s (fun _ o => o = s.obj ++ printLine [ascii label, text]) J :=
  .inl ⟨(), [], _, by rw [List.append_nil]; rfl, by simp, rfl⟩

theorem stepEnds_prime (S : SetupSource) (bits : Nat) (hb : 2 ≤ bits) (s : Cell Bytes) :
    StepEnds (Draw.mustReturn (randPrime S bits)) s (fun _ o => o = s.obj) (fun o => o = s.obj) := by
  cases h : S.prime s.log.length bits with
  | some v =>
    exact .inl ⟨v, [some (v : Int)], s.obj,
      (mustReturn_ok_iff _ _ _ _).2 ((randPrime_ok_iff _ _ _ _ _).2 ⟨hb, h, rfl⟩), by simp, rfl⟩
  | none =>
    refine .inr (.inl ⟨[none], s.obj, ?_, by simp, rfl⟩)
    unfold Draw.mustReturn randPrime
    rw [if_neg (by omega), h]

theorem stepEnds_below (S : SetupSource) (max : Nat) (hm : max ≠ 0) (s : Cell Bytes) :
    StepEnds (Draw.mustReturn (randBelow S max)) s (fun _ o => o = s.obj) (fun o => o = s.obj) := by
  cases h : S.int s.log.length max with
  | some v =>
    exact .inl ⟨v, [some (v : Int)], s.obj,
      (mustReturn_ok_iff _ _ _ _).2 ((randBelow_ok_iff _ _ _ _ _).2 ⟨hm, h, rfl⟩), by simp, rfl⟩
  | none =>
    refine .inr (.inl ⟨[none], s.obj, ?_, by simp, rfl⟩)
    unfold Draw.mustReturn randBelow
    rw [if_neg hm, h]

theorem stepEnds_suitable (S : SetupSource) (test : Nat → Bool) (fuel : Nat) (s : Cell Bytes) :
    StepEnds (getSuitablePrimeDraw S test fuel) s (fun _ o => o = s.obj) (fun o => o = s.obj) := by
  induction fuel generalizing s with
  | zero => exact stepEnds_loop _ _ _ rfl
  | succ fuel ih =>
    rw [getSuitablePrimeDraw]
    refine stepEnds_bind _ _ _ _ _ _ (stepEnds_prime S _ (by omega) s) ?_
    intro v s' hs
    split
    · rw [← hs]; exact ih s'
    · split
      · rw [← hs]; exact ih s'
      · exact stepEnds_pure _ _ _ _ hs

theorem stepEnds_safe (S : SetupSource) (test : Nat → Bool) (fuel : Nat) (s : Cell Bytes) :
    StepEnds (getSafePrimeDraw S test fuel) s (fun p o => p % 2 = 1 ∧ o = s.obj ++ foundLine p) (fun o => o = s.obj) := by
  induction fuel generalizing s with
  | zero => exact stepEnds_loop _ _ _ rfl
  | succ fuel ih =>
    rw [getSafePrimeDraw]
    refine stepEnds_bind _ _ _ _ _ _ (stepEnds_suitable S test _ s) ?_
    intro v s' hs
    dsimp only
    split
    · rw [← hs]; exact ih s'
    · refine stepEnds_bind _ _ _ _ _ _ (stepEnds_print _ _ s' _) ?_
      intro u s2 h2
      refine stepEnds_pure _ _ _ _ ⟨by omega, ?_⟩
      rw [h2, hs]
      rfl

theorem isQR_returns (x : Int) (p q : Nat) (hp : p % 2 = 1) (hq : q % 2 = 1) : ∃ b, isQR x p q = .ok b := by
  unfold isQR bigJacobi
  rw [if_neg (by omega), if_neg (by omega)]
  by_cases h : jacobiSym x p = 1
  · exact ⟨_, if_pos h⟩
  · exact ⟨_, if_neg h⟩

theorem stepEnds_qr (S : SetupSource) (p q : Nat) (hp : p % 2 = 1) (hq : q % 2 = 1) (fuel : Nat) (s : Cell Bytes) :
    StepEnds (getRanQRDraw S p q fuel) s (fun _ o => o = s.obj) (fun o => o = s.obj) := by
  induction fuel generalizing s with
  | zero => exact stepEnds_loop _ _ _ rfl
  | succ fuel ih =>
    rw [getRanQRDraw]
    refine stepEnds_bind _ _ _ _ _ _ (stepEnds_below S _ (by decide +kernel) s) ?_
    intro v s' hs
    obtain ⟨b, hb⟩ := isQR_returns v p q hp hq
    refine stepEnds_bind _ _ _ (fun _ o => o = s'.obj) _ _
      (.inl ⟨b, [], s'.obj, by rw [List.append_nil, hb]; rfl, by simp, rfl⟩) ?_
    intro b' s2 h2
    split
    · rw [← hs, ← h2]; exact ih s2
    · exact stepEnds_pure _ _ _ _ (h2.trans hs)

/-! ### Lines -/

theorem showsLine_cons (a : String) (b r : Bytes) (label : String) (ha : 10 ∉ ascii a) (hb : 10 ∉ b) :
    ShowsLine (printLine [ascii a, b] ++ r) label ↔ ascii label <+: ascii a ++ 32 :: b ∨ ShowsLine r label := by
  unfold ShowsLine
  rw [linesOf_printLine _ _ _ ha hb]
  simp

theorem not_prefix (l a r : Bytes) (hlen : l.length ≤ a.length) (h : ¬ l <+: a) : ¬ l <+: a ++ r := by
  intro hp
  exact h (List.prefix_of_prefix_length_le hp (List.prefix_append a r) hlen)

theorem showsLine_other (a : String) (b r : Bytes) (label : String) (ha : 10 ∉ ascii a) (hb : 10 ∉ b)
    (hlen : (ascii label).length ≤ (ascii a).length) (h : ¬ ascii label <+: ascii a) :
    ShowsLine (printLine [ascii a, b] ++ r) label ↔ ShowsLine r label := by
  rw [showsLine_cons _ _ _ _ ha hb]
  exact or_iff_right (not_prefix _ _ _ hlen h)

theorem showsLine_same (a : String) (b r : Bytes) (ha : 10 ∉ ascii a) (hb : 10 ∉ b) :
    ShowsLine (printLine [ascii a, b] ++ r) a := by
  rw [showsLine_cons _ _ _ _ ha hb]
  exact .inl (List.prefix_append _ _)

theorem showsLine_nil (label : String) (h : ascii label ≠ []) : ¬ ShowsLine [] label := by
  rintro ⟨l, hl, hp⟩
  have : l = [] := by simpa [linesOf, pieces] using hl
  subst this
  exact h (List.prefix_nil.1 hp)

theorem newline_intString (n : Int) : (10 : UInt8) ∉ intString n := intString_no n 10 (by decide) (by decide)

/-- The texts of runs that do not come to their end. -/
def EarlyText (o : Bytes) : Prop :=
  o = [] ∨ (∃ p, o = foundLine p) ∨ (∃ p q, o = foundLine p ++ foundLine q) ∨
  ∃ p q, o = foundLine p ++ (foundLine q ++ (printLine [ascii "Bit length of p = ", itoa p.size] ++
    printLine [ascii "Bit length of q = ", itoa q.size]))

theorem earlyText_shows (o : Bytes) (h : EarlyText o) (label : String) (hl : label ∈ ["N = ", "g = ", "h = "]) :
    ¬ ShowsLine o label := by
  have hn : ascii label ≠ [] := by
    simp only [List.mem_cons, List.not_mem_nil, or_false] at hl
    rcases hl with rfl | rfl | rfl <;> decide
  have hf : ∀ p r, ShowsLine (foundLine p ++ r) label ↔ ShowsLine r label := by
    intro p r
    simp only [List.mem_cons, List.not_mem_nil, or_false] at hl
    rcases hl with rfl | rfl | rfl <;>
      exact showsLine_other _ _ _ _ (by decide) (newline_itoa _) (by decide) (by decide)
  have hb1 : ∀ p r, ShowsLine (printLine [ascii "Bit length of p = ", itoa p] ++ r) label ↔ ShowsLine r label := by
    intro p r
    simp only [List.mem_cons, List.not_mem_nil, or_false] at hl
    rcases hl with rfl | rfl | rfl <;>
      exact showsLine_other _ _ _ _ (by decide) (newline_itoa _) (by decide) (by decide)
  have hb2 : ∀ p r, ShowsLine (printLine [ascii "Bit length of q = ", itoa p] ++ r) label ↔ ShowsLine r label := by
    intro p r
    simp only [List.mem_cons, List.not_mem_nil, or_false] at hl
    rcases hl with rfl | rfl | rfl <;>
      exact showsLine_other _ _ _ _ (by decide) (newline_itoa _) (by decide) (by decide)
  have h0 := showsLine_nil label hn
  rcases h with rfl | ⟨p, rfl⟩ | ⟨p, q, rfl⟩ | ⟨p, q, rfl⟩
  · exact h0
  · rw [← List.append_nil (foundLine p), hf]; exact h0
  · rw [hf, ← List.append_nil (foundLine q), hf]; exact h0
  · rw [hf, hf, hb1, ← List.append_nil (printLine _), hb2]; exact h0

theorem endsWell_of {α : Type} (m : Draw Bytes α) (labels : List String) (J : Bytes → Prop) (Q : α → Bytes → Prop)
    (h : StepEnds m freshCell Q J) (hQ : ∀ v o, Q v o → ∀ l ∈ labels, ShowsLine o l)
    (hJ : ∀ o, J o → ∀ l ∈ labels, ¬ ShowsLine o l) : EndsWell (m freshCell) labels := by
  rcases h with ⟨v, L, o, h, hL, h1⟩ | ⟨L, o, h, hL, h1⟩ | ⟨L, o, h, hL, h1⟩
  · rw [h]
    refine ⟨⟨fun h => (by cases h), fun h => absurd h (by simpa [freshCell] using hL)⟩, (by simp), ?_⟩
    intro l hl
    exact ⟨fun _ => ⟨v, rfl⟩, fun _ => hQ v o h1 l hl⟩
  · rw [h]
    refine ⟨⟨fun _ => by simpa [freshCell] using hL, fun _ => rfl⟩, (by simp), ?_⟩
    intro l hl
    exact ⟨fun hs => absurd hs (hJ o h1 l hl), fun ⟨v, hv⟩ => by cases hv⟩
  · rw [h]
    refine ⟨⟨fun h => (by cases h), fun h => absurd h (by simpa [freshCell] using hL)⟩, (by simp), ?_⟩
    intro l hl
    exact ⟨fun hs => absurd hs (hJ o h1 l hl), fun ⟨v, hv⟩ => by cases hv⟩

theorem trustedSetup_ends (S : SetupSource) (test : Nat → Bool) (fuel : Nat) :
    StepEnds (trustedSetupDraw S test fuel) freshCell (fun v o => o = foundLine v.p ++ (foundLine v.q ++ restText v)) EarlyText := by
  unfold trustedSetupDraw
  refine stepEnds_bind _ _ _ _ _ _ (stepEnds_mono _ _ _ _ _ _ (stepEnds_safe S test fuel freshCell) (fun _ _ h => h)
    (fun o h => .inl h)) ?_
  rintro p s1 ⟨hp, h1⟩
  refine stepEnds_bind _ _ _ _ _ _ (stepEnds_mono _ _ _ _ _ _ (stepEnds_safe S test fuel s1) (fun _ _ h => h)
    (fun o h => .inr (.inl ⟨p, by rw [h, h1]; rfl⟩))) ?_
  rintro q s2 ⟨hq, h2⟩
  refine stepEnds_bind _ _ _ _ _ _ (stepEnds_print _ _ s2 _) ?_
  intro u3 s3 h3
  refine stepEnds_bind _ _ _ _ _ _ (stepEnds_print _ _ s3 _) ?_
  intro u4 s4 h4
  have e4 : s4.obj = foundLine p ++ (foundLine q ++ (printLine [ascii "Bit length of p = ", itoa p.size] ++
      printLine [ascii "Bit length of q = ", itoa q.size])) := by
    rw [h4, h3, h2, h1]
    simp [freshCell]
  refine stepEnds_bind _ _ _ _ _ _ (stepEnds_mono _ _ _ _ _ _ (stepEnds_qr S p q hp hq fuel s4) (fun _ _ h => h)
    (fun o h => .inr (.inr (.inr ⟨p, q, by rw [h, e4]⟩)))) ?_
  intro g s5 h5
  refine stepEnds_bind _ _ _ _ _ _ (stepEnds_mono _ _ _ _ _ _ (stepEnds_prime S 2048 (by omega) s5) (fun _ _ h => h)
    (fun o h => .inr (.inr (.inr ⟨p, q, by rw [h, h5, e4]⟩)))) ?_
  intro r s6 h6
  refine stepEnds_bind _ _ _ _ _ _ (stepEnds_print _ _ s6 _) ?_
  intro u7 s7 h7
  refine stepEnds_bind _ _ _ _ _ _ (stepEnds_print _ _ s7 _) ?_
  intro u8 s8 h8
  refine stepEnds_bind _ _ _ _ _ _ (stepEnds_print _ _ s8 _) ?_
  intro u9 s9 h9
  refine stepEnds_pure _ _ _ _ ?_
  rw [h9, h8, h7, h6, h5, e4, restText]
  simp

theorem stepEnds_prime256 (S : SetupSource) (test : Nat → Bool) (fuel : Nat) (s : Cell Bytes) :
    StepEnds (getPrime256Draw S test fuel) s (fun p o => test p = true ∧ o = s.obj) (fun o => o = s.obj) := by
  induction fuel generalizing s with
  | zero => exact stepEnds_loop _ _ _ rfl
  | succ fuel ih =>
    rw [getPrime256Draw]
    refine stepEnds_bind _ _ _ _ _ _ (stepEnds_prime S _ (by omega) s) ?_
    intro v s' hs
    split
    · rw [← hs]; exact ih s'
    · rename_i ht
      exact stepEnds_pure _ _ _ _ ⟨by simpa using ht, hs⟩

theorem randomSetup_ends (S : SetupSource) (test : Nat → Bool) (fuel : Nat) (hsound : ∀ n, test n = true → n.Prime) :
    StepEnds (randomSetupDraw S test fuel) freshCell (fun v o => o = printLine [ascii "P = ", itoa v.1] ++
      (printLine [ascii "A = ", itoa v.2.1] ++ (printLine [ascii "B = ", itoa v.2.2] ++ []))) (fun o => o = []) := by
  unfold randomSetupDraw
  refine stepEnds_bind _ _ _ _ _ _ (stepEnds_mono _ _ _ _ _ _ (stepEnds_prime256 S test fuel freshCell) (fun _ _ h => h)
    (fun o h => h)) ?_
  rintro p s1 ⟨hp, h1⟩
  have hp0 := (hsound p hp).ne_zero
  refine stepEnds_bind _ _ _ _ _ _ (stepEnds_mono _ _ _ _ _ _ (stepEnds_below S p hp0 s1) (fun _ _ h => h)
    (fun o h => h.trans h1)) ?_
  intro a s2 h2
  refine stepEnds_bind _ _ _ _ _ _ (stepEnds_mono _ _ _ _ _ _ (stepEnds_below S p hp0 s2) (fun _ _ h => h)
    (fun o h => h.trans (h2.trans h1))) ?_
  intro b s3 h3
  refine stepEnds_bind _ _ _ _ _ _ (stepEnds_print _ _ s3 _) ?_
  intro u4 s4 h4
  refine stepEnds_bind _ _ _ _ _ _ (stepEnds_print _ _ s4 _) ?_
  intro u5 s5 h5
  refine stepEnds_bind _ _ _ _ _ _ (stepEnds_print _ _ s5 _) ?_
  intro u6 s6 h6
  refine stepEnds_pure _ _ _ _ ?_
  rw [h6, h5, h4, h3, h2, h1]
  simp [freshCell]

/-- C145 holds. -/
theorem C145_setup_errors : C145_statement := by
  intro S test fuel hsound
  constructor
  · refine endsWell_of _ _ _ _ (trustedSetup_ends S test fuel) ?_ earlyText_shows
    intro v o ho l hl
    subst ho
    have skip : ∀ (a : String) (b r : Bytes), 10 ∉ ascii a → 10 ∉ b → ShowsLine r l → ShowsLine (printLine [ascii a, b] ++ r) l :=
      fun a b r ha hb h => (showsLine_cons _ _ _ _ ha hb).2 (.inr h)
    have e : restText v = printLine [ascii "Bit length of p = ", itoa v.p.size] ++
        (printLine [ascii "Bit length of q = ", itoa v.q.size] ++ (printLine [ascii "N = ", itoa v.N] ++
        (printLine [ascii "g = ", itoa v.g] ++ (printLine [ascii "h = ", intString v.h] ++ [])))) := by
      simp [restText]
    rw [e]
    refine skip _ _ _ (by decide) (newline_itoa _) (skip _ _ _ (by decide) (newline_itoa _)
      (skip _ _ _ (by decide) (newline_itoa _) (skip _ _ _ (by decide) (newline_itoa _) ?_)))
    simp only [List.mem_cons, List.not_mem_nil, or_false] at hl
    rcases hl with rfl | rfl | rfl
    · exact showsLine_same _ _ _ (by decide) (newline_itoa _)
    · exact skip _ _ _ (by decide) (newline_itoa _) (showsLine_same _ _ _ (by decide) (newline_itoa _))
    · exact skip _ _ _ (by decide) (newline_itoa _) (skip _ _ _ (by decide) (newline_itoa _)
        (showsLine_same _ _ _ (by decide) (newline_intString _)))
  · refine endsWell_of _ _ _ _ (randomSetup_ends S test fuel hsound) ?_ ?_
    · intro v o ho l hl
      subst ho
      have skip : ∀ (a : String) (b r : Bytes), 10 ∉ ascii a → 10 ∉ b → ShowsLine r l → ShowsLine (printLine [ascii a, b] ++ r) l :=
        fun a b r ha hb h => (showsLine_cons _ _ _ _ ha hb).2 (.inr h)
      simp only [List.mem_cons, List.not_mem_nil, or_false] at hl
      rcases hl with rfl | rfl | rfl
      · exact showsLine_same _ _ _ (by decide) (newline_itoa _)
      · exact skip _ _ _ (by decide) (newline_itoa _) (showsLine_same _ _ _ (by decide) (newline_itoa _))
      · exact skip _ _ _ (by decide) (newline_itoa _) (skip _ _ _ (by decide) (newline_itoa _)
          (showsLine_same _ _ _ (by decide) (newline_itoa _)))
    · rintro o rfl l hl
      apply showsLine_nil
      simp only [List.mem_cons, List.not_mem_nil, or_false] at hl
      rcases hl with rfl | rfl | rfl <;> decide

/-- A source whose third call fails. -/
def thirdFails (a b : Nat) : SetupSource where
  prime i bits := if i = 2 then none else (twoPrimes a b).prime i bits
  int i max := if i = 2 then none else (twoPrimes a b).int i max

/-- The setup panics, although both primes were found, and has shown both of them. -/
example : ∃ s, trustedSetupDraw (thirdFails setupPrime1 setupPrime2) exactTest 1 freshCell = (.error .panic, s) ∧
    none ∈ s.log ∧ itoa (setupPrime1 * 2 + 1) ∈ wordsOf s.obj := by
  have h1 := getSafePrimeDraw_first (thirdFails setupPrime1 setupPrime2) exactTest setupPrime1 freshCell rfl
    ((exactTest_iff _).2 setupPrime1_prime) ((exactTest_iff _).2 setupPrime1_safe)
  have h2 := getSafePrimeDraw_first (thirdFails setupPrime1 setupPrime2) exactTest setupPrime2
    ⟨freshCell.log ++ [some (setupPrime1 : Int)], freshCell.obj ++ foundLine (setupPrime1 * 2 + 1)⟩ rfl
    ((exactTest_iff _).2 setupPrime2_prime) ((exactTest_iff _).2 setupPrime2_safe)
  have hf : ∀ (p q : Nat) (s : Cell Bytes), s.log.length = 2 → getRanQRDraw (thirdFails setupPrime1 setupPrime2) p q 1 s =
      (.error .panic, ⟨s.log ++ [none], s.obj⟩) := by
    intro p q s hs
    rw [getRanQRDraw]
    refine draw_bind_error _ _ _ _ _ ?_
    unfold Draw.mustReturn randBelow
    have hm : min2048 ≠ 0 := by decide +kernel
    have hn : ∀ m, (thirdFails setupPrime1 setupPrime2).int s.log.length m = none := fun m => by rw [hs]; rfl
    rw [if_neg hm, hn]
  have hpr : ∀ l t (s : Cell Bytes), printTwo l t s = (.ok (), ⟨s.log, s.obj ++ printLine [ascii l, t]⟩) := fun _ _ _ => rfl
  unfold trustedSetupDraw
  rw [draw_bind_ok _ _ _ _ _ h1, draw_bind_ok _ _ _ _ _ h2, draw_bind_ok _ _ _ _ _ (hpr _ _ _),
    draw_bind_ok _ _ _ _ _ (hpr _ _ _)]
  dsimp only
  rw [draw_bind_error _ _ _ _ _ (hf _ _ _ rfl)]
  refine ⟨_, rfl, by simp, ?_⟩
  dsimp only
  rw [show freshCell.obj = [] from rfl, List.nil_append, List.append_assoc, List.append_assoc, words_found]
  simp

/-! ## C146 -/

/-- C146: the modulus has 2048 bits, its primes have 1024 bits each, and the two bases are reduced and invertible. -/
def C146_statement : Prop :=
  ∀ (S : SetupSource) (test : Nat → Bool) (fuel : Nat) (v : SetupResult) (s : Cell Bytes), SizedSource S →
    (∀ n, test n = true → n.Prime) → trustedSetupDraw S test fuel freshCell = (.ok v, s) →
    v.N.size = 2048 ∧ v.p.size = 1024 ∧ v.q.size = 1024 ∧ 0 < v.g ∧ v.g < v.N ∧ 0 < v.h ∧ v.h < v.N ∧
      Nat.Coprime v.g v.N ∧ Nat.Coprime v.h.toNat v.N

/-- Bounds for the product of two numbers of `b + 1` bits whose halves have their two highest bits set. -/
theorem product_bounds (b r t : Nat) (hr : 3 * 2 ^ b ≤ r) (ht : 3 * 2 ^ b ≤ t) (hr2 : r < 2 ^ (b + 2)) (ht2 : t < 2 ^ (b + 2)) :
    2 ^ (2 * b + 5) ≤ (r * 2 + 1) * (t * 2 + 1) ∧ (r * 2 + 1) * (t * 2 + 1) < 2 ^ (2 * b + 6) := by
  have e1 : 2 ^ (2 * b + 5) = 32 * (2 ^ b * 2 ^ b) := by rw [← pow_add, ← two_mul, pow_add]; ring
  have e2 : 2 ^ (2 * b + 6) = 64 * (2 ^ b * 2 ^ b) := by rw [← pow_add, ← two_mul, pow_add]; ring
  have e3 : 2 ^ (b + 2) = 4 * 2 ^ b := by rw [pow_add]; ring
  rw [e1, e2]
  rw [e3] at hr2 ht2
  generalize 2 ^ b = x at *
  constructor <;> nlinarith

theorem product_sizes (c r t : Nat) (hc : 2 ≤ c) (hr : 3 * 2 ^ (c - 2) ≤ r) (ht : 3 * 2 ^ (c - 2) ≤ t) (zr : r.size = c)
    (zt : t.size = c) :
    2 ^ (2 * c + 1) ≤ (r * 2 + 1) * (t * 2 + 1) ∧ ((r * 2 + 1) * (t * 2 + 1)).size = 2 * c + 2 := by
  have lt_of_size : ∀ n b, n.size = b → n < 2 ^ b := fun n b hb => hb ▸ Nat.lt_size_self n
  obtain ⟨b, rfl⟩ : ∃ b, c = b + 2 := ⟨c - 2, by omega⟩
  rw [Nat.add_sub_cancel] at hr ht
  obtain ⟨h1, h2⟩ := product_bounds b r t hr ht (lt_of_size _ _ zr) (lt_of_size _ _ zt)
  rw [show 2 * (b + 2) + 1 = 2 * b + 5 by ring, show 2 * (b + 2) + 2 = 2 * b + 5 + 1 by ring]
  exact ⟨h1, size_of_bounds _ _ h1 h2⟩

/-- C146 holds. -/
theorem C146_sizes : C146_statement := by
  intro S test fuel v s hS hsound h
  obtain ⟨-, ⟨i, j, r, t, -, hr, hp, ht, hq⟩, ⟨k, hg⟩, -⟩ := trustedSetupDraw_ok S test fuel v _ _ h
  obtain ⟨e, sp, sq, hqr, m, hh⟩ := setup_result S test fuel v s hsound h
  obtain ⟨g1, g2⟩ := isQR_coprime _ _ _ sp.1.ne_zero sq.1.ne_zero hqr
  rw [Int.gcd_natCast_natCast] at g1 g2
  have zr := hS.size _ _ _ hr
  have zt := hS.size _ _ _ ht
  have hb := product_sizes _ r t (by omega) (hS.top _ _ _ hr) (hS.top _ _ _ ht) zr zt
  rw [← hp, ← hq, ← e] at hb
  have hm : min2048 = 2 ^ (2 * (2048 / 2 - 1) + 1) := congrArg (fun n => 2 ^ n) (by omega : 2048 - 1 = 2 * (2048 / 2 - 1) + 1)
  have hco : Nat.Coprime v.g v.N := by rw [e]; exact Nat.Coprime.mul_right g1 g2
  have hN : 1 < v.N := by
    rw [e]
    have := sp.1.one_lt
    have := sq.1.pos
    nlinarith
  have pos : ∀ x, Nat.Coprime x v.N → 0 < x := by
    intro x hx
    rcases Nat.eq_zero_or_pos x with rfl | h0
    · rw [Nat.coprime_zero_left] at hx; omega
    · exact h0
  have hcoh : Nat.Coprime (v.g ^ m % v.N) v.N := by
    rw [Nat.Coprime, ← Nat.gcd_rec, Nat.gcd_comm]
    exact Nat.Coprime.pow_left m hco
  have hlt : v.g ^ m % v.N < v.N := Nat.mod_lt _ (by omega)
  have hgN : v.g < v.N := lt_of_lt_of_le (hS.below _ _ _ hg) (hm ▸ hb.1)
  refine ⟨hb.2, ?_, ?_, pos _ hco, hgN, ?_, ?_, hco, ?_⟩
  · rw [hp]; exact size_twice _ _ zr
  · rw [hq]; exact size_twice _ _ zt
  · rw [hh]; exact_mod_cast pos _ hcoh
  · rw [hh]; exact_mod_cast hlt
  · rw [hh, Int.toNat_natCast]; exact hcoh

/-- The run with the two primes meets the hypotheses. -/
example : ∃ v s, trustedSetupDraw (twoPrimes setupPrime1 setupPrime2) exactTest 1 freshCell = (.ok v, s) ∧ v.N.size = 2048 := by
  obtain ⟨v, s, hr, -⟩ := twoPrimes_run setupPrime1 setupPrime2 exactTest ((exactTest_iff _).2 setupPrime1_prime)
    ((exactTest_iff _).2 setupPrime2_prime) ((exactTest_iff _).2 setupPrime1_safe) ((exactTest_iff _).2 setupPrime2_safe)
  exact ⟨v, s, hr, (C146_sizes _ _ _ _ _ (twoPrimes_sized _ _ setupPrime1_size setupPrime2_size setupPrime1_top setupPrime2_top)
    (fun n => (exactTest_iff n).1) hr).1⟩

end Verif.Props
