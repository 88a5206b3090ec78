import Verif.Model.SetupRun
import Verif.Spec.Text
import Verif.Props.RandomSource
import Verif.Props.Printing
import Verif.Props.Setup
import Verif.Lemmas.SetupPrimes

/-!
# What the setup prints, and a random source that fails (C143 - C146)
-/

namespace Verif.Props
open Verif.Go Verif.Model Verif.Lemmas Verif.Spec

/-! ## The random source -/

/-- What is known about `crand.Prime` and `crand.Int`: primes have the asked number of bits and their two highest bits are set,
numbers are below the limit. -/
structure SizedSource (S : SetupSource) : Prop where
  size : ∀ i bits v, S.prime i bits = some v → v.size = bits
  top : ∀ i bits v, S.prime i bits = some v → 3 * 2 ^ (bits - 2) ≤ v
  below : ∀ i max v, S.int i max = some v → v < max

/-- The candidates for the two primes. -/
def setupCand (S : SetupSource) (i : Nat) : Nat := (S.prime i (2048 / 2 - 1)).getD 0

/-- The candidates for `g`. -/
def setupRnd (S : SetupSource) (i : Nat) : Nat := (S.int i min2048).getD 0

/-! ## Steps that end well -/

theorem mustReturn_ok_iff {P α : Type} (m : Draw P α) (v : α) (s s' : Cell P) :
    Draw.mustReturn m s = (.ok v, s') ↔ m s = (.ok v, s') := by
  unfold Draw.mustReturn
  rcases h : m s with ⟨e | w, s1⟩
  · cases e <;> simp
  · simp

theorem randPrime_ok_iff {P : Type} (S : SetupSource) (bits v : Nat) (s s' : Cell P) :
    randPrime S bits s = (.ok v, s') ↔
      2 ≤ bits ∧ S.prime s.log.length bits = some v ∧ s' = ⟨s.log ++ [some (v : Int)], s.obj⟩ := by
  unfold randPrime
  by_cases hm : bits < 2
  · rw [if_pos hm]
    simp [hm]
  · rw [if_neg hm]
    cases h : S.prime s.log.length bits with
    | none => simp
    | some w =>
      simp only [Prod.mk.injEq, Except.ok.injEq, Option.some.injEq]
      constructor
      · rintro ⟨rfl, rfl⟩
        exact ⟨not_lt.1 hm, rfl, rfl⟩
      · rintro ⟨_, rfl, rfl⟩
        exact ⟨rfl, rfl⟩

theorem randBelow_ok_iff {P : Type} (S : SetupSource) (max v : Nat) (s s' : Cell P) :
    randBelow S max s = (.ok v, s') ↔
      max ≠ 0 ∧ S.int s.log.length max = some v ∧ s' = ⟨s.log ++ [some (v : Int)], s.obj⟩ := by
  unfold randBelow
  by_cases hm : max = 0
  · rw [if_pos hm]
    simp [hm]
  · rw [if_neg hm]
    cases h : S.int s.log.length max with
    | none => simp
    | some w =>
      simp only [Prod.mk.injEq, Except.ok.injEq, Option.some.injEq]
      constructor
      · rintro ⟨rfl, rfl⟩
        exact ⟨hm, rfl, rfl⟩
      · rintro ⟨_, rfl, rfl⟩
        exact ⟨rfl, rfl⟩

theorem printTwo_ok_iff (label : String) (text : Bytes) (u : Unit) (s s' : Cell Bytes) :
    printTwo label text s = (.ok u, s') ↔ s' = ⟨s.log, s.obj ++ printLine [ascii label, text]⟩ :=
  draw_write_ok_iff _ _ _ _

/-- The line that `getSafePrime` prints. -/
def foundLine (p : Nat) : Bytes := printLine [ascii "Found one safe prime = ", itoa p]

theorem getSuitablePrimeDraw_ok (S : SetupSource) (test : Nat → Bool) (fuel r : Nat) (s s' : Cell Bytes)
    (h : getSuitablePrimeDraw S test fuel s = (.ok r, s')) :
    getSuitablePrime test (setupCand S) fuel s.log.length = some (r, s'.log.length) ∧ s'.obj = s.obj ∧
      ∃ i, (s.log.length ≤ i ∧ i < s'.log.length) ∧ S.prime i (2048 / 2 - 1) = some r := by
  induction fuel generalizing s with
  | zero => cases h
  | succ fuel ih =>
    rw [getSuitablePrimeDraw, draw_bind_ok_iff] at h
    obtain ⟨v, s1, h1, h⟩ := h
    rw [mustReturn_ok_iff, randPrime_ok_iff] at h1
    obtain ⟨-, h1, rfl⟩ := h1
    have hc : setupCand S s.log.length = v := by rw [setupCand, h1]; rfl
    rw [getSuitablePrime]
    simp only [hc]
    by_cases a1 : safePrimeSieve v = false
    · rw [if_pos a1] at h ⊢
      obtain ⟨b1, b2, i, b3, b4⟩ := ih _ h
      rw [List.length_append] at b1 b3
      exact ⟨b1, b2, i, ⟨by omega, b3.2⟩, b4⟩
    · rw [if_neg a1] at h ⊢
      by_cases a2 : test v = false
      · rw [if_pos a2] at h ⊢
        obtain ⟨b1, b2, i, b3, b4⟩ := ih _ h
        rw [List.length_append] at b1 b3
        exact ⟨b1, b2, i, ⟨by omega, b3.2⟩, b4⟩
      · rw [if_neg a2] at h ⊢
        rw [draw_pure_ok_iff] at h
        obtain ⟨rfl, rfl⟩ := h
        exact ⟨by simp, rfl, _, ⟨le_refl _, by simp⟩, h1⟩

theorem getSafePrimeDraw_ok (S : SetupSource) (test : Nat → Bool) (fuel p : Nat) (s s' : Cell Bytes)
    (h : getSafePrimeDraw S test fuel s = (.ok p, s')) :
    getSafePrime test (setupCand S) fuel s.log.length = some (p, s'.log.length) ∧ s'.obj = s.obj ++ foundLine p ∧
      ∃ i r, (s.log.length ≤ i ∧ i < s'.log.length) ∧ S.prime i (2048 / 2 - 1) = some r ∧ p = r * 2 + 1 := by
  induction fuel generalizing s with
  | zero => cases h
  | succ fuel ih =>
    rw [getSafePrimeDraw, draw_bind_ok_iff] at h
    obtain ⟨v, s1, h1, h⟩ := h
    obtain ⟨h1, ho, hi⟩ := getSuitablePrimeDraw_ok S test _ _ _ _ h1
    rw [getSafePrime, h1]
    simp only
    by_cases a1 : test (v * 2 + 1) = false
    · rw [if_pos a1] at h ⊢
      obtain ⟨h2, h3, i, r, h4, h5⟩ := ih _ h
      obtain ⟨j, hj, -⟩ := hi
      exact ⟨h2, by rw [h3, ho], i, r, ⟨by omega, h4.2⟩, h5⟩
    · rw [if_neg a1] at h ⊢
      rw [draw_bind_ok_iff] at h
      obtain ⟨u, s2, h2, h⟩ := h
      rw [printTwo_ok_iff] at h2
      rw [draw_pure_ok_iff] at h
      obtain ⟨rfl, rfl⟩ := h
      subst h2
      obtain ⟨i, hi1, hi⟩ := hi
      exact ⟨rfl, by simp only [ho]; rfl, i, v, hi1, hi, rfl⟩

theorem getRanQRDraw_ok (S : SetupSource) (p q fuel g : Nat) (s s' : Cell Bytes)
    (h : getRanQRDraw S p q fuel s = (.ok g, s')) :
    getRanQR (setupRnd S) p q fuel s.log.length = Run.ok g ∧ s'.obj = s.obj ∧ ∃ i, S.int i min2048 = some g := by
  induction fuel generalizing s with
  | zero => cases h
  | succ fuel ih =>
    rw [getRanQRDraw, draw_bind_ok_iff] at h
    obtain ⟨v, s1, h1, h⟩ := h
    rw [mustReturn_ok_iff, randBelow_ok_iff] at h1
    obtain ⟨-, h1, rfl⟩ := h1
    rw [draw_bind_ok_iff] at h
    obtain ⟨b, s2, h2, h⟩ := h
    rw [draw_res_ok_iff] at h2
    obtain ⟨h2, rfl⟩ := h2
    have hc : setupRnd S s.log.length = v := by rw [setupRnd, h1]; rfl
    rw [getRanQR]
    simp only [hc, h2]
    rw [show liftRes (Except.ok b : Res Bool) = Run.ok b from rfl, run_ok_bind]
    cases b with
    | false =>
      rw [if_pos rfl] at h ⊢
      have := ih _ h
      simpa using this
    | true =>
      rw [if_neg (by decide)] at h ⊢
      rw [draw_pure_ok_iff] at h
      obtain ⟨rfl, rfl⟩ := h
      exact ⟨rfl, rfl, _, h1⟩

theorem getRanQR_shift (rnd : Nat → Nat) (p q fuel pos : Nat) :
    getRanQR rnd p q fuel pos = getRanQR (fun i => rnd (pos + i)) p q fuel 0 := by
  have key : ∀ fuel k, getRanQR rnd p q fuel (pos + k) = getRanQR (fun i => rnd (pos + i)) p q fuel k := by
    intro fuel
    induction fuel with
    | zero => intro k; rfl
    | succ f ih =>
      intro k
      rw [getRanQR, getRanQR]
      have := ih (k + 1)
      rw [← Nat.add_assoc] at this
      rw [this]
  exact key fuel 0

/-- The rest of the text, after the two lines about the primes. -/
def restText (v : SetupResult) : Bytes :=
  printLine [ascii "Bit length of p = ", itoa v.p.size] ++ printLine [ascii "Bit length of q = ", itoa v.q.size] ++
    printLine [ascii "N = ", itoa v.N] ++ printLine [ascii "g = ", itoa v.g] ++ printLine [ascii "h = ", intString v.h]

/-- A completed run of the setup: the drawn numbers, the text, and the result of the model with streams. -/
theorem trustedSetupDraw_ok (S : SetupSource) (test : Nat → Bool) (fuel : Nat) (v : SetupResult) (s s' : Cell Bytes)
    (h : trustedSetupDraw S test fuel s = (.ok v, s')) :
    s'.obj = s.obj ++ foundLine v.p ++ foundLine v.q ++ restText v ∧
    (∃ i j r t, i < j ∧ S.prime i (2048 / 2 - 1) = some r ∧ v.p = r * 2 + 1 ∧
      S.prime j (2048 / 2 - 1) = some t ∧ v.q = t * 2 + 1) ∧
    (∃ i, S.int i min2048 = some v.g) ∧
    (s.log = [] → ∃ rnd i r, S.prime i 2048 = some r ∧
      trustedSetupForQRN test (setupCand S) rnd r fuel = Run.ok (v.N, v.g, v.h, v.p, v.q)) := by
  unfold trustedSetupDraw at h
  rw [draw_bind_ok_iff] at h
  obtain ⟨p, s1, hp, h⟩ := h
  rw [draw_bind_ok_iff] at h
  obtain ⟨q, s2, hq, h⟩ := h
  obtain ⟨hp1, hp2, hp3⟩ := getSafePrimeDraw_ok _ _ _ _ _ _ hp
  obtain ⟨hq1, hq2, hq3⟩ := getSafePrimeDraw_ok _ _ _ _ _ _ hq
  simp only [draw_bind_ok_iff, printTwo_ok_iff, mustReturn_ok_iff, randPrime_ok_iff, draw_pure_ok_iff] at h
  obtain ⟨⟨⟩, s3, rfl, ⟨⟩, s4, rfl, g, s5, hg, r, s6, ⟨-, hr, rfl⟩, ⟨⟩, s7, rfl, ⟨⟩, s8, rfl, ⟨⟩, s9, rfl, rfl, rfl⟩ := h
  obtain ⟨hg1, hg2, hg3⟩ := getRanQRDraw_ok _ _ _ _ _ _ _ hg
  obtain ⟨i, r1, hi, hp3, hp4⟩ := hp3
  obtain ⟨j, r2, hj, hq3, hq4⟩ := hq3
  refine ⟨?_, ⟨i, j, r1, r2, by omega, hp3, hp4, hq3, hq4⟩, hg3, ?_⟩
  · simp only [hg2, hq2, hp2, restText, List.append_assoc]
  · intro h0
    refine ⟨fun i => setupRnd S (s2.log.length + i), _, r, hr, ?_⟩
    rw [h0] at hp1
    rw [getRanQR_shift] at hg1
    unfold trustedSetupForQRN
    rw [show getSafePrime test (setupCand S) fuel 0 = some (p, s1.log.length) from hp1, liftLoop_some, run_ok_bind]
    dsimp only
    rw [hq1, liftLoop_some, run_ok_bind]
    dsimp only
    rw [hg1, run_ok_bind]
    rfl

/-! ## Texts -/

theorem pieces_cut (c : UInt8) (a r : Bytes) (h : c ∉ a) : pieces c (a ++ c :: r) = a :: pieces c r := by
  induction a with
  | nil => simp [pieces]
  | cons x a ih =>
    rw [List.mem_cons, not_or] at h
    rw [List.cons_append, pieces, if_neg (fun e => h.1 e.symm), ih h.2]

theorem linesOf_printLine (a b r : Bytes) (ha : 10 ∉ a) (hb : 10 ∉ b) :
    linesOf (printLine [a, b] ++ r) = (a ++ 32 :: b) :: linesOf r := by
  have e : printLine [a, b] ++ r = (a ++ 32 :: b) ++ 10 :: r := by simp [printLine]
  rw [e, linesOf, pieces_cut _ _ _ (by simp [ha, hb])]
  rfl

theorem wordsOf_printLine (a b r : Bytes) (ha : 10 ∉ a) (hb : 10 ∉ b) :
    wordsOf (printLine [a, b] ++ r) = pieces 32 (a ++ 32 :: b) ++ wordsOf r := by
  rw [wordsOf, linesOf_printLine a b r ha hb]
  rfl

theorem pieces_single (c : UInt8) (a : Bytes) (h : c ∉ a) : pieces c a = [a] := by
  induction a with
  | nil => rfl
  | cons x a ih =>
    rw [List.mem_cons, not_or] at h
    rw [pieces, if_neg (fun e => h.1 e.symm), ih h.2]

theorem pieces_ne_nil (c : UInt8) (a : Bytes) : pieces c a ≠ [] := by
  cases a with
  | nil => simp [pieces]
  | cons x a =>
    rw [pieces]
    split
    · simp
    · split <;> simp

theorem pieces_append (c : UInt8) (a b : Bytes) : pieces c (a ++ c :: b) = pieces c a ++ pieces c b := by
  induction a with
  | nil => simp [pieces]
  | cons x a ih =>
    rw [List.cons_append, pieces, pieces, ih]
    split
    · rfl
    · cases hp : pieces c a with
      | nil => exact absurd hp (pieces_ne_nil c a)
      | cons w ws => rfl

/-- The words of a line that ends with a number. -/
theorem wordsOf_line (label : String) (n : Bytes) (r : Bytes) (hl : 10 ∉ ascii label) (h1 : 10 ∉ n) (h2 : 32 ∉ n) :
    wordsOf (printLine [ascii label, n] ++ r) = pieces 32 (ascii label) ++ n :: wordsOf r := by
  rw [wordsOf_printLine _ _ _ hl h1, pieces_append, pieces_single _ _ h2, List.append_assoc]
  rfl

/-! ## Factors of the modulus -/

theorem newline_itoa (n : Nat) : (10 : UInt8) ∉ itoa n := itoa_no n 10 (by decide)

theorem space_itoa (n : Nat) : (32 : UInt8) ∉ itoa n := itoa_no n 32 (by decide)

theorem words_found (p : Nat) (r : Bytes) :
    wordsOf (foundLine p ++ r) = pieces 32 (ascii "Found one safe prime = ") ++ itoa p :: wordsOf r :=
  wordsOf_line _ _ _ (by decide) (newline_itoa p) (space_itoa p)

/-- C143: the text of a completed run shows no proper factor of the modulus. -/
def C143_statement : Prop :=
  ∀ (S : SetupSource) (test : Nat → Bool) (fuel : Nat) (v : SetupResult) (s : Cell Bytes), SizedSource S →
    (∀ i bits r, S.prime i bits = some r → r.Prime) → (∀ n, test n = true ↔ n.Prime) →
    trustedSetupDraw S test fuel freshCell = (.ok v, s) → ¬ ShowsFactor s.obj v.N

/-- The result of a completed run is that of the model with streams. -/
theorem setup_result (S : SetupSource) (test : Nat → Bool) (fuel : Nat) (v : SetupResult) (s : Cell Bytes)
    (hsound : ∀ n, test n = true → n.Prime) (h : trustedSetupDraw S test fuel freshCell = (.ok v, s)) :
    v.N = v.p * v.q ∧ SafePrime v.p ∧ SafePrime v.q ∧ isQR v.g v.p v.q = .ok true ∧ 
      ∃ k : Nat, v.h = ((v.g ^ k % v.N : Nat) : Int) := by
  obtain ⟨-, -, -, h5⟩ := trustedSetupDraw_ok S test fuel v _ _ h
  obtain ⟨rnd, i, r, -, h5⟩ := h5 rfl
  unfold trustedSetupForQRN at h5
  obtain ⟨⟨p0, pos1⟩, hp, h5⟩ := (run_bind_ok_iff _ _ _).1 h5
  obtain ⟨⟨q0, pos2⟩, hq, h5⟩ := (run_bind_ok_iff _ _ _).1 h5
  obtain ⟨g0, hg, h5⟩ := (run_bind_ok_iff _ _ _).1 h5
  rw [liftLoop_ok_iff] at hp hq
  have h5 := run_ok_inj h5
  simp only [Prod.mk.injEq] at h5
  obtain ⟨e1, e2, e3, e4, e5⟩ := h5
  rw [← e1, ← e2, ← e3, ← e4, ← e5]
  obtain ⟨i1, a1, a2, a3⟩ := getSafePrime_spec _ _ _ _ _ _ hp
  obtain ⟨i2, b1, b2, b3⟩ := getSafePrime_spec _ _ _ _ _ _ hq
  have sp : SafePrime p0 := ⟨hsound _ a3, _, hsound _ a2, a1⟩
  have sq : SafePrime q0 := ⟨hsound _ b3, _, hsound _ b2, b1⟩
  refine ⟨rfl, sp, sq, getRanQR_spec _ _ _ _ _ _ hg, ((r : Int) % getOrder p0 q0).natAbs, ?_⟩
  have : NeZero (p0 * q0) := ⟨Nat.mul_ne_zero sp.1.ne_zero sq.1.ne_zero⟩
  have hord : 0 < getOrder p0 q0 := by
    unfold getOrder
    have h1 := sp.1.two_le; have h2 := sq.1.two_le
    have h3 : (0 : Int) < ((p0 : Int) - 1) / 2 := by omega
    have h4 : (0 : Int) < ((q0 : Int) - 1) / 2 := by omega
    positivity
  have hnn : 0 ≤ (r : Int) % getOrder p0 q0 := Int.emod_nonneg _ hord.ne'
  rw [bigExp_nonneg (N := p0 * q0) _ _ hnn, Option.getD_some]
  congr 1
  rw [← ZMod.val_natCast]
  push_cast
  rfl

/-- Every completed run shows both primes. -/
theorem C143_shows (S : SetupSource) (test : Nat → Bool) (fuel : Nat) (v : SetupResult) (s : Cell Bytes)
    (h : trustedSetupDraw S test fuel freshCell = (.ok v, s)) :
    itoa v.p ∈ wordsOf s.obj ∧ itoa v.q ∈ wordsOf s.obj := by
  obtain ⟨h1, -⟩ := trustedSetupDraw_ok S test fuel v _ _ h
  have h2 : s.obj = foundLine v.p ++ (foundLine v.q ++ restText v) := by rw [h1]; simp [freshCell]
  rw [h2, words_found, words_found]
  simp

/-- So every completed run shows a proper factor, whatever the random source gives. -/
theorem C143_always (S : SetupSource) (test : Nat → Bool) (fuel : Nat) (v : SetupResult) (s : Cell Bytes)
    (hsound : ∀ n, test n = true → n.Prime) (h : trustedSetupDraw S test fuel freshCell = (.ok v, s)) :
    ShowsFactor s.obj v.N := by
  obtain ⟨h1, h2, h3, -⟩ := setup_result S test fuel v s hsound h
  refine ⟨v.p, h2.1.one_lt, ?_, ⟨v.q, h1⟩, (C143_shows S test fuel v s h).1⟩
  rw [h1]
  have := h3.1.one_lt
  have := h2.1.pos
  nlinarith

theorem isQR_coprime (x : Int) (p q : Nat) (hp : p ≠ 0) (hq : q ≠ 0) (h : isQR x p q = .ok true) :
    Int.gcd x p = 1 ∧ Int.gcd x q = 1 := by
  unfold isQR at h
  obtain ⟨a, ha, h⟩ := (res_bind_ok_iff _ _ _).1 h
  split at h
  · rename_i a1
    obtain ⟨b, hb, h⟩ := (res_bind_ok_iff _ _ _).1 h
    have h := Except.ok.inj h
    rw [decide_eq_true_eq] at h
    have key : ∀ (m : Nat) (c : Int), m ≠ 0 → bigJacobi x m = .ok c → c = 1 → Int.gcd x m = 1 := by
      intro m c hm hc h1
      unfold bigJacobi at hc
      split at hc
      · cases hc
      · have hc := Except.ok.inj hc
        by_contra hne
        have := jacobiSym.eq_zero_iff.2 ⟨hm, hne⟩
        omega
    exact ⟨key p a hp ha a1, key q b hq hb h⟩
  · have h := Except.ok.inj h
    cases h

/-- The number of bits of twice a number plus one. -/
theorem size_twice (r b : Nat) (h : r.size = b) : (r * 2 + 1).size = b + 1 := by
  subst h
  apply le_antisymm
  · rw [Nat.size_le]
    have : r < 2 ^ r.size := Nat.lt_size_self r
    rw [pow_succ]
    omega
  · rcases Nat.eq_zero_or_pos r with rfl | hr
    · simp [Nat.size_one]
    · rw [Nat.succ_le_iff, Nat.lt_size]
      have h0 : 0 < r.size := Nat.size_pos.2 hr
      have : 2 ^ (r.size - 1) ≤ r := Nat.lt_size.1 (by omega)
      have e : 2 ^ r.size = 2 * 2 ^ (r.size - 1) := by
        rw [← pow_succ']
        congr 1
        omega
      omega

theorem itoa_mem_label (d : Nat) (l : List Bytes) (hl : ∀ w ∈ l, w = [] ∨ ∃ c ∈ w, ¬ (48 ≤ c.toNat ∧ c.toNat ≤ 57)) :
    itoa d ∉ l := by
  intro h
  rcases hl _ h with h | ⟨c, hc, h⟩
  · exact itoa_ne_nil d h
  · exact h (itoa_allDigits d c hc)

theorem proper_factor (p q d : Nat) (hp : p.Prime) (hq : q.Prime) (h1 : 1 < d) (h2 : d < p * q) (h3 : d ∣ p * q) :
    d = p ∨ d = q := by
  obtain ⟨a, b, ha, hb, rfl⟩ := (Nat.dvd_mul).1 h3
  rcases (Nat.dvd_prime hp).1 ha with rfl | rfl <;> rcases (Nat.dvd_prime hq).1 hb with rfl | rfl
  · omega
  · right; omega
  · left; omega
  · omega

/-- What holds: apart from the two lines of `getSafePrime` the text shows no proper factor. Missing from `C143_statement`: the
two lines, which show both primes (`C143_shows`). -/
theorem C143_rest_partial (S : SetupSource) (test : Nat → Bool) (fuel : Nat) (v : SetupResult) (s : Cell Bytes)
    (hS : SizedSource S) (hsound : ∀ n, test n = true → n.Prime)
    (h : trustedSetupDraw S test fuel freshCell = (.ok v, s)) :
    ∃ rest, s.obj = printLine [ascii "Found one safe prime = ", itoa v.p] ++
      printLine [ascii "Found one safe prime = ", itoa v.q] ++ rest ∧ ¬ ShowsFactor rest v.N := by
  obtain ⟨h1, ⟨i1, i2, r1, r2, -, hr1, hp, hr2, hq⟩, -, -⟩ := trustedSetupDraw_ok S test fuel v _ _ h
  obtain ⟨e, sp, sq, hg, k, hk⟩ := setup_result S test fuel v s hsound h
  refine ⟨restText v, by rw [h1]; simp [freshCell, foundLine], ?_⟩
  rintro ⟨d, d1, d2, d3, d4⟩
  rw [e] at d2 d3
  obtain ⟨g1, g2⟩ := isQR_coprime _ _ _ sp.1.ne_zero sq.1.ne_zero hg
  have hd := proper_factor _ _ _ sp.1 sq.1 d1 d2 d3
  have hdp : d.Prime := by rcases hd with rfl | rfl; exacts [sp.1, sq.1]
  have dg : ¬ d ∣ v.g := by
    intro hdv
    have : Int.gcd v.g d = 1 := by rcases hd with rfl | rfl; exacts [g1, g2]
    rw [Int.gcd_natCast_natCast, Nat.gcd_eq_right hdv] at this
    omega
  have dN : d ∣ v.N := by rw [e]; exact d3
  have dh : ¬ d ∣ v.g ^ k % v.N := by
    intro hdv
    rw [Nat.dvd_mod_iff dN] at hdv
    exact dg (hdp.dvd_of_dvd_pow hdv)
  have zp := size_twice r1 _ (hS.size _ _ _ hr1)
  have zq := size_twice r2 _ (hS.size _ _ _ hr2)
  rw [← hp] at zp
  rw [← hq] at zq
  have dbig : 2 ^ 12 ≤ d := by
    rcases hd with rfl | rfl
    · exact Nat.lt_size.1 (by omega)
    · exact Nat.lt_size.1 (by omega)
  have hr : restText v = printLine [ascii "Bit length of p = ", itoa 1024] ++ (printLine [ascii "Bit length of q = ", itoa 1024] ++
      (printLine [ascii "N = ", itoa v.N] ++ (printLine [ascii "g = ", itoa v.g] ++
      (printLine [ascii "h = ", itoa (v.g ^ k % v.N)] ++ [])))) := by
    unfold restText
    rw [zp, zq, hk]
    have : intString ((v.g ^ k % v.N : Nat) : Int) = itoa (v.g ^ k % v.N) := by
      unfold intString
      rw [if_neg (by omega), Int.natAbs_natCast]
    rw [this]
    simp
  rw [hr, wordsOf_line _ _ _ (by decide) (newline_itoa _) (space_itoa _),
    wordsOf_line _ _ _ (by decide) (newline_itoa _) (space_itoa _),
    wordsOf_line _ _ _ (by decide) (newline_itoa _) (space_itoa _),
    wordsOf_line _ _ _ (by decide) (newline_itoa _) (space_itoa _),
    wordsOf_line _ _ _ (by decide) (newline_itoa _) (space_itoa _)] at d4
  simp only [List.mem_append, List.mem_cons] at d4
  have lab : ∀ l : String, (∀ w ∈ pieces 32 (ascii l), w = [] ∨ ∃ c ∈ w, ¬ (48 ≤ c.toNat ∧ c.toNat ≤ 57)) →
      itoa d ∉ pieces 32 (ascii l) := fun l hl => itoa_mem_label d _ hl
  rcases d4 with h | h | h | h | h | h | h | h | h | h | h
  · exact lab _ (by decide) h
  · have := itoa_injective _ _ h; omega
  · exact lab _ (by decide) h
  · have := itoa_injective _ _ h; omega
  · exact lab _ (by decide) h
  · have := itoa_injective _ _ h
    rw [e] at this
    omega
  · exact lab _ (by decide) h
  · exact dg (by rw [itoa_injective _ _ h])
  · exact lab _ (by decide) h
  · exact dh (by rw [← itoa_injective _ _ h])
  · exact itoa_mem_label d _ (by decide) h

/-! ## A run -/

/-- A source that gives the primes `a` and `b`, then a prime of 2048 bits, and 4 for every other number. -/
def twoPrimes (a b : Nat) : SetupSource where
  prime i bits := if bits = 1023 then some (if i = 0 then a else b) else if bits = 2048 then some setupPrime3 else none
  int _ max := if 4 < max then some 4 else none

theorem twoPrimes_sized (a b : Nat) (ha : a.size = 1023) (hb : b.size = 1023) (ta : 3 * 2 ^ (1023 - 2) ≤ a)
    (tb : 3 * 2 ^ (1023 - 2) ≤ b) : SizedSource (twoPrimes a b) := by
  have key : ∀ i bits v, (twoPrimes a b).prime i bits = some v →
      (bits = 1023 ∧ (v = a ∨ v = b)) ∨ (bits = 2048 ∧ v = setupPrime3) := by
    intro i bits v h
    unfold twoPrimes at h
    dsimp only at h
    split at h
    · rename_i hb
      have := Option.some.inj h
      split at this
      · exact .inl ⟨hb, .inl this.symm⟩
      · exact .inl ⟨hb, .inr this.symm⟩
    · split at h
      · rename_i hb
        exact .inr ⟨hb, (Option.some.inj h).symm⟩
      · cases h
  refine ⟨?_, ?_, ?_⟩
  · intro i bits v h
    rcases key i bits v h with ⟨rfl, rfl | rfl⟩ | ⟨rfl, rfl⟩
    exacts [ha, hb, setupPrime3_size]
  · intro i bits v h
    rcases key i bits v h with ⟨rfl, rfl | rfl⟩ | ⟨rfl, rfl⟩
    exacts [ta, tb, setupPrime3_top]
  · intro i max v h
    unfold twoPrimes at h
    dsimp only at h
    split at h
    · have := Option.some.inj h
      omega
    · cases h

theorem twoPrimes_int (a b i max : Nat) (h : 4 < max) : (twoPrimes a b).int i max = some 4 := if_pos h

theorem twoPrimes_prime (a b : Nat) (ha : a.Prime) (hb : b.Prime) (i bits r : Nat)
    (h : (twoPrimes a b).prime i bits = some r) : r.Prime := by
  unfold twoPrimes at h
  dsimp only at h
  split at h
  · have := Option.some.inj h
    split at this
    · rw [← this]; exact ha
    · rw [← this]; exact hb
  · split at h
    · rw [← Option.some.inj h]; exact setupPrime3_prime
    · cases h

/-- One round of `getSafePrime`. -/
theorem getSafePrimeDraw_first (S : SetupSource) (test : Nat → Bool) (r : Nat) (s : Cell Bytes)
    (h : S.prime s.log.length 1023 = some r) (h1 : test r = true) (h2 : test (r * 2 + 1) = true) :
    getSafePrimeDraw S test 1 s = (.ok (r * 2 + 1), ⟨s.log ++ [some (r : Int)], s.obj ++ foundLine (r * 2 + 1)⟩) := by
  have hs : getSuitablePrimeDraw S test 1 s = (.ok r, ⟨s.log ++ [some (r : Int)], s.obj⟩) := by
    rw [getSuitablePrimeDraw]
    rw [draw_bind_ok _ _ s ⟨s.log ++ [some (r : Int)], s.obj⟩ r
      ((mustReturn_ok_iff _ _ _ _).2 ((randPrime_ok_iff _ _ _ _ _).2 ⟨by omega, h, rfl⟩))]
    rw [C24_sieve_accepts_everything, h1, if_neg (by decide), if_neg (by decide)]
    rfl
  rw [getSafePrimeDraw, draw_bind_ok _ _ _ _ _ hs]
  rw [h2, if_neg (by decide)]
  rfl

theorem isQR_four (p q : Nat) (hp : p % 2 = 1) (hq : q % 2 = 1) : isQR ((4 : Nat) : Int) p q = .ok true := by
  have e : ((4 : Nat) : Int) = 2 ^ 2 := by norm_num
  have co : ∀ m : Nat, m % 2 = 1 → Int.gcd 2 m = 1 := by
    intro m hm
    rw [show (2 : Int) = ((2 : Nat) : Int) from rfl, Int.gcd_natCast_natCast]
    exact (Nat.coprime_two_left).2 (Nat.odd_iff.2 hm)
  unfold isQR bigJacobi
  rw [if_neg (by omega), if_neg (by omega), e, jacobiSym.sq_one' (co p hp), jacobiSym.sq_one' (co q hq)]
  rfl

/-- The run of the setup with these numbers. -/
theorem twoPrimes_run (a b : Nat) (test : Nat → Bool) (ha : test a = true) (hb : test b = true)
    (ha2 : test (a * 2 + 1) = true) (hb2 : test (b * 2 + 1) = true) :
    ∃ v s, trustedSetupDraw (twoPrimes a b) test 1 freshCell = (.ok v, s) ∧ v.p = a * 2 + 1 ∧ v.q = b * 2 + 1 := by
  have h1 := getSafePrimeDraw_first (twoPrimes a b) test a freshCell rfl ha ha2
  have h2 := getSafePrimeDraw_first (twoPrimes a b) test b ⟨freshCell.log ++ [some (a : Int)], freshCell.obj ++ foundLine (a * 2 + 1)⟩
    rfl hb hb2
  have hm : 4 < min2048 := by decide +kernel
  have hint : ∀ i, (twoPrimes a b).int i min2048 = some 4 := fun i => twoPrimes_int a b i _ hm
  have hprime : ∀ i, (twoPrimes a b).prime i 2048 = some setupPrime3 := fun i => rfl
  have h3 : ∀ s, getRanQRDraw (twoPrimes a b) (a * 2 + 1) (b * 2 + 1) 1 s = (.ok 4, ⟨s.log ++ [some ((4 : Nat) : Int)], s.obj⟩) := by
    intro s
    rw [getRanQRDraw, draw_bind_ok _ _ s ⟨s.log ++ [some ((4 : Nat) : Int)], s.obj⟩ 4
      ((mustReturn_ok_iff _ _ _ _).2 ((randBelow_ok_iff _ _ _ _ _).2 ⟨by omega, hint _, rfl⟩))]
    rw [isQR_four _ _ (by omega) (by omega)]
    rfl
  have h4 : ∀ s : Cell Bytes, Draw.mustReturn (randPrime (twoPrimes a b) 2048) s =
      (.ok setupPrime3, ⟨s.log ++ [some (setupPrime3 : Int)], s.obj⟩) := fun s =>
    (mustReturn_ok_iff _ _ _ _).2 ((randPrime_ok_iff _ _ _ _ _).2 ⟨by omega, hprime _, rfl⟩)
  have hpr : ∀ l t (s : Cell Bytes), printTwo l t s = (.ok (), ⟨s.log, s.obj ++ printLine [ascii l, t]⟩) := fun _ _ _ => rfl
  unfold trustedSetupDraw
  rw [draw_bind_ok _ _ _ _ _ h1, draw_bind_ok _ _ _ _ _ h2, draw_bind_ok _ _ _ _ _ (hpr _ _ _),
    draw_bind_ok _ _ _ _ _ (hpr _ _ _)]
  dsimp only
  rw [draw_bind_ok _ _ _ _ _ (h3 _), draw_bind_ok _ _ _ _ _ (h4 _), draw_bind_ok _ _ _ _ _ (hpr _ _ _),
    draw_bind_ok _ _ _ _ _ (hpr _ _ _), draw_bind_ok _ _ _ _ _ (hpr _ _ _)]
  exact ⟨_, _, rfl, rfl, rfl⟩

/-- An exact test for primes. -/
noncomputable def exactTest (n : Nat) : Bool := @decide n.Prime (Classical.dec _)

theorem exactTest_iff (n : Nat) : exactTest n = true ↔ n.Prime := by
  unfold exactTest
  exact @decide_eq_true_iff _ (Classical.dec _)

/-- C143 is violated: `getSafePrime` prints the primes. The run is one of the program with its real sizes. -/
theorem C143_violated : ¬ C143_statement := by
  intro h
  obtain ⟨v, s, hr, -, -⟩ := twoPrimes_run setupPrime1 setupPrime2 exactTest ((exactTest_iff _).2 setupPrime1_prime)
    ((exactTest_iff _).2 setupPrime2_prime) ((exactTest_iff _).2 setupPrime1_safe) ((exactTest_iff _).2 setupPrime2_safe)
  exact h _ _ _ _ _ (twoPrimes_sized _ _ setupPrime1_size setupPrime2_size setupPrime1_top setupPrime2_top)
    (twoPrimes_prime _ _ setupPrime1_prime setupPrime2_prime) exactTest_iff hr
    (C143_always _ _ _ _ _ (fun n => (exactTest_iff n).1) hr)

/-! ## C144 -/

/-- C144: the two primes of a completed run differ. -/
def C144_statement : Prop :=
  ∀ (S : SetupSource) (test : Nat → Bool) (fuel : Nat) (v : SetupResult) (s : Cell Bytes), SizedSource S →
    (∀ i bits r, S.prime i bits = some r → r.Prime) → (∀ n, test n = true ↔ n.Prime) →
    trustedSetupDraw S test fuel freshCell = (.ok v, s) → v.p ≠ v.q

/-- C144 is violated: nothing compares the two primes. -/
theorem C144_violated : ¬ C144_statement := by
  intro h
  obtain ⟨v, s, hr, e1, e2⟩ := twoPrimes_run setupPrime1 setupPrime1 exactTest ((exactTest_iff _).2 setupPrime1_prime)
    ((exactTest_iff _).2 setupPrime1_prime) ((exactTest_iff _).2 setupPrime1_safe) ((exactTest_iff _).2 setupPrime1_safe)
  exact h _ _ _ _ _ (twoPrimes_sized _ _ setupPrime1_size setupPrime1_size setupPrime1_top setupPrime1_top)
    (twoPrimes_prime _ _ setupPrime1_prime setupPrime1_prime) exactTest_iff hr (e1.trans e2.symm)

theorem prime_mul_square (p q : Nat) (hp : p.Prime) (hq : q.Prime) : p = q ↔ ∃ k, p * q = k * k := by
  constructor
  · rintro rfl
    exact ⟨p, rfl⟩
  · rintro ⟨k, hk⟩
    have h1 : p ∣ k := by
      rcases (Nat.Prime.dvd_mul hp).1 (hk ▸ Dvd.intro _ rfl : p ∣ k * k) with h | h <;> exact h
    obtain ⟨m, rfl⟩ := h1
    have h2 : q = p * (m * m) := by
      have : p * q = p * (p * (m * m)) := by rw [hk]; ring
      exact Nat.eq_of_mul_eq_mul_left hp.pos this
    exact (Nat.prime_dvd_prime_iff_eq hp hq).1 ⟨_, h2⟩

/-- What holds: the primes come from two different calls of the source, so they differ if no two calls give the same prime; and
they differ exactly if the printed modulus is not a square. Missing from `C144_statement`: sources that repeat a prime. -/
theorem C144_fresh_partial (S : SetupSource) (test : Nat → Bool) (fuel : Nat) (v : SetupResult) (s : Cell Bytes)
    (hsound : ∀ n, test n = true → n.Prime) (h : trustedSetupDraw S test fuel freshCell = (.ok v, s)) :
    ((∀ i j, i < j → S.prime i 1023 ≠ none → S.prime i 1023 ≠ S.prime j 1023) → v.p ≠ v.q) ∧
    (v.p ≠ v.q ↔ ¬ ∃ k, v.N = k * k) := by
  obtain ⟨-, ⟨i, j, r, t, hij, h1, h2, h3, h4⟩, -⟩ := trustedSetupDraw_ok S test fuel v _ _ h
  obtain ⟨e, sp, sq, -⟩ := setup_result S test fuel v s hsound h
  constructor
  · intro hf hpq
    have h1' : S.prime i 1023 = some r := h1
    have h3' : S.prime j 1023 = some t := h3
    have hrt : r = t := by omega
    exact hf i j hij (by rw [h1']; simp) (by rw [h1', h3', hrt])
  · rw [e, ← prime_mul_square _ _ sp.1 sq.1]

/-- The run with two different primes. -/
example : ∃ v s, trustedSetupDraw (twoPrimes setupPrime1 setupPrime2) exactTest 1 freshCell = (.ok v, s) ∧ v.p ≠ v.q := by
  obtain ⟨v, s, hr, e1, e2⟩ := twoPrimes_run setupPrime1 setupPrime2 exactTest ((exactTest_iff _).2 setupPrime1_prime)
    ((exactTest_iff _).2 setupPrime2_prime) ((exactTest_iff _).2 setupPrime1_safe) ((exactTest_iff _).2 setupPrime2_safe)
  exact ⟨v, s, hr, fun he => setupPrimes_differ (by omega)⟩

end Verif.Props
