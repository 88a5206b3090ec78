import Verif.Model.Coins
import Verif.Lemmas.Hiding
import Verif.Props.Soundness

/-!
# Properties C99 and C100: what range proofs and arguments of positivity tell about the secrets

Two secrets that open the same commitments are compared: for every test, the number of coins for which the proof passes it.
-/

namespace Verif.Props
open Verif.Go Verif.Model Verif.Lemmas Verif.Spec

theorem isCommit_unique {N G H x r c c' : Int} (hN : 1 ≤ N) (h : IsCommit N G H x r c) (h' : IsCommit N G H x r c') :
    c = c' := by
  obtain ⟨n, rfl⟩ : ∃ n : Nat, N = n := ⟨N.toNat, by omega⟩
  have : NeZero n := ⟨by omega⟩
  obtain ⟨gx, hr, h1, h2, rfl⟩ := h
  obtain ⟨gx', hr', h3, h4, rfl⟩ := h'
  rw [isPower_iff] at h1 h2 h3 h4
  rw [h1.2, h2.2, h3.2, h4.2]

theorem calC_isCommit {pp : PublicParameters} (hpp : GoodParams pp) (r x : Int) :
    ∃ c, calC pp r x = .ok c ∧ IsCommit pp.N pp.G pp.H x r c := by
  obtain ⟨N, G, H⟩ := pp
  obtain ⟨hN, hG, hH, hgu, hhu⟩ := hpp
  simp only at hN hG hH hgu hhu
  obtain ⟨n, rfl⟩ : ∃ n : Nat, N = n := ⟨N.toNat, by omega⟩
  have : NeZero n := ⟨by omega⟩
  obtain ⟨g, hg⟩ := (isUnit_iff_gcd (N := n) G).2 hgu
  obtain ⟨h, hh⟩ := (isUnit_iff_gcd (N := n) H).2 hhu
  exact ⟨_, calC_gh G H hG hH g h hg hh r x, isCommit_gh G H hG hH g h hg hh x r⟩

theorem calC_value {pp : PublicParameters} (hpp : GoodParams pp) {r x c d : Int} (h : calC pp r x = .ok c)
    (hd : IsCommit pp.N pp.G pp.H x r d) : c = d := by
  obtain ⟨c', h1, h2⟩ := calC_isCommit hpp r x
  rw [h] at h1
  injection h1 with h1
  subst h1
  exact isCommit_unique hpp.modulus h2 hd

theorem commitFromTS_value {pp : PublicParameters} (hpp : GoodParams pp) {rc ts k d : Int3} (h : commitFromTS pp rc ts = .ok k)
    (h0 : IsCommit pp.N pp.G pp.H ts.t0 rc.t0 d.t0) (h1 : IsCommit pp.N pp.G pp.H ts.t1 rc.t1 d.t1)
    (h2 : IsCommit pp.N pp.G pp.H ts.t2 rc.t2 d.t2) : k = d := by
  obtain ⟨c0, e0, i0⟩ := calC_isCommit hpp rc.t0 ts.t0
  obtain ⟨c1, e1, i1⟩ := calC_isCommit hpp rc.t1 ts.t1
  obtain ⟨c2, e2, i2⟩ := calC_isCommit hpp rc.t2 ts.t2
  have f0 : commitGH pp ts.t0 rc.t0 = .ok c0 := e0
  have f1 : commitGH pp ts.t1 rc.t1 = .ok c1 := e1
  have f2 : commitGH pp ts.t2 rc.t2 = .ok c2 := e2
  unfold commitFromTS at h
  rw [f0, f1, f2] at h
  simp only [res_ok_bind, Except.ok.injEq] at h
  rw [← h, isCommit_unique hpp.modulus i0 h0, isCommit_unique hpp.modulus i1 h1, isCommit_unique hpp.modulus i2 h2]

/-! ## C99: range proof -/

/-- What the range prover knows: the value and its opening, the three squares and their openings. -/
structure RangeSecret where
  x : Int
  r : Int
  ts : Int3
  rc : Int3

/-- The secret opens `c` and its squares belong to the range. -/
structure RangeSecret.Fits (s : RangeSecret) (pp : PublicParameters) (a b : Int) (c : Int) : Prop where
  value : IsCommit pp.N pp.G pp.H s.x s.r c
  squares : s.ts.t0 ^ 2 + s.ts.t1 ^ 2 + s.ts.t2 ^ 2 = 4 * (b - s.x) * (s.x - a) + 1

/-- The secret also opens the three commitments `k`. -/
structure RangeSecret.Opens (s : RangeSecret) (pp : PublicParameters) (a b : Int) (c : Int) (k : Int3) : Prop
    extends s.Fits pp a b c where
  sq0 : IsCommit pp.N pp.G pp.H s.ts.t0 s.rc.t0 k.t0
  sq1 : IsCommit pp.N pp.G pp.H s.ts.t1 s.rc.t1 k.t1
  sq2 : IsCommit pp.N pp.G pp.H s.ts.t2 s.rc.t2 k.t2

/-- The opening of the value is one of `0, …, N`; the numbers whose squares are added and `b - x` are at most `X`. -/
structure RangeSecret.Small (s : RangeSecret) (N b X : Int) : Prop where
  r : 0 ≤ s.r ∧ s.r ≤ N
  x0 : 0 ≤ b - s.x ∧ b - s.x ≤ X
  x1 : 0 ≤ s.ts.t0 ∧ s.ts.t0 ≤ X
  x2 : 0 ≤ s.ts.t1 ∧ s.ts.t1 ≤ X
  x3 : 0 ≤ s.ts.t2 ∧ s.ts.t2 ≤ X

/-- The numbers drawn by `commitForX` are among `0, …, N`. -/
structure Drawn (rc : Int3) (N : Int) : Prop where
  r0 : 0 ≤ rc.t0 ∧ rc.t0 ≤ N
  r1 : 0 ≤ rc.t1 ∧ rc.t1 ≤ N
  r2 : 0 ≤ rc.t2 ∧ rc.t2 ≤ N

/-- The nine numbers that are multiplied with the challenge. -/
def RangeSecret.numbers (s : RangeSecret) (b : Int) : Fin 9 → Int :=
  ![b - s.x, s.ts.t0, s.ts.t1, s.ts.t2, -s.r, s.rc.t0, s.rc.t1, s.rc.t2,
    4 * (b - s.x) * -s.r + s.ts.t0 * s.rc.t0 + s.ts.t1 * s.rc.t1 + s.ts.t2 * s.rc.t2]

/-- The proofs that `Prove` makes, as a function of the coins drawn by `commit`. -/
def RangeSecret.proof (s : RangeSecret) (E : Env) (pp : PublicParameters) (a b : Int) (w : Fin 9 → Int) : Option RangeProof :=
  rpProofOf E (newRPProver pp s.r a b) s.x s.ts (rpCoins s.rc w)

/-- The secret with other openings of the squares. -/
def RangeSecret.with (s : RangeSecret) (v : Fin 3 → Int) : RangeSecret := { s with rc := ⟨v 0, v 1, v 2⟩ }

/-- All random numbers of `Prove`: those of `commitForX` and those of `commit`. -/
def rangeCoins (pp : PublicParameters) : Finset ((Fin 3 → Int) × (Fin 9 → Int)) := box (rcLimits pp) ×ˢ box (rpLimits pp)

/-- The proofs for two openings of the same commitment cannot be told apart with an advantage above 2^-128 (the code sets
`securityParam` to 128). -/
def C99_statement : Prop :=
  ∀ (T : TSEnv) (K : Nat) (E : Env) (pp : PublicParameters) (a b c : Int) (s s' : RangeSecret), GoodParams pp →
    IsCommit pp.N pp.G pp.H s.x s.r c → ThreeSquaresReturns T K (rpTarget (newRPProver pp s.r a b) s.x) s.ts →
    IsCommit pp.N pp.G pp.H s'.x s'.r c → ThreeSquaresReturns T K (rpTarget (newRPProver pp s'.r a b) s'.x) s'.ts →
    s.Small pp.N b (2 ^ 1024) → s'.Small pp.N b (2 ^ 1024) →
    Close (2 ^ 128) (rangeCoins pp) (fun v => (s.with v.1).proof E pp a b v.2) (fun v => (s'.with v.1).proof E pp a b v.2)

/-- The nine numbers of a response. -/
def responseOf (v : Fin 9 → Int) : RPResponse := ⟨⟨v 0, v 1, v 2, v 3⟩, ⟨v 4, v 5, v 6, v 7⟩, v 8⟩

theorem responseOf_injective : Function.Injective responseOf := by
  intro v v' h
  simp only [responseOf, RPResponse.mk.injEq, Int4.mk.injEq] at h
  funext i
  fin_cases i
  · exact h.1.1
  · exact h.1.2.1
  · exact h.1.2.2.1
  · exact h.1.2.2.2
  · exact h.2.1.1
  · exact h.2.1.2.1
  · exact h.2.1.2.2.1
  · exact h.2.1.2.2.2
  · exact h.2.2

theorem rpProve_fields (E : Env) (p p' : RPProver) (x : Int) (ts : Int3) (coins : RPCoins) (proof : RangeProof)
    (h : rpProve E p x ts coins = .ok (proof, p')) :
    ∃ c k, calC p.pp p.r x = .ok c ∧ commitFromTS p.pp coins.rc ts = .ok k ∧ proof.c = some c ∧ proof.commit3 = k ∧
      proof.response = some (rpResponseOf E { p with
        c := p'.c, ca := p'.ca, sigma := coins.sigma, x4 := ⟨p.b - x, ts.t0, ts.t1, ts.t2⟩, c3 := k, randM4 := coins.m4,
        r4 := ⟨-p.r, coins.rc.t0, coins.rc.t1, coins.rc.t2⟩, randS4 := coins.s4 }) := by
  unfold rpProve at h
  cases h1 : calC p.pp p.r x with
  | error e => rw [h1] at h; cases h
  | ok c =>
    rw [h1] at h
    simp only [res_ok_bind] at h
    cases h2 : calCa p.pp p.a c with
    | error e => rw [h2] at h; cases h
    | ok ca =>
      rw [h2] at h
      simp only [res_ok_bind, rpCommitForX] at h
      cases h3 : commitFromTS p.pp coins.rc ts with
      | error e => rw [h3] at h; cases h
      | ok c3 =>
        rw [h3] at h
        simp only [res_ok_bind, rpCommit] at h
        generalize rpFirstPartH _ _ _ = A at h
        cases A with
        | error e => cases h
        | ok A =>
          simp only [res_ok_bind] at h
          generalize rpSecondPartH _ _ = B at h
          cases B with
          | error e => cases h
          | ok B =>
            simp only [res_ok_bind, Except.ok.injEq, Prod.mk.injEq] at h
            obtain ⟨rfl, rfl⟩ := h
            exact ⟨c, c3, rfl, rfl, rfl, rfl, rfl⟩

/-- The commitment bytes of an accepted proof are determined by the rest. -/
theorem rpVerify_bytes (E : Env) (v : RPVerifier) (c : Option Int) (k : Int3) (m m' : Bytes) (resp : Option RPResponse)
    (h : rpVerify E v (some ⟨c, k, m, resp⟩) = .ok true) (h' : rpVerify E v (some ⟨c, k, m', resp⟩) = .ok true) : m = m' := by
  have key : ∀ m, rpVerify E v (some ⟨c, k, m, resp⟩) = .ok true →
      ∃ c0 v' resp0 f, c = some c0 ∧ resp = some resp0 ∧ rpVerifySetup v c0 k [] = .ok v' ∧
        rpVerifyParams E v' resp0 = .ok f ∧ m = newRPCommitment E f.1 f.2 := by
    intro m h
    cases c with
    | none => cases h
    | some c0 =>
      simp only [rpVerify, nonNil_some, res_ok_bind] at h
      have hs : rpVerifySetup v c0 k m = (rpVerifySetup v c0 k []).map fun v' => { v' with commitment := m } := by
        unfold rpVerifySetup
        cases nonNil (modInverse c0 v.pp.N) with
        | error e => rfl
        | ok y =>
          simp only [res_ok_bind]
          cases nonNil (bigExp v.pp.G v.b v.pp.N) with
          | error e => rfl
          | ok y2 =>
            simp only [res_ok_bind]
            cases modN (y * y2) v.pp.N with
            | error e => rfl
            | ok y3 =>
              simp only [res_ok_bind]
              cases modN (c0 * (bigExp v.pp.G (-v.a) v.pp.N).getD (-v.a)) v.pp.N with
              | error e => rfl
              | ok y4 => rfl
      rw [hs] at h
      cases hv : rpVerifySetup v c0 k [] with
      | error e => rw [hv] at h; cases h
      | ok v' =>
        rw [hv] at h
        simp only [Except.map, res_ok_bind, rpVerifyResponse] at h
        cases resp with
        | none => cases h
        | some resp0 =>
          simp only [nonNil_some, res_ok_bind] at h
          have hp : rpVerifyParams E { v' with commitment := m } resp0 = rpVerifyParams E v' resp0 := rfl
          rw [hp] at h
          cases hf : rpVerifyParams E v' resp0 with
          | error e => rw [hf] at h; cases h
          | ok f =>
            rw [hf] at h
            simp only [res_ok_bind, Except.ok.injEq, decide_eq_true_eq] at h
            exact ⟨c0, v', resp0, f, rfl, rfl, hv, hf, h.symm⟩
  obtain ⟨c0, v', r0, f, rfl, rfl, h1, h2, rfl⟩ := key m h
  obtain ⟨c0', v'', r0', f', e1, e2, h3, h4, rfl⟩ := key m' h'
  injection e1 with e1
  injection e2 with e2
  subst e1 e2
  rw [h1] at h3
  injection h3 with h3
  subst h3
  rw [h2] at h4
  injection h4 with h4
  rw [h4]

/-- The form of the proofs. -/
theorem range_form (E : Env) (pp : PublicParameters) (a b c : Int) (k : Int3) (s : RangeSecret) (hpp : GoodParams pp)
    (h : s.Opens pp a b c k) (w : Fin 9 → Int) :
    ∃ m, s.proof E pp a b w =
        some ⟨some c, k, m, some (responseOf fun i => rangeChallenge E pp.G pp.H pp.N a b k * s.numbers b i + w i)⟩ ∧
      rpVerify E (newRPVerifier pp a b)
        (some ⟨some c, k, m, some (responseOf fun i => rangeChallenge E pp.G pp.H pp.N a b k * s.numbers b i + w i)⟩) =
          .ok true := by
  obtain ⟨proof, p', h1, -, h2⟩ := C50_complete_of_squares E (newRPProver pp s.r a b) hpp s.x s.ts h.squares (rpCoins s.rc w)
    (newRPVerifier pp a b) ⟨rfl, rfl, rfl⟩
  obtain ⟨c', k', h3, h4, h5, h6, h7⟩ := rpProve_fields E _ p' s.x s.ts _ proof h1
  have ec := calC_value hpp h3 h.value
  have ek := commitFromTS_value hpp h4 h.sq0 h.sq1 h.sq2
  subst ec ek
  obtain ⟨pc, pk, pm, pr⟩ := proof
  simp only at h5 h6 h7
  subst h5 h6 h7
  have hr : ∀ q : RPProver, q.pp = pp → q.a = a → q.b = b → q.c3 = pk → q.sigma = w 8 →
      q.x4 = ⟨b - s.x, s.ts.t0, s.ts.t1, s.ts.t2⟩ → q.randM4 = ⟨w 0, w 1, w 2, w 3⟩ →
      q.r4 = ⟨-s.r, s.rc.t0, s.rc.t1, s.rc.t2⟩ → q.randS4 = ⟨w 4, w 5, w 6, w 7⟩ →
      rpResponseOf E q = responseOf fun i => rangeChallenge E pp.G pp.H pp.N a b pk * s.numbers b i + w i := by
    intro q i1 i2 i3 i4 i5 i6 i7 i8 i9
    have he : rpChallenge E pp a b pk = rangeChallenge E pp.G pp.H pp.N a b pk := rfl
    simp only [rpResponseOf, i1, i2, i3, i4, i5, i6, i7, i8, i9, responseOf, he, RangeSecret.numbers, Matrix.cons_val,
      Matrix.cons_val_zero, Matrix.cons_val_one, RPResponse.mk.injEq, true_and]
    ring
  rw [hr _ rfl rfl rfl rfl rfl rfl rfl rfl rfl] at h1 h2
  refine ⟨pm, ?_, h2⟩
  unfold RangeSecret.proof rpProofOf
  rw [h1]

/-- The distance of two secrets, for the challenge that belongs to the commitments. -/
def rangeDistance (E : Env) (pp : PublicParameters) (a b : Int) (k : Int3) (s s' : RangeSecret) : Fin 9 → Int :=
  fun i => rangeChallenge E pp.G pp.H pp.N a b k * (s.numbers b i - s'.numbers b i)

theorem range_moved (E : Env) (pp : PublicParameters) (a b c : Int) (k : Int3) (s s' : RangeSecret) (hpp : GoodParams pp)
    (h : s.Opens pp a b c k) (h' : s'.Opens pp a b c k) (w : Fin 9 → Int) :
    s.proof E pp a b w = s'.proof E pp a b (w + rangeDistance E pp a b k s s') := by
  obtain ⟨m, e1, v1⟩ := range_form E pp a b c k s hpp h w
  obtain ⟨m', e2, v2⟩ := range_form E pp a b c k s' hpp h' (w + rangeDistance E pp a b k s s')
  have : (fun i => rangeChallenge E pp.G pp.H pp.N a b k * s'.numbers b i + (w + rangeDistance E pp a b k s s') i) =
      fun i => rangeChallenge E pp.G pp.H pp.N a b k * s.numbers b i + w i := by
    funext i
    simp only [Pi.add_apply, rangeDistance]
    ring
  rw [this] at e2 v2
  rw [e1, e2, rpVerify_bytes E _ _ _ m m' _ v1 v2]

theorem range_injective (E : Env) (pp : PublicParameters) (a b c : Int) (k : Int3) (s : RangeSecret) (hpp : GoodParams pp)
    (h : s.Opens pp a b c k) : Function.Injective (s.proof E pp a b) := by
  intro w w' hw
  obtain ⟨m, e1, -⟩ := range_form E pp a b c k s hpp h w
  obtain ⟨m', e2, -⟩ := range_form E pp a b c k s hpp h w'
  rw [e1, e2] at hw
  simp only [Option.some.injEq, RangeProof.mk.injEq, true_and] at hw
  funext i
  have := congrFun (responseOf_injective hw.2) i
  simpa using this

/-- C99: the exact advantage. No test counts more than the coins that leave the box, and some test counts exactly these. -/
theorem C99_advantage (E : Env) (pp : PublicParameters) (a b c : Int) (k : Int3) (s s' : RangeSecret) (hpp : GoodParams pp)
    (h : s.Opens pp a b c k) (h' : s'.Opens pp a b c k) :
    (∀ test, passes (box (rpLimits pp)) (s.proof E pp a b) test ≤ passes (box (rpLimits pp)) (s'.proof E pp a b) test +
      ((box (rpLimits pp)).card - overlap (rpLimits pp) (rangeDistance E pp a b k s s'))) ∧
    ∃ test, passes (box (rpLimits pp)) (s.proof E pp a b) test = passes (box (rpLimits pp)) (s'.proof E pp a b) test +
      ((box (rpLimits pp)).card - overlap (rpLimits pp) (rangeDistance E pp a b k s s')) :=
  ⟨passes_move _ _ _ _ (range_moved E pp a b c k s s' hpp h h'),
    passes_reached _ _ _ _ (range_moved E pp a b c k s s' hpp h h') (range_injective E pp a b c k s' hpp h')⟩

/-- C99: every one of the nine numbers gives a test whose advantage is its distance, measured against the interval from which
the mask is drawn. -/
theorem C99_leak (E : Env) (pp : PublicParameters) (a b c : Int) (k : Int3) (s s' : RangeSecret) (hpp : GoodParams pp)
    (h : s.Opens pp a b c k) (h' : s'.Opens pp a b c k) (i : Fin 9)
    (hi : rangeChallenge E pp.G pp.H pp.N a b k * |s.numbers b i - s'.numbers b i| ≤ rpLimits pp i + 1) :
    ∃ test, (box (rpLimits pp)).card * (rangeChallenge E pp.G pp.H pp.N a b k * |s.numbers b i - s'.numbers b i|) ≤
      (passes (box (rpLimits pp)) (s.proof E pp a b) test - passes (box (rpLimits pp)) (s'.proof E pp a b) test : Int) *
        (rpLimits pp i + 1) := by
  obtain ⟨test, ht⟩ := (C99_advantage E pp a b c k s s' hpp h h').2
  refine ⟨test, ?_⟩
  have h1 := overlap_mul_le (rpLimits pp) (rangeDistance E pp a b k s s') i
  have h2 := overlap_le (rpLimits pp) (rangeDistance E pp a b k s s')
  have h3 : |rangeDistance E pp a b k s s' i| = rangeChallenge E pp.G pp.H pp.N a b k * |s.numbers b i - s'.numbers b i| := by
    unfold rangeDistance
    rw [abs_mul, Nat.abs_cast]
  rw [h3] at h1
  have h4 : 0 ≤ (rangeChallenge E pp.G pp.H pp.N a b k : Int) * |s.numbers b i - s'.numbers b i| :=
    mul_nonneg (Int.natCast_nonneg _) (abs_nonneg _)
  rw [ht]
  generalize overlap (rpLimits pp) _ = o at h1 h2 ⊢
  generalize (box (rpLimits pp)).card = t at h1 h2 ⊢
  generalize rpLimits pp i + 1 = L at hi h1 ⊢
  generalize (rangeChallenge E pp.G pp.H pp.N a b k : Int) * |s.numbers b i - s'.numbers b i| = d at hi h1 h4 ⊢
  generalize passes _ _ test = p
  obtain ⟨l, rfl⟩ := Int.eq_ofNat_of_zero_le (h4.trans hi)
  obtain ⟨d, rfl⟩ := Int.eq_ofNat_of_zero_le h4
  have h5 : ((l : Int) - d).toNat = l - d := by omega
  rw [h5, Int.toNat_natCast] at h1
  push_cast [Nat.cast_sub h2]
  have h6 : ((o * l : Nat) : Int) ≤ ((t * (l - d) : Nat) : Int) := by exact_mod_cast h1
  push_cast [Nat.cast_sub (show d ≤ l by omega)] at h6
  nlinarith

theorem rangeChallenge_lt (E : Env) (G H N a b : Int) (k : Int3) : rangeChallenge E G H N a b k < 2 ^ 256 := by
  unfold rangeChallenge
  refine lt_of_lt_of_le (setBytes_lt _) ?_
  rw [E.sha256_length]
  norm_num

theorem rangeDistance_le (E : Env) (pp : PublicParameters) (a b : Int) (k : Int3) (s s' : RangeSecret) (i : Fin 9) (D : Int)
    (h : |s.numbers b i - s'.numbers b i| ≤ D) : |rangeDistance E pp a b k s s' i| ≤ 2 ^ 256 * D := by
  unfold rangeDistance
  rw [abs_mul, Nat.abs_cast]
  have : ((rangeChallenge E pp.G pp.H pp.N a b k : Nat) : Int) ≤ 2 ^ 256 := by exact_mod_cast (rangeChallenge_lt E _ _ _ _ _ _).le
  exact mul_le_mul this h (abs_nonneg _) (by positivity)

theorem numbers_le (s s' : RangeSecret) (N b X : Int) (h : s.Small N b X) (h' : s'.Small N b X) (hr : Drawn s.rc N)
    (hr' : Drawn s'.rc N) (i : Fin 9) :
    |s.numbers b i - s'.numbers b i| ≤ (![X, X, X, X, N, N, N, N, 7 * (X * N)] : Fin 9 → Int) i := by
  obtain ⟨hr0, h0, h1, h2, h3⟩ := h
  obtain ⟨hr0', h0', h1', h2', h3'⟩ := h'
  obtain ⟨c0, c1, c2⟩ := hr
  obtain ⟨c0', c1', c2'⟩ := hr'
  fin_cases i <;> simp only [RangeSecret.numbers, Matrix.cons_val, Matrix.cons_val_zero, Matrix.cons_val_one, Fin.zero_eta,
    Fin.mk_one, Fin.reduceFinMk, abs_le]
  · omega
  · omega
  · omega
  · omega
  · omega
  · omega
  · omega
  · omega
  · have key : ∀ x y : Int, 0 ≤ x ∧ x ≤ X → 0 ≤ y ∧ y ≤ N → 0 ≤ x * y ∧ x * y ≤ X * N := fun x y hx hy =>
      ⟨mul_nonneg hx.1 hy.1, mul_le_mul hx.2 hy.2 hy.1 (hx.1.trans hx.2)⟩
    have k0 := key _ _ h0 hr0
    have k1 := key _ _ h1 c0
    have k2 := key _ _ h2 c1
    have k3 := key _ _ h3 c2
    have k0' := key _ _ h0' hr0'
    have k1' := key _ _ h1' c0'
    have k2' := key _ _ h2' c1'
    have k3' := key _ _ h3' c2'
    have e : 4 * (b - s.x) * -s.r = -(4 * ((b - s.x) * s.r)) := by ring
    have e' : 4 * (b - s'.x) * -s'.r = -(4 * ((b - s'.x) * s'.r)) := by ring
    rw [e, e']
    constructor <;> omega

theorem mask_m : (2 : Int) ^ 256 * 2 ^ 3962 * (2 ^ 128 * 9 : Nat) ≤ mLimit := by
  unfold mLimit securityParam boundB; decide +kernel

theorem mask_s (N : Int) (hN : 0 ≤ N) : (2 : Int) ^ 256 * N * (2 ^ 128 * 9 : Nat) ≤ 2 ^ 132 * (4 ^ securityParam * N) := by
  have : (2 : Int) ^ 256 * (2 ^ 128 * 9 : Nat) ≤ 2 ^ 132 * 4 ^ securityParam := by unfold securityParam; decide +kernel
  nlinarith

theorem mask_sigma (N : Int) (hN : 0 ≤ N) :
    (2 : Int) ^ 256 * (7 * (2 ^ 3962 * N)) * (2 ^ 128 * 9 : Nat) ≤ 4 ^ securityParam * N * 2 ^ boundB := by
  have : (2 : Int) ^ 256 * (7 * 2 ^ 3962) * (2 ^ 128 * 9 : Nat) ≤ 4 ^ securityParam * 2 ^ boundB := by
    unfold securityParam boundB; decide +kernel
  generalize (2 : Int) ^ 3962 = X at *
  generalize (2 : Int) ^ boundB = Y at *
  generalize (4 : Int) ^ securityParam = Z at *
  generalize ((2 ^ 128 * 9 : Nat) : Int) = V at *
  generalize (2 : Int) ^ 256 = W at *
  nlinarith

theorem rpLimits_nonneg (pp : PublicParameters) (hpp : GoodParams pp) (i : Fin 9) : 0 ≤ rpLimits pp i := by
  have hN := hpp.modulus
  have h1 : 0 ≤ mLimit := by unfold mLimit; positivity
  have h2 : 0 ≤ sLimit pp := by unfold sLimit; positivity
  have h3 : 0 ≤ sigmaLimit pp := by unfold sigmaLimit; positivity
  fin_cases i <;> simp only [rpLimits, Matrix.cons_val, Matrix.cons_val_zero, Matrix.cons_val_one, Fin.zero_eta,
    Fin.mk_one, Fin.reduceFinMk, h1, h2, h3]

/-- What a proof shows of the value and the squares: the commitments and the answers `z` and `tau`. -/
def valueView (p : RangeProof) : Option Int × Int3 × Option (Int4 × Int) :=
  (p.c, p.commit3, p.response.map fun r => (r.Z4, r.TAU))

/-- C99 (part): for given commitments the answers `z` and `tau` hide the secret, even for numbers of almost 4000 bits. Missing:
the answers `t`. -/
theorem C99_values_partial (E : Env) (pp : PublicParameters) (a b c : Int) (k : Int3) (s s' : RangeSecret)
    (hpp : GoodParams pp) (h : s.Opens pp a b c k) (h' : s'.Opens pp a b c k) (hs : s.Small pp.N b (2 ^ 3962))
    (hs' : s'.Small pp.N b (2 ^ 3962)) (hr : Drawn s.rc pp.N) (hr' : Drawn s'.rc pp.N) :
    Close (2 ^ 128) (box (rpLimits pp)) (fun w => (s.proof E pp a b w).map valueView)
      (fun w => (s'.proof E pp a b w).map valueView) := by
  let d : Fin 9 → Int := fun i => if 4 ≤ i ∧ i ≤ 7 then 0 else rangeDistance E pp a b k s s' i
  refine close_of_move _ d _ _ (fun w => ?_) _ (rpLimits_nonneg pp hpp) fun i => ?_
  · obtain ⟨m, e1, -⟩ := range_form E pp a b c k s hpp h w
    obtain ⟨m', e2, -⟩ := range_form E pp a b c k s' hpp h' (w + d)
    simp only [e1, e2, Option.map_some, valueView, responseOf, Option.some.injEq, Prod.mk.injEq, Int4.mk.injEq, true_and,
      Pi.add_apply]
    have key : ∀ i : Fin 9, ¬ (4 ≤ i ∧ i ≤ 7) → rangeChallenge E pp.G pp.H pp.N a b k * s.numbers b i + w i =
        rangeChallenge E pp.G pp.H pp.N a b k * s'.numbers b i + (w i + d i) := by
      intro i hi
      simp only [d, if_neg hi, rangeDistance]
      ring
    exact ⟨⟨key 0 (by decide), key 1 (by decide), key 2 (by decide), key 3 (by decide)⟩, key 8 (by decide)⟩
  · by_cases hi : 4 ≤ i ∧ i ≤ 7
    · have := rpLimits_nonneg pp hpp i
      simp only [d, if_pos hi, abs_zero, zero_mul]
      omega
    · simp only [d, if_neg hi, Fintype.card_fin]
      have hb := rangeDistance_le E pp a b k s s' i _ (numbers_le s s' pp.N b _ hs hs' hr hr' i)
      have h9 : (0 : Int) ≤ ((2 ^ 128 * 9 : Nat) : Int) := Int.natCast_nonneg _
      have := mul_le_mul_of_nonneg_right hb h9
      refine this.trans ?_
      clear this hb h9
      have h1 := mask_m
      have h2 := mask_sigma pp.N (by have := hpp.modulus; omega)
      rw [show (4 : Int) ^ securityParam * pp.N * 2 ^ boundB = sigmaLimit pp from rfl] at h2
      rcases (show i = 0 ∨ i = 1 ∨ i = 2 ∨ i = 3 ∨ i = 8 by revert hi; revert i; decide) with rfl | rfl | rfl | rfl | rfl
      · exact h1.trans (Int.le_add_one le_rfl)
      · exact h1.trans (Int.le_add_one le_rfl)
      · exact h1.trans (Int.le_add_one le_rfl)
      · exact h1.trans (Int.le_add_one le_rfl)
      · exact h2.trans (Int.le_add_one le_rfl)

/-- C99 (part): with the masks of the answers `t` 132 bits longer the whole proof hides the secret. -/
theorem C99_longer_masks_partial (E : Env) (pp : PublicParameters) (a b c : Int) (k : Int3) (s s' : RangeSecret)
    (hpp : GoodParams pp) (h : s.Opens pp a b c k) (h' : s'.Opens pp a b c k) (hs : s.Small pp.N b (2 ^ 3962))
    (hs' : s'.Small pp.N b (2 ^ 3962)) (hr : Drawn s.rc pp.N) (hr' : Drawn s'.rc pp.N) (L : Fin 9 → Int)
    (hL : ∀ i, rpLimits pp i ≤ L i) (hT : ∀ i, 4 ≤ i → i ≤ 7 → 2 ^ 132 * rpLimits pp i ≤ L i) :
    Close (2 ^ 128) (box L) (s.proof E pp a b) (s'.proof E pp a b) := by
  refine close_of_move _ _ _ _ (range_moved E pp a b c k s s' hpp h h') _
    (fun i => (rpLimits_nonneg pp hpp i).trans (hL i)) fun i => ?_
  rw [Fintype.card_fin]
  have hb := rangeDistance_le E pp a b k s s' i _ (numbers_le s s' pp.N b _ hs hs' hr hr' i)
  have h9 : (0 : Int) ≤ ((2 ^ 128 * 9 : Nat) : Int) := Int.natCast_nonneg _
  refine (mul_le_mul_of_nonneg_right hb h9).trans ?_
  clear hb h9
  have hN : 0 ≤ pp.N := by have := hpp.modulus; omega
  have h1 := mask_m
  have h2 := mask_sigma pp.N hN
  have h3 := mask_s pp.N hN
  rw [show (4 : Int) ^ securityParam * pp.N * 2 ^ boundB = sigmaLimit pp from rfl] at h2
  rw [show (4 : Int) ^ securityParam * pp.N = sLimit pp from rfl] at h3
  fin_cases i
  · exact (h1.trans (hL 0)).trans (Int.le_add_one le_rfl)
  · exact (h1.trans (hL 1)).trans (Int.le_add_one le_rfl)
  · exact (h1.trans (hL 2)).trans (Int.le_add_one le_rfl)
  · exact (h1.trans (hL 3)).trans (Int.le_add_one le_rfl)
  · exact (h3.trans (hT 4 (by decide) (by decide))).trans (Int.le_add_one le_rfl)
  · exact (h3.trans (hT 5 (by decide) (by decide))).trans (Int.le_add_one le_rfl)
  · exact (h3.trans (hT 6 (by decide) (by decide))).trans (Int.le_add_one le_rfl)
  · exact (h3.trans (hT 7 (by decide) (by decide))).trans (Int.le_add_one le_rfl)
  · exact (h2.trans (hL 8)).trans (Int.le_add_one le_rfl)

/-- A hash function with the largest value everywhere. -/
def ffEnv : Env := { pokeEnv with sha256 := fun _ => List.replicate 32 255, sha256_length := fun _ => rfl }

theorem ff_challenge (G H N a b : Int) (k : Int3) : rangeChallenge ffEnv G H N a b k = 2 ^ 256 - 1 := by
  unfold rangeChallenge
  show setBytes (List.replicate 32 255) = _
  decide +kernel

theorem RangeSecret.Fits.opens {s : RangeSecret} {pp : PublicParameters} {a b c : Int} (hpp : GoodParams pp)
    (h : s.Fits pp a b c) : ∃ k, s.Opens pp a b c k := by
  obtain ⟨k0, -, h0⟩ := calC_isCommit hpp s.rc.t0 s.ts.t0
  obtain ⟨k1, -, h1⟩ := calC_isCommit hpp s.rc.t1 s.ts.t1
  obtain ⟨k2, -, h2⟩ := calC_isCommit hpp s.rc.t2 s.ts.t2
  exact ⟨⟨k0, k1, k2⟩, h, h0, h1, h2⟩

theorem mem_coins {α β : Type} [Fintype α] [Fintype β] [DecidableEq α] [DecidableEq β] (R : α → Int) (L : β → Int)
    (v : α → Int) (w : β → Int) :
    (v, w) ∈ box R ×ˢ box L ↔ (∀ i, 0 ≤ v i ∧ v i ≤ R i) ∧ ∀ i, 0 ≤ w i ∧ w i ≤ L i := by
  rw [Finset.mem_product, mem_box, mem_box]

/-- The first answer `t` is negative. -/
def negT (p : Option RangeProof) : Prop := ∃ q r, p = some q ∧ q.response = some r ∧ r.T4.t0 < 0

theorem neg_never (E : Env) (pp : PublicParameters) (a b c : Int) (s : RangeSecret) (hpp : GoodParams pp)
    (h : s.Fits pp a b c) (hr : s.r = 0) :
    passes (rangeCoins pp) (fun v => (s.with v.1).proof E pp a b v.2) negT = 0 := by
  refine passes_eq_zero _ _ _ ?_
  rintro ⟨v, w⟩ hv ⟨q, r, h1, h2, h3⟩
  obtain ⟨k, hk⟩ := RangeSecret.Fits.opens (s := s.with v) hpp ⟨h.1, h.2⟩
  obtain ⟨m, e, -⟩ := range_form E _ a b c k _ hpp hk w
  simp only at h1
  rw [h1] at e
  injection e with e
  subst e
  injection h2 with h2
  subst h2
  unfold rangeCoins at hv
  rw [mem_coins] at hv
  have hw := (hv.2 4).1
  have hn : (s.with v).numbers b 4 = 0 := by
    show -s.r = 0
    rw [hr, neg_zero]
  simp only [responseOf, hn, mul_zero, zero_add] at h3
  omega

theorem neg_often (E : Env) (pp : PublicParameters) (a b c : Int) (s : RangeSecret) (hpp : GoodParams pp)
    (h : s.Fits pp a b c) (e : Nat) (he : ∀ k, rangeChallenge E pp.G pp.H pp.N a b k = e)
    (hl : e * s.r ≤ rpLimits pp 4 + 1) :
    (rangeCoins pp).card * (e * s.r).toNat ≤
      passes (rangeCoins pp) (fun v => (s.with v.1).proof E pp a b v.2) negT * (rpLimits pp 4 + 1).toNat := by
  have h1 := passes_ge (rangeCoins pp) (box (rcLimits pp) ×ˢ box (Function.update (rpLimits pp) 4 (e * s.r - 1)))
    (fun v => (s.with v.1).proof E pp a b v.2) negT ?_ ?_
  · refine le_trans (le_of_eq ?_) (Nat.mul_le_mul_right _ h1)
    unfold rangeCoins
    rw [Finset.card_product, Finset.card_product, mul_assoc, mul_assoc, card_box_cut]
  · exact Finset.product_subset_product_right (box_cut_subset _ _ _ hl)
  · rintro ⟨v, w⟩ hv
    obtain ⟨k, hk⟩ := RangeSecret.Fits.opens (s := s.with v) hpp ⟨h.1, h.2⟩
    obtain ⟨m, h2, -⟩ := range_form E _ a b c k _ hpp hk w
    refine ⟨_, _, h2, rfl, ?_⟩
    rw [mem_coins] at hv
    have hw := (hv.2 4).2
    have hn : (s.with v).numbers b 4 = -s.r := rfl
    simp only [responseOf, hn, he]
    rw [Function.update_self] at hw
    have : (e : Int) * -s.r = -(e * s.r) := by ring
    omega

/-- Value 2 with opening 0 and value 5 with opening 33 are behind the same commitment 16 for `N = 35`, `g = 4`, `h = 9`. In the
range from 0 to 7 both have the number 41 to decompose. -/
def secretTwo (ts : Int3) : RangeSecret := ⟨2, 0, ts, ⟨0, 0, 0⟩⟩
def secretFive (ts : Int3) : RangeSecret := ⟨5, 33, ts, ⟨0, 0, 0⟩⟩

theorem commit_two : IsCommit 35 4 9 2 0 16 :=
  ⟨16, 1, ⟨by decide, by decide, by decide⟩, ⟨by decide, by decide, by decide⟩, by decide⟩

theorem commit_five : IsCommit 35 4 9 5 33 16 :=
  ⟨9, 29, ⟨by decide, by decide, by decide⟩, ⟨by decide, by decide, by decide +kernel⟩, by decide⟩

theorem fits_two (ts : Int3) (h : ts.t0 ^ 2 + ts.t1 ^ 2 + ts.t2 ^ 2 = 41) : (secretTwo ts).Fits ⟨35, 4, 9⟩ 0 7 16 :=
  ⟨commit_two, h⟩

theorem fits_five (ts : Int3) (h : ts.t0 ^ 2 + ts.t1 ^ 2 + ts.t2 ^ 2 = 41) : (secretFive ts).Fits ⟨35, 4, 9⟩ 0 7 16 :=
  ⟨commit_five, h⟩

/-- C99: value 2 and value 5 are told apart with an advantage above one half. -/
theorem C99_half (ts : Int3) (hts : ts.t0 ^ 2 + ts.t1 ^ 2 + ts.t2 ^ 2 = 41) :
    passes (rangeCoins ⟨35, 4, 9⟩) (fun v => ((secretTwo ts).with v.1).proof ffEnv ⟨35, 4, 9⟩ 0 7 v.2) negT = 0 ∧
    (rangeCoins ⟨35, 4, 9⟩).card <
      2 * passes (rangeCoins ⟨35, 4, 9⟩) (fun v => ((secretFive ts).with v.1).proof ffEnv ⟨35, 4, 9⟩ 0 7 v.2) negT := by
  refine ⟨neg_never ffEnv _ 0 7 16 (secretTwo ts) good35 (fits_two ts hts) rfl, ?_⟩
  have h := neg_often ffEnv _ 0 7 16 (secretFive ts) good35 (fits_five ts hts) _ (fun k => ff_challenge _ _ _ _ _ k) ?_
  · have e0 : 0 < (rangeCoins ⟨35, 4, 9⟩).card := by
      refine Finset.card_pos.2 ⟨(fun _ => 0, fun _ => 0), ?_⟩
      unfold rangeCoins
      rw [mem_coins]
      exact ⟨fun i => by fin_cases i <;> decide, fun i => ⟨le_rfl, rpLimits_nonneg _ good35 i⟩⟩
    have e4 : (rpLimits ⟨35, 4, 9⟩ 4 + 1).toNat < 2 * (((2 ^ 256 - 1 : Nat) : Int) * 33).toNat := by
      show (sLimit _ + 1).toNat < _
      unfold sLimit securityParam; decide +kernel
    rw [show (secretFive ts).r = 33 from rfl] at h
    generalize (((2 ^ 256 - 1 : Nat) : Int) * 33).toNat = S at h e4
    generalize (rpLimits ⟨35, 4, 9⟩ 4 + 1).toNat = R at h e4
    generalize passes _ _ negT = P at h ⊢
    generalize (rangeCoins ⟨35, 4, 9⟩).card = Q at h e0 ⊢
    by_contra hc
    push Not at hc
    have h5 := Nat.mul_lt_mul_of_pos_left e4 e0
    have h6 := Nat.mul_le_mul_right R hc
    nlinarith
  · rw [show (secretFive ts).r = 33 from rfl]
    show _ ≤ sLimit _ + 1
    unfold sLimit securityParam; decide +kernel

theorem small_of_seven (s : RangeSecret) (X : Int) (hX : 7 ≤ X) (a : 0 ≤ s.r ∧ s.r ≤ 35) (b : 0 ≤ 7 - s.x ∧ 7 - s.x ≤ 7)
    (c : 0 ≤ s.ts.t0 ∧ s.ts.t0 ≤ 7) (d : 0 ≤ s.ts.t1 ∧ s.ts.t1 ≤ 7) (e : 0 ≤ s.ts.t2 ∧ s.ts.t2 ≤ 7) : s.Small 35 7 X :=
  ⟨a, ⟨b.1, b.2.trans hX⟩, ⟨c.1, c.2.trans hX⟩, ⟨d.1, d.2.trans hX⟩, ⟨e.1, e.2.trans hX⟩⟩

theorem returns41 : ∃ t, ThreeSquaresReturns tsEnv 2 41 t :=
  have hsq : Nat.sqrt 41 = 6 := Nat.sqrt_add_eq 6 (a := 5) (by omega)
  have hc : candidate 41 (0 + 0 * 2) = 5 := by simp [candidate, hsq]
  C49_some_run_returns tsEnv 2 41 0 0 (by omega) (by omega) (fun _ h => by omega)
    (by rw [hc]; norm_num) (by rw [hc]) (.inl (by rw [hc]; norm_num))

/-- C99 is violated. -/
theorem C99_violated : ¬ C99_statement := by
  intro h
  obtain ⟨t, ht⟩ := returns41
  obtain ⟨hs, h0, h1, h2⟩ := C48_never_wrong _ _ _ _ ht
  have hX : (7 : Int) ≤ 2 ^ 1024 := by decide +kernel
  have b0 : 0 ≤ t.t0 ∧ t.t0 ≤ 7 := ⟨by omega, by nlinarith [sq_nonneg t.t1, sq_nonneg t.t2]⟩
  have b1 : 0 ≤ t.t1 ∧ t.t1 ≤ 7 := ⟨by omega, by omega⟩
  have b2 : 0 ≤ t.t2 ∧ t.t2 ≤ 7 := ⟨by omega, by omega⟩
  have h1 := (h tsEnv 2 ffEnv ⟨35, 4, 9⟩ 0 7 16 (secretTwo t) (secretFive t) good35 commit_two ht commit_five ht
    (small_of_seven _ _ hX (show (0 : Int) ≤ 0 ∧ (0 : Int) ≤ 35 by decide) (show (0 : Int) ≤ 7 - 2 ∧ (7 : Int) - 2 ≤ 7 by decide)
      b0 b1 b2)
    (small_of_seven _ _ hX (show (0 : Int) ≤ 33 ∧ (33 : Int) ≤ 35 by decide)
      (show (0 : Int) ≤ 7 - 5 ∧ (7 : Int) - 5 ≤ 7 by decide) b0 b1 b2) negT).2
  obtain ⟨h4, h5⟩ := C99_half t hs
  rw [h4] at h1
  have h6 : 2 ≤ 2 ^ 128 := by decide +kernel
  generalize 2 ^ 128 = K at h1 h6
  generalize passes _ _ negT = P at h1 h5
  generalize (rangeCoins ⟨35, 4, 9⟩).card = Q at h1 h5
  have := Nat.mul_le_mul_left P h6
  omega

theorem opens_two : (secretTwo ⟨6, 2, 1⟩).Opens ⟨35, 4, 9⟩ 0 7 16 ⟨1, 16, 4⟩ :=
  ⟨fits_two _ (by decide), ⟨1, 1, ⟨by decide, by decide, by decide⟩, ⟨by decide, by decide, by decide⟩, by decide⟩,
    ⟨16, 1, ⟨by decide, by decide, by decide⟩, ⟨by decide, by decide, by decide⟩, by decide⟩,
    ⟨4, 1, ⟨by decide, by decide, by decide⟩, ⟨by decide, by decide, by decide⟩, by decide⟩⟩

theorem opens_five : (secretFive ⟨6, 2, 1⟩).Opens ⟨35, 4, 9⟩ 0 7 16 ⟨1, 16, 4⟩ :=
  ⟨fits_five _ (by decide), opens_two.sq0, opens_two.sq1, opens_two.sq2⟩

/-- The values 2 and 5 behind the commitments 16 and 1, 16, 4. -/
example : Close (2 ^ 128) (box (rpLimits ⟨35, 4, 9⟩))
    (fun w => ((secretTwo ⟨6, 2, 1⟩).proof ffEnv ⟨35, 4, 9⟩ 0 7 w).map valueView)
    (fun w => ((secretFive ⟨6, 2, 1⟩).proof ffEnv ⟨35, 4, 9⟩ 0 7 w).map valueView) := by
  have hX : (7 : Int) ≤ 2 ^ 3962 := by decide +kernel
  exact C99_values_partial ffEnv _ 0 7 16 _ _ _ good35 opens_two opens_five
    (small_of_seven _ _ hX (by decide) (by decide) (by decide) (by decide) (by decide))
    (small_of_seven _ _ hX (by decide) (by decide) (by decide) (by decide) (by decide))
    ⟨by decide, by decide, by decide⟩ ⟨by decide, by decide, by decide⟩

example : Close (2 ^ 128) (box fun i => 2 ^ 132 * rpLimits ⟨35, 4, 9⟩ i) ((secretTwo ⟨6, 2, 1⟩).proof ffEnv ⟨35, 4, 9⟩ 0 7)
    ((secretFive ⟨6, 2, 1⟩).proof ffEnv ⟨35, 4, 9⟩ 0 7) := by
  have hX : (7 : Int) ≤ 2 ^ 3962 := by decide +kernel
  exact C99_longer_masks_partial ffEnv _ 0 7 16 _ _ _ good35 opens_two opens_five
    (small_of_seven _ _ hX (by decide) (by decide) (by decide) (by decide) (by decide))
    (small_of_seven _ _ hX (by decide) (by decide) (by decide) (by decide) (by decide))
    ⟨by decide, by decide, by decide⟩ ⟨by decide, by decide, by decide⟩ _
    (fun i => by
      have h1 := rpLimits_nonneg _ good35 i
      generalize rpLimits ⟨35, 4, 9⟩ i = y at h1 ⊢
      omega)
    (fun i _ _ => le_rfl)

/-- The opening `r` of the same two secrets: a test with advantage `33 e / (2^256 N + 1)`. -/
example : ∃ test, (box (rpLimits ⟨35, 4, 9⟩)).card * (((2 ^ 256 - 1 : Nat) : Int) * 33) ≤
    (passes (box (rpLimits ⟨35, 4, 9⟩)) ((secretTwo ⟨6, 2, 1⟩).proof ffEnv ⟨35, 4, 9⟩ 0 7) test -
      passes (box (rpLimits ⟨35, 4, 9⟩)) ((secretFive ⟨6, 2, 1⟩).proof ffEnv ⟨35, 4, 9⟩ 0 7) test : Int) *
        (rpLimits ⟨35, 4, 9⟩ 4 + 1) := by
  have h := C99_leak ffEnv _ 0 7 16 _ _ _ good35 opens_two opens_five 4
  rw [ff_challenge, show |(secretTwo ⟨6, 2, 1⟩).numbers 7 4 - (secretFive ⟨6, 2, 1⟩).numbers 7 4| = 33 from by decide] at h
  refine h ?_
  show _ ≤ sLimit _ + 1
  unfold sLimit securityParam; decide +kernel

/-! ## C100: argument of positivity -/

/-- What the prover of positivity knows. -/
structure PosSecret where
  x : Int
  r : Int
  ts : Int3
  rc : Int3

/-- The secret opens `c` and its squares belong to the value. -/
structure PosSecret.Fits (s : PosSecret) (pp : PublicParameters) (c : Int) : Prop where
  value : IsCommit pp.N pp.G pp.H s.x s.r c
  squares : s.ts.t0 ^ 2 + s.ts.t1 ^ 2 + s.ts.t2 ^ 2 = 4 * s.x + 1

/-- The secret also opens the three commitments `k`. -/
structure PosSecret.Opens (s : PosSecret) (pp : PublicParameters) (c : Int) (k : Int3) : Prop extends s.Fits pp c where
  sq0 : IsCommit pp.N pp.G pp.H s.ts.t0 s.rc.t0 k.t0
  sq1 : IsCommit pp.N pp.G pp.H s.ts.t1 s.rc.t1 k.t1
  sq2 : IsCommit pp.N pp.G pp.H s.ts.t2 s.rc.t2 k.t2

/-- The opening of the value is one of `0, …, N`; the numbers whose squares are added are at most `X`. -/
structure PosSecret.Small (s : PosSecret) (N X : Int) : Prop where
  r : 0 ≤ s.r ∧ s.r ≤ N
  x0 : 0 ≤ s.ts.t0 ∧ s.ts.t0 ≤ X
  x1 : 0 ≤ s.ts.t1 ∧ s.ts.t1 ≤ X
  x2 : 0 ≤ s.ts.t2 ∧ s.ts.t2 ≤ X

/-- The seven numbers that are multiplied with the challenge. -/
def PosSecret.numbers (s : PosSecret) : Fin 7 → Int :=
  ![s.ts.t0, s.ts.t1, s.ts.t2, s.rc.t0, s.rc.t1, s.rc.t2,
    4 * s.r - s.ts.t0 * s.rc.t0 - s.ts.t1 * s.rc.t1 - s.ts.t2 * s.rc.t2]

/-- The proofs that `Prove` makes, as a function of the coins drawn by `commit`. -/
def PosSecret.proof (s : PosSecret) (E : Env) (pp : PublicParameters) (w : Fin 7 → Int) : Option ArgOfPositivity :=
  aopProofOf E (newAoPProver pp s.r) s.x s.ts (aopCoins s.rc w)

/-- The secret with other openings of the squares. -/
def PosSecret.with (s : PosSecret) (v : Fin 3 → Int) : PosSecret := { s with rc := ⟨v 0, v 1, v 2⟩ }

/-- All random numbers of `Prove`: those of `commitForX` and those of `commit`. -/
def posCoins (pp : PublicParameters) : Finset ((Fin 3 → Int) × (Fin 7 → Int)) := box (rcLimits pp) ×ˢ box (aopLimits pp)

/-- The proofs for two openings of the same commitment cannot be told apart with an advantage above 2^-128. -/
def C100_statement : Prop :=
  ∀ (T : TSEnv) (K : Nat) (E : Env) (pp : PublicParameters) (c : Int) (s s' : PosSecret), GoodParams pp →
    IsCommit pp.N pp.G pp.H s.x s.r c → ThreeSquaresReturns T K (aopTarget s.x) s.ts →
    IsCommit pp.N pp.G pp.H s'.x s'.r c → ThreeSquaresReturns T K (aopTarget s'.x) s'.ts →
    s.Small pp.N (2 ^ 1024) → s'.Small pp.N (2 ^ 1024) →
    Close (2 ^ 128) (posCoins pp) (fun v => (s.with v.1).proof E pp v.2) (fun v => (s'.with v.1).proof E pp v.2)

/-- The seven numbers of a response. -/
def posResponse (v : Fin 7 → Int) : AoPResponse := ⟨⟨v 0, v 1, v 2⟩, ⟨v 3, v 4, v 5⟩, v 6⟩

theorem posResponse_injective : Function.Injective posResponse := by
  intro v v' h
  simp only [posResponse, AoPResponse.mk.injEq, Int3.mk.injEq] at h
  funext i
  fin_cases i
  · exact h.1.1
  · exact h.1.2.1
  · exact h.1.2.2
  · exact h.2.1.1
  · exact h.2.1.2.1
  · exact h.2.1.2.2
  · exact h.2.2

theorem aopProve_fields (E : Env) (p p' : AoPProver) (x : Int) (ts : Int3) (coins : AoPCoins) (proof : ArgOfPositivity)
    (h : aopProve E p x ts coins = .ok (proof, p')) :
    ∃ k, commitFromTS p.pp coins.rc ts = .ok k ∧ proof.commit3 = k ∧
      proof.response = some (aopResponseOf E { p with
        C := p'.C, s := coins.s, x3 := ts, c3 := k, randM3 := coins.m3, r3 := coins.rc, randS3 := coins.s3 }) := by
  unfold aopProve at h
  cases h1 : calC p.pp p.r x with
  | error e => rw [h1] at h; cases h
  | ok c =>
    rw [h1] at h
    simp only [res_ok_bind, aopCommitForX] at h
    cases h3 : commitFromTS p.pp coins.rc ts with
    | error e => rw [h3] at h; cases h
    | ok c3 =>
      rw [h3] at h
      simp only [res_ok_bind, aopCommit] at h
      generalize aopFirstPartD _ _ _ = A at h
      cases A with
      | error e => cases h
      | ok A =>
        simp only [res_ok_bind] at h
        generalize aopSecondPartD _ _ = B at h
        cases B with
        | error e => cases h
        | ok B =>
          simp only [res_ok_bind, Except.ok.injEq, Prod.mk.injEq] at h
          obtain ⟨rfl, rfl⟩ := h
          exact ⟨c3, rfl, rfl, rfl⟩

theorem aopVerify_bytes (E : Env) (v : AoPVerifier) (k : Int3) (m m' : Bytes) (resp : Option AoPResponse)
    (h : aopVerify E v (some ⟨k, m, resp⟩) = .ok true) (h' : aopVerify E v (some ⟨k, m', resp⟩) = .ok true) : m = m' := by
  have key : ∀ m, aopVerify E v (some ⟨k, m, resp⟩) = .ok true →
      ∃ resp0 f, resp = some resp0 ∧ aopVerifyParams E { v with c3 := k } resp0 = .ok f ∧ m = newAoPCommitment E f.1 f.2 := by
    intro m h
    simp only [aopVerify, nonNil_some, res_ok_bind, aopVerifyResponse] at h
    cases resp with
    | none => cases h
    | some resp0 =>
      simp only [nonNil_some, res_ok_bind] at h
      have hp : aopVerifyParams E { v with c3 := k, commitment := m } resp0 = aopVerifyParams E { v with c3 := k } resp0 := rfl
      rw [hp] at h
      cases hf : aopVerifyParams E { v with c3 := k } resp0 with
      | error e => rw [hf] at h; cases h
      | ok f =>
        rw [hf] at h
        simp only [res_ok_bind, Except.ok.injEq, decide_eq_true_eq] at h
        exact ⟨resp0, f, rfl, hf, h.symm⟩
  obtain ⟨r0, f, rfl, h2, rfl⟩ := key m h
  obtain ⟨r0', f', e2, h4, rfl⟩ := key m' h'
  injection e2 with e2
  subst e2
  rw [h2] at h4
  injection h4 with h4
  rw [h4]

theorem pos_form (E : Env) (pp : PublicParameters) (c : Int) (k : Int3) (s : PosSecret) (hpp : GoodParams pp)
    (h : s.Opens pp c k) (w : Fin 7 → Int) :
    ∃ m, s.proof E pp w =
        some ⟨k, m, some (posResponse fun i => positivityChallenge E pp.G pp.H pp.N k * s.numbers i + w i)⟩ ∧
      aopVerify E (newAoPVerifier pp c)
        (some ⟨k, m, some (posResponse fun i => positivityChallenge E pp.G pp.H pp.N k * s.numbers i + w i)⟩) =
          .ok true := by
  obtain ⟨c', hc', proof, p', h1, -, h2⟩ :=
    C53_complete_of_squares E (newAoPProver pp s.r) hpp s.x s.ts h.squares (aopCoins s.rc w)
  have ec : c' = c := isCommit_unique hpp.modulus hc' h.value
  subst ec
  have h2 := h2 (newAoPVerifier pp c') rfl rfl
  obtain ⟨k', h4, h6, h7⟩ := aopProve_fields E _ p' s.x s.ts _ proof h1
  have ek := commitFromTS_value hpp h4 h.sq0 h.sq1 h.sq2
  subst ek
  obtain ⟨pk, pm, pr⟩ := proof
  simp only at h6 h7
  subst h6 h7
  have hr : ∀ q : AoPProver, q.pp = pp → q.r = s.r → q.c3 = pk → q.s = w 6 → q.x3 = s.ts → q.randM3 = ⟨w 0, w 1, w 2⟩ →
      q.r3 = s.rc → q.randS3 = ⟨w 3, w 4, w 5⟩ →
      aopResponseOf E q = posResponse fun i => positivityChallenge E pp.G pp.H pp.N pk * s.numbers i + w i := by
    intro q i1 i2 i4 i5 i6 i7 i8 i9
    have he : aopChallenge E pp pk = positivityChallenge E pp.G pp.H pp.N pk := rfl
    simp only [aopResponseOf, i1, i2, i4, i5, i6, i7, i8, i9, posResponse, he, PosSecret.numbers, Matrix.cons_val,
      Matrix.cons_val_zero, Matrix.cons_val_one, AoPResponse.mk.injEq, true_and]
    ring
  rw [hr _ rfl rfl rfl rfl rfl rfl rfl rfl] at h1 h2
  refine ⟨pm, ?_, h2⟩
  unfold PosSecret.proof aopProofOf
  rw [h1]

/-- The distance of two secrets, for the challenge that belongs to the commitments. -/
def posDistance (E : Env) (pp : PublicParameters) (k : Int3) (s s' : PosSecret) : Fin 7 → Int :=
  fun i => positivityChallenge E pp.G pp.H pp.N k * (s.numbers i - s'.numbers i)

theorem pos_moved (E : Env) (pp : PublicParameters) (c : Int) (k : Int3) (s s' : PosSecret) (hpp : GoodParams pp)
    (h : s.Opens pp c k) (h' : s'.Opens pp c k) (w : Fin 7 → Int) :
    s.proof E pp w = s'.proof E pp (w + posDistance E pp k s s') := by
  obtain ⟨m, e1, v1⟩ := pos_form E pp c k s hpp h w
  obtain ⟨m', e2, v2⟩ := pos_form E pp c k s' hpp h' (w + posDistance E pp k s s')
  have : (fun i => positivityChallenge E pp.G pp.H pp.N k * s'.numbers i + (w + posDistance E pp k s s') i) =
      fun i => positivityChallenge E pp.G pp.H pp.N k * s.numbers i + w i := by
    funext i
    simp only [Pi.add_apply, posDistance]
    ring
  rw [this] at e2 v2
  rw [e1, e2, aopVerify_bytes E _ _ m m' _ v1 v2]

theorem pos_injective (E : Env) (pp : PublicParameters) (c : Int) (k : Int3) (s : PosSecret) (hpp : GoodParams pp)
    (h : s.Opens pp c k) : Function.Injective (s.proof E pp) := by
  intro w w' hw
  obtain ⟨m, e1, -⟩ := pos_form E pp c k s hpp h w
  obtain ⟨m', e2, -⟩ := pos_form E pp c k s hpp h w'
  rw [e1, e2] at hw
  simp only [Option.some.injEq, ArgOfPositivity.mk.injEq, true_and] at hw
  funext i
  have := congrFun (posResponse_injective hw.2) i
  simpa using this

/-- C100: the exact advantage. -/
theorem C100_advantage (E : Env) (pp : PublicParameters) (c : Int) (k : Int3) (s s' : PosSecret) (hpp : GoodParams pp)
    (h : s.Opens pp c k) (h' : s'.Opens pp c k) :
    (∀ test, passes (box (aopLimits pp)) (s.proof E pp) test ≤ passes (box (aopLimits pp)) (s'.proof E pp) test +
      ((box (aopLimits pp)).card - overlap (aopLimits pp) (posDistance E pp k s s'))) ∧
    ∃ test, passes (box (aopLimits pp)) (s.proof E pp) test = passes (box (aopLimits pp)) (s'.proof E pp) test +
      ((box (aopLimits pp)).card - overlap (aopLimits pp) (posDistance E pp k s s')) :=
  ⟨passes_move _ _ _ _ (pos_moved E pp c k s s' hpp h h'),
    passes_reached _ _ _ _ (pos_moved E pp c k s s' hpp h h') (pos_injective E pp c k s' hpp h')⟩

theorem positivityChallenge_lt (E : Env) (G H N : Int) (k : Int3) : positivityChallenge E G H N k < 2 ^ 256 := by
  unfold positivityChallenge
  refine lt_of_lt_of_le (setBytes_lt _) ?_
  rw [E.sha256_length]
  norm_num

theorem posDistance_le (E : Env) (pp : PublicParameters) (k : Int3) (s s' : PosSecret) (i : Fin 7) (D : Int)
    (h : |s.numbers i - s'.numbers i| ≤ D) : |posDistance E pp k s s' i| ≤ 2 ^ 256 * D := by
  unfold posDistance
  rw [abs_mul, Nat.abs_cast]
  have : ((positivityChallenge E pp.G pp.H pp.N k : Nat) : Int) ≤ 2 ^ 256 := by
    exact_mod_cast (positivityChallenge_lt E _ _ _ _).le
  exact mul_le_mul this h (abs_nonneg _) (by positivity)

theorem pos_numbers_le (s s' : PosSecret) (N X : Int) (h : s.Small N X) (h' : s'.Small N X) (hr : Drawn s.rc N)
    (hr' : Drawn s'.rc N) (i : Fin 7) :
    |s.numbers i - s'.numbers i| ≤ (![X, X, X, N, N, N, 3 * (X * N) + 4 * N] : Fin 7 → Int) i := by
  obtain ⟨hr0, h1, h2, h3⟩ := h
  obtain ⟨hr0', h1', h2', h3'⟩ := h'
  obtain ⟨c0, c1, c2⟩ := hr
  obtain ⟨c0', c1', c2'⟩ := hr'
  fin_cases i <;> simp only [PosSecret.numbers, Matrix.cons_val, Matrix.cons_val_zero, Matrix.cons_val_one, Fin.zero_eta,
    Fin.mk_one, Fin.reduceFinMk, abs_le]
  · omega
  · omega
  · omega
  · omega
  · omega
  · omega
  · have key : ∀ x y : Int, 0 ≤ x ∧ x ≤ X → 0 ≤ y ∧ y ≤ N → 0 ≤ x * y ∧ x * y ≤ X * N := fun x y hx hy =>
      ⟨mul_nonneg hx.1 hy.1, mul_le_mul hx.2 hy.2 hy.1 (hx.1.trans hx.2)⟩
    have k1 := key _ _ h1 c0
    have k2 := key _ _ h2 c1
    have k3 := key _ _ h3 c2
    have k1' := key _ _ h1' c0'
    have k2' := key _ _ h2' c1'
    have k3' := key _ _ h3' c2'
    constructor <;> omega

theorem pos_mask_m : (2 : Int) ^ 256 * 2 ^ 1915 * (2 ^ 128 * 7 : Nat) ≤ mLimit := by
  unfold mLimit securityParam boundB; decide +kernel

theorem pos_mask_s (N : Int) (hN : 0 ≤ N) : (2 : Int) ^ 256 * N * (2 ^ 128 * 7 : Nat) ≤ 2 ^ 131 * (4 ^ securityParam * N) := by
  have : (2 : Int) ^ 256 * (2 ^ 128 * 7 : Nat) ≤ 2 ^ 131 * 4 ^ securityParam := by unfold securityParam; decide +kernel
  nlinarith

theorem pos_mask_last (N : Int) (hN : 0 ≤ N) :
    (2 : Int) ^ 256 * (3 * (2 ^ 1915 * N) + 4 * N) * (2 ^ 128 * 7 : Nat) ≤ 4 ^ securityParam * N * 2 ^ (boundB / 2) := by
  have : (2 : Int) ^ 256 * (3 * 2 ^ 1915 + 4) * (2 ^ 128 * 7 : Nat) ≤ 4 ^ securityParam * 2 ^ (boundB / 2) := by
    unfold securityParam boundB; decide +kernel
  generalize (2 : Int) ^ 1915 = X at *
  generalize (2 : Int) ^ (boundB / 2) = Y at *
  generalize (4 : Int) ^ securityParam = Z at *
  generalize ((2 ^ 128 * 7 : Nat) : Int) = V at *
  generalize (2 : Int) ^ 256 = W at *
  nlinarith

theorem aopLimits_nonneg (pp : PublicParameters) (hpp : GoodParams pp) (i : Fin 7) : 0 ≤ aopLimits pp i := by
  have hN := hpp.modulus
  have h1 : 0 ≤ mLimit := by unfold mLimit; positivity
  have h2 : 0 ≤ sLimit pp := by unfold sLimit; positivity
  have h3 : 0 ≤ aopLastLimit pp := by unfold aopLastLimit; positivity
  fin_cases i <;> simp only [aopLimits, Matrix.cons_val, Matrix.cons_val_zero, Matrix.cons_val_one, Fin.zero_eta,
    Fin.mk_one, Fin.reduceFinMk, h1, h2, h3]

/-- What a proof shows of the squares and of the opening of the value: the commitments and the answers `z` and `t`. -/
def posView (p : ArgOfPositivity) : Int3 × Option (Int3 × Int) := (p.commit3, p.response.map fun r => (r.Z3, r.T))

/-- C100 (part): for given commitments the answers `z` and `t` hide the secret. Missing: the answers for the openings of the
squares. -/
theorem C100_values_partial (E : Env) (pp : PublicParameters) (c : Int) (k : Int3) (s s' : PosSecret)
    (hpp : GoodParams pp) (h : s.Opens pp c k) (h' : s'.Opens pp c k) (hs : s.Small pp.N (2 ^ 1915))
    (hs' : s'.Small pp.N (2 ^ 1915)) (hr : Drawn s.rc pp.N) (hr' : Drawn s'.rc pp.N) :
    Close (2 ^ 128) (box (aopLimits pp)) (fun w => (s.proof E pp w).map posView)
      (fun w => (s'.proof E pp w).map posView) := by
  let d : Fin 7 → Int := fun i => if 3 ≤ i ∧ i ≤ 5 then 0 else posDistance E pp k s s' i
  refine close_of_move _ d _ _ (fun w => ?_) _ (aopLimits_nonneg pp hpp) fun i => ?_
  · obtain ⟨m, e1, -⟩ := pos_form E pp c k s hpp h w
    obtain ⟨m', e2, -⟩ := pos_form E pp c k s' hpp h' (w + d)
    simp only [e1, e2, Option.map_some, posView, posResponse, Option.some.injEq, Prod.mk.injEq, Int3.mk.injEq, true_and,
      Pi.add_apply]
    have key : ∀ i : Fin 7, ¬ (3 ≤ i ∧ i ≤ 5) → positivityChallenge E pp.G pp.H pp.N k * s.numbers i + w i =
        positivityChallenge E pp.G pp.H pp.N k * s'.numbers i + (w i + d i) := by
      intro i hi
      simp only [d, if_neg hi, posDistance]
      ring
    exact ⟨⟨key 0 (by decide), key 1 (by decide), key 2 (by decide)⟩, key 6 (by decide)⟩
  · by_cases hi : 3 ≤ i ∧ i ≤ 5
    · have := aopLimits_nonneg pp hpp i
      simp only [d, if_pos hi, abs_zero, zero_mul]
      omega
    · simp only [d, if_neg hi, Fintype.card_fin]
      have hb := posDistance_le E pp k s s' i _ (pos_numbers_le s s' pp.N _ hs hs' hr hr' i)
      have h9 : (0 : Int) ≤ ((2 ^ 128 * 7 : Nat) : Int) := Int.natCast_nonneg _
      have := mul_le_mul_of_nonneg_right hb h9
      refine this.trans ?_
      clear this hb h9
      have h1 := pos_mask_m
      have h2 := pos_mask_last pp.N (by have := hpp.modulus; omega)
      rw [show (4 : Int) ^ securityParam * pp.N * 2 ^ (boundB / 2) = aopLastLimit pp from rfl] at h2
      rcases (show i = 0 ∨ i = 1 ∨ i = 2 ∨ i = 6 by revert hi; revert i; decide) with rfl | rfl | rfl | rfl
      · exact h1.trans (Int.le_add_one le_rfl)
      · exact h1.trans (Int.le_add_one le_rfl)
      · exact h1.trans (Int.le_add_one le_rfl)
      · exact h2.trans (Int.le_add_one le_rfl)

/-- C100 (part): with the masks of the openings of the squares 131 bits longer the whole proof hides the secret. -/
theorem C100_longer_masks_partial (E : Env) (pp : PublicParameters) (c : Int) (k : Int3) (s s' : PosSecret)
    (hpp : GoodParams pp) (h : s.Opens pp c k) (h' : s'.Opens pp c k) (hs : s.Small pp.N (2 ^ 1915))
    (hs' : s'.Small pp.N (2 ^ 1915)) (hr : Drawn s.rc pp.N) (hr' : Drawn s'.rc pp.N) (L : Fin 7 → Int)
    (hL : ∀ i, aopLimits pp i ≤ L i) (hT : ∀ i, 3 ≤ i → i ≤ 5 → 2 ^ 131 * aopLimits pp i ≤ L i) :
    Close (2 ^ 128) (box L) (s.proof E pp) (s'.proof E pp) := by
  refine close_of_move _ _ _ _ (pos_moved E pp c k s s' hpp h h') _
    (fun i => (aopLimits_nonneg pp hpp i).trans (hL i)) fun i => ?_
  rw [Fintype.card_fin]
  have hb := posDistance_le E pp k s s' i _ (pos_numbers_le s s' pp.N _ hs hs' hr hr' i)
  have h9 : (0 : Int) ≤ ((2 ^ 128 * 7 : Nat) : Int) := Int.natCast_nonneg _
  refine (mul_le_mul_of_nonneg_right hb h9).trans ?_
  clear hb h9
  have hN : 0 ≤ pp.N := by have := hpp.modulus; omega
  have h1 := pos_mask_m
  have h2 := pos_mask_last pp.N hN
  have h3 := pos_mask_s pp.N hN
  rw [show (4 : Int) ^ securityParam * pp.N * 2 ^ (boundB / 2) = aopLastLimit pp from rfl] at h2
  rw [show (4 : Int) ^ securityParam * pp.N = sLimit pp from rfl] at h3
  fin_cases i
  · exact (h1.trans (hL 0)).trans (Int.le_add_one le_rfl)
  · exact (h1.trans (hL 1)).trans (Int.le_add_one le_rfl)
  · exact (h1.trans (hL 2)).trans (Int.le_add_one le_rfl)
  · exact (h3.trans (hT 3 (by decide) (by decide))).trans (Int.le_add_one le_rfl)
  · exact (h3.trans (hT 4 (by decide) (by decide))).trans (Int.le_add_one le_rfl)
  · exact (h3.trans (hT 5 (by decide) (by decide))).trans (Int.le_add_one le_rfl)
  · exact (h2.trans (hL 6)).trans (Int.le_add_one le_rfl)

theorem ff_positivity (G H N : Int) (k : Int3) : positivityChallenge ffEnv G H N k = 2 ^ 256 - 1 := by
  unfold positivityChallenge
  show setBytes (List.replicate 32 255) = _
  decide +kernel

theorem PosSecret.Fits.opens {s : PosSecret} {pp : PublicParameters} {c : Int} (hpp : GoodParams pp)
    (h : s.Fits pp c) : ∃ k, s.Opens pp c k := by
  obtain ⟨k0, -, h0⟩ := calC_isCommit hpp s.rc.t0 s.ts.t0
  obtain ⟨k1, -, h1⟩ := calC_isCommit hpp s.rc.t1 s.ts.t1
  obtain ⟨k2, -, h2⟩ := calC_isCommit hpp s.rc.t2 s.ts.t2
  exact ⟨⟨k0, k1, k2⟩, h, h0, h1, h2⟩

/-- The first commitment is 1 and the answer for its opening is small. -/
def lowT (e : Nat) (p : Option ArgOfPositivity) : Prop :=
  ∃ q r, p = some q ∧ q.commit3.t0 = 1 ∧ q.response = some r ∧ r.T3.t0 < e

theorem low_never (E : Env) (pp : PublicParameters) (c : Int) (s : PosSecret) (hpp : GoodParams pp) (h : s.Fits pp c)
    (e : Nat) (he : ∀ k, positivityChallenge E pp.G pp.H pp.N k = e) (hs : ¬ IsCommit pp.N pp.G pp.H s.ts.t0 0 1) :
    passes (posCoins pp) (fun v => (s.with v.1).proof E pp v.2) (lowT e) = 0 := by
  refine passes_eq_zero _ _ _ ?_
  rintro ⟨v, w⟩ hv ⟨q, r, h1, h4, h2, h3⟩
  obtain ⟨k, hk⟩ := PosSecret.Fits.opens (s := s.with v) hpp ⟨h.1, h.2⟩
  obtain ⟨m, e1, -⟩ := pos_form E _ c k _ hpp hk w
  simp only at h1
  rw [h1] at e1
  injection e1 with e1
  subst e1
  injection h2 with h2
  subst h2
  unfold posCoins at hv
  rw [mem_coins] at hv
  have hw := (hv.2 3).1
  have hn : (s.with v).numbers 3 = v 0 := rfl
  simp only [posResponse, hn, he] at h3
  have hv0 := (hv.1 0).1
  have h0 : v 0 ≠ 0 := by
    intro h0
    have h5 := hk.sq0
    simp only at h4
    rw [h4] at h5
    exact hs (by rw [← h0]; exact h5)
  have : (e : Int) * 1 ≤ e * v 0 := mul_le_mul_of_nonneg_left (by omega) (Int.natCast_nonneg _)
  omega

theorem low_often (E : Env) (pp : PublicParameters) (c : Int) (s : PosSecret) (hpp : GoodParams pp) (h : s.Fits pp c)
    (e : Nat) (hs : IsCommit pp.N pp.G pp.H s.ts.t0 0 1)
    (hl : e ≤ aopLimits pp 3 + 1) :
    (posCoins pp).card * e ≤
      passes (posCoins pp) (fun v => (s.with v.1).proof E pp v.2) (lowT e) *
        ((pp.N + 1).toNat * (aopLimits pp 3 + 1).toNat) := by
  have h1 := passes_ge (posCoins pp)
    (box (Function.update (rcLimits pp) 0 (1 - 1)) ×ˢ box (Function.update (aopLimits pp) 3 (e - 1)))
    (fun v => (s.with v.1).proof E pp v.2) (lowT e) ?_ ?_
  · refine le_trans (le_of_eq ?_) (Nat.mul_le_mul_right _ h1)
    unfold posCoins
    have c1 := card_box_cut (rcLimits pp) 0 1
    have c2 := card_box_cut (aopLimits pp) 3 e
    rw [show rcLimits pp 0 = pp.N from rfl] at c1
    rw [Int.toNat_one, mul_one] at c1
    rw [Int.toNat_natCast] at c2
    rw [Finset.card_product, Finset.card_product, mul_assoc, ← c2, ← c1]
    ring
  · refine Finset.product_subset_product (box_cut_subset _ _ _ ?_) (box_cut_subset _ _ _ hl)
    rw [show rcLimits pp 0 = pp.N from rfl]
    have := hpp.modulus
    omega
  · rintro ⟨v, w⟩ hv
    obtain ⟨k, hk⟩ := PosSecret.Fits.opens (s := s.with v) hpp ⟨h.1, h.2⟩
    obtain ⟨m, h2, -⟩ := pos_form E _ c k _ hpp hk w
    rw [mem_coins] at hv
    have hv0 := hv.1 0
    rw [Function.update_self] at hv0
    have h0 : v 0 = 0 := by omega
    have hw := (hv.2 3).2
    refine ⟨_, _, h2, ?_, rfl, ?_⟩
    · have h5 : IsCommit pp.N pp.G pp.H s.ts.t0 0 k.t0 := by rw [← h0]; exact hk.sq0
      exact isCommit_unique hpp.modulus h5 hs
    · have hn : (s.with v).numbers 3 = v 0 := rfl
      simp only [posResponse, hn, h0, mul_zero, zero_add]
      rw [Function.update_self] at hw
      omega

/-- The value 9 with opening 3 and the value 1 with opening 1 are behind the same commitment 1 for `N = 35`, `g = 4`,
`h = 9`. -/
def posNine : PosSecret := ⟨9, 3, ⟨6, 1, 0⟩, ⟨0, 0, 0⟩⟩
def posOne : PosSecret := ⟨1, 1, ⟨2, 1, 0⟩, ⟨2, 0, 0⟩⟩

theorem pos_fits_nine : posNine.Fits ⟨35, 4, 9⟩ 1 :=
  ⟨⟨29, 29, ⟨by decide, by decide, by decide⟩, ⟨by decide, by decide, by decide⟩, by decide⟩, by decide⟩

theorem pos_fits_one : posOne.Fits ⟨35, 4, 9⟩ 1 :=
  ⟨⟨4, 9, ⟨by decide, by decide, by decide⟩, ⟨by decide, by decide, by decide⟩, by decide⟩, by decide⟩

/-- C100: value 9 and value 1 are told apart with an advantage above 2^-11. -/
theorem C100_eleven :
    passes (posCoins ⟨35, 4, 9⟩) (fun v => (posOne.with v.1).proof ffEnv ⟨35, 4, 9⟩ v.2) (lowT (2 ^ 256 - 1)) = 0 ∧
    (posCoins ⟨35, 4, 9⟩).card <
      2 ^ 11 * passes (posCoins ⟨35, 4, 9⟩) (fun v => (posNine.with v.1).proof ffEnv ⟨35, 4, 9⟩ v.2) (lowT (2 ^ 256 - 1)) := by
  constructor
  · refine low_never ffEnv _ 1 posOne good35 pos_fits_one _ (fun k => ff_positivity _ _ _ k) ?_
    intro hc
    have h4 : IsCommit 35 4 9 2 0 16 :=
      ⟨16, 1, ⟨by decide, by decide, by decide⟩, ⟨by decide, by decide, by decide⟩, by decide⟩
    have := isCommit_unique (by decide) hc h4
    omega
  · have h := low_often ffEnv _ 1 posNine good35 pos_fits_nine (2 ^ 256 - 1)
      ⟨1, 1, ⟨by decide, by decide, by decide⟩, ⟨by decide, by decide, by decide⟩, by decide⟩ ?_
    · have e0 : 0 < (posCoins ⟨35, 4, 9⟩).card := by
        refine Finset.card_pos.2 ⟨(fun _ => 0, fun _ => 0), ?_⟩
        unfold posCoins
        rw [mem_coins]
        exact ⟨fun i => by fin_cases i <;> decide, fun i => ⟨le_rfl, aopLimits_nonneg _ good35 i⟩⟩
      have e4 : ((35 : Int) + 1).toNat * (aopLimits ⟨35, 4, 9⟩ 3 + 1).toNat < 2 ^ 11 * (2 ^ 256 - 1) := by
        show _ * (sLimit _ + 1).toNat < _
        unfold sLimit securityParam; decide +kernel
      simp only at h
      generalize 2 ^ 11 = T at e4 ⊢
      obtain ⟨R, hR⟩ : ∃ R, ((35 : Int) + 1).toNat * (aopLimits ⟨35, 4, 9⟩ 3 + 1).toNat = R := ⟨_, rfl⟩
      rw [hR] at h e4
      generalize 2 ^ 256 - 1 = S at h e4 ⊢
      generalize passes _ _ (lowT S) = P at h ⊢
      generalize (posCoins ⟨35, 4, 9⟩).card = Q at h e0 ⊢
      by_contra hc
      push Not at hc
      have h5 := Nat.mul_lt_mul_of_pos_left e4 e0
      have h6 := Nat.mul_le_mul_right R hc
      have h7 := Nat.mul_le_mul_left T h
      nlinarith
    · show _ ≤ sLimit _ + 1
      unfold sLimit securityParam; decide +kernel

theorem pos_small_six (s : PosSecret) (X : Int) (hX : 6 ≤ X) (a : 0 ≤ s.r ∧ s.r ≤ 35) (c : 0 ≤ s.ts.t0 ∧ s.ts.t0 ≤ 6)
    (d : 0 ≤ s.ts.t1 ∧ s.ts.t1 ≤ 6) (e : 0 ≤ s.ts.t2 ∧ s.ts.t2 ≤ 6) : s.Small 35 X :=
  ⟨a, ⟨c.1, c.2.trans hX⟩, ⟨d.1, d.2.trans hX⟩, ⟨e.1, e.2.trans hX⟩⟩

theorem squares37 (t : Int3) (h : t.t0 ^ 2 + t.t1 ^ 2 + t.t2 ^ 2 = 37) (h0 : t.t0 ≥ t.t1) (h1 : t.t1 ≥ t.t2) (h2 : t.t2 ≥ 0) :
    t = ⟨6, 1, 0⟩ := by
  obtain ⟨x, y, z⟩ := t
  simp only at h h0 h1 h2
  have b : x ≤ 6 := by nlinarith [sq_nonneg y, sq_nonneg z]
  have : ∀ x ∈ Finset.Icc (0 : Int) 6, ∀ y ∈ Finset.Icc (0 : Int) 6, ∀ z ∈ Finset.Icc (0 : Int) 6,
      x ^ 2 + y ^ 2 + z ^ 2 = 37 → x ≥ y → y ≥ z → x = 6 ∧ y = 1 ∧ z = 0 := by decide +kernel
  obtain ⟨rfl, rfl, rfl⟩ := this x (Finset.mem_Icc.2 ⟨by omega, by omega⟩) y (Finset.mem_Icc.2 ⟨by omega, by omega⟩)
    z (Finset.mem_Icc.2 ⟨by omega, by omega⟩) h h0 h1
  rfl

theorem squares5 (t : Int3) (h : t.t0 ^ 2 + t.t1 ^ 2 + t.t2 ^ 2 = 5) (h0 : t.t0 ≥ t.t1) (h1 : t.t1 ≥ t.t2) (h2 : t.t2 ≥ 0) :
    t = ⟨2, 1, 0⟩ := by
  obtain ⟨x, y, z⟩ := t
  simp only at h h0 h1 h2
  have b : x ≤ 2 := by nlinarith [sq_nonneg y, sq_nonneg z]
  have : ∀ x ∈ Finset.Icc (0 : Int) 2, ∀ y ∈ Finset.Icc (0 : Int) 2, ∀ z ∈ Finset.Icc (0 : Int) 2,
      x ^ 2 + y ^ 2 + z ^ 2 = 5 → x ≥ y → y ≥ z → x = 2 ∧ y = 1 ∧ z = 0 := by decide +kernel
  obtain ⟨rfl, rfl, rfl⟩ := this x (Finset.mem_Icc.2 ⟨by omega, by omega⟩) y (Finset.mem_Icc.2 ⟨by omega, by omega⟩)
    z (Finset.mem_Icc.2 ⟨by omega, by omega⟩) h h0 h1
  rfl

/-- With four CPUs `ThreeSquares` decomposes 37 and 5. -/
theorem returns37 : ThreeSquaresReturns tsEnv 4 (aopTarget posNine.x) posNine.ts := by
  have hsq : Nat.sqrt 37 = 6 := Nat.sqrt_add_eq 6 (a := 1) (by omega)
  have hc : candidate 37 (3 + 0 * 4) = 37 := by simp [candidate, hsq]
  obtain ⟨t, ht⟩ := C49_some_run_returns tsEnv 4 37 3 0 (by omega) (by omega) (fun _ h => by omega)
    (by rw [hc]; norm_num) (by rw [hc]) (.inl (by rw [hc]; norm_num))
  obtain ⟨hs, h0, h1, h2⟩ := C48_never_wrong _ _ _ _ ht
  have := squares37 t hs h0 h1 h2
  subst this
  exact ht

theorem returns5 : ThreeSquaresReturns tsEnv 4 (aopTarget posOne.x) posOne.ts := by
  have hsq : Nat.sqrt 5 = 2 := Nat.sqrt_add_eq 2 (a := 1) (by omega)
  have hc : candidate 5 (1 + 0 * 4) = 5 := by simp [candidate, hsq]
  obtain ⟨t, ht⟩ := C49_some_run_returns tsEnv 4 5 1 0 (by omega) (by omega) (fun _ h => by omega)
    (by rw [hc]; norm_num) (by rw [hc]) (.inl (by rw [hc]; norm_num))
  obtain ⟨hs, h0, h1, h2⟩ := C48_never_wrong _ _ _ _ ht
  have := squares5 t hs h0 h1 h2
  subst this
  exact ht

theorem C100_violated : ¬ C100_statement := by
  intro h
  have hX : (6 : Int) ≤ 2 ^ 1024 := by decide +kernel
  have h1 := (h tsEnv 4 ffEnv ⟨35, 4, 9⟩ 1 posNine posOne good35 pos_fits_nine.1 returns37 pos_fits_one.1 returns5
    (pos_small_six _ _ hX (by decide) (by decide) (by decide) (by decide))
    (pos_small_six _ _ hX (by decide) (by decide) (by decide) (by decide)) (lowT (2 ^ 256 - 1))).1
  obtain ⟨h4, h5⟩ := C100_eleven
  rw [h4] at h1
  have h6 : 2 ^ 11 ≤ 2 ^ 128 := by decide +kernel
  generalize 2 ^ 11 = T at h5 h6
  generalize 2 ^ 128 = K at h1 h6
  generalize passes _ _ (lowT (2 ^ 256 - 1)) = P at h1 h5
  generalize (posCoins ⟨35, 4, 9⟩).card = Q at h1 h5
  have := Nat.mul_le_mul_right P h6
  rw [Nat.zero_mul, Nat.zero_add, Nat.mul_comm] at h1
  omega

theorem pos_opens_nine : posNine.Opens ⟨35, 4, 9⟩ 1 ⟨1, 4, 1⟩ :=
  ⟨pos_fits_nine, ⟨1, 1, ⟨by decide, by decide, by decide⟩, ⟨by decide, by decide, by decide⟩, by decide⟩,
    ⟨4, 1, ⟨by decide, by decide, by decide⟩, ⟨by decide, by decide, by decide⟩, by decide⟩,
    ⟨1, 1, ⟨by decide, by decide, by decide⟩, ⟨by decide, by decide, by decide⟩, by decide⟩⟩

theorem pos_opens_one : posOne.Opens ⟨35, 4, 9⟩ 1 ⟨1, 4, 1⟩ :=
  ⟨pos_fits_one, ⟨16, 11, ⟨by decide, by decide, by decide⟩, ⟨by decide, by decide, by decide⟩, by decide⟩,
    ⟨4, 1, ⟨by decide, by decide, by decide⟩, ⟨by decide, by decide, by decide⟩, by decide⟩,
    ⟨1, 1, ⟨by decide, by decide, by decide⟩, ⟨by decide, by decide, by decide⟩, by decide⟩⟩

/-- The values 9 and 1 behind the commitments 1 and 1, 4, 1. -/
example : Close (2 ^ 128) (box (aopLimits ⟨35, 4, 9⟩)) (fun w => (posNine.proof ffEnv ⟨35, 4, 9⟩ w).map posView)
    (fun w => (posOne.proof ffEnv ⟨35, 4, 9⟩ w).map posView) := by
  have hX : (6 : Int) ≤ 2 ^ 1915 := by decide +kernel
  exact C100_values_partial ffEnv _ 1 _ _ _ good35 pos_opens_nine pos_opens_one
    (pos_small_six _ _ hX (by decide) (by decide) (by decide) (by decide))
    (pos_small_six _ _ hX (by decide) (by decide) (by decide) (by decide))
    ⟨by decide, by decide, by decide⟩ ⟨by decide, by decide, by decide⟩

example : Close (2 ^ 128) (box fun i => 2 ^ 131 * aopLimits ⟨35, 4, 9⟩ i) (posNine.proof ffEnv ⟨35, 4, 9⟩)
    (posOne.proof ffEnv ⟨35, 4, 9⟩) := by
  have hX : (6 : Int) ≤ 2 ^ 1915 := by decide +kernel
  exact C100_longer_masks_partial ffEnv _ 1 _ _ _ good35 pos_opens_nine pos_opens_one
    (pos_small_six _ _ hX (by decide) (by decide) (by decide) (by decide))
    (pos_small_six _ _ hX (by decide) (by decide) (by decide) (by decide))
    ⟨by decide, by decide, by decide⟩ ⟨by decide, by decide, by decide⟩ _
    (fun i => by
      have h1 := aopLimits_nonneg _ good35 i
      generalize aopLimits ⟨35, 4, 9⟩ i = y at h1 ⊢
      omega)
    (fun i _ _ => le_rfl)

end Verif.Props
