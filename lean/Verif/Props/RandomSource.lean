import Verif.Model.RandomSource
import Verif.Model.Setup
import Verif.Props.RangeProof
import Verif.Props.SharedVerifier

/-! # Property C132: a failure of the random source is reported -/

namespace Verif.Props
open Verif.Go Verif.Model Verif.Spec Verif.Lemmas

attribute [local irreducible] mLimit sLimit sigmaLimit aopLastLimit min2048 zkpokeBound

/-! ## Specification -/

/-- If the function returns a result, all its calls of the random source have succeeded. -/
def Reports {P α : Type} (m : Draw P α) : Prop :=
  ∀ s v s', m s = (.ok v, s') → ∃ new, s'.log = s.log ++ new ∧ none ∉ new

/-- The calls from number `k` on give the numbers of the second list for the limits of the first. -/
def DrawnFrom (S : Source) : Nat → List Int → List Int → Prop
  | _, [], [] => True
  | k, l :: ls, v :: vs => 0 < l ∧ S k l = some v ∧ DrawnFrom S (k + 1) ls vs
  | _, _, _ => False

/-- C132: if a call of the random source fails, then the prover, `GenRandomizer`, `ZKAccumulate` or the benchmark that made it
ends with an error or a panic. Benchmarks run at least one round. -/
def C132_statement : Prop := ∀ (S : Source) (E : Env),
  (∀ x ts, Reports (rpProveDraw S E x ts)) ∧ (∀ x ts, Reports (aopProveDraw S E x ts)) ∧
  (∀ fuel pp u x w, Reports (zkpokeProveDraw S E fuel pp u x w)) ∧ Reports (genRandomizerDraw S) ∧
  (∀ fuel set encodeType setup, Reports (zkAccumulateDraw S E fuel set encodeType setup)) ∧
  (∀ rounds, 0 < rounds → Reports (benchmarkGroupElementMul S n2048 10000 rounds)) ∧
  (∀ rounds, 0 < rounds → Reports (benchmarkGroupElementSquare S n2048 10000 rounds))

/-! ## Results of single steps -/

theorem draw_bind_ok_iff {P α β : Type} (m : Draw P α) (f : α → Draw P β) (s s' : Cell P) (b : β) :
    (m >>= f) s = (.ok b, s') ↔ ∃ a s1, m s = (.ok a, s1) ∧ f a s1 = (.ok b, s') := by
  show Draw.bind m f s = _ ↔ _
  unfold Draw.bind
  rcases h : m s with ⟨r, s1⟩
  cases r <;> simp

theorem draw_bind_ok {P α β : Type} (m : Draw P α) (f : α → Draw P β) (s s1 : Cell P) (a : α) (h : m s = (.ok a, s1)) :
    (m >>= f) s = f a s1 := by
  show Draw.bind m f s = _
  unfold Draw.bind
  rw [h]

theorem draw_bind_error {P α β : Type} (m : Draw P α) (f : α → Draw P β) (s s1 : Cell P) (e : Stop) (h : m s = (.error e, s1)) :
    (m >>= f) s = (.error e, s1) := by
  show Draw.bind m f s = _
  unfold Draw.bind
  rw [h]

theorem draw_pure_ok_iff {P α : Type} (a b : α) (s s' : Cell P) :
    (pure a : Draw P α) s = (.ok b, s') ↔ a = b ∧ s = s' := by
  show ((Except.ok a, s) : Except Stop α × Cell P) = _ ↔ _
  simp

theorem draw_obj_ok_iff {P : Type} (p : P) (s s' : Cell P) : (Draw.obj : Draw P P) s = (.ok p, s') ↔ p = s.obj ∧ s' = s := by
  simp [Draw.obj, eq_comm]

theorem draw_write_ok_iff {P : Type} (f : P → P) (u : Unit) (s s' : Cell P) :
    Draw.write f s = (.ok u, s') ↔ s' = ⟨s.log, f s.obj⟩ := by
  simp [Draw.write, eq_comm]

theorem draw_res_ok_iff {P α : Type} (r : Res α) (v : α) (s s' : Cell P) :
    Draw.res r s = (.ok v, s') ↔ r = .ok v ∧ s' = s := by
  cases r <;> simp [Draw.res, eq_comm]

theorem draw_run_ok_iff {P α : Type} (r : Run α) (v : α) (s s' : Cell P) :
    Draw.run r s = (.ok v, s') ↔ r = Run.ok v ∧ s' = s := by
  change Option (Except String α) at r
  rcases r with _ | (e | w)
  · exact ⟨fun h => (by cases h), fun h => (by cases h.1)⟩
  · exact ⟨fun h => (by cases h), fun h => (by cases h.1)⟩
  · constructor
    · intro h
      have h' : ((Except.ok w, s) : Except Stop α × Cell P) = (.ok v, s') := h
      simp only [Prod.mk.injEq, Except.ok.injEq] at h'
      exact ⟨by rw [← h'.1]; rfl, h'.2.symm⟩
    · rintro ⟨h, rfl⟩
      have : w = v := run_ok_inj h
      rw [this]
      rfl

theorem randInt_ok_iff {P : Type} (S : Source) (max v : Int) (s s' : Cell P) :
    randInt S max s = (.ok v, s') ↔ 0 < max ∧ S s.log.length max = some v ∧ s' = ⟨s.log ++ [some v], s.obj⟩ := by
  unfold randInt
  by_cases hm : max ≤ 0
  · rw [if_pos hm]
    simp [not_lt.2 hm]
  · rw [if_neg hm]
    cases h : S s.log.length max with
    | none => simp
    | some w =>
      simp only [Prod.mk.injEq, Except.ok.injEq, Option.some.injEq]
      constructor
      · rintro ⟨rfl, rfl⟩
        exact ⟨not_le.1 hm, rfl, rfl⟩
      · rintro ⟨_, rfl, rfl⟩
        exact ⟨rfl, rfl⟩

/-- A draw below a positive limit succeeds or gives an error, and is recorded. -/
theorem randInt_cases {P : Type} (S : Source) (max : Int) (hm : 0 < max) (s : Cell P) :
    (∃ v, randInt S max s = (.ok v, ⟨s.log ++ [some v], s.obj⟩)) ∨ randInt S max s = (.error .error, ⟨s.log ++ [none], s.obj⟩) := by
  unfold randInt
  rw [if_neg (not_le.2 hm)]
  cases h : S s.log.length max with
  | none => exact .inr rfl
  | some v => exact .inl ⟨v, rfl⟩

theorem newThreeRandCoins_ok_iff {P : Type} (S : Source) (n : Int) (v : Int3) (s s' : Cell P) :
    newThreeRandCoins S n s = (.ok v, s') ↔ DrawnFrom S s.log.length [n + 1, n + 1, n + 1] [v.t0, v.t1, v.t2] ∧
      s' = ⟨s.log ++ [some v.t0, some v.t1, some v.t2], s.obj⟩ := by
  simp only [newThreeRandCoins, freshCoin, draw_bind_ok_iff, randInt_ok_iff, draw_pure_ok_iff, DrawnFrom, and_true]
  constructor
  · rintro ⟨a, _, ⟨h0, ha, rfl⟩, b, _, ⟨_, hb, rfl⟩, c, _, ⟨_, hc, rfl⟩, rfl, rfl⟩
    simp only [List.length_append, List.length_singleton] at hb hc
    exact ⟨⟨h0, ha, h0, hb, h0, hc⟩, by simp⟩
  · rintro ⟨⟨h0, ha, _, hb, _, hc⟩, rfl⟩
    refine ⟨v.t0, _, ⟨h0, ha, rfl⟩, v.t1, _, ⟨h0, ?_, rfl⟩, v.t2, _, ⟨h0, ?_, rfl⟩, rfl, by simp⟩
    · simpa using hb
    · simpa [Nat.add_assoc] using hc

theorem newFourRandCoins_ok_iff {P : Type} (S : Source) (n : Int) (v : Int4) (s s' : Cell P) :
    newFourRandCoins S n s = (.ok v, s') ↔
      DrawnFrom S s.log.length [n + 1, n + 1, n + 1, n + 1] [v.t0, v.t1, v.t2, v.t3] ∧
      s' = ⟨s.log ++ [some v.t0, some v.t1, some v.t2, some v.t3], s.obj⟩ := by
  simp only [newFourRandCoins, freshCoin, draw_bind_ok_iff, randInt_ok_iff, draw_pure_ok_iff, DrawnFrom, and_true]
  constructor
  · rintro ⟨a, _, ⟨h0, ha, rfl⟩, b, _, ⟨_, hb, rfl⟩, c, _, ⟨_, hc, rfl⟩, d, _, ⟨_, hd, rfl⟩, rfl, rfl⟩
    simp only [List.length_append, List.length_singleton] at hb hc hd
    exact ⟨⟨h0, ha, h0, hb, h0, hc, h0, hd⟩, by simp⟩
  · rintro ⟨⟨h0, ha, _, hb, _, hc, _, hd⟩, rfl⟩
    refine ⟨v.t0, _, ⟨h0, ha, rfl⟩, v.t1, _, ⟨h0, ?_, rfl⟩, v.t2, _, ⟨h0, ?_, rfl⟩, v.t3, _, ⟨h0, ?_, rfl⟩, rfl, by simp⟩
    · simpa using hb
    · simpa [Nat.add_assoc] using hc
    · simpa [Nat.add_assoc] using hd

/-- Several draws: all succeed, or one fails and the error is returned. -/
def DrawsOnly {P α : Type} (m : Draw P α) : Prop :=
  ∀ s, (∃ v new, m s = (.ok v, ⟨s.log ++ new, s.obj⟩) ∧ none ∉ new) ∨
    ∃ new, m s = (.error .error, ⟨s.log ++ new, s.obj⟩) ∧ none ∈ new

theorem drawsOnly_randInt {P : Type} (S : Source) (max : Int) (hm : 0 < max) : DrawsOnly (randInt S max : Draw P Int) := by
  intro s
  rcases randInt_cases S max hm s with ⟨v, h⟩ | h
  · exact .inl ⟨v, _, h, by simp⟩
  · exact .inr ⟨_, h, by simp⟩

theorem drawsOnly_pure {P α : Type} (v : α) : DrawsOnly (pure v : Draw P α) :=
  fun s => .inl ⟨v, [], by simp [pure], by simp⟩

theorem drawsOnly_bind {P α β : Type} (m : Draw P α) (f : α → Draw P β) (hm : DrawsOnly m) (hf : ∀ a, DrawsOnly (f a)) :
    DrawsOnly (m >>= f) := by
  intro s
  rcases hm s with ⟨v, new, h, hn⟩ | ⟨new, h, hn⟩
  · rw [draw_bind_ok m f s _ v h]
    rcases hf v ⟨s.log ++ new, s.obj⟩ with ⟨w, new', h', hn'⟩ | ⟨new', h', hn'⟩
    · refine .inl ⟨w, new ++ new', by rw [h', List.append_assoc], ?_⟩
      simp [hn, hn']
    · refine .inr ⟨new ++ new', by rw [h', List.append_assoc], ?_⟩
      simp [hn']
  · exact .inr ⟨new, draw_bind_error m f s _ _ h, hn⟩

theorem drawsOnly_three {P : Type} (S : Source) (n : Int) (hn : 0 < n + 1) : DrawsOnly (newThreeRandCoins S n : Draw P Int3) := by
  unfold newThreeRandCoins freshCoin
  repeat (refine drawsOnly_bind _ _ (drawsOnly_randInt S _ hn) fun _ => ?_)
  exact drawsOnly_pure _

theorem drawsOnly_four {P : Type} (S : Source) (n : Int) (hn : 0 < n + 1) : DrawsOnly (newFourRandCoins S n : Draw P Int4) := by
  unfold newFourRandCoins freshCoin
  repeat (refine drawsOnly_bind _ _ (drawsOnly_randInt S _ hn) fun _ => ?_)
  exact drawsOnly_pure _

/-! ## The range proof -/

theorem drawn_append (S : Source) (k : Nat) (ls vs ls' vs' : List Int) (h : ls.length = vs.length) :
    DrawnFrom S k (ls ++ ls') (vs ++ vs') ↔ DrawnFrom S k ls vs ∧ DrawnFrom S (k + ls.length) ls' vs' := by
  induction ls generalizing k vs with
  | nil =>
    obtain rfl : vs = [] := List.length_eq_zero_iff.1 h.symm
    simp [DrawnFrom]
  | cons l ls ih =>
    cases vs with
    | nil => simp at h
    | cons v vs =>
      simp only [List.cons_append, DrawnFrom, List.length_cons]
      rw [ih (k + 1) vs (by simpa using h), Nat.add_assoc, Nat.add_comm 1]
      tauto

/-- `commitForX`. -/
theorem rpCommitForXDraw_ok_iff (S : Source) (x : Int) (ts : Int3) (s s' : Cell RPProver)
    (cx : Int3) :
    rpCommitForXDraw S x ts s = (.ok cx, s') ↔ ∃ rc : Int3,
      DrawnFrom S s.log.length [s.obj.pp.N + 1, s.obj.pp.N + 1, s.obj.pp.N + 1] [rc.t0, rc.t1, rc.t2] ∧ commitFromTS s.obj.pp rc ts = .ok cx ∧
      s' = ⟨s.log ++ [some rc.t0, some rc.t1, some rc.t2],
        { s.obj with x4 := ⟨s.obj.b - x, ts.t0, ts.t1, ts.t2⟩, r4 := ⟨-s.obj.r, rc.t0, rc.t1, rc.t2⟩, c3 := cx }⟩ := by
  simp only [rpCommitForXDraw, draw_bind_ok_iff, draw_obj_ok_iff, draw_res_ok_iff, draw_write_ok_iff, newThreeRandCoins_ok_iff,
    draw_pure_ok_iff]
  constructor
  · rintro ⟨_, _, rfl, _, _, rfl, _, _, rfl, _, _, ⟨rfl, rfl⟩, rc, _, ⟨hrc, rfl⟩, _, _, rfl, c3, _, ⟨hc3, rfl⟩, _, _, rfl, rfl, rfl⟩
    exact ⟨rc, hrc, hc3, rfl⟩
  · rintro ⟨rc, hrc, hc3, rfl⟩
    exact ⟨(), _, rfl, (), _, rfl, (), _, rfl, _, _, ⟨rfl, rfl⟩, rc, _, ⟨hrc, rfl⟩, (), _, rfl, cx, _, ⟨hc3, rfl⟩, (), _, rfl, rfl, rfl⟩

/-- `commit`. -/
theorem rpCommitDraw_ok_iff (S : Source) (E : Env) (s s' : Cell RPProver) (cm : Bytes) :
    rpCommitDraw S E s = (.ok cm, s') ↔ ∃ (m4 s4 : Int4) (σ : Int),
      DrawnFrom S s.log.length ([mLimit + 1, mLimit + 1, mLimit + 1, mLimit + 1] ++
        ([sLimit s.obj.pp + 1, sLimit s.obj.pp + 1, sLimit s.obj.pp + 1, sLimit s.obj.pp + 1] ++ [sigmaLimit s.obj.pp + 1]))
        ([m4.t0, m4.t1, m4.t2, m4.t3] ++ ([s4.t0, s4.t1, s4.t2, s4.t3] ++ [σ])) ∧
      (∃ d4 d, rpFirstPartH { s.obj with randM4 := m4, randS4 := s4, sigma := σ } m4 s4 = .ok d4 ∧
        rpSecondPartH { s.obj with randM4 := m4, randS4 := s4, sigma := σ } m4 = .ok d ∧ cm = newRPCommitment E d4 d) ∧
      s' = ⟨s.log ++ [some m4.t0, some m4.t1, some m4.t2, some m4.t3] ++ [some s4.t0, some s4.t1, some s4.t2, some s4.t3] ++
        [some σ], { s.obj with randM4 := m4, randS4 := s4, sigma := σ }⟩ := by
  simp only [rpCommitDraw, draw_bind_ok_iff, draw_obj_ok_iff, draw_res_ok_iff, draw_write_ok_iff, newFourRandCoins_ok_iff,
    freshCoin, randInt_ok_iff, draw_pure_ok_iff]
  constructor
  · rintro ⟨m4, _, ⟨hm4, rfl⟩, _, _, rfl, _, _, ⟨rfl, rfl⟩, s4, _, ⟨hs4, rfl⟩, _, _, rfl, σ, _, ⟨hl, hσ, rfl⟩, _, _, rfl,
        _, _, ⟨rfl, rfl⟩, d4, _, ⟨hd4, rfl⟩, d, _, ⟨hd, rfl⟩, rfl, rfl⟩
    refine ⟨m4, s4, σ, ?_, ⟨d4, d, hd4, hd, rfl⟩, rfl⟩
    simp only [List.length_append] at hs4 hσ
    exact (drawn_append _ _ _ _ _ _ (by rfl)).2 ⟨hm4, (drawn_append _ _ _ _ _ _ (by rfl)).2 ⟨hs4, hl, hσ, trivial⟩⟩
  · rintro ⟨m4, s4, σ, hD, ⟨d4, d, hd4, hd, rfl⟩, rfl⟩
    obtain ⟨hm4, hD⟩ := (drawn_append _ _ _ _ _ _ (by rfl)).1 hD
    obtain ⟨hs4, hl, hσ, _⟩ := (drawn_append _ _ _ _ _ _ (by rfl)).1 hD
    refine ⟨m4, _, ⟨hm4, rfl⟩, (), _, rfl, _, _, ⟨rfl, rfl⟩, s4, _, ⟨?_, rfl⟩, (), _, rfl, σ, _, ⟨hl, ?_, rfl⟩, (), _, rfl,
      _, _, ⟨rfl, rfl⟩, d4, _, ⟨hd4, rfl⟩, d, _, ⟨hd, rfl⟩, rfl, rfl⟩
    · rw [List.length_append]
      exact hs4
    · rw [List.length_append, List.length_append]
      exact hσ

/-- The limits of the twelve draws of `Prove`. -/
def rpDrawLimits (pp : PublicParameters) : List Int :=
  [pp.N + 1, pp.N + 1, pp.N + 1] ++ ([mLimit + 1, mLimit + 1, mLimit + 1, mLimit + 1] ++
    ([sLimit pp + 1, sLimit pp + 1, sLimit pp + 1, sLimit pp + 1] ++ [sigmaLimit pp + 1]))

/-- The coins in the order of the draws. -/
def rpDrawValues (coins : RPCoins) : List Int :=
  [coins.rc.t0, coins.rc.t1, coins.rc.t2] ++ ([coins.m4.t0, coins.m4.t1, coins.m4.t2, coins.m4.t3] ++
    ([coins.s4.t0, coins.s4.t1, coins.s4.t2, coins.s4.t3] ++ [coins.sigma]))

theorem rpProve_ok_iff (E : Env) (p p' : RPProver) (x : Int) (ts : Int3) (coins : RPCoins) (proof : RangeProof) :
    rpProve E p x ts coins = .ok (proof, p') ↔ ∃ c ca c3 d4 d, calC p.pp p.r x = .ok c ∧ calCa p.pp p.a c = .ok ca ∧
      commitFromTS p.pp coins.rc ts = .ok c3 ∧
      p' = { p with
        c := c, ca := ca, x4 := ⟨p.b - x, ts.t0, ts.t1, ts.t2⟩, r4 := ⟨-p.r, coins.rc.t0, coins.rc.t1, coins.rc.t2⟩
        c3 := c3, randM4 := coins.m4, randS4 := coins.s4, sigma := coins.sigma } ∧
      rpFirstPartH p' coins.m4 coins.s4 = .ok d4 ∧ rpSecondPartH p' coins.m4 = .ok d ∧
      proof = { c := some c, commit3 := c3, commitment := newRPCommitment E d4 d, response := some (rpResponseOf E p') } := by
  simp only [rpProve, rpCommitForX, rpCommit, res_bind_ok_iff, Except.ok.injEq]
  constructor
  · rintro ⟨c, hc, ca, hca, _, ⟨c3, hc3, rfl⟩, ⟨_, _⟩, ⟨d4, hd4, d, hd, h1⟩, h2⟩
    obtain ⟨rfl, rfl⟩ := (Prod.mk.injEq ..).mp h1
    obtain ⟨rfl, rfl⟩ := (Prod.mk.injEq ..).mp h2
    exact ⟨c, ca, c3, d4, d, hc, hca, hc3, rfl, hd4, hd, rfl⟩
  · rintro ⟨c, ca, c3, d4, d, hc, hca, hc3, rfl, hd4, hd, rfl⟩
    exact ⟨c, hc, ca, hca, _, ⟨c3, hc3, rfl⟩, (_, _), ⟨d4, hd4, d, hd, rfl⟩, rfl⟩

/-- The part of `Prove` from `commitForX` on. -/
def rpProveRest (S : Source) (E : Env) (x : Int) (ts : Int3) : Draw RPProver RangeProof := do
  let cx ← rpCommitForXDraw S x ts
  let commitment ← rpCommitDraw S E
  let p ← Draw.obj
  return { c := some p.c, commit3 := cx, commitment := commitment, response := some (rpResponseOf E p) }

/-- The fields at that point. -/
def rpStarted (p : RPProver) (x c ca : Int) : RPProver :=
  { p with c := c, ca := ca, x4 := { p.x4 with t0 := p.b - x }, r4 := { p.r4 with t0 := p.r } }

theorem rpProveDraw_start (S : Source) (E : Env) (x : Int) (ts : Int3) (log : List (Option Int)) (p : RPProver) :
    rpProveDraw S E x ts ⟨log, p⟩ =
      match calC p.pp p.r x with
      | .error _ => (.error .panic, ⟨log, p⟩)
      | .ok c =>
        match calCa p.pp p.a c with
        | .error _ => (.error .panic, ⟨log, { p with c := c }⟩)
        | .ok ca => rpProveRest S E x ts ⟨log, rpStarted p x c ca⟩ := by
  show Draw.bind _ _ _ = _
  simp only [Draw.bind, Draw.obj, bind, Draw.res, Draw.write]
  cases hc : calC p.pp p.r x with
  | error e => rfl
  | ok c =>
    simp only
    cases hca : calCa p.pp p.a c with
    | error e => rfl
    | ok ca => rfl

theorem rpProveRest_ok_iff (S : Source) (E : Env) (x : Int) (ts : Int3) (s s' : Cell RPProver) (proof : RangeProof) :
    rpProveRest S E x ts s = (.ok proof, s') ↔ ∃ (coins : RPCoins) (c3 : Int3) (d4 : Int4) (d : Int),
      DrawnFrom S s.log.length (rpDrawLimits s.obj.pp) (rpDrawValues coins) ∧ s'.log = s.log ++ (rpDrawValues coins).map some ∧
      commitFromTS s.obj.pp coins.rc ts = .ok c3 ∧
      s'.obj = { s.obj with
        x4 := ⟨s.obj.b - x, ts.t0, ts.t1, ts.t2⟩, r4 := ⟨-s.obj.r, coins.rc.t0, coins.rc.t1, coins.rc.t2⟩
        c3 := c3, randM4 := coins.m4, randS4 := coins.s4, sigma := coins.sigma } ∧
      rpFirstPartH s'.obj coins.m4 coins.s4 = .ok d4 ∧ rpSecondPartH s'.obj coins.m4 = .ok d ∧
      proof = { c := some s.obj.c, commit3 := c3, commitment := newRPCommitment E d4 d, response := some (rpResponseOf E s'.obj) } := by
  obtain ⟨log, p⟩ := s
  obtain ⟨log', p'⟩ := s'
  simp only [rpProveRest, draw_bind_ok_iff, draw_obj_ok_iff, rpCommitForXDraw_ok_iff, rpCommitDraw_ok_iff, draw_pure_ok_iff]
  constructor
  · rintro ⟨cx, _, ⟨rc, hrc, hc3, rfl⟩, cm, _, ⟨m4, s4, σ, hD, ⟨d4, d, hd4, hd, rfl⟩, rfl⟩, _, _, ⟨rfl, rfl⟩, rfl, hs'⟩
    obtain ⟨rfl, rfl⟩ := (Cell.mk.injEq ..).mp hs'
    refine ⟨⟨rc, m4, s4, σ⟩, cx, d4, d, ?_, ?_, hc3, rfl, hd4, hd, rfl⟩
    · rw [List.length_append] at hD
      exact (drawn_append _ _ _ _ _ _ (by rfl)).2 ⟨hrc, hD⟩
    · simp [rpDrawValues]
  · rintro ⟨⟨rc, m4, s4, σ⟩, cx, d4, d, hD, hlog, hc3, rfl, hd4, hd, rfl⟩
    rw [rpDrawLimits, rpDrawValues] at hD
    replace hD := (drawn_append _ _ _ _ _ _ (by rfl)).1 hD
    refine ⟨cx, _, ⟨rc, hD.1, hc3, rfl⟩, newRPCommitment E d4 d, _, ⟨m4, s4, σ, ?_, ⟨d4, d, hd4, hd, rfl⟩, rfl⟩, _, _, ⟨rfl, rfl⟩, rfl, ?_⟩
    · rw [List.length_append]
      exact hD.2
    · rw [hlog]
      simp [rpDrawValues]

/-- C132 for the range proof: `Prove` returns a proof exactly if its twelve draws succeed, and it is the proof for the drawn
coins, each used once in the order of the draws. -/
theorem C132_range (S : Source) (E : Env) (x : Int) (ts : Int3) (s s' : Cell RPProver) (proof : RangeProof) :
    rpProveDraw S E x ts s = (.ok proof, s') ↔ ∃ coins : RPCoins,
      DrawnFrom S s.log.length (rpDrawLimits s.obj.pp) (rpDrawValues coins) ∧
      s'.log = s.log ++ (rpDrawValues coins).map some ∧ rpProve E s.obj x ts coins = .ok (proof, s'.obj) := by
  obtain ⟨log, p⟩ := s
  rw [rpProveDraw_start]
  simp only [rpProve_ok_iff]
  cases hc : calC p.pp p.r x with
  | error e => simp
  | ok c =>
    simp only [Except.ok.injEq]
    cases hca : calCa p.pp p.a c with
    | error e =>
      constructor
      · intro h
        cases h
      · rintro ⟨coins, _, _, c', ca, c3, d4, d, rfl, h, _⟩
        rw [hca] at h
        cases h
    | ok ca =>
      simp only [rpProveRest_ok_iff]
      constructor
      · rintro ⟨coins, c3, d4, d, hD, hlog, hc3, hobj, hd4, hd, rfl⟩
        exact ⟨coins, hD, hlog, c, ca, c3, d4, d, rfl, hca, hc3, hobj, hd4, hd, rfl⟩
      · rintro ⟨coins, hD, hlog, c', ca', c3, d4, d, rfl, h, hc3, hobj, hd4, hd, rfl⟩
        rw [hca] at h
        obtain rfl := Except.ok.inj h
        exact ⟨coins, c3, d4, d, hD, hlog, hc3, hobj, hd4, hd, rfl⟩

/-! ## The argument of positivity -/

/-- The limits of the ten draws of `Prove`. -/
def aopDrawLimits (pp : PublicParameters) : List Int :=
  [pp.N + 1, pp.N + 1, pp.N + 1] ++ ([mLimit + 1, mLimit + 1, mLimit + 1] ++
    ([sLimit pp + 1, sLimit pp + 1, sLimit pp + 1] ++ [aopLastLimit pp + 1]))

/-- The coins in the order of the draws. -/
def aopDrawValues (coins : AoPCoins) : List Int :=
  [coins.rc.t0, coins.rc.t1, coins.rc.t2] ++ ([coins.m3.t0, coins.m3.t1, coins.m3.t2] ++
    ([coins.s3.t0, coins.s3.t1, coins.s3.t2] ++ [coins.s]))

theorem aopCommitForXDraw_ok_iff (S : Source) (ts : Int3) (s s' : Cell AoPProver) (cx : Int3) :
    aopCommitForXDraw S ts s = (.ok cx, s') ↔ ∃ rc : Int3,
      DrawnFrom S s.log.length [s.obj.pp.N + 1, s.obj.pp.N + 1, s.obj.pp.N + 1] [rc.t0, rc.t1, rc.t2] ∧ commitFromTS s.obj.pp rc ts = .ok cx ∧
      s' = ⟨s.log ++ [some rc.t0, some rc.t1, some rc.t2], { s.obj with x3 := ts, r3 := rc, c3 := cx }⟩ := by
  simp only [aopCommitForXDraw, draw_bind_ok_iff, draw_obj_ok_iff, draw_res_ok_iff, draw_write_ok_iff, newThreeRandCoins_ok_iff,
    draw_pure_ok_iff]
  constructor
  · rintro ⟨_, _, rfl, _, _, ⟨rfl, rfl⟩, rc, _, ⟨hrc, rfl⟩, _, _, rfl, c3, _, ⟨hc3, rfl⟩, _, _, rfl, rfl, rfl⟩
    exact ⟨rc, hrc, hc3, rfl⟩
  · rintro ⟨rc, hrc, hc3, rfl⟩
    exact ⟨(), _, rfl, _, _, ⟨rfl, rfl⟩, rc, _, ⟨hrc, rfl⟩, (), _, rfl, cx, _, ⟨hc3, rfl⟩, (), _, rfl, rfl, rfl⟩

theorem aopCommitDraw_ok_iff (S : Source) (E : Env) (s s' : Cell AoPProver) (cm : Bytes) :
    aopCommitDraw S E s = (.ok cm, s') ↔ ∃ (m3 s3 : Int3) (σ : Int),
      DrawnFrom S s.log.length ([mLimit + 1, mLimit + 1, mLimit + 1] ++
        ([sLimit s.obj.pp + 1, sLimit s.obj.pp + 1, sLimit s.obj.pp + 1] ++ [aopLastLimit s.obj.pp + 1]))
        ([m3.t0, m3.t1, m3.t2] ++ ([s3.t0, s3.t1, s3.t2] ++ [σ])) ∧
      (∃ d3 d, aopFirstPartD { s.obj with randM3 := m3, randS3 := s3, s := σ } m3 s3 = .ok d3 ∧
        aopSecondPartD { s.obj with randM3 := m3, randS3 := s3, s := σ } m3 = .ok d ∧ cm = newAoPCommitment E d3 d) ∧
      s' = ⟨s.log ++ [some m3.t0, some m3.t1, some m3.t2] ++ [some s3.t0, some s3.t1, some s3.t2] ++
        [some σ], { s.obj with randM3 := m3, randS3 := s3, s := σ }⟩ := by
  simp only [aopCommitDraw, draw_bind_ok_iff, draw_obj_ok_iff, draw_res_ok_iff, draw_write_ok_iff, newThreeRandCoins_ok_iff,
    freshCoin, randInt_ok_iff, draw_pure_ok_iff]
  constructor
  · rintro ⟨m3, _, ⟨hm3, rfl⟩, _, _, rfl, _, _, ⟨rfl, rfl⟩, s3, _, ⟨hs3, rfl⟩, _, _, rfl, σ, _, ⟨hl, hσ, rfl⟩, _, _, rfl,
        _, _, ⟨rfl, rfl⟩, d3, _, ⟨hd3, rfl⟩, d, _, ⟨hd, rfl⟩, rfl, rfl⟩
    refine ⟨m3, s3, σ, ?_, ⟨d3, d, hd3, hd, rfl⟩, rfl⟩
    simp only [List.length_append] at hs3 hσ
    exact (drawn_append _ _ _ _ _ _ (by rfl)).2 ⟨hm3, (drawn_append _ _ _ _ _ _ (by rfl)).2 ⟨hs3, hl, hσ, trivial⟩⟩
  · rintro ⟨m3, s3, σ, hD, ⟨d3, d, hd3, hd, rfl⟩, rfl⟩
    obtain ⟨hm3, hD⟩ := (drawn_append _ _ _ _ _ _ (by rfl)).1 hD
    obtain ⟨hs3, hl, hσ, _⟩ := (drawn_append _ _ _ _ _ _ (by rfl)).1 hD
    refine ⟨m3, _, ⟨hm3, rfl⟩, (), _, rfl, _, _, ⟨rfl, rfl⟩, s3, _, ⟨?_, rfl⟩, (), _, rfl, σ, _, ⟨hl, ?_, rfl⟩, (), _, rfl,
      _, _, ⟨rfl, rfl⟩, d3, _, ⟨hd3, rfl⟩, d, _, ⟨hd, rfl⟩, rfl, rfl⟩
    · rw [List.length_append]
      exact hs3
    · rw [List.length_append, List.length_append]
      exact hσ

theorem aopProve_ok_iff (E : Env) (p p' : AoPProver) (x : Int) (ts : Int3) (coins : AoPCoins) (proof : ArgOfPositivity) :
    aopProve E p x ts coins = .ok (proof, p') ↔ ∃ C c3 d3 d, calC p.pp p.r x = .ok C ∧ commitFromTS p.pp coins.rc ts = .ok c3 ∧
      p' = { p with
        C := C, x3 := ts, r3 := coins.rc, c3 := c3, randM3 := coins.m3, randS3 := coins.s3, s := coins.s } ∧
      aopFirstPartD p' coins.m3 coins.s3 = .ok d3 ∧ aopSecondPartD p' coins.m3 = .ok d ∧
      proof = { commit3 := c3, commitment := newAoPCommitment E d3 d, response := some (aopResponseOf E p') } := by
  simp only [aopProve, aopCommitForX, aopCommit, res_bind_ok_iff, Except.ok.injEq]
  constructor
  · rintro ⟨C, hC, _, ⟨c3, hc3, rfl⟩, ⟨_, _⟩, ⟨d3, hd3, d, hd, h1⟩, h2⟩
    obtain ⟨rfl, rfl⟩ := (Prod.mk.injEq ..).mp h1
    obtain ⟨rfl, rfl⟩ := (Prod.mk.injEq ..).mp h2
    exact ⟨C, c3, d3, d, hC, hc3, rfl, hd3, hd, rfl⟩
  · rintro ⟨C, c3, d3, d, hC, hc3, rfl, hd3, hd, rfl⟩
    exact ⟨C, hC, _, ⟨c3, hc3, rfl⟩, (_, _), ⟨d3, hd3, d, hd, rfl⟩, rfl⟩

/-- The part of `Prove` from `commitForX` on. -/
def aopProveRest (S : Source) (E : Env) (ts : Int3) : Draw AoPProver ArgOfPositivity := do
  let cx ← aopCommitForXDraw S ts
  let commitment ← aopCommitDraw S E
  let p ← Draw.obj
  return { commit3 := cx, commitment := commitment, response := some (aopResponseOf E p) }

theorem aopProveDraw_start (S : Source) (E : Env) (x : Int) (ts : Int3) (log : List (Option Int)) (p : AoPProver) :
    aopProveDraw S E x ts ⟨log, p⟩ =
      match calC p.pp p.r x with
      | .error _ => (.error .panic, ⟨log, p⟩)
      | .ok C => aopProveRest S E ts ⟨log, { p with C := C }⟩ := by
  show Draw.bind _ _ _ = _
  simp only [Draw.bind, Draw.obj, bind, Draw.res, Draw.write]
  cases hc : calC p.pp p.r x with
  | error e => rfl
  | ok c => rfl

theorem aopProveRest_ok_iff (S : Source) (E : Env) (ts : Int3) (s s' : Cell AoPProver) (proof : ArgOfPositivity) :
    aopProveRest S E ts s = (.ok proof, s') ↔ ∃ (coins : AoPCoins) (c3 d3 : Int3) (d : Int),
      DrawnFrom S s.log.length (aopDrawLimits s.obj.pp) (aopDrawValues coins) ∧ s'.log = s.log ++ (aopDrawValues coins).map some ∧
      commitFromTS s.obj.pp coins.rc ts = .ok c3 ∧
      s'.obj = { s.obj with x3 := ts, r3 := coins.rc, c3 := c3, randM3 := coins.m3, randS3 := coins.s3, s := coins.s } ∧
      aopFirstPartD s'.obj coins.m3 coins.s3 = .ok d3 ∧ aopSecondPartD s'.obj coins.m3 = .ok d ∧
      proof = { commit3 := c3, commitment := newAoPCommitment E d3 d, response := some (aopResponseOf E s'.obj) } := by
  obtain ⟨log, p⟩ := s
  obtain ⟨log', p'⟩ := s'
  simp only [aopProveRest, draw_bind_ok_iff, draw_obj_ok_iff, aopCommitForXDraw_ok_iff, aopCommitDraw_ok_iff, draw_pure_ok_iff]
  constructor
  · rintro ⟨cx, _, ⟨rc, hrc, hc3, rfl⟩, cm, _, ⟨m3, s3, σ, hD, ⟨d3, d, hd3, hd, rfl⟩, rfl⟩, _, _, ⟨rfl, rfl⟩, rfl, hs'⟩
    obtain ⟨rfl, rfl⟩ := (Cell.mk.injEq ..).mp hs'
    refine ⟨⟨rc, m3, s3, σ⟩, cx, d3, d, ?_, ?_, hc3, rfl, hd3, hd, rfl⟩
    · rw [List.length_append] at hD
      exact (drawn_append _ _ _ _ _ _ (by rfl)).2 ⟨hrc, hD⟩
    · simp [aopDrawValues]
  · rintro ⟨⟨rc, m3, s3, σ⟩, cx, d3, d, hD, hlog, hc3, rfl, hd3, hd, rfl⟩
    rw [aopDrawLimits, aopDrawValues] at hD
    replace hD := (drawn_append _ _ _ _ _ _ (by rfl)).1 hD
    refine ⟨cx, _, ⟨rc, hD.1, hc3, rfl⟩, newAoPCommitment E d3 d, _, ⟨m3, s3, σ, ?_, ⟨d3, d, hd3, hd, rfl⟩, rfl⟩, _, _, ⟨rfl, rfl⟩, rfl, ?_⟩
    · rw [List.length_append]
      exact hD.2
    · rw [hlog]
      simp [aopDrawValues]

/-- C132 for the argument of positivity: `Prove` returns a proof exactly if its ten draws succeed, and it is the proof for the
drawn coins, each used once in the order of the draws. -/
theorem C132_positivity (S : Source) (E : Env) (x : Int) (ts : Int3) (s s' : Cell AoPProver) (proof : ArgOfPositivity) :
    aopProveDraw S E x ts s = (.ok proof, s') ↔ ∃ coins : AoPCoins,
      DrawnFrom S s.log.length (aopDrawLimits s.obj.pp) (aopDrawValues coins) ∧
      s'.log = s.log ++ (aopDrawValues coins).map some ∧ aopProve E s.obj x ts coins = .ok (proof, s'.obj) := by
  obtain ⟨log, p⟩ := s
  rw [aopProveDraw_start]
  simp only [aopProve_ok_iff]
  cases hc : calC p.pp p.r x with
  | error e => simp
  | ok C =>
    simp only [Except.ok.injEq, aopProveRest_ok_iff]
    constructor
    · rintro ⟨coins, c3, d3, d, hD, hlog, hc3, hobj, hd3, hd, rfl⟩
      exact ⟨coins, hD, hlog, C, c3, d3, d, rfl, hc3, hobj, hd3, hd, rfl⟩
    · rintro ⟨coins, hD, hlog, C', c3, d3, d, rfl, hc3, hobj, hd3, hd, rfl⟩
      exact ⟨coins, c3, d3, d, hD, hlog, hc3, hobj, hd3, hd, rfl⟩

/-! ## The outcome of the two provers -/

/-- The call from state `s` returns a result with property `Q` and all draws of the call have succeeded, or it returns an error
and one of them has failed. In the second case the object has property `J`. -/
def Ends {P α : Type} (m : Draw P α) (s : Cell P) (J : P → Prop) (Q : α → P → Prop) : Prop :=
  (∃ v new p, m s = (.ok v, ⟨s.log ++ new, p⟩) ∧ none ∉ new ∧ Q v p) ∨
    ∃ new p, m s = (.error .error, ⟨s.log ++ new, p⟩) ∧ none ∈ new ∧ J p

theorem ends_bind {P α β : Type} (m : Draw P α) (f : α → Draw P β) (s : Cell P) (J : P → Prop) (Q : α → P → Prop)
    (R : β → P → Prop) (hm : Ends m s J Q) (hf : ∀ v log p, Q v p → Ends (f v) ⟨log, p⟩ J R) : Ends (m >>= f) s J R := by
  rcases hm with ⟨v, new, p, h, hn, hQ⟩ | ⟨new, p, h, hn, hJ⟩
  · have hb := draw_bind_ok m f s _ v h
    rcases hf v (s.log ++ new) p hQ with ⟨w, new', p', h', hn', hR⟩ | ⟨new', p', h', hn', hJ⟩
    · exact .inl ⟨w, new ++ new', p', by rw [hb, h', List.append_assoc], by simp [hn, hn'], hR⟩
    · exact .inr ⟨new ++ new', p', by rw [hb, h', List.append_assoc], by simp [hn'], hJ⟩
  · exact .inr ⟨new, p, draw_bind_error m f s _ _ h, hn, hJ⟩

theorem ends_obj {P β : Type} (f : P → Draw P β) (s : Cell P) (J : P → Prop) (R : β → P → Prop) (h : Ends (f s.obj) s J R) :
    Ends (Draw.obj >>= f) s J R := by
  unfold Ends at h ⊢
  rwa [draw_bind_ok Draw.obj f s s s.obj rfl]

theorem ends_write {P β : Type} (g : P → P) (f : Unit → Draw P β) (s : Cell P) (J : P → Prop) (R : β → P → Prop)
    (h : Ends (f ()) ⟨s.log, g s.obj⟩ J R) : Ends (Draw.write g >>= f) s J R := by
  unfold Ends at h ⊢
  rwa [draw_bind_ok (Draw.write g) f s ⟨s.log, g s.obj⟩ () rfl]

theorem ends_res {P α β : Type} (r : Res α) (v : α) (hr : r = .ok v) (f : α → Draw P β) (s : Cell P) (J : P → Prop)
    (R : β → P → Prop) (h : Ends (f v) s J R) : Ends (Draw.res r >>= f) s J R := by
  unfold Ends at h ⊢
  rwa [draw_bind_ok (Draw.res r) f s s v ((draw_res_ok_iff ..).2 ⟨hr, rfl⟩)]

theorem ends_draws {P α β : Type} (m : Draw P α) (hm : DrawsOnly m) (f : α → Draw P β) (s : Cell P) (J : P → Prop)
    (R : β → P → Prop) (hJ : J s.obj) (h : ∀ v log, Ends (f v) ⟨log, s.obj⟩ J R) : Ends (m >>= f) s J R := by
  refine ends_bind m f s J (fun _ p => p = s.obj) R ?_ fun v log p hp => hp ▸ h v log
  rcases hm s with ⟨v, new, h, hn⟩ | ⟨new, h, hn⟩
  · exact .inl ⟨v, new, _, h, hn, rfl⟩
  · exact .inr ⟨new, _, h, hn, hJ⟩

theorem ends_pure {P α : Type} (v : α) (s : Cell P) (J : P → Prop) (R : α → P → Prop) (h : R v s.obj) :
    Ends (pure v : Draw P α) s J R :=
  .inl ⟨v, [], s.obj, by simp [pure], by simp, h⟩

theorem mLimit_pos : 0 < mLimit + 1 := by
  have : 0 ≤ mLimit := by
    unfold mLimit
    positivity
  omega

theorem sLimit_pos (pp : PublicParameters) (h : 0 ≤ pp.N) : 0 < sLimit pp + 1 := by
  have : 0 ≤ sLimit pp := by
    unfold sLimit
    positivity
  omega

theorem sigmaLimit_pos (pp : PublicParameters) (h : 0 ≤ pp.N) : 0 < sigmaLimit pp + 1 := by
  have : 0 ≤ sigmaLimit pp := by
    unfold sigmaLimit sLimit
    positivity
  omega

theorem aopLastLimit_pos (pp : PublicParameters) (h : 0 ≤ pp.N) : 0 < aopLastLimit pp + 1 := by
  have : 0 ≤ aopLastLimit pp := by
    unfold aopLastLimit sLimit
    positivity
  omega

/-- The inputs of a range prover. -/
def KeptInputs (p q : RPProver) : Prop := q.pp = p.pp ∧ q.r = p.r ∧ q.a = p.a ∧ q.b = p.b

/-- The inputs of a positivity prover. -/
def KeptPosInputs (p q : AoPProver) : Prop := q.pp = p.pp ∧ q.r = p.r

theorem rpProveDraw_ends (S : Source) (E : Env) (p : RPProver) (hpp : GoodParams p.pp) (x : Int) (ts : Int3)
    (hts : ts.t0 ^ 2 + ts.t1 ^ 2 + ts.t2 ^ 2 = 4 * (p.b - x) * (x - p.a) + 1) (log : List (Option Int)) :
    Ends (rpProveDraw S E x ts) ⟨log, p⟩ (KeptInputs p) fun _ => KeptInputs p := by
  have hall := fun coins => C50_complete_of_squares E p hpp x ts hts coins ⟨p.pp, p.a, p.b, [], ⟨0, 0, 0, 0⟩, 0⟩ ⟨rfl, rfl, rfl⟩
  have hN : 0 ≤ p.pp.N := by
    have := hpp.1
    omega
  obtain ⟨_, _, h0, _⟩ := hall ⟨⟨0, 0, 0⟩, ⟨0, 0, 0, 0⟩, ⟨0, 0, 0, 0⟩, 0⟩
  obtain ⟨c, ca, _, _, _, hc, hca, _⟩ := (rpProve_ok_iff ..).1 h0
  have key : ∀ coins : RPCoins, ∃ c3 d4 d, commitFromTS p.pp coins.rc ts = .ok c3 ∧ ∀ p',
      p' = { p with
        c := c, ca := ca, x4 := ⟨p.b - x, ts.t0, ts.t1, ts.t2⟩, r4 := ⟨-p.r, coins.rc.t0, coins.rc.t1, coins.rc.t2⟩
        c3 := c3, randM4 := coins.m4, randS4 := coins.s4, sigma := coins.sigma } →
      rpFirstPartH p' coins.m4 coins.s4 = .ok d4 ∧ rpSecondPartH p' coins.m4 = .ok d := by
    intro coins
    obtain ⟨_, _, h, _⟩ := hall coins
    obtain ⟨c', ca', c3, d4, d, hc', hca', hc3, rfl, hd4, hd, _⟩ := (rpProve_ok_iff ..).1 h
    rw [hc] at hc'
    obtain rfl := Except.ok.inj hc'
    rw [hca] at hca'
    obtain rfl := Except.ok.inj hca'
    exact ⟨c3, d4, d, hc3, fun p' hp' => by subst hp'; exact ⟨hd4, hd⟩⟩
  have hrest : Ends (rpProveRest S E x ts) ⟨log, rpStarted p x c ca⟩ (KeptInputs p) fun _ => KeptInputs p := by
    unfold rpProveRest
    refine ends_bind _ _ _ _ (fun c3 q => ∃ rc : Int3, commitFromTS p.pp rc ts = .ok c3 ∧ q = { p with
        c := c, ca := ca, x4 := ⟨p.b - x, ts.t0, ts.t1, ts.t2⟩, r4 := ⟨-p.r, rc.t0, rc.t1, rc.t2⟩, c3 := c3 }) _ ?_ ?_
    · unfold rpCommitForXDraw rpStarted
      refine ends_write _ _ _ _ _ (ends_write _ _ _ _ _ (ends_write _ _ _ _ _ (ends_obj _ _ _ _ ?_)))
      dsimp only
      refine ends_draws _ (drawsOnly_three S _ (by omega)) _ _ _ _ ⟨rfl, rfl, rfl, rfl⟩ fun rc log' => ?_
      obtain ⟨c3, _, _, hc3, _⟩ := key ⟨rc, ⟨0, 0, 0, 0⟩, ⟨0, 0, 0, 0⟩, 0⟩
      refine ends_write _ _ _ _ _ (ends_res _ c3 hc3 _ _ _ _ (ends_write _ _ _ _ _ (ends_pure _ _ _ _ ⟨rc, hc3, ?_⟩)))
      dsimp only
    · rintro c3 log' _ ⟨rc, hc3, rfl⟩
      refine ends_bind _ _ _ _ (fun _ => KeptInputs p) _ ?_ fun cm log'' q hq => ends_obj _ _ _ _ (ends_pure _ _ _ _ hq)
      unfold rpCommitDraw freshCoin
      refine ends_draws _ (drawsOnly_four S _ mLimit_pos) _ _ _ _ ⟨rfl, rfl, rfl, rfl⟩ fun m4 _ => ?_
      refine ends_write _ _ _ _ _ (ends_obj _ _ _ _ ?_)
      dsimp only
      refine ends_draws _ (drawsOnly_four S _ (sLimit_pos p.pp hN)) _ _ _ _ ⟨rfl, rfl, rfl, rfl⟩ fun s4 _ => ?_
      refine ends_write _ _ _ _ _ ?_
      dsimp only
      refine ends_draws _ (drawsOnly_randInt S _ (sigmaLimit_pos p.pp hN)) _ _ _ _ ⟨rfl, rfl, rfl, rfl⟩ fun σ _ => ?_
      refine ends_write _ _ _ _ _ (ends_obj _ _ _ _ ?_)
      dsimp only
      obtain ⟨c3', d4, d, hc3', hd⟩ := key ⟨rc, m4, s4, σ⟩
      obtain rfl := Except.ok.inj (hc3.symm.trans hc3')
      have hd' := hd _ rfl
      exact ends_res _ d4 hd'.1 _ _ _ _ (ends_res _ d hd'.2 _ _ _ _ (ends_pure _ _ _ _ ⟨rfl, rfl, rfl, rfl⟩))
  unfold Ends at hrest ⊢
  rw [rpProveDraw_start, hc]
  dsimp only
  rw [hca]
  exact hrest

/-- C132 for the range proof: with good parameters and a value in the range, `Prove` either returns a proof that the verifier
accepts, and all its draws have succeeded, or returns an error, and one of them has failed. The inputs in the prover object are
kept in both cases. -/
theorem C132_range_outcome_partial (S : Source) (E : Env) (p : RPProver) (hpp : GoodParams p.pp) (x : Int) (ts : Int3)
    (hts : ts.t0 ^ 2 + ts.t1 ^ 2 + ts.t2 ^ 2 = 4 * (p.b - x) * (x - p.a) + 1) (log : List (Option Int)) :
    Ends (rpProveDraw S E x ts) ⟨log, p⟩ (KeptInputs p) fun proof q => KeptInputs p q ∧
      (∃ c, proof.c = some c ∧ IsCommit p.pp.N p.pp.G p.pp.H x p.r c) ∧
      ∀ v : RPVerifier, v.pp = p.pp ∧ v.a = p.a ∧ v.b = p.b → rpVerify E v (some proof) = .ok true := by
  rcases rpProveDraw_ends S E p hpp x ts hts log with ⟨proof, new, q, h, hn, hq⟩ | h
  · obtain ⟨coins, _, _, hp⟩ := (C132_range ..).1 h
    refine .inl ⟨proof, new, q, h, hn, hq, ?_, fun v hv => ?_⟩
    · obtain ⟨proof', q', h', hc, _⟩ := C50_complete_of_squares E p hpp x ts hts coins ⟨p.pp, p.a, p.b, [], ⟨0, 0, 0, 0⟩, 0⟩
        ⟨rfl, rfl, rfl⟩
      obtain ⟨rfl, _⟩ := (Prod.mk.injEq ..).mp (Except.ok.inj (h'.symm.trans hp))
      exact hc
    · obtain ⟨proof', q', h', _, hver⟩ := C50_complete_of_squares E p hpp x ts hts coins v hv
      obtain ⟨rfl, _⟩ := (Prod.mk.injEq ..).mp (Except.ok.inj (h'.symm.trans hp))
      exact hver
  · exact .inr h

/-- The seventh call fails: nothing is drawn afterwards, and the error is returned. -/
example : (match rpProveDraw (fun i _ => if i = 6 then none else some (i + 1)) pokeEnv 3 ⟨6, 2, 1⟩ ⟨[], newRPProver ⟨35, 4, 9⟩ 6 1 8⟩ with
    | (.error .error, s) => s.log == [some 1, some 2, some 3, some 4, some 5, some 6, none] && s.obj.randM4 == ⟨0, 0, 0, 0⟩ &&
      s.obj.r4 == ⟨-6, 1, 2, 3⟩
    | _ => false) = true := by decide +kernel

/-- No call fails. -/
example : (match rpProveDraw (fun i _ => some (i + 1)) pokeEnv 3 ⟨6, 2, 1⟩ ⟨[], newRPProver ⟨35, 4, 9⟩ 6 1 8⟩ with
    | (.ok _, s) => s.log.length == 12 && s.obj.sigma == 12
    | _ => false) = true := by decide +kernel

/-- The parameters and the value of these calls meet the hypotheses. -/
example : GoodParams ⟨35, 4, 9⟩ ∧ (6 : Int) ^ 2 + 2 ^ 2 + 1 ^ 2 = 4 * (8 - 3) * (3 - 1) + 1 := by
  refine ⟨?_, by norm_num⟩
  constructor <;> decide

theorem aopProveDraw_ends (S : Source) (E : Env) (p : AoPProver) (hpp : GoodParams p.pp) (x : Int) (ts : Int3)
    (hts : ts.t0 ^ 2 + ts.t1 ^ 2 + ts.t2 ^ 2 = 4 * x + 1) (log : List (Option Int)) :
    Ends (aopProveDraw S E x ts) ⟨log, p⟩ (KeptPosInputs p) fun _ => KeptPosInputs p := by
  have hall := fun coins => C53_complete_of_squares E p hpp x ts hts coins
  have hN : 0 ≤ p.pp.N := by
    have := hpp.1
    omega
  obtain ⟨_, _, _, _, h0, _⟩ := hall ⟨⟨0, 0, 0⟩, ⟨0, 0, 0⟩, ⟨0, 0, 0⟩, 0⟩
  obtain ⟨C, _, _, _, hC, _⟩ := (aopProve_ok_iff ..).1 h0
  have key : ∀ coins : AoPCoins, ∃ c3 d3 d, commitFromTS p.pp coins.rc ts = .ok c3 ∧ ∀ p',
      p' = { p with
        C := C, x3 := ts, r3 := coins.rc, c3 := c3, randM3 := coins.m3, randS3 := coins.s3, s := coins.s } →
      aopFirstPartD p' coins.m3 coins.s3 = .ok d3 ∧ aopSecondPartD p' coins.m3 = .ok d := by
    intro coins
    obtain ⟨_, _, _, _, h, _⟩ := hall coins
    obtain ⟨C', c3, d3, d, hC', hc3, rfl, hd3, hd, _⟩ := (aopProve_ok_iff ..).1 h
    obtain rfl := Except.ok.inj (hC.symm.trans hC')
    exact ⟨c3, d3, d, hc3, fun p' hp' => by subst hp'; exact ⟨hd3, hd⟩⟩
  unfold aopProveDraw
  refine ends_obj _ _ _ _ (ends_res _ C hC _ _ _ _ (ends_write _ _ _ _ _ ?_))
  refine ends_bind _ _ _ _ (fun c3 q => ∃ rc : Int3, commitFromTS p.pp rc ts = .ok c3 ∧
      q = { p with C := C, x3 := ts, r3 := rc, c3 := c3 }) _ ?_ ?_
  · unfold aopCommitForXDraw
    refine ends_write _ _ _ _ _ (ends_obj _ _ _ _ ?_)
    refine ends_draws _ (drawsOnly_three S _ (by show 0 < p.pp.N + 1; omega)) _ _ _ _ ⟨rfl, rfl⟩ fun rc log' => ?_
    obtain ⟨c3, _, _, hc3, _⟩ := key ⟨rc, ⟨0, 0, 0⟩, ⟨0, 0, 0⟩, 0⟩
    exact ends_write _ _ _ _ _ (ends_res _ c3 hc3 _ _ _ _ (ends_write _ _ _ _ _ (ends_pure _ _ _ _ ⟨rc, hc3, rfl⟩)))
  · rintro c3 log' _ ⟨rc, hc3, rfl⟩
    refine ends_bind _ _ _ _ (fun _ => KeptPosInputs p) _ ?_ fun cm log'' q hq => ends_obj _ _ _ _ (ends_pure _ _ _ _ hq)
    unfold aopCommitDraw
    refine ends_draws _ (drawsOnly_three S _ mLimit_pos) _ _ _ _ ⟨rfl, rfl⟩ fun m3 _ => ?_
    refine ends_write _ _ _ _ _ (ends_obj _ _ _ _ ?_)
    refine ends_draws _ (drawsOnly_three S _ (sLimit_pos p.pp hN)) _ _ _ _ ⟨rfl, rfl⟩ fun s3 _ => ?_
    refine ends_write _ _ _ _ _ ?_
    refine ends_draws _ (drawsOnly_randInt S _ (aopLastLimit_pos p.pp hN)) _ _ _ _ ⟨rfl, rfl⟩ fun σ _ => ?_
    refine ends_write _ _ _ _ _ (ends_obj _ _ _ _ ?_)
    obtain ⟨c3', d3, d, hc3', hd⟩ := key ⟨rc, m3, s3, σ⟩
    obtain rfl := Except.ok.inj (hc3.symm.trans hc3')
    exact ends_res _ d3 (hd _ rfl).1 _ _ _ _ (ends_res _ d (hd _ rfl).2 _ _ _ _ (ends_pure _ _ _ _ ⟨rfl, rfl⟩))

/-- C132 for the argument of positivity, in the same way. -/
theorem C132_positivity_outcome_partial (S : Source) (E : Env) (p : AoPProver) (hpp : GoodParams p.pp) (x : Int) (ts : Int3)
    (hts : ts.t0 ^ 2 + ts.t1 ^ 2 + ts.t2 ^ 2 = 4 * x + 1) (log : List (Option Int)) :
    Ends (aopProveDraw S E x ts) ⟨log, p⟩ (KeptPosInputs p) fun proof q => KeptPosInputs p q ∧
      ∃ c, IsCommit p.pp.N p.pp.G p.pp.H x p.r c ∧
        ∀ v : AoPVerifier, v.pp = p.pp → v.c = c → aopVerify E v (some proof) = .ok true := by
  rcases aopProveDraw_ends S E p hpp x ts hts log with ⟨proof, new, q, h, hn, hq⟩ | h
  · obtain ⟨coins, _, _, hp⟩ := (C132_positivity ..).1 h
    obtain ⟨c, hc, proof', q', h', _, hver⟩ := C53_complete_of_squares E p hpp x ts hts coins
    obtain ⟨rfl, _⟩ := (Prod.mk.injEq ..).mp (Except.ok.inj (h'.symm.trans hp))
    exact .inl ⟨_, new, q, h, hn, hq, c, hc, hver⟩
  · exact .inr h

/-- The last call fails. -/
example : (match aopProveDraw (fun i _ => if i = 9 then none else some (i + 1)) pokeEnv 5 ⟨4, 2, 1⟩ ⟨[], newAoPProver ⟨35, 4, 9⟩ 6⟩ with
    | (.error .error, s) => s.log.length == 10 && s.obj.randS3 == ⟨7, 8, 9⟩ && s.obj.s == 0
    | _ => false) = true := by decide +kernel

/-! ## A prover object after failed calls -/

/-- Every outcome of the call keeps the property of the object. -/
def Keeps {P α : Type} (J : P → Prop) (m : Draw P α) : Prop := ∀ s, J s.obj → J (m s).2.obj

theorem keeps_bind {P α β : Type} (J : P → Prop) (m : Draw P α) (f : α → Draw P β) (hm : Keeps J m) (hf : ∀ a, Keeps J (f a)) :
    Keeps J (m >>= f) := by
  intro s hs
  show J (Draw.bind m f s).2.obj
  unfold Draw.bind
  rcases h : m s with ⟨_ | v, s'⟩
  · simpa only [h] using hm s hs
  · refine hf v s' ?_
    simpa only [h] using hm s hs

theorem keeps_pure {P α : Type} (J : P → Prop) (v : α) : Keeps J (pure v : Draw P α) := fun _ h => h

theorem keeps_obj {P : Type} (J : P → Prop) : Keeps J (Draw.obj : Draw P P) := fun _ h => h

theorem keeps_write {P : Type} (J : P → Prop) (g : P → P) (hg : ∀ p, J p → J (g p)) : Keeps J (Draw.write g) := fun _ h => hg _ h

theorem keeps_res {P α : Type} (J : P → Prop) (r : Res α) : Keeps J (Draw.res r : Draw P α) := by
  intro s h
  unfold Draw.res
  cases r <;> exact h

theorem keeps_randInt {P : Type} (J : P → Prop) (S : Source) (max : Int) : Keeps J (randInt S max : Draw P Int) := by
  intro s h
  unfold randInt
  split
  · exact h
  · cases S s.log.length max <;> exact h

theorem keeps_three {P : Type} (J : P → Prop) (S : Source) (n : Int) : Keeps J (newThreeRandCoins S n : Draw P Int3) := by
  unfold newThreeRandCoins freshCoin
  repeat (refine keeps_bind J _ _ (keeps_randInt J S _) fun _ => ?_)
  exact keeps_pure J _

theorem keeps_four {P : Type} (J : P → Prop) (S : Source) (n : Int) : Keeps J (newFourRandCoins S n : Draw P Int4) := by
  unfold newFourRandCoins freshCoin
  repeat (refine keeps_bind J _ _ (keeps_randInt J S _) fun _ => ?_)
  exact keeps_pure J _

/-- A call of `Prove` keeps the inputs of the prover object, however it ends. -/
theorem rpProveDraw_keeps (S : Source) (E : Env) (x : Int) (ts : Int3) (p : RPProver) : Keeps (KeptInputs p) (rpProveDraw S E x ts) := by
  unfold rpProveDraw rpCommitForXDraw rpCommitDraw freshCoin
  repeat' first
    | with_reducible exact keeps_pure _ _
    | with_reducible exact keeps_obj _
    | with_reducible exact keeps_res _ _
    | with_reducible exact keeps_randInt _ _ _
    | with_reducible exact keeps_three _ _ _
    | with_reducible exact keeps_four _ _ _
    | (with_reducible refine keeps_write _ _ ?_); exact fun _ h => h
    | with_reducible refine keeps_bind _ _ _ ?_ fun _ => ?_

theorem aopProveDraw_keeps (S : Source) (E : Env) (x : Int) (ts : Int3) (p : AoPProver) :
    Keeps (KeptPosInputs p) (aopProveDraw S E x ts) := by
  unfold aopProveDraw aopCommitForXDraw aopCommitDraw freshCoin
  repeat' first
    | with_reducible exact keeps_pure _ _
    | with_reducible exact keeps_obj _
    | with_reducible exact keeps_res _ _
    | with_reducible exact keeps_randInt _ _ _
    | with_reducible exact keeps_three _ _ _
    | (with_reducible refine keeps_write _ _ ?_); exact fun _ h => h
    | with_reducible refine keeps_bind _ _ _ ?_ fun _ => ?_

/-- States of a prover object after calls of `Prove` with any outcome. -/
inductive RPCalls (S : Source) (E : Env) (s : Cell RPProver) : Cell RPProver → Prop
  | new : RPCalls S E s s
  | call {t : Cell RPProver} (x : Int) (ts : Int3) : RPCalls S E s t → RPCalls S E s (rpProveDraw S E x ts t).2

/-- States of a positivity prover object after calls of `Prove` with any outcome. -/
inductive AoPCalls (S : Source) (E : Env) (s : Cell AoPProver) : Cell AoPProver → Prop
  | new : AoPCalls S E s s
  | call {t : Cell AoPProver} (x : Int) (ts : Int3) : AoPCalls S E s t → AoPCalls S E s (aopProveDraw S E x ts t).2

/-- C132: calls that failed leave nothing behind. After any calls of `Prove`, failed or not, the next call returns the same
proofs as on a new prover object with the same source. -/
theorem C132_range_after_failures (S : Source) (E : Env) (s t : Cell RPProver) (h : RPCalls S E s t) (x : Int) (ts : Int3)
    (proof : RangeProof) (u : Cell RPProver) :
    rpProveDraw S E x ts t = (.ok proof, u) ↔
      rpProveDraw S E x ts ⟨t.log, newRPProver s.obj.pp s.obj.r s.obj.a s.obj.b⟩ = (.ok proof, u) := by
  have hI : KeptInputs s.obj t.obj := by
    induction h with
    | new => exact ⟨rfl, rfl, rfl, rfl⟩
    | call x ts _ ih => exact rpProveDraw_keeps S E x ts s.obj _ ih
  rw [C132_range, C132_range]
  simp only [C59_range_prover_reuse E t.obj (newRPProver s.obj.pp s.obj.r s.obj.a s.obj.b) hI, hI.1]
  rfl

theorem C132_positivity_after_failures (S : Source) (E : Env) (s t : Cell AoPProver) (h : AoPCalls S E s t) (x : Int) (ts : Int3)
    (proof : ArgOfPositivity) (u : Cell AoPProver) :
    aopProveDraw S E x ts t = (.ok proof, u) ↔
      aopProveDraw S E x ts ⟨t.log, newAoPProver s.obj.pp s.obj.r⟩ = (.ok proof, u) := by
  have hI : KeptPosInputs s.obj t.obj := by
    induction h with
    | new => exact ⟨rfl, rfl⟩
    | call x ts _ ih => exact aopProveDraw_keeps S E x ts s.obj _ ih
  rw [C132_positivity, C132_positivity]
  simp only [C59_positivity_prover_reuse E t.obj (newAoPProver s.obj.pp s.obj.r) hI, hI.1]
  rfl

/-- A history with a failed call and a completed call; the fields hold what the calls have written. -/
example : ∃ t, RPCalls (fun i _ => if i = 6 then none else some (i + 1)) pokeEnv ⟨[], newRPProver ⟨35, 4, 9⟩ 6 1 8⟩ t ∧
    t.log.length = 19 ∧ t.obj.sigma = 19 :=
  ⟨_, .call 3 ⟨6, 2, 1⟩ (.call 3 ⟨6, 2, 1⟩ .new), by decide +kernel, by decide +kernel⟩

/-! ## ZKPoKE and the randomizer -/

theorem drawn_three (S : Source) (k : Nat) (l a b c : Int) :
    DrawnFrom S k [l, l, l] [a, b, c] ↔ 0 < l ∧ S k l = some a ∧ S (k + 1) l = some b ∧ S (k + 2) l = some c := by
  simp only [DrawnFrom, and_true]
  tauto

/-- C132 for ZKPoKE: `ZKPoKEProve` returns a proof exactly if its three draws succeed and the proof for the drawn numbers is
returned, each used once in the order of the draws. -/
theorem C132_zkpoke (S : Source) (E : Env) (fuel : Nat) (pp : PublicParameters) (u x w : Int) (s s' : Cell Unit)
    (proof : ZKPoKEProof) :
    zkpokeProveDraw S E fuel pp u x w s = (.ok proof, s') ↔ ∃ k rhox rhok,
      DrawnFrom S s.log.length [zkpokeBound pp, zkpokeBound pp, zkpokeBound pp] [k, rhox, rhok] ∧
      s'.log = s.log ++ [some k, some rhox, some rhok] ∧
      zkpokeProve E fuel pp u x w k rhox rhok = Run.ok (some proof) := by
  by_cases hst : expStmt u x pp.N = w
  · by_cases hb : zkpokeBound pp ≤ 0
    · simp only [zkpokeProveDraw, hst, ne_eq, not_true_eq_false, if_false, draw_bind_ok_iff, randInt_ok_iff, drawn_three,
        not_lt.2 hb, false_and, and_false, exists_false]
    · simp only [zkpokeProveDraw, zkpokeProve, hst, hb, ne_eq, not_true_eq_false, if_false, draw_bind_ok_iff, randInt_ok_iff,
        draw_run_ok_iff, draw_pure_ok_iff, drawn_three, run_bind_ok_iff]
      constructor
      · rintro ⟨k, _, ⟨h0, hk, rfl⟩, rhox, _, ⟨_, hx, rfl⟩, rhok, _, ⟨_, hr, rfl⟩, z, _, ⟨hz, rfl⟩, Ag, _, ⟨hAg, rfl⟩,
          l, _, ⟨hl, rfl⟩, qx, _, ⟨hqx, rfl⟩, qr, _, ⟨hqr, rfl⟩, Qg, _, ⟨hQg, rfl⟩, rfl, rfl⟩
        simp only [List.length_append, List.length_singleton] at hx hr
        exact ⟨k, rhox, rhok, ⟨h0, hk, hx, hr⟩, by simp, z, hz, Ag, hAg, l, hl, qx, hqx, qr, hqr, Qg, hQg, rfl⟩
      · rintro ⟨k, rhox, rhok, ⟨h0, hk, hx, hr⟩, hlog, z, hz, Ag, hAg, l, hl, qx, hqx, qr, hqr, Qg, hQg, h⟩
        obtain rfl := Option.some.inj (run_ok_inj h)
        refine ⟨k, _, ⟨h0, hk, rfl⟩, rhox, _, ⟨h0, ?_, rfl⟩, rhok, _, ⟨h0, ?_, rfl⟩, z, _, ⟨hz, rfl⟩, Ag, _, ⟨hAg, rfl⟩,
          l, _, ⟨hl, rfl⟩, qx, _, ⟨hqx, rfl⟩, qr, _, ⟨hqr, rfl⟩, Qg, _, ⟨hQg, rfl⟩, rfl, ?_⟩
        · rw [List.length_append]
          exact hx
        · rw [List.length_append, List.length_append]
          exact hr
        · obtain ⟨log', ⟨⟩⟩ := s'
          dsimp only at hlog
          simp only [Cell.mk.injEq, and_true]
          rw [hlog]
          simp
  · simp only [zkpokeProveDraw, zkpokeProve, hst, ne_eq, not_false_eq_true, if_true, Draw.stop]
    constructor
    · intro h
      cases h
    · rintro ⟨k, rhox, rhok, _, _, h⟩
      cases run_ok_inj h

/-- An error is returned for a wrong statement, without a draw, or if a draw fails, with nothing drawn afterwards. -/
theorem C132_zkpoke_error (S : Source) (E : Env) (fuel : Nat) (pp : PublicParameters) (u x w : Int) (s s' : Cell Unit) :
    zkpokeProveDraw S E fuel pp u x w s = (.error .error, s') ↔
      (expStmt u x pp.N ≠ w ∧ s' = s) ∨ (expStmt u x pp.N = w ∧ 0 < zkpokeBound pp ∧
        ∃ drawn : List Int, drawn.length < 3 ∧ DrawnFrom S s.log.length (List.replicate drawn.length (zkpokeBound pp)) drawn ∧
          S (s.log.length + drawn.length) (zkpokeBound pp) = none ∧ s'.log = s.log ++ drawn.map some ++ [none]) := by
  have hrun : ∀ {α : Type} (r : Run α) (t t' : Cell Unit), (Draw.run r : Draw Unit α) t ≠ (.error .error, t') := by
    intro α r t t' h
    change Option (Except String α) at r
    rcases r with _ | (e | v) <;> cases h
  have hbind : ∀ {α β : Type} (r : Run α) (f : α → Draw Unit β), (∀ v t t', f v t ≠ (.error .error, t')) → ∀ t t',
      ((Draw.run r : Draw Unit α) >>= f) t ≠ (.error .error, t') := by
    intro α β r f hf t t' h
    rcases hr : (Draw.run r : Draw Unit α) t with ⟨e | v, t1⟩
    · rw [draw_bind_error _ _ _ _ _ hr] at h
      obtain ⟨h1, rfl⟩ := (Prod.mk.injEq ..).mp h
      obtain rfl := Except.error.inj h1
      exact hrun r t _ hr
    · rw [draw_bind_ok _ _ _ _ _ hr] at h
      exact hf v _ _ h
  have hpure : ∀ {α : Type} (v : α) (t t' : Cell Unit), (pure v : Draw Unit α) t ≠ (.error .error, t') := by
    intro α v t t' h
    cases h
  by_cases hst : expStmt u x pp.N = w
  · by_cases hb : zkpokeBound pp ≤ 0
    · simp only [zkpokeProveDraw, hst, ne_eq, not_true_eq_false, if_false, false_and, not_lt.2 hb, and_false, or_self, iff_false]
      intro h
      have hr : randInt S (zkpokeBound pp) s = (.error .panic, s) := by
        unfold randInt
        rw [if_pos hb]
      rw [draw_bind_error _ _ _ _ _ hr] at h
      cases h
    · have hb' := not_le.1 hb
      simp only [zkpokeProveDraw, hst, ne_eq, not_true_eq_false, if_false, false_and, false_or, true_and, hb']
      have step : ∀ (t : Cell Unit), (∃ v, S t.log.length (zkpokeBound pp) = some v ∧
          randInt S (zkpokeBound pp) t = (.ok v, ⟨t.log ++ [some v], t.obj⟩)) ∨ (S t.log.length (zkpokeBound pp) = none ∧
          randInt S (zkpokeBound pp) t = (.error .error, ⟨t.log ++ [none], t.obj⟩)) := by
        intro t
        unfold randInt
        rw [if_neg hb]
        cases h : S t.log.length (zkpokeBound pp) with
        | none => exact .inr ⟨rfl, rfl⟩
        | some v => exact .inl ⟨v, rfl, rfl⟩
      have hs' : ∀ l, (⟨l, s.obj⟩ : Cell Unit) = s' ↔ l = s'.log := fun l =>
        ⟨fun h => by rw [← h], fun h => by obtain ⟨_, ⟨⟩⟩ := s'; simp only at h; rw [h]⟩
      have uniq : ∀ {k : Nat} {v : Int} {drawn : List Int}, S k (zkpokeBound pp) = some v →
          S (k + drawn.length) (zkpokeBound pp) = none → drawn ≠ [] := by
        rintro k v _ h1 h2 rfl
        rw [List.length_nil, Nat.add_zero, h1] at h2
        cases h2
      rcases step s with ⟨k, hk, h1⟩ | ⟨hk, h1⟩
      · rw [draw_bind_ok _ _ _ _ _ h1]
        rcases step ⟨s.log ++ [some k], s.obj⟩ with ⟨rx, hx, h2⟩ | ⟨hx, h2⟩
        · rw [draw_bind_ok _ _ _ _ _ h2]
          rcases step ⟨s.log ++ [some k] ++ [some rx], s.obj⟩ with ⟨rk, hr, h3⟩ | ⟨hr, h3⟩
          · rw [draw_bind_ok _ _ _ _ _ h3]
            simp only [List.length_append, List.length_singleton] at hx hr
            refine ⟨fun h => ?_, ?_⟩
            · refine absurd h ?_
              exact hbind _ _ (fun _ => hbind _ _ fun _ => hbind _ _ fun _ => hbind _ _ fun _ => hbind _ _ fun _ =>
                hbind _ _ fun _ => hpure _) _ _
            · rintro ⟨drawn, hlen, hD, hnone, _⟩
              exfalso
              rcases drawn with _ | ⟨_, _ | ⟨_, _ | ⟨_, _⟩⟩⟩
              · exact uniq hk hnone rfl
              · rw [List.length_singleton, hx] at hnone
                cases hnone
              · simp only [List.length_cons, List.length_nil] at hnone
                rw [show s.log.length + (0 + 1 + 1) = s.log.length + 1 + 1 by omega, hr] at hnone
                cases hnone
              · simp only [List.length_cons] at hlen
                omega
          · rw [draw_bind_error _ _ _ _ _ h3]
            simp only [List.length_append, List.length_singleton] at hx hr
            simp only [Prod.mk.injEq, true_and, hs']
            constructor
            · intro h
              exact ⟨[k, rx], by simp, by simp [DrawnFrom, hb', hk, hx], by simpa using hr, by rw [← h]; simp⟩
            · rintro ⟨drawn, hlen, hD, hnone, h⟩
              rcases drawn with _ | ⟨d0, _ | ⟨d1, _ | ⟨_, _⟩⟩⟩
              · exact absurd rfl (uniq hk hnone)
              · rw [List.length_singleton, hx] at hnone
                cases hnone
              · simp only [List.length_cons, List.length_nil, List.replicate, DrawnFrom, and_true] at hD
                obtain ⟨_, e0, _, e1⟩ := hD
                rw [hk] at e0
                rw [hx] at e1
                obtain rfl := Option.some.inj e0
                obtain rfl := Option.some.inj e1
                rw [h]
                simp
              · simp only [List.length_cons] at hlen
                omega
        · rw [draw_bind_error _ _ _ _ _ h2]
          simp only [List.length_append, List.length_singleton] at hx
          simp only [Prod.mk.injEq, true_and, hs']
          constructor
          · intro h
            exact ⟨[k], by simp, by simp [DrawnFrom, hb', hk], by simpa using hx, by rw [← h]; simp⟩
          · rintro ⟨drawn, hlen, hD, hnone, h⟩
            rcases drawn with _ | ⟨d0, _ | ⟨d1, _ | ⟨_, _⟩⟩⟩
            · exact absurd rfl (uniq hk hnone)
            · simp only [List.length_cons, List.length_nil, List.replicate, DrawnFrom, and_true] at hD
              rw [hk] at hD
              obtain rfl := Option.some.inj hD.2
              rw [h]
              simp
            · simp only [List.length_cons, List.length_nil, List.replicate, DrawnFrom, and_true] at hD
              rw [hx] at hD
              cases hD.2.2.2
            · simp only [List.length_cons] at hlen
              omega
      · rw [draw_bind_error _ _ _ _ _ h1]
        simp only [Prod.mk.injEq, true_and, hs']
        constructor
        · intro h
          exact ⟨[], by simp, by simp [DrawnFrom], by simpa using hk, by rw [← h]; simp⟩
        · rintro ⟨drawn, hlen, hD, hnone, h⟩
          rcases drawn with _ | ⟨d0, _⟩
          · rw [h]
            simp
          · simp only [List.length_cons, List.replicate, DrawnFrom] at hD
            rw [hk] at hD
            cases hD.2.1
  · simp only [zkpokeProveDraw, hst, ne_eq, not_false_eq_true, if_true, Draw.stop, true_and, false_and, or_false, Prod.mk.injEq]
    exact eq_comm

/-- All draws succeed, the third fails, and a wrong statement. -/
example :
    (match zkpokeProveDraw (fun i _ => some (i + 1)) pokeEnv 10 ⟨35, 4, 9⟩ 2 3 8 ⟨[], ()⟩ with
      | (.ok _, s) => s.log == [some 1, some 2, some 3] | _ => false) = true ∧
    (match zkpokeProveDraw (fun i _ => if i = 2 then none else some (i + 1)) pokeEnv 10 ⟨35, 4, 9⟩ 2 3 8 ⟨[], ()⟩ with
      | (.error .error, s) => s.log == [some 1, some 2, none] | _ => false) = true ∧
    (match zkpokeProveDraw (fun i _ => some (i + 1)) pokeEnv 10 ⟨35, 4, 9⟩ 2 3 9 ⟨[], ()⟩ with
      | (.error .error, s) => s.log == [] | _ => false) = true := by
  refine ⟨?_, ?_, ?_⟩ <;> decide +kernel

/-- C132 for `GenRandomizer`: it returns the drawn number, or panics if the draw fails. -/
theorem C132_randomizer (S : Source) (s : Cell Unit) :
    (∃ r, S s.log.length min2048 = some r ∧ genRandomizerDraw S s = (.ok r, ⟨s.log ++ [some r], s.obj⟩)) ∨
      (S s.log.length min2048 = none ∧ genRandomizerDraw S s = (.error .panic, ⟨s.log ++ [none], s.obj⟩)) := by
  have hpos : ¬ ((min2048 : Nat) : Int) ≤ 0 := by
    have : 0 < min2048 := by
      unfold min2048
      positivity
    omega
  unfold genRandomizerDraw Draw.mustReturn randInt
  rw [if_neg hpos]
  cases h : S s.log.length min2048 with
  | none => exact .inr ⟨rfl, rfl⟩
  | some r => exact .inl ⟨r, rfl, rfl⟩

theorem genRandomizerDraw_ok_iff (S : Source) (r : Int) (s s' : Cell Unit) :
    genRandomizerDraw S s = (.ok r, s') ↔ S s.log.length min2048 = some r ∧ s' = ⟨s.log ++ [some r], s.obj⟩ := by
  rcases C132_randomizer S s with ⟨v, hv, h⟩ | ⟨hv, h⟩
  · rw [h, hv]
    simp only [Prod.mk.injEq, Except.ok.injEq, Option.some.injEq]
    constructor
    · rintro ⟨rfl, rfl⟩
      exact ⟨rfl, rfl⟩
    · rintro ⟨rfl, rfl⟩
      exact ⟨rfl, rfl⟩
  · rw [h, hv]
    simp

/-- C132 for `ZKAccumulate`: it returns a result exactly if the draw succeeds and the function returns it for the drawn number. -/
theorem C132_zkAccumulate (S : Source) (E : Env) (fuel : Nat) (set : List Bytes) (encodeType : Int) (setup : Setup)
    (s s' : Cell Unit) (v : Nat × List Nat) :
    zkAccumulateDraw S E fuel set encodeType setup s = (.ok v, s') ↔ ∃ r, S s.log.length min2048 = some r ∧
      s'.log = s.log ++ [some r] ∧ zkAccumulate E fuel r.toNat set encodeType setup = Run.ok v := by
  simp only [zkAccumulateDraw, zkAccumulate, draw_bind_ok_iff, draw_run_ok_iff, genRandomizerDraw_ok_iff, run_bind_ok_iff]
  constructor
  · rintro ⟨rep, _, ⟨hrep, rfl⟩, r, _, ⟨hr, rfl⟩, proofs, _, ⟨hp, rfl⟩, hacc, rfl⟩
    exact ⟨r, hr, rfl, rep, hrep, proofs, hp, hacc⟩
  · rintro ⟨r, hr, hlog, rep, hrep, proofs, hp, hacc⟩
    refine ⟨rep, _, ⟨hrep, rfl⟩, r, _, ⟨hr, rfl⟩, proofs, _, ⟨hp, rfl⟩, hacc, ?_⟩
    obtain ⟨_, ⟨⟩⟩ := s'
    simp only at hlog
    rw [hlog]

/-- With a failed draw no number is returned. -/
example (s : Cell Unit) (r : Int) (s' : Cell Unit) : genRandomizerDraw (fun _ _ => none) s ≠ (.ok r, s') := by
  intro h
  cases ((genRandomizerDraw_ok_iff ..).1 h).1

/-! ## The benchmarks -/

/-- The results of `n` calls with the same limit. -/
def drawResults (S : Source) (max : Int) (k n : Nat) : List (Option Int) := (List.range n).map fun i => S (k + i) max

theorem drawResults_succ (S : Source) (max : Int) (k n : Nat) :
    drawResults S max k (n + 1) = S k max :: drawResults S max (k + 1) n := by
  simp only [drawResults, List.range_succ_eq_map, List.map_cons, List.map_map, Nat.add_zero, List.cons.injEq, true_and]
  refine List.map_congr_left fun i _ => ?_
  simp only [Function.comp]
  congr 1
  omega

/-- Whether the last of `n` calls failed, `err` if there is none. -/
def lastFailed (S : Source) (max : Int) (k : Nat) (err : Bool) : Nat → Bool
  | 0 => err
  | m + 1 => (S (k + m) max).isNone

theorem benchDrawLoop_eq {P : Type} (S : Source) (max : Int) (hm : 0 < max) (n : Nat) (set : List (Option Int)) (err : Bool)
    (s : Cell P) : benchDrawLoop S max n set err s =
      (.ok (set ++ drawResults S max s.log.length n, lastFailed S max s.log.length err n),
        ⟨s.log ++ drawResults S max s.log.length n, s.obj⟩) := by
  induction n generalizing set err s with
  | zero =>
    simp only [benchDrawLoop, drawResults, List.range_zero, List.map_nil, List.append_nil]
    rfl
  | succ n ih =>
    rw [drawResults_succ]
    have hlast : ∀ (b : Bool), b = (S s.log.length max).isNone →
        lastFailed S max (s.log.length + 1) b n = lastFailed S max s.log.length err (n + 1) := by
      intro b hb
      cases n with
      | zero => simpa [lastFailed] using hb
      | succ m =>
        simp only [lastFailed]
        congr 2
        omega
    have hr : randInt S max s = match S s.log.length max with
        | some v => (.ok v, ⟨s.log ++ [some v], s.obj⟩)
        | none => (.error .error, ⟨s.log ++ [none], s.obj⟩) := by
      unfold randInt
      rw [if_neg (not_le.2 hm)]
      cases S s.log.length max <;> rfl
    simp only [benchDrawLoop]
    rw [hr]
    cases h : S s.log.length max with
    | none =>
      simp only
      rw [ih]
      simp only [List.length_append, List.length_singleton, List.append_assoc, List.singleton_append]
      rw [hlast true (by rw [h]; rfl)]
    | some v =>
      simp only
      rw [ih]
      simp only [List.length_append, List.length_singleton, List.append_assoc, List.singleton_append]
      rw [hlast false (by rw [h]; rfl)]

theorem benchDrawSet_eq (S : Source) (max : Int) (hm : 0 < max) (n : Nat) (s : Cell Unit) :
    benchDrawSet S max (n + 1) s = ((if S (s.log.length + n) max = none then .error .error
      else .ok (drawResults S max s.log.length (n + 1))), ⟨s.log ++ drawResults S max s.log.length (n + 1), s.obj⟩) := by
  unfold benchDrawSet
  rw [draw_bind_ok _ _ _ _ _ (benchDrawLoop_eq S max hm (n + 1) [] false s)]
  simp only [List.nil_append]
  by_cases h : S (s.log.length + n) max = none
  · have hl : lastFailed S max s.log.length false (n + 1) = true := by rw [lastFailed, h]; rfl
    rw [if_pos h, hl]
    rfl
  · have hl : lastFailed S max s.log.length false (n + 1) = false := by simpa [lastFailed, ← ne_eq, Option.ne_none_iff_isSome] using h
    rw [if_neg h, hl]
    rfl

theorem nonNil_ok_iff {α : Type} (x : Option α) (v : α) : nonNil x = .ok v ↔ x = some v := by
  cases x with
  | none => exact ⟨fun h => (by cases h), fun h => (by cases h)⟩
  | some w =>
    simp only [nonNil, Except.ok.injEq, Option.some.injEq]

theorem groupElementMulFrom_ok_iff (N : Int) (hN : 0 < N) (prev : Option Int) (xs : List (Option Int)) :
    groupElementMulFrom N prev xs = .ok () ↔ xs = [] ∨ (prev ≠ none ∧ none ∉ xs) := by
  induction xs generalizing prev with
  | nil => simp [groupElementMulFrom]
  | cons x xs ih =>
    have hmod : ∀ a : Int, modN a N = .ok (a % N) := fun a => by
      unfold modN
      rw [if_neg (by omega)]
    simp only [groupElementMulFrom, res_bind_ok_iff, nonNil_ok_iff, hmod, Except.ok.injEq, ih]
    cases x with
    | none => simp
    | some a =>
      cases prev with
      | none => simp
      | some b =>
        simp only [Option.some.injEq, exists_eq_left', ne_eq, reduceCtorEq, not_false_eq_true, true_and, List.mem_cons, false_or]
        cases xs <;> simp

/-- `groupElementMul` uses every number of a set with at least two. -/
theorem groupElementMul_ok_iff (N : Int) (hN : 0 < N) (set : List (Option Int)) (hs : 2 ≤ set.length) :
    groupElementMul N set = .ok () ↔ none ∉ set := by
  rcases set with _ | ⟨x, _ | ⟨y, ys⟩⟩
  · simp at hs
  · simp at hs
  · simp only [groupElementMul, groupElementMulFrom_ok_iff N hN, reduceCtorEq, false_or, List.mem_cons, not_or]
    constructor
    · rintro ⟨h1, h2, h3⟩
      exact ⟨fun h => h1 h.symm, h2, h3⟩
    · rintro ⟨h1, h2, h3⟩
      exact ⟨fun h => h1 h.symm, h2, h3⟩

theorem res_forM_ok_iff {α : Type} (l : List α) (f : α → Res Unit) :
    (l.forM f : Res PUnit) = .ok () ↔ ∀ x ∈ l, f x = .ok () := by
  induction l with
  | nil => exact ⟨fun _ _ hx => (by cases hx), fun _ => rfl⟩
  | cons a l ih =>
    simp only [List.mem_cons, forall_eq_or_imp]
    rw [← ih]
    change (f a >>= fun _ => (l.forM f : Res Unit)) = .ok () ↔ _
    rcases f a with e | ⟨⟩
    · exact ⟨fun h => (by cases h), fun h => (by cases h.1)⟩
    · exact ⟨fun h => ⟨rfl, h⟩, fun h => h.2⟩

/-- `groupElementSquare` does not use the first number. -/
theorem groupElementSquare_ok_iff (N : Int) (set : List (Option Int)) : groupElementSquare N set = .ok () ↔ none ∉ set.drop 1 := by
  unfold groupElementSquare
  rw [res_forM_ok_iff]
  simp only [res_bind_ok_iff, nonNil_ok_iff, and_true]
  constructor
  · intro h hn
    obtain ⟨a, ha⟩ := h none hn
    cases ha
  · intro h x hx
    cases x with
    | none => exact absurd hx h
    | some a => exact ⟨a, rfl⟩

theorem rounds_ok_iff (rounds : Nat) (h : 0 < rounds) (r : Res Unit) :
    ((List.range rounds).forM fun _ => r : Res PUnit) = .ok () ↔ r = .ok () := by
  rw [res_forM_ok_iff]
  exact ⟨fun hx => hx 0 (List.mem_range.2 h), fun hr _ _ => hr⟩

theorem none_not_mem_drawResults (S : Source) (max : Int) (k n : Nat) :
    none ∉ drawResults S max k n ↔ ∀ i < n, S (k + i) max ≠ none := by
  simp only [drawResults, List.mem_map, List.mem_range, not_exists, not_and, ne_eq]

/-- C132 for `BenchmarkGroupElementMul`: it ends normally exactly if all draws have succeeded. -/
theorem C132_mul (S : Source) (N : Int) (hN : 0 < N) (n rounds : Nat) (hr : 0 < rounds) (s s' : Cell Unit) :
    benchmarkGroupElementMul S N (n + 2) rounds s = (.ok (), s') ↔
      (∀ i < n + 2, S (s.log.length + i) N ≠ none) ∧ s'.log = s.log ++ drawResults S N s.log.length (n + 2) := by
  unfold benchmarkGroupElementMul
  simp only [draw_bind_ok_iff, draw_res_ok_iff, rounds_ok_iff _ hr, benchDrawSet_eq S N hN (n + 1) s]
  constructor
  · rintro ⟨set, _, h, hm, rfl⟩
    split at h
    · cases h
    · obtain ⟨h1, rfl⟩ := (Prod.mk.injEq ..).mp h
      obtain rfl := Except.ok.inj h1
      rw [groupElementMul_ok_iff N hN _ (by simp [drawResults])] at hm
      exact ⟨(none_not_mem_drawResults ..).1 hm, rfl⟩
  · rintro ⟨h, hlog⟩
    refine ⟨drawResults S N s.log.length (n + 2), ⟨s.log ++ drawResults S N s.log.length (n + 2), s.obj⟩, ?_, ?_, ?_⟩
    · rw [if_neg (h (n + 1) (by omega))]
    · rw [groupElementMul_ok_iff N hN _ (by simp [drawResults])]
      exact (none_not_mem_drawResults ..).2 h
    · obtain ⟨_, ⟨⟩⟩ := s'
      simp only at hlog
      rw [hlog]

/-- A source that fails on the second call: the benchmark ends with a nil dereference, not with `b.Fatal`. -/
example : (benchmarkGroupElementMul (fun i _ => if i = 1 then none else some 5) 35 3 2 ⟨[], ()⟩).1 = .error .panic ∧
    (benchmarkGroupElementMul (fun i _ => if i = 2 then none else some 5) 35 3 2 ⟨[], ()⟩).1 = .error .error ∧
    (benchmarkGroupElementMul (fun _ _ => some 5) 35 3 2 ⟨[], ()⟩).1 = .ok () := ⟨rfl, rfl, rfl⟩

/-- C132 for `BenchmarkGroupElementSquare`: it ends normally exactly if all draws but the first have succeeded. -/
theorem C132_square_partial (S : Source) (N : Int) (hN : 0 < N) (n rounds : Nat) (hr : 0 < rounds) (s s' : Cell Unit) :
    benchmarkGroupElementSquare S N (n + 2) rounds s = (.ok (), s') ↔
      (∀ i, 0 < i → i < n + 2 → S (s.log.length + i) N ≠ none) ∧ s'.log = s.log ++ drawResults S N s.log.length (n + 2) := by
  have htail : none ∉ (drawResults S N s.log.length (n + 2)).drop 1 ↔ ∀ i, 0 < i → i < n + 2 → S (s.log.length + i) N ≠ none := by
    rw [drawResults_succ, List.drop_one, List.tail_cons, none_not_mem_drawResults]
    constructor
    · intro h i h0 hi
      have := h (i - 1) (by omega)
      rwa [show s.log.length + 1 + (i - 1) = s.log.length + i by omega] at this
    · intro h i hi
      have := h (i + 1) (by omega) (by omega)
      rwa [show s.log.length + (i + 1) = s.log.length + 1 + i by omega] at this
  unfold benchmarkGroupElementSquare
  simp only [draw_bind_ok_iff, draw_res_ok_iff, rounds_ok_iff _ hr, benchDrawSet_eq S N hN (n + 1) s, groupElementSquare_ok_iff]
  constructor
  · rintro ⟨set, _, h, hm, rfl⟩
    split at h
    · cases h
    · obtain ⟨h1, rfl⟩ := (Prod.mk.injEq ..).mp h
      obtain rfl := Except.ok.inj h1
      exact ⟨htail.1 hm, rfl⟩
  · rintro ⟨h, hlog⟩
    refine ⟨drawResults S N s.log.length (n + 2), ⟨s.log ++ drawResults S N s.log.length (n + 2), s.obj⟩, ?_, htail.2 h, ?_⟩
    · rw [if_neg (h (n + 1) (by omega) (by omega))]
    · obtain ⟨_, ⟨⟩⟩ := s'
      simp only at hlog
      rw [hlog]

example : (benchmarkGroupElementSquare (fun i _ => if i = 1 then none else some 5) 35 3 2 ⟨[], ()⟩).1 = .error .panic ∧
    (benchmarkGroupElementSquare (fun i _ => if i = 0 then none else some 5) 35 3 2 ⟨[], ()⟩).1 = .ok () := ⟨rfl, rfl⟩

/-! ## The property -/

theorem drawn_none_not_mem (vs : List Int) : none ∉ vs.map some := by simp

/-- C132 for all functions of the statement but the last. -/
theorem C132_reports_partial (S : Source) (E : Env) :
    (∀ x ts, Reports (rpProveDraw S E x ts)) ∧ (∀ x ts, Reports (aopProveDraw S E x ts)) ∧
    (∀ fuel pp u x w, Reports (zkpokeProveDraw S E fuel pp u x w)) ∧ Reports (genRandomizerDraw S) ∧
    (∀ fuel set encodeType setup, Reports (zkAccumulateDraw S E fuel set encodeType setup)) ∧
    (∀ rounds, 0 < rounds → Reports (benchmarkGroupElementMul S n2048 10000 rounds)) := by
  refine ⟨fun x ts s v s' h => ?_, fun x ts s v s' h => ?_, fun fuel pp u x w s v s' h => ?_, fun s v s' h => ?_,
    fun fuel set encodeType setup s v s' h => ?_, fun rounds hr s v s' h => ?_⟩
  · obtain ⟨coins, _, hlog, _⟩ := (C132_range ..).1 h
    exact ⟨_, hlog, drawn_none_not_mem _⟩
  · obtain ⟨coins, _, hlog, _⟩ := (C132_positivity ..).1 h
    exact ⟨_, hlog, drawn_none_not_mem _⟩
  · obtain ⟨k, rhox, rhok, _, hlog, _⟩ := (C132_zkpoke ..).1 h
    exact ⟨_, hlog, by simp⟩
  · obtain ⟨_, rfl⟩ := (genRandomizerDraw_ok_iff ..).1 h
    exact ⟨_, rfl, by simp⟩
  · obtain ⟨r, _, hlog, _⟩ := (C132_zkAccumulate ..).1 h
    exact ⟨_, hlog, by simp⟩
  · have hN : (0 : Int) < (n2048 : Nat) := by
      have : 0 < n2048 := by decide +kernel
      omega
    obtain ⟨hall, hlog⟩ := (C132_mul S n2048 hN 9998 rounds hr s s').1 h
    exact ⟨_, hlog, (none_not_mem_drawResults ..).2 hall⟩

/-- A source whose first call fails. -/
def firstFails : Source := fun i _ => if i = 0 then none else some 5

/-- C132 is violated: if the first of the 10000 draws of `BenchmarkGroupElementSquare` fails, the error is overwritten by the
next draw, and the benchmark ends normally because the first number is not used. -/
theorem C132_violated : ¬ C132_statement := by
  intro h
  have hN : (0 : Int) < (n2048 : Nat) := by
    have : 0 < n2048 := by decide +kernel
    omega
  have hb : benchmarkGroupElementSquare firstFails n2048 10000 1 ⟨[], ()⟩ =
      (.ok (), ⟨[] ++ drawResults firstFails n2048 0 10000, ()⟩) := by
    refine (C132_square_partial firstFails n2048 hN 9998 1 (by omega) ⟨[], ()⟩ _).2 ⟨fun i h0 _ => ?_, rfl⟩
    show firstFails (0 + i) _ ≠ none
    rw [Nat.zero_add, firstFails, if_neg (by omega)]
    exact Option.some_ne_none _
  obtain ⟨new, hnew, hnone⟩ := (h firstFails pokeEnv).2.2.2.2.2.2 1 (by omega) _ _ _ hb
  apply hnone
  simp only [List.nil_append] at hnew
  rw [← hnew, drawResults_succ]
  exact List.mem_cons_self

end Verif.Props
