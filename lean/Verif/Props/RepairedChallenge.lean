import Verif.Props.Binding
import Verif.Props.Printing
import Verif.Props.Soundness
import Verif.Props.MultiSwap

/-!
# C38, C52, C58, C67, C81: the challenges with their faults repaired

The functions of this file are not code of the repository. `framed` is what `HashToPrime` and `HashToInt`
(fiat-shamir/transcript.go:107-112, 135-140) would feed to the hash if they wrote the length of every string and a colon in
front of it; `rpProveRepaired` and `rpVerifyRepaired` are the range prover and verifier with a challenge that is made that way
and also depends on the commitment and on the first message. The theorems show that these changes are enough: the bytes then
determine the whole statement, honest proofs are still accepted, and the first message of a proof is fixed before its challenge.
-/

namespace Verif.Props
open Verif.Go Verif.Model Verif.Lemmas Verif.Spec

/-- One string with its length in front. -/
def frame (s : Bytes) : Bytes := itoa s.length ++ 58 :: s

/-- The loop of `HashToPrime` (fiat-shamir/transcript.go:107-112) with the lengths written. -/
def framed (input : List Bytes) : Bytes := input.foldl (fun acc s => acc ++ frame s) []

theorem framed_eq (l : List Bytes) : framed l = (l.map frame).flatten := by
  have h : ∀ (l : List Bytes) (acc : Bytes), l.foldl (fun acc s => acc ++ frame s) acc = acc ++ (l.map frame).flatten := by
    intro l
    induction l with
    | nil => intro acc; simp
    | cons s l ih => intro acc; rw [List.foldl_cons, ih]; simp
  exact (h l []).trans (List.nil_append _)

/-- Two texts that are cut at the first colon. -/
theorem split_colon {a b r s : Bytes} (ha : (58 : UInt8) ∉ a) (hb : (58 : UInt8) ∉ b) (h : a ++ 58 :: r = b ++ 58 :: s) :
    a = b ∧ r = s := by
  induction a generalizing b with
  | nil =>
    cases b with
    | nil => exact ⟨rfl, by simpa using h⟩
    | cons y b => exact absurd (by simpa using (List.cons.inj h).1) (List.ne_of_not_mem_cons hb)
  | cons x a ih =>
    cases b with
    | nil => exact absurd (by simpa using (List.cons.inj h).1.symm) (List.ne_of_not_mem_cons ha)
    | cons y b =>
      obtain ⟨h1, h2⟩ := List.cons.inj h
      obtain ⟨h3, h4⟩ := ih (List.not_mem_of_not_mem_cons ha) (List.not_mem_of_not_mem_cons hb) h2
      exact ⟨by rw [h1, h3], h4⟩

/-- C38 for the repaired hash input: different lists of strings never give the same bytes. This is `C38_statement` with
`framed` in the place of `hashInput`. -/
theorem C38_repaired_partial : ∀ l1 l2 : List Bytes, framed l1 = framed l2 → l1 = l2 := by
  intro l1
  induction l1 with
  | nil =>
    intro l2 h
    cases l2 with
    | nil => rfl
    | cons s l2 => simp [framed_eq, frame] at h
  | cons s l1 ih =>
    intro l2 h
    cases l2 with
    | nil => simp [framed_eq, frame] at h
    | cons t l2 =>
      rw [framed_eq, framed_eq, List.map_cons, List.map_cons, List.flatten_cons, List.flatten_cons, frame, frame,
        List.append_assoc, List.append_assoc, List.cons_append, List.cons_append] at h
      obtain ⟨h1, h2⟩ := split_colon (itoa_no _ 58 (by decide)) (itoa_no _ 58 (by decide)) h
      obtain ⟨h3, h4⟩ := List.append_inj h2 (itoa_injective _ _ h1)
      rw [h3, ih l2 (by rw [framed_eq, framed_eq]; exact h4)]

/-- The strings that C38 found to collide. -/
example : hashInput [ascii "12", ascii "3"] = hashInput [ascii "1", ascii "23"] ∧
    framed [ascii "12", ascii "3"] = ascii "2:121:3" ∧ framed [ascii "1", ascii "23"] = ascii "1:12:23" := by
  decide +kernel

/-- C81 for the repaired hash input, also with different parameters: the bytes hashed by the three exponent proofs determine
everything that was put into the transcript. -/
theorem C81_repaired_partial :
    (∀ (pp pp' : PublicParameters) (C C' : Int),
      framed (pokeStarTranscript pp C).info = framed (pokeStarTranscript pp' C').info → pp.G = pp'.G ∧ pp.N = pp'.N ∧ C = C') ∧
    (∀ base mod C x base' mod' C' x' : Int,
      framed (poeTranscript base mod C x).info = framed (poeTranscript base' mod' C' x').info →
      base = base' ∧ mod = mod' ∧ C = C' ∧ x = x') ∧
    ∀ (pp pp' : PublicParameters) (u w u' w' : Int) (z Ag Au z' Ag' Au' : Option Int),
      framed (zkpokeTranscript pp u w z Ag Au).info = framed (zkpokeTranscript pp' u' w' z' Ag' Au').info →
      pp = pp' ∧ u = u' ∧ w = w' ∧ z = z' ∧ Ag = Ag' ∧ Au = Au' := by
  refine ⟨?_, ?_, ?_⟩
  · intro pp pp' C C' h
    have h := C38_repaired_partial _ _ h
    simp only [pokeStarTranscript, initTranscript, List.nil_append, List.cons.injEq, and_true, true_and] at h
    exact ⟨intString_inj _ _ h.1, intString_inj _ _ h.2.1, intString_inj _ _ h.2.2⟩
  · intro base mod C x base' mod' C' x' h
    have h := C38_repaired_partial _ _ h
    simp only [poeTranscript, initTranscript, List.nil_append, List.cons.injEq, and_true, true_and] at h
    exact ⟨intString_inj _ _ h.1, intString_inj _ _ h.2.1, intString_inj _ _ h.2.2.1, intString_inj _ _ h.2.2.2⟩
  · intro pp pp' u w u' w' z Ag Au z' Ag' Au' h
    have h := C38_repaired_partial _ _ h
    simp only [zkpokeTranscript, initTranscript, List.nil_append, List.cons.injEq, and_true, true_and] at h
    obtain ⟨h1, h2, h3, h4, h5, h6, h7, h8⟩ := h
    refine ⟨?_, intString_inj _ _ h4, intString_inj _ _ h5, ptrString_inj _ _ h6, ptrString_inj _ _ h7, ptrString_inj _ _ h8⟩
    obtain ⟨N, G, H⟩ := pp
    obtain ⟨N', G', H'⟩ := pp'
    rw [PublicParameters.mk.injEq]
    exact ⟨intString_inj _ _ h3, intString_inj _ _ h1, intString_inj _ _ h2⟩

/-- The two statements of PoE with one challenge that C81 found have different bytes. -/
example : (poeTranscript 4 35 1 23).info.flatten = (poeTranscript 4 35 12 3).info.flatten ∧
    framed (poeTranscript 4 35 1 23).info ≠ framed (poeTranscript 4 35 12 3).info :=
  ⟨by decide +kernel, fun h => by have := (C81_repaired_partial.2.1 _ _ _ _ _ _ _ _ h).2.2.1; omega⟩

/-! ## C67 -/

/-- `SetupTranscript` (zkmultiswap/common.go) with the accumulators put in. -/
def setupTranscriptRepaired (G N accOld accMid accNew : Int) (currentEpochNum : UInt32) : Transcript :=
  (initTranscript [intString G, intString N, intString accOld, intString accMid, intString accNew] lenMax252).append
    (itoa currentEpochNum.toNat)

/-- C67 for the repaired transcript: the bytes determine the parameters, the accumulators and the epoch. -/
theorem C67_repaired_partial (G N old mid new G' N' old' mid' new' : Int) (epoch epoch' : UInt32)
    (h : framed (setupTranscriptRepaired G N old mid new epoch).info =
      framed (setupTranscriptRepaired G' N' old' mid' new' epoch').info) :
    (G, N, old, mid, new, epoch) = (G', N', old', mid', new', epoch') := by
  have h := C38_repaired_partial _ _ h
  simp only [setupTranscriptRepaired, initTranscript, Transcript.append, List.nil_append, List.cons_append,
    List.cons.injEq, and_true] at h
  obtain ⟨h1, h2, h3, h4, h5, h6⟩ := h
  rw [intString_inj _ _ h1, intString_inj _ _ h2, intString_inj _ _ h3, intString_inj _ _ h4, intString_inj _ _ h5,
    UInt32.toNat.inj (itoa_injective _ _ h6)]

/-- The accumulators that C67 found to be ignored. -/
example : framed (setupTranscriptRepaired 2 35 4 8 16 5).info ≠ framed (setupTranscriptRepaired 2 35 8 16 20 5).info :=
  fun h => by simpa using C67_repaired_partial _ _ _ _ _ _ _ _ _ _ _ _ h

/-! ## C52, C58: the range proof -/

/-- The strings of the repaired challenge: those of `serialize` (proof/range_proof.go:70-82), the commitment `c` and the first
message. -/
def rpStringsRepaired (pp : PublicParameters) (a b c : Int) (c3 : Int3) (commitment : Bytes) : List Bytes :=
  [rpChallengeStatement, intString pp.G, intString pp.H, intString pp.N, intString a, intString b, intString c,
    intString c3.t0, intString c3.t1, intString c3.t2, commitment]

/-- The repaired challenge. -/
def rpChallengeRepaired (E : Env) (pp : PublicParameters) (a b c : Int) (c3 : Int3) (commitment : Bytes) : Nat :=
  setBytes (E.sha256 (framed (rpStringsRepaired pp a b c c3 commitment)))

/-- `response` (proof/range_proof.go:336-372) for a given challenge. -/
def rpResponseFor (p : RPProver) (e : Int) : RPResponse :=
  let z4 : Int4 := ⟨e * p.x4.t0 + p.randM4.t0, e * p.x4.t1 + p.randM4.t1, e * p.x4.t2 + p.randM4.t2,
    e * p.x4.t3 + p.randM4.t3⟩
  let t4 : Int4 := ⟨e * p.r4.t0 + p.randS4.t0, e * p.r4.t1 + p.randS4.t1, e * p.r4.t2 + p.randS4.t2,
    e * p.r4.t3 + p.randS4.t3⟩
  let sumXR := 0 + p.x4.t1 * p.r4.t1 + p.x4.t2 * p.r4.t2 + p.x4.t3 * p.r4.t3
  let tau := p.x4.t0 * p.r4.t0
  let tau := tau * 2 ^ 2
  let tau := tau + sumXR
  let tau := tau * e
  let tau := tau + p.sigma
  ⟨z4, t4, tau⟩

/-- `Prove` (proof/range_proof.go:167-185) with the repaired challenge. -/
def rpProveRepaired (E : Env) (p : RPProver) (x : Int) (ts : Int3) (coins : RPCoins) : Res (RangeProof × RPProver) := do
  let c ← calC p.pp p.r x
  let p := { p with c := c }
  let ca ← calCa p.pp p.a p.c
  let p := { p with ca := ca }
  let p ← rpCommitForX p x ts coins.rc
  let cx := p.c3
  let (commitment, p) ← rpCommit E p coins
  let response := rpResponseFor p (rpChallengeRepaired E p.pp p.a p.b p.c p.c3 commitment)
  .ok ({ c := some p.c, commit3 := cx, commitment := commitment, response := some response }, p)

/-- The numbers hashed by `VerifyResponse` (proof/range_proof.go:426-461) for a given challenge. -/
def rpVerifyParamsFor (v : RPVerifier) (resp : RPResponse) (e : Int) : Res (Int4 × Int) := do
  let f0 ← verifyParam v.pp resp.Z4.t0 resp.T4.t0 v.c4.t0 (-e)
  let f1 ← verifyParam v.pp resp.Z4.t1 resp.T4.t1 v.c4.t1 (-e)
  let f2 ← verifyParam v.pp resp.Z4.t2 resp.T4.t2 v.c4.t2 (-e)
  let f3 ← verifyParam v.pp resp.Z4.t3 resp.T4.t3 v.c4.t3 (-e)
  let lastH ← nonNil (bigExp v.pp.H resp.TAU v.pp.N)
  let lastH ← mulExpMod lastH v.pp.G e v.pp.N
  let lastH ← mulExpMod lastH v.ca resp.Z4.t0 v.pp.N
  let lastH ← mulExpMod lastH v.c4.t1 (-resp.Z4.t1) v.pp.N
  let lastH ← mulExpMod lastH v.c4.t2 (-resp.Z4.t2) v.pp.N
  let lastH ← mulExpMod lastH v.c4.t3 (-resp.Z4.t3) v.pp.N
  .ok (⟨f0, f1, f2, f3⟩, lastH)

/-- `Verify` (proof/range_proof.go:396-412) for a given challenge. -/
def rpVerifyFor (E : Env) (e : Int) (v : RPVerifier) (proof : Option RangeProof) : Res Bool := do
  let proof ← nonNil proof
  let c ← nonNil proof.c
  let v ← rpVerifySetup v c proof.commit3 proof.commitment
  let resp ← nonNil proof.response
  let (f4, lastH) ← rpVerifyParamsFor v resp e
  .ok (decide (newRPCommitment E f4 lastH = v.commitment))

/-- `Verify` with the repaired challenge. -/
def rpVerifyRepaired (E : Env) (v : RPVerifier) (proof : Option RangeProof) : Res Bool := do
  let p ← nonNil proof
  let c ← nonNil p.c
  rpVerifyFor E (rpChallengeRepaired E v.pp v.a v.b c p.commit3 p.commitment) v proof

theorem res_error_bind {α β : Type} (s : String) (f : α → Res β) : (Except.error s >>= f : Res β) = .error s := rfl

theorem rpVerifyParamsFor_code (E : Env) (v : RPVerifier) (resp : RPResponse) :
    rpVerifyParamsFor v resp (rpChallenge E v.pp v.a v.b ⟨v.c4.t1, v.c4.t2, v.c4.t3⟩) = rpVerifyParams E v resp := rfl

/-- The definitions of this file with the challenge of the code are the code. -/
theorem rpVerifyFor_code (E : Env) (v : RPVerifier) (p : RangeProof) :
    rpVerifyFor E (rpChallenge E v.pp v.a v.b p.commit3) v (some p) = rpVerify E v (some p) := by
  obtain ⟨c, c3, cm, resp⟩ := p
  simp only [rpVerifyFor, rpVerify, nonNil_some, res_ok_bind, rpVerifySetup, rpVerifyResponse, ← rpVerifyParamsFor_code]
  cases nonNil c with
  | error s => simp only [res_error_bind]
  | ok c =>
    simp only [res_ok_bind]
    cases nonNil (modInverse c v.pp.N) with
    | error s => simp only [res_error_bind]
    | ok i =>
      cases nonNil (bigExp v.pp.G v.b v.pp.N) with
      | error s => simp only [res_error_bind, res_ok_bind]
      | ok o =>
        simp only [res_ok_bind]
        cases modN (i * o) v.pp.N with
        | error s => simp only [res_error_bind]
        | ok c0 =>
          simp only [res_ok_bind]
          cases modN (c * (bigExp v.pp.G (-v.a) v.pp.N).getD (-v.a)) v.pp.N with
          | error s => simp only [res_error_bind]
          | ok ca => simp only [res_ok_bind]

theorem rpResponseFor_code (E : Env) (p : RPProver) :
    rpResponseFor p (rpChallenge E p.pp p.a p.b p.c3) = rpResponseOf E p := rfl

/-- C58 for the repaired challenge. This is `C58_statement` with the repaired strings in the place of `serialize`. -/
theorem C58_repaired_partial (pp pp' : PublicParameters) (a b c a' b' c' : Int) (c3 c3' : Int3) (cm cm' : Bytes)
    (hne : (pp, a, b, c, c3, cm) ≠ (pp', a', b', c', c3', cm')) :
    framed (rpStringsRepaired pp a b c c3 cm) ≠ framed (rpStringsRepaired pp' a' b' c' c3' cm') := by
  intro h
  apply hne
  have h := C38_repaired_partial _ _ h
  simp only [rpStringsRepaired, List.cons.injEq, and_true, true_and] at h
  obtain ⟨h1, h2, h3, h4, h5, h6, h7, h8, h9, h10⟩ := h
  obtain ⟨N, G, H⟩ := pp
  obtain ⟨N', G', H'⟩ := pp'
  obtain ⟨k0, k1, k2⟩ := c3
  obtain ⟨k0', k1', k2'⟩ := c3'
  simp only at h1 h2 h3 h7 h8 h9
  rw [intString_inj _ _ h1, intString_inj _ _ h2, intString_inj _ _ h3, intString_inj _ _ h4, intString_inj _ _ h5,
    intString_inj _ _ h6, intString_inj _ _ h7, intString_inj _ _ h8, intString_inj _ _ h9, h10]

/-- The ranges that C58 found to have one challenge. -/
example (pp : PublicParameters) (c : Int) (c3 : Int3) (cm : Bytes) : rpSerialize pp 1 23 c3 = rpSerialize pp 12 3 c3 ∧
    framed (rpStringsRepaired pp 1 23 c c3 cm) ≠ framed (rpStringsRepaired pp 12 3 c c3 cm) := by
  refine ⟨?_, C58_repaired_partial _ _ _ _ _ _ _ _ _ _ _ _ (by simp)⟩
  have h : intString 1 ++ intString 23 = intString 12 ++ intString 3 := by decide +kernel
  unfold rpSerialize
  simp only [List.append_assoc]
  rw [← List.append_assoc (intString 1), h, List.append_assoc]

/-- The repaired prover's proofs are accepted by the repaired verifier. -/
theorem C50_repaired_complete (E : Env) (p : RPProver) (hpp : GoodParams p.pp) (x : Int) (ts : Int3)
    (hts : ts.t0 ^ 2 + ts.t1 ^ 2 + ts.t2 ^ 2 = 4 * (p.b - x) * (x - p.a) + 1) (coins : RPCoins) (v : RPVerifier)
    (hv : v.pp = p.pp ∧ v.a = p.a ∧ v.b = p.b) :
    ∃ proof p', rpProveRepaired E p x ts coins = .ok (proof, p') ∧
      (∃ c, proof.c = some c ∧ IsCommit p.pp.N p.pp.G p.pp.H x p.r c) ∧
      rpVerifyRepaired E v (some proof) = .ok true := by
  obtain ⟨⟨N, G, H⟩, r, a, b, c, ca, sigma, x4, c3, randM4, r4, randS4⟩ := p
  obtain ⟨pp', a', b', cm, c4, ca'⟩ := v
  obtain ⟨h1, h2, h3⟩ := hv
  simp only at h1 h2 h3 hts hpp
  subst h1 h2 h3
  obtain ⟨hN, hG, hH, hgu, hhu⟩ := hpp
  simp only at hN hG hH hgu hhu
  obtain ⟨n, rfl⟩ : ∃ n : Nat, N = n := ⟨N.toNat, by omega⟩
  have : NeZero n := ⟨by omega⟩
  obtain ⟨g, hg⟩ := (isUnit_iff_gcd (N := n) G).2 hgu
  obtain ⟨h, hh⟩ := (isUnit_iff_gcd (N := n) H).2 hhu
  obtain ⟨rc, m4, s4, σ⟩ := coins
  have E1 : ∀ A B : Int, bigExp (gh g h A B) 4 (n : Int) = some (gh g h (A * 4) (B * 4)) :=
    fun A B => bigExp_gh g h A B 4
  simp only [rpProveRepaired, calC_gh G H hG hH g h hg hh, calCa_gh G H hG hH g h hg hh, res_ok_bind, rpCommitForX,
    commitFromTS, commitGH_gh G H hG hH g h hg hh, rpCommit, rpFirstPartH, rpSecondPartH, bigExp_H H hH g h hh, bigExp_gh,
    nonNil_some, modN_gh, mulExpMod_gh]
  refine ⟨_, _, rfl, ⟨_, rfl, isCommit_gh G H hG hH g h hg hh x r⟩, ?_⟩
  simp only [rpVerifyRepaired, nonNil_some, res_ok_bind]
  generalize (rpChallengeRepaired E _ _ _ _ _ _ : Int) = e
  simp only [rpVerifyFor, nonNil_some, res_ok_bind, rpVerifySetup, modInverse_gh, bigExp_G G hG g h hg, modN_gh,
    Option.getD_some, E1, rpVerifyParamsFor, rpResponseFor, verifyParam_gh G H hG hH g h hg hh,
    bigExp_H H hH g h hh, mulExpMod_G G H hG hH g h hg hh, mulExpMod_gh]
  congr 1
  rw [decide_eq_true_iff]
  congr 1
  · congr 1 <;> apply gh_congr <;> ring
  · apply gh_congr
    · linear_combination (-e) * hts
    · ring

/-! ### What the first message fixes -/

section
variable {N : Nat} [NeZero N]

/-- The decision of the verifier for any challenge (`C80_range_decision` is the case of the code's challenge). -/
theorem rpVerifyFor_decision (E : Env) (e : Int) (v : RPVerifier) (hN : v.pp.N = N) (g h uc : (ZMod N)ˣ)
    (k : Fin 3 → (ZMod N)ˣ) (c : Int) (c3 : Int3) (hg : Stands g v.pp.G) (hh : Stands h v.pp.H)
    (hc : (uc : ZMod N) = (c : ZMod N)) (hk : ∀ i, Stands (k i) (three c3 i)) (resp : RPResponse) (cm : Bytes)
    (f : Fin 4 → (ZMod N)ˣ) (l : (ZMod N)ˣ)
    (fits : RangeFits g h uc v.a v.b k e (four resp.Z4) (four resp.T4) resp.TAU f l) :
    rpVerifyFor E e v (some ⟨some c, c3, cm, some resp⟩) = .ok (decide (cm = hashAll E [f 0, f 1, f 2, f 3, l])) := by
  obtain ⟨⟨N', G, H⟩, a, b, cm0, c40, ca0⟩ := v
  obtain ⟨k0, k1, k2⟩ := c3
  obtain ⟨⟨z0, z1, z2, z3⟩, ⟨t0, t1, t2, t3⟩, tau⟩ := resp
  simp only at hN hg hh fits
  subst hN
  obtain ⟨hv, hsq, hsum⟩ := fits
  have hk0 : Stands (k 0) k0 := hk 0
  have hk1 : Stands (k 1) k1 := hk 1
  have hk2 : Stands (k 2) k2 := hk 2
  have s0 := hsq 0
  have s1 := hsq 1
  have s2 := hsq 2
  simp only [four, Fin.succ_zero_eq_one, Fin.prod_univ_three, Matrix.cons_val_zero, Matrix.cons_val_one,
    Fin.succ_one_eq_two, Matrix.cons_val] at hv s0 s1 s2 hsum
  rw [show (2 : Fin 3).succ = 3 from rfl] at s2 hsum
  simp only [Matrix.cons_val] at s2 hsum
  have hinv : modInverse c N = some (rep uc⁻¹) := modInverse_unit c uc hc
  have hm0 : modN (rep uc⁻¹ * rep (g ^ b)) N = .ok (rep (uc⁻¹ * g ^ b)) := by rw [modN_ok, rep_mul]
  have hma : modN (c * rep (g ^ (-a))) N = .ok (rep (uc * g ^ (-a))) := by
    apply modN_rep
    push_cast
    rw [← hc, ← rep_cast]
  have hca : bigExp (rep (uc * g ^ (-a))) 4 N = some (rep ((uc * g ^ (-a)) ^ (4 : Int))) :=
    bigExp_rep _ 4 (rep_nonneg _) _ (rep_cast _)
  simp only [rpVerifyFor, nonNil_some, res_ok_bind, rpVerifySetup, hinv, bigExp_rep G _ hg.1 g hg.2, hm0,
    Option.getD_some, hma, hca, rpVerifyParamsFor,
    verifyParam_rep G H _ _ _ _ hg.1 hh.1 (rep_nonneg (uc⁻¹ * g ^ b)) g h _ hg.2 hh.2 (rep_cast _),
    verifyParam_rep G H _ _ _ _ hg.1 hh.1 hk0.1 g h (k 0) hg.2 hh.2 hk0.2,
    verifyParam_rep G H _ _ _ _ hg.1 hh.1 hk1.1 g h (k 1) hg.2 hh.2 hk1.2,
    verifyParam_rep G H _ _ _ _ hg.1 hh.1 hk2.1 g h (k 2) hg.2 hh.2 hk2.2, bigExp_rep H _ hh.1 h hh.2,
    mulExpMod_rep _ G _ hg.1 g hg.2, mulExpMod_rep _ _ _ (rep_nonneg ((uc * g ^ (-a)) ^ (4 : Int))) _ (rep_cast _),
    mulExpMod_rep _ k0 _ hk0.1 (k 0) hk0.2, mulExpMod_rep _ k1 _ hk1.1 (k 1) hk1.2,
    mulExpMod_rep _ k2 _ hk2.1 (k 2) hk2.2]
  congr 1
  rw [decide_eq_decide]
  have e0 : g ^ z0 * h ^ t0 * (uc⁻¹ * g ^ b) ^ (-e) = f 0 := by rw [← hv, zpow_neg, mul_inv_cancel_right]
  have e1 : g ^ z1 * h ^ t1 * k 0 ^ (-e) = f 1 := by rw [← s0, zpow_neg, mul_inv_cancel_right]
  have e2 : g ^ z2 * h ^ t2 * k 1 ^ (-e) = f 2 := by rw [← s1, zpow_neg, mul_inv_cancel_right]
  have e3 : g ^ z3 * h ^ t3 * k 2 ^ (-e) = f 3 := by rw [← s2, zpow_neg, mul_inv_cancel_right]
  have e4 : h ^ tau * g ^ e * ((uc * g ^ (-a)) ^ (4 : Int)) ^ z0 * k 0 ^ (-z1) * k 1 ^ (-z2) * k 2 ^ (-z3) = l := by
    rw [zpow_neg g, show (4 : Int) = ((4 : Nat) : Int) from rfl, zpow_natCast, ← hsum]
    simp only [zpow_neg, mul_assoc]
    rw [mul_left_comm (k 2 ^ z3), mul_left_comm (k 2 ^ z3), mul_inv_cancel, mul_one, mul_left_comm (k 1 ^ z2),
      mul_inv_cancel, mul_one, mul_inv_cancel, mul_one]
  rw [e0, e1, e2, e3, e4]
  simp only [newRPCommitment, absBytes_rep, hashAll, List.map_cons, List.map_nil, List.flatten_cons, List.flatten_nil,
    List.append_nil, List.append_assoc]
  exact eq_comm

/-- Everything that the repaired challenge is made of is fixed before the challenge. Whoever can answer two different
challenges for it knows a relation between `g` and `h`, or an opening of a power of the commitment to a value in the range.
There is one hash function here, and no assumption on the first message but that the hash has no collision on it. Missing from
`C52_statement`: that the relation and the power are excluded is the strong RSA assumption, and the number of challenges that
are tried is not bounded. -/
theorem C52_repaired_partial (E : Env) (v : RPVerifier) (hN : v.pp.N = N) (g h uc : (ZMod N)ˣ) (k : Fin 3 → (ZMod N)ˣ)
    (c : Int) (c3 : Int3) (cm : Bytes) (hg : Stands g v.pp.G) (hh : Stands h v.pp.H) (hc : (uc : ZMod N) = (c : ZMod N))
    (hk : ∀ i, Stands (k i) (three c3 i)) (hab : v.a ≤ v.b)
    (nocol : ∀ x y : (ZMod N)ˣ, E.sha256 (natBytes (x : ZMod N).val) = E.sha256 (natBytes (y : ZMod N).val) → x = y)
    (e e' : Int) (hd : e ≠ e') (r r' : RPResponse)
    (acc : rpVerifyFor E e v (some ⟨some c, c3, cm, some r⟩) = .ok true)
    (acc' : rpVerifyFor E e' v (some ⟨some c, c3, cm, some r'⟩) = .ok true) :
    ∃ A B : Int,
      A = (e - e') * (e - e') +
          4 * (r.Z4.t0 - r'.Z4.t0) * ((v.b - v.a) * (e - e') - (r.Z4.t0 - r'.Z4.t0)) -
        ((r.Z4.t1 - r'.Z4.t1) * (r.Z4.t1 - r'.Z4.t1) + (r.Z4.t2 - r'.Z4.t2) * (r.Z4.t2 - r'.Z4.t2) +
          (r.Z4.t3 - r'.Z4.t3) * (r.Z4.t3 - r'.Z4.t3)) ∧
      g ^ A * h ^ B = 1 ∧
      ∀ m, A = 0 → r.Z4.t0 - r'.Z4.t0 = (e - e') * m →
        v.a ≤ v.b - m ∧ v.b - m ≤ v.b ∧
        uc ^ (e - e') = g ^ ((v.b - m) * (e - e')) * h ^ (r'.T4.t0 - r.T4.t0) := by
  obtain ⟨f, l, fits⟩ := (C80_first_message_exists g h uc k v.a v.b e r.TAU).1 (four r.Z4) (four r.T4)
  obtain ⟨f', l', fits'⟩ := (C80_first_message_exists g h uc k v.a v.b e' r'.TAU).1 (four r'.Z4) (four r'.T4)
  rw [rpVerifyFor_decision E e v hN g h uc k c c3 hg hh hc hk r cm f l fits] at acc
  rw [rpVerifyFor_decision E e' v hN g h uc k c c3 hg hh hc hk r' cm f' l' fits'] at acc'
  have hcm := (accepts_iff acc rfl).symm.trans (accepts_iff acc' rfl)
  simp only [hashAll, List.map_cons, List.map_nil, List.flatten_cons, List.flatten_nil, List.append_nil] at hcm
  have hl : ∀ x y : (ZMod N)ˣ, (E.sha256 (natBytes (x : ZMod N).val)).length =
      (E.sha256 (natBytes (y : ZMod N).val)).length := fun x y => by rw [E.sha256_length, E.sha256_length]
  obtain ⟨q0, hcm⟩ := List.append_inj hcm (hl _ _)
  obtain ⟨q1, hcm⟩ := List.append_inj hcm (hl _ _)
  obtain ⟨q2, hcm⟩ := List.append_inj hcm (hl _ _)
  obtain ⟨q3, q4⟩ := List.append_inj hcm (hl _ _)
  have hf : f = f' := by
    funext i
    fin_cases i
    · exact nocol _ _ q0
    · exact nocol _ _ q1
    · exact nocol _ _ q2
    · exact nocol _ _ q3
  obtain rfl := hf
  obtain rfl := nocol _ _ q4
  obtain ⟨k1, k2⟩ := range_extract g h uc v.a v.b k e e' _ _ _ _ _ _ f l fits fits'
  simp only [four, Matrix.cons_val_zero, Matrix.cons_val_one, Matrix.cons_val] at k1 k2
  refine ⟨_, _, rfl, k2, ?_⟩
  intro m hA hm
  rw [hm] at hA k1
  obtain ⟨h1, h2⟩ := range_of_squares v.a v.b m (e - e') _ hab (sub_ne_zero.2 hd)
    (by nlinarith [mul_self_nonneg (r.Z4.t1 - r'.Z4.t1), mul_self_nonneg (r.Z4.t2 - r'.Z4.t2),
      mul_self_nonneg (r.Z4.t3 - r'.Z4.t3)]) hA
  refine ⟨h1, h2, ?_⟩
  rw [mul_zpow, inv_zpow, ← zpow_mul] at k1
  rw [inv_mul_eq_iff_eq_mul] at k1
  have k3 : uc ^ (e - e') = g ^ (v.b * (e - e')) * (g ^ ((e - e') * m) * h ^ (r.T4.t0 - r'.T4.t0))⁻¹ := by
    rw [k1, mul_inv_cancel_right]
  rw [k3, mul_inv, ← zpow_neg, ← zpow_neg, ← mul_assoc, ← zpow_add]
  congr 2
  · ring
  · ring

end

/-- A hash function without collisions on the numbers below 256, for the examples. -/
def lastByteEnv : Env :=
  { pokeEnv with
    sha256 := fun m => List.replicate 31 0 ++ [m.getLastD 0]
    sha256_length := fun m => by simp }

/-- The numbers of C50's example, the value 3 in [1, 8]: one first message, answers to the challenges 13 and 0. -/
example : ∀ cm, cm = (List.replicate 5 (lastByteEnv.sha256 [1])).flatten →
    rpVerifyFor lastByteEnv 13 (newRPVerifier ⟨35, 4, 9⟩ 1 8)
      (some ⟨some 29, ⟨1, 16, 4⟩, cm, some ⟨⟨65, 78, 26, 13⟩, ⟨0, 0, 0, 0⟩, 0⟩⟩) = .ok true ∧
    rpVerifyFor lastByteEnv 0 (newRPVerifier ⟨35, 4, 9⟩ 1 8)
      (some ⟨some 29, ⟨1, 16, 4⟩, cm, some ⟨⟨0, 0, 0, 0⟩, ⟨0, 0, 0, 0⟩, 0⟩⟩) = .ok true ∧
    ∀ x y : (ZMod 35)ˣ, lastByteEnv.sha256 (natBytes (x : ZMod 35).val) = lastByteEnv.sha256 (natBytes (y : ZMod 35).val) →
      x = y := by
  rintro _ rfl
  refine ⟨by decide +kernel, by decide +kernel, ?_⟩
  have h : ∀ x y : ZMod 35, lastByteEnv.sha256 (natBytes x.val) = lastByteEnv.sha256 (natBytes y.val) → x = y := by
    decide +kernel
  exact fun x y hxy => Units.ext (h x y hxy)

/-- An honest run of the repaired prover, and the forged proof of C52 that the code accepts and the repaired verifier does
not. -/
example : (∃ proof p', rpProveRepaired lastByteEnv (newRPProver ⟨35, 4, 9⟩ 6 1 8) 3 ⟨6, 2, 1⟩
      ⟨⟨1, 2, 3⟩, ⟨4, 5, 6, 7⟩, ⟨8, 9, 10, 11⟩, 12⟩ = .ok (proof, p') ∧
      rpVerifyRepaired lastByteEnv (newRPVerifier ⟨35, 4, 9⟩ 1 8) (some proof) = .ok true) ∧
    rpVerify lastByteEnv (newRPVerifier ⟨35, 4, 9⟩ 1 8) (some (rpForge lastByteEnv ⟨35, 4, 9⟩ 1 8 2)) = .ok true ∧
    rpVerifyRepaired lastByteEnv (newRPVerifier ⟨35, 4, 9⟩ 1 8) (some (rpForge lastByteEnv ⟨35, 4, 9⟩ 1 8 2)) = .ok false := by
  refine ⟨?_, C52_forge lastByteEnv ⟨35, 4, 9⟩ good35 1 8 2 (by decide), by decide +kernel⟩
  obtain ⟨proof, p', h1, -, h2⟩ := C50_repaired_complete lastByteEnv (newRPProver ⟨35, 4, 9⟩ 6 1 8) good35 3 ⟨6, 2, 1⟩
    (by norm_num [newRPProver]) ⟨⟨1, 2, 3⟩, ⟨4, 5, 6, 7⟩, ⟨8, 9, 10, 11⟩, 12⟩ (newRPVerifier ⟨35, 4, 9⟩ 1 8) ⟨rfl, rfl, rfl⟩
  exact ⟨proof, p', h1, h2⟩

/-! ## C55, C58: the argument of positivity -/

/-- A word of its own, so that no argument has the challenge of a range proof. -/
def aopStatementRepaired : Bytes := ascii "c = (g^x)(h^r), x is positive"

/-- The strings of the repaired challenge: those of `serialize` (proof/zkaop.go:63-73), the commitment `c` and the first
message. -/
def aopStringsRepaired (pp : PublicParameters) (c : Int) (c3 : Int3) (commitment : Bytes) : List Bytes :=
  [aopStatementRepaired, intString pp.G, intString pp.H, intString pp.N, intString c,
    intString c3.t0, intString c3.t1, intString c3.t2, commitment]

/-- The repaired challenge. -/
def aopChallengeRepaired (E : Env) (pp : PublicParameters) (c : Int) (c3 : Int3) (commitment : Bytes) : Nat :=
  setBytes (E.sha256 (framed (aopStringsRepaired pp c c3 commitment)))

/-- `response` (proof/zkaop.go:285-316) for a given challenge. -/
def aopResponseFor (p : AoPProver) (e : Int) : AoPResponse :=
  let z3 : Int3 := ⟨e * p.x3.t0 + p.randM3.t0, e * p.x3.t1 + p.randM3.t1, e * p.x3.t2 + p.randM3.t2⟩
  let t3 : Int3 := ⟨e * p.r3.t0 + p.randS3.t0, e * p.r3.t1 + p.randS3.t1, e * p.r3.t2 + p.randS3.t2⟩
  let t := p.r * 2 ^ 2
  let t := t - p.x3.t0 * p.r3.t0
  let t := t - p.x3.t1 * p.r3.t1
  let t := t - p.x3.t2 * p.r3.t2
  let t := t * e
  let t := t + p.s
  ⟨z3, t3, t⟩

/-- `Prove` (proof/zkaop.go:154-169) with the repaired challenge. -/
def aopProveRepaired (E : Env) (p : AoPProver) (x : Int) (ts : Int3) (coins : AoPCoins) :
    Res (ArgOfPositivity × AoPProver) := do
  let C ← calC p.pp p.r x
  let p := { p with C := C }
  let p ← aopCommitForX p ts coins.rc
  let cx := p.c3
  let (commitment, p) ← aopCommit E p coins
  let response := aopResponseFor p (aopChallengeRepaired E p.pp p.C p.c3 commitment)
  .ok ({ commit3 := cx, commitment := commitment, response := some response }, p)

/-- The numbers hashed by `VerifyResponse` (proof/zkaop.go:360-401) for a given challenge. -/
def aopVerifyParamsFor (v : AoPVerifier) (resp : AoPResponse) (e : Int) : Res (Int3 × Int) := do
  let f0 ← verifyParam v.pp resp.Z3.t0 resp.T3.t0 v.c3.t0 (-e)
  let f1 ← verifyParam v.pp resp.Z3.t1 resp.T3.t1 v.c3.t1 (-e)
  let f2 ← verifyParam v.pp resp.Z3.t2 resp.T3.t2 v.c3.t2 (-e)
  let lastH ← mulExpMod 1 v.c3.t0 resp.Z3.t0 v.pp.N
  let lastH ← mulExpMod lastH v.c3.t1 resp.Z3.t1 v.pp.N
  let lastH ← mulExpMod lastH v.c3.t2 resp.Z3.t2 v.pp.N
  let hPow ← aopVerifyParams.aopHPow v e resp.T
  let lastH ← modN (lastH * hPow) v.pp.N
  let lastH ← mulExpMod lastH v.pp.G (-e) v.pp.N
  .ok (⟨f0, f1, f2⟩, lastH)

/-- `Verify` (proof/zkaop.go:338-346) for a given challenge. -/
def aopVerifyFor (E : Env) (e : Int) (v : AoPVerifier) (proof : Option ArgOfPositivity) : Res Bool := do
  let proof ← nonNil proof
  let v := { v with c3 := proof.commit3 }
  let v := { v with commitment := proof.commitment }
  let resp ← nonNil proof.response
  let (f3, lastH) ← aopVerifyParamsFor v resp e
  .ok (decide (newAoPCommitment E f3 lastH = v.commitment))

/-- `Verify` with the repaired challenge. -/
def aopVerifyRepaired (E : Env) (v : AoPVerifier) (proof : Option ArgOfPositivity) : Res Bool := do
  let p ← nonNil proof
  aopVerifyFor E (aopChallengeRepaired E v.pp v.c p.commit3 p.commitment) v proof

theorem aopVerifyParamsFor_code (E : Env) (v : AoPVerifier) (resp : AoPResponse) :
    aopVerifyParamsFor v resp (aopChallenge E v.pp v.c3) = aopVerifyParams E v resp := rfl

/-- The definitions of this section with the challenge of the code are the code. -/
theorem aopVerifyFor_code (E : Env) (v : AoPVerifier) (p : ArgOfPositivity) :
    aopVerifyFor E (aopChallenge E v.pp p.commit3) v (some p) = aopVerify E v (some p) := by
  simp only [aopVerifyFor, aopVerify, nonNil_some, res_ok_bind, aopVerifyResponse, ← aopVerifyParamsFor_code]

theorem aopResponseFor_code (E : Env) (p : AoPProver) :
    aopResponseFor p (aopChallenge E p.pp p.c3) = aopResponseOf E p := rfl

/-- C58 for the repaired challenge of the argument of positivity; it also differs from every repaired challenge of a range
proof, which the code's does not (`C58_protocols_collide`). -/
theorem C58_positivity_repaired_partial (pp pp' : PublicParameters) (c c' : Int) (c3 c3' : Int3) (cm cm' : Bytes) :
    ((pp, c, c3, cm) ≠ (pp', c', c3', cm') →
      framed (aopStringsRepaired pp c c3 cm) ≠ framed (aopStringsRepaired pp' c' c3' cm')) ∧
    ∀ a b : Int, framed (aopStringsRepaired pp c c3 cm) ≠ framed (rpStringsRepaired pp' a b c' c3' cm') := by
  constructor
  · intro hne h
    apply hne
    have h := C38_repaired_partial _ _ h
    simp only [aopStringsRepaired, List.cons.injEq, and_true, true_and] at h
    obtain ⟨h1, h2, h3, h4, h5, h6, h7, h8⟩ := h
    obtain ⟨N, G, H⟩ := pp
    obtain ⟨N', G', H'⟩ := pp'
    obtain ⟨k0, k1, k2⟩ := c3
    obtain ⟨k0', k1', k2'⟩ := c3'
    simp only at h1 h2 h3 h5 h6 h7
    rw [intString_inj _ _ h1, intString_inj _ _ h2, intString_inj _ _ h3, intString_inj _ _ h4, intString_inj _ _ h5,
      intString_inj _ _ h6, intString_inj _ _ h7, h8]
  · intro a b h
    have h := (List.cons.inj (C38_repaired_partial _ _ h)).1
    revert h
    decide

/-- The repaired prover's arguments are accepted by the repaired verifier. -/
theorem C53_repaired_complete (E : Env) (p : AoPProver) (hpp : GoodParams p.pp) (x : Int) (ts : Int3)
    (hts : ts.t0 ^ 2 + ts.t1 ^ 2 + ts.t2 ^ 2 = 4 * x + 1) (coins : AoPCoins) :
    ∃ c, IsCommit p.pp.N p.pp.G p.pp.H x p.r c ∧
    ∃ proof p', aopProveRepaired E p x ts coins = .ok (proof, p') ∧ p'.C = c ∧
      ∀ v : AoPVerifier, v.pp = p.pp → v.c = c → aopVerifyRepaired E v (some proof) = .ok true := by
  obtain ⟨⟨N, G, H⟩, r, C, s, x3, c3, randM3, r3, randS3⟩ := p
  simp only at hts hpp
  obtain ⟨hN, hG, hH, hgu, hhu⟩ := hpp
  simp only at hN hG hH hgu hhu
  obtain ⟨n, rfl⟩ : ∃ n : Nat, N = n := ⟨N.toNat, by omega⟩
  have : NeZero n := ⟨by omega⟩
  obtain ⟨g, hg⟩ := (isUnit_iff_gcd (N := n) G).2 hgu
  obtain ⟨h, hh⟩ := (isUnit_iff_gcd (N := n) H).2 hhu
  obtain ⟨rc, m3, s3, σ⟩ := coins
  refine ⟨_, isCommit_gh G H hG hH g h hg hh x r, ?_⟩
  simp only [aopProveRepaired, calC_gh G H hG hH g h hg hh, res_ok_bind, aopCommitForX, commitFromTS,
    commitGH_gh G H hG hH g h hg hh, aopCommit, aopFirstPartD, aopSecondPartD, mulExpMod_one, mulExpMod_gh,
    mulExpMod_H G H hG hH g h hg hh]
  refine ⟨_, _, rfl, rfl, ?_⟩
  rintro ⟨pp', c', cm, c3'⟩ h1 h2
  simp only at h1 h2
  subst h1 h2
  simp only [aopVerifyRepaired, nonNil_some, res_ok_bind]
  generalize (aopChallengeRepaired E _ _ _ _ : Int) = e
  simp only [aopVerifyFor, nonNil_some, res_ok_bind, aopVerifyParamsFor, aopVerifyParams.aopHPow,
    aopResponseFor, verifyParam_gh G H hG hH g h hg hh, mulExpMod_one, mulExpMod_gh, bigExp_H H hH g h hh, modN_gh,
    mulExpMod_G G H hG hH g h hg hh]
  congr 1
  rw [decide_eq_true_iff]
  congr 1
  · congr 1 <;> apply gh_congr <;> ring
  · apply gh_congr
    · linear_combination e * hts
    · ring

section
variable {N : Nat} [NeZero N]

/-- The decision of the verifier for any challenge (`C80_positivity_decision` is the case of the code's challenge). -/
theorem aopVerifyFor_decision (E : Env) (e : Int) (v : AoPVerifier) (hN : v.pp.N = N) (g h uc : (ZMod N)ˣ)
    (k : Fin 3 → (ZMod N)ˣ) (c3 : Int3) (hg : Stands g v.pp.G) (hh : Stands h v.pp.H) (hc : Stands uc v.c)
    (hk : ∀ i, Stands (k i) (three c3 i)) (resp : AoPResponse) (cm : Bytes) (f : Fin 3 → (ZMod N)ˣ) (l : (ZMod N)ˣ)
    (fits : PositivityFits g h uc k e (three resp.Z3) (three resp.T3) resp.T f l) :
    aopVerifyFor E e v (some ⟨c3, cm, some resp⟩) = .ok (decide (cm = hashAll E [f 0, f 1, f 2, l])) := by
  obtain ⟨⟨N', G, H⟩, c, cm0, c30⟩ := v
  obtain ⟨k0, k1, k2⟩ := c3
  obtain ⟨⟨z0, z1, z2⟩, ⟨t0, t1, t2⟩, tau⟩ := resp
  simp only at hN hg hh hc fits
  subst hN
  obtain ⟨hsq, hsum⟩ := fits
  have hk0 : Stands (k 0) k0 := hk 0
  have hk1 : Stands (k 1) k1 := hk 1
  have hk2 : Stands (k 2) k2 := hk 2
  have s0 := hsq 0
  have s1 := hsq 1
  have s2 := hsq 2
  simp only [three, Fin.prod_univ_three, Matrix.cons_val_zero, Matrix.cons_val_one, Matrix.cons_val] at s0 s1 s2 hsum
  simp only [aopVerifyFor, nonNil_some, res_ok_bind, aopVerifyParamsFor, aopVerifyParams.aopHPow,
    verifyParam_rep G H _ _ _ _ hg.1 hh.1 hk0.1 g h (k 0) hg.2 hh.2 hk0.2,
    verifyParam_rep G H _ _ _ _ hg.1 hh.1 hk1.1 g h (k 1) hg.2 hh.2 hk1.2,
    verifyParam_rep G H _ _ _ _ hg.1 hh.1 hk2.1 g h (k 2) hg.2 hh.2 hk2.2, bigExp_rep H _ hh.1 h hh.2,
    mulExpMod_rep _ G _ hg.1 g hg.2, mulExpMod_rep_one k0 _ hk0.1 (k 0) hk0.2,
    mulExpMod_rep _ k1 _ hk1.1 (k 1) hk1.2, modN_ok, rep_mul,
    mulExpMod_rep _ k2 _ hk2.1 (k 2) hk2.2, mulExpMod_rep _ c _ hc.1 uc hc.2]
  congr 1
  rw [decide_eq_decide]
  have e0 : g ^ z0 * h ^ t0 * k 0 ^ (-e) = f 0 := by rw [← s0, zpow_neg, mul_inv_cancel_right]
  have e1 : g ^ z1 * h ^ t1 * k 1 ^ (-e) = f 1 := by rw [← s1, zpow_neg, mul_inv_cancel_right]
  have e2 : g ^ z2 * h ^ t2 * k 2 ^ (-e) = f 2 := by rw [← s2, zpow_neg, mul_inv_cancel_right]
  have e4 : k 0 ^ z0 * k 1 ^ z1 * k 2 ^ z2 * (h ^ tau * uc ^ (-e * 2 ^ 2)) * g ^ (-e) = l := by
    have : l = h ^ tau * (k 0 ^ z0 * k 1 ^ z1 * k 2 ^ z2) * ((uc ^ 4 * g) ^ e)⁻¹ := by
      rw [← hsum, mul_inv_cancel_right]
    rw [this, mul_zpow, mul_inv, ← zpow_natCast, ← zpow_mul, ← zpow_neg, ← zpow_neg,
      show -(((4 : Nat) : Int) * e) = -e * 2 ^ 2 by push_cast; ring]
    simp only [mul_comm, mul_left_comm, mul_assoc]
  rw [e0, e1, e2, e4]
  simp only [newAoPCommitment, absBytes_rep, hashAll, List.map_cons, List.map_nil, List.flatten_cons, List.flatten_nil,
    List.append_nil, List.append_assoc]
  exact eq_comm

/-- As `C52_repaired_partial`: whoever can answer two challenges for what the repaired challenge is made of can open a power
of the commitment, to a non-negative value if the sum of squares divides. -/
theorem C55_repaired_partial (E : Env) (v : AoPVerifier) (hN : v.pp.N = N) (g h uc : (ZMod N)ˣ) (k : Fin 3 → (ZMod N)ˣ)
    (c3 : Int3) (cm : Bytes) (hg : Stands g v.pp.G) (hh : Stands h v.pp.H) (hc : Stands uc v.c)
    (hk : ∀ i, Stands (k i) (three c3 i))
    (nocol : ∀ x y : (ZMod N)ˣ, E.sha256 (natBytes (x : ZMod N).val) = E.sha256 (natBytes (y : ZMod N).val) → x = y)
    (e e' : Int) (hd : e ≠ e') (r r' : AoPResponse)
    (acc : aopVerifyFor E e v (some ⟨c3, cm, some r⟩) = .ok true)
    (acc' : aopVerifyFor E e' v (some ⟨c3, cm, some r'⟩) = .ok true) :
    ∃ X Y : Int,
      X = (r.Z3.t0 - r'.Z3.t0) ^ 2 + (r.Z3.t1 - r'.Z3.t1) ^ 2 + (r.Z3.t2 - r'.Z3.t2) ^ 2 - (e - e') ^ 2 ∧
      uc ^ (4 * (e - e') ^ 2) = g ^ X * h ^ Y ∧ ∀ x, X = 4 * (e - e') ^ 2 * x → 0 ≤ x := by
  obtain ⟨f, l, fits⟩ := (C80_first_message_exists g h uc k 0 0 e r.T).2 (three r.Z3) (three r.T3)
  obtain ⟨f', l', fits'⟩ := (C80_first_message_exists g h uc k 0 0 e' r'.T).2 (three r'.Z3) (three r'.T3)
  rw [aopVerifyFor_decision E e v hN g h uc k c3 hg hh hc hk r cm f l fits] at acc
  rw [aopVerifyFor_decision E e' v hN g h uc k c3 hg hh hc hk r' cm f' l' fits'] at acc'
  have hcm := (accepts_iff acc rfl).symm.trans (accepts_iff acc' rfl)
  simp only [hashAll, List.map_cons, List.map_nil, List.flatten_cons, List.flatten_nil, List.append_nil] at hcm
  have hl : ∀ x y : (ZMod N)ˣ, (E.sha256 (natBytes (x : ZMod N).val)).length =
      (E.sha256 (natBytes (y : ZMod N).val)).length := fun x y => by rw [E.sha256_length, E.sha256_length]
  obtain ⟨q0, hcm⟩ := List.append_inj hcm (hl _ _)
  obtain ⟨q1, hcm⟩ := List.append_inj hcm (hl _ _)
  obtain ⟨q2, q3⟩ := List.append_inj hcm (hl _ _)
  have hf : f = f' := by
    funext i
    fin_cases i
    · exact nocol _ _ q0
    · exact nocol _ _ q1
    · exact nocol _ _ q2
  obtain rfl := hf
  obtain rfl := nocol _ _ q3
  have k1 := positivity_extract g h uc k e e' _ _ _ _ _ _ f l fits fits'
  simp only [three, Matrix.cons_val_zero, Matrix.cons_val_one, Matrix.cons_val] at k1
  refine ⟨_, (r.T - r'.T) * (e - e') + ((r.Z3.t0 - r'.Z3.t0) * (r.T3.t0 - r'.T3.t0) +
        (r.Z3.t1 - r'.Z3.t1) * (r.T3.t1 - r'.T3.t1) + (r.Z3.t2 - r'.Z3.t2) * (r.T3.t2 - r'.T3.t2)), rfl, ?_, ?_⟩
  · rw [show 4 * (e - e') ^ 2 = 4 * (e - e') * (e - e') by ring, k1]
    congr 2
    ring
  · intro x hx
    have h2 : 0 < (e - e') ^ 2 := by
      have := mul_self_pos.2 (sub_ne_zero.2 hd)
      nlinarith
    by_contra hc
    have : x ≤ -1 := by omega
    nlinarith [sq_nonneg (r.Z3.t0 - r'.Z3.t0), sq_nonneg (r.Z3.t1 - r'.Z3.t1), sq_nonneg (r.Z3.t2 - r'.Z3.t2)]

end

/-- The value 10 with commitment 11: one first message, answers to the challenges 13 and 0. -/
example : ∀ cm, cm = (List.replicate 4 (lastByteEnv.sha256 [1])).flatten →
    aopVerifyFor lastByteEnv 13 (newAoPVerifier ⟨35, 4, 9⟩ 11)
      (some ⟨⟨1, 16, 4⟩, cm, some ⟨⟨78, 26, 13⟩, ⟨0, 0, 0⟩, 0⟩⟩) = .ok true ∧
    aopVerifyFor lastByteEnv 0 (newAoPVerifier ⟨35, 4, 9⟩ 11)
      (some ⟨⟨1, 16, 4⟩, cm, some ⟨⟨0, 0, 0⟩, ⟨0, 0, 0⟩, 0⟩⟩) = .ok true := by
  rintro _ rfl
  decide +kernel

/-- An honest argument for 10, and the forged argument of C55 that the code accepts and the repaired verifier does not. -/
example : (∃ c proof p', aopProveRepaired lastByteEnv (newAoPProver ⟨35, 4, 9⟩ 6) 10 ⟨6, 2, 1⟩
      ⟨⟨1, 2, 3⟩, ⟨4, 5, 6⟩, ⟨7, 8, 9⟩, 10⟩ = .ok (proof, p') ∧
      aopVerifyRepaired lastByteEnv (newAoPVerifier ⟨35, 4, 9⟩ c) (some proof) = .ok true) ∧
    aopVerify lastByteEnv (newAoPVerifier ⟨35, 4, 9⟩ 3) (some (aopForge lastByteEnv ⟨35, 4, 9⟩ 3)) = .ok true ∧
    aopVerifyRepaired lastByteEnv (newAoPVerifier ⟨35, 4, 9⟩ 3) (some (aopForge lastByteEnv ⟨35, 4, 9⟩ 3)) = .ok false := by
  refine ⟨?_, C55_forge lastByteEnv ⟨35, 4, 9⟩ good35 3 (by decide), by decide +kernel⟩
  obtain ⟨c, -, proof, p', h1, -, h2⟩ := C53_repaired_complete lastByteEnv (newAoPProver ⟨35, 4, 9⟩ 6) good35 10 ⟨6, 2, 1⟩
    (by norm_num) ⟨⟨1, 2, 3⟩, ⟨4, 5, 6⟩, ⟨7, 8, 9⟩, 10⟩
  exact ⟨c, proof, p', h1, h2 _ rfl rfl⟩

end Verif.Props
