import Verif.Props.Transcript
import Verif.Model.RangeProof

/-!
# C39: the transcripts and the challenges that are hashed without a transcript

proof/range_proof.go and proof/zkaop.go hash their challenges with the same SHA-256, but not by a transcript. Their strings begin
with the text of the statement. No transcript of the other four protocols ever hashes such a string.
-/

namespace Verif.Props

open Verif.Go Verif.Model Verif.Lemmas

/-- The first byte of what a transcript hashes: `P`, `Z`, a digit or the sign. -/
theorem head_transcript (s : Statement) (rest : List Bytes) :
    ∃ c r, hashInput (s.transcript.info ++ rest) = c :: r ∧
      (c = 80 ∨ c = 90 ∨ c = 45 ∨ (48 ≤ c.toNat ∧ c.toNat ≤ 57)) := by
  rw [hashInput_eq]
  cases s with
  | pokeStar pp C => exact ⟨80, _, rfl, .inl rfl⟩
  | poe b m C x => exact ⟨80, _, rfl, .inl rfl⟩
  | zkpoke pp u w z Ag Au => exact ⟨90, _, rfl, .inr (.inl rfl)⟩
  | multiSwap G N o m n e =>
    obtain ⟨c, r, hc, hd⟩ := intString_head G
    simp only [Statement.transcript, setupTranscript, initTranscript, Transcript.append, List.nil_append, hc,
      List.flatten_cons, List.cons_append]
    exact ⟨c, _, rfl, .inr (.inr hd)⟩

/-- No transcript of PoKE*, PoE, ZKPoKE or MultiSwap ever hashes the bytes of a challenge of a range proof or of an argument of
positivity, for all values and all later strings and challenges. -/
theorem C39_other_challenges (E : Env) (fuel : Nat) (s : Statement) (ops : List TOp) (cs : List Nat) (t : Transcript)
    (h : runOps E fuel s.transcript ops = some (cs, t)) (pp : PublicParameters) (a b : Int) (c3 : Int3) :
    hashInput t.info ≠ rpSerialize pp a b c3 ∧ hashInput t.info ≠ aopSerialize pp c3 := by
  obtain ⟨r, e⟩ := runOps_prefix _ _ _ _ _ _ h
  obtain ⟨c, q, hc, hd⟩ := head_transcript s r
  have key : ∀ l : Bytes, c :: q ≠ 99 :: l := by
    intro l hl
    injection hl with h1 _
    subst h1
    revert hd; decide
  rw [e, hc]
  exact ⟨key _, key _⟩

example : (runOps exEnv 1 (Statement.pokeStar ⟨35, 2, 3⟩ 4).transcript [.primeChallenge]).isSome = true ∧
    rpSerialize ⟨35, 2, 3⟩ 0 9 ⟨1, 2, 3⟩ ≠ aopSerialize ⟨35, 2, 3⟩ ⟨1, 2, 3⟩ := by decide +kernel

end Verif.Props
