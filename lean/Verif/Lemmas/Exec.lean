import Verif.Go.Exec
import Verif.Lemmas.ForkJoin
import Mathlib.Order.WellFounded

/-! # Lemmas about executions -/

namespace Verif.Lemmas
open Verif.Go

theorem alwaysStops_of_measure {σ : Type} (step : σ → σ → Prop) (I : σ → Prop) (m : σ → Nat) (s0 : σ) (h0 : I s0)
    (hI : ∀ a b, I a → step a b → I b) (hm : ∀ a b, I a → step a b → m b < m a) : AlwaysStops step s0 := by
  rintro ⟨f, hf0, hf⟩
  have hIn : ∀ n, I (f n) := by
    intro n
    induction n with
    | zero => rw [hf0]; exact h0
    | succ n ih => exact hI _ _ ih (hf n)
  have hb : ∀ n, m (f n) + n ≤ m (f 0) := by
    intro n
    induction n with
    | zero => simp
    | succ n ih => have := hm _ _ (hIn n) (hf n); omega
  have := hb (m (f 0) + 1)
  omega

/-- The same with a rank in a well-founded order that depends on ghost data. -/
theorem alwaysStops_of_rank {σ β : Type} (step : σ → σ → Prop) (lt : β → β → Prop) (hwf : WellFounded lt)
    (R : σ → β → Prop) (s0 : σ) (b0 : β) (h0 : R s0 b0)
    (h : ∀ a b a', R a b → step a a' → ∃ b', lt b' b ∧ R a' b') : AlwaysStops step s0 := by
  rintro ⟨f, hf0, hf⟩
  have key : ∀ b n, ¬ R (f n) b := by
    intro b
    induction b using hwf.induction with
    | _ b ih =>
      intro n hR
      obtain ⟨b', hlt, hR'⟩ := h _ _ _ hR (hf n)
      exact ih b' hlt (n + 1) hR'
  exact key b0 0 (hf0 ▸ h0)

/-- Without infinite runs and without deadlock some run reaches the end. -/
theorem exists_done {σ : Type} (step : σ → σ → Prop) (R done : σ → Prop) (s0 : σ) (h0 : R s0)
    (hR : ∀ a b, R a → step a b → R b) (hp : ∀ a, R a → done a ∨ ∃ b, step a b) (hs : AlwaysStops step s0) :
    ∃ s, R s ∧ done s := by
  by_contra hn
  have hn' : ∀ a : {a // R a}, ∃ b : {b // R b}, step a.1 b.1 := by
    rintro ⟨a, ha⟩
    rcases hp a ha with h | ⟨b, hb⟩
    · exact absurd ⟨a, ha, h⟩ hn
    · exact ⟨⟨b, hR a b ha hb⟩, hb⟩
  choose f hf using hn'
  refine hs ⟨fun n => (f^[n] ⟨s0, h0⟩).1, rfl, fun n => ?_⟩
  show step (f^[n] ⟨s0, h0⟩).1 (f^[n + 1] ⟨s0, h0⟩).1
  rw [Function.iterate_succ_apply']
  exact hf _

theorem alwaysGives_eval {α : Type} (p : Prog α) : AlwaysGives p p.eval where
  value := by
    intro v h
    exact ((Good.run p).steps h).of_send
  panic := by
    intro h
    exact ((Good.run p).steps h).of_crash
  noDeadlock := by
    intro c h
    exact ((Good.run p).steps h).progress
  stops := alwaysStops_of_measure Step (fun _ => True) Cfg.weight _ trivial (fun _ _ _ _ => trivial)
    (fun _ _ _ h => h.weight_lt)

/-- A program that always gives a value reaches it in some schedule. -/
theorem exists_send {α : Type} (p : Prog α) (v : α) (h : p.eval = .ok v) : Steps (.run p) (.send v) := by
  have key : ∀ n c, c.weight ≤ n → Steps (.run p) c → Steps (.run p) (.send v) := by
    intro n
    induction n with
    | zero =>
      intro c hc hs
      rcases ((Good.run p).steps hs).progress with ⟨w, rfl⟩ | rfl | ⟨c', hc'⟩
      · have := ((Good.run p).steps hs).of_send; rw [h] at this; cases this; exact hs
      · obtain ⟨e, he⟩ := ((Good.run p).steps hs).of_crash; rw [h] at he; cases he
      · have := hc'.weight_lt; omega
    | succ n ih =>
      intro c hc hs
      rcases ((Good.run p).steps hs).progress with ⟨w, rfl⟩ | rfl | ⟨c', hc'⟩
      · have := ((Good.run p).steps hs).of_send; rw [h] at this; cases this; exact hs
      · obtain ⟨e, he⟩ := ((Good.run p).steps hs).of_crash; rw [h] at he; cases he
      · exact ih c' (by have := hc'.weight_lt; omega) (.tail hs hc')
  exact key _ _ (Nat.le_refl _) (.refl _)

end Verif.Lemmas
