import Verif.Lemmas.Goroutines
import Verif.Lemmas.Exec

/-!
# C93: how many goroutines the parallel functions use

The comments of `SetProductParallel` and of the `ProveMembershipParallel*` functions say "It uses at most O(2^limit)
Goroutines".  `Cfg.alive` (Go/Goroutines.lean) counts the goroutines that exist in a state, the calling one included.
Goroutines started inside `multiexp.FourfoldExpPrecomputedParallel` (external) are not counted.
-/

namespace Verif.Props
open Verif.Go Verif.Model Verif.Lemmas

/-- In no schedule does `p` have more than `m` goroutines besides the calling one. -/
def AtMost {α : Type} (p : Prog α) (m : Nat) : Prop := ∀ c, Steps (.run p) c → c.alive ≤ m + 1

theorem atMost_of_size {α : Type} (p : Prog α) (m : Nat) (h : p.size ≤ m + 1) : AtMost p m := by
  intro c hc
  have := (peakIs_size p).1 c hc
  omega

theorem peakIs_of_size {α : Type} (p : Prog α) (m : Nat) (h : p.size = m + 1) : PeakIs p m := by
  have := peakIs_size p
  rwa [h] at this

/-- C93, as the comments have it: there is a constant `K` such that with any limit each of the functions uses at most
`K * 2^limit` goroutines (`K` for negative limits). -/
def C93_statement : Prop :=
  ∃ K : Nat, ∀ limit : Int,
    (∀ set : List Int, AtMost (setProductParallel set limit) (K * 2 ^ limit.toNat)) ∧
    (∀ base r N set, AtMost (proveMembershipParallel base N set limit) (K * 2 ^ limit.toNat) ∧
      AtMost (proveMembershipParallelWithTable base N set limit) (K * 2 ^ limit.toNat) ∧
      AtMost (proveMembershipParallelWithTableWithRandomizer base r N set limit) (K * 2 ^ limit.toNat) ∧
      AtMost (proveMembershipParallelWithTableWithRandomizerWithChan base r N set limit) (K * 2 ^ limit.toNat))

/-- With a negative limit `SetProductParallel` (which tests `limit == 0`) never stops splitting: on a set of `n`
elements there are schedules with at least `n - 2` goroutines besides the calling one. -/
theorem C93_negative_limit (set : List Int) (limit : Int) (h : limit < 0) (m : Nat)
    (hm : AtMost (setProductParallel set limit) m) : set.length ≤ m + 2 := by
  obtain ⟨c, hc, e⟩ := (peakIs_size (setProductParallel set limit)).2
  have h1 := hm c hc
  have h2 := sppChan_size_neg set.length set limit rfl h
  have h3 := (setProductParallel set limit).one_le_size
  rw [spp_eq_chan] at *
  omega

theorem C93_violated : ¬ C93_statement := by
  rintro ⟨K, h⟩
  have h1 := C93_negative_limit (List.replicate (K + 3) 1) (-1) (by decide) _ ((h (-1)).1 _)
  simp at h1

/-- The products with a limit that is not negative: at most `2^(limit+1) - 2` goroutines, and exactly that many at the
peak as soon as the set has `3 * 2^(limit-1)` elements. -/
theorem C93_products_partial (set : List Int) (limit : Nat) :
    AtMost (setProductParallel set limit) (2 * 2 ^ limit - 2) ∧
    (3 * 2 ^ limit ≤ 2 * set.length → PeakIs (setProductParallel set limit) (2 * 2 ^ limit - 2)) := by
  have h1 := Nat.one_le_two_pow (n := limit)
  have e : 2 ^ (limit + 1) = 2 ^ limit * 2 := pow_succ _ _
  rw [spp_eq_chan]
  refine ⟨atMost_of_size _ _ ?_, fun hn => peakIs_of_size _ _ ?_⟩
  · have := sppChan_size_le limit set
    omega
  · rw [sppChan_size_eq limit set (.inr hn)]
    omega

example : PeakIs (setProductParallel [(2 : Int), 3, 5, 7, 11, 13] (2 : Nat)) 6 :=
  (C93_products_partial [2, 3, 5, 7, 11, 13] 2).2 (by decide)

/-- The provers, with any limit: at most `2 * 2^limit` goroutines. -/
theorem C93_provers_partial (base r N : Nat) (set : List Nat) (limit : Int) :
    AtMost (proveMembershipParallel base N set limit) (2 * 2 ^ limit.toNat) ∧
    AtMost (proveMembershipParallelWithTable base N set limit) (2 * 2 ^ limit.toNat) ∧
    AtMost (proveMembershipParallelWithTableWithRandomizer base r N set limit) (2 * 2 ^ limit.toNat) ∧
    AtMost (proveMembershipParallelWithTableWithRandomizerWithChan base r N set limit) (2 * 2 ^ limit.toNat) := by
  have hret : ∀ v : Res (List Nat), (Prog.ret v).size ≤ 2 * 2 ^ limit.toNat + 1 := fun v => by simp [Prog.size]
  have hfour : 0 < limit → (fourWorkers base N set (limit - 2)).size ≤ 2 * 2 ^ limit.toNat + 1 := by
    intro h
    by_cases h1 : limit = 1
    · subst h1
      rw [four_size_one _ _ _ _ (by decide)]
      decide
    · obtain ⟨l, rfl⟩ : ∃ l : Nat, limit = l + 2 := ⟨(limit - 2).toNat, by omega⟩
      have h2 := four_size_le l base N set
      have e : 2 ^ (l + 3) = 2 * 2 ^ (l + 2) := by rw [pow_succ]; omega
      rw [show ((l : Int) + 2).toNat = l + 2 by omega, show (l : Int) + 2 - 2 = l by omega]
      omega
  refine ⟨atMost_of_size _ _ ?_, atMost_of_size _ _ ?_, atMost_of_size _ _ ?_, atMost_of_size _ _ ?_⟩
  · unfold proveMembershipParallel
    split
    · exact hret _
    · split
      · exact hret _
      · exact hfour (by omega)
  · unfold proveMembershipParallelWithTable
    split
    · exact hret _
    · split
      · exact hret _
      · exact hfour (by omega)
  · unfold proveMembershipParallelWithTableWithRandomizer
    split
    · exact hret _
    · exact hfour (by omega)
  · unfold proveMembershipParallelWithTableWithRandomizerWithChan
    split
    · exact hret _
    · exact hfour (by omega)

/-- The bound is met: with a limit of at least 2 and `5 * 2^(limit-1)` elements the provers have `2^(limit+1) - 4`
goroutines besides the calling one at the peak. -/
theorem C93_provers_peak (base r N : Nat) (set : List Nat) (limit : Nat) (hl : 2 ≤ limit)
    (hn : 5 * 2 ^ limit ≤ 2 * set.length) :
    PeakIs (proveMembershipParallel base N set limit) (2 * 2 ^ limit - 4) ∧
    PeakIs (proveMembershipParallelWithTable base N set limit) (2 * 2 ^ limit - 4) ∧
    PeakIs (proveMembershipParallelWithTableWithRandomizer base r N set limit) (2 * 2 ^ limit - 4) ∧
    PeakIs (proveMembershipParallelWithTableWithRandomizerWithChan base r N set limit) (2 * 2 ^ limit - 4) := by
  obtain ⟨l, rfl⟩ : ∃ l, limit = l + 2 := ⟨limit - 2, by omega⟩
  have h1 := Nat.one_le_two_pow (n := l)
  have e : 2 ^ (l + 2) = 2 ^ l * 4 := by rw [pow_add]; norm_num
  have e1 : 2 ^ (l + 3) = 2 ^ l * 8 := by rw [pow_add]; norm_num
  have e2 : 2 ^ (l + 1) = 2 ^ l * 2 := pow_succ _ _
  have hfour : PeakIs (fourWorkers base N set (((l + 2 : Nat) : Int) - 2)) (2 * 2 ^ (l + 2) - 4) := by
    apply peakIs_of_size
    rw [show ((l + 2 : Nat) : Int) - 2 = l by omega, four_size_eq l base N set (.inr (by omega))]
    omega
  refine ⟨?_, ?_, ?_, ?_⟩
  · rw [proveMembershipParallel, if_neg (by omega), if_neg (by omega)]; exact hfour
  · rw [proveMembershipParallelWithTable, if_neg (by omega), if_neg (by omega)]; exact hfour
  · rw [proveMembershipParallelWithTableWithRandomizer, if_neg (by omega)]; exact hfour
  · rw [proveMembershipParallelWithTableWithRandomizerWithChan, if_neg (by omega)]; exact hfour

example : PeakIs (proveMembershipParallel 2 35 [3, 5, 7, 11, 13, 17, 19, 23, 29, 31] (2 : Nat)) 4 :=
  (C93_provers_peak 2 1 35 [3, 5, 7, 11, 13, 17, 19, 23, 29, 31] 2 (by decide) (by decide)).1

/-- With limit 0 or less the provers stay in the calling goroutine; with limit 1 they use four more. -/
theorem C93_small_limits (base r N : Nat) (set : List Nat) :
    (∀ limit : Int, limit ≤ 0 → PeakIs (proveMembershipParallel base N set limit) 0 ∧
      PeakIs (proveMembershipParallelWithTable base N set limit) 0 ∧
      PeakIs (proveMembershipParallelWithTableWithRandomizer base r N set limit) 0 ∧
      PeakIs (proveMembershipParallelWithTableWithRandomizerWithChan base r N set limit) 0) ∧
    (4 < set.length → PeakIs (proveMembershipParallel base N set 1) 4 ∧
      PeakIs (proveMembershipParallelWithTable base N set 1) 4 ∧
      PeakIs (proveMembershipParallelWithTableWithRandomizer base r N set 1) 4 ∧
      PeakIs (proveMembershipParallelWithTableWithRandomizerWithChan base r N set 1) 4) := by
  have hret : ∀ v : Res (List Nat), PeakIs (Prog.ret v) 0 := fun v => peakIs_of_size _ _ rfl
  have hfour : PeakIs (fourWorkers base N set (1 - 2)) 4 :=
    peakIs_of_size _ _ (four_size_one _ _ _ _ (by decide))
  refine ⟨fun limit h => ⟨?_, ?_, ?_, ?_⟩, fun h => ⟨?_, ?_, ?_, ?_⟩⟩
  · rw [proveMembershipParallel, if_pos h]; exact hret _
  · rw [proveMembershipParallelWithTable, if_pos h]; exact hret _
  · rw [proveMembershipParallelWithTableWithRandomizer, if_pos h]; exact hret _
  · rw [proveMembershipParallelWithTableWithRandomizerWithChan, if_pos h]; exact hret _
  · rw [proveMembershipParallel, if_neg (by decide), if_neg (by omega)]; exact hfour
  · rw [proveMembershipParallelWithTable, if_neg (by decide), if_neg (by omega)]; exact hfour
  · rw [proveMembershipParallelWithTableWithRandomizer, if_neg (by decide)]; exact hfour
  · rw [proveMembershipParallelWithTableWithRandomizerWithChan, if_neg (by decide)]; exact hfour

/-- Nothing is left running: in every schedule of every such program, a goroutine that is about to deliver its value is
the only one left of those it has started, directly or not. -/
theorem C93_no_leak {α : Type} (p : Prog α) (c d : Cfg α) (v : α) (hc : Steps (.run p) c) (hd : Within d c)
    (hs : Step d (.send v)) : d.alive = 1 := by
  rcases ((Good.run p).steps hc).within hd with rfl | ⟨q, hq⟩
  · cases hs
  · exact hq.join_alive hs

example : ∃ c : Cfg Int, Steps (.run (setProductParallel [2, 3, 5] 1)) c ∧ Step c (.send 30) ∧ c.alive = 1 := by
  have h : (setProductParallel [2, 3, 5] (1 : Int)).eval = .ok (30 : Int) := by
    simp [setProductParallel, setProductParallelWithChan, Prog.eval, setProductRecursiveFast, slice, mulPair,
      List.finRange, List.ofFn]
    rfl
  have hs := exists_send _ _ h
  cases hs with
  | tail h1 h2 => exact ⟨_, h1, h2, C93_no_leak _ _ _ _ h1 (.self _) h2⟩

end Verif.Props
