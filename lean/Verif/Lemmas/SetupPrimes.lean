import Verif.Lemmas.Pratt
import Mathlib.Data.Nat.Size
import Mathlib.Tactic.NormNum.Prime

/-!
# Primes of the sizes that the setup draws

Two primes of 1023 bits for which twice the prime plus one is prime too, and a prime of 2048 bits. The number before each prime
is a product of small primes, so that Lucas' test can be checked by the kernel.
-/

namespace Verif.Lemmas

/-- Lucas' test, with the factors of `p - 1` as powers of primes. -/
theorem lucas_powers (p a : Nat) (fs : List (Nat × Nat)) (hf : ∀ f ∈ fs, f.1.Prime) (h1 : 1 < p)
    (hprod : (fs.map (fun f => f.1 ^ f.2)).prod = p - 1) (h4 : powMod p (p.log2 + 1) a (p - 1) = 1)
    (h5 : ∀ f ∈ fs, powMod p (p.log2 + 1) a ((p - 1) / f.1) ≠ 1) : p.Prime := by
  have hp : p < 2 ^ (p.log2 + 1) := Nat.lt_log2_self
  have cast : ∀ e, (a : ZMod p) ^ e = 1 ↔ a ^ e % p = 1 := by
    intro e
    have h1' : (1 : ZMod p) = ((1 : Nat) : ZMod p) := by simp
    rw [h1', ← Nat.cast_pow, ZMod.natCast_eq_natCast_iff, Nat.ModEq, Nat.mod_eq_of_lt h1]
  refine lucas_primality p (a : ZMod p) ?_ ?_
  · rw [powMod_eq _ _ _ _ (by omega)] at h4
    rw [cast, h4]
  · intro q hq hqd
    rw [← hprod] at hqd
    obtain ⟨x, hx, hqx⟩ := (Prime.dvd_prod_iff hq.prime).1 hqd
    obtain ⟨f, hfm, rfl⟩ := List.mem_map.1 hx
    have : q = f.1 := (Nat.prime_dvd_prime_iff_eq hq (hf f hfm)).1 (hq.dvd_of_dvd_pow hqx)
    subst this
    have := h5 f hfm
    rw [powMod_eq _ _ _ _ (lt_of_le_of_lt (Nat.div_le_self _ _) (by omega))] at this
    rw [Ne, cast]
    exact this

theorem small_primes (fs : List (Nat × Nat))
    (h : ∀ f ∈ fs, f.1 ∈ [2, 5, 7, 11, 13, 17, 19, 23, 29, 31, 37, 41, 43, 47]) : ∀ f ∈ fs, f.1.Prime := by
  intro f hf
  have key : ∀ n ∈ [2, 5, 7, 11, 13, 17, 19, 23, 29, 31, 37, 41, 43, 47], Nat.Prime n := by
    intro n hn
    simp only [List.mem_cons, List.not_mem_nil, or_false] at hn
    rcases hn with rfl | rfl | rfl | rfl | rfl | rfl | rfl | rfl | rfl | rfl | rfl | rfl | rfl | rfl <;> norm_num
  exact key _ (h f hf)

/-- A prime of 1023 bits. -/
def setupPrime1 : Nat := 83928693375966024271716185775559515319404098085163637144922772047467519063112109289734020129827580849666613819645780059994215774462560139487718437703833210291509510101227635482349885035970382987545011480029465179099017224050412516232242590320782217080498859471143513452918864750399038608135888000000000000001

/-- Another prime of 1023 bits. -/
def setupPrime2 : Nat := 80639109458907383284724971637586455076917670206936839532772979447304715084452067371142737293259486025900014402695751245120255952850829029761082957721093898629048667183846517654316545051357627862002383477159102698962460223764582339685449603482250266542435803026264092747246969136271958001328000000000000000001

/-- A prime of 2048 bits. -/
def setupPrime3 : Nat := 30358523596967973976979527691372595256774838967800132655266762059675314925281318443905749602919896124794006661660266989013779085561420024648588946911314190315083012850067959667831053519248747620660505911405692269320417625757406000882549186345016353453897472859386420823998991110164141537114886044262047099423210091156752700687794368214014528773779108811542098446080010554260787955911565804825596072586379348234772480056921691712459772187719235768968272890234006109557828119202438437954118115941946079878794451567060901830169665406666671253156115875258905319845321286559358726720000000000000000000000000000000000000001

theorem setupPrime1_prime : setupPrime1.Prime :=
  lucas_powers setupPrime1 30 [(2, 19), (5, 15), (7, 14), (11, 19), (13, 16), (17, 15), (19, 16), (23, 19), (29, 19), (31, 19), (37, 20), (41, 22), (43, 17), (47, 16)]
    (small_primes _ (by decide)) (by decide +kernel) (by decide +kernel) (by decide +kernel) (by decide +kernel)

theorem setupPrime2_prime : setupPrime2.Prime :=
  lucas_powers setupPrime2 15 [(2, 22), (5, 18), (7, 16), (11, 16), (13, 28), (17, 13), (19, 18), (23, 17), (29, 26), (31, 19), (37, 16), (41, 16), (43, 15), (47, 14)]
    (small_primes _ (by decide)) (by decide +kernel) (by decide +kernel) (by decide +kernel) (by decide +kernel)

theorem setupPrime3_prime : setupPrime3.Prime :=
  lucas_powers setupPrime3 3 [(2, 45), (5, 40), (7, 31), (11, 29), (13, 33), (17, 45), (19, 28), (23, 29), (29, 39), (31, 33), (37, 42), (41, 23), (43, 48), (47, 38)]
    (small_primes _ (by decide)) (by decide +kernel) (by decide +kernel) (by decide +kernel) (by decide +kernel)

theorem double_prime (p r a : Nat) (hr : r.Prime) (hp : p = r * 2 + 1) (h4 : powMod p (p.log2 + 1) a (p - 1) = 1)
    (h5 : powMod p (p.log2 + 1) a ((p - 1) / r) ≠ 1) (h6 : powMod p (p.log2 + 1) a ((p - 1) / 2) ≠ 1) : p.Prime := by
  have h2 := hr.two_le
  refine lucas_powers p a [(r, 1), (2, 1)] ?_ (by omega) ?_ h4 ?_
  · intro f hf
    simp only [List.mem_cons, List.not_mem_nil, or_false] at hf
    rcases hf with rfl | rfl
    exacts [hr, Nat.prime_two]
  · simp only [List.map_cons, List.map_nil, List.prod_cons, List.prod_nil, pow_one, mul_one]
    omega
  · intro f hf
    simp only [List.mem_cons, List.not_mem_nil, or_false] at hf
    rcases hf with rfl | rfl
    exacts [h5, h6]

theorem setupPrime1_safe : (setupPrime1 * 2 + 1).Prime :=
  double_prime _ setupPrime1 2 setupPrime1_prime rfl (by decide +kernel) (by decide +kernel) (by decide +kernel)

theorem setupPrime2_safe : (setupPrime2 * 2 + 1).Prime :=
  double_prime _ setupPrime2 2 setupPrime2_prime rfl (by decide +kernel) (by decide +kernel) (by decide +kernel)

theorem size_of_bounds (v b : Nat) (h1 : 2 ^ b ≤ v) (h2 : v < 2 ^ (b + 1)) : v.size = b + 1 := by
  apply le_antisymm
  · exact Nat.size_le.2 h2
  · exact Nat.lt_size.2 h1

theorem setupPrime1_size : setupPrime1.size = 1023 := size_of_bounds _ 1022 (by decide +kernel) (by decide +kernel)

theorem setupPrime2_size : setupPrime2.size = 1023 := size_of_bounds _ 1022 (by decide +kernel) (by decide +kernel)

theorem setupPrime3_size : setupPrime3.size = 2048 := size_of_bounds _ 2047 (by decide +kernel) (by decide +kernel)

theorem setupPrime1_top : 3 * 2 ^ (1023 - 2) ≤ setupPrime1 := by decide +kernel

theorem setupPrime2_top : 3 * 2 ^ (1023 - 2) ≤ setupPrime2 := by decide +kernel

theorem setupPrime3_top : 3 * 2 ^ (2048 - 2) ≤ setupPrime3 := by decide +kernel

theorem setupPrimes_differ : setupPrime1 ≠ setupPrime2 := by decide +kernel

end Verif.Lemmas
