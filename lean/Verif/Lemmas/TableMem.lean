import Verif.Lemmas.IterMem
import Verif.Lemmas.Precompute
import Verif.Model.TableMem
import Verif.Spec.Tables

/-!
# The precomputation tables on shared memory
-/

namespace Verif.Lemmas
open Verif.Go Verif.Go.Mem Verif.Model Verif.Spec

/-! ## Values -/

/-- The powers `b, b^e, b^(e^2), …` of a table; the first one is not reduced. -/
def chainVals (n e : Nat) : Nat → Nat → List Nat
  | 0, _ => []
  | r + 1, b => expMod b e n :: chainVals n e r (expMod b e n)

theorem chainVals_eq (n e : Nat) : ∀ (r b i : Nat), chainVals n e r (expMod b (e ^ i) n) =
    (List.range r).map fun j => b ^ e ^ (i + j + 1) % n
  | 0, _, _ => rfl
  | r + 1, b, i => by
    have h : expMod (expMod b (e ^ i) n) e n = expMod b (e ^ (i + 1)) n := by
      unfold expMod
      rw [← Nat.pow_mod, ← pow_mul, ← pow_succ]
    rw [chainVals, h, chainVals_eq n e r b (i + 1), List.range_succ_eq_map, List.map_cons, List.map_map]
    refine congrArg₂ _ (by simp [expMod]) (List.map_congr_left fun j _ => ?_)
    rw [Function.comp_apply, show i + 1 + j + 1 = i + (j + 1) + 1 by omega]

/-- `ts` are powers of `G`, each the `e`-th power of the one before. -/
def PowChain (n e : Nat) : Nat → List Nat → Prop
  | _, [] => True
  | G, t :: ts => t ≡ G [MOD n] ∧ PowChain n e (G ^ e) ts

theorem powChain_range (n e b : Nat) : ∀ (k i : Nat) (ts : List Nat), ts.length = k →
    (∀ j (h : j < ts.length), ts[j] ≡ b ^ e ^ (i + j) [MOD n]) → PowChain n e (b ^ e ^ i) ts
  | _, _, [], _, _ => trivial
  | k, i, t :: ts, hl, h => by
    refine ⟨h 0 (by simp), ?_⟩
    rw [← pow_mul, ← pow_succ]
    refine powChain_range n e b (k - 1) (i + 1) ts (by simp at hl; omega) (fun j hj => ?_)
    have h' := h (j + 1) (by simpa using hj)
    rw [show i + 1 + j = i + (j + 1) by omega]
    exact h'

/-- The parts of `x` with steps of `s` bits. -/
def splitVals (s : Nat) : Nat → Nat → List Nat
  | 0, x => [x]
  | r + 1, x => x % 2 ^ s :: splitVals s r (x / 2 ^ s)

theorem splitVals_ne_nil (s r x : Nat) : splitVals s r x ≠ [] := by
  cases r <;> simp [splitVals]

theorem split_prod (n s : Nat) : ∀ (r x G : Nat) (ts : List Nat), r < ts.length → PowChain n (2 ^ s) G ts →
    ((ts.zip (splitVals s r x)).map fun p => expMod p.1 p.2 n).prod ≡ G ^ x [MOD n]
  | _, _, _, [], h, _ => by simp at h
  | 0, x, G, t :: ts, _, hc => by
    simp only [splitVals, List.zip_cons_cons, List.zip_nil_right, List.map_cons, List.map_nil, List.prod_cons, List.prod_nil, mul_one]
    exact (Nat.mod_modEq _ _).trans (hc.1.pow x)
  | r + 1, x, G, t :: ts, h, hc => by
    simp only [splitVals, List.zip_cons_cons, List.map_cons, List.prod_cons]
    have ih := split_prod n s r (x / 2 ^ s) (G ^ 2 ^ s) ts (by simpa using h) hc.2
    refine (Nat.ModEq.mul ((Nat.mod_modEq _ _).trans (hc.1.pow _)) ih).trans ?_
    rw [← pow_mul, ← pow_add, Nat.mod_add_div]

theorem foldl_mulMod (n : Nat) : ∀ (vs : List Nat) (p : Nat), p < n → vs.foldl (fun p v => p * v % n) p = p * vs.prod % n
  | [], p, h => by simp [Nat.mod_eq_of_lt h]
  | v :: vs, p, h => by
    rw [List.foldl_cons, foldl_mulMod n vs _ (Nat.mod_lt _ (by omega)), List.prod_cons, ← mul_assoc, Nat.mod_mul_mod]

theorem foldl_mulMod_one {n : Nat} (hn : 0 < n) {vs : List Nat} (h : vs ≠ []) :
    vs.foldl (fun p v => p * v % n) 1 = vs.prod % n := by
  obtain ⟨v, vs, rfl⟩ := List.exists_cons_of_ne_nil h
  rw [List.foldl_cons, foldl_mulMod n vs _ (Nat.mod_lt _ hn), List.prod_cons, one_mul, Nat.mod_mul_mod]

/-! ## Operations -/

theorem ok_const {m : Memory} {W : Set Nat} {Q : Post} {v : Nat} {k : Nat → MProg}
    (hk : ∀ a m' W', Fresh m W m' W' [a] [v] → Ok (k a) m' W' Q) : Ok (constM v k) m W Q :=
  ok_alloc (by simp) rfl hk

theorem set_ne {m : Memory} {a c v : Nat} (h : c ≠ a) : (m.set a v) c = m c := by
  unfold Memory.set
  rw [if_neg h]

theorem set_self {m : Memory} {a v : Nat} : (m.set a v) a = some v := by
  unfold Memory.set
  rw [if_pos rfl]

/-- A write to an integer of one's own. -/
theorem ok_write {m : Memory} {W : Set Nat} {Q : Post} {a : Nat} {rs : List Nat} {f : List Nat → Nat} {k : MProg} {v : Nat}
    (ha : a ∈ W) (hr : ∀ r ∈ rs, m r ≠ none) (hv : f (m.vals rs) = v)
    (hk : ∀ m', (∀ c, c ≠ a → m' c = m c) → m' a = some v → Ok k m' W Q) : Ok (.store a rs f k) m W Q := by
  refine ⟨ha, hr, hk _ (fun c hc => set_ne hc) ?_⟩
  rw [hv, set_self]

theorem ok_mulInto {m : Memory} {W : Set Nat} {Q : Post} {prod a p v : Nat} {k : MProg} (hW : prod ∈ W) (hp : m prod = some p)
    (ha : m a = some v) (hk : ∀ m', (∀ c, c ≠ prod → m' c = m c) → m' prod = some (p * v) → Ok k m' W Q) :
    Ok (mulIntoM prod a k) m W Q :=
  ok_write hW (by simp [hp, ha]) (by simp [Memory.vals, hp, ha]) hk

theorem ok_mulMod {m : Memory} {W : Set Nat} {Q : Post} {prod a N p v n : Nat} {k : MProg} (hW : prod ∈ W) (hN' : N ≠ prod)
    (hp : m prod = some p) (ha : m a = some v) (hN : m N = some n)
    (hk : ∀ m', (∀ c, c ≠ prod → m' c = m c) → m' prod = some (p * v % n) → Ok k m' W Q) :
    Ok (mulIntoM prod a (modIntoM prod N k)) m W Q := by
  refine ok_mulInto hW hp ha (fun m1 h1 h2 => ?_)
  have hN1 : m1 N = some n := by rw [h1 N hN', hN]
  exact ok_write hW (by simp [h2, hN1]) (by simp [Memory.vals, h2, hN1])
    (fun m2 h3 h4 => hk m2 (fun c hc => (h3 c hc).trans (h1 c hc)) h4)

theorem ok_collect {W : Set Nat} {Q : Post} {prod N n : Nat} {k : MProg} (hW : prod ∈ W) (hN' : N ≠ prod) :
    ∀ (as vs : List Nat) (m : Memory) (p : Nat), prod ∉ as → m prod = some p → m N = some n → as.map m = vs.map some →
      (∀ m', (∀ c, c ≠ prod → m' c = m c) → m' prod = some (vs.foldl (fun p v => p * v % n) p) → Ok k m' W Q) →
      Ok (collectM prod N as k) m W Q
  | [], [], m, p, _, hp, _, _, hk => hk m (fun _ _ => rfl) hp
  | [], _ :: _, _, _, _, _, _, e, _ => by cases e
  | _ :: _, [], _, _, _, _, _, e, _ => by cases e
  | a :: as, v :: vs, m, p, hn, hp, hN, e, hk => by
    obtain ⟨e1, e2⟩ := vals_cons e
    have hn2 : prod ∉ as := fun h => hn (List.mem_cons_of_mem _ h)
    refine ok_mulMod hW hN' hp e1 hN (fun m1 h1 h2 => ?_)
    refine ok_collect hW hN' as vs m1 _ hn2 h2 (by rw [h1 N hN', hN]) ?_
      (fun m' h3 h4 => hk m' (fun c hc => (h3 c hc).trans (h1 c hc)) h4)
    rw [← e2]
    exact List.map_congr_left fun c hc => h1 c (fun e => hn2 (by rw [← e]; exact hc))

/-- After a write to the only result. -/
theorem fresh_update_one {m0 m m' : Memory} {W0 W : Set Nat} {a v u : Nat} (f : Fresh m0 W0 m W [a] [v])
    (h1 : ∀ c, c ≠ a → m' c = m c) (h2 : m' a = some u) : Fresh m0 W0 m' W [a] [u] :=
  fresh_update (o1 := []) (o2 := []) (v1 := []) (v2 := []) rfl f h1 h2

/-- A new integer comes before the last one. -/
theorem fresh_swap_last {m0 m m' : Memory} {W0 W W' : Set Nat} {o v : List Nat} {a u c y : Nat} (hl : o.length = v.length)
    (f : Fresh m0 W0 m W (o ++ [a]) (v ++ [u])) (g : Fresh m W m' W' [c] [y]) :
    Fresh m0 W0 m' W' ((o ++ [c]) ++ [a]) ((v ++ [y]) ++ [u]) := by
  have h := f.append g
  have hperm : ((o ++ [c]) ++ [a]).Perm ((o ++ [a]) ++ [c]) := by
    rw [List.append_assoc, List.append_assoc]
    exact List.Perm.append_left _ (List.Perm.swap _ _ _)
  refine ⟨h.ext, h.sub, fun c hc => h.mem c (hperm.mem_iff.1 hc), fun c hc => h.new c (hperm.mem_iff.1 hc),
    hperm.nodup_iff.2 h.nodup, ?_⟩
  have e := vals_mono g.ext f.vals
  rw [List.map_append, List.map_append] at e
  obtain ⟨e1, e2⟩ := List.append_inj e (by simpa using hl)
  rw [List.map_append, List.map_append, List.map_append, List.map_append, e1, e2]
  simp [g.one]

/-- The last one is forgotten. -/
theorem fresh_init {m m' : Memory} {W W' : Set Nat} {o v : List Nat} {a u : Nat} (hl : o.length = v.length)
    (f : Fresh m W m' W' (o ++ [a]) (v ++ [u])) : Fresh m W m' W' o v := by
  refine ⟨f.ext, f.sub, fun c hc => f.mem c (List.mem_append_left _ hc), fun c hc => f.new c (List.mem_append_left _ hc),
    (List.nodup_append.1 f.nodup).1, ?_⟩
  have e := f.vals
  rw [List.map_append, List.map_append] at e
  exact (List.append_inj e (by simpa using hl)).1

/-! ## Making tables -/

theorem ok_genLoop {N n step e : Nat} {Q : Post} : ∀ (r : Nat) {m : Memory} {W : Set Nat} {prev b : Nat} {k : List Nat → MProg},
    m N = some n → m step = some e → m prev = some b →
    (∀ out m' W', Fresh m W m' W' out (chainVals n e r b) → Ok (k out) m' W' Q) → Ok (genPreTableLoopM N step r prev k) m W Q
  | 0, m, W, _, _, _, _, _, _, hk => hk [] m W (.nil m W)
  | r + 1, m, W, prev, b, k, hN, he, hb, hk => by
    refine ok_accumulateNewPow hb he hN (fun a m1 W1 f => ?_)
    exact ok_genLoop r (f.ext _ _ hN) (f.ext _ _ he) f.one (fun out m' W' g => hk _ m' W' (f.append g))

theorem ok_newLoop {N n step e : Nat} {Q : Post} : ∀ (r : Nat) {m : Memory} {W : Set Nat} {prev b : Nat} {k : List Nat → MProg},
    m N = some n → m step = some e → m prev = some b →
    (∀ out m' W', Fresh m W m' W' out (chainVals n e r b) → Ok (k out) m' W' Q) → Ok (newTableLoopM N step r prev k) m W Q
  | 0, m, W, _, _, _, _, _, _, hk => hk [] m W (.nil m W)
  | r + 1, m, W, prev, b, k, hN, he, hb, hk => by
    refine ok_power hb hN he (fun a m1 W1 f => ?_)
    exact ok_newLoop r (f.ext _ _ hN) (f.ext _ _ he) f.one (fun out m' W' g => hk _ m' W' (f.append g))

/-- The result without the integer `step` that was taken in between. -/
theorem fresh_drop_second {m m' : Memory} {W W' : Set Nat} {a b u v : Nat} {o vs : List Nat}
    (f : Fresh m W m' W' ([a] ++ ([b] ++ o)) ([u] ++ ([v] ++ vs))) : Fresh m W m' W' (a :: o) (u :: vs) := by
  have hs : ∀ c ∈ a :: o, c ∈ [a] ++ ([b] ++ o) := by
    intro c hc
    rcases List.mem_cons.1 hc with rfl | hc
    · simp
    · simp [hc]
  refine ⟨f.ext, f.sub, fun c hc => f.mem c (hs c hc), fun c hc => f.new c (hs c hc), ?_, ?_⟩
  · refine f.nodup.sublist ?_
    exact List.Sublist.cons_cons a (List.Sublist.cons b (List.Sublist.refl o))
  · have e := f.vals
    simp only [List.singleton_append, List.map_cons, List.cons.injEq] at e ⊢
    exact ⟨e.1, e.2.2⟩

theorem tableEntries_cons (b n e k : Nat) (hk : 0 < k) : tableEntries b n e k = b :: chainVals n e (k - 1) b := by
  obtain ⟨k, rfl⟩ : ∃ k', k = k' + 1 := ⟨k - 1, by omega⟩
  unfold tableEntries
  rw [List.range_succ_eq_map, List.map_cons, List.map_map, if_pos rfl, Nat.add_sub_cancel]
  congr 1
  cases k with
  | zero => rfl
  | succ k =>
    rw [chainVals, show expMod b e n = expMod b (e ^ 1) n by rw [pow_one], chainVals_eq n e k b 1, List.range_succ_eq_map,
      List.map_cons, List.map_map]
    refine congrArg₂ _ (by simp [expMod]) (List.map_congr_left fun j _ => ?_)
    simp only [Function.comp_apply, Nat.succ_eq_add_one]
    rw [if_neg (by omega), show j + 1 + 1 = 1 + j + 1 by omega]

theorem tableEntries_chain (b n e k : Nat) : PowChain n e b (tableEntries b n e k) := by
  have h := powChain_range n e b k 0 (tableEntries b n e k) (by simp [tableEntries]) (fun j hj => ?_)
  · simpa using h
  · rw [show (tableEntries b n e k)[j] = if j = 0 then b else b ^ e ^ j % n by simp [tableEntries], Nat.zero_add]
    split
    · rename_i h0
      rw [h0, pow_zero, pow_one]
    · exact Nat.mod_modEq _ _

theorem ok_genPreTable {m : Memory} {W : Set Nat} {Q : Post} {base N b n bitLen size : Nat} (hb : m base = some b)
    (hN : m N = some n) (h1 : 0 < size) (h2 : size < bitLen)
    (hk : ∀ out m' W', Fresh m W m' W' out (tableEntries b n (2 ^ (bitLen / size)) size) → Q m' W' out) :
    Ok (genPreTableM base N bitLen size) m W Q := by
  unfold genPreTableM
  rw [if_neg (by omega), if_neg (by omega)]
  refine ok_copy hb (fun b0 m1 W1 f1 => ok_const (fun step m2 W2 f2 => ?_))
  refine ok_genLoop _ (f2.ext _ _ (f1.ext _ _ hN)) f2.one (f2.ext _ _ f1.one) (fun out m' W' f3 => hk _ m' W' ?_)
  rw [tableEntries_cons _ _ _ _ h1]
  exact fresh_drop_second (f1.append (f2.append f3))

theorem ok_newTable {m : Memory} {W : Set Nat} {Q : Post} {g N b n size c : Nat} (hb : m g = some b)
    (hN : m N = some n) (h1 : 0 < size)
    (hk : ∀ out m' W', Fresh m W m' W' out (tableEntries b n (2 ^ (c * 8)) size) → Q m' W' out) :
    Ok (newTableM g N size c) m W Q := by
  unfold newTableM
  rw [if_neg (by omega)]
  refine ok_copy hb (fun b0 m1 W1 f1 => ok_const (fun step m2 W2 f2 => ?_))
  refine ok_newLoop _ (f2.ext _ _ (f1.ext _ _ hN)) f2.one (f2.ext _ _ f1.one) (fun out m' W' f3 => hk _ m' W' ?_)
  rw [tableEntries_cons _ _ _ _ h1]
  exact fresh_drop_second (f1.append (f2.append f3))

/-! ## Using tables -/

theorem ok_split {m0 : Memory} {W0 : Set Nat} {Q : Post} {ns : List Nat} {s xCopy : Nat}
    (hns : ∀ j, j < ns.length → ns[j]? = some (j * s)) (h0 : m0 xCopy = none) :
    ∀ (r i : Nat) {m : Memory} {W : Set Nat} {x : Nat} {o v : List Nat} {k : List Nat → MProg}, i + r < ns.length →
      o.length = v.length → Fresh m0 W0 m W (o ++ [xCopy]) (v ++ [x]) →
      (∀ out m' W', Fresh m0 W0 m' W' (o ++ out) (v ++ splitVals s r x) → Ok (k out) m' W' Q) →
      Ok (splitM ns xCopy r i k) m W Q
  | 0, _, m, W, x, o, v, k, _, hl, f, hk => by
    have hx : m xCopy = some x := (f.right hl).one
    refine ok_copy hx (fun a m1 W1 g => hk [a] m1 W1 ?_)
    have h := f.append g
    refine ⟨h.ext, h.sub, fun c hc => h.mem c ?_, fun c hc => h.new c ?_, ?_, ?_⟩
    · rcases List.mem_append.1 hc with hc | hc
      · exact List.mem_append_left _ (List.mem_append_left _ hc)
      · exact List.mem_append_right _ hc
    · rcases List.mem_append.1 hc with hc | hc
      · exact List.mem_append_left _ (List.mem_append_left _ hc)
      · exact List.mem_append_right _ hc
    · refine h.nodup.sublist (List.Sublist.append_right (List.sublist_append_left _ _) _)
    · have e := h.vals
      simp only [List.map_append, List.append_assoc, List.map_cons, List.map_nil, List.cons_append, List.nil_append] at e
      obtain ⟨e1, e2⟩ := List.append_inj e (by simpa using hl)
      simp only [List.cons.injEq] at e2
      rw [List.map_append, List.map_append, e1]
      simp [splitVals, e2.2.1]
  | r + 1, i, m, W, x, o, v, k, hi, hl, f, hk => by
    have hd : ns.getD (i + 1) 0 - ns.getD i 0 = s := by
      rw [List.getD_eq_getElem?_getD, List.getD_eq_getElem?_getD, hns _ (by omega), hns _ (by omega)]
      simp only [Option.getD_some]
      rw [Nat.add_mul, Nat.one_mul, Nat.add_sub_cancel_left]
    have hx : m xCopy = some x := (f.right hl).one
    rw [splitM]
    simp only [hd]
    refine ok_const (fun modulo m1 W1 g1 => ?_)
    refine ok_alloc (v := x % 2 ^ s) (by simp [g1.ext _ _ hx, g1.one]) (by simp [Memory.vals, g1.ext _ _ hx, g1.one])
      (fun sub m2 W2 g2 => ?_)
    have hx2 : m2 xCopy = some x := g2.ext _ _ (g1.ext _ _ hx)
    have g12 : Fresh m W m2 W2 [sub] [x % 2 ^ s] := (g1.append g2).right (o1 := [modulo]) (v1 := [_]) rfl
    have hin : xCopy ∈ W2 := g12.sub (f.mem xCopy (by simp))
    refine ok_write hin (by simp [hx2]) (v := x / 2 ^ s) (by simp [Memory.vals, hx2]) (fun m3 h3 h4 => ?_)
    refine ok_split hns h0 r (i + 1) (o := o ++ [sub]) (v := v ++ [x % 2 ^ s]) (by omega) (by simp [hl]) ?_
      (fun out m' W' g => hk (sub :: out) m' W' (by simpa [splitVals] using g))
    exact fresh_update (o2 := []) (v2 := []) (by simp [hl]) (fresh_swap_last hl f g12) h3 h4

/-- What the rest needs about the parts: they are readable, and with the values `ps'`. -/
theorem ok_tableParts {m : Memory} {W : Set Nat} {Q : Post} {table ns : List Nat} {x xv b n s size : Nat}
    {k : List (Nat × Nat) → MProg} (hns : ns = (List.range size).map fun i => i * s) (h1 : 0 < size)
    (ht : table.map m = (tableEntries b n (2 ^ s) size).map some) (hx : m x = some xv) (hpos : 1 ≤ xv)
    (hk : ∀ (parts vs : List (Nat × Nat)) (m' : Memory) (W' : Set Nat), Extends m m' → W ⊆ W' → parts ≠ [] → parts.map (fun p => m' p.1) = vs.map (fun p => some p.1) →
      parts.map (fun p => m' p.2) = vs.map (fun p => some p.2) →
      (vs.map fun p => expMod p.1 p.2 n).prod ≡ b ^ xv [MOD n] → Ok (k parts) m' W' Q) :
    Ok (tablePartsM table ns x xv.size k) m W Q := by
  have hl : table.length = size := by
    have := vals_length ht
    simpa [tableEntries] using this
  have hln : ns.length = size := by simp [hns]
  unfold tablePartsM
  rw [if_neg (by omega), if_neg (by omega), if_neg (by
    have := Nat.size_pos.2 (show 0 < xv by omega)
    omega)]
  have hc := findCounter_lt ns xv.size (by omega)
  refine ok_copy hx (fun xCopy m1 W1 f => ?_)
  refine ok_split (s := s) (m0 := m) (W0 := W) (fun j hj => ?_) (f.new xCopy (by simp)) _ 0 (o := []) (v := []) (by omega) rfl f
    (fun out m' W' g => ?_)
  · subst hns
    rw [List.getElem?_map, List.getElem?_range (by omega)]
    rfl
  · simp only [List.nil_append] at g
    have e1 := vals_mono g.ext ht
    have e2 := g.vals
    have zip1 : ∀ (as us bs vs : List Nat), as.map m' = us.map some → bs.map m' = vs.map some →
        (as.zip bs).map (fun p => m' p.1) = (us.zip vs).map (fun p => some p.1) ∧
        (as.zip bs).map (fun p => m' p.2) = (us.zip vs).map (fun p => some p.2) := by
      intro as
      induction as with
      | nil =>
        intro us bs vs h _
        have : us = [] := by simpa using h.symm
        simp [this]
      | cons a as ih =>
        intro us bs vs h h'
        cases us with
        | nil => cases h
        | cons u us =>
          cases bs with
          | nil =>
            have : vs = [] := by simpa using h'.symm
            simp [this]
          | cons c bs =>
            cases vs with
            | nil => cases h'
            | cons v vs =>
              obtain ⟨a1, a2⟩ := vals_cons h
              obtain ⟨b1, b2⟩ := vals_cons h'
              obtain ⟨i1, i2⟩ := ih us bs vs a2 b2
              simp [a1, b1, i1, i2]
    obtain ⟨z1, z2⟩ := zip1 _ _ _ _ e1 e2
    refine hk _ _ m' W' g.ext g.sub ?_ z1 z2 ?_
    · intro hz
      have hz' := congrArg List.length hz
      have hne := splitVals_ne_nil s (findCounter ns xv.size) xv
      have hol := vals_length e2
      rw [List.length_zip, hl, hol, List.length_nil] at hz'
      have := List.length_pos_iff.2 hne
      omega
    · refine split_prod n s _ xv b _ ?_ (tableEntries_chain b n (2 ^ s) size)
      simp [tableEntries]
      omega

theorem ok_tableLoop {W0 : Set Nat} {m0 : Memory} {Q : Post} {prod N n : Nat} {k : MProg} (h0 : m0 prod = none) (hN : m0 N = some n) :
    ∀ (parts vs : List (Nat × Nat)) (m : Memory) (W : Set Nat) (p : Nat), Fresh m0 W0 m W [prod] [p] →
      parts.map (fun q => m0 q.1) = vs.map (fun q => some q.1) → parts.map (fun q => m0 q.2) = vs.map (fun q => some q.2) →
      (∀ m' W', Fresh m0 W0 m' W' [prod] [(vs.map fun q => expMod q.1 q.2 n).foldl (fun p v => p * v % n) p] → Ok k m' W' Q) →
      Ok (tableLoopM prod N parts k) m W Q
  | [], [], m, W, p, f, _, _, hk => hk m W f
  | [], _ :: _, _, _, _, _, e, _, _ => by cases e
  | _ :: _, [], _, _, _, _, e, _, _ => by cases e
  | a :: as, v :: vs, m, W, p, f, e1, e2, hk => by
    rw [List.map_cons, List.map_cons, List.cons.injEq] at e1 e2
    have hne : N ≠ prod := fun e => by rw [e, h0] at hN; cases hN
    refine ok_accumulateNewPow (f.ext _ _ e1.1) (f.ext _ _ e2.1) (f.ext _ _ hN) (fun temp m1 W1 g => ?_)
    have hp : m1 prod = some p := g.ext _ _ f.one
    refine ok_mulMod (g.sub (f.mem prod (by simp))) hne hp g.one (g.ext _ _ (f.ext _ _ hN)) (fun m2 h1 h2 => ?_)
    refine ok_tableLoop h0 hN as vs m2 W1 _ ?_ e1.2 e2.2 hk
    refine fresh_update_one (v := p) (m := m1) ?_ h1 h2
    exact ⟨f.ext.trans g.ext, f.sub.trans g.sub, fun c hc => g.sub (f.mem c hc), f.new, f.nodup, vals_mono g.ext f.vals⟩

theorem ok_computeFromTable {m : Memory} {W : Set Nat} {Q : Post} {table ns : List Nat} {x xv N b n s size : Nat}
    (hns : ns = (List.range size).map fun i => i * s) (h1 : 0 < size) (hn : 0 < n)
    (ht : table.map m = (tableEntries b n (2 ^ s) size).map some) (hx : m x = some xv) (hN : m N = some n) (hpos : 1 ≤ xv)
    (hk : ∀ out m' W', Fresh m W m' W' out [b ^ xv % n] → Q m' W' out) :
    Ok (computeFromTableM table ns x xv.size N) m W Q := by
  refine ok_tableParts hns h1 ht hx hpos (fun parts vs m1 W1 he hW hne p1 p2 hp => ?_)
  refine ok_const (fun prod m2 W2 f => ?_)
  obtain ⟨q, qs, rfl⟩ := List.exists_cons_of_ne_nil hne
  cases vs with
  | nil => cases p1
  | cons u us =>
    rw [List.map_cons, List.map_cons, List.cons.injEq] at p1 p2
    have hN1 : m1 N = some n := he _ _ hN
    refine ok_accumulateNewPow (f.ext _ _ p1.1) (f.ext _ _ p2.1) (f.ext _ _ hN1) (fun temp m3 W3 g => ?_)
    refine ok_mulInto (g.sub (f.mem prod (by simp))) (g.ext _ _ f.one) g.one (fun m4 h3 h4 => ?_)
    have f4 : Fresh m1 W1 m4 W3 [prod] [1 * expMod u.1 u.2 n] := by
      refine fresh_update_one (v := 1) (m := m3) ?_ h3 h4
      exact ⟨f.ext.trans g.ext, f.sub.trans g.sub, fun c hc => g.sub (f.mem c hc), f.new, f.nodup, vals_mono g.ext f.vals⟩
    refine ok_tableLoop (f.new prod (by simp)) hN1 qs us m4 W3 _ f4 p1.2 p2.2 (fun m' W' h => hk _ m' W' ?_)
    rw [one_mul, foldl_mulMod n _ _ (show expMod u.1 u.2 n < n from Nat.mod_lt _ hn)] at h
    have e : expMod u.1 u.2 n * (us.map fun q => expMod q.1 q.2 n).prod % n = b ^ xv % n := hp
    rw [e] at h
    refine ⟨he.trans h.ext, hW.trans h.sub, h.mem, fun c hc => ?_, h.nodup, h.vals⟩
    by_contra hne'
    exact he.ne_none hne' (h.new c hc)

/-- The caller multiplies what the goroutines have sent, in the order of arrival. -/
theorem ok_gather {m1 m2 m4 : Memory} {W1 W2 W4 : Set Nat} {Q : Post} {prod N n : Nat} {as outs vals : List Nat}
    (f : Fresh m1 W1 m2 W2 [prod] [1]) (g : Fresh m2 W2 m4 W4 outs vals) (har : as.Perm outs) (hN : m1 N = some n) (hn : 0 < n)
    (hne : vals ≠ []) (hk : ∀ m', Fresh m1 W1 m' W4 [prod] [vals.prod % n] → Q m' W4 [prod]) :
    Ok (collectM prod N as (.ret [prod])) m4 W4 Q := by
  have h0 : m1 prod = none := f.new prod (by simp)
  have hp : m4 prod = some 1 := g.ext _ _ f.one
  have hall : ∀ a ∈ outs, m4 a = some ((m4 a).getD 0) := by
    intro a ha
    have h1 := List.mem_map_of_mem (f := m4) ha
    rw [g.vals] at h1
    obtain ⟨v, -, hv⟩ := List.mem_map.1 h1
    rw [← hv]
    rfl
  have hvals : outs.map (fun a => (m4 a).getD 0) = vals := by
    have e := congrArg (List.map fun o : Option Nat => o.getD 0) g.vals
    simpa [Function.comp_def] using e
  have hperm : (as.map fun a => (m4 a).getD 0).Perm vals := by
    rw [← hvals]
    exact har.map _
  refine ok_collect (g.sub (f.mem prod (by simp))) (fun e => by rw [e, h0] at hN; cases hN) as (as.map fun a => (m4 a).getD 0) m4 1
    ?_ hp (g.ext _ _ (f.ext _ _ hN)) ?_ (fun m' h1 h2 => hk m' ?_)
  · intro hm
    have := g.new prod (har.mem_iff.1 hm)
    rw [f.one] at this
    cases this
  · rw [List.map_map]
    exact List.map_congr_left fun a ha => hall a (har.mem_iff.1 ha)
  · rw [foldl_mulMod_one hn (fun e => hne (by rw [e] at hperm; exact hperm.symm.eq_nil)), hperm.prod_eq] at h2
    refine fresh_update_one (v := 1) (m := m4) ?_ h1 h2
    exact ⟨f.ext.trans g.ext, f.sub.trans g.sub, fun c hc => g.sub (f.mem c hc), f.new, f.nodup, vals_mono g.ext f.vals⟩

theorem flatMap_getD {α : Type} (d : α) (h : α → Nat) (l : List α) (c : Nat) (hl : l.length = c) :
    ((List.finRange c).flatMap fun i : Fin c => [h (l.getD i.val d)]) = l.map h := by
  subst hl
  rw [← List.map_eq_flatMap]
  refine List.ext_getElem (by simp) (fun j h1 h2 => ?_)
  simp

theorem ok_computeFromTableParallel {m : Memory} {W : Set Nat} {Q : Post} {table ns : List Nat} {x xv N b n s size : Nat}
    {arrival : List Nat → List Nat} (har : ∀ l, (arrival l).Perm l)
    (hns : ns = (List.range size).map fun i => i * s) (h1 : 0 < size) (hn : 0 < n)
    (ht : table.map m = (tableEntries b n (2 ^ s) size).map some) (hx : m x = some xv) (hN : m N = some n) (hpos : 1 ≤ xv)
    (hk : ∀ out m' W', Fresh m W m' W' out [b ^ xv % n] → Q m' W' out) :
    Ok (computeFromTableParallelM arrival table ns x xv.size N) m W Q := by
  refine ok_tableParts hns h1 ht hx hpos (fun parts vs m1 W1 he hW hne p1 p2 hp => ?_)
  refine ok_const (fun prod m2 W2 f => ?_)
  have hl : parts.length = vs.length := by
    have e := congrArg List.length p1
    simpa using e
  have hN1 : m1 N = some n := he _ _ hN
  refine ⟨fun i m' W' out => Fresh m2 ∅ m' W' out [expMod (vs.getD i (0, 0)).1 (vs.getD i (0, 0)).2 n], fun i => fresh_mono m2 _,
    fun i => ?_, fun m4 Ws outs he4 hnew hdis hq => ?_⟩
  · have hi : (i : Nat) < vs.length := by
      have := i.isLt
      omega
    have g1 : m1 parts[i].1 = some (vs.getD i (0, 0)).1 := by
      have e := congrArg (fun l => l[(i : Nat)]?) p1
      simpa [hi] using e
    have g2 : m1 parts[i].2 = some (vs.getD i (0, 0)).2 := by
      have e := congrArg (fun l => l[(i : Nat)]?) p2
      simpa [hi] using e
    exact ok_power (f.ext _ _ g1) (f.ext _ _ hN1) (f.ext _ _ g2) (fun a m' W' g => g)
  · have g := fresh_flatMap (W := W2) he4 hdis hq
    rw [flatMap_getD (0, 0) (fun q => expMod q.1 q.2 n) vs _ hl.symm] at g
    refine ok_gather f g (har _) hN1 hn (fun e => hne (List.length_eq_zero_iff.1 (by
      rw [hl]
      simpa using congrArg List.length e))) (fun m' h => hk _ m' _ ?_)
    have e : (vs.map fun q => expMod q.1 q.2 n).prod % n = b ^ xv % n := hp
    rw [e] at h
    refine ⟨he.trans h.ext, hW.trans h.sub, h.mem, fun c hc => ?_, h.nodup, h.vals⟩
    by_contra hne'
    exact he.ne_none hne' (h.new c hc)

/-! ## `Table.Compute` -/

/-- The value for one input. -/
def inputNat (n : Nat) (ts : List Nat) (xb : Bytes) (i : Input) : Nat := expMod (ts.getD i.tableIdx 0) (setBytes (slice xb i.left i.right)) n

theorem ok_routineLoop {m0 : Memory} {W0 : Set Nat} {Q : Post} {table ts : List Nat} {N n opt : Nat} {xb : Bytes}
    (ht : table.map m0 = ts.map some) (hN : m0 N = some n) :
    ∀ (is : List Input) {m : Memory} {W : Set Nat} {y : Nat} {o v : List Nat} {k : List Nat → MProg},
      (∀ i ∈ is, i.tableIdx < ts.length) → o.length = v.length → Fresh m0 W0 m W (o ++ [opt]) (v ++ [y]) →
      (∀ out m' W', Fresh m0 W0 m' W' (o ++ out) (v ++ is.map (inputNat n ts xb)) → Ok (k out) m' W' Q) →
      Ok (routineLoopM table N opt xb is k) m W Q
  | [], m, W, y, o, v, k, _, hl, f, hk => by
    refine hk [] m W ?_
    rw [List.append_nil, List.map_nil, List.append_nil]
    exact fresh_init hl f
  | i :: is, m, W, y, o, v, k, hi, hl, f, hk => by
    have hlt := hi i List.mem_cons_self
    have hlen := vals_length ht
    have hb : table[i.tableIdx]? = some table[i.tableIdx] := List.getElem?_eq_getElem (by omega)
    have hv : m0 table[i.tableIdx] = some (ts.getD i.tableIdx 0) := by
      have e := congrArg (fun l => l[i.tableIdx]?) ht
      simpa [hlt, hlen] using e
    rw [routineLoopM]
    refine ok_write (f.mem opt (by simp)) (by simp) rfl (fun m1 h1 h2 => ?_)
    have f1 := fresh_update (o2 := []) (v2 := []) hl f h1 h2
    rw [hb]
    refine ok_power (f1.ext _ _ hv) (f1.ext _ _ hN) (f1.right hl).one (fun res m2 W2 g => ?_)
    exact ok_routineLoop ht hN is (o := o ++ [res]) (v := v ++ [inputNat n ts xb i]) (fun j hj => hi j (List.mem_cons_of_mem _ hj))
      (by simp [hl]) (fresh_swap_last hl f1 g) (fun out m' W' h => hk (res :: out) m' W' (by simpa using h))

theorem ok_routine {m : Memory} {W : Set Nat} {Q : Post} {table ts : List Nat} {N n : Nat} {xb : Bytes}
    (ht : table.map m = ts.map some) (hN : m N = some n) (is : List Input) (hi : ∀ i ∈ is, i.tableIdx < ts.length)
    (hk : ∀ out m' W', Fresh m W m' W' out (is.map (inputNat n ts xb)) → Q m' W' out) :
    Ok (routineComputeM table N xb is) m W Q :=
  ok_const fun opt _ _ f => ok_routineLoop (opt := opt) ht hN is (o := []) (v := []) hi rfl f
    (fun out m' W' g => hk out m' W' g)

theorem inputs_nat_prod {b n c size xv : Nat} (hn : 0 < n) (hc : 0 < c) (hfit : (natBytes xv).length ≤ c * size) :
    ((inputs c (natBytes xv).length (natBytes xv).length).map
      (inputNat n (tableEntries b n (2 ^ (c * 8)) size) (natBytes xv))).prod ≡ b ^ xv [MOD n] := by
  have : NeZero n := ⟨by omega⟩
  set ts := tableEntries b n (2 ^ (c * 8)) size with hts
  have hlen : ts.length = size := by simp [hts, tableEntries]
  let t : Table := { n := n, byteChunkSize := c, table := ts.map (fun v : Nat => (v : Int)) }
  have hent : ∀ j, j < size → ts.getD j 0 ≡ b ^ 256 ^ (c * j) [MOD n] := by
    intro j hj
    have e : ts.getD j 0 = if j = 0 then b else b ^ (2 ^ (c * 8)) ^ j % n := by simp [hts, tableEntries, hj]
    have e2 : (2 ^ (c * 8)) ^ j = 256 ^ (c * j) := by
      rw [← pow_mul, show (256 : Nat) = 2 ^ 8 by norm_num, ← pow_mul]
      congr 1
      ring
    rw [e, e2]
    split
    · rename_i h0
      rw [h0, Nat.mul_zero, pow_zero, pow_one]
    · exact Nat.mod_modEq _ _
  have hok : TableOk n (b : Int) t := by
    refine ⟨rfl, hc, fun j v hv => ?_⟩
    have hj : j < size := by
      have := (List.getElem?_eq_some_iff.1 hv).1
      simpa [t, hlen] using this
    have hv' : v = ((ts.getD j 0 : Nat) : Int) := by
      have : (t.table[j]?) = some ((ts.getD j 0 : Nat) : Int) := by simp [t, hlen, hj]
      rw [this] at hv
      exact (Option.some.inj hv).symm
    rw [hv']
    have h := (ZMod.natCast_eq_natCast_iff _ _ _).2 (hent j hj)
    push_cast at h ⊢
    exact h
  have hmem : ∀ inp ∈ inputs c (natBytes xv).length (natBytes xv).length, inp.left ≤ inp.right ∧ inp.right ≤ (natBytes xv).length ∧
      inp.tableIdx < size := by
    intro inp hinp
    obtain ⟨a1, a2, a3⟩ := inputs_mem c _ _ hc (Nat.le_refl _) 0 (by simp) inp hinp
    refine ⟨a1, a2, ?_⟩
    have : ((natBytes xv).length + c - 1) / c ≤ size := by
      rw [Nat.div_le_iff_le_mul_add_pred hc]
      omega
    omega
  have h := inputs_prod (N := n) (b : Int) t hok (natBytes xv) (natBytes xv).length (Nat.le_refl _) 0 (by simp)
    (fun inp hinp => by
      have := (hmem inp hinp).2.2
      simpa [t, hlen] using this)
  rw [Nat.mul_zero, pow_zero, one_mul, List.take_length, setBytes_natBytes] at h
  refine (ZMod.natCast_eq_natCast_iff _ _ _).1 ?_
  rw [Nat.cast_list_prod, List.map_map]
  push_cast
  push_cast at h
  rw [← h]
  refine congrArg _ (List.map_congr_left fun inp hinp => ?_)
  obtain ⟨a1, a2, a3⟩ := hmem inp hinp
  unfold inputVal chunkValue
  rw [if_pos ⟨a1, a2⟩]
  have ht : t.table[inp.tableIdx]? = some ((ts.getD inp.tableIdx 0 : Nat) : Int) := by simp [t, hlen, a3]
  rw [ht, Option.map_some, Option.getD_some]
  show ((inputNat n ts (natBytes xv) inp : Nat) : ZMod n) = _
  rw [show t.n = (n : Int) from rfl, bigExp_nonneg _ _ (by positivity), Option.getD_some, val_cast]
  unfold inputNat expMod
  simp

theorem ok_tableCompute {m : Memory} {W : Set Nat} {Q : Post} {table : List Nat} {x xv N b n c size k : Nat}
    {arrival : List Nat → List Nat} {taken : Fin k → List Input} (har : ∀ l, (arrival l).Perm l)
    (htk : ((List.finRange k).flatMap taken).Perm (inputs c (natBytes xv).length (natBytes xv).length)) (hc : 0 < c) (hn : 0 < n)
    (ht : table.map m = (tableEntries b n (2 ^ (c * 8)) size).map some) (hx : m x = some xv) (hN : m N = some n) (hpos : 1 ≤ xv)
    (hfit : (natBytes xv).length ≤ c * size)
    (hk : ∀ out m' W', Fresh m W m' W' out [b ^ xv % n] → Q m' W' out) :
    Ok (tableComputeM arrival table N x (natBytes xv) k taken) m W Q := by
  refine ok_copy hx (fun a m1 W1 f1 => ok_const (fun res m2 W2 f => ?_))
  have ht2 := vals_mono f.ext (vals_mono f1.ext ht)
  have hidx : ∀ i, ∀ inp ∈ taken i, inp.tableIdx < (tableEntries b n (2 ^ (c * 8)) size).length := by
    intro i inp hinp
    have hm : inp ∈ inputs c (natBytes xv).length (natBytes xv).length :=
      htk.mem_iff.1 (List.mem_flatMap.2 ⟨i, List.mem_finRange i, hinp⟩)
    obtain ⟨-, -, a3⟩ := inputs_mem c _ _ hc (Nat.le_refl _) 0 (by simp) inp hm
    have : ((natBytes xv).length + c - 1) / c ≤ size := by
      rw [Nat.div_le_iff_le_mul_add_pred hc]
      omega
    simp [tableEntries]
    omega
  refine ⟨fun i m' W' out => Fresh m2 ∅ m' W' out ((taken i).map (inputNat n (tableEntries b n (2 ^ (c * 8)) size) (natBytes xv))),
    fun i => fresh_mono m2 _, fun i => ok_routine ht2 (f.ext _ _ (f1.ext _ _ hN)) _ (hidx i) (fun out m' W' g => g),
    fun m4 Ws outs he4 hnew hdis hq => ?_⟩
  have g := fresh_flatMap (W := W2) he4 hdis hq
  rw [← List.map_flatMap] at g
  have hperm := htk.map (inputNat n (tableEntries b n (2 ^ (c * 8)) size) (natBytes xv))
  refine ok_gather f g (har _) (f1.ext _ _ hN) hn ?_ (fun m' h => hk _ m' _ ?_)
  · intro e
    rw [e] at hperm
    have h0 : inputs c (natBytes xv).length (natBytes xv).length = [] := by simpa using hperm.symm.eq_nil
    have hpos' : 0 < (natBytes xv).length := by
      rcases Nat.eq_zero_or_pos (natBytes xv).length with h | h
      · have := setBytes_natBytes xv
        rw [List.length_eq_zero_iff.1 h] at this
        simp [setBytes] at this
        omega
      · exact h
    rw [inputs_pos _ _ _ hc hpos'] at h0
    cases h0
  · rw [hperm.prod_eq] at h
    have e : _ % n = b ^ xv % n := inputs_nat_prod hn hc hfit
    rw [e] at h
    exact (f1.append h).right (o1 := [a]) (v1 := [_]) rfl

end Verif.Lemmas
