import Verif.Model.EvmMachine

/-!
# Running a program of the machine on unknown data

`runSym` follows a program with expressions in place of words and collects all runs in a tree. `runSym_sound`: the branch of
the tree that belongs to a world is the run in this world.
-/

namespace Verif.Lemmas.EvmSymbolic

open Verif.Model Verif.Model.EvmMachine

/-- Unknown words. `ret k j` is word `j` of the result of the `k`-th successful call. -/
inductive Ex
  | const (n : Nat) | cd (a : Nat) | size | value | gas (k : Nat) | ret (k j : Nat) | bin (o : Bin) (a b : Ex) | isz (a : Ex)
  | not (a : Ex)
  deriving DecidableEq, Repr

/-- Writes to memory, the last one first. -/
inductive Entry
  | word (a : Nat) (e : Ex)
  | zeros (a n : Nat)
  deriving DecidableEq, Repr

inductive Tree
  | ret (e : Ex) | reverted | exception | giveUp
  | branch (c : Ex) (nonzero zero : Tree)
  | call (addr : Nat) (inp : List Ex) (ok fail : Tree)
  deriving DecidableEq, Repr

structure SState where
  pc : Nat
  stack : List Ex
  log : List Entry
  gasReads : Nat
  calls : Nat

/-- The expression that was last written at address `a`. -/
def symLoad : List Entry → Nat → Option Ex
  | [], _ => some (.const 0)
  | .word b e :: l, a =>
    if b = a then some e else if a + 32 ≤ b then symLoad l a else if b + 32 ≤ a then symLoad l a else none
  | .zeros b n :: l, a =>
    if a + 32 ≤ b then symLoad l a else if b + n ≤ a then symLoad l a
    else if b ≤ a then (if a + 32 ≤ b + n then some (.const 0) else none) else none

/-- The expressions of `k` words from address `a` on. -/
def symLoads (log : List Entry) : Nat → Nat → Option (List Ex)
  | 0, _ => some []
  | k + 1, a => match symLoad log a with
    | none => none
    | some e => match symLoads log k (a + 32) with
      | none => none
      | some l => some (e :: l)

def mkBin (o : Bin) (a b : Ex) : Ex :=
  match a, b with
  | .const x, .const y => .const (o.apply x y)
  | _, _ => .bin o a b

def mkIsz (a : Ex) : Ex :=
  match a with
  | .const x => .const (ofBool (decide (x = 0)))
  | _ => .isz a

def mkNot (a : Ex) : Ex :=
  match a with
  | .const x => .const (wordMod - 1 - x)
  | _ => .not a

inductive SStep
  | next (depth : Nat) (s : SState)
  | branch (c : Ex) (nonzero zero : SState)
  | call (addr : Nat) (inp : List Ex) (ok fail : SState)
  | done (t : Tree)

def symSwap (n : Nat) : List Ex → Option (List Ex)
  | [] => none
  | x :: l => match l[n]? with
    | none => none
    | some y => some (y :: l.set n x)

/-- The number of words that a precompiled contract reads and writes. -/
def callShape (addr inSize : Nat) : Option (Nat × Nat) :=
  if addr = 6 then (if 128 ≤ inSize then some (4, 2) else none)
  else if addr = 7 then (if 96 ≤ inSize then some (3, 2) else none)
  else if addr = 8 then some (inSize / 32, 1)
  else none

def retEntries (calls : Nat) (a : Nat) : Nat → List Entry
  | 0 => []
  | k + 1 => .word (a + 32 * k) (.ret calls k) :: retEntries calls a k

def symCall (s : SState) (rest : List Ex) (addr inOff inSize outOff outSize : Nat) : SStep :=
  if inSize % 32 = 0 then
    match callShape addr inSize with
    | none => .done .giveUp
    | some (k, r) =>
      if 32 * r ≤ outSize then
        match symLoads s.log k inOff with
        | none => .done .giveUp
        | some inp =>
          .call addr inp ⟨s.pc + 1, .const 1 :: rest, retEntries s.calls outOff r ++ s.log, s.gasReads, s.calls + 1⟩
            ⟨s.pc + 1, .const 0 :: rest, s.log, s.gasReads, s.calls⟩
      else .done .giveUp
  else .done .giveUp

def symStep (c : Code) (jd : Nat) (s : SState) : SStep :=
  match decode c s.pc with
  | .bin o => match s.stack with
    | a :: b :: l => .next 1 { s with pc := s.pc + 1, stack := mkBin o a b :: l }
    | _ => .done .giveUp
  | .iszero => match s.stack with
    | a :: l => .next 1 { s with pc := s.pc + 1, stack := mkIsz a :: l }
    | _ => .done .giveUp
  | .not => match s.stack with
    | a :: l => .next 1 { s with pc := s.pc + 1, stack := mkNot a :: l }
    | _ => .done .giveUp
  | .callvalue => .next 1 { s with pc := s.pc + 1, stack := .value :: s.stack }
  | .calldataload => match s.stack with
    | .const a :: l => .next 1 { s with pc := s.pc + 1, stack := .cd a :: l }
    | _ => .done .giveUp
  | .calldatasize => .next 1 { s with pc := s.pc + 1, stack := .size :: s.stack }
  | .calldatacopy => match s.stack with
    | .const d :: .size :: .const n :: l => .next 0 { s with pc := s.pc + 1, stack := l, log := .zeros d n :: s.log }
    | _ => .done .giveUp
  | .pop => match s.stack with
    | _ :: l => .next 0 { s with pc := s.pc + 1, stack := l }
    | _ => .done .giveUp
  | .mload => match s.stack with
    | .const a :: l => match symLoad s.log a with
      | some e => .next 1 { s with pc := s.pc + 1, stack := e :: l }
      | none => .done .giveUp
    | _ => .done .giveUp
  | .mstore => match s.stack with
    | .const a :: v :: l => .next 0 { s with pc := s.pc + 1, stack := l, log := .word a v :: s.log }
    | _ => .done .giveUp
  | .jump => match s.stack with
    | .const d :: l => if jd.testBit d then .next 0 { s with pc := d, stack := l } else .done .giveUp
    | _ => .done .giveUp
  | .jumpi => match s.stack with
    | .const d :: .const b :: l =>
      if b = 0 then .next 0 { s with pc := s.pc + 1, stack := l }
      else if jd.testBit d then .next 0 { s with pc := d, stack := l } else .done .giveUp
    | .const d :: b :: l =>
      if jd.testBit d then .branch b { s with pc := d, stack := l } { s with pc := s.pc + 1, stack := l } else .done .giveUp
    | _ => .done .giveUp
  | .gas => .next 1 { s with pc := s.pc + 1, stack := .gas s.gasReads :: s.stack, gasReads := s.gasReads + 1 }
  | .jumpdest => .next 0 { s with pc := s.pc + 1 }
  | .push v n => .next 1 { s with pc := s.pc + 1 + n, stack := .const v :: s.stack }
  | .dup n => match s.stack[n]? with
    | some v => .next 1 { s with pc := s.pc + 1, stack := v :: s.stack }
    | none => .done .giveUp
  | .swap n => match symSwap n s.stack with
    | some l => .next (n + 2) { s with pc := s.pc + 1, stack := l }
    | none => .done .giveUp
  | .staticcall => match s.stack with
    | _ :: .const addr :: .const inOff :: .const inSize :: .const outOff :: .const outSize :: l =>
      symCall s l addr inOff inSize outOff outSize
    | _ => .done .giveUp
  | .ret => match s.stack with
    | .const a :: .const 32 :: _ => match symLoad s.log a with
      | some e => .done (.ret e)
      | none => .done .giveUp
    | _ => .done .giveUp
  | .revert => match s.stack with
    | _ :: _ :: _ => .done .reverted
    | _ => .done .giveUp
  | .invalid => .done .exception
  | _ => .done .giveUp

/-! The kernel does not evaluate arguments; these functions make it. -/

def forceNat {α : Type} (n : Nat) (k : Nat → α) : α :=
  match n with
  | 0 => k 0
  | m + 1 => k (m + 1)

def forceEx {α : Type} (e : Ex) (k : Ex → α) : α :=
  match e with
  | .const n => forceNat n fun n => k (.const n)
  | .cd a => k (.cd a)
  | .size => k .size
  | .value => k .value
  | .gas i => k (.gas i)
  | .ret i j => k (.ret i j)
  | .bin o a b => k (.bin o a b)
  | .isz a => k (.isz a)
  | .not a => k (.not a)

def forceStack {α : Type} : Nat → List Ex → (List Ex → α) → α
  | 0, l, k => k l
  | _ + 1, [], k => k []
  | n + 1, e :: l, k => forceEx e fun e => forceStack n l fun l => k (e :: l)

def forceState {α : Type} (depth : Nat) (s : SState) (k : SState → α) : α :=
  forceNat s.pc fun pc => forceStack depth s.stack fun stack => forceNat s.gasReads fun g => forceNat s.calls fun m =>
    k ⟨pc, stack, s.log, g, m⟩

def runSym (c : Code) (jd : Nat) : Nat → SState → Tree
  | 0, _ => .giveUp
  | fuel + 1, s => match symStep c jd s with
    | .next depth s' => forceState depth s' (runSym c jd fuel)
    | .branch b s1 s2 => .branch b (forceState 0 s1 (runSym c jd fuel)) (forceState 0 s2 (runSym c jd fuel))
    | .call addr inp s1 s2 => .call addr inp (forceState 1 s1 (runSym c jd fuel)) (forceState 1 s2 (runSym c jd fuel))
    | .done t => t

/-! ## Meaning -/

/-- The word of an expression, where `rets` are the results of the successful calls so far. -/
def evalEx (w : World) (rets : List (List Nat)) : Ex → Nat
  | .const n => n
  | .cd a => wordAt w.dataByte a
  | .size => w.data.length % wordMod
  | .value => w.value % wordMod
  | .gas k => w.gas k % wordMod
  | .ret k j => ((rets.getD k []).getD j 0) % wordMod
  | .bin o a b => o.apply (evalEx w rets a) (evalEx w rets b)
  | .isz a => ofBool (decide (evalEx w rets a = 0))
  | .not a => wordMod - 1 - evalEx w rets a

/-- The outcome of a world; `none` where the tree has no answer. -/
def evalTree (w : World) : List (List Nat) → Tree → Option Outcome
  | rets, .ret e => some (.returned (wordBytes (evalEx w rets e)))
  | _, .reverted => some .reverted
  | _, .exception => some .exception
  | _, .giveUp => none
  | rets, .branch c a b => if evalEx w rets c = 0 then evalTree w rets b else evalTree w rets a
  | rets, .call addr inp a b => match precompile w.evm addr (inp.map (evalEx w rets)) with
    | none => none
    | some none => evalTree w rets b
    | some (some ws) => evalTree w (rets ++ [ws]) a

def memOf (w : World) (rets : List (List Nat)) : List Entry → Nat → Nat
  | [] => fun _ => 0
  | .word a e :: l => writeWord (memOf w rets l) a (evalEx w rets e)
  | .zeros a n :: l => copyTo (memOf w rets l) a n fun _ => 0

/-- Constants are words and only the first `m` results are used. -/
def Ex.Ok (m : Nat) : Ex → Prop
  | .const n => n < wordMod
  | .ret k _ => k < m
  | .bin _ a b => a.Ok m ∧ b.Ok m
  | .isz a => a.Ok m
  | .not a => a.Ok m
  | _ => True

def Entry.Ok (m : Nat) : Entry → Prop
  | .word _ e => e.Ok m
  | .zeros _ _ => True

structure Rel (w : World) (rets : List (List Nat)) (s : SState) (t : State) : Prop where
  pc : t.pc = s.pc
  stack : t.stack = s.stack.map (evalEx w rets)
  mem : t.mem = memOf w rets s.log
  gas : t.gasReads = s.gasReads
  calls : rets.length = s.calls
  okStack : ∀ e ∈ s.stack, e.Ok s.calls
  okLog : ∀ e ∈ s.log, e.Ok s.calls

theorem wordMod_pos : 0 < wordMod := Nat.two_pow_pos 256

theorem ofBool_lt (b : Bool) : ofBool b < wordMod := by
  have h : 1 < wordMod := Nat.one_lt_two_pow (by decide)
  cases b
  · exact wordMod_pos
  · exact h

theorem apply_lt (o : Bin) {a b : Nat} (ha : a < wordMod) (hb : b < wordMod) : o.apply a b < wordMod := by
  cases o
  · exact Nat.mod_lt _ wordMod_pos
  · exact Nat.mod_lt _ wordMod_pos
  · exact Nat.mod_lt _ wordMod_pos
  · exact lt_of_le_of_lt (Nat.div_le_self a b) ha
  · show (if b = 0 then 0 else a % b) < wordMod
    split
    · exact wordMod_pos
    · exact lt_of_le_of_lt (Nat.mod_le a b) ha
  · exact ofBool_lt _
  · exact ofBool_lt _
  · exact ofBool_lt _
  · exact ofBool_lt _
  · exact lt_of_le_of_lt Nat.and_le_left ha
  · exact Nat.or_lt_two_pow ha hb
  · show b >>> a < wordMod
    rw [Nat.shiftRight_eq_div_pow]
    exact lt_of_le_of_lt (Nat.div_le_self _ _) hb

theorem wordAt_step (f : Nat → Nat) (a k : Nat) :
    (List.range (k + 1)).foldl (fun acc i => acc * 256 + f (a + i)) 0 =
      (List.range k).foldl (fun acc i => acc * 256 + f (a + i)) 0 * 256 + f (a + k) := by
  rw [List.range_succ, List.foldl_append]
  rfl

theorem wordAt_lt (f : Nat → Nat) (a : Nat) (h : ∀ i, f i < 256) : wordAt f a < wordMod := by
  have key : ∀ k, (List.range k).foldl (fun acc i => acc * 256 + f (a + i)) 0 < 256 ^ k := by
    intro k
    induction k with
    | zero => simp
    | succ k ih =>
      rw [wordAt_step, Nat.pow_succ]
      have := h (a + k)
      omega
  have e : wordMod = 256 ^ 32 := by decide +kernel
  rw [e]
  exact key 32

theorem wordAt_eq (f : Nat → Nat) (a v : Nat) (h : ∀ i < 32, f (a + i) = byteOf v i) (hv : v < wordMod) :
    wordAt f a = v := by
  have key : ∀ k ≤ 32, (List.range k).foldl (fun acc i => acc * 256 + f (a + i)) 0 = v / 256 ^ (32 - k) := by
    intro k
    induction k with
    | zero =>
      intro _
      have e : wordMod = 256 ^ 32 := by decide +kernel
      rw [e] at hv
      exact (Nat.div_eq_of_lt hv).symm
    | succ k ih =>
      intro hk
      rw [wordAt_step, ih (by omega), h k (by omega), byteOf]
      have e1 : 32 - k = (31 - k) + 1 := by omega
      have e2 : 32 - (k + 1) = 31 - k := by omega
      rw [e1, e2, Nat.pow_succ, ← Nat.div_div_eq_div_mul]
      omega
  have := key 32 (le_refl _)
  simpa [wordAt] using this

theorem dataByte_lt (w : World) (i : Nat) : w.dataByte i < 256 := UInt8.toNat_lt _

theorem eval_lt (w : World) (rets : List (List Nat)) (m : Nat) : ∀ e : Ex, e.Ok m → evalEx w rets e < wordMod
  | .const _, h => h
  | .cd a, _ => wordAt_lt _ a (dataByte_lt w)
  | .size, _ => Nat.mod_lt _ wordMod_pos
  | .value, _ => Nat.mod_lt _ wordMod_pos
  | .gas _, _ => Nat.mod_lt _ wordMod_pos
  | .ret _ _, _ => Nat.mod_lt _ wordMod_pos
  | .bin o a b, h => apply_lt o (eval_lt w rets m a h.1) (eval_lt w rets m b h.2)
  | .isz _, _ => ofBool_lt _
  | .not a, _ => by
    have := wordMod_pos
    unfold evalEx
    omega

theorem Ex.Ok.mono {m n : Nat} (h : m ≤ n) : ∀ {e : Ex}, e.Ok m → e.Ok n
  | .const _, he => he
  | .cd _, _ => trivial
  | .size, _ => trivial
  | .value, _ => trivial
  | .gas _, _ => trivial
  | .ret _ _, he => lt_of_lt_of_le he h
  | .bin _ _ _, he => ⟨Ex.Ok.mono h he.1, Ex.Ok.mono h he.2⟩
  | .isz a, he => Ex.Ok.mono (e := a) h he
  | .not a, he => Ex.Ok.mono (e := a) h he

theorem Entry.Ok.mono {m n : Nat} (h : m ≤ n) {e : Entry} (he : e.Ok m) : e.Ok n := by
  cases e with
  | word a e => exact Ex.Ok.mono h he
  | zeros => trivial

theorem eval_append (w : World) (rets : List (List Nat)) (ws : List Nat) :
    ∀ e : Ex, e.Ok rets.length → evalEx w (rets ++ [ws]) e = evalEx w rets e
  | .const _, _ => rfl
  | .cd _, _ => rfl
  | .size, _ => rfl
  | .value, _ => rfl
  | .gas _, _ => rfl
  | .ret k j, h => by
    have h' : k < rets.length := h
    unfold evalEx
    have e : (rets ++ [ws]).getD k [] = rets.getD k [] := by
      simp only [List.getD_eq_getElem?_getD, List.getElem?_append_left h']
    rw [e]
  | .bin o a b, h => by
    unfold evalEx
    rw [eval_append w rets ws a h.1, eval_append w rets ws b h.2]
  | .isz a, h => by
    unfold evalEx
    rw [eval_append w rets ws a h]
  | .not a, h => by
    unfold evalEx
    rw [eval_append w rets ws a h]

theorem memOf_append (w : World) (rets : List (List Nat)) (ws : List Nat) :
    ∀ l : List Entry, (∀ e ∈ l, e.Ok rets.length) → memOf w (rets ++ [ws]) l = memOf w rets l
  | [], _ => rfl
  | .word a e :: l, h => by
    unfold memOf
    rw [memOf_append w rets ws l fun e he => h e (List.mem_cons_of_mem _ he),
      eval_append w rets ws e (h (.word a e) List.mem_cons_self)]
  | .zeros a n :: l, h => by
    unfold memOf
    rw [memOf_append w rets ws l fun e he => h e (List.mem_cons_of_mem _ he)]

theorem stack_append (w : World) (rets : List (List Nat)) (ws : List Nat) (l : List Ex) (h : ∀ e ∈ l, e.Ok rets.length) :
    l.map (evalEx w (rets ++ [ws])) = l.map (evalEx w rets) :=
  List.map_congr_left fun e he => eval_append w rets ws e (h e he)

theorem byteOf_zero (i : Nat) : byteOf 0 i = 0 := by simp [byteOf]

theorem symLoad_sound (w : World) (rets : List (List Nat)) (m : Nat) (a : Nat) :
    ∀ (l : List Entry) (e : Ex), symLoad l a = some e → (∀ x ∈ l, x.Ok m) →
      e.Ok m ∧ ∀ i < 32, memOf w rets l (a + i) = byteOf (evalEx w rets e) i
  | [], e, h, _ => by
    simp only [symLoad, Option.some.injEq] at h
    subst h
    exact ⟨wordMod_pos, fun i _ => (byteOf_zero i).symm⟩
  | .word b x :: l, e, h, hl => by
    have ih := symLoad_sound w rets m a l e
    have hl' : ∀ x ∈ l, x.Ok m := fun e he => hl e (List.mem_cons_of_mem _ he)
    unfold symLoad at h
    split at h
    · rename_i hb
      simp only [Option.some.injEq] at h
      subst h hb
      refine ⟨hl _ List.mem_cons_self, fun i hi => ?_⟩
      unfold memOf writeWord
      rw [if_pos ⟨Nat.le_add_right _ _, by omega⟩, Nat.add_sub_cancel_left]
    · split at h
      · refine ⟨(ih h hl').1, fun i hi => ?_⟩
        unfold memOf writeWord
        rw [if_neg (by omega)]
        exact (ih h hl').2 i hi
      · split at h
        · refine ⟨(ih h hl').1, fun i hi => ?_⟩
          unfold memOf writeWord
          rw [if_neg (by omega)]
          exact (ih h hl').2 i hi
        · cases h
  | .zeros b n :: l, e, h, hl => by
    have ih := symLoad_sound w rets m a l e
    have hl' : ∀ x ∈ l, x.Ok m := fun e he => hl e (List.mem_cons_of_mem _ he)
    unfold symLoad at h
    split at h
    · refine ⟨(ih h hl').1, fun i hi => ?_⟩
      unfold memOf copyTo
      rw [if_neg (by omega)]
      exact (ih h hl').2 i hi
    · split at h
      · refine ⟨(ih h hl').1, fun i hi => ?_⟩
        unfold memOf copyTo
        rw [if_neg (by omega)]
        exact (ih h hl').2 i hi
      · split at h
        · split at h
          · simp only [Option.some.injEq] at h
            subst h
            refine ⟨wordMod_pos, fun i hi => ?_⟩
            unfold memOf copyTo
            rw [if_pos (by omega)]
            exact (byteOf_zero i).symm
          · cases h
        · cases h

theorem symLoad_word (w : World) (rets : List (List Nat)) (m a : Nat) (l : List Entry) (e : Ex) (h : symLoad l a = some e)
    (hl : ∀ x ∈ l, x.Ok m) : e.Ok m ∧ wordAt (memOf w rets l) a = evalEx w rets e := by
  obtain ⟨h1, h2⟩ := symLoad_sound w rets m a l e h hl
  exact ⟨h1, wordAt_eq _ a _ h2 (eval_lt w rets m e h1)⟩

theorem symLoads_words (w : World) (rets : List (List Nat)) (m : Nat) (l : List Entry) (hl : ∀ x ∈ l, x.Ok m) :
    ∀ (k a : Nat) (es : List Ex), symLoads l k a = some es →
      (List.range k).map (fun i => wordAt (memOf w rets l) (a + 32 * i)) = es.map (evalEx w rets)
  | 0, _, es, h => by
    simp only [symLoads, Option.some.injEq] at h
    subst h
    rfl
  | k + 1, a, es, h => by
    unfold symLoads at h
    split at h
    · cases h
    · rename_i e he
      split at h
      · cases h
      · rename_i es' hes
        simp only [Option.some.injEq] at h
        subst h
        have ih := symLoads_words w rets m l hl k (a + 32) es' hes
        have h0 := (symLoad_word w rets m a l e he hl).2
        generalize wordAt (memOf w rets l) = g at ih h0 ⊢
        rw [List.range_succ_eq_map, List.map_cons, List.map_cons, List.map_map, ← ih, ← h0]
        refine List.cons_eq_cons.2 ⟨rfl, List.map_congr_left fun i _ => ?_⟩
        have : a + 32 * (i + 1) = a + 32 + 32 * i := by omega
        exact congrArg g this

theorem forceNat_eq {α : Type} (n : Nat) (k : Nat → α) : forceNat n k = k n := by cases n <;> rfl

theorem forceEx_eq {α : Type} (e : Ex) (k : Ex → α) : forceEx e k = k e := by
  cases e <;> simp [forceEx, forceNat_eq]

theorem forceStack_eq {α : Type} : ∀ (n : Nat) (l : List Ex) (k : List Ex → α), forceStack n l k = k l
  | 0, _, _ => rfl
  | _ + 1, [], _ => rfl
  | n + 1, e :: l, k => by simp [forceStack, forceEx_eq, forceStack_eq n]

theorem forceState_eq {α : Type} (n : Nat) (s : SState) (k : SState → α) : forceState n s k = k s := by
  simp [forceState, forceNat_eq, forceStack_eq]

/-! ## Soundness -/

def StepOk (w : World) (rets : List (List Nat)) (t : Step) : SStep → Prop
  | .next _ s' => ∃ t', t = .next t' ∧ Rel w rets s' t'
  | .branch c s1 s2 => if evalEx w rets c = 0 then ∃ t', t = .next t' ∧ Rel w rets s2 t'
    else ∃ t', t = .next t' ∧ Rel w rets s1 t'
  | .call addr inp s1 s2 => match precompile w.evm addr (inp.map (evalEx w rets)) with
    | none => True
    | some none => ∃ t', t = .next t' ∧ Rel w rets s2 t'
    | some (some ws) => ∃ t', t = .next t' ∧ Rel w (rets ++ [ws]) s1 t'
  | .done tr => ∀ o, evalTree w rets tr = some o → t = .done o

theorem mkBin_eval (w : World) (rets : List (List Nat)) (o : Bin) (a b : Ex) :
    evalEx w rets (mkBin o a b) = o.apply (evalEx w rets a) (evalEx w rets b) := by
  unfold mkBin
  split <;> rfl

theorem mkBin_ok {m : Nat} (o : Bin) {a b : Ex} (ha : a.Ok m) (hb : b.Ok m) : (mkBin o a b).Ok m := by
  unfold mkBin
  split
  · exact apply_lt o ha hb
  · exact ⟨ha, hb⟩

theorem mkIsz_eval (w : World) (rets : List (List Nat)) (a : Ex) :
    evalEx w rets (mkIsz a) = ofBool (decide (evalEx w rets a = 0)) := by
  unfold mkIsz
  split <;> rfl

theorem mkIsz_ok {m : Nat} {a : Ex} (ha : a.Ok m) : (mkIsz a).Ok m := by
  unfold mkIsz
  split
  · exact ofBool_lt _
  · exact ha

theorem mkNot_eval (w : World) (rets : List (List Nat)) (a : Ex) :
    evalEx w rets (mkNot a) = wordMod - 1 - evalEx w rets a := by
  unfold mkNot
  split <;> rfl

theorem mkNot_ok {m : Nat} {a : Ex} (ha : a.Ok m) : (mkNot a).Ok m := by
  unfold mkNot
  split
  · have := wordMod_pos
    unfold Ex.Ok
    omega
  · exact ha

theorem giveUp_ok (w : World) (rets : List (List Nat)) (t : Step) : StepOk w rets t (.done .giveUp) :=
  fun _ h => nomatch h

theorem slice_lt (c : Code) (i n : Nat) (h : n ≤ 32) : c.slice i n < wordMod :=
  lt_of_lt_of_le (Nat.mod_lt _ (Nat.two_pow_pos _)) (Nat.pow_le_pow_right (by decide) (by omega))

theorem ite_ne {α : Type} {p : Prop} [Decidable p] {a b x : α} (ha : a ≠ x) (hb : b ≠ x) : ite p a b ≠ x := by
  split
  · exact ha
  · exact hb

theorem decodeLow_push {b v n : Nat} : decodeLow b ≠ .push v n := by
  unfold decodeLow
  repeat' apply ite_ne
  all_goals (intro h; cases h)

theorem decodeMid_push {b v n : Nat} : decodeMid b ≠ .push v n := by
  unfold decodeMid
  repeat' apply ite_ne
  all_goals (intro h; cases h)

theorem decodeHigh_push {b v n : Nat} : decodeHigh b ≠ .push v n := by
  unfold decodeHigh
  repeat' apply ite_ne
  all_goals (intro h; cases h)

theorem decode_push {c : Code} {pc v n : Nat} (h : decode c pc = .push v n) : v < wordMod := by
  unfold decode at h
  dsimp only at h
  split_ifs at h with h1 h2 h3
  · simp only [Instr.push.injEq] at h
    obtain ⟨h4, h5⟩ := h
    rw [← h4]
    exact slice_lt _ _ _ (by omega)
  · exact absurd h decodeHigh_push
  · exact absurd h decodeMid_push
  · exact absurd h decodeLow_push

theorem mem_set_or {α : Type} {l : List α} {n : Nat} {x y : α} (h : y ∈ l.set n x) : y ∈ l ∨ y = x :=
  List.mem_or_eq_of_mem_set h

theorem symSwap_map (w : World) (rets : List (List Nat)) (n : Nat) (l l' : List Ex) (h : symSwap n l = some l') :
    swapTop n (l.map (evalEx w rets)) = some (l'.map (evalEx w rets)) ∧ ∀ e ∈ l', e ∈ l := by
  cases l with
  | nil => cases h
  | cons x l =>
    simp only [symSwap] at h
    split at h
    · cases h
    · rename_i y hy
      simp only [Option.some.injEq] at h
      subst h
      refine ⟨?_, fun e he => ?_⟩
      · simp [swapTop, hy, List.map_set]
      · rcases List.mem_cons.1 he with rfl | he
        · exact List.mem_cons_of_mem _ (List.mem_of_getElem? hy)
        · rcases mem_set_or he with h | rfl
          · exact List.mem_cons_of_mem _ h
          · exact List.mem_cons_self

theorem wordsAt_take (f : Nat → Nat) (a n k : Nat) (h : k ≤ n) : (wordsAt f a n).take k = wordsAt f a k := by
  unfold wordsAt
  rw [← List.map_take, List.take_range, Nat.min_eq_left h]

theorem precompile_shape (E : Solidity.Evm) (f : Nat → Nat) (a addr inSize k r : Nat) (h : callShape addr inSize = some (k, r)) :
    precompile E addr (wordsAt f a (inSize / 32)) = precompile E addr (wordsAt f a k) ∧
      ∀ ws, precompile E addr (wordsAt f a k) = some (some ws) → ws.length = r ∧ ∀ x ∈ ws, x < wordMod := by
  have hl : ∀ n, (wordsAt f a n).length = n := fun n => by simp [wordsAt]
  unfold callShape at h
  split_ifs at h with h6 hs h7 hs h8
  · simp only [Option.some.injEq, Prod.mk.injEq] at h
    obtain ⟨rfl, rfl⟩ := h
    subst h6
    have h4 : 4 ≤ inSize / 32 := by omega
    unfold precompile
    rw [if_pos rfl, if_pos rfl, hl, hl, if_pos h4, if_pos (le_refl _), wordsAt_take _ _ _ _ h4,
      wordsAt_take _ _ _ _ (le_refl _)]
    refine ⟨rfl, fun ws hws => ?_⟩
    simp only [Option.some.injEq, Option.map_eq_some_iff] at hws
    obtain ⟨x, _, rfl⟩ := hws
    refine ⟨rfl, fun y hy => ?_⟩
    simp only [List.mem_cons, List.not_mem_nil, or_false] at hy
    rcases hy with rfl | rfl <;> exact Nat.mod_lt _ wordMod_pos
  · simp only [Option.some.injEq, Prod.mk.injEq] at h
    obtain ⟨rfl, rfl⟩ := h
    subst h7
    have h4 : 3 ≤ inSize / 32 := by omega
    unfold precompile
    rw [if_neg h6, if_pos rfl, if_neg h6, if_pos rfl, hl, hl, if_pos h4, if_pos (le_refl _), wordsAt_take _ _ _ _ h4,
      wordsAt_take _ _ _ _ (le_refl _)]
    refine ⟨rfl, fun ws hws => ?_⟩
    simp only [Option.some.injEq, Option.map_eq_some_iff] at hws
    obtain ⟨x, _, rfl⟩ := hws
    refine ⟨rfl, fun y hy => ?_⟩
    simp only [List.mem_cons, List.not_mem_nil, or_false] at hy
    rcases hy with rfl | rfl <;> exact Nat.mod_lt _ wordMod_pos
  · simp only [Option.some.injEq, Prod.mk.injEq] at h
    obtain ⟨rfl, rfl⟩ := h
    subst h8
    unfold precompile
    rw [if_neg h6, if_neg h7, if_pos rfl]
    refine ⟨rfl, fun ws hws => ?_⟩
    simp only [Option.some.injEq, Option.map_eq_some_iff] at hws
    obtain ⟨x, _, rfl⟩ := hws
    refine ⟨rfl, fun y hy => ?_⟩
    simp only [List.mem_cons, List.not_mem_nil, or_false] at hy
    subst hy
    exact Nat.mod_lt _ wordMod_pos

theorem retEntries_ok (calls a : Nat) : ∀ (k : Nat), ∀ e ∈ retEntries calls a k, e.Ok (calls + 1)
  | 0, _, h => nomatch h
  | k + 1, e, h => by
    rcases List.mem_cons.1 h with rfl | h
    · exact Nat.lt_succ_self _
    · exact retEntries_ok calls a k e h

/-- Writing the words in order, seen from the last one. -/
theorem writeWords_snoc (v : Nat) : ∀ (ws : List Nat) (f : Nat → Nat) (a : Nat),
    writeWords f a (ws ++ [v]) = writeWord (writeWords f a ws) (a + 32 * ws.length) v
  | [], _, _ => rfl
  | x :: ws, f, a => by
    have := writeWords_snoc v ws (writeWord f a x) (a + 32)
    simp only [List.cons_append, writeWords, List.length_cons]
    rw [this]
    congr 1
    omega

theorem retEntries_mem (w : World) (rets : List (List Nat)) (ws : List Nat) (hws : ∀ x ∈ ws, x < wordMod) (a : Nat)
    (log : List Entry) (hlog : ∀ e ∈ log, e.Ok rets.length) : ∀ (k : Nat), k ≤ ws.length →
      memOf w (rets ++ [ws]) (retEntries rets.length a k ++ log) = writeWords (memOf w rets log) a (ws.take k)
  | 0, _ => memOf_append w rets ws log hlog
  | k + 1, hk => by
    have ih := retEntries_mem w rets ws hws a log hlog k (by omega)
    have hk' : k < ws.length := hk
    have ht : ws.take (k + 1) = ws.take k ++ [ws[k]] := by
      rw [List.take_add_one, List.getElem?_eq_getElem hk']; rfl
    rw [ht, writeWords_snoc, ← ih, List.length_take, Nat.min_eq_left (by omega)]
    show writeWord _ _ (evalEx w (rets ++ [ws]) (.ret rets.length k)) = _
    congr 1
    unfold evalEx
    have h1 : (rets ++ [ws]).getD rets.length [] = ws := by simp [List.getD_eq_getElem?_getD]
    rw [h1, List.getD_eq_getElem?_getD, List.getElem?_eq_getElem hk', Option.getD_some, Nat.mod_eq_of_lt (hws _ (List.getElem_mem hk'))]

theorem symCall_ok (w : World) (rets : List (List Nat)) (s : SState) (t : State) (r : Rel w rets s t) (rest : List Ex)
    (addr inOff inSize outOff outSize : Nat) (hrest : ∀ e ∈ rest, e.Ok s.calls) :
    StepOk w rets (staticCall w t.pc (rest.map (evalEx w rets)) t.mem t.gasReads addr inOff inSize outOff outSize)
      (symCall s rest addr inOff inSize outOff outSize) := by
  obtain ⟨hpc, hst, hmem, hg, hc, hs, hl⟩ := r
  unfold symCall staticCall
  by_cases hsz : inSize % 32 = 0
  · rw [if_pos hsz, if_pos hsz]
    cases hshape : callShape addr inSize with
    | none => exact giveUp_ok _ _ _
    | some kq =>
      obtain ⟨k, q⟩ := kq
      dsimp only
      by_cases ho : 32 * q ≤ outSize
      · rw [if_pos ho]
        cases hinp : symLoads s.log k inOff with
        | none => exact giveUp_ok _ _ _
        | some inp =>
          dsimp only
          have hw := symLoads_words w rets s.calls s.log hl k inOff inp hinp
          obtain ⟨h1, h2⟩ := precompile_shape w.evm t.mem inOff addr inSize k q hshape
          have h3 : wordsAt t.mem inOff k = inp.map (evalEx w rets) := by rw [hmem]; exact hw
          rw [h3] at h1 h2
          rw [h1]
          unfold StepOk
          dsimp only
          cases hp : precompile w.evm addr (inp.map (evalEx w rets)) with
          | none => trivial
          | some x =>
            cases x with
            | none =>
              refine ⟨_, rfl, ⟨by rw [hpc], ?_, hmem, hg, hc, ?_, hl⟩⟩
              · rfl
              · intro e he
                rcases List.mem_cons.1 he with rfl | he
                · exact wordMod_pos
                · exact hrest e he
            | some ws =>
              obtain ⟨hlen, hlt⟩ := h2 ws hp
              dsimp only
              rw [hlen, if_pos ho]
              have hlog' : ∀ e ∈ s.log, e.Ok rets.length := by rw [hc]; exact hl
              refine ⟨_, rfl, ⟨by rw [hpc], ?_, ?_, hg, ?_, ?_, ?_⟩⟩
              · show 1 :: rest.map (evalEx w rets) = 1 :: rest.map (evalEx w (rets ++ [ws]))
                rw [stack_append w rets ws rest (by rw [hc]; exact hrest)]
              · show writeWords t.mem outOff ws = memOf w (rets ++ [ws]) (retEntries s.calls outOff q ++ s.log)
                rw [← hc, retEntries_mem w rets ws hlt outOff s.log hlog' q (by omega), hmem, ← hlen, List.take_length]
              · simp [hc]
              · intro e he
                rcases List.mem_cons.1 he with rfl | he
                · exact Nat.one_lt_two_pow (by decide)
                · exact Ex.Ok.mono (Nat.le_succ _) (hrest e he)
              · intro e he
                rcases List.mem_append.1 he with he | he
                · exact retEntries_ok _ _ _ e he
                · exact Entry.Ok.mono (Nat.le_succ _) (hl e he)
      · rw [if_neg ho]
        exact giveUp_ok _ _ _
  · rw [if_neg hsz, if_neg hsz]
    exact giveUp_ok _ _ _

theorem copy_size (w : World) (hd : w.data.length < wordMod) (f : Nat → Nat) (d n : Nat) :
    copyTo f d n (fun i => w.dataByte (w.data.length % wordMod + i)) = copyTo f d n fun _ => 0 := by
  have : (fun i => w.dataByte (w.data.length % wordMod + i)) = fun _ => 0 := by
    funext i
    rw [Nat.mod_eq_of_lt hd]
    unfold World.dataByte
    rw [List.getD_eq_getElem?_getD, List.getElem?_eq_none (by omega)]
    rfl
  rw [this]

theorem symStep_ok (c : Code) (jd : Nat) (w : World) (hd : w.data.length < wordMod) (rets : List (List Nat)) (s : SState)
    (t : State) (r : Rel w rets s t) : StepOk w rets (step c jd w t) (symStep c jd s) := by
  obtain ⟨pc, stack, mem, g⟩ := t
  obtain ⟨spc, sstack, log, sg, calls⟩ := s
  have r' := r
  obtain ⟨hpc, hst, hmem, hg, hc, hs, hl⟩ := r
  dsimp only at hpc hst hmem hg hc hs hl
  subst hpc hst hg
  have tail : ∀ {x : Ex} {l : List Ex}, (∀ e ∈ x :: l, e.Ok calls) → ∀ e ∈ l, e.Ok calls :=
    fun h e he => h e (List.mem_cons_of_mem _ he)
  have cons : ∀ {x : Ex} {l : List Ex}, x.Ok calls → (∀ e ∈ l, e.Ok calls) → ∀ e ∈ x :: l, e.Ok calls := by
    intro x l hx h e he
    rcases List.mem_cons.1 he with rfl | he
    · exact hx
    · exact h e he
  have head : ∀ {x : Ex} {l : List Ex}, (∀ e ∈ x :: l, e.Ok calls) → x.Ok calls := fun h => h _ List.mem_cons_self
  obtain ⟨T, hT⟩ : ∃ T, T = step c jd w ⟨pc, sstack.map (evalEx w rets), mem, g⟩ := ⟨_, rfl⟩
  rw [← hT]
  unfold step at hT
  dsimp only at hT
  unfold symStep
  dsimp only
  cases hi : decode c pc <;> rw [hi] at hT <;> dsimp only
  case stop => exact giveUp_ok _ _ _
  case other => exact giveUp_ok _ _ _
  case codecopy => exact giveUp_ok _ _ _
  case bin o =>
    match sstack, hs with
    | [], _ => exact giveUp_ok _ _ _
    | [_], _ => exact giveUp_ok _ _ _
    | a :: b :: l, hs =>
      refine ⟨_, hT, ⟨rfl, ?_, hmem, rfl, hc, cons (mkBin_ok o (head hs) (head (tail hs))) (tail (tail hs)), hl⟩⟩
      simp only [List.map_cons, mkBin_eval]
  case iszero =>
    match sstack, hs with
    | [], _ => exact giveUp_ok _ _ _
    | a :: l, hs =>
      refine ⟨_, hT, ⟨rfl, ?_, hmem, rfl, hc, cons (mkIsz_ok (head hs)) (tail hs), hl⟩⟩
      simp only [List.map_cons, mkIsz_eval]
  case not =>
    match sstack, hs with
    | [], _ => exact giveUp_ok _ _ _
    | a :: l, hs =>
      refine ⟨_, hT, ⟨rfl, ?_, hmem, rfl, hc, cons (mkNot_ok (head hs)) (tail hs), hl⟩⟩
      simp only [List.map_cons, mkNot_eval]
  case callvalue => exact ⟨_, hT, ⟨rfl, rfl, hmem, rfl, hc, cons trivial hs, hl⟩⟩
  case calldatasize => exact ⟨_, hT, ⟨rfl, rfl, hmem, rfl, hc, cons trivial hs, hl⟩⟩
  case gas => exact ⟨_, hT, ⟨rfl, rfl, hmem, rfl, hc, cons trivial hs, hl⟩⟩
  case jumpdest => exact ⟨_, hT, ⟨rfl, rfl, hmem, rfl, hc, hs, hl⟩⟩
  case push v n => exact ⟨_, hT, ⟨rfl, rfl, hmem, rfl, hc, cons (decode_push hi) hs, hl⟩⟩
  case calldataload =>
    match sstack, hs with
    | [], _ => exact giveUp_ok _ _ _
    | .const a :: l, hs => exact ⟨_, hT, ⟨rfl, rfl, hmem, rfl, hc, cons trivial (tail hs), hl⟩⟩
    | .cd _ :: l, hs | .size :: l, hs | .value :: l, hs | .gas _ :: l, hs | .ret _ _ :: l, hs | .bin _ _ _ :: l, hs
    | .isz _ :: l, hs | .not _ :: l, hs => exact giveUp_ok _ _ _
  case calldatacopy =>
    split
    · rename_i d n l
      refine ⟨_, hT, ⟨rfl, rfl, ?_, rfl, hc, tail (tail (tail hs)), ?_⟩⟩
      · show copyTo mem d n (fun i => w.dataByte (w.data.length % wordMod + i)) = _
        rw [copy_size w hd, hmem]
        rfl
      · intro e he
        rcases List.mem_cons.1 he with rfl | he
        · trivial
        · exact hl e he
    · exact giveUp_ok _ _ _
  case pop =>
    match sstack, hs with
    | [], _ => exact giveUp_ok _ _ _
    | a :: l, hs => exact ⟨_, hT, ⟨rfl, rfl, hmem, rfl, hc, tail hs, hl⟩⟩
  case mload =>
    split
    · rename_i a l
      cases he : symLoad log a with
      | none => exact giveUp_ok _ _ _
      | some e =>
        obtain ⟨h1, h2⟩ := symLoad_word w rets calls a log e he hl
        refine ⟨_, hT, ⟨rfl, ?_, hmem, rfl, hc, cons h1 (tail hs), hl⟩⟩
        show wordAt mem a :: _ = evalEx w rets e :: _
        rw [hmem, h2]
    · exact giveUp_ok _ _ _
  case mstore =>
    split
    · rename_i a v l
      refine ⟨_, hT, ⟨rfl, rfl, ?_, rfl, hc, tail (tail hs), ?_⟩⟩
      · show writeWord mem a (evalEx w rets v) = _
        rw [hmem]
        rfl
      · intro e he
        rcases List.mem_cons.1 he with rfl | he
        · exact head (tail hs)
        · exact hl e he
    · exact giveUp_ok _ _ _
  case jump =>
    split
    · rename_i d l
      change T = (if jd.testBit d then _ else _) at hT
      split
      · rename_i hj
        rw [if_pos hj] at hT
        exact ⟨_, hT, ⟨rfl, rfl, hmem, rfl, hc, tail hs, hl⟩⟩
      · exact giveUp_ok _ _ _
    · exact giveUp_ok _ _ _
  case jumpi =>
    split
    · rename_i d b l
      change T = (if b = 0 then _ else if jd.testBit d then _ else _) at hT
      split
      · rename_i hb
        rw [if_pos hb] at hT
        exact ⟨_, hT, ⟨rfl, rfl, hmem, rfl, hc, tail (tail hs), hl⟩⟩
      · rename_i hb
        rw [if_neg hb] at hT
        split
        · rename_i hj
          rw [if_pos hj] at hT
          exact ⟨_, hT, ⟨rfl, rfl, hmem, rfl, hc, tail (tail hs), hl⟩⟩
        · exact giveUp_ok _ _ _
    · rename_i d b l hb
      change T = (if evalEx w rets b = 0 then _ else if jd.testBit d then _ else _) at hT
      by_cases hj : jd.testBit d
      · rw [if_pos hj]
        rw [if_pos hj] at hT
        unfold StepOk
        dsimp only
        split
        · rename_i hb
          rw [if_pos hb] at hT
          exact ⟨_, hT, ⟨rfl, rfl, hmem, rfl, hc, tail (tail hs), hl⟩⟩
        · rename_i hb
          rw [if_neg hb] at hT
          exact ⟨_, hT, ⟨rfl, rfl, hmem, rfl, hc, tail (tail hs), hl⟩⟩
      · rw [if_neg hj]
        exact giveUp_ok _ _ _
    · exact giveUp_ok _ _ _
  case dup n =>
    cases hn : sstack[n]? with
    | none => exact giveUp_ok _ _ _
    | some v =>
      have : (sstack.map (evalEx w rets))[n]? = some (evalEx w rets v) := by rw [List.getElem?_map, hn]; rfl
      dsimp only at hT ⊢
      rw [this] at hT
      exact ⟨_, hT, ⟨rfl, rfl, hmem, rfl, hc, cons (hs v (List.mem_of_getElem? hn)) hs, hl⟩⟩
  case swap n =>
    cases hn : symSwap n sstack with
    | none => exact giveUp_ok _ _ _
    | some l =>
      obtain ⟨h1, h2⟩ := symSwap_map w rets n sstack l hn
      dsimp only at hT ⊢
      rw [h1] at hT
      exact ⟨_, hT, ⟨rfl, rfl, hmem, rfl, hc, fun e he => hs e (h2 e he), hl⟩⟩
  case staticcall =>
    split
    · rename_i x addr inOff inSize outOff outSize l
      rw [hT]
      exact symCall_ok w rets _ _ r' l addr inOff inSize outOff outSize (tail (tail (tail (tail (tail (tail hs))))))
    · exact giveUp_ok _ _ _
  case ret =>
    split
    · rename_i a l
      cases he : symLoad log a with
      | none => exact giveUp_ok _ _ _
      | some e =>
        obtain ⟨_, h2⟩ := symLoad_sound w rets calls a log e he hl
        intro o ho
        simp only [evalTree, Option.some.injEq] at ho
        subst ho
        rw [hT]
        show Step.done (.returned ((List.range 32).map fun i => mem (a + i))) = _
        rw [hmem]
        refine congrArg (fun l => Step.done (.returned l)) (List.map_congr_left fun i hi => ?_)
        exact h2 i (List.mem_range.1 hi)
    · exact giveUp_ok _ _ _
  case revert =>
    match sstack, hs with
    | [], _ => exact giveUp_ok _ _ _
    | [_], _ => exact giveUp_ok _ _ _
    | a :: b :: l, hs =>
      intro o ho
      simp only [evalTree, Option.some.injEq] at ho
      subst ho
      exact hT
  case invalid =>
    intro o ho
    simp only [evalTree, Option.some.injEq] at ho
    subst ho
    exact hT

theorem runSym_sound (c : Code) (jd : Nat) (w : World) (hd : w.data.length < wordMod) (o : Outcome) :
    ∀ (fuel : Nat) (rets : List (List Nat)) (s : SState) (t : State), Rel w rets s t →
      evalTree w rets (runSym c jd fuel s) = some o → runFrom c jd w fuel t = some o
  | 0, _, _, _, _, h => nomatch h
  | fuel + 1, rets, s, t, r, h => by
    have hstep := symStep_ok c jd w hd rets s t r
    unfold runSym at h
    unfold runFrom
    cases hs : symStep c jd s with
    | next d s' =>
      rw [hs] at hstep h
      obtain ⟨t', ht, r'⟩ := hstep
      rw [ht]
      simp only [forceState_eq] at h
      exact runSym_sound c jd w hd o fuel rets s' t' r' h
    | branch b s1 s2 =>
      rw [hs] at hstep h
      simp only [forceState_eq, evalTree] at h
      unfold StepOk at hstep
      dsimp only at hstep
      split at h
      · rename_i hb
        rw [if_pos hb] at hstep
        obtain ⟨t', ht, r'⟩ := hstep
        rw [ht]
        exact runSym_sound c jd w hd o fuel rets s2 t' r' h
      · rename_i hb
        rw [if_neg hb] at hstep
        obtain ⟨t', ht, r'⟩ := hstep
        rw [ht]
        exact runSym_sound c jd w hd o fuel rets s1 t' r' h
    | call addr inp s1 s2 =>
      rw [hs] at hstep h
      simp only [forceState_eq, evalTree] at h
      unfold StepOk at hstep
      dsimp only at hstep
      cases hp : precompile w.evm addr (inp.map (evalEx w rets)) with
      | none =>
        rw [hp] at h
        cases h
      | some x =>
        rw [hp] at h hstep
        cases x with
        | none =>
          obtain ⟨t', ht, r'⟩ := hstep
          rw [ht]
          exact runSym_sound c jd w hd o fuel rets s2 t' r' h
        | some ws =>
          obtain ⟨t', ht, r'⟩ := hstep
          rw [ht]
          exact runSym_sound c jd w hd o fuel (rets ++ [ws]) s1 t' r' h
    | done tr =>
      rw [hs] at hstep h
      rw [hstep o h]

theorem runFrom_mono (c : Code) (jd : Nat) (w : World) (o : Outcome) : ∀ (n m : Nat) (t : State), n ≤ m →
    runFrom c jd w n t = some o → runFrom c jd w m t = some o
  | 0, _, _, _, h => nomatch h
  | n + 1, 0, _, hm, _ => by omega
  | n + 1, m + 1, t, hm, h => by
    unfold runFrom at h ⊢
    cases hs : step c jd w t with
    | next t' =>
      rw [hs] at h
      exact runFrom_mono c jd w o n m t' (by omega) h
    | done o' =>
      rw [hs] at h
      exact h

theorem start_rel (w : World) : Rel w [] ⟨0, [], [], 0, 0⟩ start :=
  ⟨rfl, rfl, rfl, rfl, rfl, (fun _ h => nomatch h), (fun _ h => nomatch h)⟩

end Verif.Lemmas.EvmSymbolic
