import Verif.Model.PairingCode
import Verif.Props.Deploy
import Mathlib.Data.List.GetD

/-!
# C153: deploying and calling the library `Pairing`

`DeployPairing`, zkmultiswap/gnark-tests/solidity/solidity_groth16.go:47-61, with the bytecode of line 35.
-/

namespace Verif.Props

open Verif.Go Verif.Model Verif.Model.EvmMachine

/-! ## Specification -/

/-- The 20 bytes of an address. -/
def addressBytes (self : Nat) : List Nat := (List.range 20).map fun i => self / 256 ^ (19 - i) % 256

/-- The code of a library at an address: `PUSH20` with this address, then the last 65 bytes of the bytecode. -/
def libraryBytes (self : Nat) : List Nat := 0x73 :: addressBytes self ++ (codeBytes pairingDeploy).drop 101

/-- **C153.** The deployment succeeds, also with a payment, and leaves a code that holds its own address; a call of that code
is refused whatever its data and its payment are, at its own address and (by `DELEGATECALL`) at any other. -/
def C153_statement : Prop :=
  ∀ self < 2 ^ 160,
    (∀ (w : World), ∀ fuel ≥ 25, runLib pairingDeploy self w fuel = some (.returned (libraryBytes self))) ∧
    ∀ (at' : Nat) (w : World), ∀ fuel ≥ 9, runLib (Code.ofBytes (libraryBytes self)) at' w fuel = some .reverted

/-! ## Runs -/

theorem runLibFrom_next (c : Code) (jd self : Nat) (w : World) (n : Nat) (s t : State) (h : stepLib c jd self w s = .next t) :
    runLibFrom c jd self w (n + 1) s = runLibFrom c jd self w n t := by
  conv_lhs => unfold runLibFrom
  rw [h]

theorem runLibFrom_done (c : Code) (jd self : Nat) (w : World) (n : Nat) (s : State) (o : Outcome)
    (h : stepLib c jd self w s = .done o) : runLibFrom c jd self w (n + 1) s = some o := by
  unfold runLibFrom
  rw [h]

theorem runLibFrom_mono (c : Code) (jd self : Nat) (w : World) (o : Outcome) : ∀ (n m : Nat) (s : State), n ≤ m →
    runLibFrom c jd self w n s = some o → runLibFrom c jd self w m s = some o
  | 0, _, _, _, h => by cases h
  | n + 1, 0, _, hm, _ => by omega
  | n + 1, m + 1, s, hm, h => by
    unfold runLibFrom at h ⊢
    generalize stepLib c jd self w s = r at h ⊢
    cases r with
    | done o' => exact h
    | next s' => exact runLibFrom_mono c jd self w o n m s' (by omega) h

/-- Outside of the three additional instructions the machine is the one of C149. -/
theorem stepLib_old (c : Code) (jd self : Nat) (w : World) (s : State)
    (h : c.byte s.pc ≠ 0x30 ∧ c.byte s.pc ≠ 0x1a ∧ c.byte s.pc ≠ 0x53) : stepLib c jd self w s = step c jd w s := by
  unfold stepLib
  rw [if_neg h.1, if_neg h.2.1, if_neg h.2.2]

theorem pairing_decode : ∀ p ∈ ([(0, .push 0x56 1), (2, .push 0x50 1), (4, .push 0x0b 1), (6, .dup 2), (7, .dup 2), (8, .dup 2),
    (9, .codecopy), (10, .dup 0), (11, .mload), (12, .push 0 1), (15, .push 0x73 1), (17, .bin .eq), (18, .push 0x43 1),
    (20, .jumpi), (0x43, .jumpdest), (0x45, .push 0 1), (0x47, .mstore), (0x48, .push 0x73 1), (0x4a, .dup 1), (0x4c, .dup 2),
    (0x4d, .dup 1), (0x4e, .ret)] : List (Nat × Instr)),
    decode pairingDeploy p.1 = p.2 ∧ pairingDeploy.byte p.1 ≠ 0x30 ∧ pairingDeploy.byte p.1 ≠ 0x1a ∧
      pairingDeploy.byte p.1 ≠ 0x53 := by decide +kernel

theorem pairing_old (jd self : Nat) (w : World) (pc : Nat) (st : List Nat) (mem : Nat → Nat) (i : Instr)
    (h : decode pairingDeploy pc = i ∧ pairingDeploy.byte pc ≠ 0x30 ∧ pairingDeploy.byte pc ≠ 0x1a ∧
      pairingDeploy.byte pc ≠ 0x53) (t : Step)
    (hs : (decode pairingDeploy pc = i → step pairingDeploy jd w ⟨pc, st, mem, 0⟩ = t)) :
    stepLib pairingDeploy jd self w ⟨pc, st, mem, 0⟩ = t := by
  rw [stepLib_old _ _ _ _ _ h.2, hs h.1]

/-- The memory after the copy: the code from position 0x50 on at address 11. -/
def pairingCopy : Nat → Nat := copyTo (fun _ => 0) 11 86 fun i => pairingDeploy.byte (80 + i)

theorem pairing_first : byteOf (wordAt pairingCopy 11) 0 = 0x73 := by decide +kernel

theorem pairing_jump : (jumpdests pairingDeploy).testBit 0x43 = true := by decide +kernel

theorem pairing_bytes : pairingDeploy.byte 14 = 0x1a ∧ pairingDeploy.byte 0x44 = 0x30 ∧ pairingDeploy.byte 0x4b = 0x53 := by
  decide +kernel

/-- The memory at the end. -/
theorem pairing_memory (self : Nat) :
    ((List.range 86).map fun i => writeByte (writeWord pairingCopy 0 self) 11 0x73 (11 + i)) = libraryBytes self := by
  have e : List.range 86 = 0 :: (List.range' 1 20 ++ List.range' 21 65) := by decide
  have htail : ((List.range' 21 65).map fun i => pairingCopy (11 + i)) = (codeBytes pairingDeploy).drop 101 := by
    decide +kernel
  have hmid : List.range' 1 20 = (List.range 20).map (1 + ·) := by decide
  rw [e, List.map_cons, List.map_append]
  show _ = 0x73 :: (addressBytes self ++ (codeBytes pairingDeploy).drop 101)
  refine congrArg₂ List.cons rfl (congrArg₂ (· ++ ·) ?_ ?_)
  · rw [hmid, List.map_map]
    refine List.map_congr_left fun i hi => ?_
    have hi' := List.mem_range.1 hi
    show writeByte (writeWord pairingCopy 0 self) 11 0x73 (11 + (1 + i)) = self / 256 ^ (19 - i) % 256
    unfold writeByte writeWord byteOf
    rw [if_neg (by omega), if_pos (by omega), show 31 - (11 + (1 + i) - 0) = 19 - i by omega]
  · rw [← htail]
    refine List.map_congr_left fun i hi => ?_
    have hi' := List.mem_range'_1.1 hi
    unfold writeByte writeWord
    rw [if_neg (by omega), if_neg (by omega)]

theorem C153_deploy (self : Nat) (w : World) (fuel : Nat) (hf : 25 ≤ fuel) :
    runLib pairingDeploy self w fuel = some (.returned (libraryBytes self)) := by
  have D := pairing_decode
  simp only [List.forall_mem_cons, List.not_mem_nil, false_imp_iff, implies_true, and_true] at D
  obtain ⟨d0, d2, d4, d6, d7, d8, d9, d10, d11, d12, d15, d17, d18, d20, d43, d45, d47, d48, d4a, d4c, d4d, d4e⟩ := D
  obtain ⟨b14, b44, b4b⟩ := pairing_bytes
  unfold runLib
  refine runLibFrom_mono _ _ self w _ 25 fuel start hf ?_
  have hbit := pairing_jump
  generalize jumpdests pairingDeploy = jd at hbit
  have hfirst := pairing_first
  let m0 : Nat → Nat := fun _ => 0
  let m1 := pairingCopy
  let m2 := writeWord m1 0 self
  let m3 := writeByte m2 11 0x73
  have O := fun pc st mem i h t hs => pairing_old jd self w pc st mem i h t hs
  show runLibFrom pairingDeploy jd self w 25 ⟨0, [], m0, 0⟩ = _
  rw [runLibFrom_next _ _ _ w 24 _ ⟨2, [0x56], m0, 0⟩ (O _ _ _ _ d0 _ fun h => by unfold step; rw [h]),
    runLibFrom_next _ _ _ w 23 _ ⟨4, [0x50, 0x56], m0, 0⟩ (O _ _ _ _ d2 _ fun h => by unfold step; rw [h]),
    runLibFrom_next _ _ _ w 22 _ ⟨6, [11, 0x50, 0x56], m0, 0⟩ (O _ _ _ _ d4 _ fun h => by unfold step; rw [h]),
    runLibFrom_next _ _ _ w 21 _ ⟨7, [0x56, 11, 0x50, 0x56], m0, 0⟩ (O _ _ _ _ d6 _ fun h => by unfold step; rw [h]; rfl),
    runLibFrom_next _ _ _ w 20 _ ⟨8, [0x50, 0x56, 11, 0x50, 0x56], m0, 0⟩
      (O _ _ _ _ d7 _ fun h => by unfold step; rw [h]; rfl),
    runLibFrom_next _ _ _ w 19 _ ⟨9, [11, 0x50, 0x56, 11, 0x50, 0x56], m0, 0⟩
      (O _ _ _ _ d8 _ fun h => by unfold step; rw [h]; rfl),
    runLibFrom_next _ _ _ w 18 _ ⟨10, [11, 0x50, 0x56], m1, 0⟩ (O _ _ _ _ d9 _ fun h => by unfold step; rw [h]; rfl),
    runLibFrom_next _ _ _ w 17 _ ⟨11, [11, 11, 0x50, 0x56], m1, 0⟩ (O _ _ _ _ d10 _ fun h => by unfold step; rw [h]; rfl),
    runLibFrom_next _ _ _ w 16 _ ⟨12, [wordAt m1 11, 11, 0x50, 0x56], m1, 0⟩ (O _ _ _ _ d11 _ fun h => by unfold step; rw [h]),
    runLibFrom_next _ _ _ w 15 _ ⟨14, [0, wordAt m1 11, 11, 0x50, 0x56], m1, 0⟩
      (O _ _ _ _ d12 _ fun h => by unfold step; rw [h]),
    runLibFrom_next _ _ _ w 14 _ ⟨15, [0x73, 11, 0x50, 0x56], m1, 0⟩ (by
      unfold stepLib
      dsimp only
      rw [b14, if_neg (by decide), if_pos rfl, if_pos (by decide), hfirst]),
    runLibFrom_next _ _ _ w 13 _ ⟨17, [0x73, 0x73, 11, 0x50, 0x56], m1, 0⟩ (O _ _ _ _ d15 _ fun h => by unfold step; rw [h]),
    runLibFrom_next _ _ _ w 12 _ ⟨18, [1, 11, 0x50, 0x56], m1, 0⟩ (O _ _ _ _ d17 _ fun h => by unfold step; rw [h]; rfl),
    runLibFrom_next _ _ _ w 11 _ ⟨20, [0x43, 1, 11, 0x50, 0x56], m1, 0⟩ (O _ _ _ _ d18 _ fun h => by unfold step; rw [h]),
    runLibFrom_next _ _ _ w 10 _ ⟨0x43, [11, 0x50, 0x56], m1, 0⟩ (O _ _ _ _ d20 _ fun h => by
      unfold step; rw [h]; dsimp only; rw [if_neg (by decide), if_pos hbit]),
    runLibFrom_next _ _ _ w 9 _ ⟨0x44, [11, 0x50, 0x56], m1, 0⟩ (O _ _ _ _ d43 _ fun h => by unfold step; rw [h]),
    runLibFrom_next _ _ _ w 8 _ ⟨0x45, [self, 11, 0x50, 0x56], m1, 0⟩ (by
      unfold stepLib
      dsimp only
      rw [b44, if_pos rfl]),
    runLibFrom_next _ _ _ w 7 _ ⟨0x47, [0, self, 11, 0x50, 0x56], m1, 0⟩ (O _ _ _ _ d45 _ fun h => by unfold step; rw [h]),
    runLibFrom_next _ _ _ w 6 _ ⟨0x48, [11, 0x50, 0x56], m2, 0⟩ (O _ _ _ _ d47 _ fun h => by unfold step; rw [h]),
    runLibFrom_next _ _ _ w 5 _ ⟨0x4a, [0x73, 11, 0x50, 0x56], m2, 0⟩ (O _ _ _ _ d48 _ fun h => by unfold step; rw [h]),
    runLibFrom_next _ _ _ w 4 _ ⟨0x4b, [11, 0x73, 11, 0x50, 0x56], m2, 0⟩
      (O _ _ _ _ d4a _ fun h => by unfold step; rw [h]; rfl),
    runLibFrom_next _ _ _ w 3 _ ⟨0x4c, [11, 0x50, 0x56], m3, 0⟩ (by
      unfold stepLib
      dsimp only
      rw [b4b, if_neg (by decide), if_neg (by decide), if_pos rfl]),
    runLibFrom_next _ _ _ w 2 _ ⟨0x4d, [0x56, 11, 0x50, 0x56], m3, 0⟩ (O _ _ _ _ d4c _ fun h => by unfold step; rw [h]; rfl),
    runLibFrom_next _ _ _ w 1 _ ⟨0x4e, [11, 0x56, 11, 0x50, 0x56], m3, 0⟩
      (O _ _ _ _ d4d _ fun h => by unfold step; rw [h]; rfl),
    runLibFrom_done _ _ _ w 0 _ (.returned ((List.range 86).map fun i => m3 (11 + i)))
      (O _ _ _ _ d4e _ fun h => by unfold step; rw [h])]
  exact congrArg (fun l => some (Outcome.returned l)) (pairing_memory self)

/-! ## Calls -/

theorem ofBytes_foldl (l : List Nat) (a : Nat) :
    l.foldl (fun acc b => acc * 256 + b) a = a * 256 ^ l.length + l.foldl (fun acc b => acc * 256 + b) 0 := by
  induction l generalizing a with
  | nil => simp
  | cons b l ih =>
    rw [List.foldl_cons, List.foldl_cons, ih, ih (0 * 256 + b), List.length_cons, Nat.pow_succ]
    ring

theorem ofBytes_lt (l : List Nat) (h : ∀ b ∈ l, b < 256) : l.foldl (fun acc b => acc * 256 + b) 0 < 256 ^ l.length := by
  induction l with
  | nil => simp
  | cons b l ih =>
    have h1 := ih fun x hx => h x (List.mem_cons_of_mem _ hx)
    have h2 : b + 1 ≤ 256 := h b List.mem_cons_self
    rw [List.foldl_cons, ofBytes_foldl, List.length_cons, Nat.pow_succ, Nat.zero_mul, Nat.zero_add]
    calc _ < b * 256 ^ l.length + 256 ^ l.length := Nat.add_lt_add_left h1 _
      _ = (b + 1) * 256 ^ l.length := by ring
      _ ≤ 256 * 256 ^ l.length := Nat.mul_le_mul_right _ h2
      _ = 256 ^ l.length * 256 := Nat.mul_comm _ _

/-- The bytes of a program that is given by its bytes. -/
theorem ofBytes_byte (l : List Nat) (h : ∀ b ∈ l, b < 256) (i : Nat) : (Code.ofBytes l).byte i = l.getD i 0 := by
  unfold Code.byte Code.ofBytes
  dsimp only
  by_cases hi : i < l.length
  · rw [if_pos hi, List.getD_eq_getElem _ _ hi]
    obtain ⟨l1, l2, hl, h1⟩ : ∃ l1 l2, l = l1 ++ l[i] :: l2 ∧ l1.length = i :=
      ⟨l.take i, l.drop (i + 1), by rw [List.getElem_cons_drop, List.take_append_drop], by
        rw [List.length_take]; omega⟩
    have hb : l[i] < 256 := h _ (List.getElem_mem hi)
    have hlen : l.length - 1 - i = l2.length := by
      have := congrArg List.length hl
      rw [List.length_append, List.length_cons] at this
      omega
    rw [hlen]
    generalize l[i] = b at hl hb
    subst hl
    have ht := ofBytes_lt l2 fun x hx => h x (List.mem_append_right _ (List.mem_cons_of_mem _ hx))
    rw [List.foldl_append, List.foldl_cons, ofBytes_foldl, Nat.shiftRight_eq_div_pow, Nat.pow_mul,
      show (2 : Nat) ^ 8 = 256 from rfl, Nat.add_comm, Nat.add_mul_div_right _ _ (Nat.pow_pos (by decide)),
      Nat.div_eq_of_lt ht, Nat.zero_add, Nat.mul_comm, Nat.mul_add_mod, Nat.mod_eq_of_lt hb]
  · rw [if_neg hi, List.getD_eq_default _ _ (by omega)]

theorem library_small (self : Nat) : ∀ b ∈ libraryBytes self, b < 256 := by
  intro b hb
  have htail : ∀ b ∈ (codeBytes pairingDeploy).drop 101, b < 256 := by decide +kernel
  rcases List.mem_cons.1 hb with rfl | hb
  · decide
  · rcases List.mem_append.1 hb with hb | hb
    · obtain ⟨i, -, rfl⟩ := List.mem_map.1 hb
      exact Nat.mod_lt _ (by decide)
    · exact htail b hb

theorem library_length (self : Nat) : (libraryBytes self).length = 86 := by
  have htail : ((codeBytes pairingDeploy).drop 101).length = 65 := by decide +kernel
  show (addressBytes self ++ _).length + 1 = 86
  rw [List.length_append, htail]
  simp [addressBytes]

/-- The code behind the address. -/
theorem library_tail (self i : Nat) (b : Nat) (h : ((codeBytes pairingDeploy).drop 101).getD i 0 = b) :
    (Code.ofBytes (libraryBytes self)).byte (21 + i) = b := by
  have hl : (0x73 :: addressBytes self).length = 21 := by simp [addressBytes]
  rw [ofBytes_byte _ (library_small self), ← h]
  show ((0x73 :: addressBytes self) ++ (codeBytes pairingDeploy).drop 101).getD (21 + i) 0 = _
  rw [List.getD_append_right _ _ _ _ (by omega), hl, Nat.add_sub_cancel_left]

/-- A program with the bytes of a library refuses every call. -/
theorem library_reverts (c : Code) (jd at' : Nat) (w : World) (hlen : c.len = 86) (t0 : c.byte 0 = 0x73)
    (t21 : c.byte 21 = 0x30) (t22 : c.byte 22 = 0x14) (t23 : c.byte 23 = 0x60) (t25 : c.byte 25 = 0x60)
    (t27 : c.byte 27 = 0x52) (t28 : c.byte 28 = 0x60) (t30 : c.byte 30 = 0x80) (t31 : c.byte 31 = 0xfd) :
    runLibFrom c jd at' w 9 start = some .reverted := by
  have push : ∀ pc k st mem, c.byte pc = 0x5f + k → 1 ≤ k → k ≤ 32 → pc + k < 86 →
      ∃ v, stepLib c jd at' w ⟨pc, st, mem, 0⟩ = .next ⟨pc + 1 + k, v :: st, mem, 0⟩ := by
    intro pc k st mem hb h1 h2 h3
    refine ⟨c.slice (pc + 1) k, ?_⟩
    rw [stepLib_old _ _ _ _ _ (by dsimp only; omega)]
    have hd : decode c pc = .push (c.slice (pc + 1) k) k := by
      unfold decode
      dsimp only
      rw [hb, if_pos (by omega), if_pos (by omega), hlen, Nat.add_sub_cancel_left, if_pos h3]
    unfold step
    rw [hd]
  have old : ∀ pc st mem i, c.byte pc ≠ 0x30 ∧ c.byte pc ≠ 0x1a ∧ c.byte pc ≠ 0x53 → decode c pc = i →
      ∀ t, (decode c pc = i → step c jd w ⟨pc, st, mem, 0⟩ = t) → stepLib c jd at' w ⟨pc, st, mem, 0⟩ = t := by
    intro pc st mem i h hd t hs
    rw [stepLib_old _ _ _ _ _ h, hs hd]
  obtain ⟨v0, s0⟩ := push 0 20 [] (fun _ => 0) t0 (by decide) (by decide) (by decide)
  rw [show start = ⟨0, [], fun _ => 0, 0⟩ from rfl, runLibFrom_next _ _ _ w 8 _ _ s0,
    runLibFrom_next _ _ _ w 7 _ ⟨22, [at', v0], fun _ => 0, 0⟩ (by
      unfold stepLib
      dsimp only
      rw [t21, if_pos rfl]),
    runLibFrom_next _ _ _ w 6 _ ⟨23, [ofBool (decide (at' = v0))], fun _ => 0, 0⟩
      (old _ _ _ (.bin .eq) (by rw [t22]; decide) (by unfold decode; dsimp only; rw [t22]; rfl) _ fun h => by
        unfold step; rw [h]; rfl)]
  obtain ⟨v1, s1⟩ := push 23 1 [ofBool (decide (at' = v0))] (fun _ => 0) t23 (by decide) (by decide) (by decide)
  rw [runLibFrom_next _ _ _ w 5 _ _ s1]
  obtain ⟨v2, s2⟩ := push 25 1 [v1, ofBool (decide (at' = v0))] (fun _ => 0) t25 (by decide) (by decide) (by decide)
  rw [runLibFrom_next _ _ _ w 4 _ _ s2,
    runLibFrom_next _ _ _ w 3 _ ⟨28, [ofBool (decide (at' = v0))], writeWord (fun _ => 0) v2 v1, 0⟩
      (old _ _ _ .mstore (by rw [t27]; decide) (by unfold decode; dsimp only; rw [t27]; rfl) _ fun h => by
        unfold step; rw [h])]
  obtain ⟨v3, s3⟩ := push 28 1 [ofBool (decide (at' = v0))] (writeWord (fun _ => 0) v2 v1) t28 (by decide) (by decide)
    (by decide)
  rw [runLibFrom_next _ _ _ w 2 _ _ s3,
    runLibFrom_next _ _ _ w 1 _ ⟨31, [v3, v3, ofBool (decide (at' = v0))], writeWord (fun _ => 0) v2 v1, 0⟩
      (old _ _ _ (.dup 0) (by rw [t30]; decide) (by unfold decode; dsimp only; rw [t30]; rfl) _ fun h => by
        unfold step; rw [h]; rfl)]
  exact runLibFrom_done _ _ _ w 0 _ .reverted
    (old _ _ _ .revert (by rw [t31]; decide) (by unfold decode; dsimp only; rw [t31]; rfl) _ fun h => by
      unfold step; rw [h])

theorem C153_call (self at' : Nat) (w : World) (fuel : Nat) (hf : 9 ≤ fuel) :
    runLib (Code.ofBytes (libraryBytes self)) at' w fuel = some .reverted := by
  have t0 : (Code.ofBytes (libraryBytes self)).byte 0 = 0x73 := by
    rw [ofBytes_byte _ (library_small self), libraryBytes, List.cons_append, List.getD_cons_zero]
  exact runLibFrom_mono _ _ at' w _ 9 fuel start hf (library_reverts _ _ at' w (library_length self) t0
    (library_tail self 0 0x30 (by decide +kernel)) (library_tail self 1 0x14 (by decide +kernel))
    (library_tail self 2 0x60 (by decide +kernel)) (library_tail self 4 0x60 (by decide +kernel))
    (library_tail self 6 0x52 (by decide +kernel)) (library_tail self 7 0x60 (by decide +kernel))
    (library_tail self 9 0x80 (by decide +kernel)) (library_tail self 10 0xfd (by decide +kernel)))

/-- **C153.** -/
theorem C153_library : C153_statement :=
  fun self _ => ⟨fun w fuel hf => C153_deploy self w fuel hf, fun at' w fuel hf => C153_call self at' w fuel hf⟩

/-- The code holds the whole address: libraries at two addresses have different codes. -/
theorem C153_address (self other : Nat) (h1 : self < 2 ^ 160) (h2 : other < 2 ^ 160)
    (h : libraryBytes self = libraryBytes other) : self = other := by
  have h3 : addressBytes self = addressBytes other := by
    have hl : ∀ x, (addressBytes x).length = 20 := fun x => by simp [addressBytes]
    exact (List.append_inj (List.cons.inj h).2 (by rw [hl, hl])).1
  have key : ∀ n x : Nat, ((List.range n).map fun i => x / 256 ^ (n - 1 - i) % 256).foldl (fun acc b => acc * 256 + b) 0 =
      x % 256 ^ n := by
    intro n
    induction n with
    | zero => intro x; simp [Nat.mod_one]
    | succ n ih =>
      intro x
      have e : ((List.range n).map fun i => x / 256 ^ (n + 1 - 1 - i) % 256) =
          (List.range n).map fun i => x / 256 / 256 ^ (n - 1 - i) % 256 := by
        refine List.map_congr_left fun i hi => ?_
        have hi' := List.mem_range.1 hi
        rw [Nat.div_div_eq_div_mul, ← Nat.pow_succ', show n + 1 - 1 - i = n - 1 - i + 1 by omega]
      rw [List.range_succ, List.map_append, List.foldl_append, e, ih, List.map_singleton, List.foldl_cons, List.foldl_nil,
        show n + 1 - 1 - n = 0 by omega, Nat.pow_zero, Nat.div_one, Nat.pow_succ', Nat.mod_mul]
      omega
  have h4 := congrArg (List.foldl (fun acc b => acc * 256 + b) 0) h3
  have e1 := key 20 self
  have e2 := key 20 other
  rw [Nat.mod_eq_of_lt (Nat.lt_of_lt_of_le h1 (by decide +kernel))] at e1
  rw [Nat.mod_eq_of_lt (Nat.lt_of_lt_of_le h2 (by decide +kernel))] at e2
  exact e1.symm.trans (h4.trans e2)

/-! ## Examples -/

/-- A deployment with a payment at an address, and the first bytes of its code. -/
example : runLib pairingDeploy 0xdead ⟨7, [], fun _ => 0, pickyEvm 0⟩ 25 = some (.returned (libraryBytes 0xdead)) ∧
    (libraryBytes 0xdead).take 23 = [0x73, 0, 0, 0, 0, 0, 0, 0, 0, 0, 0, 0, 0, 0, 0, 0, 0, 0, 0, 0xde, 0xad, 0x30, 0x14] :=
  ⟨C153_deploy 0xdead _ 25 (Nat.le_refl _), by decide +kernel⟩

/-- A call that pays nothing and has no data. -/
example : runLib (Code.ofBytes (libraryBytes 0xdead)) 0xdead ⟨0, [], fun _ => 0, pickyEvm 0⟩ 9 = some .reverted :=
  C153_call 0xdead 0xdead _ 9 (Nat.le_refl _)

end Verif.Props
