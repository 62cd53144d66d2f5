import Verif.Properties.Status
import Verif.Spec.FlagNames
/-
C34, by name: the flags of the three flag sets, and every history of calls on them.
-/
namespace Dis

/-! ### Bits -/

/-- What a call does to the bits, if the flag it names has bit `k`. -/
def bitsAfter {w : Nat} {α : Type} (x : BitVec w) (k : Nat) : FlagCall α → BitVec w
  | .insert _ => x ||| BitVec.twoPow w k
  | .remove _ => x &&& ~~~BitVec.twoPow w k
  | .toggle _ => x ^^^ BitVec.twoPow w k

/-- What a call does to whether its flag is present. -/
def FlagCall.now {α : Type} (was : Bool) : FlagCall α → Bool
  | .insert _ => true
  | .remove _ => false
  | .toggle _ => !was

theorem getLsbD_bitsAfter {w : Nat} {α : Type} (x : BitVec w) {k j : Nat} (hj : j < w)
    (c : FlagCall α) :
    (bitsAfter x k c).getLsbD j = if k = j then c.now (x.getLsbD j) else x.getLsbD j := by
  by_cases h : k = j
  · cases c <;> simp [bitsAfter, FlagCall.now, hj, h]
  · have h' : ¬ j = k := fun e => h e.symm
    cases c <;> simp [bitsAfter, hj, h, h']

theorem held_cons {α : Type} (name : String) (c : FlagCall (String × α)) (rest) (was : Bool) :
    held name (c :: rest) was = held name rest (if c.flag.1 = name then c.now was else was) := by
  cases c <;> rfl

/-- One bit through a history. -/
theorem history_bit {w : Nat} {F : Type} (bits : F → BitVec w) (call : F → FlagCall (String × F) → F)
    (flags : List (String × F)) (spec : List (String × Nat))
    (hcall : ∀ s c k, bits c.flag.2 = BitVec.twoPow w k → bits (call s c) = bitsAfter (bits s) k c)
    (hspec : ∀ f ∈ flags, ∃ k, (f.1, k) ∈ spec ∧ bits f.2 = BitVec.twoPow w k)
    (hinj : ∀ a ∈ spec, ∀ b ∈ spec, a.1 = b.1 ↔ a.2 = b.2) (hw : ∀ a ∈ spec, a.2 < w) :
    ∀ (calls : List (FlagCall (String × F))) (s : F), (∀ c ∈ calls, c.flag ∈ flags) →
      ∀ a ∈ spec, (bits (calls.foldl call s)).getLsbD a.2 = held a.1 calls ((bits s).getLsbD a.2) := by
  intro calls
  induction calls with
  | nil => exact fun _ _ _ _ => rfl
  | cons c calls ih =>
    intro s hc a ha
    obtain ⟨k, hk, hb⟩ := hspec c.flag (hc c (List.mem_cons_self ..))
    have := hinj _ hk a ha
    rw [List.foldl_cons, ih _ (fun c' h => hc c' (List.mem_cons_of_mem _ h)) a ha, hcall s c k hb,
      getLsbD_bitsAfter _ (hw a ha), held_cons]
    simp only [this]

/-- A bit no flag has, through a history. -/
theorem history_other {w : Nat} {F : Type} (bits : F → BitVec w) (call : F → FlagCall (String × F) → F)
    (flags : List (String × F)) (spec : List (String × Nat))
    (hcall : ∀ s c k, bits c.flag.2 = BitVec.twoPow w k → bits (call s c) = bitsAfter (bits s) k c)
    (hspec : ∀ f ∈ flags, ∃ k, (f.1, k) ∈ spec ∧ bits f.2 = BitVec.twoPow w k)
    {i : Nat} (hi : ∀ a ∈ spec, a.2 ≠ i) :
    ∀ (calls : List (FlagCall (String × F))) (s : F), (∀ c ∈ calls, c.flag ∈ flags) →
      (bits (calls.foldl call s)).getLsbD i = (bits s).getLsbD i := by
  intro calls
  induction calls with
  | nil => exact fun _ _ => rfl
  | cons c calls ih =>
    intro s hc
    obtain ⟨k, hk, hb⟩ := hspec c.flag (hc c (List.mem_cons_self ..))
    rw [List.foldl_cons, ih _ (fun c' h => hc c' (List.mem_cons_of_mem _ h)), hcall s c k hb]
    by_cases hw : i < w
    · rw [getLsbD_bitsAfter _ hw, if_neg (hi _ hk)]
    · rw [BitVec.getLsbD_of_ge _ _ (by omega), BitVec.getLsbD_of_ge _ _ (by omega)]

theorem history_bits {w : Nat} {F : Type} (bits : F → BitVec w) (call : F → FlagCall (String × F) → F)
    (flags : List (String × F)) (spec : List (String × Nat))
    (hcall : ∀ s c k, bits c.flag.2 = BitVec.twoPow w k → bits (call s c) = bitsAfter (bits s) k c)
    (hspec : ∀ f ∈ flags, ∃ k, (f.1, k) ∈ spec ∧ bits f.2 = BitVec.twoPow w k)
    (hinj : ∀ a ∈ spec, ∀ b ∈ spec, a.1 = b.1 ↔ a.2 = b.2) (hw : ∀ a ∈ spec, a.2 < w)
    (calls : List (FlagCall (String × F))) (s : F) (hc : ∀ c ∈ calls, c.flag ∈ flags)
    (h0 : bits s = 0#w) (i : Nat) :
    (bits (calls.foldl call s)).getLsbD i = spec.any fun a => a.2 == i && held a.1 calls false := by
  by_cases h : ∃ a ∈ spec, a.2 = i
  · obtain ⟨a, ha, rfl⟩ := h
    rw [history_bit bits call flags spec hcall hspec hinj hw calls s hc a ha, h0, BitVec.getLsbD_zero]
    apply Bool.eq_iff_iff.mpr
    rw [List.any_eq_true]
    constructor
    · exact fun h => ⟨a, ha, by simp [h]⟩
    · rintro ⟨b, hb, h⟩
      simp only [Bool.and_eq_true, beq_iff_eq] at h
      rw [← (hinj b hb a ha).mpr h.1]
      exact h.2
  · rw [history_other bits call flags spec hcall hspec (fun a ha e => h ⟨a, ha, e⟩) calls s hc, h0,
      BitVec.getLsbD_zero]
    symm
    apply Bool.eq_false_iff.mpr
    rw [ne_eq, List.any_eq_true]
    rintro ⟨b, hb, hc⟩
    simp only [Bool.and_eq_true, beq_iff_eq] at hc
    exact h ⟨b, hb, hc.1⟩

theorem contains_twoPow {w : Nat} (x : BitVec w) {k : Nat} (hk : k < w) :
    (x &&& BitVec.twoPow w k = BitVec.twoPow w k) ↔ x.getLsbD k = true := by
  rw [BitVec.and_twoPow]
  cases x.getLsbD k with
  | true => simp
  | false =>
    simp only [Bool.false_eq_true, if_false, iff_false]
    intro h
    have := congrArg (fun y => y.getLsbD k) h
    simp [hk] at this

/-! ### The calls -/

/-- A call on the set. -/
def FrozenBehavior.call (s : FrozenBehavior) : FlagCall (String × FrozenBehavior) → FrozenBehavior
  | .insert f => s.insert f.2
  | .remove f => s.remove f.2
  | .toggle f => s.toggle f.2

/-- A call on the set. -/
def ObjectStateAppearanceGeneral.call (s : ObjectStateAppearanceGeneral) : FlagCall (String × ObjectStateAppearanceGeneral) → ObjectStateAppearanceGeneral
  | .insert f => s.insert f.2
  | .remove f => s.remove f.2
  | .toggle f => s.toggle f.2

/-- A call on the set. -/
def LandPlatformAppearance.call (s : LandPlatformAppearance) : FlagCall (String × LandPlatformAppearance) → LandPlatformAppearance
  | .insert f => s.insert f.2
  | .remove f => s.remove f.2
  | .toggle f => s.toggle f.2

/-- Every flag has the name and the bit of the specification's table, and there are no others. -/
theorem C34_positions :
    FrozenBehavior.flags.map (fun f => (f.1, f.2.as_u8.toNat)) =
      frozenBehaviorFlags.map (fun s => (s.1, 2 ^ s.2)) ∧
    ObjectStateAppearanceGeneral.flags.map (fun f => (f.1, f.2.as_u16.toNat)) =
      objectAppearanceFlags.map (fun s => (s.1, 2 ^ s.2)) ∧
    LandPlatformAppearance.flags.map (fun f => (f.1, f.2.as_u32.toNat)) =
      landAppearanceFlags.map (fun s => (s.1, 2 ^ s.2)) := by
  refine ⟨?_, ?_, ?_⟩ <;> decide +kernel

theorem FrozenBehavior.flags_spec : ∀ f ∈ FrozenBehavior.flags, ∃ k, (f.1, k) ∈ frozenBehaviorFlags ∧
    f.2.bits.toBitVec = BitVec.twoPow 8 k := by
  intro f hf
  have h : ∀ f ∈ FrozenBehavior.flags, (frozenBehaviorFlags.any fun a =>
      decide (a.1 = f.1) && decide (f.2.bits.toBitVec = BitVec.twoPow 8 a.2)) = true := by decide +kernel
  obtain ⟨a, ha, hb⟩ := List.any_eq_true.mp (h f hf)
  simp only [Bool.and_eq_true, decide_eq_true_eq] at hb
  exact ⟨a.2, by rw [← hb.1]; exact ha, hb.2⟩

theorem FrozenBehavior.history_bits (calls : List (FlagCall (String × FrozenBehavior)))
    (h : ∀ c ∈ calls, c.flag ∈ FrozenBehavior.flags) (i : Nat) :
    (calls.foldl FrozenBehavior.call FrozenBehavior.empty).as_u8.toNat.testBit i =
      frozenBehaviorFlags.any fun a => a.2 == i && held a.1 calls false := by
  have := Dis.history_bits (w := 8) (fun s : FrozenBehavior => s.bits.toBitVec) FrozenBehavior.call FrozenBehavior.flags
    frozenBehaviorFlags
    (fun s c k hk => by
      cases c <;> simp only [FlagCall.flag] at hk <;>
        simp [FrozenBehavior.call, FrozenBehavior.insert, FrozenBehavior.remove, FrozenBehavior.toggle, bitsAfter, hk])
    FrozenBehavior.flags_spec (by decide +kernel) (by decide +kernel) calls FrozenBehavior.empty h rfl i
  rw [← this]
  rfl

/-- Freeze behaviour, any sequence of `insert`, `remove` and `toggle` calls on the empty set: afterwards the set
`contains` exactly the flags whose last `insert` or `remove`, followed by their `toggle`s, leaves them
present; its raw value has exactly the bits of those flags, `from_u8` gives the set back, and so does
sending and receiving it. -/
theorem C34_history_freeze (calls : List (FlagCall (String × FrozenBehavior)))
    (h : ∀ c ∈ calls, c.flag ∈ FrozenBehavior.flags) :
    let s := calls.foldl FrozenBehavior.call FrozenBehavior.empty
    (∀ f ∈ FrozenBehavior.flags, s.contains f.2 = held f.1 calls false) ∧
    (∀ i, s.as_u8.toNat.testBit i = frozenBehaviorFlags.any fun a => a.2 == i && held a.1 calls false) ∧
    FrozenBehavior.from_u8 s.as_u8 = some s ∧
    (∀ prof buf, serialize_field s prof buf = .ok ((), buf ++ [s.as_u8])) ∧
    (∀ prof rest, (deserialize_field : Get FrozenBehavior) prof (s.as_u8 :: rest) = .ok (s, rest)) := by
  intro s
  have hb := FrozenBehavior.history_bits calls h
  have only : ∀ i, s.as_u8.toNat.testBit i = true → i ∈ [0, 1, 2] := by
    intro i hi
    rw [hb i, List.any_eq_true] at hi
    obtain ⟨a, ha, hc⟩ := hi
    simp only [Bool.and_eq_true, beq_iff_eq] at hc
    rw [← hc.1]
    exact (by decide +kernel : ∀ a ∈ frozenBehaviorFlags, a.2 ∈ [0, 1, 2]) a ha
  have key := C34_from_bits s.as_u8 0 0
  refine ⟨fun f hf => ?_, hb, ?_, ?_, ?_⟩
  · obtain ⟨k, hk, he⟩ := FrozenBehavior.flags_spec f hf
    have hbit : s.bits.toBitVec.getLsbD k = held f.1 calls false := by
      refine (hb k).trans (Bool.eq_iff_iff.mpr ?_)
      rw [List.any_eq_true]
      constructor
      · rintro ⟨a, ha, hc⟩
        simp only [Bool.and_eq_true, beq_iff_eq] at hc
        have hinj : ∀ a ∈ frozenBehaviorFlags, ∀ b ∈ frozenBehaviorFlags, a.2 = b.2 → a.1 = b.1 := by decide +kernel
        rw [← hinj a ha _ hk hc.1]
        exact hc.2
      · exact fun h => ⟨(f.1, k), hk, by simp [h]⟩
    have hlt : ∀ a ∈ frozenBehaviorFlags, a.2 < 8 := by decide +kernel
    rw [← hbit]
    refine Bool.eq_iff_iff.mpr (Iff.trans ?_ (contains_twoPow s.bits.toBitVec (hlt _ hk)))
    rw [← he, FrozenBehavior.contains, beq_iff_eq, ← UInt8.toBitVec_inj]
    rfl
  · exact (key.1.resolve_right fun hn => by
      have := key.2.1.mpr only
      rw [hn] at this
      cases this).1
  · exact fun prof buf => (C34_freeze s prof buf []).1
  · exact fun prof rest => (C34_freeze s prof [] rest).2.2.1 only

theorem ObjectStateAppearanceGeneral.flags_spec : ∀ f ∈ ObjectStateAppearanceGeneral.flags, ∃ k, (f.1, k) ∈ objectAppearanceFlags ∧
    f.2.bits.toBitVec = BitVec.twoPow 16 k := by
  intro f hf
  have h : ∀ f ∈ ObjectStateAppearanceGeneral.flags, (objectAppearanceFlags.any fun a =>
      decide (a.1 = f.1) && decide (f.2.bits.toBitVec = BitVec.twoPow 16 a.2)) = true := by decide +kernel
  obtain ⟨a, ha, hb⟩ := List.any_eq_true.mp (h f hf)
  simp only [Bool.and_eq_true, decide_eq_true_eq] at hb
  exact ⟨a.2, by rw [← hb.1]; exact ha, hb.2⟩

theorem ObjectStateAppearanceGeneral.history_bits (calls : List (FlagCall (String × ObjectStateAppearanceGeneral)))
    (h : ∀ c ∈ calls, c.flag ∈ ObjectStateAppearanceGeneral.flags) (i : Nat) :
    (calls.foldl ObjectStateAppearanceGeneral.call ObjectStateAppearanceGeneral.empty).as_u16.toNat.testBit i =
      objectAppearanceFlags.any fun a => a.2 == i && held a.1 calls false := by
  have := Dis.history_bits (w := 16) (fun s : ObjectStateAppearanceGeneral => s.bits.toBitVec) ObjectStateAppearanceGeneral.call ObjectStateAppearanceGeneral.flags
    objectAppearanceFlags
    (fun s c k hk => by
      cases c <;> simp only [FlagCall.flag] at hk <;>
        simp [ObjectStateAppearanceGeneral.call, ObjectStateAppearanceGeneral.insert, ObjectStateAppearanceGeneral.remove, ObjectStateAppearanceGeneral.toggle, bitsAfter, hk])
    ObjectStateAppearanceGeneral.flags_spec (by decide +kernel) (by decide +kernel) calls ObjectStateAppearanceGeneral.empty h rfl i
  rw [← this]
  rfl

/-- Object appearance, any sequence of `insert`, `remove` and `toggle` calls on the empty set: afterwards the set
`contains` exactly the flags whose last `insert` or `remove`, followed by their `toggle`s, leaves them
present; its raw value has exactly the bits of those flags, `from_u16` gives the set back, and so does
sending and receiving it. -/
theorem C34_history_appearance (calls : List (FlagCall (String × ObjectStateAppearanceGeneral)))
    (h : ∀ c ∈ calls, c.flag ∈ ObjectStateAppearanceGeneral.flags) :
    let s := calls.foldl ObjectStateAppearanceGeneral.call ObjectStateAppearanceGeneral.empty
    (∀ f ∈ ObjectStateAppearanceGeneral.flags, s.contains f.2 = held f.1 calls false) ∧
    (∀ i, s.as_u16.toNat.testBit i = objectAppearanceFlags.any fun a => a.2 == i && held a.1 calls false) ∧
    ObjectStateAppearanceGeneral.from_u16 s.as_u16 = some s ∧
    (∀ prof buf, serialize_field s prof buf = .ok ((), buf ++ octets 2 s.as_u16.toNat)) ∧
    (∀ prof rest, (deserialize_field : Get ObjectStateAppearanceGeneral) prof
      (octets 2 s.as_u16.toNat ++ rest) = .ok (s, rest)) := by
  intro s
  have hb := ObjectStateAppearanceGeneral.history_bits calls h
  have only : ∀ i, s.as_u16.toNat.testBit i = true → i ∈ [0, 8, 10, 11, 12, 13, 14] := by
    intro i hi
    rw [hb i, List.any_eq_true] at hi
    obtain ⟨a, ha, hc⟩ := hi
    simp only [Bool.and_eq_true, beq_iff_eq] at hc
    rw [← hc.1]
    exact (by decide +kernel : ∀ a ∈ objectAppearanceFlags, a.2 ∈ [0, 8, 10, 11, 12, 13, 14]) a ha
  have key := C34_from_bits 0 s.as_u16 0
  refine ⟨fun f hf => ?_, hb, ?_, ?_, ?_⟩
  · obtain ⟨k, hk, he⟩ := ObjectStateAppearanceGeneral.flags_spec f hf
    have hbit : s.bits.toBitVec.getLsbD k = held f.1 calls false := by
      refine (hb k).trans (Bool.eq_iff_iff.mpr ?_)
      rw [List.any_eq_true]
      constructor
      · rintro ⟨a, ha, hc⟩
        simp only [Bool.and_eq_true, beq_iff_eq] at hc
        have hinj : ∀ a ∈ objectAppearanceFlags, ∀ b ∈ objectAppearanceFlags, a.2 = b.2 → a.1 = b.1 := by decide +kernel
        rw [← hinj a ha _ hk hc.1]
        exact hc.2
      · exact fun h => ⟨(f.1, k), hk, by simp [h]⟩
    have hlt : ∀ a ∈ objectAppearanceFlags, a.2 < 16 := by decide +kernel
    rw [← hbit]
    refine Bool.eq_iff_iff.mpr (Iff.trans ?_ (contains_twoPow s.bits.toBitVec (hlt _ hk)))
    rw [← he, ObjectStateAppearanceGeneral.contains, beq_iff_eq, ← UInt16.toBitVec_inj]
    rfl
  · exact (key.2.2.1.resolve_right fun hn => by
      have := key.2.2.2.1.mpr only
      rw [hn] at this
      cases this).1
  · exact fun prof buf => (C34_appearance s prof buf []).1
  · exact fun prof rest => (C34_appearance s prof [] rest).2.2.1 only

theorem LandPlatformAppearance.flags_spec : ∀ f ∈ LandPlatformAppearance.flags, ∃ k, (f.1, k) ∈ landAppearanceFlags ∧
    f.2.bits.toBitVec = BitVec.twoPow 32 k := by
  intro f hf
  have h : ∀ f ∈ LandPlatformAppearance.flags, (landAppearanceFlags.any fun a =>
      decide (a.1 = f.1) && decide (f.2.bits.toBitVec = BitVec.twoPow 32 a.2)) = true := by decide +kernel
  obtain ⟨a, ha, hb⟩ := List.any_eq_true.mp (h f hf)
  simp only [Bool.and_eq_true, decide_eq_true_eq] at hb
  exact ⟨a.2, by rw [← hb.1]; exact ha, hb.2⟩

theorem LandPlatformAppearance.history_bits (calls : List (FlagCall (String × LandPlatformAppearance)))
    (h : ∀ c ∈ calls, c.flag ∈ LandPlatformAppearance.flags) (i : Nat) :
    (calls.foldl LandPlatformAppearance.call LandPlatformAppearance.empty).as_u32.toNat.testBit i =
      landAppearanceFlags.any fun a => a.2 == i && held a.1 calls false := by
  have := Dis.history_bits (w := 32) (fun s : LandPlatformAppearance => s.bits.toBitVec) LandPlatformAppearance.call LandPlatformAppearance.flags
    landAppearanceFlags
    (fun s c k hk => by
      cases c <;> simp only [FlagCall.flag] at hk <;>
        simp [LandPlatformAppearance.call, LandPlatformAppearance.insert, LandPlatformAppearance.remove, LandPlatformAppearance.toggle, bitsAfter, hk])
    LandPlatformAppearance.flags_spec (by decide +kernel) (by decide +kernel) calls LandPlatformAppearance.empty h rfl i
  rw [← this]
  rfl

/-- Land platform appearance, any sequence of `insert`, `remove` and `toggle` calls on the empty set: afterwards the set
`contains` exactly the flags whose last `insert` or `remove`, followed by their `toggle`s, leaves them
present; its raw value has exactly the bits of those flags, `from_u32` gives the set back. -/
theorem C34_history_land_appearance (calls : List (FlagCall (String × LandPlatformAppearance)))
    (h : ∀ c ∈ calls, c.flag ∈ LandPlatformAppearance.flags) :
    let s := calls.foldl LandPlatformAppearance.call LandPlatformAppearance.empty
    (∀ f ∈ LandPlatformAppearance.flags, s.contains f.2 = held f.1 calls false) ∧
    (∀ i, s.as_u32.toNat.testBit i = landAppearanceFlags.any fun a => a.2 == i && held a.1 calls false) ∧
    LandPlatformAppearance.from_u32 s.as_u32 = some s := by
  intro s
  have hb := LandPlatformAppearance.history_bits calls h
  have only : ∀ i, s.as_u32.toNat.testBit i = true → i ∉ [4, 8, 10, 11, 18, 20] := by
    intro i hi
    rw [hb i, List.any_eq_true] at hi
    obtain ⟨a, ha, hc⟩ := hi
    simp only [Bool.and_eq_true, beq_iff_eq] at hc
    rw [← hc.1]
    exact (by decide +kernel : ∀ a ∈ landAppearanceFlags, a.2 ∉ [4, 8, 10, 11, 18, 20]) a ha
  have key := C34_from_bits 0 0 s.as_u32
  refine ⟨fun f hf => ?_, hb, ?_⟩
  · obtain ⟨k, hk, he⟩ := LandPlatformAppearance.flags_spec f hf
    have hbit : s.bits.toBitVec.getLsbD k = held f.1 calls false := by
      refine (hb k).trans (Bool.eq_iff_iff.mpr ?_)
      rw [List.any_eq_true]
      constructor
      · rintro ⟨a, ha, hc⟩
        simp only [Bool.and_eq_true, beq_iff_eq] at hc
        have hinj : ∀ a ∈ landAppearanceFlags, ∀ b ∈ landAppearanceFlags, a.2 = b.2 → a.1 = b.1 := by decide +kernel
        rw [← hinj a ha _ hk hc.1]
        exact hc.2
      · exact fun h => ⟨(f.1, k), hk, by simp [h]⟩
    have hlt : ∀ a ∈ landAppearanceFlags, a.2 < 32 := by decide +kernel
    rw [← hbit]
    refine Bool.eq_iff_iff.mpr (Iff.trans ?_ (contains_twoPow s.bits.toBitVec (hlt _ hk)))
    rw [← he, LandPlatformAppearance.contains, beq_iff_eq, ← UInt32.toBitVec_inj]
    rfl
  · exact (key.2.2.2.2.1.resolve_right fun hn => by
      have := key.2.2.2.2.2.mpr only
      rw [hn] at this
      cases this).1

/-- A history: the clock flag is toggled away and comes back, the updates flag is removed. -/
example : ([.insert ("TransmitUpdates", .TransmitUpdates), .toggle ("RunSimulationClock", .RunSimulationClock),
      .remove ("TransmitUpdates", .TransmitUpdates), .insert ("ProcessUpdates", .ProcessUpdates)] :
      List (FlagCall (String × FrozenBehavior))).foldl FrozenBehavior.call FrozenBehavior.empty = ⟨5⟩ := by
  decide +kernel

example := C34_history_appearance [.insert ("Damage", .Damage), .toggle ("IsFlaming", .IsFlaming)] (by decide +kernel)

end Dis
