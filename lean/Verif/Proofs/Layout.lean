import Verif.Spec.Layout
import Verif.Proofs.RoundTrip
/-
Composition of layout tables, and the tables of the primitive fields.
-/
namespace Dis

theorem bigEndian_eq (w : Bytes) : bigEndian w = beVal w := by
  induction w with
  | nil => rfl
  | cons b w ih => rw [beVal_cons, ← ih]; rfl

namespace Slot
variable {B C : Type}
/-- The slot of a part, seen from the whole. -/
def via (π : B → C) (s : Slot C) : Slot B :=
  ⟨s.offset, s.width, fun x => s.value (π x), s.read, s.alwaysZero⟩
/-- The slot `n` octets further. -/
def shift (n : Nat) (s : Slot B) : Slot B := { s with offset := n + s.offset }
/-- A part with table `S` and `n` octets followed by the rest with table `T`. -/
def cons (π : B → C) (S : List (Slot C)) (n : Nat) (T : List (Slot B)) : List (Slot B) :=
  S.map (via π) ++ T.map (shift n)
end Slot

theorem Written.nil {B : Type} (x : B) (w : Bytes) : Written [] x w := fun _ h => nomatch h

theorem Written.cons {B C : Type} {π : B → C} {S : List (Slot C)} {n : Nat} {T : List (Slot B)} {x : B}
    {w v : Bytes} (h1 : Written S (π x) w) (hn : w.length = n) (h2 : Written T x v) :
    Written (Slot.cons π S n T) x (w ++ v) := by
  intro s hs
  rcases List.mem_append.mp hs with h | h
  · obtain ⟨t, ht, rfl⟩ := List.mem_map.mp h
    obtain ⟨a, b⟩ := h1 t ht
    have a' : t.offset + t.width ≤ w.length := a
    refine ⟨?_, ?_⟩
    · show t.offset + t.width ≤ _
      rw [List.length_append]; omega
    · show bigEndian (((w ++ v).drop t.offset).take t.width) = t.transmitted (π x)
      rw [← b, List.drop_append_of_le_length (by omega), List.take_append_of_le_length]
      · rfl
      · rw [List.length_drop]; omega
  · obtain ⟨t, ht, rfl⟩ := List.mem_map.mp h
    obtain ⟨a, b⟩ := h2 t ht
    have a' : t.offset + t.width ≤ v.length := a
    refine ⟨?_, ?_⟩
    · show n + t.offset + t.width ≤ _
      rw [List.length_append]; omega
    · show bigEndian (((w ++ v).drop (n + t.offset)).take t.width) = t.transmitted x
      rw [← b, ← hn, List.drop_append]
      show _ = bigEndian ((v.drop t.offset).take t.width)
      congr 2
      rw [List.drop_eq_nil_of_le (by omega), List.nil_append]
      congr 1; omega

/-- Only a prefix of the octets matters. -/
theorem Written.mono {B : Type} {T : List (Slot B)} {x : B} {w : Bytes} (h : Written T x w) (v : Bytes) :
    Written T x (w ++ v) := by
  intro s hs
  obtain ⟨a, b⟩ := h s hs
  have a' : s.offset + s.width ≤ w.length := a
  refine ⟨?_, ?_⟩
  · rw [List.length_append]; omega
  · rw [← b]
    show bigEndian (((w ++ v).drop s.offset).take s.width) = bigEndian ((w.drop s.offset).take s.width)
    rw [List.drop_append_of_le_length (by omega), List.take_append_of_le_length]
    rw [List.length_drop]; omega

theorem Written.head {B C : Type} {π : B → C} {S : List (Slot C)} {x : B}
    {w v : Bytes} (h1 : Written S (π x) w) :
    Written (Slot.cons π S 0 []) x (w ++ v) := by
  have : Slot.cons π S 0 [] = S.map (Slot.via π) := List.append_nil _
  rw [this]
  intro s hs
  obtain ⟨t, ht, rfl⟩ := List.mem_map.mp hs
  exact (h1.mono v) t ht

/-- Whenever `g` succeeds, its result and its input are related by `P`. -/
def Finds {α : Type} (g : Get α) (P : α → Bytes → Prop) : Prop :=
  ∀ prof b x r, g prof b = .ok (x, r) → P x b

/-- The results of `g` satisfy `C`, and are read from the slots of `T`. -/
abbrev FindsAt {α : Type} (g : Get α) (C : α → Prop) (T : List (Slot α)) : Prop :=
  Finds g (fun x b => C x ∧ ReadFrom T x b)

theorem ReadFrom.nil {B : Type} (x : B) (w : Bytes) : ReadFrom [] x w := fun _ h => nomatch h

theorem ReadFrom.cons {B C : Type} {π : B → C} {S : List (Slot C)} {n : Nat} {T : List (Slot B)} {x : B}
    {b : Bytes} (hn : n ≤ b.length) (h1 : ReadFrom S (π x) b) (h2 : ReadFrom T x (b.drop n)) :
    ReadFrom (Slot.cons π S n T) x b := by
  intro s hs
  rcases List.mem_append.mp hs with h | h
  · obtain ⟨t, ht, rfl⟩ := List.mem_map.mp h
    exact h1 t ht
  · obtain ⟨t, ht, rfl⟩ := List.mem_map.mp h
    obtain ⟨a, e⟩ := h2 t ht
    have a' : t.offset + t.width ≤ (b.drop n).length := a
    rw [List.length_drop] at a'
    refine ⟨?_, ?_⟩
    · show n + t.offset + t.width ≤ _
      omega
    · show t.value x = t.read (bigEndian ((b.drop (n + t.offset)).take t.width))
      rw [e, Slot.found, List.drop_drop]

theorem FindsAt.ret {α : Type} {x : α} {C : α → Prop} (h : C x) : FindsAt (pure x) C [] := by
  intro prof b y r e
  cases e
  exact ⟨h, ReadFrom.nil _ _⟩

theorem FindsAt.cons {α β : Type} {g : Get α} {k : α → Get β} {n : Nat} {π : β → α} {S : List (Slot α)}
    {T : List (Slot β)} {C : β → Prop} (hf : Fixed g n) (hg : Finds g (ReadFrom S))
    (hk : ∀ a, FindsAt (k a) (fun y => C y ∧ π y = a) T) :
    FindsAt (g >>= k) C (Slot.cons π S n T) := by
  intro prof b y r e
  rw [M.bind_run] at e
  by_cases hl : b.length < n
  · rw [hf.run_short prof hl] at e; cases e
  · obtain ⟨a, ha⟩ := hf.run_long prof (Nat.not_lt.mp hl)
    rw [ha] at e
    obtain ⟨⟨c, rfl⟩, h2⟩ := hk a prof _ _ _ e
    exact ⟨c, ReadFrom.cons (Nat.not_lt.mp hl) (hg prof b _ _ ha) h2⟩

/-- A part of variable length: only what it says about its own beginning. -/
theorem FindsAt.head {α β : Type} {g : Get α} {k : α → Get β} {π : β → α} {S : List (Slot α)}
    {C : β → Prop} (hg : Finds g (ReadFrom S))
    (hk : ∀ a, FindsAt (k a) (fun y => C y ∧ π y = a) []) :
    FindsAt (g >>= k) C (Slot.cons π S 0 []) := by
  intro prof b y r e
  rw [M.bind_run] at e
  cases ha : g prof b with
  | error x => rw [ha] at e; cases e
  | ok ar =>
    obtain ⟨a, b'⟩ := ar
    rw [ha] at e
    obtain ⟨⟨c, rfl⟩, _⟩ := hk a prof _ _ _ e
    refine ⟨c, ReadFrom.cons (Nat.zero_le _) (hg prof b _ _ ha) (ReadFrom.nil _ _)⟩

/-- A part nothing is said about. -/
theorem FindsAt.skip {α β : Type} {g : Get α} {k : α → Get β} {C : β → Prop}
    (hk : ∀ a, FindsAt (k a) C []) : FindsAt (g >>= k) C [] := by
  intro prof b y r e
  rw [M.bind_run] at e
  cases ha : g prof b with
  | error x => rw [ha] at e; cases e
  | ok ar =>
    rw [ha] at e
    exact ⟨(hk ar.1 prof _ _ _ e).1, ReadFrom.nil _ _⟩

theorem FindsAt.finds {α : Type} {g : Get α} {T : List (Slot α)} (h : FindsAt g (fun _ => True) T) :
    Finds g (ReadFrom T) := fun prof b x r e => (h prof b x r e).2

/-! ### Leaves -/

theorem found_octets {B : Type} (s : Slot B) (h0 : s.offset = 0) (v : Nat) (hv : v < 256 ^ s.width) :
    s.stop ≤ (octets s.width v).length ∧ s.found (octets s.width v) = v := by
  refine ⟨by rw [octets_length, Slot.stop, h0]; omega, ?_⟩
  rw [Slot.found, h0, List.drop_zero, List.take_of_length_le (by rw [octets_length]; omega), bigEndian_eq,
    octets_eq, beVal_beBytes, Nat.mod_eq_of_lt hv]

theorem written_one {B : Type} {s : Slot B} {x : B} {w : Bytes} (h0 : s.offset = 0)
    (hw : w = octets s.width (s.transmitted x)) (hv : s.transmitted x < 256 ^ s.width) :
    Written [s] x w := by
  intro t ht
  cases List.mem_singleton.mp ht
  subst hw
  exact found_octets s h0 _ hv

theorem written_u8 (x : UInt8) : Written [Slot.u8 0 id] x (wire x) := written_one rfl rfl x.toNat_lt
theorem written_u16 (x : UInt16) : Written [Slot.u16 0 id] x (wire x) := written_one rfl rfl x.toNat_lt
theorem written_u32 (x : UInt32) : Written [Slot.u32 0 id] x (wire x) := written_one rfl rfl x.toNat_lt
theorem written_u64 (x : UInt64) : Written [Slot.u64 0 id] x (wire x) := written_one rfl rfl x.toNat_lt
theorem written_f32 (x : F32) : Written [Slot.f32 0 id] x (wire x) := written_one rfl rfl x.bits.toNat_lt
theorem written_f64 (x : F64) : Written [Slot.f64 0 id] x (wire x) := written_one rfl rfl x.bits.toNat_lt
theorem written_i8 (x : Int8) : Written [Slot.i8 0 id] x (wire x) :=
  written_one rfl rfl (show (x.toInt % 256).toNat < 256 by omega)
theorem written_i16 (x : Int16) : Written [Slot.i16 0 id] x (wire x) :=
  written_one rfl rfl (show (x.toInt % 65536).toNat < 65536 by omega)
theorem written_i32 (x : Int32) : Written [Slot.i32 0 id] x (wire x) :=
  written_one rfl rfl (show (x.toInt % 4294967296).toNat < 4294967296 by omega)
theorem written_i64 (x : Int64) : Written [Slot.i64 0 id] x (wire x) :=
  written_one rfl rfl (show (x.toInt % 18446744073709551616).toNat < 18446744073709551616 by omega)

theorem finds_num {α : Type} {s : Slot α} {n : Nat} {f : Nat → α} (h0 : s.offset = 0) (hn : s.width = n)
    (hr : ∀ v < 256 ^ n, s.value (f v) = s.read v) :
    Finds (do return f (beVal (← getBytes n))) (ReadFrom [s]) := by
  intro prof b x r e t ht
  cases List.mem_singleton.mp ht
  by_cases hl : b.length < n
  · have := (Fixed.map (f := fun w => f (beVal w)) (Fixed.bytes n)).run_short prof hl
    rw [this] at e; cases e
  · have h1 : getBytes n prof b = .ok (b.take n, b.drop n) := by simp [getBytes, hl]
    rw [M.bind_run, h1] at e
    cases e
    subst hn
    have hb := beVal_lt (b.take s.width)
    rw [List.length_take, Nat.min_eq_left (Nat.not_lt.mp hl)] at hb
    refine ⟨by rw [Slot.stop, h0]; omega, ?_⟩
    rw [hr _ hb, Slot.found, h0, List.drop_zero, bigEndian_eq]

theorem Finds.map {α β : Type} {g : Get α} {f : α → β} {P : α → Bytes → Prop} {Q : β → Bytes → Prop}
    (hg : Finds g P) (h : ∀ a b, P a b → Q (f a) b) : Finds (do return f (← g)) Q := by
  intro prof b y r e
  rw [M.bind_run] at e
  cases ha : g prof b with
  | error x => rw [ha] at e; cases e
  | ok ar =>
    rw [ha] at e
    cases e
    exact h _ _ (hg prof b _ _ ha)

/-- Two slots with the same place, the same reading and corresponding values. -/
theorem ReadFrom.same {α β : Type} {s : Slot α} {t : Slot β} {x : α} {y : β} {b : Bytes}
    (h : ReadFrom [s] x b) (h0 : t.offset = s.offset) (hw : t.width = s.width) (hr : t.read = s.read)
    (hv : t.value y = s.value x) : ReadFrom [t] y b := by
  intro u hu
  cases List.mem_singleton.mp hu
  obtain ⟨a, e⟩ := h s (List.mem_singleton.mpr rfl)
  refine ⟨by rw [Slot.stop, h0, hw]; exact a, ?_⟩
  rw [hv, e, hr, Slot.found, Slot.found, h0, hw]

theorem finds_u8 : Finds getU8 (ReadFrom [Slot.u8 0 id]) :=
  finds_num (f := UInt8.ofNat) rfl rfl fun v hv => by simpa [Slot.u8] using Nat.mod_eq_of_lt hv
theorem finds_u16 : Finds getU16 (ReadFrom [Slot.u16 0 id]) :=
  finds_num (f := UInt16.ofNat) rfl rfl fun v hv => by simpa [Slot.u16] using Nat.mod_eq_of_lt hv
theorem finds_u32 : Finds getU32 (ReadFrom [Slot.u32 0 id]) :=
  finds_num (f := UInt32.ofNat) rfl rfl fun v hv => by simpa [Slot.u32] using Nat.mod_eq_of_lt hv
theorem finds_u64 : Finds getU64 (ReadFrom [Slot.u64 0 id]) :=
  finds_num (f := UInt64.ofNat) rfl rfl fun v hv => by simpa [Slot.u64] using Nat.mod_eq_of_lt hv
theorem finds_f32 : Finds getF32 (ReadFrom [Slot.f32 0 id]) :=
  finds_u32.map fun _ _ h => h.same rfl rfl rfl rfl
theorem finds_f64 : Finds getF64 (ReadFrom [Slot.f64 0 id]) :=
  finds_u64.map fun _ _ h => h.same rfl rfl rfl rfl

theorem code_i8 (v : Int8) : (v.toInt % 256).toNat = v.toUInt8.toNat := by
  show (v.toBitVec.toInt % 256).toNat = v.toBitVec.toNat
  rw [BitVec.toInt_eq_toNat_bmod]
  have h := Int.bmod_emod (x := (v.toBitVec.toNat : Int)) (m := 256)
  have h2 := v.toBitVec.isLt
  simp only [Nat.reducePow, Int.cast_ofNat_Int] at h h2 ⊢
  omega
theorem code_i16 (v : Int16) : (v.toInt % 65536).toNat = v.toUInt16.toNat := by
  show (v.toBitVec.toInt % 65536).toNat = v.toBitVec.toNat
  rw [BitVec.toInt_eq_toNat_bmod]
  have h := Int.bmod_emod (x := (v.toBitVec.toNat : Int)) (m := 65536)
  have h2 := v.toBitVec.isLt
  simp only [Nat.reducePow, Int.cast_ofNat_Int] at h h2 ⊢
  omega
theorem code_i32 (v : Int32) : (v.toInt % 4294967296).toNat = v.toUInt32.toNat := by
  show (v.toBitVec.toInt % 4294967296).toNat = v.toBitVec.toNat
  rw [BitVec.toInt_eq_toNat_bmod]
  have h := Int.bmod_emod (x := (v.toBitVec.toNat : Int)) (m := 4294967296)
  have h2 := v.toBitVec.isLt
  simp only [Nat.reducePow, Int.cast_ofNat_Int] at h h2 ⊢
  omega
theorem code_i64 (v : Int64) : (v.toInt % 18446744073709551616).toNat = v.toUInt64.toNat := by
  show (v.toBitVec.toInt % 18446744073709551616).toNat = v.toBitVec.toNat
  rw [BitVec.toInt_eq_toNat_bmod]
  have h := Int.bmod_emod (x := (v.toBitVec.toNat : Int)) (m := 18446744073709551616)
  have h2 := v.toBitVec.isLt
  simp only [Nat.reducePow, Int.cast_ofNat_Int] at h h2 ⊢
  omega
theorem finds_i8 : Finds getI8 (ReadFrom [Slot.i8 0 id]) :=
  finds_u8.map fun a _ h => h.same rfl rfl rfl ((code_i8 a.toInt8).trans (by simp [Slot.u8]))
theorem finds_i16 : Finds getI16 (ReadFrom [Slot.i16 0 id]) :=
  finds_u16.map fun a _ h => h.same rfl rfl rfl ((code_i16 a.toInt16).trans (by simp [Slot.u16]))
theorem finds_i32 : Finds getI32 (ReadFrom [Slot.i32 0 id]) :=
  finds_u32.map fun a _ h => h.same rfl rfl rfl ((code_i32 a.toInt32).trans (by simp [Slot.u32]))
theorem finds_i64 : Finds getI64 (ReadFrom [Slot.i64 0 id]) :=
  finds_u64.map fun a _ h => h.same rfl rfl rfl ((code_i64 a.toInt64).trans (by simp [Slot.u64]))

/-! enumerations -/

theorem written_enum {s : EnumSpec} [EnumFits s] {n : Nat} (hn : s.repr.octets = n) (x : EnumVal s) :
    Written [Slot.enum 0 n id] x (wire x) :=
  written_one rfl (by subst hn; rfl) (by subst hn; exact EnumFits.fits _ x.mem)

theorem EnumSpec.finds (s : EnumSpec) {n : Nat} (hn : s.repr.octets = n) :
    Finds s.deserialize (ReadFrom [Slot.enum 0 n id]) := by
  rw [EnumSpec.deserialize_eq, hn]
  refine finds_num rfl rfl fun v _ => ?_
  show (s.ofCode v).code = if v ∈ s.codes then v else s.default
  by_cases h : v ∈ s.codes
  · rw [EnumSpec.ofCode_of_mem h, if_pos h]
  · rw [EnumSpec.ofCode_of_not_mem h, if_neg h]; rfl

/-! flags -/

theorem flags_read {named : List Nat} {all width : Nat} (h : ∀ i, all.testBit i = true ↔ i ∈ named)
    {v : Nat} (hv : v < 2 ^ (8 * width)) :
    (flagsFromBits all v).getD 0 =
      if ∀ i < 8 * width, v.testBit i = true → i ∈ named then v else 0 := by
  by_cases hc : ∀ i < 8 * width, v.testBit i = true → i ∈ named
  · have ho : OnlyFlags named v := by
      intro i hi
      by_cases hlt : i < 8 * width
      · exact hc i hlt hi
      · have : v < 2 ^ i := Nat.lt_of_lt_of_le hv (Nat.pow_le_pow_right (by omega) (by omega))
        rw [Nat.testBit_lt_two_pow this] at hi; cases hi
    rw [if_pos hc, flagsFromBits_some h ho]; rfl
  · have ho : ¬ OnlyFlags named v := fun ho => hc fun i _ hi => ho i hi
    rw [if_neg hc, flagsFromBits_none h ho]; rfl

/-- the slot of the frozen-behaviour flags -/
abbrev FrozenBehavior.slots : List (Slot FrozenBehavior) := [Slot.flags 0 1 [0, 1, 2] (·.bits.toNat)]
abbrev ObjectStateAppearanceGeneral.slots : List (Slot ObjectStateAppearanceGeneral) :=
  [Slot.flags 0 2 [0, 8, 10, 11, 12, 13, 14] (·.bits.toNat)]

theorem FrozenBehavior.written (x : FrozenBehavior) : Written FrozenBehavior.slots x (wire x) :=
  written_one rfl rfl x.bits.toNat_lt
theorem ObjectStateAppearanceGeneral.written (x : ObjectStateAppearanceGeneral) :
    Written ObjectStateAppearanceGeneral.slots x (wire x) :=
  written_one rfl rfl x.bits.toNat_lt

theorem FrozenBehavior.finds :
    Finds (deserialize_field : Get FrozenBehavior) (ReadFrom FrozenBehavior.slots) := by
  refine Finds.map (f := fun bits => (FrozenBehavior.from_u8 bits).getD dflt) finds_u8 fun v b h t ht => ?_
  cases List.mem_singleton.mp ht
  obtain ⟨a, e⟩ := h _ (List.mem_singleton.mpr rfl)
  refine ⟨a, ?_⟩
  suffices hm : ∀ m, v.toNat = m → (Slot.flags 0 1 [0, 1, 2] (·.bits.toNat) : Slot FrozenBehavior).value
      ((FrozenBehavior.from_u8 v).getD dflt) =
      (Slot.flags 0 1 [0, 1, 2] (·.bits.toNat) : Slot FrozenBehavior).read m from hm _ e
  rintro _ rfl
  refine Eq.trans ?_ (flags_read (width := 1) FrozenBehavior.all_iff v.toNat_lt)
  show ((FrozenBehavior.from_u8 v).getD dflt).bits.toNat = _
  unfold FrozenBehavior.from_u8 flagsFromBits
  split <;> rfl

theorem ObjectStateAppearanceGeneral.finds :
    Finds (deserialize_field : Get ObjectStateAppearanceGeneral) (ReadFrom ObjectStateAppearanceGeneral.slots) := by
  refine Finds.map (f := fun bits => (ObjectStateAppearanceGeneral.from_u16 bits).getD dflt) finds_u16 fun v b h t ht => ?_
  cases List.mem_singleton.mp ht
  obtain ⟨a, e⟩ := h _ (List.mem_singleton.mpr rfl)
  refine ⟨a, ?_⟩
  suffices hm : ∀ m, v.toNat = m → (Slot.flags 0 2 [0, 8, 10, 11, 12, 13, 14] (·.bits.toNat) : Slot ObjectStateAppearanceGeneral).value
      ((ObjectStateAppearanceGeneral.from_u16 v).getD dflt) =
      (Slot.flags 0 2 [0, 8, 10, 11, 12, 13, 14] (·.bits.toNat) : Slot ObjectStateAppearanceGeneral).read m from hm _ e
  rintro _ rfl
  refine Eq.trans ?_ (flags_read (width := 2) ObjectStateAppearanceGeneral.all_iff v.toNat_lt)
  show ((ObjectStateAppearanceGeneral.from_u16 v).getD dflt).bits.toNat = _
  unfold ObjectStateAppearanceGeneral.from_u16 flagsFromBits
  split <;> rfl

/-! arrays of octets -/

theorem written_whole {B : Type} {s : Slot B} {x : B} {w : Bytes} (h0 : s.offset = 0)
    (hw : w.length = s.width) (hv : s.transmitted x = bigEndian w) : Written [s] x w := by
  intro t ht
  cases List.mem_singleton.mp ht
  refine ⟨by rw [Slot.stop, h0]; omega, ?_⟩
  rw [hv, Slot.found, h0, List.drop_zero, List.take_of_length_le (by omega)]

theorem written_octets {n : Nat} (x : Arr UInt8 n) : Written [Slot.octets 0 n id] x (wire x) := by
  have e : wire x = x.toList := flatMap_wire_u8 x.toList
  exact written_whole rfl (by rw [e]; exact x.size_eq) (by rw [e]; rfl)

theorem bigEndian_zeros (n : Nat) : bigEndian (List.replicate n 0) = 0 := by
  induction n with
  | zero => rfl
  | succ n ih =>
    show (0 : UInt8).toNat * _ + bigEndian (List.replicate n 0) = 0
    rw [ih]; simp

theorem wire_i8_list (l : List Int8) :
    l.flatMap wire = l.map (fun c => UInt8.ofNat (c.toInt % 256).toNat) := by
  induction l with
  | nil => rfl
  | cons c l ih =>
    rw [List.flatMap_cons, ih, List.map_cons, wire_i8]
    show octets 1 _ ++ _ = _
    simp [octets, List.range_succ, code_i8]

theorem written_signedOctets {n : Nat} (x : Arr Int8 n) :
    Written [Slot.signedOctets 0 n id] x (wire x) := by
  have e : wire x = x.toList.map (fun c => UInt8.ofNat (c.toInt % 256).toNat) := wire_i8_list x.toList
  exact written_whole rfl (by rw [e, List.length_map]; exact x.size_eq) (by rw [e]; rfl)

/-- Reading an array of single octets: they are the first `n` ones. -/
theorem getArr_octets {α : Type} {g : Get α} {c : α → UInt8}
    (hg : ∀ prof x b, ∃ a, g prof (x :: b) = .ok (a, b) ∧ c a = x) (hg0 : ∀ prof, ∃ e, g prof [] = .error e) :
    ∀ n, Finds (getArr g n) (fun y b => n ≤ b.length ∧ y.toList.map c = b.take n)
  | 0 => by
    intro prof b y r e
    cases e
    exact ⟨Nat.zero_le _, rfl⟩
  | n + 1 => by
    intro prof b y r e
    unfold getArr at e
    rw [M.bind_run] at e
    cases b with
    | nil => obtain ⟨x, h⟩ := hg0 prof; rw [h] at e; cases e
    | cons x b =>
      obtain ⟨a, h, hc⟩ := hg prof x b
      rw [h] at e
      simp only [M.bind_run] at e
      cases h2 : getArr g n prof b with
      | error z => rw [h2] at e; cases e
      | ok zr =>
        rw [h2] at e
        obtain ⟨p, q⟩ := getArr_octets hg hg0 n prof b _ _ h2
        cases e
        refine ⟨by simpa using p, ?_⟩
        show c a :: zr.1.toList.map c = x :: b.take n
        rw [q, hc]

theorem getU8_cons (prof : Profile) (x : UInt8) (b : Bytes) : getU8 prof (x :: b) = .ok (x, b) := by
  have h := reads_u8 x prof b
  rwa [show wire x = [x] by simp [wire, octets, List.range_succ]] at h
theorem getI8_cons (prof : Profile) (x : UInt8) (b : Bytes) : getI8 prof (x :: b) = .ok (x.toInt8, b) := by
  show (getU8 >>= fun v => (pure v.toInt8 : Get Int8)) prof (x :: b) = _
  rw [M.bind_run, getU8_cons]; rfl

theorem finds_octets (n : Nat) : Finds (getArr getU8 n) (ReadFrom [Slot.octets 0 n id]) := by
  intro prof b y r e t ht
  cases List.mem_singleton.mp ht
  obtain ⟨p, q⟩ := getArr_octets (c := id) (fun prof x b => ⟨x, getU8_cons prof x b, rfl⟩)
    (fun prof => ⟨_, fixed_u8.run_short prof (by decide)⟩) n prof b y r e
  rw [List.map_id] at q
  refine ⟨by show 0 + n ≤ _; omega, ?_⟩
  show bigEndian y.toList = bigEndian ((b.drop 0).take n)
  rw [q, List.drop_zero]

theorem finds_signedOctets (n : Nat) : Finds (getArr getI8 n) (ReadFrom [Slot.signedOctets 0 n id]) := by
  intro prof b y r e t ht
  cases List.mem_singleton.mp ht
  obtain ⟨p, q⟩ := getArr_octets (c := fun c : Int8 => UInt8.ofNat (c.toInt % 256).toNat)
    (fun prof x b => ⟨x.toInt8, getI8_cons prof x b, by rw [code_i8]; simp⟩)
    (fun prof => ⟨_, fixed_i8.run_short prof (by decide)⟩) n prof b y r e
  refine ⟨by show 0 + n ≤ _; omega, ?_⟩
  show bigEndian (y.toList.map _) = bigEndian ((b.drop 0).take n)
  rw [q, List.drop_zero]

end Dis
