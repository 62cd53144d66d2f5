import Verif.Spec.RecordLayout
import Verif.Proofs.Layout
/-
Layout of the fixed part of the irregular records, and what the theorems need of a record's table.
-/
namespace Dis

theorem Written.only {B C : Type} {π : B → C} {S : List (Slot C)} {n : Nat} {x : B} {w : Bytes}
    (h1 : Written S (π x) w) : Written (Slot.cons π S n []) x w := by
  have : Slot.cons π S n [] = S.map (Slot.via π) := List.append_nil _
  rw [this]
  intro s hs
  obtain ⟨t, ht, rfl⟩ := List.mem_map.mp hs
  exact h1 t ht
theorem Written.last {B C : Type} {π : B → C} {S : List (Slot C)} {n : Nat} {x : B} {w : Bytes}
    (h1 : Written S (π x) w) : Written (Slot.cons π S n []) x w := Written.only h1

theorem arr_wire_length {n : Nat} (x : Arr UInt8 n) : (wire x).length = n := by
  have e : wire x = x.toList := flatMap_wire_u8 x.toList
  rw [e]; exact x.size_eq
theorem arr_wire_length_i8 {n : Nat} (x : Arr Int8 n) : (wire x).length = n := by
  have e : wire x = x.toList.map (fun c => UInt8.ofNat (c.toInt % 256).toNat) := wire_i8_list x.toList
  rw [e, List.length_map]; exact x.size_eq

theorem written_zeroed_octets {n : Nat} (x : Arr UInt8 n) :
    Written [(Slot.octets 0 n id).zeroed] x (wire (Arr.replicate n (0 : UInt8))) := by
  have e : wire (Arr.replicate n (0 : UInt8)) = List.replicate n 0 := flatMap_wire_u8 _
  exact written_whole rfl (by rw [e, List.length_replicate]; rfl) (by rw [e, bigEndian_zeros]; rfl)
theorem written_zeroed_u16 (x : UInt16) : Written [(Slot.u16 0 id).zeroed] x (wire (0 : UInt16)) :=
  written_one rfl rfl (by show 0 < _; decide)

theorem Finds.zeroed {α : Type} {g : Get α} {s : Slot α} (h : Finds g (ReadFrom [s])) :
    Finds g (ReadFrom [s.zeroed]) := fun prof b x r e => (h prof b x r e).same rfl rfl rfl rfl

/-! ### Tables determine values -/

/-- The two values hold the same in every slot. -/
def Agree {B : Type} (table : List (Slot B)) (x y : B) : Prop := ∀ s ∈ table, s.value x = s.value y

theorem Agree.left {B C : Type} {π : B → C} {S : List (Slot C)} {n : Nat} {T : List (Slot B)} {x y : B}
    (h : Agree (Slot.cons π S n T) x y) : Agree S (π x) (π y) := fun s hs =>
  h _ (List.mem_append_left _ (List.mem_map.mpr ⟨s, hs, rfl⟩))
theorem Agree.right {B C : Type} {π : B → C} {S : List (Slot C)} {n : Nat} {T : List (Slot B)} {x y : B}
    (h : Agree (Slot.cons π S n T) x y) : Agree T x y := fun s hs =>
  h (Slot.shift n s) (List.mem_append_right _ (List.mem_map.mpr ⟨s, hs, rfl⟩))

theorem Agree.one {B : Type} {s : Slot B} {x y : B} (h : Agree [s] x y) : s.value x = s.value y :=
  h s (List.mem_singleton.mpr rfl)

theorem int8_inj {x y : Int8} (h : x.toUInt8 = y.toUInt8) : x = y := by
  cases x; cases y; exact congrArg _ h
theorem int16_inj {x y : Int16} (h : x.toUInt16 = y.toUInt16) : x = y := by
  cases x; cases y; exact congrArg _ h
theorem int32_inj {x y : Int32} (h : x.toUInt32 = y.toUInt32) : x = y := by
  cases x; cases y; exact congrArg _ h
theorem int64_inj {x y : Int64} (h : x.toUInt64 = y.toUInt64) : x = y := by
  cases x; cases y; exact congrArg _ h

theorem agree_u8 {x y : UInt8} (h : Agree [Slot.u8 0 id] x y) : x = y := UInt8.toNat_inj.mp h.one
theorem agree_u16 {x y : UInt16} (h : Agree [Slot.u16 0 id] x y) : x = y := UInt16.toNat_inj.mp h.one
theorem agree_u32 {x y : UInt32} (h : Agree [Slot.u32 0 id] x y) : x = y := UInt32.toNat_inj.mp h.one
theorem agree_u64 {x y : UInt64} (h : Agree [Slot.u64 0 id] x y) : x = y := UInt64.toNat_inj.mp h.one
theorem agree_f32 {x y : F32} (h : Agree [Slot.f32 0 id] x y) : x = y := by
  cases x; cases y; congr 1; exact UInt32.toNat_inj.mp h.one
theorem agree_f64 {x y : F64} (h : Agree [Slot.f64 0 id] x y) : x = y := by
  cases x; cases y; congr 1; exact UInt64.toNat_inj.mp h.one
theorem agree_i8 {x y : Int8} (h : Agree [Slot.i8 0 id] x y) : x = y :=
  int8_inj (UInt8.toNat_inj.mp (by rw [← code_i8, ← code_i8]; exact h.one))
theorem agree_i16 {x y : Int16} (h : Agree [Slot.i16 0 id] x y) : x = y :=
  int16_inj (UInt16.toNat_inj.mp (by rw [← code_i16, ← code_i16]; exact h.one))
theorem agree_i32 {x y : Int32} (h : Agree [Slot.i32 0 id] x y) : x = y :=
  int32_inj (UInt32.toNat_inj.mp (by rw [← code_i32, ← code_i32]; exact h.one))
theorem agree_i64 {x y : Int64} (h : Agree [Slot.i64 0 id] x y) : x = y :=
  int64_inj (UInt64.toNat_inj.mp (by rw [← code_i64, ← code_i64]; exact h.one))
theorem agree_enum {s : EnumSpec} {n : Nat} {x y : EnumVal s} (h : Agree [Slot.enum 0 n id] x y) : x = y :=
  EnumVal.ext h.one
theorem FrozenBehavior.agree {x y : FrozenBehavior} (h : Agree FrozenBehavior.slots x y) : x = y := by
  cases x; cases y; congr 1; exact UInt8.toNat_inj.mp h.one
theorem ObjectStateAppearanceGeneral.agree {x y : ObjectStateAppearanceGeneral}
    (h : Agree ObjectStateAppearanceGeneral.slots x y) : x = y := by
  cases x; cases y; congr 1; exact UInt16.toNat_inj.mp h.one

theorem bigEndian_inj {w v : Bytes} (hl : w.length = v.length) (h : bigEndian w = bigEndian v) : w = v := by
  rw [bigEndian_eq, bigEndian_eq] at h
  rw [← beBytes_beVal w, ← beBytes_beVal v, h, hl]

theorem agree_octets {n : Nat} {x y : Arr UInt8 n} (h : Agree [Slot.octets 0 n id] x y) : x = y :=
  Arr.ext (bigEndian_inj (x.size_eq.trans y.size_eq.symm) h.one)
theorem agree_zeroed {B : Type} {s : Slot B} {x y : B} (h : Agree [s.zeroed] x y) : Agree [s] x y := by
  intro t ht
  cases List.mem_singleton.mp ht
  exact h s.zeroed (List.mem_singleton.mpr rfl)
theorem map_inj {α β : Type} {f : α → β} (hf : ∀ a b, f a = f b → a = b) :
    ∀ {l m : List α}, l.map f = m.map f → l = m
  | [], [], _ => rfl
  | [], _ :: _, h => nomatch h
  | _ :: _, [], h => nomatch h
  | a :: l, b :: m, h => by
    rw [List.map_cons, List.map_cons, List.cons.injEq] at h
    rw [hf _ _ h.1, map_inj hf h.2]
theorem agree_signedOctets {n : Nat} {x y : Arr Int8 n} (h : Agree [Slot.signedOctets 0 n id] x y) : x = y := by
  have h2 := bigEndian_inj (by rw [List.length_map, List.length_map]; exact x.size_eq.trans y.size_eq.symm) h.one
  refine Arr.ext (map_inj ?_ h2)
  intro a b e
  have e' : UInt8.ofNat (a.toInt % 256).toNat = UInt8.ofNat (b.toInt % 256).toNat := e
  rw [code_i8, code_i8, UInt8.ofNat_toNat, UInt8.ofNat_toNat] at e'
  exact int8_inj e'

/-! ### Irregular records -/

def EntityMarking.slots : List (Slot EntityMarking) :=
  Slot.cons (·.entity_marking_character_set) [Slot.enum 0 1 id] 1 <|
  []
theorem EntityMarking.written (x : EntityMarking) : Written EntityMarking.slots x (wire (sent x)) :=
  Written.cons (written_enum rfl x.entity_marking_character_set) (octets_length _ _) (Written.nil _ _)
theorem EntityMarking.finds : Finds EntityMarking.deserialize (ReadFrom EntityMarking.slots) :=
  FindsAt.finds <|
  FindsAt.cons (π := fun x : EntityMarking => x.entity_marking_character_set) (EnumSpec.fixed _)
    (EnumSpec.finds _ rfl) fun _ =>
  FindsAt.skip fun _ => FindsAt.ret ⟨trivial, rfl⟩

def VariableDatumRecord.slots : List (Slot VariableDatumRecord) :=
  Slot.cons (·.datum_id) [Slot.u32 0 id] 4 <|
  Slot.cons (·.length_bits) [Slot.u32 0 id] 4 <|
  []
theorem VariableDatumRecord.written (x : VariableDatumRecord) :
    Written VariableDatumRecord.slots x (wire (sent x)) :=
  Written.cons (written_u32 x.datum_id) (octets_length _ _) <|
  Written.cons (written_u32 x.length_bits) (octets_length _ _) (Written.nil _ _)
theorem VariableDatumRecord.finds : Finds VariableDatumRecord.deserialize (ReadFrom VariableDatumRecord.slots) :=
  FindsAt.finds <|
  FindsAt.cons (π := fun x : VariableDatumRecord => x.datum_id) fixed_u32 finds_u32 fun _ =>
  FindsAt.cons (π := fun x : VariableDatumRecord => x.length_bits) fixed_u32 finds_u32 fun _ =>
  FindsAt.skip fun _ => FindsAt.skip fun _ => FindsAt.ret ⟨⟨trivial, rfl⟩, rfl⟩

def RecordSpecificationElement.slots : List (Slot RecordSpecificationElement) :=
  Slot.cons (·.record_id) [Slot.u32 0 id] 4 <|
  Slot.cons (·.record_set_serial_number) [Slot.u32 0 id] 4 <|
  Slot.cons (·.record_length) [Slot.u16 0 id] 2 <|
  Slot.cons (·.record_count) [Slot.u16 0 id] 2 <|
  []
theorem RecordSpecificationElement.written (x : RecordSpecificationElement) :
    Written RecordSpecificationElement.slots x (wire (sent x)) :=
  Written.cons (written_u32 x.record_id) (octets_length _ _) <|
  Written.cons (written_u32 x.record_set_serial_number) (octets_length _ _) <|
  Written.cons (written_u16 x.record_length) (octets_length _ _) <|
  Written.cons (written_u16 x.record_count) (octets_length _ _) (Written.nil _ _)
theorem RecordSpecificationElement.finds :
    Finds RecordSpecificationElement.deserialize (ReadFrom RecordSpecificationElement.slots) :=
  FindsAt.finds <|
  FindsAt.cons (π := fun x : RecordSpecificationElement => x.record_id) fixed_u32 finds_u32 fun _ =>
  FindsAt.cons (π := fun x : RecordSpecificationElement => x.record_set_serial_number) fixed_u32 finds_u32 fun _ =>
  FindsAt.cons (π := fun x : RecordSpecificationElement => x.record_length) fixed_u16 finds_u16 fun _ =>
  FindsAt.cons (π := fun x : RecordSpecificationElement => x.record_count) fixed_u16 finds_u16 fun _ =>
  FindsAt.skip fun _ => FindsAt.skip fun _ => FindsAt.ret ⟨⟨⟨⟨trivial, rfl⟩, rfl⟩, rfl⟩, rfl⟩

/-! ### Entries of the tables of records -/

instance Contiguous.decide {B : Type} : (a : Nat) → (l : List (Slot B)) → (b : Nat) → Decidable (Contiguous a l b)
  | a, [], b => inferInstanceAs (Decidable (a = b))
  | a, s :: l, b =>
    have := Contiguous.decide (a + s.width) l b
    inferInstanceAs (Decidable (s.offset = a ∧ 0 < s.width ∧ Contiguous (a + s.width) l b))

structure LaidOut.Lawful (r : LaidOut) : Prop where
  encode : ∀ x prof buf buf', r.ser x prof buf = .ok ((), buf') →
    ∃ w, buf' = buf ++ w ∧ Written r.layout x w
  decode : Finds r.de (ReadFrom r.layout)
  contiguous : Contiguous 0 r.layout r.octets

structure LaidOut.Whole (r : LaidOut) : Prop where
  fixed : Fixed r.de r.octets
  agree : ∀ x y, Agree r.layout x y → x = y

theorem LaidOut.lawful (r : LaidOut) (S : List (Slot r.Val)) (hS : r.layout = S)
    (he : ∀ x, ∃ w, WritesIfOk (r.ser x) w ∧ Written S x w) (hd : Finds r.de (ReadFrom S))
    (hc : Contiguous 0 r.layout r.octets) : r.Lawful := by
  subst hS
  refine ⟨fun x prof buf buf' h => ?_, hd, hc⟩
  obtain ⟨w, h1, h2⟩ := he x
  exact ⟨w, h1 prof buf buf' h, h2⟩

theorem LaidOut.whole (r : LaidOut) (hf : Fixed r.de r.octets) (ha : ∀ x y, Agree r.layout x y → x = y) :
    r.Whole := ⟨hf, ha⟩

end Dis
