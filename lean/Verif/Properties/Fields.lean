import Verif.Spec.FieldTable
import Verif.Properties.Irregular
/-
C44: the field traits (`FieldSerialize`, `FieldDeserialize`, `FieldLen`, `FieldDeserializeWithLen`), which
every PDU is assembled from.
-/
set_option maxRecDepth 4000
namespace Dis

/-- What `C44_primitives` says of one type. -/
def FieldCodec.Sound (f : FieldCodec) : Prop := ∀ x : f.Val,
  (∀ prof buf, f.ser x prof buf = .ok ((), buf ++ f.image x)) ∧
  (f.image x).length = f.size ∧ f.len x = f.size ∧
  (∀ prof rest, f.de prof (f.image x ++ rest) = .ok (x, rest)) ∧
  (∀ prof (b : Bytes), b.length < f.size → f.de prof b = .error .bufferUnderflow)

theorem field_sound {f : FieldCodec} (hw : ∀ x, Writes (f.ser x) (f.image x)) (hl : ∀ x, f.len x = f.size)
    (hr : ∀ x, Reads f.de (f.image x) x) (hf : Fixed f.de f.size) : f.Sound :=
  fun x => ⟨hw x, (hr x).length_eq hf, hl x, hr x, fun prof _ hb => hf.run_short prof hb⟩

/-- Every primitive field type, every value: serializing appends its image, whose size is the length claimed;
decoding the image, whatever follows, gives the value back; too few octets panic. -/
theorem C44_primitives : ∀ f ∈ primitiveFields, f.Sound := by
  unfold primitiveFields
  refine List.forall_mem_cons.mpr ⟨field_sound writes_u8 (fun _ => rfl) reads_u8 fixed_u8, ?_⟩
  refine List.forall_mem_cons.mpr ⟨field_sound writes_u16 (fun _ => rfl) reads_u16 fixed_u16, ?_⟩
  refine List.forall_mem_cons.mpr ⟨field_sound writes_u32 (fun _ => rfl) reads_u32 fixed_u32, ?_⟩
  refine List.forall_mem_cons.mpr ⟨field_sound writes_u64 (fun _ => rfl) reads_u64 fixed_u64, ?_⟩
  refine List.forall_mem_cons.mpr ⟨field_sound writes_i8 (fun _ => rfl) reads_i8 fixed_i8, ?_⟩
  refine List.forall_mem_cons.mpr ⟨field_sound writes_i16 (fun _ => rfl) reads_i16 fixed_i16, ?_⟩
  refine List.forall_mem_cons.mpr ⟨field_sound writes_i32 (fun _ => rfl) reads_i32 fixed_i32, ?_⟩
  refine List.forall_mem_cons.mpr ⟨field_sound writes_i64 (fun _ => rfl) reads_i64 fixed_i64, ?_⟩
  refine List.forall_mem_cons.mpr ⟨field_sound writes_f32 (fun _ => rfl) reads_f32 fixed_f32, ?_⟩
  refine List.forall_mem_cons.mpr ⟨field_sound writes_f64 (fun _ => rfl) reads_f64 fixed_f64, ?_⟩
  exact fun _ h => nomatch h

example : (serialize_field (-2 : Int16) : Put) ⟨true⟩ [7] = .ok ((), [7, 0xFF, 0xFE]) := rfl
example : (deserialize_field : Get Int64) ⟨true⟩ [0xFF, 0xFF, 0xFF, 0xFF, 0xFF, 0xFF, 0xFF, 0xFD, 1] =
    .ok (-3, [1]) := by decide +kernel

/-- Text: its octets, as many as claimed; the plain decoder reads nothing and returns the empty text. -/
theorem C44_text (s : String) (prof : Profile) (buf b : Bytes) :
    (serialize_field s : Put) prof buf = .ok ((), buf ++ s.toByteArray.data.toList) ∧
    field_len s = s.toByteArray.data.toList.length ∧
    (deserialize_field : Get String) prof b = .ok ("", b) :=
  ⟨rfl, rfl, rfl⟩

/-- Lists of any type whose elements append definite octets: those of the elements, in order; the length
claimed is the sum of the elements' claims; the plain decoder reads nothing and returns the empty list. -/
theorem C44_lists {α : Type} [FieldSerialize α] [FieldDeserialize α] [FieldLen α] (image : α → Bytes) (xs : List α)
    (h : ∀ x ∈ xs, ∀ prof buf, (serialize_field x : Put) prof buf = .ok ((), buf ++ image x))
    (prof : Profile) (buf b : Bytes) :
    (serialize_field xs : Put) prof buf = .ok ((), buf ++ (xs.map image).flatten) ∧
    field_len xs = (xs.map field_len).sum ∧
    (deserialize_field : Get (List α)) prof b = .ok ([], b) := by
  refine ⟨?_, rfl, rfl⟩
  show putEach serialize_field xs prof buf = _
  induction xs generalizing buf with
  | nil => exact congrArg (fun b => Except.ok ((), b)) (List.append_nil buf).symm
  | cons x xs ih =>
    show (serialize_field x >>= fun _ => putEach serialize_field xs) prof buf = _
    rw [M.bind_run, h x (List.mem_cons_self ..)]
    simp only
    rw [ih (fun y hy => h y (List.mem_cons_of_mem _ hy)), List.map_cons, List.flatten_cons, List.append_assoc]

example : (serialize_field ([1, 2] : List UInt16) : Put) ⟨true⟩ [] = .ok ((), [0, 1, 0, 2]) := rfl

/-- Optional fields: absent, nothing; present, the value; the plain decoder reads nothing and returns absent. -/
theorem C44_optionals {α : Type} [FieldSerialize α] [FieldDeserialize α] [FieldLen α] (x : α)
    (prof : Profile) (buf b : Bytes) :
    (serialize_field (none : Option α) : Put) prof buf = .ok ((), buf) ∧ field_len (none : Option α) = 0 ∧
    (serialize_field (some x) : Put) prof buf = (serialize_field x : Put) prof buf ∧ field_len (some x) = field_len x ∧
    (deserialize_field : Get (Option α)) prof b = .ok (none, b) :=
  ⟨rfl, rfl, rfl, rfl, rfl⟩

/-- Every record type, as a field of a PDU, behaves as it does by itself (C18, C19, C26-C28, C30, C35). -/
theorem C44_records : ∀ r ∈ recordFields, ∀ (x : r.Val) prof b,
    r.fieldSer x prof b = r.ser x prof b ∧ r.fieldDe prof b = r.de prof b := by
  have h : ∀ r ∈ recordFields, r.fieldSer = r.ser ∧ r.fieldDe.run = r.de.run := by
    unfold recordFields
    repeat refine List.forall_mem_cons.mpr ⟨⟨rfl, rfl⟩, ?_⟩
    exact fun _ h => nomatch h
  intro r hr x prof b
  rw [(h r hr).1, (h r hr).2]
  exact ⟨rfl, rfl⟩

example : recordFields.length = 57 := rfl

/-! ### Decoding with a length -/

theorem AntennaPattern.with_len_run {n : Nat} (h : n < 65536) (prof : Profile) (b : Bytes) :
    (deserialize_with_len n : Get AntennaPattern) prof b =
      if b.length < n then .error .bufferUnderflow else .ok (⟨b.take n⟩, b.drop n) := by
  have hn : (UInt16.ofNat n).toNat = n := UInt16.toNat_ofNat_of_lt' (by simpa [UInt16.size] using h)
  show (if n < 65536 then _ else _ : Get AntennaPattern) prof b = _
  rw [if_pos h]
  unfold AntennaPattern.deserialize
  by_cases h0 : UInt16.ofNat n = 0
  · have : n = 0 := by rw [← hn, h0]; rfl
    subst this
    rfl
  · rw [if_neg h0, hn]
    simp only [M.bind_run, getN_u8]
    by_cases hb : b.length < n
    · rw [if_pos hb, if_pos hb]
    · rw [if_neg hb, if_neg hb]; rfl

theorem ModulationParameters.with_len_run {n : Nat} (h : n < 256) (prof : Profile) (b : Bytes) :
    (deserialize_with_len n : Get ModulationParameters) prof b =
      if b.length < n then .error .bufferUnderflow else .ok (⟨b.take n⟩, b.drop n) := by
  have hn : (UInt8.ofNat n).toNat = n := by simpa using h
  show (if n < 256 then _ else _ : Get ModulationParameters) prof b = _
  rw [if_pos h]
  unfold ModulationParameters.deserialize
  by_cases h0 : UInt8.ofNat n = 0
  · have : n = 0 := by rw [← hn, h0]; rfl
    subst this
    rfl
  · rw [if_neg h0, hn]
    simp only [M.bind_run, getN_u8]
    by_cases hb : b.length < n
    · rw [if_pos hb, if_pos hb]
    · rw [if_neg hb, if_neg hb]; rfl

/-- Modulation parameters and antenna patterns decoded with a length `n`, every `n` and every input: more than
255 (65535) panics at once; otherwise exactly `n` octets are taken, or it panics when there are fewer. -/
theorem C44_with_length (n : Nat) (prof : Profile) (b : Bytes) :
    (deserialize_with_len n : Get ModulationParameters) prof b =
      (if 255 < n then .error .expectFailed
       else if b.length < n then .error .bufferUnderflow else .ok (⟨b.take n⟩, b.drop n)) ∧
    (deserialize_with_len n : Get AntennaPattern) prof b =
      (if 65535 < n then .error .expectFailed
       else if b.length < n then .error .bufferUnderflow else .ok (⟨b.take n⟩, b.drop n)) := by
  constructor
  · by_cases h : 255 < n
    · rw [if_pos h]
      show (if n < 256 then _ else _ : Get ModulationParameters) prof b = _
      rw [if_neg (by omega)]
      rfl
    · rw [if_neg h, ModulationParameters.with_len_run (by omega)]
  · by_cases h : 65535 < n
    · rw [if_pos h]
      show (if n < 65536 then _ else _ : Get AntennaPattern) prof b = _
      rw [if_neg (by omega)]
      rfl
    · rw [if_neg h, AntennaPattern.with_len_run (by omega)]

/-- The optional forms: a length of 0 means absent; otherwise present, and as above. -/
theorem C44_optional_with_length (n : Nat) (prof : Profile) (b : Bytes) :
    (deserialize_with_len n : Get (Option ModulationParameters)) prof b =
      (if n = 0 then .ok (none, b) else if 255 < n then .error .expectFailed
       else if b.length < n then .error .bufferUnderflow else .ok (some ⟨b.take n⟩, b.drop n)) ∧
    (deserialize_with_len n : Get (Option AntennaPattern)) prof b =
      (if n = 0 then .ok (none, b) else if 65535 < n then .error .expectFailed
       else if b.length < n then .error .bufferUnderflow else .ok (some ⟨b.take n⟩, b.drop n)) := by
  have h := C44_with_length n prof b
  constructor
  · show (if n = 0 then _ else _ : Get (Option ModulationParameters)) prof b = _
    by_cases h0 : n = 0
    · rw [if_pos h0, if_pos h0]; rfl
    · rw [if_neg h0, if_neg h0, M.bind_run, h.1]
      by_cases h1 : 255 < n
      · rw [if_pos h1, if_pos h1]
      · rw [if_neg h1, if_neg h1]
        by_cases h2 : b.length < n
        · rw [if_pos h2, if_pos h2]
        · rw [if_neg h2, if_neg h2]; rfl
  · show (if n = 0 then _ else _ : Get (Option AntennaPattern)) prof b = _
    by_cases h0 : n = 0
    · rw [if_pos h0, if_pos h0]; rfl
    · rw [if_neg h0, if_neg h0, M.bind_run, h.2]
      by_cases h1 : 65535 < n
      · rw [if_pos h1, if_pos h1]
      · rw [if_neg h1, if_neg h1]
        by_cases h2 : b.length < n
        · rw [if_pos h2, if_pos h2]
        · rw [if_neg h2, if_neg h2]; rfl

/-- `ModulationParameters::deserialize(buf, length)` and `AntennaPattern::deserialize(buf, length)` themselves. -/
theorem C44_parameters (prof : Profile) (b : Bytes) :
    (∀ n : UInt8, ModulationParameters.deserialize n prof b =
      if n.toNat = 0 then .ok (none, b) else
      if b.length < n.toNat then .error .bufferUnderflow else .ok (some ⟨b.take n.toNat⟩, b.drop n.toNat)) ∧
    (∀ n : UInt16, AntennaPattern.deserialize n prof b =
      if n.toNat = 0 then .ok (none, b) else
      if b.length < n.toNat then .error .bufferUnderflow else .ok (some ⟨b.take n.toNat⟩, b.drop n.toNat)) := by
  constructor
  · intro n
    unfold ModulationParameters.deserialize
    by_cases h0 : n = 0
    · subst h0; rfl
    · have h1 : n.toNat ≠ 0 := fun e => h0 (UInt8.toNat_inj.mp e)
      rw [if_neg h0, if_neg h1, M.bind_run, getN_u8]
      by_cases h2 : b.length < n.toNat
      · rw [if_pos h2, if_pos h2]
      · rw [if_neg h2, if_neg h2]; rfl
  · intro n
    unfold AntennaPattern.deserialize
    by_cases h0 : n = 0
    · subst h0; rfl
    · have h1 : n.toNat ≠ 0 := fun e => h0 (UInt16.toNat_inj.mp e)
      rw [if_neg h0, if_neg h1, M.bind_run, getN_u8]
      by_cases h2 : b.length < n.toNat
      · rw [if_pos h2, if_pos h2]
      · rw [if_neg h2, if_neg h2]; rfl

example : (deserialize_with_len 2 : Get (Option AntennaPattern)) ⟨true⟩ [1, 2, 3] = .ok (some ⟨[1, 2]⟩, [3]) := by
  decide +kernel
example : (deserialize_with_len 300 : Get (Option ModulationParameters)) ⟨true⟩ [1] = .error .expectFailed := by
  decide +kernel

/-- Without a length the two types decode to an empty record and read nothing. -/
theorem C44_without_length (prof : Profile) (b : Bytes) :
    (deserialize_field : Get ModulationParameters) prof b = .ok (⟨[]⟩, b) ∧
    (deserialize_field : Get AntennaPattern) prof b = .ok (⟨[]⟩, b) := ⟨rfl, rfl⟩

end Dis
