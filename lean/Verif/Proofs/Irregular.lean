import Verif.Spec.IrregularWire
import Verif.Proofs.EnumLaws
/-
Laws of the irregular records and of the flag sets.
-/
namespace Dis

/-! ### Flag sets -/

theorem onlyFlags_iff {named : List Nat} {all : Nat} (h : ∀ i, all.testBit i = true ↔ i ∈ named)
    (bits : Nat) : OnlyFlags named bits ↔ bits &&& all = bits := by
  constructor
  · intro ho
    apply Nat.eq_of_testBit_eq
    intro i
    rw [Nat.testBit_and]
    cases hb : bits.testBit i with
    | false => simp
    | true => simpa using (h i).mpr (ho i hb)
  · intro he i hi
    rw [← he, Nat.testBit_and] at hi
    simp only [Bool.and_eq_true] at hi
    exact (h i).mp hi.2

theorem testBit_table {all : Nat} {named : List Nat} (h32 : all < 2 ^ 32)
    (hn : ∀ i ∈ named, i < 32)
    (hd : ∀ i < 32, all.testBit i = decide (i ∈ named)) (i : Nat) :
    all.testBit i = true ↔ i ∈ named := by
  by_cases h : i < 32
  · rw [hd i h]; simp
  · constructor
    · intro ht
      have h1 := Nat.testBit_lt_two_pow (x := all) (i := i)
        (Nat.lt_of_lt_of_le h32 (Nat.pow_le_pow_right (by decide) (by omega)))
      rw [h1] at ht; cases ht
    · intro hm; exact absurd (hn i hm) h

theorem FrozenBehavior.all_iff (i : Nat) :
    FrozenBehavior.all.testBit i = true ↔ i ∈ FrozenBehavior.flagBits :=
  testBit_table (by decide) (by decide) (by decide) i
theorem ObjectStateAppearanceGeneral.all_iff (i : Nat) :
    ObjectStateAppearanceGeneral.all.testBit i = true ↔ i ∈ ObjectStateAppearanceGeneral.flagBits :=
  testBit_table (by decide) (by decide) (by decide) i
theorem LandPlatformAppearance.all_iff (i : Nat) :
    LandPlatformAppearance.all.testBit i = true ↔ i ∈ LandPlatformAppearance.flagBits :=
  testBit_table (by decide) (by decide) (by decide) i

theorem flagsFromBits_some {named : List Nat} {all : Nat}
    (h : ∀ i, all.testBit i = true ↔ i ∈ named) {bits : Nat} (hb : OnlyFlags named bits) :
    flagsFromBits all bits = some bits := by
  simp [flagsFromBits, (onlyFlags_iff h bits).mp hb]

theorem flagsFromBits_none {named : List Nat} {all : Nat}
    (h : ∀ i, all.testBit i = true ↔ i ∈ named) {bits : Nat} (hb : ¬ OnlyFlags named bits) :
    flagsFromBits all bits = none := by
  rw [onlyFlags_iff h] at hb
  simp [flagsFromBits, hb]

instance : LawfulEnc FrozenBehavior :=
  ⟨fun x _ => writes_u8 x.bits, fun x => (writes_u8 x.bits).ifOk, fun x => by
    show ((octets _ _).length : Int) = _
    rw [octets_length]; rfl, fun x => (writes_u8 x.bits).appends⟩
instance : ExactEnc FrozenBehavior := ⟨fun _ => trivial, fun _ => rfl, fun _ => rfl⟩
instance : LawfulDec FrozenBehavior where
  reads x h := by
    refine (Reads.map (f := fun bits => (FrozenBehavior.from_u8 bits).getD dflt) (reads_u8 x.bits)).congr rfl ?_
    simp [FrozenBehavior.from_u8, flagsFromBits_some FrozenBehavior.all_iff h, kept]
instance : FixedDec FrozenBehavior 1 := ⟨Fixed.map fixed_u8⟩

instance : LawfulEnc ObjectStateAppearanceGeneral :=
  ⟨fun x _ => writes_u16 x.bits, fun x => (writes_u16 x.bits).ifOk, fun x => by
    show ((octets _ _).length : Int) = _
    rw [octets_length]; rfl, fun x => (writes_u16 x.bits).appends⟩
instance : ExactEnc ObjectStateAppearanceGeneral := ⟨fun _ => trivial, fun _ => rfl, fun _ => rfl⟩
instance : LawfulDec ObjectStateAppearanceGeneral where
  reads x h := by
    refine (Reads.map (f := fun bits => (ObjectStateAppearanceGeneral.from_u16 bits).getD dflt) (reads_u16 x.bits)).congr rfl ?_
    simp [ObjectStateAppearanceGeneral.from_u16,
      flagsFromBits_some ObjectStateAppearanceGeneral.all_iff h, kept]
instance : FixedDec ObjectStateAppearanceGeneral 2 := ⟨Fixed.map fixed_u16⟩

/-! ### EntityMarking -/

theorem EntityMarking.writes (x : EntityMarking) : Writes x.serialize (wire x) :=
  Writes.seq (writes_enum8 _ rfl) (Writes.bytes _)

theorem EntityMarking.wire_length (x : EntityMarking) :
    (wire x).length = 1 + (strBytes x.entity_marking_string).length := by
  show (octets _ _ ++ strBytes _).length = _
  rw [List.length_append, octets_length]; rfl

instance : LawfulEnc EntityMarking where
  writes x _ := x.writes
  ok x := (x.writes).ifOk
  len x := by
    rw [show sent x = x from rfl, x.wire_length]
    show _ = ((12 : Nat) : Int) + (1 + (strBytes x.entity_marking_string).length - 12)
    omega
  appends x := x.writes.appends

theorem EntityMarking.consumes : Consumes EntityMarking.deserialize :=
  Consumes.bind (EnumSpec.fixed _).local.consumes fun _ =>
    Consumes.bind Consumes.remaining fun _ => Consumes.ret _
theorem EntityMarking.under : OnlyUnderflow EntityMarking.deserialize :=
  OnlyUnderflow.bind (EnumSpec.fixed _).onlyUnderflow fun _ =>
    OnlyUnderflow.bind OnlyUnderflow.remaining fun _ => OnlyUnderflow.ret _
instance : ConsumesDec EntityMarking := ⟨EntityMarking.consumes⟩
instance : UnderflowDec EntityMarking := ⟨EntityMarking.under⟩

/-! ### VariableDatumRecord -/

theorem padOctets_eq (b : Nat) : padOctets b = (64 - b % 64) % 64 / 8 := by
  unfold padOctets; omega

theorem flatMap_wire_u8 (xs : Bytes) : xs.flatMap wire = xs := by
  induction xs with
  | nil => rfl
  | cons x xs ih =>
    rw [List.flatMap_cons, ih]
    show octets 1 x.toNat ++ xs = x :: xs
    simp [octets]

theorem wire_bytes (xs : Bytes) : wire xs = xs := flatMap_wire_u8 xs

theorem writes_bytes (xs : Bytes) : Writes (putEach putU8 xs) xs :=
  (Writes.each xs (fun e _ => writes_u8 e)).congr (flatMap_wire_u8 xs)

theorem reads_bytes (xs : Bytes) {n : Nat} (h : n = xs.length) : Reads (getN getU8 n) xs xs :=
  (Reads.counted h (fun e _ => reads_u8 e)).congr (wire_bytes xs) rfl

theorem VariableDatumRecord.writes (x : VariableDatumRecord) : Writes x.serialize (wire x) := by
  refine Writes.seq (writes_u32 _) <| Writes.seq (writes_u32 _) <|
    Writes.seq (Writes.each x.value fun e _ => writes_u8 e) ?_
  rw [padOctets_eq]
  dsimp only
  split
  · exact writes_bytes _
  · next h =>
    have h0 : (64 - x.length_bits.toNat % 64) % 64 / 8 = 0 := by omega
    rw [h0]
    exact Writes.nil

theorem VariableDatumRecord.wire_length (x : VariableDatumRecord) :
    (wire x).length = 8 + x.value.length + padOctets x.length_bits.toNat := by
  show (octets _ _ ++ (octets _ _ ++ (wire x.value ++ List.replicate _ _))).length = _
  rw [wire_bytes]
  simp only [List.length_append, octets_length, List.length_replicate]
  omega

theorem field_len_bytes (xs : Bytes) : field_len xs = xs.length := by
  rw [len_exact, wire_bytes]

instance : LawfulEnc VariableDatumRecord where
  writes x _ := x.writes
  ok x := (x.writes).ifOk
  len x := by
    rw [show sent x = x from rfl, x.wire_length]
    show _ = ((4 + 4 + field_len x.value : Nat) : Int) + (padOctets x.length_bits.toNat : Nat)
    rw [field_len_bytes]
    omega
  appends x := x.writes.appends

/-- Reserving memory changes nothing else. -/
theorem Local.reserve {β : Type} (n : Nat) {f : Unit → M β} (h : Local (f ())) : Local (M.reserve n >>= f) := h
theorem OnlyUnderflow.reserve {β : Type} (n : Nat) {f : Unit → M β} (h : OnlyUnderflow (f ())) :
    OnlyUnderflow (M.reserve n >>= f) := h

theorem VariableDatumRecord.loc : Local VariableDatumRecord.deserialize :=
  Local.bind fixed_u32.local fun _ => Local.bind fixed_u32.local fun _ =>
    Local.reserve _ <| Local.bind (Local.n fixed_u8.local _) fun _ => Local.ret _
theorem VariableDatumRecord.under : OnlyUnderflow VariableDatumRecord.deserialize :=
  OnlyUnderflow.bind fixed_u32.onlyUnderflow fun _ => OnlyUnderflow.bind fixed_u32.onlyUnderflow fun _ =>
    OnlyUnderflow.reserve _ <|
      OnlyUnderflow.bind (OnlyUnderflow.n fixed_u8.onlyUnderflow _) fun _ => OnlyUnderflow.ret _
instance : LocalDec VariableDatumRecord := ⟨VariableDatumRecord.loc⟩
instance : UnderflowDec VariableDatumRecord := ⟨VariableDatumRecord.under⟩

/-! ### RecordSpecificationElement -/

theorem mulU16_ok {a b : UInt16} (h : a.toNat * b.toNat < 65536) (prof : Profile) (buf : Bytes) :
    mulU16 a b prof buf = .ok (UInt16.ofNat (a.toNat * b.toNat), buf) := by
  show (if _ then _ else _) = _
  rw [if_neg (by omega)]
  have : a * b = UInt16.ofNat (a.toNat * b.toNat) := by
    apply UInt16.toNat.inj
    simp [UInt16.toNat_mul]
  rw [this]

theorem putIndex_writes (xs : Bytes) : ∀ (n i : Nat), i + n ≤ xs.length →
    Writes (putEach (putIndex xs) (List.range' i n)) ((xs.drop i).take n)
  | 0, i, _ => by
    rw [List.take_zero]; exact Writes.nil
  | n + 1, i, h => by
    have hi : i < xs.length := by omega
    have h1 : Writes (putIndex xs i) [xs[i]] := by
      unfold putIndex
      rw [List.getElem?_eq_getElem hi]
      refine (writes_u8 _).congr ?_
      simp [wire, octets]
    have h2 := Writes.seq h1 (putIndex_writes xs n (i + 1) (by omega))
    rw [List.range'_succ]
    refine h2.congr ?_
    have hd : xs.drop i = xs[i] :: xs.drop (i + 1) := List.drop_eq_getElem_cons hi
    rw [hd, List.take_succ_cons]
    rfl

theorem putIndex_panics (xs : Bytes) : ∀ (n i : Nat), xs.length < i + n → i ≤ xs.length →
    ∀ prof buf, putEach (putIndex xs) (List.range' i n) prof buf = .error .indexOutOfBounds
  | 0, i, h, h', _, _ => by omega
  | n + 1, i, h, h', prof, buf => by
    rw [List.range'_succ]
    show (putIndex xs i >>= fun _ => putEach (putIndex xs) (List.range' (i + 1) n)) prof buf = _
    rw [M.bind_run]
    by_cases hi : i < xs.length
    · have h1 : putIndex xs i prof buf = .ok ((), buf ++ wire xs[i]) := by
        unfold putIndex
        rw [List.getElem?_eq_getElem hi]
        exact writes_u8 _ prof buf
      rw [h1]
      exact putIndex_panics xs n (i + 1) (by omega) (by omega) prof _
    · have h1 : putIndex xs i prof buf = .error .indexOutOfBounds := by
        unfold putIndex
        rw [List.getElem?_eq_none (by omega)]
        rfl
      rw [h1]

theorem mulU16_run (a b : UInt16) (prof : Profile) (buf : Bytes) : mulU16 a b prof buf =
    if prof.overflowChecks ∧ 65536 ≤ a.toNat * b.toNat then .error .arithmeticOverflow
    else .ok (UInt16.ofNat (a.toNat * b.toNat), buf) := by
  show (if _ then _ else Except.ok (a * b, buf)) = _
  have : a * b = UInt16.ofNat (a.toNat * b.toNat) := by
    apply UInt16.toNat.inj
    simp [UInt16.toNat_mul]
  rw [this]

/-- Exactly what serializing one record set does, in each build profile. -/
theorem RecordSpecificationElement.serialize_run (x : RecordSpecificationElement) (prof : Profile)
    (buf : Bytes) : x.serialize prof buf =
      if prof.overflowChecks ∧ 65536 ≤ x.octetCount then .error .arithmeticOverflow
      else if x.record_values.length < x.octetsSent then .error .indexOutOfBounds
      else .ok ((), buf ++ wire (sent x)) := by
  have e : x.serialize prof buf = (do
      (do putU32 x.record_id; putU32 x.record_set_serial_number; putU16 x.record_length
          putU16 x.record_count)
      let n ← mulU16 x.record_length x.record_count
      putEach (putIndex x.record_values) (List.range n.toNat) : Put) prof buf := by
    unfold serialize
    simp only [M.bind_run]
    cases putU32 x.record_id prof buf with
    | error e => rfl
    | ok r1 =>
      simp only
      cases putU32 x.record_set_serial_number prof r1.2 with
      | error e => rfl
      | ok r2 =>
        simp only
        cases putU16 x.record_length prof r2.2 <;> rfl
  have h := (Writes.seq (writes_u32 x.record_id) <| Writes.seq (writes_u32 x.record_set_serial_number) <|
    Writes.seq (writes_u16 x.record_length) (writes_u16 x.record_count)) prof buf
  rw [e, M.bind_run, h]
  simp only
  rw [M.bind_run, mulU16_run]
  have hn : (UInt16.ofNat (x.record_length.toNat * x.record_count.toNat)).toNat = x.octetsSent := by
    simp [octetCount, octetsSent]
  have hc : x.octetCount = x.record_length.toNat * x.record_count.toNat := rfl
  rw [← hc] at hn ⊢
  by_cases ho : prof.overflowChecks ∧ 65536 ≤ x.octetCount
  · rw [if_pos ho, if_pos ho]
  · rw [if_neg ho, if_neg ho]
    simp only
    rw [hn, List.range_eq_range']
    by_cases hs : x.record_values.length < x.octetsSent
    · rw [if_pos hs, putIndex_panics x.record_values x.octetsSent 0 (by omega) (by omega)]
    · rw [if_neg hs, putIndex_writes x.record_values x.octetsSent 0 (by omega) prof]
      show _ = Except.ok ((), buf ++ (wire x.record_id ++ (wire x.record_set_serial_number ++
        (wire x.record_length ++ (wire x.record_count ++ wire (x.record_values.take x.octetsSent))))))
      rw [wire_bytes, List.drop_zero]
      simp only [List.append_assoc]

theorem RecordSpecificationElement.writes (x : RecordSpecificationElement) (h : encodable x) :
    Writes x.serialize (wire (sent x)) := by
  obtain ⟨h1, h2⟩ := h
  intro prof buf
  have : x.octetsSent = x.octetCount := Nat.mod_eq_of_lt h1
  rw [serialize_run, if_neg (by omega), if_neg (by omega)]

theorem RecordSpecificationElement.appends (x : RecordSpecificationElement) : Appends x.serialize := by
  intro prof
  by_cases ho : prof.overflowChecks ∧ 65536 ≤ x.octetCount
  · exact .inl ⟨_, fun buf => by rw [serialize_run, if_pos ho]⟩
  · by_cases hs : x.record_values.length < x.octetsSent
    · exact .inl ⟨_, fun buf => by rw [serialize_run, if_neg ho, if_pos hs]⟩
    · exact .inr ⟨_, fun buf => by rw [serialize_run, if_neg ho, if_neg hs]⟩

theorem RecordSpecificationElement.ifOk (x : RecordSpecificationElement) :
    WritesIfOk x.serialize (wire (sent x)) := by
  intro prof buf buf' e
  rw [serialize_run] at e
  split at e
  · cases e
  · split at e
    · cases e
    · simpa using e.symm

theorem RecordSpecificationElement.wire_length (x : RecordSpecificationElement) :
    (wire x).length = 12 + x.record_values.length := by
  show (octets _ _ ++ (octets _ _ ++ (octets _ _ ++ (octets _ _ ++ wire x.record_values)))).length = _
  rw [wire_bytes]
  simp only [List.length_append, octets_length]
  omega

instance : LawfulEnc RecordSpecificationElement where
  writes x h := x.writes h
  ok x := x.ifOk
  len x := by
    rw [RecordSpecificationElement.wire_length]
    show _ = ((4 + 4 + 2 + 2 + field_len x.record_values : Nat) : Int)
      + ((min x.octetsSent x.record_values.length : Nat) - (x.record_values.length : Int))
    rw [field_len_bytes]
    have : (sent x).record_values.length = min x.octetsSent x.record_values.length := by
      show (x.record_values.take x.octetsSent).length = _
      rw [List.length_take]
    omega
  appends x := x.appends

theorem RecordSpecificationElement.reads (x : RecordSpecificationElement) (h : decodable x) :
    Reads RecordSpecificationElement.deserialize (wire x) x := by
  obtain ⟨h1, h2⟩ := h
  refine Reads.bind (reads_u32 x.record_id) <| Reads.bind (reads_u32 x.record_set_serial_number) <|
    Reads.bind (reads_u16 x.record_length) <| Reads.bind (reads_u16 x.record_count) ?_
  have hr : Reads (mulU16 x.record_length x.record_count) []
      (UInt16.ofNat (x.record_length.toNat * x.record_count.toNat)) :=
    fun prof rest => mulU16_ok h1 prof rest
  refine Reads.bind hr (w := []) (Reads.last (Reads.counted ?_ fun e _ => reads_u8 e) (Reads.ret _))
  rw [← h2]
  simpa [octetCount] using h1

theorem Local.mulU16 (a b : UInt16) : Local (mulU16 a b) := by
  intro prof buf v r h
  unfold Dis.mulU16 at h ⊢
  dsimp only at h ⊢
  by_cases ho : prof.overflowChecks ∧ 65536 ≤ a.toNat * b.toNat
  · rw [if_pos ho] at h; cases h
  · rw [if_neg ho] at h
    simp only [Except.ok.injEq, Prod.mk.injEq] at h
    exact ⟨[], by simp [h.2], fun r' => by rw [if_neg ho]; simp [h.1]⟩

theorem RecordSpecificationElement.loc : Local RecordSpecificationElement.deserialize :=
  Local.bind fixed_u32.local fun _ => Local.bind fixed_u32.local fun _ =>
    Local.bind fixed_u16.local fun _ => Local.bind fixed_u16.local fun _ =>
      Local.bind (Local.mulU16 _ _) fun _ => Local.bind (Local.n fixed_u8.local _) fun _ => Local.ret _
instance : LawfulDec RecordSpecificationElement := ⟨fun x h => x.reads h⟩
instance : LocalDec RecordSpecificationElement := ⟨RecordSpecificationElement.loc⟩

/-! ### GridAxisDescriptor -/

theorem GridAxisDescriptor.writes (x : GridAxisDescriptor) : Writes x.serialize (wire x) := by
  obtain ⟨di, df, dp, f, t, d⟩ := x
  refine Writes.seq (writes_f64 _) <| Writes.seq (writes_f64 _) <| Writes.seq (writes_u16 _) <|
    Writes.seq (writes_u8 _) <| Writes.seq (writes_enum8 _ rfl) ?_
  cases d with
  | FixedSpacing n i => exact Writes.seq (writes_u16 _) (writes_u16 _)
  | VariableSpacing n i s o xs p =>
    exact Writes.seq (writes_u16 _) <| Writes.seq (writes_u16 _) <| Writes.seq (writes_f64 _) <|
      Writes.seq (writes_f64 _) <| Writes.seq (Writes.each xs fun e _ => writes_u16 e) <|
        Writes.each p fun e _ => writes_u8 e

instance : LawfulEnc GridAxisDescriptor where
  writes x _ := x.writes
  ok x := (x.writes).ifOk
  len x := by
    obtain ⟨di, df, dp, f, t, d⟩ := x
    cases d with
    | FixedSpacing n i =>
      show ((octets _ _ ++ (octets _ _ ++ (octets _ _ ++ (octets _ _ ++ (octets _ _ ++ (octets _ _ ++ octets _ _)))))).length : Int)
        = ((8 + 8 + 2 + 1 + 1 + (2 + 2) : Nat) : Int) + 0
      simp only [List.length_append, octets_length]
      rfl
    | VariableSpacing n i s o xs p =>
      have h1 := len_exact xs
      have h2 := len_exact p
      show ((octets _ _ ++ (octets _ _ ++ (octets _ _ ++ (octets _ _ ++ (octets _ _ ++ (octets _ _ ++
          (octets _ _ ++ (octets _ _ ++ (octets _ _ ++ (wire xs ++ wire p)))))))))).length : Int)
        = ((8 + 8 + 2 + 1 + 1 + (2 + 2 + 8 + 8 + field_len xs + field_len p) : Nat) : Int) + 0
      simp only [List.length_append, octets_length, h1, h2]
      have : (GridAxisDescriptorAxisType.spec.repr).octets = 1 := rfl
      omega
  appends x := x.writes.appends
instance : ExactEnc GridAxisDescriptor := ⟨fun _ => trivial, fun _ => rfl, fun _ => rfl⟩

theorem GridAxisDescriptor.consumes : Consumes GridAxisDescriptor.deserialize := by
  refine Consumes.bind fixed_f64.local.consumes fun _ => Consumes.bind fixed_f64.local.consumes fun _ =>
    Consumes.bind fixed_u16.local.consumes fun _ => Consumes.bind fixed_u8.local.consumes fun _ =>
    Consumes.bind (EnumSpec.fixed _).local.consumes fun t => Consumes.bind ?_ fun _ => Consumes.ret _
  unfold deserializeData
  split
  · exact Consumes.bind fixed_u16.local.consumes fun _ => Consumes.bind fixed_u16.local.consumes fun _ => Consumes.ret _
  · exact Consumes.bind fixed_u16.local.consumes fun _ => Consumes.bind fixed_u16.local.consumes fun _ =>
      Consumes.bind fixed_f64.local.consumes fun _ => Consumes.bind fixed_f64.local.consumes fun _ =>
      Consumes.bind (Consumes.n fixed_u16.local.consumes _) fun _ =>
      Consumes.bind Consumes.rest fun _ => Consumes.ret _
theorem GridAxisDescriptor.under : OnlyUnderflow GridAxisDescriptor.deserialize := by
  refine OnlyUnderflow.bind fixed_f64.onlyUnderflow fun _ => OnlyUnderflow.bind fixed_f64.onlyUnderflow fun _ =>
    OnlyUnderflow.bind fixed_u16.onlyUnderflow fun _ => OnlyUnderflow.bind fixed_u8.onlyUnderflow fun _ =>
    OnlyUnderflow.bind (EnumSpec.fixed _).onlyUnderflow fun t => OnlyUnderflow.bind ?_ fun _ => OnlyUnderflow.ret _
  unfold deserializeData
  split
  · exact OnlyUnderflow.bind fixed_u16.onlyUnderflow fun _ => OnlyUnderflow.bind fixed_u16.onlyUnderflow fun _ => OnlyUnderflow.ret _
  · exact OnlyUnderflow.bind fixed_u16.onlyUnderflow fun _ => OnlyUnderflow.bind fixed_u16.onlyUnderflow fun _ =>
      OnlyUnderflow.bind fixed_f64.onlyUnderflow fun _ => OnlyUnderflow.bind fixed_f64.onlyUnderflow fun _ =>
      OnlyUnderflow.bind (OnlyUnderflow.n fixed_u16.onlyUnderflow _) fun _ =>
      OnlyUnderflow.bind OnlyUnderflow.rest fun _ => OnlyUnderflow.ret _
instance : ConsumesDec GridAxisDescriptor := ⟨GridAxisDescriptor.consumes⟩
instance : UnderflowDec GridAxisDescriptor := ⟨GridAxisDescriptor.under⟩

/-! ### GridDataRecord -/

theorem writes_enum_wide {s : EnumSpec} (x : EnumVal s) (h : ∀ c ∈ s.codes, c < 65536) :
    Writes (putU16 x.asU16) (octets 2 x.code) := by
  refine (writes_u16 x.asU16).congr ?_
  show octets _ _ = octets _ _
  simp only [EnumVal.asU16, UInt16.toNat_ofNat']
  rw [Nat.mod_eq_of_lt (h _ x.mem)]

theorem writes_enum_wide32 {s : EnumSpec} (x : EnumVal s) (h : ∀ c ∈ s.codes, c < 4294967296) :
    Writes (putU32 x.asU32) (octets 4 x.code) := by
  refine (writes_u32 x.asU32).congr ?_
  show octets _ _ = octets _ _
  simp only [EnumVal.asU32, UInt32.toNat_ofNat']
  rw [Nat.mod_eq_of_lt (h _ x.mem)]

theorem GridDataRecord.writes (x : GridDataRecord) : Writes x.serialize (wire x) := by
  obtain ⟨t, r, d⟩ := x
  refine Writes.seq (writes_enum_wide _ (by decide)) <| Writes.seq (writes_enum_wide _ (by decide)) ?_
  cases d with
  | Type0 n d p =>
    exact Writes.seq (writes_u16 _) <| Writes.seq (Writes.each d fun e _ => writes_u8 e) <|
      Writes.each p fun e _ => writes_u8 e
  | Type1 s o n d p =>
    exact Writes.seq (writes_f32 _) <| Writes.seq (writes_f32 _) <| Writes.seq (writes_u16 _) <|
      Writes.seq (Writes.each d fun e _ => writes_u16 e) <| Writes.each p fun e _ => writes_u8 e
  | Type2 n p d =>
    exact Writes.seq (writes_u16 _) <| Writes.seq (writes_u16 _) <| Writes.each d fun e _ => writes_f32 e

instance : LawfulEnc GridDataRecord where
  writes x _ := x.writes
  ok x := (x.writes).ifOk
  len x := by
    obtain ⟨t, r, d⟩ := x
    cases d with
    | Type0 n d p =>
      have h1 := len_exact d
      have h2 := len_exact p
      show ((octets _ _ ++ (octets _ _ ++ (octets _ _ ++ (wire d ++ wire p)))).length : Int)
        = ((1 + 1 + (2 + field_len d + field_len p) : Nat) : Int) + 2
      simp only [List.length_append, octets_length, h1, h2]
      omega
    | Type1 s o n d p =>
      have h1 := len_exact d
      have h2 := len_exact p
      show ((octets _ _ ++ (octets _ _ ++ (octets _ _ ++ (octets _ _ ++ (octets _ _ ++ (wire d ++ wire p)))))).length : Int)
        = ((1 + 1 + (4 + 4 + 2 + field_len d + field_len p) : Nat) : Int) + 2
      simp only [List.length_append, octets_length, h1, h2]
      omega
    | Type2 n p d =>
      have h1 := len_exact d
      show ((octets _ _ ++ (octets _ _ ++ (octets _ _ ++ (octets _ _ ++ wire d)))).length : Int)
        = ((1 + 1 + (2 + 2 + field_len d) : Nat) : Int) + 2
      simp only [List.length_append, octets_length, h1]
      omega
  appends x := x.writes.appends

theorem GridDataRecord.consumes : Consumes GridDataRecord.deserialize := by
  refine Consumes.bind (EnumSpec.fixed _).local.consumes fun _ =>
    Consumes.bind (EnumSpec.fixed _).local.consumes fun t => Consumes.bind ?_ fun _ => Consumes.ret _
  unfold deserializeData
  split
  · exact Consumes.bind fixed_u16.local.consumes fun _ => Consumes.bind (Consumes.n fixed_u8.local.consumes _) fun _ =>
      Consumes.bind Consumes.rest fun _ => Consumes.ret _
  · split
    · exact Consumes.bind fixed_f32.local.consumes fun _ => Consumes.bind fixed_f32.local.consumes fun _ =>
        Consumes.bind fixed_u16.local.consumes fun _ => Consumes.bind (Consumes.n fixed_u16.local.consumes _) fun _ =>
        Consumes.bind Consumes.rest fun _ => Consumes.ret _
    · exact Consumes.bind fixed_u16.local.consumes fun _ => Consumes.bind fixed_u16.local.consumes fun _ =>
        Consumes.bind (Consumes.n fixed_f32.local.consumes _) fun _ => Consumes.ret _
theorem GridDataRecord.under : OnlyUnderflow GridDataRecord.deserialize := by
  refine OnlyUnderflow.bind (EnumSpec.fixed _).onlyUnderflow fun _ =>
    OnlyUnderflow.bind (EnumSpec.fixed _).onlyUnderflow fun t => OnlyUnderflow.bind ?_ fun _ => OnlyUnderflow.ret _
  unfold deserializeData
  split
  · exact OnlyUnderflow.bind fixed_u16.onlyUnderflow fun _ => OnlyUnderflow.bind (OnlyUnderflow.n fixed_u8.onlyUnderflow _) fun _ =>
      OnlyUnderflow.bind OnlyUnderflow.rest fun _ => OnlyUnderflow.ret _
  · split
    · exact OnlyUnderflow.bind fixed_f32.onlyUnderflow fun _ => OnlyUnderflow.bind fixed_f32.onlyUnderflow fun _ =>
        OnlyUnderflow.bind fixed_u16.onlyUnderflow fun _ => OnlyUnderflow.bind (OnlyUnderflow.n fixed_u16.onlyUnderflow _) fun _ =>
        OnlyUnderflow.bind OnlyUnderflow.rest fun _ => OnlyUnderflow.ret _
    · exact OnlyUnderflow.bind fixed_u16.onlyUnderflow fun _ => OnlyUnderflow.bind fixed_u16.onlyUnderflow fun _ =>
        OnlyUnderflow.bind (OnlyUnderflow.n fixed_f32.onlyUnderflow _) fun _ => OnlyUnderflow.ret _
instance : ConsumesDec GridDataRecord := ⟨GridDataRecord.consumes⟩
instance : UnderflowDec GridDataRecord := ⟨GridDataRecord.under⟩

/-! ### ModulationParameters, AntennaPattern -/

theorem ModulationParameters.writes (x : ModulationParameters) : Writes x.serialize (wire x) :=
  Writes.each _ fun e _ => writes_u8 e
instance : LawfulEnc ModulationParameters where
  writes x _ := x.writes
  ok x := (x.writes).ifOk
  len x := by
    show ((wire x.record_specific_fields).length : Int) = ((field_len x.record_specific_fields : Nat) : Int) + 0
    rw [len_exact]; omega
  appends x := x.writes.appends
instance : ExactEnc ModulationParameters := ⟨fun _ => trivial, fun _ => rfl, fun _ => rfl⟩

theorem AntennaPattern.writes (x : AntennaPattern) : Writes x.serialize (wire x) :=
  Writes.each _ fun e _ => writes_u8 e
instance : LawfulEnc AntennaPattern where
  writes x _ := x.writes
  ok x := (x.writes).ifOk
  len x := by
    show ((wire x.record_specific_fields).length : Int) = ((x.record_specific_fields.length : Nat) : Int) + 0
    rw [wire_bytes]; omega
  appends x := x.writes.appends
instance : ExactEnc AntennaPattern := ⟨fun _ => trivial, fun _ => rfl, fun _ => rfl⟩

/-- Reading `n ≠ 0` parameter octets. -/
theorem ModulationParameters.reads (x : ModulationParameters) {n : Nat} (h0 : n ≠ 0) (h : n < 256)
    (hx : n = x.record_specific_fields.length) :
    Reads (deserialize_with_len n : Get ModulationParameters) (wire x) x := by
  have hn : (UInt8.ofNat n).toNat = n := by simpa using h
  have h0' : UInt8.ofNat n ≠ 0 := fun e => h0 (by rw [← hn, e]; rfl)
  show Reads (if n < 256 then _ else _) _ _
  rw [if_pos h]
  unfold ModulationParameters.deserialize
  rw [if_neg h0', hn]
  have h1 : Reads (do return some (ModulationParameters.mk (← getN getU8 n)) : Get (Option ModulationParameters))
      (wire x) (some x) := Reads.last (Reads.counted hx fun e _ => reads_u8 e) (Reads.ret _)
  exact Reads.map (f := fun o : Option ModulationParameters => o.getD dflt) h1

/-- With a length of at most 255, exactly that many octets are read. -/
theorem ModulationParameters.fixed_with_len {n : Nat} (h : n < 256) :
    Fixed (deserialize_with_len n : Get ModulationParameters) n := by
  have hn : (UInt8.ofNat n).toNat = n := by simpa using h
  show Fixed (if n < 256 then _ else _) _
  rw [if_pos h]
  refine Fixed.map ?_
  unfold ModulationParameters.deserialize
  by_cases h0 : UInt8.ofNat n = 0
  · have : n = 0 := by rw [← hn, h0]; rfl
    subst this
    exact Fixed.ret _
  · rw [if_neg h0, hn]
    exact (Fixed.map (f := fun r => some (ModulationParameters.mk r)) (Fixed.n fixed_u8 n)).congr (by omega)

/-- Reading optional parameters with their length. -/
theorem ModulationParameters.reads_with_len (o : Option ModulationParameters) {n : UInt8}
    (h : n.toNat = (wire o).length) (h' : o ≠ some ⟨[]⟩) :
    Reads (deserialize_with_len n.toNat : Get (Option ModulationParameters)) (wire o) o := by
  show Reads (if n.toNat = 0 then _ else _) _ _
  cases o with
  | none => rw [if_pos (by simpa [wire] using h)]; exact Reads.ret none
  | some x =>
    have hl : (wire (some x)).length = x.record_specific_fields.length := by
      show (wire x.record_specific_fields).length = _
      rw [wire_bytes]
    rw [hl] at h
    have h0 : n.toNat ≠ 0 := by
      intro e
      apply h'
      obtain ⟨l⟩ := x
      have hl0 : l.length = 0 := h.symm.trans e
      rw [List.eq_nil_of_length_eq_zero hl0]
    rw [if_neg h0]
    exact Reads.map (f := some) (x.reads h0 n.toNat_lt h)

theorem ModulationParameters.fixed_opt {n : Nat} (h : n < 256) :
    Fixed (deserialize_with_len n : Get (Option ModulationParameters)) n := by
  show Fixed (if n = 0 then _ else _) _
  by_cases h0 : n = 0
  · rw [if_pos h0, h0]; exact Fixed.ret _
  · rw [if_neg h0]; exact Fixed.map (ModulationParameters.fixed_with_len h)

theorem ModulationParameters.with_len_local (n : UInt8) :
    Local (deserialize_with_len n.toNat : Get (Option ModulationParameters)) :=
  (ModulationParameters.fixed_opt n.toNat_lt).local

theorem ModulationParameters.with_len_under (n : Nat) (h : n < 256) :
    OnlyUnderflow (deserialize_with_len n : Get (Option ModulationParameters)) :=
  (ModulationParameters.fixed_opt h).onlyUnderflow

end Dis
