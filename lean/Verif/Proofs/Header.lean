import Verif.Spec.HeaderWire
import Verif.Proofs.EnumLaws
/-
The two headers: what their codecs do.
-/
namespace Dis

theorem writes_status (s : PduStatusRecord) : Writes (putU8 s.to_u8) (wire s) := writes_u8 s.bits
theorem reads_status (s : PduStatusRecord) : Reads getU8 (wire s) s.bits := reads_u8 s.bits

theorem PduHeader.writes (h : PduHeader) : Writes h.serialize (wire h) :=
  Writes.seq (writes_enum8 h.protocol_version rfl) <|
  Writes.seq (writes_u8 h.exercise_id) <|
  Writes.seq (writes_enum8 h.pdu_type rfl) <|
  Writes.seq (writes_enum8 h.protocol_family rfl) <|
  Writes.seq (writes_u32 h.timestamp) <|
  Writes.seq (writes_u16 h.length) <|
  Writes.seq (writes_status h.status_record) <|
  writes_u8 h.padding

theorem PduHeader.reads (h : PduHeader) : Reads PduHeader.deserialize (wire h) h :=
  Reads.bind (EnumSpec.reads h.protocol_version) <|
  Reads.bind (reads_u8 h.exercise_id) <|
  Reads.bind (EnumSpec.reads h.pdu_type) <|
  Reads.bind (EnumSpec.reads h.protocol_family) <|
  Reads.bind (reads_u32 h.timestamp) <|
  Reads.bind (reads_u16 h.length) <|
  Reads.bind (reads_status h.status_record) <|
  Reads.last (reads_u8 h.padding) (Reads.ret _)

theorem PduHeader.fixed : Fixed PduHeader.deserialize 12 := Fixed.congr (
  Fixed.bind (EnumSpec.fixed _) fun _ =>
  Fixed.bind fixed_u8 fun _ =>
  Fixed.bind (EnumSpec.fixed _) fun _ =>
  Fixed.bind (EnumSpec.fixed _) fun _ =>
  Fixed.bind fixed_u32 fun _ =>
  Fixed.bind fixed_u16 fun _ =>
  Fixed.bind fixed_u8 fun _ =>
  Fixed.bind fixed_u8 fun _ =>
  Fixed.ret _) rfl

theorem PduHeader.wire_length (h : PduHeader) : (wire h).length = 12 := h.reads.length_eq fixed

theorem LiveEntityPduHeader.writes (h : LiveEntityPduHeader) : Writes h.serialize (wire h) :=
  Writes.seq (writes_enum8 h.protocol_version rfl) <|
  Writes.seq (writes_u8 h.exercise_id) <|
  Writes.seq (writes_enum8 h.pdu_type rfl) <|
  Writes.seq (writes_enum8 h.protocol_family rfl) <|
  Writes.seq (writes_u32 h.timestamp) <|
  Writes.seq (writes_u16 h.length) <|
  Writes.seq (writes_enum8 h.subprotocol_number rfl) <|
  writes_u8 h.padding

theorem LiveEntityPduHeader.reads (h : LiveEntityPduHeader) :
    Reads LiveEntityPduHeader.deserialize (wire h) h :=
  Reads.bind (EnumSpec.reads h.protocol_version) <|
  Reads.bind (reads_u8 h.exercise_id) <|
  Reads.bind (EnumSpec.reads h.pdu_type) <|
  Reads.bind (EnumSpec.reads h.protocol_family) <|
  Reads.bind (reads_u32 h.timestamp) <|
  Reads.bind (reads_u16 h.length) <|
  Reads.bind (EnumSpec.reads h.subprotocol_number) <|
  Reads.last (reads_u8 h.padding) (Reads.ret _)

theorem LiveEntityPduHeader.fixed : Fixed LiveEntityPduHeader.deserialize 12 := Fixed.congr (
  Fixed.bind (EnumSpec.fixed _) fun _ =>
  Fixed.bind fixed_u8 fun _ =>
  Fixed.bind (EnumSpec.fixed _) fun _ =>
  Fixed.bind (EnumSpec.fixed _) fun _ =>
  Fixed.bind fixed_u32 fun _ =>
  Fixed.bind fixed_u16 fun _ =>
  Fixed.bind (EnumSpec.fixed _) fun _ =>
  Fixed.bind fixed_u8 fun _ =>
  Fixed.ret _) rfl

theorem LiveEntityPduHeader.wire_length (h : LiveEntityPduHeader) : (wire h).length = 12 :=
  h.reads.length_eq fixed

theorem reads_octet (x : UInt8) : Reads getU8 [x] x := by
  have := reads_u8 x
  simpa [wire, octets] using this

theorem reads_octets {α : Type} (w : Bytes) {n : Nat} (h : w.length = n) (f : Nat → α) :
    Reads (do return f (beVal (← getBytes n))) w (f (beVal w)) :=
  Reads.map (Reads.bytes w h)

theorem EnumSpec.reads_octet {s : EnumSpec} (h : s.repr = .u8) (x : UInt8) :
    Reads s.deserialize [x] (s.ofCode x.toNat) := by
  unfold EnumSpec.deserialize
  rw [h]
  exact Reads.map (Dis.reads_octet x)

/-- An explicit run of the header decoder on twelve octets. -/
theorem PduHeader.reads_raw (v e t f t3 t2 t1 t0 l1 l0 s p : UInt8) :
    Reads PduHeader.deserialize [v, e, t, f, t3, t2, t1, t0, l1, l0, s, p]
      { protocol_version := ProtocolVersion.spec.ofCode v.toNat
        exercise_id := e
        pdu_type := PduType.spec.ofCode t.toNat
        protocol_family := ProtocolFamily.spec.ofCode f.toNat
        timestamp := UInt32.ofNat (beVal [t3, t2, t1, t0])
        length := UInt16.ofNat (beVal [l1, l0])
        status_record := ⟨s⟩
        padding := p } :=
  Reads.bind (EnumSpec.reads_octet rfl v) <|
  Reads.bind (reads_octet e) <|
  Reads.bind (EnumSpec.reads_octet rfl t) <|
  Reads.bind (EnumSpec.reads_octet rfl f) <|
  Reads.bind (reads_octets [t3, t2, t1, t0] rfl UInt32.ofNat) <|
  Reads.bind (reads_octets [l1, l0] rfl UInt16.ofNat) <|
  Reads.bind (reads_octet s) <|
  Reads.last (reads_octet p) (Reads.ret _)

/-- An explicit run of the live-entity header decoder on twelve octets. -/
theorem LiveEntityPduHeader.reads_raw (v e t f t3 t2 t1 t0 l1 l0 s p : UInt8) :
    Reads LiveEntityPduHeader.deserialize [v, e, t, f, t3, t2, t1, t0, l1, l0, s, p]
      { protocol_version := ProtocolVersion.spec.ofCode v.toNat
        exercise_id := e
        pdu_type := PduType.spec.ofCode t.toNat
        protocol_family := ProtocolFamily.spec.ofCode f.toNat
        timestamp := UInt32.ofNat (beVal [t3, t2, t1, t0])
        length := UInt16.ofNat (beVal [l1, l0])
        subprotocol_number := DISLiveEntitySubprotocolNumber.spec.ofCode s.toNat
        padding := p } :=
  Reads.bind (EnumSpec.reads_octet rfl v) <|
  Reads.bind (reads_octet e) <|
  Reads.bind (EnumSpec.reads_octet rfl t) <|
  Reads.bind (EnumSpec.reads_octet rfl f) <|
  Reads.bind (reads_octets [t3, t2, t1, t0] rfl UInt32.ofNat) <|
  Reads.bind (reads_octets [l1, l0] rfl UInt16.ofNat) <|
  Reads.bind (EnumSpec.reads_octet rfl s) <|
  Reads.last (reads_octet p) (Reads.ret _)

/-- A string of at least twelve octets, taken apart. -/
theorem twelve {b : Bytes} (h : 12 ≤ b.length) : ∃ v e t f t3 t2 t1 t0 l1 l0 s p,
    b = [v, e, t, f, t3, t2, t1, t0, l1, l0, s, p] ++ b.drop 12 := by
  match b, h with
  | v :: e :: t :: f :: t3 :: t2 :: t1 :: t0 :: l1 :: l0 :: s :: p :: r, _ =>
    exact ⟨v, e, t, f, t3, t2, t1, t0, l1, l0, s, p, by simp⟩

/-- The type the header decoder finds is the one coded by octet 2; nothing but twelve octets is
consumed. -/
theorem PduHeader.deserialize_type (prof : Profile) {b : Bytes} (h : 12 ≤ b.length) :
    ∃ hd, PduHeader.deserialize prof b = .ok (hd, b.drop 12) ∧
      hd.pdu_type = PduType.spec.ofCode (b.getD 2 0).toNat := by
  obtain ⟨v, e, t, f, t3, t2, t1, t0, l1, l0, s, p, hb⟩ := twelve h
  have hr := PduHeader.reads_raw v e t f t3 t2 t1 t0 l1 l0 s p prof (b.drop 12)
  rw [← hb] at hr
  exact ⟨_, hr, by rw [hb]; rfl⟩

end Dis
