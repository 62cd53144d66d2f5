import Verif.Spec.HeaderLayout
import Verif.Proofs.LayoutHeads
import Verif.Proofs.Header
/-
Layout of the two headers.
-/
namespace Dis

def PduStatusRecord.slots : List (Slot PduStatusRecord) := [Slot.u8 0 (·.bits)]
theorem PduStatusRecord.written (x : PduStatusRecord) : Written PduStatusRecord.slots x (wire x) :=
  written_one rfl rfl x.bits.toNat_lt
theorem PduStatusRecord.agree {x y : PduStatusRecord} (h : Agree PduStatusRecord.slots x y) : x = y := by
  cases x; cases y; congr 1; exact UInt8.toNat_inj.mp h.one

def PduHeader.slots : List (Slot PduHeader) :=
  Slot.cons (·.protocol_version) [Slot.enum 0 1 id] 1 <|
  Slot.cons (·.exercise_id) [Slot.u8 0 id] 1 <|
  Slot.cons (·.pdu_type) [Slot.enum 0 1 id] 1 <|
  Slot.cons (·.protocol_family) [Slot.enum 0 1 id] 1 <|
  Slot.cons (·.timestamp) [Slot.u32 0 id] 4 <|
  Slot.cons (·.length) [Slot.u16 0 id] 2 <|
  Slot.cons (·.status_record) PduStatusRecord.slots 1 <|
  Slot.cons (·.padding) [Slot.u8 0 id] 1 <|
  []
theorem PduHeader.layout_eq : PduHeader.layout = PduHeader.slots := (rfl)
theorem PduHeader.written (x : PduHeader) : Written PduHeader.slots x (wire x) :=
  Written.cons (written_enum rfl x.protocol_version) (octets_length _ _) <|
  Written.cons (written_u8 x.exercise_id) (octets_length _ _) <|
  Written.cons (written_enum rfl x.pdu_type) (octets_length _ _) <|
  Written.cons (written_enum rfl x.protocol_family) (octets_length _ _) <|
  Written.cons (written_u32 x.timestamp) (octets_length _ _) <|
  Written.cons (written_u16 x.length) (octets_length _ _) <|
  Written.cons (PduStatusRecord.written x.status_record) (octets_length _ _) <|
  Written.last (written_u8 x.padding)
theorem PduHeader.finds : Finds PduHeader.deserialize (ReadFrom PduHeader.slots) := FindsAt.finds <|
  FindsAt.cons (π := fun x : PduHeader => x.protocol_version) (EnumSpec.fixed _) (EnumSpec.finds _ rfl) fun _ =>
  FindsAt.cons (π := fun x : PduHeader => x.exercise_id) fixed_u8 finds_u8 fun _ =>
  FindsAt.cons (π := fun x : PduHeader => x.pdu_type) (EnumSpec.fixed _) (EnumSpec.finds _ rfl) fun _ =>
  FindsAt.cons (π := fun x : PduHeader => x.protocol_family) (EnumSpec.fixed _) (EnumSpec.finds _ rfl) fun _ =>
  FindsAt.cons (π := fun x : PduHeader => x.timestamp) fixed_u32 finds_u32 fun _ =>
  FindsAt.cons (π := fun x : PduHeader => x.length) fixed_u16 finds_u16 fun _ =>
  FindsAt.cons (π := fun x : PduHeader => x.status_record.bits) (S := [Slot.u8 0 id]) fixed_u8 finds_u8 fun _ =>
  FindsAt.cons (π := fun x : PduHeader => x.padding) fixed_u8 finds_u8 fun _ =>
  FindsAt.ret ⟨⟨⟨⟨⟨⟨⟨⟨trivial, rfl⟩, rfl⟩, rfl⟩, rfl⟩, rfl⟩, rfl⟩, rfl⟩, rfl⟩
theorem PduHeader.agree {x y : PduHeader} (h : Agree PduHeader.slots x y) : x = y := by
  have e0 : x.protocol_version = y.protocol_version := agree_enum (Agree.left h)
  have h := Agree.right h
  have e1 : x.exercise_id = y.exercise_id := agree_u8 (Agree.left h)
  have h := Agree.right h
  have e2 : x.pdu_type = y.pdu_type := agree_enum (Agree.left h)
  have h := Agree.right h
  have e3 : x.protocol_family = y.protocol_family := agree_enum (Agree.left h)
  have h := Agree.right h
  have e4 : x.timestamp = y.timestamp := agree_u32 (Agree.left h)
  have h := Agree.right h
  have e5 : x.length = y.length := agree_u16 (Agree.left h)
  have h := Agree.right h
  have e6 : x.status_record = y.status_record := PduStatusRecord.agree (Agree.left h)
  have h := Agree.right h
  have e7 : x.padding = y.padding := agree_u8 (Agree.left h)
  cases x; cases y
  dsimp only at e0 e1 e2 e3 e4 e5 e6 e7
  subst e0 e1 e2 e3 e4 e5 e6 e7
  rfl

def LiveEntityPduHeader.slots : List (Slot LiveEntityPduHeader) :=
  Slot.cons (·.protocol_version) [Slot.enum 0 1 id] 1 <|
  Slot.cons (·.exercise_id) [Slot.u8 0 id] 1 <|
  Slot.cons (·.pdu_type) [Slot.enum 0 1 id] 1 <|
  Slot.cons (·.protocol_family) [Slot.enum 0 1 id] 1 <|
  Slot.cons (·.timestamp) [Slot.u32 0 id] 4 <|
  Slot.cons (·.length) [Slot.u16 0 id] 2 <|
  Slot.cons (·.subprotocol_number) [Slot.enum 0 1 id] 1 <|
  Slot.cons (·.padding) [Slot.u8 0 id] 1 <|
  []
theorem LiveEntityPduHeader.layout_eq : LiveEntityPduHeader.layout = LiveEntityPduHeader.slots := (rfl)
theorem LiveEntityPduHeader.written (x : LiveEntityPduHeader) : Written LiveEntityPduHeader.slots x (wire x) :=
  Written.cons (written_enum rfl x.protocol_version) (octets_length _ _) <|
  Written.cons (written_u8 x.exercise_id) (octets_length _ _) <|
  Written.cons (written_enum rfl x.pdu_type) (octets_length _ _) <|
  Written.cons (written_enum rfl x.protocol_family) (octets_length _ _) <|
  Written.cons (written_u32 x.timestamp) (octets_length _ _) <|
  Written.cons (written_u16 x.length) (octets_length _ _) <|
  Written.cons (written_enum rfl x.subprotocol_number) (octets_length _ _) <|
  Written.last (written_u8 x.padding)
theorem LiveEntityPduHeader.finds : Finds LiveEntityPduHeader.deserialize (ReadFrom LiveEntityPduHeader.slots) :=
  FindsAt.finds <|
  FindsAt.cons (π := fun x : LiveEntityPduHeader => x.protocol_version) (EnumSpec.fixed _) (EnumSpec.finds _ rfl) fun _ =>
  FindsAt.cons (π := fun x : LiveEntityPduHeader => x.exercise_id) fixed_u8 finds_u8 fun _ =>
  FindsAt.cons (π := fun x : LiveEntityPduHeader => x.pdu_type) (EnumSpec.fixed _) (EnumSpec.finds _ rfl) fun _ =>
  FindsAt.cons (π := fun x : LiveEntityPduHeader => x.protocol_family) (EnumSpec.fixed _) (EnumSpec.finds _ rfl) fun _ =>
  FindsAt.cons (π := fun x : LiveEntityPduHeader => x.timestamp) fixed_u32 finds_u32 fun _ =>
  FindsAt.cons (π := fun x : LiveEntityPduHeader => x.length) fixed_u16 finds_u16 fun _ =>
  FindsAt.cons (π := fun x : LiveEntityPduHeader => x.subprotocol_number) (EnumSpec.fixed _) (EnumSpec.finds _ rfl) fun _ =>
  FindsAt.cons (π := fun x : LiveEntityPduHeader => x.padding) fixed_u8 finds_u8 fun _ =>
  FindsAt.ret ⟨⟨⟨⟨⟨⟨⟨⟨trivial, rfl⟩, rfl⟩, rfl⟩, rfl⟩, rfl⟩, rfl⟩, rfl⟩, rfl⟩
theorem LiveEntityPduHeader.agree {x y : LiveEntityPduHeader} (h : Agree LiveEntityPduHeader.slots x y) : x = y := by
  have e0 : x.protocol_version = y.protocol_version := agree_enum (Agree.left h)
  have h := Agree.right h
  have e1 : x.exercise_id = y.exercise_id := agree_u8 (Agree.left h)
  have h := Agree.right h
  have e2 : x.pdu_type = y.pdu_type := agree_enum (Agree.left h)
  have h := Agree.right h
  have e3 : x.protocol_family = y.protocol_family := agree_enum (Agree.left h)
  have h := Agree.right h
  have e4 : x.timestamp = y.timestamp := agree_u32 (Agree.left h)
  have h := Agree.right h
  have e5 : x.length = y.length := agree_u16 (Agree.left h)
  have h := Agree.right h
  have e6 : x.subprotocol_number = y.subprotocol_number := agree_enum (Agree.left h)
  have h := Agree.right h
  have e7 : x.padding = y.padding := agree_u8 (Agree.left h)
  cases x; cases y
  dsimp only at e0 e1 e2 e3 e4 e5 e6 e7
  subst e0 e1 e2 e3 e4 e5 e6 e7
  rfl

/-- A table after `n` octets. -/
theorem Written.after {B : Type} {T : List (Slot B)} {x : B} {w v : Bytes} {n : Nat} (hn : w.length = n)
    (h : Written T x v) : Written (T.map (Slot.shift n)) x (w ++ v) := by
  intro s hs
  obtain ⟨t, ht, rfl⟩ := List.mem_map.mp hs
  obtain ⟨a, b⟩ := h t ht
  have a' : t.offset + t.width ≤ v.length := a
  refine ⟨?_, ?_⟩
  · show n + t.offset + t.width ≤ _
    rw [List.length_append]; omega
  · show bigEndian (((w ++ v).drop (n + t.offset)).take t.width) = t.transmitted x
    rw [← b, ← hn, List.drop_append]
    show _ = bigEndian ((v.drop t.offset).take t.width)
    congr 2
    rw [List.drop_eq_nil_of_le (by omega), List.nil_append]
    congr 1; omega

theorem ReadFrom.after {B : Type} {T : List (Slot B)} {x : B} {b : Bytes} {n : Nat} (hn : n ≤ b.length)
    (h : ReadFrom T x (b.drop n)) : ReadFrom (T.map (Slot.shift n)) x b := by
  intro s hs
  obtain ⟨t, ht, rfl⟩ := List.mem_map.mp hs
  obtain ⟨a, e⟩ := h t ht
  have a' : t.offset + t.width ≤ (b.drop n).length := a
  rw [List.length_drop] at a'
  refine ⟨?_, ?_⟩
  · show n + t.offset + t.width ≤ _
    omega
  · show t.value x = t.read (bigEndian ((b.drop (n + t.offset)).take t.width))
    rw [e, Slot.found, List.drop_drop]

end Dis
