import Verif.Proofs.PduKind
import Verif.Proofs.PduGeneric
import Verif.Spec.Codes
/-
Facts about the 66 kinds used by the property theorems.
-/
namespace Dis
open PduBody (pduType family fieldsLen prep serializeBody deserializeBody)

theorem PduKind.type_code (k : PduKind) : (pduType k.Body).code = k.typeCode := by cases k <;> rfl
theorem PduKind.family_code (k : PduKind) : (family k.Body).code = k.familyCode := by cases k <;> rfl

theorem PduKind.prep_id (k : PduKind) (h : k ≠ .Transmitter) (x : k.Body) : prep x = x := by
  cases k <;> first | rfl | exact absurd rfl h

theorem PduKind.mem_all (k : PduKind) : k ∈ PduKind.all := by cases k <;> decide

theorem List.map_inj_of_nodup {α β : Type} {f : α → β} : ∀ {l : List α}, (l.map f).Nodup → ∀ {a b : α},
    a ∈ l → b ∈ l → f a = f b → a = b
  | [], _, a, b, h, _, _ => by cases h
  | x :: xs, hn, a, b, ha, hb, e => by
    simp only [List.map_cons, List.nodup_cons, List.mem_map, not_exists, not_and] at hn
    rcases List.mem_cons.mp ha with rfl | ha'
    · rcases List.mem_cons.mp hb with rfl | hb
      · rfl
      · exact absurd e.symm (hn.1 b hb)
    · rcases List.mem_cons.mp hb with rfl | hb
      · exact absurd e (hn.1 a ha')
      · exact map_inj_of_nodup hn.2 ha' hb e

theorem PduKind.typeCode_inj {k k' : PduKind} (h : k.typeCode = k'.typeCode) : k = k' :=
  List.map_inj_of_nodup (f := PduKind.typeCode) (l := PduKind.all) (by decide +kernel)
    k.mem_all k'.mem_all h

theorem PduKind.typeCode_assigned (k : PduKind) : k.typeCode ∈ PduType.spec.codes := by
  rw [← k.type_code]; exact (pduType k.Body).mem

theorem PduKind.typeCode_ne_zero (k : PduKind) : k.typeCode ≠ 0 := by cases k <;> decide

/-- The decoder's type test in terms of the code octet. -/
theorem PduKind.type_test (k : PduKind) (n : Nat) :
    PduType.spec.ofCode n = pduType k.Body ↔ n = k.typeCode := by
  constructor
  · intro h
    have hc := congrArg EnumVal.code h
    rw [k.type_code] at hc
    by_cases hm : n ∈ PduType.spec.codes
    · rw [EnumSpec.ofCode_of_mem hm] at hc; exact hc
    · rw [EnumSpec.ofCode_of_not_mem hm] at hc
      exact absurd hc.symm k.typeCode_ne_zero
  · intro h
    apply EnumVal.ext
    rw [k.type_code, h]
    exact EnumSpec.ofCode_of_mem k.typeCode_assigned

theorem debug_codes : PduType.spec.codes.all (fun c =>
    (PduType.spec.variants.find? (fun v => v.2 == c)).map Prod.fst == some (pduTypeName c)) = true := by
  decide +kernel

theorem PduType.debug_eq (t : PduType) : t.debug = pduTypeName t.code := by
  have h := List.all_eq_true.mp debug_codes t.code t.mem
  simp only [beq_iff_eq] at h
  unfold EnumVal.debug
  cases hf : PduType.spec.variants.find? (fun v => v.2 == t.code) with
  | none => rw [hf] at h; cases h
  | some v => rw [hf] at h; simpa using h

theorem pduTypeName_ofCode (n : Nat) : (PduType.spec.ofCode n).debug = pduTypeName n := by
  rw [PduType.debug_eq]
  by_cases hm : n ∈ PduType.spec.codes
  · rw [EnumSpec.ofCode_of_mem hm]
  · rw [EnumSpec.ofCode_of_not_mem hm]
    have h : PduType.spec.codes = List.range 73 := by decide +kernel
    rw [h, List.mem_range] at hm
    have : pduTypeNames.length = 73 := rfl
    unfold pduTypeName
    rw [List.getD_eq_getElem?_getD (i := n), List.getElem?_eq_none (by omega : pduTypeNames.length ≤ n)]
    rfl

/-! ### Fresh PDUs -/

theorem PduKind.default_len (k : PduKind) : 12 + fieldsLen (PduBody.default : k.Body) = k.ieeeOctets := by
  cases k <;> decide +kernel

theorem PduKind.default_prep (k : PduKind) : prep (PduBody.default : k.Body) = PduBody.default := by
  cases k <;> rfl

theorem PduKind.default_encodable (k : PduKind) : Dis.encodable (PduBody.default : k.Body) := by
  cases h : k.hasRecordSets with
  | false => exact k.encodable h _
  | true =>
    cases k <;> first
      | (exact absurd h (by decide))
      | (exact fun x hx => nomatch hx)

theorem PduKind.default_surplus (k : PduKind) :
    surplus (PduBody.default : k.Body) = if k = .EntityState then -11 else 0 := by
  cases h : k.exactLength with
  | true =>
    rw [(k.enc_exact h _).2, if_neg]
    rintro rfl
    exact absurd h (by decide)
  | false =>
    cases k <;> first
      | (exact absurd h (by decide))
      | decide +kernel

theorem Pdu.new_eq {B : Type} [PduBody B] {now : UInt32} (h : 12 + fieldsLen (PduBody.default : B) < 65536) :
    (Pdu.new now : Pdu B) =
      ⟨{ PduHeader.default now with
          pdu_type := pduType B, protocol_family := family B
          length := UInt16.ofNat (12 + fieldsLen (PduBody.default : B)) }, PduBody.default⟩ := by
  unfold Pdu.new Pdu.finalize Pdu.calculate_length Pdu.default
  simp only [PduHeader.LENGTH, h, if_true]
  rfl

end Dis
