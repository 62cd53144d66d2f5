import Verif.Proofs.RoundTrip
/-
C16 (enumeration decoders), C17 (enumerations round-trip), over the complete tables of
src/common/enums.rs.
-/
namespace Dis

/-! ### The tables -/

/-- Strictly increasing. -/
def increasing : List Nat → Bool
  | a :: b :: l => decide (a < b) && increasing (b :: l)
  | _ => true

theorem lt_of_increasing : ∀ (l : List Nat) (a : Nat), increasing (a :: l) = true → ∀ b ∈ l, a < b
  | [], _, _, b, hb => nomatch hb
  | x :: l, a, h, b, hb => by
    simp only [increasing, Bool.and_eq_true, decide_eq_true_eq] at h
    rcases List.mem_cons.mp hb with rfl | hb
    · exact h.1
    · exact Nat.lt_trans h.1 (lt_of_increasing l x h.2 b hb)

theorem nodup_of_increasing : ∀ l : List Nat, increasing l = true → l.Nodup
  | [], _ => .nil
  | a :: l, h => by
    refine List.nodup_cons.mpr ⟨fun hm => ?_, nodup_of_increasing l ?_⟩
    · exact Nat.lt_irrefl _ (lt_of_increasing l a h a hm)
    · cases l with
      | nil => rfl
      | cons b l => simp only [increasing, Bool.and_eq_true] at h; exact h.2

set_option maxRecDepth 20000 in
theorem allEnums_checked : (allEnums.all fun s => increasing s.codes &&
    s.codes.all fun c => decide (c < 256 ^ s.repr.octets)) = true := by decide +kernel

/-- No enumeration assigns a code twice, and every code fits the width the enumeration is read with. -/
theorem C17_codes_distinct_and_fit : ∀ s ∈ allEnums,
    (s.variants.map Prod.snd).Nodup ∧ ∀ v ∈ s.variants, v.2 < 256 ^ s.repr.octets := by
  intro s hs
  have h := List.all_eq_true.mp allEnums_checked s hs
  simp only [Bool.and_eq_true] at h
  refine ⟨nodup_of_increasing _ h.1, fun v hv => ?_⟩
  simpa using List.all_eq_true.mp h.2 v.2 (List.mem_map.mpr ⟨v, hv, rfl⟩)

/-! ### C16 -/

theorem debug_of_mem {s : EnumSpec} (hn : (s.variants.map Prod.snd).Nodup) {name : String} {n : Nat}
    (hm : (name, n) ∈ s.variants) (x : EnumVal s) (hx : x.code = n) : x.debug = name := by
  unfold EnumVal.debug
  cases hf : s.variants.find? (fun v => v.2 == x.code) with
  | none =>
    have := List.find?_eq_none.mp hf (name, n) hm
    simp [hx] at this
  | some v =>
    have h1 := List.mem_of_find?_eq_some hf
    have h2 := List.find?_some hf
    simp only [beq_iff_eq] at h2
    have := List.map_inj_of_nodup hn h1 hm (h2.trans hx)
    rw [this]

/-- Every enumeration with variants, on every input: fewer octets than its width panic; otherwise exactly
its width is taken and the value is the variant with the code those octets spell (most significant
first), or the declared default if no variant has it. -/
theorem C16_decode (s : EnumSpec) (hs : s ∈ allEnums) (prof : Profile) :
    (∀ b : Bytes, b.length < s.repr.octets → s.deserialize prof b = .error .bufferUnderflow) ∧
    (∀ b : Bytes, s.repr.octets ≤ b.length → ∃ n < 256 ^ s.repr.octets, b.take s.repr.octets = octets s.repr.octets n ∧
      ∃ x : EnumVal s, s.deserialize prof b = .ok (x, b.drop s.repr.octets) ∧
        (∀ name, (name, n) ∈ s.variants → x.code = n ∧ x.debug = name) ∧
        ((∀ name, (name, n) ∉ s.variants) → x.code = s.default)) := by
  refine ⟨fun b h => (EnumSpec.fixed s).run_short prof h, fun b h => ?_⟩
  obtain ⟨n, hn, hb⟩ := exists_octets_take b h
  refine ⟨n, hn, hb.symm, s.ofCode n, ?_, ?_, ?_⟩
  · have := EnumSpec.readsAt_num s n hn (b.drop s.repr.octets) prof
    rwa [hb, List.take_append_drop] at this
  · intro name hm
    have hc : n ∈ s.codes := List.mem_map.mpr ⟨_, hm, rfl⟩
    have he := EnumSpec.ofCode_of_mem hc
    exact ⟨he, debug_of_mem (C17_codes_distinct_and_fit s hs).1 hm _ he⟩
  · intro hm
    rw [EnumSpec.ofCode_of_not_mem]
    · rfl
    · intro hc
      obtain ⟨⟨name, _⟩, hv, rfl⟩ := List.mem_map.mp hc
      exact hm name hv

/-- The three enumerations without variants: their decoder panics on every input, reading nothing. -/
theorem C16_empty (prof : Profile) (b : Bytes) :
    GriddedDataFieldNumber.deserialize prof b = .error .unimplemented ∧
    CivilianSubmarineSubcategories.deserialize prof b = .error .unimplemented ∧
    CivilianSubmersibleSubcategories.deserialize prof b = .error .unimplemented := ⟨rfl, rfl, rfl⟩

/-- 402 enumerations are covered; for instance the dead-reckoning algorithms, of which 4 is one and 77
is none. -/
example : allEnums.length = 402 ∧ DeadReckoningAlgorithm.spec ∈ allEnums := by
  exact ⟨by decide +kernel, List.mem_of_getElem? (i := 26) rfl⟩
example : ∃ x : DeadReckoningAlgorithm, DeadReckoningAlgorithm.deserialize ⟨true⟩ [4, 9] = .ok (x, [9]) ∧
    x.code = 4 ∧ x.debug = "DRMHighSpeedorManeuveringEntitywithExtrapolationofOrientation" := by
  exact ⟨⟨4, by decide⟩, by decide +kernel, rfl, by decide +kernel⟩
example : ∃ x : DeadReckoningAlgorithm, DeadReckoningAlgorithm.deserialize ⟨true⟩ [77, 9] = .ok (x, [9]) ∧
    x.code = 0 := by
  exact ⟨⟨0, by decide⟩, by decide +kernel, rfl⟩

/-! ### C17 -/

/-- What it means for the three field-trait implementations of an enumeration to agree. -/
def FieldEnum.Sound (e : FieldEnum) : Prop := ∀ x : EnumVal e.spec,
  e.len x = e.spec.repr.octets ∧ x.code < 256 ^ e.spec.repr.octets ∧
  (∀ prof buf, e.ser x prof buf = .ok ((), buf ++ octets e.spec.repr.octets x.code)) ∧
  (∀ prof rest, e.de prof (octets e.spec.repr.octets x.code ++ rest) = .ok (x, rest))

theorem FieldEnum.sound_of (s : EnumSpec) [FieldSerialize (EnumVal s)] [FieldDeserialize (EnumVal s)]
    [FieldLen (EnumVal s)] [LawfulEnc (EnumVal s)] [LawfulDec (EnumVal s)] [EnumFits s] :
    (FieldEnum.of s).Sound := by
  intro (x : EnumVal s)
  have hw : ∀ prof buf, serialize_field x prof buf = .ok ((), buf ++ wire x) := writes_exact x
  have hr : ∀ prof rest, (deserialize_field : Get (EnumVal s)) prof (wire x ++ rest) = .ok (x, rest) :=
    reads_exact x
  refine ⟨?_, EnumFits.fits (s := s) _ x.mem, hw, hr⟩
  show (field_len x : Nat) = s.repr.octets
  rw [len_exact x]
  exact octets_length _ _

/-- Every enumeration usable as a field: the length reported, the octets written and the octets read
agree, every code fits, what is written is the code, most significant octet first, and it decodes back
to the same variant. -/
theorem C17_roundtrip : ∀ e ∈ fieldEnums, e.Sound := by
  unfold fieldEnums
  repeat' (refine List.forall_mem_cons.mpr ⟨FieldEnum.sound_of _, ?_⟩)
  exact fun _ h => nomatch h

example : fieldEnums.length = 54 := rfl

end Dis
