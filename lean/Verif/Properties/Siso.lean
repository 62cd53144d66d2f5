import Verif.Proofs.SisoRest
import Verif.Properties.Enums
/-
C47: the enumerations carry the codes and widths of SISO-REF-010 / IEEE 1278.1.
-/
set_option maxRecDepth 20000
namespace Dis

/-- The crate's table and the standard's. -/
theorem sisoTables_agree : ∀ st ∈ sisoTables,
    st.1.repr.octets = st.2.octets ∧ st.1.default = st.2.fallback ∧ st.1.variants = st.2.rows := by
  unfold sisoTables
  repeat (refine List.forall_mem_cons.mpr ⟨⟨rfl, rfl, rfl⟩, ?_⟩)
  exact fun _ h => nomatch h

theorem sisoTables_known : ∀ st ∈ sisoTables, st.1 ∈ allEnums := by
  unfold sisoTables
  refine List.forall_mem_cons.mpr ⟨List.mem_of_getElem? (i := 41) rfl, ?_⟩
  refine List.forall_mem_cons.mpr ⟨List.mem_of_getElem? (i := 42) rfl, ?_⟩
  refine List.forall_mem_cons.mpr ⟨List.mem_of_getElem? (i := 44) rfl, ?_⟩
  refine List.forall_mem_cons.mpr ⟨List.mem_of_getElem? (i := 133) rfl, ?_⟩
  refine List.forall_mem_cons.mpr ⟨List.mem_of_getElem? (i := 134) rfl, ?_⟩
  refine List.forall_mem_cons.mpr ⟨List.mem_of_getElem? (i := 194) rfl, ?_⟩
  refine List.forall_mem_cons.mpr ⟨List.mem_of_getElem? (i := 193) rfl, ?_⟩
  refine List.forall_mem_cons.mpr ⟨List.mem_of_getElem? (i := 195) rfl, ?_⟩
  refine List.forall_mem_cons.mpr ⟨List.mem_of_getElem? (i := 25) rfl, ?_⟩
  refine List.forall_mem_cons.mpr ⟨List.mem_of_getElem? (i := 192) rfl, ?_⟩
  refine List.forall_mem_cons.mpr ⟨List.mem_of_getElem? (i := 26) rfl, ?_⟩
  refine List.forall_mem_cons.mpr ⟨List.mem_of_getElem? (i := 35) rfl, ?_⟩
  refine List.forall_mem_cons.mpr ⟨List.mem_of_getElem? (i := 180) rfl, ?_⟩
  refine List.forall_mem_cons.mpr ⟨List.mem_of_getElem? (i := 48) rfl, ?_⟩
  refine List.forall_mem_cons.mpr ⟨List.mem_of_getElem? (i := 4) rfl, ?_⟩
  refine List.forall_mem_cons.mpr ⟨List.mem_of_getElem? (i := 27) rfl, ?_⟩
  refine List.forall_mem_cons.mpr ⟨List.mem_of_getElem? (i := 45) rfl, ?_⟩
  refine List.forall_mem_cons.mpr ⟨List.mem_of_getElem? (i := 3) rfl, ?_⟩
  refine List.forall_mem_cons.mpr ⟨List.mem_of_getElem? (i := 255) rfl, ?_⟩
  refine List.forall_mem_cons.mpr ⟨List.mem_of_getElem? (i := 146) rfl, ?_⟩
  refine List.forall_mem_cons.mpr ⟨List.mem_of_getElem? (i := 145) rfl, ?_⟩
  refine List.forall_mem_cons.mpr ⟨List.mem_of_getElem? (i := 168) rfl, ?_⟩
  refine List.forall_mem_cons.mpr ⟨List.mem_of_getElem? (i := 167) rfl, ?_⟩
  refine List.forall_mem_cons.mpr ⟨List.mem_of_getElem? (i := 165) rfl, ?_⟩
  refine List.forall_mem_cons.mpr ⟨List.mem_of_getElem? (i := 169) rfl, ?_⟩
  refine List.forall_mem_cons.mpr ⟨List.mem_of_getElem? (i := 119) rfl, ?_⟩
  refine List.forall_mem_cons.mpr ⟨List.mem_of_getElem? (i := 117) rfl, ?_⟩
  refine List.forall_mem_cons.mpr ⟨List.mem_of_getElem? (i := 120) rfl, ?_⟩
  refine List.forall_mem_cons.mpr ⟨List.mem_of_getElem? (i := 141) rfl, ?_⟩
  refine List.forall_mem_cons.mpr ⟨List.mem_of_getElem? (i := 40) rfl, ?_⟩
  refine List.forall_mem_cons.mpr ⟨List.mem_of_getElem? (i := 116) rfl, ?_⟩
  refine List.forall_mem_cons.mpr ⟨List.mem_of_getElem? (i := 38) rfl, ?_⟩
  refine List.forall_mem_cons.mpr ⟨List.mem_of_getElem? (i := 46) rfl, ?_⟩
  refine List.forall_mem_cons.mpr ⟨List.mem_of_getElem? (i := 36) rfl, ?_⟩
  refine List.forall_mem_cons.mpr ⟨List.mem_of_getElem? (i := 115) rfl, ?_⟩
  refine List.forall_mem_cons.mpr ⟨List.mem_of_getElem? (i := 143) rfl, ?_⟩
  refine List.forall_mem_cons.mpr ⟨List.mem_of_getElem? (i := 105) rfl, ?_⟩
  refine List.forall_mem_cons.mpr ⟨List.mem_of_getElem? (i := 104) rfl, ?_⟩
  refine List.forall_mem_cons.mpr ⟨List.mem_of_getElem? (i := 103) rfl, ?_⟩
  refine List.forall_mem_cons.mpr ⟨List.mem_of_getElem? (i := 102) rfl, ?_⟩
  refine List.forall_mem_cons.mpr ⟨List.mem_of_getElem? (i := 88) rfl, ?_⟩
  refine List.forall_mem_cons.mpr ⟨List.mem_of_getElem? (i := 87) rfl, ?_⟩
  refine List.forall_mem_cons.mpr ⟨List.mem_of_getElem? (i := 86) rfl, ?_⟩
  refine List.forall_mem_cons.mpr ⟨List.mem_of_getElem? (i := 29) rfl, ?_⟩
  refine List.forall_mem_cons.mpr ⟨List.mem_of_getElem? (i := 0) rfl, ?_⟩
  refine List.forall_mem_cons.mpr ⟨List.mem_of_getElem? (i := 2) rfl, ?_⟩
  refine List.forall_mem_cons.mpr ⟨List.mem_of_getElem? (i := 1) rfl, ?_⟩
  exact fun _ h => nomatch h

theorem moreSisoTables_agree : ∀ st ∈ moreSisoTables,
    st.1.repr.octets = st.2.octets ∧ st.1.default = st.2.fallback ∧ st.1.variants = st.2.rows := by
  unfold moreSisoTables
  repeat (refine List.forall_mem_cons.mpr ⟨⟨rfl, rfl, rfl⟩, ?_⟩)
  exact fun _ h => nomatch h

theorem moreSisoTables_known : ∀ st ∈ moreSisoTables, st.1 ∈ allEnums := by
  unfold moreSisoTables
  refine List.forall_mem_cons.mpr ⟨List.mem_of_getElem? (i := 28) rfl, ?_⟩
  refine List.forall_mem_cons.mpr ⟨List.mem_of_getElem? (i := 37) rfl, ?_⟩
  refine List.forall_mem_cons.mpr ⟨List.mem_of_getElem? (i := 52) rfl, ?_⟩
  refine List.forall_mem_cons.mpr ⟨List.mem_of_getElem? (i := 53) rfl, ?_⟩
  refine List.forall_mem_cons.mpr ⟨List.mem_of_getElem? (i := 91) rfl, ?_⟩
  refine List.forall_mem_cons.mpr ⟨List.mem_of_getElem? (i := 124) rfl, ?_⟩
  refine List.forall_mem_cons.mpr ⟨List.mem_of_getElem? (i := 147) rfl, ?_⟩
  refine List.forall_mem_cons.mpr ⟨List.mem_of_getElem? (i := 148) rfl, ?_⟩
  refine List.forall_mem_cons.mpr ⟨List.mem_of_getElem? (i := 166) rfl, ?_⟩
  refine List.forall_mem_cons.mpr ⟨List.mem_of_getElem? (i := 175) rfl, ?_⟩
  refine List.forall_mem_cons.mpr ⟨List.mem_of_getElem? (i := 212) rfl, ?_⟩
  refine List.forall_mem_cons.mpr ⟨List.mem_of_getElem? (i := 214) rfl, ?_⟩
  refine List.forall_mem_cons.mpr ⟨List.mem_of_getElem? (i := 181) rfl, ?_⟩
  refine List.forall_mem_cons.mpr ⟨List.mem_of_getElem? (i := 182) rfl, ?_⟩
  refine List.forall_mem_cons.mpr ⟨List.mem_of_getElem? (i := 183) rfl, ?_⟩
  refine List.forall_mem_cons.mpr ⟨List.mem_of_getElem? (i := 184) rfl, ?_⟩
  refine List.forall_mem_cons.mpr ⟨List.mem_of_getElem? (i := 185) rfl, ?_⟩
  refine List.forall_mem_cons.mpr ⟨List.mem_of_getElem? (i := 186) rfl, ?_⟩
  refine List.forall_mem_cons.mpr ⟨List.mem_of_getElem? (i := 187) rfl, ?_⟩
  refine List.forall_mem_cons.mpr ⟨List.mem_of_getElem? (i := 188) rfl, ?_⟩
  refine List.forall_mem_cons.mpr ⟨List.mem_of_getElem? (i := 267) rfl, ?_⟩
  refine List.forall_mem_cons.mpr ⟨List.mem_of_getElem? (i := 295) rfl, ?_⟩
  refine List.forall_mem_cons.mpr ⟨List.mem_of_getElem? (i := 39) rfl, ?_⟩
  refine List.forall_mem_cons.mpr ⟨List.mem_of_getElem? (i := 47) rfl, ?_⟩
  exact fun _ h => nomatch h

theorem allSisoTables_agree (st) (h : st ∈ allSisoTables) :
    st.1.repr.octets = st.2.octets ∧ st.1.default = st.2.fallback ∧ st.1.variants = st.2.rows := by
  unfold allSisoTables at h
  simp only [List.mem_append] at h
  rcases h with ((((((h | h) | h) | h) | h) | h) | h) | h
  · exact sisoTables_agree st h
  · exact moreSisoTables_agree st h
  · exact restSisoTables1_agree st h
  · exact restSisoTables2_agree st h
  · exact restSisoTables3_agree st h
  · exact restSisoTables4_agree st h
  · exact restSisoTables5_agree st h
  · exact restSisoTables6_agree st h

theorem allSisoTables_known (st) (h : st ∈ allSisoTables) : st.1 ∈ allEnums := by
  unfold allSisoTables at h
  simp only [List.mem_append] at h
  rcases h with ((((((h | h) | h) | h) | h) | h) | h) | h
  · exact sisoTables_known st h
  · exact moreSisoTables_known st h
  · exact restSisoTables1_known st h
  · exact restSisoTables2_known st h
  · exact restSisoTables3_known st h
  · exact restSisoTables4_known st h
  · exact restSisoTables5_known st h
  · exact restSisoTables6_known st h

/-- Reading: every code of the standard's table is read, in the standard's width, as the variant of that
name; every other number of that width is read as the fallback. -/
theorem C47_read : ∀ st ∈ allSisoTables, ∀ prof rest,
    (∀ row ∈ st.2.rows, row.2 < 256 ^ st.2.octets ∧
      ∃ x : EnumVal st.1, st.1.deserialize prof (octets st.2.octets row.2 ++ rest) = .ok (x, rest) ∧
        x.debug = row.1 ∧ x.code = row.2) ∧
    (∀ c < 256 ^ st.2.octets, (∀ name, (name, c) ∉ st.2.rows) →
      ∃ x : EnumVal st.1, st.1.deserialize prof (octets st.2.octets c ++ rest) = .ok (x, rest) ∧
        x.code = st.2.fallback) := by
  intro st hst prof rest
  obtain ⟨ho, hd, hv⟩ := allSisoTables_agree st hst
  have hk := allSisoTables_known st hst
  rw [← ho, ← hd, ← hv]
  constructor
  · intro row hrow
    have hc : row.2 ∈ st.1.codes := List.mem_map.mpr ⟨row, hrow, rfl⟩
    have hlt := (C17_codes_distinct_and_fit st.1 hk).2 row hrow
    refine ⟨hlt, st.1.ofCode row.2, EnumSpec.readsAt_num st.1 row.2 hlt rest prof, ?_,
      EnumSpec.ofCode_of_mem hc⟩
    exact debug_of_mem (C17_codes_distinct_and_fit st.1 hk).1 hrow _ (EnumSpec.ofCode_of_mem hc)
  · intro c hlt hno
    refine ⟨st.1.ofCode c, EnumSpec.readsAt_num st.1 c hlt rest prof, ?_⟩
    rw [EnumSpec.ofCode_of_not_mem]
    · rfl
    · intro hm
      obtain ⟨⟨name, c'⟩, hv, rfl⟩ := List.mem_map.mp hm
      exact hno name hv

/-- Nothing is missing: every variant of such an enumeration is in the standard's table, under its name
and code. -/
theorem C47_complete : ∀ st ∈ allSisoTables, ∀ x : EnumVal st.1, (x.debug, x.code) ∈ st.2.rows := by
  intro st hst x
  obtain ⟨_, _, hv⟩ := allSisoTables_agree st hst
  have hk := allSisoTables_known st hst
  obtain ⟨⟨name, c⟩, hm, hc⟩ := List.mem_map.mp x.mem
  rw [← hv]
  have hc : c = x.code := hc
  subst hc
  rw [debug_of_mem (C17_codes_distinct_and_fit st.1 hk).1 hm x rfl]
  exact hm

/-- Writing: for the enumerations that are PDU fields, every variant of the standard's table can be
named and is written as its code in the standard's width, most significant octet first. -/
theorem C47_written : ∀ e ∈ fieldEnums, ∀ t, (e.spec, t) ∈ allSisoTables → ∀ row ∈ t.rows,
    ∃ x : EnumVal e.spec, x.debug = row.1 ∧
      ∀ prof buf, e.ser x prof buf = .ok ((), buf ++ octets t.octets row.2) := by
  intro e he t ht row hrow
  obtain ⟨ho, hd, hv⟩ := allSisoTables_agree _ ht
  have hk := allSisoTables_known _ ht
  dsimp only at ho hv hk
  rw [← hv] at hrow
  have hc : row.2 ∈ e.spec.codes := List.mem_map.mpr ⟨row, hrow, rfl⟩
  have he' := EnumSpec.ofCode_of_mem hc
  refine ⟨e.spec.ofCode row.2, debug_of_mem (C17_codes_distinct_and_fit _ hk).1 hrow _ he', ?_⟩
  intro prof buf
  rw [(C17_roundtrip e he (e.spec.ofCode row.2)).2.2.1 prof buf, he', ho]

/-- Every enumeration of the crate has a table (except the three without variants, which nothing can be read as). -/
theorem C47_all : ∀ s ∈ allEnums, ∃ t, (s, t) ∈ allSisoTables := allSisoTables_cover

/-- 402 tables; for instance Country 225 is read as the United States of America. -/
example : allSisoTables.length = 402 := rfl
example : ∃ x : Country, Country.deserialize ⟨true⟩ [0, 225, 8] = .ok (x, [8]) ∧
    x.debug = "UnitedStatesofAmerica" :=
  ⟨⟨225, by decide +kernel⟩, by decide +kernel, by decide +kernel⟩

end Dis
