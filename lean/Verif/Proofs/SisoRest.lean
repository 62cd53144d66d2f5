import Verif.Spec.SisoCodesRest
/- The tables of Spec/SisoCodesRest agree with the crate's (generated by tools/gen_siso.py). -/
set_option maxRecDepth 20000
namespace Dis

theorem restSisoTables1_agree : ∀ st ∈ restSisoTables1,
    st.1.repr.octets = st.2.octets ∧ st.1.default = st.2.fallback ∧ st.1.variants = st.2.rows := by
  unfold restSisoTables1
  repeat (refine List.forall_mem_cons.mpr ⟨⟨rfl, rfl, rfl⟩, ?_⟩)
  exact fun _ h => nomatch h
theorem restSisoTables1_known : ∀ st ∈ restSisoTables1, st.1 ∈ allEnums := by
  unfold restSisoTables1
  refine List.forall_mem_cons.mpr ⟨List.mem_of_getElem? (i := 5) rfl, ?_⟩
  refine List.forall_mem_cons.mpr ⟨List.mem_of_getElem? (i := 6) rfl, ?_⟩
  refine List.forall_mem_cons.mpr ⟨List.mem_of_getElem? (i := 7) rfl, ?_⟩
  refine List.forall_mem_cons.mpr ⟨List.mem_of_getElem? (i := 8) rfl, ?_⟩
  refine List.forall_mem_cons.mpr ⟨List.mem_of_getElem? (i := 9) rfl, ?_⟩
  refine List.forall_mem_cons.mpr ⟨List.mem_of_getElem? (i := 10) rfl, ?_⟩
  refine List.forall_mem_cons.mpr ⟨List.mem_of_getElem? (i := 11) rfl, ?_⟩
  refine List.forall_mem_cons.mpr ⟨List.mem_of_getElem? (i := 12) rfl, ?_⟩
  refine List.forall_mem_cons.mpr ⟨List.mem_of_getElem? (i := 13) rfl, ?_⟩
  refine List.forall_mem_cons.mpr ⟨List.mem_of_getElem? (i := 14) rfl, ?_⟩
  refine List.forall_mem_cons.mpr ⟨List.mem_of_getElem? (i := 15) rfl, ?_⟩
  refine List.forall_mem_cons.mpr ⟨List.mem_of_getElem? (i := 16) rfl, ?_⟩
  refine List.forall_mem_cons.mpr ⟨List.mem_of_getElem? (i := 17) rfl, ?_⟩
  refine List.forall_mem_cons.mpr ⟨List.mem_of_getElem? (i := 18) rfl, ?_⟩
  refine List.forall_mem_cons.mpr ⟨List.mem_of_getElem? (i := 19) rfl, ?_⟩
  refine List.forall_mem_cons.mpr ⟨List.mem_of_getElem? (i := 20) rfl, ?_⟩
  refine List.forall_mem_cons.mpr ⟨List.mem_of_getElem? (i := 21) rfl, ?_⟩
  refine List.forall_mem_cons.mpr ⟨List.mem_of_getElem? (i := 22) rfl, ?_⟩
  refine List.forall_mem_cons.mpr ⟨List.mem_of_getElem? (i := 23) rfl, ?_⟩
  refine List.forall_mem_cons.mpr ⟨List.mem_of_getElem? (i := 24) rfl, ?_⟩
  refine List.forall_mem_cons.mpr ⟨List.mem_of_getElem? (i := 30) rfl, ?_⟩
  refine List.forall_mem_cons.mpr ⟨List.mem_of_getElem? (i := 31) rfl, ?_⟩
  refine List.forall_mem_cons.mpr ⟨List.mem_of_getElem? (i := 32) rfl, ?_⟩
  refine List.forall_mem_cons.mpr ⟨List.mem_of_getElem? (i := 33) rfl, ?_⟩
  refine List.forall_mem_cons.mpr ⟨List.mem_of_getElem? (i := 34) rfl, ?_⟩
  refine List.forall_mem_cons.mpr ⟨List.mem_of_getElem? (i := 43) rfl, ?_⟩
  refine List.forall_mem_cons.mpr ⟨List.mem_of_getElem? (i := 49) rfl, ?_⟩
  refine List.forall_mem_cons.mpr ⟨List.mem_of_getElem? (i := 50) rfl, ?_⟩
  refine List.forall_mem_cons.mpr ⟨List.mem_of_getElem? (i := 51) rfl, ?_⟩
  refine List.forall_mem_cons.mpr ⟨List.mem_of_getElem? (i := 54) rfl, ?_⟩
  refine List.forall_mem_cons.mpr ⟨List.mem_of_getElem? (i := 55) rfl, ?_⟩
  refine List.forall_mem_cons.mpr ⟨List.mem_of_getElem? (i := 56) rfl, ?_⟩
  refine List.forall_mem_cons.mpr ⟨List.mem_of_getElem? (i := 57) rfl, ?_⟩
  refine List.forall_mem_cons.mpr ⟨List.mem_of_getElem? (i := 58) rfl, ?_⟩
  refine List.forall_mem_cons.mpr ⟨List.mem_of_getElem? (i := 59) rfl, ?_⟩
  refine List.forall_mem_cons.mpr ⟨List.mem_of_getElem? (i := 60) rfl, ?_⟩
  refine List.forall_mem_cons.mpr ⟨List.mem_of_getElem? (i := 61) rfl, ?_⟩
  refine List.forall_mem_cons.mpr ⟨List.mem_of_getElem? (i := 62) rfl, ?_⟩
  refine List.forall_mem_cons.mpr ⟨List.mem_of_getElem? (i := 63) rfl, ?_⟩
  refine List.forall_mem_cons.mpr ⟨List.mem_of_getElem? (i := 64) rfl, ?_⟩
  refine List.forall_mem_cons.mpr ⟨List.mem_of_getElem? (i := 65) rfl, ?_⟩
  refine List.forall_mem_cons.mpr ⟨List.mem_of_getElem? (i := 66) rfl, ?_⟩
  refine List.forall_mem_cons.mpr ⟨List.mem_of_getElem? (i := 67) rfl, ?_⟩
  refine List.forall_mem_cons.mpr ⟨List.mem_of_getElem? (i := 68) rfl, ?_⟩
  refine List.forall_mem_cons.mpr ⟨List.mem_of_getElem? (i := 69) rfl, ?_⟩
  refine List.forall_mem_cons.mpr ⟨List.mem_of_getElem? (i := 70) rfl, ?_⟩
  refine List.forall_mem_cons.mpr ⟨List.mem_of_getElem? (i := 71) rfl, ?_⟩
  refine List.forall_mem_cons.mpr ⟨List.mem_of_getElem? (i := 72) rfl, ?_⟩
  refine List.forall_mem_cons.mpr ⟨List.mem_of_getElem? (i := 73) rfl, ?_⟩
  refine List.forall_mem_cons.mpr ⟨List.mem_of_getElem? (i := 74) rfl, ?_⟩
  refine List.forall_mem_cons.mpr ⟨List.mem_of_getElem? (i := 75) rfl, ?_⟩
  refine List.forall_mem_cons.mpr ⟨List.mem_of_getElem? (i := 76) rfl, ?_⟩
  refine List.forall_mem_cons.mpr ⟨List.mem_of_getElem? (i := 77) rfl, ?_⟩
  refine List.forall_mem_cons.mpr ⟨List.mem_of_getElem? (i := 78) rfl, ?_⟩
  refine List.forall_mem_cons.mpr ⟨List.mem_of_getElem? (i := 79) rfl, ?_⟩
  refine List.forall_mem_cons.mpr ⟨List.mem_of_getElem? (i := 80) rfl, ?_⟩
  refine List.forall_mem_cons.mpr ⟨List.mem_of_getElem? (i := 81) rfl, ?_⟩
  refine List.forall_mem_cons.mpr ⟨List.mem_of_getElem? (i := 82) rfl, ?_⟩
  refine List.forall_mem_cons.mpr ⟨List.mem_of_getElem? (i := 83) rfl, ?_⟩
  refine List.forall_mem_cons.mpr ⟨List.mem_of_getElem? (i := 84) rfl, ?_⟩
  exact fun _ h => nomatch h

theorem restSisoTables2_agree : ∀ st ∈ restSisoTables2,
    st.1.repr.octets = st.2.octets ∧ st.1.default = st.2.fallback ∧ st.1.variants = st.2.rows := by
  unfold restSisoTables2
  repeat (refine List.forall_mem_cons.mpr ⟨⟨rfl, rfl, rfl⟩, ?_⟩)
  exact fun _ h => nomatch h
theorem restSisoTables2_known : ∀ st ∈ restSisoTables2, st.1 ∈ allEnums := by
  unfold restSisoTables2
  refine List.forall_mem_cons.mpr ⟨List.mem_of_getElem? (i := 85) rfl, ?_⟩
  refine List.forall_mem_cons.mpr ⟨List.mem_of_getElem? (i := 89) rfl, ?_⟩
  refine List.forall_mem_cons.mpr ⟨List.mem_of_getElem? (i := 90) rfl, ?_⟩
  refine List.forall_mem_cons.mpr ⟨List.mem_of_getElem? (i := 92) rfl, ?_⟩
  refine List.forall_mem_cons.mpr ⟨List.mem_of_getElem? (i := 93) rfl, ?_⟩
  refine List.forall_mem_cons.mpr ⟨List.mem_of_getElem? (i := 94) rfl, ?_⟩
  refine List.forall_mem_cons.mpr ⟨List.mem_of_getElem? (i := 95) rfl, ?_⟩
  refine List.forall_mem_cons.mpr ⟨List.mem_of_getElem? (i := 96) rfl, ?_⟩
  refine List.forall_mem_cons.mpr ⟨List.mem_of_getElem? (i := 97) rfl, ?_⟩
  refine List.forall_mem_cons.mpr ⟨List.mem_of_getElem? (i := 98) rfl, ?_⟩
  refine List.forall_mem_cons.mpr ⟨List.mem_of_getElem? (i := 99) rfl, ?_⟩
  refine List.forall_mem_cons.mpr ⟨List.mem_of_getElem? (i := 100) rfl, ?_⟩
  refine List.forall_mem_cons.mpr ⟨List.mem_of_getElem? (i := 101) rfl, ?_⟩
  refine List.forall_mem_cons.mpr ⟨List.mem_of_getElem? (i := 106) rfl, ?_⟩
  refine List.forall_mem_cons.mpr ⟨List.mem_of_getElem? (i := 107) rfl, ?_⟩
  refine List.forall_mem_cons.mpr ⟨List.mem_of_getElem? (i := 108) rfl, ?_⟩
  refine List.forall_mem_cons.mpr ⟨List.mem_of_getElem? (i := 109) rfl, ?_⟩
  refine List.forall_mem_cons.mpr ⟨List.mem_of_getElem? (i := 110) rfl, ?_⟩
  refine List.forall_mem_cons.mpr ⟨List.mem_of_getElem? (i := 111) rfl, ?_⟩
  refine List.forall_mem_cons.mpr ⟨List.mem_of_getElem? (i := 112) rfl, ?_⟩
  refine List.forall_mem_cons.mpr ⟨List.mem_of_getElem? (i := 113) rfl, ?_⟩
  refine List.forall_mem_cons.mpr ⟨List.mem_of_getElem? (i := 114) rfl, ?_⟩
  refine List.forall_mem_cons.mpr ⟨List.mem_of_getElem? (i := 118) rfl, ?_⟩
  refine List.forall_mem_cons.mpr ⟨List.mem_of_getElem? (i := 121) rfl, ?_⟩
  refine List.forall_mem_cons.mpr ⟨List.mem_of_getElem? (i := 122) rfl, ?_⟩
  refine List.forall_mem_cons.mpr ⟨List.mem_of_getElem? (i := 123) rfl, ?_⟩
  refine List.forall_mem_cons.mpr ⟨List.mem_of_getElem? (i := 125) rfl, ?_⟩
  refine List.forall_mem_cons.mpr ⟨List.mem_of_getElem? (i := 126) rfl, ?_⟩
  refine List.forall_mem_cons.mpr ⟨List.mem_of_getElem? (i := 127) rfl, ?_⟩
  refine List.forall_mem_cons.mpr ⟨List.mem_of_getElem? (i := 128) rfl, ?_⟩
  refine List.forall_mem_cons.mpr ⟨List.mem_of_getElem? (i := 129) rfl, ?_⟩
  refine List.forall_mem_cons.mpr ⟨List.mem_of_getElem? (i := 130) rfl, ?_⟩
  refine List.forall_mem_cons.mpr ⟨List.mem_of_getElem? (i := 131) rfl, ?_⟩
  refine List.forall_mem_cons.mpr ⟨List.mem_of_getElem? (i := 132) rfl, ?_⟩
  refine List.forall_mem_cons.mpr ⟨List.mem_of_getElem? (i := 135) rfl, ?_⟩
  refine List.forall_mem_cons.mpr ⟨List.mem_of_getElem? (i := 136) rfl, ?_⟩
  refine List.forall_mem_cons.mpr ⟨List.mem_of_getElem? (i := 137) rfl, ?_⟩
  refine List.forall_mem_cons.mpr ⟨List.mem_of_getElem? (i := 138) rfl, ?_⟩
  refine List.forall_mem_cons.mpr ⟨List.mem_of_getElem? (i := 139) rfl, ?_⟩
  refine List.forall_mem_cons.mpr ⟨List.mem_of_getElem? (i := 140) rfl, ?_⟩
  refine List.forall_mem_cons.mpr ⟨List.mem_of_getElem? (i := 142) rfl, ?_⟩
  refine List.forall_mem_cons.mpr ⟨List.mem_of_getElem? (i := 144) rfl, ?_⟩
  refine List.forall_mem_cons.mpr ⟨List.mem_of_getElem? (i := 149) rfl, ?_⟩
  refine List.forall_mem_cons.mpr ⟨List.mem_of_getElem? (i := 150) rfl, ?_⟩
  refine List.forall_mem_cons.mpr ⟨List.mem_of_getElem? (i := 151) rfl, ?_⟩
  refine List.forall_mem_cons.mpr ⟨List.mem_of_getElem? (i := 152) rfl, ?_⟩
  refine List.forall_mem_cons.mpr ⟨List.mem_of_getElem? (i := 153) rfl, ?_⟩
  refine List.forall_mem_cons.mpr ⟨List.mem_of_getElem? (i := 154) rfl, ?_⟩
  refine List.forall_mem_cons.mpr ⟨List.mem_of_getElem? (i := 155) rfl, ?_⟩
  refine List.forall_mem_cons.mpr ⟨List.mem_of_getElem? (i := 156) rfl, ?_⟩
  refine List.forall_mem_cons.mpr ⟨List.mem_of_getElem? (i := 157) rfl, ?_⟩
  refine List.forall_mem_cons.mpr ⟨List.mem_of_getElem? (i := 158) rfl, ?_⟩
  refine List.forall_mem_cons.mpr ⟨List.mem_of_getElem? (i := 159) rfl, ?_⟩
  refine List.forall_mem_cons.mpr ⟨List.mem_of_getElem? (i := 160) rfl, ?_⟩
  refine List.forall_mem_cons.mpr ⟨List.mem_of_getElem? (i := 161) rfl, ?_⟩
  refine List.forall_mem_cons.mpr ⟨List.mem_of_getElem? (i := 162) rfl, ?_⟩
  refine List.forall_mem_cons.mpr ⟨List.mem_of_getElem? (i := 163) rfl, ?_⟩
  refine List.forall_mem_cons.mpr ⟨List.mem_of_getElem? (i := 164) rfl, ?_⟩
  refine List.forall_mem_cons.mpr ⟨List.mem_of_getElem? (i := 170) rfl, ?_⟩
  refine List.forall_mem_cons.mpr ⟨List.mem_of_getElem? (i := 171) rfl, ?_⟩
  exact fun _ h => nomatch h

theorem restSisoTables3_agree : ∀ st ∈ restSisoTables3,
    st.1.repr.octets = st.2.octets ∧ st.1.default = st.2.fallback ∧ st.1.variants = st.2.rows := by
  unfold restSisoTables3
  repeat (refine List.forall_mem_cons.mpr ⟨⟨rfl, rfl, rfl⟩, ?_⟩)
  exact fun _ h => nomatch h
theorem restSisoTables3_known : ∀ st ∈ restSisoTables3, st.1 ∈ allEnums := by
  unfold restSisoTables3
  refine List.forall_mem_cons.mpr ⟨List.mem_of_getElem? (i := 172) rfl, ?_⟩
  refine List.forall_mem_cons.mpr ⟨List.mem_of_getElem? (i := 173) rfl, ?_⟩
  refine List.forall_mem_cons.mpr ⟨List.mem_of_getElem? (i := 174) rfl, ?_⟩
  refine List.forall_mem_cons.mpr ⟨List.mem_of_getElem? (i := 176) rfl, ?_⟩
  refine List.forall_mem_cons.mpr ⟨List.mem_of_getElem? (i := 177) rfl, ?_⟩
  refine List.forall_mem_cons.mpr ⟨List.mem_of_getElem? (i := 178) rfl, ?_⟩
  refine List.forall_mem_cons.mpr ⟨List.mem_of_getElem? (i := 179) rfl, ?_⟩
  refine List.forall_mem_cons.mpr ⟨List.mem_of_getElem? (i := 189) rfl, ?_⟩
  refine List.forall_mem_cons.mpr ⟨List.mem_of_getElem? (i := 190) rfl, ?_⟩
  refine List.forall_mem_cons.mpr ⟨List.mem_of_getElem? (i := 191) rfl, ?_⟩
  refine List.forall_mem_cons.mpr ⟨List.mem_of_getElem? (i := 196) rfl, ?_⟩
  refine List.forall_mem_cons.mpr ⟨List.mem_of_getElem? (i := 197) rfl, ?_⟩
  refine List.forall_mem_cons.mpr ⟨List.mem_of_getElem? (i := 198) rfl, ?_⟩
  refine List.forall_mem_cons.mpr ⟨List.mem_of_getElem? (i := 199) rfl, ?_⟩
  refine List.forall_mem_cons.mpr ⟨List.mem_of_getElem? (i := 200) rfl, ?_⟩
  refine List.forall_mem_cons.mpr ⟨List.mem_of_getElem? (i := 201) rfl, ?_⟩
  refine List.forall_mem_cons.mpr ⟨List.mem_of_getElem? (i := 202) rfl, ?_⟩
  refine List.forall_mem_cons.mpr ⟨List.mem_of_getElem? (i := 203) rfl, ?_⟩
  refine List.forall_mem_cons.mpr ⟨List.mem_of_getElem? (i := 204) rfl, ?_⟩
  refine List.forall_mem_cons.mpr ⟨List.mem_of_getElem? (i := 205) rfl, ?_⟩
  refine List.forall_mem_cons.mpr ⟨List.mem_of_getElem? (i := 206) rfl, ?_⟩
  refine List.forall_mem_cons.mpr ⟨List.mem_of_getElem? (i := 207) rfl, ?_⟩
  refine List.forall_mem_cons.mpr ⟨List.mem_of_getElem? (i := 208) rfl, ?_⟩
  refine List.forall_mem_cons.mpr ⟨List.mem_of_getElem? (i := 209) rfl, ?_⟩
  refine List.forall_mem_cons.mpr ⟨List.mem_of_getElem? (i := 210) rfl, ?_⟩
  refine List.forall_mem_cons.mpr ⟨List.mem_of_getElem? (i := 211) rfl, ?_⟩
  refine List.forall_mem_cons.mpr ⟨List.mem_of_getElem? (i := 213) rfl, ?_⟩
  refine List.forall_mem_cons.mpr ⟨List.mem_of_getElem? (i := 215) rfl, ?_⟩
  refine List.forall_mem_cons.mpr ⟨List.mem_of_getElem? (i := 216) rfl, ?_⟩
  refine List.forall_mem_cons.mpr ⟨List.mem_of_getElem? (i := 217) rfl, ?_⟩
  refine List.forall_mem_cons.mpr ⟨List.mem_of_getElem? (i := 218) rfl, ?_⟩
  refine List.forall_mem_cons.mpr ⟨List.mem_of_getElem? (i := 219) rfl, ?_⟩
  refine List.forall_mem_cons.mpr ⟨List.mem_of_getElem? (i := 220) rfl, ?_⟩
  refine List.forall_mem_cons.mpr ⟨List.mem_of_getElem? (i := 221) rfl, ?_⟩
  refine List.forall_mem_cons.mpr ⟨List.mem_of_getElem? (i := 222) rfl, ?_⟩
  refine List.forall_mem_cons.mpr ⟨List.mem_of_getElem? (i := 223) rfl, ?_⟩
  refine List.forall_mem_cons.mpr ⟨List.mem_of_getElem? (i := 224) rfl, ?_⟩
  refine List.forall_mem_cons.mpr ⟨List.mem_of_getElem? (i := 225) rfl, ?_⟩
  refine List.forall_mem_cons.mpr ⟨List.mem_of_getElem? (i := 226) rfl, ?_⟩
  refine List.forall_mem_cons.mpr ⟨List.mem_of_getElem? (i := 227) rfl, ?_⟩
  refine List.forall_mem_cons.mpr ⟨List.mem_of_getElem? (i := 228) rfl, ?_⟩
  refine List.forall_mem_cons.mpr ⟨List.mem_of_getElem? (i := 229) rfl, ?_⟩
  refine List.forall_mem_cons.mpr ⟨List.mem_of_getElem? (i := 230) rfl, ?_⟩
  refine List.forall_mem_cons.mpr ⟨List.mem_of_getElem? (i := 231) rfl, ?_⟩
  refine List.forall_mem_cons.mpr ⟨List.mem_of_getElem? (i := 232) rfl, ?_⟩
  refine List.forall_mem_cons.mpr ⟨List.mem_of_getElem? (i := 233) rfl, ?_⟩
  refine List.forall_mem_cons.mpr ⟨List.mem_of_getElem? (i := 234) rfl, ?_⟩
  refine List.forall_mem_cons.mpr ⟨List.mem_of_getElem? (i := 235) rfl, ?_⟩
  refine List.forall_mem_cons.mpr ⟨List.mem_of_getElem? (i := 236) rfl, ?_⟩
  refine List.forall_mem_cons.mpr ⟨List.mem_of_getElem? (i := 237) rfl, ?_⟩
  refine List.forall_mem_cons.mpr ⟨List.mem_of_getElem? (i := 238) rfl, ?_⟩
  refine List.forall_mem_cons.mpr ⟨List.mem_of_getElem? (i := 239) rfl, ?_⟩
  refine List.forall_mem_cons.mpr ⟨List.mem_of_getElem? (i := 240) rfl, ?_⟩
  refine List.forall_mem_cons.mpr ⟨List.mem_of_getElem? (i := 241) rfl, ?_⟩
  refine List.forall_mem_cons.mpr ⟨List.mem_of_getElem? (i := 242) rfl, ?_⟩
  refine List.forall_mem_cons.mpr ⟨List.mem_of_getElem? (i := 243) rfl, ?_⟩
  refine List.forall_mem_cons.mpr ⟨List.mem_of_getElem? (i := 244) rfl, ?_⟩
  refine List.forall_mem_cons.mpr ⟨List.mem_of_getElem? (i := 245) rfl, ?_⟩
  refine List.forall_mem_cons.mpr ⟨List.mem_of_getElem? (i := 246) rfl, ?_⟩
  refine List.forall_mem_cons.mpr ⟨List.mem_of_getElem? (i := 247) rfl, ?_⟩
  exact fun _ h => nomatch h

theorem restSisoTables4_agree : ∀ st ∈ restSisoTables4,
    st.1.repr.octets = st.2.octets ∧ st.1.default = st.2.fallback ∧ st.1.variants = st.2.rows := by
  unfold restSisoTables4
  repeat (refine List.forall_mem_cons.mpr ⟨⟨rfl, rfl, rfl⟩, ?_⟩)
  exact fun _ h => nomatch h
theorem restSisoTables4_known : ∀ st ∈ restSisoTables4, st.1 ∈ allEnums := by
  unfold restSisoTables4
  refine List.forall_mem_cons.mpr ⟨List.mem_of_getElem? (i := 248) rfl, ?_⟩
  refine List.forall_mem_cons.mpr ⟨List.mem_of_getElem? (i := 249) rfl, ?_⟩
  refine List.forall_mem_cons.mpr ⟨List.mem_of_getElem? (i := 250) rfl, ?_⟩
  refine List.forall_mem_cons.mpr ⟨List.mem_of_getElem? (i := 251) rfl, ?_⟩
  refine List.forall_mem_cons.mpr ⟨List.mem_of_getElem? (i := 252) rfl, ?_⟩
  refine List.forall_mem_cons.mpr ⟨List.mem_of_getElem? (i := 253) rfl, ?_⟩
  refine List.forall_mem_cons.mpr ⟨List.mem_of_getElem? (i := 254) rfl, ?_⟩
  refine List.forall_mem_cons.mpr ⟨List.mem_of_getElem? (i := 256) rfl, ?_⟩
  refine List.forall_mem_cons.mpr ⟨List.mem_of_getElem? (i := 257) rfl, ?_⟩
  refine List.forall_mem_cons.mpr ⟨List.mem_of_getElem? (i := 258) rfl, ?_⟩
  refine List.forall_mem_cons.mpr ⟨List.mem_of_getElem? (i := 259) rfl, ?_⟩
  refine List.forall_mem_cons.mpr ⟨List.mem_of_getElem? (i := 260) rfl, ?_⟩
  refine List.forall_mem_cons.mpr ⟨List.mem_of_getElem? (i := 261) rfl, ?_⟩
  refine List.forall_mem_cons.mpr ⟨List.mem_of_getElem? (i := 262) rfl, ?_⟩
  refine List.forall_mem_cons.mpr ⟨List.mem_of_getElem? (i := 263) rfl, ?_⟩
  refine List.forall_mem_cons.mpr ⟨List.mem_of_getElem? (i := 264) rfl, ?_⟩
  refine List.forall_mem_cons.mpr ⟨List.mem_of_getElem? (i := 265) rfl, ?_⟩
  refine List.forall_mem_cons.mpr ⟨List.mem_of_getElem? (i := 266) rfl, ?_⟩
  refine List.forall_mem_cons.mpr ⟨List.mem_of_getElem? (i := 268) rfl, ?_⟩
  refine List.forall_mem_cons.mpr ⟨List.mem_of_getElem? (i := 269) rfl, ?_⟩
  refine List.forall_mem_cons.mpr ⟨List.mem_of_getElem? (i := 270) rfl, ?_⟩
  refine List.forall_mem_cons.mpr ⟨List.mem_of_getElem? (i := 271) rfl, ?_⟩
  refine List.forall_mem_cons.mpr ⟨List.mem_of_getElem? (i := 272) rfl, ?_⟩
  refine List.forall_mem_cons.mpr ⟨List.mem_of_getElem? (i := 273) rfl, ?_⟩
  refine List.forall_mem_cons.mpr ⟨List.mem_of_getElem? (i := 274) rfl, ?_⟩
  refine List.forall_mem_cons.mpr ⟨List.mem_of_getElem? (i := 275) rfl, ?_⟩
  refine List.forall_mem_cons.mpr ⟨List.mem_of_getElem? (i := 276) rfl, ?_⟩
  refine List.forall_mem_cons.mpr ⟨List.mem_of_getElem? (i := 277) rfl, ?_⟩
  refine List.forall_mem_cons.mpr ⟨List.mem_of_getElem? (i := 278) rfl, ?_⟩
  refine List.forall_mem_cons.mpr ⟨List.mem_of_getElem? (i := 279) rfl, ?_⟩
  refine List.forall_mem_cons.mpr ⟨List.mem_of_getElem? (i := 280) rfl, ?_⟩
  refine List.forall_mem_cons.mpr ⟨List.mem_of_getElem? (i := 281) rfl, ?_⟩
  refine List.forall_mem_cons.mpr ⟨List.mem_of_getElem? (i := 282) rfl, ?_⟩
  refine List.forall_mem_cons.mpr ⟨List.mem_of_getElem? (i := 283) rfl, ?_⟩
  refine List.forall_mem_cons.mpr ⟨List.mem_of_getElem? (i := 284) rfl, ?_⟩
  refine List.forall_mem_cons.mpr ⟨List.mem_of_getElem? (i := 285) rfl, ?_⟩
  refine List.forall_mem_cons.mpr ⟨List.mem_of_getElem? (i := 286) rfl, ?_⟩
  refine List.forall_mem_cons.mpr ⟨List.mem_of_getElem? (i := 287) rfl, ?_⟩
  refine List.forall_mem_cons.mpr ⟨List.mem_of_getElem? (i := 288) rfl, ?_⟩
  refine List.forall_mem_cons.mpr ⟨List.mem_of_getElem? (i := 289) rfl, ?_⟩
  refine List.forall_mem_cons.mpr ⟨List.mem_of_getElem? (i := 290) rfl, ?_⟩
  refine List.forall_mem_cons.mpr ⟨List.mem_of_getElem? (i := 291) rfl, ?_⟩
  refine List.forall_mem_cons.mpr ⟨List.mem_of_getElem? (i := 292) rfl, ?_⟩
  refine List.forall_mem_cons.mpr ⟨List.mem_of_getElem? (i := 293) rfl, ?_⟩
  refine List.forall_mem_cons.mpr ⟨List.mem_of_getElem? (i := 294) rfl, ?_⟩
  refine List.forall_mem_cons.mpr ⟨List.mem_of_getElem? (i := 296) rfl, ?_⟩
  refine List.forall_mem_cons.mpr ⟨List.mem_of_getElem? (i := 297) rfl, ?_⟩
  refine List.forall_mem_cons.mpr ⟨List.mem_of_getElem? (i := 298) rfl, ?_⟩
  refine List.forall_mem_cons.mpr ⟨List.mem_of_getElem? (i := 299) rfl, ?_⟩
  refine List.forall_mem_cons.mpr ⟨List.mem_of_getElem? (i := 300) rfl, ?_⟩
  refine List.forall_mem_cons.mpr ⟨List.mem_of_getElem? (i := 301) rfl, ?_⟩
  refine List.forall_mem_cons.mpr ⟨List.mem_of_getElem? (i := 302) rfl, ?_⟩
  refine List.forall_mem_cons.mpr ⟨List.mem_of_getElem? (i := 303) rfl, ?_⟩
  refine List.forall_mem_cons.mpr ⟨List.mem_of_getElem? (i := 304) rfl, ?_⟩
  refine List.forall_mem_cons.mpr ⟨List.mem_of_getElem? (i := 305) rfl, ?_⟩
  refine List.forall_mem_cons.mpr ⟨List.mem_of_getElem? (i := 306) rfl, ?_⟩
  refine List.forall_mem_cons.mpr ⟨List.mem_of_getElem? (i := 307) rfl, ?_⟩
  refine List.forall_mem_cons.mpr ⟨List.mem_of_getElem? (i := 308) rfl, ?_⟩
  refine List.forall_mem_cons.mpr ⟨List.mem_of_getElem? (i := 309) rfl, ?_⟩
  refine List.forall_mem_cons.mpr ⟨List.mem_of_getElem? (i := 310) rfl, ?_⟩
  exact fun _ h => nomatch h

theorem restSisoTables5_agree : ∀ st ∈ restSisoTables5,
    st.1.repr.octets = st.2.octets ∧ st.1.default = st.2.fallback ∧ st.1.variants = st.2.rows := by
  unfold restSisoTables5
  repeat (refine List.forall_mem_cons.mpr ⟨⟨rfl, rfl, rfl⟩, ?_⟩)
  exact fun _ h => nomatch h
theorem restSisoTables5_known : ∀ st ∈ restSisoTables5, st.1 ∈ allEnums := by
  unfold restSisoTables5
  refine List.forall_mem_cons.mpr ⟨List.mem_of_getElem? (i := 311) rfl, ?_⟩
  refine List.forall_mem_cons.mpr ⟨List.mem_of_getElem? (i := 312) rfl, ?_⟩
  refine List.forall_mem_cons.mpr ⟨List.mem_of_getElem? (i := 313) rfl, ?_⟩
  refine List.forall_mem_cons.mpr ⟨List.mem_of_getElem? (i := 314) rfl, ?_⟩
  refine List.forall_mem_cons.mpr ⟨List.mem_of_getElem? (i := 315) rfl, ?_⟩
  refine List.forall_mem_cons.mpr ⟨List.mem_of_getElem? (i := 316) rfl, ?_⟩
  refine List.forall_mem_cons.mpr ⟨List.mem_of_getElem? (i := 317) rfl, ?_⟩
  refine List.forall_mem_cons.mpr ⟨List.mem_of_getElem? (i := 318) rfl, ?_⟩
  refine List.forall_mem_cons.mpr ⟨List.mem_of_getElem? (i := 319) rfl, ?_⟩
  refine List.forall_mem_cons.mpr ⟨List.mem_of_getElem? (i := 320) rfl, ?_⟩
  refine List.forall_mem_cons.mpr ⟨List.mem_of_getElem? (i := 321) rfl, ?_⟩
  refine List.forall_mem_cons.mpr ⟨List.mem_of_getElem? (i := 322) rfl, ?_⟩
  refine List.forall_mem_cons.mpr ⟨List.mem_of_getElem? (i := 323) rfl, ?_⟩
  refine List.forall_mem_cons.mpr ⟨List.mem_of_getElem? (i := 324) rfl, ?_⟩
  refine List.forall_mem_cons.mpr ⟨List.mem_of_getElem? (i := 325) rfl, ?_⟩
  refine List.forall_mem_cons.mpr ⟨List.mem_of_getElem? (i := 326) rfl, ?_⟩
  refine List.forall_mem_cons.mpr ⟨List.mem_of_getElem? (i := 327) rfl, ?_⟩
  refine List.forall_mem_cons.mpr ⟨List.mem_of_getElem? (i := 328) rfl, ?_⟩
  refine List.forall_mem_cons.mpr ⟨List.mem_of_getElem? (i := 329) rfl, ?_⟩
  refine List.forall_mem_cons.mpr ⟨List.mem_of_getElem? (i := 330) rfl, ?_⟩
  refine List.forall_mem_cons.mpr ⟨List.mem_of_getElem? (i := 331) rfl, ?_⟩
  refine List.forall_mem_cons.mpr ⟨List.mem_of_getElem? (i := 332) rfl, ?_⟩
  refine List.forall_mem_cons.mpr ⟨List.mem_of_getElem? (i := 333) rfl, ?_⟩
  refine List.forall_mem_cons.mpr ⟨List.mem_of_getElem? (i := 334) rfl, ?_⟩
  refine List.forall_mem_cons.mpr ⟨List.mem_of_getElem? (i := 335) rfl, ?_⟩
  refine List.forall_mem_cons.mpr ⟨List.mem_of_getElem? (i := 336) rfl, ?_⟩
  refine List.forall_mem_cons.mpr ⟨List.mem_of_getElem? (i := 337) rfl, ?_⟩
  refine List.forall_mem_cons.mpr ⟨List.mem_of_getElem? (i := 338) rfl, ?_⟩
  refine List.forall_mem_cons.mpr ⟨List.mem_of_getElem? (i := 339) rfl, ?_⟩
  refine List.forall_mem_cons.mpr ⟨List.mem_of_getElem? (i := 340) rfl, ?_⟩
  refine List.forall_mem_cons.mpr ⟨List.mem_of_getElem? (i := 341) rfl, ?_⟩
  refine List.forall_mem_cons.mpr ⟨List.mem_of_getElem? (i := 342) rfl, ?_⟩
  refine List.forall_mem_cons.mpr ⟨List.mem_of_getElem? (i := 343) rfl, ?_⟩
  refine List.forall_mem_cons.mpr ⟨List.mem_of_getElem? (i := 344) rfl, ?_⟩
  refine List.forall_mem_cons.mpr ⟨List.mem_of_getElem? (i := 345) rfl, ?_⟩
  refine List.forall_mem_cons.mpr ⟨List.mem_of_getElem? (i := 346) rfl, ?_⟩
  refine List.forall_mem_cons.mpr ⟨List.mem_of_getElem? (i := 347) rfl, ?_⟩
  refine List.forall_mem_cons.mpr ⟨List.mem_of_getElem? (i := 348) rfl, ?_⟩
  refine List.forall_mem_cons.mpr ⟨List.mem_of_getElem? (i := 349) rfl, ?_⟩
  refine List.forall_mem_cons.mpr ⟨List.mem_of_getElem? (i := 350) rfl, ?_⟩
  refine List.forall_mem_cons.mpr ⟨List.mem_of_getElem? (i := 351) rfl, ?_⟩
  refine List.forall_mem_cons.mpr ⟨List.mem_of_getElem? (i := 352) rfl, ?_⟩
  refine List.forall_mem_cons.mpr ⟨List.mem_of_getElem? (i := 353) rfl, ?_⟩
  refine List.forall_mem_cons.mpr ⟨List.mem_of_getElem? (i := 354) rfl, ?_⟩
  refine List.forall_mem_cons.mpr ⟨List.mem_of_getElem? (i := 355) rfl, ?_⟩
  refine List.forall_mem_cons.mpr ⟨List.mem_of_getElem? (i := 356) rfl, ?_⟩
  refine List.forall_mem_cons.mpr ⟨List.mem_of_getElem? (i := 357) rfl, ?_⟩
  refine List.forall_mem_cons.mpr ⟨List.mem_of_getElem? (i := 358) rfl, ?_⟩
  refine List.forall_mem_cons.mpr ⟨List.mem_of_getElem? (i := 359) rfl, ?_⟩
  refine List.forall_mem_cons.mpr ⟨List.mem_of_getElem? (i := 360) rfl, ?_⟩
  refine List.forall_mem_cons.mpr ⟨List.mem_of_getElem? (i := 361) rfl, ?_⟩
  refine List.forall_mem_cons.mpr ⟨List.mem_of_getElem? (i := 362) rfl, ?_⟩
  refine List.forall_mem_cons.mpr ⟨List.mem_of_getElem? (i := 363) rfl, ?_⟩
  refine List.forall_mem_cons.mpr ⟨List.mem_of_getElem? (i := 364) rfl, ?_⟩
  refine List.forall_mem_cons.mpr ⟨List.mem_of_getElem? (i := 365) rfl, ?_⟩
  refine List.forall_mem_cons.mpr ⟨List.mem_of_getElem? (i := 366) rfl, ?_⟩
  refine List.forall_mem_cons.mpr ⟨List.mem_of_getElem? (i := 367) rfl, ?_⟩
  refine List.forall_mem_cons.mpr ⟨List.mem_of_getElem? (i := 368) rfl, ?_⟩
  refine List.forall_mem_cons.mpr ⟨List.mem_of_getElem? (i := 369) rfl, ?_⟩
  refine List.forall_mem_cons.mpr ⟨List.mem_of_getElem? (i := 370) rfl, ?_⟩
  exact fun _ h => nomatch h

theorem restSisoTables6_agree : ∀ st ∈ restSisoTables6,
    st.1.repr.octets = st.2.octets ∧ st.1.default = st.2.fallback ∧ st.1.variants = st.2.rows := by
  unfold restSisoTables6
  repeat (refine List.forall_mem_cons.mpr ⟨⟨rfl, rfl, rfl⟩, ?_⟩)
  exact fun _ h => nomatch h
theorem restSisoTables6_known : ∀ st ∈ restSisoTables6, st.1 ∈ allEnums := by
  unfold restSisoTables6
  refine List.forall_mem_cons.mpr ⟨List.mem_of_getElem? (i := 371) rfl, ?_⟩
  refine List.forall_mem_cons.mpr ⟨List.mem_of_getElem? (i := 372) rfl, ?_⟩
  refine List.forall_mem_cons.mpr ⟨List.mem_of_getElem? (i := 373) rfl, ?_⟩
  refine List.forall_mem_cons.mpr ⟨List.mem_of_getElem? (i := 374) rfl, ?_⟩
  refine List.forall_mem_cons.mpr ⟨List.mem_of_getElem? (i := 375) rfl, ?_⟩
  refine List.forall_mem_cons.mpr ⟨List.mem_of_getElem? (i := 376) rfl, ?_⟩
  refine List.forall_mem_cons.mpr ⟨List.mem_of_getElem? (i := 377) rfl, ?_⟩
  refine List.forall_mem_cons.mpr ⟨List.mem_of_getElem? (i := 378) rfl, ?_⟩
  refine List.forall_mem_cons.mpr ⟨List.mem_of_getElem? (i := 379) rfl, ?_⟩
  refine List.forall_mem_cons.mpr ⟨List.mem_of_getElem? (i := 380) rfl, ?_⟩
  refine List.forall_mem_cons.mpr ⟨List.mem_of_getElem? (i := 381) rfl, ?_⟩
  refine List.forall_mem_cons.mpr ⟨List.mem_of_getElem? (i := 382) rfl, ?_⟩
  refine List.forall_mem_cons.mpr ⟨List.mem_of_getElem? (i := 383) rfl, ?_⟩
  refine List.forall_mem_cons.mpr ⟨List.mem_of_getElem? (i := 384) rfl, ?_⟩
  refine List.forall_mem_cons.mpr ⟨List.mem_of_getElem? (i := 385) rfl, ?_⟩
  refine List.forall_mem_cons.mpr ⟨List.mem_of_getElem? (i := 386) rfl, ?_⟩
  refine List.forall_mem_cons.mpr ⟨List.mem_of_getElem? (i := 387) rfl, ?_⟩
  refine List.forall_mem_cons.mpr ⟨List.mem_of_getElem? (i := 388) rfl, ?_⟩
  refine List.forall_mem_cons.mpr ⟨List.mem_of_getElem? (i := 389) rfl, ?_⟩
  refine List.forall_mem_cons.mpr ⟨List.mem_of_getElem? (i := 390) rfl, ?_⟩
  refine List.forall_mem_cons.mpr ⟨List.mem_of_getElem? (i := 391) rfl, ?_⟩
  refine List.forall_mem_cons.mpr ⟨List.mem_of_getElem? (i := 392) rfl, ?_⟩
  refine List.forall_mem_cons.mpr ⟨List.mem_of_getElem? (i := 393) rfl, ?_⟩
  refine List.forall_mem_cons.mpr ⟨List.mem_of_getElem? (i := 394) rfl, ?_⟩
  refine List.forall_mem_cons.mpr ⟨List.mem_of_getElem? (i := 395) rfl, ?_⟩
  refine List.forall_mem_cons.mpr ⟨List.mem_of_getElem? (i := 396) rfl, ?_⟩
  refine List.forall_mem_cons.mpr ⟨List.mem_of_getElem? (i := 397) rfl, ?_⟩
  refine List.forall_mem_cons.mpr ⟨List.mem_of_getElem? (i := 398) rfl, ?_⟩
  refine List.forall_mem_cons.mpr ⟨List.mem_of_getElem? (i := 399) rfl, ?_⟩
  refine List.forall_mem_cons.mpr ⟨List.mem_of_getElem? (i := 400) rfl, ?_⟩
  refine List.forall_mem_cons.mpr ⟨List.mem_of_getElem? (i := 401) rfl, ?_⟩
  exact fun _ h => nomatch h

theorem allSisoTables_cover : ∀ s ∈ allEnums, ∃ t, (s, t) ∈ allSisoTables := by
  unfold allEnums
  refine List.forall_mem_cons.mpr ⟨⟨_, List.mem_of_getElem? (i := 44) rfl⟩, ?_⟩
  refine List.forall_mem_cons.mpr ⟨⟨_, List.mem_of_getElem? (i := 46) rfl⟩, ?_⟩
  refine List.forall_mem_cons.mpr ⟨⟨_, List.mem_of_getElem? (i := 45) rfl⟩, ?_⟩
  refine List.forall_mem_cons.mpr ⟨⟨_, List.mem_of_getElem? (i := 17) rfl⟩, ?_⟩
  refine List.forall_mem_cons.mpr ⟨⟨_, List.mem_of_getElem? (i := 14) rfl⟩, ?_⟩
  refine List.forall_mem_cons.mpr ⟨⟨_, List.mem_of_getElem? (i := 71) rfl⟩, ?_⟩
  refine List.forall_mem_cons.mpr ⟨⟨_, List.mem_of_getElem? (i := 72) rfl⟩, ?_⟩
  refine List.forall_mem_cons.mpr ⟨⟨_, List.mem_of_getElem? (i := 73) rfl⟩, ?_⟩
  refine List.forall_mem_cons.mpr ⟨⟨_, List.mem_of_getElem? (i := 74) rfl⟩, ?_⟩
  refine List.forall_mem_cons.mpr ⟨⟨_, List.mem_of_getElem? (i := 75) rfl⟩, ?_⟩
  refine List.forall_mem_cons.mpr ⟨⟨_, List.mem_of_getElem? (i := 76) rfl⟩, ?_⟩
  refine List.forall_mem_cons.mpr ⟨⟨_, List.mem_of_getElem? (i := 77) rfl⟩, ?_⟩
  refine List.forall_mem_cons.mpr ⟨⟨_, List.mem_of_getElem? (i := 78) rfl⟩, ?_⟩
  refine List.forall_mem_cons.mpr ⟨⟨_, List.mem_of_getElem? (i := 79) rfl⟩, ?_⟩
  refine List.forall_mem_cons.mpr ⟨⟨_, List.mem_of_getElem? (i := 80) rfl⟩, ?_⟩
  refine List.forall_mem_cons.mpr ⟨⟨_, List.mem_of_getElem? (i := 81) rfl⟩, ?_⟩
  refine List.forall_mem_cons.mpr ⟨⟨_, List.mem_of_getElem? (i := 82) rfl⟩, ?_⟩
  refine List.forall_mem_cons.mpr ⟨⟨_, List.mem_of_getElem? (i := 83) rfl⟩, ?_⟩
  refine List.forall_mem_cons.mpr ⟨⟨_, List.mem_of_getElem? (i := 84) rfl⟩, ?_⟩
  refine List.forall_mem_cons.mpr ⟨⟨_, List.mem_of_getElem? (i := 85) rfl⟩, ?_⟩
  refine List.forall_mem_cons.mpr ⟨⟨_, List.mem_of_getElem? (i := 86) rfl⟩, ?_⟩
  refine List.forall_mem_cons.mpr ⟨⟨_, List.mem_of_getElem? (i := 87) rfl⟩, ?_⟩
  refine List.forall_mem_cons.mpr ⟨⟨_, List.mem_of_getElem? (i := 88) rfl⟩, ?_⟩
  refine List.forall_mem_cons.mpr ⟨⟨_, List.mem_of_getElem? (i := 89) rfl⟩, ?_⟩
  refine List.forall_mem_cons.mpr ⟨⟨_, List.mem_of_getElem? (i := 90) rfl⟩, ?_⟩
  refine List.forall_mem_cons.mpr ⟨⟨_, List.mem_of_getElem? (i := 8) rfl⟩, ?_⟩
  refine List.forall_mem_cons.mpr ⟨⟨_, List.mem_of_getElem? (i := 10) rfl⟩, ?_⟩
  refine List.forall_mem_cons.mpr ⟨⟨_, List.mem_of_getElem? (i := 15) rfl⟩, ?_⟩
  refine List.forall_mem_cons.mpr ⟨⟨_, List.mem_of_getElem? (i := 47) rfl⟩, ?_⟩
  refine List.forall_mem_cons.mpr ⟨⟨_, List.mem_of_getElem? (i := 43) rfl⟩, ?_⟩
  refine List.forall_mem_cons.mpr ⟨⟨_, List.mem_of_getElem? (i := 91) rfl⟩, ?_⟩
  refine List.forall_mem_cons.mpr ⟨⟨_, List.mem_of_getElem? (i := 92) rfl⟩, ?_⟩
  refine List.forall_mem_cons.mpr ⟨⟨_, List.mem_of_getElem? (i := 93) rfl⟩, ?_⟩
  refine List.forall_mem_cons.mpr ⟨⟨_, List.mem_of_getElem? (i := 94) rfl⟩, ?_⟩
  refine List.forall_mem_cons.mpr ⟨⟨_, List.mem_of_getElem? (i := 95) rfl⟩, ?_⟩
  refine List.forall_mem_cons.mpr ⟨⟨_, List.mem_of_getElem? (i := 11) rfl⟩, ?_⟩
  refine List.forall_mem_cons.mpr ⟨⟨_, List.mem_of_getElem? (i := 33) rfl⟩, ?_⟩
  refine List.forall_mem_cons.mpr ⟨⟨_, List.mem_of_getElem? (i := 48) rfl⟩, ?_⟩
  refine List.forall_mem_cons.mpr ⟨⟨_, List.mem_of_getElem? (i := 31) rfl⟩, ?_⟩
  refine List.forall_mem_cons.mpr ⟨⟨_, List.mem_of_getElem? (i := 69) rfl⟩, ?_⟩
  refine List.forall_mem_cons.mpr ⟨⟨_, List.mem_of_getElem? (i := 29) rfl⟩, ?_⟩
  refine List.forall_mem_cons.mpr ⟨⟨_, List.mem_of_getElem? (i := 0) rfl⟩, ?_⟩
  refine List.forall_mem_cons.mpr ⟨⟨_, List.mem_of_getElem? (i := 1) rfl⟩, ?_⟩
  refine List.forall_mem_cons.mpr ⟨⟨_, List.mem_of_getElem? (i := 96) rfl⟩, ?_⟩
  refine List.forall_mem_cons.mpr ⟨⟨_, List.mem_of_getElem? (i := 2) rfl⟩, ?_⟩
  refine List.forall_mem_cons.mpr ⟨⟨_, List.mem_of_getElem? (i := 16) rfl⟩, ?_⟩
  refine List.forall_mem_cons.mpr ⟨⟨_, List.mem_of_getElem? (i := 32) rfl⟩, ?_⟩
  refine List.forall_mem_cons.mpr ⟨⟨_, List.mem_of_getElem? (i := 70) rfl⟩, ?_⟩
  refine List.forall_mem_cons.mpr ⟨⟨_, List.mem_of_getElem? (i := 13) rfl⟩, ?_⟩
  refine List.forall_mem_cons.mpr ⟨⟨_, List.mem_of_getElem? (i := 97) rfl⟩, ?_⟩
  refine List.forall_mem_cons.mpr ⟨⟨_, List.mem_of_getElem? (i := 98) rfl⟩, ?_⟩
  refine List.forall_mem_cons.mpr ⟨⟨_, List.mem_of_getElem? (i := 99) rfl⟩, ?_⟩
  refine List.forall_mem_cons.mpr ⟨⟨_, List.mem_of_getElem? (i := 49) rfl⟩, ?_⟩
  refine List.forall_mem_cons.mpr ⟨⟨_, List.mem_of_getElem? (i := 50) rfl⟩, ?_⟩
  refine List.forall_mem_cons.mpr ⟨⟨_, List.mem_of_getElem? (i := 100) rfl⟩, ?_⟩
  refine List.forall_mem_cons.mpr ⟨⟨_, List.mem_of_getElem? (i := 101) rfl⟩, ?_⟩
  refine List.forall_mem_cons.mpr ⟨⟨_, List.mem_of_getElem? (i := 102) rfl⟩, ?_⟩
  refine List.forall_mem_cons.mpr ⟨⟨_, List.mem_of_getElem? (i := 103) rfl⟩, ?_⟩
  refine List.forall_mem_cons.mpr ⟨⟨_, List.mem_of_getElem? (i := 104) rfl⟩, ?_⟩
  refine List.forall_mem_cons.mpr ⟨⟨_, List.mem_of_getElem? (i := 105) rfl⟩, ?_⟩
  refine List.forall_mem_cons.mpr ⟨⟨_, List.mem_of_getElem? (i := 106) rfl⟩, ?_⟩
  refine List.forall_mem_cons.mpr ⟨⟨_, List.mem_of_getElem? (i := 107) rfl⟩, ?_⟩
  refine List.forall_mem_cons.mpr ⟨⟨_, List.mem_of_getElem? (i := 108) rfl⟩, ?_⟩
  refine List.forall_mem_cons.mpr ⟨⟨_, List.mem_of_getElem? (i := 109) rfl⟩, ?_⟩
  refine List.forall_mem_cons.mpr ⟨⟨_, List.mem_of_getElem? (i := 110) rfl⟩, ?_⟩
  refine List.forall_mem_cons.mpr ⟨⟨_, List.mem_of_getElem? (i := 111) rfl⟩, ?_⟩
  refine List.forall_mem_cons.mpr ⟨⟨_, List.mem_of_getElem? (i := 112) rfl⟩, ?_⟩
  refine List.forall_mem_cons.mpr ⟨⟨_, List.mem_of_getElem? (i := 113) rfl⟩, ?_⟩
  refine List.forall_mem_cons.mpr ⟨⟨_, List.mem_of_getElem? (i := 114) rfl⟩, ?_⟩
  refine List.forall_mem_cons.mpr ⟨⟨_, List.mem_of_getElem? (i := 115) rfl⟩, ?_⟩
  refine List.forall_mem_cons.mpr ⟨⟨_, List.mem_of_getElem? (i := 116) rfl⟩, ?_⟩
  refine List.forall_mem_cons.mpr ⟨⟨_, List.mem_of_getElem? (i := 117) rfl⟩, ?_⟩
  refine List.forall_mem_cons.mpr ⟨⟨_, List.mem_of_getElem? (i := 118) rfl⟩, ?_⟩
  refine List.forall_mem_cons.mpr ⟨⟨_, List.mem_of_getElem? (i := 119) rfl⟩, ?_⟩
  refine List.forall_mem_cons.mpr ⟨⟨_, List.mem_of_getElem? (i := 120) rfl⟩, ?_⟩
  refine List.forall_mem_cons.mpr ⟨⟨_, List.mem_of_getElem? (i := 121) rfl⟩, ?_⟩
  refine List.forall_mem_cons.mpr ⟨⟨_, List.mem_of_getElem? (i := 122) rfl⟩, ?_⟩
  refine List.forall_mem_cons.mpr ⟨⟨_, List.mem_of_getElem? (i := 123) rfl⟩, ?_⟩
  refine List.forall_mem_cons.mpr ⟨⟨_, List.mem_of_getElem? (i := 124) rfl⟩, ?_⟩
  refine List.forall_mem_cons.mpr ⟨⟨_, List.mem_of_getElem? (i := 125) rfl⟩, ?_⟩
  refine List.forall_mem_cons.mpr ⟨⟨_, List.mem_of_getElem? (i := 126) rfl⟩, ?_⟩
  refine List.forall_mem_cons.mpr ⟨⟨_, List.mem_of_getElem? (i := 127) rfl⟩, ?_⟩
  refine List.forall_mem_cons.mpr ⟨⟨_, List.mem_of_getElem? (i := 128) rfl⟩, ?_⟩
  refine List.forall_mem_cons.mpr ⟨⟨_, List.mem_of_getElem? (i := 129) rfl⟩, ?_⟩
  refine List.forall_mem_cons.mpr ⟨⟨_, List.mem_of_getElem? (i := 130) rfl⟩, ?_⟩
  refine List.forall_mem_cons.mpr ⟨⟨_, List.mem_of_getElem? (i := 131) rfl⟩, ?_⟩
  refine List.forall_mem_cons.mpr ⟨⟨_, List.mem_of_getElem? (i := 42) rfl⟩, ?_⟩
  refine List.forall_mem_cons.mpr ⟨⟨_, List.mem_of_getElem? (i := 41) rfl⟩, ?_⟩
  refine List.forall_mem_cons.mpr ⟨⟨_, List.mem_of_getElem? (i := 40) rfl⟩, ?_⟩
  refine List.forall_mem_cons.mpr ⟨⟨_, List.mem_of_getElem? (i := 132) rfl⟩, ?_⟩
  refine List.forall_mem_cons.mpr ⟨⟨_, List.mem_of_getElem? (i := 133) rfl⟩, ?_⟩
  refine List.forall_mem_cons.mpr ⟨⟨_, List.mem_of_getElem? (i := 51) rfl⟩, ?_⟩
  refine List.forall_mem_cons.mpr ⟨⟨_, List.mem_of_getElem? (i := 134) rfl⟩, ?_⟩
  refine List.forall_mem_cons.mpr ⟨⟨_, List.mem_of_getElem? (i := 135) rfl⟩, ?_⟩
  refine List.forall_mem_cons.mpr ⟨⟨_, List.mem_of_getElem? (i := 136) rfl⟩, ?_⟩
  refine List.forall_mem_cons.mpr ⟨⟨_, List.mem_of_getElem? (i := 137) rfl⟩, ?_⟩
  refine List.forall_mem_cons.mpr ⟨⟨_, List.mem_of_getElem? (i := 138) rfl⟩, ?_⟩
  refine List.forall_mem_cons.mpr ⟨⟨_, List.mem_of_getElem? (i := 139) rfl⟩, ?_⟩
  refine List.forall_mem_cons.mpr ⟨⟨_, List.mem_of_getElem? (i := 140) rfl⟩, ?_⟩
  refine List.forall_mem_cons.mpr ⟨⟨_, List.mem_of_getElem? (i := 141) rfl⟩, ?_⟩
  refine List.forall_mem_cons.mpr ⟨⟨_, List.mem_of_getElem? (i := 142) rfl⟩, ?_⟩
  refine List.forall_mem_cons.mpr ⟨⟨_, List.mem_of_getElem? (i := 143) rfl⟩, ?_⟩
  refine List.forall_mem_cons.mpr ⟨⟨_, List.mem_of_getElem? (i := 39) rfl⟩, ?_⟩
  refine List.forall_mem_cons.mpr ⟨⟨_, List.mem_of_getElem? (i := 38) rfl⟩, ?_⟩
  refine List.forall_mem_cons.mpr ⟨⟨_, List.mem_of_getElem? (i := 37) rfl⟩, ?_⟩
  refine List.forall_mem_cons.mpr ⟨⟨_, List.mem_of_getElem? (i := 36) rfl⟩, ?_⟩
  refine List.forall_mem_cons.mpr ⟨⟨_, List.mem_of_getElem? (i := 144) rfl⟩, ?_⟩
  refine List.forall_mem_cons.mpr ⟨⟨_, List.mem_of_getElem? (i := 145) rfl⟩, ?_⟩
  refine List.forall_mem_cons.mpr ⟨⟨_, List.mem_of_getElem? (i := 146) rfl⟩, ?_⟩
  refine List.forall_mem_cons.mpr ⟨⟨_, List.mem_of_getElem? (i := 147) rfl⟩, ?_⟩
  refine List.forall_mem_cons.mpr ⟨⟨_, List.mem_of_getElem? (i := 148) rfl⟩, ?_⟩
  refine List.forall_mem_cons.mpr ⟨⟨_, List.mem_of_getElem? (i := 149) rfl⟩, ?_⟩
  refine List.forall_mem_cons.mpr ⟨⟨_, List.mem_of_getElem? (i := 150) rfl⟩, ?_⟩
  refine List.forall_mem_cons.mpr ⟨⟨_, List.mem_of_getElem? (i := 151) rfl⟩, ?_⟩
  refine List.forall_mem_cons.mpr ⟨⟨_, List.mem_of_getElem? (i := 152) rfl⟩, ?_⟩
  refine List.forall_mem_cons.mpr ⟨⟨_, List.mem_of_getElem? (i := 34) rfl⟩, ?_⟩
  refine List.forall_mem_cons.mpr ⟨⟨_, List.mem_of_getElem? (i := 30) rfl⟩, ?_⟩
  refine List.forall_mem_cons.mpr ⟨⟨_, List.mem_of_getElem? (i := 26) rfl⟩, ?_⟩
  refine List.forall_mem_cons.mpr ⟨⟨_, List.mem_of_getElem? (i := 153) rfl⟩, ?_⟩
  refine List.forall_mem_cons.mpr ⟨⟨_, List.mem_of_getElem? (i := 25) rfl⟩, ?_⟩
  refine List.forall_mem_cons.mpr ⟨⟨_, List.mem_of_getElem? (i := 27) rfl⟩, ?_⟩
  refine List.forall_mem_cons.mpr ⟨⟨_, List.mem_of_getElem? (i := 154) rfl⟩, ?_⟩
  refine List.forall_mem_cons.mpr ⟨⟨_, List.mem_of_getElem? (i := 155) rfl⟩, ?_⟩
  refine List.forall_mem_cons.mpr ⟨⟨_, List.mem_of_getElem? (i := 156) rfl⟩, ?_⟩
  refine List.forall_mem_cons.mpr ⟨⟨_, List.mem_of_getElem? (i := 52) rfl⟩, ?_⟩
  refine List.forall_mem_cons.mpr ⟨⟨_, List.mem_of_getElem? (i := 157) rfl⟩, ?_⟩
  refine List.forall_mem_cons.mpr ⟨⟨_, List.mem_of_getElem? (i := 158) rfl⟩, ?_⟩
  refine List.forall_mem_cons.mpr ⟨⟨_, List.mem_of_getElem? (i := 159) rfl⟩, ?_⟩
  refine List.forall_mem_cons.mpr ⟨⟨_, List.mem_of_getElem? (i := 160) rfl⟩, ?_⟩
  refine List.forall_mem_cons.mpr ⟨⟨_, List.mem_of_getElem? (i := 161) rfl⟩, ?_⟩
  refine List.forall_mem_cons.mpr ⟨⟨_, List.mem_of_getElem? (i := 162) rfl⟩, ?_⟩
  refine List.forall_mem_cons.mpr ⟨⟨_, List.mem_of_getElem? (i := 163) rfl⟩, ?_⟩
  refine List.forall_mem_cons.mpr ⟨⟨_, List.mem_of_getElem? (i := 164) rfl⟩, ?_⟩
  refine List.forall_mem_cons.mpr ⟨⟨_, List.mem_of_getElem? (i := 3) rfl⟩, ?_⟩
  refine List.forall_mem_cons.mpr ⟨⟨_, List.mem_of_getElem? (i := 4) rfl⟩, ?_⟩
  refine List.forall_mem_cons.mpr ⟨⟨_, List.mem_of_getElem? (i := 165) rfl⟩, ?_⟩
  refine List.forall_mem_cons.mpr ⟨⟨_, List.mem_of_getElem? (i := 166) rfl⟩, ?_⟩
  refine List.forall_mem_cons.mpr ⟨⟨_, List.mem_of_getElem? (i := 167) rfl⟩, ?_⟩
  refine List.forall_mem_cons.mpr ⟨⟨_, List.mem_of_getElem? (i := 168) rfl⟩, ?_⟩
  refine List.forall_mem_cons.mpr ⟨⟨_, List.mem_of_getElem? (i := 169) rfl⟩, ?_⟩
  refine List.forall_mem_cons.mpr ⟨⟨_, List.mem_of_getElem? (i := 170) rfl⟩, ?_⟩
  refine List.forall_mem_cons.mpr ⟨⟨_, List.mem_of_getElem? (i := 28) rfl⟩, ?_⟩
  refine List.forall_mem_cons.mpr ⟨⟨_, List.mem_of_getElem? (i := 171) rfl⟩, ?_⟩
  refine List.forall_mem_cons.mpr ⟨⟨_, List.mem_of_getElem? (i := 35) rfl⟩, ?_⟩
  refine List.forall_mem_cons.mpr ⟨⟨_, List.mem_of_getElem? (i := 172) rfl⟩, ?_⟩
  refine List.forall_mem_cons.mpr ⟨⟨_, List.mem_of_getElem? (i := 20) rfl⟩, ?_⟩
  refine List.forall_mem_cons.mpr ⟨⟨_, List.mem_of_getElem? (i := 19) rfl⟩, ?_⟩
  refine List.forall_mem_cons.mpr ⟨⟨_, List.mem_of_getElem? (i := 53) rfl⟩, ?_⟩
  refine List.forall_mem_cons.mpr ⟨⟨_, List.mem_of_getElem? (i := 54) rfl⟩, ?_⟩
  refine List.forall_mem_cons.mpr ⟨⟨_, List.mem_of_getElem? (i := 173) rfl⟩, ?_⟩
  refine List.forall_mem_cons.mpr ⟨⟨_, List.mem_of_getElem? (i := 174) rfl⟩, ?_⟩
  refine List.forall_mem_cons.mpr ⟨⟨_, List.mem_of_getElem? (i := 175) rfl⟩, ?_⟩
  refine List.forall_mem_cons.mpr ⟨⟨_, List.mem_of_getElem? (i := 176) rfl⟩, ?_⟩
  refine List.forall_mem_cons.mpr ⟨⟨_, List.mem_of_getElem? (i := 177) rfl⟩, ?_⟩
  refine List.forall_mem_cons.mpr ⟨⟨_, List.mem_of_getElem? (i := 178) rfl⟩, ?_⟩
  refine List.forall_mem_cons.mpr ⟨⟨_, List.mem_of_getElem? (i := 179) rfl⟩, ?_⟩
  refine List.forall_mem_cons.mpr ⟨⟨_, List.mem_of_getElem? (i := 180) rfl⟩, ?_⟩
  refine List.forall_mem_cons.mpr ⟨⟨_, List.mem_of_getElem? (i := 181) rfl⟩, ?_⟩
  refine List.forall_mem_cons.mpr ⟨⟨_, List.mem_of_getElem? (i := 182) rfl⟩, ?_⟩
  refine List.forall_mem_cons.mpr ⟨⟨_, List.mem_of_getElem? (i := 183) rfl⟩, ?_⟩
  refine List.forall_mem_cons.mpr ⟨⟨_, List.mem_of_getElem? (i := 184) rfl⟩, ?_⟩
  refine List.forall_mem_cons.mpr ⟨⟨_, List.mem_of_getElem? (i := 185) rfl⟩, ?_⟩
  refine List.forall_mem_cons.mpr ⟨⟨_, List.mem_of_getElem? (i := 186) rfl⟩, ?_⟩
  refine List.forall_mem_cons.mpr ⟨⟨_, List.mem_of_getElem? (i := 187) rfl⟩, ?_⟩
  refine List.forall_mem_cons.mpr ⟨⟨_, List.mem_of_getElem? (i := 188) rfl⟩, ?_⟩
  refine List.forall_mem_cons.mpr ⟨⟨_, List.mem_of_getElem? (i := 23) rfl⟩, ?_⟩
  refine List.forall_mem_cons.mpr ⟨⟨_, List.mem_of_getElem? (i := 55) rfl⟩, ?_⟩
  refine List.forall_mem_cons.mpr ⟨⟨_, List.mem_of_getElem? (i := 22) rfl⟩, ?_⟩
  refine List.forall_mem_cons.mpr ⟨⟨_, List.mem_of_getElem? (i := 21) rfl⟩, ?_⟩
  refine List.forall_mem_cons.mpr ⟨⟨_, List.mem_of_getElem? (i := 24) rfl⟩, ?_⟩
  refine List.forall_mem_cons.mpr ⟨⟨_, List.mem_of_getElem? (i := 189) rfl⟩, ?_⟩
  refine List.forall_mem_cons.mpr ⟨⟨_, List.mem_of_getElem? (i := 190) rfl⟩, ?_⟩
  refine List.forall_mem_cons.mpr ⟨⟨_, List.mem_of_getElem? (i := 191) rfl⟩, ?_⟩
  refine List.forall_mem_cons.mpr ⟨⟨_, List.mem_of_getElem? (i := 192) rfl⟩, ?_⟩
  refine List.forall_mem_cons.mpr ⟨⟨_, List.mem_of_getElem? (i := 193) rfl⟩, ?_⟩
  refine List.forall_mem_cons.mpr ⟨⟨_, List.mem_of_getElem? (i := 56) rfl⟩, ?_⟩
  refine List.forall_mem_cons.mpr ⟨⟨_, List.mem_of_getElem? (i := 194) rfl⟩, ?_⟩
  refine List.forall_mem_cons.mpr ⟨⟨_, List.mem_of_getElem? (i := 195) rfl⟩, ?_⟩
  refine List.forall_mem_cons.mpr ⟨⟨_, List.mem_of_getElem? (i := 196) rfl⟩, ?_⟩
  refine List.forall_mem_cons.mpr ⟨⟨_, List.mem_of_getElem? (i := 197) rfl⟩, ?_⟩
  refine List.forall_mem_cons.mpr ⟨⟨_, List.mem_of_getElem? (i := 12) rfl⟩, ?_⟩
  refine List.forall_mem_cons.mpr ⟨⟨_, List.mem_of_getElem? (i := 59) rfl⟩, ?_⟩
  refine List.forall_mem_cons.mpr ⟨⟨_, List.mem_of_getElem? (i := 60) rfl⟩, ?_⟩
  refine List.forall_mem_cons.mpr ⟨⟨_, List.mem_of_getElem? (i := 61) rfl⟩, ?_⟩
  refine List.forall_mem_cons.mpr ⟨⟨_, List.mem_of_getElem? (i := 62) rfl⟩, ?_⟩
  refine List.forall_mem_cons.mpr ⟨⟨_, List.mem_of_getElem? (i := 63) rfl⟩, ?_⟩
  refine List.forall_mem_cons.mpr ⟨⟨_, List.mem_of_getElem? (i := 64) rfl⟩, ?_⟩
  refine List.forall_mem_cons.mpr ⟨⟨_, List.mem_of_getElem? (i := 65) rfl⟩, ?_⟩
  refine List.forall_mem_cons.mpr ⟨⟨_, List.mem_of_getElem? (i := 66) rfl⟩, ?_⟩
  refine List.forall_mem_cons.mpr ⟨⟨_, List.mem_of_getElem? (i := 198) rfl⟩, ?_⟩
  refine List.forall_mem_cons.mpr ⟨⟨_, List.mem_of_getElem? (i := 199) rfl⟩, ?_⟩
  refine List.forall_mem_cons.mpr ⟨⟨_, List.mem_of_getElem? (i := 200) rfl⟩, ?_⟩
  refine List.forall_mem_cons.mpr ⟨⟨_, List.mem_of_getElem? (i := 9) rfl⟩, ?_⟩
  refine List.forall_mem_cons.mpr ⟨⟨_, List.mem_of_getElem? (i := 6) rfl⟩, ?_⟩
  refine List.forall_mem_cons.mpr ⟨⟨_, List.mem_of_getElem? (i := 5) rfl⟩, ?_⟩
  refine List.forall_mem_cons.mpr ⟨⟨_, List.mem_of_getElem? (i := 7) rfl⟩, ?_⟩
  refine List.forall_mem_cons.mpr ⟨⟨_, List.mem_of_getElem? (i := 201) rfl⟩, ?_⟩
  refine List.forall_mem_cons.mpr ⟨⟨_, List.mem_of_getElem? (i := 202) rfl⟩, ?_⟩
  refine List.forall_mem_cons.mpr ⟨⟨_, List.mem_of_getElem? (i := 203) rfl⟩, ?_⟩
  refine List.forall_mem_cons.mpr ⟨⟨_, List.mem_of_getElem? (i := 204) rfl⟩, ?_⟩
  refine List.forall_mem_cons.mpr ⟨⟨_, List.mem_of_getElem? (i := 205) rfl⟩, ?_⟩
  refine List.forall_mem_cons.mpr ⟨⟨_, List.mem_of_getElem? (i := 206) rfl⟩, ?_⟩
  refine List.forall_mem_cons.mpr ⟨⟨_, List.mem_of_getElem? (i := 207) rfl⟩, ?_⟩
  refine List.forall_mem_cons.mpr ⟨⟨_, List.mem_of_getElem? (i := 208) rfl⟩, ?_⟩
  refine List.forall_mem_cons.mpr ⟨⟨_, List.mem_of_getElem? (i := 209) rfl⟩, ?_⟩
  refine List.forall_mem_cons.mpr ⟨⟨_, List.mem_of_getElem? (i := 210) rfl⟩, ?_⟩
  refine List.forall_mem_cons.mpr ⟨⟨_, List.mem_of_getElem? (i := 211) rfl⟩, ?_⟩
  refine List.forall_mem_cons.mpr ⟨⟨_, List.mem_of_getElem? (i := 212) rfl⟩, ?_⟩
  refine List.forall_mem_cons.mpr ⟨⟨_, List.mem_of_getElem? (i := 213) rfl⟩, ?_⟩
  refine List.forall_mem_cons.mpr ⟨⟨_, List.mem_of_getElem? (i := 214) rfl⟩, ?_⟩
  refine List.forall_mem_cons.mpr ⟨⟨_, List.mem_of_getElem? (i := 215) rfl⟩, ?_⟩
  refine List.forall_mem_cons.mpr ⟨⟨_, List.mem_of_getElem? (i := 216) rfl⟩, ?_⟩
  refine List.forall_mem_cons.mpr ⟨⟨_, List.mem_of_getElem? (i := 57) rfl⟩, ?_⟩
  refine List.forall_mem_cons.mpr ⟨⟨_, List.mem_of_getElem? (i := 217) rfl⟩, ?_⟩
  refine List.forall_mem_cons.mpr ⟨⟨_, List.mem_of_getElem? (i := 58) rfl⟩, ?_⟩
  refine List.forall_mem_cons.mpr ⟨⟨_, List.mem_of_getElem? (i := 218) rfl⟩, ?_⟩
  refine List.forall_mem_cons.mpr ⟨⟨_, List.mem_of_getElem? (i := 219) rfl⟩, ?_⟩
  refine List.forall_mem_cons.mpr ⟨⟨_, List.mem_of_getElem? (i := 220) rfl⟩, ?_⟩
  refine List.forall_mem_cons.mpr ⟨⟨_, List.mem_of_getElem? (i := 221) rfl⟩, ?_⟩
  refine List.forall_mem_cons.mpr ⟨⟨_, List.mem_of_getElem? (i := 222) rfl⟩, ?_⟩
  refine List.forall_mem_cons.mpr ⟨⟨_, List.mem_of_getElem? (i := 223) rfl⟩, ?_⟩
  refine List.forall_mem_cons.mpr ⟨⟨_, List.mem_of_getElem? (i := 224) rfl⟩, ?_⟩
  refine List.forall_mem_cons.mpr ⟨⟨_, List.mem_of_getElem? (i := 225) rfl⟩, ?_⟩
  refine List.forall_mem_cons.mpr ⟨⟨_, List.mem_of_getElem? (i := 226) rfl⟩, ?_⟩
  refine List.forall_mem_cons.mpr ⟨⟨_, List.mem_of_getElem? (i := 227) rfl⟩, ?_⟩
  refine List.forall_mem_cons.mpr ⟨⟨_, List.mem_of_getElem? (i := 228) rfl⟩, ?_⟩
  refine List.forall_mem_cons.mpr ⟨⟨_, List.mem_of_getElem? (i := 229) rfl⟩, ?_⟩
  refine List.forall_mem_cons.mpr ⟨⟨_, List.mem_of_getElem? (i := 230) rfl⟩, ?_⟩
  refine List.forall_mem_cons.mpr ⟨⟨_, List.mem_of_getElem? (i := 231) rfl⟩, ?_⟩
  refine List.forall_mem_cons.mpr ⟨⟨_, List.mem_of_getElem? (i := 232) rfl⟩, ?_⟩
  refine List.forall_mem_cons.mpr ⟨⟨_, List.mem_of_getElem? (i := 233) rfl⟩, ?_⟩
  refine List.forall_mem_cons.mpr ⟨⟨_, List.mem_of_getElem? (i := 234) rfl⟩, ?_⟩
  refine List.forall_mem_cons.mpr ⟨⟨_, List.mem_of_getElem? (i := 235) rfl⟩, ?_⟩
  refine List.forall_mem_cons.mpr ⟨⟨_, List.mem_of_getElem? (i := 236) rfl⟩, ?_⟩
  refine List.forall_mem_cons.mpr ⟨⟨_, List.mem_of_getElem? (i := 237) rfl⟩, ?_⟩
  refine List.forall_mem_cons.mpr ⟨⟨_, List.mem_of_getElem? (i := 238) rfl⟩, ?_⟩
  refine List.forall_mem_cons.mpr ⟨⟨_, List.mem_of_getElem? (i := 239) rfl⟩, ?_⟩
  refine List.forall_mem_cons.mpr ⟨⟨_, List.mem_of_getElem? (i := 240) rfl⟩, ?_⟩
  refine List.forall_mem_cons.mpr ⟨⟨_, List.mem_of_getElem? (i := 241) rfl⟩, ?_⟩
  refine List.forall_mem_cons.mpr ⟨⟨_, List.mem_of_getElem? (i := 242) rfl⟩, ?_⟩
  refine List.forall_mem_cons.mpr ⟨⟨_, List.mem_of_getElem? (i := 243) rfl⟩, ?_⟩
  refine List.forall_mem_cons.mpr ⟨⟨_, List.mem_of_getElem? (i := 244) rfl⟩, ?_⟩
  refine List.forall_mem_cons.mpr ⟨⟨_, List.mem_of_getElem? (i := 245) rfl⟩, ?_⟩
  refine List.forall_mem_cons.mpr ⟨⟨_, List.mem_of_getElem? (i := 246) rfl⟩, ?_⟩
  refine List.forall_mem_cons.mpr ⟨⟨_, List.mem_of_getElem? (i := 247) rfl⟩, ?_⟩
  refine List.forall_mem_cons.mpr ⟨⟨_, List.mem_of_getElem? (i := 248) rfl⟩, ?_⟩
  refine List.forall_mem_cons.mpr ⟨⟨_, List.mem_of_getElem? (i := 249) rfl⟩, ?_⟩
  refine List.forall_mem_cons.mpr ⟨⟨_, List.mem_of_getElem? (i := 250) rfl⟩, ?_⟩
  refine List.forall_mem_cons.mpr ⟨⟨_, List.mem_of_getElem? (i := 251) rfl⟩, ?_⟩
  refine List.forall_mem_cons.mpr ⟨⟨_, List.mem_of_getElem? (i := 252) rfl⟩, ?_⟩
  refine List.forall_mem_cons.mpr ⟨⟨_, List.mem_of_getElem? (i := 253) rfl⟩, ?_⟩
  refine List.forall_mem_cons.mpr ⟨⟨_, List.mem_of_getElem? (i := 254) rfl⟩, ?_⟩
  refine List.forall_mem_cons.mpr ⟨⟨_, List.mem_of_getElem? (i := 255) rfl⟩, ?_⟩
  refine List.forall_mem_cons.mpr ⟨⟨_, List.mem_of_getElem? (i := 256) rfl⟩, ?_⟩
  refine List.forall_mem_cons.mpr ⟨⟨_, List.mem_of_getElem? (i := 257) rfl⟩, ?_⟩
  refine List.forall_mem_cons.mpr ⟨⟨_, List.mem_of_getElem? (i := 18) rfl⟩, ?_⟩
  refine List.forall_mem_cons.mpr ⟨⟨_, List.mem_of_getElem? (i := 258) rfl⟩, ?_⟩
  refine List.forall_mem_cons.mpr ⟨⟨_, List.mem_of_getElem? (i := 259) rfl⟩, ?_⟩
  refine List.forall_mem_cons.mpr ⟨⟨_, List.mem_of_getElem? (i := 260) rfl⟩, ?_⟩
  refine List.forall_mem_cons.mpr ⟨⟨_, List.mem_of_getElem? (i := 261) rfl⟩, ?_⟩
  refine List.forall_mem_cons.mpr ⟨⟨_, List.mem_of_getElem? (i := 262) rfl⟩, ?_⟩
  refine List.forall_mem_cons.mpr ⟨⟨_, List.mem_of_getElem? (i := 263) rfl⟩, ?_⟩
  refine List.forall_mem_cons.mpr ⟨⟨_, List.mem_of_getElem? (i := 264) rfl⟩, ?_⟩
  refine List.forall_mem_cons.mpr ⟨⟨_, List.mem_of_getElem? (i := 265) rfl⟩, ?_⟩
  refine List.forall_mem_cons.mpr ⟨⟨_, List.mem_of_getElem? (i := 266) rfl⟩, ?_⟩
  refine List.forall_mem_cons.mpr ⟨⟨_, List.mem_of_getElem? (i := 267) rfl⟩, ?_⟩
  refine List.forall_mem_cons.mpr ⟨⟨_, List.mem_of_getElem? (i := 268) rfl⟩, ?_⟩
  refine List.forall_mem_cons.mpr ⟨⟨_, List.mem_of_getElem? (i := 67) rfl⟩, ?_⟩
  refine List.forall_mem_cons.mpr ⟨⟨_, List.mem_of_getElem? (i := 269) rfl⟩, ?_⟩
  refine List.forall_mem_cons.mpr ⟨⟨_, List.mem_of_getElem? (i := 270) rfl⟩, ?_⟩
  refine List.forall_mem_cons.mpr ⟨⟨_, List.mem_of_getElem? (i := 271) rfl⟩, ?_⟩
  refine List.forall_mem_cons.mpr ⟨⟨_, List.mem_of_getElem? (i := 272) rfl⟩, ?_⟩
  refine List.forall_mem_cons.mpr ⟨⟨_, List.mem_of_getElem? (i := 273) rfl⟩, ?_⟩
  refine List.forall_mem_cons.mpr ⟨⟨_, List.mem_of_getElem? (i := 274) rfl⟩, ?_⟩
  refine List.forall_mem_cons.mpr ⟨⟨_, List.mem_of_getElem? (i := 275) rfl⟩, ?_⟩
  refine List.forall_mem_cons.mpr ⟨⟨_, List.mem_of_getElem? (i := 276) rfl⟩, ?_⟩
  refine List.forall_mem_cons.mpr ⟨⟨_, List.mem_of_getElem? (i := 277) rfl⟩, ?_⟩
  refine List.forall_mem_cons.mpr ⟨⟨_, List.mem_of_getElem? (i := 278) rfl⟩, ?_⟩
  refine List.forall_mem_cons.mpr ⟨⟨_, List.mem_of_getElem? (i := 279) rfl⟩, ?_⟩
  refine List.forall_mem_cons.mpr ⟨⟨_, List.mem_of_getElem? (i := 280) rfl⟩, ?_⟩
  refine List.forall_mem_cons.mpr ⟨⟨_, List.mem_of_getElem? (i := 281) rfl⟩, ?_⟩
  refine List.forall_mem_cons.mpr ⟨⟨_, List.mem_of_getElem? (i := 282) rfl⟩, ?_⟩
  refine List.forall_mem_cons.mpr ⟨⟨_, List.mem_of_getElem? (i := 283) rfl⟩, ?_⟩
  refine List.forall_mem_cons.mpr ⟨⟨_, List.mem_of_getElem? (i := 284) rfl⟩, ?_⟩
  refine List.forall_mem_cons.mpr ⟨⟨_, List.mem_of_getElem? (i := 285) rfl⟩, ?_⟩
  refine List.forall_mem_cons.mpr ⟨⟨_, List.mem_of_getElem? (i := 286) rfl⟩, ?_⟩
  refine List.forall_mem_cons.mpr ⟨⟨_, List.mem_of_getElem? (i := 287) rfl⟩, ?_⟩
  refine List.forall_mem_cons.mpr ⟨⟨_, List.mem_of_getElem? (i := 288) rfl⟩, ?_⟩
  refine List.forall_mem_cons.mpr ⟨⟨_, List.mem_of_getElem? (i := 289) rfl⟩, ?_⟩
  refine List.forall_mem_cons.mpr ⟨⟨_, List.mem_of_getElem? (i := 290) rfl⟩, ?_⟩
  refine List.forall_mem_cons.mpr ⟨⟨_, List.mem_of_getElem? (i := 291) rfl⟩, ?_⟩
  refine List.forall_mem_cons.mpr ⟨⟨_, List.mem_of_getElem? (i := 292) rfl⟩, ?_⟩
  refine List.forall_mem_cons.mpr ⟨⟨_, List.mem_of_getElem? (i := 293) rfl⟩, ?_⟩
  refine List.forall_mem_cons.mpr ⟨⟨_, List.mem_of_getElem? (i := 294) rfl⟩, ?_⟩
  refine List.forall_mem_cons.mpr ⟨⟨_, List.mem_of_getElem? (i := 295) rfl⟩, ?_⟩
  refine List.forall_mem_cons.mpr ⟨⟨_, List.mem_of_getElem? (i := 68) rfl⟩, ?_⟩
  refine List.forall_mem_cons.mpr ⟨⟨_, List.mem_of_getElem? (i := 296) rfl⟩, ?_⟩
  refine List.forall_mem_cons.mpr ⟨⟨_, List.mem_of_getElem? (i := 297) rfl⟩, ?_⟩
  refine List.forall_mem_cons.mpr ⟨⟨_, List.mem_of_getElem? (i := 298) rfl⟩, ?_⟩
  refine List.forall_mem_cons.mpr ⟨⟨_, List.mem_of_getElem? (i := 299) rfl⟩, ?_⟩
  refine List.forall_mem_cons.mpr ⟨⟨_, List.mem_of_getElem? (i := 300) rfl⟩, ?_⟩
  refine List.forall_mem_cons.mpr ⟨⟨_, List.mem_of_getElem? (i := 301) rfl⟩, ?_⟩
  refine List.forall_mem_cons.mpr ⟨⟨_, List.mem_of_getElem? (i := 302) rfl⟩, ?_⟩
  refine List.forall_mem_cons.mpr ⟨⟨_, List.mem_of_getElem? (i := 303) rfl⟩, ?_⟩
  refine List.forall_mem_cons.mpr ⟨⟨_, List.mem_of_getElem? (i := 304) rfl⟩, ?_⟩
  refine List.forall_mem_cons.mpr ⟨⟨_, List.mem_of_getElem? (i := 305) rfl⟩, ?_⟩
  refine List.forall_mem_cons.mpr ⟨⟨_, List.mem_of_getElem? (i := 306) rfl⟩, ?_⟩
  refine List.forall_mem_cons.mpr ⟨⟨_, List.mem_of_getElem? (i := 307) rfl⟩, ?_⟩
  refine List.forall_mem_cons.mpr ⟨⟨_, List.mem_of_getElem? (i := 308) rfl⟩, ?_⟩
  refine List.forall_mem_cons.mpr ⟨⟨_, List.mem_of_getElem? (i := 309) rfl⟩, ?_⟩
  refine List.forall_mem_cons.mpr ⟨⟨_, List.mem_of_getElem? (i := 310) rfl⟩, ?_⟩
  refine List.forall_mem_cons.mpr ⟨⟨_, List.mem_of_getElem? (i := 311) rfl⟩, ?_⟩
  refine List.forall_mem_cons.mpr ⟨⟨_, List.mem_of_getElem? (i := 312) rfl⟩, ?_⟩
  refine List.forall_mem_cons.mpr ⟨⟨_, List.mem_of_getElem? (i := 313) rfl⟩, ?_⟩
  refine List.forall_mem_cons.mpr ⟨⟨_, List.mem_of_getElem? (i := 314) rfl⟩, ?_⟩
  refine List.forall_mem_cons.mpr ⟨⟨_, List.mem_of_getElem? (i := 315) rfl⟩, ?_⟩
  refine List.forall_mem_cons.mpr ⟨⟨_, List.mem_of_getElem? (i := 316) rfl⟩, ?_⟩
  refine List.forall_mem_cons.mpr ⟨⟨_, List.mem_of_getElem? (i := 317) rfl⟩, ?_⟩
  refine List.forall_mem_cons.mpr ⟨⟨_, List.mem_of_getElem? (i := 318) rfl⟩, ?_⟩
  refine List.forall_mem_cons.mpr ⟨⟨_, List.mem_of_getElem? (i := 319) rfl⟩, ?_⟩
  refine List.forall_mem_cons.mpr ⟨⟨_, List.mem_of_getElem? (i := 320) rfl⟩, ?_⟩
  refine List.forall_mem_cons.mpr ⟨⟨_, List.mem_of_getElem? (i := 321) rfl⟩, ?_⟩
  refine List.forall_mem_cons.mpr ⟨⟨_, List.mem_of_getElem? (i := 322) rfl⟩, ?_⟩
  refine List.forall_mem_cons.mpr ⟨⟨_, List.mem_of_getElem? (i := 323) rfl⟩, ?_⟩
  refine List.forall_mem_cons.mpr ⟨⟨_, List.mem_of_getElem? (i := 324) rfl⟩, ?_⟩
  refine List.forall_mem_cons.mpr ⟨⟨_, List.mem_of_getElem? (i := 325) rfl⟩, ?_⟩
  refine List.forall_mem_cons.mpr ⟨⟨_, List.mem_of_getElem? (i := 326) rfl⟩, ?_⟩
  refine List.forall_mem_cons.mpr ⟨⟨_, List.mem_of_getElem? (i := 327) rfl⟩, ?_⟩
  refine List.forall_mem_cons.mpr ⟨⟨_, List.mem_of_getElem? (i := 328) rfl⟩, ?_⟩
  refine List.forall_mem_cons.mpr ⟨⟨_, List.mem_of_getElem? (i := 329) rfl⟩, ?_⟩
  refine List.forall_mem_cons.mpr ⟨⟨_, List.mem_of_getElem? (i := 330) rfl⟩, ?_⟩
  refine List.forall_mem_cons.mpr ⟨⟨_, List.mem_of_getElem? (i := 331) rfl⟩, ?_⟩
  refine List.forall_mem_cons.mpr ⟨⟨_, List.mem_of_getElem? (i := 332) rfl⟩, ?_⟩
  refine List.forall_mem_cons.mpr ⟨⟨_, List.mem_of_getElem? (i := 333) rfl⟩, ?_⟩
  refine List.forall_mem_cons.mpr ⟨⟨_, List.mem_of_getElem? (i := 334) rfl⟩, ?_⟩
  refine List.forall_mem_cons.mpr ⟨⟨_, List.mem_of_getElem? (i := 335) rfl⟩, ?_⟩
  refine List.forall_mem_cons.mpr ⟨⟨_, List.mem_of_getElem? (i := 336) rfl⟩, ?_⟩
  refine List.forall_mem_cons.mpr ⟨⟨_, List.mem_of_getElem? (i := 337) rfl⟩, ?_⟩
  refine List.forall_mem_cons.mpr ⟨⟨_, List.mem_of_getElem? (i := 338) rfl⟩, ?_⟩
  refine List.forall_mem_cons.mpr ⟨⟨_, List.mem_of_getElem? (i := 339) rfl⟩, ?_⟩
  refine List.forall_mem_cons.mpr ⟨⟨_, List.mem_of_getElem? (i := 340) rfl⟩, ?_⟩
  refine List.forall_mem_cons.mpr ⟨⟨_, List.mem_of_getElem? (i := 341) rfl⟩, ?_⟩
  refine List.forall_mem_cons.mpr ⟨⟨_, List.mem_of_getElem? (i := 342) rfl⟩, ?_⟩
  refine List.forall_mem_cons.mpr ⟨⟨_, List.mem_of_getElem? (i := 343) rfl⟩, ?_⟩
  refine List.forall_mem_cons.mpr ⟨⟨_, List.mem_of_getElem? (i := 344) rfl⟩, ?_⟩
  refine List.forall_mem_cons.mpr ⟨⟨_, List.mem_of_getElem? (i := 345) rfl⟩, ?_⟩
  refine List.forall_mem_cons.mpr ⟨⟨_, List.mem_of_getElem? (i := 346) rfl⟩, ?_⟩
  refine List.forall_mem_cons.mpr ⟨⟨_, List.mem_of_getElem? (i := 347) rfl⟩, ?_⟩
  refine List.forall_mem_cons.mpr ⟨⟨_, List.mem_of_getElem? (i := 348) rfl⟩, ?_⟩
  refine List.forall_mem_cons.mpr ⟨⟨_, List.mem_of_getElem? (i := 349) rfl⟩, ?_⟩
  refine List.forall_mem_cons.mpr ⟨⟨_, List.mem_of_getElem? (i := 350) rfl⟩, ?_⟩
  refine List.forall_mem_cons.mpr ⟨⟨_, List.mem_of_getElem? (i := 351) rfl⟩, ?_⟩
  refine List.forall_mem_cons.mpr ⟨⟨_, List.mem_of_getElem? (i := 352) rfl⟩, ?_⟩
  refine List.forall_mem_cons.mpr ⟨⟨_, List.mem_of_getElem? (i := 353) rfl⟩, ?_⟩
  refine List.forall_mem_cons.mpr ⟨⟨_, List.mem_of_getElem? (i := 354) rfl⟩, ?_⟩
  refine List.forall_mem_cons.mpr ⟨⟨_, List.mem_of_getElem? (i := 355) rfl⟩, ?_⟩
  refine List.forall_mem_cons.mpr ⟨⟨_, List.mem_of_getElem? (i := 356) rfl⟩, ?_⟩
  refine List.forall_mem_cons.mpr ⟨⟨_, List.mem_of_getElem? (i := 357) rfl⟩, ?_⟩
  refine List.forall_mem_cons.mpr ⟨⟨_, List.mem_of_getElem? (i := 358) rfl⟩, ?_⟩
  refine List.forall_mem_cons.mpr ⟨⟨_, List.mem_of_getElem? (i := 359) rfl⟩, ?_⟩
  refine List.forall_mem_cons.mpr ⟨⟨_, List.mem_of_getElem? (i := 360) rfl⟩, ?_⟩
  refine List.forall_mem_cons.mpr ⟨⟨_, List.mem_of_getElem? (i := 361) rfl⟩, ?_⟩
  refine List.forall_mem_cons.mpr ⟨⟨_, List.mem_of_getElem? (i := 362) rfl⟩, ?_⟩
  refine List.forall_mem_cons.mpr ⟨⟨_, List.mem_of_getElem? (i := 363) rfl⟩, ?_⟩
  refine List.forall_mem_cons.mpr ⟨⟨_, List.mem_of_getElem? (i := 364) rfl⟩, ?_⟩
  refine List.forall_mem_cons.mpr ⟨⟨_, List.mem_of_getElem? (i := 365) rfl⟩, ?_⟩
  refine List.forall_mem_cons.mpr ⟨⟨_, List.mem_of_getElem? (i := 366) rfl⟩, ?_⟩
  refine List.forall_mem_cons.mpr ⟨⟨_, List.mem_of_getElem? (i := 367) rfl⟩, ?_⟩
  refine List.forall_mem_cons.mpr ⟨⟨_, List.mem_of_getElem? (i := 368) rfl⟩, ?_⟩
  refine List.forall_mem_cons.mpr ⟨⟨_, List.mem_of_getElem? (i := 369) rfl⟩, ?_⟩
  refine List.forall_mem_cons.mpr ⟨⟨_, List.mem_of_getElem? (i := 370) rfl⟩, ?_⟩
  refine List.forall_mem_cons.mpr ⟨⟨_, List.mem_of_getElem? (i := 371) rfl⟩, ?_⟩
  refine List.forall_mem_cons.mpr ⟨⟨_, List.mem_of_getElem? (i := 372) rfl⟩, ?_⟩
  refine List.forall_mem_cons.mpr ⟨⟨_, List.mem_of_getElem? (i := 373) rfl⟩, ?_⟩
  refine List.forall_mem_cons.mpr ⟨⟨_, List.mem_of_getElem? (i := 374) rfl⟩, ?_⟩
  refine List.forall_mem_cons.mpr ⟨⟨_, List.mem_of_getElem? (i := 375) rfl⟩, ?_⟩
  refine List.forall_mem_cons.mpr ⟨⟨_, List.mem_of_getElem? (i := 376) rfl⟩, ?_⟩
  refine List.forall_mem_cons.mpr ⟨⟨_, List.mem_of_getElem? (i := 377) rfl⟩, ?_⟩
  refine List.forall_mem_cons.mpr ⟨⟨_, List.mem_of_getElem? (i := 378) rfl⟩, ?_⟩
  refine List.forall_mem_cons.mpr ⟨⟨_, List.mem_of_getElem? (i := 379) rfl⟩, ?_⟩
  refine List.forall_mem_cons.mpr ⟨⟨_, List.mem_of_getElem? (i := 380) rfl⟩, ?_⟩
  refine List.forall_mem_cons.mpr ⟨⟨_, List.mem_of_getElem? (i := 381) rfl⟩, ?_⟩
  refine List.forall_mem_cons.mpr ⟨⟨_, List.mem_of_getElem? (i := 382) rfl⟩, ?_⟩
  refine List.forall_mem_cons.mpr ⟨⟨_, List.mem_of_getElem? (i := 383) rfl⟩, ?_⟩
  refine List.forall_mem_cons.mpr ⟨⟨_, List.mem_of_getElem? (i := 384) rfl⟩, ?_⟩
  refine List.forall_mem_cons.mpr ⟨⟨_, List.mem_of_getElem? (i := 385) rfl⟩, ?_⟩
  refine List.forall_mem_cons.mpr ⟨⟨_, List.mem_of_getElem? (i := 386) rfl⟩, ?_⟩
  refine List.forall_mem_cons.mpr ⟨⟨_, List.mem_of_getElem? (i := 387) rfl⟩, ?_⟩
  refine List.forall_mem_cons.mpr ⟨⟨_, List.mem_of_getElem? (i := 388) rfl⟩, ?_⟩
  refine List.forall_mem_cons.mpr ⟨⟨_, List.mem_of_getElem? (i := 389) rfl⟩, ?_⟩
  refine List.forall_mem_cons.mpr ⟨⟨_, List.mem_of_getElem? (i := 390) rfl⟩, ?_⟩
  refine List.forall_mem_cons.mpr ⟨⟨_, List.mem_of_getElem? (i := 391) rfl⟩, ?_⟩
  refine List.forall_mem_cons.mpr ⟨⟨_, List.mem_of_getElem? (i := 392) rfl⟩, ?_⟩
  refine List.forall_mem_cons.mpr ⟨⟨_, List.mem_of_getElem? (i := 393) rfl⟩, ?_⟩
  refine List.forall_mem_cons.mpr ⟨⟨_, List.mem_of_getElem? (i := 394) rfl⟩, ?_⟩
  refine List.forall_mem_cons.mpr ⟨⟨_, List.mem_of_getElem? (i := 395) rfl⟩, ?_⟩
  refine List.forall_mem_cons.mpr ⟨⟨_, List.mem_of_getElem? (i := 396) rfl⟩, ?_⟩
  refine List.forall_mem_cons.mpr ⟨⟨_, List.mem_of_getElem? (i := 397) rfl⟩, ?_⟩
  refine List.forall_mem_cons.mpr ⟨⟨_, List.mem_of_getElem? (i := 398) rfl⟩, ?_⟩
  refine List.forall_mem_cons.mpr ⟨⟨_, List.mem_of_getElem? (i := 399) rfl⟩, ?_⟩
  refine List.forall_mem_cons.mpr ⟨⟨_, List.mem_of_getElem? (i := 400) rfl⟩, ?_⟩
  refine List.forall_mem_cons.mpr ⟨⟨_, List.mem_of_getElem? (i := 401) rfl⟩, ?_⟩
  exact fun _ h => nomatch h

end Dis
