import Verif.Proofs.EnumNames
/-
The check of the names of all enumerations (takes about two minutes), in parts that keep the memory of the kernel small.
-/
namespace Dis
set_option maxRecDepth 20000

theorem names_0 : ((allEnums.drop 0).take 13).all EnumSpec.named = true := by decide +kernel
theorem names_13 : ((allEnums.drop 13).take 12).all EnumSpec.named = true := by decide +kernel
theorem names_25 : ((allEnums.drop 25).take 7).all EnumSpec.named = true := by decide +kernel
theorem names_32 : ((allEnums.drop 32).take 2).all EnumSpec.named = true := by decide +kernel
theorem names_34 : ((allEnums.drop 34).take 5).all EnumSpec.named = true := by decide +kernel
theorem names_39_0 : VariableRecordTypes.spec.namedPart 2 0 = true := by decide +kernel
theorem names_39_1 : VariableRecordTypes.spec.namedPart 2 1 = true := by decide +kernel
theorem names_39 : ∀ s ∈ (allEnums.drop 39).take 1, s.Fit := fun s hs => by
  have hs : s ∈ [VariableRecordTypes.spec] := hs
  rw [List.mem_singleton.mp hs]
  exact EnumSpec.fit_of_parts (m := 2) (by decide) fun i hi => match i, hi with
    | 0, _ => names_39_0
    | 1, _ => names_39_1
    | i + 2, hi => absurd hi (by omega)
theorem names_40 : ((allEnums.drop 40).take 7).all EnumSpec.named = true := by decide +kernel
theorem names_47_0 : EmitterName.spec.namedPart 4 0 = true := by decide +kernel
theorem names_47_1 : EmitterName.spec.namedPart 4 1 = true := by decide +kernel
theorem names_47_2 : EmitterName.spec.namedPart 4 2 = true := by decide +kernel
theorem names_47_3 : EmitterName.spec.namedPart 4 3 = true := by decide +kernel
theorem names_47 : ∀ s ∈ (allEnums.drop 47).take 1, s.Fit := fun s hs => by
  have hs : s ∈ [EmitterName.spec] := hs
  rw [List.mem_singleton.mp hs]
  exact EnumSpec.fit_of_parts (m := 4) (by decide) fun i hi => match i, hi with
    | 0, _ => names_47_0
    | 1, _ => names_47_1
    | 2, _ => names_47_2
    | 3, _ => names_47_3
    | i + 4, hi => absurd hi (by omega)
theorem names_48 : ((allEnums.drop 48).take 24).all EnumSpec.named = true := by decide +kernel
theorem names_72 : ((allEnums.drop 72).take 52).all EnumSpec.named = true := by decide +kernel
theorem names_124 : ((allEnums.drop 124).take 76).all EnumSpec.named = true := by decide +kernel
theorem names_200 : ((allEnums.drop 200).take 91).all EnumSpec.named = true := by decide +kernel
theorem names_291 : ((allEnums.drop 291).take 37).all EnumSpec.named = true := by decide +kernel
theorem names_328 : ((allEnums.drop 328).take 21).all EnumSpec.named = true := by decide +kernel
theorem names_349 : ((allEnums.drop 349).take 12).all EnumSpec.named = true := by decide +kernel
theorem names_361 : ((allEnums.drop 361).take 41).all EnumSpec.named = true := by decide +kernel

/-- the names of every enumeration are fit to be printed -/
theorem allEnums_fit : ∀ s ∈ allEnums, s.Fit :=
  fit_append (l := allEnums) 0 13 (fit_of_all names_0) <|
  fit_append (l := allEnums) 13 12 (fit_of_all names_13) <|
  fit_append (l := allEnums) 25 7 (fit_of_all names_25) <|
  fit_append (l := allEnums) 32 2 (fit_of_all names_32) <|
  fit_append (l := allEnums) 34 5 (fit_of_all names_34) <|
  fit_append (l := allEnums) 39 1 names_39 <|
  fit_append (l := allEnums) 40 7 (fit_of_all names_40) <|
  fit_append (l := allEnums) 47 1 names_47 <|
  fit_append (l := allEnums) 48 24 (fit_of_all names_48) <|
  fit_append (l := allEnums) 72 52 (fit_of_all names_72) <|
  fit_append (l := allEnums) 124 76 (fit_of_all names_124) <|
  fit_append (l := allEnums) 200 91 (fit_of_all names_200) <|
  fit_append (l := allEnums) 291 37 (fit_of_all names_291) <|
  fit_append (l := allEnums) 328 21 (fit_of_all names_328) <|
  fit_append (l := allEnums) 349 12 (fit_of_all names_349) <|
  fit_append (l := allEnums) 361 41 (fit_of_all names_361) <|
  fun s hs => by
    have hs : s ∈ ([] : List EnumSpec) := hs
    exact nomatch hs

end Dis
