import Verif.Model.Errors
import Verif.Proofs.EnumLaws
import Verif.Proofs.KindFacts
/- Lemmas on the texts of errors: splitting a text at its first delimiter. -/
namespace Dis

/-- Two texts `a ++ c :: x` whose first parts avoid the delimiter `c` agree only part by part. -/
theorem split_at_delimiter {α : Type} {c : α} {a b x y : List α} (ha : c ∉ a) (hb : c ∉ b)
    (h : a ++ c :: x = b ++ c :: y) : a = b ∧ x = y := by
  induction a generalizing b with
  | nil =>
    cases b with
    | nil => simpa using h
    | cons d b =>
      simp only [List.nil_append, List.cons_append, List.cons.injEq] at h
      exact absurd (h.1 ▸ List.mem_cons_self) hb
  | cons e a ih =>
    cases b with
    | nil =>
      simp only [List.nil_append, List.cons_append, List.cons.injEq] at h
      exact absurd (h.1 ▸ List.mem_cons_self) ha
    | cons d b =>
      simp only [List.cons_append, List.cons.injEq] at h
      obtain ⟨h1, h2⟩ := ih (fun m => ha (List.mem_cons_of_mem _ m)) (fun m => hb (List.mem_cons_of_mem _ m)) h.2
      exact ⟨by rw [h.1, h1], h2⟩

theorem toString_nat_toList (n : Nat) : (toString n).toList = Nat.toDigits 10 n := Nat.toList_repr

theorem digits_ne {n : Nat} {c : Char} (hc : c.isDigit = false) : c ∉ (toString n).toList := by
  rw [toString_nat_toList]
  intro h
  have := Nat.isDigit_of_mem_toDigits (by omega) (by omega) h
  rw [hc] at this
  cases this

theorem digits_inj {a b : Nat} (h : (toString a).toList = (toString b).toList) : a = b := by
  rw [toString_nat_toList, toString_nat_toList] at h
  have h' := congrArg (fun l => Nat.ofDigitChars 10 l 0) h
  simpa [Nat.ofDigitChars_toDigits] using h'

theorem toList_lit_append (s t : String) : (s ++ t).toList = s.toList ++ t.toList := String.toList_append

/-- Names of PDU types contain no comma. -/
theorem pduTypeName_no_comma (n : Nat) : ',' ∉ (pduTypeName n).toList := by
  have h : ∀ s ∈ pduTypeNames, ',' ∉ s.toList := by decide +kernel
  unfold pduTypeName
  rw [List.getD_eq_getElem?_getD]
  cases hs : pduTypeNames[n]? with
  | none => simp
  | some s => exact h s (List.mem_of_getElem? hs)

/-- The names of the assigned types are distinct. -/
theorem pduTypeName_inj {m n : Nat} (hm : m ≤ 72) (hn : n ≤ 72) (h : pduTypeName m = pduTypeName n) :
    m = n := by
  have key : ∀ a ∈ List.range 73, ∀ b ∈ List.range 73, pduTypeName a = pduTypeName b → a = b := by
    decide +kernel
  exact key m (List.mem_range.mpr (by omega)) n (List.mem_range.mpr (by omega)) h

theorem versionName_no_comma (v : ProtocolVersion) : ',' ∉ v.debug.toList := by
  have h : ∀ c ∈ ProtocolVersion.spec.codes, ∀ hc : c ∈ ProtocolVersion.spec.codes,
      ',' ∉ (EnumVal.mk c hc : ProtocolVersion).debug.toList := by decide +kernel
  exact h v.code v.mem v.mem

theorem versionName_inj {v w : ProtocolVersion} (h : v.debug = w.debug) : v = w := by
  have key : ∀ c ∈ ProtocolVersion.spec.codes, ∀ hc : c ∈ ProtocolVersion.spec.codes,
      ∀ d ∈ ProtocolVersion.spec.codes, ∀ hd : d ∈ ProtocolVersion.spec.codes,
      (EnumVal.mk c hc : ProtocolVersion).debug = (EnumVal.mk d hd : ProtocolVersion).debug → c = d := by
    decide +kernel
  exact EnumVal.ext (key v.code v.mem v.mem w.code w.mem w.mem h)

theorem stateName_no_space (s : PduState) : ' ' ∉ s.debug.toList := by
  cases s <;> decide +kernel

theorem stateName_inj {s t : PduState} (h : s.debug = t.debug) : s = t := by
  cases s <;> cases t <;> first | rfl | exact absurd h (by decide +kernel)

end Dis
