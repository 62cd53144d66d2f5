import Verif.Proofs.EnumNamesChecked
import Verif.Properties.Enums
/- Reading printed texts back: flags, headers and the enumerations with data. -/
namespace Dis

theorem named_of_mem {s : EnumSpec} (h : s ∈ allEnums) : Named s :=
  .of (C17_codes_distinct_and_fit s h).1 (allEnums_fit s h)

/-! ### Flags -/

/-- a table of flags fit to be printed: names of letters, digits and underscores, none beginning with `0`, and no name
twice; every flag one bit -/
def flagsFit (width : Nat) (flags : List (String × Nat)) : Bool :=
  allNew (flags.map fun f => nameKey (strBytes f.1)) .leaf &&
  flags.all fun f => (strBytes f.1).head? != some 48 && (List.range width).any fun i => f.2 == 2 ^ i

theorem hex_prefix : strBytes "0x" = [48, 120] := by decide +kernel

theorem flagTexts_mem : ∀ (flags : List (String × Nat)) (s n : Nat), ∀ t ∈ flagTexts flags s n,
    (∃ f ∈ flags, t = strBytes f.1) ∨ ∃ m, t = strBytes "0x" ++ digitsIn 16 m
  | [], s, n, t, h => by
    unfold flagTexts at h
    split at h
    · exact nomatch h
    · exact .inr ⟨n, by simpa using h⟩
  | f :: flags, s, n, t, h => by
    unfold flagTexts at h
    split at h
    · rcases List.mem_cons.mp h with rfl | h
      · exact .inl ⟨f, List.mem_cons_self .., rfl⟩
      · rcases flagTexts_mem flags s _ t h with ⟨g, hg, e⟩ | h
        · exact .inl ⟨g, List.mem_cons_of_mem _ hg, e⟩
        · exact .inr h
    · rcases flagTexts_mem flags s _ t h with ⟨g, hg, e⟩ | h
      · exact .inl ⟨g, List.mem_cons_of_mem _ hg, e⟩
      · exact .inr h

theorem and_single {n i : Nat} (h : n &&& 2 ^ i ≠ 0) : n &&& 2 ^ i = 2 ^ i := by
  cases hb : n.testBit i with
  | false =>
    refine absurd (Nat.eq_of_testBit_eq fun j => ?_) h
    rw [Nat.testBit_and, Nat.testBit_two_pow, Nat.zero_testBit]
    by_cases hj : i = j
    · subst hj; simp [hb]
    · simp [hj]
  | true =>
    refine Nat.eq_of_testBit_eq fun j => ?_
    rw [Nat.testBit_and, Nat.testBit_two_pow]
    by_cases hj : i = j
    · subst hj; simp [hb]
    · simp [hj]

/-- what the flag table must satisfy, in words -/
structure FlagsFit (flags : List (String × Nat)) : Prop where
  names : (flags.map fun f => nameKey (strBytes f.1)).Nodup
  words : ∀ f ∈ flags, Word (strBytes f.1)
  letter : ∀ f ∈ flags, (strBytes f.1).head? ≠ some 48
  single : ∀ f ∈ flags, ∃ i, f.2 = 2 ^ i

theorem FlagsFit.of {width : Nat} {flags : List (String × Nat)} (h : flagsFit width flags = true) : FlagsFit flags := by
  simp only [flagsFit, Bool.and_eq_true, List.all_eq_true, List.any_eq_true, beq_iff_eq, bne_iff_ne] at h
  have h1 := allNew_nodup (t := .leaf) trivial h.1
  refine ⟨h1.1, fun v hv => ?_, fun f hf => (h.2 f hf).1, fun f hf => ?_⟩
  · have h1 := h1.2.1 _ (List.mem_map.mpr ⟨v, hv, rfl⟩)
    refine ⟨fun e => ?_, fun b hb => nameOctet_word b (nameKey_octets _ 1 (by unfold nameKey at h1; omega) b hb)⟩
    rw [e] at h1
    exact absurd h1 (by decide)
  · obtain ⟨i, _, e⟩ := (h.2 f hf).2
    exact ⟨i, e⟩

theorem FlagsFit.tail {f : String × Nat} {flags : List (String × Nat)} (h : FlagsFit (f :: flags)) : FlagsFit flags where
  names := (List.nodup_cons.mp h.names).2
  words g hg := h.words g (List.mem_cons_of_mem _ hg)
  letter g hg := h.letter g (List.mem_cons_of_mem _ hg)
  single g hg := h.single g (List.mem_cons_of_mem _ hg)

theorem FlagsFit.head_new {f : String × Nat} {flags : List (String × Nat)} (h : FlagsFit (f :: flags)) (s n : Nat) :
    strBytes f.1 ∉ flagTexts flags s n := fun hm => by
  rcases flagTexts_mem flags s n _ hm with ⟨g, hg, e⟩ | ⟨m, e⟩
  · exact (List.nodup_cons.mp h.names).1 (List.mem_map.mpr ⟨g, hg, by simp only [e]⟩)
  · have := h.letter f (List.mem_cons_self ..)
    rw [e, hex_prefix] at this
    exact this rfl

theorem flagTexts_inj : ∀ {flags : List (String × Nat)}, FlagsFit flags → ∀ {s s' n m : Nat},
    flagTexts flags s n = flagTexts flags s' m → n = m
  | [], _, s, s', n, m, h => by
    unfold flagTexts at h
    split at h <;> split at h
    · omega
    · exact nomatch h
    · exact nomatch h
    · exact digitsIn_inj (base := 16) (by omega) (by omega) (List.append_cancel_left (List.cons.inj h).1)
  | f :: flags, hf, s, s', n, m, h => by
    obtain ⟨i, hi⟩ := hf.single f (List.mem_cons_self ..)
    unfold flagTexts at h
    split at h
    · rename_i h1
      split at h
      · rename_i h2
        have e := flagTexts_inj hf.tail (List.cons.inj h).2
        have e1 : n &&& f.2 = f.2 := by rw [hi]; exact and_single (hi ▸ h1.2)
        have e2 : m &&& f.2 = f.2 := by rw [hi]; exact and_single (hi ▸ h2.2)
        rw [e1, e2] at e
        have l1 : n &&& f.2 ≤ n := Nat.and_le_left
        have l2 : m &&& f.2 ≤ m := Nat.and_le_left
        omega
      · exact absurd (h ▸ List.mem_cons_self ..) (hf.head_new s' m)
    · split at h
      · exact absurd (h.symm ▸ List.mem_cons_self ..) (hf.head_new s n)
      · exact flagTexts_inj hf.tail h

theorem hex_word (n : Nat) : Word (strBytes "0x" ++ digitsIn 16 n) := by
  have h := digitsIn_octets (base := 16) (by omega) (by omega) n
  rw [hex_prefix]
  refine ⟨by simp, fun b hb => ?_⟩
  rcases List.mem_append.mp hb with hb | hb
  · exact (by decide : ∀ b ∈ ([48, 120] : List UInt8), stopOctet b = false ∧ b ≠ 10) b hb
  · exact ⟨(h.2 b hb).1, (h.2 b hb).2.1⟩

theorem flagTexts_word {flags : List (String × Nat)} (hf : FlagsFit flags) (s n : Nat) :
    ∀ t ∈ flagTexts flags s n, Word t := fun t ht => by
  rcases flagTexts_mem flags s n t ht with ⟨f, hm, rfl⟩ | ⟨m, rfl⟩
  · exact hf.words f hm
  · exact hex_word m

theorem zero_text : strBytes "0x0" = strBytes "0x" ++ digitsIn 16 0 := by decide +kernel

/-- the parts of the text of flags -/
def flagParts (flags : List (String × Nat)) (n : Nat) : List Text :=
  if n = 0 then [strBytes "0x" ++ digitsIn 16 0] else flagTexts flags n n

theorem flagsText_parts (σ : Fmt) (name : String) (flags : List (String × Nat)) (n : Nat) :
    flagsText σ name flags n = tupleText σ name (join (strBytes " | ") (flagParts flags n)) := by
  unfold flagsText flagParts
  split
  · rw [zero_text]; simp [join, joinTail]
  · rfl

theorem flagParts_word {flags : List (String × Nat)} (hf : FlagsFit flags) (n : Nat) :
    ∀ t ∈ flagParts flags n, Word t := by
  unfold flagParts
  split
  · intro t ht
    rw [List.mem_singleton.mp ht]
    exact hex_word 0
  · exact flagTexts_word hf n n

/-- a flag text that is one hexadecimal number names that number -/
theorem flagTexts_hex : ∀ {flags : List (String × Nat)}, FlagsFit flags → ∀ {s n m : Nat},
    flagTexts flags s n = [strBytes "0x" ++ digitsIn 16 m] → n = m
  | [], _, s, n, m, h => by
    unfold flagTexts at h
    split at h
    · exact nomatch h
    · exact digitsIn_inj (base := 16) (by omega) (by omega) (List.append_cancel_left (List.cons.inj h).1)
  | f :: flags, hf, s, n, m, h => by
    unfold flagTexts at h
    split at h
    · have := hf.letter f (List.mem_cons_self ..)
      rw [(List.cons.inj h).1, hex_prefix] at this
      exact absurd rfl this
    · exact flagTexts_hex hf.tail h

theorem flagParts_inj {flags : List (String × Nat)} (hf : FlagsFit flags) {n m : Nat}
    (h : flagParts flags n = flagParts flags m) : n = m := by
  unfold flagParts at h
  split at h <;> split at h
  · omega
  · exact (flagTexts_hex hf h.symm) ▸ by assumption
  · exact (flagTexts_hex hf h).trans (by omega)
  · exact flagTexts_inj hf h

theorem words_joined {s c : UInt8} {sep : Text} (hs : stopOctet s = true) (hc : stopOctet c = true) (hne : s ≠ c)
    {ts us : List Text} (ht : ∀ t ∈ ts, Word t) (hu : ∀ t ∈ us, Word t) {r r' : Text}
    (h : join (s :: sep) ts ++ c :: r = join (s :: sep) us ++ c :: r') : ts = us ∧ r = r' := by
  have e : ∀ l : List Text, (∀ t ∈ l, Word t) → ∃ l' : List {t : Text // Word t}, l'.map Subtype.val = l := fun l hl =>
    ⟨l.attach.map fun t => ⟨t.1, hl t.1 t.2⟩, by simp⟩
  obtain ⟨ts', rfl⟩ := e ts ht
  obtain ⟨us', rfl⟩ := e us hu
  exact join_reads (f := Subtype.val) (g := Subtype.val) hs hc hne (fun x => x.2.starts)
    (fun hr hr' h => Word.cut (Subtype.property _) (Subtype.property _) hr hr' h) h

theorem flagParts_stop {flags : List (String × Nat)} (hf : FlagsFit flags) {n m : Nat} {c : UInt8} {u u' : Text}
    (hc : stopOctet c = true) (hne : (32 : UInt8) ≠ c)
    (h : join (strBytes " | ") (flagParts flags n) ++ (c :: u) = join (strBytes " | ") (flagParts flags m) ++ (c :: u')) :
    n = m ∧ join (strBytes " | ") (flagParts flags n) = join (strBytes " | ") (flagParts flags m) := by
  rw [bar] at h ⊢
  have e := flagParts_inj hf (words_joined (by decide) hc hne (flagParts_word hf n) (flagParts_word hf m) h).1
  exact ⟨e, by rw [e]⟩

theorem flagsText_reads {σ : Fmt} {name : String} {flags : List (String × Nat)} (hf : FlagsFit flags) {n m : Nat}
    {r r' : Text} (h : flagsText σ name flags n ++ r = flagsText σ name flags m ++ r') : n = m ∧ r = r' := by
  rw [flagsText_parts, flagsText_parts] at h
  exact tupleText_reads (flagParts_stop hf (by decide) (by decide)) (flagParts_stop hf (by decide) (by decide)) h

theorem flagsText_starts {σ : Fmt} {name : String} (hn : nameLike name = true) (flags : List (String × Nat)) (n : Nat) :
    ∃ b t, flagsText σ name flags n = b :: t ∧ stopOctet b = false := by
  obtain ⟨b, u, hb, hs⟩ := (nameLike.word hn).starts
  obtain ⟨v, hv⟩ := tupleText_starts hb σ (join (strBytes " | ") (flagParts flags n))
  rw [flagsText_parts]
  exact ⟨b, v, hv, hs⟩

theorem flagsText_line {σ : Fmt} (ha : σ.alternate = false) {name : String} (hn : nameLike name = true)
    {flags : List (String × Nat)} (hf : FlagsFit flags) (n : Nat) : 10 ∉ flagsText σ name flags n := by
  rw [flagsText_parts]
  exact tupleText_line ha (fun e => ((nameLike.word hn).2 _ e).2 rfl)
    (join_line (by rw [bar]; decide) fun t ht e => ((flagParts_word hf n t ht).2 _ e).2 rfl)

theorem FrozenBehavior.flagsFit : FlagsFit (FrozenBehavior.flags.map fun f => (f.1, f.2.bits.toNat)) :=
  .of (width := 8) (by decide +kernel)
theorem ObjectStateAppearanceGeneral.flagsFit :
    FlagsFit (ObjectStateAppearanceGeneral.flags.map fun f => (f.1, f.2.bits.toNat)) := .of (width := 16) (by decide +kernel)
theorem LandPlatformAppearance.flagsFit :
    FlagsFit (LandPlatformAppearance.flags.map fun f => (f.1, f.2.bits.toNat)) := .of (width := 32) (by decide +kernel)

theorem FrozenBehavior.eq_of_bits {x y : FrozenBehavior} (h : x.bits.toNat = y.bits.toNat) : x = y := by
  cases x; cases y; exact congrArg _ (UInt8.toNat_inj.mp h)
theorem ObjectStateAppearanceGeneral.eq_of_bits {x y : ObjectStateAppearanceGeneral}
    (h : x.bits.toNat = y.bits.toNat) : x = y := by
  cases x; cases y; exact congrArg _ (UInt16.toNat_inj.mp h)
theorem LandPlatformAppearance.eq_of_bits {x y : LandPlatformAppearance} (h : x.bits.toNat = y.bits.toNat) : x = y := by
  cases x; cases y; exact congrArg _ (UInt32.toNat_inj.mp h)

instance : Legible FrozenBehavior where
  starts _ _ := flagsText_starts (by decide +kernel) _ _
  line _ ha _ := flagsText_line ha (by decide +kernel) FrozenBehavior.flagsFit _
  same _ _ := rfl
  reads _ := fun _ _ h => have e := flagsText_reads FrozenBehavior.flagsFit h; ⟨FrozenBehavior.eq_of_bits e.1, e.2⟩
instance : Legible ObjectStateAppearanceGeneral where
  starts _ _ := flagsText_starts (by decide +kernel) _ _
  line _ ha _ := flagsText_line ha (by decide +kernel) ObjectStateAppearanceGeneral.flagsFit _
  same _ _ := rfl
  reads _ := fun _ _ h =>
    have e := flagsText_reads ObjectStateAppearanceGeneral.flagsFit h; ⟨ObjectStateAppearanceGeneral.eq_of_bits e.1, e.2⟩
instance : Legible LandPlatformAppearance where
  starts _ _ := flagsText_starts (by decide +kernel) _ _
  line _ ha _ := flagsText_line ha (by decide +kernel) LandPlatformAppearance.flagsFit _
  same _ _ := rfl
  reads _ := fun _ _ h =>
    have e := flagsText_reads LandPlatformAppearance.flagsFit h; ⟨LandPlatformAppearance.eq_of_bits e.1, e.2⟩

instance : Legible PduState := .ofWord
  (fun _ x => nameLike.word (s := x.debug) (by cases x <;> decide +kernel)) (fun _ _ => rfl)
  (fun _ x y h => by
    have h : strBytes x.debug = strBytes y.debug := h
    have key : ∀ x y : PduState, strBytes x.debug = strBytes y.debug → x = y := by
      intro x y
      cases x <;> cases y <;> decide +kernel
    exact key x y h)

/-! ### The status record -/

instance : Named TransferredEntityIndicator.spec := named_of_mem (List.mem_of_getElem? (i := 181) rfl)
instance : Named LVCIndicator.spec := named_of_mem (List.mem_of_getElem? (i := 182) rfl)
instance : Named CoupledExtensionIndicator.spec := named_of_mem (List.mem_of_getElem? (i := 183) rfl)

/-- the members that are printed make up the octet but for its two reserved bits -/
theorem PduStatusRecord.of_members (x : PduStatusRecord) :
    (x.bits &&& 63).toNat = x.tei.code + 2 * x.lvc.code + 8 * x.cei.code + 16 * x.bit4_5.toNat := by
  have key : ∀ n : Fin 256, ((UInt8.ofNat n.val) &&& 63).toNat = (PduStatusRecord.tei ⟨UInt8.ofNat n.val⟩).code +
      2 * (PduStatusRecord.lvc ⟨UInt8.ofNat n.val⟩).code + 8 * (PduStatusRecord.cei ⟨UInt8.ofNat n.val⟩).code +
      16 * (PduStatusRecord.bit4_5 ⟨UInt8.ofNat n.val⟩).toNat := by decide +kernel
  have := key ⟨x.bits.toNat, x.bits.toNat_lt⟩
  simp only [UInt8.ofNat_toNat] at this
  exact this

/-- the reserved bits do not matter for the members that are printed -/
theorem PduStatusRecord.members_calm (x : PduStatusRecord) :
    (calm x).tei = x.tei ∧ (calm x).lvc = x.lvc ∧ (calm x).cei = x.cei ∧ (calm x).bit4_5 = x.bit4_5 := by
  have key : ∀ n : Fin 256,
      (PduStatusRecord.tei ⟨UInt8.ofNat n.val &&& 63⟩) = (PduStatusRecord.tei ⟨UInt8.ofNat n.val⟩) ∧
      (PduStatusRecord.lvc ⟨UInt8.ofNat n.val &&& 63⟩) = (PduStatusRecord.lvc ⟨UInt8.ofNat n.val⟩) ∧
      (PduStatusRecord.cei ⟨UInt8.ofNat n.val &&& 63⟩) = (PduStatusRecord.cei ⟨UInt8.ofNat n.val⟩) ∧
      (PduStatusRecord.bit4_5 ⟨UInt8.ofNat n.val &&& 63⟩) = (PduStatusRecord.bit4_5 ⟨UInt8.ofNat n.val⟩) := by
    decide +kernel
  have := key ⟨x.bits.toNat, x.bits.toNat_lt⟩
  simp only [UInt8.ofNat_toNat] at this
  exact this

theorem field_line {f : String} {t : Text} {fs : List (String × Text)} (hf : nameLike f = true) (ht : 10 ∉ t)
    (h : ∀ g ∈ fs, nameLike g.1 = true ∧ 10 ∉ g.2) : ∀ g ∈ (f, t) :: fs, nameLike g.1 = true ∧ 10 ∉ g.2 := fun g hg => by
  rcases List.mem_cons.mp hg with rfl | hg
  · exact ⟨hf, ht⟩
  · exact h g hg

theorem no_field_line : ∀ g ∈ ([] : List (String × Text)), nameLike g.1 = true ∧ 10 ∉ g.2 := fun _ h => nomatch h

instance : Legible PduStatusRecord where
  starts _ _ := structText_starts (by decide +kernel) _
  line hσ ha x := structText_line ha (by decide +kernel) <|
    field_line (by decide +kernel) (Legible.line hσ ha x.tei) <| field_line (by decide +kernel) (Legible.line hσ ha x.lvc) <|
    field_line (by decide +kernel) (Legible.line hσ ha x.cei) <| field_line (by decide +kernel) (Legible.line hσ ha x.bit4_5)
    no_field_line
  same {σ} hσ x := by
    have h := x.members_calm
    show structText σ "PduStatusRecord" [("tei", text σ (calm x).tei), ("lvc", text σ (calm x).lvc),
      ("cei", text σ (calm x).cei), ("bit4_5", text σ (calm x).bit4_5)] = structText σ "PduStatusRecord" [
      ("tei", text σ x.tei), ("lvc", text σ x.lvc), ("cei", text σ x.cei), ("bit4_5", text σ x.bit4_5)]
    rw [h.1, h.2.1, h.2.2.1, h.2.2.2]
  reads {σ} hσ {x y r r'} _ _ h := by
    have h : structText σ "PduStatusRecord" [
      ("tei", text σ x.tei), ("lvc", text σ x.lvc), ("cei", text σ x.cei), ("bit4_5", text σ x.bit4_5)] ++ r =
      structText σ "PduStatusRecord" [
      ("tei", text σ y.tei), ("lvc", text σ y.lvc), ("cei", text σ y.cei), ("bit4_5", text σ y.bit4_5)] ++ r' := h
    obtain ⟨h1, h⟩ := read_first hσ h
    obtain ⟨h2, h⟩ := read_next hσ h
    obtain ⟨h3, h⟩ := read_next hσ h
    obtain ⟨h4, h⟩ := read_next hσ h
    refine ⟨congrArg PduStatusRecord.mk (UInt8.toNat_inj.mp ?_), read_end h⟩
    have h1 : x.tei = y.tei := h1
    have h2 : x.lvc = y.lvc := h2
    have h3 : x.cei = y.cei := h3
    have h4 : x.bit4_5 = y.bit4_5 := h4
    rw [x.of_members, y.of_members, h1, h2, h3, h4]

/-! ### The enumerations with data -/

instance : Legible GridAxisType where
  starts {σ} _ x := by cases x <;> exact structText_starts (by decide +kernel) _
  line {σ} hσ ha x := by
    cases x with
    | FixedSpacing n i =>
      exact structText_line ha (by decide +kernel) <| field_line (by decide +kernel) (Legible.line hσ ha n) <|
        field_line (by decide +kernel) (Legible.line hσ ha i) no_field_line
    | VariableSpacing n i s o xs p =>
      exact structText_line ha (by decide +kernel) <| field_line (by decide +kernel) (Legible.line hσ ha n) <|
        field_line (by decide +kernel) (Legible.line hσ ha i) <| field_line (by decide +kernel) (Legible.line hσ ha s) <|
        field_line (by decide +kernel) (Legible.line hσ ha o) <| field_line (by decide +kernel) (Legible.line hσ ha xs) <|
        field_line (by decide +kernel) (Legible.line hσ ha p) no_field_line
  same {σ} hσ x := by
    cases x with
    | FixedSpacing n i => rfl
    | VariableSpacing n i s o xs p =>
      show structText σ "VariableSpacing" [
        ("number_of_points_on_x_axis", text σ n), ("initial_index", text σ i), ("coordinate_scale_x", text σ (calm s)),
        ("coordinate_offset_x", text σ (calm o)), ("x_values", text σ xs), ("padding", text σ p)] =
        structText σ "VariableSpacing" [
        ("number_of_points_on_x_axis", text σ n), ("initial_index", text σ i), ("coordinate_scale_x", text σ s),
        ("coordinate_offset_x", text σ o), ("x_values", text σ xs), ("padding", text σ p)]
      rw [Legible.same hσ s, Legible.same hσ o]
  reads {σ} hσ {x y r r'} _ _ h := by
    cases x with
    | FixedSpacing n i =>
      cases y with
      | FixedSpacing n' i' =>
        obtain ⟨h1, h⟩ := read_first hσ (x := n) (y := n') h
        obtain ⟨h2, h⟩ := read_next hσ (x := i) (y := i') h
        have h1 : n = n' := h1
        have h2 : i = i' := h2
        exact ⟨by rw [h1, h2], read_end h⟩
      | VariableSpacing n' i' s' o' xs' p' =>
        exact absurd (read_other (by decide +kernel) (by decide +kernel) h) (by decide +kernel)
    | VariableSpacing n i s o xs p =>
      cases y with
      | FixedSpacing n' i' =>
        exact absurd (read_other (by decide +kernel) (by decide +kernel) h) (by decide +kernel)
      | VariableSpacing n' i' s' o' xs' p' =>
        obtain ⟨h1, h⟩ := read_first hσ (x := n) (y := n') h
        obtain ⟨h2, h⟩ := read_next hσ (x := i) (y := i') h
        obtain ⟨h3, h⟩ := read_next hσ (x := s) (y := s') h
        obtain ⟨h4, h⟩ := read_next hσ (x := o) (y := o') h
        obtain ⟨h5, h⟩ := read_next hσ (x := xs) (y := xs') h
        obtain ⟨h6, h⟩ := read_next hσ (x := p) (y := p') h
        have h1 : n = n' := h1
        have h2 : i = i' := h2
        have h5 : xs = xs' := (List.map_id xs).symm.trans (Eq.trans h5 (List.map_id xs'))
        have h6 : p = p' := (List.map_id p).symm.trans (Eq.trans h6 (List.map_id p'))
        refine ⟨?_, read_end h⟩
        show GridAxisType.VariableSpacing n i (calm s) (calm o) xs p = .VariableSpacing n' i' (calm s') (calm o') xs' p'
        rw [h1, h2, h3, h4, h5, h6]

instance : Legible DataRepresentationType where
  starts {σ} _ x := by cases x <;> exact structText_starts (by decide +kernel) _
  line {σ} hσ ha x := by
    cases x with
    | Type0 n d p =>
      exact structText_line ha (by decide +kernel) <| field_line (by decide +kernel) (Legible.line hσ ha n) <|
        field_line (by decide +kernel) (Legible.line hσ ha d) <| field_line (by decide +kernel) (Legible.line hσ ha p)
        no_field_line
    | Type1 s o n d p =>
      exact structText_line ha (by decide +kernel) <| field_line (by decide +kernel) (Legible.line hσ ha s) <|
        field_line (by decide +kernel) (Legible.line hσ ha o) <| field_line (by decide +kernel) (Legible.line hσ ha n) <|
        field_line (by decide +kernel) (Legible.line hσ ha d) <| field_line (by decide +kernel) (Legible.line hσ ha p)
        no_field_line
    | Type2 n p d =>
      exact structText_line ha (by decide +kernel) <| field_line (by decide +kernel) (Legible.line hσ ha n) <|
        field_line (by decide +kernel) (Legible.line hσ ha p) <| field_line (by decide +kernel) (Legible.line hσ ha d)
        no_field_line
  same {σ} hσ x := by
    cases x with
    | Type0 n d p => rfl
    | Type1 s o n d p =>
      show structText σ "Type1" [
        ("field_scale", text σ (calm s)), ("field_offset", text σ (calm o)), ("number_of_values", text σ n),
        ("data_values", text σ d), ("padding", text σ p)] = structText σ "Type1" [
        ("field_scale", text σ s), ("field_offset", text σ o), ("number_of_values", text σ n),
        ("data_values", text σ d), ("padding", text σ p)]
      rw [Legible.same hσ s, Legible.same hσ o]
    | Type2 n p d =>
      show structText σ "Type2" [
        ("number_of_values", text σ n), ("padding", text σ p), ("data_values", text σ (calm d))] = structText σ "Type2" [
        ("number_of_values", text σ n), ("padding", text σ p), ("data_values", text σ d)]
      rw [Legible.same hσ d]
  reads {σ} hσ {x y r r'} _ _ h := by
    cases x <;> cases y
    case Type0.Type0 n d p n' d' p' =>
      obtain ⟨h1, h⟩ := read_first hσ (x := n) (y := n') h
      obtain ⟨h2, h⟩ := read_next hσ (x := d) (y := d') h
      obtain ⟨h3, h⟩ := read_next hσ (x := p) (y := p') h
      have h1 : n = n' := h1
      have h2 : d = d' := (List.map_id d).symm.trans (Eq.trans h2 (List.map_id d'))
      have h3 : p = p' := (List.map_id p).symm.trans (Eq.trans h3 (List.map_id p'))
      exact ⟨by rw [h1, h2, h3], read_end h⟩
    case Type1.Type1 s o n d p s' o' n' d' p' =>
      obtain ⟨h1, h⟩ := read_first hσ (x := s) (y := s') h
      obtain ⟨h2, h⟩ := read_next hσ (x := o) (y := o') h
      obtain ⟨h3, h⟩ := read_next hσ (x := n) (y := n') h
      obtain ⟨h4, h⟩ := read_next hσ (x := d) (y := d') h
      obtain ⟨h5, h⟩ := read_next hσ (x := p) (y := p') h
      have h3 : n = n' := h3
      have h4 : d = d' := (List.map_id d).symm.trans (Eq.trans h4 (List.map_id d'))
      have h5 : p = p' := (List.map_id p).symm.trans (Eq.trans h5 (List.map_id p'))
      refine ⟨?_, read_end h⟩
      show DataRepresentationType.Type1 (calm s) (calm o) n d p = .Type1 (calm s') (calm o') n' d' p'
      rw [h1, h2, h3, h4, h5]
    case Type2.Type2 n p d n' p' d' =>
      obtain ⟨h1, h⟩ := read_first hσ (x := n) (y := n') h
      obtain ⟨h2, h⟩ := read_next hσ (x := p) (y := p') h
      obtain ⟨h3, h⟩ := read_next hσ (x := d) (y := d') h
      have h1 : n = n' := h1
      have h2 : p = p' := h2
      refine ⟨?_, read_end h⟩
      show DataRepresentationType.Type2 n p (calm d) = .Type2 n' p' (calm d')
      rw [h1, h2, h3]
    all_goals exact absurd (read_other (by decide +kernel) (by decide +kernel) h) (by decide +kernel)

end Dis
