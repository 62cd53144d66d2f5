import Verif.Properties.Conditional
import Verif.Properties.Irregular
import Verif.Properties.Panics
/-
C24 for the cases `C24_stable` leaves out: entity state PDUs, and the two kinds with record sets in builds
without overflow checks.
-/
set_option maxRecDepth 8000
namespace Dis

/-! ### Entity state PDUs -/

theorem strBytes_toString (n : Nat) : strBytes (toString n) = (Nat.toDigits 10 n).flatMap String.utf8EncodeChar := by
  unfold strBytes
  rw [Nat.toString_eq_ofList_toDigits]
  show (List.utf8Encode (Nat.toDigits 10 n)).data.toList = _
  unfold List.utf8Encode
  rw [List.data_toByteArray]

theorem utf8_digit (c : Char) (h : c.isDigit = true) : ∃ b : UInt8, String.utf8EncodeChar c = [b] ∧ 48 ≤ b.toNat := by
  have h1 : 48 ≤ c.val.toNat ∧ c.val.toNat ≤ 57 := by
    simp only [Char.isDigit, Bool.and_eq_true, decide_eq_true_eq] at h
    exact h
  refine ⟨c.val.toUInt8, ?_, ?_⟩
  · apply String.utf8EncodeChar_eq_singleton
    rw [Char.utf8Size_eq_one_iff]
    show c.val.toNat ≤ 127
    omega
  · rw [UInt32.toNat_toUInt8]; omega

theorem digits_length (n : Nat) : (strBytes (toString n)).length = (Nat.toDigits 10 n).length := by
  rw [strBytes_toString]
  have : ∀ l : List Char, (∀ c ∈ l, c.isDigit = true) → (l.flatMap String.utf8EncodeChar).length = l.length := by
    intro l
    induction l with
    | nil => intro _; rfl
    | cons c l ih =>
      intro h
      obtain ⟨b, hb, _⟩ := utf8_digit c (h c List.mem_cons_self)
      rw [List.flatMap_cons, hb, List.length_append, ih fun x hx => h x (List.mem_cons_of_mem _ hx)]
      simp only [List.length_cons, List.length_nil]
      omega
  exact this _ fun c hc => Nat.isDigit_of_mem_toDigits (by decide) (by decide) hc

theorem digits_head (n : Nat) : ∃ (c : UInt8) (t : Bytes), strBytes (toString n) = c :: t ∧ 48 ≤ c.toNat := by
  rw [strBytes_toString]
  cases h : Nat.toDigits 10 n with
  | nil => exact absurd h Nat.toDigits_ne_nil
  | cons c l =>
    obtain ⟨b, hb, h48⟩ := utf8_digit c
      (Nat.isDigit_of_mem_toDigits (n := n) (b := 10) (by decide) (by decide) (by rw [h]; exact List.mem_cons_self))
    exact ⟨b, l.flatMap String.utf8EncodeChar, by rw [List.flatMap_cons, hb]; rfl, h48⟩

/-- Serializing `p` and decoding the octets gives `p'` (and leaves `r` unread). -/
def Passes (prof : Profile) (p p' : Pdu EntityStatePdu) (r : Bytes) : Prop :=
  ∃ q w, (∀ buf, p.serialize prof buf = .ok ((q, .ok ()), buf ++ w)) ∧
    decodeAs EntityStatePdu prof w = .ok (.ok p', r)

theorem caps_unassigned (m : Nat) (h : 256 ≤ m) :
    EntityCapabilities.spec.ofCode m = EntityCapabilities.spec.ofCode 0 := by
  have : m ∉ EntityCapabilities.spec.codes := by
    intro hm
    have : ∀ c ∈ EntityCapabilities.spec.codes, c < 256 := by decide +kernel
    have := this m hm
    omega
  rw [EnumSpec.ofCode_of_not_mem this]
  decide +kernel

theorem EntityState.pass (prof : Profile) (p : Pdu EntityStatePdu) (n : Nat)
    (ht : p.body.entity_marking.entity_marking_string = toString n)
    (ha : p.body.articulation_parameter = []) :
    ∃ r, r.length = (Nat.toDigits 10 n).length ∧ Passes prof p
      ⟨p.after.header, { p.body with
        dead_reckoning_parameters := sent p.body.dead_reckoning_parameters
        entity_marking := ⟨p.body.entity_marking.entity_marking_character_set,
          toString ((Nat.toDigits 10 n).length + 4)⟩
        entity_capabilities := EntityCapabilities.spec.ofCode 0 }⟩ r := by
  have hfl : PduBody.fieldsLen p.body = 132 := by
    show EntityStatePdu.fieldsLen p.body = 132
    unfold EntityStatePdu.fieldsLen
    rw [ha]
    rfl
  have hs := Pdu.serialize_of_encodable p (PduKind.encodable .EntityState rfl p.body)
    (by show 12 + PduBody.fieldsLen p.body < 65536; rw [hfl]; decide) prof
  have hs0 := hs []
  rw [List.append_assoc] at hs0
  obtain ⟨m, hm, ho, hd⟩ := C12_entity_state p _ prof [] _ hs0 prof []
  simp only [List.append_nil] at hd ho
  obtain ⟨c, t, hc, h48⟩ := digits_head n
  have hlen : (wire p.body.entity_capabilities).length = 4 := octets_length _ _
  have hw0 : wire p.body.articulation_parameter = [] := by rw [ha]; rfl
  rw [ht, hw0] at hd ho
  have hm256 : 256 ≤ m := by
    rw [hc] at ho
    simp only [List.cons_append, List.take_succ_cons, List.append_nil] at ho
    have h0 : (octets 4 m).head? = some c := by rw [ho]; rfl
    have h1 : UInt8.ofNat (m / 256 ^ 3 % 256) = c := Option.some.inj h0
    rw [← h1] at h48
    simp only [UInt8.toNat_ofNat'] at h48
    omega
  rw [caps_unassigned m hm256] at hd
  refine ⟨List.drop 4 (strBytes (toString n) ++ wire p.body.entity_capabilities ++ []), ?_, p.after,
    wire p.after.header ++ wire (sent p.after.body), fun buf => ?_, hd.trans ?_⟩
  rotate_left
  · rw [hs buf, List.append_assoc]
  · rw [List.append_nil, List.length_append, digits_length, hlen]
    simp only [ha]
  · simp only [List.length_drop, List.length_append, digits_length, hlen, List.length_nil]
    omega

/-- From at most `N` octets `g` returns only values with `P`. -/
def YieldsUpTo {α : Type} (prof : Profile) (N : Nat) (g : Get α) (P : α → Prop) : Prop :=
  ∀ b a r, b.length ≤ N → g prof b = .ok (a, r) → r.length ≤ N ∧ P a

theorem YieldsUpTo.bind {α β : Type} {prof : Profile} {N : Nat} {g : Get α} {f : α → Get β} {P : α → Prop}
    {Q : β → Prop} (hg : YieldsUpTo prof N g P) (hf : ∀ a, P a → YieldsUpTo prof N (f a) Q) :
    YieldsUpTo prof N (g >>= f) Q := by
  intro b c r hb e
  rw [M.bind_run] at e
  cases hgb : g prof b with
  | error x => rw [hgb] at e; cases e
  | ok v =>
    obtain ⟨a, b'⟩ := v
    rw [hgb] at e
    obtain ⟨h1, h2⟩ := hg b a b' hb hgb
    exact hf a h2 b' c r h1 e

theorem YieldsUpTo.any {α β : Type} {prof : Profile} {N : Nat} {g : Get α} {f : α → Get β}
    {Q : β → Prop} {n : Nat} (hg : Fixed g n) (hf : ∀ a, YieldsUpTo prof N (f a) Q) :
    YieldsUpTo prof N (g >>= f) Q := by
  refine YieldsUpTo.bind (P := fun _ => True) (fun b a r hb e => ?_) fun a _ => hf a
  obtain ⟨u, rfl⟩ := hg.local.consumes prof b a r e
  rw [List.length_append] at hb
  exact ⟨by omega, trivial⟩

theorem YieldsUpTo.ret {α : Type} {prof : Profile} {N : Nat} {a : α} {P : α → Prop} (h : P a) :
    YieldsUpTo prof N (pure a) P := by
  intro b a' r hb e
  cases e
  exact ⟨hb, h⟩

theorem EntityMarking.yieldsUpTo (prof : Profile) (N : Nat) :
    YieldsUpTo prof N (deserialize_field : Get EntityMarking)
      (fun m => ∃ n ≤ N, m.entity_marking_string = toString n) :=
  YieldsUpTo.any (EnumSpec.fixed EntityMarkingCharacterSet.spec) fun _ =>
  YieldsUpTo.bind (P := fun n => n ≤ N) (by intro b a r hb e; cases e; exact ⟨hb, hb⟩) fun n hn =>
  YieldsUpTo.ret ⟨n, hn, rfl⟩

theorem EntityStatePdu.yieldsUpTo (prof : Profile) (N : Nat) :
    YieldsUpTo prof N EntityStatePdu.deserializeBody
      (fun x => (∃ n ≤ N, x.entity_marking.entity_marking_string = toString n) ∧
        x.articulation_parameter = []) := by
  iterate 10 refine YieldsUpTo.any (FixedDec.fixed) fun _ => ?_
  refine YieldsUpTo.bind (EntityMarking.yieldsUpTo prof N) fun m hm => ?_
  refine YieldsUpTo.any (FixedDec.fixed) fun _ => ?_
  refine YieldsUpTo.bind (P := fun l => l = []) (by intro b a r hb e; cases e; exact ⟨hb, rfl⟩) fun l hl => ?_
  exact YieldsUpTo.ret ⟨hm, hl⟩

/-- What an entity state decoder returns: a marking that is a number of octets, and no parameters. -/
theorem EntityState.decoded (prof : Profile) (b r : Bytes) (p : Pdu EntityStatePdu)
    (h : decodeAs EntityStatePdu prof b = .ok (.ok p, r)) :
    (∃ n ≤ b.length, p.body.entity_marking.entity_marking_string = toString n) ∧
      p.body.articulation_parameter = [] := by
  have h12 : 12 ≤ b.length := (C09_ok_only_own_type .EntityState prof b p r h).1
  obtain ⟨hd, _, _, h3⟩ := Pdu.deserialize_eq (B := EntityStatePdu) prof b h12
  rw [show decodeAs EntityStatePdu prof b = _ from h3] at h
  split at h
  · cases h
  · cases hb : (PduBody.deserializeBody : Get EntityStatePdu) prof (b.drop 12) with
    | error e => rw [hb] at h; cases h
    | ok v =>
      rw [hb] at h
      simp only [Except.ok.injEq, Prod.mk.injEq] at h
      have := (EntityStatePdu.yieldsUpTo prof b.length (b.drop 12) v.1 v.2
        (by rw [List.length_drop]; omega) hb).2
      rw [← h.1]
      exact this

theorem digits_le {n k : Nat} (hk : 0 < k) (h : n < 10 ^ k) : (Nat.toDigits 10 n).length ≤ k :=
  (Nat.length_toDigits_le_iff (by decide) hk).mpr h

theorem digits_pos (n : Nat) : 0 < (Nat.toDigits 10 n).length := Nat.length_toDigits_pos


/-- The stages an entity state PDU goes through when it is passed on. -/
def EntityState.stage (p : Pdu EntityStatePdu) (text : String) : Pdu EntityStatePdu :=
  ⟨{ p.header with protocol_family := ⟨1, by decide⟩, length := 144 },
    { p.body with
      dead_reckoning_parameters :=
        { p.body.dead_reckoning_parameters with dead_reckoning_other_parameters := .replicate 15 0 }
      entity_marking := { p.body.entity_marking with entity_marking_string := text }
      entity_capabilities := ⟨0, by decide⟩ }⟩

theorem EntityState.pass_stage (prof : Profile) (p : Pdu EntityStatePdu) (n : Nat)
    (htype : p.header.pdu_type = PduBody.pduType EntityStatePdu)
    (ht : p.body.entity_marking.entity_marking_string = toString n)
    (ha : p.body.articulation_parameter = []) :
    ∃ r, r.length = (Nat.toDigits 10 n).length ∧
      Passes prof p (stage p (toString ((Nat.toDigits 10 n).length + 4))) r := by
  obtain ⟨r, h1, h2⟩ := EntityState.pass prof p n ht ha
  refine ⟨r, h1, ?_⟩
  have hfl : PduBody.fieldsLen (PduBody.prep p.body) = 132 := by
    show EntityStatePdu.fieldsLen p.body = 132
    unfold EntityStatePdu.fieldsLen
    rw [ha]
    rfl
  have hh : p.after.header = { p.header with protocol_family := ⟨1, by decide⟩, length := 144 } := by
    unfold Pdu.after
    simp only [hfl, htype]
    rfl
  rw [hh] at h2
  exact h2

/-- Entity state PDUs: whatever octets one was decoded from, passing it on (serializing it and decoding
that) changes it at most three times, at most twice if the octets were fewer than 100000.  From then on it
is always the PDU whose marking reads "5" (the number of octets that follow the marking's character set
in its encoding), whose capabilities are code 0 and whose other dead reckoning parameters are zero; the other
fields are those first decoded. -/
theorem C24_entity_state (prof : Profile) (b r : Bytes) (p : Pdu EntityStatePdu)
    (h : decodeAs EntityStatePdu prof b = .ok (.ok p, r)) (hb : b.length < 2 ^ 64) :
    ∃ p₁ p₂ r₁ r₂ r₃ r₄, Passes prof p p₁ r₁ ∧ Passes prof p₁ p₂ r₂ ∧
      Passes prof p₂ (EntityState.stage p "5") r₃ ∧
      Passes prof (EntityState.stage p "5") (EntityState.stage p "5") r₄ ∧ r₄.length = 1 ∧
      (b.length < 100000 → p₂ = EntityState.stage p "5") := by
  obtain ⟨⟨n, hn, ht⟩, ha⟩ := EntityState.decoded prof b r p h
  have hty : p.header.pdu_type = PduBody.pduType EntityStatePdu :=
    EnumVal.ext (C09_ok_only_own_type .EntityState prof b p r h).2.2
  have st (q : Pdu EntityStatePdu) (s : String) (m : Nat) (hs : s = toString m)
      (hq : q.body.articulation_parameter = []) (hp : q.header.pdu_type = PduBody.pduType EntityStatePdu) :
      ∃ r, r.length = (Nat.toDigits 10 m).length ∧ Passes prof (EntityState.stage q s)
        (EntityState.stage q (toString ((Nat.toDigits 10 m).length + 4))) r :=
    EntityState.pass_stage prof (EntityState.stage q s) m hp hs hq
  obtain ⟨r₁, _, h1⟩ := EntityState.pass_stage prof p n hty ht ha
  have hl1 : (Nat.toDigits 10 n).length ≤ 20 := digits_le (by decide) (by
    have : (2 : Nat) ^ 64 < 10 ^ 20 := by decide
    omega)
  have hp1 := digits_pos n
  have hsmall : b.length < 100000 → (Nat.toDigits 10 n).length ≤ 5 := fun hb =>
    digits_le (by decide) (by omega)
  generalize (Nat.toDigits 10 n).length = d at h1 hl1 hp1 hsmall
  obtain ⟨r₂, _, h2⟩ := st p _ (d + 4) rfl ha hty
  have hl2 : (Nat.toDigits 10 (d + 4)).length ≤ 2 := digits_le (by decide) (by omega)
  have hp2 := digits_pos (d + 4)
  have hsmall2 : b.length < 100000 → (Nat.toDigits 10 (d + 4)).length ≤ 1 := fun hb =>
    digits_le (by decide) (by have := hsmall hb; omega)
  generalize (Nat.toDigits 10 (d + 4)).length = d2 at h2 hl2 hp2 hsmall2
  obtain ⟨r₃, _, h3⟩ := st p _ (d2 + 4) rfl ha hty
  have h1d : (Nat.toDigits 10 (d2 + 4)).length = 1 := by
    have := digits_le (k := 1) (n := d2 + 4) (by decide) (by omega)
    have := digits_pos (d2 + 4)
    omega
  have e5 : toString (1 + 4) = "5" := by decide +kernel
  rw [h1d, e5] at h3
  obtain ⟨r₄, hr4, h4⟩ := st p "5" 5 e5.symm ha hty
  have h5d : (Nat.toDigits 10 5).length = 1 := by decide +kernel
  rw [h5d, e5] at h4
  refine ⟨_, _, r₁, r₂, r₃, r₄, h1, h2, h3, h4, by rw [hr4, h5d], fun hb => ?_⟩
  have : d2 = 1 := by have := hsmall2 hb; omega
  rw [this, e5]


/-- A fresh entity state PDU's 133 octets and seven more: what is decoded has the marking "11". -/
example : ∃ p r, decodeAs EntityStatePdu ⟨true⟩ ([7, 1, 1, 1] ++ List.replicate 136 0) = .ok (.ok p, r) ∧
    p.body.entity_marking.entity_marking_string = "11" ∧ r.length = 7 := by
  have h : (match decodeAs EntityStatePdu ⟨true⟩ ([7, 1, 1, 1] ++ List.replicate 136 0) with
    | .ok (.ok p, r) => decide (p.body.entity_marking.entity_marking_string = "11" ∧ r.length = 7)
    | _ => false) = true := by decide +kernel
  split at h
  · rename_i p r hp
    have h := of_decide_eq_true h
    exact ⟨p, r, hp, h.1, h.2⟩
  · cases h

/-! ### Record sets without overflow checks -/

/-- Each record set stores as many octets as length × count says modulo 2^16, and the sets are counted
right: what a decoder without overflow checks returns. -/
def SetsWrapped (r : RecordSpecification) : Prop :=
  r.number_of_record_sets.toNat = r.record_sets.length ∧
  ∀ e ∈ r.record_sets, e.record_values.length = e.record_length.toNat * e.record_count.toNat % 65536

theorem RecordSpecification.yields_wrapped :
    Yields ⟨false⟩ (deserialize_field : Get RecordSpecification) SetsWrapped :=
  Yields.any fun _ => Yields.bind (Yields.n (P := fun e : RecordSpecificationElement =>
      e.record_values.length = e.record_length.toNat * e.record_count.toNat % 65536) (
    Yields.any fun _ => Yields.any fun _ => Yields.any fun l => Yields.any fun c =>
    Yields.bind (P := fun n => n.toNat = l.toNat * c.toNat % 65536) (by
      intro b n r e
      rw [mulU16_run] at e
      simp only [Bool.false_eq_true, false_and, if_false, Except.ok.injEq, Prod.mk.injEq] at e
      rw [← e.1]
      simp) fun n hn =>
    Yields.bind (Yields.n (Yields.top _) _) fun vs hv =>
    Yields.ret (by rw [hv.1, hn])) _) fun _ h =>
    Yields.ret ⟨h.1.symm, h.2⟩

theorem SetsWrapped.sent {r : RecordSpecification} (h : SetsWrapped r) : sent r = r := by
  have h1 : Enc.sent r.record_sets = r.record_sets := by
    obtain ⟨_, h⟩ := h
    revert h
    induction r.record_sets with
    | nil => intro _; rfl
    | cons e l ih =>
      intro h
      have he : Enc.sent e = e := by
        show { e with record_values := e.record_values.take (e.record_length.toNat * e.record_count.toNat % 65536) } = e
        rw [← h e List.mem_cons_self, List.take_length]
      have ih := ih fun x hx => h x (List.mem_cons_of_mem _ hx)
      show Enc.sent e :: Enc.sent l = _
      rw [he, ih]
  show { r with record_sets := Enc.sent r.record_sets } = r
  rw [h1]

theorem RecordSpecificationElement.reads_wrapped (e : RecordSpecificationElement)
    (h : e.record_values.length = e.record_length.toNat * e.record_count.toNat % 65536) (rest : Bytes) :
    RecordSpecificationElement.deserialize ⟨false⟩ (wire e ++ rest) = .ok (e, rest) := by
  have hw : wire e ++ rest = octets 4 e.record_id.toNat ++ octets 4 e.record_set_serial_number.toNat ++
      octets 2 e.record_length.toNat ++ octets 2 e.record_count.toNat ++ (e.record_values ++ rest) := by
    show (wire e.record_id ++ (wire e.record_set_serial_number ++
        (wire e.record_length ++ (wire e.record_count ++ wire e.record_values)))) ++ rest = _
    rw [wire_bytes]
    simp only [List.append_assoc]
    rfl
  rw [hw, C30_deserialize]
  simp only [Bool.false_eq_true, false_and, if_false, ← h, List.length_append]
  rw [if_neg (by omega), List.take_left, List.drop_left]

theorem RecordSpecification.reads_wrapped (r : RecordSpecification) (h : SetsWrapped r) (rest : Bytes) :
    RecordSpecification.deserialize ⟨false⟩ (wire r ++ rest) = .ok (r, rest) := by
  have key : ∀ l : List RecordSpecificationElement,
      (∀ e ∈ l, e.record_values.length = e.record_length.toNat * e.record_count.toNat % 65536) →
      getN RecordSpecificationElement.deserialize l.length ⟨false⟩ (wire l ++ rest) = .ok (l, rest) := by
    intro l
    induction l with
    | nil => intro _; rfl
    | cons e l ih =>
      intro h
      have hw : wire (e :: l) ++ rest = wire e ++ (wire l ++ rest) := by
        rw [← List.append_assoc]; rfl
      rw [hw]
      show (RecordSpecificationElement.deserialize >>= fun a => _) ⟨false⟩ _ = _
      rw [M.bind_run, RecordSpecificationElement.reads_wrapped e (h e List.mem_cons_self)]
      show (getN RecordSpecificationElement.deserialize l.length >>= fun as => pure (e :: as)) ⟨false⟩ _ = _
      rw [M.bind_run, ih fun x hx => h x (List.mem_cons_of_mem _ hx)]
      rfl
  have hw : wire r ++ rest = wire r.number_of_record_sets ++ (wire r.record_sets ++ rest) := by
    rw [← List.append_assoc]; rfl
  rw [hw]
  show (getU32 >>= fun n => getN RecordSpecificationElement.deserialize n.toNat >>= fun l => _) ⟨false⟩ _ = _
  rw [M.bind_run, reads_u32 r.number_of_record_sets ⟨false⟩]
  show (getN RecordSpecificationElement.deserialize _ >>= fun l => _) ⟨false⟩ _ = _
  rw [M.bind_run, h.1, key _ h.2]
  rfl

theorem PduKind.decoded_yields (k : PduKind) {prof : Profile} {P : k.Body → Prop}
    (hy : Yields prof (PduBody.deserializeBody : Get k.Body) P) {b r : Bytes} {p : Pdu k.Body}
    (h : k.decode prof b = .ok (.ok p, r)) : P p.body := by
  have h12 : 12 ≤ b.length := (C09_ok_only_own_type k prof b p r h).1
  obtain ⟨hd, _, _, h3⟩ := Pdu.deserialize_eq (B := k.Body) prof b h12
  rw [show k.decode prof b = _ from h3] at h
  split at h
  · cases h
  · cases hb : (PduBody.deserializeBody : Get k.Body) prof (b.drop 12) with
    | error e => rw [hb] at h; cases h
    | ok v =>
      rw [hb] at h
      simp only [Except.ok.injEq, Prod.mk.injEq] at h
      rw [← h.1]
      exact hy _ _ _ hb

theorem PduKind.serialize_unless (k : PduKind) (p : Pdu k.Body) (prof : Profile)
    (hl : declaredOctets p ≤ 65535) (buf : Bytes) (hp : ¬∃ e, p.serialize prof buf = .error e) :
    p.serialize prof buf = .ok ((p.after, .ok ()), buf ++ (wire p.after.header ++ wire (sent p.after.body))) := by
  cases hs : p.serialize prof buf with
  | error e => exact absurd ⟨e, hs⟩ hp
  | ok v =>
    obtain ⟨⟨q, res⟩, buf'⟩ := v
    cases res with
    | error e =>
      have := (C06_refused_iff k p prof buf).mp ⟨q, e, buf', hs⟩
      omega
    | ok u =>
      obtain ⟨rfl, _, rfl⟩ := Pdu.serialize_ok hs
      rw [List.append_assoc]

/-- Set record PDUs in a build without overflow checks: whatever octets one was decoded from, encoding it
succeeds if it is not too large, and decoding those octets gives it back (but for the header's family and
length, set by `serialize`), again and again.  A build with overflow checks panics on it exactly when
length × count of some set exceeds 16 bits. -/
theorem C24_set_record_unchecked (b r : Bytes) (p : Pdu SetRecordReliablePdu)
    (h : decodeAs SetRecordReliablePdu ⟨false⟩ b = .ok (.ok p, r)) (hl : declaredOctets p ≤ 65535) :
    (∃ (q : Pdu SetRecordReliablePdu) (w : Bytes),
      (∀ buf, p.serialize ⟨false⟩ buf = .ok ((q, .ok ()), buf ++ w)) ∧ q.body = p.body ∧
      (∀ rest, decodeAs SetRecordReliablePdu ⟨false⟩ (w ++ rest) = .ok (.ok q, rest)) ∧
      (∀ buf, q.serialize ⟨false⟩ buf = .ok ((q, .ok ()), buf ++ w))) ∧
    ∀ buf, (∃ e, p.serialize ⟨true⟩ buf = .error e) ↔
      ∃ x ∈ p.body.record_sets.record_sets, 65536 ≤ x.record_length.toNat * x.record_count.toNat := by
  have hy : SetsWrapped p.body.record_sets := PduKind.decoded_yields .SetRecordReliable
    (P := fun x : SetRecordReliablePdu => SetsWrapped x.record_sets) (by
      iterate 7 refine Yields.any fun _ => ?_
      exact Yields.bind RecordSpecification.yields_wrapped fun _ h => Yields.ret h) h
  constructor
  · have hs (buf) := PduKind.serialize_unless .SetRecordReliable p ⟨false⟩ hl buf (by
      rw [C40_set_record]
      rintro ⟨_, x, hx, ⟨h1, _⟩ | h1⟩
      · cases h1
      · rw [hy.2 x hx] at h1; omega)
    have hb : p.after.body = p.body := PduKind.prep_id .SetRecordReliable (by decide) p.body
    refine ⟨_, _, hs, hb, fun rest => ?_, C08_idempotent .SetRecordReliable p _ _ ⟨false⟩ [] _ (hs [])⟩
    rw [C12_set_record p _ ⟨false⟩ [] _ (hs []) ⟨false⟩ rest, hy.sent,
      RecordSpecification.reads_wrapped _ hy rest]
    show Except.ok (Except.ok (Pdu.mk p.after.header p.body), rest) = _
    rw [← hb]
  · intro buf
    rw [C40_set_record]
    constructor
    · rintro ⟨_, x, hx, ⟨_, h1⟩ | h1⟩
      · exact ⟨x, hx, h1⟩
      · rw [hy.2 x hx] at h1; omega
    · rintro ⟨x, hx, h1⟩
      exact ⟨hl, x, hx, .inl ⟨rfl, h1⟩⟩

/-- Transfer ownership PDUs likewise, but that the two reference numbers are sent as zeros: decoding gives
`x`, the PDU with zeros there, and from then on nothing changes. -/
theorem C24_transfer_ownership_unchecked (b r : Bytes) (p : Pdu TransferOwnershipPdu)
    (h : decodeAs TransferOwnershipPdu ⟨false⟩ b = .ok (.ok p, r)) (hl : declaredOctets p ≤ 65535) :
    (∃ (q x : Pdu TransferOwnershipPdu) (w : Bytes),
      (∀ buf, p.serialize ⟨false⟩ buf = .ok ((q, .ok ()), buf ++ w)) ∧ q.body = p.body ∧
      x = ⟨q.header, { p.body with
        originating_id := { p.body.originating_id with reference_number := 0 }
        receiving_id := { p.body.receiving_id with reference_number := 0 } }⟩ ∧
      (∀ rest, decodeAs TransferOwnershipPdu ⟨false⟩ (w ++ rest) = .ok (.ok x, rest)) ∧
      (∀ buf, x.serialize ⟨false⟩ buf = .ok ((x, .ok ()), buf ++ w))) ∧
    ∀ buf, (∃ e, p.serialize ⟨true⟩ buf = .error e) ↔
      ∃ x ∈ p.body.record_information.record_sets, 65536 ≤ x.record_length.toNat * x.record_count.toNat := by
  have hy : SetsWrapped p.body.record_information := PduKind.decoded_yields .TransferOwnership
    (P := fun x : TransferOwnershipPdu => SetsWrapped x.record_information) (by
      iterate 6 refine Yields.any fun _ => ?_
      exact Yields.bind RecordSpecification.yields_wrapped fun _ h => Yields.ret h) h
  constructor
  · have hs (p : Pdu TransferOwnershipPdu) (hl : declaredOctets p ≤ 65535)
        (hy : SetsWrapped p.body.record_information) (buf) :=
      PduKind.serialize_unless .TransferOwnership p ⟨false⟩ hl buf (by
      rw [C40_transfer_ownership]
      rintro ⟨_, x, hx, ⟨h1, _⟩ | h1⟩
      · cases h1
      · rw [hy.2 x hx] at h1; omega)
    have hb : p.after.body = p.body := PduKind.prep_id .TransferOwnership (by decide) p.body
    let x : Pdu TransferOwnershipPdu := ⟨p.after.header, { p.body with
        originating_id := { p.body.originating_id with reference_number := 0 }
        receiving_id := { p.body.receiving_id with reference_number := 0 } }⟩
    refine ⟨p.after, x, _, hs p hl hy, hb, rfl, fun rest => ?_, fun buf => ?_⟩
    · rw [C12_transfer_ownership p _ ⟨false⟩ [] _ (hs p hl hy []) ⟨false⟩ rest, hy.sent,
        RecordSpecification.reads_wrapped _ hy rest]
    · have hl' : declaredOctets x ≤ 65535 := by
        rw [declaredOctets_eq] at hl ⊢
        exact hl
      exact hs x hl' hy buf
  · intro buf
    rw [C40_transfer_ownership]
    constructor
    · rintro ⟨_, x, hx, ⟨_, h1⟩ | h1⟩
      · exact ⟨x, hx, h1⟩
      · rw [hy.2 x hx] at h1; omega
    · rintro ⟨x, hx, h1⟩
      exact ⟨hl, x, hx, .inl ⟨rfl, h1⟩⟩

/-- A set record PDU with one record set of 256 records of 256 bits claimed, decoded without overflow
checks: no octets are taken for it. -/
example : ∃ p r, decodeAs SetRecordReliablePdu ⟨false⟩ ([7, 1, 64, 10] ++ List.replicate 35 0 ++ [1] ++
      List.replicate 8 0 ++ [1, 0, 1, 0, 9]) = .ok (.ok p, r) ∧
    p.body.record_sets.record_sets = [⟨0, 0, 256, 256, []⟩] ∧ r = [9] ∧ declaredOctets p ≤ 65535 := by
  have h : (match decodeAs SetRecordReliablePdu ⟨false⟩ ([7, 1, 64, 10] ++ List.replicate 35 0 ++ [1] ++
      List.replicate 8 0 ++ [1, 0, 1, 0, 9]) with
    | .ok (.ok p, r) => decide (p.body.record_sets.record_sets = [⟨0, 0, 256, 256, []⟩] ∧ r = [9] ∧
        12 + PduBody.fieldsLen p.body ≤ 65535)
    | _ => false) = true := by decide +kernel
  split at h
  · rename_i p r hp
    have h := of_decide_eq_true h
    exact ⟨p, r, hp, h.1, h.2.1, by rw [declaredOctets_eq]; omega⟩
  · cases h

end Dis
