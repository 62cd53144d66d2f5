import Verif.Properties.Stable
import Verif.Properties.Relay
/-
C49 for the kinds whose decoders read counted parts: what follows the fixed part is forwarded too.
-/
set_option maxRecDepth 8000
namespace Dis

/-! ### Decoders that lose nothing -/

/-- What `g` consumes is the wire image of what it returns. -/
def Inverts {α : Type} [Wire α] (g : Get α) : Prop :=
  ∀ prof b a r, g prof b = .ok (a, r) → b = wire a ++ r

theorem inverts_num {α : Type} [Wire α] {g : Get α} {n : Nat} {f : Nat → α} (hf : Fixed g n)
    (hr : ∀ v < 256 ^ n, Reads g (octets n v) (f v)) (hw : ∀ v < 256 ^ n, wire (f v) = octets n v) :
    Inverts g := by
  intro prof b a r e
  have hn : n ≤ b.length := by
    by_cases h : b.length < n
    · rw [hf.run_short prof h] at e; cases e
    · omega
  obtain ⟨v, hv, ho⟩ := exists_octets_take b hn
  have h := hr v hv prof (b.drop n)
  rw [ho, List.take_append_drop, e] at h
  simp only [Except.ok.injEq, Prod.mk.injEq] at h
  obtain ⟨rfl, rfl⟩ := h
  rw [hw v hv, ho, List.take_append_drop]

theorem inverts_u8 : Inverts getU8 := inverts_num (n := 1) (f := UInt8.ofNat) fixed_u8
  (fun v hv => by
    have h := reads_u8 (UInt8.ofNat v)
    have e : wire (UInt8.ofNat v) = octets 1 v := by
      show octets 1 (UInt8.ofNat v).toNat = _
      rw [UInt8.toNat_ofNat_of_lt' (by simpa [UInt8.size] using hv)]
    rwa [e] at h)
  (fun v hv => by
      show octets 1 (UInt8.ofNat v).toNat = _
      rw [UInt8.toNat_ofNat_of_lt' (by simpa [UInt8.size] using hv)])
theorem inverts_u16 : Inverts getU16 := inverts_num (n := 2) (f := UInt16.ofNat) fixed_u16
  (fun v hv => by
    have h := reads_u16 (UInt16.ofNat v)
    have e : wire (UInt16.ofNat v) = octets 2 v := by
      show octets 2 (UInt16.ofNat v).toNat = _
      rw [UInt16.toNat_ofNat_of_lt' (by simpa [UInt16.size] using hv)]
    rwa [e] at h)
  (fun v hv => by
      show octets 2 (UInt16.ofNat v).toNat = _
      rw [UInt16.toNat_ofNat_of_lt' (by simpa [UInt16.size] using hv)])
theorem inverts_u32 : Inverts getU32 := inverts_num (n := 4) (f := UInt32.ofNat) fixed_u32
  (fun v hv => by
    have h := reads_u32 (UInt32.ofNat v)
    have e : wire (UInt32.ofNat v) = octets 4 v := by
      show octets 4 (UInt32.ofNat v).toNat = _
      rw [UInt32.toNat_ofNat_of_lt' (by simpa [UInt32.size] using hv)]
    rwa [e] at h)
  (fun v hv => by
      show octets 4 (UInt32.ofNat v).toNat = _
      rw [UInt32.toNat_ofNat_of_lt' (by simpa [UInt32.size] using hv)])

/-- On success `g` consumed some `u` and `P u` holds of the value. -/
def Took {α : Type} (g : Get α) (P : Bytes → α → Prop) : Prop :=
  ∀ prof b a r, g prof b = .ok (a, r) → ∃ u, b = u ++ r ∧ P u a

theorem Inverts.took {α : Type} [Wire α] {g : Get α} (h : Inverts g) : Took g (fun u a => u = wire a) :=
  fun prof b a r e => ⟨wire a, h prof b a r e, rfl⟩

theorem Took.inverts {α : Type} [Wire α] {g : Get α} (h : Took g (fun u a => u = wire a)) : Inverts g := by
  intro prof b a r e
  obtain ⟨u, hb, rfl⟩ := h prof b a r e
  exact hb

theorem Took.ret {α : Type} {a : α} {P : Bytes → α → Prop} (h : P [] a) : Took (pure a) P := by
  intro prof b a' r e
  cases e
  exact ⟨[], rfl, h⟩

theorem Took.bind {α β : Type} {g : Get α} {f : α → Get β} {P : Bytes → α → Prop} {Q : Bytes → β → Prop}
    (hg : Took g P) (hf : ∀ u a, P u a → Took (f a) (fun v b => Q (u ++ v) b)) : Took (g >>= f) Q := by
  intro prof b c r e
  rw [M.bind_run] at e
  cases hgb : g prof b with
  | error x => rw [hgb] at e; cases e
  | ok v =>
    obtain ⟨a, b'⟩ := v
    rw [hgb] at e
    obtain ⟨u, rfl, hu⟩ := hg prof b a b' hgb
    obtain ⟨v, rfl, hv⟩ := hf u a hu prof _ c r e
    exact ⟨u ++ v, by rw [List.append_assoc], hv⟩

theorem Inverts.n {α : Type} [Wire α] {g : Get α} (h : Inverts g) : ∀ n, Inverts (getN g n)
  | 0 => Took.inverts (Took.ret rfl)
  | n + 1 => Took.inverts <| Took.bind h.took fun u a hu => Took.bind (Inverts.n h n).took fun v l hv =>
      Took.ret (by subst hu hv; rw [List.append_nil]; rfl)

theorem took_mul (l c : UInt16) : Took (mulU16 l c) (fun u _ => u = []) := by
  intro prof b a r e
  rw [mulU16_run] at e
  split at e
  · cases e
  · cases e
    exact ⟨[], rfl, rfl⟩

theorem RecordSpecificationElement.inverts : Inverts RecordSpecificationElement.deserialize :=
  Took.inverts <| Took.bind inverts_u32.took fun _ _ h1 => Took.bind inverts_u32.took fun _ _ h2 =>
    Took.bind inverts_u16.took fun _ _ h3 => Took.bind inverts_u16.took fun _ _ h4 =>
    Took.bind (took_mul _ _) fun _ _ h5 => Took.bind (inverts_u8.n _).took fun _ _ h6 =>
    Took.ret (by subst h1 h2 h3 h4 h5 h6; simp only [List.append_nil, List.nil_append]; rfl)

theorem RecordSpecification.inverts : Inverts RecordSpecification.deserialize :=
  Took.inverts <| Took.bind inverts_u32.took fun _ _ h1 =>
    Took.bind (RecordSpecificationElement.inverts.n _).took fun _ _ h2 =>
    Took.ret (by subst h1 h2; simp only [List.append_nil]; rfl)

theorem StandardVariableRecords.inverts : Inverts StandardVariableRecords.deserialize :=
  Took.inverts <| Took.bind inverts_u32.took fun _ _ h1 => Took.bind inverts_u16.took fun _ _ h2 =>
    Took.bind (inverts_u8.n _).took fun _ _ h3 =>
    Took.ret (by subst h1 h2 h3; simp only [List.append_nil]; rfl)

theorem StandardVariableSpecification.inverts : Inverts StandardVariableSpecification.deserialize :=
  Took.inverts <| Took.bind inverts_u16.took fun _ _ h1 =>
    Took.bind (StandardVariableRecords.inverts.n _).took fun _ _ h2 =>
    Took.ret (by subst h1 h2; simp only [List.append_nil]; rfl)

/-! ### The decoder after a fixed part -/

/-- After its first `n` octets `g` took the image of `π` of the value, and nothing else. -/
def EndsWith {α : Type} (n : Nat) (g : Get α) (π : α → Bytes) : Prop :=
  ∀ prof b a r, g prof b = .ok (a, r) → n ≤ b.length ∧ b.drop n = π a ++ r

theorem EndsWith.bind {α β : Type} {g : Get α} {f : α → Get β} {n m : Nat} {π : β → Bytes}
    (hg : Fixed g n) (hf : ∀ a, EndsWith m (f a) π) : EndsWith (n + m) (g >>= f) π := by
  intro prof b c r e
  by_cases hl : b.length < n
  · rw [M.bind_run, hg.run_short prof hl] at e; cases e
  · obtain ⟨a, ha⟩ := hg.run_long prof (b := b) (by omega)
    rw [M.bind_run, ha] at e
    obtain ⟨h1, h2⟩ := hf a prof _ c r e
    rw [List.length_drop] at h1
    rw [List.drop_drop] at h2
    exact ⟨by omega, h2⟩

theorem EndsWith.last {α : Type} {g : Get α} {π : α → Bytes} (h : Took g (fun u a => u = π a)) :
    EndsWith 0 g π := by
  intro prof b a r e
  obtain ⟨u, rfl, rfl⟩ := h prof b a r e
  exact ⟨Nat.zero_le _, rfl⟩


theorem ModulationParameters.took (n : UInt8) :
    Took (deserialize_with_len n.toNat : Get (Option ModulationParameters)) (fun u a => u = wire a) := by
  show Took (if n.toNat = 0 then pure none else _) _
  by_cases h : n.toNat = 0
  · rw [if_pos h]
    exact Took.ret rfl
  · rw [if_neg h]
    have hlt := n.toNat_lt
    show Took ((if n.toNat < 256 then _ else _) >>= _) _
    rw [if_pos hlt]
    refine Took.bind (P := fun u (x : ModulationParameters) => u = wire x) ?_ ?_
    · have h0 : UInt8.ofNat n.toNat ≠ 0 := by
        rw [UInt8.ofNat_toNat]; rintro rfl; exact h rfl
      unfold ModulationParameters.deserialize
      rw [if_neg h0, UInt8.ofNat_toNat]
      exact Took.bind (P := fun u o => ∃ l : Bytes, u = wire l ∧ o = some ⟨l⟩)
        (Took.bind (inverts_u8.n _).took fun u l hl => Took.ret ⟨l, by rw [List.append_nil]; exact hl, rfl⟩)
        fun u o ho => Took.ret (by obtain ⟨l, hl, rfl⟩ := ho; rw [List.append_nil]; exact hl)
    · intro u x hx
      exact Took.ret (by rw [List.append_nil]; exact hx)

theorem Took.last {α : Type} [Wire α] {β : Type} {g : Get α} {F : α → β} {π : β → Bytes}
    (hg : Took g (fun u a => u = wire a)) (hF : ∀ a, π (F a) = wire a) :
    EndsWith 0 (g >>= fun a => pure (F a)) π :=
  EndsWith.last (Took.bind hg fun _ _ h => Took.ret (by rw [List.append_nil, hF]; exact h))

theorem EndsWith.congr {α : Type} {n m : Nat} {g : Get α} {π : α → Bytes} (h : EndsWith n g π) (e : n = m) :
    EndsWith m g π := e ▸ h

theorem TransferOwnershipPdu.endsWith : EndsWith 24 TransferOwnershipPdu.deserializeBody
    (fun x => wire x.record_information) :=
  EndsWith.congr (EndsWith.bind FixedDec.fixed fun _ => EndsWith.bind FixedDec.fixed fun _ =>
    EndsWith.bind FixedDec.fixed fun _ => EndsWith.bind FixedDec.fixed fun _ =>
    EndsWith.bind FixedDec.fixed fun _ => EndsWith.bind FixedDec.fixed fun _ =>
    Took.last (RecordSpecification.inverts.took) fun _ => rfl) rfl

theorem SetRecordReliablePdu.endsWith : EndsWith 24 SetRecordReliablePdu.deserializeBody
    (fun x => wire x.record_sets) :=
  EndsWith.congr (EndsWith.bind FixedDec.fixed fun _ => EndsWith.bind FixedDec.fixed fun _ =>
    EndsWith.bind FixedDec.fixed fun _ => EndsWith.bind FixedDec.fixed fun _ =>
    EndsWith.bind FixedDec.fixed fun _ => EndsWith.bind FixedDec.fixed fun _ =>
    EndsWith.bind FixedDec.fixed fun _ =>
    Took.last (RecordSpecification.inverts.took) fun _ => rfl) rfl

theorem InformationOperationsReportPdu.endsWith : EndsWith 26 InformationOperationsReportPdu.deserializeBody
    (fun x => wire x.io_records) :=
  EndsWith.congr (EndsWith.bind FixedDec.fixed fun _ => EndsWith.bind FixedDec.fixed fun _ =>
    EndsWith.bind FixedDec.fixed fun _ => EndsWith.bind FixedDec.fixed fun _ =>
    EndsWith.bind FixedDec.fixed fun _ => EndsWith.bind FixedDec.fixed fun _ =>
    EndsWith.bind FixedDec.fixed fun _ => EndsWith.bind FixedDec.fixed fun _ =>
    Took.last (StandardVariableSpecification.inverts.took) fun _ => rfl) rfl

theorem InformationOperationsActionPdu.endsWith : EndsWith 42 InformationOperationsActionPdu.deserializeBody
    (fun x => wire x.io_records) :=
  EndsWith.congr (EndsWith.bind FixedDec.fixed fun _ => EndsWith.bind FixedDec.fixed fun _ =>
    EndsWith.bind FixedDec.fixed fun _ => EndsWith.bind FixedDec.fixed fun _ =>
    EndsWith.bind FixedDec.fixed fun _ => EndsWith.bind FixedDec.fixed fun _ =>
    EndsWith.bind FixedDec.fixed fun _ => EndsWith.bind FixedDec.fixed fun _ =>
    EndsWith.bind FixedDec.fixed fun _ => EndsWith.bind FixedDec.fixed fun _ =>
    EndsWith.bind FixedDec.fixed fun _ =>
    Took.last (StandardVariableSpecification.inverts.took) fun _ => rfl) rfl

theorem TransmitterPdu.endsWith : EndsWith 92 TransmitterPdu.deserializeBody
    (fun x => wire x.modulation_parameters) :=
  EndsWith.congr (EndsWith.bind FixedDec.fixed fun _ => EndsWith.bind FixedDec.fixed fun _ =>
    EndsWith.bind FixedDec.fixed fun _ => EndsWith.bind FixedDec.fixed fun _ =>
    EndsWith.bind FixedDec.fixed fun _ => EndsWith.bind FixedDec.fixed fun _ =>
    EndsWith.bind FixedDec.fixed fun _ => EndsWith.bind FixedDec.fixed fun _ =>
    EndsWith.bind FixedDec.fixed fun _ => EndsWith.bind FixedDec.fixed fun _ =>
    EndsWith.bind FixedDec.fixed fun _ => EndsWith.bind FixedDec.fixed fun _ =>
    EndsWith.bind FixedDec.fixed fun _ => EndsWith.bind FixedDec.fixed fun _ =>
    EndsWith.bind FixedDec.fixed fun _ => EndsWith.bind FixedDec.fixed fun _ =>
    EndsWith.bind FixedDec.fixed fun _ => EndsWith.bind FixedDec.fixed fun _ =>
    EndsWith.bind FixedDec.fixed fun _ =>
    EndsWith.last <| Took.bind (ModulationParameters.took _) fun _ _ h =>
      Took.bind (P := fun u _ => u = []) (Took.ret rfl) fun _ _ h1 =>
      Took.bind (P := fun u _ => u = []) (Took.ret rfl) fun _ _ h2 =>
      Took.ret (by subst h h1 h2; simp only [List.append_nil])) rfl


theorem PduKind.body_run (k : PduKind) {prof : Profile} {b r : Bytes} {p : Pdu k.Body}
    (h : k.decode prof b = .ok (.ok p, r)) :
    12 ≤ b.length ∧ (PduBody.deserializeBody : Get k.Body) prof (b.drop 12) = .ok (p.body, r) := by
  have h12 : 12 ≤ b.length := (C09_ok_only_own_type k prof b p r h).1
  refine ⟨h12, ?_⟩
  obtain ⟨hd, _, _, h3⟩ := Pdu.deserialize_eq (B := k.Body) prof b h12
  rw [show k.decode prof b = _ from h3] at h
  split at h
  · cases h
  · cases hb : (PduBody.deserializeBody : Get k.Body) prof (b.drop 12) with
    | error e => rw [hb] at h; cases h
    | ok v =>
      rw [hb] at h
      simp only [Except.ok.injEq, Prod.mk.injEq] at h
      rw [← h.1, ← h.2]

/-- `b` and `w` agree from octet `n` on, but for `rest`. -/
def SameFrom (n : Nat) (b w rest : Bytes) : Prop :=
  n ≤ w.length ∧ b.length = w.length + rest.length ∧ b.drop n = w.drop n ++ rest

theorem SameFrom.of (n c : Nat) {b w v rest : Bytes} (hb : n ≤ b.length) (hw : n ≤ w.length)
    (h1 : b.drop n = v ++ rest) (h2 : w.drop n = v) (hc : c ≤ v.length) : SameFrom (n + c) b w rest := by
  have l1 := congrArg List.length h1
  have l2 := congrArg List.length h2
  rw [List.length_drop, List.length_append] at l1
  rw [List.length_drop] at l2
  refine ⟨by omega, by omega, ?_⟩
  rw [← List.drop_drop, h1, ← List.drop_drop, h2, List.drop_append_of_le_length hc]

theorem PduKind.sameFrom (k : PduKind) {n : Nat} {π : k.Body → Bytes}
    (hπ : EndsWith n (PduBody.deserializeBody : Get k.Body) π) {prof prof' : Profile} {b rest w : Bytes}
    {p x : Pdu k.Body} (hd : k.decode prof b = .ok (.ok p, rest))
    (hx : k.decode prof' w = .ok (.ok x, [])) (he : π x.body = π p.body) (c : Nat) (hc : c ≤ (π p.body).length) :
    SameFrom (12 + n + c) b w rest := by
  obtain ⟨b12, b1⟩ := k.body_run hd
  obtain ⟨w12, w1⟩ := k.body_run hx
  obtain ⟨b2, b3⟩ := hπ _ _ _ _ b1
  obtain ⟨w2, w3⟩ := hπ _ _ _ _ w1
  rw [List.length_drop] at b2 w2
  rw [List.drop_drop] at b3 w3
  rw [List.append_nil, he] at w3
  exact SameFrom.of (12 + n) c (by omega) (by omega) b3 w3 hc

theorem RecordSpecification.decoded (prof : Profile) :
    Yields prof (deserialize_field : Get RecordSpecification) SetsWrapped := by
  obtain ⟨c⟩ := prof
  cases c
  · exact RecordSpecification.yields_wrapped
  · exact Yields.mono RecordSpecification.yields fun r h =>
      ⟨h.1, fun e he => by
        obtain ⟨h1, h2⟩ := h.2 e he
        rw [← h2]
        exact (Nat.mod_eq_of_lt h1).symm⟩

theorem RecordSpecification.four_le (r : RecordSpecification) : 4 ≤ (wire r).length := by
  show 4 ≤ (wire r.number_of_record_sets ++ wire r.record_sets).length
  rw [List.length_append, show (wire r.number_of_record_sets).length = 4 from octets_length _ _]
  omega

theorem StandardVariableSpecification.two_le (r : StandardVariableSpecification) : 2 ≤ (wire r).length := by
  show 2 ≤ (wire r.number_of_standard_variable_records ++ wire r.standard_variable_records).length
  rw [List.length_append, show (wire r.number_of_standard_variable_records).length = 2 from octets_length _ _]
  omega

/-- Of a message whose decoder reads counted parts (transfer ownership, set record, information operations
and transmitter PDUs) a relay forwards as many octets as it decoded, and everything decoded after the fixed
part is forwarded octet for octet. -/
theorem C49_variable_part (k : PduKind) (hk : k.variableDecoder = true) (prof prof' : Profile)
    (b rest buf buf' : Bytes) (p q : Pdu k.Body)
    (hd : k.decode prof b = .ok (.ok p, rest)) (hs : p.serialize prof' buf = .ok ((q, .ok ()), buf')) :
    ∃ w, buf' = buf ++ w ∧ k.ieeeOctets ≤ w.length ∧ b.length = w.length + rest.length ∧
      b.drop k.ieeeOctets = w.drop k.ieeeOctets ++ rest := by
  obtain ⟨hq, hlt, hbuf⟩ := Pdu.serialize_ok hs
  have hl : declaredOctets p ≤ 65535 := by rw [declaredOctets_eq]; omega
  obtain ⟨w, rfl⟩ : ∃ w, buf' = buf ++ w := ⟨_, by rw [hbuf, List.append_assoc]⟩
  refine ⟨w, rfl, ?_⟩
  have plain (hr : k.hasRecordSets = false) (he : k ≠ .EntityState) : ∃ x,
      k.decode prof w = .ok (.ok x, []) ∧ (∃ h, x = ⟨h, sent p.body⟩) := by
    have hset : Settled p.body := k.decoded_body (k.settled he prof (by rw [hr]; intro h; cases h)) hd
    have s2 := (k.settled_sent he p.body hset).2.1
    have hb : q.body = p.body := by rw [hq]; exact hset.2.2.2
    have hdec := Pdu.decode_encoded hs (by rw [hb]; exact s2.1) prof []
    rw [List.drop_left, hb, s2.2.1, s2.2.2.1, List.append_nil, List.append_nil] at hdec
    exact ⟨_, hdec, _, rfl⟩
  cases k
  case TransferOwnership =>
    have hy : SetsWrapped (TransferOwnershipPdu.record_information p.body) :=
      PduKind.decoded_yields .TransferOwnership
      (P := fun x : TransferOwnershipPdu => SetsWrapped x.record_information) (by
        iterate 6 refine Yields.any fun _ => ?_
        exact Yields.bind (RecordSpecification.decoded prof) fun _ h => Yields.ret h) hd
    have hx := C12_transfer_ownership p q prof' buf w hs ⟨false⟩ []
    dsimp only at hx
    rw [List.append_nil, hy.sent, RecordSpecification.reads_wrapped _ hy []] at hx
    exact PduKind.sameFrom .TransferOwnership TransferOwnershipPdu.endsWith hd hx rfl 4
      (RecordSpecification.four_le _)
  case SetRecordReliable =>
    have hy : SetsWrapped (SetRecordReliablePdu.record_sets p.body) :=
      PduKind.decoded_yields .SetRecordReliable
      (P := fun x : SetRecordReliablePdu => SetsWrapped x.record_sets) (by
        iterate 7 refine Yields.any fun _ => ?_
        exact Yields.bind (RecordSpecification.decoded prof) fun _ h => Yields.ret h) hd
    have hx := C12_set_record p q prof' buf w hs ⟨false⟩ []
    dsimp only at hx
    rw [List.append_nil, hy.sent, RecordSpecification.reads_wrapped _ hy []] at hx
    exact PduKind.sameFrom .SetRecordReliable SetRecordReliablePdu.endsWith hd hx rfl 4
      (RecordSpecification.four_le _)
  case InformationOperationsReport =>
    obtain ⟨x, hx, h, rfl⟩ := plain rfl (by decide)
    exact PduKind.sameFrom .InformationOperationsReport InformationOperationsReportPdu.endsWith hd hx rfl 2
      (StandardVariableSpecification.two_le _)
  case InformationOperationsAction =>
    obtain ⟨x, hx, h, rfl⟩ := plain rfl (by decide)
    exact PduKind.sameFrom .InformationOperationsAction InformationOperationsActionPdu.endsWith hd hx rfl 2
      (StandardVariableSpecification.two_le _)
  case Transmitter =>
    obtain ⟨x, hx, h, rfl⟩ := plain rfl (by decide)
    exact PduKind.sameFrom .Transmitter TransmitterPdu.endsWith hd hx rfl 0 (Nat.zero_le _)
  all_goals exact absurd hk (by decide)


theorem SetsWrapped.surplus {r : RecordSpecification} (h : SetsWrapped r) : surplus r = 0 := by
  show (r.record_sets.map Dis.surplus).sum = 0
  have : ∀ l : List RecordSpecificationElement,
      (∀ e ∈ l, e.record_values.length = e.record_length.toNat * e.record_count.toNat % 65536) →
      (l.map Dis.surplus).sum = 0 := by
    intro l
    induction l with
    | nil => intro _; rfl
    | cons e l ih =>
      intro h
      have he : Dis.surplus e = 0 := by
        show ((min e.octetsSent e.record_values.length : Nat) : Int) - (e.record_values.length : Int) = 0
        have : e.octetsSent = e.record_values.length := (h e List.mem_cons_self).symm
        omega
      rw [List.map_cons, List.sum_cons, he, ih fun x hx => h x (List.mem_cons_of_mem _ hx)]
      rfl
  exact this _ h.2

/-- Whatever message a relay received (entity state messages excepted), the length field of the message it
forwards is the number of octets it forwards. -/
theorem C49_length (k : PduKind) (he : k ≠ .EntityState) (prof prof' : Profile)
    (b rest buf buf' : Bytes) (p q : Pdu k.Body)
    (hd : k.decode prof b = .ok (.ok p, rest)) (hs : p.serialize prof' buf = .ok ((q, .ok ()), buf')) :
    buf'.length = buf.length + q.header.length.toNat := by
  by_cases hr : k.hasRecordSets = true
  · have h1 := (C04_declared_length_all_kinds k p q prof' buf buf' hs).2
    obtain ⟨rfl, _, _⟩ := Pdu.serialize_ok hs
    have h2 : surplus p.body = 0 := by
      cases k
      case TransferOwnership =>
        exact SetsWrapped.surplus <| PduKind.decoded_yields .TransferOwnership
          (P := fun x : TransferOwnershipPdu => SetsWrapped x.record_information) (by
            iterate 6 refine Yields.any fun _ => ?_
            exact Yields.bind (RecordSpecification.decoded prof) fun _ h => Yields.ret h) hd
      case SetRecordReliable =>
        exact SetsWrapped.surplus <| PduKind.decoded_yields .SetRecordReliable
          (P := fun x : SetRecordReliablePdu => SetsWrapped x.record_sets) (by
            iterate 7 refine Yields.any fun _ => ?_
            exact Yields.bind (RecordSpecification.decoded prof) fun _ h => Yields.ret h) hd
      all_goals exact absurd hr (by decide)
    have h3 : surplus p.after.body = 0 := by
      show surplus (PduBody.prep p.body) = 0
      rw [k.prep_decoded hd, h2]
    omega
  · exact k.relayed_length he prof prof' (fun h => absurd h hr) b rest buf buf' p q hd hs

/-- When is such a message forwarded octet for octet?  Exactly when it had a known version, the family code of
its kind, the number of octets decoded in its length field, and in every field of the body table a number the
relay does not replace. -/
theorem C49_variable_transparent (k : PduKind) (hk : k.variableDecoder = true)
    (prof prof' : Profile) (b rest buf buf' : Bytes) (p q : Pdu k.Body)
    (hd : k.decode prof b = .ok (.ok p, rest)) (hs : p.serialize prof' buf = .ok ((q, .ok ()), buf')) :
    buf' ++ rest = buf ++ b ↔
      b.getD 0 0 ≤ 7 ∧ b.getD 3 0 = UInt8.ofNat k.familyCode ∧
      (b.drop 8).take 2 = octets 2 (b.length - rest.length) ∧
      ∀ s ∈ k.layoutTable, s.relayed (s.found b) = s.found b := by
  have he : k ≠ .EntityState := by rintro rfl; exact absurd hk (by decide)
  have hlen := C49_length k he prof prof' b rest buf buf' p q hd hs
  obtain ⟨w, rfl, hw, hbl, hv⟩ := C49_variable_part k hk prof prof' b rest buf buf' p q hd hs
  obtain ⟨w', hw', hf⟩ := C49_fields k prof prof' b rest buf _ p q hd hs
  obtain rfl := List.append_cancel_left hw'
  obtain ⟨w', hw', hh⟩ := C49_header k prof prof' b rest buf _ p q hd hs
  obtain rfl := List.append_cancel_left hw'
  clear hw'
  rw [List.length_append] at hlen
  have hq : q.header.length.toNat = b.length - rest.length := by omega
  rw [hq] at hh
  have hend : Contiguous 12 k.layoutTable k.ieeeOctets := by
    have hc := (C48_complete k).2
    cases k <;> first | exact absurd hk (by decide) | exact hc
  have h12 : 12 ≤ k.ieeeOctets := hend.stop_le.1
  have hfound : ∀ v : Bytes, ∀ s ∈ k.layoutTable, s.found (v.take k.ieeeOctets) = s.found v := fun v s hm => by
    have := hend.stop_le.2 s hm
    unfold Slot.stop at this
    unfold Slot.found
    rw [List.drop_take, List.take_take, Nat.min_eq_left (by omega)]
  have htake (v : Bytes) : (v.take k.ieeeOctets).take 12 = v.take 12 := by
    rw [List.take_take, Nat.min_eq_left h12]
  have hiff : w.take 12 = b.take 12 ↔ (b.getD 0 0 ≤ 7 ∧ b.getD 3 0 = UInt8.ofNat k.familyCode ∧
      (b.drop 8).take 2 = octets 2 (b.length - rest.length)) := by
    rw [hh]
    have hb : 12 ≤ b.length := by omega
    generalize b.length - rest.length = L
    clear hh hf hfound htake hbl hd hs hv hlen hq
    iterate 12 (obtain _ | ⟨_, b⟩ := b; · simp at hb)
    obtain ⟨o1, o2, ho⟩ : ∃ o1 o2, octets 2 L = [o1, o2] := ⟨_, _, rfl⟩
    rw [ho]
    rename_i b0 _ _ _ _ _ _ _ _ _ _ _
    have h7 : (if b0 ≤ 7 then b0 else 7) = b0 ↔ b0 ≤ 7 := by
      by_cases h : b0 ≤ 7
      · simp [h]
      · simp only [h, if_false, iff_false]
        rintro rfl
        exact h (by decide)
    simp [h7]
    grind
  have hsplit : w ++ rest = b ↔ w.take k.ieeeOctets = b.take k.ieeeOctets := by
    constructor
    · rintro rfl
      rw [List.take_append_of_le_length hw]
    · intro e
      rw [← List.take_append_drop k.ieeeOctets b, hv, ← e, ← List.append_assoc, List.take_append_drop]
  rw [List.append_assoc, List.append_cancel_left_eq, hsplit]
  constructor
  · intro e
    obtain ⟨h1, h2, h3⟩ := hiff.mp (by rw [← htake w, e, htake])
    refine ⟨h1, h2, h3, fun s hs => ?_⟩
    rw [← hf s hs, ← hfound w s hs, e, hfound b s hs]
  · rintro ⟨h1, h2, h3, h4⟩
    refine eq_of_contiguous k.layoutTable 12 k.ieeeOctets _ _ hend ?_ ?_ ?_ fun s hs => ?_
    · rw [List.length_take]; omega
    · rw [List.length_take]; omega
    · rw [htake, htake]; exact hiff.mpr ⟨h1, h2, h3⟩
    · rw [hfound _ s hs, hfound _ s hs, hf s hs, h4 s hs]


/-! ### Entity state messages -/

/-- After its first `n` octets `g` does as `P` says. -/
def After {α : Type} (n : Nat) (g : Get α) (P : Bytes → α → Bytes → Prop) : Prop :=
  ∀ prof b a r, g prof b = .ok (a, r) → n ≤ b.length ∧ P (b.drop n) a r

theorem After.bind {α β : Type} {g : Get α} {f : α → Get β} {n m : Nat} {P : Bytes → β → Bytes → Prop}
    (hg : Fixed g n) (hf : ∀ a, After m (f a) P) : After (n + m) (g >>= f) P := by
  intro prof b c r e
  by_cases hl : b.length < n
  · rw [M.bind_run, hg.run_short prof hl] at e; cases e
  · obtain ⟨a, ha⟩ := hg.run_long prof (b := b) (by omega)
    rw [M.bind_run, ha] at e
    obtain ⟨h1, h2⟩ := hf a prof _ c r e
    rw [List.length_drop] at h1
    rw [List.drop_drop] at h2
    exact ⟨by omega, h2⟩

theorem After.congr {α : Type} {n m : Nat} {g : Get α} {P : Bytes → α → Bytes → Prop} (h : After n g P)
    (e : n = m) : After m g P := e ▸ h

/-- What the entity state decoder makes of the octets after the marking's character set. -/
def EntityStatePdu.TakenFrom (b : Bytes) (x : EntityStatePdu) (r : Bytes) : Prop :=
  4 ≤ b.length ∧ x.entity_marking.entity_marking_string = toString b.length ∧
    x.entity_capabilities = EntityCapabilities.spec.ofCode (bigEndian (b.take 4)) ∧
    x.articulation_parameter = [] ∧ r = b.drop 4

theorem EntityStatePdu.after_marking
    (F : EntityMarking → EntityCapabilities → List VariableParameter → EntityStatePdu)
    (h1 : ∀ m c l, (F m c l).entity_marking = m) (h2 : ∀ m c l, (F m c l).entity_capabilities = c)
    (h3 : ∀ m c l, (F m c l).articulation_parameter = l) :
    After 1 (do
      let m ← (deserialize_field : Get EntityMarking)
      let c ← (deserialize_field : Get EntityCapabilities)
      let l ← (deserialize_field : Get (List VariableParameter))
      return F m c l) EntityStatePdu.TakenFrom := by
  intro prof b x r e
  by_cases hl : b.length < 1
  · rw [M.bind_run, show (deserialize_field : Get EntityMarking) prof b = _ from
      (EntityMarking.sized prof b).1 hl] at e
    cases e
  · have hl : 1 ≤ b.length := by omega
    refine ⟨hl, ?_⟩
    obtain ⟨v, hv, ho⟩ := exists_octets_take b hl
    have hm : ReadsAt (deserialize_field : Get EntityMarking) b
        ⟨EntityMarkingCharacterSet.spec.ofCode v, toString (b.drop 1).length⟩ (b.drop 1) := by
      have : ReadsAt EntityMarkingCharacterSet.spec.deserialize b (EntityMarkingCharacterSet.spec.ofCode v) (b.drop 1) := by
        have := EnumSpec.readsAt_num EntityMarkingCharacterSet.spec v hv (b.drop 1)
        rwa [show octets EntityMarkingCharacterSet.spec.repr.octets v = b.take 1 from ho,
          List.take_append_drop] at this
      exact ReadsAt.bind this <| ReadsAt.bind (b' := b.drop 1) (a := (b.drop 1).length) (fun _ => rfl)
        (ReadsAt.ret _ _)
    rw [M.bind_run, hm prof] at e
    generalize b.drop 1 = b' at e ⊢
    simp only at e
    rw [M.bind_run] at e
    by_cases h4 : b'.length < 4
    · rw [show (deserialize_field : Get EntityCapabilities) prof b' = _ from
        (EnumSpec.fixed EntityCapabilities.spec).run_short prof h4] at e
      cases e
    · have h4 : 4 ≤ b'.length := by omega
      obtain ⟨n, hn, hoc⟩ := exists_octets_take b' h4
      have hc := EnumSpec.readsAt_num EntityCapabilities.spec n hn (b'.drop 4) prof
      rw [show octets EntityCapabilities.spec.repr.octets n = b'.take 4 from hoc,
        List.take_append_drop] at hc
      rw [show (deserialize_field : Get EntityCapabilities) prof b' = _ from hc] at e
      cases e
      refine ⟨h4, by rw [h1], ?_, by rw [h3], rfl⟩
      rw [h2, ← hoc, bigEndian_eq, octets_eq, beVal_beBytes, Nat.mod_eq_of_lt hn]

theorem EntityStatePdu.after : After 117 EntityStatePdu.deserializeBody EntityStatePdu.TakenFrom :=
  After.congr (After.bind FixedDec.fixed fun _ => After.bind FixedDec.fixed fun _ =>
    After.bind FixedDec.fixed fun _ => After.bind FixedDec.fixed fun _ =>
    After.bind FixedDec.fixed fun _ => After.bind FixedDec.fixed fun _ =>
    After.bind FixedDec.fixed fun _ => After.bind FixedDec.fixed fun _ =>
    After.bind FixedDec.fixed fun _ => After.bind FixedDec.fixed fun _ =>
    EntityStatePdu.after_marking _ (fun _ _ _ => rfl) (fun _ _ _ => rfl) (fun _ _ _ => rfl)) rfl

/-- Any octets an entity state PDU is decoded from: the marking's text is the decimal number of octets from
octet 129 on, the capabilities are octets 129 to 132 (0 if that code has no meaning), there are no
articulation parameters, and all from octet 133 on is left unread. -/
theorem C48_entity_state_decode (prof : Profile) (b rest : Bytes) (p : Pdu EntityStatePdu)
    (hd : decodeAs EntityStatePdu prof b = .ok (.ok p, rest)) :
    133 ≤ b.length ∧ p.body.entity_marking.entity_marking_string = toString (b.length - 129) ∧
      p.body.entity_capabilities = EntityCapabilities.spec.ofCode (bigEndian ((b.drop 129).take 4)) ∧
      p.body.articulation_parameter = [] ∧ rest = b.drop 133 := by
  obtain ⟨h12, hb⟩ := PduKind.body_run .EntityState hd
  obtain ⟨h1, h2, h3, h4, h5, h6⟩ := EntityStatePdu.after _ _ _ _ hb
  rw [List.length_drop] at h1
  rw [List.drop_drop] at h2 h3 h4 h6
  rw [List.length_drop] at h2 h3
  exact ⟨by omega, h3, h4, h5, by rw [h6, List.drop_drop]⟩

theorem EntityStatePdu.front_length (x : EntityStatePdu) : x.front.length = 116 := by
  unfold EntityStatePdu.front
  simp only [List.length_append, EntityId.wire_length, EntityType.wire_length, LinearVelocity.wire_length,
    WorldCoordinate.wire_length, EulerAngles.wire_length, DeadReckoningParameters.wire_length,
    show (wire x.force_id).length = 1 from octets_length _ _,
    show (wire x.number_of_articulation_parameters).length = 1 from octets_length _ _,
    show (wire x.entity_appearance).length = 4 from octets_length _ _]

/-- Entity state messages: a relay forwards the first 129 octets as `C49_header` and `C49_fields` say; then the
decimal digits of the number of octets received from octet 129 on, in place of the marking; then four
octets of capabilities, taken from the first four octets of the marking received; and nothing else.  The
length field says 144. -/
theorem C49_entity_state (prof prof' : Profile) (b rest buf buf' : Bytes) (p q : Pdu EntityStatePdu)
    (hd : decodeAs EntityStatePdu prof b = .ok (.ok p, rest))
    (hs : p.serialize prof' buf = .ok ((q, .ok ()), buf')) :
    q.header.length = 144 ∧
    ∃ w, buf' = buf ++ w ∧ w.drop 129 = strBytes (toString (b.length - 129)) ++
      octets 4 (EntityCapabilities.spec.ofCode (bigEndian ((b.drop 129).take 4))).code ∧
      w.length = 133 + (strBytes (toString (b.length - 129))).length := by
  obtain ⟨_, h1, h2, h3, _⟩ := C48_entity_state_decode prof b rest p hd
  obtain ⟨rfl, _, rfl⟩ := Pdu.serialize_ok hs
  have hfl : PduBody.fieldsLen (PduBody.prep p.body) = 132 := by
    show EntityStatePdu.fieldsLen p.body = 132
    unfold EntityStatePdu.fieldsLen
    rw [h3]
    rfl
  refine ⟨?_, _, List.append_assoc _ _ _, ?_⟩
  · show UInt16.ofNat (12 + PduBody.fieldsLen (PduBody.prep p.body)) = 144
    rw [hfl]
    rfl
  · let x : EntityStatePdu := p.body
    let y : EntityStatePdu := { x with dead_reckoning_parameters := sent x.dead_reckoning_parameters }
    have hb : wire (sent p.after.body) =
        (y.front ++ wire x.entity_marking.entity_marking_character_set) ++
        (strBytes (toString (b.length - 129)) ++
          octets 4 (EntityCapabilities.spec.ofCode (bigEndian ((b.drop 129).take 4))).code) := by
      show (wire x.entity_id ▹ wire x.force_id ▹ wire x.number_of_articulation_parameters ▹
        wire x.entity_type ▹ wire x.alternative_entity_type ▹ wire x.entity_linear_velocity ▹
        wire x.entity_location ▹ wire x.entity_orientation ▹ wire x.entity_appearance ▹
        wire (sent x.dead_reckoning_parameters) ▹
        (wire x.entity_marking.entity_marking_character_set ▹ strBytes x.entity_marking.entity_marking_string) ▹
        wire x.entity_capabilities ▹ wire x.articulation_parameter) = _
      have e3 : wire x.articulation_parameter = [] := by
        show wire p.body.articulation_parameter = []
        rw [h3]; rfl
      have e2 : wire x.entity_capabilities =
          octets 4 (EntityCapabilities.spec.ofCode (bigEndian ((b.drop 129).take 4))).code := by
        show wire p.body.entity_capabilities = _
        rw [h2]; rfl
      have e1 : x.entity_marking.entity_marking_string = toString (b.length - 129) := h1
      rw [e1, e2, e3]
      simp only [EntityStatePdu.front, y, List.append_assoc, List.append_nil]
    have hfr : (y.front ++ wire x.entity_marking.entity_marking_character_set).length = 117 := by
      rw [List.length_append, EntityStatePdu.front_length,
        show (wire x.entity_marking.entity_marking_character_set).length = 1 from octets_length _ _]
    have hh : (wire p.after.header).length = 12 := PduHeader.wire_length _
    rw [hb]
    generalize y.front ++ wire x.entity_marking.entity_marking_character_set = f at hfr
    generalize wire p.after.header = g at hh
    constructor
    · rw [← List.append_assoc, List.drop_left' (by rw [List.length_append]; omega)]
    · simp only [List.length_append, octets_length]
      omega


/-- A transmitter message with eight octets of modulation parameters and an antenna pattern octet. -/
def C49_transmitter (length : UInt8) : Bytes :=
  [7, 1, 25, 4, 0, 0, 0, 9, 0, length, 0, 0] ++ List.replicate 88 0 ++ [8, 0, 0, 0] ++ [1, 2, 3, 4, 5, 6, 7, 8]

/-- The parameters are forwarded, what follows them is not. -/
example : C49_relay .Transmitter (C49_transmitter 113 ++ [9]) = some (C49_transmitter 112) := by decide +kernel

/-- A message that ends with them is forwarded as it is. -/
example : C49_relay .Transmitter (C49_transmitter 112) = some (C49_transmitter 112) := by decide +kernel

/-- An entity state message with the marking "TANK 12    ": what is forwarded is marked "15", has meaningless
capabilities replaced by 0, and is nine octets shorter than its length field says. -/
example : C49_relay .EntityState ([7, 1, 1, 1, 0, 0, 0, 9, 0, 144, 0, 0] ++ List.replicate 116 0 ++ [1] ++
      strBytes "TANK 12    " ++ [0, 0, 0, 2]) =
    some ([7, 1, 1, 1, 0, 0, 0, 9, 0, 144, 0, 0] ++ List.replicate 116 0 ++ [1] ++ strBytes "15" ++ [0, 0, 0, 0]) := by
  decide +kernel

end Dis
