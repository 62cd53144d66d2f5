import Verif.Proofs.RecordTable
import Verif.Proofs.Counted
import Verif.Proofs.RoundTrip
import Verif.Proofs.Yields
/-
C35: grid axis descriptors and grid data records. `octets n v` is the big-endian image of a number.
-/
namespace Dis

theorem GridAxisDescriptorAxisType.cases (t : GridAxisDescriptorAxisType) :
    t = .RegularAxis ∨ t = .IrregularAxis := by
  obtain ⟨c, h⟩ := t
  have h' : c = 0 ∨ c = 1 := by
    simpa [GridAxisDescriptorAxisType.spec, EnumSpec.codes] using h
  rcases h' with rfl | rfl
  · exact .inl rfl
  · exact .inr rfl

/-- Up to and including the axis type, the descriptor reads what it wrote. -/
theorem GridAxisDescriptor.step (x : GridAxisDescriptor) :
    Continues GridAxisDescriptor.deserialize
      (wire x.domain_initial ++ (wire x.domain_final ++ (wire x.domain_points ++
        (wire x.interleaf_factor ++ wire x.axis_type))))
      (GridAxisDescriptor.deserializeData x.axis_type) (fun d => { x with data := d }) :=
  Continues.bind (reads_f64 _) <| Continues.bind (reads_f64 _) <| Continues.bind (reads_u16 _) <|
    Continues.bind (reads_u8 _) <| Continues.last (EnumSpec.reads x.axis_type) (Continues.ret _ _)

theorem GridAxisDescriptor.run (x : GridAxisDescriptor) (prof : Profile) (rest : Bytes) :
    GridAxisDescriptor.deserialize prof (wire x ++ rest) =
      match GridAxisDescriptor.deserializeData x.axis_type prof (wire x.data ++ rest) with
      | .error e => .error e
      | .ok (d, r) => .ok ({ x with data := d }, r) := by
  have e : wire x ++ rest = (wire x.domain_initial ++ (wire x.domain_final ++ (wire x.domain_points ++
        (wire x.interleaf_factor ++ wire x.axis_type)))) ++ (wire x.data ++ rest) := by
    show (_ ++ (_ ++ (_ ++ (_ ++ (_ ++ _))))) ++ _ = _
    simp only [List.append_assoc]
  rw [e, x.step prof (wire x.data ++ rest)]
  cases GridAxisDescriptor.deserializeData x.axis_type prof (wire x.data ++ rest) <;> rfl

/-- A regular axis with regular data round-trips, leaving alone what follows. -/
theorem C35_regular_axis (x : GridAxisDescriptor) (n i : UInt16) (ht : x.axis_type = .RegularAxis)
    (hd : x.data = .FixedSpacing n i) (prof : Profile) (buf rest : Bytes) :
    ∃ w, x.serialize prof buf = .ok ((), buf ++ w) ∧ w.length = 24 ∧ field_len x = 24 ∧
      GridAxisDescriptor.deserialize prof (w ++ rest) = .ok (x, rest) := by
  have hl : field_len x = 24 := by
    show 8 + 8 + 2 + 1 + 1 + field_len x.data = 24
    rw [hd]; rfl
  refine ⟨wire x, x.writes prof buf, ?_, hl, ?_⟩
  · rw [← len_exact]; exact hl
  · rw [x.run, ht, hd]
    have hr : Reads (GridAxisDescriptor.deserializeData .RegularAxis) (wire (GridAxisType.FixedSpacing n i))
        (.FixedSpacing n i) := by
      unfold GridAxisDescriptor.deserializeData
      rw [if_pos rfl]
      exact Reads.bind (reads_u16 n) (Reads.last (reads_u16 i) (Reads.ret _))
    rw [hr prof rest]
    simp only
    rw [← hd, ← ht]

example := C35_regular_axis ⟨⟨1⟩, ⟨2⟩, 3, 4, .RegularAxis, .FixedSpacing 2 0⟩ 2 0 rfl rfl ⟨true⟩ [9] [10]

theorem GridAxisDescriptor.data_irregular (n i : UInt16) (s o : F64) (xs : List UInt16) (p : Bytes)
    (hn : n.toNat = xs.length) (prof : Profile) (rest : Bytes) :
    GridAxisDescriptor.deserializeData .IrregularAxis prof
      (wire (GridAxisType.VariableSpacing n i s o xs p) ++ rest) =
    .ok (.VariableSpacing n i s o xs (p ++ rest), []) := by
  have hc : Continues (GridAxisDescriptor.deserializeData .IrregularAxis)
      (wire n ++ (wire i ++ (wire s ++ (wire o ++ wire xs)))) getRest
      (fun p => .VariableSpacing n i s o xs p) := by
    unfold GridAxisDescriptor.deserializeData
    rw [if_neg (by decide)]
    exact Continues.bind (reads_u16 n) <| Continues.bind (reads_u16 i) <| Continues.bind (reads_f64 s) <|
      Continues.bind (reads_f64 o) <| Continues.last (Reads.counted hn fun e _ => reads_u16 e) (Continues.ret _ _)
  have e : wire (GridAxisType.VariableSpacing n i s o xs p) ++ rest =
      (wire n ++ (wire i ++ (wire s ++ (wire o ++ wire xs)))) ++ (p ++ rest) := by
    show (_ ++ (_ ++ (_ ++ (_ ++ (_ ++ wire p))))) ++ _ = _
    rw [wire_bytes]
    simp only [List.append_assoc]
  rw [e, hc prof _]
  rfl

theorem field_len_u16s : ∀ xs : List UInt16, field_len xs = 2 * xs.length
  | [] => rfl
  | a :: l => by
    have := field_len_u16s l
    show ((a :: l).map field_len).sum = _
    rw [List.map_cons, List.sum_cons, List.length_cons]
    show 2 + field_len l = _
    omega

/-- An irregular axis with matching data: decoding recovers it, but takes everything that follows as
padding; so it round-trips exactly when nothing follows. -/
theorem C35_irregular_axis (x : GridAxisDescriptor) (n i : UInt16) (s o : F64) (xs : List UInt16) (p : Bytes)
    (ht : x.axis_type = .IrregularAxis) (hd : x.data = .VariableSpacing n i s o xs p)
    (hn : n.toNat = xs.length) (prof : Profile) (buf rest : Bytes) :
    ∃ w, x.serialize prof buf = .ok ((), buf ++ w) ∧ w.length = field_len x ∧
      w.length = 40 + 2 * xs.length + p.length ∧
      GridAxisDescriptor.deserialize prof (w ++ rest) =
        .ok ({ x with data := .VariableSpacing n i s o xs (p ++ rest) }, []) ∧
      (GridAxisDescriptor.deserialize prof (w ++ rest) = .ok (x, rest) ↔ rest = []) := by
  have hdec : GridAxisDescriptor.deserialize prof (wire x ++ rest) =
        .ok ({ x with data := .VariableSpacing n i s o xs (p ++ rest) }, []) := by
    rw [x.run, ht, hd, GridAxisDescriptor.data_irregular n i s o xs p hn]
  have hxs : field_len xs = 2 * xs.length := field_len_u16s xs
  have hl : (wire x).length = field_len x := (len_exact x).symm
  refine ⟨wire x, x.writes prof buf, hl, ?_, hdec, ?_⟩
  · rw [hl]
    show 8 + 8 + 2 + 1 + 1 + field_len x.data = _
    rw [hd]
    show 20 + (2 + 2 + 8 + 8 + field_len xs + field_len p) = _
    rw [field_len_bytes, hxs]
    omega
  · rw [hdec]
    constructor
    · intro h
      simp only [Except.ok.injEq, Prod.mk.injEq] at h
      exact h.2.symm
    · rintro rfl
      rw [List.append_nil, ← hd]

example := C35_irregular_axis ⟨⟨1⟩, ⟨2⟩, 3, 4, .IrregularAxis, .VariableSpacing 2 0 ⟨5⟩ ⟨6⟩ [7, 8] [9]⟩ 2 0 ⟨5⟩ ⟨6⟩ [7, 8] [9]
  rfl rfl rfl ⟨true⟩ [9] [10]

/-- Data that does not match the axis type does not round-trip: an irregular axis's data under the regular
type is read as a regular axis's, and the rest of it is left unread. -/
theorem C35_mismatched_regular (x : GridAxisDescriptor) (n i : UInt16) (s o : F64) (xs : List UInt16) (p : Bytes)
    (ht : x.axis_type = .RegularAxis) (hd : x.data = .VariableSpacing n i s o xs p)
    (prof : Profile) (buf rest : Bytes) :
    ∃ w, x.serialize prof buf = .ok ((), buf ++ w) ∧
      GridAxisDescriptor.deserialize prof (w ++ rest) =
        .ok ({ x with data := .FixedSpacing n i },
          octets 8 s.bits.toNat ++ (octets 8 o.bits.toNat ++ (xs.flatMap fun v => octets 2 v.toNat) ++ p) ++ rest) := by
  refine ⟨wire x, x.writes prof buf, ?_⟩
  rw [x.run, ht, hd]
  have hr : Reads (GridAxisDescriptor.deserializeData .RegularAxis) (wire n ++ wire i)
      (.FixedSpacing n i) := by
    unfold GridAxisDescriptor.deserializeData
    rw [if_pos rfl]
    exact Reads.bind (reads_u16 n) (Reads.last (reads_u16 i) (Reads.ret _))
  have e : wire (GridAxisType.VariableSpacing n i s o xs p) ++ rest = (wire n ++ wire i) ++
      (octets 8 s.bits.toNat ++ (octets 8 o.bits.toNat ++ (xs.flatMap fun v => octets 2 v.toNat) ++ p) ++ rest) := by
    show (_ ++ (_ ++ (wire s ++ (wire o ++ (wire xs ++ wire p))))) ++ _ = _
    rw [wire_bytes]
    simp only [List.append_assoc]
    rfl
  rw [e, hr prof]

example := C35_mismatched_regular ⟨⟨1⟩, ⟨2⟩, 3, 4, .RegularAxis, .VariableSpacing 2 0 ⟨5⟩ ⟨6⟩ [7, 8] [9]⟩ 2 0 ⟨5⟩ ⟨6⟩ [7, 8] [9]
  rfl rfl ⟨true⟩ [9] [10]

/-- ... and a regular axis's data under the irregular type, with fewer than sixteen octets after it,
panics. -/
theorem C35_mismatched_irregular (x : GridAxisDescriptor) (n i : UInt16)
    (ht : x.axis_type = .IrregularAxis) (hd : x.data = .FixedSpacing n i)
    (prof : Profile) (buf rest : Bytes) (hr : rest.length < 16) :
    ∃ w, x.serialize prof buf = .ok ((), buf ++ w) ∧
      GridAxisDescriptor.deserialize prof (w ++ rest) = .error .bufferUnderflow := by
  refine ⟨wire x, x.writes prof buf, ?_⟩
  rw [x.run, ht, hd]
  have hf : Fixed (do let s ← getF64; let o ← getF64; return (s, o) : Get (F64 × F64)) 16 :=
    (Fixed.bind fixed_f64 fun _ => Fixed.bind fixed_f64 fun _ => Fixed.ret _).congr (by omega)
  have hh := hf.run_short prof hr
  have hc : Continues (GridAxisDescriptor.deserializeData .IrregularAxis) (wire n ++ wire i)
      (do let s ← getF64
          let o ← getF64
          let xs ← getN getU16 n.toNat
          let p ← getRest
          return .VariableSpacing n i s o xs p) id := by
    unfold GridAxisDescriptor.deserializeData
    rw [if_neg (by decide)]
    refine Continues.bind (reads_u16 n) <| Continues.last (reads_u16 i) ?_
    intro prof rest
    rw [List.nil_append]
    cases (do let s ← getF64
              let o ← getF64
              let xs ← getN getU16 n.toNat
              let p ← getRest
              return GridAxisType.VariableSpacing n i s o xs p : Get GridAxisType) prof rest with
    | error e => rfl
    | ok p => rfl
  show (match GridAxisDescriptor.deserializeData .IrregularAxis prof ((wire n ++ wire i) ++ rest) with
    | .error e => _
    | .ok (d, r) => _) = _
  rw [hc prof rest]
  have : (do let s ← getF64
             let o ← getF64
             let xs ← getN getU16 n.toNat
             let p ← getRest
             return GridAxisType.VariableSpacing n i s o xs p : Get GridAxisType) prof rest =
      .error .bufferUnderflow := by
    simp only [M.bind_run] at hh ⊢
    cases h1 : getF64 prof rest with
    | error e => rw [h1] at hh; cases hh; rfl
    | ok q =>
      rw [h1] at hh
      simp only at hh ⊢
      cases h2 : getF64 prof q.2 with
      | error e => rw [h2] at hh; cases hh; rfl
      | ok q2 => rw [h2] at hh; cases hh
  rw [this]

example := C35_mismatched_irregular ⟨⟨1⟩, ⟨2⟩, 3, 4, .IrregularAxis, .FixedSpacing 2 0⟩ 2 0 rfl rfl ⟨true⟩ [9] [10] (by decide)

/-- Everything a grid axis decoder returns has data of its axis type, counted right. -/
theorem GridAxisDescriptor.data_yields (prof : Profile) (t : GridAxisDescriptorAxisType) :
    Yields prof (GridAxisDescriptor.deserializeData t) (fun d => match d with
      | .FixedSpacing .. => t = .RegularAxis
      | .VariableSpacing n _ _ _ xs _ => t = .IrregularAxis ∧ n.toNat = xs.length) := by
  unfold GridAxisDescriptor.deserializeData
  split
  case isTrue h => exact Yields.any fun _ => Yields.any fun _ => Yields.ret h
  case isFalse h =>
    refine Yields.any fun _ => Yields.any fun _ => Yields.any fun _ => Yields.any fun _ => ?_
    refine Yields.bind (Yields.n (Yields.top getU16) _) fun xs hx => Yields.any fun _ => Yields.ret ?_
    exact ⟨(GridAxisDescriptorAxisType.cases t).resolve_left h, hx.1.symm⟩

/-- Exactly these grid axis records come back from their own octets, with what follows left: regular axes with
regular data; irregular axes with irregular data counted right, if nothing follows. -/
theorem C35_axis_iff (x : GridAxisDescriptor) (prof : Profile) (buf rest : Bytes) :
    ∃ w, x.serialize prof buf = .ok ((), buf ++ w) ∧
      (GridAxisDescriptor.deserialize prof (w ++ rest) = .ok (x, rest) ↔
        (x.axis_type = .RegularAxis ∧ ∃ n i, x.data = .FixedSpacing n i) ∨
        (x.axis_type = .IrregularAxis ∧ rest = [] ∧
          ∃ n i s o xs p, x.data = .VariableSpacing n i s o xs p ∧ n.toNat = xs.length)) := by
  refine ⟨wire x, x.writes prof buf, ?_, ?_⟩
  · intro h
    have hr := x.run prof rest
    rw [h] at hr
    cases hd : GridAxisDescriptor.deserializeData x.axis_type prof (wire x.data ++ rest) with
    | error e => rw [hd] at hr; cases hr
    | ok v =>
      obtain ⟨d, r⟩ := v
      rw [hd] at hr
      simp only [Except.ok.injEq, Prod.mk.injEq] at hr
      obtain ⟨hx, rfl⟩ := hr
      have hxd : x.data = d := congrArg GridAxisDescriptor.data hx
      have hy := GridAxisDescriptor.data_yields prof x.axis_type _ _ _ hd
      rw [← hxd] at hy
      cases hdat : x.data with
      | FixedSpacing n i =>
        rw [hdat] at hy
        exact .inl ⟨hy, n, i, rfl⟩
      | VariableSpacing n i s o xs p =>
        rw [hdat] at hy
        refine .inr ⟨hy.1, ?_, n, i, s, o, xs, p, rfl, hy.2⟩
        rw [hy.1, hdat, GridAxisDescriptor.data_irregular n i s o xs p hy.2] at hd
        simp only [Except.ok.injEq, Prod.mk.injEq] at hd
        exact hd.2.symm
  · rintro (⟨ht, n, i, hd⟩ | ⟨ht, rfl, n, i, s, o, xs, p, hd, hn⟩)
    · obtain ⟨w, h1, _, _, h2⟩ := C35_regular_axis x n i ht hd prof [] rest
      rw [x.writes prof []] at h1
      simp only [Except.ok.injEq, Prod.mk.injEq, List.nil_append, true_and] at h1
      rw [h1]
      exact h2
    · obtain ⟨w, h1, _, _, _, h2⟩ := C35_irregular_axis x n i s o xs p ht hd hn prof [] []
      rw [x.writes prof []] at h1
      simp only [Except.ok.injEq, Prod.mk.injEq, List.nil_append, true_and] at h1
      rw [h1]
      exact h2.mpr rfl

/-- All four situations occur. -/
example : (GridAxisDescriptor.deserialize ⟨true⟩
      ((wire (⟨⟨1⟩, ⟨2⟩, 3, 4, .IrregularAxis, .VariableSpacing 2 0 ⟨5⟩ ⟨6⟩ [7, 8] [9]⟩ : GridAxisDescriptor)) ++ [10]) =
    .ok (⟨⟨1⟩, ⟨2⟩, 3, 4, .IrregularAxis, .VariableSpacing 2 0 ⟨5⟩ ⟨6⟩ [7, 8] [9, 10]⟩, [])) ∧
    (GridAxisDescriptor.deserialize ⟨true⟩
      ((wire (⟨⟨1⟩, ⟨2⟩, 3, 4, .RegularAxis, .FixedSpacing 2 0⟩ : GridAxisDescriptor)) ++ [10]) =
    .ok (⟨⟨1⟩, ⟨2⟩, 3, 4, .RegularAxis, .FixedSpacing 2 0⟩, [10])) ∧
    (GridAxisDescriptor.deserialize ⟨true⟩
      ((wire (⟨⟨1⟩, ⟨2⟩, 3, 4, .IrregularAxis, .FixedSpacing 2 0⟩ : GridAxisDescriptor)) ++ [10]) =
    .error .bufferUnderflow) := by decide +kernel

/-! ### Grid data records -/

theorem GriddedDataSampleType.eq_zero (t : GriddedDataSampleType) : t = ⟨0, by decide⟩ := by
  obtain ⟨c, h⟩ := t
  have h' : c = 0 := by simpa [GriddedDataSampleType.spec, EnumSpec.codes] using h
  subst h'; rfl

theorem GriddedDataDataRepresentation.lt (t : GriddedDataDataRepresentation) : t.code < 3 := by
  obtain ⟨c, h⟩ := t
  have h' : c = 0 ∨ c = 1 ∨ c = 2 := by simpa [GriddedDataDataRepresentation.spec, EnumSpec.codes] using h
  show c < 3
  omega

theorem DataRepresentationType.wire_ge (d : DataRepresentationType) : 2 ≤ (wire d).length := by
  cases d with
  | Type0 n d p =>
    show 2 ≤ (octets 2 _ ++ _).length
    rw [List.length_append, octets_length]; omega
  | Type1 s o n d p =>
    show 2 ≤ (octets 4 _ ++ _).length
    rw [List.length_append, octets_length]; omega
  | Type2 n p d =>
    show 2 ≤ (octets 2 _ ++ _).length
    rw [List.length_append, octets_length]; omega

/-- Whatever its representation, a grid data record comes back as the representation of type 0, everything
after its header split between data and padding, nothing left of what follows; it never round-trips, and
the octets claimed are two too few. -/
theorem C35_grid_data (x : GridDataRecord) (prof : Profile) (buf rest : Bytes) :
    ∃ w d, x.serialize prof buf = .ok ((), buf ++ w) ∧
      w = [0, 0, 0, UInt8.ofNat x.data_representation.code] ++ d ∧ w.length = field_len x + 2 ∧
      GridDataRecord.deserialize prof (w ++ rest) =
        .ok (⟨⟨0, by decide⟩, .Type0, .Type0 (UInt16.ofNat x.data_representation.code)
          ((d ++ rest).take x.data_representation.code) ((d ++ rest).drop x.data_representation.code)⟩, []) ∧
      GridDataRecord.deserialize prof (w ++ rest) ≠ .ok (x, rest) := by
  have hc := GriddedDataDataRepresentation.lt x.data_representation
  have hw : wire x = [0, 0, 0, UInt8.ofNat x.data_representation.code] ++ wire x.data := by
    have h1 : octets 2 x.sample_type.code = [0, 0] := by
      rw [GriddedDataSampleType.eq_zero x.sample_type]
      decide +kernel
    have h2 : octets 2 x.data_representation.code = [0, UInt8.ofNat x.data_representation.code] := by
      generalize x.data_representation.code = c at hc
      have : c = 0 ∨ c = 1 ∨ c = 2 := by omega
      rcases this with rfl | rfl | rfl <;> decide +kernel
    show octets 2 _ ++ (octets 2 _ ++ _) = _
    rw [h1, h2]; rfl
  have hlen : (wire x).length = field_len x + 2 := by
    have := LawfulEnc.len x
    simp only [sent, surplus, id] at this
    omega
  have hdec : GridDataRecord.deserialize prof (wire x ++ rest) =
        .ok (⟨⟨0, by decide⟩, .Type0, .Type0 (UInt16.ofNat x.data_representation.code)
          ((wire x.data ++ rest).take x.data_representation.code)
          ((wire x.data ++ rest).drop x.data_representation.code)⟩, []) := by
    have hwd := DataRepresentationType.wire_ge x.data
    generalize x.data_representation.code = c at hc hw ⊢
    have hcd : c ≤ (wire x.data ++ rest).length := by rw [List.length_append]; omega
    have hn : Reads getU16 [0, UInt8.ofNat c] (UInt16.ofNat c) := by
      refine (reads_u16 (UInt16.ofNat c)).congr ?_ rfl
      have : c = 0 ∨ c = 1 ∨ c = 2 := by omega
      rcases this with rfl | rfl | rfl <;> decide +kernel
    have hnn : (UInt16.ofNat c).toNat = c := by
      rw [UInt16.toNat_ofNat']; omega
    have hs : Reads GriddedDataSampleType.deserialize [0] ⟨0, by decide⟩ :=
      (EnumSpec.reads (⟨0, by decide⟩ : GriddedDataSampleType)).congr (by decide +kernel) rfl
    have hr : Reads GriddedDataDataRepresentation.deserialize [0] .Type0 :=
      (EnumSpec.reads GriddedDataDataRepresentation.Type0).congr (by decide +kernel) rfl
    have hd : Reads (getN getU8 (UInt16.ofNat c).toNat) ((wire x.data ++ rest).take c)
        ((wire x.data ++ rest).take c) := reads_bytes _ (by rw [hnn, List.length_take]; omega)
    have hcont : Continues GridDataRecord.deserialize
        ([0] ++ ([0] ++ ([0, UInt8.ofNat c] ++ (wire x.data ++ rest).take c))) getRest
        (fun p => ⟨⟨0, by decide⟩, .Type0, .Type0 (UInt16.ofNat c) ((wire x.data ++ rest).take c) p⟩) := by
      refine Continues.bind hs <| Continues.bind hr ?_
      intro prof r
      have hc2 : Continues (GridDataRecord.deserializeData .Type0)
          ([0, UInt8.ofNat c] ++ (wire x.data ++ rest).take c) getRest
          (fun p => DataRepresentationType.Type0 (UInt16.ofNat c) ((wire x.data ++ rest).take c) p) := by
        unfold GridDataRecord.deserializeData
        rw [if_pos rfl]
        exact Continues.bind hn (Continues.last hd (Continues.ret getRest _))
      rw [M.bind_run, hc2 prof r]
      rfl
    have hh := hcont prof ((wire x.data ++ rest).drop c)
    have e : ([0] ++ ([0] ++ ([0, UInt8.ofNat c] ++ (wire x.data ++ rest).take c))) ++
        (wire x.data ++ rest).drop c = wire x ++ rest := by
      rw [hw]
      simp only [List.append_assoc]
      rw [List.take_append_drop]
      rfl
    rw [e] at hh
    rw [hh]
    rfl
  refine ⟨wire x, wire x.data, x.writes prof buf, hw, hlen, hdec, ?_⟩
  rw [hdec]
  intro h
  simp only [Except.ok.injEq, Prod.mk.injEq] at h
  obtain ⟨h1, rfl⟩ := h
  rw [List.append_nil] at h1
  have hd := congrArg GridDataRecord.data h1
  have hr := congrArg (fun y => y.data_representation.code) h1
  simp only at hd hr
  have hr0 : x.data_representation.code = 0 := hr.symm
  rw [hr0, List.drop_zero] at hd
  have := congrArg (fun y => match y with
    | DataRepresentationType.Type0 _ _ p => p.length
    | _ => 0) hd
  simp only at this
  rw [← hd] at this
  have hwl : (wire (DataRepresentationType.Type0 (UInt16.ofNat 0) ((wire x.data).take 0) (wire x.data))).length
      = 2 + (wire x.data).length := by
    show (octets 2 _ ++ (wire _ ++ wire _)).length = _
    rw [wire_bytes, wire_bytes]
    simp only [List.length_append, octets_length, List.length_take]
    omega
  rw [hd] at hwl
  omega

/-- For instance, two 16-bit values in representation 1. -/
example : GridDataRecord.deserialize ⟨true⟩
    ((wire (⟨⟨0, by decide⟩, .Type1, .Type1 ⟨0⟩ ⟨0⟩ 2 [5, 6] []⟩ : GridDataRecord)) ++ [1]) =
    .ok (⟨⟨0, by decide⟩, .Type0, .Type0 1 [0] [0, 0, 0, 0, 0, 0, 0, 0, 2, 0, 5, 0, 6, 1]⟩, []) := by
  decide +kernel

theorem GriddedDataSampleType.reads_any (t : UInt8) : Reads GriddedDataSampleType.deserialize [t] ⟨0, by decide⟩ := by
  intro prof rest
  obtain ⟨f, h⟩ := (EnumSpec.fixed GriddedDataSampleType.spec)
  show GriddedDataSampleType.spec.deserialize prof (t :: rest) = _
  rw [h]
  have hb : ¬ ((t :: rest).length < GriddedDataSampleType.spec.repr.octets) := by
    show ¬ (rest.length + 1 < 1)
    omega
  rw [if_neg hb, GriddedDataSampleType.eq_zero (f _)]
  rfl

/-- What the decoder does accept: after one octet for the sample type, of any value, and one for the representation,
the three layouts of the standard.  In representations 0 and 1 all that follows is padding. -/
theorem C35_grid_layouts (t : UInt8) (prof : Profile) :
    (∀ (n : UInt16) (d p : Bytes), n.toNat = d.length →
      GridDataRecord.deserialize prof ([t, 0] ++ octets 2 n.toNat ++ d ++ p) =
        .ok (⟨⟨0, by decide⟩, .Type0, .Type0 n d p⟩, [])) ∧
    (∀ (s o : F32) (n : UInt16) (d : List UInt16) (p : Bytes), n.toNat = d.length →
      GridDataRecord.deserialize prof ([t, 1] ++ octets 4 s.bits.toNat ++ octets 4 o.bits.toNat ++ octets 2 n.toNat ++
          (d.flatMap fun v => octets 2 v.toNat) ++ p) =
        .ok (⟨⟨0, by decide⟩, .Type1, .Type1 s o n d p⟩, [])) ∧
    (∀ (n p : UInt16) (d : List F32) (rest : Bytes), n.toNat = d.length →
      GridDataRecord.deserialize prof ([t, 2] ++ octets 2 n.toNat ++ octets 2 p.toNat ++
          (d.flatMap fun v => octets 4 v.bits.toNat) ++ rest) =
        .ok (⟨⟨0, by decide⟩, .Type2, .Type2 n p d⟩, rest)) := by
  have ht := GriddedDataSampleType.reads_any t
  have hr : ∀ r : GriddedDataDataRepresentation, Reads GriddedDataDataRepresentation.deserialize [UInt8.ofNat r.code] r := by
    intro r
    refine (EnumSpec.reads r).congr ?_ rfl
    show octets 1 r.code = _
    have := GriddedDataDataRepresentation.lt r
    generalize r.code = c at this
    have : c = 0 ∨ c = 1 ∨ c = 2 := by omega
    rcases this with rfl | rfl | rfl <;> decide +kernel
  have hdata : ∀ (r : GriddedDataDataRepresentation) (w v : Bytes) (d : DataRepresentationType),
      GridDataRecord.deserializeData r prof w = .ok (d, v) →
      GridDataRecord.deserialize prof ([t] ++ ([UInt8.ofNat r.code] ++ w)) = .ok (⟨⟨0, by decide⟩, r, d⟩, v) := by
    intro r w v d h
    unfold GridDataRecord.deserialize
    rw [M.bind_run, ht, ]
    show (do let data_representation ← GriddedDataDataRepresentation.deserialize
             let data ← GridDataRecord.deserializeData data_representation
             return (⟨⟨0, by decide⟩, data_representation, data⟩ : GridDataRecord) : Get GridDataRecord) prof _ = _
    rw [M.bind_run, hr r]
    show (do let data ← GridDataRecord.deserializeData r
             return (⟨⟨0, by decide⟩, r, data⟩ : GridDataRecord) : Get GridDataRecord) prof w = _
    rw [M.bind_run, h]
    rfl
  refine ⟨fun n d p hn => ?_, fun s o n d p hn => ?_, fun n p d rest hn => ?_⟩
  · refine Eq.trans (congrArg _ ?_) (hdata .Type0 (octets 2 n.toNat ++ d ++ p) [] (.Type0 n d p) ?_)
    · simp only [List.append_assoc]; rfl
    · have hc : Continues (GridDataRecord.deserializeData .Type0) (octets 2 n.toNat ++ d) getRest
          (fun p => DataRepresentationType.Type0 n d p) := by
        unfold GridDataRecord.deserializeData
        rw [if_pos rfl]
        exact Continues.bind (reads_u16 n) (Continues.last (reads_bytes d hn) (Continues.ret getRest _))
      rw [hc prof p]
      rfl
  · refine Eq.trans (congrArg _ ?_) (hdata .Type1 (octets 4 s.bits.toNat ++ (octets 4 o.bits.toNat ++ (octets 2 n.toNat ++
          (d.flatMap fun v => octets 2 v.toNat))) ++ p) [] (.Type1 s o n d p) ?_)
    · simp only [List.append_assoc]; rfl
    · have hc : Continues (GridDataRecord.deserializeData .Type1) (octets 4 s.bits.toNat ++ (octets 4 o.bits.toNat ++
          (octets 2 n.toNat ++ (d.flatMap fun v => octets 2 v.toNat)))) getRest
          (fun p => DataRepresentationType.Type1 s o n d p) := by
        unfold GridDataRecord.deserializeData
        rw [if_neg (by decide), if_pos rfl]
        exact Continues.bind (reads_f32 s) <| Continues.bind (reads_f32 o) <| Continues.bind (reads_u16 n)
          (Continues.last (Reads.counted hn fun e _ => reads_u16 e) (Continues.ret getRest _))
      rw [hc prof p]
      rfl
  · refine Eq.trans (congrArg _ ?_) (hdata .Type2 (octets 2 n.toNat ++ (octets 2 p.toNat ++
          (d.flatMap fun v => octets 4 v.bits.toNat)) ++ rest) rest (.Type2 n p d) ?_)
    · simp only [List.append_assoc]; rfl
    · have hc : Reads (GridDataRecord.deserializeData .Type2) (octets 2 n.toNat ++ (octets 2 p.toNat ++
          (d.flatMap fun v => octets 4 v.bits.toNat))) (.Type2 n p d) := by
        unfold GridDataRecord.deserializeData
        rw [if_neg (by decide), if_neg (by decide)]
        exact Reads.bind (reads_u16 n) <| Reads.bind (reads_u16 p) <|
          Reads.last (Reads.counted hn fun e _ => reads_f32 e) (Reads.ret _)
      exact hc prof rest

example := (C35_grid_layouts 7 ⟨true⟩).2.1 ⟨1⟩ ⟨2⟩ 2 [5, 6] [9] rfl

end Dis
