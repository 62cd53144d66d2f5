import Verif.Spec.Needs
import Verif.Proofs.KindFacts
import Verif.Proofs.PduGeneric
import Verif.Proofs.Irregular
import Verif.Proofs.Counted
/-
How much the variable decoders take.
-/
namespace Dis

/-- What a decoder takes is given by `need`: it panics as `need` says, otherwise it succeeds and takes
exactly that many octets. -/
def Takes {α : Type} (g : Get α) (need : Profile → Bytes → Except Panic Nat) : Prop :=
  ∀ prof b, match need prof b with
    | .error e => g prof b = .error e
    | .ok n => n ≤ b.length ∧ ∃ a, g prof b = .ok (a, b.drop n)

/-- `m` octets first, then `f` on what follows them -/
def needAfter (m : Nat) (f : Profile → Bytes → Except Panic Nat) (prof : Profile) (b : Bytes) :
    Except Panic Nat :=
  if b.length < m then .error .bufferUnderflow
  else match f prof (b.drop m) with
    | .error e => .error e
    | .ok n => .ok (m + n)

theorem needAfter_add (m n : Nat) (f) : needAfter m (needAfter n f) = needAfter (m + n) f := by
  funext prof b
  unfold needAfter
  rw [List.length_drop, List.drop_drop]
  by_cases h : b.length < m
  · rw [if_pos h, if_pos (by omega)]
  · rw [if_neg h]
    by_cases h2 : b.length - m < n
    · rw [if_pos h2, if_pos (by omega)]
    · rw [if_neg h2, if_neg (by omega)]
      cases f prof (b.drop (m + n)) with
      | error e => rfl
      | ok k => simp only [Nat.add_assoc]

theorem Takes.bind {α β : Type} {g : Get α} {k : α → Get β} {m : Nat} {f} (hg : Fixed g m)
    (hk : ∀ a, Takes (k a) f) : Takes (g >>= k) (needAfter m f) := by
  intro prof b
  unfold needAfter
  by_cases h : b.length < m
  · rw [if_pos h, M.bind_run, hg.run_short prof h]
  · rw [if_neg h]
    obtain ⟨a, ha⟩ := hg.run_long prof (b := b) (by omega)
    have := hk a prof (b.drop m)
    rw [M.bind_run, ha]
    cases hf : f prof (b.drop m) with
    | error e => rw [hf] at this; exact this
    | ok n =>
      rw [hf] at this
      obtain ⟨h1, x, hx⟩ := this
      rw [List.length_drop] at h1
      refine ⟨by omega, x, ?_⟩
      rw [List.drop_drop] at hx
      exact hx

theorem Takes.congr {α : Type} {g : Get α} {f f'} (h : Takes g f) (e : f = f') : Takes g f' := e ▸ h

theorem Takes.fixed {α : Type} {g : Get α} {n : Nat} (h : Fixed g n) :
    Takes g (fun _ b => if b.length < n then .error .bufferUnderflow else .ok n) := by
  intro prof b
  by_cases hb : b.length < n
  · simp only [if_pos hb]; exact h.run_short prof hb
  · simp only [if_neg hb]
    exact ⟨by omega, h.run_long prof (by omega)⟩

theorem Takes.map {α β : Type} {g : Get α} {f} (h : Takes g f) (k : α → β) :
    Takes (do let x ← g; return k x) f := by
  intro prof b
  have := h prof b
  rw [M.bind_run]
  cases hf : f prof b with
  | error e => rw [hf] at this; rw [this]
  | ok n =>
    rw [hf] at this
    obtain ⟨h1, x, hx⟩ := this
    rw [hx]
    exact ⟨h1, k x, rfl⟩

/-- followed by decoders that read nothing -/
theorem Takes.then {α β : Type} {g : Get α} {f} (h : Takes g f) (k : α → Get β)
    (hk : ∀ a, ∃ c, ∀ prof b, k a prof b = .ok (c, b)) : Takes (g >>= k) f := by
  intro prof b
  have := h prof b
  rw [M.bind_run]
  cases hf : f prof b with
  | error e => rw [hf] at this; rw [this]
  | ok n =>
    rw [hf] at this
    obtain ⟨h1, x, hx⟩ := this
    obtain ⟨c, hc⟩ := hk x
    rw [hx]
    refine ⟨h1, c, ?_⟩
    simp only [hc]

theorem getU8_cons (prof : Profile) (v : UInt8) (t : Bytes) : getU8 prof (v :: t) = .ok (v, t) := by
  have := reads_u8 v prof t
  have hw : wire v = [v] := by
    show octets 1 v.toNat = [v]
    simp [octets, List.range_succ]
  rwa [hw] at this

theorem u16_of_two (x y : UInt8) :
    wire (UInt16.ofNat (x.toNat * 256 + y.toNat)) = [x, y] := by
  have h1 := x.toNat_lt
  have h2 := y.toNat_lt
  show octets 2 (UInt16.ofNat _).toNat = _
  rw [UInt16.toNat_ofNat_of_lt' (by simp only [UInt16.size]; omega)]
  simp only [octets, List.range_succ, List.range_zero, List.nil_append, List.map_cons, List.map_nil, List.cons_append]
  simp only [List.cons.injEq, and_true]
  refine ⟨UInt8.toNat.inj ?_, UInt8.toNat.inj ?_⟩ <;>
    simp only [UInt8.toNat_ofNat', Nat.pow_zero, Nat.pow_succ, Nat.one_mul] <;> omega

theorem getU16_at (prof : Profile) (b : Bytes) (h : 2 ≤ b.length) :
    getU16 prof b = .ok (UInt16.ofNat (u16At b 0), b.drop 2) := by
  match b, h with
  | x :: y :: t, _ =>
    have := reads_u16 (UInt16.ofNat (x.toNat * 256 + y.toNat)) prof t
    rw [u16_of_two] at this
    exact this

theorem u16At_lt (b : Bytes) (i : Nat) : u16At b i < 65536 := by
  unfold u16At
  have h1 := (b.getD i 0).toNat_lt
  have h2 := (b.getD (i + 1) 0).toNat_lt
  omega

theorem u16At_drop (b : Bytes) (n i : Nat) : u16At (b.drop n) i = u16At b (n + i) := by
  unfold u16At
  simp only [List.getD_eq_getElem?_getD, List.getElem?_drop, Nat.add_assoc]

/-- reading a 16-bit number that governs what follows -/
theorem Takes.u16 {β : Type} {k : UInt16 → Get β} {f : Nat → Profile → Bytes → Except Panic Nat}
    (hk : ∀ v, Takes (k v) (f v.toNat)) :
    Takes (getU16 >>= k) (fun prof b => needAfter 2 (f (u16At b 0)) prof b) := by
  intro prof b
  simp only [needAfter]
  by_cases h : b.length < 2
  · rw [if_pos h, M.bind_run, fixed_u16.run_short prof h]
  · rw [if_neg h, M.bind_run, getU16_at prof b (by omega)]
    have := hk (UInt16.ofNat (u16At b 0)) prof (b.drop 2)
    rw [UInt16.toNat_ofNat_of_lt' (by simpa [UInt16.size] using u16At_lt b 0)] at this
    cases hf : f (u16At b 0) prof (b.drop 2) with
    | error e => rw [hf] at this; exact this
    | ok n =>
      rw [hf] at this
      obtain ⟨h1, x, hx⟩ := this
      rw [List.length_drop] at h1
      refine ⟨by omega, x, ?_⟩
      simp only [hx, List.drop_drop]

/-- reading an octet that governs what follows -/
theorem Takes.u8 {β : Type} {k : UInt8 → Get β} {f : Nat → Profile → Bytes → Except Panic Nat}
    (hk : ∀ v, Takes (k v) (f v.toNat)) :
    Takes (getU8 >>= k) (fun prof b => needAfter 1 (f (b.getD 0 0).toNat) prof b) := by
  intro prof b
  simp only [needAfter]
  match b with
  | [] =>
          show (getU8 >>= k) prof [] = .error .bufferUnderflow
          rw [M.bind_run, u8_empty]
  | v :: t =>
    rw [if_neg (by rw [List.length_cons]; omega), M.bind_run, getU8_cons]
    have := hk v prof t
    simp only [List.drop_succ_cons, List.drop_zero, List.getD_cons_zero]
    cases hf : f v.toNat prof t with
    | error e => rw [hf] at this; exact this
    | ok n =>
      rw [hf] at this
      obtain ⟨h1, x, hx⟩ := this
      refine ⟨by simp; omega, x, ?_⟩
      rw [show 1 + n = n + 1 by omega]
      exact hx

/-! ### Standard variable records -/

def svrNeed (n : Nat) (_ : Profile) (b : Bytes) : Except Panic Nat :=
  match variableRecordOctets n b with
  | none => .error .bufferUnderflow
  | some m => .ok m

theorem svr_one (prof : Profile) (b : Bytes) :
    (b.length < 6 + u16At b 4 ∨ b.length < 6 →
      StandardVariableRecords.deserialize prof b = .error .bufferUnderflow) ∧
    (6 + u16At b 4 ≤ b.length → ∃ a,
      StandardVariableRecords.deserialize prof b = .ok (a, b.drop (6 + u16At b 4))) := by
  have ht : Takes StandardVariableRecords.deserialize (needAfter 4 fun prof b =>
      needAfter 2 (fun _ c => if c.length < u16At b 0 then .error .bufferUnderflow else .ok (u16At b 0)) prof b) :=
    Takes.bind fixed_u32 fun _ => Takes.u16 (f := fun n _ c => if c.length < n then .error .bufferUnderflow else .ok n)
      fun v => Takes.map ((Takes.fixed (Fixed.n fixed_u8 v.toNat)).congr (by simp)) _
  have := ht prof b
  unfold needAfter at this
  simp only [List.length_drop, List.drop_drop, u16At_drop] at this
  constructor
  · intro h
    by_cases h4 : b.length < 4
    · simpa only [if_pos h4] using this
    · rw [if_neg h4] at this
      by_cases h6 : b.length - 4 < 2
      · simpa only [if_pos h6] using this
      · rw [if_neg h6] at this
        have h7 : b.length - (4 + 2) < u16At b (4 + 0) := by
          show _ < u16At b 4; omega
        simpa only [if_pos h7] using this
  · intro h
    rw [if_neg (by omega), if_neg (by omega), if_neg (by show ¬ _ < u16At b 4; omega)] at this
    obtain ⟨_, x, hx⟩ := this
    refine ⟨x, hx.trans ?_⟩
    rw [show 4 + (2 + u16At b (4 + 0)) = 6 + u16At b 4 by show 4 + (2 + u16At b 4) = _; omega]

theorem svr_takes : ∀ n, Takes (getN StandardVariableRecords.deserialize n) (svrNeed n)
  | 0 => fun prof b => ⟨Nat.zero_le _, [], rfl⟩
  | n + 1 => fun prof b => by
    rw [show getN StandardVariableRecords.deserialize (n + 1) = (StandardVariableRecords.deserialize >>=
      fun x => getN StandardVariableRecords.deserialize n >>= fun xs => pure (x :: xs)) from rfl, M.bind_run]
    obtain ⟨h1, h2⟩ := svr_one prof b
    unfold svrNeed
    rw [variableRecordOctets]
    by_cases h6 : b.length < 6
    · rw [if_pos h6, h1 (.inr h6)]
    · rw [if_neg h6]
      by_cases h7 : b.length < 6 + u16At b 4
      · rw [if_pos h7, h1 (.inl h7)]
      · rw [if_neg h7]
        obtain ⟨a, ha⟩ := h2 (by omega)
        rw [ha]
        have ih := (svr_takes n).map (a :: ·) prof (b.drop (6 + u16At b 4))
        unfold svrNeed at ih
        cases hv : variableRecordOctets n (b.drop (6 + u16At b 4)) with
        | none => rw [hv] at ih; exact ih
        | some m =>
          rw [hv] at ih
          obtain ⟨i1, x, i2⟩ := ih
          rw [List.length_drop] at i1
          refine ⟨by show 6 + u16At b 4 + m ≤ _; omega, x, ?_⟩
          rw [List.drop_drop] at i2
          exact i2

/-! ### Record sets -/

theorem rse_one (prof : Profile) (b : Bytes) :
    (b.length < 12 → RecordSpecificationElement.deserialize prof b = .error .bufferUnderflow) ∧
    (12 ≤ b.length → prof.overflowChecks = true ∧ 65536 ≤ u16At b 8 * u16At b 10 →
      RecordSpecificationElement.deserialize prof b = .error .arithmeticOverflow) ∧
    (12 ≤ b.length → ¬ (prof.overflowChecks = true ∧ 65536 ≤ u16At b 8 * u16At b 10) →
      (b.length < 12 + u16At b 8 * u16At b 10 % 65536 →
        RecordSpecificationElement.deserialize prof b = .error .bufferUnderflow) ∧
      (12 + u16At b 8 * u16At b 10 % 65536 ≤ b.length → ∃ a,
        RecordSpecificationElement.deserialize prof b =
          .ok (a, b.drop (12 + u16At b 8 * u16At b 10 % 65536)))) := by
  have hm (l c : UInt16) (f : Bytes → RecordSpecificationElement) :
      Takes (mulU16 l c >>= fun m => getN getU8 m.toNat >>= fun v => pure (f v)) (fun prof b =>
        if prof.overflowChecks = true ∧ 65536 ≤ l.toNat * c.toNat then .error .arithmeticOverflow
        else if b.length < l.toNat * c.toNat % 65536 then .error .bufferUnderflow
        else .ok (l.toNat * c.toNat % 65536)) := by
    intro prof b
    rw [M.bind_run, mulU16_run]
    by_cases h : prof.overflowChecks = true ∧ 65536 ≤ l.toNat * c.toNat
    · simp only [if_pos h]
    · simp only [if_neg h]
      have hv : (UInt16.ofNat (l.toNat * c.toNat)).toNat = l.toNat * c.toNat % 65536 := UInt16.toNat_ofNat'
      have := (Takes.fixed (Fixed.n fixed_u8 (UInt16.ofNat (l.toNat * c.toNat)).toNat)).map f prof b
      simp only [hv, Nat.mul_one] at this ⊢
      exact this
  have ht : Takes RecordSpecificationElement.deserialize (needAfter 8 fun prof b =>
      needAfter 2 (fun prof c => needAfter 2 (fun prof d =>
        if prof.overflowChecks = true ∧ 65536 ≤ u16At b 0 * u16At c 0 then .error .arithmeticOverflow
        else if d.length < u16At b 0 * u16At c 0 % 65536 then .error .bufferUnderflow
        else .ok (u16At b 0 * u16At c 0 % 65536)) prof c) prof b) :=
    Takes.congr (Takes.bind fixed_u32 fun id => Takes.bind fixed_u32 fun sn => Takes.u16 (f := fun l prof c =>
      needAfter 2 (fun prof d =>
        if prof.overflowChecks = true ∧ 65536 ≤ l * u16At c 0 then .error .arithmeticOverflow
        else if d.length < l * u16At c 0 % 65536 then .error .bufferUnderflow
        else .ok (l * u16At c 0 % 65536)) prof c) fun l => Takes.u16 (f := fun c prof d =>
        if prof.overflowChecks = true ∧ 65536 ≤ l.toNat * c then .error .arithmeticOverflow
        else if d.length < l.toNat * c % 65536 then .error .bufferUnderflow
        else .ok (l.toNat * c % 65536)) fun c => hm l c _) (needAfter_add 4 4 _)
  have := ht prof b
  unfold needAfter at this
  simp only [List.length_drop, List.drop_drop, u16At_drop, Nat.add_zero, Nat.reduceAdd] at this
  refine ⟨fun h => ?_, fun h hc => ?_, fun h hc => ⟨fun hs => ?_, fun hs => ?_⟩⟩
  · by_cases h8 : b.length < 8
    · simpa only [if_pos h8] using this
    · rw [if_neg h8] at this
      by_cases h10 : b.length - 8 < 2
      · simpa only [if_pos h10] using this
      · rw [if_neg h10] at this
        have h12 : b.length - 10 < 2 := by omega
        simpa only [if_pos h12] using this
  · rw [if_neg (by omega), if_neg (by omega), if_neg (by omega), if_pos hc] at this
    exact this
  · rw [if_neg (by omega), if_neg (by omega), if_neg (by omega), if_neg hc, if_pos (by omega)] at this
    exact this
  · rw [if_neg (by omega), if_neg (by omega), if_neg (by omega), if_neg hc, if_neg (by omega)] at this
    obtain ⟨_, x, hx⟩ := this
    refine ⟨x, hx.trans ?_⟩
    rw [show ∀ z, 8 + (2 + (2 + z)) = 12 + z from fun z => by omega]

theorem rse_takes : ∀ n, Takes (getN RecordSpecificationElement.deserialize n)
    (fun prof b => recordSetOctets prof.overflowChecks n b)
  | 0 => fun prof b => ⟨Nat.zero_le _, [], rfl⟩
  | n + 1 => fun prof b => by
    rw [show getN RecordSpecificationElement.deserialize (n + 1) = (RecordSpecificationElement.deserialize >>=
      fun x => getN RecordSpecificationElement.deserialize n >>= fun xs => pure (x :: xs)) from rfl, M.bind_run]
    obtain ⟨h1, h2, h3⟩ := rse_one prof b
    simp only [recordSetOctets]
    by_cases h12 : b.length < 12
    · rw [if_pos h12, h1 h12]
    · rw [if_neg h12]
      by_cases hc : prof.overflowChecks = true ∧ 65536 ≤ u16At b 8 * u16At b 10
      · rw [if_pos hc, h2 (by omega) hc]
      · rw [if_neg hc]
        obtain ⟨h4, h5⟩ := h3 (by omega) hc
        by_cases h7 : b.length < 12 + u16At b 8 * u16At b 10 % 65536
        · rw [if_pos h7, h4 h7]
        · rw [if_neg h7]
          obtain ⟨a, ha⟩ := h5 (by omega)
          rw [ha]
          have ih := (rse_takes n).map (a :: ·) prof (b.drop (12 + u16At b 8 * u16At b 10 % 65536))
          cases hv : recordSetOctets prof.overflowChecks n (b.drop (12 + u16At b 8 * u16At b 10 % 65536)) with
          | error e => rw [hv] at ih; exact ih
          | ok m =>
            rw [hv] at ih
            obtain ⟨i1, x, i2⟩ := ih
            rw [List.length_drop] at i1
            refine ⟨by omega, x, ?_⟩
            rw [List.drop_drop] at i2
            exact i2

/-! ### The five PDU bodies -/

theorem u32_of_four (x y z t : UInt8) :
    wire (UInt32.ofNat (((x.toNat * 256 + y.toNat) * 65536) + (z.toNat * 256 + t.toNat))) = [x, y, z, t] := by
  have h1 := x.toNat_lt
  have h2 := y.toNat_lt
  have h3 := z.toNat_lt
  have h4 := t.toNat_lt
  show octets 4 (UInt32.ofNat _).toNat = _
  rw [UInt32.toNat_ofNat_of_lt' (by simp only [UInt32.size]; omega)]
  simp only [octets, List.range_succ, List.range_zero, List.nil_append, List.map_cons, List.map_nil, List.cons_append]
  simp only [List.cons.injEq, and_true]
  refine ⟨UInt8.toNat.inj ?_, UInt8.toNat.inj ?_, UInt8.toNat.inj ?_, UInt8.toNat.inj ?_⟩ <;>
    simp only [UInt8.toNat_ofNat', Nat.pow_zero, Nat.pow_succ, Nat.one_mul] <;> omega

theorem getU32_at (prof : Profile) (b : Bytes) (h : 4 ≤ b.length) :
    getU32 prof b = .ok (UInt32.ofNat (u32At b 0), b.drop 4) := by
  match b, h with
  | x :: y :: z :: t :: r, _ =>
    have := reads_u32 (UInt32.ofNat (((x.toNat * 256 + y.toNat) * 65536) + (z.toNat * 256 + t.toNat))) prof r
    rw [u32_of_four] at this
    exact this

theorem u32At_lt (b : Bytes) (i : Nat) : u32At b i < 4294967296 := by
  unfold u32At
  have h1 := u16At_lt b i
  have h2 := u16At_lt b (i + 2)
  omega

theorem u32At_drop (b : Bytes) (n i : Nat) : u32At (b.drop n) i = u32At b (n + i) := by
  unfold u32At
  rw [u16At_drop, u16At_drop, Nat.add_assoc]

/-- reading a 32-bit number that governs what follows -/
theorem Takes.u32 {β : Type} {k : UInt32 → Get β} {f : Nat → Profile → Bytes → Except Panic Nat}
    (hk : ∀ v, Takes (k v) (f v.toNat)) :
    Takes (getU32 >>= k) (fun prof b => needAfter 4 (f (u32At b 0)) prof b) := by
  intro prof b
  simp only [needAfter]
  by_cases h : b.length < 4
  · rw [if_pos h, M.bind_run, fixed_u32.run_short prof h]
  · rw [if_neg h, M.bind_run, getU32_at prof b (by omega)]
    have := hk (UInt32.ofNat (u32At b 0)) prof (b.drop 4)
    rw [UInt32.toNat_ofNat_of_lt' (by simpa [UInt32.size] using u32At_lt b 0)] at this
    cases hf : f (u32At b 0) prof (b.drop 4) with
    | error e => rw [hf] at this; exact this
    | ok n =>
      rw [hf] at this
      obtain ⟨h1, x, hx⟩ := this
      rw [List.length_drop] at h1
      refine ⟨by omega, x, ?_⟩
      simp only [hx, List.drop_drop]

theorem RecordSpecification.takes : Takes RecordSpecification.deserialize
    (fun prof b => needAfter 4 (fun prof c => recordSetOctets prof.overflowChecks (u32At b 0) c) prof b) :=
  Takes.u32 (f := fun n prof c => recordSetOctets prof.overflowChecks n c)
    fun v => Takes.map (rse_takes v.toNat) _

theorem StandardVariableSpecification.takes : Takes StandardVariableSpecification.deserializeField
    (fun prof b => needAfter 2 (svrNeed (u16At b 0)) prof b) :=
  Takes.u16 (f := svrNeed) fun v => Takes.map (svr_takes v.toNat) _

/-- from the whole message's point of view -/
theorem needAfter_pre {f : Profile → Bytes → Except Panic Nat} {m : Nat} {prof : Profile} {b : Bytes} :
    (b.length < m → needAfter m f prof b = .error .bufferUnderflow) ∧
    (m ≤ b.length → needAfter m f prof b = match f prof (b.drop m) with
      | .error e => .error e
      | .ok n => .ok (m + n)) := by
  unfold needAfter
  exact ⟨fun h => if_pos h, fun h => if_neg (by omega)⟩

theorem TransferOwnershipPdu.takes : Takes TransferOwnershipPdu.deserializeBody
    (needAfter 24 fun prof b =>
      needAfter 4 (fun prof c => recordSetOctets prof.overflowChecks (u32At b 0) c) prof b) :=
  Takes.congr (
    Takes.bind FixedDec.fixed fun _ =>
    Takes.bind FixedDec.fixed fun _ =>
    Takes.bind FixedDec.fixed fun _ =>
    Takes.bind FixedDec.fixed fun _ =>
    Takes.bind FixedDec.fixed fun _ =>
    Takes.bind FixedDec.fixed fun _ =>
    Takes.map RecordSpecification.takes _) (by
    simp only [needAfter_add])

theorem SetRecordReliablePdu.takes : Takes SetRecordReliablePdu.deserializeBody
    (needAfter 24 fun prof b =>
      needAfter 4 (fun prof c => recordSetOctets prof.overflowChecks (u32At b 0) c) prof b) :=
  Takes.congr (
    Takes.bind FixedDec.fixed fun _ =>
    Takes.bind FixedDec.fixed fun _ =>
    Takes.bind FixedDec.fixed fun _ =>
    Takes.bind FixedDec.fixed fun _ =>
    Takes.bind FixedDec.fixed fun _ =>
    Takes.bind FixedDec.fixed fun _ =>
    Takes.bind FixedDec.fixed fun _ =>
    Takes.map RecordSpecification.takes _) (by
    simp only [needAfter_add])

theorem InformationOperationsReportPdu.takes : Takes InformationOperationsReportPdu.deserializeBody
    (needAfter 26 fun prof b => needAfter 2 (svrNeed (u16At b 0)) prof b) :=
  Takes.congr (
    Takes.bind FixedDec.fixed fun _ =>
    Takes.bind FixedDec.fixed fun _ =>
    Takes.bind FixedDec.fixed fun _ =>
    Takes.bind FixedDec.fixed fun _ =>
    Takes.bind FixedDec.fixed fun _ =>
    Takes.bind FixedDec.fixed fun _ =>
    Takes.bind FixedDec.fixed fun _ =>
    Takes.bind FixedDec.fixed fun _ =>
    Takes.map StandardVariableSpecification.takes _) (by
    simp only [needAfter_add])

theorem InformationOperationsActionPdu.takes : Takes InformationOperationsActionPdu.deserializeBody
    (needAfter 42 fun prof b => needAfter 2 (svrNeed (u16At b 0)) prof b) :=
  Takes.congr (
    Takes.bind FixedDec.fixed fun _ =>
    Takes.bind FixedDec.fixed fun _ =>
    Takes.bind FixedDec.fixed fun _ =>
    Takes.bind FixedDec.fixed fun _ =>
    Takes.bind FixedDec.fixed fun _ =>
    Takes.bind FixedDec.fixed fun _ =>
    Takes.bind FixedDec.fixed fun _ =>
    Takes.bind FixedDec.fixed fun _ =>
    Takes.bind FixedDec.fixed fun _ =>
    Takes.bind FixedDec.fixed fun _ =>
    Takes.bind FixedDec.fixed fun _ =>
    Takes.map StandardVariableSpecification.takes _) (by
    simp only [needAfter_add])

theorem TransmitterPdu.takes : Takes TransmitterPdu.deserializeBody
    (needAfter 88 fun prof b => needAfter 1 (needAfter 3 fun _ c =>
      if c.length < (b.getD 0 0).toNat then .error .bufferUnderflow else .ok (b.getD 0 0).toNat) prof b) :=
  Takes.congr (
    Takes.bind FixedDec.fixed fun _ =>
    Takes.bind FixedDec.fixed fun _ =>
    Takes.bind FixedDec.fixed fun _ =>
    Takes.bind FixedDec.fixed fun _ =>
    Takes.bind FixedDec.fixed fun _ =>
    Takes.bind FixedDec.fixed fun _ =>
    Takes.bind FixedDec.fixed fun _ =>
    Takes.bind FixedDec.fixed fun _ =>
    Takes.bind FixedDec.fixed fun _ =>
    Takes.bind FixedDec.fixed fun _ =>
    Takes.bind FixedDec.fixed fun _ =>
    Takes.bind FixedDec.fixed fun _ =>
    Takes.bind FixedDec.fixed fun _ =>
    Takes.bind FixedDec.fixed fun _ =>
    Takes.bind FixedDec.fixed fun _ =>
    Takes.bind FixedDec.fixed fun _ =>
    Takes.u8 (f := fun n => needAfter 3 fun _ c => if c.length < n then .error .bufferUnderflow else .ok n)
    fun n => Takes.congr (
    Takes.bind FixedDec.fixed fun _ =>
    Takes.bind FixedDec.fixed fun _ =>
    Takes.then (Takes.fixed (ModulationParameters.fixed_opt n.toNat_lt)) _ fun m => ⟨_, fun _ _ => rfl⟩)
      (needAfter_add _ _ _)) (by
    simp only [needAfter_add])

/-- what a whole message of a kind needs, given what its body needs -/
theorem Pdu.takes {k : PduKind} {f} (hf : Takes (PduBody.deserializeBody : Get k.Body) f) (prof : Profile)
    (b : Bytes) (hh : 12 ≤ b.length) (ht : (b.getD 2 0).toNat = k.typeCode) :
    match f prof (b.drop 12) with
    | .error e => (Pdu.deserialize : Get (Except DISError (Pdu k.Body))) prof b = .error e
    | .ok n => 12 + n ≤ b.length ∧
      ∃ p, (Pdu.deserialize : Get (Except DISError (Pdu k.Body))) prof b = .ok (.ok p, b.drop (12 + n)) := by
  obtain ⟨hd, _, h2, h3⟩ := Pdu.deserialize_eq (B := k.Body) prof b hh
  have hty : hd.pdu_type = PduBody.pduType k.Body := by rw [h2]; exact (k.type_test _).mpr ht
  rw [if_neg (by simpa using hty)] at h3
  have := hf prof (b.drop 12)
  cases hn : f prof (b.drop 12) with
  | error e => rw [hn] at this; simp only [h3, this]
  | ok n =>
    rw [hn] at this
    obtain ⟨h4, x, hx⟩ := this
    rw [List.length_drop] at h4
    refine ⟨by omega, ⟨hd, x⟩, ?_⟩
    rw [h3, hx, List.drop_drop]

end Dis
