import Verif.Spec.UserPdus
import Verif.Proofs.DefinePdu
/-
Facts about `define_pdu!` in terms of the list of fields with their values.
-/
namespace Dis
namespace Fields

theorem list_kinds : (fs : List FieldDef) → (x : Fields fs) → (list fs x).map (·.1) = fs
  | [], _ => rfl
  | f :: fs, x => congrArg (f :: ·) (list_kinds fs x.2)

theorem list_inj : (fs : List FieldDef) → (x y : Fields fs) → list fs x = list fs y → x = y
  | [], _, _, _ => rfl
  | f :: fs, (x, xs), (y, ys), h => by
    have h1 := (List.cons.inj h).1
    have h2 := list_inj fs xs ys (List.cons.inj h).2
    rw [h2]
    have h3 : x = y := by
      have := Sigma.mk.inj h1
      exact eq_of_heq this.2
    rw [h3]

theorem len_list : (fs : List FieldDef) → (x : Fields fs) → len fs x = ((list fs x).map FieldValue.claims).sum
  | [], _ => rfl
  | f :: fs, x => by
    show f.type.len x.1 + len fs x.2 = _
    rw [len_list fs x.2]; rfl

/-- The assignment that one field makes. -/
def countOf : FieldValue → Option (Nat × UInt8)
  | ⟨.counted t _ ref, v⟩ => some (ref, if t.len v < 256 then UInt8.ofNat (t.len v) else 0)
  | _ => none

theorem counts_list : (fs : List FieldDef) → (x : Fields fs) → counts fs x = (list fs x).filterMap countOf
  | [], _ => rfl
  | .byte :: fs, x => counts_list fs x.2
  | .plain _ _ :: fs, x => counts_list fs x.2
  | .counted t d r :: fs, x => by
    show (r, _) :: counts fs x.2 = _
    rw [counts_list fs x.2]; rfl

def IsByte : FieldValue → Prop
  | ⟨.byte, _⟩ => True
  | _ => False

theorem IsByte.eq : (v : FieldValue) → IsByte v → ∃ b : UInt8, v = ⟨.byte, b⟩
  | ⟨.byte, b⟩, _ => ⟨b, rfl⟩
  | ⟨.plain _ _, _⟩, h => h.elim
  | ⟨.counted _ _ _, _⟩, h => h.elim

theorem IsByte.of_kind (v : FieldValue) (h : v.1 = .byte) : IsByte v := by
  obtain ⟨f, x⟩ := v
  dsimp only at h
  subst h
  trivial

theorem setByte_other : (fs : List FieldDef) → (x : Fields fs) → (i : Nat) → (n : UInt8) → (j : Nat) → j ≠ i →
    (list fs (setByte fs i n x))[j]? = (list fs x)[j]?
  | [], _, _, _, _, _ => rfl
  | .byte :: _, _, 0, _, 0, h => absurd rfl h
  | .byte :: _, _, 0, _, _ + 1, _ => rfl
  | .plain _ _ :: _, _, 0, _, _, _ => rfl
  | .counted _ _ _ :: _, _, 0, _, _, _ => rfl
  | .byte :: _, _, _ + 1, _, 0, _ => rfl
  | .plain _ _ :: _, _, _ + 1, _, 0, _ => rfl
  | .counted _ _ _ :: _, _, _ + 1, _, 0, _ => rfl
  | .byte :: fs, x, i + 1, n, j + 1, h => setByte_other fs x.2 i n j (by omega)
  | .plain _ _ :: fs, x, i + 1, n, j + 1, h => setByte_other fs x.2 i n j (by omega)
  | .counted _ _ _ :: fs, x, i + 1, n, j + 1, h => setByte_other fs x.2 i n j (by omega)

theorem setByte_hit : (fs : List FieldDef) → (x : Fields fs) → (i : Nat) → (n : UInt8) → (v : FieldValue) →
    (list fs x)[i]? = some v → IsByte v → (list fs (setByte fs i n x))[i]? = some ⟨.byte, n⟩
  | [], _, _, _, _, h, _ => nomatch h
  | .byte :: _, _, 0, _, _, _, _ => rfl
  | .plain _ _ :: _, _, 0, _, _, h, hb => by cases h; exact hb.elim
  | .counted _ _ _ :: _, _, 0, _, _, h, hb => by cases h; exact hb.elim
  | .byte :: fs, x, i + 1, n, v, h, hb => setByte_hit fs x.2 i n v h hb
  | .plain _ _ :: fs, x, i + 1, n, v, h, hb => setByte_hit fs x.2 i n v h hb
  | .counted _ _ _ :: fs, x, i + 1, n, v, h, hb => setByte_hit fs x.2 i n v h hb

theorem setByte_miss : (fs : List FieldDef) → (x : Fields fs) → (i : Nat) → (n : UInt8) → (v : FieldValue) →
    (list fs x)[i]? = some v → ¬ IsByte v → (list fs (setByte fs i n x))[i]? = some v
  | [], _, _, _, _, h, _ => nomatch h
  | .byte :: _, _, 0, _, _, h, hb => by cases h; exact absurd trivial hb
  | .plain _ _ :: _, _, 0, _, _, h, _ => h
  | .counted _ _ _ :: _, _, 0, _, _, h, _ => h
  | .byte :: fs, x, i + 1, n, v, h, hb => setByte_miss fs x.2 i n v h hb
  | .plain _ _ :: fs, x, i + 1, n, v, h, hb => setByte_miss fs x.2 i n v h hb
  | .counted _ _ _ :: fs, x, i + 1, n, v, h, hb => setByte_miss fs x.2 i n v h hb

/-- Carrying out assignments. -/
def assign (fs : List FieldDef) (cs : List (Nat × UInt8)) (x : Fields fs) : Fields fs :=
  cs.foldl (fun y a => setByte fs a.1 a.2 y) x

theorem prep_eq (fs : List FieldDef) (x : Fields fs) : prep fs x = assign fs (counts fs x) x := rfl

theorem list_length (fs : List FieldDef) (x : Fields fs) : (list fs x).length = fs.length := by
  have := congrArg List.length (list_kinds fs x)
  rwa [List.length_map] at this

theorem assign_miss (fs : List FieldDef) (j : Nat) (v : FieldValue) (hb : ¬ IsByte v) :
    (cs : List (Nat × UInt8)) → (x : Fields fs) → (list fs x)[j]? = some v → (list fs (assign fs cs x))[j]? = some v
  | [], _, h => h
  | c :: cs, x, h => by
    refine assign_miss fs j v hb cs (setByte fs c.1 c.2 x) ?_
    by_cases hj : j = c.1
    · subst hj; exact setByte_miss fs x _ _ v h hb
    · rw [setByte_other fs x _ _ _ hj]; exact h

theorem assign_other (fs : List FieldDef) (j : Nat) :
    (cs : List (Nat × UInt8)) → (x : Fields fs) → (∀ c ∈ cs, c.1 ≠ j) →
      (list fs (assign fs cs x))[j]? = (list fs x)[j]?
  | [], _, _ => rfl
  | c :: cs, x, h => by
    refine (assign_other fs j cs (setByte fs c.1 c.2 x) fun c' hc => h c' (.tail _ hc)).trans ?_
    exact setByte_other fs x _ _ _ (h c (.head _)).symm

theorem assign_byte (fs : List FieldDef) (j : Nat) :
    (cs : List (Nat × UInt8)) → (x : Fields fs) → (v : FieldValue) → (list fs x)[j]? = some v → IsByte v →
      ∃ b : UInt8, (list fs (assign fs cs x))[j]? = some ⟨.byte, b⟩
  | [], _, v, h, hb => by
    obtain ⟨b, rfl⟩ := IsByte.eq v hb
    exact ⟨b, h⟩
  | c :: cs, x, v, h, hb => by
    by_cases hj : j = c.1
    · subst hj
      exact assign_byte fs _ cs (setByte fs c.1 c.2 x) ⟨.byte, c.2⟩ (setByte_hit fs x _ _ v h hb) trivial
    · exact assign_byte fs _ cs (setByte fs c.1 c.2 x) v (by rw [setByte_other fs x _ _ _ hj]; exact h) hb

theorem assign_append (fs : List FieldDef) (cs ds : List (Nat × UInt8)) (x : Fields fs) :
    assign fs (cs ++ ds) x = assign fs ds (assign fs cs x) := List.foldl_append ..

theorem assign_last (fs : List FieldDef) (j : Nat) (n : UInt8) (cs ds : List (Nat × UInt8)) (x : Fields fs)
    (v : FieldValue) (h : (list fs x)[j]? = some v) (hb : IsByte v) (hd : ∀ c ∈ ds, c.1 ≠ j) :
    (list fs (assign fs (cs ++ (j, n) :: ds) x))[j]? = some ⟨.byte, n⟩ := by
  rw [assign_append]
  obtain ⟨b, hb'⟩ := assign_byte fs j cs x v h hb
  refine (assign_other fs j ds (setByte fs j n (assign fs cs x)) hd).trans ?_
  exact setByte_hit fs _ j n _ hb' trivial

/-- A list of assignments either does not touch position `j`, or one of them is the last to do so. -/
theorem last_assignment (j : Nat) : (cs : List (Nat × UInt8)) →
    (∀ c ∈ cs, c.1 ≠ j) ∨ ∃ n as bs, cs = as ++ (j, n) :: bs ∧ ∀ c ∈ bs, c.1 ≠ j
  | [] => .inl fun _ h => nomatch h
  | c :: cs => by
    rcases last_assignment j cs with h | ⟨n, as, bs, rfl, h⟩
    · by_cases hc : c.1 = j
      · exact .inr ⟨c.2, [], cs, by rw [← hc]; rfl, h⟩
      · exact .inl fun c' hm => by
          cases hm with
          | head => exact hc
          | tail _ hm => exact h c' hm
    · exact .inr ⟨n, c :: as, bs, rfl, h⟩

theorem prep_miss (fs : List FieldDef) (x : Fields fs) (j : Nat) (v : FieldValue) (h : (list fs x)[j]? = some v)
    (hb : ¬ IsByte v) : (list fs (prep fs x))[j]? = some v := assign_miss fs j v hb _ x h

/-- Two values with the same fields but for the octets. -/
theorem countOf_congr {L L' : List FieldValue} (hl : L'.length = L.length)
    (h : ∀ (j : Nat) (v : FieldValue), L[j]? = some v → ¬ IsByte v → L'[j]? = some v)
    (hb : ∀ (j : Nat) (v : FieldValue), L[j]? = some v → IsByte v → ∃ b : UInt8, L'[j]? = some ⟨.byte, b⟩) :
    L'.filterMap countOf = L.filterMap countOf ∧ L'.map FieldValue.claims = L.map FieldValue.claims := by
  induction L generalizing L' with
  | nil => cases L' with
    | nil => exact ⟨rfl, rfl⟩
    | cons v L' => exact absurd hl (by simp)
  | cons w L ih => cases L' with
    | nil => exact absurd hl (by simp)
    | cons w' L' =>
      have ih := ih (L' := L') (by simpa using hl) (fun j v => h (j + 1) v) (fun j v => hb (j + 1) v)
      by_cases hw : IsByte w
      · obtain ⟨b, hz⟩ := hb 0 w rfl hw
        obtain ⟨c, rfl⟩ := IsByte.eq w hw
        cases hz
        refine ⟨ih.1, ?_⟩
        rw [List.map_cons, List.map_cons, ih.2]; rfl
      · have := h 0 w rfl hw
        cases this
        refine ⟨?_, ?_⟩
        · rw [List.filterMap_cons, List.filterMap_cons, ih.1]
        · rw [List.map_cons, List.map_cons, ih.2]

theorem prep_same (fs : List FieldDef) (x : Fields fs) :
    counts fs (prep fs x) = counts fs x ∧ len fs (prep fs x) = len fs x := by
  have := countOf_congr (L := list fs x) (L' := list fs (prep fs x)) (by rw [list_length, list_length])
    (fun j v h hb => prep_miss fs x j v h hb) (fun j v h hb => assign_byte fs j _ x v h hb)
  rw [counts_list, counts_list, len_list, len_list, this.1, this.2]
  exact ⟨rfl, rfl⟩

theorem prep_prep (fs : List FieldDef) (x : Fields fs) : prep fs (prep fs x) = prep fs x := by
  apply list_inj
  apply List.ext_getElem?
  intro j
  rw [prep_eq fs (prep fs x), (prep_same fs x).1]
  rcases last_assignment j (counts fs x) with h | ⟨n, as, bs, e, h⟩
  · rw [assign_other fs j _ _ h]
  · cases hj : (list fs (prep fs x))[j]? with
    | none =>
      have := List.getElem?_eq_none_iff.mp hj
      rw [list_length] at this
      exact List.getElem?_eq_none_iff.mpr (by rw [list_length]; exact this)
    | some v =>
      by_cases hb : IsByte v
      · cases hx : (list fs x)[j]? with
        | none =>
          have h1 := List.getElem?_eq_none_iff.mp hx
          rw [list_length] at h1
          have h2 := List.getElem?_eq_none_iff.mpr (by rw [list_length]; exact h1 : (list fs (prep fs x)).length ≤ j)
          rw [h2] at hj; cases hj
        | some w =>
          have hw : IsByte w := by
            apply Classical.byContradiction
            intro hw
            have := prep_miss fs x j w hx hw
            rw [hj] at this
            cases this
            exact hw hb
          have h1 : (list fs (prep fs x))[j]? = some ⟨.byte, n⟩ := by
            rw [prep_eq, e]; exact assign_last fs j n as bs x w hx hw h
          rw [h1] at hj; cases hj
          rw [e]
          exact assign_last fs j n as bs _ _ h1 trivial h
      · exact assign_miss fs j v hb _ _ hj

theorem byte_octets (b : UInt8) : FieldValue.octets ⟨.byte, b⟩ = [b] := by
  show beBytes 1 b.toNat = [b]
  unfold beBytes
  simp [beBytes]

theorem byte_tidy : FieldDef.byte.type.Tidy := fun x => by
  refine ⟨fun prof buf => rfl, ?_⟩
  show 1 = (alone (serialize_field x)).length
  have := byte_octets x
  unfold FieldValue.octets at this
  exact (congrArg List.length this).symm

/-- What has been read into the `u8` fields. -/
def byteOf : FieldValue → UInt8
  | ⟨.byte, b⟩ => b
  | _ => 0

/-- The length fields say how long the fields are. -/
def Filled (L : List FieldValue) : Prop :=
  ∀ (i ref : Nat) (t : FieldType) (d : Nat → Get t.T) (x : t.T), L[i]? = some ⟨.counted t d ref, x⟩ →
    L[ref]? = some ⟨.byte, UInt8.ofNat (alone (t.ser x)).length⟩

theorem de_unread : (fs : List FieldDef) → (seen : List UInt8) → (∀ f ∈ fs, f.Unread) →
    ∀ prof b, de fs seen prof b = .ok (default fs, b)
  | [], _, _ => fun _ _ => rfl
  | .byte :: _, _, h => (h _ (.head _)).elim
  | .counted _ _ _ :: _, _, h => (h _ (.head _)).elim
  | .plain t d :: fs, seen, h => fun prof b => by
    have hd : d = pure t.dflt := h _ (.head _)
    unfold de
    rw [M.bind_run, hd, M.pure_run]
    dsimp only
    rw [M.bind_run, de_unread fs (seen ++ [0]) (fun f hf => h f (.tail _ hf)) prof b]
    rfl

theorem default_at : (fs : List FieldDef) → (x : Fields fs) → (i : Nat) → (v : FieldValue) →
    (list fs x)[i]? = some v → (list fs (default fs))[i]? = some ⟨v.1, v.1.type.dflt⟩
  | [], _, _, _, h => nomatch h
  | f :: fs, x, 0, v, h => by cases h; rfl
  | f :: fs, x, i + 1, v, h => default_at fs x.2 i v h

theorem list_unread (fs : List FieldDef) (x : Fields fs)
    (h : ∀ (i : Nat) (v : FieldValue), (list fs x)[i]? = some v → v.1.Unread) : ∀ f ∈ fs, f.Unread := by
  intro f hf
  rw [← list_kinds fs x] at hf
  obtain ⟨v, hv, rfl⟩ := List.mem_map.mp hf
  obtain ⟨i, hi⟩ := List.mem_iff_getElem?.mp hv
  exact h i v hi

theorem scoped_tail (above : List FieldDef) (f : FieldDef) (fs : List FieldDef) (h : Scoped above (f :: fs)) :
    Scoped (above ++ [f]) fs := by
  cases f with
  | byte => exact h
  | plain t d => exact h
  | counted t d r => exact h.2

theorem de_reads : (fs : List FieldDef) → (x : Fields fs) → (A : List FieldValue) → (k : Nat) →
    Scoped (A.map (·.1)) fs → Filled (A ++ list fs x) →
    (∀ (i : Nat) (v : FieldValue), (list fs x)[i]? = some v → (i < k → v.ReadBack) ∧ (k ≤ i → v.1.Unread)) →
    ∃ y : Fields fs,
      (∀ prof rest, de fs (A.map byteOf) prof ((list fs x).flatMap FieldValue.octets ++ rest) =
        .ok (y, ((list fs x).drop k).flatMap FieldValue.octets ++ rest)) ∧
      (∀ (i : Nat) (v : FieldValue), (list fs x)[i]? = some v →
        (i < k → (list fs y)[i]? = some v) ∧ (k ≤ i → (list fs y)[i]? = some ⟨v.1, v.1.type.dflt⟩))
  | [], x, _, k, _, _, _ => ⟨(), fun _ _ => by cases k <;> rfl, fun _ _ h => nomatch h⟩
  | f :: fs, x, A, 0, _, _, hr => by
    have hu := list_unread (f :: fs) x fun i v h => (hr i v h).2 (Nat.zero_le _)
    exact ⟨default (f :: fs), fun prof rest => de_unread _ _ hu prof _,
      fun i v h => ⟨fun h => absurd h (by omega), fun _ => default_at _ _ _ _ h⟩⟩
  | f :: fs, x, A, k + 1, hs, hf, hr => by
    have hf' : Filled ((A ++ [⟨f, x.1⟩]) ++ list fs x.2) := by
      rw [List.append_assoc]; exact hf
    have hs' : Scoped ((A ++ [(⟨f, x.1⟩ : FieldValue)]).map (·.1)) fs := by
      rw [List.map_append]; exact scoped_tail _ f fs hs
    obtain ⟨y, hy, hl⟩ := de_reads fs x.2 (A ++ [⟨f, x.1⟩]) k hs' hf' fun i v h => by
      have := hr (i + 1) v h
      exact ⟨fun hi => this.1 (by omega), fun hi => this.2 (by omega)⟩
    have h0 := (hr 0 ⟨f, x.1⟩ rfl).1 (by omega)
    refine ⟨(x.1, y), fun prof rest => ?_, ?_⟩
    · have hw : (list (f :: fs) x).flatMap FieldValue.octets ++ rest =
          FieldValue.octets ⟨f, x.1⟩ ++ ((list fs x.2).flatMap FieldValue.octets ++ rest) := by
        show (⟨f, x.1⟩ :: list fs x.2).flatMap FieldValue.octets ++ rest = _
        rw [List.flatMap_cons, List.append_assoc]
      rw [hw]
      have hd : (list (f :: fs) x).drop (k + 1) = (list fs x.2).drop k := rfl
      rw [hd]
      have hy := hy prof rest
      rw [List.map_append] at hy
      cases f with
      | byte =>
        unfold de
        rw [M.bind_run]
        have h1 : (deserialize_field : Get UInt8) prof (FieldValue.octets ⟨.byte, x.1⟩ ++
            ((list fs x.2).flatMap FieldValue.octets ++ rest)) =
            .ok (x.1, (list fs x.2).flatMap FieldValue.octets ++ rest) := by
          have e : FieldValue.octets ⟨.byte, x.1⟩ = wire (show UInt8 from x.1) := by
            rw [byte_octets]; simp [wire, Dis.octets, List.range_succ]
          rw [e]
          exact reads_u8 x.1 prof _
        rw [h1]
        dsimp only
        rw [M.bind_run]
        have h2 : List.map byteOf [(⟨.byte, x.1⟩ : FieldValue)] = [x.1] := rfl
        rw [h2] at hy
        rw [hy]
        rfl
      | plain t d =>
        unfold de
        rw [M.bind_run]
        have h1 : d prof (FieldValue.octets ⟨.plain t d, x.1⟩ ++
            ((list fs x.2).flatMap FieldValue.octets ++ rest)) =
            .ok (x.1, (list fs x.2).flatMap FieldValue.octets ++ rest) := h0 prof _
        rw [h1]
        dsimp only
        rw [M.bind_run]
        have h2 : List.map byteOf [(⟨.plain t d, x.1⟩ : FieldValue)] = [0] := rfl
        rw [h2] at hy
        rw [hy]
        rfl
      | counted t d ref =>
        unfold de
        rw [M.bind_run]
        have hc : ((A.map byteOf).getD ref 0).toNat = (alone (t.ser x.1)).length := by
          have h3 := hf A.length ref t d x.1 (by rw [List.getElem?_append_right (Nat.le_refl _)]; simp [list])
          have h4 : (A.map (·.1))[ref]? = some FieldDef.byte := hs.1
          have h5 : ref < A.length := by
            rcases Nat.lt_or_ge ref A.length with h | h
            · exact h
            · rw [List.getElem?_eq_none (by rw [List.length_map]; exact h)] at h4; cases h4
          rw [List.getElem?_append_left h5] at h3
          rw [List.getD_eq_getElem?_getD, List.getElem?_map, h3]
          show (UInt8.ofNat _).toNat = _
          have := h0.1
          rw [UInt8.toNat_ofNat']
          omega
        rw [hc]
        have h1 : d (alone (t.ser x.1)).length prof (FieldValue.octets ⟨.counted t d ref, x.1⟩ ++
            ((list fs x.2).flatMap FieldValue.octets ++ rest)) =
            .ok (x.1, (list fs x.2).flatMap FieldValue.octets ++ rest) := h0.2 prof _
        rw [h1]
        dsimp only
        rw [M.bind_run]
        have h2 : List.map byteOf [(⟨.counted t d ref, x.1⟩ : FieldValue)] = [0] := rfl
        rw [h2] at hy
        rw [hy]
        rfl
    · intro i v h
      cases i with
      | zero => exact ⟨fun _ => h, fun h => absurd h (by omega)⟩
      | succ i =>
        have := hl i v h
        exact ⟨fun hi => this.1 (by omega), fun hi => this.2 (by omega)⟩

theorem ser_tidy : (fs : List FieldDef) → (x : Fields fs) → (∀ f ∈ fs, f.type.Tidy) → ∀ prof buf,
    ser fs x prof buf = .ok ((), buf ++ (list fs x).flatMap FieldValue.octets)
  | [], _, _, _, buf => by
    show Except.ok ((), buf) = _
    rw [show (list [] ()).flatMap FieldValue.octets = [] from rfl, List.append_nil]
  | f :: fs, x, h, prof, buf => by
    unfold ser
    rw [M.bind_run, (h f (.head _) x.1).1 prof buf]
    dsimp only
    rw [ser_tidy fs x.2 (fun g hg => h g (.tail _ hg))]
    show _ = Except.ok ((), buf ++ (⟨f, x.1⟩ :: list fs x.2).flatMap FieldValue.octets)
    rw [List.flatMap_cons, ← List.append_assoc]
    rfl

theorem len_tidy : (fs : List FieldDef) → (x : Fields fs) → (∀ f ∈ fs, f.type.Tidy) →
    len fs x = ((list fs x).flatMap FieldValue.octets).length
  | [], _, _ => rfl
  | f :: fs, x, h => by
    show f.type.len x.1 + len fs x.2 = ((⟨f, x.1⟩ :: list fs x.2).flatMap FieldValue.octets).length
    rw [len_tidy fs x.2 (fun g hg => h g (.tail _ hg)), (h f (.head _) x.1).2, List.flatMap_cons, List.length_append]
    rfl

/-- The value of a length field after the assignments: that of the last field that names it. -/
theorem prep_counted (fs : List FieldDef) (x : Fields fs) (i ref : Nat) (t : FieldType) (d : Nat → Get t.T) (v : t.T)
    (hi : (list fs x)[i]? = some ⟨.counted t d ref, v⟩)
    (hlast : ∀ (j : Nat) (u : FieldType) (e : Nat → Get u.T), i < j → fs[j]? ≠ some (.counted u e ref))
    (w : FieldValue) (hw : (list fs x)[ref]? = some w) (hb : IsByte w) :
    (list fs (prep fs x))[ref]? = some ⟨.byte, if t.len v < 256 then UInt8.ofNat (t.len v) else 0⟩ := by
  rw [prep_eq, counts_list]
  have hsplit : list fs x = (list fs x).take i ++ ⟨.counted t d ref, v⟩ :: (list fs x).drop (i + 1) := by
    have hlt : i < (list fs x).length := by
      rcases Nat.lt_or_ge i (list fs x).length with h | h
      · exact h
      · rw [List.getElem?_eq_none h] at hi; cases hi
    rw [List.getElem?_eq_getElem hlt] at hi
    have := List.take_append_drop i (list fs x)
    rw [List.drop_eq_getElem_cons hlt, Option.some.inj hi] at this
    exact this.symm
  have hfm := congrArg (List.filterMap countOf) hsplit
  rw [List.filterMap_append, List.filterMap_cons] at hfm
  rw [hfm]
  refine assign_last fs ref _ _ _ x w hw hb ?_
  intro c hc hcr
  obtain ⟨u, hu, hcu⟩ := List.mem_filterMap.mp hc
  obtain ⟨j, hj⟩ := List.mem_iff_getElem?.mp hu
  rw [List.getElem?_drop] at hj
  have hk : fs[i + 1 + j]? = some u.1 := by
    have := congrArg (·[i + 1 + j]?) (list_kinds fs x)
    rw [List.getElem?_map, hj] at this
    exact this.symm
  obtain ⟨g, z⟩ := u
  cases g with
  | byte => cases hcu
  | plain _ _ => cases hcu
  | counted t' e r =>
    cases hcu
    dsimp only at hcr
    subst hcr
    exact hlast (i + 1 + j) t' e (by omega) hk

/-- Fields that are not named as length fields keep their values. -/
theorem prep_unnamed (fs : List FieldDef) (x : Fields fs) (j : Nat)
    (h : ∀ (i : Nat) (u : FieldType) (e : Nat → Get u.T), fs[i]? ≠ some (.counted u e j)) :
    (list fs (prep fs x))[j]? = (list fs x)[j]? := by
  rw [prep_eq, counts_list]
  refine assign_other fs j _ x ?_
  intro c hc hcr
  obtain ⟨u, hu, hcu⟩ := List.mem_filterMap.mp hc
  obtain ⟨i, hi⟩ := List.mem_iff_getElem?.mp hu
  have hk : fs[i]? = some u.1 := by
    have := congrArg (·[i]?) (list_kinds fs x)
    rw [List.getElem?_map, hi] at this
    exact this.symm
  obtain ⟨g, z⟩ := u
  cases g with
  | byte => cases hcu
  | plain _ _ => cases hcu
  | counted t' e r =>
    cases hcu
    dsimp only at hcr
    subst hcr
    exact h i t' e hk

theorem scoped_ref : (fs above : List FieldDef) → Scoped above fs → ∀ (i ref : Nat) (t : FieldType) (d : Nat → Get t.T),
    fs[i]? = some (.counted t d ref) → ref < above.length + i ∧ (above ++ fs)[ref]? = some .byte
  | [], _, _, _, _, _, _, h => nomatch h
  | f :: fs, above, hs, i + 1, ref, t, d, h => by
    have := scoped_ref fs (above ++ [f]) (scoped_tail above f fs hs) i ref t d h
    rw [List.append_assoc] at this
    refine ⟨?_, this.2⟩
    have h1 := this.1
    rw [List.length_append] at h1
    simp only [List.length_cons, List.length_nil] at h1
    omega
  | f :: fs, above, hs, 0, ref, t, d, h => by
    cases h
    have h1 : above[ref]? = some FieldDef.byte := hs.1
    have h2 : ref < above.length := by
      rcases Nat.lt_or_ge ref above.length with h | h
      · exact h
      · rw [List.getElem?_eq_none h] at h1; cases h1
    exact ⟨by omega, by rw [List.getElem?_append_left h2]; exact h1⟩

/-- The field at a position that is declared `u8` holds an octet. -/
theorem byte_at (fs : List FieldDef) (x : Fields fs) (j : Nat) (h : fs[j]? = some .byte) :
    ∃ w, (list fs x)[j]? = some w ∧ IsByte w := by
  have := congrArg (·[j]?) (list_kinds fs x)
  rw [List.getElem?_map, h] at this
  cases hw : (list fs x)[j]? with
  | none => rw [hw] at this; cases this
  | some w =>
    rw [hw] at this
    exact ⟨w, rfl, IsByte.of_kind w (Option.some.inj this)⟩

end Fields
end Dis
