import Verif.Proofs.Legible
import Verif.Model.Enums.All
/- The names of the variants of each enumeration are different, and of letters, digits and underscores. -/
namespace Dis

/-- a number that stands for the octets of a name; 0 if one of them is not a letter, digit or underscore -/
def nameKey (t : Text) : Nat := t.foldl (fun n b => if n = 0 then 0 else if nameOctet b then n * 256 + b.toNat else 0) 1

/-- a search tree of numbers -/
inductive KeyTree where
  | leaf
  | node (l : KeyTree) (k : Nat) (r : KeyTree)

/-- insertion; `none` if the number is there -/
def KeyTree.insert (k : Nat) : KeyTree → Option KeyTree
  | .leaf => some (.node .leaf k .leaf)
  | .node l m r =>
    bif Nat.blt k m then (l.insert k).map fun l => .node l m r
    else bif Nat.blt m k then (r.insert k).map fun r => .node l m r
    else none

def KeyTree.has (k : Nat) : KeyTree → Prop
  | .leaf => False
  | .node l m r => k = m ∨ l.has k ∨ r.has k

/-- every number is above 1 and new -/
def allNew : List Nat → KeyTree → Bool
  | [], _ => true
  | k :: ks, t =>
    bif Nat.blt 1 k then
      match t.insert k with
      | some t => allNew ks t
      | none => false
    else false

/-- in order -/
def KeyTree.Ordered : KeyTree → Prop
  | .leaf => True
  | .node l m r => l.Ordered ∧ r.Ordered ∧ (∀ k, l.has k → k < m) ∧ ∀ k, r.has k → m < k

theorem KeyTree.insert_has {k : Nat} : ∀ {t t' : KeyTree}, t.insert k = some t' → ∀ m, t'.has m ↔ m = k ∨ t.has m
  | .leaf, t', h, m => by
    simp only [insert, Option.some.injEq] at h
    subst h
    simp [has]
  | .node l n r, t', h, m => by
    unfold insert at h
    cases h1 : Nat.blt k n with
    | true =>
      rw [h1, cond_true] at h
      cases h2 : l.insert k with
      | none => rw [h2] at h; exact nomatch h
      | some l' =>
        rw [h2] at h
        simp only [Option.map_some, Option.some.injEq] at h
        subst h
        simp only [has, insert_has h2 m]
        constructor
        · rintro (h | (h | h) | h) <;> simp [h]
        · rintro (h | h | h | h) <;> simp [h]
    | false =>
      rw [h1, cond_false] at h
      cases h2 : Nat.blt n k with
      | false => rw [h2] at h; exact nomatch h
      | true =>
        rw [h2, cond_true] at h
        cases h3 : r.insert k with
        | none => rw [h3] at h; exact nomatch h
        | some r' =>
          rw [h3] at h
          simp only [Option.map_some, Option.some.injEq] at h
          subst h
          simp only [has, insert_has h3 m]
          constructor
          · rintro (h | h | h | h) <;> simp [h]
          · rintro (h | h | h | h) <;> simp [h]

theorem blt_lt {a b : Nat} (h : Nat.blt a b = true) : a < b := Nat.le_of_ble_eq_true h

theorem KeyTree.insert_ordered {k : Nat} : ∀ {t t' : KeyTree}, t.Ordered → t.insert k = some t' → t'.Ordered ∧ ¬t.has k
  | .leaf, t', _, h => by
    simp only [insert, Option.some.injEq] at h
    subst h
    simp [Ordered, has]
  | .node l n r, t', ho, h => by
    unfold insert at h
    cases h1 : Nat.blt k n with
    | true =>
      rw [h1, cond_true] at h
      cases h2 : l.insert k with
      | none => rw [h2] at h; exact nomatch h
      | some l' =>
        rw [h2] at h
        simp only [Option.map_some, Option.some.injEq] at h
        subst h
        have ih := insert_ordered ho.1 h2
        have hk := blt_lt h1
        refine ⟨⟨ih.1, ho.2.1, fun m hm => ?_, ho.2.2.2⟩, ?_⟩
        · rcases (insert_has h2 m).mp hm with rfl | hm
          · exact hk
          · exact ho.2.2.1 m hm
        · rintro (h | h | h)
          · omega
          · exact ih.2 h
          · have := ho.2.2.2 k h; omega
    | false =>
      rw [h1, cond_false] at h
      cases h2 : Nat.blt n k with
      | false => rw [h2] at h; exact nomatch h
      | true =>
        rw [h2, cond_true] at h
        cases h3 : r.insert k with
        | none => rw [h3] at h; exact nomatch h
        | some r' =>
          rw [h3] at h
          simp only [Option.map_some, Option.some.injEq] at h
          subst h
          have ih := insert_ordered ho.2.1 h3
          have hk := blt_lt h2
          refine ⟨⟨ho.1, ih.1, ho.2.2.1, fun m hm => ?_⟩, ?_⟩
          · rcases (insert_has h3 m).mp hm with rfl | hm
            · exact hk
            · exact ho.2.2.2 m hm
          · rintro (h | h | h)
            · omega
            · have := ho.2.2.1 k h; omega
            · exact ih.2 h

theorem allNew_nodup : ∀ {ks : List Nat} {t : KeyTree}, t.Ordered → allNew ks t = true →
    ks.Nodup ∧ (∀ k ∈ ks, 1 < k) ∧ ∀ k ∈ ks, ¬t.has k
  | [], _, _, _ => ⟨.nil, fun _ h => (nomatch h), fun _ h => (nomatch h)⟩
  | k :: ks, t, ho, h => by
    unfold allNew at h
    cases h1 : Nat.blt 1 k with
    | false => rw [h1] at h; exact nomatch h
    | true =>
      rw [h1, cond_true] at h
      cases h2 : t.insert k with
      | none => rw [h2] at h; exact nomatch h
      | some t' =>
        rw [h2] at h
        have hi := KeyTree.insert_ordered ho h2
        have ih := allNew_nodup hi.1 h
        have hh := KeyTree.insert_has h2
        refine ⟨List.nodup_cons.mpr ⟨fun hm => ih.2.2 k hm ((hh k).mpr (.inl rfl)), ih.1⟩, fun m hm => ?_, fun m hm => ?_⟩
        · rcases List.mem_cons.mp hm with rfl | hm
          · exact blt_lt h1
          · exact ih.2.1 m hm
        · rcases List.mem_cons.mp hm with rfl | hm
          · exact hi.2
          · exact fun e => ih.2.2 m hm ((hh m).mpr (.inr e))

theorem nameKey_zero : ∀ t : Text,
    t.foldl (fun n b => if n = 0 then 0 else if nameOctet b then n * 256 + b.toNat else 0) 0 = 0
  | [] => rfl
  | _ :: t => nameKey_zero t

theorem nameKey_octets : ∀ (t : Text) (n : Nat),
    t.foldl (fun n b => if n = 0 then 0 else if nameOctet b then n * 256 + b.toNat else 0) n ≠ 0 →
      ∀ b ∈ t, nameOctet b = true
  | [], _, _, _, h => nomatch h
  | c :: t, n, h, b, hb => by
    simp only [List.foldl_cons] at h
    by_cases hn : n = 0
    · rw [if_pos hn, nameKey_zero] at h
      exact absurd rfl h
    · rw [if_neg hn] at h
      cases hc : nameOctet c with
      | false =>
        rw [hc] at h
        simp only [Bool.false_eq_true, if_false, nameKey_zero] at h
        exact absurd rfl h
      | true =>
        rcases List.mem_cons.mp hb with rfl | hb
        · exact hc
        · exact nameKey_octets t _ h b hb

/-- the numbers that stand for the names of an enumeration -/
def EnumSpec.nameKeys (s : EnumSpec) : List Nat := s.variants.map fun v => nameKey (strBytes v.1)
/-- the names of an enumeration are fit to be printed: different, not empty, of letters, digits and underscores -/
def EnumSpec.Fit (s : EnumSpec) : Prop := s.nameKeys.Nodup ∧ ∀ k ∈ s.nameKeys, 1 < k
/-- a check of that -/
def EnumSpec.named (s : EnumSpec) : Bool := allNew s.nameKeys .leaf
/-- a check of one of `m` parts of it (for enumerations with many names, to bound the kernel's memory) -/
def EnumSpec.namedPart (s : EnumSpec) (m i : Nat) : Bool := allNew (s.nameKeys.filter fun k => Nat.beq (k % m) i) .leaf

theorem EnumSpec.named.fit {s : EnumSpec} (h : s.named = true) : s.Fit :=
  have h := allNew_nodup (t := .leaf) trivial h
  ⟨h.1, h.2.1⟩

theorem nodup_of_parts {m : Nat} (hm : 0 < m) : ∀ {l : List Nat},
    (∀ i < m, (l.filter fun k => Nat.beq (k % m) i).Nodup) → l.Nodup
  | [], _ => .nil
  | a :: l, h => by
    refine List.nodup_cons.mpr ⟨fun ha => ?_, nodup_of_parts hm fun i hi => ?_⟩
    · have := h (a % m) (Nat.mod_lt _ hm)
      rw [List.filter_cons_of_pos (by simp)] at this
      exact (List.nodup_cons.mp this).1 (List.mem_filter.mpr ⟨ha, by simp⟩)
    · have := h i hi
      rw [List.filter_cons] at this
      split at this
      · exact (List.nodup_cons.mp this).2
      · exact this

theorem EnumSpec.fit_of_parts {s : EnumSpec} {m : Nat} (hm : 0 < m) (h : ∀ i < m, s.namedPart m i = true) : s.Fit :=
  ⟨nodup_of_parts hm fun i hi => (allNew_nodup (t := .leaf) trivial (h i hi)).1,
   fun k hk => (allNew_nodup (t := .leaf) trivial (h (k % m) (Nat.mod_lt _ hm))).2.1 k
     (List.mem_filter.mpr ⟨hk, by simp⟩)⟩

/-- the enumerations from the `a`-th on, from the next `n` and the rest -/
theorem fit_append {l : List EnumSpec} (a n : Nat) (h1 : ∀ s ∈ (l.drop a).take n, s.Fit)
    (h2 : ∀ s ∈ l.drop (a + n), s.Fit) : ∀ s ∈ l.drop a, s.Fit := fun s hs => by
  rw [← List.take_append_drop n (l.drop a), List.drop_drop] at hs
  exact (List.mem_append.mp hs).elim (h1 s) (h2 s)
theorem fit_of_all {l : List EnumSpec} (h : l.all EnumSpec.named = true) : ∀ s ∈ l, s.Fit := fun s hs =>
  EnumSpec.named.fit (List.all_eq_true.mp h s hs)

class Named (s : EnumSpec) : Prop where
  codes : (s.variants.map Prod.snd).Nodup
  names : (s.variants.map fun v => nameKey (strBytes v.1)).Nodup
  words : ∀ v ∈ s.variants, Word (strBytes v.1)

theorem Named.of {s : EnumSpec} (hc : (s.variants.map Prod.snd).Nodup) (h : s.Fit) : Named s := by
  refine ⟨hc, h.1, fun v hv => ?_⟩
  have h1 := h.2 _ (List.mem_map.mpr ⟨v, hv, rfl⟩)
  refine ⟨fun e => ?_, fun b hb => nameOctet_word b (nameKey_octets _ 1 (by unfold nameKey at h1; omega) b hb)⟩
  rw [e] at h1
  exact absurd h1 (by decide)

theorem nodup_map_inj {α β : Type} {f : α → β} : ∀ {l : List α}, (l.map f).Nodup → ∀ {x y : α}, x ∈ l → y ∈ l →
    f x = f y → x = y
  | [], _, _, _, h, _, _ => nomatch h
  | a :: l, hn, x, y, hx, hy, h => by
    rw [List.map_cons, List.nodup_cons] at hn
    rcases List.mem_cons.mp hx with rfl | hx' <;> rcases List.mem_cons.mp hy with rfl | hy'
    · rfl
    · exact absurd (List.mem_map.mpr ⟨y, hy', h.symm⟩) hn.1
    · exact absurd (List.mem_map.mpr ⟨x, hx', h⟩) hn.1
    · exact nodup_map_inj hn.2 hx' hy' h

theorem EnumVal.debug_mem {s : EnumSpec} (x : EnumVal s) : (x.debug, x.code) ∈ s.variants := by
  have hm := x.mem
  unfold EnumSpec.codes at hm
  obtain ⟨v, hv, e⟩ := List.mem_map.mp hm
  unfold EnumVal.debug
  cases hf : s.variants.find? (fun v => v.2 == x.code) with
  | none =>
    have := List.find?_eq_none.mp hf v hv
    simp [e] at this
  | some w =>
    have h1 := List.mem_of_find?_eq_some hf
    have h2 := List.find?_some hf
    simp only [beq_iff_eq] at h2
    rw [← h2]
    exact h1

instance {s : EnumSpec} [h : Named s] : Legible (EnumVal s) := .ofWord
  (fun _ x => h.words _ x.debug_mem) (fun _ _ => rfl)
  (fun _ x y e => EnumVal.ext (by
    have e : strBytes x.debug = strBytes y.debug := e
    have := nodup_map_inj h.names x.debug_mem y.debug_mem (by simp only [e])
    exact (Prod.mk.inj this).2))

end Dis
