import Verif.Spec.Elements
import Verif.Proofs.LayoutHeads
/-
Positions of list elements.
-/
namespace Dis

/-- Element `i` of `l` is laid out from octet `pos i` of `w` on. -/
def ItemsAt {α : Type} (S : List (Slot α)) (l : List α) (w : Bytes) (pos : Nat → Nat) : Prop :=
  ∀ i (h : i < l.length), Written S l[i] (w.drop (pos i))

theorem ItemsAt.skip {α : Type} {S : List (Slot α)} {l : List α} {w A : Bytes} {pos : Nat → Nat} {a : Nat}
    (hA : A.length = a) (h : ItemsAt S l w pos) : ItemsAt S l (A ++ w) (fun i => a + pos i) := by
  intro i hi
  have := h i hi
  show Written S l[i] ((A ++ w).drop (a + pos i))
  rw [← hA, List.drop_append, List.drop_eq_nil_of_le (by omega), List.nil_append]
  rwa [show A.length + pos i - A.length = pos i by omega]

theorem ItemsAt.at {α : Type} {S : List (Slot α)} {l : List α} {w : Bytes} {pos pos' : Nat → Nat}
    (h : ItemsAt S l w pos) (e : ∀ i, pos i = pos' i) : ItemsAt S l w pos' := by
  intro i hi
  rw [← e]; exact h i hi

/-- Elements of varying length. -/
theorem ItemsAt.vary {α : Type} {S : List (Slot α)} {enc : α → Bytes} {size : α → Nat}
    (hn : ∀ e, (enc e).length = size e) (hw : ∀ e, Written S e (enc e)) (r : Bytes) :
    ∀ l : List α, ItemsAt S l (l.flatMap enc ++ r) (fun i => ((l.take i).map size).sum)
  | [] => fun _ h => nomatch h
  | e :: l => by
    intro i hi
    cases i with
    | zero =>
      show Written S e (((e :: l).flatMap enc ++ r).drop 0)
      rw [List.drop_zero, List.flatMap_cons, List.append_assoc]
      exact (hw e).mono _
    | succ i =>
      have hi' : i < l.length := Nat.lt_of_succ_lt_succ hi
      have := ItemsAt.vary hn hw r l i hi'
      show Written S l[i] (((e :: l).flatMap enc ++ r).drop (((e :: l.take i).map size).sum))
      rw [List.flatMap_cons, List.append_assoc, List.map_cons, List.sum_cons, ← hn, List.drop_append,
        List.drop_eq_nil_of_le (by omega), List.nil_append, Nat.add_sub_cancel_left]
      exact this

theorem sum_const {α : Type} (n : Nat) : ∀ l : List α, (l.map (fun _ => n)).sum = n * l.length
  | [] => rfl
  | a :: l => by rw [List.map_cons, List.sum_cons, sum_const n l, List.length_cons, Nat.mul_succ]; omega

/-- Elements of fixed length. -/
theorem ItemsAt.here {α : Type} {S : List (Slot α)} {enc : α → Bytes} {n : Nat} {l : List α} {r : Bytes}
    (hn : ∀ e, (enc e).length = n) (hw : ∀ e, Written S e (enc e)) :
    ItemsAt S l (l.flatMap enc ++ r) (fun i => n * i) := by
  intro i hi
  have := ItemsAt.vary hn hw r l i hi
  simp only [sum_const, List.length_take, Nat.min_eq_left (Nat.le_of_lt hi)] at this
  exact this
theorem ItemsAt.last {α : Type} {S : List (Slot α)} {enc : α → Bytes} {n : Nat} {l : List α}
    (hn : ∀ e, (enc e).length = n) (hw : ∀ e, Written S e (enc e)) :
    ItemsAt S l (l.flatMap enc) (fun i => n * i) := by
  have := ItemsAt.here (l := l) (r := []) hn hw
  rwa [List.append_nil] at this
/-- A single field. -/
theorem ItemsAt.one {α : Type} {S : List (Slot α)} {x : α} {v r : Bytes} (hw : Written S x v) :
    ItemsAt S [x] (v ++ r) (fun _ => 0) := by
  intro i hi
  have : i = 0 := by simpa using hi
  subst this
  exact hw.mono r

theorem flatMap_len {α : Type} {enc : α → Bytes} {n : Nat} (hn : ∀ e, (enc e).length = n) :
    ∀ l : List α, (l.flatMap enc).length = n * l.length
  | [] => rfl
  | e :: l => by rw [List.flatMap_cons, List.length_append, hn, flatMap_len hn l, List.length_cons, Nat.mul_succ]; omega

theorem fill_eq (n : Nat) : ((n + 7) / 8 + 7) / 8 * 8 - (n + 7) / 8 = padOctets n := by
  unfold padOctets; omega

theorem VariableDatumRecord.wire_octets (x : VariableDatumRecord) : (wire (sent x)).length = x.octets := by
  show (Dis.octets 4 _ ++ (Dis.octets 4 _ ++ (x.value.flatMap wire ++ List.replicate _ 0))).length = _
  rw [List.length_append, List.length_append, List.length_append, octets_length, octets_length, flatMap_wire_u8,
    List.length_replicate]
  unfold VariableDatumRecord.octets
  dsimp only
  rw [fill_eq, show (sent x).length_bits = x.length_bits from rfl]; omega

theorem VariableDatumRecord.items (l : List VariableDatumRecord) :
    ItemsAt VariableDatumRecord.layout l (wire (sent l)) (fun i => VariableDatumRecord.octetsOf (l.take i)) := by
  have h := ItemsAt.vary (S := VariableDatumRecord.slots) (enc := fun e => wire (sent e))
    VariableDatumRecord.wire_octets VariableDatumRecord.written [] l
  have e : wire (sent l) = l.flatMap (fun e => wire (sent e)) := by
    show (l.map sent).flatMap wire = _
    rw [List.flatMap_map]
  rw [e]
  rw [List.append_nil] at h
  exact h

end Dis
