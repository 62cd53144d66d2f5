import Verif.Spec.Standard
import Verif.Properties.Message
import Verif.Proofs.ByHand
/-
Reading numbers at given places of a message that is known as a list of fields.
-/
namespace Dis

theorem numberAt_octets (pre post : Bytes) {start width v : Nat} (hs : pre.length = start)
    (hv : v < 256 ^ width) : numberAt (pre ++ (octets width v ++ post)) start width = v := by
  subst hs
  rw [numberAt, List.drop_left, List.take_left' (octets_length width v), bigEndian_eq, octets_eq, beVal_beBytes,
    Nat.mod_eq_of_lt hv]

theorem numbersAt_succ (w : Bytes) (start width n : Nat) :
    numbersAt w start width (n + 1) = numberAt w start width :: numbersAt w (start + width) width n := by
  unfold numbersAt
  rw [List.range_succ_eq_map, List.map_cons, List.map_map, Nat.mul_zero, Nat.add_zero]
  refine congrArg _ (List.map_congr_left fun i _ => ?_)
  show numberAt w (start + width * (i + 1)) width = _
  rw [Nat.mul_add, Nat.mul_one, Nat.add_assoc, Nat.add_comm width]

/-- Numbers of the same width. -/
theorem numbersAt_octets (width : Nat) (post : Bytes) : ∀ (l : List Nat) (pre : Bytes) (start : Nat),
    pre.length = start → (∀ v ∈ l, v < 256 ^ width) →
    numbersAt (pre ++ (Field.octetsOf (l.map (Field.mk width)) ++ post)) start width l.length = l
  | [], _, _, _, _ => rfl
  | v :: l, pre, start, hs, hl => by
    have ih := numbersAt_octets width post l (pre ++ octets width v) (start + width)
      (by rw [List.length_append, octets_length, hs]) fun u hu => hl u (List.mem_cons_of_mem _ hu)
    rw [List.map_cons, octetsOf_cons, List.length_cons, numbersAt_succ, List.append_assoc]
    refine congr (congrArg _ (numberAt_octets pre _ hs (hl v List.mem_cons_self))) ?_
    rw [List.append_assoc] at ih
    exact ih

theorem numbersAt_take (w : Bytes) (start width : Nat) {n m : Nat} (h : n ≤ m) :
    numbersAt w start width n = (numbersAt w start width m).take n := by
  unfold numbersAt
  rw [← List.map_take, List.take_range, Nat.min_eq_left h]

/-- A number in `n + m` octets is one in `n` octets and one in `m`. -/
theorem octets_add (n m v : Nat) : octets (n + m) v = octets n (v / 256 ^ m) ++ octets m (v % 256 ^ m) := by
  rw [octets_eq, octets_eq, octets_eq, beBytes_mod _ _ _ (Nat.le_refl _)]
  induction n with
  | zero => rw [Nat.zero_add]; rfl
  | succ n ih =>
    rw [show n + 1 + m = n + m + 1 by omega, beBytes, beBytes, ih, List.cons_append,
      Nat.div_div_eq_div_mul, ← Nat.pow_add, Nat.add_comm m n]

/-- Octets as fields of one octet. -/
theorem octetsOf_bytes : ∀ w : Bytes, Field.octetsOf ((w.map UInt8.toNat).map (Field.mk 1)) = w
  | [] => rfl
  | c :: w => by
    rw [List.map_cons, List.map_cons, octetsOf_cons, octetsOf_bytes w, octets_eq]
    show [UInt8.ofNat (c.toNat / 256 ^ 0)] ++ w = _
    rw [Nat.pow_zero, Nat.div_one, UInt8.ofNat_toNat]; rfl

theorem pairedUp_length : ∀ l : List Nat, (pairedUp l).length = l.length / 2
  | [] => rfl
  | [_] => by show 0 = 1 / 2; decide
  | a :: b :: l => by
    show (pairedUp l).length + 1 = (l.length + 1 + 1) / 2
    rw [pairedUp_length l]; omega

/-- Pairs of octets read as numbers of two octets. -/
theorem numbersAt_pairs (l : List Nat) (hl : ∀ v ∈ l, v < 256) (pre post : Bytes) (start : Nat)
    (hs : pre.length = start) :
    numbersAt (pre ++ (Field.octetsOf (l.map (Field.mk 1)) ++ post)) start 2 (l.length / 2) = pairedUp l := by
  obtain ⟨h1, r, h2⟩ := key l hl
  rw [h2, ← pairedUp_length, List.append_assoc]
  exact numbersAt_octets 2 (r ++ post) _ pre start hs h1
where
  key : (l : List Nat) → (∀ v ∈ l, v < 256) → (∀ v ∈ pairedUp l, v < 256 ^ 2) ∧
      ∃ r, Field.octetsOf (l.map (Field.mk 1)) = Field.octetsOf ((pairedUp l).map (Field.mk 2)) ++ r
    | [], _ => ⟨fun _ h => (nomatch h), [], rfl⟩
    | [_], _ => ⟨fun _ h => (nomatch h), _, rfl⟩
    | a :: b :: l, hl => by
      have ha := hl a List.mem_cons_self
      have hb := hl b (List.mem_cons_of_mem _ List.mem_cons_self)
      obtain ⟨h1, r, h2⟩ := key l fun v h => hl v (List.mem_cons_of_mem _ (List.mem_cons_of_mem _ h))
      refine ⟨fun v hv => ?_, r, ?_⟩
      · rcases List.mem_cons.mp hv with rfl | hv
        · omega
        · exact h1 v hv
      · show octets 1 a ++ (octets 1 b ++ Field.octetsOf (l.map (Field.mk 1))) =
          octets (1 + 1) (256 * a + b) ++ Field.octetsOf ((pairedUp l).map (Field.mk 2)) ++ r
        rw [octets_add 1 1, h2, show (256 * a + b) / 256 ^ 1 = a by omega, show (256 * a + b) % 256 ^ 1 = b by omega]
        simp only [List.append_assoc]

/-- What a message is made of. -/
theorem PduKind.message_ends (k : PduKind) (q : Pdu k.Body) :
    ∃ pre : Bytes, pre.length = 12 + k.headOctets ∧
      Field.octetsOf (k.message q) = pre ++ Field.octetsOf (k.rest q.body) := by
  obtain ⟨A, hA, hn⟩ := k.ends q.body
  refine ⟨wire q.header ++ A, by rw [List.length_append, PduHeader.wire_length, hn], ?_⟩
  rw [k.message_octets, hA, List.append_assoc]

theorem serialize_ends (k : PduKind) (p q : Pdu k.Body) (prof : Profile) (buf buf' : Bytes)
    (h : p.serialize prof buf = .ok ((q, .ok ()), buf')) :
    ∃ pre : Bytes, pre.length = 12 + k.headOctets ∧ buf' = buf ++ (pre ++ Field.octetsOf (k.rest q.body)) := by
  obtain ⟨pre, h1, h2⟩ := k.message_ends q
  exact ⟨pre, h1, by rw [C48_message k p q prof buf buf' h, h2]⟩

end Dis
