import Verif.Spec.Printing
/- Reading printed texts back: the texts of the basic types. -/
namespace Dis

/-- the octets that can follow a text: comma, space, and the closing brackets -/
def stopOctet (b : UInt8) : Bool := b == 44 || b == 32 || b == 93 || b == 41 || b == 125

/-- nothing follows, or an octet that can follow a text -/
def Stops : Text → Prop
  | [] => True
  | b :: _ => stopOctet b = true

/-- not empty, without an octet that ends a text and without a line feed -/
def Word (t : Text) : Prop := t ≠ [] ∧ ∀ b ∈ t, stopOctet b = false ∧ b ≠ 10

theorem cut {p : UInt8 → Bool} : ∀ {t t' r r' : Text}, (∀ b ∈ t, p b = false) → (∀ b ∈ t', p b = false) →
    (r = [] ∨ ∃ b u, r = b :: u ∧ p b = true) → (r' = [] ∨ ∃ b u, r' = b :: u ∧ p b = true) →
    t ++ r = t' ++ r' → t = t' ∧ r = r'
  | [], [], _, _, _, _, _, _, h => ⟨rfl, h⟩
  | [], c :: t', r, r', _, ht', hr, _, h => by
    rcases hr with rfl | ⟨b, u, rfl, hb⟩
    · exact nomatch h
    · have e : b = c := by injection h
      subst e
      rw [ht' b (List.mem_cons_self ..)] at hb
      exact nomatch hb
  | c :: t, [], r, r', ht, _, _, hr', h => by
    rcases hr' with rfl | ⟨b, u, rfl, hb⟩
    · exact nomatch h
    · have e : c = b := by injection h
      subst e
      rw [ht c (List.mem_cons_self ..)] at hb
      exact nomatch hb
  | c :: t, c' :: t', r, r', ht, ht', hr, hr', h => by
    have e : c = c' := by injection h
    have h' : t ++ r = t' ++ r' := by injection h
    obtain ⟨h1, h2⟩ := cut (fun b hb => ht b (List.mem_cons_of_mem _ hb))
      (fun b hb => ht' b (List.mem_cons_of_mem _ hb)) hr hr' h'
    exact ⟨by rw [e, h1], h2⟩

theorem Stops.cases {r : Text} (h : Stops r) : r = [] ∨ ∃ b u, r = b :: u ∧ stopOctet b = true :=
  match r, h with
  | [], _ => .inl rfl
  | b :: u, h => .inr ⟨b, u, rfl, h⟩

theorem Word.cut {t t' r r' : Text} (ht : Word t) (ht' : Word t') (hr : Stops r) (hr' : Stops r')
    (h : t ++ r = t' ++ r') : t = t' ∧ r = r' :=
  Dis.cut (fun b hb => (ht.2 b hb).1) (fun b hb => (ht'.2 b hb).1) hr.cases hr'.cases h

theorem Word.starts {t : Text} (h : Word t) : ∃ b u, t = b :: u ∧ stopOctet b = false :=
  match t, h with
  | [], h => absurd rfl h.1
  | b :: u, h => ⟨b, u, rfl, (h.2 b (List.mem_cons_self ..)).1⟩

/-- A type whose printed texts can be read back. -/
class Legible (α : Type) [RDebug α] [Calm α] : Prop where
  /-- a text begins with an octet that does not end one -/
  starts : ∀ {σ : Fmt}, σ.Lawful → ∀ x : α, ∃ b t, text σ x = b :: t ∧ stopOctet b = false
  /-- a text is on one line, unless the indented form is asked for -/
  line : ∀ {σ : Fmt}, σ.Lawful → σ.alternate = false → ∀ x : α, 10 ∉ text σ x
  /-- what is evened out does not show -/
  same : ∀ {σ : Fmt}, σ.Lawful → ∀ x : α, text σ (calm x) = text σ x
  /-- the rest shows, and so does where the text ends -/
  reads : ∀ {σ : Fmt}, σ.Lawful → ∀ {x y : α} {r r' : Text}, Stops r → Stops r' →
    text σ x ++ r = text σ y ++ r' → calm x = calm y ∧ r = r'

theorem Legible.ofWord {α : Type} [RDebug α] [Calm α]
    (word : ∀ {σ : Fmt}, σ.Lawful → ∀ x : α, Word (text σ x))
    (same : ∀ {σ : Fmt}, σ.Lawful → ∀ x : α, text σ (calm x) = text σ x)
    (tells : ∀ {σ : Fmt}, σ.Lawful → ∀ {x y : α}, text σ x = text σ y → calm x = calm y) : Legible α where
  starts hσ x := (word hσ x).starts
  line hσ _ x h := (word hσ x).2 10 h |>.2 rfl
  same := same
  reads hσ := fun hr hr' h => have e := (word hσ _).cut (word hσ _) hr hr' h; ⟨tells hσ e.1, e.2⟩

/-! ### Numbers -/

def digitVal (b : UInt8) : Nat := if b.toNat < 58 then b.toNat - 48 else b.toNat - 87

theorem digitVal_octet : ∀ d < 16, digitVal (digitOctet d) = d := by decide +kernel
theorem digitOctet_word : ∀ d < 16, stopOctet (digitOctet d) = false ∧ digitOctet d ≠ 10 ∧
    digitOctet d ≠ 45 ∧ digitOctet d ≠ 32 ∧ digitOctet d ≠ 41 := by
  decide +kernel

def digitsVal (base : Nat) (t : Text) : Nat := t.foldl (fun n b => n * base + digitVal b) 0

theorem digitsUpTo_val (base : Nat) (h2 : 2 ≤ base) (h16 : base ≤ 16) : ∀ fuel n, n ≤ fuel →
    digitsVal base (digitsUpTo base fuel n) = n
  | 0, n, h => by
    obtain rfl : n = 0 := by omega
    simp only [digitsUpTo, digitsVal, List.foldl, digitVal_octet 0 (by omega)]
    omega
  | fuel + 1, n, h => by
    unfold digitsUpTo
    split
    · simp only [digitsVal, List.foldl, digitVal_octet n (by omega)]
      omega
    · have hlt : n / base < n := Nat.div_lt_self (by omega) h2
      have ih := digitsUpTo_val base h2 h16 fuel (n / base) (by omega)
      simp only [digitsVal] at ih
      have hm : n % base < base := Nat.mod_lt _ (by omega)
      simp only [digitsVal, List.foldl_append, List.foldl, digitVal_octet (n % base) (by omega), ih]
      have := Nat.div_add_mod n base
      rw [Nat.mul_comm] at this
      exact this

theorem digitsIn_inj {base n m : Nat} (h2 : 2 ≤ base) (h16 : base ≤ 16) (h : digitsIn base n = digitsIn base m) :
    n = m := by
  have hn := digitsUpTo_val base h2 h16 n n (Nat.le_refl _)
  have hm := digitsUpTo_val base h2 h16 m m (Nat.le_refl _)
  unfold digitsIn at h
  rw [h, hm] at hn
  exact hn.symm

theorem digitsUpTo_octets (base : Nat) (h2 : 2 ≤ base) (h16 : base ≤ 16) : ∀ fuel n, n ≤ fuel →
    digitsUpTo base fuel n ≠ [] ∧ ∀ b ∈ digitsUpTo base fuel n, ∃ d < 16, b = digitOctet d
  | 0, n, h => by
    obtain rfl : n = 0 := by omega
    refine ⟨by simp [digitsUpTo], fun b hb => ⟨0, by omega, ?_⟩⟩
    simpa [digitsUpTo] using hb
  | fuel + 1, n, h => by
    unfold digitsUpTo
    split
    · refine ⟨by simp, fun b hb => ⟨n, by omega, by simpa using hb⟩⟩
    · have hlt : n / base < n := Nat.div_lt_self (by omega) h2
      have ih := digitsUpTo_octets base h2 h16 fuel (n / base) (by omega)
      have hm : n % base < base := Nat.mod_lt _ (by omega)
      refine ⟨by simp, fun b hb => ?_⟩
      rcases List.mem_append.mp hb with hb | hb
      · exact ih.2 b hb
      · exact ⟨n % base, by omega, by simpa using hb⟩

theorem digitsIn_octets {base : Nat} (h2 : 2 ≤ base) (h16 : base ≤ 16) (n : Nat) :
    digitsIn base n ≠ [] ∧ ∀ b ∈ digitsIn base n, stopOctet b = false ∧ b ≠ 10 ∧ b ≠ 45 ∧ b ≠ 32 ∧ b ≠ 41 := by
  have h := digitsUpTo_octets base h2 h16 n n (Nat.le_refl _)
  refine ⟨h.1, fun b hb => ?_⟩
  obtain ⟨d, hd, rfl⟩ := h.2 b hb
  exact digitOctet_word d hd

theorem decimal_word (n : Nat) : Word (decimal n) :=
  have h := digitsIn_octets (base := 10) (by omega) (by omega) n
  ⟨h.1, fun b hb => ⟨(h.2 b hb).1, (h.2 b hb).2.1⟩⟩

theorem decimal_inj {n m : Nat} (h : decimal n = decimal m) : n = m := digitsIn_inj (by omega) (by omega) h

theorem decimal_no_minus (n : Nat) (t : Text) : decimal n ≠ 45 :: t := fun h => by
  have := (digitsIn_octets (base := 10) (by omega) (by omega) n).2 45 (by
    show 45 ∈ decimal n
    rw [h]; exact List.mem_cons_self ..)
  exact this.2.2.1 rfl

theorem signedDecimal_word (n : Int) : Word (signedDecimal n) := by
  unfold signedDecimal
  split
  · refine ⟨by simp, fun b hb => ?_⟩
    rcases List.mem_cons.mp hb with rfl | hb
    · decide
    · exact (decimal_word _).2 b hb
  · exact decimal_word _

theorem signedDecimal_inj {n m : Int} (h : signedDecimal n = signedDecimal m) : n = m := by
  unfold signedDecimal at h
  split at h <;> split at h
  · have := decimal_inj (List.cons.inj h).2
    omega
  · exact absurd h.symm (decimal_no_minus _ _)
  · exact absurd h (decimal_no_minus _ _)
  · have := decimal_inj h
    omega

instance : Legible UInt8 := .ofWord (fun _ _ => decimal_word _) (fun _ _ => rfl) fun _ _ _ h =>
  UInt8.toNat_inj.mp (decimal_inj h)
instance : Legible UInt16 := .ofWord (fun _ _ => decimal_word _) (fun _ _ => rfl) fun _ _ _ h =>
  UInt16.toNat_inj.mp (decimal_inj h)
instance : Legible UInt32 := .ofWord (fun _ _ => decimal_word _) (fun _ _ => rfl) fun _ _ _ h =>
  UInt32.toNat_inj.mp (decimal_inj h)
instance : Legible UInt64 := .ofWord (fun _ _ => decimal_word _) (fun _ _ => rfl) fun _ _ _ h =>
  UInt64.toNat_inj.mp (decimal_inj h)
instance : Legible Int8 := .ofWord (fun _ _ => signedDecimal_word _) (fun _ _ => rfl) fun _ _ _ h =>
  Int8.toInt_inj.mp (signedDecimal_inj h)
instance : Legible Int16 := .ofWord (fun _ _ => signedDecimal_word _) (fun _ _ => rfl) fun _ _ _ h =>
  Int16.toInt_inj.mp (signedDecimal_inj h)
instance : Calm Nat := ⟨id⟩
instance : Legible Nat := .ofWord (fun _ _ => decimal_word _) (fun _ _ => rfl) fun _ _ _ h => decimal_inj h
instance : Legible Int32 := .ofWord (fun _ _ => signedDecimal_word _) (fun _ _ => rfl) fun _ _ _ h =>
  Int32.toInt_inj.mp (signedDecimal_inj h)

theorem floatOctets_word : ∀ b ∈ floatOctets, stopOctet b = false ∧ b ≠ 10 := by decide +kernel

theorem F32.calm_nan {x : F32} (h : x.nanBits) : calm x = ⟨0x7FC00000⟩ := if_pos h
theorem F32.calm_num {x : F32} (h : ¬x.nanBits) : calm x = x := if_neg h
theorem F64.calm_nan {x : F64} (h : x.nanBits) : calm x = ⟨0x7FF8000000000000⟩ := if_pos h
theorem F64.calm_num {x : F64} (h : ¬x.nanBits) : calm x = x := if_neg h

instance : Legible F32 := .ofWord
  (fun hσ x => ⟨(hσ.f32_octets x).1, fun b hb => floatOctets_word b ((hσ.f32_octets x).2 b hb)⟩)
  (fun {σ} hσ x => by
    by_cases h : x.nanBits
    · rw [F32.calm_nan h]
      exact hσ.f32_nan _ _ (by decide +kernel) h
    · rw [F32.calm_num h])
  (fun hσ x y h => by
    rcases hσ.f32_tells x y h with rfl | ⟨hx, hy⟩
    · rfl
    · rw [F32.calm_nan hx, F32.calm_nan hy])
instance : Legible F64 := .ofWord
  (fun hσ x => ⟨(hσ.f64_octets x).1, fun b hb => floatOctets_word b ((hσ.f64_octets x).2 b hb)⟩)
  (fun {σ} hσ x => by
    by_cases h : x.nanBits
    · rw [F64.calm_nan h]
      exact hσ.f64_nan _ _ (by decide +kernel) h
    · rw [F64.calm_num h])
  (fun hσ x y h => by
    rcases hσ.f64_tells x y h with rfl | ⟨hx, hy⟩
    · rfl
    · rw [F64.calm_nan hx, F64.calm_nan hy])
instance : Legible String where
  starts hσ x := by
    obtain ⟨t, ht⟩ := hσ.str_quote x
    exact ⟨34, t, ht, by decide⟩
  line hσ _ x := hσ.str_line x
  same _ _ := rfl
  reads hσ := fun _ _ h => hσ.str_tells _ _ _ _ h

/-! ### Lists and options -/

theorem not_mem_append {b : UInt8} {s t : Text} (hs : b ∉ s) (ht : b ∉ t) : b ∉ s ++ t := fun h =>
  (List.mem_append.mp h).elim hs ht

theorem joinTail_line {sep : Text} (hs : 10 ∉ sep) : ∀ {ts : List Text}, (∀ t ∈ ts, 10 ∉ t) → 10 ∉ joinTail sep ts
  | [], _ => by simp [joinTail]
  | t :: ts, h => not_mem_append hs (not_mem_append (h t (List.mem_cons_self ..))
      (joinTail_line hs fun u hu => h u (List.mem_cons_of_mem _ hu)))

theorem join_line {sep : Text} (hs : 10 ∉ sep) : ∀ {ts : List Text}, (∀ t ∈ ts, 10 ∉ t) → 10 ∉ join sep ts
  | [], _ => by simp [join]
  | t :: ts, h => not_mem_append (h t (List.mem_cons_self ..))
      (joinTail_line hs fun u hu => h u (List.mem_cons_of_mem _ hu))

theorem joinTail_stops {s c : UInt8} {sep r : Text} (hs : stopOctet s = true) (hc : stopOctet c = true) :
    ∀ ts, Stops (joinTail (s :: sep) ts ++ c :: r)
  | [] => hc
  | _ :: _ => hs

theorem joinTail_reads {α β : Type} {f : α → Text} {g : α → β} {s c : UInt8} {sep : Text}
    (hs : stopOctet s = true) (hc : stopOctet c = true) (hne : s ≠ c)
    (hf : ∀ {x y : α} {r r' : Text}, Stops r → Stops r' → f x ++ r = f y ++ r' → g x = g y ∧ r = r') :
    ∀ {xs ys : List α} {r r' : Text},
      joinTail (s :: sep) (xs.map f) ++ c :: r = joinTail (s :: sep) (ys.map f) ++ c :: r' →
        xs.map g = ys.map g ∧ r = r'
  | [], [], _, _, h => ⟨rfl, (List.cons.inj h).2⟩
  | [], _ :: _, _, _, h => absurd (List.cons.inj h).1.symm hne
  | _ :: _, [], _, _, h => absurd (List.cons.inj h).1 hne
  | x :: xs, y :: ys, r, r', h => by
    simp only [List.map_cons, joinTail, List.append_assoc] at h
    have h := List.append_cancel_left h
    obtain ⟨h1, h⟩ := hf (joinTail_stops hs hc _) (joinTail_stops hs hc _) h
    obtain ⟨h2, h⟩ := joinTail_reads hs hc hne hf h
    exact ⟨by rw [List.map_cons, List.map_cons, h1, h2], h⟩

theorem join_reads {α β : Type} {f : α → Text} {g : α → β} {s c : UInt8} {sep : Text}
    (hs : stopOctet s = true) (hc : stopOctet c = true) (hne : s ≠ c)
    (hstart : ∀ x, ∃ b t, f x = b :: t ∧ stopOctet b = false)
    (hf : ∀ {x y : α} {r r' : Text}, Stops r → Stops r' → f x ++ r = f y ++ r' → g x = g y ∧ r = r') :
    ∀ {xs ys : List α} {r r' : Text},
      join (s :: sep) (xs.map f) ++ c :: r = join (s :: sep) (ys.map f) ++ c :: r' →
        xs.map g = ys.map g ∧ r = r'
  | [], [], _, _, h => ⟨rfl, (List.cons.inj h).2⟩
  | [], y :: ys, _, _, h => by
    obtain ⟨b, t, hb, hstop⟩ := hstart y
    simp only [List.map_cons, join, hb] at h
    rw [← (List.cons.inj h).1, hc] at hstop
    exact nomatch hstop
  | x :: xs, [], _, _, h => by
    obtain ⟨b, t, hb, hstop⟩ := hstart x
    simp only [List.map_cons, join, hb] at h
    rw [(List.cons.inj h).1, hc] at hstop
    exact nomatch hstop
  | x :: xs, y :: ys, r, r', h => by
    simp only [List.map_cons, join, List.append_assoc] at h
    obtain ⟨h1, h⟩ := hf (joinTail_stops hs hc _) (joinTail_stops hs hc _) h
    obtain ⟨h2, h⟩ := joinTail_reads hs hc hne hf h
    exact ⟨by rw [List.map_cons, List.map_cons, h1, h2], h⟩

theorem open_bracket : strBytes "[" = [91] := by decide +kernel
theorem open_bracket_line : strBytes "[\n" = [91, 10] := by decide +kernel
theorem close_bracket : strBytes "]" = [93] := by decide +kernel
theorem brackets : strBytes "[]" = [91, 93] := by decide +kernel
theorem comma_space : strBytes ", " = [44, 32] := by decide +kernel
theorem comma_line : strBytes ",\n" = [44, 10] := by decide +kernel
theorem bar : strBytes " | " = [32, 124, 32] := by decide +kernel
theorem open_paren : strBytes "(" = [40] := by decide +kernel
theorem open_paren_line : strBytes "(\n" = [40, 10] := by decide +kernel
theorem close_paren : strBytes ")" = [41] := by decide +kernel
theorem none_text : strBytes "None" = [78, 111, 110, 101] := by decide +kernel
theorem some_text : strBytes "Some" = [83, 111, 109, 101] := by decide +kernel
theorem close_brace : strBytes " }" = [32, 125] := by decide +kernel
theorem close_brace_line : strBytes "}" = [125] := by decide +kernel
theorem open_brace : strBytes " { " = [32, 123, 32] := by decide +kernel
theorem open_brace_line : strBytes " {\n" = [32, 123, 10] := by decide +kernel
theorem colon : strBytes ": " = [58, 32] := by decide +kernel

/-- what follows a text with up to `n` spaces removed, and up to four at the beginning of each further line -/
def unpad : Nat → Text → Text
  | _, [] => []
  | n, b :: t => if b = 32 ∧ n ≠ 0 then unpad (n - 1) t else b :: unpad (if b = 10 then 4 else 0) t

theorem unpad_pad : ∀ (n : Bool) (t r : Text), ∃ m, unpad (if n then 4 else 0) (pad n t ++ r) = t ++ unpad m r
  | n, [], r => ⟨_, rfl⟩
  | n, b :: t, r => by
    obtain ⟨m, ih⟩ := unpad_pad (b == 10) t r
    refine ⟨m, ?_⟩
    have step : unpad 0 (b :: (pad (b == 10) t ++ r)) = b :: (t ++ unpad m r) := by
      rw [unpad, if_neg (fun h => h.2 rfl)]
      refine congrArg (b :: ·) ?_
      rw [← ih]
      by_cases hb : b = 10 <;> simp [hb]
    cases n with
    | false => simpa [pad] using step
    | true => simpa [pad, unpad] using step

theorem padded_open (t r : Text) : ∃ m, unpad 4 (padded t ++ r) = t ++ (44 :: 10 :: unpad m r) := by
  obtain ⟨m, h⟩ := unpad_pad true (t ++ [44, 10]) r
  refine ⟨m, ?_⟩
  unfold padded
  rw [comma_line]
  simpa using h

/-- a field or an element of the indented form can be read back if the text in it can -/
theorem padded_reads {t t' r r' : Text} {P : Prop}
    (hread : ∀ {u u' : Text}, t ++ (44 :: u) = t' ++ (44 :: u') → P ∧ t = t')
    (h : padded t ++ r = padded t' ++ r') : P ∧ r = r' := by
  obtain ⟨m, h1⟩ := padded_open t r
  obtain ⟨m', h2⟩ := padded_open t' r'
  rw [h, h2] at h1
  have e := hread h1.symm
  rw [e.2] at h
  exact ⟨e.1, List.append_cancel_left h⟩

theorem padded_inj {t t' r r' : Text} (hr : r.length = r'.length)
    (h : padded t ++ r = padded t' ++ r') : t = t' ∧ r = r' := by
  have h0 := List.append_inj' h hr
  refine ⟨?_, h0.2⟩
  obtain ⟨m, h1⟩ := padded_open t []
  obtain ⟨m', h2⟩ := padded_open t' []
  rw [h0.1, h2] at h1
  have h1 : t' ++ [44, 10] = t ++ [44, 10] := h1
  exact (List.append_cancel_right h1).symm

theorem padded_starts {t : Text} (h : t ≠ []) (r : Text) : ∃ u, padded t ++ r = 32 :: u := by
  cases t with
  | nil => exact absurd rfl h
  | cons b t => exact ⟨_, rfl⟩

theorem Legible.text_eq {α : Type} [RDebug α] [Calm α] [Legible α] {σ : Fmt} (hσ : σ.Lawful) {x y : α}
    (h : calm x = calm y) : text σ x = text σ y := by
  rw [← Legible.same hσ x, h, Legible.same hσ y]

theorem Legible.comma {α : Type} [RDebug α] [Calm α] [Legible α] {σ : Fmt} (hσ : σ.Lawful) {x y : α} {u u' : Text}
    (h : text σ x ++ (44 :: u) = text σ y ++ (44 :: u')) : calm x = calm y ∧ text σ x = text σ y :=
  have e := (Legible.reads hσ (by exact (by decide : stopOctet 44 = true)) (by exact (by decide : stopOctet 44 = true)) h).1
  ⟨e, Legible.text_eq hσ e⟩

theorem Legible.nonempty {α : Type} [RDebug α] [Calm α] [Legible α] {σ : Fmt} (hσ : σ.Lawful) (x : α) : text σ x ≠ [] := by
  obtain ⟨b, t, h, _⟩ := Legible.starts hσ x
  rw [h]
  exact fun e => nomatch e

theorem paddedAll_reads {α : Type} [RDebug α] [Calm α] [Legible α] {σ : Fmt} (hσ : σ.Lawful) : ∀ {xs ys : List α}
    {r r' : Text}, paddedAll (xs.map (text σ)) ++ 93 :: r = paddedAll (ys.map (text σ)) ++ 93 :: r' →
      xs.map calm = ys.map calm ∧ r = r'
  | [], [], _, _, h => ⟨rfl, (List.cons.inj h).2⟩
  | [], y :: ys, r, r', h => by
    simp only [List.map_cons, paddedAll, List.append_assoc] at h
    obtain ⟨u, hu⟩ := padded_starts (Legible.nonempty hσ y) (paddedAll (ys.map (text σ)) ++ 93 :: r')
    rw [hu] at h
    exact absurd (List.cons.inj h).1 (by decide)
  | x :: xs, [], r, r', h => by
    simp only [List.map_cons, paddedAll, List.append_assoc] at h
    obtain ⟨u, hu⟩ := padded_starts (Legible.nonempty hσ x) (paddedAll (xs.map (text σ)) ++ 93 :: r)
    rw [hu] at h
    exact absurd (List.cons.inj h).1 (by decide)
  | x :: xs, y :: ys, r, r', h => by
    simp only [List.map_cons, paddedAll, List.append_assoc] at h
    obtain ⟨h1, h⟩ := padded_reads (Legible.comma hσ) h
    obtain ⟨h2, h⟩ := paddedAll_reads hσ h
    exact ⟨by rw [List.map_cons, List.map_cons, h1, h2], h⟩

theorem not_alternate {σ : Fmt} (ha : σ.alternate = false) : ¬σ.alternate = true := by rw [ha]; decide

theorem listText_indented {σ : Fmt} (ha : σ.alternate = true) (t : Text) (ts : List Text) :
    listText σ (t :: ts) = strBytes "[\n" ++ (paddedAll (t :: ts) ++ strBytes "]") := if_pos ha
theorem listText_flat {σ : Fmt} (ha : σ.alternate = false) (t : Text) (ts : List Text) :
    listText σ (t :: ts) = strBytes "[" ++ (join (strBytes ", ") (t :: ts) ++ strBytes "]") := if_neg (not_alternate ha)
theorem listText_none (σ : Fmt) : listText σ [] = [91, 93] := brackets

theorem listText_starts (σ : Fmt) (ts : List Text) : ∃ b t, listText σ ts = b :: t ∧ stopOctet b = false := by
  cases ts with
  | nil => exact ⟨91, _, brackets, by decide⟩
  | cons t ts =>
    cases ha : σ.alternate with
    | true => rw [listText_indented ha, open_bracket_line]; exact ⟨91, _, rfl, by decide⟩
    | false => rw [listText_flat ha, open_bracket]; exact ⟨91, _, rfl, by decide⟩

theorem listText_line {σ : Fmt} (ha : σ.alternate = false) {ts : List Text} (h : ∀ t ∈ ts, 10 ∉ t) :
    10 ∉ listText σ ts := by
  cases ts with
  | nil => rw [listText_none]; decide
  | cons t ts =>
    rw [listText_flat ha]
    exact not_mem_append (by rw [open_bracket]; decide)
      (not_mem_append (join_line (by rw [comma_space]; decide) h) (by rw [close_bracket]; decide))

/-- the text of a list, the empty list included -/
theorem listText_eq {σ : Fmt} (ha : σ.alternate = false) (ts : List Text) :
    listText σ ts = [91] ++ (join [44, 32] ts ++ [93]) := by
  cases ts with
  | nil => exact brackets
  | cons t ts =>
    rw [listText_flat ha, open_bracket, comma_space, close_bracket]

theorem listText_reads {α : Type} [RDebug α] [Calm α] [Legible α] {σ : Fmt} (hσ : σ.Lawful) {xs ys : List α}
    {r r' : Text} (h : listText σ (xs.map (text σ)) ++ r = listText σ (ys.map (text σ)) ++ r') :
    xs.map calm = ys.map calm ∧ r = r' := by
  cases ha : σ.alternate with
  | false =>
    rw [listText_eq ha, listText_eq ha] at h
    simp only [List.append_assoc] at h
    have h := List.append_cancel_left h
    exact join_reads (by decide) (by decide) (by decide) (Legible.starts hσ) (Legible.reads hσ) h
  | true =>
    have full : ∀ (x : α) xs, listText σ ((x :: xs).map (text σ)) =
        91 :: 10 :: (paddedAll ((x :: xs).map (text σ)) ++ [93]) := fun x xs => by
      rw [List.map_cons, listText_indented ha, open_bracket_line, close_bracket]
      rfl
    have none : listText σ (([] : List α).map (text σ)) = [91, 93] := brackets
    match xs, ys, h with
    | [], [], h => exact ⟨rfl, List.append_cancel_left h⟩
    | [], y :: ys, h =>
      rw [full, none] at h
      exact absurd (List.cons.inj (List.cons.inj h).2).1 (by decide)
    | x :: xs, [], h =>
      rw [full, none] at h
      exact absurd (List.cons.inj (List.cons.inj h).2).1 (by decide)
    | x :: xs, y :: ys, h =>
      rw [full, full] at h
      have h : (paddedAll ((x :: xs).map (text σ)) ++ [93]) ++ r = (paddedAll ((y :: ys).map (text σ)) ++ [93]) ++ r' :=
        (List.cons.inj (List.cons.inj h).2).2
      rw [List.append_assoc, List.append_assoc] at h
      exact paddedAll_reads hσ h

theorem map_text_calm {α : Type} [RDebug α] [Calm α] [Legible α] {σ : Fmt} (hσ : σ.Lawful) (xs : List α) :
    (xs.map calm).map (text σ) = xs.map (text σ) := by
  rw [List.map_map]
  exact List.map_congr_left fun x _ => Legible.same hσ x

instance {α : Type} [RDebug α] [Calm α] [Legible α] : Legible (List α) where
  starts _ _ := listText_starts _ _
  line hσ ha xs := listText_line ha fun t ht => by
    obtain ⟨x, _, rfl⟩ := List.mem_map.mp ht
    exact Legible.line hσ ha x
  same {σ} hσ xs := congrArg (listText σ) (map_text_calm hσ xs)
  reads hσ := fun _ _ h => listText_reads hσ h

instance {α : Type} {n : Nat} [RDebug α] [Calm α] [Legible α] : Legible (Arr α n) where
  starts _ _ := listText_starts _ _
  line hσ ha xs := listText_line ha fun t ht => by
    obtain ⟨x, _, rfl⟩ := List.mem_map.mp ht
    exact Legible.line hσ ha x
  same {σ} hσ xs := congrArg (listText σ) (map_text_calm hσ xs.toList)
  reads hσ := fun _ _ h => have e := listText_reads hσ h; ⟨Arr.ext e.1, e.2⟩

theorem tupleText_starts {name : String} {b : UInt8} {u : Text} (hn : strBytes name = b :: u) (σ : Fmt) (t : Text) :
    ∃ v, tupleText σ name t = b :: v := by
  unfold tupleText
  rw [hn]
  split <;> exact ⟨_, rfl⟩

theorem tupleText_line {σ : Fmt} (ha : σ.alternate = false) {name : String} {t : Text} (hn : 10 ∉ strBytes name)
    (ht : 10 ∉ t) : 10 ∉ tupleText σ name t := by
  unfold tupleText
  rw [if_neg (by rw [ha]; decide)]
  exact not_mem_append hn (not_mem_append (by rw [open_paren]; decide) (not_mem_append ht (by rw [close_paren]; decide)))

theorem tupleText_reads {σ : Fmt} {name : String} {t t' r r' : Text} {P : Prop}
    (hread : ∀ {u u' : Text}, t ++ (44 :: u) = t' ++ (44 :: u') → P ∧ t = t')
    (hread' : ∀ {u u' : Text}, t ++ (41 :: u) = t' ++ (41 :: u') → P ∧ t = t')
    (h : tupleText σ name t ++ r = tupleText σ name t' ++ r') : P ∧ r = r' := by
  unfold tupleText at h
  split at h
  · simp only [List.append_assoc] at h
    have h := List.append_cancel_left (List.append_cancel_left h)
    obtain ⟨h1, h⟩ := padded_reads hread h
    exact ⟨h1, List.append_cancel_left h⟩
  · simp only [List.append_assoc] at h
    have h := List.append_cancel_left (List.append_cancel_left h)
    rw [close_paren] at h
    obtain ⟨h1, h2⟩ := hread' h
    rw [h2] at h
    exact ⟨h1, (List.cons.inj (List.append_cancel_left h)).2⟩

theorem Legible.stop {α : Type} [RDebug α] [Calm α] [Legible α] {σ : Fmt} (hσ : σ.Lawful) {x y : α} {c : UInt8}
    {u u' : Text} (hc : stopOctet c = true) (h : text σ x ++ (c :: u) = text σ y ++ (c :: u')) :
    calm x = calm y ∧ text σ x = text σ y :=
  have e := (Legible.reads hσ (by exact hc) (by exact hc) h).1
  ⟨e, Legible.text_eq hσ e⟩

instance {α : Type} [RDebug α] [Calm α] [Legible α] : Legible (Option α) where
  starts {σ} hσ x := by
    cases x with
    | none => exact ⟨78, _, none_text, by decide⟩
    | some x =>
      obtain ⟨v, hv⟩ := tupleText_starts some_text σ (text σ x)
      exact ⟨83, v, hv, by decide⟩
  line {σ} hσ ha x := by
    cases x with
    | none => show 10 ∉ strBytes "None"; rw [none_text]; decide
    | some x => exact tupleText_line ha (by rw [some_text]; decide) (Legible.line hσ ha x)
  same {σ} hσ x := by
    cases x with
    | none => rfl
    | some x => exact congrArg (tupleText σ "Some") (Legible.same hσ x)
  reads {σ} hσ {x y r r'} hr hr' h := by
    cases x with
    | none =>
      cases y with
      | none => exact ⟨rfl, List.append_cancel_left h⟩
      | some y =>
        have h : strBytes "None" ++ r = tupleText σ "Some" (text σ y) ++ r' := h
        obtain ⟨v, hv⟩ := tupleText_starts some_text σ (text σ y)
        rw [none_text, hv] at h
        exact absurd (List.cons.inj h).1 (by decide)
    | some x =>
      cases y with
      | none =>
        have h : tupleText σ "Some" (text σ x) ++ r = strBytes "None" ++ r' := h
        obtain ⟨v, hv⟩ := tupleText_starts some_text σ (text σ x)
        rw [none_text, hv] at h
        exact absurd (List.cons.inj h).1 (by decide)
      | some y =>
        obtain ⟨h1, h2⟩ := tupleText_reads (Legible.stop hσ (by decide)) (Legible.stop hσ (by decide)) h
        exact ⟨congrArg some h1, h2⟩

/-! ### Structures -/

/-- letter, digit or underscore -/
def nameOctet (b : UInt8) : Bool := (48 ≤ b && b ≤ 57) || (65 ≤ b && b ≤ 90) || (97 ≤ b && b ≤ 122) || b == 95
/-- not empty, and of letters, digits and underscores -/
def nameLike (s : String) : Bool := !(strBytes s).isEmpty && (strBytes s).all nameOctet

theorem nameOctet_word (b : UInt8) (h : nameOctet b = true) : stopOctet b = false ∧ b ≠ 10 := by
  have key : ∀ n : Fin 256, nameOctet (UInt8.ofNat n.val) = true →
      stopOctet (UInt8.ofNat n.val) = false ∧ UInt8.ofNat n.val ≠ 10 := by decide +kernel
  have := key ⟨b.toNat, b.toNat_lt⟩
  simp only [UInt8.ofNat_toNat] at this
  exact this h

theorem nameLike.word {s : String} (h : nameLike s = true) : Word (strBytes s) := by
  simp only [nameLike, Bool.and_eq_true, List.all_eq_true] at h
  exact ⟨fun e => by simp [e] at h, fun b hb => nameOctet_word b (h.2 b hb)⟩

theorem fieldsText_indented {σ : Fmt} (ha : σ.alternate = true) (f : String) (t : Text) (fs : List (String × Text)) :
    fieldsText σ ((f, t) :: fs) = padded (strBytes f ++ (strBytes ": " ++ t)) ++ fieldsText σ fs := if_pos ha
theorem fieldsText_flat {σ : Fmt} (ha : σ.alternate = false) (f : String) (t : Text) (fs : List (String × Text)) :
    fieldsText σ ((f, t) :: fs) = strBytes ", " ++ (strBytes f ++ (strBytes ": " ++ (t ++ fieldsText σ fs))) :=
  if_neg (not_alternate ha)
theorem fieldsText_end {σ : Fmt} (ha : σ.alternate = false) : fieldsText σ [] = strBytes " }" :=
  if_neg (not_alternate ha)
theorem structText_indented {σ : Fmt} (ha : σ.alternate = true) (name f : String) (t : Text) (fs : List (String × Text)) :
    structText σ name ((f, t) :: fs) = strBytes name ++ (strBytes " {\n" ++
      (padded (strBytes f ++ (strBytes ": " ++ t)) ++ fieldsText σ fs)) := if_pos ha
theorem structText_flat {σ : Fmt} (ha : σ.alternate = false) (name f : String) (t : Text) (fs : List (String × Text)) :
    structText σ name ((f, t) :: fs) = strBytes name ++ (strBytes " { " ++ (strBytes f ++ (strBytes ": " ++
      (t ++ fieldsText σ fs)))) := if_neg (not_alternate ha)

theorem fieldsText_stops {σ : Fmt} (ha : σ.alternate = false) (fs : List (String × Text)) (r : Text) :
    Stops (fieldsText σ fs ++ r) := by
  cases fs with
  | nil =>
    rw [fieldsText_end ha, close_brace]
    exact (by decide : stopOctet 32 = true)
  | cons f fs =>
    rw [fieldsText_flat ha, comma_space]
    exact (by decide : stopOctet 44 = true)

theorem fieldsText_line {σ : Fmt} (ha : σ.alternate = false) : ∀ {fs : List (String × Text)},
    (∀ f ∈ fs, nameLike f.1 = true ∧ 10 ∉ f.2) → 10 ∉ fieldsText σ fs
  | [], _ => by rw [fieldsText_end ha, close_brace]; decide
  | f :: fs, h => by
    have hf := h f (List.mem_cons_self ..)
    rw [fieldsText_flat ha]
    exact not_mem_append (by rw [comma_space]; decide) (not_mem_append (fun e => ((nameLike.word hf.1).2 _ e).2 rfl)
      (not_mem_append (by rw [colon]; decide) (not_mem_append hf.2
        (fieldsText_line ha fun g hg => h g (List.mem_cons_of_mem _ hg)))))

theorem structText_line {σ : Fmt} (ha : σ.alternate = false) {name : String} (hn : nameLike name = true) :
    ∀ {fs : List (String × Text)}, (∀ f ∈ fs, nameLike f.1 = true ∧ 10 ∉ f.2) → 10 ∉ structText σ name fs
  | [], _ => fun e => ((nameLike.word hn).2 _ e).2 rfl
  | f :: fs, h => by
    have hf := h f (List.mem_cons_self ..)
    rw [structText_flat ha]
    exact not_mem_append (fun e => ((nameLike.word hn).2 _ e).2 rfl) (not_mem_append (by rw [open_brace]; decide)
      (not_mem_append (fun e => ((nameLike.word hf.1).2 _ e).2 rfl) (not_mem_append (by rw [colon]; decide)
        (not_mem_append hf.2 (fieldsText_line ha fun g hg => h g (List.mem_cons_of_mem _ hg))))))

theorem structText_starts {σ : Fmt} {name : String} (hn : nameLike name = true) (fs : List (String × Text)) :
    ∃ b t, structText σ name fs = b :: t ∧ stopOctet b = false := by
  obtain ⟨b, u, hb, hs⟩ := (nameLike.word hn).starts
  cases fs with
  | nil => exact ⟨b, u, hb, hs⟩
  | cons f fs =>
    cases ha : σ.alternate with
    | true => rw [structText_indented ha, hb]; exact ⟨b, _, rfl, hs⟩
    | false => rw [structText_flat ha, hb]; exact ⟨b, _, rfl, hs⟩

theorem field_comma {α : Type} [RDebug α] [Calm α] [Legible α] {σ : Fmt} (hσ : σ.Lawful) {f : String} {x y : α}
    {u u' : Text} (h : (strBytes f ++ (strBytes ": " ++ text σ x)) ++ (44 :: u) =
      (strBytes f ++ (strBytes ": " ++ text σ y)) ++ (44 :: u')) :
    calm x = calm y ∧ (strBytes f ++ (strBytes ": " ++ text σ x)) = strBytes f ++ (strBytes ": " ++ text σ y) := by
  simp only [List.append_assoc] at h
  have e := Legible.comma hσ (List.append_cancel_left (List.append_cancel_left h))
  exact ⟨e.1, by rw [e.2]⟩

/-- reading the first field of a structure -/
theorem read_first {α : Type} [RDebug α] [Calm α] [Legible α] {σ : Fmt} (hσ : σ.Lawful) {name f : String} {x y : α}
    {fs fs' : List (String × Text)} {r r' : Text}
    (h : structText σ name ((f, text σ x) :: fs) ++ r = structText σ name ((f, text σ y) :: fs') ++ r') :
    calm x = calm y ∧ fieldsText σ fs ++ r = fieldsText σ fs' ++ r' := by
  cases ha : σ.alternate with
  | true =>
    rw [structText_indented ha, structText_indented ha, List.append_assoc, List.append_assoc, List.append_assoc,
      List.append_assoc, List.append_assoc, List.append_assoc] at h
    exact padded_reads (field_comma hσ) (List.append_cancel_left (List.append_cancel_left h))
  | false =>
    rw [structText_flat ha, structText_flat ha] at h
    simp only [List.append_assoc] at h
    have h := List.append_cancel_left h
    have h := List.append_cancel_left h
    have h := List.append_cancel_left h
    have h := List.append_cancel_left h
    exact Legible.reads hσ (fieldsText_stops ha _ _) (fieldsText_stops ha _ _) h

/-- reading a further field -/
theorem read_next {α : Type} [RDebug α] [Calm α] [Legible α] {σ : Fmt} (hσ : σ.Lawful) {f : String} {x y : α}
    {fs fs' : List (String × Text)} {r r' : Text}
    (h : fieldsText σ ((f, text σ x) :: fs) ++ r = fieldsText σ ((f, text σ y) :: fs') ++ r') :
    calm x = calm y ∧ fieldsText σ fs ++ r = fieldsText σ fs' ++ r' := by
  cases ha : σ.alternate with
  | true =>
    rw [fieldsText_indented ha, fieldsText_indented ha, List.append_assoc, List.append_assoc] at h
    exact padded_reads (field_comma hσ) h
  | false =>
    rw [fieldsText_flat ha, fieldsText_flat ha] at h
    simp only [List.append_assoc] at h
    have h := List.append_cancel_left h
    have h := List.append_cancel_left h
    have h := List.append_cancel_left h
    exact Legible.reads hσ (fieldsText_stops ha _ _) (fieldsText_stops ha _ _) h

/-- reading the closing brace -/
theorem read_end {σ : Fmt} {r r' : Text} (h : fieldsText σ [] ++ r = fieldsText σ [] ++ r') : r = r' :=
  List.append_cancel_left h

theorem strBytes_inj {s t : String} (h : strBytes s = strBytes t) : s = t := String.toByteArray_inj.mp (by
    unfold strBytes at h
    exact ByteArray.ext (Array.ext' h))

/-- structures of different names -/
theorem read_other {σ : Fmt} {name name' : String} (hn : nameLike name = true) (hn' : nameLike name' = true)
    {f f' : String × Text} {fs fs' : List (String × Text)} {r r' : Text}
    (h : structText σ name (f :: fs) ++ r = structText σ name' (f' :: fs') ++ r') : name = name' := by
  have open_stops : ∀ (n : String) (g : String × Text) gs r, ∃ u, structText σ n (g :: gs) ++ r =
      strBytes n ++ (32 :: u) := fun n g gs r => by
    cases ha : σ.alternate with
    | true => rw [structText_indented ha, open_brace_line, List.append_assoc]; exact ⟨_, rfl⟩
    | false => rw [structText_flat ha, open_brace, List.append_assoc]; exact ⟨_, rfl⟩
  obtain ⟨u, hu⟩ := open_stops name f fs r
  obtain ⟨u', hu'⟩ := open_stops name' f' fs' r'
  rw [hu, hu'] at h
  exact strBytes_inj ((nameLike.word hn).cut (nameLike.word hn') (by exact (by decide : stopOctet 32 = true))
    (by exact (by decide : stopOctet 32 = true)) h).1

end Dis
