import Verif.Model.Setup
import Verif.Proofs.Legible
/- Lemmas for C70: reading the numbers of a socket address. -/
namespace Dis

theorem digitsUpTo_fuel (base : Nat) (h2 : 2 ≤ base) : ∀ f g n, n ≤ f → n ≤ g → digitsUpTo base f n = digitsUpTo base g n
  | 0, 0, _, _, _ => rfl
  | 0, g + 1, n, h, _ => by
    obtain rfl : n = 0 := by omega
    simp only [digitsUpTo, if_pos (show 0 < base by omega)]
  | f + 1, 0, n, _, h => by
    obtain rfl : n = 0 := by omega
    simp only [digitsUpTo, if_pos (show 0 < base by omega)]
  | f + 1, g + 1, n, hf, hg => by
    by_cases hn : n < base
    · simp only [digitsUpTo, if_pos hn]
    · have h0 : 0 < n := by omega
      have hlt : n / base < n := Nat.div_lt_self h0 (by omega)
      simp only [digitsUpTo, if_neg hn]
      rw [digitsUpTo_fuel base h2 f g (n / base) (by omega) (by omega)]

theorem decimal_small {n : Nat} (h : n < 10) : decimal n = [digitOctet n] := by
  unfold decimal digitsIn
  cases n with
  | zero => rfl
  | succ n => simp only [digitsUpTo, if_pos h]

theorem decimal_step {n d : Nat} (hn : 0 < n) (hd : d < 10) : decimal (n * 10 + d) = decimal n ++ [digitOctet d] := by
  unfold decimal digitsIn
  obtain ⟨m, hm⟩ : ∃ m, n * 10 + d = m + 1 := ⟨n * 10 + d - 1, by omega⟩
  have e1 : (n * 10 + d) / 10 = n := by omega
  have e2 : (n * 10 + d) % 10 = d := by omega
  have : digitsUpTo 10 (n * 10 + d) (n * 10 + d) = digitsUpTo 10 m n ++ [digitOctet d] := by
    conv => lhs; arg 2; rw [hm]
    rw [digitsUpTo, if_neg (by omega), e1, e2]
  rw [this, digitsUpTo_fuel 10 (by omega) m n n (by omega) (Nat.le_refl _)]

theorem runValue_snoc (ds : Text) (x : UInt8) : runValue (ds ++ [x]) = runValue ds * 10 + (x.toNat - 48) := by
  simp [runValue]

theorem isDigitOctet_iff {x : UInt8} : isDigitOctet x = true ↔ 48 ≤ x.toNat ∧ x.toNat ≤ 57 := by
  simp [isDigitOctet]

theorem digit_is {x : UInt8} (h : isDigitOctet x = true) : x = digitOctet (x.toNat - 48) := by
  have h := isDigitOctet_iff.mp h
  apply UInt8.toNat_inj.mp
  rw [digitOctet, if_pos (by omega), UInt8.toNat_ofNat']
  omega

theorem digitOctet_isDigit : ∀ d < 10, isDigitOctet (digitOctet d) = true ∧ (digitOctet d).toNat - 48 = d := by decide +kernel

theorem snoc_induction {α : Type} {P : List α → Prop} (h0 : P []) (h1 : ∀ l x, P l → P (l ++ [x])) (l : List α) : P l := by
  have : ∀ l : List α, P l.reverse := fun l => by
    induction l with
    | nil => exact h0
    | cons x l ih => rw [List.reverse_cons]; exact h1 _ _ ih
  simpa using this l.reverse

/-- a run of digits is the number it stands for, after some zeros -/
theorem run_shape (ds : Text) : ds ≠ [] → (∀ x ∈ ds, isDigitOctet x = true) →
    ∃ k, ds = List.replicate k 48 ++ decimal (runValue ds) := by
  refine snoc_induction (P := fun ds => ds ≠ [] → (∀ x ∈ ds, isDigitOctet x = true) →
    ∃ k, ds = List.replicate k 48 ++ decimal (runValue ds)) (fun h => absurd rfl h) (fun l x ih _ hd => ?_) ds
  have hx := hd x (by simp)
  have hl : ∀ y ∈ l, isDigitOctet y = true := fun y hy => hd y (by simp [hy])
  have hx' := isDigitOctet_iff.mp hx
  rw [runValue_snoc]
  by_cases he : l = []
  · subst he
    refine ⟨0, ?_⟩
    rw [show runValue [] = 0 from rfl, Nat.zero_mul, Nat.zero_add, decimal_small (by omega), ← digit_is hx]
    rfl
  · obtain ⟨k, hk⟩ := ih he hl
    by_cases hv : runValue l = 0
    · rw [hv] at hk ⊢
      refine ⟨k + 1, ?_⟩
      rw [Nat.zero_mul, Nat.zero_add, decimal_small (by omega), ← digit_is hx]
      rw [decimal_small (by omega)] at hk
      rw [hk, List.replicate_succ']
      rfl
    · refine ⟨k, ?_⟩
      rw [decimal_step (by omega) (by omega), ← digit_is hx, ← List.append_assoc, ← hk]

theorem decimal_facts (n : Nat) : (∀ x ∈ decimal n, isDigitOctet x = true) ∧ runValue (decimal n) = n ∧
    ((decimal n).head? = some 48 → (decimal n).length = 1) := by
  refine Nat.strongRecOn n fun n ih => ?_
  by_cases h : n < 10
  · rw [decimal_small h]
    have := digitOctet_isDigit n h
    refine ⟨fun x hx => by rw [List.mem_singleton.mp hx]; exact this.1, ?_, fun _ => rfl⟩
    simp only [runValue, List.foldl, this.2]
    omega
  · have hn : n = n / 10 * 10 + n % 10 := by omega
    have hd := digitOctet_isDigit (n % 10) (by omega)
    obtain ⟨i1, i2, i3⟩ := ih (n / 10) (by omega)
    have hst := decimal_step (n := n / 10) (d := n % 10) (by omega) (by omega)
    rw [← hn] at hst
    rw [hst]
    refine ⟨fun x hx => ?_, ?_, fun hh => ?_⟩
    · rcases List.mem_append.mp hx with hx | hx
      · exact i1 x hx
      · rw [List.mem_singleton.mp hx]; exact hd.1
    · rw [runValue_snoc, i2, hd.2]; omega
    · exfalso
      have hne : decimal (n / 10) ≠ [] := (decimal_word _).1
      cases e : decimal (n / 10) with
      | nil => exact hne e
      | cons b t =>
        rw [e] at hh
        have hb : b = 48 := Option.some.inj hh
        have hl := i3 (by rw [e, hb]; rfl)
        rw [e] at hl
        have ht : t = [] := List.length_eq_zero_iff.mp (by simpa using hl)
        rw [ht, hb] at e
        rw [e] at i2
        have : runValue [48] = 0 := rfl
        omega

theorem decimal_octet_length : ∀ n < 256, (decimal n).length ≤ 3 := by decide +kernel

theorem runValue_zeros (k : Nat) (ds : Text) : runValue (List.replicate k 48 ++ ds) = runValue ds := by
  induction k with
  | zero => rfl
  | succ k ih => rw [List.replicate_succ]; exact ih

theorem takeWhile_run {ds r : Text} (h : ∀ x ∈ ds, isDigitOctet x = true) (hr : ∀ b u, r = b :: u → isDigitOctet b = false) :
    (ds ++ r).takeWhile isDigitOctet = ds ∧ (ds ++ r).dropWhile isDigitOctet = r := by
  induction ds with
  | nil =>
    cases r with
    | nil => exact ⟨rfl, rfl⟩
    | cons b u => simp [List.takeWhile, List.dropWhile, hr b u rfl]
  | cons x ds ih =>
    have hx := h x (by simp)
    have ih := ih fun y hy => h y (by simp [hy])
    simp [List.takeWhile_cons, List.dropWhile_cons, hx, ih.1, ih.2]

/-- what `readNumber` reads for an octet: the number as it is printed, and what does not begin with a digit -/
theorem readNumber_octet (t r : Text) (n : Nat) : readNumber 255 (some 3) false t = some (n, r) ↔
    n < 256 ∧ t = decimal n ++ r ∧ ∀ b u, r = b :: u → isDigitOctet b = false := by
  constructor
  · intro h
    unfold readNumber at h
    have hall : ∀ x ∈ t.takeWhile isDigitOctet, isDigitOctet x = true := fun x hx =>
      List.all_eq_true.mp List.all_takeWhile x hx
    have hsplit : t = t.takeWhile isDigitOctet ++ t.dropWhile isDigitOctet := List.takeWhile_append_dropWhile.symm
    have hstop : ∀ b u, t.dropWhile isDigitOctet = b :: u → isDigitOctet b = false := fun b u he => by
      have := List.head_dropWhile_not isDigitOctet (l := t) (by rw [he]; exact nofun)
      simpa [he] using this
    revert h hall hsplit hstop
    generalize t.takeWhile isDigitOctet = ds
    generalize t.dropWhile isDigitOctet = r'
    intro h hall hsplit hstop
    simp only at h
    split at h
    · exact nomatch h
    rename_i hne
    split at h
    · exact nomatch h
    split at h
    · exact nomatch h
    rename_i hz
    split at h
    · exact nomatch h
    rename_i hv
    obtain ⟨rfl, rfl⟩ := Prod.mk.inj (Option.some.inj h)
    obtain ⟨k, hk⟩ := run_shape ds hne hall
    refine ⟨by omega, ?_, hstop⟩
    cases k with
    | zero => rw [hsplit]; exact congrArg (· ++ _) hk
    | succ k =>
      exfalso
      apply hz
      have hd : (decimal (runValue ds)) ≠ [] := (decimal_word _).1
      have hlen : 0 < (decimal (runValue ds)).length := List.length_pos_iff.mpr hd
      have h1 : ds.length > 1 := by
        rw [hk, List.length_append, List.length_replicate]; omega
      have h2 : ds.head? = some 48 := by rw [hk]; rfl
      simp [h1, h2]
  · intro ⟨hn, ht, hr⟩
    obtain ⟨d1, d2, d3⟩ := decimal_facts n
    obtain ⟨t1, t2⟩ := takeWhile_run d1 hr
    have hl := decimal_octet_length n hn
    unfold readNumber
    rw [ht]
    simp only [t1, t2, d2]
    rw [if_neg (decimal_word n).1, if_neg (by simp; omega), if_neg, if_neg (by omega)]
    simp only [Bool.not_false, Bool.true_and, Bool.and_eq_true, beq_iff_eq, decide_eq_true_eq, not_and]
    intro h
    have := d3 h
    omega

/-- what `readNumber` reads for a port at the end: the number, after zeros -/
theorem readNumber_port (t r : Text) (n : Nat) : readNumber 65535 none true t = some (n, r) ↔
    n < 65536 ∧ (∃ k, t = List.replicate k 48 ++ decimal n ++ r) ∧ ∀ b u, r = b :: u → isDigitOctet b = false := by
  constructor
  · intro h
    unfold readNumber at h
    have hall : ∀ x ∈ t.takeWhile isDigitOctet, isDigitOctet x = true := fun x hx =>
      List.all_eq_true.mp List.all_takeWhile x hx
    have hsplit : t = t.takeWhile isDigitOctet ++ t.dropWhile isDigitOctet := List.takeWhile_append_dropWhile.symm
    have hstop : ∀ b u, t.dropWhile isDigitOctet = b :: u → isDigitOctet b = false := fun b u he => by
      have := List.head_dropWhile_not isDigitOctet (l := t) (by rw [he]; exact nofun)
      simpa [he] using this
    revert h hall hsplit hstop
    generalize t.takeWhile isDigitOctet = ds
    generalize t.dropWhile isDigitOctet = r'
    intro h hall hsplit hstop
    simp only [Option.any_none, Bool.false_eq_true, if_false, Bool.not_true, Bool.false_and] at h
    split at h
    · exact nomatch h
    rename_i hne
    split at h
    · exact nomatch h
    rename_i hv
    obtain ⟨rfl, rfl⟩ := Prod.mk.inj (Option.some.inj h)
    obtain ⟨k, hk⟩ := run_shape ds hne hall
    exact ⟨by omega, ⟨k, by rw [hsplit]; exact congrArg (· ++ _) hk⟩, hstop⟩
  · intro ⟨hn, ⟨k, ht⟩, hr⟩
    obtain ⟨d1, d2, -⟩ := decimal_facts n
    have hall : ∀ x ∈ List.replicate k 48 ++ decimal n, isDigitOctet x = true := fun x hx => by
      rcases List.mem_append.mp hx with hx | hx
      · rw [(List.mem_replicate.mp hx).2]; rfl
      · exact d1 x hx
    obtain ⟨t1, t2⟩ := takeWhile_run hall hr
    unfold readNumber
    rw [ht]
    simp only [t1, t2, runValue_zeros, d2]
    rw [if_neg (by simp [(decimal_word n).1]), if_neg (by simp), if_neg (by simp), if_neg (by omega)]

theorem readChar_some {c : UInt8} {t r : Text} : readChar c t = some r ↔ t = c :: r := by
  cases t with
  | nil => simp [readChar]
  | cons b t =>
    by_cases h : b = c <;> simp [readChar, h]

end Dis
