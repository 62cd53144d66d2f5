import Verif.Spec.Predicates
/-
Compositional lemmas for the predicates of Verif.Spec.Predicates.
-/
namespace Dis

/-! ### Writes -/

theorem Writes.nil : Writes (pure ()) [] := by
  intro prof buf; simp [M.pure_run]

theorem Writes.bytes (w : Bytes) : Writes (putBytes w) w := fun _ _ => rfl

theorem Writes.seq {p q : Put} {w v : Bytes} (hp : Writes p w) (hq : Writes q v) :
    Writes (do p; q) (w ++ v) := by
  intro prof buf
  show (p >>= fun _ => q) prof buf = _
  rw [M.bind_run, hp prof buf]
  simp [hq prof (buf ++ w)]

theorem Writes.congr {p : Put} {w v : Bytes} (h : Writes p w) (e : w = v) : Writes p v := e ▸ h

theorem Writes.unique {p : Put} {w v : Bytes} (h : Writes p w) (h' : Writes p v) : w = v := by
  have h1 := h ⟨true⟩ []
  have h2 := h' ⟨true⟩ []
  rw [h1] at h2
  simpa using h2

theorem Writes.each {α : Type} {put : α → Put} {wire : α → Bytes} :
    ∀ (xs : List α), (∀ x ∈ xs, Writes (put x) (wire x)) → Writes (putEach put xs) (xs.flatMap wire)
  | [], _ => Writes.nil
  | x :: xs, h => by
    simpa [putEach] using
      Writes.seq (h x (by simp)) (Writes.each xs (fun y hy => h y (by simp [hy])))

/-! ### Reads -/

theorem Reads.ret {α : Type} (a : α) : Reads (pure a) [] a := fun _ _ => rfl

theorem Reads.bind {α β : Type} {g : Get α} {f : α → Get β} {w v : Bytes} {a : α} {b : β}
    (hg : Reads g w a) (hf : Reads (f a) v b) : Reads (g >>= f) (w ++ v) b := by
  intro prof rest
  rw [M.bind_run, List.append_assoc, hg prof (v ++ rest)]
  exact hf prof rest

theorem Reads.map {α β : Type} {g : Get α} {f : α → β} {w : Bytes} {a : α}
    (hg : Reads g w a) : Reads (do return f (← g)) w (f a) := by
  have := Reads.bind (f := fun x => (pure (f x) : Get β)) hg (Reads.ret (f a))
  simpa using this

theorem Reads.congr {α : Type} {g : Get α} {w v : Bytes} {a b : α} (h : Reads g w a)
    (e : w = v) (e' : a = b) : Reads g v b := e ▸ e' ▸ h

/-- Value-only variant of `bind` used for the final constructor application. -/
theorem Reads.last {α β : Type} {g : Get α} {f : α → Get β} {w : Bytes} {a : α} {b : β}
    (hg : Reads g w a) (hf : Reads (f a) [] b) : Reads (g >>= f) w b := by
  have := Reads.bind hg hf
  simpa using this

theorem Reads.reserve {α : Type} (n : Nat) {f : Unit → Get α} {w : Bytes} {a : α} (h : Reads (f ()) w a) :
    Reads (M.reserve n >>= f) w a := h

theorem Reads.run {α : Type} {g : Get α} {w : Bytes} {a : α} (h : Reads g w a) (prof : Profile) :
    g prof w = .ok (a, []) := by
  have := h prof []
  simpa using this

theorem Reads.n {α : Type} {get : Get α} {wire : α → Bytes} :
    ∀ (xs : List α), (∀ x ∈ xs, Reads get (wire x) x) → Reads (getN get xs.length) (xs.flatMap wire) xs
  | [], _ => Reads.ret []
  | x :: xs, h => by
    have ih := Reads.n xs (fun y hy => h y (by simp [hy]))
    have h1 : Reads (do let xs' ← getN get xs.length; return x :: xs') (xs.flatMap wire) (x :: xs) :=
      Reads.last ih (Reads.ret _)
    exact Reads.bind (f := fun x' => (do let xs' ← getN get xs.length; return x' :: xs'))
      (h x (by simp)) h1

theorem Reads.arr {α : Type} {get : Get α} {wire : α → Bytes} :
    ∀ (n : Nat) (xs : Arr α n), (∀ x, Reads get (wire x) x) →
      Reads (getArr get n) (xs.toList.flatMap wire) xs
  | 0, xs, _ => by
    obtain ⟨l, hl⟩ := xs
    have : l = [] := List.eq_nil_of_length_eq_zero hl
    subst this
    exact Reads.ret _
  | n + 1, xs, h => by
    obtain ⟨l, hl⟩ := xs
    cases l with
    | nil => simp at hl
    | cons x l =>
      have hl' : l.length = n := by simpa using hl
      have ih := Reads.arr n ⟨l, hl'⟩ h
      have h1 : Reads (do let xs' ← getArr get n
                          return (⟨x :: xs'.toList, by simp [xs'.size_eq]⟩ : Arr α (n + 1)))
          (l.flatMap wire) ⟨x :: l, hl⟩ := Reads.last ih (Reads.ret _)
      exact Reads.bind (f := fun x' => (do
          let xs' ← getArr get n
          return (⟨x' :: xs'.toList, by simp [xs'.size_eq]⟩ : Arr α (n + 1)))) (h x) h1

/-! ### Fixed -/

theorem Fixed.ret {α : Type} (a : α) : Fixed (pure a) 0 :=
  ⟨fun _ => a, fun _ b => by simp [M.pure_run]⟩

theorem Fixed.bytes (n : Nat) : Fixed (getBytes n) n :=
  ⟨id, fun _ _ => rfl⟩

theorem Fixed.bind {α β : Type} {g : Get α} {f : α → Get β} {n m : Nat}
    (hg : Fixed g n) (hf : ∀ a, Fixed (f a) m) : Fixed (g >>= f) (n + m) := by
  obtain ⟨vg, hg⟩ := hg
  have ⟨vf, hf⟩ : ∃ vf : α → Bytes → β, ∀ a prof b, f a prof b =
      if b.length < m then .error .bufferUnderflow else .ok (vf a (b.take m), b.drop m) :=
    ⟨fun a => (hf a).choose, fun a => (hf a).choose_spec⟩
  refine ⟨fun w => vf (vg (w.take n)) (w.drop n), fun prof b => ?_⟩
  rw [M.bind_run, hg prof b]
  by_cases h : b.length < n
  · simp [h, show b.length < n + m by omega]
  · simp only [h, if_false]
    rw [hf]
    by_cases h2 : b.length < n + m
    · simp [h2, show b.length - n < m by omega]
    · have h3 : ¬ b.length - n < m := by omega
      simp only [List.length_drop, h2, h3, if_false]
      simp [List.take_take, List.drop_take]

theorem Fixed.map {α β : Type} {g : Get α} {f : α → β} {n : Nat}
    (hg : Fixed g n) : Fixed (do return f (← g)) n := by
  have := Fixed.bind (f := fun x => (pure (f x) : Get β)) hg (fun a => Fixed.ret (f a))
  simpa using this

theorem Fixed.congr {α : Type} {g : Get α} {n m : Nat} (h : Fixed g n) (e : n = m) : Fixed g m :=
  e ▸ h

theorem Fixed.unique {α : Type} {g : Get α} {n m : Nat} (h : Fixed g n) (h' : Fixed g m) : n = m := by
  obtain ⟨f, h⟩ := h
  obtain ⟨f', h'⟩ := h'
  have a := h ⟨true⟩ (List.replicate n 0)
  have b := h' ⟨true⟩ (List.replicate n 0)
  have c := h ⟨true⟩ (List.replicate m 0)
  have d := h' ⟨true⟩ (List.replicate m 0)
  rw [a] at b
  rw [c] at d
  simp only [List.length_replicate, Nat.lt_irrefl, if_false] at b d
  by_cases h1 : n < m
  · simp [h1] at b
  · by_cases h2 : m < n
    · simp [h2] at d
    · omega

theorem Fixed.n {α : Type} {get : Get α} {k : Nat} (h : Fixed get k) :
    ∀ n, Fixed (getN get n) (n * k)
  | 0 => (Fixed.ret ([] : List α)).congr (by simp)
  | n + 1 => by
    have h2 : ∀ x : α, Fixed (do let xs ← getN get n; return x :: xs) (n * k) := fun x =>
      (Fixed.bind (f := fun xs => (pure (x :: xs) : Get (List α))) (Fixed.n h n)
        (fun a => Fixed.ret _)).congr (by simp)
    exact (Fixed.bind h h2).congr (by rw [Nat.succ_mul, Nat.add_comm])

theorem Fixed.arr {α : Type} {get : Get α} {k : Nat} (h : Fixed get k) :
    ∀ n, Fixed (getArr get n) (n * k)
  | 0 => (Fixed.ret (⟨[], rfl⟩ : Arr α 0)).congr (by simp)
  | n + 1 => by
    have h2 : ∀ x : α, Fixed (do
        let xs ← getArr get n
        return (⟨x :: xs.toList, by simp [xs.size_eq]⟩ : Arr α (n + 1))) (n * k) := fun x =>
      (Fixed.bind (f := fun xs : Arr α n => (pure (⟨x :: xs.toList, by simp [xs.size_eq]⟩ : Arr α (n + 1)) : Get _))
        (Fixed.arr h n) (fun a => Fixed.ret _)).congr (by simp)
    exact (Fixed.bind h h2).congr (by rw [Nat.succ_mul, Nat.add_comm])

theorem Fixed.run_short {α : Type} {g : Get α} {n : Nat} (h : Fixed g n) (prof : Profile) {b : Bytes}
    (hb : b.length < n) : g prof b = .error .bufferUnderflow := by
  obtain ⟨f, h⟩ := h
  simp [h, hb]

theorem Fixed.run_long {α : Type} {g : Get α} {n : Nat} (h : Fixed g n) (prof : Profile) {b : Bytes}
    (hb : n ≤ b.length) : ∃ a, g prof b = .ok (a, b.drop n) := by
  obtain ⟨f, h⟩ := h
  exact ⟨f (b.take n), by simp [h, Nat.not_lt.mpr hb]⟩

/-! ### Local, Consumes, OnlyUnderflow -/

theorem Local.consumes {α : Type} {g : Get α} (h : Local g) : Consumes g := by
  intro prof b a r e
  obtain ⟨u, hu, _⟩ := h prof b a r e
  exact ⟨u, hu⟩

theorem Fixed.local {α : Type} {g : Get α} {n : Nat} (h : Fixed g n) : Local g := by
  obtain ⟨f, h⟩ := h
  intro prof b a r e
  rw [h] at e
  by_cases hb : b.length < n
  · simp [hb] at e
  · simp only [hb, if_false, Except.ok.injEq, Prod.mk.injEq] at e
    refine ⟨b.take n, by rw [← e.2, List.take_append_drop], fun r' => ?_⟩
    have hl : (b.take n).length = n := by simp; omega
    rw [h]
    have h1 : ¬ (b.take n ++ r').length < n := by simp [hl]
    simp only [h1, if_false]
    rw [List.take_append_of_le_length (by omega), List.drop_append_of_le_length (by omega)]
    rw [List.take_of_length_le (by omega : (b.take n).length ≤ n), e.1]
    simp

theorem Local.ret {α : Type} (a : α) : Local (pure a) := (Fixed.ret a).local

theorem Local.bind {α β : Type} {g : Get α} {f : α → Get β}
    (hg : Local g) (hf : ∀ a, Local (f a)) : Local (g >>= f) := by
  intro prof b c r e
  rw [M.bind_run] at e
  cases hgb : g prof b with
  | error e' => simp [hgb] at e
  | ok v =>
    obtain ⟨a, r1⟩ := v
    simp only [hgb] at e
    obtain ⟨u1, hu1, h1⟩ := hg prof b a r1 hgb
    obtain ⟨u2, hu2, h2⟩ := hf a prof r1 c r e
    refine ⟨u1 ++ u2, by rw [hu1, hu2, List.append_assoc], fun r' => ?_⟩
    rw [M.bind_run, List.append_assoc, h1]
    exact h2 r'

theorem Local.n {α : Type} {get : Get α} (h : Local get) : ∀ n, Local (getN get n)
  | 0 => Local.ret _
  | n + 1 => Local.bind h (fun _ => Local.bind (Local.n h n) (fun _ => Local.ret _))

theorem Consumes.ret {α : Type} (a : α) : Consumes (pure a) := (Local.ret a).consumes

theorem Consumes.bind {α β : Type} {g : Get α} {f : α → Get β}
    (hg : Consumes g) (hf : ∀ a, Consumes (f a)) : Consumes (g >>= f) := by
  intro prof b c r e
  rw [M.bind_run] at e
  cases hgb : g prof b with
  | error e' => simp [hgb] at e
  | ok v =>
    obtain ⟨a, r1⟩ := v
    simp only [hgb] at e
    obtain ⟨u1, hu1⟩ := hg prof b a r1 hgb
    obtain ⟨u2, hu2⟩ := hf a prof r1 c r e
    exact ⟨u1 ++ u2, by rw [hu1, hu2, List.append_assoc]⟩

theorem Consumes.n {α : Type} {get : Get α} (h : Consumes get) : ∀ n, Consumes (getN get n)
  | 0 => Consumes.ret _
  | n + 1 => Consumes.bind h (fun _ => Consumes.bind (Consumes.n h n) (fun _ => Consumes.ret _))

theorem Consumes.remaining : Consumes remaining := by
  intro prof b a r e
  simp only [Dis.remaining, Except.ok.injEq, Prod.mk.injEq] at e
  exact ⟨[], by simp [e.2]⟩

theorem Consumes.rest : Consumes getRest := by
  intro prof b a r e
  simp only [getRest, Except.ok.injEq, Prod.mk.injEq] at e
  exact ⟨b, by simp [← e.2]⟩

theorem Fixed.onlyUnderflow {α : Type} {g : Get α} {n : Nat} (h : Fixed g n) : OnlyUnderflow g := by
  obtain ⟨f, h⟩ := h
  intro prof b e he
  rw [h] at he
  by_cases hb : b.length < n
  · simpa [hb] using he.symm
  · simp [hb] at he

theorem OnlyUnderflow.ret {α : Type} (a : α) : OnlyUnderflow (pure a) := (Fixed.ret a).onlyUnderflow

theorem OnlyUnderflow.bind {α β : Type} {g : Get α} {f : α → Get β}
    (hg : OnlyUnderflow g) (hf : ∀ a, OnlyUnderflow (f a)) : OnlyUnderflow (g >>= f) := by
  intro prof b e he
  rw [M.bind_run] at he
  cases hgb : g prof b with
  | error e' =>
    simp only [hgb, Except.error.injEq] at he
    exact he ▸ hg prof b e' hgb
  | ok v =>
    obtain ⟨a, r1⟩ := v
    simp only [hgb] at he
    exact hf a prof r1 e he

theorem OnlyUnderflow.n {α : Type} {get : Get α} (h : OnlyUnderflow get) :
    ∀ n, OnlyUnderflow (getN get n)
  | 0 => OnlyUnderflow.ret _
  | n + 1 => OnlyUnderflow.bind h (fun _ => OnlyUnderflow.bind (OnlyUnderflow.n h n) (fun _ => OnlyUnderflow.ret _))

theorem OnlyUnderflow.remaining : OnlyUnderflow remaining := by
  intro prof b e h; simp [Dis.remaining] at h

theorem OnlyUnderflow.rest : OnlyUnderflow getRest := by
  intro prof b e h; simp [getRest] at h

/-! ### Appends -/

theorem Writes.appends {p : Put} {w : Bytes} (h : Writes p w) : Appends p :=
  fun prof => .inr ⟨w, fun buf => h prof buf⟩

theorem Appends.panic (e : Panic) : Appends (M.panic e) := fun _ => .inl ⟨e, fun _ => rfl⟩

theorem Appends.seq {p q : Put} (hp : Appends p) (hq : Appends q) : Appends (do p; q) := by
  intro prof
  show (∃ e, ∀ buf, (p >>= fun _ => q) prof buf = .error e) ∨
    (∃ w, ∀ buf, (p >>= fun _ => q) prof buf = .ok ((), buf ++ w))
  rcases hp prof with ⟨e, h⟩ | ⟨w, h⟩
  · exact .inl ⟨e, fun buf => by rw [M.bind_run, h]⟩
  · rcases hq prof with ⟨e, h'⟩ | ⟨v, h'⟩
    · exact .inl ⟨e, fun buf => by rw [M.bind_run, h]; exact h' _⟩
    · exact .inr ⟨w ++ v, fun buf => by rw [M.bind_run, h]; simp [h']⟩

theorem Appends.each {α : Type} {put : α → Put} (h : ∀ x, Appends (put x)) :
    ∀ xs, Appends (putEach put xs)
  | [] => Writes.nil.appends
  | x :: xs => Appends.seq (h x) (Appends.each h xs)

/-! ### WritesIfOk -/

theorem Writes.ifOk {p : Put} {w : Bytes} (h : Writes p w) : WritesIfOk p w := by
  intro prof buf buf' e
  rw [h] at e
  simpa using e.symm

theorem WritesIfOk.panic (e : Panic) (w : Bytes) : WritesIfOk (M.panic e) w := by
  intro prof buf buf' h; cases h

theorem WritesIfOk.seq {p q : Put} {w v : Bytes} (hp : WritesIfOk p w) (hq : WritesIfOk q v) :
    WritesIfOk (do p; q) (w ++ v) := by
  intro prof buf buf' e
  have e : (p >>= fun _ => q) prof buf = .ok ((), buf') := e
  rw [M.bind_run] at e
  cases hpb : p prof buf with
  | error e' => simp [hpb] at e
  | ok r =>
    obtain ⟨⟨⟩, b1⟩ := r
    simp only [hpb] at e
    rw [hq prof b1 buf' e, hp prof buf b1 hpb, List.append_assoc]

theorem WritesIfOk.each {α : Type} {put : α → Put} {wire : α → Bytes} :
    ∀ (xs : List α), (∀ x ∈ xs, WritesIfOk (put x) (wire x)) → WritesIfOk (putEach put xs) (xs.flatMap wire)
  | [], _ => Writes.nil.ifOk
  | x :: xs, h => by
    simpa [putEach] using
      WritesIfOk.seq (h x (by simp)) (WritesIfOk.each xs (fun y hy => h y (by simp [hy])))

end Dis
