/-
Core of the model: byte buffers, panics, and the two-way monad in which the crate's
`serialize` / `deserialize` functions are transcribed.

What is modelled here is *not* code of /repo but the contract of the things /repo calls:
the `bytes` crate (`Buf`, `BufMut`, `BytesMut`) and Rust's panics.  See DESIGN.md, "Trusted base".
-/
namespace Dis

deriving instance DecidableEq for Except

/-- A byte buffer.  Models `BytesMut` (as an output: bytes written so far) and any `Buf`
(as an input: the bytes that remain). -/
abbrev Bytes := List UInt8

/-- The build profile: `overflow-checks` is on in debug builds and off in release builds.
Only `record_length * record_count` (src/common/data_types/record_specification_element.rs:42,53)
depends on it. -/
structure Profile where
  overflowChecks : Bool
  deriving DecidableEq, Repr

/-- The ways the modelled code can panic. -/
inductive Panic where
  /-- `Buf::get_*` with too few bytes remaining -/
  | bufferUnderflow
  /-- slice index out of range -/
  | indexOutOfBounds
  /-- arithmetic overflow with overflow checks on -/
  | arithmeticOverflow
  /-- `Option/Result::expect` on `None`/`Err` -/
  | expectFailed
  /-- `unimplemented!()` -/
  | unimplemented
  /-- a `modular_bitfield` setter given a value that does not fit -/
  | bitfieldOutOfBounds
  deriving DecidableEq, Repr

/-- What a computation does to the buffer or to memory, step by step. -/
inductive Event where
  /-- octets appended to the output -/
  | put (w : Bytes)
  /-- octets taken off the front of the input -/
  | took (n : Nat)
  /-- memory reserved for `n` elements in advance of reading them (`Vec::with_capacity`, `vec![0; n]`) -/
  | reserve (n : Nat)
  deriving DecidableEq, Repr

/-- The buffer after one step. -/
def Event.apply : Event → Bytes → Bytes
  | .put w, b => b ++ w
  | .took n, b => b.drop n
  | .reserve _, b => b

/-- The buffer after all the steps. -/
def replay (log : List Event) (b : Bytes) : Bytes := log.foldl (fun b e => e.apply b) b

theorem replay_append (l l' : List Event) (b : Bytes) : replay (l ++ l') b = replay l' (replay l b) :=
  List.foldl_append ..

/-- A computation on one `&mut` buffer that may panic.  `run` is its result, with the buffer if it does not panic; `log`
is what it does, until it ends or panics.  The two agree (`sound`): without a panic, the steps lead to the buffer of
`run`. -/
structure M (α : Type) : Type where
  run : Profile → Bytes → Except Panic (α × Bytes)
  log : Profile → Bytes → List Event
  sound : ∀ prof b a b', run prof b = .ok (a, b') → replay (log prof b) b = b'

instance {α : Type} : CoeFun (M α) (fun _ => Profile → Bytes → Except Panic (α × Bytes)) := ⟨M.run⟩

/-- Readers: the state is the *remaining input*. -/
abbrev Get (α : Type) := M α
/-- Writers: the state is the *output so far*. -/
abbrev Put := M Unit

namespace M

def pure {α : Type} (a : α) : M α where
  run _ b := .ok (a, b)
  log _ _ := []
  sound _ _ _ _ h := by cases h; rfl

def bind {α β : Type} (m : M α) (f : α → M β) : M β where
  run prof b :=
    match m prof b with
    | .error e => .error e
    | .ok (a, b') => f a prof b'
  log prof b := m.log prof b ++
    match m prof b with
    | .error _ => []
    | .ok (a, b') => (f a).log prof b'
  sound prof b a b' h := by
    rw [replay_append]
    cases hm : m.run prof b with
    | error e => rw [hm] at h; cases h
    | ok r =>
      rw [hm] at h
      rw [m.sound prof b r.1 r.2 hm]
      exact (f r.1).sound _ _ _ _ h

instance : Monad M where
  pure := M.pure
  bind := M.bind

theorem pure_run {α : Type} (a : α) (prof : Profile) (b : Bytes) :
    (Pure.pure a : M α) prof b = .ok (a, b) := rfl

theorem bind_run {α β : Type} (m : M α) (f : α → M β) (prof : Profile) (b : Bytes) :
    (m >>= f) prof b =
      match m prof b with
      | .error e => .error e
      | .ok (a, b') => f a prof b' := rfl

theorem ext {α : Type} {m m' : M α} (h : ∀ prof b, m.run prof b = m'.run prof b)
    (hl : ∀ prof b, m.log prof b = m'.log prof b) : m = m' := by
  cases m; cases m'
  have h1 := funext fun prof => funext (h prof)
  have h2 := funext fun prof => funext (hl prof)
  dsimp only at h1 h2
  subst h1 h2
  rfl

theorem pure_log {α : Type} (a : α) (prof : Profile) (b : Bytes) : (Pure.pure a : M α).log prof b = [] := rfl

theorem bind_log {α β : Type} (m : M α) (f : α → M β) (prof : Profile) (b : Bytes) :
    (m >>= f).log prof b = m.log prof b ++
      match m prof b with
      | .error _ => []
      | .ok (a, b') => (f a).log prof b' := rfl

/-- Raise a panic. -/
def panic {α : Type} (e : Panic) : M α where
  run _ _ := .error e
  log _ _ := []
  sound _ _ _ _ h := by cases h

/-- Reserve memory in advance. -/
def reserve (n : Nat) : M Unit where
  run _ b := .ok ((), b)
  log _ _ := [.reserve n]
  sound _ _ _ _ h := by cases h; rfl

/-- The buffer when the computation ends, be it by a panic. -/
def left {α : Type} (m : M α) (prof : Profile) (b : Bytes) : Bytes := replay (m.log prof b) b

end M

/-! ### Integers on the wire -/

/-- Big-endian octets of `v`, `n` of them, most significant first (`BufMut::put_uN`). -/
def beBytes : Nat → Nat → Bytes
  | 0, _ => []
  | n + 1, v => UInt8.ofNat (v / 256 ^ n) :: beBytes n v

/-- The number denoted by big-endian octets (`Buf::get_uN`). -/
def beVal (w : Bytes) : Nat := w.foldl (fun acc b => acc * 256 + b.toNat) 0

/-- `BufMut::put_slice`, and the common core of all `put_*`: append. -/
def putBytes (w : Bytes) : Put where
  run _ b := .ok ((), b ++ w)
  log _ _ := [.put w]
  sound _ _ _ _ h := by cases h; rfl

/-- Common core of all `get_*`: take `n` bytes off the front or panic. -/
def getBytes (n : Nat) : Get Bytes where
  run _ b := if b.length < n then .error .bufferUnderflow else .ok (b.take n, b.drop n)
  log _ b := if b.length < n then [] else [.took n]
  sound _ b _ _ h := by
    split at h
    · cases h
    · rename_i hn; cases h; rw [if_neg hn]; rfl

/-- `f32`, represented by its bit pattern (`to_bits`). -/
structure F32 where
  bits : UInt32
  deriving DecidableEq, Repr

/-- `f64`, represented by its bit pattern (`to_bits`). -/
structure F64 where
  bits : UInt64
  deriving DecidableEq, Repr

def putU8 (v : UInt8) : Put := putBytes (beBytes 1 v.toNat)
def putU16 (v : UInt16) : Put := putBytes (beBytes 2 v.toNat)
def putU32 (v : UInt32) : Put := putBytes (beBytes 4 v.toNat)
def putU64 (v : UInt64) : Put := putBytes (beBytes 8 v.toNat)
def putI8 (v : Int8) : Put := putU8 v.toUInt8
def putI16 (v : Int16) : Put := putU16 v.toUInt16
def putI32 (v : Int32) : Put := putU32 v.toUInt32
def putI64 (v : Int64) : Put := putU64 v.toUInt64
def putF32 (v : F32) : Put := putU32 v.bits
def putF64 (v : F64) : Put := putU64 v.bits

def getU8 : Get UInt8 := do return UInt8.ofNat (beVal (← getBytes 1))
def getU16 : Get UInt16 := do return UInt16.ofNat (beVal (← getBytes 2))
def getU32 : Get UInt32 := do return UInt32.ofNat (beVal (← getBytes 4))
def getU64 : Get UInt64 := do return UInt64.ofNat (beVal (← getBytes 8))
def getI8 : Get Int8 := do return (← getU8).toInt8
def getI16 : Get Int16 := do return (← getU16).toInt16
def getI32 : Get Int32 := do return (← getU32).toInt32
def getI64 : Get Int64 := do return (← getU64).toInt64
def getF32 : Get F32 := do return ⟨← getU32⟩
def getF64 : Get F64 := do return ⟨← getU64⟩

/-- `Buf::remaining` -/
def remaining : Get Nat where
  run _ b := .ok (b.length, b)
  log _ _ := []
  sound _ _ _ _ h := by cases h; rfl

/-- `for x in xs { put(x) }` -/
def putEach {α : Type} (put : α → Put) : List α → Put
  | [] => pure ()
  | x :: xs => do put x; putEach put xs

/-- `for _ in 0..n { v.push(get()) }` -/
def getN {α : Type} (get : Get α) : Nat → Get (List α)
  | 0 => pure []
  | n + 1 => do
    let x ← get
    let xs ← getN get n
    return x :: xs

/-- `while buf.has_remaining() { v.push(buf.get_u8()) }`.
Transcribed directly as its effect: every remaining byte is taken, in order.  `getRest_loop`
(Properties/Size) proves that this is the loop. -/
def getRest : Get Bytes where
  run _ b := .ok (b, [])
  log _ b := List.replicate b.length (.took 1)
  sound _ b _ _ h := by
    cases h
    induction b with
    | nil => rfl
    | cons x b ih => exact ih

/-- A Rust array `[T; n]`. -/
structure Arr (α : Type) (n : Nat) where
  toList : List α
  size_eq : toList.length = n

instance {α : Type} [DecidableEq α] {n : Nat} : DecidableEq (Arr α n) := fun a b =>
  if h : a.toList = b.toList then .isTrue (by cases a; cases b; cases h; rfl)
  else .isFalse (fun e => h (congrArg _ e))

namespace Arr
theorem ext {α : Type} {n : Nat} {a b : Arr α n} (h : a.toList = b.toList) : a = b := by
  cases a; cases b; cases h; rfl
/-- `[x; n]` -/
def replicate {α : Type} (n : Nat) (x : α) : Arr α n := ⟨List.replicate n x, by simp⟩
end Arr

/-- `for x in &mut arr { *x = get() }` over an array of `n` elements. -/
def getArr {α : Type} (get : Get α) : (n : Nat) → Get (Arr α n)
  | 0 => pure ⟨[], rfl⟩
  | n + 1 => do
    let x ← get
    let xs ← getArr get n
    return ⟨x :: xs.toList, by simp [xs.size_eq]⟩

end Dis
