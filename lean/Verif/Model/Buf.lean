import Verif.Core.Basic
/-
Sources of octets other than one contiguous slice.  Every `deserialize` of /repo is generic: `fn deserialize<B: Buf>(buf:
&mut B)` (src/common/pdu.rs:38-50, src/pdu_macro.rs:19-21, 30-32, 326, 345).  The rest of the model takes the source to be a list
of octets; this file models the interface itself.

What is modelled here is not code of /repo but of the `bytes` crate (Cargo.toml asks for 1.8.0): the trait `Buf` with the
default bodies of its `get_*` methods, and the implementors `&[u8]`, `Chain` and `Take`.
-/
namespace Dis

/-- An implementation of `Buf`: its three required methods.  `S` is the implementing type.  (`advance` panics beyond
`remaining`; no caller here goes there, and nothing is said about its value then.) -/
structure Buf (S : Type) where
  remaining : S → Nat
  chunk : S → Bytes
  advance : S → Nat → S

namespace Buf

/-- The documented contract of `Buf`, for a source that holds the octets `octets s`: `remaining` is their number; `chunk`
is some of them from the front, and not empty unless all are; `advance` drops from the front. -/
structure Holds {S : Type} (B : Buf S) (octets : S → Bytes) : Prop where
  remaining_eq : ∀ s, B.remaining s = (octets s).length
  chunk_front : ∀ s, ∃ more, octets s = B.chunk s ++ more
  chunk_some : ∀ s, octets s ≠ [] → B.chunk s ≠ []
  advance_eq : ∀ s n, n ≤ (octets s).length → octets (B.advance s n) = (octets s).drop n

/-- The loop of `Buf::copy_to_slice`: `n` octets are still wanted.  `fuel` bounds the rounds; with a source that keeps the
contract each round yields an octet, so that `fuel = n` is enough (`Holds.copy`, Proofs/Buf). -/
def copy {S : Type} (B : Buf S) : (fuel n : Nat) → S → Bytes × S
  | 0, _, s => ([], s)
  | fuel + 1, n, s =>
    if n = 0 then ([], s)
    else
      let src := B.chunk s
      let cnt := min src.length n
      let r := B.copy fuel (n - cnt) (B.advance s cnt)
      (src.take cnt ++ r.1, r.2)

/-- `Buf::get_u8` to `get_f64`, up to the conversion of the octets: panic if there are too few; take them from the chunk
if it has enough; copy them piece by piece otherwise. -/
def get {S : Type} (B : Buf S) (n : Nat) (s : S) : Except Panic Bytes × S :=
  if B.remaining s < n then (.error .bufferUnderflow, s)
  else if n ≤ (B.chunk s).length then (.ok ((B.chunk s).take n), B.advance s n)
  else
    let r := B.copy n n s
    (.ok r.1, r.2)

/-- `impl Buf for &[u8]`; `Bytes`, `BytesMut` and `Cursor` do the same. -/
def slice : Buf Bytes where
  remaining := List.length
  chunk s := s
  advance s n := s.drop n

/-- `impl Buf for Chain<T, U>` -/
def chain {S T : Type} (A : Buf S) (B : Buf T) : Buf (S × T) where
  remaining s := A.remaining s.1 + B.remaining s.2
  chunk s := if A.remaining s.1 ≠ 0 then A.chunk s.1 else B.chunk s.2
  advance s n :=
    let r := A.remaining s.1
    if r ≠ 0 then
      if n ≤ r then (A.advance s.1 n, s.2)
      else (A.advance s.1 r, B.advance s.2 (n - r))
    else (s.1, B.advance s.2 n)

/-- `impl Buf for Take<T>`: the source and the limit -/
def take {S : Type} (A : Buf S) : Buf (S × Nat) where
  remaining s := min (A.remaining s.1) s.2
  chunk s := (A.chunk s.1).take (min (A.chunk s.1).length s.2)
  advance s n := (A.advance s.1 n, s.2 - n)

/-- The type of `a.chain(b.chain(c. ... ))` over slices -/
def Segments : Nat → Type
  | 0 => Bytes
  | n + 1 => Bytes × Segments n

/-- ... its `Buf` -/
def segments : (n : Nat) → Buf (Segments n)
  | 0 => slice
  | n + 1 => chain slice (segments n)

/-- The octets of the segments, one after the other. -/
def Segments.octets : (n : Nat) → Segments n → Bytes
  | 0, s => s
  | n + 1, s => s.1 ++ Segments.octets n s.2

end Buf

/-- A decoder that is written against `Buf` and uses no more of it than `get_*` and `remaining` (or `has_remaining`, which
is `remaining() > 0`): what it does next depends on nothing but the octets and numbers it has got.  It may reserve
memory and it may panic. -/
inductive Prog (α : Type) : Type where
  | ret (a : α)
  | panic (e : Panic)
  | get (n : Nat) (k : Bytes → Prog α)
  | remaining (k : Nat → Prog α)
  | reserve (n : Nat) (k : Prog α)

namespace Prog

/-- The program on a source: its result, and the source afterwards, also after a panic. -/
def on {α S : Type} (B : Buf S) : Prog α → S → Except Panic α × S
  | ret a, s => (.ok a, s)
  | panic e, s => (.error e, s)
  | get n k, s =>
    match B.get n s with
    | (.error e, s') => (.error e, s')
    | (.ok w, s') => (k w).on B s'
  | remaining k, s => (k (B.remaining s)).on B s
  | reserve _ k, s => k.on B s

/-- The program in terms of the primitives in which the decoders of the model are written. -/
def m {α : Type} : Prog α → M α
  | ret a => pure a
  | panic e => M.panic e
  | get n k => getBytes n >>= fun w => (k w).m
  | remaining k => Dis.remaining >>= fun n => (k n).m
  | reserve n k => M.reserve n >>= fun _ => k.m

end Prog
end Dis
