import Verif.Trace.Nom
import Verif.Api
import Verif.Equality

/-!
# Spans and parse results

`Span` is `nom_locate::LocatedSpan<&str>` (`/repo/src/parsers/mod.rs:105-106`; `/repo/Cargo.toml:24` asks
for nom_locate 4.2.0). It knows how many bytes and lines lie in front of it. The numbers are updated
whenever a parser cuts something off the front, from the bytes that were cut off.

Line numbers are `u32` and offsets `usize` in Rust. That they do not overflow is assumed, i.e. texts have
less than 2^32 lines.
-/

namespace Pddl

/-- The bytes of a text, `str::as_bytes`. -/
def utf8 (s : List Char) : List UInt8 := s.flatMap String.utf8EncodeChar

/-- `LocatedSpan`: its fields `offset`, `line` and `fragment`. -/
structure Span where
  offset : Nat
  line : Nat
  fragment : List Char
  deriving DecidableEq, Repr

namespace Span

/-- `LocatedSpan::new`, also `From<&str>`, by which `T::parse(text)` makes its span
(`/repo/src/parsers/mod.rs:90`). -/
def new (s : List Char) : Span := ⟨0, 1, s⟩

/-- `LocatedSpan::slice(n..)`, by which all primitive parsers of nom cut off what they have consumed. The
argument counts characters here. The line feeds are counted among the bytes (`Memchr`). -/
def slice (x : Span) (n : Nat) : Span :=
  let consumed := utf8 (x.fragment.take n)
  if consumed.length = 0 then ⟨x.offset, x.line, x.fragment.drop n⟩
  else ⟨x.offset + consumed.length, x.line + consumed.count 10, x.fragment.drop n⟩

/-- `memchr::memrchr`: where a byte occurs last. -/
def memrchr (b : UInt8) (l : List UInt8) : Option Nat :=
  (l.reverse.findIdx? (· == b)).map fun i => l.length - 1 - i

/-- `LocatedSpan::get_columns_and_bytes_before`. It reads the `offset` bytes that lie in memory in front
of the fragment; `memory` are all bytes in front of it. -/
def columnsAndBytesBefore (x : Span) (memory : List UInt8) : Nat × List UInt8 :=
  let before := memory.drop (memory.length - x.offset)
  let column := match memrchr 10 before with
    | none => x.offset + 1
    | some pos => x.offset - pos
  (column, before.drop (x.offset - (column - 1)))

/-- `LocatedSpan::get_column`, in bytes. -/
def getColumn (x : Span) (memory : List UInt8) : Nat := (x.columnsAndBytesBefore memory).1

/-- `bytecount::num_chars`: the bytes that do not continue a character. -/
def numChars (l : List UInt8) : Nat := l.countP fun b => b.toNat / 64 != 2

/-- `LocatedSpan::get_utf8_column`, in characters. -/
def getUtf8Column (x : Span) (memory : List UInt8) : Nat :=
  numChars (x.columnsAndBytesBefore memory).2 + 1

end Span

/-! ## Results of parsers on spans -/

/-- `ParseResult` with its spans, `/repo/src/parsers/mod.rs:108-112`. -/
inductive Located (α : Type) where
  | ok (a : α) (rest : Span)
  | err (e : List (Span × E.Kind))
  | fail (e : List (Span × E.Kind))
  | panic
  | oof

/-- A parser on a span. The positions of `Verif/Trace/` are the texts remaining there; the span of a
position is what is left when everything in front of it is cut off. The program cuts in many small
steps, here it is one (simplification; `C96_steps` says that steps do not matter). -/
def located (p : E.P α) (x : Span) : Located α :=
  let at_ (r : List Char) : Span := x.slice (x.fragment.length - r.length)
  match p x.fragment with
  | .ok a r => .ok a (at_ r)
  | .err e => .err (e.map fun y => (at_ y.rest, y.kind))
  | .fail e => .fail (e.map fun y => (at_ y.rest, y.kind))
  | .panic => .panic
  | .oof => .oof

/-- `UnwrapValue::unwrap_value`, `/repo/src/parsers/test_helpers.rs:19-21`, of the result of a parser;
`none` is the panic of `expect`. A parser that panicked has no result. -/
def unwrapValue : Res α → Option α
  | .ok a _ => some a
  | _ => none

/-- `UnwrapValue::is_value`, `/repo/src/parsers/test_helpers.rs:23-28`. -/
def Parsable.isValue (k : Parsable) (x : Res k.Item) (v : k.Item) : Bool :=
  match x with
  | .ok a _ => k.same a v
  | _ => false

end Pddl
