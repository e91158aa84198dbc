import Verif.Nom

/-!
# The nom combinators with error payloads

`Verif/Nom.lean` forgets what an error carries. Here the same combinators keep it. The crate uses
`ParseError = nom_greedyerror::GreedyError<Span, nom::error::ErrorKind>`
(`/repo/src/parsers/mod.rs:108-109`): a list of pairs of a position and a kind, the error raised
first in front. A position is a `Span`; it is represented by the text remaining at it, from which
the byte offset and the line follow (`Verif/Spec/Position.lean`).

`Verif/Meta/Erase.lean` proves that forgetting the payloads gives the parsers of
`Verif/Parsers.lean` back.
-/

namespace Pddl.E
open Pddl

/-- `nom_greedyerror::GreedyErrorKind`: the kinds that the combinators used by the crate raise.
`char` is `GreedyErrorKind::Char`, the others are `GreedyErrorKind::Nom` of the kind of that name. -/
inductive Kind where
  | tag | alpha | digit | multiSpace | isNot | alt | many0 | manyMN | separatedList
  | char (c : Char)
  deriving Repr, DecidableEq

/-- One entry `(Span, GreedyErrorKind)` of an error. -/
structure Entry where
  /-- the text remaining at the position -/
  rest : List Char
  kind : Kind
  deriving Repr, DecidableEq

/-- `nom_greedyerror::GreedyError`: the field `errors`. -/
abbrev Trace := List Entry

/-- `GreedyError::from_error_kind`, `GreedyError::from_char` and `nom::error_position!`. -/
def Trace.raise (s : List Char) (k : Kind) : Trace := [⟨s, k⟩]

/-- `GreedyError::append`: the new entry is pushed at the end. -/
def Trace.append (s : List Char) (k : Kind) (e : Trace) : Trace := e ++ [⟨s, k⟩]

/-- `GreedyError::or`: `other` is kept if its first entry lies further in the text (fewer
characters remain), `e` otherwise. -/
def Trace.or (e other : Trace) : Trace := match e, other with
  | x :: _, y :: _ => if y.rest.length < x.rest.length then other else e
  | _, _ => e

/-- Outcome of a parser call, as in `Verif/Nom.lean`, with the payloads of the two errors. -/
inductive Res (α : Type) where
  | ok (a : α) (rest : List Char)
  | err (e : Trace)
  | fail (e : Trace)
  | panic
  | oof
  deriving Repr, DecidableEq

/-- A parser: `FnMut(Span) -> IResult<Span, α, ParseError>`. -/
abbrev P (α : Type) := List Char → Res α

/-- Rust's `?` on a parser result. -/
def Res.bind {α β : Type} (x : Res α) (f : α → List Char → Res β) : Res β :=
  match x with
  | .ok a r => f a r
  | .err e => .err e
  | .fail e => .fail e
  | .panic => .panic
  | .oof => .oof

/-- nom `combinator::map`. -/
def map (f : α → β) (p : P α) : P β := fun s => (p s).bind fun a r => .ok (f a) r

/-- nom `combinator::map` with a function that panics where `f` is `none`
(`.expect(..)`, `assert!`). -/
def mapExpect (f : α → Option β) (p : P α) : P β := fun s =>
  (p s).bind fun a r => match f a with
    | some b => .ok b r
    | none => .panic

/-- nom `combinator::value`. -/
def value (b : β) (p : P α) : P β := map (fun _ => b) p

/-- nom `sequence::pair`; longer `tuple`s are nested pairs. -/
def pair (p : P α) (q : P β) : P (α × β) := fun s =>
  (p s).bind fun a r => (q r).bind fun b r' => .ok (a, b) r'

/-- nom `sequence::preceded`. -/
def preceded (p : P α) (q : P β) : P β := fun s => (p s).bind fun _ r => q r

/-- nom `sequence::terminated`. -/
def terminated (p : P α) (q : P β) : P α := fun s =>
  (p s).bind fun a r => (q r).bind fun _ r' => .ok a r'

/-- nom `sequence::delimited`. -/
def delimited (p : P α) (q : P β) (t : P γ) : P β := preceded p (terminated q t)

/-- The alternatives of nom `branch::alt` after the first one: `e` is the error so far
(`err.or(e)`); at the end `ErrorKind::Alt` is appended at the input. -/
def altLoop : List (P α) → Trace → P α
  | [], e => fun s => .err (e.append s .alt)
  | p :: ps, e => fun s => match p s with
    | .err e' => altLoop ps (e.or e') s
    | .ok a r => .ok a r
    | .fail e' => .fail e'
    | .panic => .panic
    | .oof => .oof

/-- nom `branch::alt`: the next alternative is tried only on a recoverable error. There is no empty
`alt` in the crate. -/
def alt : List (P α) → P α
  | [] => fun s => .err (.raise s .alt)
  | p :: ps => fun s => match p s with
    | .err e => altLoop ps e s
    | .ok a r => .ok a r
    | .fail e => .fail e
    | .panic => .panic
    | .oof => .oof

/-- nom `combinator::opt`: a recoverable error becomes `None` at the original input; its payload is
dropped. -/
def opt (p : P α) : P (Option α) := fun s => match p s with
  | .ok a r => .ok (some a) r
  | .err _ => .ok none s
  | .fail e => .fail e
  | .panic => .panic
  | .oof => .oof

/-- nom `combinator::recognize`: the consumed part of the input. -/
def recognize (p : P α) : P (List Char) := fun s =>
  (p s).bind fun _ r => .ok (s.take (s.length - r.length)) r

/-- The loop of nom `multi::many0`. -/
def many0Loop (p : P α) : Nat → P (List α)
  | 0 => fun _ => .oof
  | n + 1 => fun s => match p s with
    | .err _ => .ok [] s
    | .ok a r =>
      if r.length = s.length then .err (.raise s .many0)
      else (many0Loop p n r).bind fun as r' => .ok (a :: as) r'
    | .fail e => .fail e
    | .panic => .panic
    | .oof => .oof

/-- nom `multi::many0`. -/
def many0 (p : P α) : P (List α) := fun s => many0Loop p (s.length + 1) s

/-- nom `multi::many_m_n` with bounds `0, 1`. -/
def many01 (p : P α) : P (List α) := fun s => match p s with
  | .err _ => .ok [] s
  | .ok a r => if r.length = s.length then .err (.raise s .manyMN) else .ok [a] r
  | .fail e => .fail e
  | .panic => .panic
  | .oof => .oof

/-- The loop shared by nom `multi::separated_list0` and `separated_list1`. -/
def sepLoop (sep : P β) (p : P α) : Nat → P (List α)
  | 0 => fun _ => .oof
  | n + 1 => fun s => match sep s with
    | .err _ => .ok [] s
    | .ok _ r =>
      if r.length = s.length then .err (.raise r .separatedList)
      else match p r with
        | .err _ => .ok [] s
        | .ok a r' => (sepLoop sep p n r').bind fun as r'' => .ok (a :: as) r''
        | .fail e => .fail e
        | .panic => .panic
        | .oof => .oof
    | .fail e => .fail e
    | .panic => .panic
    | .oof => .oof

/-- nom `multi::separated_list0`. -/
def sepList0 (sep : P β) (p : P α) : P (List α) := fun s => match p s with
  | .err _ => .ok [] s
  | .ok a r => (sepLoop sep p (r.length + 1) r).bind fun as r' => .ok (a :: as) r'
  | .fail e => .fail e
  | .panic => .panic
  | .oof => .oof

/-- nom `multi::separated_list1`. -/
def sepList1 (sep : P β) (p : P α) : P (List α) := fun s =>
  (p s).bind fun a r => (sepLoop sep p (r.length + 1) r).bind fun as r' => .ok (a :: as) r'

/-- nom `bytes::complete::tag`. -/
def tag (t : List Char) : P (List Char) := fun s => match stripPrefix t s with
  | some r => .ok t r
  | none => .err (.raise s .tag)

/-- nom `character::complete::char`. -/
def char (c : Char) : P Char := fun s => match s with
  | d :: r => if d = c then .ok c r else .err (.raise (d :: r) (.char c))
  | [] => .err (.raise [] (.char c))

/-- The longest prefix satisfying `f`, possibly empty (`split_at_position_complete`). -/
def takeWhile0 (f : Char → Bool) : P (List Char) := fun s => .ok (s.takeWhile f) (s.dropWhile f)

/-- The longest non-empty prefix satisfying `f` (`split_at_position1_complete` with the kind `k`). -/
def takeWhile1 (k : Kind) (f : Char → Bool) : P (List Char) := fun s =>
  if s.takeWhile f = [] then .err (.raise s k) else .ok (s.takeWhile f) (s.dropWhile f)

/-- nom `character::complete::multispace0`. -/
def multispace0 : P (List Char) := takeWhile0 isSpace

/-- nom `character::complete::multispace1`. -/
def multispace1 : P (List Char) := takeWhile1 .multiSpace isSpace

/-- nom `character::complete::alpha1`. -/
def alpha1 : P (List Char) := takeWhile1 .alpha isAlpha

/-- nom `character::complete::digit1`. -/
def digit1 : P (List Char) := takeWhile1 .digit isDigit

/-- nom `bytes::complete::is_not`: the longest non-empty prefix without the given characters. -/
def isNot (cs : List Char) : P (List Char) := takeWhile1 .isNot fun c => !cs.contains c

/-- The loop of nom `character::complete::u64`; `i` is the whole input, at which an overflow is
reported. -/
def u64Loop (i : List Char) (v : Nat) : P Nat
  | [] => .ok v []
  | c :: s =>
    if isDigit c then
      let v' := v * 10 + digitVal c
      if v' < 2 ^ 64 then u64Loop i v' s else .err (.raise i .digit)
    else .ok v (c :: s)

/-- nom `character::complete::u64`. -/
def u64 : P Nat
  | [] => .err (.raise [] .digit)
  | c :: s => if isDigit c then u64Loop (c :: s) 0 (c :: s) else .err (.raise (c :: s) .digit)

end Pddl.E
