/-!
# The fragment of nom 7.1.3 used by pddl-rs

A parser takes the remaining input as a list of characters (the `fragment` of the
`nom_locate::LocatedSpan`; the payloads of errors are left out here and modelled in
`Verif/Trace/`) and returns an outcome.

`/repo/Cargo.toml` pins `nom = "7.1.3"`. Each combinator below states which nom
combinator it models. All nom parsers used by the crate are the `complete` ones, so
`nom::Err::Incomplete` never occurs and has no counterpart.
-/

namespace Pddl

/-- `c!"abc"` is the literal list `['a', 'b', 'c']`. -/
scoped syntax:max "c!" str : term

open Lean in
macro_rules
  | `(c! $s:str) => do
    let cs : Array (TSyntax `term) :=
      (s.getString.toList.map fun c => (⟨(Syntax.mkCharLit c).raw⟩ : TSyntax `term)).toArray
    `([$cs,*])

/-- Outcome of a parser call.
* `ok a rest`: `Ok((rest, a))`
* `err`: `Err(nom::Err::Error(_))`, the recoverable error
* `fail`: `Err(nom::Err::Failure(_))`, the unrecoverable error
* `panic`: the call panics
* `oof`: recursion-depth budget used up. This is not an outcome of the Rust code; it makes the
  Lean functions total. `Verif/Props/Robust.lean` proves that no public parser ever returns it. -/
inductive Res (α : Type) where
  | ok (a : α) (rest : List Char)
  | err
  | fail
  | panic
  | oof
  deriving Repr, DecidableEq

/-- A parser: `FnMut(Span) -> IResult<Span, α>`. -/
abbrev P (α : Type) := List Char → Res α

/-- Rust's `?` on a parser result. -/
def Res.bind {α β : Type} (x : Res α) (f : α → List Char → Res β) : Res β :=
  match x with
  | .ok a r => f a r
  | .err => .err
  | .fail => .fail
  | .panic => .panic
  | .oof => .oof

/-- nom `combinator::map`. -/
def map (f : α → β) (p : P α) : P β := fun s => (p s).bind fun a r => .ok (f a) r

/-- nom `combinator::map` with a function that panics where `f` is `none`
(`.expect(..)`, `assert!`). -/
def mapExpect (f : α → Option β) (p : P α) : P β := fun s =>
  (p s).bind fun a r => match f a with
    | some b => .ok b r
    | none => .panic

/-- nom `combinator::value`. -/
def value (b : β) (p : P α) : P β := map (fun _ => b) p

/-- nom `sequence::pair`; longer `tuple`s are nested pairs. -/
def pair (p : P α) (q : P β) : P (α × β) := fun s =>
  (p s).bind fun a r => (q r).bind fun b r' => .ok (a, b) r'

/-- nom `sequence::preceded`. -/
def preceded (p : P α) (q : P β) : P β := fun s => (p s).bind fun _ r => q r

/-- nom `sequence::terminated`. -/
def terminated (p : P α) (q : P β) : P α := fun s =>
  (p s).bind fun a r => (q r).bind fun _ r' => .ok a r'

/-- nom `sequence::delimited`. -/
def delimited (p : P α) (q : P β) (t : P γ) : P β := preceded p (terminated q t)

/-- nom `branch::alt`: the next alternative is tried only on a recoverable error. -/
def alt : List (P α) → P α
  | [] => fun _ => .err
  | p :: ps => fun s => match p s with
    | .err => alt ps s
    | .ok a r => .ok a r
    | .fail => .fail
    | .panic => .panic
    | .oof => .oof

/-- nom `combinator::opt`: a recoverable error becomes `None` at the original input. -/
def opt (p : P α) : P (Option α) := fun s => match p s with
  | .ok a r => .ok (some a) r
  | .err => .ok none s
  | .fail => .fail
  | .panic => .panic
  | .oof => .oof

/-- nom `combinator::recognize`: the consumed part of the input. -/
def recognize (p : P α) : P (List Char) := fun s =>
  (p s).bind fun _ r => .ok (s.take (s.length - r.length)) r

/-- The loop of nom `multi::many0`. A recoverable error ends it; an item that consumed nothing
is an error. -/
def many0Loop (p : P α) : Nat → P (List α)
  | 0 => fun _ => .oof
  | n + 1 => fun s => match p s with
    | .err => .ok [] s
    | .ok a r =>
      if r.length = s.length then .err
      else (many0Loop p n r).bind fun as r' => .ok (a :: as) r'
    | .fail => .fail
    | .panic => .panic
    | .oof => .oof

/-- nom `multi::many0`. -/
def many0 (p : P α) : P (List α) := fun s => many0Loop p (s.length + 1) s

/-- nom `multi::many_m_n` with bounds `0, 1`. -/
def many01 (p : P α) : P (List α) := fun s => match p s with
  | .err => .ok [] s
  | .ok a r => if r.length = s.length then .err else .ok [a] r
  | .fail => .fail
  | .panic => .panic
  | .oof => .oof

/-- The loop shared by nom `multi::separated_list0` and `separated_list1`, entered after the first
element. If the separator or the element after it gives a recoverable error, the list ends before
that separator; a separator that consumed nothing is an error. -/
def sepLoop (sep : P β) (p : P α) : Nat → P (List α)
  | 0 => fun _ => .oof
  | n + 1 => fun s => match sep s with
    | .err => .ok [] s
    | .ok _ r =>
      if r.length = s.length then .err
      else match p r with
        | .err => .ok [] s
        | .ok a r' => (sepLoop sep p n r').bind fun as r'' => .ok (a :: as) r''
        | .fail => .fail
        | .panic => .panic
        | .oof => .oof
    | .fail => .fail
    | .panic => .panic
    | .oof => .oof

/-- nom `multi::separated_list0`. -/
def sepList0 (sep : P β) (p : P α) : P (List α) := fun s => match p s with
  | .err => .ok [] s
  | .ok a r => (sepLoop sep p (r.length + 1) r).bind fun as r' => .ok (a :: as) r'
  | .fail => .fail
  | .panic => .panic
  | .oof => .oof

/-- nom `multi::separated_list1`. -/
def sepList1 (sep : P β) (p : P α) : P (List α) := fun s =>
  (p s).bind fun a r => (sepLoop sep p (r.length + 1) r).bind fun as r' => .ok (a :: as) r'

/-- The rest of `s` after the prefix `t`, if `t` is a prefix of `s`. -/
def stripPrefix : List Char → List Char → Option (List Char)
  | [], s => some s
  | _ :: _, [] => none
  | c :: t, d :: s => if c = d then stripPrefix t s else none

/-- nom `bytes::complete::tag`. -/
def tag (t : List Char) : P (List Char) := fun s => match stripPrefix t s with
  | some r => .ok t r
  | none => .err

/-- nom `character::complete::char`. -/
def char (c : Char) : P Char := fun s => match s with
  | d :: r => if d = c then .ok c r else .err
  | [] => .err

/-- nom's space class: `' '`, `'\t'`, `'\r'`, `'\n'`. -/
def isSpace (c : Char) : Bool := c == ' ' || c == '\t' || c == '\r' || c == '\n'

/-- ASCII letters (`AsChar::is_alpha` for `char` in nom 7). -/
def isAlpha (c : Char) : Bool :=
  (decide (97 ≤ c.toNat) && decide (c.toNat ≤ 122)) || (decide (65 ≤ c.toNat) && decide (c.toNat ≤ 90))

/-- ASCII digits (`AsChar::is_dec_digit`). -/
def isDigit (c : Char) : Bool := decide (48 ≤ c.toNat) && decide (c.toNat ≤ 57)

/-- The longest prefix satisfying `f`, possibly empty (`split_at_position_complete`). -/
def takeWhile0 (f : Char → Bool) : P (List Char) := fun s => .ok (s.takeWhile f) (s.dropWhile f)

/-- The longest non-empty prefix satisfying `f` (`split_at_position1_complete`). -/
def takeWhile1 (f : Char → Bool) : P (List Char) := fun s =>
  if s.takeWhile f = [] then .err else .ok (s.takeWhile f) (s.dropWhile f)

/-- nom `character::complete::multispace0`. -/
def multispace0 : P (List Char) := takeWhile0 isSpace

/-- nom `character::complete::multispace1`. -/
def multispace1 : P (List Char) := takeWhile1 isSpace

/-- nom `character::complete::alpha1`. -/
def alpha1 : P (List Char) := takeWhile1 isAlpha

/-- nom `character::complete::digit1`. -/
def digit1 : P (List Char) := takeWhile1 isDigit

/-- nom `bytes::complete::is_not`: the longest non-empty prefix without the given characters. -/
def isNot (cs : List Char) : P (List Char) := takeWhile1 fun c => !cs.contains c

/-- Value of an ASCII digit (`char::to_digit(10)`). -/
def digitVal (c : Char) : Nat := c.toNat - 48

/-- The loop of nom `character::complete::u64`: `value.checked_mul(10)?.checked_add(d)?`. -/
def u64Loop (v : Nat) : P Nat
  | [] => .ok v []
  | c :: s =>
    if isDigit c then
      let v' := v * 10 + digitVal c
      if v' < 2 ^ 64 then u64Loop v' s else .err
    else .ok v (c :: s)

/-- nom `character::complete::u64`. -/
def u64 : P Nat
  | [] => .err
  | c :: s => if isDigit c then u64Loop 0 (c :: s) else .err

end Pddl
