import Verif.Nom

/-!
# The nom combinators with the work they do

A parser of `Verif/Nom.lean` together with the number of steps that a call of it takes. The outcome
is computed by the combinators of `Verif/Nom.lean` themselves; only the counting is new.

What counts as steps: a primitive parser takes one step and one more for every character that it
consumes (`tag`: for every character of the tag); a call of a recursive parser takes one step; a
combinator takes the steps of the calls that it makes. The combinators in an expression are not
counted themselves: there are at most as many of them as a fixed multiple of the primitive calls.
Functions applied to results (building values, interning names, converting numbers) are not counted.
-/

namespace Pddl

/-- Steps of a call that follows only if the one before it succeeds. -/
def Res.after {α : Type} (x : Res α) (f : List Char → Nat) : Nat := match x with
  | .ok _ r => f r
  | _ => 0

/-- Steps of a call that follows only if the one before it gives a recoverable error. -/
def Res.onErr {α : Type} (x : Res α) (n : Nat) : Nat := match x with
  | .err => n
  | _ => 0

/-- Steps of a call that follows only if the one before it gives an error of either kind. -/
def Res.onError {α : Type} (x : Res α) (n : Nat) : Nat := match x with
  | .err => n
  | .fail => n
  | _ => 0

namespace K
open Pddl

/-- A parser and the number of steps it takes on an input. -/
structure P (α : Type) where
  run : Pddl.P α
  cost : List Char → Nat

/-- nom `combinator::map`. -/
def map (f : α → β) (p : P α) : P β := ⟨Pddl.map f p.run, p.cost⟩

/-- nom `combinator::map` with a function that panics where `f` is `none`. -/
def mapExpect (f : α → Option β) (p : P α) : P β := ⟨Pddl.mapExpect f p.run, p.cost⟩

/-- nom `combinator::value`. -/
def value (b : β) (p : P α) : P β := ⟨Pddl.value b p.run, p.cost⟩

/-- nom `sequence::pair`; longer `tuple`s are nested pairs. -/
def pair (p : P α) (q : P β) : P (α × β) :=
  ⟨Pddl.pair p.run q.run, fun s => p.cost s + (p.run s).after q.cost⟩

/-- nom `sequence::preceded`. -/
def preceded (p : P α) (q : P β) : P β :=
  ⟨Pddl.preceded p.run q.run, fun s => p.cost s + (p.run s).after q.cost⟩

/-- nom `sequence::terminated`. -/
def terminated (p : P α) (q : P β) : P α :=
  ⟨Pddl.terminated p.run q.run, fun s => p.cost s + (p.run s).after q.cost⟩

/-- nom `sequence::delimited`. -/
def delimited (p : P α) (q : P β) (t : P γ) : P β := preceded p (terminated q t)

/-- Steps of nom `branch::alt`: those of the alternatives up to the first one that does not give a
recoverable error. -/
def altCost : List (P α) → List Char → Nat
  | [], _ => 0
  | p :: ps, s => p.cost s + (p.run s).onErr (altCost ps s)

/-- nom `branch::alt`. -/
def alt (ps : List (P α)) : P α := ⟨Pddl.alt (ps.map P.run), altCost ps⟩

/-- nom `combinator::opt`. -/
def opt (p : P α) : P (Option α) := ⟨Pddl.opt p.run, p.cost⟩

/-- nom `combinator::recognize`. -/
def recognize (p : P α) : P (List Char) := ⟨Pddl.recognize p.run, p.cost⟩

/-- Steps of the loop of nom `multi::many0`. -/
def many0Cost (p : P α) : Nat → List Char → Nat
  | 0, _ => 0
  | n + 1, s => p.cost s + (p.run s).after fun r =>
      if r.length = s.length then 0 else many0Cost p n r

/-- nom `multi::many0`. -/
def many0 (p : P α) : P (List α) :=
  ⟨Pddl.many0 p.run, fun s => many0Cost p (s.length + 1) s⟩

/-- nom `multi::many_m_n` with bounds `0, 1`. -/
def many01 (p : P α) : P (List α) := ⟨Pddl.many01 p.run, p.cost⟩

/-- Steps of the loop shared by nom `multi::separated_list0` and `separated_list1`. -/
def sepCost (sep : P β) (p : P α) : Nat → List Char → Nat
  | 0, _ => 0
  | n + 1, s => sep.cost s + (sep.run s).after fun r =>
      if r.length = s.length then 0
      else p.cost r + (p.run r).after (sepCost sep p n)

/-- nom `multi::separated_list0`. -/
def sepList0 (sep : P β) (p : P α) : P (List α) :=
  ⟨Pddl.sepList0 sep.run p.run,
    fun s => p.cost s + (p.run s).after fun r => sepCost sep p (r.length + 1) r⟩

/-- nom `multi::separated_list1`. -/
def sepList1 (sep : P β) (p : P α) : P (List α) :=
  ⟨Pddl.sepList1 sep.run p.run,
    fun s => p.cost s + (p.run s).after fun r => sepCost sep p (r.length + 1) r⟩

/-- nom `bytes::complete::tag`. -/
def tag (t : List Char) : P (List Char) := ⟨Pddl.tag t, fun _ => 1 + t.length⟩

/-- nom `character::complete::char`. -/
def char (c : Char) : P Char := ⟨Pddl.char c, fun _ => 2⟩

/-- The longest prefix satisfying `f`, possibly empty. -/
def takeWhile0 (f : Char → Bool) : P (List Char) :=
  ⟨Pddl.takeWhile0 f, fun s => 1 + (s.takeWhile f).length⟩

/-- The longest non-empty prefix satisfying `f`. -/
def takeWhile1 (f : Char → Bool) : P (List Char) :=
  ⟨Pddl.takeWhile1 f, fun s => 1 + (s.takeWhile f).length⟩

/-- nom `character::complete::multispace0`. -/
def multispace0 : P (List Char) := takeWhile0 isSpace

/-- nom `character::complete::multispace1`. -/
def multispace1 : P (List Char) := takeWhile1 isSpace

/-- nom `character::complete::alpha1`. -/
def alpha1 : P (List Char) := takeWhile1 isAlpha

/-- nom `character::complete::digit1`. -/
def digit1 : P (List Char) := takeWhile1 isDigit

/-- nom `bytes::complete::is_not`. -/
def isNot (cs : List Char) : P (List Char) := takeWhile1 fun c => !cs.contains c

/-- nom `character::complete::u64`. -/
def u64 : P Nat := ⟨Pddl.u64, fun s => 1 + (s.takeWhile isDigit).length⟩

end K
end Pddl
