import Verif.Work.Nom

/-!
# The nom combinators with the depth of recursion below them

A parser of `Verif/Nom.lean` together with the largest number of calls of self-recursive functions of
the crate that are active at the same time during a call of it. The outcome is computed by the
combinators of `Verif/Nom.lean` themselves; only the depth is new. Between two such calls there is a
bounded number of other calls, so the depth tells how much stack a call needs, up to a constant
factor.
-/

namespace Pddl

namespace D
open Pddl

/-- A parser and the depth of recursion on an input. -/
structure P (α : Type) where
  run : Pddl.P α
  depth : List Char → Nat

/-- nom `combinator::map`. -/
def map (f : α → β) (p : P α) : P β := ⟨Pddl.map f p.run, p.depth⟩

/-- nom `combinator::map` with a function that panics where `f` is `none`. -/
def mapExpect (f : α → Option β) (p : P α) : P β := ⟨Pddl.mapExpect f p.run, p.depth⟩

/-- nom `combinator::value`. -/
def value (b : β) (p : P α) : P β := ⟨Pddl.value b p.run, p.depth⟩

/-- nom `sequence::pair`; longer `tuple`s are nested pairs. -/
def pair (p : P α) (q : P β) : P (α × β) :=
  ⟨Pddl.pair p.run q.run, fun s => max (p.depth s) ((p.run s).after q.depth)⟩

/-- nom `sequence::preceded`. -/
def preceded (p : P α) (q : P β) : P β :=
  ⟨Pddl.preceded p.run q.run, fun s => max (p.depth s) ((p.run s).after q.depth)⟩

/-- nom `sequence::terminated`. -/
def terminated (p : P α) (q : P β) : P α :=
  ⟨Pddl.terminated p.run q.run, fun s => max (p.depth s) ((p.run s).after q.depth)⟩

/-- nom `sequence::delimited`. -/
def delimited (p : P α) (q : P β) (t : P γ) : P β := preceded p (terminated q t)

/-- Depth of nom `branch::alt`: the largest of the alternatives up to the first one that does not
give a recoverable error. -/
def altDepth : List (P α) → List Char → Nat
  | [], _ => 0
  | p :: ps, s => max (p.depth s) ((p.run s).onErr (altDepth ps s))

/-- nom `branch::alt`. -/
def alt (ps : List (P α)) : P α := ⟨Pddl.alt (ps.map P.run), altDepth ps⟩

/-- nom `combinator::opt`. -/
def opt (p : P α) : P (Option α) := ⟨Pddl.opt p.run, p.depth⟩

/-- nom `combinator::recognize`. -/
def recognize (p : P α) : P (List Char) := ⟨Pddl.recognize p.run, p.depth⟩

/-- Depth of the loop of nom `multi::many0`. -/
def many0Depth (p : P α) : Nat → List Char → Nat
  | 0, _ => 0
  | n + 1, s => max (p.depth s) ((p.run s).after fun r =>
      if r.length = s.length then 0 else many0Depth p n r)

/-- nom `multi::many0`. -/
def many0 (p : P α) : P (List α) :=
  ⟨Pddl.many0 p.run, fun s => many0Depth p (s.length + 1) s⟩

/-- nom `multi::many_m_n` with bounds `0, 1`. -/
def many01 (p : P α) : P (List α) := ⟨Pddl.many01 p.run, p.depth⟩

/-- Depth of the loop shared by nom `multi::separated_list0` and `separated_list1`. -/
def sepDepth (sep : P β) (p : P α) : Nat → List Char → Nat
  | 0, _ => 0
  | n + 1, s => max (sep.depth s) ((sep.run s).after fun r =>
      if r.length = s.length then 0
      else max (p.depth r) ((p.run r).after (sepDepth sep p n)))

/-- nom `multi::separated_list0`. -/
def sepList0 (sep : P β) (p : P α) : P (List α) :=
  ⟨Pddl.sepList0 sep.run p.run,
    fun s => max (p.depth s) ((p.run s).after fun r => sepDepth sep p (r.length + 1) r)⟩

/-- nom `multi::separated_list1`. -/
def sepList1 (sep : P β) (p : P α) : P (List α) :=
  ⟨Pddl.sepList1 sep.run p.run,
    fun s => max (p.depth s) ((p.run s).after fun r => sepDepth sep p (r.length + 1) r)⟩

/-- nom `bytes::complete::tag`. -/
def tag (t : List Char) : P (List Char) := ⟨Pddl.tag t, fun _ => 0⟩

/-- nom `character::complete::char`. -/
def char (c : Char) : P Char := ⟨Pddl.char c, fun _ => 0⟩

/-- nom `character::complete::multispace0`. -/
def multispace0 : P (List Char) := ⟨Pddl.multispace0, fun _ => 0⟩

/-- nom `character::complete::multispace1`. -/
def multispace1 : P (List Char) := ⟨Pddl.multispace1, fun _ => 0⟩

/-- nom `character::complete::alpha1`. -/
def alpha1 : P (List Char) := ⟨Pddl.alpha1, fun _ => 0⟩

/-- nom `character::complete::digit1`. -/
def digit1 : P (List Char) := ⟨Pddl.digit1, fun _ => 0⟩

/-- nom `bytes::complete::is_not`. -/
def isNot (cs : List Char) : P (List Char) := ⟨Pddl.isNot cs, fun _ => 0⟩

/-- nom `character::complete::u64`. -/
def u64 : P Nat := ⟨Pddl.u64, fun _ => 0⟩

end D
end Pddl
