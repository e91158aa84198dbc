import Verif.Nom
import Verif.Name

/-!
# The nom combinators with the names that are made

A parser of `Verif/Nom.lean` together with the texts for which a call of it calls `Name::new`, in
the order of these calls. The outcome is computed by the combinators of `Verif/Nom.lean` themselves;
only the list of texts is new. Texts of alternatives that are given up afterwards are in the list as
well, for `Name::new` has been called for them.
-/

namespace Pddl

/-- Names made by a call that follows only if the one before it succeeds. -/
def Res.thenMade {α : Type} (x : Res α) (f : List Char → List (List Char)) : List (List Char) :=
  match x with
  | .ok _ r => f r
  | _ => []

/-- Names made by a call that follows only if the one before it gives a recoverable error. -/
def Res.elseMade {α : Type} (x : Res α) (l : List (List Char)) : List (List Char) := match x with
  | .err => l
  | _ => []

/-- Names made by a call that follows only if the one before it gives an error of either kind. -/
def Res.errorMade {α : Type} (x : Res α) (l : List (List Char)) : List (List Char) := match x with
  | .err => l
  | .fail => l
  | _ => []

namespace N
open Pddl

/-- A parser and the texts for which it calls `Name::new` on an input. -/
structure P (α : Type) where
  run : Pddl.P α
  made : List Char → List (List Char)

/-- nom `combinator::map`, with a function that makes no names. -/
def map (f : α → β) (p : P α) : P β := ⟨Pddl.map f p.run, p.made⟩

/-- nom `combinator::map` with `Name::new`, `/repo/src/types/name.rs:53-59`: the function is called
with the value of the parser if that succeeds. -/
def new (p : P (List Char)) : P Name :=
  ⟨Pddl.map Name.new p.run, fun s => p.made s ++ match p.run s with
    | .ok t _ => [t]
    | _ => []⟩

/-- nom `combinator::map` with a function that panics where `f` is `none`. -/
def mapExpect (f : α → Option β) (p : P α) : P β := ⟨Pddl.mapExpect f p.run, p.made⟩

/-- nom `combinator::value`. -/
def value (b : β) (p : P α) : P β := ⟨Pddl.value b p.run, p.made⟩

/-- nom `sequence::pair`; longer `tuple`s are nested pairs. -/
def pair (p : P α) (q : P β) : P (α × β) :=
  ⟨Pddl.pair p.run q.run, fun s => p.made s ++ (p.run s).thenMade q.made⟩

/-- nom `sequence::preceded`. -/
def preceded (p : P α) (q : P β) : P β :=
  ⟨Pddl.preceded p.run q.run, fun s => p.made s ++ (p.run s).thenMade q.made⟩

/-- nom `sequence::terminated`. -/
def terminated (p : P α) (q : P β) : P α :=
  ⟨Pddl.terminated p.run q.run, fun s => p.made s ++ (p.run s).thenMade q.made⟩

/-- nom `sequence::delimited`. -/
def delimited (p : P α) (q : P β) (t : P γ) : P β := preceded p (terminated q t)

/-- Names made by nom `branch::alt`: those of the alternatives up to the first one that does not
give a recoverable error. -/
def altMade : List (P α) → List Char → List (List Char)
  | [], _ => []
  | p :: ps, s => p.made s ++ (p.run s).elseMade (altMade ps s)

/-- nom `branch::alt`. -/
def alt (ps : List (P α)) : P α := ⟨Pddl.alt (ps.map P.run), altMade ps⟩

/-- nom `combinator::opt`. -/
def opt (p : P α) : P (Option α) := ⟨Pddl.opt p.run, p.made⟩

/-- nom `combinator::recognize`. -/
def recognize (p : P α) : P (List Char) := ⟨Pddl.recognize p.run, p.made⟩

/-- Names made by the loop of nom `multi::many0`. -/
def many0Made (p : P α) : Nat → List Char → List (List Char)
  | 0, _ => []
  | n + 1, s => p.made s ++ (p.run s).thenMade fun r =>
      if r.length = s.length then [] else many0Made p n r

/-- nom `multi::many0`. -/
def many0 (p : P α) : P (List α) :=
  ⟨Pddl.many0 p.run, fun s => many0Made p (s.length + 1) s⟩

/-- nom `multi::many_m_n` with bounds `0, 1`. -/
def many01 (p : P α) : P (List α) := ⟨Pddl.many01 p.run, p.made⟩

/-- Names made by the loop shared by nom `multi::separated_list0` and `separated_list1`. -/
def sepMade (sep : P β) (p : P α) : Nat → List Char → List (List Char)
  | 0, _ => []
  | n + 1, s => sep.made s ++ (sep.run s).thenMade fun r =>
      if r.length = s.length then []
      else p.made r ++ (p.run r).thenMade (sepMade sep p n)

/-- nom `multi::separated_list0`. -/
def sepList0 (sep : P β) (p : P α) : P (List α) :=
  ⟨Pddl.sepList0 sep.run p.run,
    fun s => p.made s ++ (p.run s).thenMade fun r => sepMade sep p (r.length + 1) r⟩

/-- nom `multi::separated_list1`. -/
def sepList1 (sep : P β) (p : P α) : P (List α) :=
  ⟨Pddl.sepList1 sep.run p.run,
    fun s => p.made s ++ (p.run s).thenMade fun r => sepMade sep p (r.length + 1) r⟩

/-- nom `bytes::complete::tag`. -/
def tag (t : List Char) : P (List Char) := ⟨Pddl.tag t, fun _ => []⟩

/-- nom `character::complete::char`. -/
def char (c : Char) : P Char := ⟨Pddl.char c, fun _ => []⟩

/-- nom `character::complete::multispace0`. -/
def multispace0 : P (List Char) := ⟨Pddl.multispace0, fun _ => []⟩

/-- nom `character::complete::multispace1`. -/
def multispace1 : P (List Char) := ⟨Pddl.multispace1, fun _ => []⟩

/-- nom `character::complete::alpha1`. -/
def alpha1 : P (List Char) := ⟨Pddl.alpha1, fun _ => []⟩

/-- nom `character::complete::digit1`. -/
def digit1 : P (List Char) := ⟨Pddl.digit1, fun _ => []⟩

/-- nom `bytes::complete::is_not`. -/
def isNot (cs : List Char) : P (List Char) := ⟨Pddl.isNot cs, fun _ => []⟩

/-- nom `character::complete::u64`. -/
def u64 : P Nat := ⟨Pddl.u64, fun _ => []⟩

end N
end Pddl
