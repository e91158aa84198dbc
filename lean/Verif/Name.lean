import Verif.Nom

/-!
# `Name`

Model of `/repo/src/types/name.rs`: the two variants of a name, and the table used by
the `interning` feature (enabled by default in `/repo/Cargo.toml`).
-/

namespace Pddl

/-- `NameVariant`, `/repo/src/types/name.rs:28-32`, as seen through its derived `PartialEq`:
`Arc<String>` compares by content, so the allocation is not part of the value here. The
allocation behind `String` is modelled in `Verif/Intern.lean`. -/
inductive Name where
  /-- `NameVariant::String` -/
  | str (s : List Char)
  /-- `NameVariant::Static` -/
  | static (s : List Char)
  deriving DecidableEq, Repr

namespace Name

/-- `AsRef<str>` / `Deref`, `/repo/src/types/name.rs:149-163,214-223`. -/
def text : Name → List Char
  | str s => s
  | static s => s

/-- `Name::map_to_static`, `/repo/src/types/name.rs:124-130`. -/
def mapToStatic (s : List Char) : Option (List Char) :=
  if s = c!"object" then some c!"object"
  else if s = c!"number" then some c!"number"
  else none

/-- `Name::new_static`, `/repo/src/types/name.rs:81-84`. -/
def newStatic (s : List Char) : Name := static s

/-- `Name::new`, `/repo/src/types/name.rs:53-59` (the interning of the content is in
`Verif/Intern.lean`). -/
def new (s : List Char) : Name :=
  match mapToStatic s with
  | some t => newStatic t
  | none => str s

/-- `Name::default()`: derived on `Name`, `NameVariant::default`, `/repo/src/types/name.rs:208-212`. -/
def default : Name := static []

/-- `Name::is_empty`, `/repo/src/types/name.rs:114-116`. -/
def isEmpty (n : Name) : Bool := n.text.isEmpty

/-- `Name::len`, in chars, `/repo/src/types/name.rs:119-122,198-206`. -/
def len (n : Name) : Nat :=
  match n with
  | str s => s.length
  | static s => s.length

/-- `PartialEq<str>` (and `&str`, `String`), `/repo/src/types/name.rs:165-184`. -/
def eqStr (n : Name) (s : List Char) : Bool := n.text == s

end Name
end Pddl
