import Verif.Spec.Balance
import Verif.Spec.Grammar

/-!
# Specification: the forms written in a file, and which section each of them is

Independent of the parsers.
-/

namespace Pddl

/-- A text that consists of parenthesised forms, in this order, with layout around them. -/
inductive Forms : List (List Char) → List Char → Prop
  | nil {g : List Char} : Gap g → Forms [] g
  | cons {g u : List Char} {fs : List (List Char)} {w : List Char} : Gap g → Bal u → Forms fs w →
      Forms (paren u :: fs) (g ++ (paren u ++ w))

/-- The form starts with this keyword, directly after the parenthesis. -/
def startsWith (kw f : List Char) : Bool := ('(' :: kw).isPrefixOf f

/-- The place of a form in a domain: 0 for the name, 1 to 7 for the sections in their order, 8 for
actions and the like, `none` for any other form. -/
def domainRank (f : List Char) : Option Nat :=
  if startsWith c!"domain" f then some 0
  else if startsWith c!":extends" f then some 1
  else if startsWith c!":requirements" f then some 2
  else if startsWith c!":types" f then some 3
  else if startsWith c!":constants" f then some 4
  else if startsWith c!":predicates" f then some 5
  else if startsWith c!":functions" f then some 6
  else if startsWith c!":constraints" f then some 7
  else if startsWith c!":action" f then some 8
  else if startsWith c!":durative-action" f then some 8
  else if startsWith c!":derived" f then some 8
  else none

/-- The place of a form in a problem. -/
def problemRank (f : List Char) : Option Nat :=
  if startsWith c!"problem" f then some 0
  else if startsWith c!":domain" f then some 1
  else if startsWith c!":requirements" f then some 2
  else if startsWith c!":objects" f then some 3
  else if startsWith c!":init" f then some 4
  else if startsWith c!":goal" f then some 5
  else if startsWith c!":constraints" f then some 6
  else if startsWith c!":metric" f then some 7
  else if startsWith c!":length" f then some 8
  else none

end Pddl
