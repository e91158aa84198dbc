import Verif.Spec.Layout

/-!
# Specification: positions in a text

A position in a text is given by the text that remains from there on.
-/

namespace Pddl

/-- Number of bytes of a text in UTF-8. -/
def byteLength : List Char → Nat
  | [] => 0
  | c :: s => c.utf8Size + byteLength s

/-- Number of line feeds in a text. -/
def lineFeeds : List Char → Nat
  | [] => 0
  | c :: s => (if c = '\n' then 1 else 0) + lineFeeds s

/-- The position `r` of the text `s`: byte offset (from 0) and line (from 1). -/
def IsAt (s r : List Char) (offset line : Nat) : Prop :=
  ∃ before, s = before ++ r ∧ offset = byteLength before ∧ line = 1 + lineFeeds before

/-- The keywords of the forms that a domain can have behind its name. -/
def domainKeywords : List (List Char) :=
  [c!":extends", c!":requirements", c!":types", c!":constants", c!":predicates", c!":functions",
    c!":constraints", c!":derived", c!":action", c!":durative-action"]

/-- The keywords of the forms that a problem can have behind its goal. -/
def problemKeywords : List (List Char) := [c!":constraints", c!":metric", c!":length"]

/-- A text that begins neither with one of the forms `(kw ..` nor with `)`, and not with layout: the
end of the text, or something that has no place in a file. -/
def Foreign (kws : List (List Char)) (x : List Char) : Prop :=
  (x = [] ∨ Solid x) ∧ (∀ y, x ≠ ')' :: y) ∧ ∀ kw ∈ kws, ∀ y, x ≠ '(' :: (kw ++ y)

end Pddl
