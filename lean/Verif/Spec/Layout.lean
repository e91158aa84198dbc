import Verif.Nom

/-!
# Specification: layout and words

Written without reference to the parsers: what counts as layout between two tokens, and what a
word is. The character classes are defined here, not taken from `Verif/Nom.lean`.
-/

namespace Pddl

/-- Space, tab, carriage return, line feed. -/
def isBlank (c : Char) : Bool := c == ' ' || c == '\t' || c == '\r' || c == '\n'

/-- Letters `a`-`z` (codes 97 to 122) and `A`-`Z` (65 to 90). -/
def isLetter (c : Char) : Bool :=
  (decide (97 ≤ c.toNat) && decide (c.toNat ≤ 122)) || (decide (65 ≤ c.toNat) && decide (c.toNat ≤ 90))

/-- Digits `0`-`9` (codes 48 to 57). -/
def isDec (c : Char) : Bool := decide (48 ≤ c.toNat) && decide (c.toNat ≤ 57)

/-- Line terminators of a comment. -/
def isNewline (c : Char) : Bool := c == '\r' || c == '\n'

/-- Layout: any mixture of spaces and non-empty comments, each comment ended by a line
terminator. -/
inductive Gap : List Char → Prop
  | nil : Gap []
  | space {c : Char} {g : List Char} : isBlank c = true → Gap g → Gap (c :: g)
  | comment {b : Char} {body : List Char} {n : Char} {g : List Char} :
      isNewline b = false → (∀ c ∈ body, isNewline c = false) → isNewline n = true → Gap g →
      Gap (';' :: b :: (body ++ n :: g))

/-- Layout at the end of a text: the last comment may be ended by the end of the text. -/
inductive GapEnd : List Char → Prop
  | gap {g : List Char} : Gap g → GapEnd g
  | comment {g : List Char} {b : Char} {body : List Char} :
      Gap g → isNewline b = false → (∀ c ∈ body, isNewline c = false) →
      GapEnd (g ++ ';' :: b :: body)

/-- One or more spaces, then layout. -/
inductive Sep : List Char → Prop
  | mk {c : Char} {g : List Char} : isBlank c = true → Gap g → Sep (c :: g)

/-- Spaces only. -/
def Sp0 (g : List Char) : Prop := ∀ c ∈ g, isBlank c = true

/-- One or more spaces. -/
def Sp (g : List Char) : Prop := g ≠ [] ∧ Sp0 g

/-- Characters of words after the first. -/
def isWordChar (c : Char) : Bool := isLetter c || isDec c || c == '-' || c == '_'

/-- The text of a name: a letter, then letters, digits, `-` and `_`. -/
def IsWord (t : List Char) : Prop :=
  ∃ c cs, t = c :: cs ∧ isLetter c = true ∧ ∀ d ∈ cs, isWordChar d = true

/-- A text that begins with a character that is neither layout nor the start of a comment. -/
def Solid (t : List Char) : Prop := ∃ c r, t = c :: r ∧ isBlank c = false ∧ c ≠ ';'

/-- A text that does not continue a word or a number: it is empty or begins with a space, a
parenthesis or a comment. -/
def Stop (r : List Char) : Prop :=
  ∀ c r', r = c :: r' → isBlank c = true ∨ c = '(' ∨ c = ')' ∨ c = ';'

end Pddl
