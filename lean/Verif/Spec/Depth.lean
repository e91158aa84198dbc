import Verif.Spec.Layout

/-!
# Specification: how deep parentheses are nested in a text, and how many comments follow each other
-/

namespace Pddl

/-- The largest number of parentheses open at a place of the text, `d` being open before it.
Comments do not count; the flag says whether the scanner is inside one. -/
def nestingFrom : Bool → Nat → List Char → Nat
  | _, d, [] => d
  | true, d, c :: s => nestingFrom (!isNewline c) d s
  | false, d, c :: s =>
    if c = '(' then nestingFrom false (d + 1) s
    else if c = ')' then max d (nestingFrom false (d - 1) s)
    else nestingFrom (c == ';') d s

/-- How deep parentheses are nested in a text. -/
def nesting (s : List Char) : Nat := nestingFrom false 0 s

/-- The number of comments at the beginning of a text with nothing but layout between them. -/
def commentRun : List Char → Nat
  | [] => 0
  | c :: s =>
    if isBlank c = true then commentRun s
    else if c = ';' then 1 + commentRun (s.dropWhile fun c => !isNewline c)
    else 0
termination_by s => s.length
decreasing_by
  · simp
  · have := (List.dropWhile_suffix (fun c => !isNewline c) (l := s)).length_le
    simp only [List.length_cons]; omega

/-- The largest number of comments in a row. -/
def longestComments : List Char → Nat
  | [] => 0
  | c :: s => max (commentRun (c :: s)) (longestComments s)

end Pddl
