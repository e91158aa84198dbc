import Verif.Spec.Layout

/-!
# Specification: how deep arithmetic is nested in a text

Independent of the parsers and of the syntax of PDDL: only parentheses, comments and the first
character inside a parenthesis are looked at.
-/

namespace Pddl

/-- The text from the first closing parenthesis on that belongs to none of the opening ones, `[]` if
there is none. `d` is the number of parentheses open; the flag says whether the scanner is inside a
comment. -/
def closeAt : Bool → Nat → List Char → List Char
  | _, _, [] => []
  | true, d, c :: s => closeAt (!isNewline c) d s
  | false, d, c :: s =>
    if c = '(' then closeAt false (d + 1) s
    else if c = ')' then if d = 0 then c :: s else closeAt false (d - 1) s
    else closeAt (c == ';') d s

theorem closeAt_length (f : Bool) (d : Nat) (s : List Char) : (closeAt f d s).length ≤ s.length := by
  induction s generalizing f d with
  | nil => simp [closeAt]
  | cons c s ih =>
    have h := fun f d => Nat.le_succ_of_le (ih f d)
    cases f with
    | true => exact h _ d
    | false =>
      rw [closeAt]
      split
      · exact h _ _
      · split
        · split
          · exact Nat.le_refl _
          · exact h _ _
        · exact h _ _

/-- The first character that is neither layout nor in a comment. -/
def firstSolid : Bool → List Char → Option Char
  | _, [] => none
  | true, c :: s => firstSolid (!isNewline c) s
  | false, c :: s =>
    if isBlank c = true then firstSolid false s
    else if c = ';' then firstSolid true s
    else some c

/-- An operation begins here: the first character is one of `+`, `-`, `*`, `/`. -/
def isOperation (s : List Char) : Bool := match firstSolid false s with
  | some c => c == '+' || c == '-' || c == '*' || c == '/'
  | none => false

/-- How many operations `(+ …)`, `(- …)`, `(* …)`, `(/ …)` are at most nested in one another in the
text, up to the first closing parenthesis that belongs to none of its opening ones: for a
parenthesis, the larger of what is inside and what follows. -/
def opDepth : List Char → Nat
  | [] => 0
  | c :: s =>
    if c = '(' then
      max ((if isOperation s = true then 1 else 0) + opDepth s) (opDepth (closeAt false 0 s).tail)
    else if c = ')' then 0
    else if c = ';' then opDepth (s.dropWhile fun c => !isNewline c)
    else opDepth s
termination_by s => s.length
decreasing_by
  · simp
  · have := closeAt_length false 0 s
    simp only [List.length_tail, List.length_cons]; omega
  · have := (List.dropWhile_suffix (fun c => !isNewline c) (l := s)).length_le
    simp only [List.length_cons]; omega
  · simp

end Pddl
