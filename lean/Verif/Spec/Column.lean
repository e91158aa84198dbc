import Verif.Spec.Position

/-!
# Specification: columns
-/

namespace Pddl

/-- At the position `r` of the text `s`, the text `l` lies in front of it in its line: `l` begins where the
line begins, that is at the beginning of the text or behind a line feed, and has no line feed itself. -/
def LineBefore (s r l : List Char) : Prop :=
  ∃ before, s = before ++ (l ++ r) ∧ (before = [] ∨ ∃ b, before = b ++ ['\n']) ∧ '\n' ∉ l

end Pddl
