import Verif.Spec.Layout

/-!
# Specification: balanced text

Independent of the parsers: parentheses outside comments match.
-/

namespace Pddl

/-- Parentheses outside comments match, and every `;` starts a non-empty comment that ends inside
the text. -/
inductive Bal : List Char → Prop
  | nil : Bal []
  | plain {c : Char} {u : List Char} : c ≠ '(' → c ≠ ')' → c ≠ ';' → Bal u → Bal (c :: u)
  | comment {b : Char} {body : List Char} {n : Char} {u : List Char} :
      isNewline b = false → (∀ c ∈ body, isNewline c = false) → isNewline n = true → Bal u →
      Bal (';' :: b :: (body ++ n :: u))
  | nest {u v : List Char} : Bal u → Bal v → Bal ('(' :: (u ++ ')' :: v))

/-- Number of opening minus number of closing parentheses, comments not counted. The flag says
whether the scanner is inside a comment. -/
def depth : Bool → List Char → Int
  | _, [] => 0
  | true, c :: s => depth (!isNewline c) s
  | false, '(' :: s => 1 + depth false s
  | false, ')' :: s => -1 + depth false s
  | false, ';' :: s => depth true s
  | false, _ :: s => depth false s

/-- The text is one parenthesised form: it begins with `(`, the parentheses outside comments match at
its end and not earlier. -/
def OneForm (t : List Char) : Prop :=
  t.head? = some '(' ∧ depth false t = 0 ∧
    ∀ p q, t = p ++ q → p ≠ [] → q ≠ [] → 0 < depth false p

end Pddl
