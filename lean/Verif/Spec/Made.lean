import Verif.Spec.Nodes

/-!
# Words of a text that become names, names of a value that have been made
-/

namespace Pddl

/-- `t` is a word in the text `s`. It is as long as it can be from the place where it begins, except
that the word `object` may be the beginning of a longer word. -/
def TakenFrom (t s : List Char) : Prop :=
  IsWord t ∧ ∃ x y, s = x ++ t ++ y ∧
    (t = c!"object" ∨ ∀ c r, y = c :: r → isWordChar c = false)

/-- The names of a part of a value are among the texts `l`, but for the names of the two types that
need not be written. -/
def Node.From (l : List (List Char)) : Node → Prop
  | .name n => n.text ∈ l
  | .ty (.exactly n) => n.text ∈ l ∨ n.text = c!"object" ∨ n.text = c!"number"
  | _ => True

/-- `Node.From` for all parts. -/
def AllFrom (l : List (List Char)) (ns : List Node) : Prop := ∀ n ∈ ns, n.From l

end Pddl
