import Verif.Spec.Trajectory

/-!
# Specification: preferences

Preferences need not be met (`Verif/Spec/Meaning.lean`). Here is which ones are not: `n` is the name of the preference,
or `none`. A quantified preference is not met if it is not for some objects.
-/

namespace Pddl

mutual
/-- A preference with the name `n` in this part of a condition is not met. -/
def PreGD.Breaks (M : Interp) (n : Option (List Char)) : PreGD → M.Env → Prop
  | .preference (.goal _), _ => False
  | .preference (.preference m g), e => m.map Name.text = n ∧ ¬ g.Holds M e
  | .forall_ vs gs, e => ForSome M vs e (PreGD.BreakSome M n gs)
/-- A preference with the name `n` in a condition is not met. -/
def PreGD.BreakSome (M : Interp) (n : Option (List Char)) : List PreGD → M.Env → Prop
  | [], _ => False
  | g :: gs, e => PreGD.Breaks M n g e ∨ PreGD.BreakSome M n gs e
end

mutual
/-- A preference with the name `n` in this constraint is not met. -/
def PrefConGD.Breaks (M : Interp) (tr : List (Snapshot M)) (n : Option (List Char)) : PrefConGD → M.Env → Prop
  | .goal _, _ => False
  | .preference m g, e => m.map Name.text = n ∧ ¬ g.On M tr e
  | .forall_ vs gs, e => ForSome M vs e (PrefConGD.BreakSome M tr n gs)
/-- A preference with the name `n` in these constraints is not met. -/
def PrefConGD.BreakSome (M : Interp) (tr : List (Snapshot M)) (n : Option (List Char)) : List PrefConGD → M.Env → Prop
  | [], _ => False
  | g :: gs, e => PrefConGD.Breaks M tr n g e ∨ PrefConGD.BreakSome M tr n gs e
end

end Pddl
