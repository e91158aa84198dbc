import Verif.Spec.Preference

/-!
# Specification: how often preferences are violated

A quantified preference is one for each of the objects. `os` is a list of all objects.
-/

namespace Pddl

open Classical in
/-- The sum over the objects of the types of the variables. -/
noncomputable def SumOver (M : Interp) (os : List M.Obj) : TypedList Name → M.Env → (M.Env → Nat) → Nat
  | [], e, f => f e
  | v :: vs, e, f => (os.map fun o => if v.ty.Has M o then SumOver M os vs (M.set e v.value.text o) f else 0).sum

open Classical in
/-- One if it is so. -/
noncomputable def oneIf (p : Prop) : Nat := if p then 1 else 0

mutual
/-- How many preferences with the name `n` in this part of a condition are not met. -/
noncomputable def PreGD.count (M : Interp) (os : List M.Obj) (n : Option (List Char)) : PreGD → M.Env → Nat
  | .preference (.goal _), _ => 0
  | .preference (.preference m g), e => oneIf (m.map Name.text = n ∧ ¬ g.Holds M e)
  | .forall_ vs gs, e => SumOver M os vs e (PreGD.counts M os n gs)
/-- How many in a condition are not met. -/
noncomputable def PreGD.counts (M : Interp) (os : List M.Obj) (n : Option (List Char)) : List PreGD → M.Env → Nat
  | [], _ => 0
  | g :: gs, e => PreGD.count M os n g e + PreGD.counts M os n gs e
end

mutual
/-- How many preferences with the name `n` in this constraint are not met. -/
noncomputable def PrefConGD.count (M : Interp) (os : List M.Obj) (tr : List (Snapshot M)) (n : Option (List Char)) :
    PrefConGD → M.Env → Nat
  | .goal _, _ => 0
  | .preference m g, e => oneIf (m.map Name.text = n ∧ ¬ g.On M tr e)
  | .forall_ vs gs, e => SumOver M os vs e (PrefConGD.counts M os tr n gs)
/-- How many in these constraints are not met. -/
noncomputable def PrefConGD.counts (M : Interp) (os : List M.Obj) (tr : List (Snapshot M)) (n : Option (List Char)) :
    List PrefConGD → M.Env → Nat
  | [], _ => 0
  | g :: gs, e => PrefConGD.count M os tr n g e + PrefConGD.counts M os tr n gs e
end

end Pddl
