import Verif.Ast

/-!
# Methods of the types in `/repo/src/types`
-/

namespace Pddl

/-! ## Iterators -/

/-- `FlatteningIntoIterator<T>`, `/repo/src/types/iterators.rs:10-17`. `std::iter::Once<T>` is an
`Option<T>` that is taken on the first call; `vec::IntoIter<T>` is the list of items left. -/
inductive FlatIter (α : Type) where
  | never
  | once (x : Option α)
  | vec (xs : List α)
  deriving Repr

namespace FlatIter

/-- `FlatteningIntoIterator::new`, `/repo/src/types/iterators.rs:21-23`. -/
def new (x : α) : FlatIter α := .once (some x)

/-- `FlatteningIntoIterator::new_vec`, `/repo/src/types/iterators.rs:26-32`. -/
def newVec (xs : List α) : FlatIter α := if xs.isEmpty then .never else .vec xs

/-- `Iterator::next`, `/repo/src/types/iterators.rs:38-44`: the item and the iterator afterwards. -/
def next : FlatIter α → Option α × FlatIter α
  | .never => (none, .never)
  | .once x => (x, .once none)
  | .vec [] => (none, .vec [])
  | .vec (x :: xs) => (some x, .vec xs)

end FlatIter

/-- `IntoIterator for Type`, `/repo/src/types/type.rs:124-134`. -/
def Ty.intoIter : Ty → FlatIter Name
  | .exactly t => .new t
  | .eitherOf ts => .newVec ts

/-- `Type::len`, `/repo/src/types/type.rs:47-52`. -/
def Ty.len : Ty → Nat
  | .exactly _ => 1
  | .eitherOf ts => ts.length

/-- `IntoIterator for ConditionalEffect`, `/repo/src/types/conditional_effect.rs:27-37`. -/
def CondEffect.intoIter : CondEffect → FlatIter PEffect
  | .single e => .new e
  | .all es => .newVec es

/-- `IntoIterator for DurationConstraint`, `/repo/src/types/duration_constraint.rs:16-26`. -/
def DurationConstraint.intoIter : DurationConstraint → FlatIter SimpleDuration
  | .single c => .new c
  | .all cs => .newVec cs

/-- `DurationConstraint::len`, `/repo/src/types/duration_constraint.rs:39-44`. -/
def DurationConstraint.len : DurationConstraint → Nat
  | .single _ => 1
  | .all cs => cs.length

/-- `DurationConstraint::is_empty`, `/repo/src/types/duration_constraint.rs:46-51`. -/
def DurationConstraint.isEmpty : DurationConstraint → Bool
  | .single _ => false
  | .all cs => cs.isEmpty

/-- `try_get_single` of `Effects`, `PreconditionGoalDefinitions` and `PrefConGDs`,
`/repo/src/types/effects.rs:47-53`, `/repo/src/types/pre_gd.rs:50-56`,
`/repo/src/types/pref_con_gd.rs:64-70`; also `TryInto`, with `None` as the error. -/
def tryGetSingle (xs : List α) : Option α := if xs.length = 1 then xs.head? else none

/-! ## Emptiness -/

mutual
/-- `GoalDefinition::is_empty`, `/repo/src/types/gd.rs:102-114`. -/
def GD.isEmpty : GD → Bool
  | .atomic _ => false
  | .literal _ => false
  | .and gs => GD.allEmpty gs
  | .or gs => GD.allEmpty gs
  | .not g => g.isEmpty
  | .imply a b => a.isEmpty && b.isEmpty
  | .exist _ g => g.isEmpty
  | .forall_ _ g => g.isEmpty
  | .fComp _ => false
/-- `x.iter().all(|y| y.is_empty())`. -/
def GD.allEmpty : List GD → Bool
  | [] => true
  | g :: gs => g.isEmpty && GD.allEmpty gs
end

mutual
/-- `ConGD::is_empty`, `/repo/src/types/con_gd.rs:89-104`. -/
def ConGD.isEmpty : ConGD → Bool
  | .and gs => ConGD.allEmpty gs
  | .forall_ _ g => g.isEmpty
  | .atEnd g => g.isEmpty
  | .always g => g.isEmpty
  | .sometime g => g.isEmpty
  | .within _ g => g.isEmpty
  | .atMostOnce g => g.isEmpty
  | .sometimeAfter a b => a.isEmpty && b.isEmpty
  | .sometimeBefore a b => a.isEmpty && b.isEmpty
  | .alwaysWithin _ a b => a.isEmpty && b.isEmpty
  | .holdDuring _ _ g => g.isEmpty
  | .holdAfter _ g => g.isEmpty
/-- `x.iter().all(|y| y.is_empty())`. -/
def ConGD.allEmpty : List ConGD → Bool
  | [] => true
  | g :: gs => g.isEmpty && ConGD.allEmpty gs
/-- `Con2GD::is_empty`, `/repo/src/types/con_gd.rs:116-121`. -/
def Con2GD.isEmpty : Con2GD → Bool
  | .goal g => g.isEmpty
  | .nested g => g.isEmpty
end

/-- `PrefConGD::is_empty`, `/repo/src/types/pref_con_gd.rs:185-191`. In the `Forall` arm `x` is a
`PrefConGDs`, so this is the emptiness of the list (`pref_con_gd.rs:45-47`). -/
def PrefConGD.isEmpty : PrefConGD → Bool
  | .forall_ _ gs => gs.isEmpty
  | .preference _ g => g.isEmpty
  | .goal g => g.isEmpty

end Pddl
