import Verif.Spec.Meaning

/-!
# Specification: constraints over trajectories

When a constraint is true of the sequence of states a plan goes through, after "PDDL3: Preferences and constraints
for planning". There, arguments of operators are goals; a nested constraint is taken to be about the rest of
the trajectory. `hold-during` and `hold-after` are about the states of the trajectory at the times in question; the
paper also looks at the state in between two of them.
-/

namespace Pddl

/-- One state of a trajectory, and when it is reached. -/
structure Snapshot (M : Interp) where
  time : M.Num
  fn : List Char → List M.Obj → M.Obj
  pred : List Char → List M.Obj → Prop
  fluent : List Char → List M.Obj → M.Num

/-- The objects, types and numbers of `M`, with the facts and values of the state `s`. -/
def Interp.now (M : Interp) (s : Snapshot M) : Interp :=
  { M with fn := s.fn, pred := s.pred, fluent := s.fluent }

/-- The truth of a goal in the state number `i`. -/
def GD.HoldsAt (M : Interp) (g : GD) (tr : List (Snapshot M)) (i : Nat) (e : M.Env) : Prop :=
  ∃ s, tr[i]? = some s ∧ g.Holds (M.now s) e

/-- `n ≤ m` for times. -/
def Interp.le (M : Interp) (n m : M.Num) : Prop := M.comp .le n m

mutual
/-- The truth of a constraint. -/
def ConGD.On (M : Interp) : ConGD → List (Snapshot M) → M.Env → Prop
  | .and gs, tr, e => ConGD.AllOn M gs tr e
  | .forall_ vs g, tr, e => ForEach M vs e (ConGD.On M g tr)
  | .atEnd g, tr, e => g.HoldsAt M tr (tr.length - 1) e
  | .always g, tr, e => ∀ i < tr.length, Con2GD.From M g tr i e
  | .sometime g, tr, e => ∃ i < tr.length, Con2GD.From M g tr i e
  | .within n g, tr, e => ∃ i s, tr[i]? = some s ∧ M.le s.time (M.lit n) ∧ Con2GD.From M g tr i e
  | .atMostOnce g, tr, e => ∀ i j k, i < j → j < k → k < tr.length → Con2GD.From M g tr i e → Con2GD.From M g tr k e →
      Con2GD.From M g tr j e
  | .sometimeAfter a b, tr, e => ∀ i < tr.length, Con2GD.From M a tr i e →
      ∃ j, i ≤ j ∧ j < tr.length ∧ Con2GD.From M b tr j e
  | .sometimeBefore a b, tr, e => ∀ i < tr.length, Con2GD.From M a tr i e → ∃ j < i, Con2GD.From M b tr j e
  | .alwaysWithin n a b, tr, e => ∀ i s, tr[i]? = some s → Con2GD.From M a tr i e →
      ∃ j s', i ≤ j ∧ tr[j]? = some s' ∧ M.le (M.bin .sub s'.time s.time) (M.lit n) ∧ Con2GD.From M b tr j e
  | .holdDuring n m g, tr, e => ∀ i s, tr[i]? = some s → M.le (M.lit n) s.time → ¬ M.le (M.lit m) s.time →
      Con2GD.From M g tr i e
  | .holdAfter n g, tr, e => ∀ i s, tr[i]? = some s → ¬ M.le s.time (M.lit n) → Con2GD.From M g tr i e
/-- The truth of an argument of an operator, from the state number `i` on. -/
def Con2GD.From (M : Interp) : Con2GD → List (Snapshot M) → Nat → M.Env → Prop
  | .goal g, tr, i, e => g.HoldsAt M tr i e
  | .nested c, tr, i, e => ConGD.On M c (tr.drop i) e
/-- All of them are true. -/
def ConGD.AllOn (M : Interp) : List ConGD → List (Snapshot M) → M.Env → Prop
  | [], _, _ => True
  | g :: gs, tr, e => ConGD.On M g tr e ∧ ConGD.AllOn M gs tr e
end

end Pddl
