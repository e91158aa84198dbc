import Verif.Spec.Durative
import Verif.Spec.Plan

/-!
# Specification: what durations, durative actions and derived predicates mean

After PDDL 2.1 and 2.2. Nothing of this is in the code, which only reads the files.
-/

namespace Pddl

/-- The comparison an operator stands for. -/
def DOp.comp : DOp → BinaryComp
  | .eq => .eq
  | .ge => .ge
  | .le => .le

/-- The value a duration is compared with. -/
def DurationValue.denote (M : Interp) (e : M.Env) : DurationValue → M.Num
  | .number n => M.lit n
  | .fExp x => x.denote M e

/-- The action may take as long as it does. Values are those at `ts` if nothing else is said. -/
def SimpleDuration.Allows (M : Interp) (r : Course M) (e : M.Env) : TimeSpecifier → SimpleDuration → Prop
  | ts, .op o v => M.comp o.comp r.duration (v.denote (M.now (r.state ts)) e)
  | _, .at ts c => SimpleDuration.Allows M r e ts c

/-- The action may take as long as it does. Values are those at the start if nothing else is said. -/
def DurationConstraint.Allows (M : Interp) (r : Course M) (e : M.Env) : DurationConstraint → Prop
  | .single c => c.Allows M r e .start
  | .all cs => ∀ c ∈ cs, c.Allows M r e .start

/-- With the arguments `os`, the action can be carried out as in `r`, and what it does is `C`. -/
def DaDef.Runs (M : Interp) (a : DaDef) (os : List M.Obj) (r : Course M) (C : Deed M → Prop) : Prop :=
  ∃ e₀, Binds M a.parameters os e₀ fun e =>
    (∀ d, a.duration = some d → d.Allows M r e) ∧
    (∀ c, a.condition = some c → DaGD.Met M r c e) ∧
    ∀ d, C d ↔ ∃ x, a.effect = some x ∧ DaEffect.Does M r d x e

/-- Where its goal is true of objects, the derived predicate is. -/
def DerivedPredicate.Rule (M : Interp) (d : DerivedPredicate) : Prop :=
  ∀ os e₀, Binds M d.predicate.variables os e₀ (fun e => d.goal.Holds M e) → M.pred d.predicate.symbol.text os

end Pddl
