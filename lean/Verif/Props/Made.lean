import Verif.Accessors
import Verif.Intern

/-!
# C70, continued: the definitions inside a domain or problem show what they were made with

For each kind of definition: the accessors show the arguments of `new`, and every value is what `new` makes
from what its accessors show. So nothing is lost, exchanged or hidden.
-/

namespace Pddl

/-- Actions. -/
theorem C70_action :
    (∀ (n : Name) (vs : TypedList Name) (c : List PreGD) (e : Option (List CEffect)),
      let a := ActionDef.new n vs c e
      a.getSymbol = n ∧ a.getParameters = vs ∧ a.getPrecondition = c ∧ a.getEffect = e ∧ a.asSymbol = n) ∧
    ∀ a : ActionDef, ActionDef.new a.getSymbol a.getParameters a.getPrecondition a.getEffect = a :=
  ⟨fun _ _ _ _ => ⟨rfl, rfl, rfl, rfl, rfl⟩, fun _ => rfl⟩

/-- Durative actions. -/
theorem C70_durative_action :
    (∀ (n : Name) (vs : TypedList Name) (d : Option DurationConstraint) (c : Option DaGD) (e : Option DaEffect),
      let a := DaDef.new n vs d c e
      a.getSymbol = n ∧ a.getParameters = vs ∧ a.getDuration = d ∧ a.getCondition = c ∧ a.getEffect = e) ∧
    ∀ a : DaDef, DaDef.new a.getSymbol a.getParameters a.getDuration a.getCondition a.getEffect = a :=
  ⟨fun _ _ _ _ _ => ⟨rfl, rfl, rfl, rfl, rfl⟩, fun _ => rfl⟩

/-- Derived predicates, and the skeletons of predicates. -/
theorem C70_derived_predicate :
    (∀ (p : Skeleton) (g : GD), (DerivedPredicate.new p g).getPredicate = p ∧
      (DerivedPredicate.new p g).getExpression = g) ∧
    (∀ d : DerivedPredicate, DerivedPredicate.new d.getPredicate d.getExpression = d) ∧
    (∀ (n : Name) (vs : TypedList Name), (Skeleton.new n vs).getSymbol = n ∧ (Skeleton.new n vs).getVariables = vs) ∧
    ∀ s : Skeleton, Skeleton.new s.getSymbol s.getVariables = s :=
  ⟨fun _ _ => ⟨rfl, rfl⟩, fun _ => rfl, fun _ _ => ⟨rfl, rfl⟩, fun _ => rfl⟩

/-- Every member of a domain's structure is made by exactly one of the three constructors, from exactly one
definition. -/
theorem C70_structure (s : StructureDef) :
    ((∃ a, s = .newAction a) ∨ (∃ a, s = .newDurativeAction a) ∨ ∃ d, s = .newDerived d) ∧
    (∀ a a', StructureDef.newAction a = .newAction a' → a = a') ∧
    (∀ a a', StructureDef.newDurativeAction a = .newDurativeAction a' → a = a') ∧
    (∀ d d', StructureDef.newDerived d = .newDerived d' → d = d') ∧
    (∀ a a', StructureDef.newAction a ≠ .newDurativeAction a') ∧
    (∀ a d, StructureDef.newAction a ≠ .newDerived d) ∧
    ∀ a d, StructureDef.newDurativeAction a ≠ .newDerived d := by
  refine ⟨?_, fun _ _ h => by cases h; rfl, fun _ _ h => by cases h; rfl, fun _ _ h => by cases h; rfl,
    (fun _ _ h => nomatch h), (fun _ _ h => nomatch h), (fun _ _ h => nomatch h)⟩
  cases s with
  | action a => exact .inl ⟨a, rfl⟩
  | durative a => exact .inr (.inl ⟨a, rfl⟩)
  | derived d => exact .inr (.inr ⟨d, rfl⟩)

/-- Metrics and lengths of plans; the two short constructors of lengths set one part and leave out the other. -/
theorem C70_metric_and_length :
    (∀ (o : Optimization) (e : MetricFExp), (MetricSpec.new o e).getOptimization = o ∧
      (MetricSpec.new o e).getExpression = e) ∧
    (∀ m : MetricSpec, MetricSpec.new m.getOptimization m.getExpression = m) ∧
    (∀ s p : Option Nat, (LengthSpec.new s p).getSerial = s ∧ (LengthSpec.new s p).getParallel = p) ∧
    (∀ l : LengthSpec, LengthSpec.new l.getSerial l.getParallel = l) ∧
    (∀ n, (LengthSpec.newSerial n).getSerial = some n ∧ (LengthSpec.newSerial n).getParallel = none) ∧
    ∀ n, (LengthSpec.newParallel n).getSerial = none ∧ (LengthSpec.newParallel n).getParallel = some n :=
  ⟨fun _ _ => ⟨rfl, rfl⟩, fun _ => rfl, fun _ _ => ⟨rfl, rfl⟩, fun _ => rfl, fun _ => ⟨rfl, rfl⟩,
    fun _ => ⟨rfl, rfl⟩⟩

example : (ActionDef.new (.new c!"go") [⟨.new c!"x", .exactly (.new c!"object")⟩] [] (some [])).getEffect = some [] ∧
    StructureDef.newAction (.new (.new c!"go") [] [] none) ≠ .newDurativeAction (.new (.new c!"go") [] none none none) :=
  ⟨rfl, (C70_structure (.newAction (.new (.new c!"go") [] [] none))).2.2.2.2.1 _ _⟩

end Pddl
