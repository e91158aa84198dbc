import Verif.Ast

/-!
# Constructors and accessors of definitions

The remaining `new`, accessor, `AsRef` and tuple `From` functions of the definitions inside a domain or
problem. Each is a single expression in the source.
-/

namespace Pddl

/-! ## Actions -/

/-- `ActionDefinition::new`, `/repo/src/types/action_definition.rs:20-32`. -/
def ActionDef.new (symbol : Name) (parameters : TypedList Name) (precondition : List PreGD)
    (effect : Option (List CEffect)) : ActionDef := { symbol, parameters, precondition, effect }
/-- `ActionDefinition::symbol`, `/repo/src/types/action_definition.rs:34-36`. -/
def ActionDef.getSymbol (a : ActionDef) : Name := a.symbol
/-- `ActionDefinition::parameters`, `/repo/src/types/action_definition.rs:38-40`. -/
def ActionDef.getParameters (a : ActionDef) : TypedList Name := a.parameters
/-- `ActionDefinition::precondition`, `/repo/src/types/action_definition.rs:42-44`. -/
def ActionDef.getPrecondition (a : ActionDef) : List PreGD := a.precondition
/-- `ActionDefinition::effect`, `/repo/src/types/action_definition.rs:46-48`. -/
def ActionDef.getEffect (a : ActionDef) : Option (List CEffect) := a.effect
/-- `AsRef<ActionSymbol>`, `/repo/src/types/action_definition.rs:51-55`. -/
def ActionDef.asSymbol (a : ActionDef) : Name := a.symbol

/-! ## Durative actions -/

/-- `DurativeActionDefinition::new`, `/repo/src/types/da_def.rs:36-50`. -/
def DaDef.new (symbol : Name) (parameters : TypedList Name) (duration : Option DurationConstraint)
    (condition : Option DaGD) (effect : Option DaEffect) : DaDef :=
  { symbol, parameters, duration, condition, effect }
/-- `DurativeActionDefinition::symbol`, `/repo/src/types/da_def.rs:52-54`, and
`AsRef<DurativeActionSymbol>`, `/repo/src/types/da_def.rs:118-122`. -/
def DaDef.getSymbol (a : DaDef) : Name := a.symbol
/-- `DurativeActionDefinition::parameters`, `/repo/src/types/da_def.rs:84-86`, and
`AsRef<TypedVariables>`, `/repo/src/types/da_def.rs:124-128`. -/
def DaDef.getParameters (a : DaDef) : TypedList Name := a.parameters
/-- `DurativeActionDefinition::duration`, `/repo/src/types/da_def.rs:96-98`, and
`AsRef<Option<DurationConstraint>>`, `/repo/src/types/da_def.rs:130-134`. -/
def DaDef.getDuration (a : DaDef) : Option DurationConstraint := a.duration
/-- `DurativeActionDefinition::condition`, `/repo/src/types/da_def.rs:106-108`, and
`AsRef<Option<DurativeActionGoalDefinition>>`, `/repo/src/types/da_def.rs:136-140`. -/
def DaDef.getCondition (a : DaDef) : Option DaGD := a.condition
/-- `DurativeActionDefinition::effect`, `/repo/src/types/da_def.rs:113-115`, and
`AsRef<Option<DurativeActionEffect>>`, `/repo/src/types/da_def.rs:142-146`. -/
def DaDef.getEffect (a : DaDef) : Option DaEffect := a.effect

/-! ## Derived predicates and skeletons -/

/-- `DerivedPredicate::new`, `/repo/src/types/derived_predicate.rs:13-15`, and the tuple `From`,
`/repo/src/types/derived_predicate.rs:26-30`. -/
def DerivedPredicate.new (p : Skeleton) (g : GD) : DerivedPredicate := ⟨p, g⟩
/-- `DerivedPredicate::predicate`, `/repo/src/types/derived_predicate.rs:17-19`, and
`AsRef<AtomicFormulaSkeleton>`, `/repo/src/types/derived_predicate.rs:32-36`. -/
def DerivedPredicate.getPredicate (d : DerivedPredicate) : Skeleton := d.predicate
/-- `DerivedPredicate::expression`, `/repo/src/types/derived_predicate.rs:21-23`, and
`AsRef<GoalDefinition>`, `/repo/src/types/derived_predicate.rs:38-42`. -/
def DerivedPredicate.getExpression (d : DerivedPredicate) : GD := d.goal

/-- `AtomicFormulaSkeleton::new` and the tuple `From`, `/repo/src/types/atomic_formula_skeleton.rs:17-22`,
`:39-43`; `AtomicFunctionSkeleton::new` and the tuple `From`s,
`/repo/src/types/atomic_function_skeleton.rs:42-44`, `:57-67`. -/
def Skeleton.new (p : Name) (vs : TypedList Name) : Skeleton := ⟨p, vs⟩
/-- `AtomicFormulaSkeleton::name`, `::predicate`, `/repo/src/types/atomic_formula_skeleton.rs:24-31`, and
`AtomicFunctionSkeleton::symbol`, `/repo/src/types/atomic_function_skeleton.rs:47-49`. The newtype
around the name is dropped. -/
def Skeleton.getSymbol (s : Skeleton) : Name := s.symbol
/-- `AtomicFormulaSkeleton::variables`, `/repo/src/types/atomic_formula_skeleton.rs:34-36`, and
`AtomicFunctionSkeleton::variables`, `/repo/src/types/atomic_function_skeleton.rs:52-54`. -/
def Skeleton.getVariables (s : Skeleton) : TypedList Name := s.variables

/-! ## Structures -/

/-- `StructureDef::new_action` and `From`, `/repo/src/types/structure_def.rs:21-23`, `:32-36`. -/
def StructureDef.newAction (a : ActionDef) : StructureDef := .action a
/-- `StructureDef::new_durative_action` and `From`, `/repo/src/types/structure_def.rs:24-26`, `:38-42`. -/
def StructureDef.newDurativeAction (a : DaDef) : StructureDef := .durative a
/-- `StructureDef::new_derived` and `From`, `/repo/src/types/structure_def.rs:27-29`, `:44-48`. -/
def StructureDef.newDerived (d : DerivedPredicate) : StructureDef := .derived d

/-! ## Length and metric -/

/-- `LengthSpec::new`, `/repo/src/types/length_spec.rs:14-16`. -/
def LengthSpec.new (serial parallel : Option Nat) : LengthSpec := { serial, parallel }
/-- `LengthSpec::new_serial`, `/repo/src/types/length_spec.rs:18-20`. -/
def LengthSpec.newSerial (n : Nat) : LengthSpec := LengthSpec.new (some n) none
/-- `LengthSpec::new_parallel`, `/repo/src/types/length_spec.rs:22-24`. -/
def LengthSpec.newParallel (n : Nat) : LengthSpec := LengthSpec.new none (some n)
/-- `LengthSpec::serial`, `/repo/src/types/length_spec.rs:27-29`. -/
def LengthSpec.getSerial (l : LengthSpec) : Option Nat := l.serial
/-- `LengthSpec::parallel`, `/repo/src/types/length_spec.rs:32-34`. -/
def LengthSpec.getParallel (l : LengthSpec) : Option Nat := l.parallel

/-- `MetricSpec::new`, `/repo/src/types/metric_spec.rs:16-18`. -/
def MetricSpec.new (optimization : Optimization) (exp : MetricFExp) : MetricSpec := { optimization, exp }
/-- `MetricSpec::optimization`, `/repo/src/types/metric_spec.rs:21-23`. -/
def MetricSpec.getOptimization (m : MetricSpec) : Optimization := m.optimization
/-- `MetricSpec::expression`, `/repo/src/types/metric_spec.rs:26-28`. -/
def MetricSpec.getExpression (m : MetricSpec) : MetricFExp := m.exp

end Pddl
