import Verif.Name
import Verif.F32

/-!
# The abstract syntax types of `/repo/src/types`

Newtypes around `Name` (`Predicate`, `FunctionSymbol`, `ActionSymbol`, `Variable`, `PrimitiveType`,
`PreferenceName`, `DurativeActionSymbol`) are written `Name`; newtypes around `Vec<T>` are
written `List T`; `Box<T>` is `T`.
-/

namespace Pddl

/-- `Type`, `/repo/src/types/type.rs:33-38`. -/
inductive Ty where
  | exactly (t : Name)
  | eitherOf (ts : List Name)
  deriving DecidableEq, Repr

/-- `Type::OBJECT`, `/repo/src/types/type.rs:42`, built with `Name::new_static`. -/
def Ty.object : Ty := .exactly (Name.newStatic c!"object")

/-- `Type::NUMBER`, `/repo/src/types/type.rs:45`. -/
def Ty.number : Ty := .exactly (Name.newStatic c!"number")

/-- `Typed<O>`, `/repo/src/types/typed.rs:11`; also `FunctionTyped<O>`,
`/repo/src/types/function_typed.rs:15`, whose `FunctionType` is a newtype of `Type`. -/
structure Typed (α : Type) where
  value : α
  ty : Ty
  deriving DecidableEq, Repr

/-- `TypedList<T>`, `/repo/src/types/typed_list.rs:28`; also `FunctionTypedList<T>`. -/
abbrev TypedList (α : Type) := List (Typed α)

/-- `Term` and `FunctionTerm`, `/repo/src/types/term.rs:11-15`, `/repo/src/types/function_term.rs:14`. -/
inductive Term where
  | name (n : Name)
  | var (v : Name)
  | fn (f : Name) (ts : List Term)
  deriving Repr

/-- `FunctionTerm`, `/repo/src/types/function_term.rs:14`. -/
structure FunctionTerm where
  symbol : Name
  terms : List Term
  deriving Repr

/-- `AtomicFormula<T>`, `/repo/src/types/atomic_formula.rs:12-40`. -/
inductive AtomicFormula (α : Type) where
  | equality (first second : α)
  | predicate (p : Name) (values : List α)
  deriving DecidableEq, Repr

/-- `Literal<T>`, `/repo/src/types/literal.rs:10-13`. -/
inductive Literal (α : Type) where
  | pos (a : AtomicFormula α)
  | neg (a : AtomicFormula α)
  deriving DecidableEq, Repr

/-- `AtomicFormulaSkeleton` and `AtomicFunctionSkeleton`,
`/repo/src/types/atomic_formula_skeleton.rs:11-14`, `/repo/src/types/atomic_function_skeleton.rs:34-39`. -/
structure Skeleton where
  symbol : Name
  variables : TypedList Name
  deriving DecidableEq, Repr

/-- `BasicFunctionTerm`, `/repo/src/types/basic_function_term.rs:8`. -/
structure BasicFunctionTerm where
  symbol : Name
  names : List Name
  deriving DecidableEq, Repr

/-- `FHead`, `/repo/src/types/f_head.rs:14-17`. -/
inductive FHead where
  | simple (f : Name)
  | withTerms (f : Name) (ts : List Term)
  deriving Repr

/-- `BinaryOp`, `/repo/src/types/binary_op.rs:11-16`. -/
inductive BinaryOp where
  | mul | add | sub | div
  deriving DecidableEq, Repr

/-- `MultiOp`, `/repo/src/types/multi_op.rs:11-14`. -/
inductive MultiOp where
  | mul | add
  deriving DecidableEq, Repr

/-- `BinaryComp`, `/repo/src/types/binary_comp.rs:10-16`. -/
inductive BinaryComp where
  | gt | lt | eq | ge | le
  deriving DecidableEq, Repr

/-- `AssignOp`, `/repo/src/types/assign_op.rs:12-71`. -/
inductive AssignOp where
  | assign | scaleUp | scaleDown | increase | decrease
  deriving DecidableEq, Repr

/-- `AssignOpT`, `/repo/src/types/assign_op_t.rs:10-13`. -/
inductive AssignOpT where
  | increase | decrease
  deriving DecidableEq, Repr

/-- `DOp`, `/repo/src/types/d_op.rs:8-16`. -/
inductive DOp where
  | eq | ge | le
  deriving DecidableEq, Repr

/-- `Optimization`, `/repo/src/types/optimization.rs:13-18`. -/
inductive Optimization where
  | minimize | maximize
  deriving DecidableEq, Repr

/-- `TimeSpecifier`, `/repo/src/types/time_specifier.rs:10-15`. -/
inductive TimeSpecifier where
  | start | end_
  deriving DecidableEq, Repr

/-- `Interval`, `/repo/src/types/interval.rs:10-13`. -/
inductive Interval where
  | all
  deriving DecidableEq, Repr

/-- `Requirement`, `/repo/src/types/requirement.rs:19-105`. -/
inductive Requirement where
  | strips | typing | negativePreconditions | disjunctivePreconditions | equality
  | existentialPreconditions | universalPreconditions | quantifiedPreconditions
  | conditionalEffects | fluents | numericFluents | objectFluents | adl | durativeActions
  | durationInequalities | continuousEffects | derivedPredicates | timedInitialLiterals
  | preferences | constraints | actionCosts
  deriving DecidableEq, Repr

/-- `FExp`, `/repo/src/types/f_exp.rs:14-25`. -/
inductive FExp where
  | number (n : Number)
  | function (h : FHead)
  | negative (e : FExp)
  | binaryOp (op : BinaryOp) (a b : FExp)
  | multiOp (op : MultiOp) (a : FExp) (bs : List FExp)
  deriving Repr

/-- `FExpDa`, `/repo/src/types/f_exp_da.rs:8-17`. -/
inductive FExpDa where
  | assign (op : AssignOp) (h : FHead) (e : FExpDa)
  | binaryOp (op : BinaryOp) (a b : FExpDa)
  | multiOp (op : MultiOp) (a : FExpDa) (bs : List FExpDa)
  | negative (e : FExpDa)
  | duration
  | fExp (e : FExp)
  deriving Repr

/-- `FExpT`, `/repo/src/types/f_exp_t.rs:14-17`. -/
inductive FExpT where
  | now
  | scaled (e : FExp)
  deriving Repr

/-- `FComp`, `/repo/src/types/f_comp.rs:11`. -/
structure FComp where
  comp : BinaryComp
  first : FExp
  second : FExp
  deriving Repr

/-- `FAssignDa`, `/repo/src/types/f_assign_da.rs:15`. -/
structure FAssignDa where
  op : AssignOp
  head : FHead
  exp : FExpDa
  deriving Repr

/-- `MetricFExp`, `/repo/src/types/metric_f_exp.rs:13-23`. -/
inductive MetricFExp where
  | binaryOp (op : BinaryOp) (a b : MetricFExp)
  | multiOp (op : MultiOp) (a : MetricFExp) (bs : List MetricFExp)
  | negative (e : MetricFExp)
  | number (n : Number)
  | function (f : Name) (ns : List Name)
  | totalTime
  | isViolated (p : Name)
  deriving Repr

/-- `GoalDefinition`, `/repo/src/types/gd.rs:13-37`. -/
inductive GD where
  | atomic (a : AtomicFormula Term)
  | literal (l : Literal Term)
  | and (gs : List GD)
  | or (gs : List GD)
  | not (g : GD)
  | imply (a b : GD)
  | exist (vs : TypedList Name) (g : GD)
  | forall_ (vs : TypedList Name) (g : GD)
  | fComp (c : FComp)
  deriving Repr

/-- `PreferenceGD` and `Preference`, `/repo/src/types/pref_gd.rs:10-15`,
`/repo/src/types/preference.rs:13`. -/
inductive PrefGD where
  | goal (g : GD)
  | preference (n : Option Name) (g : GD)
  deriving Repr

/-- `PreconditionGoalDefinition`, `/repo/src/types/pre_gd.rs:131-139`.
`PreconditionGoalDefinitions` (`pre_gd.rs:12`) is `List PreGD`. -/
inductive PreGD where
  | preference (p : PrefGD)
  | forall_ (vs : TypedList Name) (gs : List PreGD)
  deriving Repr

mutual
/-- `ConGD`, `/repo/src/types/con_gd.rs:8-21`. -/
inductive ConGD where
  | and (gs : List ConGD)
  | forall_ (vs : TypedList Name) (g : ConGD)
  | atEnd (g : GD)
  | always (g : Con2GD)
  | sometime (g : Con2GD)
  | within (n : Number) (g : Con2GD)
  | atMostOnce (g : Con2GD)
  | sometimeAfter (a b : Con2GD)
  | sometimeBefore (a b : Con2GD)
  | alwaysWithin (n : Number) (a b : Con2GD)
  | holdDuring (n m : Number) (g : Con2GD)
  | holdAfter (n : Number) (g : Con2GD)
/-- `Con2GD`, `/repo/src/types/con_gd.rs:34-37`. -/
inductive Con2GD where
  | goal (g : GD)
  | nested (g : ConGD)
end

/-- `PrefConGD`, `/repo/src/types/pref_con_gd.rs:158-166`. `PrefConGDs` is `List PrefConGD`. -/
inductive PrefConGD where
  | goal (g : ConGD)
  | forall_ (vs : TypedList Name) (gs : List PrefConGD)
  | preference (n : Option Name) (g : ConGD)

/-- `PEffect`, `/repo/src/types/p_effect.rs:11-20`. -/
inductive PEffect where
  | atomic (a : AtomicFormula Term)
  | notAtomic (a : AtomicFormula Term)
  | assignNumeric (op : AssignOp) (h : FHead) (e : FExp)
  | assignObject (f : FunctionTerm) (t : Option Term)
  deriving Repr

/-- `ConditionalEffect`, `/repo/src/types/conditional_effect.rs:11-16`. -/
inductive CondEffect where
  | single (p : PEffect)
  | all (ps : List PEffect)
  deriving Repr

/-- `CEffect`, `ForallCEffect`, `WhenCEffect`, `/repo/src/types/c_effect.rs:11-56`.
`Effects` (`effects.rs:14`) is `List CEffect`. -/
inductive CEffect where
  | effect (p : PEffect)
  | forall_ (vs : TypedList Name) (es : List CEffect)
  | when (c : GD) (e : CondEffect)
  deriving Repr

/-- `ActionDefinition`, `/repo/src/types/action_definition.rs:12-17`. -/
structure ActionDef where
  symbol : Name
  parameters : TypedList Name
  precondition : List PreGD
  effect : Option (List CEffect)
  deriving Repr

/-- `DerivedPredicate`, `/repo/src/types/derived_predicate.rs:10`. -/
structure DerivedPredicate where
  predicate : Skeleton
  goal : GD
  deriving Repr

/-- `TimedGD`, `/repo/src/types/timed_gd.rs:8-48`. -/
inductive TimedGD where
  | at (t : TimeSpecifier) (g : GD)
  | over (i : Interval) (g : GD)
  deriving Repr

/-- `PrefTimedGD`, `/repo/src/types/pref_timed_gd.rs:10-15`. -/
inductive PrefTimedGD where
  | required (g : TimedGD)
  | preference (n : Option Name) (g : TimedGD)
  deriving Repr

/-- `DurativeActionGoalDefinition`, `/repo/src/types/da_gd.rs:12-18`. -/
inductive DaGD where
  | timed (g : PrefTimedGD)
  | and (gs : List DaGD)
  | forall_ (vs : TypedList Name) (g : DaGD)
  deriving Repr

/-- `TimedEffect`, `/repo/src/types/timed_effect.rs:23-32`. -/
inductive TimedEffect where
  | conditional (t : TimeSpecifier) (e : CondEffect)
  | numericFluent (t : TimeSpecifier) (e : FAssignDa)
  | continuous (op : AssignOpT) (h : FHead) (e : FExpT)
  deriving Repr

/-- `DurativeActionEffect`, `/repo/src/types/da_effect.rs:11-21`. -/
inductive DaEffect where
  | timed (e : TimedEffect)
  | all (es : List DaEffect)
  | forall_ (vs : TypedList Name) (e : DaEffect)
  | when (g : DaGD) (e : TimedEffect)
  deriving Repr

/-- `DurationValue`, `/repo/src/types/d_value.rs:10-17`. -/
inductive DurationValue where
  | number (n : Number)
  | fExp (e : FExp)
  deriving Repr

/-- `SimpleDurationConstraint`, `/repo/src/types/simple_duration_constraint.rs:10-15`. -/
inductive SimpleDuration where
  | op (o : DOp) (v : DurationValue)
  | at (t : TimeSpecifier) (c : SimpleDuration)
  deriving Repr

/-- `DurationConstraint`, `/repo/src/types/duration_constraint.rs:9-14`. -/
inductive DurationConstraint where
  | single (c : SimpleDuration)
  | all (cs : List SimpleDuration)
  deriving Repr

/-- `DurativeActionDefinition`, `/repo/src/types/da_def.rs:27-33`. -/
structure DaDef where
  symbol : Name
  parameters : TypedList Name
  duration : Option DurationConstraint
  condition : Option DaGD
  effect : Option DaEffect
  deriving Repr

/-- `StructureDef`, `/repo/src/types/structure_def.rs:10-18`. -/
inductive StructureDef where
  | action (a : ActionDef)
  | durative (a : DaDef)
  | derived (d : DerivedPredicate)
  deriving Repr

/-- `InitElement`, `/repo/src/types/init_el.rs:8-19`. -/
inductive InitElement where
  | literal (l : Literal Name)
  | at (t : Number) (l : Literal Name)
  | isValue (f : BasicFunctionTerm) (v : Number)
  | isObject (f : BasicFunctionTerm) (o : Name)
  deriving DecidableEq, Repr

/-- `MetricSpec`, `/repo/src/types/metric_spec.rs:10-13`. -/
structure MetricSpec where
  optimization : Optimization
  exp : MetricFExp
  deriving Repr

/-- `LengthSpec`, `/repo/src/types/length_spec.rs:8-11`. -/
structure LengthSpec where
  serial : Option Nat
  parallel : Option Nat
  deriving DecidableEq, Repr

/-- `Domain`, `/repo/src/types/domain.rs:63-97`. -/
structure Domain where
  name : Name
  extends_ : List Name
  requirements : List Requirement
  types : TypedList Name
  constants : TypedList Name
  predicates : List Skeleton
  functions : TypedList Skeleton
  constraints : ConGD
  timeless : List (Literal Name)
  structure_ : List StructureDef

namespace Domain

/-- `Domain::builder`, `/repo/src/types/domain.rs:101-114`. The default constraint is `And([])`
(`/repo/src/types/con_gd.rs:23-27`). -/
def builder (name : Name) (structure_ : List StructureDef) : Domain :=
  { name, extends_ := [], requirements := [], types := [], constants := [], predicates := [],
    functions := [], constraints := .and [], timeless := [], structure_ }

/-- `Domain::with_extends`, `/repo/src/types/domain.rs:118-121`. -/
def withExtends (d : Domain) (x : List Name) : Domain := { d with extends_ := x }
/-- `Domain::with_requirements`, `/repo/src/types/domain.rs:124-127`. -/
def withRequirements (d : Domain) (x : List Requirement) : Domain := { d with requirements := x }
/-- `Domain::with_types`, `/repo/src/types/domain.rs:130-133`. -/
def withTypes (d : Domain) (x : TypedList Name) : Domain := { d with types := x }
/-- `Domain::with_constants`, `/repo/src/types/domain.rs:136-139`. -/
def withConstants (d : Domain) (x : TypedList Name) : Domain := { d with constants := x }
/-- `Domain::with_predicates`, `/repo/src/types/domain.rs:142-145`. -/
def withPredicates (d : Domain) (x : List Skeleton) : Domain := { d with predicates := x }
/-- `Domain::with_functions`, `/repo/src/types/domain.rs:148-151`. -/
def withFunctions (d : Domain) (x : TypedList Skeleton) : Domain := { d with functions := x }
/-- `Domain::with_constraints`, `/repo/src/types/domain.rs:154-157`. -/
def withConstraints (d : Domain) (x : ConGD) : Domain := { d with constraints := x }
/-- `Domain::with_timeless`, `/repo/src/types/domain.rs:160-163`. -/
def withTimeless (d : Domain) (x : List (Literal Name)) : Domain := { d with timeless := x }

end Domain

/-- `Problem`, `/repo/src/types/problem.rs:34-61`. -/
structure Problem where
  name : Name
  domain : Name
  requires : List Requirement
  objects : TypedList Name
  init : List InitElement
  goal : List PreGD
  constraints : List PrefConGD
  metricSpec : Option MetricSpec
  lengthSpec : Option LengthSpec

namespace Problem

/-- `Problem::builder`, `/repo/src/types/problem.rs:90-107`. -/
def builder (name domain : Name) (init : List InitElement) (goal : List PreGD) : Problem :=
  { name, domain, requires := [], objects := [], init, goal, constraints := [],
    metricSpec := none, lengthSpec := none }

/-- `Problem::with_requirements`, `/repo/src/types/problem.rs:110-113`. -/
def withRequirements (p : Problem) (x : List Requirement) : Problem := { p with requires := x }
/-- `Problem::with_objects`, `/repo/src/types/problem.rs:116-119`. -/
def withObjects (p : Problem) (x : TypedList Name) : Problem := { p with objects := x }
/-- `Problem::with_constraints`, `/repo/src/types/problem.rs:122-125`. -/
def withConstraints (p : Problem) (x : List PrefConGD) : Problem := { p with constraints := x }
/-- `Problem::with_metric_spec`, `/repo/src/types/problem.rs:128-131`. -/
def withMetricSpec (p : Problem) (x : MetricSpec) : Problem := { p with metricSpec := some x }
/-- `Problem::with_length_spec`, `/repo/src/types/problem.rs:134-137`. -/
def withLengthSpec (p : Problem) (x : LengthSpec) : Problem := { p with lengthSpec := some x }

end Problem
end Pddl
