import Verif.Api

/-!
# `==` on the values

The types of `/repo/src/types` derive `PartialEq`: two values are equal if they are the same variant and all fields
are equal.  `Vec` and `Option` compare element by element, `Box` compares its content, numbers compare by
`Number::eq` (`Verif/F32.lean`).  `a.same b` is `a == b`.
-/

namespace Pddl

/-- `Vec::eq`. -/
def listSame (f : α → α → Bool) : List α → List α → Bool
  | [], [] => true
  | a :: as, b :: bs => f a b && listSame f as bs
  | _, _ => false

/-- `Option::eq`, derived. -/
def optSame (f : α → α → Bool) : Option α → Option α → Bool
  | none, none => true
  | some a, some b => f a b
  | _, _ => false

/-- Derived on `Name` and `NameVariant`, `/repo/src/types/name.rs:17-32`. -/
def Name.same : Name → Name → Bool
  | .str a, .str b => a == b
  | .static a, .static b => a == b
  | _, _ => false

/-- `PartialEq::eq` of `Number`, `/repo/src/types/number.rs:98-103`. -/
def Number.same (a b : Number) : Bool := a.eq b

/-- Derived on `Type`, `/repo/src/types/type.rs:33-38`. -/
def Ty.same : Ty → Ty → Bool
  | .exactly a0, .exactly b0 => Name.same a0 b0
  | .eitherOf a0, .eitherOf b0 => listSame Name.same a0 b0
  | _, _ => false

/-- Derived on `Typed<O>`, `/repo/src/types/typed.rs:11`; also `FunctionTyped<O>`,
`/repo/src/types/function_typed.rs:15`, whose `FunctionType` is a newtype of `Type`. -/
def Typed.same {α : Type} (f : α → α → Bool) : Typed α → Typed α → Bool
  | ⟨a0, a1⟩, ⟨b0, b1⟩ => f a0 b0 && Ty.same a1 b1

mutual
/-- Derived on `Term` and `FunctionTerm`, `/repo/src/types/term.rs:11-15`, `/repo/src/types/function_term.rs:14`. -/
def Term.same : Term → Term → Bool
  | .name a0, .name b0 => Name.same a0 b0
  | .var a0, .var b0 => Name.same a0 b0
  | .fn a0 a1, .fn b0 b1 => Name.same a0 b0 && Term.sameL a1 b1
  | _, _ => false
/-- `Vec::eq`. -/
def Term.sameL : List Term → List Term → Bool
  | [], [] => true
  | a :: as, b :: bs => Term.same a b && Term.sameL as bs
  | _, _ => false
end

/-- Derived on `FunctionTerm`, `/repo/src/types/function_term.rs:14`. -/
def FunctionTerm.same : FunctionTerm → FunctionTerm → Bool
  | ⟨a0, a1⟩, ⟨b0, b1⟩ => Name.same a0 b0 && listSame Term.same a1 b1

/-- Derived on `AtomicFormula<T>`, `/repo/src/types/atomic_formula.rs:12-40`. -/
def AtomicFormula.same {α : Type} (f : α → α → Bool) : AtomicFormula α → AtomicFormula α → Bool
  | .equality a0 a1, .equality b0 b1 => f a0 b0 && f a1 b1
  | .predicate a0 a1, .predicate b0 b1 => Name.same a0 b0 && listSame f a1 b1
  | _, _ => false

/-- Derived on `Literal<T>`, `/repo/src/types/literal.rs:10-13`. -/
def Literal.same {α : Type} (f : α → α → Bool) : Literal α → Literal α → Bool
  | .pos a0, .pos b0 => AtomicFormula.same f a0 b0
  | .neg a0, .neg b0 => AtomicFormula.same f a0 b0
  | _, _ => false

/-- Derived on `AtomicFormulaSkeleton` and `AtomicFunctionSkeleton`,
`/repo/src/types/atomic_formula_skeleton.rs:11-14`, `/repo/src/types/atomic_function_skeleton.rs:34-39`. -/
def Skeleton.same : Skeleton → Skeleton → Bool
  | ⟨a0, a1⟩, ⟨b0, b1⟩ => Name.same a0 b0 && listSame (Typed.same Name.same) a1 b1

/-- Derived on `BasicFunctionTerm`, `/repo/src/types/basic_function_term.rs:8`. -/
def BasicFunctionTerm.same : BasicFunctionTerm → BasicFunctionTerm → Bool
  | ⟨a0, a1⟩, ⟨b0, b1⟩ => Name.same a0 b0 && listSame Name.same a1 b1

/-- Derived on `FHead`, `/repo/src/types/f_head.rs:14-17`. -/
def FHead.same : FHead → FHead → Bool
  | .simple a0, .simple b0 => Name.same a0 b0
  | .withTerms a0 a1, .withTerms b0 b1 => Name.same a0 b0 && listSame Term.same a1 b1
  | _, _ => false

/-- Derived on `BinaryOp`, `/repo/src/types/binary_op.rs:11-16`. -/
def BinaryOp.same (a b : BinaryOp) : Bool := a == b

/-- Derived on `MultiOp`, `/repo/src/types/multi_op.rs:11-14`. -/
def MultiOp.same (a b : MultiOp) : Bool := a == b

/-- Derived on `BinaryComp`, `/repo/src/types/binary_comp.rs:10-16`. -/
def BinaryComp.same (a b : BinaryComp) : Bool := a == b

/-- Derived on `AssignOp`, `/repo/src/types/assign_op.rs:12-71`. -/
def AssignOp.same (a b : AssignOp) : Bool := a == b

/-- Derived on `AssignOpT`, `/repo/src/types/assign_op_t.rs:10-13`. -/
def AssignOpT.same (a b : AssignOpT) : Bool := a == b

/-- Derived on `DOp`, `/repo/src/types/d_op.rs:8-16`. -/
def DOp.same (a b : DOp) : Bool := a == b

/-- Derived on `Optimization`, `/repo/src/types/optimization.rs:13-18`. -/
def Optimization.same (a b : Optimization) : Bool := a == b

/-- Derived on `TimeSpecifier`, `/repo/src/types/time_specifier.rs:10-15`. -/
def TimeSpecifier.same (a b : TimeSpecifier) : Bool := a == b

/-- Derived on `Interval`, `/repo/src/types/interval.rs:10-13`. -/
def Interval.same (a b : Interval) : Bool := a == b

/-- Derived on `Requirement`, `/repo/src/types/requirement.rs:19-105`. -/
def Requirement.same (a b : Requirement) : Bool := a == b

mutual
/-- Derived on `FExp`, `/repo/src/types/f_exp.rs:14-25`. -/
def FExp.same : FExp → FExp → Bool
  | .number a0, .number b0 => Number.same a0 b0
  | .function a0, .function b0 => FHead.same a0 b0
  | .negative a0, .negative b0 => FExp.same a0 b0
  | .binaryOp a0 a1 a2, .binaryOp b0 b1 b2 => BinaryOp.same a0 b0 && FExp.same a1 b1 && FExp.same a2 b2
  | .multiOp a0 a1 a2, .multiOp b0 b1 b2 => MultiOp.same a0 b0 && FExp.same a1 b1 && FExp.sameL a2 b2
  | _, _ => false
/-- `Vec::eq`. -/
def FExp.sameL : List FExp → List FExp → Bool
  | [], [] => true
  | a :: as, b :: bs => FExp.same a b && FExp.sameL as bs
  | _, _ => false
end

mutual
/-- Derived on `FExpDa`, `/repo/src/types/f_exp_da.rs:8-17`. -/
def FExpDa.same : FExpDa → FExpDa → Bool
  | .assign a0 a1 a2, .assign b0 b1 b2 => AssignOp.same a0 b0 && FHead.same a1 b1 && FExpDa.same a2 b2
  | .binaryOp a0 a1 a2, .binaryOp b0 b1 b2 => BinaryOp.same a0 b0 && FExpDa.same a1 b1 && FExpDa.same a2 b2
  | .multiOp a0 a1 a2, .multiOp b0 b1 b2 => MultiOp.same a0 b0 && FExpDa.same a1 b1 && FExpDa.sameL a2 b2
  | .negative a0, .negative b0 => FExpDa.same a0 b0
  | .duration, .duration => true
  | .fExp a0, .fExp b0 => FExp.same a0 b0
  | _, _ => false
/-- `Vec::eq`. -/
def FExpDa.sameL : List FExpDa → List FExpDa → Bool
  | [], [] => true
  | a :: as, b :: bs => FExpDa.same a b && FExpDa.sameL as bs
  | _, _ => false
end

/-- Derived on `FExpT`, `/repo/src/types/f_exp_t.rs:14-17`. -/
def FExpT.same : FExpT → FExpT → Bool
  | .now, .now => true
  | .scaled a0, .scaled b0 => FExp.same a0 b0
  | _, _ => false

/-- Derived on `FComp`, `/repo/src/types/f_comp.rs:11`. -/
def FComp.same : FComp → FComp → Bool
  | ⟨a0, a1, a2⟩, ⟨b0, b1, b2⟩ => BinaryComp.same a0 b0 && FExp.same a1 b1 && FExp.same a2 b2

/-- Derived on `FAssignDa`, `/repo/src/types/f_assign_da.rs:15`. -/
def FAssignDa.same : FAssignDa → FAssignDa → Bool
  | ⟨a0, a1, a2⟩, ⟨b0, b1, b2⟩ => AssignOp.same a0 b0 && FHead.same a1 b1 && FExpDa.same a2 b2

mutual
/-- Derived on `MetricFExp`, `/repo/src/types/metric_f_exp.rs:13-23`. -/
def MetricFExp.same : MetricFExp → MetricFExp → Bool
  | .binaryOp a0 a1 a2, .binaryOp b0 b1 b2 => BinaryOp.same a0 b0 && MetricFExp.same a1 b1 && MetricFExp.same a2 b2
  | .multiOp a0 a1 a2, .multiOp b0 b1 b2 => MultiOp.same a0 b0 && MetricFExp.same a1 b1 && MetricFExp.sameL a2 b2
  | .negative a0, .negative b0 => MetricFExp.same a0 b0
  | .number a0, .number b0 => Number.same a0 b0
  | .function a0 a1, .function b0 b1 => Name.same a0 b0 && listSame Name.same a1 b1
  | .totalTime, .totalTime => true
  | .isViolated a0, .isViolated b0 => Name.same a0 b0
  | _, _ => false
/-- `Vec::eq`. -/
def MetricFExp.sameL : List MetricFExp → List MetricFExp → Bool
  | [], [] => true
  | a :: as, b :: bs => MetricFExp.same a b && MetricFExp.sameL as bs
  | _, _ => false
end

mutual
/-- Derived on `GoalDefinition`, `/repo/src/types/gd.rs:13-37`. -/
def GD.same : GD → GD → Bool
  | .atomic a0, .atomic b0 => AtomicFormula.same Term.same a0 b0
  | .literal a0, .literal b0 => Literal.same Term.same a0 b0
  | .and a0, .and b0 => GD.sameL a0 b0
  | .or a0, .or b0 => GD.sameL a0 b0
  | .not a0, .not b0 => GD.same a0 b0
  | .imply a0 a1, .imply b0 b1 => GD.same a0 b0 && GD.same a1 b1
  | .exist a0 a1, .exist b0 b1 => listSame (Typed.same Name.same) a0 b0 && GD.same a1 b1
  | .forall_ a0 a1, .forall_ b0 b1 => listSame (Typed.same Name.same) a0 b0 && GD.same a1 b1
  | .fComp a0, .fComp b0 => FComp.same a0 b0
  | _, _ => false
/-- `Vec::eq`. -/
def GD.sameL : List GD → List GD → Bool
  | [], [] => true
  | a :: as, b :: bs => GD.same a b && GD.sameL as bs
  | _, _ => false
end

/-- Derived on `PreferenceGD` and `Preference`, `/repo/src/types/pref_gd.rs:10-15`,
`/repo/src/types/preference.rs:13`. -/
def PrefGD.same : PrefGD → PrefGD → Bool
  | .goal a0, .goal b0 => GD.same a0 b0
  | .preference a0 a1, .preference b0 b1 => optSame Name.same a0 b0 && GD.same a1 b1
  | _, _ => false

mutual
/-- Derived on `PreconditionGoalDefinition`, `/repo/src/types/pre_gd.rs:131-139`.
`PreconditionGoalDefinitions` (`pre_gd.rs:12`) is `List PreGD`. -/
def PreGD.same : PreGD → PreGD → Bool
  | .preference a0, .preference b0 => PrefGD.same a0 b0
  | .forall_ a0 a1, .forall_ b0 b1 => listSame (Typed.same Name.same) a0 b0 && PreGD.sameL a1 b1
  | _, _ => false
/-- `Vec::eq`. -/
def PreGD.sameL : List PreGD → List PreGD → Bool
  | [], [] => true
  | a :: as, b :: bs => PreGD.same a b && PreGD.sameL as bs
  | _, _ => false
end

mutual
/-- Derived on `ConGD`, `/repo/src/types/con_gd.rs:8-21`. -/
def ConGD.same : ConGD → ConGD → Bool
  | .and a0, .and b0 => ConGD.sameL a0 b0
  | .forall_ a0 a1, .forall_ b0 b1 => listSame (Typed.same Name.same) a0 b0 && ConGD.same a1 b1
  | .atEnd a0, .atEnd b0 => GD.same a0 b0
  | .always a0, .always b0 => Con2GD.same a0 b0
  | .sometime a0, .sometime b0 => Con2GD.same a0 b0
  | .within a0 a1, .within b0 b1 => Number.same a0 b0 && Con2GD.same a1 b1
  | .atMostOnce a0, .atMostOnce b0 => Con2GD.same a0 b0
  | .sometimeAfter a0 a1, .sometimeAfter b0 b1 => Con2GD.same a0 b0 && Con2GD.same a1 b1
  | .sometimeBefore a0 a1, .sometimeBefore b0 b1 => Con2GD.same a0 b0 && Con2GD.same a1 b1
  | .alwaysWithin a0 a1 a2, .alwaysWithin b0 b1 b2 => Number.same a0 b0 && Con2GD.same a1 b1 && Con2GD.same a2 b2
  | .holdDuring a0 a1 a2, .holdDuring b0 b1 b2 => Number.same a0 b0 && Number.same a1 b1 && Con2GD.same a2 b2
  | .holdAfter a0 a1, .holdAfter b0 b1 => Number.same a0 b0 && Con2GD.same a1 b1
  | _, _ => false
/-- Derived on `Con2GD`, `/repo/src/types/con_gd.rs:34-37`. -/
def Con2GD.same : Con2GD → Con2GD → Bool
  | .goal a0, .goal b0 => GD.same a0 b0
  | .nested a0, .nested b0 => ConGD.same a0 b0
  | _, _ => false
/-- `Vec::eq`. -/
def ConGD.sameL : List ConGD → List ConGD → Bool
  | [], [] => true
  | a :: as, b :: bs => ConGD.same a b && ConGD.sameL as bs
  | _, _ => false
end

mutual
/-- Derived on `PrefConGD`, `/repo/src/types/pref_con_gd.rs:158-166`. `PrefConGDs` is `List PrefConGD`. -/
def PrefConGD.same : PrefConGD → PrefConGD → Bool
  | .goal a0, .goal b0 => ConGD.same a0 b0
  | .forall_ a0 a1, .forall_ b0 b1 => listSame (Typed.same Name.same) a0 b0 && PrefConGD.sameL a1 b1
  | .preference a0 a1, .preference b0 b1 => optSame Name.same a0 b0 && ConGD.same a1 b1
  | _, _ => false
/-- `Vec::eq`. -/
def PrefConGD.sameL : List PrefConGD → List PrefConGD → Bool
  | [], [] => true
  | a :: as, b :: bs => PrefConGD.same a b && PrefConGD.sameL as bs
  | _, _ => false
end

/-- Derived on `PEffect`, `/repo/src/types/p_effect.rs:11-20`. -/
def PEffect.same : PEffect → PEffect → Bool
  | .atomic a0, .atomic b0 => AtomicFormula.same Term.same a0 b0
  | .notAtomic a0, .notAtomic b0 => AtomicFormula.same Term.same a0 b0
  | .assignNumeric a0 a1 a2, .assignNumeric b0 b1 b2 => AssignOp.same a0 b0 && FHead.same a1 b1 && FExp.same a2 b2
  | .assignObject a0 a1, .assignObject b0 b1 => FunctionTerm.same a0 b0 && optSame Term.same a1 b1
  | _, _ => false

/-- Derived on `ConditionalEffect`, `/repo/src/types/conditional_effect.rs:11-16`. -/
def CondEffect.same : CondEffect → CondEffect → Bool
  | .single a0, .single b0 => PEffect.same a0 b0
  | .all a0, .all b0 => listSame PEffect.same a0 b0
  | _, _ => false

mutual
/-- Derived on `CEffect`, `ForallCEffect`, `WhenCEffect`, `/repo/src/types/c_effect.rs:11-56`.
`Effects` (`effects.rs:14`) is `List CEffect`. -/
def CEffect.same : CEffect → CEffect → Bool
  | .effect a0, .effect b0 => PEffect.same a0 b0
  | .forall_ a0 a1, .forall_ b0 b1 => listSame (Typed.same Name.same) a0 b0 && CEffect.sameL a1 b1
  | .when a0 a1, .when b0 b1 => GD.same a0 b0 && CondEffect.same a1 b1
  | _, _ => false
/-- `Vec::eq`. -/
def CEffect.sameL : List CEffect → List CEffect → Bool
  | [], [] => true
  | a :: as, b :: bs => CEffect.same a b && CEffect.sameL as bs
  | _, _ => false
end

/-- Derived on `ActionDefinition`, `/repo/src/types/action_definition.rs:12-17`. -/
def ActionDef.same : ActionDef → ActionDef → Bool
  | ⟨a0, a1, a2, a3⟩, ⟨b0, b1, b2, b3⟩ => Name.same a0 b0 && listSame (Typed.same Name.same) a1 b1 && listSame PreGD.same a2 b2 && optSame (listSame CEffect.same) a3 b3

/-- Derived on `DerivedPredicate`, `/repo/src/types/derived_predicate.rs:10`. -/
def DerivedPredicate.same : DerivedPredicate → DerivedPredicate → Bool
  | ⟨a0, a1⟩, ⟨b0, b1⟩ => Skeleton.same a0 b0 && GD.same a1 b1

/-- Derived on `TimedGD`, `/repo/src/types/timed_gd.rs:8-48`. -/
def TimedGD.same : TimedGD → TimedGD → Bool
  | .at a0 a1, .at b0 b1 => TimeSpecifier.same a0 b0 && GD.same a1 b1
  | .over a0 a1, .over b0 b1 => Interval.same a0 b0 && GD.same a1 b1
  | _, _ => false

/-- Derived on `PrefTimedGD`, `/repo/src/types/pref_timed_gd.rs:10-15`. -/
def PrefTimedGD.same : PrefTimedGD → PrefTimedGD → Bool
  | .required a0, .required b0 => TimedGD.same a0 b0
  | .preference a0 a1, .preference b0 b1 => optSame Name.same a0 b0 && TimedGD.same a1 b1
  | _, _ => false

mutual
/-- Derived on `DurativeActionGoalDefinition`, `/repo/src/types/da_gd.rs:12-18`. -/
def DaGD.same : DaGD → DaGD → Bool
  | .timed a0, .timed b0 => PrefTimedGD.same a0 b0
  | .and a0, .and b0 => DaGD.sameL a0 b0
  | .forall_ a0 a1, .forall_ b0 b1 => listSame (Typed.same Name.same) a0 b0 && DaGD.same a1 b1
  | _, _ => false
/-- `Vec::eq`. -/
def DaGD.sameL : List DaGD → List DaGD → Bool
  | [], [] => true
  | a :: as, b :: bs => DaGD.same a b && DaGD.sameL as bs
  | _, _ => false
end

/-- Derived on `TimedEffect`, `/repo/src/types/timed_effect.rs:23-32`. -/
def TimedEffect.same : TimedEffect → TimedEffect → Bool
  | .conditional a0 a1, .conditional b0 b1 => TimeSpecifier.same a0 b0 && CondEffect.same a1 b1
  | .numericFluent a0 a1, .numericFluent b0 b1 => TimeSpecifier.same a0 b0 && FAssignDa.same a1 b1
  | .continuous a0 a1 a2, .continuous b0 b1 b2 => AssignOpT.same a0 b0 && FHead.same a1 b1 && FExpT.same a2 b2
  | _, _ => false

mutual
/-- Derived on `DurativeActionEffect`, `/repo/src/types/da_effect.rs:11-21`. -/
def DaEffect.same : DaEffect → DaEffect → Bool
  | .timed a0, .timed b0 => TimedEffect.same a0 b0
  | .all a0, .all b0 => DaEffect.sameL a0 b0
  | .forall_ a0 a1, .forall_ b0 b1 => listSame (Typed.same Name.same) a0 b0 && DaEffect.same a1 b1
  | .when a0 a1, .when b0 b1 => DaGD.same a0 b0 && TimedEffect.same a1 b1
  | _, _ => false
/-- `Vec::eq`. -/
def DaEffect.sameL : List DaEffect → List DaEffect → Bool
  | [], [] => true
  | a :: as, b :: bs => DaEffect.same a b && DaEffect.sameL as bs
  | _, _ => false
end

/-- Derived on `DurationValue`, `/repo/src/types/d_value.rs:10-17`. -/
def DurationValue.same : DurationValue → DurationValue → Bool
  | .number a0, .number b0 => Number.same a0 b0
  | .fExp a0, .fExp b0 => FExp.same a0 b0
  | _, _ => false

mutual
/-- Derived on `SimpleDurationConstraint`, `/repo/src/types/simple_duration_constraint.rs:10-15`. -/
def SimpleDuration.same : SimpleDuration → SimpleDuration → Bool
  | .op a0 a1, .op b0 b1 => DOp.same a0 b0 && DurationValue.same a1 b1
  | .at a0 a1, .at b0 b1 => TimeSpecifier.same a0 b0 && SimpleDuration.same a1 b1
  | _, _ => false
end

/-- Derived on `DurationConstraint`, `/repo/src/types/duration_constraint.rs:9-14`. -/
def DurationConstraint.same : DurationConstraint → DurationConstraint → Bool
  | .single a0, .single b0 => SimpleDuration.same a0 b0
  | .all a0, .all b0 => listSame SimpleDuration.same a0 b0
  | _, _ => false

/-- Derived on `DurativeActionDefinition`, `/repo/src/types/da_def.rs:27-33`. -/
def DaDef.same : DaDef → DaDef → Bool
  | ⟨a0, a1, a2, a3, a4⟩, ⟨b0, b1, b2, b3, b4⟩ => Name.same a0 b0 && listSame (Typed.same Name.same) a1 b1 && optSame DurationConstraint.same a2 b2 && optSame DaGD.same a3 b3 && optSame DaEffect.same a4 b4

/-- Derived on `StructureDef`, `/repo/src/types/structure_def.rs:10-18`. -/
def StructureDef.same : StructureDef → StructureDef → Bool
  | .action a0, .action b0 => ActionDef.same a0 b0
  | .durative a0, .durative b0 => DaDef.same a0 b0
  | .derived a0, .derived b0 => DerivedPredicate.same a0 b0
  | _, _ => false

/-- Derived on `InitElement`, `/repo/src/types/init_el.rs:8-19`. -/
def InitElement.same : InitElement → InitElement → Bool
  | .literal a0, .literal b0 => Literal.same Name.same a0 b0
  | .at a0 a1, .at b0 b1 => Number.same a0 b0 && Literal.same Name.same a1 b1
  | .isValue a0 a1, .isValue b0 b1 => BasicFunctionTerm.same a0 b0 && Number.same a1 b1
  | .isObject a0 a1, .isObject b0 b1 => BasicFunctionTerm.same a0 b0 && Name.same a1 b1
  | _, _ => false

/-- Derived on `MetricSpec`, `/repo/src/types/metric_spec.rs:10-13`. -/
def MetricSpec.same : MetricSpec → MetricSpec → Bool
  | ⟨a0, a1⟩, ⟨b0, b1⟩ => Optimization.same a0 b0 && MetricFExp.same a1 b1

/-- Derived on `LengthSpec`, `/repo/src/types/length_spec.rs:8-11`. -/
def LengthSpec.same : LengthSpec → LengthSpec → Bool
  | ⟨a0, a1⟩, ⟨b0, b1⟩ => optSame (· == ·) a0 b0 && optSame (· == ·) a1 b1

/-- Derived on `Domain`, `/repo/src/types/domain.rs:63-97`. -/
def Domain.same : Domain → Domain → Bool
  | ⟨a0, a1, a2, a3, a4, a5, a6, a7, a8, a9⟩, ⟨b0, b1, b2, b3, b4, b5, b6, b7, b8, b9⟩ => Name.same a0 b0 && listSame Name.same a1 b1 && listSame Requirement.same a2 b2 && listSame (Typed.same Name.same) a3 b3 && listSame (Typed.same Name.same) a4 b4 && listSame Skeleton.same a5 b5 && listSame (Typed.same Skeleton.same) a6 b6 && ConGD.same a7 b7 && listSame (Literal.same Name.same) a8 b8 && listSame StructureDef.same a9 b9

/-- Derived on `Problem`, `/repo/src/types/problem.rs:34-61`. -/
def Problem.same : Problem → Problem → Bool
  | ⟨a0, a1, a2, a3, a4, a5, a6, a7, a8⟩, ⟨b0, b1, b2, b3, b4, b5, b6, b7, b8⟩ => Name.same a0 b0 && Name.same a1 b1 && listSame Requirement.same a2 b2 && listSame (Typed.same Name.same) a3 b3 && listSame InitElement.same a4 b4 && listSame PreGD.same a5 b5 && listSame PrefConGD.same a6 b6 && optSame MetricSpec.same a7 b7 && optSame LengthSpec.same a8 b8

/-- `==` on any type that can be parsed.  Newtypes compare their content. -/
def Parsable.same : (k : Parsable) → k.Item → k.Item → Bool
  | .actionDefinition => ActionDef.same
  | .actionSymbol => Name.same
  | .assignOp => AssignOp.same
  | .assignOpT => AssignOpT.same
  | .atomicFormulaSkeleton => Skeleton.same
  | .atomicFunctionSkeleton => Skeleton.same
  | .basicFunctionTerm => BasicFunctionTerm.same
  | .binaryComp => BinaryComp.same
  | .binaryOp => BinaryOp.same
  | .cEffect => CEffect.same
  | .forallCEffect => fun a b => listSame (Typed.same Name.same) a.1 b.1 && listSame CEffect.same a.2 b.2
  | .whenCEffect => fun a b => GD.same a.1 b.1 && CondEffect.same a.2 b.2
  | .conGD => ConGD.same
  | .con2GD => Con2GD.same
  | .conditionalEffect => CondEffect.same
  | .constants => listSame (Typed.same Name.same)
  | .dOp => DOp.same
  | .durationValue => DurationValue.same
  | .durativeActionDefinition => DaDef.same
  | .durativeActionEffect => DaEffect.same
  | .durativeActionGoalDefinition => DaGD.same
  | .durativeActionSymbol => Name.same
  | .derivedPredicate => DerivedPredicate.same
  | .domain => Domain.same
  | .domainConstraintsDef => ConGD.same
  | .durationConstraint => optSame DurationConstraint.same
  | .effects => listSame CEffect.same
  | .fAssignDa => FAssignDa.same
  | .fComp => FComp.same
  | .fExp => FExp.same
  | .fExpDa => FExpDa.same
  | .fExpT => FExpT.same
  | .fHead => FHead.same
  | .functionSymbol => Name.same
  | .functionTerm => FunctionTerm.same
  | .functionType => Ty.same
  | .functions => listSame (Typed.same Skeleton.same)
  | .goalDefinition => GD.same
  | .goalDef => listSame PreGD.same
  | .initElements => listSame InitElement.same
  | .initElement => InitElement.same
  | .interval => Interval.same
  | .lengthSpec => LengthSpec.same
  | .metricFExp => MetricFExp.same
  | .metricSpec => MetricSpec.same
  | .multiOp => MultiOp.same
  | .name => Name.same
  | .number => Number.same
  | .objects => listSame (Typed.same Name.same)
  | .optimization => Optimization.same
  | .pEffect => PEffect.same
  | .preconditionGoalDefinitions => listSame PreGD.same
  | .predicate => Name.same
  | .predicateDefinitions => listSame Skeleton.same
  | .prefConGDs => listSame PrefConGD.same
  | .preferenceGD => PrefGD.same
  | .preferenceName => Name.same
  | .prefTimedGD => PrefTimedGD.same
  | .primitiveType => Name.same
  | .problem => Problem.same
  | .problemConstraintsDef => listSame PrefConGD.same
  | .requirements => listSame Requirement.same
  | .requirement => Requirement.same
  | .simpleDurationConstraint => SimpleDuration.same
  | .structureDef => StructureDef.same
  | .term => Term.same
  | .timeSpecifier => TimeSpecifier.same
  | .timedEffect => TimedEffect.same
  | .timedGD => TimedGD.same
  | .timeless => listSame (Literal.same Name.same)
  | .type_ => Ty.same
  | .types => listSame (Typed.same Name.same)
  | .variable_ => Name.same

end Pddl
