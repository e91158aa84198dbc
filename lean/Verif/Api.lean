import Verif.Parsers

/-!
# The `Parser` trait

`/repo/src/parsers/mod.rs:86-103` declares the trait through which the crate is used: `parse`,
`parse_span` and `from_str`.  73 types implement it; only `parse` is implemented per type, the other
two are the default bodies of the trait.
-/

namespace Pddl

/-- The types with an `impl Parser`, in the order of the files in `/repo/src/parsers`.  Each line
cites the `impl`. -/
inductive Parsable
  /-- `ActionDefinition`, `/repo/src/parsers/action_def.rs:88-122` -/
  | actionDefinition
  /-- `ActionSymbol`, `/repo/src/parsers/action_symbol.rs:28-45` -/
  | actionSymbol
  /-- `AssignOp`, `/repo/src/parsers/assign_op.rs:34-52` -/
  | assignOp
  /-- `AssignOpT`, `/repo/src/parsers/assign_op_t.rs:27-44` -/
  | assignOpT
  /-- `AtomicFormulaSkeleton`, `/repo/src/parsers/atomic_formula_skeleton.rs:34-61` -/
  | atomicFormulaSkeleton
  /-- `AtomicFunctionSkeleton`, `/repo/src/parsers/atomic_function_skeleton.rs:36-61` -/
  | atomicFunctionSkeleton
  /-- `BasicFunctionTerm`, `/repo/src/parsers/basic_function_term.rs:43-68` -/
  | basicFunctionTerm
  /-- `BinaryComp`, `/repo/src/parsers/binary_comp.rs:35-52` -/
  | binaryComp
  /-- `BinaryOp`, `/repo/src/parsers/binary_op.rs:33-50` -/
  | binaryOp
  /-- `CEffect`, `/repo/src/parsers/c_effect.rs:195-245` -/
  | cEffect
  /-- `ForallCEffect`, `/repo/src/parsers/c_effect.rs:247-272` -/
  | forallCEffect
  /-- `WhenCEffect`, `/repo/src/parsers/c_effect.rs:274-300` -/
  | whenCEffect
  /-- `ConGD`, `/repo/src/parsers/con_gd.rs:268-275` -/
  | conGD
  /-- `Con2GD`, `/repo/src/parsers/con_gd.rs:277-284` -/
  | con2GD
  /-- `ConditionalEffect`, `/repo/src/parsers/cond_effect.rs:54-61` -/
  | conditionalEffect
  /-- `Constants`, `/repo/src/parsers/constants_def.rs:29-36` -/
  | constants
  /-- `DOp`, `/repo/src/parsers/d_op.rs:32-52` -/
  | dOp
  /-- `DurationValue`, `/repo/src/parsers/d_value.rs:35-42` -/
  | durationValue
  /-- `DurativeActionDefinition`, `/repo/src/parsers/da_def.rs:94-101` -/
  | durativeActionDefinition
  /-- `DurativeActionEffect`, `/repo/src/parsers/da_effect.rs:111-118` -/
  | durativeActionEffect
  /-- `DurativeActionGoalDefinition`, `/repo/src/parsers/da_gd.rs:111-118` -/
  | durativeActionGoalDefinition
  /-- `DurativeActionSymbol`, `/repo/src/parsers/da_symbol.rs:18-35` -/
  | durativeActionSymbol
  /-- `DerivedPredicate`, `/repo/src/parsers/derived_predicate.rs:43-50` -/
  | derivedPredicate
  /-- `Domain`, `/repo/src/parsers/domain.rs:113-171` -/
  | domain
  /-- `DomainConstraintsDef`, `/repo/src/parsers/domain_constraints_def.rs:30-37` -/
  | domainConstraintsDef
  /-- `DurationConstraint`, `/repo/src/parsers/duration_constraint.rs:80-87` -/
  | durationConstraint
  /-- `Effects`, `/repo/src/parsers/effects.rs:59-66` -/
  | effects
  /-- `FAssignDa`, `/repo/src/parsers/f_assign_da.rs:28-35` -/
  | fAssignDa
  /-- `FComp`, `/repo/src/parsers/f_comp.rs:44-51` -/
  | fComp
  /-- `FExp`, `/repo/src/parsers/f_exp.rs:84-91` -/
  | fExp
  /-- `FExpDa`, `/repo/src/parsers/f_exp_da.rs:71-78` -/
  | fExpDa
  /-- `FExpT`, `/repo/src/parsers/f_exp_t.rs:59-66` -/
  | fExpT
  /-- `FHead`, `/repo/src/parsers/f_head.rs:46-53` -/
  | fHead
  /-- `FunctionSymbol`, `/repo/src/parsers/function_symbol.rs:27-44` -/
  | functionSymbol
  /-- `FunctionTerm`, `/repo/src/parsers/function_term.rs:42-49` -/
  | functionTerm
  /-- `FunctionType`, `/repo/src/parsers/function_type.rs:21-28` -/
  | functionType
  /-- `Functions`, `/repo/src/parsers/functions_def.rs:40-47` -/
  | functions
  /-- `GoalDefinition`, `/repo/src/parsers/gd.rs:194-201` -/
  | goalDefinition
  /-- `GoalDef`, `/repo/src/parsers/goal_def.rs:33-40` -/
  | goalDef
  /-- `InitElements`, `/repo/src/parsers/init_def.rs:43-50` -/
  | initElements
  /-- `InitElement`, `/repo/src/parsers/init_el.rs:92-99` -/
  | initElement
  /-- `Interval`, `/repo/src/parsers/interval.rs:24-31` -/
  | interval
  /-- `LengthSpec`, `/repo/src/parsers/length_spec.rs:34-41` -/
  | lengthSpec
  /-- `MetricFExp`, `/repo/src/parsers/metric_f_exp.rs:138-145` -/
  | metricFExp
  /-- `MetricSpec`, `/repo/src/parsers/metric_spec.rs:37-44` -/
  | metricSpec
  /-- `MultiOp`, `/repo/src/parsers/multi_op.rs:26-33` -/
  | multiOp
  /-- `Name`, `/repo/src/parsers/name.rs:40-47` -/
  | name
  /-- `Number`, `/repo/src/parsers/number.rs:38-45` -/
  | number
  /-- `Objects`, `/repo/src/parsers/objects_def.rs:31-38` -/
  | objects
  /-- `Optimization`, `/repo/src/parsers/optimization.rs:25-32` -/
  | optimization
  /-- `PEffect`, `/repo/src/parsers/p_effect.rs:104-111` -/
  | pEffect
  /-- `PreconditionGoalDefinitions`, `/repo/src/parsers/pre_gd.rs:98-105` -/
  | preconditionGoalDefinitions
  /-- `Predicate`, `/repo/src/parsers/predicate.rs:27-43` -/
  | predicate
  /-- `PredicateDefinitions`, `/repo/src/parsers/predicates_def.rs:50-57` -/
  | predicateDefinitions
  /-- `PrefConGDs`, `/repo/src/parsers/pref_con_gd.rs:120-127` -/
  | prefConGDs
  /-- `PreferenceGD`, `/repo/src/parsers/pref_gd.rs:79-86` -/
  | preferenceGD
  /-- `PreferenceName`, `/repo/src/parsers/pref_name.rs:17-24` -/
  | preferenceName
  /-- `PrefTimedGD`, `/repo/src/parsers/pref_timed_gd.rs:81-88` -/
  | prefTimedGD
  /-- `PrimitiveType`, `/repo/src/parsers/primitive_type.rs:28-35` -/
  | primitiveType
  /-- `Problem`, `/repo/src/parsers/problem.rs:74-104` -/
  | problem
  /-- `ProblemConstraintsDef`, `/repo/src/parsers/problem_constraints_def.rs:31-38` -/
  | problemConstraintsDef
  /-- `Requirements`, `/repo/src/parsers/requirements.rs:87-93` -/
  | requirements
  /-- `Requirement`, `/repo/src/parsers/requirements.rs:95-102` -/
  | requirement
  /-- `SimpleDurationConstraint`, `/repo/src/parsers/simple_duration_constraint.rs:66-73` -/
  | simpleDurationConstraint
  /-- `StructureDef`, `/repo/src/parsers/structure_def.rs:61-68` -/
  | structureDef
  /-- `Term`, `/repo/src/parsers/term.rs:36-56` -/
  | term
  /-- `TimeSpecifier`, `/repo/src/parsers/time_specifier.rs:26-33` -/
  | timeSpecifier
  /-- `TimedEffect`, `/repo/src/parsers/timed_effect.rs:91-98` -/
  | timedEffect
  /-- `TimedGD`, `/repo/src/parsers/timed_gd.rs:61-68` -/
  | timedGD
  /-- `Timeless`, `/repo/src/parsers/timeless_def.rs:44-51` -/
  | timeless
  /-- `Type`, `/repo/src/parsers/type.rs:37-44` -/
  | type_
  /-- `Types`, `/repo/src/parsers/types_def.rs:29-36` -/
  | types
  /-- `Variable`, `/repo/src/parsers/variable.rs:28-45` -/
  | variable_
  deriving DecidableEq

namespace Parsable

/-- `Parser::Item`, `/repo/src/parsers/mod.rs:87`, as each `impl` of the list above sets it.  The
wrappers around names, typed lists and lists are modelled by what they wrap. -/
def Item : Parsable → Type
  | actionDefinition => ActionDef
  | actionSymbol => Name
  | assignOp => AssignOp
  | assignOpT => AssignOpT
  | atomicFormulaSkeleton => Skeleton
  | atomicFunctionSkeleton => Skeleton
  | basicFunctionTerm => BasicFunctionTerm
  | binaryComp => BinaryComp
  | binaryOp => BinaryOp
  | cEffect => CEffect
  | forallCEffect => TypedList Name × List CEffect
  | whenCEffect => GD × CondEffect
  | conGD => ConGD
  | con2GD => Con2GD
  | conditionalEffect => CondEffect
  | constants => TypedList Name
  | dOp => DOp
  | durationValue => DurationValue
  | durativeActionDefinition => DaDef
  | durativeActionEffect => DaEffect
  | durativeActionGoalDefinition => DaGD
  | durativeActionSymbol => Name
  | derivedPredicate => DerivedPredicate
  | domain => Domain
  | domainConstraintsDef => ConGD
  | durationConstraint => Option DurationConstraint
  | effects => List CEffect
  | fAssignDa => FAssignDa
  | fComp => FComp
  | fExp => FExp
  | fExpDa => FExpDa
  | fExpT => FExpT
  | fHead => FHead
  | functionSymbol => Name
  | functionTerm => FunctionTerm
  | functionType => Ty
  | functions => TypedList Skeleton
  | goalDefinition => GD
  | goalDef => List PreGD
  | initElements => List InitElement
  | initElement => InitElement
  | interval => Interval
  | lengthSpec => LengthSpec
  | metricFExp => MetricFExp
  | metricSpec => MetricSpec
  | multiOp => MultiOp
  | name => Name
  | number => Number
  | objects => TypedList Name
  | optimization => Optimization
  | pEffect => PEffect
  | preconditionGoalDefinitions => List PreGD
  | predicate => Name
  | predicateDefinitions => List Skeleton
  | prefConGDs => List PrefConGD
  | preferenceGD => PrefGD
  | preferenceName => Name
  | prefTimedGD => PrefTimedGD
  | primitiveType => Name
  | problem => Problem
  | problemConstraintsDef => List PrefConGD
  | requirements => List Requirement
  | requirement => Requirement
  | simpleDurationConstraint => SimpleDuration
  | structureDef => StructureDef
  | term => Term
  | timeSpecifier => TimeSpecifier
  | timedEffect => TimedEffect
  | timedGD => TimedGD
  | timeless => List (Literal Name)
  | type_ => Ty
  | types => TypedList Name
  | variable_ => Name

/-- `Parser::parse`, `/repo/src/parsers/mod.rs:90`, with the bodies cited per line. -/
def parse : (k : Parsable) → P k.Item
  /- /repo/src/parsers/action_def.rs:119-121 -/
  | actionDefinition => parseActionDef
  /- /repo/src/parsers/action_symbol.rs:42-44 -/
  | actionSymbol => parseActionSymbol
  /- /repo/src/parsers/assign_op.rs:49-51 -/
  | assignOp => parseAssignOp
  /- /repo/src/parsers/assign_op_t.rs:41-43 -/
  | assignOpT => parseAssignOpT
  /- /repo/src/parsers/atomic_formula_skeleton.rs:58-60 -/
  | atomicFormulaSkeleton => parseAtomicFormulaSkeleton
  /- /repo/src/parsers/atomic_function_skeleton.rs:58-60 -/
  | atomicFunctionSkeleton => parseAtomicFunctionSkeleton
  /- /repo/src/parsers/basic_function_term.rs:65-67 -/
  | basicFunctionTerm => parseBasicFunctionTerm
  /- /repo/src/parsers/binary_comp.rs:49-51 -/
  | binaryComp => parseBinaryComp
  /- /repo/src/parsers/binary_op.rs:47-49 -/
  | binaryOp => parseBinaryOp
  /- /repo/src/parsers/c_effect.rs:242-244 -/
  | cEffect => parseCEffect
  /- /repo/src/parsers/c_effect.rs:269-271 -/
  | forallCEffect => parseForallCEffect
  /- /repo/src/parsers/c_effect.rs:297-299 -/
  | whenCEffect => parseWhenCEffect
  /- /repo/src/parsers/con_gd.rs:272-274 -/
  | conGD => parseConGd
  /- /repo/src/parsers/con_gd.rs:281-283 -/
  | con2GD => parseCon2Gd
  /- /repo/src/parsers/cond_effect.rs:58-60 -/
  | conditionalEffect => parseCondEffect
  /- /repo/src/parsers/constants_def.rs:33-35 -/
  | constants => parseConstantsDef
  /- /repo/src/parsers/d_op.rs:49-51 -/
  | dOp => parseDOp
  /- /repo/src/parsers/d_value.rs:39-41 -/
  | durationValue => parseDValue
  /- /repo/src/parsers/da_def.rs:98-100 -/
  | durativeActionDefinition => parseDaDef
  /- /repo/src/parsers/da_effect.rs:115-117 -/
  | durativeActionEffect => parseDaEffect
  /- /repo/src/parsers/da_gd.rs:115-117 -/
  | durativeActionGoalDefinition => parseDaGd
  /- /repo/src/parsers/da_symbol.rs:32-34 -/
  | durativeActionSymbol => parseDaSymbol
  /- /repo/src/parsers/derived_predicate.rs:47-49 -/
  | derivedPredicate => parseDerivedPredicate
  /- /repo/src/parsers/domain.rs:168-170 -/
  | domain => parseDomain
  /- /repo/src/parsers/domain_constraints_def.rs:34-36 -/
  | domainConstraintsDef => parseDomainConstraintsDef
  /- /repo/src/parsers/duration_constraint.rs:84-86 -/
  | durationConstraint => parseDurationConstraint
  /- /repo/src/parsers/effects.rs:63-65 -/
  | effects => parseEffect
  /- /repo/src/parsers/f_assign_da.rs:32-34 -/
  | fAssignDa => parseFAssignDa
  /- /repo/src/parsers/f_comp.rs:48-50 -/
  | fComp => parseFComp
  /- /repo/src/parsers/f_exp.rs:88-90 -/
  | fExp => parseFExp
  /- /repo/src/parsers/f_exp_da.rs:75-77 -/
  | fExpDa => parseFExpDa
  /- /repo/src/parsers/f_exp_t.rs:63-65 -/
  | fExpT => parseFExpT
  /- /repo/src/parsers/f_head.rs:50-52 -/
  | fHead => parseFHead
  /- /repo/src/parsers/function_symbol.rs:41-43 -/
  | functionSymbol => parseFunctionSymbol
  /- /repo/src/parsers/function_term.rs:46-48 -/
  | functionTerm => parseFunctionTerm
  /- /repo/src/parsers/function_type.rs:25-27 -/
  | functionType => parseFunctionType
  /- /repo/src/parsers/functions_def.rs:44-46 -/
  | functions => parseFunctionsDef
  /- /repo/src/parsers/gd.rs:198-200 -/
  | goalDefinition => parseGd
  /- /repo/src/parsers/goal_def.rs:37-39 -/
  | goalDef => parseProblemGoalDef
  /- /repo/src/parsers/init_def.rs:47-49 -/
  | initElements => parseProblemInitDef
  /- /repo/src/parsers/init_el.rs:96-98 -/
  | initElement => parseInitEl
  /- /repo/src/parsers/interval.rs:28-30 -/
  | interval => parseInterval
  /- /repo/src/parsers/length_spec.rs:38-40 -/
  | lengthSpec => parseProblemLengthSpec
  /- /repo/src/parsers/metric_f_exp.rs:142-144 -/
  | metricFExp => parseMetricFExp
  /- /repo/src/parsers/metric_spec.rs:41-43 -/
  | metricSpec => parseProblemMetricSpec
  /- /repo/src/parsers/multi_op.rs:30-32 -/
  | multiOp => parseMultiOp
  /- /repo/src/parsers/name.rs:44-46 -/
  | name => parseName
  /- /repo/src/parsers/number.rs:42-44 -/
  | number => parseNumber
  /- /repo/src/parsers/objects_def.rs:35-37 -/
  | objects => parseProblemObjectsDeclaration
  /- /repo/src/parsers/optimization.rs:29-31 -/
  | optimization => parseOptimization
  /- /repo/src/parsers/p_effect.rs:108-110 -/
  | pEffect => parsePEffect
  /- /repo/src/parsers/pre_gd.rs:102-104 -/
  | preconditionGoalDefinitions => parsePreGd
  /- /repo/src/parsers/predicate.rs:40-42 -/
  | predicate => parsePredicate
  /- /repo/src/parsers/predicates_def.rs:54-56 -/
  | predicateDefinitions => parsePredicatesDef
  /- /repo/src/parsers/pref_con_gd.rs:124-126 -/
  | prefConGDs => parsePrefConGd
  /- /repo/src/parsers/pref_gd.rs:83-85 -/
  | preferenceGD => parsePrefGd
  /- /repo/src/parsers/pref_name.rs:21-23 -/
  | preferenceName => parsePrefName
  /- /repo/src/parsers/pref_timed_gd.rs:85-87 -/
  | prefTimedGD => parsePrefTimedGd
  /- /repo/src/parsers/primitive_type.rs:32-34 -/
  | primitiveType => parsePrimitiveType
  /- /repo/src/parsers/problem.rs:101-103 -/
  | problem => parseProblem
  /- /repo/src/parsers/problem_constraints_def.rs:35-37 -/
  | problemConstraintsDef => parseProblemConstraintsDef
  /- /repo/src/parsers/requirements.rs:90-92 -/
  | requirements => parseRequireDef
  /- /repo/src/parsers/requirements.rs:99-101 -/
  | requirement => parseRequireKey
  /- /repo/src/parsers/simple_duration_constraint.rs:70-72 -/
  | simpleDurationConstraint => parseSimpleDuration
  /- /repo/src/parsers/structure_def.rs:65-67 -/
  | structureDef => parseStructureDef
  /- /repo/src/parsers/term.rs:53-55 -/
  | term => parseTerm
  /- /repo/src/parsers/time_specifier.rs:30-32 -/
  | timeSpecifier => parseTimeSpecifier
  /- /repo/src/parsers/timed_effect.rs:95-97 -/
  | timedEffect => parseTimedEffect
  /- /repo/src/parsers/timed_gd.rs:65-67 -/
  | timedGD => parseTimedGd
  /- /repo/src/parsers/timeless_def.rs:48-50 -/
  | timeless => parseTimelessDef
  /- /repo/src/parsers/type.rs:41-43 -/
  | type_ => parseType
  /- /repo/src/parsers/types_def.rs:33-35 -/
  | types => parseTypesDef
  /- /repo/src/parsers/variable.rs:42-44 -/
  | variable_ => parseVariable

/-- `Parser::parse_span`, `/repo/src/parsers/mod.rs:93-95`; the type of the input is the only
difference to `parse`. -/
def parseSpan (k : Parsable) : P k.Item := k.parse

/-- `Parser::from_str`, `/repo/src/parsers/mod.rs:99-102`: `parse` with the rest of the text
discarded; errors and panics pass through. -/
def fromStr (k : Parsable) (s : List Char) : Res k.Item := match k.parse s with
  | .ok v _ => .ok v []
  | .err => .err
  | .fail => .fail
  | .panic => .panic
  | .oof => .oof

/-- The types with an associated function `from_str` of their own, which is what `T::from_str(s)`
means for them, whether or not the trait is in scope: an inherent function takes precedence.  All six
wrap the text into a name. -/
def ownFromStr : (k : Parsable) → Option (List Char → k.Item)
  /- /repo/src/types/action_symbols.rs:20-22 -/
  | actionSymbol => some Name.new
  /- /repo/src/types/da_symbol.rs:20-22 -/
  | durativeActionSymbol => some Name.new
  /- /repo/src/types/function_symbols.rs:21-23 -/
  | functionSymbol => some Name.new
  /- /repo/src/types/predicate.rs:20-22 -/
  | predicate => some Name.new
  /- /repo/src/types/pref_name.rs:21-23 -/
  | preferenceName => some Name.new
  /- /repo/src/types/variable.rs:25-27 -/
  | variable_ => some Name.new
  | _ => none

/-- The outcome of the call `T::from_str(s)` as a user of the crate writes it: the type's own function
if there is one, otherwise that of the trait. -/
def call (k : Parsable) (s : List Char) : Res k.Item := match k.ownFromStr with
  | some f => .ok (f s) []
  | none => k.fromStr s

end Parsable

end Pddl
