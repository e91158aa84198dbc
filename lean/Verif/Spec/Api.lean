import Verif.Api
import Verif.Spec.Grammar

/-!
# The texts of every type that can be read
-/

namespace Pddl

/-- A type standing alone.  Strict: not a word that merely begins with `object` (C11). -/
def LoneTypeW (m : Mode) (ty : Ty) (t : List Char) : Prop :=
  TypeW m ty t ∧ m.req (∀ r, t = c!"object" ++ r → r = [])

/-- `k.W m v t`: `t` is a text of the value `v`, for the type `k`. -/
def Parsable.W (m : Mode) : (k : Parsable) → k.Item → List Char → Prop
  | .actionDefinition => ActionW m
  | .actionSymbol => NameW
  | .assignOp => AssignOpW
  | .assignOpT => fun o t => t = o.spell
  | .atomicFormulaSkeleton => SkeletonW m
  | .atomicFunctionSkeleton => SkeletonW m
  | .basicFunctionTerm => BasicW m
  | .binaryComp => fun o t => t = o.spell
  | .binaryOp => fun o t => t = o.spell
  | .cEffect => CEffectW m
  | .forallCEffect => fun e t => CEffectW m (.forall_ e.1 e.2) t
  | .whenCEffect => fun e t => CEffectW m (.when e.1 e.2) t
  | .conGD => ConGDW m
  | .con2GD => Con2W m (ConGDW m)
  | .conditionalEffect => CondEffectW m
  | .constants => TypedNamesW m c!":constants"
  | .dOp => fun o t => t = o.spell
  | .durationValue => DValueW m
  | .durativeActionDefinition => DaDefW m
  | .durativeActionEffect => DaEffectW m
  | .durativeActionGoalDefinition => DaGDW m
  | .durativeActionSymbol => NameW
  | .derivedPredicate => DerivedW m
  | .domain => DomainW m
  | .domainConstraintsDef => WrapW c!":constraints" Gap (ConGDW m)
  | .durationConstraint => fun o t => (o = none ∧ t = c!"()") ∨ ∃ d, o = some d ∧ DurationW m d t
  | .effects => EffectW (CEffectW m)
  | .fAssignDa => FAssignDaW m
  | .fComp => FCompW m
  | .fExp => FExpW m
  | .fExpDa => FExpDaW m
  | .fExpT => FExpTW m
  | .fHead => FHeadW m
  | .functionSymbol => NameW
  | .functionTerm => FnTermW m
  | .functionType => LoneTypeW m
  | .functions => FunctionsW m
  | .goalDefinition => GDW m
  | .goalDef => WrapW c!":goal" Gap (PreGDW m)
  | .initElements => InitW m
  | .initElement => InitElW m
  | .interval => fun o t => t = o.spell
  | .lengthSpec => LengthW m
  | .metricFExp => MetricW m
  | .metricSpec => MetricSpecW m
  | .multiOp => fun o t => t = o.spell
  | .name => NameW
  | .number => NumW
  | .objects => TypedNamesW m c!":objects"
  | .optimization => fun o t => t = o.spell
  | .pEffect => PEffectW m
  | .preconditionGoalDefinitions => PreGDW m
  | .predicate => NameW
  | .predicateDefinitions => PredicatesW m
  | .prefConGDs => PrefConGDW m
  | .preferenceGD => PrefGDW m
  | .preferenceName => NameW
  | .prefTimedGD => PrefTimedGDW m
  | .primitiveType => EitherMemberW m
  | .problem => ProblemW m
  | .problemConstraintsDef => WrapW c!":constraints" Gap (PrefConGDW m)
  | .requirements => RequirementsW m
  | .requirement => KeyW
  | .simpleDurationConstraint => SimpleDurationW m
  | .structureDef => StructureW m
  | .term => TermW m
  | .timeSpecifier => fun o t => t = o.spell
  | .timedEffect => TimedEffectW m
  | .timedGD => TimedGDW m
  | .timeless => TimelessW m
  | .type_ => LoneTypeW m
  | .types => TypedNamesW m c!":types"
  | .variable_ => VarW m

/-- The types of whole files, whose parsers take the layout after the closing parenthesis as well. -/
def Parsable.isFile : Parsable → Bool
  | .domain | .problem => true
  | _ => false

end Pddl
