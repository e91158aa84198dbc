import Verif.Props.Work
import Verif.Props.Depth
import Verif.Api

/-!
# The work and the recursion of every public parser

`Props/Work.lean` and `Props/Depth.lean` speak about domains and problems. Here the bounds are proved
for all 73 types that can be parsed: a caller that reads only a part of a file, a goal or an action
say, gets the same guarantees.
-/

namespace Pddl

/-- The parser of each type with its steps counted; as in `Parsable.parse`, whose comments cite the
lines of each. -/
def Parsable.work : (k : Parsable) → K.P k.Item
  | .actionDefinition => K.parseActionDef
  | .actionSymbol => K.parseActionSymbol
  | .assignOp => K.parseAssignOp
  | .assignOpT => K.parseAssignOpT
  | .atomicFormulaSkeleton => K.parseAtomicFormulaSkeleton
  | .atomicFunctionSkeleton => K.parseAtomicFunctionSkeleton
  | .basicFunctionTerm => K.parseBasicFunctionTerm
  | .binaryComp => K.parseBinaryComp
  | .binaryOp => K.parseBinaryOp
  | .cEffect => K.parseCEffect
  | .forallCEffect => K.parseForallCEffect
  | .whenCEffect => K.parseWhenCEffect
  | .conGD => K.parseConGd
  | .con2GD => K.parseCon2Gd
  | .conditionalEffect => K.parseCondEffect
  | .constants => K.parseConstantsDef
  | .dOp => K.parseDOp
  | .durationValue => K.parseDValue
  | .durativeActionDefinition => K.parseDaDef
  | .durativeActionEffect => K.parseDaEffect
  | .durativeActionGoalDefinition => K.parseDaGd
  | .durativeActionSymbol => K.parseDaSymbol
  | .derivedPredicate => K.parseDerivedPredicate
  | .domain => K.parseDomain
  | .domainConstraintsDef => K.parseDomainConstraintsDef
  | .durationConstraint => K.parseDurationConstraint
  | .effects => K.parseEffect
  | .fAssignDa => K.parseFAssignDa
  | .fComp => K.parseFComp
  | .fExp => K.parseFExp
  | .fExpDa => K.parseFExpDa
  | .fExpT => K.parseFExpT
  | .fHead => K.parseFHead
  | .functionSymbol => K.parseFunctionSymbol
  | .functionTerm => K.parseFunctionTerm
  | .functionType => K.parseFunctionType
  | .functions => K.parseFunctionsDef
  | .goalDefinition => K.parseGd
  | .goalDef => K.parseProblemGoalDef
  | .initElements => K.parseProblemInitDef
  | .initElement => K.parseInitEl
  | .interval => K.parseInterval
  | .lengthSpec => K.parseProblemLengthSpec
  | .metricFExp => K.parseMetricFExp
  | .metricSpec => K.parseProblemMetricSpec
  | .multiOp => K.parseMultiOp
  | .name => K.parseName
  | .number => K.parseNumber
  | .objects => K.parseProblemObjectsDeclaration
  | .optimization => K.parseOptimization
  | .pEffect => K.parsePEffect
  | .preconditionGoalDefinitions => K.parsePreGd
  | .predicate => K.parsePredicate
  | .predicateDefinitions => K.parsePredicatesDef
  | .prefConGDs => K.parsePrefConGd
  | .preferenceGD => K.parsePrefGd
  | .preferenceName => K.parsePrefName
  | .prefTimedGD => K.parsePrefTimedGd
  | .primitiveType => K.parsePrimitiveType
  | .problem => K.parseProblem
  | .problemConstraintsDef => K.parseProblemConstraintsDef
  | .requirements => K.parseRequireDef
  | .requirement => K.parseRequireKey
  | .simpleDurationConstraint => K.parseSimpleDuration
  | .structureDef => K.parseStructureDef
  | .term => K.parseTerm
  | .timeSpecifier => K.parseTimeSpecifier
  | .timedEffect => K.parseTimedEffect
  | .timedGD => K.parseTimedGd
  | .timeless => K.parseTimelessDef
  | .type_ => K.parseType
  | .types => K.parseTypesDef
  | .variable_ => K.parseVariable

/-- The parser of each type with its depth of recursion; as in `Parsable.parse`. -/
def Parsable.recursion : (k : Parsable) → D.P k.Item
  | .actionDefinition => D.parseActionDef
  | .actionSymbol => D.parseActionSymbol
  | .assignOp => D.parseAssignOp
  | .assignOpT => D.parseAssignOpT
  | .atomicFormulaSkeleton => D.parseAtomicFormulaSkeleton
  | .atomicFunctionSkeleton => D.parseAtomicFunctionSkeleton
  | .basicFunctionTerm => D.parseBasicFunctionTerm
  | .binaryComp => D.parseBinaryComp
  | .binaryOp => D.parseBinaryOp
  | .cEffect => D.parseCEffect
  | .forallCEffect => D.parseForallCEffect
  | .whenCEffect => D.parseWhenCEffect
  | .conGD => D.parseConGd
  | .con2GD => D.parseCon2Gd
  | .conditionalEffect => D.parseCondEffect
  | .constants => D.parseConstantsDef
  | .dOp => D.parseDOp
  | .durationValue => D.parseDValue
  | .durativeActionDefinition => D.parseDaDef
  | .durativeActionEffect => D.parseDaEffect
  | .durativeActionGoalDefinition => D.parseDaGd
  | .durativeActionSymbol => D.parseDaSymbol
  | .derivedPredicate => D.parseDerivedPredicate
  | .domain => D.parseDomain
  | .domainConstraintsDef => D.parseDomainConstraintsDef
  | .durationConstraint => D.parseDurationConstraint
  | .effects => D.parseEffect
  | .fAssignDa => D.parseFAssignDa
  | .fComp => D.parseFComp
  | .fExp => D.parseFExp
  | .fExpDa => D.parseFExpDa
  | .fExpT => D.parseFExpT
  | .fHead => D.parseFHead
  | .functionSymbol => D.parseFunctionSymbol
  | .functionTerm => D.parseFunctionTerm
  | .functionType => D.parseFunctionType
  | .functions => D.parseFunctionsDef
  | .goalDefinition => D.parseGd
  | .goalDef => D.parseProblemGoalDef
  | .initElements => D.parseProblemInitDef
  | .initElement => D.parseInitEl
  | .interval => D.parseInterval
  | .lengthSpec => D.parseProblemLengthSpec
  | .metricFExp => D.parseMetricFExp
  | .metricSpec => D.parseProblemMetricSpec
  | .multiOp => D.parseMultiOp
  | .name => D.parseName
  | .number => D.parseNumber
  | .objects => D.parseProblemObjectsDeclaration
  | .optimization => D.parseOptimization
  | .pEffect => D.parsePEffect
  | .preconditionGoalDefinitions => D.parsePreGd
  | .predicate => D.parsePredicate
  | .predicateDefinitions => D.parsePredicatesDef
  | .prefConGDs => D.parsePrefConGd
  | .preferenceGD => D.parsePrefGd
  | .preferenceName => D.parsePrefName
  | .prefTimedGD => D.parsePrefTimedGd
  | .primitiveType => D.parsePrimitiveType
  | .problem => D.parseProblem
  | .problemConstraintsDef => D.parseProblemConstraintsDef
  | .requirements => D.parseRequireDef
  | .requirement => D.parseRequireKey
  | .simpleDurationConstraint => D.parseSimpleDuration
  | .structureDef => D.parseStructureDef
  | .term => D.parseTerm
  | .timeSpecifier => D.parseTimeSpecifier
  | .timedEffect => D.parseTimedEffect
  | .timedGD => D.parseTimedGd
  | .timeless => D.parseTimelessDef
  | .type_ => D.parseType
  | .types => D.parseTypesDef
  | .variable_ => D.parseVariable

theorem Parsable.work_run (k : Parsable) : k.work.run = k.parse := by
  cases k
  case actionDefinition => exact K.parseActionDef_run
  case actionSymbol => exact K.parseActionSymbol_run
  case assignOp => exact K.parseAssignOp_run
  case assignOpT => exact K.parseAssignOpT_run
  case atomicFormulaSkeleton => exact K.parseAtomicFormulaSkeleton_run
  case atomicFunctionSkeleton => exact K.parseAtomicFunctionSkeleton_run
  case basicFunctionTerm => exact K.parseBasicFunctionTerm_run
  case binaryComp => exact K.parseBinaryComp_run
  case binaryOp => exact K.parseBinaryOp_run
  case cEffect => exact K.parseCEffect_run
  case forallCEffect => exact K.parseForallCEffect_run
  case whenCEffect => exact K.parseWhenCEffect_run
  case conGD => exact K.parseConGd_run
  case con2GD => exact K.parseCon2Gd_run
  case conditionalEffect => exact K.parseCondEffect_run
  case constants => exact K.parseConstantsDef_run
  case dOp => exact K.parseDOp_run
  case durationValue => exact K.parseDValue_run
  case durativeActionDefinition => exact K.parseDaDef_run
  case durativeActionEffect => exact K.parseDaEffect_run
  case durativeActionGoalDefinition => exact K.parseDaGd_run
  case durativeActionSymbol => exact K.parseDaSymbol_run
  case derivedPredicate => exact K.parseDerivedPredicate_run
  case domain => exact K.parseDomain_run
  case domainConstraintsDef => exact K.parseDomainConstraintsDef_run
  case durationConstraint => exact K.parseDurationConstraint_run
  case effects => exact K.parseEffect_run
  case fAssignDa => exact K.parseFAssignDa_run
  case fComp => exact K.parseFComp_run
  case fExp => exact K.parseFExp_run
  case fExpDa => exact K.parseFExpDa_run
  case fExpT => exact K.parseFExpT_run
  case fHead => exact K.parseFHead_run
  case functionSymbol => exact K.parseFunctionSymbol_run
  case functionTerm => exact K.parseFunctionTerm_run
  case functionType => exact K.parseFunctionType_run
  case functions => exact K.parseFunctionsDef_run
  case goalDefinition => exact K.parseGd_run
  case goalDef => exact K.parseProblemGoalDef_run
  case initElements => exact K.parseProblemInitDef_run
  case initElement => exact K.parseInitEl_run
  case interval => exact K.parseInterval_run
  case lengthSpec => exact K.parseProblemLengthSpec_run
  case metricFExp => exact K.parseMetricFExp_run
  case metricSpec => exact K.parseProblemMetricSpec_run
  case multiOp => exact K.parseMultiOp_run
  case name => exact K.parseName_run
  case number => exact K.parseNumber_run
  case objects => exact K.parseProblemObjectsDeclaration_run
  case optimization => exact K.parseOptimization_run
  case pEffect => exact K.parsePEffect_run
  case preconditionGoalDefinitions => exact K.parsePreGd_run
  case predicate => exact K.parsePredicate_run
  case predicateDefinitions => exact K.parsePredicatesDef_run
  case prefConGDs => exact K.parsePrefConGd_run
  case preferenceGD => exact K.parsePrefGd_run
  case preferenceName => exact K.parsePrefName_run
  case prefTimedGD => exact K.parsePrefTimedGd_run
  case primitiveType => exact K.parsePrimitiveType_run
  case problem => exact K.parseProblem_run
  case problemConstraintsDef => exact K.parseProblemConstraintsDef_run
  case requirements => exact K.parseRequireDef_run
  case requirement => exact K.parseRequireKey_run
  case simpleDurationConstraint => exact K.parseSimpleDuration_run
  case structureDef => exact K.parseStructureDef_run
  case term => exact K.parseTerm_run
  case timeSpecifier => exact K.parseTimeSpecifier_run
  case timedEffect => exact K.parseTimedEffect_run
  case timedGD => exact K.parseTimedGd_run
  case timeless => exact K.parseTimelessDef_run
  case type_ => exact K.parseType_run
  case types => exact K.parseTypesDef_run
  case variable_ => exact K.parseVariable_run

theorem Parsable.recursion_run (k : Parsable) : k.recursion.run = k.parse := by
  cases k
  case actionDefinition => exact D.parseActionDef_run
  case actionSymbol => exact D.parseActionSymbol_run
  case assignOp => exact D.parseAssignOp_run
  case assignOpT => exact D.parseAssignOpT_run
  case atomicFormulaSkeleton => exact D.parseAtomicFormulaSkeleton_run
  case atomicFunctionSkeleton => exact D.parseAtomicFunctionSkeleton_run
  case basicFunctionTerm => exact D.parseBasicFunctionTerm_run
  case binaryComp => exact D.parseBinaryComp_run
  case binaryOp => exact D.parseBinaryOp_run
  case cEffect => exact D.parseCEffect_run
  case forallCEffect => exact D.parseForallCEffect_run
  case whenCEffect => exact D.parseWhenCEffect_run
  case conGD => exact D.parseConGd_run
  case con2GD => exact D.parseCon2Gd_run
  case conditionalEffect => exact D.parseCondEffect_run
  case constants => exact D.parseConstantsDef_run
  case dOp => exact D.parseDOp_run
  case durationValue => exact D.parseDValue_run
  case durativeActionDefinition => exact D.parseDaDef_run
  case durativeActionEffect => exact D.parseDaEffect_run
  case durativeActionGoalDefinition => exact D.parseDaGd_run
  case durativeActionSymbol => exact D.parseDaSymbol_run
  case derivedPredicate => exact D.parseDerivedPredicate_run
  case domain => exact D.parseDomain_run
  case domainConstraintsDef => exact D.parseDomainConstraintsDef_run
  case durationConstraint => exact D.parseDurationConstraint_run
  case effects => exact D.parseEffect_run
  case fAssignDa => exact D.parseFAssignDa_run
  case fComp => exact D.parseFComp_run
  case fExp => exact D.parseFExp_run
  case fExpDa => exact D.parseFExpDa_run
  case fExpT => exact D.parseFExpT_run
  case fHead => exact D.parseFHead_run
  case functionSymbol => exact D.parseFunctionSymbol_run
  case functionTerm => exact D.parseFunctionTerm_run
  case functionType => exact D.parseFunctionType_run
  case functions => exact D.parseFunctionsDef_run
  case goalDefinition => exact D.parseGd_run
  case goalDef => exact D.parseProblemGoalDef_run
  case initElements => exact D.parseProblemInitDef_run
  case initElement => exact D.parseInitEl_run
  case interval => exact D.parseInterval_run
  case lengthSpec => exact D.parseProblemLengthSpec_run
  case metricFExp => exact D.parseMetricFExp_run
  case metricSpec => exact D.parseProblemMetricSpec_run
  case multiOp => exact D.parseMultiOp_run
  case name => exact D.parseName_run
  case number => exact D.parseNumber_run
  case objects => exact D.parseProblemObjectsDeclaration_run
  case optimization => exact D.parseOptimization_run
  case pEffect => exact D.parsePEffect_run
  case preconditionGoalDefinitions => exact D.parsePreGd_run
  case predicate => exact D.parsePredicate_run
  case predicateDefinitions => exact D.parsePredicatesDef_run
  case prefConGDs => exact D.parsePrefConGd_run
  case preferenceGD => exact D.parsePrefGd_run
  case preferenceName => exact D.parsePrefName_run
  case prefTimedGD => exact D.parsePrefTimedGd_run
  case primitiveType => exact D.parsePrimitiveType_run
  case problem => exact D.parseProblem_run
  case problemConstraintsDef => exact D.parseProblemConstraintsDef_run
  case requirements => exact D.parseRequireDef_run
  case requirement => exact D.parseRequireKey_run
  case simpleDurationConstraint => exact D.parseSimpleDuration_run
  case structureDef => exact D.parseStructureDef_run
  case term => exact D.parseTerm_run
  case timeSpecifier => exact D.parseTimeSpecifier_run
  case timedEffect => exact D.parseTimedEffect_run
  case timedGD => exact D.parseTimedGd_run
  case timeless => exact D.parseTimelessDef_run
  case type_ => exact D.parseType_run
  case types => exact D.parseTypesDef_run
  case variable_ => exact D.parseVariable_run

theorem parseForallCEffect_pol {j : Nat} (hj : 6 ≤ j) : Pol j K.parseForallCEffect :=
  (parseForallCEffect_frm hj).pol (by omega)

theorem parseCon2Gd_pol {j : Nat} (hj : 6 ≤ j) : Pol j K.parseCon2Gd := by
  refine Pol.mono (i := 6) ?_ hj
  unfold K.parseCon2Gd K.con2Of
  exact .alt_cons (.map (parseGd_pol (by decide))) (.alt_one (.map (parseConGd_pol (by decide))))

theorem Parsable.work_pol (k : Parsable) : Pol 7 k.work := by
  cases k
  case actionDefinition => exact parseActionDef_pol (by decide)
  case actionSymbol => exact parseActionSymbol_pol (by decide)
  case assignOp => exact parseAssignOp_pol (by decide)
  case assignOpT => exact parseAssignOpT_pol (by decide)
  case atomicFormulaSkeleton => exact parseAtomicFormulaSkeleton_pol (by decide)
  case atomicFunctionSkeleton => exact parseAtomicFunctionSkeleton_pol (by decide)
  case basicFunctionTerm => exact parseBasicFunctionTerm_pol (by decide)
  case binaryComp => exact parseBinaryComp_pol (by decide)
  case binaryOp => exact parseBinaryOp_pol (by decide)
  case cEffect => exact parseCEffect_pol (by decide)
  case forallCEffect => exact parseForallCEffect_pol (by decide)
  case whenCEffect => exact parseWhenCEffect_pol (by decide)
  case conGD => exact parseConGd_pol (by decide)
  case con2GD => exact parseCon2Gd_pol (by decide)
  case conditionalEffect => exact parseCondEffect_pol (by decide)
  case constants => exact parseConstantsDef_pol (by decide)
  case dOp => exact parseDOp_pol (by decide)
  case durationValue => exact parseDValue_pol (by decide)
  case durativeActionDefinition => exact parseDaDef_pol (by decide)
  case durativeActionEffect => exact parseDaEffect_pol (by decide)
  case durativeActionGoalDefinition => exact parseDaGd_pol (by decide)
  case durativeActionSymbol => exact parseDaSymbol_pol (by decide)
  case derivedPredicate => exact parseDerivedPredicate_pol (by decide)
  case domain => exact parseDomain_pol (by decide)
  case domainConstraintsDef => exact parseDomainConstraintsDef_pol (by decide)
  case durationConstraint => exact parseDurationConstraint_pol (by decide)
  case effects => exact parseEffect_pol (by decide)
  case fAssignDa => exact parseFAssignDa_pol (by decide)
  case fComp => exact parseFComp_pol (by decide)
  case fExp => exact parseFExp_pol (by decide)
  case fExpDa => exact parseFExpDa_pol (by decide)
  case fExpT => exact parseFExpT_pol (by decide)
  case fHead => exact parseFHead_pol (by decide)
  case functionSymbol => exact parseFunctionSymbol_pol (by decide)
  case functionTerm => exact parseFunctionTerm_pol (by decide)
  case functionType => exact parseFunctionType_pol (by decide)
  case functions => exact parseFunctionsDef_pol (by decide)
  case goalDefinition => exact parseGd_pol (by decide)
  case goalDef => exact parseProblemGoalDef_pol (by decide)
  case initElements => exact parseProblemInitDef_pol (by decide)
  case initElement => exact parseInitEl_pol (by decide)
  case interval => exact parseInterval_pol (by decide)
  case lengthSpec => exact parseProblemLengthSpec_pol (by decide)
  case metricFExp => exact parseMetricFExp_pol (by decide)
  case metricSpec => exact parseProblemMetricSpec_pol (by decide)
  case multiOp => exact parseMultiOp_pol (by decide)
  case name => exact parseName_pol (by decide)
  case number => exact parseNumber_pol (by decide)
  case objects => exact parseProblemObjectsDeclaration_pol (by decide)
  case optimization => exact parseOptimization_pol (by decide)
  case pEffect => exact parsePEffect_pol (by decide)
  case preconditionGoalDefinitions => exact parsePreGd_pol (by decide)
  case predicate => exact parsePredicate_pol (by decide)
  case predicateDefinitions => exact parsePredicatesDef_pol (by decide)
  case prefConGDs => exact parsePrefConGd_pol (by decide)
  case preferenceGD => exact parsePrefGd_pol (by decide)
  case preferenceName => exact parsePrefName_pol (by decide)
  case prefTimedGD => exact parsePrefTimedGd_pol (by decide)
  case primitiveType => exact parsePrimitiveType_pol (by decide)
  case problem => exact parseProblem_pol (by decide)
  case problemConstraintsDef => exact parseProblemConstraintsDef_pol (by decide)
  case requirements => exact parseRequireDef_pol (by decide)
  case requirement => exact parseRequireKey_pol (by decide)
  case simpleDurationConstraint => exact parseSimpleDuration_pol (by decide)
  case structureDef => exact parseStructureDef_pol (by decide)
  case term => exact parseTerm_pol (by decide)
  case timeSpecifier => exact parseTimeSpecifier_pol (by decide)
  case timedEffect => exact parseTimedEffect_pol (by decide)
  case timedGD => exact parseTimedGd_pol (by decide)
  case timeless => exact parseTimelessDef_pol (by decide)
  case type_ => exact parseType_pol (by decide)
  case types => exact parseTypesDef_pol (by decide)
  case variable_ => exact parseVariable_pol (by decide)

theorem Parsable.work_pays (k : Parsable) : Pays k.work := by
  cases k
  case actionDefinition => exact parseActionDef_pays
  case actionSymbol => exact parseActionSymbol_pays
  case assignOp => exact parseAssignOp_pays
  case assignOpT => exact parseAssignOpT_pays
  case atomicFormulaSkeleton => exact parseAtomicFormulaSkeleton_pays
  case atomicFunctionSkeleton => exact parseAtomicFunctionSkeleton_pays
  case basicFunctionTerm => exact parseBasicFunctionTerm_pays
  case binaryComp => exact parseBinaryComp_pays
  case binaryOp => exact parseBinaryOp_pays
  case cEffect => exact parseCEffect_pays
  case forallCEffect => exact parseForallCEffect_pays
  case whenCEffect => exact parseWhenCEffect_pays
  case conGD => exact parseConGd_pays
  case con2GD => exact parseCon2Gd_pays
  case conditionalEffect => exact parseCondEffect_pays
  case constants => exact parseConstantsDef_pays
  case dOp => exact parseDOp_pays
  case durationValue => exact parseDValue_pays
  case durativeActionDefinition => exact parseDaDef_pays
  case durativeActionEffect => exact parseDaEffect_pays
  case durativeActionGoalDefinition => exact parseDaGd_pays
  case durativeActionSymbol => exact parseDaSymbol_pays
  case derivedPredicate => exact parseDerivedPredicate_pays
  case domain => exact parseDomain_pays
  case domainConstraintsDef => exact parseDomainConstraintsDef_pays
  case durationConstraint => exact parseDurationConstraint_pays
  case effects => exact parseEffect_pays
  case fAssignDa => exact parseFAssignDa_pays
  case fComp => exact parseFComp_pays
  case fExp => exact parseFExp_pays
  case fExpDa => exact parseFExpDa_pays
  case fExpT => exact parseFExpT_pays
  case fHead => exact parseFHead_pays
  case functionSymbol => exact parseFunctionSymbol_pays
  case functionTerm => exact parseFunctionTerm_pays
  case functionType => exact parseFunctionType_pays
  case functions => exact parseFunctionsDef_pays
  case goalDefinition => exact parseGd_pays
  case goalDef => exact parseProblemGoalDef_pays
  case initElements => exact parseProblemInitDef_pays
  case initElement => exact parseInitEl_pays
  case interval => exact parseInterval_pays
  case lengthSpec => exact parseProblemLengthSpec_pays
  case metricFExp => exact parseMetricFExp_pays
  case metricSpec => exact parseProblemMetricSpec_pays
  case multiOp => exact parseMultiOp_pays
  case name => exact parseName_pays
  case number => exact parseNumber_pays
  case objects => exact parseProblemObjectsDeclaration_pays
  case optimization => exact parseOptimization_pays
  case pEffect => exact parsePEffect_pays
  case preconditionGoalDefinitions => exact parsePreGd_pays
  case predicate => exact parsePredicate_pays
  case predicateDefinitions => exact parsePredicatesDef_pays
  case prefConGDs => exact parsePrefConGd_pays
  case preferenceGD => exact parsePrefGd_pays
  case preferenceName => exact parsePrefName_pays
  case prefTimedGD => exact parsePrefTimedGd_pays
  case primitiveType => exact parsePrimitiveType_pays
  case problem => exact parseProblem_pays
  case problemConstraintsDef => exact parseProblemConstraintsDef_pays
  case requirements => exact parseRequireDef_pays
  case requirement => exact parseRequireKey_pays
  case simpleDurationConstraint => exact parseSimpleDuration_pays
  case structureDef => exact parseStructureDef_pays
  case term => exact parseTerm_pays
  case timeSpecifier => exact parseTimeSpecifier_pays
  case timedEffect => exact parseTimedEffect_pays
  case timedGD => exact parseTimedGd_pays
  case timeless => exact parseTimelessDef_pays
  case type_ => exact parseType_pays
  case types => exact parseTypesDef_pays
  case variable_ => exact parseVariable_pays

theorem Parsable.recursion_deep (k : Parsable) (L M : Nat) : Deep M L (L + M + 3) k.recursion := by
  cases k
  case actionDefinition => exact parseActionDef_deep (by omega)
  case actionSymbol => exact parseActionSymbol_deep (by omega)
  case assignOp => exact parseAssignOp_deep
  case assignOpT => exact parseAssignOpT_deep
  case atomicFormulaSkeleton => exact parseAtomicFormulaSkeleton_deep (by omega)
  case atomicFunctionSkeleton => exact parseAtomicFunctionSkeleton_deep (by omega)
  case basicFunctionTerm => exact parseBasicFunctionTerm_deep (by omega)
  case binaryComp => exact parseBinaryComp_deep
  case binaryOp => exact parseBinaryOp_deep
  case cEffect => exact parseCEffect_deep (by omega)
  case forallCEffect => exact parseForallCEffect_deep (by omega)
  case whenCEffect => exact parseWhenCEffect_deep (by omega) (by omega)
  case conGD => exact parseConGd_deep (by omega)
  case con2GD => exact parseCon2Gd_deep (by omega)
  case conditionalEffect => exact parseCondEffect_deep (by omega) (by omega)
  case constants => exact parseConstantsDef_deep (by omega)
  case dOp => exact parseDOp_deep
  case durationValue => exact parseDValue_deep (by omega)
  case durativeActionDefinition => exact parseDaDef_deep (by omega)
  case durativeActionEffect => exact parseDaEffect_deep (by omega)
  case durativeActionGoalDefinition => exact parseDaGd_deep (by omega)
  case durativeActionSymbol => exact parseDaSymbol_deep (by omega)
  case derivedPredicate => exact parseDerivedPredicate_deep (by omega)
  case domain => exact parseDomain_deep (by omega)
  case domainConstraintsDef => exact parseDomainConstraintsDef_deep (by omega)
  case durationConstraint => exact parseDurationConstraint_deep (by omega)
  case effects => exact parseEffect_deep (by omega)
  case fAssignDa => exact parseFAssignDa_deep (by omega) (by omega)
  case fComp => exact parseFComp_deep (by omega) (by omega)
  case fExp => exact parseFExp_deep (by omega)
  case fExpDa => exact parseFExpDa_deep (by omega)
  case fExpT => exact parseFExpT_deep (by omega)
  case fHead => exact parseFHead_deep (by omega) (by omega)
  case functionSymbol => exact parseFunctionSymbol_deep (by omega)
  case functionTerm => exact parseFunctionTerm_deep (by omega) (by omega)
  case functionType => exact parseFunctionType_deep (by omega)
  case functions => exact parseFunctionsDef_deep (by omega)
  case goalDefinition => exact parseGd_deep (by omega)
  case goalDef => exact parseProblemGoalDef_deep (by omega)
  case initElements => exact parseProblemInitDef_deep (by omega)
  case initElement => exact parseInitEl_deep (by omega)
  case interval => exact parseInterval_deep
  case lengthSpec => exact parseProblemLengthSpec_deep (by omega)
  case metricFExp => exact parseMetricFExp_deep (by omega)
  case metricSpec => exact parseProblemMetricSpec_deep (by omega)
  case multiOp => exact parseMultiOp_deep
  case name => exact parseName_deep (by omega)
  case number => exact parseNumber_deep
  case objects => exact parseProblemObjectsDeclaration_deep (by omega)
  case optimization => exact parseOptimization_deep
  case pEffect => exact parsePEffect_deep (by omega) (by omega)
  case preconditionGoalDefinitions => exact parsePreGd_deep (by omega)
  case predicate => exact parsePredicate_deep (by omega)
  case predicateDefinitions => exact parsePredicatesDef_deep (by omega)
  case prefConGDs => exact parsePrefConGd_deep (by omega)
  case preferenceGD => exact parsePrefGd_deep (by omega)
  case preferenceName => exact parsePrefName_deep (by omega)
  case prefTimedGD => exact parsePrefTimedGd_deep (by omega) (by omega)
  case primitiveType => exact parsePrimitiveType_deep (by omega)
  case problem => exact parseProblem_deep (by omega)
  case problemConstraintsDef => exact parseProblemConstraintsDef_deep (by omega)
  case requirements => exact parseRequireDef_deep (by omega)
  case requirement => exact parseRequireKey_deep
  case simpleDurationConstraint => exact parseSimpleDuration_deep (by omega)
  case structureDef => exact parseStructureDef_deep (by omega)
  case term => exact parseTerm_deep (by omega)
  case timeSpecifier => exact parseTimeSpecifier_deep
  case timedEffect => exact parseTimedEffect_deep (by omega) (by omega)
  case timedGD => exact parseTimedGd_deep (by omega) (by omega)
  case timeless => exact parseTimelessDef_deep (by omega)
  case type_ => exact parseType_deep (by omega)
  case types => exact parseTypesDef_deep (by omega)
  case variable_ => exact parseVariable_deep (by omega)

/-! ## C60 -/

/-- Counting steps does not change what is read. -/
theorem C60_same_every (k : Parsable) (s : List Char) : k.work.run s = k.parse s := by
  rw [k.work_run]

/-- Every consumed character is counted. -/
theorem C60_reading_every (k : Parsable) (s : List Char) (v : k.Item) (r : List Char)
    (h : k.parse s = .ok v r) : s.length ≤ r.length + k.work.cost s :=
  k.work_pays s v r (by rw [k.work_run]; exact h)

/-- The bound on the work, for all types. -/
theorem C60_every_partial (k : Parsable) :
    ∃ C, ∀ s : List Char, k.work.cost s ≤ C * (2 ^ opDepth s * (s.length + 1) ^ 7) :=
  k.work_pol.length

/-- Where operations are nested at most `d` deep the work is polynomial. -/
theorem C60_every_shallow_partial (k : Parsable) (d : Nat) :
    ∃ C, ∀ s : List Char, opDepth s ≤ d → k.work.cost s ≤ C * (s.length + 1) ^ 7 := by
  obtain ⟨C, h⟩ := C60_every_partial k
  refine ⟨C * 2 ^ d, fun s hs => Nat.le_trans (h s) ?_⟩
  rw [Nat.mul_assoc]
  exact Nat.mul_le_mul (Nat.le_refl _) (Nat.mul_le_mul (Nat.pow_le_pow_right (by decide) hs) (Nat.le_refl _))

/-! ## C61 -/

theorem C61_same_every (k : Parsable) (s : List Char) : k.recursion.run s = k.parse s := by
  rw [k.recursion_run]

/-- The recursion is at most as deep as parentheses are nested and comments follow each other. -/
theorem C61_every_partial (k : Parsable) (s : List Char) :
    k.recursion.depth s ≤ nesting s + longestComments s + 4 := by
  have := (k.recursion_deep (nest s + 1) (longestComments s)).2 s (Nat.lt_succ_self _) (Nat.le_refl _)
  have := nest_le s
  omega

theorem C61_every_no_comments_partial (k : Parsable) (s : List Char) (h : ';' ∉ s) :
    k.recursion.depth s ≤ nesting s + 4 := by
  have := C61_every_partial k s
  rw [longestComments_none h] at this
  exact this

-- Steps and recursion of some parsers.
example : (Parsable.goalDefinition).work.cost c!"(and (p ?x) (not (q)))" = 322 := by decide +kernel
example : (Parsable.goalDefinition).recursion.depth c!"(and (p ?x) (not (q)))" = 5 := by decide +kernel
example : (Parsable.fExp).recursion.depth c!"(+ 1 (- (f ?x)))" = 5 := by decide +kernel

end Pddl
