import Verif.Meta.NamesRules

/-!
# Meta-theory: the names made by every parser
-/

namespace Pddl

theorem parseVariable_makes : Makes N.parseVariable := by
  unfold N.parseVariable
  made

theorem parsePredicate_makes : Makes N.parsePredicate := by
  unfold N.parsePredicate
  made

theorem parseFunctionSymbol_makes : Makes N.parseFunctionSymbol := by
  unfold N.parseFunctionSymbol
  made

theorem parseActionSymbol_makes : Makes N.parseActionSymbol := by
  unfold N.parseActionSymbol
  made

theorem parseDaSymbol_makes : Makes N.parseDaSymbol := by
  unfold N.parseDaSymbol
  made

theorem parsePrefName_makes : Makes N.parsePrefName := by
  unfold N.parsePrefName
  made

theorem parseDecimal_makes : Makes N.parseDecimal := by
  unfold N.parseDecimal
  made

theorem parseNumber_makes : Makes N.parseNumber := by
  unfold N.parseNumber
  made

theorem parsePrimitiveType_makes : Makes N.parsePrimitiveType := by
  unfold N.parsePrimitiveType
  made

theorem parseEitherType_makes : Makes N.parseEitherType := by
  unfold N.parseEitherType
  made

theorem parseType_makes : Makes N.parseType := by
  unfold N.parseType
  made

theorem Makes.explicitlyTyped {p : N.P α} (h : Makes p) : Makes (N.explicitlyTyped p) := by
  unfold N.explicitlyTyped
  made

theorem Makes.typedList {p : N.P α} (h : Makes p) : Makes (N.typedList p) := by
  unfold N.typedList
  made

theorem Makes.functionTypedList {p : N.P α} (h : Makes p) : Makes (N.functionTypedList p) := by
  unfold N.functionTypedList
  made

theorem parseFunctionType_makes : Makes N.parseFunctionType := by
  unfold N.parseFunctionType
  made

theorem Makes.functionTermOf {p : N.P Term} (h : Makes p) : Makes (N.functionTermOf p) := by
  unfold N.functionTermOf
  made

theorem parseTerm_makes : Makes N.parseTerm := .fix fun _ h => by
  unfold N.termBody
  made

theorem parseFunctionTerm_makes : Makes N.parseFunctionTerm := by
  unfold N.parseFunctionTerm
  made

theorem Makes.atomicFormula {p : N.P α} (h : Makes p) : Makes (N.atomicFormula p) := by
  unfold N.atomicFormula
  made

theorem Makes.literal {p : N.P α} (h : Makes p) : Makes (N.literal p) := by
  unfold N.literal
  made

theorem parseAtomicFormulaSkeleton_makes : Makes N.parseAtomicFormulaSkeleton := by
  unfold N.parseAtomicFormulaSkeleton
  made

theorem parseAtomicFunctionSkeleton_makes : Makes N.parseAtomicFunctionSkeleton := by
  unfold N.parseAtomicFunctionSkeleton
  made

theorem parseBasicFunctionTerm_makes : Makes N.parseBasicFunctionTerm := by
  unfold N.parseBasicFunctionTerm
  made

theorem parseFHead_makes : Makes N.parseFHead := by
  unfold N.parseFHead
  made

theorem parseMultiOp_makes : Makes N.parseMultiOp := by
  unfold N.parseMultiOp
  made

theorem parseBinaryOp_makes : Makes N.parseBinaryOp := by
  unfold N.parseBinaryOp
  made

theorem parseBinaryComp_makes : Makes N.parseBinaryComp := by
  unfold N.parseBinaryComp
  made

theorem parseAssignOp_makes : Makes N.parseAssignOp := by
  unfold N.parseAssignOp
  made

theorem parseAssignOpT_makes : Makes N.parseAssignOpT := by
  unfold N.parseAssignOpT
  made

theorem parseDOp_makes : Makes N.parseDOp := by
  unfold N.parseDOp
  made

theorem parseOptimization_makes : Makes N.parseOptimization := by
  unfold N.parseOptimization
  made

theorem parseTimeSpecifier_makes : Makes N.parseTimeSpecifier := by
  unfold N.parseTimeSpecifier
  made

theorem parseInterval_makes : Makes N.parseInterval := by
  unfold N.parseInterval
  made

theorem parseFExp_makes : Makes N.parseFExp := .fix fun _ h => by
  unfold N.fExpBody
  made

theorem parseFComp_makes : Makes N.parseFComp := by
  unfold N.parseFComp
  made

theorem parseVarList_makes : Makes N.parseVarList := by
  unfold N.parseVarList
  made

theorem parseGd_makes : Makes N.parseGd := .fix fun _ h => by
  unfold N.gdBody
  made

theorem parsePrefGd_makes : Makes N.parsePrefGd := by
  unfold N.parsePrefGd
  made

theorem parsePreGd_makes : Makes N.parsePreGd := .fix fun _ h => by
  unfold N.preGdBody
  made

theorem parseProblemGoalDef_makes : Makes N.parseProblemGoalDef := by
  unfold N.parseProblemGoalDef
  made

theorem Makes.con2Of {p : N.P ConGD} (h : Makes p) : Makes (N.con2Of p) := by
  unfold N.con2Of
  made

theorem parseConGd_makes : Makes N.parseConGd := .fix fun _ h => by
  unfold N.conGdBody
  made

theorem parseCon2Gd_makes : Makes N.parseCon2Gd := by
  unfold N.parseCon2Gd
  made

theorem parsePrefConGd_makes : Makes N.parsePrefConGd := .fix fun _ h => by
  unfold N.prefConGdBody
  made

theorem parseDomainConstraintsDef_makes : Makes N.parseDomainConstraintsDef := by
  unfold N.parseDomainConstraintsDef
  made

theorem parseProblemConstraintsDef_makes : Makes N.parseProblemConstraintsDef := by
  unfold N.parseProblemConstraintsDef
  made

theorem parsePEffect_makes : Makes N.parsePEffect := by
  unfold N.parsePEffect
  made

theorem parseCondEffect_makes : Makes N.parseCondEffect := by
  unfold N.parseCondEffect
  made

theorem Makes.effectOf {p : N.P CEffect} (h : Makes p) : Makes (N.effectOf p) := by
  unfold N.effectOf
  made

theorem Makes.forallCEffectOf {p : N.P CEffect} (h : Makes p) : Makes (N.forallCEffectOf p) := by
  unfold N.forallCEffectOf
  made

theorem parseWhenCEffect_makes : Makes N.parseWhenCEffect := by
  unfold N.parseWhenCEffect
  made

theorem parseCEffect_makes : Makes N.parseCEffect := .fix fun _ h => by
  unfold N.cEffectBody
  made

theorem parseEffect_makes : Makes N.parseEffect := by
  unfold N.parseEffect
  made

theorem parseForallCEffect_makes : Makes N.parseForallCEffect := by
  unfold N.parseForallCEffect
  made

theorem parseParameters_makes : Makes N.parseParameters := by
  unfold N.parseParameters
  made

theorem parseActionDef_makes : Makes N.parseActionDef := by
  unfold N.parseActionDef
  made

theorem parseDerivedPredicate_makes : Makes N.parseDerivedPredicate := by
  unfold N.parseDerivedPredicate
  made

theorem parseTimedGd_makes : Makes N.parseTimedGd := by
  unfold N.parseTimedGd
  made

theorem parsePrefTimedGd_makes : Makes N.parsePrefTimedGd := by
  unfold N.parsePrefTimedGd
  made

theorem parseDaGd_makes : Makes N.parseDaGd := .fix fun _ h => by
  unfold N.daGdBody
  made

theorem parseFExpDa_makes : Makes N.parseFExpDa := .fix fun _ h => by
  unfold N.fExpDaBody
  made

theorem parseFAssignDa_makes : Makes N.parseFAssignDa := by
  unfold N.parseFAssignDa
  made

theorem parseFExpT_makes : Makes N.parseFExpT := by
  unfold N.parseFExpT
  made

theorem parseTimedEffect_makes : Makes N.parseTimedEffect := by
  unfold N.parseTimedEffect
  made

theorem parseDaEffect_makes : Makes N.parseDaEffect := .fix fun _ h => by
  unfold N.daEffectBody
  made

theorem parseDValue_makes : Makes N.parseDValue := by
  unfold N.parseDValue
  made

theorem parseSimpleDuration_makes : Makes N.parseSimpleDuration := .fix fun _ h => by
  unfold N.simpleDurationBody
  made

theorem parseDurationConstraint_makes : Makes N.parseDurationConstraint := by
  unfold N.parseDurationConstraint
  made

theorem parseDaDef_makes : Makes N.parseDaDef := by
  unfold N.parseDaDef
  made

theorem parseStructureDef_makes : Makes N.parseStructureDef := by
  unfold N.parseStructureDef
  made

theorem parseRequireKey_makes : Makes N.parseRequireKey := .mapExpect (.alt_tags requireTags)

theorem parseRequireDef_makes : Makes N.parseRequireDef := by
  unfold N.parseRequireDef
  made

theorem parseTypesDef_makes : Makes N.parseTypesDef := by
  unfold N.parseTypesDef
  made

theorem parseConstantsDef_makes : Makes N.parseConstantsDef := by
  unfold N.parseConstantsDef
  made

theorem parseProblemObjectsDeclaration_makes : Makes N.parseProblemObjectsDeclaration := by
  unfold N.parseProblemObjectsDeclaration
  made

theorem parsePredicatesDef_makes : Makes N.parsePredicatesDef := by
  unfold N.parsePredicatesDef
  made

theorem parseFunctionsDef_makes : Makes N.parseFunctionsDef := by
  unfold N.parseFunctionsDef
  made

theorem parseTimelessDef_makes : Makes N.parseTimelessDef := by
  unfold N.parseTimelessDef
  made

theorem parseInitEl_makes : Makes N.parseInitEl := by
  unfold N.parseInitEl
  made

theorem parseProblemInitDef_makes : Makes N.parseProblemInitDef := by
  unfold N.parseProblemInitDef
  made

theorem parseProblemLengthSpec_makes : Makes N.parseProblemLengthSpec := by
  unfold N.parseProblemLengthSpec
  made

theorem parseMetricFExp_makes : Makes N.parseMetricFExp := .fix fun _ h => by
  unfold N.metricFExpBody
  made

theorem parseProblemMetricSpec_makes : Makes N.parseProblemMetricSpec := by
  unfold N.parseProblemMetricSpec
  made

theorem domainParts_makes : Makes N.domainParts := by
  unfold N.domainParts
  made

theorem parseDomain_makes : Makes N.parseDomain := by
  unfold N.parseDomain
  made

theorem problemParts_makes : Makes N.problemParts := by
  unfold N.problemParts
  made

theorem parseProblem_makes : Makes N.parseProblem := by
  unfold N.parseProblem
  made

end Pddl
