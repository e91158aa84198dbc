import Verif.Meta.DepthRules

/-!
# Meta-theory: the depth of recursion of every parser

For every parser a bound of the form "levels of nesting + comments in a row + constant". The constant
grows by one where a recursive parser calls another recursive parser on the same level.
-/

namespace Pddl

/-- The rules for the combinators, with the side conditions on numbers and on literal texts. -/
macro "deep" : tactic => `(tactic| (comb <;> first | assumption | decide | omega))

/-- The same inside a recursive parser, given the bound for the recursive calls. -/
macro "deep_rec" h:term : tactic => `(tactic| (comb <;> first
  | exact Deep.mono $h (by omega) (by omega) | assumption | decide | omega))


theorem parseAnyChar_deep : Deep M L m D.parseAnyChar := by
  unfold D.parseAnyChar
  deep

theorem parseName_deep (h : 1 + M ≤ m) : Deep M L m D.parseName := by
  unfold D.parseName
  deep

theorem parseVariable_deep (h : 1 + M ≤ m) : Deep M L m D.parseVariable := by
  unfold D.parseVariable
  deep

theorem parsePredicate_deep (h : 1 + M ≤ m) : Deep M L m D.parsePredicate := by
  unfold D.parsePredicate
  deep

theorem parseFunctionSymbol_deep (h : 1 + M ≤ m) : Deep M L m D.parseFunctionSymbol := by
  unfold D.parseFunctionSymbol
  deep

theorem parseActionSymbol_deep (h : 1 + M ≤ m) : Deep M L m D.parseActionSymbol := by
  unfold D.parseActionSymbol
  deep

theorem parseDaSymbol_deep (h : 1 + M ≤ m) : Deep M L m D.parseDaSymbol := by
  unfold D.parseDaSymbol
  deep

theorem parsePrefName_deep (h : 1 + M ≤ m) : Deep M L m D.parsePrefName := by
  unfold D.parsePrefName
  deep

theorem parseDecimal_deep : Deep M L m D.parseDecimal := by
  unfold D.parseDecimal
  deep

theorem parseNumber_deep : Deep M L m D.parseNumber := by
  unfold D.parseNumber
  deep

theorem parseObject_deep : Deep M L m D.parseObject := by
  unfold D.parseObject
  deep

theorem parsePrimitiveType_deep (h : 1 + M ≤ m) : Deep M L m D.parsePrimitiveType := by
  unfold D.parsePrimitiveType
  deep

theorem parseEitherType_deep (h : 1 + M ≤ m) : Deep M L m D.parseEitherType := by
  unfold D.parseEitherType
  deep

theorem parseType_deep (h : 1 + M ≤ m) : Deep M L m D.parseType := by
  unfold D.parseType
  deep

theorem Deep.explicitlyTyped {p : D.P α} (hm : 1 + M ≤ m) (h : Deep M L m p) :
    Deep M L m (D.explicitlyTyped p) := by
  refine Deep.map ?_
  deep

theorem Deep.typedList {p : D.P α} (hm : 1 + M ≤ m) (h : Deep M L m p) :
    Deep M L m (D.typedList p) := by
  unfold D.typedList
  deep

theorem Deep.functionTypedList {p : D.P α} (hm : 1 + M ≤ m) (h : Deep M L m p) :
    Deep M L m (D.functionTypedList p) := by
  unfold D.functionTypedList
  deep

theorem parseFunctionType_deep (h : 1 + M ≤ m) : Deep M L m D.parseFunctionType := by
  unfold D.parseFunctionType
  deep

theorem Deep.functionTermOf {p : D.P Term} (hm : 1 + M ≤ m) (h : Deep M (L - 1) m p) :
    Deep M L m (D.functionTermOf p) := by
  refine Deep.map (Deep.bare ?_)
  deep

theorem parseTerm_deep (h : L + M + 2 ≤ m) : Deep M L m D.parseTerm := by
  refine (Deep.fix (c := M + 1) (fun L p hp => ?_) L).mono (Nat.le_refl _) (by omega)
  unfold D.termBody
  deep_rec hp

theorem parseFunctionTerm_deep (h0 : 1 + M ≤ m) (h : L - 1 + M + 2 ≤ m) : Deep M L m D.parseFunctionTerm := by
  unfold D.parseFunctionTerm
  deep

theorem Deep.atomicFormula {p : D.P α} (hm : 1 + M ≤ m) (h : Deep M (L - 1) m p) :
    Deep M L m (D.atomicFormula p) := by
  refine Deep.alt_cons (Deep.map (Deep.equality hm ?_)) ?_
  all_goals deep

theorem Deep.literal {p : D.P α} (hm : 1 + M ≤ m) (h : Deep M (L - 1) m p) :
    Deep M L m (D.literal p) := by
  unfold D.literal
  deep_rec h

theorem parseAtomicFormulaSkeleton_deep (h : 1 + M ≤ m) : Deep M L m D.parseAtomicFormulaSkeleton := by
  unfold D.parseAtomicFormulaSkeleton
  deep

theorem parseAtomicFunctionSkeleton_deep (h : 1 + M ≤ m) : Deep M L m D.parseAtomicFunctionSkeleton := by
  unfold D.parseAtomicFunctionSkeleton
  deep

theorem parseBasicFunctionTerm_deep (h : 1 + M ≤ m) : Deep M L m D.parseBasicFunctionTerm := by
  unfold D.parseBasicFunctionTerm
  deep

theorem parseFHead_deep (h0 : 1 + M ≤ m) (h : L - 1 + M + 2 ≤ m) : Deep M L m D.parseFHead := by
  unfold D.parseFHead
  deep

theorem parseMultiOp_deep : Deep M L m D.parseMultiOp := by
  unfold D.parseMultiOp
  deep

theorem parseBinaryOp_deep : Deep M L m D.parseBinaryOp := by
  unfold D.parseBinaryOp
  deep

theorem parseBinaryComp_deep : Deep M L m D.parseBinaryComp := by
  unfold D.parseBinaryComp
  deep

theorem parseAssignOp_deep : Deep M L m D.parseAssignOp := by
  unfold D.parseAssignOp
  deep

theorem parseAssignOpT_deep : Deep M L m D.parseAssignOpT := by
  unfold D.parseAssignOpT
  deep

theorem parseDOp_deep : Deep M L m D.parseDOp := by
  unfold D.parseDOp
  deep

theorem parseOptimization_deep : Deep M L m D.parseOptimization := by
  unfold D.parseOptimization
  deep

theorem parseTimeSpecifier_deep : Deep M L m D.parseTimeSpecifier := by
  unfold D.parseTimeSpecifier
  deep

theorem parseInterval_deep : Deep M L m D.parseInterval := by
  unfold D.parseInterval
  deep

theorem parseFExp_deep (h : L + M + 2 ≤ m) : Deep M L m D.parseFExp := by
  refine (Deep.fix (c := M + 1) (fun L p hp => ?_) L).mono (Nat.le_refl _) (by omega)
  unfold D.fExpBody
  deep_rec hp

theorem parseFComp_deep (h0 : 1 + M ≤ m) (h : L - 1 + M + 2 ≤ m) : Deep M L m D.parseFComp := by
  unfold D.parseFComp
  deep

theorem parseVarList_deep (h : 1 + M ≤ m) : Deep M L m D.parseVarList := by
  unfold D.parseVarList
  deep

theorem parseGd_deep (h : L + M + 2 ≤ m) : Deep M L m D.parseGd := by
  refine (Deep.fix (c := M + 1) (fun L p hp => ?_) L).mono (Nat.le_refl _) (by omega)
  unfold D.gdBody
  deep_rec hp

theorem parsePrefGd_deep (h : L + M + 2 ≤ m) : Deep M L m D.parsePrefGd := by
  unfold D.parsePrefGd
  deep

theorem parsePreGd_deep (h : L + M + 3 ≤ m) : Deep M L m D.parsePreGd := by
  refine (Deep.fix (c := M + 2) (fun L p hp => ?_) L).mono (Nat.le_refl _) (by omega)
  unfold D.preGdBody
  deep_rec hp

theorem parseProblemGoalDef_deep (h : L + M + 3 ≤ m) : Deep M L m D.parseProblemGoalDef := by
  unfold D.parseProblemGoalDef
  deep

theorem Deep.con2Of {p : D.P ConGD} (hm : L + M + 2 ≤ m) (h : Deep M L m p) :
    Deep M L m (D.con2Of p) := by
  unfold D.con2Of
  deep

theorem parseConGd_deep (h : L + M + 2 ≤ m) : Deep M L m D.parseConGd := by
  refine (Deep.fix (c := M + 1) (fun L p hp => ?_) L).mono (Nat.le_refl _) (by omega)
  unfold D.conGdBody
  deep_rec hp

theorem parseCon2Gd_deep (h : L + M + 2 ≤ m) : Deep M L m D.parseCon2Gd := by
  unfold D.parseCon2Gd
  deep

theorem parsePrefConGd_deep (h : L + M + 3 ≤ m) : Deep M L m D.parsePrefConGd := by
  refine (Deep.fix (c := M + 2) (fun L p hp => ?_) L).mono (Nat.le_refl _) (by omega)
  unfold D.prefConGdBody
  deep_rec hp

theorem parseDomainConstraintsDef_deep (h : L + M + 2 ≤ m) : Deep M L m D.parseDomainConstraintsDef := by
  unfold D.parseDomainConstraintsDef
  deep

theorem parseProblemConstraintsDef_deep (h : L + M + 3 ≤ m) : Deep M L m D.parseProblemConstraintsDef := by
  unfold D.parseProblemConstraintsDef
  deep

theorem parsePEffect_deep (h0 : 1 + M ≤ m) (h : L - 1 + M + 2 ≤ m) : Deep M L m D.parsePEffect := by
  unfold D.parsePEffect
  deep

theorem parseCondEffect_deep (h0 : 1 + M ≤ m) (h : L - 1 + M + 2 ≤ m) : Deep M L m D.parseCondEffect := by
  unfold D.parseCondEffect
  deep

theorem Deep.effectOf {p : D.P CEffect} (hm : 1 + M ≤ m) (h : Deep M L m p) :
    Deep M L m (D.effectOf p) := by
  unfold D.effectOf
  deep_rec h

theorem Deep.forallCEffectOf {p : D.P CEffect} (hm : 1 + M ≤ m)
    (h : Deep M (L - 1) m p) : Deep M L m (D.forallCEffectOf p) := by
  unfold D.forallCEffectOf
  deep

theorem parseWhenCEffect_deep (h0 : 1 + M ≤ m) (h : L - 1 + M + 2 ≤ m) : Deep M L m D.parseWhenCEffect := by
  unfold D.parseWhenCEffect
  deep

theorem parseCEffect_deep (h : L + M + 2 ≤ m) : Deep M L m D.parseCEffect := by
  refine (Deep.fix (c := M + 1) (fun L p hp => ?_) L).mono (Nat.le_refl _) (by omega)
  unfold D.cEffectBody
  deep_rec hp

theorem parseEffect_deep (h : L + M + 2 ≤ m) : Deep M L m D.parseEffect := by
  unfold D.parseEffect
  deep

theorem parseForallCEffect_deep (h : L + M + 2 ≤ m) : Deep M L m D.parseForallCEffect := by
  unfold D.parseForallCEffect
  deep

theorem parseParameters_deep (h : 1 + M ≤ m) : Deep M L m D.parseParameters := by
  unfold D.parseParameters
  deep

theorem parseActionDef_deep (h : L + M + 3 ≤ m) : Deep M L m D.parseActionDef := by
  unfold D.parseActionDef
  deep

theorem parseDerivedPredicate_deep (h : L + M + 2 ≤ m) : Deep M L m D.parseDerivedPredicate := by
  unfold D.parseDerivedPredicate
  deep

theorem parseTimedGd_deep (h0 : 1 + M ≤ m) (h : L - 1 + M + 2 ≤ m) : Deep M L m D.parseTimedGd := by
  unfold D.parseTimedGd
  deep

theorem parsePrefTimedGd_deep (h0 : 1 + M ≤ m) (h : L - 1 + M + 2 ≤ m) : Deep M L m D.parsePrefTimedGd := by
  unfold D.parsePrefTimedGd
  deep

theorem parseDaGd_deep (h : L + M + 2 ≤ m) : Deep M L m D.parseDaGd := by
  refine (Deep.fix (c := M + 1) (fun L p hp => ?_) L).mono (Nat.le_refl _) (by omega)
  unfold D.daGdBody
  deep_rec hp

theorem parseFExpDa_deep (h : L + M + 3 ≤ m) : Deep M L m D.parseFExpDa := by
  refine (Deep.fix (c := M + 2) (fun L p hp => ?_) L).mono (Nat.le_refl _) (by omega)
  unfold D.fExpDaBody
  deep_rec hp

theorem parseFAssignDa_deep (h0 : 1 + M ≤ m) (h : L - 1 + M + 3 ≤ m) : Deep M L m D.parseFAssignDa := by
  unfold D.parseFAssignDa
  deep

theorem parseFExpT_deep (h : L + M + 2 ≤ m) : Deep M L m D.parseFExpT := by
  unfold D.parseFExpT
  deep

theorem parseTimedEffect_deep (h0 : 1 + M ≤ m) (h : L - 1 + M + 3 ≤ m) : Deep M L m D.parseTimedEffect := by
  unfold D.parseTimedEffect
  deep

theorem parseDaEffect_deep (h : L + M + 3 ≤ m) : Deep M L m D.parseDaEffect := by
  refine (Deep.fix (c := M + 2) (fun L p hp => ?_) L).mono (Nat.le_refl _) (by omega)
  unfold D.daEffectBody
  deep_rec hp

theorem parseDValue_deep (h : L + M + 2 ≤ m) : Deep M L m D.parseDValue := by
  unfold D.parseDValue
  deep

theorem parseSimpleDuration_deep (h : L + M + 2 ≤ m) : Deep M L m D.parseSimpleDuration := by
  refine (Deep.fix (c := M + 1) (fun L p hp => ?_) L).mono (Nat.le_refl _) (by omega)
  unfold D.simpleDurationBody
  deep_rec hp

theorem parseDurationConstraint_deep (h : L + M + 2 ≤ m) : Deep M L m D.parseDurationConstraint := by
  refine Deep.alt_cons (.map .unit) ?_
  deep

theorem parseDaDef_deep (h : L + M + 3 ≤ m) : Deep M L m D.parseDaDef := by
  unfold D.parseDaDef
  deep

theorem parseStructureDef_deep (h : L + M + 3 ≤ m) : Deep M L m D.parseStructureDef := by
  unfold D.parseStructureDef
  deep

theorem parseRequireKey_deep : Deep M L m D.parseRequireKey :=
  .mapExpect (.alt_tags requireTags (by decide))

theorem parseRequireDef_deep (h : 1 + M ≤ m) : Deep M L m D.parseRequireDef := by
  unfold D.parseRequireDef
  deep

theorem parseTypesDef_deep (h : 1 + M ≤ m) : Deep M L m D.parseTypesDef := by
  unfold D.parseTypesDef
  deep

theorem parseConstantsDef_deep (h : 1 + M ≤ m) : Deep M L m D.parseConstantsDef := by
  unfold D.parseConstantsDef
  deep

theorem parseProblemObjectsDeclaration_deep (h : 1 + M ≤ m) : Deep M L m D.parseProblemObjectsDeclaration := by
  unfold D.parseProblemObjectsDeclaration
  deep

theorem parsePredicatesDef_deep (h : 1 + M ≤ m) : Deep M L m D.parsePredicatesDef := by
  unfold D.parsePredicatesDef
  deep

theorem parseFunctionsDef_deep (h : 1 + M ≤ m) : Deep M L m D.parseFunctionsDef := by
  unfold D.parseFunctionsDef
  deep

theorem parseTimelessDef_deep (h : 1 + M ≤ m) : Deep M L m D.parseTimelessDef := by
  unfold D.parseTimelessDef
  deep

theorem parseInitEl_deep (h : 1 + M ≤ m) : Deep M L m D.parseInitEl := by
  unfold D.parseInitEl
  deep

theorem parseProblemInitDef_deep (h : 1 + M ≤ m) : Deep M L m D.parseProblemInitDef := by
  unfold D.parseProblemInitDef
  deep

theorem parseProblemLengthSpec_deep (h : 1 + M ≤ m) : Deep M L m D.parseProblemLengthSpec := by
  unfold D.parseProblemLengthSpec
  deep

theorem parseMetricFExp_deep (h : L + M + 2 ≤ m) : Deep M L m D.parseMetricFExp := by
  refine (Deep.fix (c := M + 1) (fun L p hp => ?_) L).mono (Nat.le_refl _) (by omega)
  unfold D.metricFExpBody
  deep_rec hp

theorem parseProblemMetricSpec_deep (h : L + M + 2 ≤ m) : Deep M L m D.parseProblemMetricSpec := by
  unfold D.parseProblemMetricSpec
  deep

theorem domainParts_deep (h : L + M + 3 ≤ m) : Deep M L m D.domainParts := by
  unfold D.domainParts
  deep

theorem parseDomain_deep (h : L + M + 3 ≤ m) : Deep M L m D.parseDomain := by
  unfold D.parseDomain
  deep

theorem problemParts_deep (h : L + M + 3 ≤ m) : Deep M L m D.problemParts := by
  unfold D.problemParts
  deep

theorem parseProblem_deep (h : L + M + 3 ≤ m) : Deep M L m D.parseProblem := by
  unfold D.parseProblem
  deep

end Pddl
