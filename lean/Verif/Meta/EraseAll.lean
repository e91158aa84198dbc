import Verif.Meta.Erase

/-!
# Every parser with payloads erases to the parser without
-/

namespace Pddl

theorem Erases.ignoreEolCommentBody {self' : E.P Unit} {self : P Unit} (h_self : Erases self' self) :
    Erases (E.ignoreEolCommentBody self') (Pddl.ignoreEolCommentBody self) := by
  unfold E.ignoreEolCommentBody Pddl.ignoreEolCommentBody
  comb
  all_goals assumption

theorem ignoreEolComment_erases : Erases E.ignoreEolComment ignoreEolComment := Erases.fix fun _ _ h => Erases.ignoreEolCommentBody h

theorem Erases.ws {p' : E.P α} {p : P α} (h_p : Erases p' p) :
    Erases (E.ws p') (Pddl.ws p) := by
  unfold E.ws Pddl.ws
  comb
  all_goals assumption

theorem Erases.ws2 {p' : E.P α} {p : P α} (h_p : Erases p' p) :
    Erases (E.ws2 p') (Pddl.ws2 p) := by
  unfold E.ws2 Pddl.ws2
  comb
  all_goals assumption

theorem Erases.prefixExpr {name : List Char} {p' : E.P α} {p : P α} (h_p : Erases p' p) :
    Erases (E.prefixExpr name p') (Pddl.prefixExpr name p) := by
  unfold E.prefixExpr Pddl.prefixExpr
  comb
  all_goals assumption

theorem Erases.spaceSeparatedList0 {p' : E.P α} {p : P α} (h_p : Erases p' p) :
    Erases (E.spaceSeparatedList0 p') (Pddl.spaceSeparatedList0 p) := by
  unfold E.spaceSeparatedList0 Pddl.spaceSeparatedList0
  comb
  all_goals assumption

theorem Erases.spaceSeparatedList1 {p' : E.P α} {p : P α} (h_p : Erases p' p) :
    Erases (E.spaceSeparatedList1 p') (Pddl.spaceSeparatedList1 p) := by
  unfold E.spaceSeparatedList1 Pddl.spaceSeparatedList1
  comb
  all_goals assumption

theorem Erases.parens {p' : E.P α} {p : P α} (h_p : Erases p' p) :
    Erases (E.parens p') (Pddl.parens p) := by
  unfold E.parens Pddl.parens
  comb
  all_goals assumption

theorem Erases.emptyOr {p' : E.P α} {p : P α} (h_p : Erases p' p) :
    Erases (E.emptyOr p') (Pddl.emptyOr p) := by
  unfold E.emptyOr Pddl.emptyOr
  comb
  all_goals assumption

theorem parseAnyChar_erases : Erases E.parseAnyChar Pddl.parseAnyChar := by
  unfold E.parseAnyChar Pddl.parseAnyChar
  comb

theorem parseName_erases : Erases E.parseName Pddl.parseName := by
  unfold E.parseName Pddl.parseName
  comb

theorem parseVariable_erases : Erases E.parseVariable Pddl.parseVariable := by
  unfold E.parseVariable Pddl.parseVariable
  comb

theorem parsePredicate_erases : Erases E.parsePredicate Pddl.parsePredicate := by
  unfold E.parsePredicate Pddl.parsePredicate
  comb

theorem parseFunctionSymbol_erases : Erases E.parseFunctionSymbol Pddl.parseFunctionSymbol := by
  unfold E.parseFunctionSymbol Pddl.parseFunctionSymbol
  comb

theorem parseActionSymbol_erases : Erases E.parseActionSymbol Pddl.parseActionSymbol := by
  unfold E.parseActionSymbol Pddl.parseActionSymbol
  comb

theorem parseDaSymbol_erases : Erases E.parseDaSymbol Pddl.parseDaSymbol := by
  unfold E.parseDaSymbol Pddl.parseDaSymbol
  comb

theorem parsePrefName_erases : Erases E.parsePrefName Pddl.parsePrefName := by
  unfold E.parsePrefName Pddl.parsePrefName
  comb

theorem parseDecimal_erases : Erases E.parseDecimal Pddl.parseDecimal := by
  unfold E.parseDecimal Pddl.parseDecimal
  comb

theorem parseNumber_erases : Erases E.parseNumber Pddl.parseNumber := by
  unfold E.parseNumber Pddl.parseNumber
  comb

theorem parseObject_erases : Erases E.parseObject Pddl.parseObject := by
  unfold E.parseObject Pddl.parseObject
  comb

theorem parsePrimitiveType_erases : Erases E.parsePrimitiveType Pddl.parsePrimitiveType := by
  unfold E.parsePrimitiveType Pddl.parsePrimitiveType
  comb

theorem parseEitherType_erases : Erases E.parseEitherType Pddl.parseEitherType := by
  unfold E.parseEitherType Pddl.parseEitherType
  comb

theorem parseType_erases : Erases E.parseType Pddl.parseType := by
  unfold E.parseType Pddl.parseType
  comb
  all_goals first | assumption | exact fun _ => rfl

theorem parseFunctionType_erases : Erases E.parseFunctionType Pddl.parseFunctionType := by
  unfold E.parseFunctionType Pddl.parseFunctionType
  comb

theorem Erases.explicitlyTyped {inner' : E.P α} {inner : P α} (h_inner : Erases inner' inner) :
    Erases (E.explicitlyTyped inner') (Pddl.explicitlyTyped inner) := by
  unfold E.explicitlyTyped Pddl.explicitlyTyped
  comb
  all_goals assumption

theorem Erases.typedList {inner' : E.P α} {inner : P α} (h_inner : Erases inner' inner) :
    Erases (E.typedList inner') (Pddl.typedList inner) := by
  unfold E.typedList Pddl.typedList
  comb
  all_goals assumption

theorem Erases.functionTypedList {inner' : E.P α} {inner : P α} (h_inner : Erases inner' inner) :
    Erases (E.functionTypedList inner') (Pddl.functionTypedList inner) := by
  unfold E.functionTypedList Pddl.functionTypedList
  comb
  all_goals assumption

theorem Erases.functionTermOf {self' : E.P Term} {self : P Term} (h_self : Erases self' self) :
    Erases (E.functionTermOf self') (Pddl.functionTermOf self) := by
  unfold E.functionTermOf Pddl.functionTermOf
  comb
  all_goals assumption

theorem Erases.termBody {self' : E.P Term} {self : P Term} (h_self : Erases self' self) :
    Erases (E.termBody self') (Pddl.termBody self) := by
  unfold E.termBody Pddl.termBody
  comb
  all_goals first | assumption | exact fun _ => rfl

theorem parseTerm_erases : Erases E.parseTerm parseTerm := Erases.fix fun _ _ h => Erases.termBody h

theorem parseFunctionTerm_erases : Erases E.parseFunctionTerm Pddl.parseFunctionTerm := by
  unfold E.parseFunctionTerm Pddl.parseFunctionTerm
  comb

theorem Erases.atomicFormula {inner' : E.P α} {inner : P α} (h_inner : Erases inner' inner) :
    Erases (E.atomicFormula inner') (Pddl.atomicFormula inner) := by
  unfold E.atomicFormula Pddl.atomicFormula
  comb
  all_goals assumption

theorem Erases.literal {inner' : E.P α} {inner : P α} (h_inner : Erases inner' inner) :
    Erases (E.literal inner') (Pddl.literal inner) := by
  unfold E.literal Pddl.literal
  comb
  all_goals assumption

theorem parseAtomicFormulaSkeleton_erases : Erases E.parseAtomicFormulaSkeleton Pddl.parseAtomicFormulaSkeleton := by
  unfold E.parseAtomicFormulaSkeleton Pddl.parseAtomicFormulaSkeleton
  comb

theorem parseAtomicFunctionSkeleton_erases : Erases E.parseAtomicFunctionSkeleton Pddl.parseAtomicFunctionSkeleton := by
  unfold E.parseAtomicFunctionSkeleton Pddl.parseAtomicFunctionSkeleton
  comb

theorem parseBasicFunctionTerm_erases : Erases E.parseBasicFunctionTerm Pddl.parseBasicFunctionTerm := by
  unfold E.parseBasicFunctionTerm Pddl.parseBasicFunctionTerm
  comb

theorem parseFHead_erases : Erases E.parseFHead Pddl.parseFHead := by
  unfold E.parseFHead Pddl.parseFHead
  comb

theorem parseMultiOp_erases : Erases E.parseMultiOp Pddl.parseMultiOp := by
  unfold E.parseMultiOp Pddl.parseMultiOp
  comb

theorem parseBinaryOp_erases : Erases E.parseBinaryOp Pddl.parseBinaryOp := by
  unfold E.parseBinaryOp Pddl.parseBinaryOp
  comb

theorem parseBinaryComp_erases : Erases E.parseBinaryComp Pddl.parseBinaryComp := by
  unfold E.parseBinaryComp Pddl.parseBinaryComp
  comb

theorem parseAssignOp_erases : Erases E.parseAssignOp Pddl.parseAssignOp := by
  unfold E.parseAssignOp Pddl.parseAssignOp
  comb

theorem parseAssignOpT_erases : Erases E.parseAssignOpT Pddl.parseAssignOpT := by
  unfold E.parseAssignOpT Pddl.parseAssignOpT
  comb

theorem parseDOp_erases : Erases E.parseDOp Pddl.parseDOp := by
  unfold E.parseDOp Pddl.parseDOp
  comb

theorem parseOptimization_erases : Erases E.parseOptimization Pddl.parseOptimization := by
  unfold E.parseOptimization Pddl.parseOptimization
  comb

theorem parseTimeSpecifier_erases : Erases E.parseTimeSpecifier Pddl.parseTimeSpecifier := by
  unfold E.parseTimeSpecifier Pddl.parseTimeSpecifier
  comb

theorem parseInterval_erases : Erases E.parseInterval Pddl.parseInterval := by
  unfold E.parseInterval Pddl.parseInterval
  comb

theorem Erases.fExpBody {self' : E.P FExp} {self : P FExp} (h_self : Erases self' self) :
    Erases (E.fExpBody self') (Pddl.fExpBody self) := by
  unfold E.fExpBody Pddl.fExpBody
  comb
  all_goals assumption

theorem parseFExp_erases : Erases E.parseFExp parseFExp := Erases.fix fun _ _ h => Erases.fExpBody h

theorem parseFComp_erases : Erases E.parseFComp Pddl.parseFComp := by
  unfold E.parseFComp Pddl.parseFComp
  comb

theorem parseVarList_erases : Erases E.parseVarList Pddl.parseVarList := by
  unfold E.parseVarList Pddl.parseVarList
  comb

theorem Erases.gdBody {self' : E.P GD} {self : P GD} (h_self : Erases self' self) :
    Erases (E.gdBody self') (Pddl.gdBody self) := by
  unfold E.gdBody Pddl.gdBody
  comb
  all_goals assumption

theorem parseGd_erases : Erases E.parseGd parseGd := Erases.fix fun _ _ h => Erases.gdBody h

theorem parsePrefGd_erases : Erases E.parsePrefGd Pddl.parsePrefGd := by
  unfold E.parsePrefGd Pddl.parsePrefGd
  comb

theorem Erases.preGdBody {self' : E.P (List PreGD)} {self : P (List PreGD)} (h_self : Erases self' self) :
    Erases (E.preGdBody self') (Pddl.preGdBody self) := by
  unfold E.preGdBody Pddl.preGdBody
  comb
  all_goals assumption

theorem parsePreGd_erases : Erases E.parsePreGd parsePreGd := Erases.fix fun _ _ h => Erases.preGdBody h

theorem parseProblemGoalDef_erases : Erases E.parseProblemGoalDef Pddl.parseProblemGoalDef := by
  unfold E.parseProblemGoalDef Pddl.parseProblemGoalDef
  comb

theorem Erases.con2Of {self' : E.P ConGD} {self : P ConGD} (h_self : Erases self' self) :
    Erases (E.con2Of self') (Pddl.con2Of self) := by
  unfold E.con2Of Pddl.con2Of
  comb
  all_goals assumption

theorem Erases.conGdBody {self' : E.P ConGD} {self : P ConGD} (h_self : Erases self' self) :
    Erases (E.conGdBody self') (Pddl.conGdBody self) := by
  unfold E.conGdBody Pddl.conGdBody
  comb
  all_goals assumption

theorem parseConGd_erases : Erases E.parseConGd parseConGd := Erases.fix fun _ _ h => Erases.conGdBody h

theorem parseCon2Gd_erases : Erases E.parseCon2Gd Pddl.parseCon2Gd := by
  unfold E.parseCon2Gd Pddl.parseCon2Gd
  comb

theorem Erases.prefConGdBody {self' : E.P (List PrefConGD)} {self : P (List PrefConGD)} (h_self : Erases self' self) :
    Erases (E.prefConGdBody self') (Pddl.prefConGdBody self) := by
  unfold E.prefConGdBody Pddl.prefConGdBody
  comb
  all_goals assumption

theorem parsePrefConGd_erases : Erases E.parsePrefConGd parsePrefConGd := Erases.fix fun _ _ h => Erases.prefConGdBody h

theorem parseDomainConstraintsDef_erases : Erases E.parseDomainConstraintsDef Pddl.parseDomainConstraintsDef := by
  unfold E.parseDomainConstraintsDef Pddl.parseDomainConstraintsDef
  comb

theorem parseProblemConstraintsDef_erases : Erases E.parseProblemConstraintsDef Pddl.parseProblemConstraintsDef := by
  unfold E.parseProblemConstraintsDef Pddl.parseProblemConstraintsDef
  comb

theorem parsePEffect_erases : Erases E.parsePEffect Pddl.parsePEffect := by
  unfold E.parsePEffect Pddl.parsePEffect
  comb

theorem parseCondEffect_erases : Erases E.parseCondEffect Pddl.parseCondEffect := by
  unfold E.parseCondEffect Pddl.parseCondEffect
  comb

theorem Erases.effectOf {self' : E.P CEffect} {self : P CEffect} (h_self : Erases self' self) :
    Erases (E.effectOf self') (Pddl.effectOf self) := by
  unfold E.effectOf Pddl.effectOf
  comb
  all_goals assumption

theorem Erases.forallCEffectOf {self' : E.P CEffect} {self : P CEffect} (h_self : Erases self' self) :
    Erases (E.forallCEffectOf self') (Pddl.forallCEffectOf self) := by
  unfold E.forallCEffectOf Pddl.forallCEffectOf
  comb
  all_goals assumption

theorem parseWhenCEffect_erases : Erases E.parseWhenCEffect Pddl.parseWhenCEffect := by
  unfold E.parseWhenCEffect Pddl.parseWhenCEffect
  comb

theorem Erases.cEffectBody {self' : E.P CEffect} {self : P CEffect} (h_self : Erases self' self) :
    Erases (E.cEffectBody self') (Pddl.cEffectBody self) := by
  unfold E.cEffectBody Pddl.cEffectBody
  comb
  all_goals assumption

theorem parseCEffect_erases : Erases E.parseCEffect parseCEffect := Erases.fix fun _ _ h => Erases.cEffectBody h

theorem parseEffect_erases : Erases E.parseEffect Pddl.parseEffect := by
  unfold E.parseEffect Pddl.parseEffect
  comb

theorem parseForallCEffect_erases : Erases E.parseForallCEffect Pddl.parseForallCEffect := by
  unfold E.parseForallCEffect Pddl.parseForallCEffect
  comb

theorem parseParameters_erases : Erases E.parseParameters Pddl.parseParameters := by
  unfold E.parseParameters Pddl.parseParameters
  comb

theorem parseActionDef_erases : Erases E.parseActionDef Pddl.parseActionDef := by
  unfold E.parseActionDef Pddl.parseActionDef
  comb

theorem parseDerivedPredicate_erases : Erases E.parseDerivedPredicate Pddl.parseDerivedPredicate := by
  unfold E.parseDerivedPredicate Pddl.parseDerivedPredicate
  comb

theorem parseTimedGd_erases : Erases E.parseTimedGd Pddl.parseTimedGd := by
  unfold E.parseTimedGd Pddl.parseTimedGd
  comb

theorem parsePrefTimedGd_erases : Erases E.parsePrefTimedGd Pddl.parsePrefTimedGd := by
  unfold E.parsePrefTimedGd Pddl.parsePrefTimedGd
  comb

theorem Erases.daGdBody {self' : E.P DaGD} {self : P DaGD} (h_self : Erases self' self) :
    Erases (E.daGdBody self') (Pddl.daGdBody self) := by
  unfold E.daGdBody Pddl.daGdBody
  comb
  all_goals assumption

theorem parseDaGd_erases : Erases E.parseDaGd parseDaGd := Erases.fix fun _ _ h => Erases.daGdBody h

theorem Erases.fExpDaBody {self' : E.P FExpDa} {self : P FExpDa} (h_self : Erases self' self) :
    Erases (E.fExpDaBody self') (Pddl.fExpDaBody self) := by
  unfold E.fExpDaBody Pddl.fExpDaBody
  comb
  all_goals assumption

theorem parseFExpDa_erases : Erases E.parseFExpDa parseFExpDa := Erases.fix fun _ _ h => Erases.fExpDaBody h

theorem parseFAssignDa_erases : Erases E.parseFAssignDa Pddl.parseFAssignDa := by
  unfold E.parseFAssignDa Pddl.parseFAssignDa
  comb

theorem parseFExpT_erases : Erases E.parseFExpT Pddl.parseFExpT := by
  unfold E.parseFExpT Pddl.parseFExpT
  comb

theorem parseTimedEffect_erases : Erases E.parseTimedEffect Pddl.parseTimedEffect := by
  unfold E.parseTimedEffect Pddl.parseTimedEffect
  comb

theorem Erases.daEffectBody {self' : E.P DaEffect} {self : P DaEffect} (h_self : Erases self' self) :
    Erases (E.daEffectBody self') (Pddl.daEffectBody self) := by
  unfold E.daEffectBody Pddl.daEffectBody
  comb
  all_goals assumption

theorem parseDaEffect_erases : Erases E.parseDaEffect parseDaEffect := Erases.fix fun _ _ h => Erases.daEffectBody h

theorem parseDValue_erases : Erases E.parseDValue Pddl.parseDValue := by
  unfold E.parseDValue Pddl.parseDValue
  comb

theorem Erases.simpleDurationBody {self' : E.P SimpleDuration} {self : P SimpleDuration} (h_self : Erases self' self) :
    Erases (E.simpleDurationBody self') (Pddl.simpleDurationBody self) := by
  unfold E.simpleDurationBody Pddl.simpleDurationBody
  comb
  all_goals assumption

theorem parseSimpleDuration_erases : Erases E.parseSimpleDuration parseSimpleDuration := Erases.fix fun _ _ h => Erases.simpleDurationBody h

theorem parseDurationConstraint_erases : Erases E.parseDurationConstraint Pddl.parseDurationConstraint := by
  unfold E.parseDurationConstraint Pddl.parseDurationConstraint
  comb

theorem parseDaDef_erases : Erases E.parseDaDef Pddl.parseDaDef := by
  unfold E.parseDaDef Pddl.parseDaDef
  comb

theorem parseStructureDef_erases : Erases E.parseStructureDef Pddl.parseStructureDef := by
  unfold E.parseStructureDef Pddl.parseStructureDef
  comb

theorem parseRequireKey_erases : Erases E.parseRequireKey Pddl.parseRequireKey := by
  unfold E.parseRequireKey parseRequireKey requireTags
  simp only [List.map]
  comb

theorem parseRequireDef_erases : Erases E.parseRequireDef Pddl.parseRequireDef := by
  unfold E.parseRequireDef Pddl.parseRequireDef
  comb

theorem parseTypesDef_erases : Erases E.parseTypesDef Pddl.parseTypesDef := by
  unfold E.parseTypesDef Pddl.parseTypesDef
  comb

theorem parseConstantsDef_erases : Erases E.parseConstantsDef Pddl.parseConstantsDef := by
  unfold E.parseConstantsDef Pddl.parseConstantsDef
  comb

theorem parseProblemObjectsDeclaration_erases : Erases E.parseProblemObjectsDeclaration Pddl.parseProblemObjectsDeclaration := by
  unfold E.parseProblemObjectsDeclaration Pddl.parseProblemObjectsDeclaration
  comb

theorem parsePredicatesDef_erases : Erases E.parsePredicatesDef Pddl.parsePredicatesDef := by
  unfold E.parsePredicatesDef Pddl.parsePredicatesDef
  comb

theorem parseFunctionsDef_erases : Erases E.parseFunctionsDef Pddl.parseFunctionsDef := by
  unfold E.parseFunctionsDef Pddl.parseFunctionsDef
  comb

theorem parseTimelessDef_erases : Erases E.parseTimelessDef Pddl.parseTimelessDef := by
  unfold E.parseTimelessDef Pddl.parseTimelessDef
  comb

theorem parseInitEl_erases : Erases E.parseInitEl Pddl.parseInitEl := by
  unfold E.parseInitEl Pddl.parseInitEl
  comb

theorem parseProblemInitDef_erases : Erases E.parseProblemInitDef Pddl.parseProblemInitDef := by
  unfold E.parseProblemInitDef Pddl.parseProblemInitDef
  comb

theorem parseProblemLengthSpec_erases : Erases E.parseProblemLengthSpec Pddl.parseProblemLengthSpec := by
  unfold E.parseProblemLengthSpec Pddl.parseProblemLengthSpec
  comb

theorem Erases.metricFExpBody {self' : E.P MetricFExp} {self : P MetricFExp} (h_self : Erases self' self) :
    Erases (E.metricFExpBody self') (Pddl.metricFExpBody self) := by
  unfold E.metricFExpBody Pddl.metricFExpBody
  comb
  all_goals assumption

theorem parseMetricFExp_erases : Erases E.parseMetricFExp parseMetricFExp := Erases.fix fun _ _ h => Erases.metricFExpBody h

theorem parseProblemMetricSpec_erases : Erases E.parseProblemMetricSpec Pddl.parseProblemMetricSpec := by
  unfold E.parseProblemMetricSpec Pddl.parseProblemMetricSpec
  comb

theorem domainParts_erases : Erases E.domainParts Pddl.domainParts := by
  unfold E.domainParts Pddl.domainParts
  comb

theorem parseDomain_erases : Erases E.parseDomain Pddl.parseDomain := by
  unfold E.parseDomain Pddl.parseDomain
  comb

theorem problemParts_erases : Erases E.problemParts Pddl.problemParts := by
  unfold E.problemParts Pddl.problemParts
  comb

theorem parseProblem_erases : Erases E.parseProblem Pddl.parseProblem := by
  unfold E.parseProblem Pddl.parseProblem
  comb

end Pddl
