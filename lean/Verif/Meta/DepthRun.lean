import Verif.Depth.Parsers

/-!
# Meta-theory: measuring the depth of recursion does not change outcomes
-/

namespace Pddl.D

theorem map_run (f : α → β) (p : P α) : (map f p).run = Pddl.map f p.run := rfl
theorem mapExpect_run (f : α → Option β) (p : P α) : (mapExpect f p).run = Pddl.mapExpect f p.run := rfl
theorem value_run (b : β) (p : P α) : (value b p).run = Pddl.value b p.run := rfl
theorem pair_run (p : P α) (q : P β) : (pair p q).run = Pddl.pair p.run q.run := rfl
theorem preceded_run (p : P α) (q : P β) : (preceded p q).run = Pddl.preceded p.run q.run := rfl
theorem terminated_run (p : P α) (q : P β) : (terminated p q).run = Pddl.terminated p.run q.run := rfl
theorem sepList0_run (p : P α) (q : P β) : (sepList0 p q).run = Pddl.sepList0 p.run q.run := rfl
theorem sepList1_run (p : P α) (q : P β) : (sepList1 p q).run = Pddl.sepList1 p.run q.run := rfl
theorem delimited_run (p : P α) (q : P β) (t : P γ) : (delimited p q t).run = Pddl.delimited p.run q.run t.run := rfl
theorem alt_run (ps : List (P α)) : (alt ps).run = Pddl.alt (ps.map P.run) := rfl
theorem opt_run (p : P α) : (opt p).run = Pddl.opt p.run := rfl
theorem recognize_run (p : P α) : (recognize p).run = Pddl.recognize p.run := rfl
theorem many0_run (p : P α) : (many0 p).run = Pddl.many0 p.run := rfl
theorem many01_run (p : P α) : (many01 p).run = Pddl.many01 p.run := rfl
theorem tag_run (t : List Char) : (tag t).run = Pddl.tag t := rfl
theorem char_run (c : Char) : (char c).run = Pddl.char c := rfl
theorem isNot_run (cs : List Char) : (isNot cs).run = Pddl.isNot cs := rfl
theorem multispace0_run : multispace0.run = Pddl.multispace0 := rfl
theorem multispace1_run : multispace1.run = Pddl.multispace1 := rfl
theorem alpha1_run : alpha1.run = Pddl.alpha1 := rfl
theorem digit1_run : digit1.run = Pddl.digit1 := rfl
theorem u64_run : u64.run = Pddl.u64 := rfl
theorem ifOk_run (p : P α) (f : α → β) (k : P β) : (ifOk p f k).run = Pddl.ifOk p.run f k.run := rfl
theorem failure_run {α : Type} : (failure : P α).run = fun _ => .fail := rfl
theorem error_run {α : Type} : (error : P α).run = fun _ => .err := rfl

theorem fixF_run {kb : P α → P α} {b : Pddl.P α → Pddl.P α} (h : ∀ p, (kb p).run = b p.run)
    (n : Nat) : (fixF kb n).run = Pddl.fixF b n := by
  induction n with
  | zero => rfl
  | succ n ih => rw [fixF, Pddl.fixF, h, ih]

theorem fix_run {kb : P α → P α} {b : Pddl.P α → Pddl.P α} (h : ∀ p, (kb p).run = b p.run) :
    (fix kb).run = Pddl.fix b := by
  funext s
  show (fixF kb (s.length + 1)).run s = Pddl.fixF b (s.length + 1) s
  rw [fixF_run h]

set_option hygiene false in
/-- Rewriting the outcome of an expression step by step. -/
macro "drun" "[" ls:ident,* "]" : tactic => `(tactic| (
  simp only [$[$ls:ident],*, map_run, mapExpect_run, value_run, pair_run, preceded_run, terminated_run, sepList0_run, sepList1_run, delimited_run, alt_run, opt_run, recognize_run, many0_run, many01_run, tag_run, char_run, isNot_run, multispace0_run, multispace1_run, alpha1_run, digit1_run, u64_run, ifOk_run, failure_run, error_run, List.map_cons, List.map_nil] <;> rfl))

theorem ignoreEolCommentBody_run (self : P Unit) : (ignoreEolCommentBody self).run = Pddl.ignoreEolCommentBody self.run := by
  drun [ignoreEolCommentBody]

theorem ignoreEolComment_run : ignoreEolComment.run = Pddl.ignoreEolComment := fix_run ignoreEolCommentBody_run

theorem ws_run (p : P α) : (ws p).run = Pddl.ws p.run := by
  drun [ws, ignoreEolComment_run]

theorem ws2_run (p : P α) : (ws2 p).run = Pddl.ws2 p.run := by
  drun [ws2, ignoreEolComment_run]

theorem prefixExpr_run (name : List Char) (p : P α) : (prefixExpr name p).run = Pddl.prefixExpr name p.run := by
  drun [prefixExpr, ws_run]

theorem spaceSeparatedList0_run (p : P α) : (spaceSeparatedList0 p).run = Pddl.spaceSeparatedList0 p.run := by
  drun [spaceSeparatedList0, ws_run, ignoreEolComment_run]

theorem spaceSeparatedList1_run (p : P α) : (spaceSeparatedList1 p).run = Pddl.spaceSeparatedList1 p.run := by
  drun [spaceSeparatedList1, ws_run, ignoreEolComment_run]

theorem parens_run (p : P α) : (parens p).run = Pddl.parens p.run := by
  drun [parens, ignoreEolComment_run, ws_run]

theorem emptyOr_run (p : P α) : (emptyOr p).run = Pddl.emptyOr p.run := by
  drun [emptyOr]

theorem parseAnyChar_run : parseAnyChar.run = Pddl.parseAnyChar := by
  drun [parseAnyChar]

theorem parseName_run : parseName.run = Pddl.parseName := by
  drun [parseName, ws_run, parseAnyChar_run]

theorem parseVariable_run : parseVariable.run = Pddl.parseVariable := by
  drun [parseVariable, parseName_run]

theorem parsePredicate_run : parsePredicate.run = Pddl.parsePredicate := by
  drun [parsePredicate, parseName_run]

theorem parseFunctionSymbol_run : parseFunctionSymbol.run = Pddl.parseFunctionSymbol := by
  drun [parseFunctionSymbol, parseName_run]

theorem parseActionSymbol_run : parseActionSymbol.run = Pddl.parseActionSymbol := by
  drun [parseActionSymbol, parseName_run]

theorem parseDaSymbol_run : parseDaSymbol.run = Pddl.parseDaSymbol := by
  drun [parseDaSymbol, parseName_run]

theorem parsePrefName_run : parsePrefName.run = Pddl.parsePrefName := by
  drun [parsePrefName, parseName_run]

theorem parseDecimal_run : parseDecimal.run = Pddl.parseDecimal := by
  drun [parseDecimal]

theorem parseNumber_run : parseNumber.run = Pddl.parseNumber := by
  drun [parseNumber, parseDecimal_run]

theorem parseObject_run : parseObject.run = Pddl.parseObject := by
  drun [parseObject]

theorem parsePrimitiveType_run : parsePrimitiveType.run = Pddl.parsePrimitiveType := by
  drun [parsePrimitiveType, parseObject_run, parseName_run]

theorem parseEitherType_run : parseEitherType.run = Pddl.parseEitherType := by
  drun [parseEitherType, prefixExpr_run, spaceSeparatedList1_run, parsePrimitiveType_run]

theorem parseType_run : parseType.run = Pddl.parseType := by
  drun [parseType, parsePrimitiveType_run, parseEitherType_run]

theorem parseFunctionType_run : parseFunctionType.run = Pddl.parseFunctionType := by
  drun [parseFunctionType, parseType_run]

theorem explicitlyTyped_run (inner : P α) : (explicitlyTyped inner).run = Pddl.explicitlyTyped inner.run := by
  drun [explicitlyTyped, spaceSeparatedList1_run, ws_run, parseType_run]

theorem typedList_run (inner : P α) : (typedList inner).run = Pddl.typedList inner.run := by
  drun [typedList, explicitlyTyped_run, spaceSeparatedList0_run]

theorem functionTypedList_run (inner : P α) : (functionTypedList inner).run = Pddl.functionTypedList inner.run := by
  drun [functionTypedList, explicitlyTyped_run, spaceSeparatedList0_run]

theorem functionTermOf_run (self : P Term) : (functionTermOf self).run = Pddl.functionTermOf self.run := by
  drun [functionTermOf, parseFunctionSymbol_run, spaceSeparatedList0_run]

theorem termBody_run (self : P Term) : (termBody self).run = Pddl.termBody self.run := by
  drun [termBody, parseVariable_run, parseName_run, functionTermOf_run]

theorem parseTerm_run : parseTerm.run = Pddl.parseTerm := fix_run termBody_run

theorem parseFunctionTerm_run : parseFunctionTerm.run = Pddl.parseFunctionTerm := by
  drun [parseFunctionTerm, functionTermOf_run, parseTerm_run]

theorem atomicFormula_run (inner : P α) : (atomicFormula inner).run = Pddl.atomicFormula inner.run := by
  drun [atomicFormula, ws_run, parens_run, parsePredicate_run, spaceSeparatedList0_run]

theorem literal_run (inner : P α) : (literal inner).run = Pddl.literal inner.run := by
  drun [literal, prefixExpr_run, atomicFormula_run]

theorem parseAtomicFormulaSkeleton_run : parseAtomicFormulaSkeleton.run = Pddl.parseAtomicFormulaSkeleton := by
  drun [parseAtomicFormulaSkeleton, parens_run, parsePredicate_run, ws_run, typedList_run, parseVariable_run]

theorem parseAtomicFunctionSkeleton_run : parseAtomicFunctionSkeleton.run = Pddl.parseAtomicFunctionSkeleton := by
  drun [parseAtomicFunctionSkeleton, parens_run, parseFunctionSymbol_run, ws_run, typedList_run, parseVariable_run]

theorem parseBasicFunctionTerm_run : parseBasicFunctionTerm.run = Pddl.parseBasicFunctionTerm := by
  drun [parseBasicFunctionTerm, parseFunctionSymbol_run, parens_run, ws_run, spaceSeparatedList0_run, parseName_run]

theorem parseFHead_run : parseFHead.run = Pddl.parseFHead := by
  drun [parseFHead, parseFunctionSymbol_run, parens_run, spaceSeparatedList0_run, parseTerm_run]

theorem parseMultiOp_run : parseMultiOp.run = Pddl.parseMultiOp := by
  drun [parseMultiOp]

theorem parseBinaryOp_run : parseBinaryOp.run = Pddl.parseBinaryOp := by
  drun [parseBinaryOp]

theorem parseBinaryComp_run : parseBinaryComp.run = Pddl.parseBinaryComp := by
  drun [parseBinaryComp]

theorem parseAssignOp_run : parseAssignOp.run = Pddl.parseAssignOp := by
  drun [parseAssignOp]

theorem parseAssignOpT_run : parseAssignOpT.run = Pddl.parseAssignOpT := by
  drun [parseAssignOpT]

theorem parseDOp_run : parseDOp.run = Pddl.parseDOp := by
  drun [parseDOp]

theorem parseOptimization_run : parseOptimization.run = Pddl.parseOptimization := by
  drun [parseOptimization]

theorem parseTimeSpecifier_run : parseTimeSpecifier.run = Pddl.parseTimeSpecifier := by
  drun [parseTimeSpecifier]

theorem parseInterval_run : parseInterval.run = Pddl.parseInterval := by
  drun [parseInterval]

theorem fExpBody_run (self : P FExp) : (fExpBody self).run = Pddl.fExpBody self.run := by
  drun [fExpBody, parseNumber_run, parens_run, parseBinaryOp_run, parseMultiOp_run, spaceSeparatedList1_run, parseFHead_run]

theorem parseFExp_run : parseFExp.run = Pddl.parseFExp := fix_run fExpBody_run

theorem parseFComp_run : parseFComp.run = Pddl.parseFComp := by
  drun [parseFComp, parens_run, parseBinaryComp_run, parseFExp_run]

theorem parseVarList_run : parseVarList.run = Pddl.parseVarList := by
  drun [parseVarList, parens_run, typedList_run, parseVariable_run]

theorem gdBody_run (self : P GD) : (gdBody self).run = Pddl.gdBody self.run := by
  drun [gdBody, prefixExpr_run, spaceSeparatedList0_run, parseVarList_run, atomicFormula_run, parseTerm_run, literal_run, parseFComp_run]

theorem parseGd_run : parseGd.run = Pddl.parseGd := fix_run gdBody_run

theorem parsePrefGd_run : parsePrefGd.run = Pddl.parsePrefGd := by
  drun [parsePrefGd, prefixExpr_run, parsePrefName_run, parseGd_run]

theorem preGdBody_run (self : P (List PreGD)) : (preGdBody self).run = Pddl.preGdBody self.run := by
  drun [preGdBody, prefixExpr_run, parseVarList_run, spaceSeparatedList0_run, parsePrefGd_run]

theorem parsePreGd_run : parsePreGd.run = Pddl.parsePreGd := fix_run preGdBody_run

theorem parseProblemGoalDef_run : parseProblemGoalDef.run = Pddl.parseProblemGoalDef := by
  drun [parseProblemGoalDef, prefixExpr_run, parsePreGd_run]

theorem con2Of_run (self : P ConGD) : (con2Of self).run = Pddl.con2Of self.run := by
  drun [con2Of, parseGd_run]

theorem conGdBody_run (self : P ConGD) : (conGdBody self).run = Pddl.conGdBody self.run := by
  drun [conGdBody, prefixExpr_run, spaceSeparatedList0_run, parseVarList_run, parseGd_run, con2Of_run, parseNumber_run]

theorem parseConGd_run : parseConGd.run = Pddl.parseConGd := fix_run conGdBody_run

theorem parseCon2Gd_run : parseCon2Gd.run = Pddl.parseCon2Gd := by
  drun [parseCon2Gd, con2Of_run, parseConGd_run]

theorem prefConGdBody_run (self : P (List PrefConGD)) : (prefConGdBody self).run = Pddl.prefConGdBody self.run := by
  drun [prefConGdBody, prefixExpr_run, spaceSeparatedList0_run, parseVarList_run, parsePrefName_run, parseConGd_run]

theorem parsePrefConGd_run : parsePrefConGd.run = Pddl.parsePrefConGd := fix_run prefConGdBody_run

theorem parseDomainConstraintsDef_run : parseDomainConstraintsDef.run = Pddl.parseDomainConstraintsDef := by
  drun [parseDomainConstraintsDef, prefixExpr_run, parseConGd_run]

theorem parseProblemConstraintsDef_run : parseProblemConstraintsDef.run = Pddl.parseProblemConstraintsDef := by
  drun [parseProblemConstraintsDef, prefixExpr_run, parsePrefConGd_run]

theorem parsePEffect_run : parsePEffect.run = Pddl.parsePEffect := by
  drun [parsePEffect, prefixExpr_run, atomicFormula_run, parseTerm_run, parseFunctionTerm_run, parens_run, parseAssignOp_run, parseFHead_run, parseFExp_run]

theorem parseCondEffect_run : parseCondEffect.run = Pddl.parseCondEffect := by
  drun [parseCondEffect, prefixExpr_run, spaceSeparatedList0_run, parsePEffect_run]

theorem effectOf_run (self : P CEffect) : (effectOf self).run = Pddl.effectOf self.run := by
  drun [effectOf, prefixExpr_run, spaceSeparatedList0_run]

theorem forallCEffectOf_run (self : P CEffect) : (forallCEffectOf self).run = Pddl.forallCEffectOf self.run := by
  drun [forallCEffectOf, prefixExpr_run, parseVarList_run, effectOf_run]

theorem parseWhenCEffect_run : parseWhenCEffect.run = Pddl.parseWhenCEffect := by
  drun [parseWhenCEffect, prefixExpr_run, parseGd_run, parseCondEffect_run]

theorem cEffectBody_run (self : P CEffect) : (cEffectBody self).run = Pddl.cEffectBody self.run := by
  drun [cEffectBody, forallCEffectOf_run, parseWhenCEffect_run, parsePEffect_run]

theorem parseCEffect_run : parseCEffect.run = Pddl.parseCEffect := fix_run cEffectBody_run

theorem parseEffect_run : parseEffect.run = Pddl.parseEffect := by
  drun [parseEffect, effectOf_run, parseCEffect_run]

theorem parseForallCEffect_run : parseForallCEffect.run = Pddl.parseForallCEffect := by
  drun [parseForallCEffect, forallCEffectOf_run, parseCEffect_run]

theorem parseParameters_run : parseParameters.run = Pddl.parseParameters := by
  drun [parseParameters, parseVarList_run]

theorem parseActionDef_run : parseActionDef.run = Pddl.parseActionDef := by
  drun [parseActionDef, prefixExpr_run, parseActionSymbol_run, parseParameters_run, ws_run, emptyOr_run, parsePreGd_run, parseEffect_run]

theorem parseDerivedPredicate_run : parseDerivedPredicate.run = Pddl.parseDerivedPredicate := by
  drun [parseDerivedPredicate, prefixExpr_run, parseAtomicFormulaSkeleton_run, parseGd_run]

theorem parseTimedGd_run : parseTimedGd.run = Pddl.parseTimedGd := by
  drun [parseTimedGd, prefixExpr_run, parseTimeSpecifier_run, parseGd_run, parseInterval_run]

theorem parsePrefTimedGd_run : parsePrefTimedGd.run = Pddl.parsePrefTimedGd := by
  drun [parsePrefTimedGd, prefixExpr_run, parsePrefName_run, parseTimedGd_run]

theorem daGdBody_run (self : P DaGD) : (daGdBody self).run = Pddl.daGdBody self.run := by
  drun [daGdBody, prefixExpr_run, parseVarList_run, spaceSeparatedList0_run, parsePrefTimedGd_run]

theorem parseDaGd_run : parseDaGd.run = Pddl.parseDaGd := fix_run daGdBody_run

theorem fExpDaBody_run (self : P FExpDa) : (fExpDaBody self).run = Pddl.fExpDaBody self.run := by
  drun [fExpDaBody, parens_run, parseBinaryOp_run, parseMultiOp_run, spaceSeparatedList1_run, parseFExp_run]

theorem parseFExpDa_run : parseFExpDa.run = Pddl.parseFExpDa := fix_run fExpDaBody_run

theorem parseFAssignDa_run : parseFAssignDa.run = Pddl.parseFAssignDa := by
  drun [parseFAssignDa, parens_run, parseAssignOp_run, parseFHead_run, parseFExpDa_run]

theorem parseFExpT_run : parseFExpT.run = Pddl.parseFExpT := by
  drun [parseFExpT, prefixExpr_run, parseFExp_run]

theorem parseTimedEffect_run : parseTimedEffect.run = Pddl.parseTimedEffect := by
  drun [parseTimedEffect, prefixExpr_run, parseTimeSpecifier_run, parseFAssignDa_run, parseCondEffect_run, parens_run, parseAssignOpT_run, parseFHead_run, parseFExpT_run]

theorem daEffectBody_run (self : P DaEffect) : (daEffectBody self).run = Pddl.daEffectBody self.run := by
  drun [daEffectBody, prefixExpr_run, spaceSeparatedList0_run, parseVarList_run, parseDaGd_run, parseTimedEffect_run]

theorem parseDaEffect_run : parseDaEffect.run = Pddl.parseDaEffect := fix_run daEffectBody_run

theorem parseDValue_run : parseDValue.run = Pddl.parseDValue := by
  drun [parseDValue, parseNumber_run, parseFExp_run]

theorem simpleDurationBody_run (self : P SimpleDuration) : (simpleDurationBody self).run = Pddl.simpleDurationBody self.run := by
  drun [simpleDurationBody, parens_run, parseDOp_run, parseDValue_run, prefixExpr_run, parseTimeSpecifier_run]

theorem parseSimpleDuration_run : parseSimpleDuration.run = Pddl.parseSimpleDuration := fix_run simpleDurationBody_run

theorem parseDurationConstraint_run : parseDurationConstraint.run = Pddl.parseDurationConstraint := by
  drun [parseDurationConstraint, parseSimpleDuration_run, prefixExpr_run, spaceSeparatedList1_run]

theorem parseDaDef_run : parseDaDef.run = Pddl.parseDaDef := by
  drun [parseDaDef, prefixExpr_run, parseDaSymbol_run, parseParameters_run, parseDurationConstraint_run, emptyOr_run, parseDaGd_run, parseDaEffect_run]

theorem parseStructureDef_run : parseStructureDef.run = Pddl.parseStructureDef := by
  drun [parseStructureDef, parseDerivedPredicate_run, parseActionDef_run, parseDaDef_run]

theorem parseRequireKey_run : parseRequireKey.run = Pddl.parseRequireKey := by
  have h : (requireTags.map tag).map P.run = requireTags.map Pddl.tag := by rw [List.map_map]; rfl
  rw [parseRequireKey, mapExpect_run, alt_run, h]
  rfl

theorem parseRequireDef_run : parseRequireDef.run = Pddl.parseRequireDef := by
  drun [parseRequireDef, prefixExpr_run, spaceSeparatedList1_run, parseRequireKey_run]

theorem parseTypesDef_run : parseTypesDef.run = Pddl.parseTypesDef := by
  drun [parseTypesDef, prefixExpr_run, typedList_run, parseName_run]

theorem parseConstantsDef_run : parseConstantsDef.run = Pddl.parseConstantsDef := by
  drun [parseConstantsDef, prefixExpr_run, typedList_run, parseName_run]

theorem parseProblemObjectsDeclaration_run : parseProblemObjectsDeclaration.run = Pddl.parseProblemObjectsDeclaration := by
  drun [parseProblemObjectsDeclaration, prefixExpr_run, typedList_run, parseName_run]

theorem parsePredicatesDef_run : parsePredicatesDef.run = Pddl.parsePredicatesDef := by
  drun [parsePredicatesDef, prefixExpr_run, spaceSeparatedList1_run, parseAtomicFormulaSkeleton_run]

theorem parseFunctionsDef_run : parseFunctionsDef.run = Pddl.parseFunctionsDef := by
  drun [parseFunctionsDef, prefixExpr_run, functionTypedList_run, parseAtomicFunctionSkeleton_run]

theorem parseTimelessDef_run : parseTimelessDef.run = Pddl.parseTimelessDef := by
  drun [parseTimelessDef, prefixExpr_run, spaceSeparatedList1_run, literal_run, parseName_run]

theorem parseInitEl_run : parseInitEl.run = Pddl.parseInitEl := by
  drun [parseInitEl, literal_run, parseName_run, prefixExpr_run, parseNumber_run, parseBasicFunctionTerm_run]

theorem parseProblemInitDef_run : parseProblemInitDef.run = Pddl.parseProblemInitDef := by
  drun [parseProblemInitDef, prefixExpr_run, spaceSeparatedList0_run, parseInitEl_run]

theorem parseProblemLengthSpec_run : parseProblemLengthSpec.run = Pddl.parseProblemLengthSpec := by
  drun [parseProblemLengthSpec, prefixExpr_run]

theorem metricFExpBody_run (self : P MetricFExp) : (metricFExpBody self).run = Pddl.metricFExpBody self.run := by
  drun [metricFExpBody, parseNumber_run, parens_run, parseBinaryOp_run, parseMultiOp_run, spaceSeparatedList1_run, prefixExpr_run, parsePrefName_run, parseFunctionSymbol_run, ws_run, spaceSeparatedList0_run, parseName_run]

theorem parseMetricFExp_run : parseMetricFExp.run = Pddl.parseMetricFExp := fix_run metricFExpBody_run

theorem parseProblemMetricSpec_run : parseProblemMetricSpec.run = Pddl.parseProblemMetricSpec := by
  drun [parseProblemMetricSpec, prefixExpr_run, parseOptimization_run, parseMetricFExp_run]

theorem domainParts_run : domainParts.run = Pddl.domainParts := by
  drun [domainParts, prefixExpr_run, parseName_run, spaceSeparatedList1_run, parseRequireDef_run, parseTypesDef_run, parseConstantsDef_run, parsePredicatesDef_run, parseFunctionsDef_run, parseDomainConstraintsDef_run, parseStructureDef_run]

theorem parseDomain_run : parseDomain.run = Pddl.parseDomain := by
  drun [parseDomain, ws2_run, prefixExpr_run, domainParts_run]

theorem problemParts_run : problemParts.run = Pddl.problemParts := by
  drun [problemParts, prefixExpr_run, parseName_run, parseRequireDef_run, parseProblemObjectsDeclaration_run, parseProblemInitDef_run, parseProblemGoalDef_run, parseProblemConstraintsDef_run, parseProblemMetricSpec_run, parseProblemLengthSpec_run]

theorem parseProblem_run : parseProblem.run = Pddl.parseProblem := by
  drun [parseProblem, ws2_run, prefixExpr_run, problemParts_run]

end Pddl.D
