import Verif.Meta.NumParse
import Verif.Meta.Tactic

/-!
# Meta-theory 4: `Good` for every parser
-/

namespace Pddl

/-- Structural proof of a `Good` goal. -/
macro "good" : tactic => `(tactic| comb)

theorem ignoreEolCommentBody_good (L) (p q : P Unit) (h : Good 0 L p q) :
    Good 0 (L + 1) (ignoreEolCommentBody p) (ignoreEolCommentBody q) := by
  unfold ignoreEolCommentBody
  good
  exact h.weaken (by omega)

theorem ignoreEolComment_good : Good 0 L ignoreEolComment ignoreEolComment :=
  Good.fix ignoreEolCommentBody_good

namespace Good
theorem ws {p q : P α} (h : Good k L p q) : Good (0 + 0 + k) L (ws p) (ws q) :=
  preceded (preceded multispace0 ignoreEolComment_good) (h.weaken (by omega))

theorem ws2 {p q : P α} (h : Good k L p q) : Good (0 + 0 + (k + (0 + 0))) L (ws2 p) (ws2 q) :=
  delimited (preceded multispace0 ignoreEolComment_good) (h.weaken (by omega))
    (preceded multispace0 ignoreEolComment_good)

theorem prefixExpr (t : List Char) {p q : P α} (h : Good k (L - (1 + t.length)) p q) :
    Good (2 + t.length + k) L (prefixExpr t p) (prefixExpr t q) := by
  have h1 : Good (1 + t.length) L (Pddl.preceded (Pddl.ws (Pddl.tag c!"(")) (Pddl.tag t))
      (Pddl.preceded (Pddl.ws (Pddl.tag c!"(")) (Pddl.tag t)) :=
    (preceded (ws (tag _)) (tag _)).mono (by simp)
  refine (delimited h1 (ws h) (ws (tag _))).mono ?_
  simp; omega

theorem parens {p q : P α} (h : Good k (L - 1) p q) :
    Good (2 + k) L (parens p) (parens q) := by
  refine (preceded ignoreEolComment_good (delimited (char '(') (ws (h.weaken ?_)) (char ')'))).mono ?_
  · omega
  · omega

theorem spaceSeparatedList0 {p q : P α} (h : Good k L p q) :
    Good 0 L (spaceSeparatedList0 p) (spaceSeparatedList0 q) :=
  (ws (sepList0 (preceded ignoreEolComment_good (h.weaken (by omega))) multispace1)).mono (by omega)

theorem spaceSeparatedList1 {p q : P α} (h : Good k L p q) :
    Good k L (spaceSeparatedList1 p) (spaceSeparatedList1 q) :=
  (ws (sepList1 (preceded ignoreEolComment_good (h.weaken (by omega))) multispace1)).mono (by omega)

theorem emptyOr {p q : P α} (h : Good k L p q) :
    Good (min 2 k) L (emptyOr p) (emptyOr q) :=
  alt_cons ((tag c!"()").map _) (alt_one (h.map _))
end Good


theorem parseAnyChar_good : Good 1 L parseAnyChar parseAnyChar := by
  refine Good.mono (by unfold parseAnyChar; good) ?_
  decide

theorem parseName_good : Good 1 L parseName parseName := by
  refine Good.mono (by unfold parseName; good) ?_
  decide

theorem parsePredicate_good : Good 1 L parsePredicate parsePredicate := parseName_good
theorem parseFunctionSymbol_good : Good 1 L parseFunctionSymbol parseFunctionSymbol := parseName_good
theorem parseActionSymbol_good : Good 1 L parseActionSymbol parseActionSymbol := parseName_good
theorem parseDaSymbol_good : Good 1 L parseDaSymbol parseDaSymbol := parseName_good
theorem parsePrefName_good : Good 1 L parsePrefName parsePrefName := parseName_good
theorem parseVariable_good : Good 2 L parseVariable parseVariable := by
  refine Good.mono (by unfold parseVariable; good) ?_
  decide
theorem parseObject_good : Good 1 L parseObject parseObject := by
  refine Good.mono (by unfold parseObject; good) ?_
  decide

theorem parsePrimitiveType_good : Good 1 L parsePrimitiveType parsePrimitiveType := by
  refine Good.mono (by unfold parsePrimitiveType; good) ?_
  decide

theorem parseEitherType_good : Good 1 L parseEitherType parseEitherType := by
  refine Good.mono (by unfold parseEitherType; good) ?_
  decide

theorem parseType_good : Good 1 L parseType parseType := by
  refine Good.mono (by unfold parseType; exact Good.ifOk _ (by good) (Good.ifOk _ (by good) (Good.fail (k := 1)))) ?_
  decide

theorem parseFunctionType_good : Good 1 L parseFunctionType parseFunctionType := parseType_good

theorem Good.explicitlyTyped {p q : P α} (h : Good k L p q) :
    Good k L (explicitlyTyped p) (explicitlyTyped q) := by
  refine Good.mono (by unfold Pddl.explicitlyTyped; good; exact h) ?_
  omega

theorem Good.typedList {p q : P α} (h : Good k L p q) :
    Good 0 L (typedList p) (typedList q) := by
  refine Good.mono (Good.map _ (Good.pair (Good.map _ (Good.many0 (Good.explicitlyTyped h)))
    (Good.spaceSeparatedList0 (Good.map _ (h.weaken (Nat.sub_le _ _)))))) ?_
  omega

theorem Good.functionTypedList {p q : P α} (h : Good k L p q) :
    Good 0 L (functionTypedList p) (functionTypedList q) := by
  refine Good.mono (Good.map _ (Good.pair (Good.map _ (Good.many0 (Good.explicitlyTyped h)))
    (Good.spaceSeparatedList0 (Good.map _ (h.weaken (Nat.sub_le _ _)))))) ?_
  omega


theorem Good.functionTermOf {p q : P Term} (h : Good k (L - 1) p q) :
    Good 3 L (functionTermOf p) (functionTermOf q) := by
  refine Good.mono (by unfold Pddl.functionTermOf; good; exact h.weaken (by simp)) ?_
  simp

theorem termBody_good (L) (p q : P Term) (h : Good 1 L p q) :
    Good 1 (L + 1) (termBody p) (termBody q) := by
  unfold termBody
  refine Good.mono (Good.ifOk _ (by good) (Good.ifOk _ (by good)
    (Good.ifOk _ (Good.functionTermOf (h.weaken (by omega))) (Good.err (k := 1))))) ?_
  decide

theorem parseTerm_good : Good 1 L parseTerm parseTerm := Good.fix termBody_good
theorem parseFunctionTerm_good : Good 3 L parseFunctionTerm parseFunctionTerm :=
  Good.functionTermOf parseTerm_good

theorem Good.atomicFormula {p q : P α} (h : Good k (L - 1) p q) :
    Good 3 L (atomicFormula p) (atomicFormula q) := by
  refine Good.mono (by
    unfold Pddl.atomicFormula; good
    · exact h.weaken (by simp; omega)
    · exact h.weaken (by simp; omega)
    · exact h.weaken (by omega)) ?_
  simp; omega

theorem Good.literal {p q : P α} (h : Good k (L - 1) p q) :
    Good 3 L (literal p) (literal q) := by
  refine Good.mono (Good.alt_cons (Good.map _ (Good.prefixExpr _
    (Good.atomicFormula (h.weaken ?_)))) (Good.alt_one (Good.map _ (Good.atomicFormula h)))) ?_
  · simp; omega
  · simp

theorem parseAtomicFormulaSkeleton_good :
    Good 3 L parseAtomicFormulaSkeleton parseAtomicFormulaSkeleton := by
  refine Good.mono (by unfold parseAtomicFormulaSkeleton; good) ?_
  decide
theorem parseAtomicFunctionSkeleton_good :
    Good 3 L parseAtomicFunctionSkeleton parseAtomicFunctionSkeleton := by
  refine Good.mono (by unfold parseAtomicFunctionSkeleton; good) ?_
  decide
theorem parseBasicFunctionTerm_good : Good 1 L parseBasicFunctionTerm parseBasicFunctionTerm := by
  refine Good.mono (by unfold parseBasicFunctionTerm; good) ?_
  decide
theorem parseFHead_good : Good 1 L parseFHead parseFHead := by
  refine Good.mono (by unfold parseFHead; good) ?_
  decide

/-- The tag that an `alt` of tags returns is one of them. -/
theorem alt_tags_mem (ts : List (List Char)) (s a r) (h : alt (ts.map tag) s = .ok a r) : a ∈ ts := by
  induction ts with
  | nil => simp [alt] at h
  | cons t ts ih =>
    simp only [List.map_cons, alt, tag] at h
    cases hp : stripPrefix t s with
    | none => rw [hp] at h; exact List.mem_cons_of_mem _ (ih h)
    | some x => rw [hp] at h; simp at h; simp [h.1]

theorem Good.alt_tags (t : List Char) (ts : List (List Char)) (h : ∀ u ∈ t :: ts, k ≤ u.length) :
    Good k L (alt ((t :: ts).map Pddl.tag)) (alt ((t :: ts).map Pddl.tag)) := by
  induction ts generalizing t with
  | nil => exact (Good.alt_one (Good.tag t)).mono (h t (by simp))
  | cons u ts ih =>
    refine (Good.alt_cons ((Good.tag t).mono (h t (by simp)))
      (ih u fun v hv => h v (List.mem_cons_of_mem _ hv))).mono ?_
    simp

/-- Operator parsers: an `alt` of tags, then a conversion that is total on those tags. -/
theorem Good.ops (f : List Char → Option β) (t : List Char) (ts : List (List Char))
    (h : ∀ u ∈ t :: ts, 1 ≤ u.length ∧ (f u).isSome) :
    Good 1 L (Pddl.mapExpect f (alt ((t :: ts).map Pddl.tag)))
      (Pddl.mapExpect f (alt ((t :: ts).map Pddl.tag))) :=
  Good.mapExpect f (Good.alt_tags t ts fun u hu => (h u hu).1)
    fun s a r hs => (h a (alt_tags_mem _ s a r hs)).2

theorem parseMultiOp_good : Good 1 L parseMultiOp parseMultiOp :=
  Good.ops MultiOp.tryFrom c!"*" [c!"+"] (by decide)
theorem parseBinaryOp_good : Good 1 L parseBinaryOp parseBinaryOp :=
  Good.ops BinaryOp.tryFrom c!"*" [c!"+", c!"-", c!"/"] (by decide)
theorem parseBinaryComp_good : Good 1 L parseBinaryComp parseBinaryComp :=
  Good.ops BinaryComp.tryFrom c!">=" [c!"<=", c!"=", c!">", c!"<"] (by decide)
theorem parseAssignOp_good : Good 1 L parseAssignOp parseAssignOp :=
  Good.ops AssignOp.tryFrom c!"change" [c!"assign", c!"scale-up", c!"scale-down", c!"increase",
    c!"decrease"] (by decide)
theorem parseAssignOpT_good : Good 1 L parseAssignOpT parseAssignOpT :=
  Good.ops AssignOpT.tryFrom c!"increase" [c!"decrease"] (by decide)
theorem parseDOp_good : Good 1 L parseDOp parseDOp :=
  Good.ops DOp.tryFrom c!"<=" [c!">=", c!"="] (by decide)
theorem parseOptimization_good : Good 1 L parseOptimization parseOptimization :=
  Good.ops Optimization.tryFrom c!"minimize" [c!"maximize"] (by decide)
theorem parseTimeSpecifier_good : Good 1 L parseTimeSpecifier parseTimeSpecifier :=
  Good.ops TimeSpecifier.tryFrom c!"start" [c!"end"] (by decide)
theorem parseRequireKey_good : Good 1 L parseRequireKey parseRequireKey :=
  Good.ops Requirement.tryFrom c!":strips" requireTags.tail (by decide)
theorem parseInterval_good : Good 1 L parseInterval parseInterval := by
  refine Good.mapExpect _ ((Good.tag _).mono (by decide)) ?_
  intro s a r h
  have := alt_tags_mem [c!"all"] s a r (by simp [alt, h])
  simp at this; subst this; decide

/-- Closes the recursive-call goals of a body. -/
macro "good_rec" h:term : tactic =>
  `(tactic| (good <;> exact Good.weaken $h (by simp <;> omega)))

theorem fExpBody_good (L) (p q : P FExp) (h : Good 1 L p q) :
    Good 1 (L + 1) (fExpBody p) (fExpBody q) := by
  refine Good.mono (by unfold fExpBody; good_rec h) ?_
  decide
theorem parseFExp_good : Good 1 L parseFExp parseFExp := Good.fix fExpBody_good

theorem parseFComp_good : Good 3 L parseFComp parseFComp := by
  refine Good.mono (by unfold parseFComp; good) ?_
  decide
theorem parseVarList_good : Good 2 L parseVarList parseVarList := by
  refine Good.mono (by unfold parseVarList; good) ?_
  decide

theorem gdBody_good (L) (p q : P GD) (h : Good 1 L p q) :
    Good 1 (L + 1) (gdBody p) (gdBody q) := by
  refine Good.mono (by unfold gdBody; good_rec h) ?_
  decide
theorem parseGd_good : Good 1 L parseGd parseGd := Good.fix gdBody_good

theorem parsePrefGd_good : Good 1 L parsePrefGd parsePrefGd := by
  refine Good.mono (by unfold parsePrefGd; good) ?_
  decide

theorem preGdBody_good (L) (p q : P (List PreGD)) (h : Good 1 L p q) :
    Good 1 (L + 1) (preGdBody p) (preGdBody q) := by
  refine Good.mono (by unfold preGdBody; good_rec h) ?_
  decide
theorem parsePreGd_good : Good 1 L parsePreGd parsePreGd := Good.fix preGdBody_good

theorem parseProblemGoalDef_good : Good 1 L parseProblemGoalDef parseProblemGoalDef := by
  refine Good.mono (by unfold parseProblemGoalDef; good) ?_
  decide

theorem Good.con2Of {p q : P ConGD} (h : Good 1 L p q) : Good 1 L (con2Of p) (con2Of q) := by
  refine Good.mono (by unfold Pddl.con2Of; good; exact h) ?_
  decide

theorem conGdBody_good (L) (p q : P ConGD) (h : Good 1 L p q) :
    Good 1 (L + 1) (conGdBody p) (conGdBody q) := by
  refine Good.mono (by unfold conGdBody; good_rec h) ?_
  decide
theorem parseConGd_good : Good 1 L parseConGd parseConGd := Good.fix conGdBody_good
theorem parseCon2Gd_good : Good 1 L parseCon2Gd parseCon2Gd := Good.con2Of parseConGd_good

theorem prefConGdBody_good (L) (p q : P (List PrefConGD)) (h : Good 1 L p q) :
    Good 1 (L + 1) (prefConGdBody p) (prefConGdBody q) := by
  refine Good.mono (by unfold prefConGdBody; good_rec h) ?_
  decide
theorem parsePrefConGd_good : Good 1 L parsePrefConGd parsePrefConGd := Good.fix prefConGdBody_good

theorem parseDomainConstraintsDef_good :
    Good 1 L parseDomainConstraintsDef parseDomainConstraintsDef := by
  refine Good.mono (by unfold parseDomainConstraintsDef; good) ?_
  decide
theorem parseProblemConstraintsDef_good :
    Good 1 L parseProblemConstraintsDef parseProblemConstraintsDef := by
  refine Good.mono (by unfold parseProblemConstraintsDef; good) ?_
  decide

theorem parsePEffect_good : Good 1 L parsePEffect parsePEffect := by
  refine Good.mono (by unfold parsePEffect; good) ?_
  decide

theorem parseCondEffect_good : Good 1 L parseCondEffect parseCondEffect := by
  refine Good.mono (by unfold parseCondEffect; good) ?_
  decide

theorem Good.effectOf {p q : P CEffect} (h : Good 1 L p q) : Good 1 L (effectOf p) (effectOf q) := by
  refine Good.mono (by unfold Pddl.effectOf; good_rec h) ?_
  decide

theorem Good.forallCEffectOf {p q : P CEffect} (h : Good 1 (L - 1) p q) :
    Good 1 L (forallCEffectOf p) (forallCEffectOf q) := by
  refine Good.mono (by unfold Pddl.forallCEffectOf; good_rec h) ?_
  decide
theorem parseWhenCEffect_good : Good 1 L parseWhenCEffect parseWhenCEffect := by
  refine Good.mono (by unfold parseWhenCEffect; good) ?_
  decide

theorem cEffectBody_good (L) (p q : P CEffect) (h : Good 1 L p q) :
    Good 1 (L + 1) (cEffectBody p) (cEffectBody q) := by
  refine Good.mono (by unfold cEffectBody; good_rec h) ?_
  decide
theorem parseCEffect_good : Good 1 L parseCEffect parseCEffect := Good.fix cEffectBody_good
theorem parseEffect_good : Good 1 L parseEffect parseEffect := Good.effectOf parseCEffect_good
theorem parseForallCEffect_good : Good 1 L parseForallCEffect parseForallCEffect :=
  Good.forallCEffectOf parseCEffect_good

theorem parseParameters_good : Good 1 L parseParameters parseParameters := by
  refine Good.mono (by unfold parseParameters; good) ?_
  decide

theorem parseActionDef_good : Good 1 L parseActionDef parseActionDef := by
  refine Good.mono (by unfold parseActionDef; good) ?_
  decide
theorem parseDerivedPredicate_good : Good 1 L parseDerivedPredicate parseDerivedPredicate := by
  refine Good.mono (by unfold parseDerivedPredicate; good) ?_
  decide
theorem parseTimedGd_good : Good 1 L parseTimedGd parseTimedGd := by
  refine Good.mono (by unfold parseTimedGd; good) ?_
  decide
theorem parsePrefTimedGd_good : Good 1 L parsePrefTimedGd parsePrefTimedGd := by
  refine Good.mono (by unfold parsePrefTimedGd; good) ?_
  decide

theorem daGdBody_good (L) (p q : P DaGD) (h : Good 1 L p q) :
    Good 1 (L + 1) (daGdBody p) (daGdBody q) := by
  refine Good.mono (by unfold daGdBody; good_rec h) ?_
  decide
theorem parseDaGd_good : Good 1 L parseDaGd parseDaGd := Good.fix daGdBody_good

theorem fExpDaBody_good (L) (p q : P FExpDa) (h : Good 1 L p q) :
    Good 1 (L + 1) (fExpDaBody p) (fExpDaBody q) := by
  refine Good.mono (by unfold fExpDaBody; good_rec h) ?_
  decide
theorem parseFExpDa_good : Good 1 L parseFExpDa parseFExpDa := Good.fix fExpDaBody_good

theorem parseFAssignDa_good : Good 1 L parseFAssignDa parseFAssignDa := by
  refine Good.mono (by unfold parseFAssignDa; good) ?_
  decide
theorem parseFExpT_good : Good 1 L parseFExpT parseFExpT := by
  refine Good.mono (by unfold parseFExpT; good) ?_
  decide
theorem parseTimedEffect_good : Good 1 L parseTimedEffect parseTimedEffect := by
  refine Good.mono (by unfold parseTimedEffect; good) ?_
  decide

theorem daEffectBody_good (L) (p q : P DaEffect) (h : Good 1 L p q) :
    Good 1 (L + 1) (daEffectBody p) (daEffectBody q) := by
  refine Good.mono (by unfold daEffectBody; good_rec h) ?_
  decide
theorem parseDaEffect_good : Good 1 L parseDaEffect parseDaEffect := Good.fix daEffectBody_good
theorem parseDValue_good : Good 1 L parseDValue parseDValue := by
  refine Good.mono (by unfold parseDValue; good) ?_
  decide

theorem simpleDurationBody_good (L) (p q : P SimpleDuration) (h : Good 1 L p q) :
    Good 1 (L + 1) (simpleDurationBody p) (simpleDurationBody q) := by
  refine Good.mono (by unfold simpleDurationBody; good_rec h) ?_
  decide
theorem parseSimpleDuration_good : Good 1 L parseSimpleDuration parseSimpleDuration :=
  Good.fix simpleDurationBody_good

/-- `separated_list1` and the layout around it never return an empty list. -/
theorem sepList1_ne_nil {sep : P β} {p : P α} {s as r} (h : sepList1 sep p s = .ok as r) :
    as ≠ [] := by
  unfold sepList1 at h
  cases hp : p s with
  | ok a r1 =>
    rw [hp] at h
    simp only [Res.bind] at h
    cases h2 : sepLoop sep p (r1.length + 1) r1 with
    | ok bs r2 => rw [h2] at h; simp at h; simp [← h.1]
    | _ => rw [h2] at h; cases h
  | _ => rw [hp] at h; cases h

/-- The result of the last parser of a `preceded` chain. -/
theorem preceded_ok {p : P α} {q : P β} {s b r} (h : preceded p q s = .ok b r) :
    ∃ a r1, p s = .ok a r1 ∧ q r1 = .ok b r := by
  unfold preceded at h
  cases hp : p s with
  | ok a r1 => exact ⟨a, r1, rfl, by rw [hp] at h; exact h⟩
  | _ => rw [hp] at h; cases h

theorem terminated_ok {p : P α} {q : P β} {s a r} (h : terminated p q s = .ok a r) :
    ∃ b r1, p s = .ok a r1 ∧ q r1 = .ok b r := by
  unfold terminated at h
  cases hp : p s with
  | ok a1 r1 =>
    rw [hp] at h
    simp only [Res.bind] at h
    cases hq : q r1 with
    | ok b r2 => rw [hq] at h; simp at h; exact ⟨b, r1, by simp [h.1], by rw [hq]; simp [h.2]⟩
    | _ => rw [hq] at h; cases h
  | _ => rw [hp] at h; cases h

theorem pair_ok {p : P α} {q : P β} {s x r} (h : pair p q s = .ok x r) :
    ∃ r1, p s = .ok x.1 r1 ∧ q r1 = .ok x.2 r := by
  unfold pair at h
  cases hp : p s with
  | ok a1 r1 =>
    rw [hp] at h
    simp only [Res.bind] at h
    cases hq : q r1 with
    | ok b r2 =>
      rw [hq] at h; simp only [Res.ok.injEq] at h
      obtain ⟨rfl, rfl⟩ := h
      exact ⟨r1, rfl, hq⟩
    | _ => rw [hq] at h; cases h
  | _ => rw [hp] at h; cases h

theorem map_ok {f : α → β} {p : P α} {s b r} (h : map f p s = .ok b r) :
    ∃ a, p s = .ok a r ∧ b = f a := by
  unfold map at h
  cases hp : p s with
  | ok a r1 => rw [hp] at h; simp only [Res.bind, Res.ok.injEq] at h; exact ⟨a, by simp [h.2], h.1.symm⟩
  | _ => rw [hp] at h; cases h

theorem list1_ne_nil {p : P α} {s as r} (h : spaceSeparatedList1 p s = .ok as r) : as ≠ [] := by
  obtain ⟨_, _, _, h⟩ := preceded_ok h
  exact sepList1_ne_nil h

theorem prefixExpr_ok {t : List Char} {p : P α} {s a r} (h : prefixExpr t p s = .ok a r) :
    ∃ r1 r2, p r1 = .ok a r2 := by
  obtain ⟨_, _, _, h⟩ := preceded_ok h
  obtain ⟨_, r2, h, _⟩ := terminated_ok h
  obtain ⟨_, r1, _, h⟩ := preceded_ok h
  exact ⟨r1, r2, h⟩

theorem parens_ok {p : P α} {s a r} (h : parens p s = .ok a r) :
    ∃ r1 r2, p r1 = .ok a r2 := by
  obtain ⟨_, _, _, h⟩ := preceded_ok h
  obtain ⟨_, _, _, h⟩ := preceded_ok h
  obtain ⟨_, r2, h, _⟩ := terminated_ok h
  obtain ⟨_, r1, _, h⟩ := preceded_ok h
  exact ⟨r1, r2, h⟩

theorem parseDurationConstraint_good :
    Good 1 L parseDurationConstraint parseDurationConstraint := by
  refine Good.mono (Good.alt_cons (by good) (Good.alt_cons (by good) (Good.alt_one
    (Good.mapExpect _ (by good) ?_)))) (by decide)
  intro s a r h
  obtain ⟨r1, r2, h⟩ := prefixExpr_ok h
  have := list1_ne_nil h
  simp [DurationConstraint.newAll, this]

theorem parseDaDef_good : Good 1 L parseDaDef parseDaDef := by
  refine Good.mono (by unfold parseDaDef; good) ?_
  decide

theorem parseStructureDef_good : Good 1 L parseStructureDef parseStructureDef := by
  refine Good.mono (by unfold parseStructureDef; good) ?_
  decide
theorem parseRequireDef_good : Good 1 L parseRequireDef parseRequireDef := by
  refine Good.mono (by unfold parseRequireDef; good) ?_
  decide
theorem parseTypesDef_good : Good 1 L parseTypesDef parseTypesDef := by
  refine Good.mono (by unfold parseTypesDef; good) ?_
  decide
theorem parseConstantsDef_good : Good 1 L parseConstantsDef parseConstantsDef := by
  refine Good.mono (by unfold parseConstantsDef; good) ?_
  decide
theorem parseProblemObjectsDeclaration_good :
    Good 1 L parseProblemObjectsDeclaration parseProblemObjectsDeclaration := by
  refine Good.mono (by unfold parseProblemObjectsDeclaration; good) ?_
  decide
theorem parsePredicatesDef_good : Good 1 L parsePredicatesDef parsePredicatesDef := by
  refine Good.mono (by unfold parsePredicatesDef; good) ?_
  decide
theorem parseFunctionsDef_good : Good 1 L parseFunctionsDef parseFunctionsDef := by
  refine Good.mono (by unfold parseFunctionsDef; good) ?_
  decide
theorem parseTimelessDef_good : Good 1 L parseTimelessDef parseTimelessDef := by
  refine Good.mono (by unfold parseTimelessDef; good) ?_
  decide
theorem parseInitEl_good : Good 1 L parseInitEl parseInitEl := by
  refine Good.mono (by unfold parseInitEl; good) ?_
  decide
theorem parseProblemInitDef_good : Good 1 L parseProblemInitDef parseProblemInitDef := by
  refine Good.mono (by unfold parseProblemInitDef; good) ?_
  decide
theorem parseProblemLengthSpec_good : Good 1 L parseProblemLengthSpec parseProblemLengthSpec := by
  refine Good.mono (by unfold parseProblemLengthSpec; good) ?_
  decide

theorem metricFExpBody_good (L) (p q : P MetricFExp) (h : Good 1 L p q) :
    Good 1 (L + 1) (metricFExpBody p) (metricFExpBody q) := by
  refine Good.mono (by
    unfold metricFExpBody
    refine Good.alt_cons (by good) (Good.alt_cons (by good_rec h) (Good.alt_cons
      (Good.mapExpect _ (by good_rec h) ?_) (by good_rec h)))
    intro s a r hs
    obtain ⟨r1, r2, hs⟩ := parens_ok hs
    obtain ⟨_, _, hs⟩ := pair_ok hs
    obtain ⟨_, _, hs⟩ := pair_ok hs
    obtain ⟨_, _, _, hs⟩ := preceded_ok hs
    have := list1_ne_nil hs
    simp [MetricFExp.newMultiOp, this]) ?_
  decide
theorem parseMetricFExp_good : Good 1 L parseMetricFExp parseMetricFExp :=
  Good.fix metricFExpBody_good
theorem parseProblemMetricSpec_good : Good 1 L parseProblemMetricSpec parseProblemMetricSpec := by
  refine Good.mono (by unfold parseProblemMetricSpec; good) ?_
  decide


theorem parseDomain_good : Good 1 L parseDomain parseDomain := by
  refine Good.mono (by unfold parseDomain domainParts; good) ?_
  decide
theorem parseProblem_good : Good 1 L parseProblem parseProblem := by
  refine Good.mono (by unfold parseProblem problemParts; good) ?_
  decide

end Pddl
