import Verif.Meta.Local

/-!
# Meta-theory: locality of every parser
-/

namespace Pddl

/-! ## Leaves -/

/-- A parser that looks only at the first character fails on every form, whatever the layout. -/
theorem lead_cases {g : List Char} (hg : Gap g) (x : List Char) :
    ∃ c v, g ++ ('(' :: x) = c :: v ∧ (isSpace c = true ∨ c = ';' ∨ c = '(') := by
  cases hg with
  | nil => exact ⟨_, _, rfl, .inr (.inr rfl)⟩
  | space h => exact ⟨_, _, rfl, .inl h⟩
  | comment => exact ⟨_, _, rfl, .inr (.inl rfl)⟩

theorem Loc.of_head {p : P α} (h : Tl p)
    (hr : ∀ c v, isSpace c = true ∨ c = ';' ∨ c = '(' → p (c :: v) = .err) : Loc p :=
  .of_rej h fun g a k hg => by
    have e : paren a ++ k = '(' :: (a ++ ')' :: k) := by simp [paren]
    obtain ⟨c, v, h1, h2⟩ := lead_cases hg (a ++ ')' :: k)
    rw [e, h1]
    exact hr c v h2

theorem tag_head {d : Char} {kw : List Char} (hd : isSpace d = false ∧ d ≠ ';' ∧ d ≠ '(') {c : Char} {v : List Char}
    (h : isSpace c = true ∨ c = ';' ∨ c = '(') : tag (d :: kw) (c :: v) = .err := by
  have : d ≠ c := by
    rintro rfl
    rcases h with h | h | h
    · simp [h] at hd
    · exact hd.2.1 h
    · exact hd.2.2 h
  simp [tag, stripPrefix, this]

theorem Loc.tag {d : Char} {kw : List Char} (hk : plainText (d :: kw) = true := by decide)
    (hd : isSpace d = false ∧ d ≠ ';' ∧ d ≠ '(' := by decide) : Loc (tag (d :: kw)) :=
  .of_head (.tag hk) fun _ _ h => tag_head hd h

theorem Loc.takeWhile1 {f : Char → Bool} (h1 : f '(' = false) (h2 : f ')' = false)
    (h3 : f ';' = false) (h4 : ∀ c, isSpace c = true → f c = false) : Loc (takeWhile1 f) :=
  .of_head (.takeWhile1 h1 h2 h3) fun c v h => by
    have : f c = false := by
      rcases h with h | h | h
      · exact h4 c h
      · rw [h]; exact h3
      · rw [h]; exact h1
    simp [Pddl.takeWhile1, this]

theorem parseAnyChar_tl : Tl parseAnyChar := by
  refine .recognize (.alt_cons .alpha1 (.alt_cons .digit1 (.alt_cons ?_ (.alt_one ?_)))) <;>
    exact .tag

theorem parseName_tl : Tl parseName :=
  .map (.ws (.recognize (.pair .alpha1 (.many0 parseAnyChar_tl))))

theorem parseName_loc : Loc parseName := .of_rej parseName_tl fun g a k hg => by
  rw [parseName_eq, hg.skip_solid ((solid_paren a).append k)]
  rfl

theorem parseVariable_tl : Tl parseVariable := .preceded .tag parseName_tl
theorem parseVariable_loc : Loc parseVariable := .of_head parseVariable_tl fun c v h => by
  unfold parseVariable preceded
  rw [tag_head (by decide) h]
  rfl

theorem parsePredicate_tl : Tl parsePredicate := parseName_tl
theorem parseFunctionSymbol_tl : Tl parseFunctionSymbol := parseName_tl
theorem parseFunctionSymbol_loc : Loc parseFunctionSymbol := parseName_loc
theorem parseActionSymbol_tl : Tl parseActionSymbol := parseName_tl
theorem parseDaSymbol_tl : Tl parseDaSymbol := parseName_tl
theorem parsePrefName_tl : Tl parsePrefName := parseName_tl

theorem parseDecimal_tl : Tl parseDecimal := .recognize (.pair .char .digit1)

theorem parseNumber_tl : Tl parseNumber :=
  .mapExpect (.recognize (.pair .digit1 (.many01 parseDecimal_tl)))

theorem parseNumber_loc : Loc parseNumber := .of_head parseNumber_tl fun c v h => by
  have hd : isDigit c = false := by
    rcases h with h | h | h
    · cases hd : isDigit c with
      | false => rfl
      | true => rw [(isDigit_solid hd).1] at h; cases h
    · rw [h]; decide
    · rw [h]; decide
  simp [parseNumber, mapExpect, recognize, pair, digit1, takeWhile1, hd, Res.bind]

theorem parseObject_tl : Tl parseObject := .map .tag
theorem parsePrimitiveType_tl : Tl parsePrimitiveType := .alt_cons parseObject_tl (.alt_one parseName_tl)
theorem parsePrimitiveType_loc : Loc parsePrimitiveType :=
  .alt_cons (.map (.tag (d := 'o'))) (.alt_one parseName_loc)
theorem parseEitherType_loc : Loc parseEitherType := .prefixExpr (.spaceSeparatedList1 parsePrimitiveType_tl)
theorem parseEitherType_tl : Tl parseEitherType := parseEitherType_loc.1
theorem parseType_loc : Loc parseType :=
  .ifOk parsePrimitiveType_loc (.ifOk parseEitherType_loc ⟨fun _ _ _ _ => .fail, fun _ _ _ _ _ _ => .fail⟩)
theorem parseType_tl : Tl parseType := parseType_loc.1

theorem Tl.explicitlyTyped {p : P α} (h : Tl p) : Tl (explicitlyTyped p) :=
  .map (.pair (.spaceSeparatedList1 h) (.preceded (.ws .char) parseType_tl))
theorem Tl.typedList {p : P α} (h : Tl p) : Tl (typedList p) :=
  .map (.pair (.map (.many0 (.explicitlyTyped h))) (.spaceSeparatedList0 (.map h)))
theorem Tl.functionTypedList {p : P α} (h : Tl p) : Tl (functionTypedList p) :=
  .map (.pair (.map (.many0 (.explicitlyTyped h))) (.spaceSeparatedList0 (.map h)))

/-! ## Terms and atoms -/

theorem skip_parseName (s : List Char) : parseName (skip s) = parseName s := by
  rw [parseName_eq, parseName_eq, skip_skip]

theorem functionTermOf_open_eq (p : P Term) (s : List Char) : functionTermOf p ('(' :: s) =
    map (fun x : Name × List Term => FunctionTerm.mk x.1 x.2)
      (fun _ => ((pair parseFunctionSymbol (spaceSeparatedList0 p)) (skip s)).bind
        fun v y => closeRes v (id y)) s := by
  have e : pair parseFunctionSymbol (spaceSeparatedList0 p) (skip s) =
      pair parseFunctionSymbol (spaceSeparatedList0 p) s := by
    show (parseName (skip s)).bind _ = (parseName s).bind _
    rw [skip_parseName]
  rw [e]
  unfold functionTermOf Pddl.map
  congr 1
  show (pair parseFunctionSymbol (spaceSeparatedList0 p) s).bind _ = _
  congr 1
  funext v r
  cases r with
  | nil => rfl
  | cons c r =>
    by_cases hc : c = ')'
    · subst hc; simp [closeRes, tag, stripPrefix, Res.bind]
    · simp [closeRes, tag, stripPrefix, Res.bind, hc, Ne.symm hc]

theorem functionTermOf_lead (p : P Term) {c : Char} {s : List Char} (hc : c ≠ '(') :
    functionTermOf p (c :: s) = .err := by
  simp [functionTermOf, map, delimited, preceded, tag, stripPrefix, Ne.symm hc, Res.bind]

theorem functionTermOf_rel {p : P Term} (h : Tl p) {a b : List Char} (ha : Bal a) (hb : Bal b)
    (k k' : List Char) : Rel ('(' :: (a ++ ')' :: b)) k k' (functionTermOf p ('(' :: (a ++ ')' :: (b ++ k))))
      (functionTermOf p ('(' :: (a ++ ')' :: (b ++ k')))) := by
  rw [functionTermOf_open_eq, functionTermOf_open_eq]
  refine Rel.bind ?_ fun _ _ h1 h2 => .ok h1 h2
  exact inner_rel (.pair parseFunctionSymbol_tl (.spaceSeparatedList0 h)) ha hb k k' (post := id)
    fun hw => ⟨_, hw, fun _ => rfl⟩

theorem Loc.functionTermOf {p : P Term} (h : Tl p) : Loc (functionTermOf p) where
  tl := .form id (fun hu => ⟨_, hu, Nat.le_refl _, fun _ => rfl⟩) (fun _ => rfl)
    (fun ha hb k k' => functionTermOf_rel h ha hb k k') (by
      intro c s x hx hc
      have hx : x = c :: s := hx
      rw [hx, functionTermOf_lead p hc])
  fl g a k k' hg ha := by
    have e : ∀ k, paren a ++ k = '(' :: (a ++ ')' :: ([] ++ k)) := by simp [paren]
    rw [e, e]
    obtain ⟨c, v, h1, h2⟩ := lead_cases hg (a ++ ')' :: ([] ++ k))
    cases hg with
    | nil => exact (functionTermOf_rel h ha .nil k k').mono (by simp [paren])
    | space hc =>
      simp only [List.cons_append, functionTermOf_lead p (isSpace_plain hc).1]
      exact .err
    | comment =>
      simp only [List.cons_append, functionTermOf_lead p (c := ';') (by decide)]
      exact .err

theorem parseTerm_loc : Loc parseTerm :=
  .fix termBody_good fun _ h => .ifOk parseVariable_loc (.ifOk parseName_loc
    (.ifOk (.functionTermOf h.1) ⟨fun _ _ _ _ => .err, fun _ _ _ _ _ _ => .err⟩))
theorem parseTerm_tl : Tl parseTerm := parseTerm_loc.1
theorem parseFunctionTerm_loc : Loc parseFunctionTerm := .functionTermOf parseTerm_tl
theorem parseFunctionTerm_tl : Tl parseFunctionTerm := parseFunctionTerm_loc.1

theorem eqDelim_eq (p : P α) (s : List Char) :
    delimited (ws (tag c!"(=")) (pair (ws p) (ws p)) (ws (char ')')) s =
      prefixExpr c!"=" (pair (ws p) (ws p)) s := by
  have e : ∀ s, pair (ws p) (ws p) (skip s) = pair (ws p) (ws p) s := fun s => by
    simp only [pair, ws_eq, skip_skip]
  have e' : ∀ (v : α × α) s, (ws (char ')') s).bind (fun _ r => Res.ok v r) =
      (ws (tag c!")") s).bind (fun _ r => Res.ok v r) := by
    intro v s
    rw [ws_eq, ws_eq]
    cases skip s with
    | nil => rfl
    | cons c x =>
      by_cases hc : c = ')'
      · subst hc; simp [char, tag, stripPrefix, Res.bind]
      · simp [char, tag, stripPrefix, Res.bind, hc, Ne.symm hc]
  unfold prefixExpr delimited preceded terminated
  simp only [e']
  simp only [ws_eq p, ws_eq (tag _), ws_eq (pair _ _), e]
  cases skip s with
  | nil => rfl
  | cons c x =>
    by_cases hc : '(' = c
    · subst hc
      cases x with
      | nil => rfl
      | cons d x =>
        by_cases hd : '=' = d
        · subst hd; simp [tag, stripPrefix, Res.bind]
        · simp [tag, stripPrefix, Res.bind, hd]
    · simp [tag, stripPrefix, Res.bind, hc]

theorem Loc.atomicFormula {p : P α} (h : Tl p) : Loc (atomicFormula p) := by
  have e : delimited (Pddl.ws (Pddl.tag c!"(=")) (pair (Pddl.ws p) (Pddl.ws p)) (Pddl.ws (char ')')) =
      Pddl.prefixExpr c!"=" (pair (Pddl.ws p) (Pddl.ws p)) := funext fun s => eqDelim_eq p s
  unfold Pddl.atomicFormula
  rw [e]
  exact .alt_cons (.map (.prefixExpr (.pair (.ws h) (.ws h)))) (.alt_one (.map
    (.parens (.pair parsePredicate_tl (.ws (.spaceSeparatedList0 h))))))
theorem Tl.atomicFormula {p : P α} (h : Tl p) : Tl (atomicFormula p) := (Loc.atomicFormula h).1

theorem Loc.literal {p : P α} (h : Tl p) : Loc (literal p) :=
  .alt_cons (.map (.prefixExpr (.atomicFormula h))) (.alt_one (.map (.atomicFormula h)))
theorem Tl.literal {p : P α} (h : Tl p) : Tl (literal p) := (Loc.literal h).1

theorem parseAtomicFormulaSkeleton_loc : Loc parseAtomicFormulaSkeleton :=
  .map (.parens (.pair parsePredicate_tl (.ws (.typedList parseVariable_tl))))
theorem parseAtomicFormulaSkeleton_tl : Tl parseAtomicFormulaSkeleton := parseAtomicFormulaSkeleton_loc.1
theorem parseAtomicFunctionSkeleton_loc : Loc parseAtomicFunctionSkeleton :=
  .map (.parens (.pair parseFunctionSymbol_tl (.ws (.typedList parseVariable_tl))))
theorem parseAtomicFunctionSkeleton_tl : Tl parseAtomicFunctionSkeleton := parseAtomicFunctionSkeleton_loc.1

macro "loc" : tactic => `(tactic| (
  (repeat' comb_step) <;> (try (unfold autoParam; decide)) <;>
    (try first | assumption | (apply Loc.tl; assumption))))

theorem parseBasicFunctionTerm_loc : Loc parseBasicFunctionTerm := by unfold parseBasicFunctionTerm; loc
theorem parseBasicFunctionTerm_tl : Tl parseBasicFunctionTerm := parseBasicFunctionTerm_loc.1
theorem parseFHead_loc : Loc parseFHead := by unfold parseFHead; loc
theorem parseFHead_tl : Tl parseFHead := parseFHead_loc.1

/-! ## Operators -/

theorem parseMultiOp_tl : Tl parseMultiOp := by unfold parseMultiOp; loc
theorem parseBinaryOp_tl : Tl parseBinaryOp := by unfold parseBinaryOp; loc
theorem parseBinaryComp_tl : Tl parseBinaryComp := by unfold parseBinaryComp; loc
theorem parseAssignOp_tl : Tl parseAssignOp := by unfold parseAssignOp; loc
theorem parseAssignOpT_tl : Tl parseAssignOpT := by unfold parseAssignOpT; loc
theorem parseDOp_tl : Tl parseDOp := by unfold parseDOp; loc
theorem parseOptimization_tl : Tl parseOptimization := by unfold parseOptimization; loc
theorem parseTimeSpecifier_tl : Tl parseTimeSpecifier := by unfold parseTimeSpecifier; loc
theorem parseInterval_tl : Tl parseInterval := by unfold parseInterval; loc

/-! ## Numeric expressions, goals, constraints -/

theorem parseFExp_loc : Loc parseFExp := .fix fExpBody_good fun _ h => by unfold fExpBody; loc
theorem parseFExp_tl : Tl parseFExp := parseFExp_loc.1
theorem parseFComp_loc : Loc parseFComp := by unfold parseFComp; loc
theorem parseVarList_loc : Loc parseVarList := by unfold parseVarList; loc
theorem parseVarList_tl : Tl parseVarList := parseVarList_loc.1
theorem parseGd_loc : Loc parseGd := .fix gdBody_good fun _ h => by unfold gdBody; loc
theorem parseGd_tl : Tl parseGd := parseGd_loc.1
theorem parsePrefGd_loc : Loc parsePrefGd := by unfold parsePrefGd; loc
theorem parsePreGd_loc : Loc parsePreGd := .fix preGdBody_good fun _ h => by unfold preGdBody; loc
theorem parsePreGd_tl : Tl parsePreGd := parsePreGd_loc.1
theorem parseProblemGoalDef_loc : Loc parseProblemGoalDef := by unfold parseProblemGoalDef; loc
theorem parseProblemGoalDef_tl : Tl parseProblemGoalDef := parseProblemGoalDef_loc.1
theorem Loc.con2Of {p : P ConGD} (h : Loc p) : Loc (con2Of p) := by unfold Pddl.con2Of; loc
theorem Tl.con2Of {p : P ConGD} (h : Tl p) : Tl (con2Of p) := by unfold Pddl.con2Of; loc
theorem parseConGd_loc : Loc parseConGd := .fix conGdBody_good fun _ h => by unfold conGdBody; loc
theorem parseConGd_tl : Tl parseConGd := parseConGd_loc.1
theorem parseCon2Gd_loc : Loc parseCon2Gd := .con2Of parseConGd_loc
theorem parsePrefConGd_loc : Loc parsePrefConGd := .fix prefConGdBody_good fun _ h => by
  unfold prefConGdBody; loc
theorem parsePrefConGd_tl : Tl parsePrefConGd := parsePrefConGd_loc.1
theorem parseDomainConstraintsDef_loc : Loc parseDomainConstraintsDef := by
  unfold parseDomainConstraintsDef; loc
theorem parseDomainConstraintsDef_tl : Tl parseDomainConstraintsDef := parseDomainConstraintsDef_loc.1
theorem parseProblemConstraintsDef_loc : Loc parseProblemConstraintsDef := by
  unfold parseProblemConstraintsDef; loc
theorem parseProblemConstraintsDef_tl : Tl parseProblemConstraintsDef := parseProblemConstraintsDef_loc.1

/-! ## Effects and actions -/

theorem parsePEffect_loc : Loc parsePEffect := by unfold parsePEffect; loc
theorem parsePEffect_tl : Tl parsePEffect := parsePEffect_loc.1
theorem parseCondEffect_loc : Loc parseCondEffect := by unfold parseCondEffect; loc
theorem parseCondEffect_tl : Tl parseCondEffect := parseCondEffect_loc.1
theorem Loc.effectOf {p : P CEffect} (h : Loc p) : Loc (effectOf p) := by unfold Pddl.effectOf; loc
theorem Tl.effectOf {p : P CEffect} (h : Tl p) : Tl (effectOf p) := by unfold Pddl.effectOf; loc
theorem Loc.forallCEffectOf {p : P CEffect} (h : Tl p) : Loc (forallCEffectOf p) := by
  unfold Pddl.forallCEffectOf; loc
theorem parseWhenCEffect_loc : Loc parseWhenCEffect := by unfold parseWhenCEffect; loc
theorem parseCEffect_loc : Loc parseCEffect := .fix cEffectBody_good fun _ h => by
  unfold cEffectBody; loc
theorem parseCEffect_tl : Tl parseCEffect := parseCEffect_loc.1
theorem parseEffect_loc : Loc parseEffect := .effectOf parseCEffect_loc
theorem parseEffect_tl : Tl parseEffect := parseEffect_loc.1
theorem parseForallCEffect_loc : Loc parseForallCEffect := .forallCEffectOf parseCEffect_tl

theorem emptyParens_loc : Loc (tag c!"()") where
  tl u k k' hu := by
    cases hu with
    | nil => exact .err
    | @plain c u h1 =>
      have e : ∀ x, tag c!"()" (c :: x) = .err := fun x => by simp [tag, stripPrefix, Ne.symm h1]
      rw [List.cons_append, List.cons_append, e, e]; exact .err
    | comment => exact .err
    | nest ha hb =>
      cases ha with
      | nil => exact .ok hb (by simp only [List.length_cons, List.nil_append]; omega)
      | @plain c u _ h1 =>
        have e : ∀ x, tag c!"()" ('(' :: c :: x) = .err := fun x => by
          simp [tag, stripPrefix, Ne.symm h1]
        simp only [List.cons_append, e]; exact .err
      | comment => exact .err
      | nest => exact .err
  fl g a k k' hg ha := by
    have e : ∀ k, paren a ++ k = '(' :: (a ++ ')' :: k) := by simp [paren]
    rw [e, e]
    cases hg with
    | nil =>
      cases ha with
      | nil => exact .ok (w := []) .nil (Nat.zero_le _)
      | @plain c u _ h1 =>
        have e : ∀ x, tag c!"()" ('(' :: c :: x) = .err := fun x => by
          simp [tag, stripPrefix, Ne.symm h1]
        simp only [List.cons_append, List.nil_append, e]; exact .err
      | comment => exact .err
      | nest => exact .err
    | @space c g hc =>
      have e : ∀ x, tag c!"()" (c :: x) = .err := fun x => by
        simp [tag, stripPrefix, Ne.symm (isSpace_plain hc).1]
      simp only [List.cons_append, e]; exact .err
    | comment => exact .err

theorem Loc.emptyOr {p : P α} (h : Loc p) : Loc (emptyOr p) :=
  .alt_cons (.map emptyParens_loc) (.alt_one (.map h))
theorem Tl.emptyOr {p : P α} (h : Tl p) : Tl (emptyOr p) :=
  .alt_cons (.map emptyParens_loc.1) (.alt_one (.map h))

theorem parseParameters_tl : Tl parseParameters := by unfold parseParameters; loc
theorem parseActionDef_loc : Loc parseActionDef := by unfold parseActionDef; loc
theorem parseDerivedPredicate_loc : Loc parseDerivedPredicate := by unfold parseDerivedPredicate; loc

/-! ## Durative actions -/

theorem parseTimedGd_loc : Loc parseTimedGd := by unfold parseTimedGd; loc
theorem parseTimedGd_tl : Tl parseTimedGd := parseTimedGd_loc.1
theorem parsePrefTimedGd_loc : Loc parsePrefTimedGd := by unfold parsePrefTimedGd; loc
theorem parseDaGd_loc : Loc parseDaGd := .fix daGdBody_good fun _ h => by unfold daGdBody; loc
theorem parseDaGd_tl : Tl parseDaGd := parseDaGd_loc.1
theorem parseFExpDa_loc : Loc parseFExpDa := .fix fExpDaBody_good fun _ h => by unfold fExpDaBody; loc
theorem parseFExpDa_tl : Tl parseFExpDa := parseFExpDa_loc.1
theorem parseFAssignDa_loc : Loc parseFAssignDa := by unfold parseFAssignDa; loc
theorem parseFAssignDa_tl : Tl parseFAssignDa := parseFAssignDa_loc.1
theorem parseFExpT_loc : Loc parseFExpT := by unfold parseFExpT; loc
theorem parseFExpT_tl : Tl parseFExpT := parseFExpT_loc.1
theorem parseTimedEffect_loc : Loc parseTimedEffect := by unfold parseTimedEffect; loc
theorem parseTimedEffect_tl : Tl parseTimedEffect := parseTimedEffect_loc.1
theorem parseDaEffect_loc : Loc parseDaEffect := .fix daEffectBody_good fun _ h => by
  unfold daEffectBody; loc
theorem parseDaEffect_tl : Tl parseDaEffect := parseDaEffect_loc.1
theorem parseDValue_loc : Loc parseDValue := by unfold parseDValue; loc
theorem parseDValue_tl : Tl parseDValue := parseDValue_loc.1
theorem parseSimpleDuration_loc : Loc parseSimpleDuration := .fix simpleDurationBody_good fun _ h => by
  unfold simpleDurationBody; loc
theorem parseSimpleDuration_tl : Tl parseSimpleDuration := parseSimpleDuration_loc.1
theorem parseDurationConstraint_loc : Loc parseDurationConstraint :=
  .alt_cons (.map emptyParens_loc) (by loc)
theorem parseDurationConstraint_tl : Tl parseDurationConstraint := parseDurationConstraint_loc.1
theorem parseDaDef_loc : Loc parseDaDef := by unfold parseDaDef; loc
theorem parseStructureDef_loc : Loc parseStructureDef := by unfold parseStructureDef; loc
theorem parseStructureDef_tl : Tl parseStructureDef := parseStructureDef_loc.1

/-! ## Sections -/

theorem parseRequireKey_tl : Tl parseRequireKey := .mapExpect (by
  simp only [requireTags, List.map]; loc)
theorem parseRequireDef_loc : Loc parseRequireDef := by unfold parseRequireDef; loc
theorem parseTypesDef_loc : Loc parseTypesDef := by unfold parseTypesDef; loc
theorem parseConstantsDef_loc : Loc parseConstantsDef := by unfold parseConstantsDef; loc
theorem parseProblemObjectsDeclaration_loc : Loc parseProblemObjectsDeclaration := by
  unfold parseProblemObjectsDeclaration; loc
theorem parsePredicatesDef_loc : Loc parsePredicatesDef := by unfold parsePredicatesDef; loc
theorem parseFunctionsDef_loc : Loc parseFunctionsDef := by unfold parseFunctionsDef; loc
theorem parseTimelessDef_loc : Loc parseTimelessDef := by unfold parseTimelessDef; loc
theorem parseInitEl_loc : Loc parseInitEl := by unfold parseInitEl; loc
theorem parseInitEl_tl : Tl parseInitEl := parseInitEl_loc.1
theorem parseProblemInitDef_loc : Loc parseProblemInitDef := by unfold parseProblemInitDef; loc

theorem u64Loop_tl : ∀ v, Tl (u64Loop v) := by
  intro v u k k' hu
  induction hu generalizing v with
  | nil =>
    have e : ∀ x, u64Loop v (')' :: x) = .ok v (')' :: x) := fun x => by
      simp [u64Loop, show isDigit ')' = false by decide]
    rw [List.nil_append, List.nil_append, e, e]
    exact .ok (w := []) .nil (Nat.le_refl _)
  | @plain c u h1 h2 h3 hu ih =>
    simp only [List.cons_append, u64Loop]
    by_cases hc : isDigit c = true
    · simp only [hc, if_true]
      split
      · exact (ih _).mono (by simp)
      · exact .err
    · simp only [hc]
      exact .ok (w := c :: u) (.plain h1 h2 h3 hu) (Nat.le_refl _)
  | comment hb hbody hn hu =>
    simp only [List.cons_append, u64Loop, show isDigit ';' = false by decide]
    have := Rel.ok (α := Nat) (a := v) (k := ')' :: k) (k' := ')' :: k') (Bal.comment hb hbody hn hu) (Nat.le_refl _)
    simpa using this
  | nest ha hb =>
    simp only [List.cons_append, u64Loop, show isDigit '(' = false by decide]
    have := Rel.ok (α := Nat) (a := v) (k := ')' :: k) (k' := ')' :: k') (Bal.nest ha hb) (Nat.le_refl _)
    simpa using this

theorem u64_tl : Tl u64 := by
  intro u k k' hu
  have := u64Loop_tl 0 u k k' hu
  cases u with
  | nil => exact .err
  | cons c u =>
    simp only [List.cons_append, u64] at this ⊢
    split
    · exact this
    · exact .err

theorem parseProblemLengthSpec_loc : Loc parseProblemLengthSpec := by unfold parseProblemLengthSpec; loc
theorem parseMetricFExp_loc : Loc parseMetricFExp := .fix metricFExpBody_good fun _ h => by
  unfold metricFExpBody; loc
theorem parseMetricFExp_tl : Tl parseMetricFExp := parseMetricFExp_loc.1
theorem parseProblemMetricSpec_loc : Loc parseProblemMetricSpec := by unfold parseProblemMetricSpec; loc

theorem parseRequireDef_tl : Tl parseRequireDef := parseRequireDef_loc.1
theorem parseTypesDef_tl : Tl parseTypesDef := parseTypesDef_loc.1
theorem parseConstantsDef_tl : Tl parseConstantsDef := parseConstantsDef_loc.1
theorem parseProblemObjectsDeclaration_tl : Tl parseProblemObjectsDeclaration := parseProblemObjectsDeclaration_loc.1
theorem parsePredicatesDef_tl : Tl parsePredicatesDef := parsePredicatesDef_loc.1
theorem parseFunctionsDef_tl : Tl parseFunctionsDef := parseFunctionsDef_loc.1
theorem parseProblemInitDef_tl : Tl parseProblemInitDef := parseProblemInitDef_loc.1
theorem parseProblemLengthSpec_tl : Tl parseProblemLengthSpec := parseProblemLengthSpec_loc.1
theorem parseProblemMetricSpec_tl : Tl parseProblemMetricSpec := parseProblemMetricSpec_loc.1

theorem domainParts_tl : Tl domainParts := by unfold domainParts; loc
theorem problemParts_tl : Tl problemParts := by unfold problemParts; loc

/-! ## Consequences -/

/-- What a success on a form says about every other text after the form. -/
theorem Loc.ok {p : P α} (h : Loc p) {g u r : List Char} {v : α} (hg : Gap g) (hu : Bal u)
    (hp : p (g ++ (paren u ++ r)) = .ok v r) (r' : List Char) :
    p (g ++ (paren u ++ r')) = .ok v r' := by
  have h1 := h.2 g u r r' hg hu
  rw [hp] at h1
  generalize e : p (g ++ (paren u ++ r')) = y at h1
  generalize e' : Res.ok v r = x at h1
  cases h1 with
  | @ok a w h2 h3 =>
    injection e' with e1 e2
    have : w = [] := by
      have := congrArg List.length e2
      simp only [List.length_append] at this
      exact List.eq_nil_of_length_eq_zero (by omega)
    subst this e1
    rfl
  | err => cases e'
  | fail => cases e'
  | panic => cases e'
  | oof => cases e'

end Pddl
