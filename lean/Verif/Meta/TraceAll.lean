import Verif.Meta.Trace

/-!
# `Traced` and `TypeDash` for every parser
-/

namespace Pddl

theorem Traced.ignoreEolCommentBody {self : E.P Unit} (t_self : Traced self) :
    Traced (E.ignoreEolCommentBody self) := by
  unfold E.ignoreEolCommentBody
  comb
  all_goals assumption

theorem TypeDash.ignoreEolCommentBody {self : E.P Unit} (h_self : TypeDash self) (t_self : Traced self) :
    TypeDash (E.ignoreEolCommentBody self) := by
  unfold E.ignoreEolCommentBody
  comb
  all_goals assumption

theorem ignoreEolComment_traced : Traced E.ignoreEolComment := Traced.fix fun _ h => Traced.ignoreEolCommentBody h

theorem ignoreEolComment_typeDash : TypeDash E.ignoreEolComment :=
  TypeDash.fix (fun _ h => Traced.ignoreEolCommentBody h) fun _ h t => TypeDash.ignoreEolCommentBody h t

theorem Traced.ws {p : E.P α} (t_p : Traced p) :
    Traced (E.ws p) := by
  unfold E.ws
  comb
  all_goals assumption

theorem TypeDash.ws {p : E.P α} (h_p : TypeDash p) (t_p : Traced p) :
    TypeDash (E.ws p) := by
  unfold E.ws
  comb
  all_goals assumption

theorem Traced.ws2 {p : E.P α} (t_p : Traced p) :
    Traced (E.ws2 p) := by
  unfold E.ws2
  comb
  all_goals assumption

theorem TypeDash.ws2 {p : E.P α} (h_p : TypeDash p) (t_p : Traced p) :
    TypeDash (E.ws2 p) := by
  unfold E.ws2
  comb
  all_goals assumption

theorem Traced.prefixExpr {name : List Char} {p : E.P α} (t_p : Traced p) :
    Traced (E.prefixExpr name p) := by
  unfold E.prefixExpr
  comb
  all_goals assumption

theorem TypeDash.prefixExpr {name : List Char} {p : E.P α} (h_p : TypeDash p) (t_p : Traced p) :
    TypeDash (E.prefixExpr name p) := by
  unfold E.prefixExpr
  comb
  all_goals assumption

theorem Traced.spaceSeparatedList0 {p : E.P α} (t_p : Traced p) :
    Traced (E.spaceSeparatedList0 p) := by
  unfold E.spaceSeparatedList0
  comb
  all_goals assumption

theorem TypeDash.spaceSeparatedList0 {p : E.P α} (h_p : TypeDash p) (t_p : Traced p) :
    TypeDash (E.spaceSeparatedList0 p) := by
  unfold E.spaceSeparatedList0
  comb
  all_goals assumption

theorem Traced.spaceSeparatedList1 {p : E.P α} (t_p : Traced p) :
    Traced (E.spaceSeparatedList1 p) := by
  unfold E.spaceSeparatedList1
  comb
  all_goals assumption

theorem TypeDash.spaceSeparatedList1 {p : E.P α} (h_p : TypeDash p) (t_p : Traced p) :
    TypeDash (E.spaceSeparatedList1 p) := by
  unfold E.spaceSeparatedList1
  comb
  all_goals assumption

theorem Traced.parens {p : E.P α} (t_p : Traced p) :
    Traced (E.parens p) := by
  unfold E.parens
  comb
  all_goals assumption

theorem TypeDash.parens {p : E.P α} (h_p : TypeDash p) (t_p : Traced p) :
    TypeDash (E.parens p) := by
  unfold E.parens
  comb
  all_goals assumption

theorem Traced.emptyOr {p : E.P α} (t_p : Traced p) :
    Traced (E.emptyOr p) := by
  unfold E.emptyOr
  comb
  all_goals assumption

theorem TypeDash.emptyOr {p : E.P α} (h_p : TypeDash p) (t_p : Traced p) :
    TypeDash (E.emptyOr p) := by
  unfold E.emptyOr
  comb
  all_goals assumption

theorem parseAnyChar_traced : Traced E.parseAnyChar := by
  unfold E.parseAnyChar
  comb

theorem parseAnyChar_typeDash : TypeDash E.parseAnyChar := by
  unfold E.parseAnyChar
  comb

theorem parseName_traced : Traced E.parseName := by
  unfold E.parseName
  comb

theorem parseName_typeDash : TypeDash E.parseName := by
  unfold E.parseName
  comb

theorem parseVariable_traced : Traced E.parseVariable := by
  unfold E.parseVariable
  comb

theorem parseVariable_typeDash : TypeDash E.parseVariable := by
  unfold E.parseVariable
  comb

theorem parsePredicate_traced : Traced E.parsePredicate := by
  unfold E.parsePredicate
  comb

theorem parsePredicate_typeDash : TypeDash E.parsePredicate := by
  unfold E.parsePredicate
  comb

theorem parseFunctionSymbol_traced : Traced E.parseFunctionSymbol := by
  unfold E.parseFunctionSymbol
  comb

theorem parseFunctionSymbol_typeDash : TypeDash E.parseFunctionSymbol := by
  unfold E.parseFunctionSymbol
  comb

theorem parseActionSymbol_traced : Traced E.parseActionSymbol := by
  unfold E.parseActionSymbol
  comb

theorem parseActionSymbol_typeDash : TypeDash E.parseActionSymbol := by
  unfold E.parseActionSymbol
  comb

theorem parseDaSymbol_traced : Traced E.parseDaSymbol := by
  unfold E.parseDaSymbol
  comb

theorem parseDaSymbol_typeDash : TypeDash E.parseDaSymbol := by
  unfold E.parseDaSymbol
  comb

theorem parsePrefName_traced : Traced E.parsePrefName := by
  unfold E.parsePrefName
  comb

theorem parsePrefName_typeDash : TypeDash E.parsePrefName := by
  unfold E.parsePrefName
  comb

theorem parseDecimal_traced : Traced E.parseDecimal := by
  unfold E.parseDecimal
  comb

theorem parseDecimal_typeDash : TypeDash E.parseDecimal := by
  unfold E.parseDecimal
  comb

theorem parseNumber_traced : Traced E.parseNumber := by
  unfold E.parseNumber
  comb

theorem parseNumber_typeDash : TypeDash E.parseNumber := by
  unfold E.parseNumber
  comb

theorem parseObject_traced : Traced E.parseObject := by
  unfold E.parseObject
  comb

theorem parseObject_typeDash : TypeDash E.parseObject := by
  unfold E.parseObject
  comb

theorem parsePrimitiveType_traced : Traced E.parsePrimitiveType := by
  unfold E.parsePrimitiveType
  comb

theorem parsePrimitiveType_typeDash : TypeDash E.parsePrimitiveType := by
  unfold E.parsePrimitiveType
  comb

theorem parseEitherType_traced : Traced E.parseEitherType := by
  unfold E.parseEitherType
  comb

theorem parseEitherType_typeDash : TypeDash E.parseEitherType := by
  unfold E.parseEitherType
  comb

theorem parseType_traced : Traced E.parseType := by
  unfold E.parseType
  comb
  all_goals first | assumption | exact fun s => Nested.raise (List.suffix_refl s)

theorem parseType_fail {s : List Char} {e : E.Trace} (h : E.parseType s = .fail e) :
    e = [⟨s, .alt⟩] := by
  simp only [E.parseType, E.ifOk] at h
  split at h
  · simp at h
  all_goals first
    | (split at h <;> first
        | (simp only [E.Res.fail.injEq] at h; exact h.symm)
        | simp at h)
    | simp at h

theorem char_ok {c d : Char} {s r : List Char} (h : E.char c s = .ok d r) : s = c :: r := by
  cases s with
  | nil => simp [E.char] at h
  | cons a s =>
    simp only [E.char] at h
    split at h
    · rename_i ha
      simp only [E.Res.ok.injEq] at h
      rw [ha, h.2]
    · simp at h

theorem dash_type (s : List Char) (e : E.Trace)
    (h : E.preceded (E.ws (E.char '-')) E.parseType s = .fail e) : BadType s e := by
  have hd : TypeDash (E.ws (E.char '-')) := TypeDash.ws TypeDash.char Traced.char
  simp only [E.preceded] at h
  cases hw : E.ws (E.char '-') s with
  | ok c r =>
    rw [hw] at h
    have h : E.parseType r = .fail e := h
    have he := parseType_fail h
    simp only [E.ws, E.preceded] at hw
    have t : Traced (E.preceded E.multispace0 E.ignoreEolComment) :=
      Traced.multispace0.preceded ignoreEolComment_traced
    have ts := t s
    cases hl : E.preceded E.multispace0 E.ignoreEolComment s with
    | ok u r1 =>
      rw [hl] at ts
      simp only [E.preceded] at hl
      rw [hl] at hw
      have := char_ok (show E.char '-' r1 = .ok c r from hw)
      obtain ⟨pre, hpre⟩ := (show r1 <:+ s from ts)
      exact ⟨pre, r, by rw [← hpre, this], he, h⟩
    | _ =>
      simp only [E.preceded] at hl
      rw [hl] at hw
      simp [E.Res.bind] at hw
  | fail e' =>
    rw [hw] at h
    exact hd s e (hw.trans (by simpa [E.Res.bind] using h))
  | _ => rw [hw] at h; simp [E.Res.bind] at h

theorem parseFunctionType_traced : Traced E.parseFunctionType := by
  unfold E.parseFunctionType
  comb

theorem Traced.explicitlyTyped {inner : E.P α} (t_inner : Traced inner) :
    Traced (E.explicitlyTyped inner) := by
  unfold E.explicitlyTyped
  comb
  all_goals assumption

/-- A type must follow the dash: the error of `parse_type` is the only unrecoverable one. -/
theorem explicit_dash {inner : E.P α} (h : TypeDash inner) (t : Traced inner) :
    TypeDash (E.pair (E.spaceSeparatedList1 inner)
      (E.preceded (E.ws (E.char '-')) E.parseType)) := by
  refine TypeDash.pair (TypeDash.spaceSeparatedList1 h t) (Traced.spaceSeparatedList1 t) fun s e he => ?_
  exact dash_type s e he

theorem TypeDash.explicitlyTyped {inner : E.P α} (h_inner : TypeDash inner) (t_inner : Traced inner) :
    TypeDash (E.explicitlyTyped inner) := by
  exact TypeDash.map (explicit_dash h_inner t_inner)

theorem Traced.typedList {inner : E.P α} (t_inner : Traced inner) :
    Traced (E.typedList inner) := by
  unfold E.typedList
  comb
  all_goals assumption

theorem TypeDash.typedList {inner : E.P α} (h_inner : TypeDash inner) (t_inner : Traced inner) :
    TypeDash (E.typedList inner) := by
  unfold E.typedList
  comb
  all_goals assumption

theorem Traced.functionTypedList {inner : E.P α} (t_inner : Traced inner) :
    Traced (E.functionTypedList inner) := by
  unfold E.functionTypedList
  comb
  all_goals assumption

theorem TypeDash.functionTypedList {inner : E.P α} (h_inner : TypeDash inner) (t_inner : Traced inner) :
    TypeDash (E.functionTypedList inner) := by
  unfold E.functionTypedList
  comb
  all_goals assumption

theorem Traced.functionTermOf {self : E.P Term} (t_self : Traced self) :
    Traced (E.functionTermOf self) := by
  unfold E.functionTermOf
  comb
  all_goals assumption

theorem TypeDash.functionTermOf {self : E.P Term} (h_self : TypeDash self) (t_self : Traced self) :
    TypeDash (E.functionTermOf self) := by
  unfold E.functionTermOf
  comb
  all_goals assumption

theorem Traced.termBody {self : E.P Term} (t_self : Traced self) :
    Traced (E.termBody self) := by
  unfold E.termBody
  comb
  all_goals first | assumption | exact fun s => Nested.raise (List.suffix_refl s)

theorem TypeDash.termBody {self : E.P Term} (h_self : TypeDash self) (t_self : Traced self) :
    TypeDash (E.termBody self) := by
  unfold E.termBody
  comb
  all_goals first | assumption | exact TypeDash.of_never fun s e => by simp

theorem parseTerm_traced : Traced E.parseTerm := Traced.fix fun _ h => Traced.termBody h

theorem parseTerm_typeDash : TypeDash E.parseTerm :=
  TypeDash.fix (fun _ h => Traced.termBody h) fun _ h t => TypeDash.termBody h t

theorem parseFunctionTerm_traced : Traced E.parseFunctionTerm := by
  unfold E.parseFunctionTerm
  comb

theorem parseFunctionTerm_typeDash : TypeDash E.parseFunctionTerm := by
  unfold E.parseFunctionTerm
  comb

theorem Traced.atomicFormula {inner : E.P α} (t_inner : Traced inner) :
    Traced (E.atomicFormula inner) := by
  unfold E.atomicFormula
  comb
  all_goals assumption

theorem TypeDash.atomicFormula {inner : E.P α} (h_inner : TypeDash inner) (t_inner : Traced inner) :
    TypeDash (E.atomicFormula inner) := by
  unfold E.atomicFormula
  comb
  all_goals assumption

theorem Traced.literal {inner : E.P α} (t_inner : Traced inner) :
    Traced (E.literal inner) := by
  unfold E.literal
  comb
  all_goals assumption

theorem TypeDash.literal {inner : E.P α} (h_inner : TypeDash inner) (t_inner : Traced inner) :
    TypeDash (E.literal inner) := by
  unfold E.literal
  comb
  all_goals assumption

theorem parseAtomicFormulaSkeleton_traced : Traced E.parseAtomicFormulaSkeleton := by
  unfold E.parseAtomicFormulaSkeleton
  comb

theorem parseAtomicFormulaSkeleton_typeDash : TypeDash E.parseAtomicFormulaSkeleton := by
  unfold E.parseAtomicFormulaSkeleton
  comb

theorem parseAtomicFunctionSkeleton_traced : Traced E.parseAtomicFunctionSkeleton := by
  unfold E.parseAtomicFunctionSkeleton
  comb

theorem parseAtomicFunctionSkeleton_typeDash : TypeDash E.parseAtomicFunctionSkeleton := by
  unfold E.parseAtomicFunctionSkeleton
  comb

theorem parseBasicFunctionTerm_traced : Traced E.parseBasicFunctionTerm := by
  unfold E.parseBasicFunctionTerm
  comb

theorem parseBasicFunctionTerm_typeDash : TypeDash E.parseBasicFunctionTerm := by
  unfold E.parseBasicFunctionTerm
  comb

theorem parseFHead_traced : Traced E.parseFHead := by
  unfold E.parseFHead
  comb

theorem parseFHead_typeDash : TypeDash E.parseFHead := by
  unfold E.parseFHead
  comb

theorem parseMultiOp_traced : Traced E.parseMultiOp := by
  unfold E.parseMultiOp
  comb

theorem parseMultiOp_typeDash : TypeDash E.parseMultiOp := by
  unfold E.parseMultiOp
  comb

theorem parseBinaryOp_traced : Traced E.parseBinaryOp := by
  unfold E.parseBinaryOp
  comb

theorem parseBinaryOp_typeDash : TypeDash E.parseBinaryOp := by
  unfold E.parseBinaryOp
  comb

theorem parseBinaryComp_traced : Traced E.parseBinaryComp := by
  unfold E.parseBinaryComp
  comb

theorem parseBinaryComp_typeDash : TypeDash E.parseBinaryComp := by
  unfold E.parseBinaryComp
  comb

theorem parseAssignOp_traced : Traced E.parseAssignOp := by
  unfold E.parseAssignOp
  comb

theorem parseAssignOp_typeDash : TypeDash E.parseAssignOp := by
  unfold E.parseAssignOp
  comb

theorem parseAssignOpT_traced : Traced E.parseAssignOpT := by
  unfold E.parseAssignOpT
  comb

theorem parseAssignOpT_typeDash : TypeDash E.parseAssignOpT := by
  unfold E.parseAssignOpT
  comb

theorem parseDOp_traced : Traced E.parseDOp := by
  unfold E.parseDOp
  comb

theorem parseDOp_typeDash : TypeDash E.parseDOp := by
  unfold E.parseDOp
  comb

theorem parseOptimization_traced : Traced E.parseOptimization := by
  unfold E.parseOptimization
  comb

theorem parseOptimization_typeDash : TypeDash E.parseOptimization := by
  unfold E.parseOptimization
  comb

theorem parseTimeSpecifier_traced : Traced E.parseTimeSpecifier := by
  unfold E.parseTimeSpecifier
  comb

theorem parseTimeSpecifier_typeDash : TypeDash E.parseTimeSpecifier := by
  unfold E.parseTimeSpecifier
  comb

theorem parseInterval_traced : Traced E.parseInterval := by
  unfold E.parseInterval
  comb

theorem parseInterval_typeDash : TypeDash E.parseInterval := by
  unfold E.parseInterval
  comb

theorem Traced.fExpBody {self : E.P FExp} (t_self : Traced self) :
    Traced (E.fExpBody self) := by
  unfold E.fExpBody
  comb
  all_goals assumption

theorem TypeDash.fExpBody {self : E.P FExp} (h_self : TypeDash self) (t_self : Traced self) :
    TypeDash (E.fExpBody self) := by
  unfold E.fExpBody
  comb
  all_goals assumption

theorem parseFExp_traced : Traced E.parseFExp := Traced.fix fun _ h => Traced.fExpBody h

theorem parseFExp_typeDash : TypeDash E.parseFExp :=
  TypeDash.fix (fun _ h => Traced.fExpBody h) fun _ h t => TypeDash.fExpBody h t

theorem parseFComp_traced : Traced E.parseFComp := by
  unfold E.parseFComp
  comb

theorem parseFComp_typeDash : TypeDash E.parseFComp := by
  unfold E.parseFComp
  comb

theorem parseVarList_traced : Traced E.parseVarList := by
  unfold E.parseVarList
  comb

theorem parseVarList_typeDash : TypeDash E.parseVarList := by
  unfold E.parseVarList
  comb

theorem Traced.gdBody {self : E.P GD} (t_self : Traced self) :
    Traced (E.gdBody self) := by
  unfold E.gdBody
  comb
  all_goals assumption

theorem TypeDash.gdBody {self : E.P GD} (h_self : TypeDash self) (t_self : Traced self) :
    TypeDash (E.gdBody self) := by
  unfold E.gdBody
  comb
  all_goals assumption

theorem parseGd_traced : Traced E.parseGd := Traced.fix fun _ h => Traced.gdBody h

theorem parseGd_typeDash : TypeDash E.parseGd :=
  TypeDash.fix (fun _ h => Traced.gdBody h) fun _ h t => TypeDash.gdBody h t

theorem parsePrefGd_traced : Traced E.parsePrefGd := by
  unfold E.parsePrefGd
  comb

theorem parsePrefGd_typeDash : TypeDash E.parsePrefGd := by
  unfold E.parsePrefGd
  comb

theorem Traced.preGdBody {self : E.P (List PreGD)} (t_self : Traced self) :
    Traced (E.preGdBody self) := by
  unfold E.preGdBody
  comb
  all_goals assumption

theorem TypeDash.preGdBody {self : E.P (List PreGD)} (h_self : TypeDash self) (t_self : Traced self) :
    TypeDash (E.preGdBody self) := by
  unfold E.preGdBody
  comb
  all_goals assumption

theorem parsePreGd_traced : Traced E.parsePreGd := Traced.fix fun _ h => Traced.preGdBody h

theorem parsePreGd_typeDash : TypeDash E.parsePreGd :=
  TypeDash.fix (fun _ h => Traced.preGdBody h) fun _ h t => TypeDash.preGdBody h t

theorem parseProblemGoalDef_traced : Traced E.parseProblemGoalDef := by
  unfold E.parseProblemGoalDef
  comb

theorem parseProblemGoalDef_typeDash : TypeDash E.parseProblemGoalDef := by
  unfold E.parseProblemGoalDef
  comb

theorem Traced.con2Of {self : E.P ConGD} (t_self : Traced self) :
    Traced (E.con2Of self) := by
  unfold E.con2Of
  comb
  all_goals assumption

theorem TypeDash.con2Of {self : E.P ConGD} (h_self : TypeDash self) (t_self : Traced self) :
    TypeDash (E.con2Of self) := by
  unfold E.con2Of
  comb
  all_goals assumption

theorem Traced.conGdBody {self : E.P ConGD} (t_self : Traced self) :
    Traced (E.conGdBody self) := by
  unfold E.conGdBody
  comb
  all_goals assumption

theorem TypeDash.conGdBody {self : E.P ConGD} (h_self : TypeDash self) (t_self : Traced self) :
    TypeDash (E.conGdBody self) := by
  unfold E.conGdBody
  comb
  all_goals assumption

theorem parseConGd_traced : Traced E.parseConGd := Traced.fix fun _ h => Traced.conGdBody h

theorem parseConGd_typeDash : TypeDash E.parseConGd :=
  TypeDash.fix (fun _ h => Traced.conGdBody h) fun _ h t => TypeDash.conGdBody h t

theorem parseCon2Gd_traced : Traced E.parseCon2Gd := by
  unfold E.parseCon2Gd
  comb

theorem parseCon2Gd_typeDash : TypeDash E.parseCon2Gd := by
  unfold E.parseCon2Gd
  comb

theorem Traced.prefConGdBody {self : E.P (List PrefConGD)} (t_self : Traced self) :
    Traced (E.prefConGdBody self) := by
  unfold E.prefConGdBody
  comb
  all_goals assumption

theorem TypeDash.prefConGdBody {self : E.P (List PrefConGD)} (h_self : TypeDash self) (t_self : Traced self) :
    TypeDash (E.prefConGdBody self) := by
  unfold E.prefConGdBody
  comb
  all_goals assumption

theorem parsePrefConGd_traced : Traced E.parsePrefConGd := Traced.fix fun _ h => Traced.prefConGdBody h

theorem parsePrefConGd_typeDash : TypeDash E.parsePrefConGd :=
  TypeDash.fix (fun _ h => Traced.prefConGdBody h) fun _ h t => TypeDash.prefConGdBody h t

theorem parseDomainConstraintsDef_traced : Traced E.parseDomainConstraintsDef := by
  unfold E.parseDomainConstraintsDef
  comb

theorem parseDomainConstraintsDef_typeDash : TypeDash E.parseDomainConstraintsDef := by
  unfold E.parseDomainConstraintsDef
  comb

theorem parseProblemConstraintsDef_traced : Traced E.parseProblemConstraintsDef := by
  unfold E.parseProblemConstraintsDef
  comb

theorem parseProblemConstraintsDef_typeDash : TypeDash E.parseProblemConstraintsDef := by
  unfold E.parseProblemConstraintsDef
  comb

theorem parsePEffect_traced : Traced E.parsePEffect := by
  unfold E.parsePEffect
  comb

theorem parsePEffect_typeDash : TypeDash E.parsePEffect := by
  unfold E.parsePEffect
  comb

theorem parseCondEffect_traced : Traced E.parseCondEffect := by
  unfold E.parseCondEffect
  comb

theorem parseCondEffect_typeDash : TypeDash E.parseCondEffect := by
  unfold E.parseCondEffect
  comb

theorem Traced.effectOf {self : E.P CEffect} (t_self : Traced self) :
    Traced (E.effectOf self) := by
  unfold E.effectOf
  comb
  all_goals assumption

theorem TypeDash.effectOf {self : E.P CEffect} (h_self : TypeDash self) (t_self : Traced self) :
    TypeDash (E.effectOf self) := by
  unfold E.effectOf
  comb
  all_goals assumption

theorem Traced.forallCEffectOf {self : E.P CEffect} (t_self : Traced self) :
    Traced (E.forallCEffectOf self) := by
  unfold E.forallCEffectOf
  comb
  all_goals assumption

theorem TypeDash.forallCEffectOf {self : E.P CEffect} (h_self : TypeDash self) (t_self : Traced self) :
    TypeDash (E.forallCEffectOf self) := by
  unfold E.forallCEffectOf
  comb
  all_goals assumption

theorem parseWhenCEffect_traced : Traced E.parseWhenCEffect := by
  unfold E.parseWhenCEffect
  comb

theorem parseWhenCEffect_typeDash : TypeDash E.parseWhenCEffect := by
  unfold E.parseWhenCEffect
  comb

theorem Traced.cEffectBody {self : E.P CEffect} (t_self : Traced self) :
    Traced (E.cEffectBody self) := by
  unfold E.cEffectBody
  comb
  all_goals assumption

theorem TypeDash.cEffectBody {self : E.P CEffect} (h_self : TypeDash self) (t_self : Traced self) :
    TypeDash (E.cEffectBody self) := by
  unfold E.cEffectBody
  comb
  all_goals assumption

theorem parseCEffect_traced : Traced E.parseCEffect := Traced.fix fun _ h => Traced.cEffectBody h

theorem parseCEffect_typeDash : TypeDash E.parseCEffect :=
  TypeDash.fix (fun _ h => Traced.cEffectBody h) fun _ h t => TypeDash.cEffectBody h t

theorem parseEffect_traced : Traced E.parseEffect := by
  unfold E.parseEffect
  comb

theorem parseEffect_typeDash : TypeDash E.parseEffect := by
  unfold E.parseEffect
  comb

theorem parseForallCEffect_traced : Traced E.parseForallCEffect := by
  unfold E.parseForallCEffect
  comb

theorem parseForallCEffect_typeDash : TypeDash E.parseForallCEffect := by
  unfold E.parseForallCEffect
  comb

theorem parseParameters_traced : Traced E.parseParameters := by
  unfold E.parseParameters
  comb

theorem parseParameters_typeDash : TypeDash E.parseParameters := by
  unfold E.parseParameters
  comb

theorem parseActionDef_traced : Traced E.parseActionDef := by
  unfold E.parseActionDef
  comb

theorem parseActionDef_typeDash : TypeDash E.parseActionDef := by
  unfold E.parseActionDef
  comb

theorem parseDerivedPredicate_traced : Traced E.parseDerivedPredicate := by
  unfold E.parseDerivedPredicate
  comb

theorem parseDerivedPredicate_typeDash : TypeDash E.parseDerivedPredicate := by
  unfold E.parseDerivedPredicate
  comb

theorem parseTimedGd_traced : Traced E.parseTimedGd := by
  unfold E.parseTimedGd
  comb

theorem parseTimedGd_typeDash : TypeDash E.parseTimedGd := by
  unfold E.parseTimedGd
  comb

theorem parsePrefTimedGd_traced : Traced E.parsePrefTimedGd := by
  unfold E.parsePrefTimedGd
  comb

theorem parsePrefTimedGd_typeDash : TypeDash E.parsePrefTimedGd := by
  unfold E.parsePrefTimedGd
  comb

theorem Traced.daGdBody {self : E.P DaGD} (t_self : Traced self) :
    Traced (E.daGdBody self) := by
  unfold E.daGdBody
  comb
  all_goals assumption

theorem TypeDash.daGdBody {self : E.P DaGD} (h_self : TypeDash self) (t_self : Traced self) :
    TypeDash (E.daGdBody self) := by
  unfold E.daGdBody
  comb
  all_goals assumption

theorem parseDaGd_traced : Traced E.parseDaGd := Traced.fix fun _ h => Traced.daGdBody h

theorem parseDaGd_typeDash : TypeDash E.parseDaGd :=
  TypeDash.fix (fun _ h => Traced.daGdBody h) fun _ h t => TypeDash.daGdBody h t

theorem Traced.fExpDaBody {self : E.P FExpDa} (t_self : Traced self) :
    Traced (E.fExpDaBody self) := by
  unfold E.fExpDaBody
  comb
  all_goals assumption

theorem TypeDash.fExpDaBody {self : E.P FExpDa} (h_self : TypeDash self) (t_self : Traced self) :
    TypeDash (E.fExpDaBody self) := by
  unfold E.fExpDaBody
  comb
  all_goals assumption

theorem parseFExpDa_traced : Traced E.parseFExpDa := Traced.fix fun _ h => Traced.fExpDaBody h

theorem parseFExpDa_typeDash : TypeDash E.parseFExpDa :=
  TypeDash.fix (fun _ h => Traced.fExpDaBody h) fun _ h t => TypeDash.fExpDaBody h t

theorem parseFAssignDa_traced : Traced E.parseFAssignDa := by
  unfold E.parseFAssignDa
  comb

theorem parseFAssignDa_typeDash : TypeDash E.parseFAssignDa := by
  unfold E.parseFAssignDa
  comb

theorem parseFExpT_traced : Traced E.parseFExpT := by
  unfold E.parseFExpT
  comb

theorem parseFExpT_typeDash : TypeDash E.parseFExpT := by
  unfold E.parseFExpT
  comb

theorem parseTimedEffect_traced : Traced E.parseTimedEffect := by
  unfold E.parseTimedEffect
  comb

theorem parseTimedEffect_typeDash : TypeDash E.parseTimedEffect := by
  unfold E.parseTimedEffect
  comb

theorem Traced.daEffectBody {self : E.P DaEffect} (t_self : Traced self) :
    Traced (E.daEffectBody self) := by
  unfold E.daEffectBody
  comb
  all_goals assumption

theorem TypeDash.daEffectBody {self : E.P DaEffect} (h_self : TypeDash self) (t_self : Traced self) :
    TypeDash (E.daEffectBody self) := by
  unfold E.daEffectBody
  comb
  all_goals assumption

theorem parseDaEffect_traced : Traced E.parseDaEffect := Traced.fix fun _ h => Traced.daEffectBody h

theorem parseDaEffect_typeDash : TypeDash E.parseDaEffect :=
  TypeDash.fix (fun _ h => Traced.daEffectBody h) fun _ h t => TypeDash.daEffectBody h t

theorem parseDValue_traced : Traced E.parseDValue := by
  unfold E.parseDValue
  comb

theorem parseDValue_typeDash : TypeDash E.parseDValue := by
  unfold E.parseDValue
  comb

theorem Traced.simpleDurationBody {self : E.P SimpleDuration} (t_self : Traced self) :
    Traced (E.simpleDurationBody self) := by
  unfold E.simpleDurationBody
  comb
  all_goals assumption

theorem TypeDash.simpleDurationBody {self : E.P SimpleDuration} (h_self : TypeDash self) (t_self : Traced self) :
    TypeDash (E.simpleDurationBody self) := by
  unfold E.simpleDurationBody
  comb
  all_goals assumption

theorem parseSimpleDuration_traced : Traced E.parseSimpleDuration := Traced.fix fun _ h => Traced.simpleDurationBody h

theorem parseSimpleDuration_typeDash : TypeDash E.parseSimpleDuration :=
  TypeDash.fix (fun _ h => Traced.simpleDurationBody h) fun _ h t => TypeDash.simpleDurationBody h t

theorem parseDurationConstraint_traced : Traced E.parseDurationConstraint := by
  unfold E.parseDurationConstraint
  comb

theorem parseDurationConstraint_typeDash : TypeDash E.parseDurationConstraint := by
  unfold E.parseDurationConstraint
  comb

theorem parseDaDef_traced : Traced E.parseDaDef := by
  unfold E.parseDaDef
  comb

theorem parseDaDef_typeDash : TypeDash E.parseDaDef := by
  unfold E.parseDaDef
  comb

theorem parseStructureDef_traced : Traced E.parseStructureDef := by
  unfold E.parseStructureDef
  comb

theorem parseStructureDef_typeDash : TypeDash E.parseStructureDef := by
  unfold E.parseStructureDef
  comb

theorem parseRequireKey_traced : Traced E.parseRequireKey := by
  unfold E.parseRequireKey requireTags
  simp only [List.map]
  comb

theorem parseRequireKey_typeDash : TypeDash E.parseRequireKey := by
  unfold E.parseRequireKey requireTags
  simp only [List.map]
  comb

theorem parseRequireDef_traced : Traced E.parseRequireDef := by
  unfold E.parseRequireDef
  comb

theorem parseRequireDef_typeDash : TypeDash E.parseRequireDef := by
  unfold E.parseRequireDef
  comb

theorem parseTypesDef_traced : Traced E.parseTypesDef := by
  unfold E.parseTypesDef
  comb

theorem parseTypesDef_typeDash : TypeDash E.parseTypesDef := by
  unfold E.parseTypesDef
  comb

theorem parseConstantsDef_traced : Traced E.parseConstantsDef := by
  unfold E.parseConstantsDef
  comb

theorem parseConstantsDef_typeDash : TypeDash E.parseConstantsDef := by
  unfold E.parseConstantsDef
  comb

theorem parseProblemObjectsDeclaration_traced : Traced E.parseProblemObjectsDeclaration := by
  unfold E.parseProblemObjectsDeclaration
  comb

theorem parseProblemObjectsDeclaration_typeDash : TypeDash E.parseProblemObjectsDeclaration := by
  unfold E.parseProblemObjectsDeclaration
  comb

theorem parsePredicatesDef_traced : Traced E.parsePredicatesDef := by
  unfold E.parsePredicatesDef
  comb

theorem parsePredicatesDef_typeDash : TypeDash E.parsePredicatesDef := by
  unfold E.parsePredicatesDef
  comb

theorem parseFunctionsDef_traced : Traced E.parseFunctionsDef := by
  unfold E.parseFunctionsDef
  comb

theorem parseFunctionsDef_typeDash : TypeDash E.parseFunctionsDef := by
  unfold E.parseFunctionsDef
  comb

theorem parseTimelessDef_traced : Traced E.parseTimelessDef := by
  unfold E.parseTimelessDef
  comb

theorem parseTimelessDef_typeDash : TypeDash E.parseTimelessDef := by
  unfold E.parseTimelessDef
  comb

theorem parseInitEl_traced : Traced E.parseInitEl := by
  unfold E.parseInitEl
  comb

theorem parseInitEl_typeDash : TypeDash E.parseInitEl := by
  unfold E.parseInitEl
  comb

theorem parseProblemInitDef_traced : Traced E.parseProblemInitDef := by
  unfold E.parseProblemInitDef
  comb

theorem parseProblemInitDef_typeDash : TypeDash E.parseProblemInitDef := by
  unfold E.parseProblemInitDef
  comb

theorem parseProblemLengthSpec_traced : Traced E.parseProblemLengthSpec := by
  unfold E.parseProblemLengthSpec
  comb

theorem parseProblemLengthSpec_typeDash : TypeDash E.parseProblemLengthSpec := by
  unfold E.parseProblemLengthSpec
  comb

theorem Traced.metricFExpBody {self : E.P MetricFExp} (t_self : Traced self) :
    Traced (E.metricFExpBody self) := by
  unfold E.metricFExpBody
  comb
  all_goals assumption

theorem TypeDash.metricFExpBody {self : E.P MetricFExp} (h_self : TypeDash self) (t_self : Traced self) :
    TypeDash (E.metricFExpBody self) := by
  unfold E.metricFExpBody
  comb
  all_goals assumption

theorem parseMetricFExp_traced : Traced E.parseMetricFExp := Traced.fix fun _ h => Traced.metricFExpBody h

theorem parseMetricFExp_typeDash : TypeDash E.parseMetricFExp :=
  TypeDash.fix (fun _ h => Traced.metricFExpBody h) fun _ h t => TypeDash.metricFExpBody h t

theorem parseProblemMetricSpec_traced : Traced E.parseProblemMetricSpec := by
  unfold E.parseProblemMetricSpec
  comb

theorem parseProblemMetricSpec_typeDash : TypeDash E.parseProblemMetricSpec := by
  unfold E.parseProblemMetricSpec
  comb

theorem domainParts_traced : Traced E.domainParts := by
  unfold E.domainParts
  comb

theorem domainParts_typeDash : TypeDash E.domainParts := by
  unfold E.domainParts
  comb

theorem parseDomain_traced : Traced E.parseDomain := by
  unfold E.parseDomain
  comb

theorem parseDomain_typeDash : TypeDash E.parseDomain := by
  unfold E.parseDomain
  comb

theorem problemParts_traced : Traced E.problemParts := by
  unfold E.problemParts
  comb

theorem problemParts_typeDash : TypeDash E.problemParts := by
  unfold E.problemParts
  comb

theorem parseProblem_traced : Traced E.parseProblem := by
  unfold E.parseProblem
  comb

theorem parseProblem_typeDash : TypeDash E.parseProblem := by
  unfold E.parseProblem
  comb

end Pddl
