import Verif.Meta.Rename

/-!
# Every parser commutes with renaming
-/

namespace Pddl

section
open Lean Elab Tactic Meta

/-- As `comb_step`, for goals `Equi ρ p r` and `Mute ρ p`. -/
elab "equi_step" : tactic => withMainContext do
  let t ← instantiateMVars (← getMainTarget)
  let .const F _ := t.getAppFn | throwError "equi: not a goal of this kind"
  unless F == `Pddl.Equi || F == `Pddl.Mute do throwError "equi: not a goal of this kind"
  let .const (.str _ f) _ := t.getAppArgs[2]!.getAppFn |
    if F == `Pddl.Mute then
      replaceMainGoal (← (← getMainGoal).apply (← mkConstWithFreshMVarLevels `Pddl.Equi.mute))
      return
    else throwError "equi: no parser in goal"
  let cs := if F == `Pddl.Equi then
      [`Pddl.Equi ++ .mkSimple f, `Pddl.Equi ++ .mkSimple (f ++ "_cons"), `Pddl ++ .mkSimple (f ++ "_equi")]
    else [`Pddl.Mute ++ .mkSimple f, `Pddl.Equi.mute]
  for c in cs do
    if (← getEnv).contains c then
      let saved ← saveState
      try
        replaceMainGoal (← withReducible ((← getMainGoal).apply (← mkConstWithFreshMVarLevels c)))
        return
      catch _ => saved.restore
  throwError "equi: no lemma for {f}"
end

variable {ρ : List Char → List Char}

theorem Term.mapNamesL_eq {φ : Name → Name} : ∀ xs : List Term, Term.mapNamesL φ xs = xs.map (Term.mapNames φ)
  | [] => by simp [Term.mapNamesL]
  | x :: xs => by simp [Term.mapNamesL, mapNamesL_eq xs]

theorem FExp.mapNamesL_eq {φ : Name → Name} : ∀ xs : List FExp, FExp.mapNamesL φ xs = xs.map (FExp.mapNames φ)
  | [] => by simp [FExp.mapNamesL]
  | x :: xs => by simp [FExp.mapNamesL, mapNamesL_eq xs]

theorem FExpDa.mapNamesL_eq {φ : Name → Name} : ∀ xs : List FExpDa, FExpDa.mapNamesL φ xs = xs.map (FExpDa.mapNames φ)
  | [] => by simp [FExpDa.mapNamesL]
  | x :: xs => by simp [FExpDa.mapNamesL, mapNamesL_eq xs]

theorem MetricFExp.mapNamesL_eq {φ : Name → Name} : ∀ xs : List MetricFExp, MetricFExp.mapNamesL φ xs = xs.map (MetricFExp.mapNames φ)
  | [] => by simp [MetricFExp.mapNamesL]
  | x :: xs => by simp [MetricFExp.mapNamesL, mapNamesL_eq xs]

theorem GD.mapNamesL_eq {φ : Name → Name} : ∀ xs : List GD, GD.mapNamesL φ xs = xs.map (GD.mapNames φ)
  | [] => by simp [GD.mapNamesL]
  | x :: xs => by simp [GD.mapNamesL, mapNamesL_eq xs]

theorem PreGD.mapNamesL_eq {φ : Name → Name} : ∀ xs : List PreGD, PreGD.mapNamesL φ xs = xs.map (PreGD.mapNames φ)
  | [] => by simp [PreGD.mapNamesL]
  | x :: xs => by simp [PreGD.mapNamesL, mapNamesL_eq xs]

theorem ConGD.mapNamesL_eq {φ : Name → Name} : ∀ xs : List ConGD, ConGD.mapNamesL φ xs = xs.map (ConGD.mapNames φ)
  | [] => by simp [ConGD.mapNamesL]
  | x :: xs => by simp [ConGD.mapNamesL, mapNamesL_eq xs]

theorem PrefConGD.mapNamesL_eq {φ : Name → Name} : ∀ xs : List PrefConGD, PrefConGD.mapNamesL φ xs = xs.map (PrefConGD.mapNames φ)
  | [] => by simp [PrefConGD.mapNamesL]
  | x :: xs => by simp [PrefConGD.mapNamesL, mapNamesL_eq xs]

theorem CEffect.mapNamesL_eq {φ : Name → Name} : ∀ xs : List CEffect, CEffect.mapNamesL φ xs = xs.map (CEffect.mapNames φ)
  | [] => by simp [CEffect.mapNamesL]
  | x :: xs => by simp [CEffect.mapNamesL, mapNamesL_eq xs]

theorem DaGD.mapNamesL_eq {φ : Name → Name} : ∀ xs : List DaGD, DaGD.mapNamesL φ xs = xs.map (DaGD.mapNames φ)
  | [] => by simp [DaGD.mapNamesL]
  | x :: xs => by simp [DaGD.mapNamesL, mapNamesL_eq xs]

theorem DaEffect.mapNamesL_eq {φ : Name → Name} : ∀ xs : List DaEffect, DaEffect.mapNamesL φ xs = xs.map (DaEffect.mapNames φ)
  | [] => by simp [DaEffect.mapNamesL]
  | x :: xs => by simp [DaEffect.mapNamesL, mapNamesL_eq xs]

/-- Closes what `comb` leaves. -/
macro "equi" : tactic => `(tactic| (
  repeat' equi_step
  all_goals first
    | assumption
    | decide
    | (intro a; rfl)
    | (intro a; simp [Prod.map, Term.mapNamesL_eq, FExp.mapNamesL_eq, FExpDa.mapNamesL_eq, MetricFExp.mapNamesL_eq,
        GD.mapNamesL_eq, PreGD.mapNamesL_eq, ConGD.mapNamesL_eq, PrefConGD.mapNamesL_eq, CEffect.mapNamesL_eq,
        DaGD.mapNamesL_eq, DaEffect.mapNamesL_eq, Ty.mapNames, Typed.mapNames, varsMapNames, Term.mapNames,
        FunctionTerm.mapNames, AtomicFormula.mapNames, Literal.mapNames, Skeleton.mapNames, BasicFunctionTerm.mapNames,
        FHead.mapNames, FExp.mapNames, FExpDa.mapNames, FExpT.mapNames, FComp.mapNames, FAssignDa.mapNames,
        MetricFExp.mapNames, GD.mapNames, PrefGD.mapNames, PreGD.mapNames, ConGD.mapNames, Con2GD.mapNames,
        PrefConGD.mapNames, PEffect.mapNames, CondEffect.mapNames, CEffect.mapNames, ActionDef.mapNames,
        DerivedPredicate.mapNames, TimedGD.mapNames, PrefTimedGD.mapNames, DaGD.mapNames, TimedEffect.mapNames,
        DaEffect.mapNames, DurationValue.mapNames, SimpleDuration.mapNames, DurationConstraint.mapNames, DaDef.mapNames,
        StructureDef.mapNames, InitElement.mapNames, MetricSpec.mapNames])))

theorem ignoreEolComment_equi : Equi ρ ignoreEolComment id := Equi.fix ignoreEolCommentBody_good fun self h => by
  unfold ignoreEolCommentBody
  exact Equi.value (Mute.comment.terminated (Mute.multispace0.pair h.mute.opt)).opt rfl

theorem Equi.ws {p : P α} {r : α → α} (h_p : Equi ρ p r) :
    Equi ρ (Pddl.ws p) r := by
  unfold Pddl.ws
  equi

theorem Equi.ws2 {p : P α} {r : α → α} (h_p : Equi ρ p r) :
    Equi ρ (Pddl.ws2 p) r := by
  unfold Pddl.ws2
  equi

theorem Equi.prefixExpr {k : List Char} {p : P α} {r : α → α} (h_p : Equi ρ p r) (hk : tagOkB (k.length + 1) k = true) :
    Equi ρ (Pddl.prefixExpr k p) r := by
  unfold Pddl.prefixExpr
  equi

theorem Equi.spaceSeparatedList0 {p : P α} {r : α → α} (h_p : Equi ρ p r) :
    Equi ρ (Pddl.spaceSeparatedList0 p) (List.map r) := by
  unfold Pddl.spaceSeparatedList0
  equi

theorem Equi.spaceSeparatedList1 {p : P α} {r : α → α} (h_p : Equi ρ p r) :
    Equi ρ (Pddl.spaceSeparatedList1 p) (List.map r) := by
  unfold Pddl.spaceSeparatedList1
  equi

theorem Equi.parens {p : P α} {r : α → α} (h_p : Equi ρ p r) :
    Equi ρ (Pddl.parens p) r := by
  unfold Pddl.parens
  equi

theorem Equi.emptyOr {p : P α} {r : α → α} (h_p : Equi ρ p r) :
    Equi ρ (Pddl.emptyOr p) (Option.map r) := by
  unfold Pddl.emptyOr
  equi

theorem parseName_equi : Equi ρ parseName (Name.rename ρ) := by
  have : parseName = ws wordRes := funext fun s => by rw [parseName_eq, ws_eq]
  rw [this]
  exact Equi.wordRes.ws

theorem parseNumber_equi : Equi ρ parseNumber id := Equi.number

theorem parseObject_equi (ho : ρ c!"object" = c!"object") : Equi ρ parseObject (Name.rename ρ) := by
  have : parseObject = value (Name.new c!"object") (tag c!"object") := by
    funext s
    simp only [parseObject, Pddl.map, Pddl.value, Pddl.tag]
    cases stripPrefix c!"object" s <;> rfl
  rw [this]
  refine Equi.value (Equi.tag (k := c!"object") (by decide)).mute ?_
  rw [Name.rename, Equi.new_text, if_pos ho]

theorem object_mapNames (ho : ρ c!"object" = c!"object") : Ty.object.mapNames (Name.rename ρ) = Ty.object := by
  have : Name.rename ρ (Name.newStatic c!"object") = Name.newStatic c!"object" := by
    exact if_pos ho
  simp only [Ty.object, Ty.mapNames, this]

theorem number_mapNames (hn : ρ c!"number" = c!"number") : Ty.number.mapNames (Name.rename ρ) = Ty.number := by
  have : Name.rename ρ (Name.newStatic c!"number") = Name.newStatic c!"number" := by
    exact if_pos hn
  simp only [Ty.number, Ty.mapNames, this]

theorem parseVariable_equi : Equi ρ parseVariable (Name.rename ρ) := by
  unfold parseVariable
  equi

theorem parsePredicate_equi : Equi ρ parsePredicate (Name.rename ρ) := by
  unfold parsePredicate
  equi

theorem parseFunctionSymbol_equi : Equi ρ parseFunctionSymbol (Name.rename ρ) := by
  unfold parseFunctionSymbol
  equi

theorem parseActionSymbol_equi : Equi ρ parseActionSymbol (Name.rename ρ) := by
  unfold parseActionSymbol
  equi

theorem parseDaSymbol_equi : Equi ρ parseDaSymbol (Name.rename ρ) := by
  unfold parseDaSymbol
  equi

theorem parsePrefName_equi : Equi ρ parsePrefName (Name.rename ρ) := by
  unfold parsePrefName
  equi

theorem parsePrimitiveType_equi (ho : ρ c!"object" = c!"object") : Equi ρ parsePrimitiveType (Name.rename ρ) := by
  unfold parsePrimitiveType
  equi

theorem parseEitherType_equi (ho : ρ c!"object" = c!"object") : Equi ρ parseEitherType (List.map (Name.rename ρ)) := by
  unfold parseEitherType
  equi

theorem parseType_equi (ho : ρ c!"object" = c!"object") : Equi ρ parseType (Ty.mapNames (Name.rename ρ)) := by
  unfold parseType
  exact (parsePrimitiveType_equi ho).ifOk (fun _ => rfl) ((parseEitherType_equi ho).ifOk (fun _ => rfl) fun _ _ _ => trivial)

theorem parseFunctionType_equi (ho : ρ c!"object" = c!"object") : Equi ρ parseFunctionType (Ty.mapNames (Name.rename ρ)) := by
  unfold parseFunctionType
  equi

theorem Equi.explicitlyTyped (ho : ρ c!"object" = c!"object") {p : P α} {r : α → α} (h : Equi ρ p r) :
    Equi ρ (Pddl.explicitlyTyped p) (List.map (Typed.mapNames (Name.rename ρ) r)) := by
  unfold Pddl.explicitlyTyped
  equi

theorem Equi.typedList (ho : ρ c!"object" = c!"object") {p : P α} {r : α → α} (h : Equi ρ p r) :
    Equi ρ (Pddl.typedList p) (List.map (Typed.mapNames (Name.rename ρ) r)) := by
  unfold Pddl.typedList
  have hx := Equi.explicitlyTyped ho h
  have : ∀ o, Typed.mk (r o) Ty.object = Typed.mapNames (Name.rename ρ) r (Typed.mk o Ty.object) := fun o => by
    rw [Typed.mapNames, object_mapNames ho]
  refine Equi.map ((hx.many0.map (q := List.map (Typed.mapNames (Name.rename ρ) r)) fun a => List.map_flatten.symm).pair
    (h.map (q := Typed.mapNames (Name.rename ρ) r) this).spaceSeparatedList0) fun a => ?_
  simp [Prod.map]

theorem Equi.functionTypedList (ho : ρ c!"object" = c!"object") (hn : ρ c!"number" = c!"number") {p : P α} {r : α → α} (h : Equi ρ p r) :
    Equi ρ (Pddl.functionTypedList p) (List.map (Typed.mapNames (Name.rename ρ) r)) := by
  unfold Pddl.functionTypedList
  have hx := Equi.explicitlyTyped ho h
  have : ∀ o, Typed.mk (r o) Ty.number = Typed.mapNames (Name.rename ρ) r (Typed.mk o Ty.number) := fun o => by
    rw [Typed.mapNames, number_mapNames hn]
  refine Equi.map ((hx.many0.map (q := List.map (Typed.mapNames (Name.rename ρ) r)) fun a => List.map_flatten.symm).pair
    (h.map (q := Typed.mapNames (Name.rename ρ) r) this).spaceSeparatedList0) fun a => ?_
  simp [Prod.map]

theorem Equi.functionTermOf {self : P Term} (h : Equi ρ self (Term.mapNames (Name.rename ρ))) :
    Equi ρ (Pddl.functionTermOf self) (FunctionTerm.mapNames (Name.rename ρ)) := by
  unfold Pddl.functionTermOf
  equi

theorem Equi.termBody {self : P Term} (h : Equi ρ self (Term.mapNames (Name.rename ρ))) : Equi ρ (Pddl.termBody self) (Term.mapNames (Name.rename ρ)) := by
  unfold Pddl.termBody
  exact parseVariable_equi.ifOk (fun _ => by simp [Term.mapNames]) (parseName_equi.ifOk (fun _ => by simp [Term.mapNames])
    (h.functionTermOf.ifOk (fun _ => by simp [Term.mapNames, Term.mapNamesL_eq, FunctionTerm.mapNames]) fun _ _ _ => trivial))

theorem parseTerm_equi : Equi ρ parseTerm (Term.mapNames (Name.rename ρ)) := Equi.fix termBody_good fun _ h => h.termBody

theorem parseFunctionTerm_equi : Equi ρ parseFunctionTerm (FunctionTerm.mapNames (Name.rename ρ)) := by
  unfold parseFunctionTerm
  equi

theorem Equi.atomicFormula {p : P α} {r : α → α} (h_p : Equi ρ p r) :
    Equi ρ (Pddl.atomicFormula p) (AtomicFormula.mapNames (Name.rename ρ) r) := by
  unfold Pddl.atomicFormula
  equi

theorem Equi.literal {p : P α} {r : α → α} (h_p : Equi ρ p r) :
    Equi ρ (Pddl.literal p) (Literal.mapNames (Name.rename ρ) r) := by
  unfold Pddl.literal
  equi

theorem parseAtomicFormulaSkeleton_equi (ho : ρ c!"object" = c!"object") : Equi ρ parseAtomicFormulaSkeleton (Skeleton.mapNames (Name.rename ρ)) := by
  unfold parseAtomicFormulaSkeleton
  equi

theorem parseAtomicFunctionSkeleton_equi (ho : ρ c!"object" = c!"object") : Equi ρ parseAtomicFunctionSkeleton (Skeleton.mapNames (Name.rename ρ)) := by
  unfold parseAtomicFunctionSkeleton
  equi

theorem parseBasicFunctionTerm_equi : Equi ρ parseBasicFunctionTerm (BasicFunctionTerm.mapNames (Name.rename ρ)) := by
  unfold parseBasicFunctionTerm
  equi

theorem parseFHead_equi : Equi ρ parseFHead (FHead.mapNames (Name.rename ρ)) := by
  unfold parseFHead
  equi

theorem parseMultiOp_equi : Equi ρ parseMultiOp id := by
  unfold parseMultiOp
  equi

theorem parseBinaryOp_equi : Equi ρ parseBinaryOp id := by
  unfold parseBinaryOp
  equi

theorem parseBinaryComp_equi : Equi ρ parseBinaryComp id := by
  unfold parseBinaryComp
  equi

theorem parseAssignOp_equi : Equi ρ parseAssignOp id := by
  unfold parseAssignOp
  equi

theorem parseAssignOpT_equi : Equi ρ parseAssignOpT id := by
  unfold parseAssignOpT
  equi

theorem parseDOp_equi : Equi ρ parseDOp id := by
  unfold parseDOp
  equi

theorem parseOptimization_equi : Equi ρ parseOptimization id := by
  unfold parseOptimization
  equi

theorem parseTimeSpecifier_equi : Equi ρ parseTimeSpecifier id := by
  unfold parseTimeSpecifier
  equi

theorem parseInterval_equi : Equi ρ parseInterval id := by
  unfold parseInterval
  equi

theorem Equi.fExpBody {self : P FExp} (h : Equi ρ self (FExp.mapNames (Name.rename ρ))) : Equi ρ (Pddl.fExpBody self) (FExp.mapNames (Name.rename ρ)) := by
  unfold Pddl.fExpBody
  equi

theorem parseFExp_equi : Equi ρ parseFExp (FExp.mapNames (Name.rename ρ)) := Equi.fix fExpBody_good fun _ h => h.fExpBody

theorem parseFComp_equi : Equi ρ parseFComp (FComp.mapNames (Name.rename ρ)) := by
  unfold parseFComp
  equi

theorem parseVarList_equi (ho : ρ c!"object" = c!"object") : Equi ρ parseVarList (varsMapNames (Name.rename ρ)) := by
  unfold parseVarList
  show Equi ρ _ (List.map (Typed.mapNames _ _))
  equi

theorem Equi.gdBody (ho : ρ c!"object" = c!"object") {self : P GD} (h : Equi ρ self (GD.mapNames (Name.rename ρ))) : Equi ρ (Pddl.gdBody self) (GD.mapNames (Name.rename ρ)) := by
  unfold Pddl.gdBody
  equi

theorem parseGd_equi (ho : ρ c!"object" = c!"object") : Equi ρ parseGd (GD.mapNames (Name.rename ρ)) := Equi.fix gdBody_good fun _ h => Equi.gdBody ho h

theorem parsePrefGd_equi (ho : ρ c!"object" = c!"object") : Equi ρ parsePrefGd (PrefGD.mapNames (Name.rename ρ)) := by
  unfold parsePrefGd
  equi

theorem Equi.preGdBody (ho : ρ c!"object" = c!"object") {self : P (List PreGD)} (h : Equi ρ self (List.map (PreGD.mapNames (Name.rename ρ)))) : Equi ρ (Pddl.preGdBody self) (List.map (PreGD.mapNames (Name.rename ρ))) := by
  unfold Pddl.preGdBody
  equi

theorem parsePreGd_equi (ho : ρ c!"object" = c!"object") : Equi ρ parsePreGd (List.map (PreGD.mapNames (Name.rename ρ))) := Equi.fix preGdBody_good fun _ h => Equi.preGdBody ho h

theorem parseProblemGoalDef_equi (ho : ρ c!"object" = c!"object") : Equi ρ parseProblemGoalDef (List.map (PreGD.mapNames (Name.rename ρ))) := by
  unfold parseProblemGoalDef
  equi

theorem Equi.con2Of (ho : ρ c!"object" = c!"object") {self : P ConGD} (h : Equi ρ self (ConGD.mapNames (Name.rename ρ))) :
    Equi ρ (Pddl.con2Of self) (Con2GD.mapNames (Name.rename ρ)) := by
  unfold Pddl.con2Of
  equi

theorem Equi.conGdBody (ho : ρ c!"object" = c!"object") {self : P ConGD} (h : Equi ρ self (ConGD.mapNames (Name.rename ρ))) : Equi ρ (Pddl.conGdBody self) (ConGD.mapNames (Name.rename ρ)) := by
  unfold Pddl.conGdBody
  equi

theorem parseConGd_equi (ho : ρ c!"object" = c!"object") : Equi ρ parseConGd (ConGD.mapNames (Name.rename ρ)) := Equi.fix conGdBody_good fun _ h => Equi.conGdBody ho h

theorem parseCon2Gd_equi (ho : ρ c!"object" = c!"object") : Equi ρ parseCon2Gd (Con2GD.mapNames (Name.rename ρ)) := by
  unfold parseCon2Gd
  equi

theorem Equi.prefConGdBody (ho : ρ c!"object" = c!"object") {self : P (List PrefConGD)} (h : Equi ρ self (List.map (PrefConGD.mapNames (Name.rename ρ)))) : Equi ρ (Pddl.prefConGdBody self) (List.map (PrefConGD.mapNames (Name.rename ρ))) := by
  unfold Pddl.prefConGdBody
  equi

theorem parsePrefConGd_equi (ho : ρ c!"object" = c!"object") : Equi ρ parsePrefConGd (List.map (PrefConGD.mapNames (Name.rename ρ))) := Equi.fix prefConGdBody_good fun _ h => Equi.prefConGdBody ho h

theorem parseDomainConstraintsDef_equi (ho : ρ c!"object" = c!"object") : Equi ρ parseDomainConstraintsDef (ConGD.mapNames (Name.rename ρ)) := by
  unfold parseDomainConstraintsDef
  equi

theorem parseProblemConstraintsDef_equi (ho : ρ c!"object" = c!"object") : Equi ρ parseProblemConstraintsDef (List.map (PrefConGD.mapNames (Name.rename ρ))) := by
  unfold parseProblemConstraintsDef
  equi

theorem parsePEffect_equi : Equi ρ parsePEffect (PEffect.mapNames (Name.rename ρ)) := by
  unfold parsePEffect
  equi

theorem parseCondEffect_equi : Equi ρ parseCondEffect (CondEffect.mapNames (Name.rename ρ)) := by
  unfold parseCondEffect
  equi

theorem Equi.effectOf {self : P CEffect} (h : Equi ρ self (CEffect.mapNames (Name.rename ρ))) :
    Equi ρ (Pddl.effectOf self) (List.map (CEffect.mapNames (Name.rename ρ))) := by
  unfold Pddl.effectOf
  equi

theorem Equi.forallCEffectOf (ho : ρ c!"object" = c!"object") {self : P CEffect} (h : Equi ρ self (CEffect.mapNames (Name.rename ρ))) :
    Equi ρ (Pddl.forallCEffectOf self) (Prod.map (varsMapNames (Name.rename ρ)) (List.map (CEffect.mapNames (Name.rename ρ)))) := by
  unfold Pddl.forallCEffectOf
  equi

theorem parseWhenCEffect_equi (ho : ρ c!"object" = c!"object") : Equi ρ parseWhenCEffect (Prod.map (GD.mapNames (Name.rename ρ)) (CondEffect.mapNames (Name.rename ρ))) := by
  unfold parseWhenCEffect
  equi

theorem Equi.cEffectBody (ho : ρ c!"object" = c!"object") {self : P CEffect} (h : Equi ρ self (CEffect.mapNames (Name.rename ρ))) : Equi ρ (Pddl.cEffectBody self) (CEffect.mapNames (Name.rename ρ)) := by
  unfold Pddl.cEffectBody
  equi

theorem parseCEffect_equi (ho : ρ c!"object" = c!"object") : Equi ρ parseCEffect (CEffect.mapNames (Name.rename ρ)) := Equi.fix cEffectBody_good fun _ h => Equi.cEffectBody ho h

theorem parseEffect_equi (ho : ρ c!"object" = c!"object") : Equi ρ parseEffect (List.map (CEffect.mapNames (Name.rename ρ))) := by
  unfold parseEffect
  equi

theorem parseForallCEffect_equi (ho : ρ c!"object" = c!"object") : Equi ρ parseForallCEffect (Prod.map (varsMapNames (Name.rename ρ)) (List.map (CEffect.mapNames (Name.rename ρ)))) := by
  unfold parseForallCEffect
  equi

theorem parseParameters_equi (ho : ρ c!"object" = c!"object") : Equi ρ parseParameters (varsMapNames (Name.rename ρ)) := by
  unfold parseParameters
  equi

theorem parseActionDef_equi (ho : ρ c!"object" = c!"object") : Equi ρ parseActionDef (ActionDef.mapNames (Name.rename ρ)) := by
  unfold parseActionDef
  repeat' equi_step
  all_goals first | assumption | decide | skip
  rintro ⟨n, vs, pre, eff⟩
  rcases pre with _ | _ | pre <;> rcases eff with _ | _ | eff <;> rfl

theorem parseDerivedPredicate_equi (ho : ρ c!"object" = c!"object") : Equi ρ parseDerivedPredicate (DerivedPredicate.mapNames (Name.rename ρ)) := by
  unfold parseDerivedPredicate
  equi

theorem parseTimedGd_equi (ho : ρ c!"object" = c!"object") : Equi ρ parseTimedGd (TimedGD.mapNames (Name.rename ρ)) := by
  unfold parseTimedGd
  equi

theorem parsePrefTimedGd_equi (ho : ρ c!"object" = c!"object") : Equi ρ parsePrefTimedGd (PrefTimedGD.mapNames (Name.rename ρ)) := by
  unfold parsePrefTimedGd
  equi

theorem Equi.daGdBody (ho : ρ c!"object" = c!"object") {self : P DaGD} (h : Equi ρ self (DaGD.mapNames (Name.rename ρ))) : Equi ρ (Pddl.daGdBody self) (DaGD.mapNames (Name.rename ρ)) := by
  unfold Pddl.daGdBody
  equi

theorem parseDaGd_equi (ho : ρ c!"object" = c!"object") : Equi ρ parseDaGd (DaGD.mapNames (Name.rename ρ)) := Equi.fix daGdBody_good fun _ h => Equi.daGdBody ho h

theorem Equi.fExpDaBody {self : P FExpDa} (h : Equi ρ self (FExpDa.mapNames (Name.rename ρ))) : Equi ρ (Pddl.fExpDaBody self) (FExpDa.mapNames (Name.rename ρ)) := by
  unfold Pddl.fExpDaBody
  equi

theorem parseFExpDa_equi : Equi ρ parseFExpDa (FExpDa.mapNames (Name.rename ρ)) := Equi.fix fExpDaBody_good fun _ h => h.fExpDaBody

theorem parseFAssignDa_equi : Equi ρ parseFAssignDa (FAssignDa.mapNames (Name.rename ρ)) := by
  unfold parseFAssignDa
  equi

theorem parseFExpT_equi : Equi ρ parseFExpT (FExpT.mapNames (Name.rename ρ)) := by
  unfold parseFExpT
  equi

theorem parseTimedEffect_equi : Equi ρ parseTimedEffect (TimedEffect.mapNames (Name.rename ρ)) := by
  unfold parseTimedEffect
  equi

theorem Equi.daEffectBody (ho : ρ c!"object" = c!"object") {self : P DaEffect} (h : Equi ρ self (DaEffect.mapNames (Name.rename ρ))) : Equi ρ (Pddl.daEffectBody self) (DaEffect.mapNames (Name.rename ρ)) := by
  unfold Pddl.daEffectBody
  equi

theorem parseDaEffect_equi (ho : ρ c!"object" = c!"object") : Equi ρ parseDaEffect (DaEffect.mapNames (Name.rename ρ)) := Equi.fix daEffectBody_good fun _ h => Equi.daEffectBody ho h

theorem parseDValue_equi : Equi ρ parseDValue (DurationValue.mapNames (Name.rename ρ)) := by
  unfold parseDValue
  equi

theorem Equi.simpleDurationBody {self : P SimpleDuration} (h : Equi ρ self (SimpleDuration.mapNames (Name.rename ρ))) : Equi ρ (Pddl.simpleDurationBody self) (SimpleDuration.mapNames (Name.rename ρ)) := by
  unfold Pddl.simpleDurationBody
  equi

theorem parseSimpleDuration_equi : Equi ρ parseSimpleDuration (SimpleDuration.mapNames (Name.rename ρ)) := Equi.fix simpleDurationBody_good fun _ h => h.simpleDurationBody

theorem newAll_mapNames (φ : Name → Name) (cs : List SimpleDuration) :
    DurationConstraint.newAll (cs.map (SimpleDuration.mapNames φ)) =
      (DurationConstraint.newAll cs).map (DurationConstraint.mapNames φ) := by
  cases cs <;> rfl

theorem newMultiOp_mapNames (φ : Name → Name) (op a) (bs : List MetricFExp) :
    MetricFExp.newMultiOp op (MetricFExp.mapNames φ a) (bs.map (MetricFExp.mapNames φ)) =
      (MetricFExp.newMultiOp op a bs).map (MetricFExp.mapNames φ) := by
  cases bs <;> simp [MetricFExp.newMultiOp, MetricFExp.mapNames, MetricFExp.mapNamesL_eq]

theorem parseDurationConstraint_equi : Equi ρ parseDurationConstraint (Option.map (DurationConstraint.mapNames (Name.rename ρ))) := by
  unfold parseDurationConstraint
  repeat' equi_step
  all_goals first | assumption | decide | exact fun _ => rfl | skip
  intro cs
  rw [newAll_mapNames]
  cases DurationConstraint.newAll cs <;> rfl

theorem parseDaDef_equi (ho : ρ c!"object" = c!"object") : Equi ρ parseDaDef (DaDef.mapNames (Name.rename ρ)) := by
  unfold parseDaDef
  equi

theorem parseStructureDef_equi (ho : ρ c!"object" = c!"object") : Equi ρ parseStructureDef (StructureDef.mapNames (Name.rename ρ)) := by
  unfold parseStructureDef
  equi

theorem parseRequireKey_equi : Equi ρ parseRequireKey id := by
  unfold parseRequireKey
  simp only [requireTags, List.map]
  equi

theorem parseRequireDef_equi : Equi ρ parseRequireDef id := by
  unfold parseRequireDef
  rw [← List.map_id_fun]
  equi

theorem parseTypesDef_equi (ho : ρ c!"object" = c!"object") : Equi ρ parseTypesDef (varsMapNames (Name.rename ρ)) := by
  unfold parseTypesDef
  show Equi ρ _ (List.map (Typed.mapNames _ _))
  equi

theorem parseConstantsDef_equi (ho : ρ c!"object" = c!"object") : Equi ρ parseConstantsDef (varsMapNames (Name.rename ρ)) := by
  unfold parseConstantsDef
  show Equi ρ _ (List.map (Typed.mapNames _ _))
  equi

theorem parseProblemObjectsDeclaration_equi (ho : ρ c!"object" = c!"object") : Equi ρ parseProblemObjectsDeclaration (varsMapNames (Name.rename ρ)) := by
  unfold parseProblemObjectsDeclaration
  show Equi ρ _ (List.map (Typed.mapNames _ _))
  equi

theorem parsePredicatesDef_equi (ho : ρ c!"object" = c!"object") : Equi ρ parsePredicatesDef (List.map (Skeleton.mapNames (Name.rename ρ))) := by
  unfold parsePredicatesDef
  equi

theorem parseFunctionsDef_equi (ho : ρ c!"object" = c!"object") (hn : ρ c!"number" = c!"number") : Equi ρ parseFunctionsDef (List.map (Typed.mapNames (Name.rename ρ) (Skeleton.mapNames (Name.rename ρ)))) := by
  unfold parseFunctionsDef
  equi

theorem parseTimelessDef_equi : Equi ρ parseTimelessDef (List.map (Literal.mapNames (Name.rename ρ) (Name.rename ρ))) := by
  unfold parseTimelessDef
  equi

theorem parseInitEl_equi : Equi ρ parseInitEl (InitElement.mapNames (Name.rename ρ)) := by
  unfold parseInitEl
  equi

theorem parseProblemInitDef_equi : Equi ρ parseProblemInitDef (List.map (InitElement.mapNames (Name.rename ρ))) := by
  unfold parseProblemInitDef
  equi

theorem parseProblemLengthSpec_equi : Equi ρ parseProblemLengthSpec id := by
  unfold parseProblemLengthSpec
  equi

theorem Equi.metricFExpBody {self : P MetricFExp} (h : Equi ρ self (MetricFExp.mapNames (Name.rename ρ))) :
    Equi ρ (Pddl.metricFExpBody self) (MetricFExp.mapNames (Name.rename ρ)) := by
  unfold Pddl.metricFExpBody
  repeat' equi_step
  all_goals first | assumption | decide | exact fun _ => rfl | skip
  · exact fun _ => newMultiOp_mapNames _ _ _ _
  all_goals simp [MetricFExp.mapNames]

theorem parseMetricFExp_equi : Equi ρ parseMetricFExp (MetricFExp.mapNames (Name.rename ρ)) := Equi.fix metricFExpBody_good fun _ h => h.metricFExpBody

theorem parseProblemMetricSpec_equi : Equi ρ parseProblemMetricSpec (MetricSpec.mapNames (Name.rename ρ)) := by
  unfold parseProblemMetricSpec
  equi

theorem parseDomain_equi (ho : ρ c!"object" = c!"object") (hn : ρ c!"number" = c!"number") : Equi ρ parseDomain (Domain.mapNames (Name.rename ρ)) := by
  unfold parseDomain domainParts
  repeat' equi_step
  all_goals first | assumption | decide | skip
  rintro ⟨name, ext, req, types, constants, predicates, functions, constraints, structure_⟩
  cases ext <;> cases req <;> cases types <;> cases constants <;> cases predicates <;> cases functions <;>
    cases constraints <;> cases structure_ <;> rfl

theorem parseProblem_equi (ho : ρ c!"object" = c!"object") : Equi ρ parseProblem (Problem.mapNames (Name.rename ρ)) := by
  unfold parseProblem problemParts
  repeat' equi_step
  all_goals first | assumption | decide | skip
  rintro ⟨name, domain, reqs, objects, init, goal, constraints, metric, length⟩
  cases reqs <;> cases objects <;> cases constraints <;> cases metric <;> cases length <;> rfl

end Pddl
