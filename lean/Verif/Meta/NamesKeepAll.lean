import Verif.Meta.NamesKeep

/-!
# Meta-theory: the names in the value of every parser have been made
-/

namespace Pddl
open Parts

theorem Ty.nodes_exactly (n : Name) : (Ty.exactly n).nodes = [.ty (.exactly n)] := rfl
theorem Ty.nodes_either (ns : List Name) : (Ty.eitherOf ns).nodes = .ty (.eitherOf ns) :: ns.map .name := rfl

namespace NoNew

theorem flatten [Parts α] : NoNew (List.flatten : List (List α) → List α) := fun l a h => by
  simp only [parts, AllFrom.flatMap, List.mem_flatten] at h ⊢
  exact fun x ⟨xs, hxs, hx⟩ => h xs hxs x hx

theorem append [Parts α] : NoNew (fun x : TypedList α × TypedList α => x.1 ++ x.2) := fun l a h => by
  simp only [parts, AllFrom.append, AllFrom.flatMap, List.mem_append] at h ⊢
  exact fun x hx => hx.elim (h.1 x) (h.2 x)

theorem object [Parts α] : NoNew (fun o : α => Typed.mk o Ty.object) := fun l a h =>
  AllFrom.append.2 ⟨h, AllFrom.cons.2 ⟨.inr (.inl rfl), .nil⟩⟩

theorem number [Parts α] : NoNew (fun o : α => Typed.mk o Ty.number) := fun l a h =>
  AllFrom.append.2 ⟨h, AllFrom.cons.2 ⟨.inr (.inr rfl), .nil⟩⟩

end NoNew

/-- The names in a value, by the names in its parts. -/
macro "parts_simp" loc:(Lean.Parser.Tactic.location)? : tactic => `(tactic|
  simp [parts, Ty.nodes_exactly, Ty.nodes_either, Name.nodes, Term.nodes, FunctionTerm.nodes, Skeleton.nodes, BasicFunctionTerm.nodes, FHead.nodes, FExp.nodes, FExpDa.nodes, FExpT.nodes, FComp.nodes, FAssignDa.nodes, MetricFExp.nodes, GD.nodes, PrefGD.nodes, PreGD.nodes, ConGD.nodes, Con2GD.nodes, PrefConGD.nodes, PEffect.nodes, CondEffect.nodes, CEffect.nodes, ActionDef.nodes, DerivedPredicate.nodes, TimedGD.nodes, PrefTimedGD.nodes, DaGD.nodes, TimedEffect.nodes, DaEffect.nodes, DurationValue.nodes, SimpleDuration.nodes, DurationConstraint.nodes, DaDef.nodes, StructureDef.nodes, InitElement.nodes, MetricSpec.nodes, Domain.nodes, Problem.nodes, Term.nodesL_flat, FExp.nodesL_flat, FExpDa.nodesL_flat, MetricFExp.nodesL_flat, GD.nodesL_flat, PreGD.nodesL_flat, ConGD.nodesL_flat, PrefConGD.nodesL_flat, CEffect.nodesL_flat, DaGD.nodesL_flat, DaEffect.nodesL_flat, AtomicFormula.nodes, Literal.nodes, typedNodes, varNodes, optNameNodes, AllFrom.nil, AllFrom.cons, AllFrom.append,
    AllFrom.flatMap, AllFrom.names, Node.From] $[$loc]?)

/-- A function that only stores its argument adds no names. -/
macro "no_new" : tactic => `(tactic| (
  intro l a h
  simp [parts, Ty.nodes_exactly, Ty.nodes_either, Name.nodes, Term.nodes, FunctionTerm.nodes, Skeleton.nodes, BasicFunctionTerm.nodes, FHead.nodes, FExp.nodes, FExpDa.nodes, FExpT.nodes, FComp.nodes, FAssignDa.nodes, MetricFExp.nodes, GD.nodes, PrefGD.nodes, PreGD.nodes, ConGD.nodes, Con2GD.nodes, PrefConGD.nodes, PEffect.nodes, CondEffect.nodes, CEffect.nodes, ActionDef.nodes, DerivedPredicate.nodes, TimedGD.nodes, PrefTimedGD.nodes, DaGD.nodes, TimedEffect.nodes, DaEffect.nodes, DurationValue.nodes, SimpleDuration.nodes, DurationConstraint.nodes, DaDef.nodes, StructureDef.nodes, InitElement.nodes, MetricSpec.nodes, Domain.nodes, Problem.nodes, Term.nodesL_flat, FExp.nodesL_flat, FExpDa.nodesL_flat, MetricFExp.nodesL_flat, GD.nodesL_flat, PreGD.nodesL_flat, ConGD.nodesL_flat, PrefConGD.nodesL_flat, CEffect.nodesL_flat, DaGD.nodesL_flat, DaEffect.nodesL_flat, AtomicFormula.nodes, Literal.nodes, typedNodes, varNodes, optNameNodes, AllFrom.nil, AllFrom.cons, AllFrom.append,
    AllFrom.flatMap, AllFrom.names, Node.From] at h ⊢ <;> simp_all))

namespace NoNew

theorem action : NoNew (fun x : Name × TypedList Name × Option (Option (List PreGD)) ×
    Option (Option (List CEffect)) =>
      ActionDef.mk x.1 x.2.1 (x.2.2.1.join.getD []) x.2.2.2.join) := by
  rintro l ⟨n, vs, _ | _ | g, _ | _ | e⟩ h <;> revert h <;> revert l <;>
  exact fun l h => by
    parts_simp at h ⊢
    simp_all

theorem newAll : NoNew (fun cs => (DurationConstraint.newAll cs).map some) := by
  intro l cs h
  unfold DurationConstraint.newAll
  dsimp only
  split <;> parts_simp at h ⊢
  exact h

theorem newMultiOp : NoNew (fun x : MultiOp × MetricFExp × List MetricFExp =>
    MetricFExp.newMultiOp x.1 x.2.1 x.2.2) := by
  intro l x h
  unfold MetricFExp.newMultiOp
  dsimp only
  split <;> parts_simp at h ⊢
  exact h

theorem getD [Parts α] {l : List (List Char)} {o : Option (List α)} (h : AllFrom l (parts o)) :
    AllFrom l (parts (o.getD [])) := by
  cases o with
  | none => exact .nil
  | some x => exact AllFrom.flatMap.1 h x (by simp)

theorem domainOf : NoNew Pddl.domainOf := by
  rintro l ⟨name, ext, req, types, constants, predicates, functions, constraints, structure_⟩ h
  have h : AllFrom l (parts name ++ (parts ext ++ (parts req ++ (parts types ++ (parts constants ++
    (parts predicates ++ (parts functions ++ (parts constraints ++ parts structure_)))))))) := h
  simp only [AllFrom.append] at h
  obtain ⟨h1, h2, _, h3, h4, h5, h6, h7, h8⟩ := h
  show AllFrom l (_ :: _)
  have h7' : AllFrom l (constraints.getD (.and [])).nodes := by
    cases constraints with
    | none => exact .nil
    | some x => exact AllFrom.flatMap.1 h7 x (by simp)
  refine AllFrom.cons.2 ⟨(AllFrom.cons.1 h1).1, AllFrom.append.2 ⟨?_, AllFrom.append.2 ⟨getD h3,
    AllFrom.append.2 ⟨getD h4, AllFrom.append.2 ⟨getD h5, AllFrom.append.2 ⟨getD h6,
    AllFrom.append.2 ⟨h7', AllFrom.append.2 ⟨.nil, getD h8⟩⟩⟩⟩⟩⟩⟩⟩
  have h2 := getD h2
  parts_simp at h2 ⊢
  exact h2

theorem problemOf : NoNew Pddl.problemOf := by
  rintro l ⟨name, domain, reqs, objects, init, goal, constraints, metric, length⟩ h
  have h : AllFrom l (parts name ++ (parts domain ++ (parts reqs ++ (parts objects ++ (parts init ++
    (parts goal ++ (parts constraints ++ (parts metric ++ parts length)))))))) := h
  simp only [AllFrom.append] at h
  obtain ⟨h1, h2, _, h3, h4, h5, h6, h7, _⟩ := h
  show AllFrom l (_ :: _ :: _)
  refine AllFrom.cons.2 ⟨(AllFrom.cons.1 h1).1, AllFrom.cons.2 ⟨(AllFrom.cons.1 h2).1,
    AllFrom.append.2 ⟨getD h3, AllFrom.append.2 ⟨h4, AllFrom.append.2 ⟨?_, AllFrom.append.2 ⟨?_, h7⟩⟩⟩⟩⟩⟩
  · rw [PreGD.nodesL_flat]
    exact h5
  · rw [PrefConGD.nodesL_flat]
    exact getD h6

end NoNew

/-- The rules for the combinators. -/
macro "keep" : tactic => `(tactic| (repeat' made_step) <;> first
  | assumption
  | exact NoNew.flatten
  | exact NoNew.append
  | exact NoNew.object
  | exact NoNew.number
  | exact NoNew.action
  | exact NoNew.newAll
  | exact NoNew.newMultiOp
  | exact NoNew.domainOf
  | exact NoNew.problemOf
  | no_new)

theorem parseName_keeps : Keeps N.parseName := .new

theorem parseObject_keeps : Keeps N.parseObject := .new

theorem parseVariable_keeps : Keeps N.parseVariable := by
  unfold N.parseVariable
  keep

theorem parsePredicate_keeps : Keeps N.parsePredicate := by
  unfold N.parsePredicate
  keep

theorem parseFunctionSymbol_keeps : Keeps N.parseFunctionSymbol := by
  unfold N.parseFunctionSymbol
  keep

theorem parseActionSymbol_keeps : Keeps N.parseActionSymbol := by
  unfold N.parseActionSymbol
  keep

theorem parseDaSymbol_keeps : Keeps N.parseDaSymbol := by
  unfold N.parseDaSymbol
  keep

theorem parsePrefName_keeps : Keeps N.parsePrefName := by
  unfold N.parsePrefName
  keep

theorem parseNumber_keeps : Keeps N.parseNumber := .quiet fun _ => rfl

theorem parsePrimitiveType_keeps : Keeps N.parsePrimitiveType := by
  unfold N.parsePrimitiveType
  keep

theorem parseEitherType_keeps : Keeps N.parseEitherType := by
  unfold N.parseEitherType
  keep

theorem parseType_keeps : Keeps N.parseType := by
  unfold N.parseType
  keep

theorem Keeps.explicitlyTyped [Parts α] {p : N.P α} (h : Keeps p) : Keeps (N.explicitlyTyped p) := by
  unfold N.explicitlyTyped
  keep

theorem Keeps.typedList [Parts α] {p : N.P α} (h : Keeps p) : Keeps (N.typedList p) := by
  unfold N.typedList
  keep

theorem Keeps.functionTypedList [Parts α] {p : N.P α} (h : Keeps p) : Keeps (N.functionTypedList p) := by
  unfold N.functionTypedList
  keep

theorem parseFunctionType_keeps : Keeps N.parseFunctionType := by
  unfold N.parseFunctionType
  keep

theorem Keeps.functionTermOf {p : N.P Term} (h : Keeps p) : Keeps (N.functionTermOf p) := by
  unfold N.functionTermOf
  keep

theorem parseTerm_keeps : Keeps N.parseTerm := .fix fun _ h => by
  unfold N.termBody
  keep

theorem parseFunctionTerm_keeps : Keeps N.parseFunctionTerm := by
  unfold N.parseFunctionTerm
  keep

theorem Keeps.atomicFormula [Parts α] {p : N.P α} (h : Keeps p) : Keeps (N.atomicFormula p) := by
  unfold N.atomicFormula
  keep

theorem Keeps.literal [Parts α] {p : N.P α} (h : Keeps p) : Keeps (N.literal p) := by
  unfold N.literal
  keep

theorem parseAtomicFormulaSkeleton_keeps : Keeps N.parseAtomicFormulaSkeleton := by
  unfold N.parseAtomicFormulaSkeleton
  keep

theorem parseAtomicFunctionSkeleton_keeps : Keeps N.parseAtomicFunctionSkeleton := by
  unfold N.parseAtomicFunctionSkeleton
  keep

theorem parseBasicFunctionTerm_keeps : Keeps N.parseBasicFunctionTerm := by
  unfold N.parseBasicFunctionTerm
  keep

theorem parseFHead_keeps : Keeps N.parseFHead := by
  unfold N.parseFHead
  keep

theorem parseMultiOp_keeps : Keeps N.parseMultiOp := .quiet fun _ => rfl

theorem parseBinaryOp_keeps : Keeps N.parseBinaryOp := .quiet fun _ => rfl

theorem parseBinaryComp_keeps : Keeps N.parseBinaryComp := .quiet fun _ => rfl

theorem parseAssignOp_keeps : Keeps N.parseAssignOp := .quiet fun _ => rfl

theorem parseAssignOpT_keeps : Keeps N.parseAssignOpT := .quiet fun _ => rfl

theorem parseDOp_keeps : Keeps N.parseDOp := .quiet fun _ => rfl

theorem parseOptimization_keeps : Keeps N.parseOptimization := .quiet fun _ => rfl

theorem parseTimeSpecifier_keeps : Keeps N.parseTimeSpecifier := .quiet fun _ => rfl

theorem parseInterval_keeps : Keeps N.parseInterval := .quiet fun _ => rfl

theorem parseFExp_keeps : Keeps N.parseFExp := .fix fun _ h => by
  unfold N.fExpBody
  keep

theorem parseFComp_keeps : Keeps N.parseFComp := by
  unfold N.parseFComp
  keep

theorem parseVarList_keeps : Keeps N.parseVarList := by
  unfold N.parseVarList
  keep

theorem parseGd_keeps : Keeps N.parseGd := .fix fun _ h => by
  unfold N.gdBody
  keep

theorem parsePrefGd_keeps : Keeps N.parsePrefGd := by
  unfold N.parsePrefGd
  keep

theorem parsePreGd_keeps : Keeps N.parsePreGd := .fix fun _ h => by
  unfold N.preGdBody
  keep

theorem parseProblemGoalDef_keeps : Keeps N.parseProblemGoalDef := by
  unfold N.parseProblemGoalDef
  keep

theorem Keeps.con2Of {p : N.P ConGD} (h : Keeps p) : Keeps (N.con2Of p) := by
  unfold N.con2Of
  keep

theorem parseConGd_keeps : Keeps N.parseConGd := .fix fun _ h => by
  unfold N.conGdBody
  keep

theorem parseCon2Gd_keeps : Keeps N.parseCon2Gd := by
  unfold N.parseCon2Gd
  keep

theorem parsePrefConGd_keeps : Keeps N.parsePrefConGd := .fix fun _ h => by
  unfold N.prefConGdBody
  keep

theorem parseDomainConstraintsDef_keeps : Keeps N.parseDomainConstraintsDef := by
  unfold N.parseDomainConstraintsDef
  keep

theorem parseProblemConstraintsDef_keeps : Keeps N.parseProblemConstraintsDef := by
  unfold N.parseProblemConstraintsDef
  keep

theorem parsePEffect_keeps : Keeps N.parsePEffect := by
  unfold N.parsePEffect
  keep

theorem parseCondEffect_keeps : Keeps N.parseCondEffect := by
  unfold N.parseCondEffect
  keep

theorem Keeps.effectOf {p : N.P CEffect} (h : Keeps p) : Keeps (N.effectOf p) := by
  unfold N.effectOf
  keep

theorem Keeps.forallCEffectOf {p : N.P CEffect} (h : Keeps p) : Keeps (N.forallCEffectOf p) := by
  unfold N.forallCEffectOf
  keep

theorem parseWhenCEffect_keeps : Keeps N.parseWhenCEffect := by
  unfold N.parseWhenCEffect
  keep

theorem parseCEffect_keeps : Keeps N.parseCEffect := .fix fun _ h => by
  unfold N.cEffectBody
  keep

theorem parseEffect_keeps : Keeps N.parseEffect := by
  unfold N.parseEffect
  keep

theorem parseForallCEffect_keeps : Keeps N.parseForallCEffect := by
  unfold N.parseForallCEffect
  keep

theorem parseParameters_keeps : Keeps N.parseParameters := by
  unfold N.parseParameters
  keep

theorem parseActionDef_keeps : Keeps N.parseActionDef := by
  unfold N.parseActionDef
  keep

theorem parseDerivedPredicate_keeps : Keeps N.parseDerivedPredicate := by
  unfold N.parseDerivedPredicate
  keep

theorem parseTimedGd_keeps : Keeps N.parseTimedGd := by
  unfold N.parseTimedGd
  keep

theorem parsePrefTimedGd_keeps : Keeps N.parsePrefTimedGd := by
  unfold N.parsePrefTimedGd
  keep

theorem parseDaGd_keeps : Keeps N.parseDaGd := .fix fun _ h => by
  unfold N.daGdBody
  keep

theorem parseFExpDa_keeps : Keeps N.parseFExpDa := .fix fun _ h => by
  unfold N.fExpDaBody
  keep

theorem parseFAssignDa_keeps : Keeps N.parseFAssignDa := by
  unfold N.parseFAssignDa
  keep

theorem parseFExpT_keeps : Keeps N.parseFExpT := by
  unfold N.parseFExpT
  keep

theorem parseTimedEffect_keeps : Keeps N.parseTimedEffect := by
  unfold N.parseTimedEffect
  keep

theorem parseDaEffect_keeps : Keeps N.parseDaEffect := .fix fun _ h => by
  unfold N.daEffectBody
  keep

theorem parseDValue_keeps : Keeps N.parseDValue := by
  unfold N.parseDValue
  keep

theorem parseSimpleDuration_keeps : Keeps N.parseSimpleDuration := .fix fun _ h => by
  unfold N.simpleDurationBody
  keep

theorem parseDurationConstraint_keeps : Keeps N.parseDurationConstraint := by
  unfold N.parseDurationConstraint
  keep

theorem parseDaDef_keeps : Keeps N.parseDaDef := by
  unfold N.parseDaDef
  keep

theorem parseStructureDef_keeps : Keeps N.parseStructureDef := by
  unfold N.parseStructureDef
  keep

theorem parseRequireKey_keeps : Keeps N.parseRequireKey := .quiet fun _ => rfl

theorem parseRequireDef_keeps : Keeps N.parseRequireDef := by
  unfold N.parseRequireDef
  keep

theorem parseTypesDef_keeps : Keeps N.parseTypesDef := by
  unfold N.parseTypesDef
  keep

theorem parseConstantsDef_keeps : Keeps N.parseConstantsDef := by
  unfold N.parseConstantsDef
  keep

theorem parseProblemObjectsDeclaration_keeps : Keeps N.parseProblemObjectsDeclaration := by
  unfold N.parseProblemObjectsDeclaration
  keep

theorem parsePredicatesDef_keeps : Keeps N.parsePredicatesDef := by
  unfold N.parsePredicatesDef
  keep

theorem parseFunctionsDef_keeps : Keeps N.parseFunctionsDef := by
  unfold N.parseFunctionsDef
  keep

theorem parseTimelessDef_keeps : Keeps N.parseTimelessDef := by
  unfold N.parseTimelessDef
  keep

theorem parseInitEl_keeps : Keeps N.parseInitEl := by
  unfold N.parseInitEl
  keep

theorem parseProblemInitDef_keeps : Keeps N.parseProblemInitDef := by
  unfold N.parseProblemInitDef
  keep

theorem parseProblemLengthSpec_keeps : Keeps N.parseProblemLengthSpec := .quiet fun _ => rfl

theorem parseMetricFExp_keeps : Keeps N.parseMetricFExp := .fix fun _ h => by
  unfold N.metricFExpBody
  keep

theorem parseProblemMetricSpec_keeps : Keeps N.parseProblemMetricSpec := by
  unfold N.parseProblemMetricSpec
  keep

theorem domainParts_keeps : Keeps N.domainParts := by
  unfold N.domainParts
  keep

theorem parseDomain_keeps : Keeps N.parseDomain := by
  unfold N.parseDomain
  keep

theorem problemParts_keeps : Keeps N.problemParts := by
  unfold N.problemParts
  keep

theorem parseProblem_keeps : Keeps N.parseProblem := by
  unfold N.parseProblem
  keep


end Pddl
