import Verif.Meta.RenameId
import Verif.Meta.Shape
import Verif.Props.Rename

/-!
# C88: layout is interchangeable
-/

namespace Pddl

theorem Parsable.mapNames_id : (k : Parsable) → (v : k.Item) → k.mapNames id v = v
  | actionDefinition, v => congrFun ActionDef.mapNames_id v
  | actionSymbol, _ => rfl
  | assignOp, _ => rfl
  | assignOpT, _ => rfl
  | atomicFormulaSkeleton, v => congrFun Skeleton.mapNames_id v
  | atomicFunctionSkeleton, v => congrFun Skeleton.mapNames_id v
  | basicFunctionTerm, v => congrFun BasicFunctionTerm.mapNames_id v
  | binaryComp, _ => rfl
  | binaryOp, _ => rfl
  | cEffect, v => congrFun CEffect.mapNames_id v
  | forallCEffect, v => by
    show Prod.map (varsMapNames id) (List.map (CEffect.mapNames id)) v = v
    simp [CEffect.mapNames_id, varsMapNames_id]
    rfl
  | whenCEffect, v => by
    show Prod.map (GD.mapNames id) (CondEffect.mapNames id) v = v
    simp [CondEffect.mapNames_id, GD.mapNames_id]
    rfl
  | conGD, v => congrFun ConGD.mapNames_id v
  | con2GD, v => congrFun Con2GD.mapNames_id v
  | conditionalEffect, v => congrFun CondEffect.mapNames_id v
  | constants, v => congrFun varsMapNames_id v
  | dOp, _ => rfl
  | durationValue, v => congrFun DurationValue.mapNames_id v
  | durativeActionDefinition, v => congrFun DaDef.mapNames_id v
  | durativeActionEffect, v => congrFun DaEffect.mapNames_id v
  | durativeActionGoalDefinition, v => congrFun DaGD.mapNames_id v
  | durativeActionSymbol, _ => rfl
  | derivedPredicate, v => congrFun DerivedPredicate.mapNames_id v
  | domain, v => congrFun Domain.mapNames_id v
  | domainConstraintsDef, v => congrFun ConGD.mapNames_id v
  | durationConstraint, v => by
    show Option.map (DurationConstraint.mapNames id) v = v
    simp [DurationConstraint.mapNames_id]
    rfl
  | effects, v => by
    show List.map (CEffect.mapNames id) v = v
    simp [CEffect.mapNames_id]
    rfl
  | fAssignDa, v => congrFun FAssignDa.mapNames_id v
  | fComp, v => congrFun FComp.mapNames_id v
  | fExp, v => congrFun FExp.mapNames_id v
  | fExpDa, v => congrFun FExpDa.mapNames_id v
  | fExpT, v => congrFun FExpT.mapNames_id v
  | fHead, v => congrFun FHead.mapNames_id v
  | functionSymbol, _ => rfl
  | functionTerm, v => congrFun FunctionTerm.mapNames_id v
  | functionType, v => congrFun Ty.mapNames_id v
  | functions, v => by
    show List.map (Typed.mapNames id (Skeleton.mapNames id)) v = v
    simp [Skeleton.mapNames_id, Typed.mapNames_id]
    rfl
  | goalDefinition, v => congrFun GD.mapNames_id v
  | goalDef, v => by
    show List.map (PreGD.mapNames id) v = v
    simp [PreGD.mapNames_id]
    rfl
  | initElements, v => by
    show List.map (InitElement.mapNames id) v = v
    simp [InitElement.mapNames_id]
    rfl
  | initElement, v => congrFun InitElement.mapNames_id v
  | interval, _ => rfl
  | lengthSpec, _ => rfl
  | metricFExp, v => congrFun MetricFExp.mapNames_id v
  | metricSpec, v => congrFun MetricSpec.mapNames_id v
  | multiOp, _ => rfl
  | name, _ => rfl
  | number, _ => rfl
  | objects, v => congrFun varsMapNames_id v
  | optimization, _ => rfl
  | pEffect, v => congrFun PEffect.mapNames_id v
  | preconditionGoalDefinitions, v => by
    show List.map (PreGD.mapNames id) v = v
    simp [PreGD.mapNames_id]
    rfl
  | predicate, _ => rfl
  | predicateDefinitions, v => by
    show List.map (Skeleton.mapNames id) v = v
    simp [Skeleton.mapNames_id]
    rfl
  | prefConGDs, v => by
    show List.map (PrefConGD.mapNames id) v = v
    simp [PrefConGD.mapNames_id]
    rfl
  | preferenceGD, v => congrFun PrefGD.mapNames_id v
  | preferenceName, _ => rfl
  | prefTimedGD, v => congrFun PrefTimedGD.mapNames_id v
  | primitiveType, _ => rfl
  | problem, v => congrFun Problem.mapNames_id v
  | problemConstraintsDef, v => by
    show List.map (PrefConGD.mapNames id) v = v
    simp [PrefConGD.mapNames_id]
    rfl
  | requirements, _ => rfl
  | requirement, _ => rfl
  | simpleDurationConstraint, v => congrFun SimpleDuration.mapNames_id v
  | structureDef, v => congrFun StructureDef.mapNames_id v
  | term, v => congrFun Term.mapNames_id v
  | timeSpecifier, _ => rfl
  | timedEffect, v => congrFun TimedEffect.mapNames_id v
  | timedGD, v => congrFun TimedGD.mapNames_id v
  | timeless, v => by
    show List.map (Literal.mapNames id id) v = v
    simp [Literal.mapNames_id]
    rfl
  | type_, v => congrFun Ty.mapNames_id v
  | types, v => congrFun varsMapNames_id v
  | variable_, _ => rfl

/-! ## C88 -/

/-- Every parser of the crate, started on a text of the same shape, does the same: it returns the same value and leaves
a rest of the same shape, or fails in the same way. -/
theorem C88_every_type {s s' : List Char} (h : shape s = shape s') (k : Parsable) :
    (∀ v r, k.parse s = .ok v r → ∃ r', k.parse s' = .ok v r' ∧ shape r = shape r') ∧
    (k.parse s = .err → k.parse s' = .err) ∧ (k.parse s = .fail → k.parse s' = .fail) ∧
    (k.parse s = .panic → k.parse s' = .panic) := by
  have := C87_every_type rfl rfl (shape_iff.mp h) k
  refine ⟨fun v r e => ?_, this.2⟩
  obtain ⟨r', h1, h2⟩ := this.1 v r e
  rw [Name.rename_id, k.mapNames_id] at h1
  exact ⟨r', h1, shape_iff.mpr h2⟩

/-- `from_str` gives the same for texts of the same shape. -/
theorem C88_from_str {s s' : List Char} (h : shape s = shape s') (k : Parsable) : k.fromStr s = k.fromStr s' := by
  rw [C87_from_str rfl rfl (shape_iff.mp h) k, Name.rename_id]
  have : k.fromStr s = (k.fromStr s).bind fun v _ => .ok v [] := by
    unfold Parsable.fromStr
    cases k.parse s <;> rfl
  rw [this]
  cases k.fromStr s <;> simp [Res.bind, k.mapNames_id]

/-- Domains. -/
theorem C88_domain {s s' : List Char} (h : shape s = shape s') : fromStr parseDomain s = fromStr parseDomain s' := by
  rw [C87_domain rfl rfl (shape_iff.mp h), Name.rename_id, Domain.mapNames_id]
  cases fromStr parseDomain s <;> rfl

/-- Problems. -/
theorem C88_problem {s s' : List Char} (h : shape s = shape s') : fromStr parseProblem s = fromStr parseProblem s' := by
  rw [C87_problem rfl (shape_iff.mp h), Name.rename_id, Problem.mapNames_id]
  cases fromStr parseProblem s <;> rfl

/-- The keyword `at end` of constraints is one place where the number of blanks matters. -/
theorem C88_at_end :
    (∃ v, parseConGd c!"(at end (p))" = .ok v []) ∧ parseConGd c!"(at  end (p))" = .err ∧
    shape c!"(at end (p))" ≠ shape c!"(at  end (p))" := ⟨⟨_, rfl⟩, rfl, by decide⟩

/-- Comments without text are another: they are not skipped. -/
theorem C88_empty_comment :
    parseName c!";x
a" = .ok (.new c!"a") [] ∧ parseName c!";
a" = .err := ⟨rfl, rfl⟩

/-- Where there is no blank, one may matter. -/
theorem C88_no_gap :
    (∃ v, parseGd c!"(not(p))" = .ok v []) ∧ (∃ v, parseGd c!"(not (p))" = .ok v []) ∧
    (∃ v, parseFComp c!"(>= 1 2)" = .ok v []) ∧ parseFComp c!"(> = 1 2)" = .err := ⟨⟨_, rfl⟩, ⟨_, rfl⟩, ⟨_, rfl⟩, rfl⟩

/-! ## Examples -/

/-- The domain of `renameSample` with other layout and another comment. -/
def relaidSample : List Char :=
  c!"(define
    (domain d)
    (:types ball)   ;; (balls) are all there is
    (:predicates (at-rest ?b	-	ball))
    (:action   kick
      :parameters  (?b - ball) :effect (not (at-rest ?b))))"

example : shape renameSample = shape relaidSample := by decide +kernel

set_option maxRecDepth 8000 in
example : ∃ v, Parsable.domain.fromStr renameSample = .ok v [] ∧ Parsable.domain.fromStr relaidSample = .ok v [] := by
  refine ⟨_, rfl, ?_⟩
  rw [← C88_from_str (by decide +kernel : shape renameSample = shape relaidSample)]
  rfl

end Pddl
