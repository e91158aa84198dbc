import Verif.Spec.Print

/-!
# Specification: the values that occur

`made v` is the condition, decidable by looking at the value alone, under which some text is read as
`v`. It is weaker than `wf` of `Verif/Spec/Print.lean`, which asks for a text the printer can write:
some values are only read from texts with a comment or a blank in an unusual place, for instance
`(+ x ;c` newline `2)` or `( and (p))`. Where `made` is `wf` no new definition is given: names,
numbers, types, typed lists, terms, atoms, ground literals, skeletons, function terms.
-/

namespace Pddl

/-! ## Numeric expressions -/

/-- A fluent with an empty list of terms is read from `(f )`. -/
def FHead.made : FHead → Bool
  | .simple f => f.wf
  | .withTerms f ts => f.wf && Term.wfs ts

/-- The only list of one operand. -/
def FExp.loneNumber : List FExp → Bool
  | [.number _] => true
  | _ => false

mutual
/-- An operator with a list of operands has two in the list, or one number. -/
def FExp.made : FExp → Bool
  | .number n => n.wf
  | .function h => h.made
  | .negative e => e.made
  | .binaryOp _ a b => a.made && b.made
  | .multiOp _ a bs => a.made && (decide (2 ≤ bs.length) || FExp.loneNumber bs) && FExp.mades bs
def FExp.mades : List FExp → Bool
  | [] => true
  | e :: es => e.made && FExp.mades es
end

/-- The only lists of one operand. -/
def FExpDa.loneLeaf : List FExpDa → Bool
  | [.fExp (.number _)] => true
  | [.duration] => true
  | _ => false

mutual
/-- No assignment occurs, and a plain numeric expression is a number or a fluent. -/
def FExpDa.made : FExpDa → Bool
  | .assign _ _ _ => false
  | .duration => true
  | .fExp e => (e.isFunctionB || e.isNumberB) && e.made
  | .negative e => e.made
  | .binaryOp _ a b => a.made && b.made
  | .multiOp _ a bs => a.made && (decide (2 ≤ bs.length) || FExpDa.loneLeaf bs) && FExpDa.mades bs
def FExpDa.mades : List FExpDa → Bool
  | [] => true
  | e :: es => e.made && FExpDa.mades es
end

/-- The only list of one operand. -/
def MetricFExp.loneNumber : List MetricFExp → Bool
  | [.number _] => true
  | _ => false

mutual
def MetricFExp.made : MetricFExp → Bool
  | .number n => n.wf
  | .negative e => e.made
  | .binaryOp _ a b => a.made && b.made
  | .multiOp _ a bs => a.made && (decide (2 ≤ bs.length) || MetricFExp.loneNumber bs) && MetricFExp.mades bs
  | .totalTime => true
  | .isViolated n => n.wf
  | .function f ns => f.wf && ns.all Name.wf
def MetricFExp.mades : List MetricFExp → Bool
  | [] => true
  | e :: es => e.made && MetricFExp.mades es
end

def MetricSpec.made (m : MetricSpec) : Bool := m.exp.made

def FExpT.made : FExpT → Bool
  | .now => true
  | .scaled e => e.made

def FComp.made (c : FComp) : Bool := c.first.made && c.second.made

def FAssignDa.made (a : FAssignDa) : Bool := a.head.made && a.exp.made

/-! ## Durations -/

def DurationValue.made : DurationValue → Bool
  | .number n => n.wf
  | .fExp e => e.made && !e.isNumberB

def SimpleDuration.made : SimpleDuration → Bool
  | .op _ v => v.made
  | .at _ c => c.made

def DurationConstraint.made : DurationConstraint → Bool
  | .single c => c.made
  | .all cs => !cs.isEmpty && cs.all SimpleDuration.made

/-! ## Goals and preconditions -/

mutual
/-- Any predicate occurs, also one named like a keyword. A literal does not occur. -/
def GD.made : GD → Bool
  | .atomic a => a.wf Term.wf
  | .literal _ => false
  | .and gs => GD.mades gs
  | .or gs => GD.mades gs
  | .not g => g.made
  | .imply a b => a.made && b.made
  | .exist vs g => wfVars vs && g.made
  | .forall_ vs g => wfVars vs && g.made
  | .fComp c => c.made
def GD.mades : List GD → Bool
  | [] => true
  | g :: gs => g.made && GD.mades gs
end

def PrefGD.made : PrefGD → Bool
  | .goal g => g.made
  | .preference n g => wfOptName n && g.made

mutual
/-- A conjunction or universally quantified goal does not occur at the top of a precondition. -/
def PreGD.made : PreGD → Bool
  | .preference p => p.made && p.notPreB
  | .forall_ vs gs => wfVars vs && PreGD.mades gs
def PreGD.mades : List PreGD → Bool
  | [] => true
  | g :: gs => g.made && PreGD.mades gs
end

/-! ## Trajectory constraints -/

mutual
/-- Some part is neither a conjunction nor a quantification. -/
def ConGD.modal : ConGD → Bool
  | .and gs => ConGD.modals gs
  | .forall_ _ g => g.modal
  | _ => true
def ConGD.modals : List ConGD → Bool
  | [] => false
  | g :: gs => g.modal || ConGD.modals gs
end

mutual
def ConGD.made : ConGD → Bool
  | .and gs => ConGD.mades gs
  | .forall_ vs g => wfVars vs && g.made
  | .atEnd g => g.made
  | .always g => g.made
  | .sometime g => g.made
  | .within n g => n.wf && g.made
  | .atMostOnce g => g.made
  | .sometimeAfter a b => a.made && b.made
  | .sometimeBefore a b => a.made && b.made
  | .alwaysWithin n a b => n.wf && a.made && b.made
  | .holdDuring n m g => n.wf && m.wf && g.made
  | .holdAfter n g => n.wf && g.made
/-- A nested constraint without any modal operator is read as a goal. -/
def Con2GD.made : Con2GD → Bool
  | .goal g => g.made
  | .nested g => g.modal && g.made
def ConGD.mades : List ConGD → Bool
  | [] => true
  | g :: gs => g.made && ConGD.mades gs
end

mutual
def PrefConGD.made : PrefConGD → Bool
  | .goal g => g.made && g.notPreB
  | .forall_ vs gs => wfVars vs && PrefConGD.mades gs
  | .preference n g => wfOptName n && g.made
def PrefConGD.mades : List PrefConGD → Bool
  | [] => true
  | g :: gs => g.made && PrefConGD.mades gs
end

/-! ## Effects -/

def PEffect.made : PEffect → Bool
  | .atomic a => a.wf Term.wf
  | .notAtomic a => a.wf Term.wf
  | .assignNumeric _ h e => h.made && e.made
  | .assignObject f o => f.wf && wfOpt Term.wf o

def CondEffect.made : CondEffect → Bool
  | .single p => p.made
  | .all ps => ps.all PEffect.made

mutual
def CEffect.made : CEffect → Bool
  | .effect p => p.made
  | .forall_ vs es => wfVars vs && CEffect.mades es
  | .when c e => c.made && e.made
def CEffect.mades : List CEffect → Bool
  | [] => true
  | e :: es => e.made && CEffect.mades es
end

/-! ## Durative actions -/

def TimedGD.made : TimedGD → Bool
  | .at _ g => g.made
  | .over _ g => g.made

def PrefTimedGD.made : PrefTimedGD → Bool
  | .required g => g.made
  | .preference n g => wfOptName n && g.made

mutual
def DaGD.made : DaGD → Bool
  | .timed g => g.made
  | .and gs => DaGD.mades gs
  | .forall_ vs g => wfVars vs && g.made
def DaGD.mades : List DaGD → Bool
  | [] => true
  | g :: gs => g.made && DaGD.mades gs
end

/-- A single numeric assignment. -/
def CondEffect.numericB : CondEffect → Bool
  | .single (.assignNumeric _ _ _) => true
  | _ => false

/-- A single timed numeric assignment is a numeric fluent update. -/
def TimedEffect.made : TimedEffect → Bool
  | .conditional _ e => e.made && !e.numericB
  | .numericFluent _ e => e.made
  | .continuous _ h e => h.made && e.made

mutual
def DaEffect.made : DaEffect → Bool
  | .timed e => e.made
  | .all es => DaEffect.mades es
  | .forall_ vs e => wfVars vs && e.made
  | .when g e => g.made && e.made
def DaEffect.mades : List DaEffect → Bool
  | [] => true
  | e :: es => e.made && DaEffect.mades es
end

/-! ## Actions -/

def ActionDef.made (a : ActionDef) : Bool :=
  a.symbol.wf && wfVars a.parameters && PreGD.mades a.precondition && wfOpt CEffect.mades a.effect

def DerivedPredicate.made (d : DerivedPredicate) : Bool := d.predicate.wf && d.goal.made

def DaDef.made (a : DaDef) : Bool :=
  a.symbol.wf && wfVars a.parameters && wfOpt DurationConstraint.made a.duration &&
    wfOpt DaGD.made a.condition && wfOpt DaEffect.made a.effect

def StructureDef.made : StructureDef → Bool
  | .action a => a.made
  | .durative a => a.made
  | .derived d => d.made

/-! ## Domain and problem -/

/-- The domain parser has no `:timeless` section. -/
def Domain.made (d : Domain) : Bool :=
  d.name.wf && d.extends_.all Name.wf && d.types.all (Typed.wf Name.wf) &&
    d.constants.all (Typed.wf Name.wf) && d.predicates.all Skeleton.wf &&
    d.functions.all (Typed.wf Skeleton.wf) && d.constraints.made && d.timeless.isEmpty &&
    d.structure_.all StructureDef.made

def Problem.made (p : Problem) : Bool :=
  p.name.wf && p.domain.wf && p.objects.all (Typed.wf Name.wf) && p.init.all InitElement.wf &&
    PreGD.mades p.goal && PrefConGD.mades p.constraints && wfOpt MetricSpec.made p.metricSpec &&
    wfOpt LengthSpec.wf p.lengthSpec

end Pddl
