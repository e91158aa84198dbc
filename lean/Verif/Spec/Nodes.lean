import Verif.Spec.Grammar

/-!
# Specification: the parts of a value

`X.nodes v` lists every name, number, type, numeric expression, goal and duration constraint that
occurs anywhere in `v`, at any depth (the name of a simple type as part of the type).  `Node.Ok` says what may occur in a parsed value.
-/

namespace Pddl

/-- A part of a value. -/
inductive Node
  | name (n : Name)
  | num (n : Number)
  | ty (t : Ty)
  | fexp (e : FExp)
  | fexpDa (e : FExpDa)
  | metric (e : MetricFExp)
  | goal (g : GD)
  | duration (d : DurationConstraint)

/-- What may occur in a value read from the text `t`: names are words and occur in the text (but for the
names of the two types that need not be written), numbers are finite, not negative and written in the text, `either`
types and conjunctions of duration constraints are not empty, n-ary operators have a second operand,
and a third one if the text has no comment, and neither the redundant `GoalDefinition::Literal` nor
`FExpDa::Assign` occurs. -/
def Node.Ok (t : List Char) : Node → Prop
  | .name n => IsWord n.text ∧ n.text <:+: t
  | .ty (.exactly n) => IsWord n.text ∧ (n.text <:+: t ∨ n.text = c!"object" ∨ n.text = c!"number")
  | .num n => FiniteBits n.val.bits ∧ n.val.bits.msb = false ∧ ∃ u, u <:+: t ∧ NumW n u
  | .ty (.eitherOf ts) => ts ≠ []
  | .fexp (.multiOp _ _ bs) => bs ≠ [] ∧ (';' ∉ t → 2 ≤ bs.length)
  | .fexpDa (.multiOp _ _ bs) => bs ≠ [] ∧ (';' ∉ t → 2 ≤ bs.length)
  | .fexpDa (.assign _ _ _) => False
  | .metric (.multiOp _ _ bs) => bs ≠ [] ∧ (';' ∉ t → 2 ≤ bs.length)
  | .goal (.literal _) => False
  | .duration (.all cs) => cs ≠ []
  | _ => True

def Ty.nodes : Ty → List Node
  | .exactly n => [.ty (.exactly n)]
  | .eitherOf ns => .ty (.eitherOf ns) :: ns.map .name

def typedNodes (f : α → List Node) (xs : TypedList α) : List Node :=
  xs.flatMap fun x => f x.value ++ x.ty.nodes

def Name.nodes (n : Name) : List Node := [.name n]

/-- Typed names or variables. -/
def varNodes (xs : TypedList Name) : List Node := typedNodes Name.nodes xs

mutual
def Term.nodes : Term → List Node
  | .name n => [.name n]
  | .var v => [.name v]
  | .fn f ts => .name f :: Term.nodesL ts
def Term.nodesL : List Term → List Node
  | [] => []
  | t :: ts => t.nodes ++ Term.nodesL ts
end

def FunctionTerm.nodes (f : FunctionTerm) : List Node := .name f.symbol :: f.terms.flatMap Term.nodes

def AtomicFormula.nodes (f : α → List Node) : AtomicFormula α → List Node
  | .equality a b => f a ++ f b
  | .predicate p vs => .name p :: vs.flatMap f

def Literal.nodes (f : α → List Node) : Literal α → List Node
  | .pos a => a.nodes f
  | .neg a => a.nodes f

def Skeleton.nodes (s : Skeleton) : List Node := .name s.symbol :: varNodes s.variables

def BasicFunctionTerm.nodes (f : BasicFunctionTerm) : List Node := .name f.symbol :: f.names.map .name

def FHead.nodes : FHead → List Node
  | .simple f => [.name f]
  | .withTerms f ts => .name f :: ts.flatMap Term.nodes

mutual
def FExp.nodes (e : FExp) : List Node := .fexp e :: match e with
  | .number n => [.num n]
  | .function h => h.nodes
  | .negative e => e.nodes
  | .binaryOp _ a b => a.nodes ++ b.nodes
  | .multiOp _ a bs => a.nodes ++ FExp.nodesL bs
def FExp.nodesL : List FExp → List Node
  | [] => []
  | e :: es => e.nodes ++ FExp.nodesL es
end

mutual
def FExpDa.nodes (e : FExpDa) : List Node := .fexpDa e :: match e with
  | .assign _ h e => h.nodes ++ e.nodes
  | .duration => []
  | .fExp e => e.nodes
  | .negative e => e.nodes
  | .binaryOp _ a b => a.nodes ++ b.nodes
  | .multiOp _ a bs => a.nodes ++ FExpDa.nodesL bs
def FExpDa.nodesL : List FExpDa → List Node
  | [] => []
  | e :: es => e.nodes ++ FExpDa.nodesL es
end

def FExpT.nodes : FExpT → List Node
  | .now => []
  | .scaled e => e.nodes

def FComp.nodes (c : FComp) : List Node := c.first.nodes ++ c.second.nodes

def FAssignDa.nodes (a : FAssignDa) : List Node := a.head.nodes ++ a.exp.nodes

mutual
def MetricFExp.nodes (e : MetricFExp) : List Node := .metric e :: match e with
  | .binaryOp _ a b => a.nodes ++ b.nodes
  | .multiOp _ a bs => a.nodes ++ MetricFExp.nodesL bs
  | .negative e => e.nodes
  | .number n => [.num n]
  | .function f ns => .name f :: ns.map .name
  | .totalTime => []
  | .isViolated p => [.name p]
def MetricFExp.nodesL : List MetricFExp → List Node
  | [] => []
  | e :: es => e.nodes ++ MetricFExp.nodesL es
end

mutual
def GD.nodes (g : GD) : List Node := .goal g :: match g with
  | .atomic a => a.nodes Term.nodes
  | .literal l => l.nodes Term.nodes
  | .and gs => GD.nodesL gs
  | .or gs => GD.nodesL gs
  | .not g => g.nodes
  | .imply a b => a.nodes ++ b.nodes
  | .exist vs g => varNodes vs ++ g.nodes
  | .forall_ vs g => varNodes vs ++ g.nodes
  | .fComp c => c.nodes
def GD.nodesL : List GD → List Node
  | [] => []
  | g :: gs => g.nodes ++ GD.nodesL gs
end

/-- The nodes of an optional name. -/
def optNameNodes (n : Option Name) : List Node := n.toList.map .name

def PrefGD.nodes : PrefGD → List Node
  | .goal g => g.nodes
  | .preference n g => optNameNodes n ++ g.nodes

mutual
def PreGD.nodes : PreGD → List Node
  | .preference p => p.nodes
  | .forall_ vs gs => varNodes vs ++ PreGD.nodesL gs
def PreGD.nodesL : List PreGD → List Node
  | [] => []
  | g :: gs => g.nodes ++ PreGD.nodesL gs
end

mutual
def ConGD.nodes : ConGD → List Node
  | .and gs => ConGD.nodesL gs
  | .forall_ vs g => varNodes vs ++ g.nodes
  | .atEnd g => g.nodes
  | .always g => g.nodes
  | .sometime g => g.nodes
  | .within n g => .num n :: g.nodes
  | .atMostOnce g => g.nodes
  | .sometimeAfter a b => a.nodes ++ b.nodes
  | .sometimeBefore a b => a.nodes ++ b.nodes
  | .alwaysWithin n a b => .num n :: (a.nodes ++ b.nodes)
  | .holdDuring n m g => .num n :: .num m :: g.nodes
  | .holdAfter n g => .num n :: g.nodes
def ConGD.nodesL : List ConGD → List Node
  | [] => []
  | g :: gs => g.nodes ++ ConGD.nodesL gs
def Con2GD.nodes : Con2GD → List Node
  | .goal g => g.nodes
  | .nested g => g.nodes
end

mutual
def PrefConGD.nodes : PrefConGD → List Node
  | .goal g => g.nodes
  | .forall_ vs gs => varNodes vs ++ PrefConGD.nodesL gs
  | .preference n g => optNameNodes n ++ g.nodes
def PrefConGD.nodesL : List PrefConGD → List Node
  | [] => []
  | g :: gs => g.nodes ++ PrefConGD.nodesL gs
end

def PEffect.nodes : PEffect → List Node
  | .atomic a => a.nodes Term.nodes
  | .notAtomic a => a.nodes Term.nodes
  | .assignNumeric _ h e => h.nodes ++ e.nodes
  | .assignObject f t => f.nodes ++ t.toList.flatMap Term.nodes

def CondEffect.nodes : CondEffect → List Node
  | .single p => p.nodes
  | .all ps => ps.flatMap PEffect.nodes

mutual
def CEffect.nodes : CEffect → List Node
  | .effect p => p.nodes
  | .forall_ vs es => varNodes vs ++ CEffect.nodesL es
  | .when c e => c.nodes ++ e.nodes
def CEffect.nodesL : List CEffect → List Node
  | [] => []
  | e :: es => e.nodes ++ CEffect.nodesL es
end

def ActionDef.nodes (a : ActionDef) : List Node :=
  .name a.symbol :: (varNodes a.parameters ++
    (PreGD.nodesL a.precondition ++ a.effect.toList.flatMap CEffect.nodesL))

def DerivedPredicate.nodes (d : DerivedPredicate) : List Node := d.predicate.nodes ++ d.goal.nodes

def TimedGD.nodes : TimedGD → List Node
  | .at _ g => g.nodes
  | .over _ g => g.nodes

def PrefTimedGD.nodes : PrefTimedGD → List Node
  | .required g => g.nodes
  | .preference n g => optNameNodes n ++ g.nodes

mutual
def DaGD.nodes : DaGD → List Node
  | .timed g => g.nodes
  | .and gs => DaGD.nodesL gs
  | .forall_ vs g => varNodes vs ++ g.nodes
def DaGD.nodesL : List DaGD → List Node
  | [] => []
  | g :: gs => g.nodes ++ DaGD.nodesL gs
end

def TimedEffect.nodes : TimedEffect → List Node
  | .conditional _ e => e.nodes
  | .numericFluent _ e => e.nodes
  | .continuous _ h e => h.nodes ++ e.nodes

mutual
def DaEffect.nodes : DaEffect → List Node
  | .timed e => e.nodes
  | .all es => DaEffect.nodesL es
  | .forall_ vs e => varNodes vs ++ e.nodes
  | .when g e => g.nodes ++ e.nodes
def DaEffect.nodesL : List DaEffect → List Node
  | [] => []
  | e :: es => e.nodes ++ DaEffect.nodesL es
end

def DurationValue.nodes : DurationValue → List Node
  | .number n => [.num n]
  | .fExp e => e.nodes

def SimpleDuration.nodes : SimpleDuration → List Node
  | .op _ v => v.nodes
  | .at _ c => c.nodes

def DurationConstraint.nodes (d : DurationConstraint) : List Node := .duration d :: match d with
  | .single c => c.nodes
  | .all cs => cs.flatMap SimpleDuration.nodes

def DaDef.nodes (a : DaDef) : List Node :=
  .name a.symbol :: (varNodes a.parameters ++ (a.duration.toList.flatMap DurationConstraint.nodes ++
    (a.condition.toList.flatMap DaGD.nodes ++ a.effect.toList.flatMap DaEffect.nodes)))

def StructureDef.nodes : StructureDef → List Node
  | .action a => a.nodes
  | .durative a => a.nodes
  | .derived d => d.nodes

def InitElement.nodes : InitElement → List Node
  | .literal l => l.nodes Name.nodes
  | .at t l => .num t :: l.nodes Name.nodes
  | .isValue f v => .num v :: f.nodes
  | .isObject f o => .name o :: f.nodes

def MetricSpec.nodes (m : MetricSpec) : List Node := m.exp.nodes

def Domain.nodes (d : Domain) : List Node :=
  .name d.name :: (d.extends_.map .name ++ (varNodes d.types ++ (varNodes d.constants ++
    (d.predicates.flatMap Skeleton.nodes ++ (typedNodes Skeleton.nodes d.functions ++
    (d.constraints.nodes ++ (d.timeless.flatMap (Literal.nodes Name.nodes) ++
      d.structure_.flatMap StructureDef.nodes)))))))

def Problem.nodes (p : Problem) : List Node :=
  .name p.name :: .name p.domain :: (varNodes p.objects ++ (p.init.flatMap InitElement.nodes ++
    (PreGD.nodesL p.goal ++ (PrefConGD.nodesL p.constraints ++
      p.metricSpec.toList.flatMap MetricSpec.nodes))))

end Pddl
