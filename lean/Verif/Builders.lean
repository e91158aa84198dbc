import Verif.Parsers

/-!
# Building domains and problems, and looking at them

The `with_*` functions of `Domain` and `Problem` as calls that can be put in sequence, and the
accessors.
-/

namespace Pddl

/-- What can be set on a domain after `Domain::builder`: one per function
`/repo/src/types/domain.rs:118-163`. -/
inductive DomainSlot
  | extends_ | requirements | types | constants | predicates | functions | constraints | timeless
  deriving DecidableEq

/-- The argument of the function. -/
def DomainSlot.Arg : DomainSlot → Type
  | extends_ => List Name
  | requirements => List Requirement
  | types => TypedList Name
  | constants => TypedList Name
  | predicates => List Skeleton
  | functions => TypedList Skeleton
  | constraints => ConGD
  | timeless => List (Literal Name)

/-- A call of one of the functions. -/
abbrev DomainCall := (s : DomainSlot) × s.Arg

/-- The call, `/repo/src/types/domain.rs:118-163`. -/
def Domain.withCall (d : Domain) : DomainCall → Domain
  | ⟨.extends_, x⟩ => d.withExtends x
  | ⟨.requirements, x⟩ => d.withRequirements x
  | ⟨.types, x⟩ => d.withTypes x
  | ⟨.constants, x⟩ => d.withConstants x
  | ⟨.predicates, x⟩ => d.withPredicates x
  | ⟨.functions, x⟩ => d.withFunctions x
  | ⟨.constraints, x⟩ => d.withConstraints x
  | ⟨.timeless, x⟩ => d.withTimeless x

/-- `d.with_a(..).with_b(..)...` -/
def Domain.withCalls (d : Domain) (cs : List DomainCall) : Domain := cs.foldl Domain.withCall d

/-- What can be asked of a domain: one per accessor, `/repo/src/types/domain.rs:166-214`.  There is
none for the timeless predicates. -/
inductive DomainView
  | name | extends_ | requirements | types | constants | predicates | functions | constraints
  | structure_
  deriving DecidableEq

/-- The result of the accessor. -/
def DomainView.Result : DomainView → Type
  | name => Name
  | extends_ => List Name
  | requirements => List Requirement
  | types => TypedList Name
  | constants => TypedList Name
  | predicates => List Skeleton
  | functions => TypedList Skeleton
  | constraints => ConGD
  | structure_ => List StructureDef

/-- The accessor. -/
def Domain.view (d : Domain) : (v : DomainView) → v.Result
  /- /repo/src/types/domain.rs:166-168 -/
  | .name => d.name
  /- /repo/src/types/domain.rs:172-174 -/
  | .extends_ => d.extends_
  /- /repo/src/types/domain.rs:178-180 -/
  | .requirements => d.requirements
  /- /repo/src/types/domain.rs:185-187 -/
  | .types => d.types
  /- /repo/src/types/domain.rs:190-192 -/
  | .constants => d.constants
  /- /repo/src/types/domain.rs:195-197 -/
  | .predicates => d.predicates
  /- /repo/src/types/domain.rs:202-204 -/
  | .functions => d.functions
  /- /repo/src/types/domain.rs:207-209, with /repo/src/types/domain_constraints_def.rs:22-24 -/
  | .constraints => d.constraints
  /- /repo/src/types/domain.rs:212-214 -/
  | .structure_ => d.structure_

/-- `AsRef` of a domain, for the five types it is implemented for. -/
def Domain.asRef (d : Domain) : (v : DomainView) → Option v.Result
  /- /repo/src/types/domain.rs:217-221 -/
  | .requirements => some d.requirements
  /- /repo/src/types/domain.rs:223-227 -/
  | .types => some d.types
  /- /repo/src/types/domain.rs:229-233 -/
  | .predicates => some d.predicates
  /- /repo/src/types/domain.rs:235-239 -/
  | .functions => some d.functions
  /- /repo/src/types/domain.rs:241-245 -/
  | .structure_ => some d.structure_
  | _ => none

/-- What can be set on a problem after `Problem::builder`: one per function
`/repo/src/types/problem.rs:110-137`. -/
inductive ProblemSlot
  | requirements | objects | constraints | metricSpec | lengthSpec
  deriving DecidableEq

/-- The argument of the function. -/
def ProblemSlot.Arg : ProblemSlot → Type
  | requirements => List Requirement
  | objects => TypedList Name
  | constraints => List PrefConGD
  | metricSpec => MetricSpec
  | lengthSpec => LengthSpec

/-- A call of one of the functions. -/
abbrev ProblemCall := (s : ProblemSlot) × s.Arg

/-- The call, `/repo/src/types/problem.rs:110-137`. -/
def Problem.withCall (p : Problem) : ProblemCall → Problem
  | ⟨.requirements, x⟩ => p.withRequirements x
  | ⟨.objects, x⟩ => p.withObjects x
  | ⟨.constraints, x⟩ => p.withConstraints x
  | ⟨.metricSpec, x⟩ => p.withMetricSpec x
  | ⟨.lengthSpec, x⟩ => p.withLengthSpec x

/-- `p.with_a(..).with_b(..)...` -/
def Problem.withCalls (p : Problem) (cs : List ProblemCall) : Problem := cs.foldl Problem.withCall p

/-- `Problem::new`, `/repo/src/types/problem.rs:65-87`. -/
def Problem.new (name domain : Name) (requires : List Requirement) (objects : TypedList Name)
    (init : List InitElement) (goal : List PreGD) (constraints : List PrefConGD)
    (metricSpec : Option MetricSpec) (lengthSpec : Option LengthSpec) : Problem :=
  { name, domain, requires, objects, init, goal, constraints, metricSpec, lengthSpec }

/-- What can be asked of a problem: one per accessor, `/repo/src/types/problem.rs:140-187`. -/
inductive ProblemView
  | name | domain | requirements | objects | init | goals | constraints | metricSpec | lengthSpec
  deriving DecidableEq

/-- The result of the accessor. -/
def ProblemView.Result : ProblemView → Type
  | name => Name
  | domain => Name
  | requirements => List Requirement
  | objects => TypedList Name
  | init => List InitElement
  | goals => List PreGD
  | constraints => List PrefConGD
  | metricSpec => Option MetricSpec
  | lengthSpec => Option LengthSpec

/-- The accessor. -/
def Problem.view (p : Problem) : (v : ProblemView) → v.Result
  /- /repo/src/types/problem.rs:140-142 -/
  | .name => p.name
  /- /repo/src/types/problem.rs:145-147 -/
  | .domain => p.domain
  /- /repo/src/types/problem.rs:150-152 -/
  | .requirements => p.requires
  /- /repo/src/types/problem.rs:155-157 -/
  | .objects => p.objects
  /- /repo/src/types/problem.rs:160-162 -/
  | .init => p.init
  /- /repo/src/types/problem.rs:165-167, with /repo/src/types/goal_def.rs:20-22 -/
  | .goals => p.goal
  /- /repo/src/types/problem.rs:172-174, with /repo/src/types/problem_constraints_def.rs:19-21 -/
  | .constraints => p.constraints
  /- /repo/src/types/problem.rs:179-181 -/
  | .metricSpec => p.metricSpec
  /- /repo/src/types/problem.rs:185-187 -/
  | .lengthSpec => p.lengthSpec

end Pddl
