import Verif.Props.Entered
import Verif.Api

/-!
# C121 for every public parser

`Props/Entered.lean` speaks about domains and problems. Here the same is proved for all 73 types that
can be parsed: a process may read parts of files, in any order.
-/

namespace Pddl

/-- The parser of each type with the names that it makes; as in `Parsable.parse`, whose comments cite
the lines of each. -/
def Parsable.entering : (k : Parsable) → N.P k.Item
  | .actionDefinition => N.parseActionDef
  | .actionSymbol => N.parseActionSymbol
  | .assignOp => N.parseAssignOp
  | .assignOpT => N.parseAssignOpT
  | .atomicFormulaSkeleton => N.parseAtomicFormulaSkeleton
  | .atomicFunctionSkeleton => N.parseAtomicFunctionSkeleton
  | .basicFunctionTerm => N.parseBasicFunctionTerm
  | .binaryComp => N.parseBinaryComp
  | .binaryOp => N.parseBinaryOp
  | .cEffect => N.parseCEffect
  | .forallCEffect => N.parseForallCEffect
  | .whenCEffect => N.parseWhenCEffect
  | .conGD => N.parseConGd
  | .con2GD => N.parseCon2Gd
  | .conditionalEffect => N.parseCondEffect
  | .constants => N.parseConstantsDef
  | .dOp => N.parseDOp
  | .durationValue => N.parseDValue
  | .durativeActionDefinition => N.parseDaDef
  | .durativeActionEffect => N.parseDaEffect
  | .durativeActionGoalDefinition => N.parseDaGd
  | .durativeActionSymbol => N.parseDaSymbol
  | .derivedPredicate => N.parseDerivedPredicate
  | .domain => N.parseDomain
  | .domainConstraintsDef => N.parseDomainConstraintsDef
  | .durationConstraint => N.parseDurationConstraint
  | .effects => N.parseEffect
  | .fAssignDa => N.parseFAssignDa
  | .fComp => N.parseFComp
  | .fExp => N.parseFExp
  | .fExpDa => N.parseFExpDa
  | .fExpT => N.parseFExpT
  | .fHead => N.parseFHead
  | .functionSymbol => N.parseFunctionSymbol
  | .functionTerm => N.parseFunctionTerm
  | .functionType => N.parseFunctionType
  | .functions => N.parseFunctionsDef
  | .goalDefinition => N.parseGd
  | .goalDef => N.parseProblemGoalDef
  | .initElements => N.parseProblemInitDef
  | .initElement => N.parseInitEl
  | .interval => N.parseInterval
  | .lengthSpec => N.parseProblemLengthSpec
  | .metricFExp => N.parseMetricFExp
  | .metricSpec => N.parseProblemMetricSpec
  | .multiOp => N.parseMultiOp
  | .name => N.parseName
  | .number => N.parseNumber
  | .objects => N.parseProblemObjectsDeclaration
  | .optimization => N.parseOptimization
  | .pEffect => N.parsePEffect
  | .preconditionGoalDefinitions => N.parsePreGd
  | .predicate => N.parsePredicate
  | .predicateDefinitions => N.parsePredicatesDef
  | .prefConGDs => N.parsePrefConGd
  | .preferenceGD => N.parsePrefGd
  | .preferenceName => N.parsePrefName
  | .prefTimedGD => N.parsePrefTimedGd
  | .primitiveType => N.parsePrimitiveType
  | .problem => N.parseProblem
  | .problemConstraintsDef => N.parseProblemConstraintsDef
  | .requirements => N.parseRequireDef
  | .requirement => N.parseRequireKey
  | .simpleDurationConstraint => N.parseSimpleDuration
  | .structureDef => N.parseStructureDef
  | .term => N.parseTerm
  | .timeSpecifier => N.parseTimeSpecifier
  | .timedEffect => N.parseTimedEffect
  | .timedGD => N.parseTimedGd
  | .timeless => N.parseTimelessDef
  | .type_ => N.parseType
  | .types => N.parseTypesDef
  | .variable_ => N.parseVariable

/-- The parts of a value of each type. -/
def Parsable.nodes : (k : Parsable) → k.Item → List Node
  | .actionDefinition => (Parts.parts : ActionDef → List Node)
  | .actionSymbol => (Parts.parts : Name → List Node)
  | .assignOp => (Parts.parts : AssignOp → List Node)
  | .assignOpT => (Parts.parts : AssignOpT → List Node)
  | .atomicFormulaSkeleton => (Parts.parts : Skeleton → List Node)
  | .atomicFunctionSkeleton => (Parts.parts : Skeleton → List Node)
  | .basicFunctionTerm => (Parts.parts : BasicFunctionTerm → List Node)
  | .binaryComp => (Parts.parts : BinaryComp → List Node)
  | .binaryOp => (Parts.parts : BinaryOp → List Node)
  | .cEffect => (Parts.parts : CEffect → List Node)
  | .forallCEffect => (Parts.parts : TypedList Name × List CEffect → List Node)
  | .whenCEffect => (Parts.parts : GD × CondEffect → List Node)
  | .conGD => (Parts.parts : ConGD → List Node)
  | .con2GD => (Parts.parts : Con2GD → List Node)
  | .conditionalEffect => (Parts.parts : CondEffect → List Node)
  | .constants => (Parts.parts : TypedList Name → List Node)
  | .dOp => (Parts.parts : DOp → List Node)
  | .durationValue => (Parts.parts : DurationValue → List Node)
  | .durativeActionDefinition => (Parts.parts : DaDef → List Node)
  | .durativeActionEffect => (Parts.parts : DaEffect → List Node)
  | .durativeActionGoalDefinition => (Parts.parts : DaGD → List Node)
  | .durativeActionSymbol => (Parts.parts : Name → List Node)
  | .derivedPredicate => (Parts.parts : DerivedPredicate → List Node)
  | .domain => (Parts.parts : Domain → List Node)
  | .domainConstraintsDef => (Parts.parts : ConGD → List Node)
  | .durationConstraint => (Parts.parts : Option DurationConstraint → List Node)
  | .effects => (Parts.parts : List CEffect → List Node)
  | .fAssignDa => (Parts.parts : FAssignDa → List Node)
  | .fComp => (Parts.parts : FComp → List Node)
  | .fExp => (Parts.parts : FExp → List Node)
  | .fExpDa => (Parts.parts : FExpDa → List Node)
  | .fExpT => (Parts.parts : FExpT → List Node)
  | .fHead => (Parts.parts : FHead → List Node)
  | .functionSymbol => (Parts.parts : Name → List Node)
  | .functionTerm => (Parts.parts : FunctionTerm → List Node)
  | .functionType => (Parts.parts : Ty → List Node)
  | .functions => (Parts.parts : TypedList Skeleton → List Node)
  | .goalDefinition => (Parts.parts : GD → List Node)
  | .goalDef => (Parts.parts : List PreGD → List Node)
  | .initElements => (Parts.parts : List InitElement → List Node)
  | .initElement => (Parts.parts : InitElement → List Node)
  | .interval => (Parts.parts : Interval → List Node)
  | .lengthSpec => (Parts.parts : LengthSpec → List Node)
  | .metricFExp => (Parts.parts : MetricFExp → List Node)
  | .metricSpec => (Parts.parts : MetricSpec → List Node)
  | .multiOp => (Parts.parts : MultiOp → List Node)
  | .name => (Parts.parts : Name → List Node)
  | .number => (Parts.parts : Number → List Node)
  | .objects => (Parts.parts : TypedList Name → List Node)
  | .optimization => (Parts.parts : Optimization → List Node)
  | .pEffect => (Parts.parts : PEffect → List Node)
  | .preconditionGoalDefinitions => (Parts.parts : List PreGD → List Node)
  | .predicate => (Parts.parts : Name → List Node)
  | .predicateDefinitions => (Parts.parts : List Skeleton → List Node)
  | .prefConGDs => (Parts.parts : List PrefConGD → List Node)
  | .preferenceGD => (Parts.parts : PrefGD → List Node)
  | .preferenceName => (Parts.parts : Name → List Node)
  | .prefTimedGD => (Parts.parts : PrefTimedGD → List Node)
  | .primitiveType => (Parts.parts : Name → List Node)
  | .problem => (Parts.parts : Problem → List Node)
  | .problemConstraintsDef => (Parts.parts : List PrefConGD → List Node)
  | .requirements => (Parts.parts : List Requirement → List Node)
  | .requirement => (Parts.parts : Requirement → List Node)
  | .simpleDurationConstraint => (Parts.parts : SimpleDuration → List Node)
  | .structureDef => (Parts.parts : StructureDef → List Node)
  | .term => (Parts.parts : Term → List Node)
  | .timeSpecifier => (Parts.parts : TimeSpecifier → List Node)
  | .timedEffect => (Parts.parts : TimedEffect → List Node)
  | .timedGD => (Parts.parts : TimedGD → List Node)
  | .timeless => (Parts.parts : List (Literal Name) → List Node)
  | .type_ => (Parts.parts : Ty → List Node)
  | .types => (Parts.parts : TypedList Name → List Node)
  | .variable_ => (Parts.parts : Name → List Node)

theorem Parsable.entering_run (k : Parsable) : k.entering.run = k.parse := by
  cases k
  case actionDefinition => exact N.parseActionDef_run
  case actionSymbol => exact N.parseActionSymbol_run
  case assignOp => exact N.parseAssignOp_run
  case assignOpT => exact N.parseAssignOpT_run
  case atomicFormulaSkeleton => exact N.parseAtomicFormulaSkeleton_run
  case atomicFunctionSkeleton => exact N.parseAtomicFunctionSkeleton_run
  case basicFunctionTerm => exact N.parseBasicFunctionTerm_run
  case binaryComp => exact N.parseBinaryComp_run
  case binaryOp => exact N.parseBinaryOp_run
  case cEffect => exact N.parseCEffect_run
  case forallCEffect => exact N.parseForallCEffect_run
  case whenCEffect => exact N.parseWhenCEffect_run
  case conGD => exact N.parseConGd_run
  case con2GD => exact N.parseCon2Gd_run
  case conditionalEffect => exact N.parseCondEffect_run
  case constants => exact N.parseConstantsDef_run
  case dOp => exact N.parseDOp_run
  case durationValue => exact N.parseDValue_run
  case durativeActionDefinition => exact N.parseDaDef_run
  case durativeActionEffect => exact N.parseDaEffect_run
  case durativeActionGoalDefinition => exact N.parseDaGd_run
  case durativeActionSymbol => exact N.parseDaSymbol_run
  case derivedPredicate => exact N.parseDerivedPredicate_run
  case domain => exact N.parseDomain_run
  case domainConstraintsDef => exact N.parseDomainConstraintsDef_run
  case durationConstraint => exact N.parseDurationConstraint_run
  case effects => exact N.parseEffect_run
  case fAssignDa => exact N.parseFAssignDa_run
  case fComp => exact N.parseFComp_run
  case fExp => exact N.parseFExp_run
  case fExpDa => exact N.parseFExpDa_run
  case fExpT => exact N.parseFExpT_run
  case fHead => exact N.parseFHead_run
  case functionSymbol => exact N.parseFunctionSymbol_run
  case functionTerm => exact N.parseFunctionTerm_run
  case functionType => exact N.parseFunctionType_run
  case functions => exact N.parseFunctionsDef_run
  case goalDefinition => exact N.parseGd_run
  case goalDef => exact N.parseProblemGoalDef_run
  case initElements => exact N.parseProblemInitDef_run
  case initElement => exact N.parseInitEl_run
  case interval => exact N.parseInterval_run
  case lengthSpec => exact N.parseProblemLengthSpec_run
  case metricFExp => exact N.parseMetricFExp_run
  case metricSpec => exact N.parseProblemMetricSpec_run
  case multiOp => exact N.parseMultiOp_run
  case name => exact N.parseName_run
  case number => exact N.parseNumber_run
  case objects => exact N.parseProblemObjectsDeclaration_run
  case optimization => exact N.parseOptimization_run
  case pEffect => exact N.parsePEffect_run
  case preconditionGoalDefinitions => exact N.parsePreGd_run
  case predicate => exact N.parsePredicate_run
  case predicateDefinitions => exact N.parsePredicatesDef_run
  case prefConGDs => exact N.parsePrefConGd_run
  case preferenceGD => exact N.parsePrefGd_run
  case preferenceName => exact N.parsePrefName_run
  case prefTimedGD => exact N.parsePrefTimedGd_run
  case primitiveType => exact N.parsePrimitiveType_run
  case problem => exact N.parseProblem_run
  case problemConstraintsDef => exact N.parseProblemConstraintsDef_run
  case requirements => exact N.parseRequireDef_run
  case requirement => exact N.parseRequireKey_run
  case simpleDurationConstraint => exact N.parseSimpleDuration_run
  case structureDef => exact N.parseStructureDef_run
  case term => exact N.parseTerm_run
  case timeSpecifier => exact N.parseTimeSpecifier_run
  case timedEffect => exact N.parseTimedEffect_run
  case timedGD => exact N.parseTimedGd_run
  case timeless => exact N.parseTimelessDef_run
  case type_ => exact N.parseType_run
  case types => exact N.parseTypesDef_run
  case variable_ => exact N.parseVariable_run

theorem Parsable.entering_makes (k : Parsable) : Makes k.entering := by
  cases k
  case actionDefinition => exact parseActionDef_makes
  case actionSymbol => exact parseActionSymbol_makes
  case assignOp => exact parseAssignOp_makes
  case assignOpT => exact parseAssignOpT_makes
  case atomicFormulaSkeleton => exact parseAtomicFormulaSkeleton_makes
  case atomicFunctionSkeleton => exact parseAtomicFunctionSkeleton_makes
  case basicFunctionTerm => exact parseBasicFunctionTerm_makes
  case binaryComp => exact parseBinaryComp_makes
  case binaryOp => exact parseBinaryOp_makes
  case cEffect => exact parseCEffect_makes
  case forallCEffect => exact parseForallCEffect_makes
  case whenCEffect => exact parseWhenCEffect_makes
  case conGD => exact parseConGd_makes
  case con2GD => exact parseCon2Gd_makes
  case conditionalEffect => exact parseCondEffect_makes
  case constants => exact parseConstantsDef_makes
  case dOp => exact parseDOp_makes
  case durationValue => exact parseDValue_makes
  case durativeActionDefinition => exact parseDaDef_makes
  case durativeActionEffect => exact parseDaEffect_makes
  case durativeActionGoalDefinition => exact parseDaGd_makes
  case durativeActionSymbol => exact parseDaSymbol_makes
  case derivedPredicate => exact parseDerivedPredicate_makes
  case domain => exact parseDomain_makes
  case domainConstraintsDef => exact parseDomainConstraintsDef_makes
  case durationConstraint => exact parseDurationConstraint_makes
  case effects => exact parseEffect_makes
  case fAssignDa => exact parseFAssignDa_makes
  case fComp => exact parseFComp_makes
  case fExp => exact parseFExp_makes
  case fExpDa => exact parseFExpDa_makes
  case fExpT => exact parseFExpT_makes
  case fHead => exact parseFHead_makes
  case functionSymbol => exact parseFunctionSymbol_makes
  case functionTerm => exact parseFunctionTerm_makes
  case functionType => exact parseFunctionType_makes
  case functions => exact parseFunctionsDef_makes
  case goalDefinition => exact parseGd_makes
  case goalDef => exact parseProblemGoalDef_makes
  case initElements => exact parseProblemInitDef_makes
  case initElement => exact parseInitEl_makes
  case interval => exact parseInterval_makes
  case lengthSpec => exact parseProblemLengthSpec_makes
  case metricFExp => exact parseMetricFExp_makes
  case metricSpec => exact parseProblemMetricSpec_makes
  case multiOp => exact parseMultiOp_makes
  case name => exact parseName_makes
  case number => exact parseNumber_makes
  case objects => exact parseProblemObjectsDeclaration_makes
  case optimization => exact parseOptimization_makes
  case pEffect => exact parsePEffect_makes
  case preconditionGoalDefinitions => exact parsePreGd_makes
  case predicate => exact parsePredicate_makes
  case predicateDefinitions => exact parsePredicatesDef_makes
  case prefConGDs => exact parsePrefConGd_makes
  case preferenceGD => exact parsePrefGd_makes
  case preferenceName => exact parsePrefName_makes
  case prefTimedGD => exact parsePrefTimedGd_makes
  case primitiveType => exact parsePrimitiveType_makes
  case problem => exact parseProblem_makes
  case problemConstraintsDef => exact parseProblemConstraintsDef_makes
  case requirements => exact parseRequireDef_makes
  case requirement => exact parseRequireKey_makes
  case simpleDurationConstraint => exact parseSimpleDuration_makes
  case structureDef => exact parseStructureDef_makes
  case term => exact parseTerm_makes
  case timeSpecifier => exact parseTimeSpecifier_makes
  case timedEffect => exact parseTimedEffect_makes
  case timedGD => exact parseTimedGd_makes
  case timeless => exact parseTimelessDef_makes
  case type_ => exact parseType_makes
  case types => exact parseTypesDef_makes
  case variable_ => exact parseVariable_makes

theorem Parsable.entering_keeps (k : Parsable) (s r : List Char) (v : k.Item)
    (h : k.entering.run s = .ok v r) : AllFrom (k.entering.made s) (k.nodes v) := by
  cases k
  case actionDefinition => exact parseActionDef_keeps s v r h
  case actionSymbol => exact parseActionSymbol_keeps s v r h
  case assignOp => exact parseAssignOp_keeps s v r h
  case assignOpT => exact parseAssignOpT_keeps s v r h
  case atomicFormulaSkeleton => exact parseAtomicFormulaSkeleton_keeps s v r h
  case atomicFunctionSkeleton => exact parseAtomicFunctionSkeleton_keeps s v r h
  case basicFunctionTerm => exact parseBasicFunctionTerm_keeps s v r h
  case binaryComp => exact parseBinaryComp_keeps s v r h
  case binaryOp => exact parseBinaryOp_keeps s v r h
  case cEffect => exact parseCEffect_keeps s v r h
  case forallCEffect => exact parseForallCEffect_keeps s v r h
  case whenCEffect => exact parseWhenCEffect_keeps s v r h
  case conGD => exact parseConGd_keeps s v r h
  case con2GD => exact parseCon2Gd_keeps s v r h
  case conditionalEffect => exact parseCondEffect_keeps s v r h
  case constants => exact parseConstantsDef_keeps s v r h
  case dOp => exact parseDOp_keeps s v r h
  case durationValue => exact parseDValue_keeps s v r h
  case durativeActionDefinition => exact parseDaDef_keeps s v r h
  case durativeActionEffect => exact parseDaEffect_keeps s v r h
  case durativeActionGoalDefinition => exact parseDaGd_keeps s v r h
  case durativeActionSymbol => exact parseDaSymbol_keeps s v r h
  case derivedPredicate => exact parseDerivedPredicate_keeps s v r h
  case domain => exact parseDomain_keeps s v r h
  case domainConstraintsDef => exact parseDomainConstraintsDef_keeps s v r h
  case durationConstraint => exact parseDurationConstraint_keeps s v r h
  case effects => exact parseEffect_keeps s v r h
  case fAssignDa => exact parseFAssignDa_keeps s v r h
  case fComp => exact parseFComp_keeps s v r h
  case fExp => exact parseFExp_keeps s v r h
  case fExpDa => exact parseFExpDa_keeps s v r h
  case fExpT => exact parseFExpT_keeps s v r h
  case fHead => exact parseFHead_keeps s v r h
  case functionSymbol => exact parseFunctionSymbol_keeps s v r h
  case functionTerm => exact parseFunctionTerm_keeps s v r h
  case functionType => exact parseFunctionType_keeps s v r h
  case functions => exact parseFunctionsDef_keeps s v r h
  case goalDefinition => exact parseGd_keeps s v r h
  case goalDef => exact parseProblemGoalDef_keeps s v r h
  case initElements => exact parseProblemInitDef_keeps s v r h
  case initElement => exact parseInitEl_keeps s v r h
  case interval => exact parseInterval_keeps s v r h
  case lengthSpec => exact parseProblemLengthSpec_keeps s v r h
  case metricFExp => exact parseMetricFExp_keeps s v r h
  case metricSpec => exact parseProblemMetricSpec_keeps s v r h
  case multiOp => exact parseMultiOp_keeps s v r h
  case name => exact parseName_keeps s v r h
  case number => exact parseNumber_keeps s v r h
  case objects => exact parseProblemObjectsDeclaration_keeps s v r h
  case optimization => exact parseOptimization_keeps s v r h
  case pEffect => exact parsePEffect_keeps s v r h
  case preconditionGoalDefinitions => exact parsePreGd_keeps s v r h
  case predicate => exact parsePredicate_keeps s v r h
  case predicateDefinitions => exact parsePredicatesDef_keeps s v r h
  case prefConGDs => exact parsePrefConGd_keeps s v r h
  case preferenceGD => exact parsePrefGd_keeps s v r h
  case preferenceName => exact parsePrefName_keeps s v r h
  case prefTimedGD => exact parsePrefTimedGd_keeps s v r h
  case primitiveType => exact parsePrimitiveType_keeps s v r h
  case problem => exact parseProblem_keeps s v r h
  case problemConstraintsDef => exact parseProblemConstraintsDef_keeps s v r h
  case requirements => exact parseRequireDef_keeps s v r h
  case requirement => exact parseRequireKey_keeps s v r h
  case simpleDurationConstraint => exact parseSimpleDuration_keeps s v r h
  case structureDef => exact parseStructureDef_keeps s v r h
  case term => exact parseTerm_keeps s v r h
  case timeSpecifier => exact parseTimeSpecifier_keeps s v r h
  case timedEffect => exact parseTimedEffect_keeps s v r h
  case timedGD => exact parseTimedGd_keeps s v r h
  case timeless => exact parseTimelessDef_keeps s v r h
  case type_ => exact parseType_keeps s v r h
  case types => exact parseTypesDef_keeps s v r h
  case variable_ => exact parseVariable_keeps s v r h

/-- C121: whatever is read, only words of the text become names. -/
theorem C121_every (k : Parsable) (s t : List Char) (h : t ∈ k.entering.made s) : TakenFrom t s :=
  k.entering_makes.2 s t h

/-- C121: whatever is read, the names in an accepted value have been made. -/
theorem C121_every_names (k : Parsable) {s r : List Char} {v : k.Item} (h : k.parse s = .ok v r) :
    AllFrom (k.entering.made s) (k.nodes v) :=
  k.entering_keeps s r v (by rw [k.entering_run]; exact h)

/-- A comparison is tried as an equality of terms first, so that some names are made more than once. -/
example : Parsable.goalDefinition.entering.made c!"(= (f a) 5)" =
    [c!"f", c!"a", c!"f", c!"a", c!"f", c!"f", c!"a"] := by
  decide +kernel

/-- C121: a process reads any texts as values of any types, one after the other, accepted or not.
Afterwards the table holds only words of these texts, each of them once, and no more entries than
there are characters in the texts. -/
theorem C121_every_table {search : Searcher} (hs : search.Correct)
    (rs : List (Parsable × List Char)) :
    ∃ xs st, runCalls search Interner.init (rs.flatMap fun r => r.1.entering.made r.2) =
        some (xs, st) ∧
      (st.table.map Arc.text).Nodup ∧
      (∀ w ∈ st.table.map Arc.text, IsWord w ∧ ∃ r ∈ rs, w <:+: r.2) ∧
      st.table.length ≤ (rs.map fun r => r.2.length).sum := by
  obtain ⟨xs, st, he, _⟩ := runCalls_spec hs (rs.flatMap fun r => r.1.entering.made r.2) Inv.init
  obtain ⟨h1, _, h2⟩ := C06_table hs _ _ _ he
  have h3 : ∀ w ∈ st.table.map Arc.text, ¬ WellKnown w ∧ ∃ r ∈ rs, TakenFrom w r.2 := fun w hw => by
    obtain ⟨h4, h5⟩ := (h2 w).1 hw
    obtain ⟨r, hr, h6⟩ := List.mem_flatMap.1 h4
    exact ⟨h5, r, hr, C121_every r.1 r.2 w h6⟩
  refine ⟨xs, st, he, h1, fun w hw => ?_, ?_⟩
  · obtain ⟨_, r, hr, hw, x, y, e, _⟩ := h3 w hw
    exact ⟨hw, r, hr, x, y, e.symm⟩
  · have h4 := length_le_of_subset (m := rs.flatMap fun r => wordsAt r.2) h1 fun w hw => by
      obtain ⟨hk, r, hr, ht, x, y, e, hy⟩ := h3 w hw
      refine List.mem_flatMap.2 ⟨r, hr, ?_⟩
      rcases hy with rfl | hy
      · exact absurd (.inl rfl) hk
      · rw [e]
        exact mem_wordsAt ht hy x
    rw [List.length_map, List.length_flatMap] at h4
    simpa only [wordsAt_length] using h4

/-- Two texts of different types, the second of them rejected. -/
example : [(Parsable.variable_, c!"?x"), (.goalDefinition, c!"(p a")].flatMap
    (fun r => r.1.entering.made r.2) = [c!"x", c!"p", c!"a", c!"p", c!"a"] := by decide +kernel

end Pddl
