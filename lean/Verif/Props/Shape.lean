import Verif.Meta.Nodes
import Verif.Props.Accept

/-!
# Properties: what can occur in a parsed value (C32, C33, C52, C62)

`X.nodes v` (`Verif/Spec/Nodes.lean`) lists every name, number, type, numeric expression, goal and
duration constraint that occurs in `v` at any depth.
-/

namespace Pddl

/-- Every part of every value the parser returns has the property. -/
def PartsOf (p : P α) (nodes : α → List Node) (Q : Node → Prop) : Prop :=
  ∀ s v r, p s = .ok v r → ∀ n ∈ nodes v, Q n

/-- Every part of every value the parser returns has the property in the text that was consumed. -/
def PartsIn (p : P α) (nodes : α → List Node) (Q : List Char → Node → Prop) : Prop :=
  ∀ s v r, p s = .ok v r → ∃ t, s = t ++ r ∧ ∀ n ∈ nodes v, Q t n

theorem Snd.parts {p : P α} {R : α → List Char → Prop} {nodes : α → List Node} {Q : Node → Prop}
    (h : Snd Any Gap p R) (hR : ∀ v t, R v t → AllOk t (nodes v)) (hQ : ∀ t (n : Node), n.Ok t → Q n) :
    PartsOf p nodes Q := fun s v r hs n hn => by
  obtain ⟨_, t, _, _, ht⟩ := h s v r hs trivial
  exact hQ t n (hR v t ht n hn)

theorem Snd.partsIn {p : P α} {R : α → List Char → Prop} {nodes : α → List Node}
    {Q : List Char → Node → Prop} (h : Snd Any Gap p R) (hR : ∀ v t, R v t → AllOk t (nodes v))
    (hQ : ∀ t (n : Node), n.Ok t → Q t n) : PartsIn p nodes Q := fun s v r hs => by
  obtain ⟨g, t, rfl, _, ht⟩ := h s v r hs trivial
  exact ⟨g ++ t, by simp, fun n hn => hQ _ n ((hR v t ht n hn).up (by sub))⟩

theorem domain_parts {Q : Node → Prop} (hQ : ∀ t (n : Node), n.Ok t → Q n) :
    PartsOf parseDomain Domain.nodes Q := fun s v r hs n hn => by
  obtain ⟨_, t, _, _, _, ht, _⟩ := parseDomain_snd hs
  exact hQ t n (ht.ok n hn)

theorem problem_parts {Q : Node → Prop} (hQ : ∀ t (n : Node), n.Ok t → Q n) :
    PartsOf parseProblem Problem.nodes Q := fun s v r hs n hn => by
  obtain ⟨_, t, _, _, _, ht, _⟩ := parseProblem_snd hs
  exact hQ t n (ht.ok n hn)

theorem domain_partsIn {Q : List Char → Node → Prop} (hQ : ∀ t (n : Node), n.Ok t → Q t n) :
    PartsIn parseDomain Domain.nodes Q := fun s v r hs => by
  obtain ⟨g, t, g', rfl, _, ht, _⟩ := parseDomain_snd hs
  exact ⟨g ++ (t ++ g'), by simp, fun n hn => hQ _ n ((ht.ok n hn).up (by sub))⟩

theorem problem_partsIn {Q : List Char → Node → Prop} (hQ : ∀ t (n : Node), n.Ok t → Q t n) :
    PartsIn parseProblem Problem.nodes Q := fun s v r hs => by
  obtain ⟨g, t, g', rfl, _, ht, _⟩ := parseProblem_snd hs
  exact ⟨g ++ (t ++ g'), by simp, fun n hn => hQ _ n ((ht.ok n hn).up (by sub))⟩

/-! ## C32: no goal is a `Literal` -/

/-- Not the redundant `GoalDefinition::Literal`. -/
def Node.NotLiteral (n : Node) : Prop := ∀ l, n ≠ .goal (.literal l)

theorem Node.Ok.notLiteral (t : List Char) (n : Node) (h : n.Ok t) : n.NotLiteral := fun l e => by subst e; exact h

theorem C32_goals : PartsOf parseGd GD.nodes Node.NotLiteral :=
  parseGd_snd.parts (fun _ _ h => h.ok) Node.Ok.notLiteral
theorem C32_preferences : PartsOf parsePrefGd PrefGD.nodes Node.NotLiteral :=
  parsePrefGd_snd.parts (fun _ _ h => h.ok) Node.Ok.notLiteral
theorem C32_preconditions : PartsOf parsePreGd PreGD.nodesL Node.NotLiteral :=
  parsePreGd_snd.parts (fun _ _ h => h.ok) Node.Ok.notLiteral
theorem C32_constraints : PartsOf parseConGd ConGD.nodes Node.NotLiteral :=
  parseConGd_snd.parts (fun _ _ h => h.ok) Node.Ok.notLiteral
theorem C32_pref_constraints : PartsOf parsePrefConGd PrefConGD.nodesL Node.NotLiteral :=
  parsePrefConGd_snd.parts (fun _ _ h => h.ok) Node.Ok.notLiteral
theorem C32_effects : PartsOf parseEffect CEffect.nodesL Node.NotLiteral :=
  parseEffect_snd.parts (fun _ _ h => h.ok) Node.Ok.notLiteral
theorem C32_actions : PartsOf parseActionDef ActionDef.nodes Node.NotLiteral :=
  parseActionDef_snd.parts (fun _ _ h => h.ok) Node.Ok.notLiteral
theorem C32_derived : PartsOf parseDerivedPredicate DerivedPredicate.nodes Node.NotLiteral :=
  parseDerivedPredicate_snd.parts (fun _ _ h => h.ok) Node.Ok.notLiteral
theorem C32_da_conditions : PartsOf parseDaGd DaGD.nodes Node.NotLiteral :=
  parseDaGd_snd.parts (fun _ _ h => h.ok) Node.Ok.notLiteral
theorem C32_da_effects : PartsOf parseDaEffect DaEffect.nodes Node.NotLiteral :=
  parseDaEffect_snd.parts (fun _ _ h => h.ok) Node.Ok.notLiteral
theorem C32_durative : PartsOf parseDaDef DaDef.nodes Node.NotLiteral :=
  parseDaDef_snd.parts (fun _ _ h => h.ok) Node.Ok.notLiteral
theorem C32_structures : PartsOf parseStructureDef StructureDef.nodes Node.NotLiteral :=
  parseStructureDef_snd.parts (fun _ _ h => h.ok) Node.Ok.notLiteral
theorem C32_domains : PartsOf parseDomain Domain.nodes Node.NotLiteral := domain_parts Node.Ok.notLiteral
theorem C32_problems : PartsOf parseProblem Problem.nodes Node.NotLiteral := problem_parts Node.Ok.notLiteral

/-- A negated atom is a negation, an atom is an atom. -/
theorem C32_negated_atom {a : AtomicFormula Term} {t g g' : List Char} (hg : Gap g) (hg' : Gap g')
    (hp : GDW .strict (.atomic a) t) (r : List Char) :
    parseGd (paren (c!"not" ++ (g ++ (t ++ g'))) ++ r) = .ok (.not (.atomic a)) r ∧
      parseGd (t ++ r) = .ok (.atomic a) r :=
  ⟨C15_goals (.not hg hp hg') r, C15_goals hp r⟩

/-- There are goals to speak about. -/
example : ∃ r, parseDomain Ex.domain.print = .ok Ex.domain r := by
  have := C24_domains_printed (d := Ex.domain) (by decide +kernel) []
  rw [List.append_nil] at this
  exact ⟨_, this⟩
example : Node.goal (.not (.or [])) ∈ Ex.domain.nodes := by
  have h : Node.goal (.not (.or [])) ∈ Ex.goal.nodes := by
    simp [Ex.goal, GD.nodes, GD.nodesL]
  simp only [Domain.nodes, Ex.domain, List.mem_append, List.mem_cons, List.flatMap_cons]
  simp [StructureDef.nodes, Ex.derived, DerivedPredicate.nodes, h]

/-! ## C33: arities -/

/-- `(+ 1 ;c⏎2)` is read as an n-ary sum with one further operand, so the promised arity is not
kept: the comment makes the binary reading fail and the n-ary one succeed. -/
theorem C33_false : ∃ s a b, parseFExp s = .ok (.multiOp .add a [b]) [] :=
  ⟨c!"(+ 1 ;c\n2)", .number (Ex.num 1 0), .number (Ex.num 2 0), rfl⟩

/-- n-ary operators have a further operand (the property asks for two), `and` duration constraints and
`either` types are not empty. -/
def Node.Arity : Node → Prop
  | .ty (.eitherOf ts) => ts ≠ []
  | .fexp (.multiOp _ _ bs) => bs ≠ []
  | .fexpDa (.multiOp _ _ bs) => bs ≠ []
  | .metric (.multiOp _ _ bs) => bs ≠ []
  | .duration (.all cs) => cs ≠ []
  | _ => True

theorem Node.Ok.arity (t : List Char) (n : Node) (h : n.Ok t) : n.Arity := by
  unfold Node.Arity
  split <;> first | exact h | exact h.1 | trivial

theorem C33_terms_partial : PartsOf parseTerm Term.nodes Node.Arity :=
  parseTerm_snd.parts (fun _ _ h => h.ok) Node.Ok.arity
theorem C33_types_partial : PartsOf parseType Ty.nodes Node.Arity :=
  parseType_snd.parts (fun _ _ h => h.ok) Node.Ok.arity
theorem C33_variable_lists_partial : PartsOf parseVarList varNodes Node.Arity :=
  parseVarList_snd.parts (fun _ _ h => h.ok) Node.Ok.arity
theorem C33_skeletons_partial : PartsOf parseAtomicFormulaSkeleton Skeleton.nodes Node.Arity :=
  parseAtomicFormulaSkeleton_snd.parts (fun _ _ h => h.ok) Node.Ok.arity
theorem C33_f_exp_partial : PartsOf parseFExp FExp.nodes Node.Arity :=
  parseFExp_snd.parts (fun _ _ h => h.ok) Node.Ok.arity
theorem C33_f_exp_da_partial : PartsOf parseFExpDa FExpDa.nodes Node.Arity :=
  parseFExpDa_snd.parts (fun _ _ h => h.ok) Node.Ok.arity
theorem C33_metric_exp_partial : PartsOf parseMetricFExp MetricFExp.nodes Node.Arity :=
  parseMetricFExp_snd.parts (fun _ _ h => h.ok) Node.Ok.arity
theorem C33_simple_durations_partial : PartsOf parseSimpleDuration SimpleDuration.nodes Node.Arity :=
  parseSimpleDuration_snd.parts (fun _ _ h => h.ok) Node.Ok.arity
theorem C33_init_section_partial : PartsOf parseProblemInitDef (List.flatMap InitElement.nodes) Node.Arity :=
  parseProblemInitDef_snd.parts (fun _ _ h => h.ok) Node.Ok.arity
theorem C33_goals_partial : PartsOf parseGd GD.nodes Node.Arity :=
  parseGd_snd.parts (fun _ _ h => h.ok) Node.Ok.arity
theorem C33_preferences_partial : PartsOf parsePrefGd PrefGD.nodes Node.Arity :=
  parsePrefGd_snd.parts (fun _ _ h => h.ok) Node.Ok.arity
theorem C33_preconditions_partial : PartsOf parsePreGd PreGD.nodesL Node.Arity :=
  parsePreGd_snd.parts (fun _ _ h => h.ok) Node.Ok.arity
theorem C33_constraints_partial : PartsOf parseConGd ConGD.nodes Node.Arity :=
  parseConGd_snd.parts (fun _ _ h => h.ok) Node.Ok.arity
theorem C33_pref_constraints_partial : PartsOf parsePrefConGd PrefConGD.nodesL Node.Arity :=
  parsePrefConGd_snd.parts (fun _ _ h => h.ok) Node.Ok.arity
theorem C33_effects_partial : PartsOf parseEffect CEffect.nodesL Node.Arity :=
  parseEffect_snd.parts (fun _ _ h => h.ok) Node.Ok.arity
theorem C33_actions_partial : PartsOf parseActionDef ActionDef.nodes Node.Arity :=
  parseActionDef_snd.parts (fun _ _ h => h.ok) Node.Ok.arity
theorem C33_derived_partial : PartsOf parseDerivedPredicate DerivedPredicate.nodes Node.Arity :=
  parseDerivedPredicate_snd.parts (fun _ _ h => h.ok) Node.Ok.arity
theorem C33_da_conditions_partial : PartsOf parseDaGd DaGD.nodes Node.Arity :=
  parseDaGd_snd.parts (fun _ _ h => h.ok) Node.Ok.arity
theorem C33_da_effects_partial : PartsOf parseDaEffect DaEffect.nodes Node.Arity :=
  parseDaEffect_snd.parts (fun _ _ h => h.ok) Node.Ok.arity
theorem C33_durative_partial : PartsOf parseDaDef DaDef.nodes Node.Arity :=
  parseDaDef_snd.parts (fun _ _ h => h.ok) Node.Ok.arity
theorem C33_structures_partial : PartsOf parseStructureDef StructureDef.nodes Node.Arity :=
  parseStructureDef_snd.parts (fun _ _ h => h.ok) Node.Ok.arity
theorem C33_domains_partial : PartsOf parseDomain Domain.nodes Node.Arity := domain_parts Node.Ok.arity
theorem C33_problems_partial : PartsOf parseProblem Problem.nodes Node.Arity := problem_parts Node.Ok.arity

/-- The arities the property asks for: n-ary operators have two operands after the first. -/
def Node.Promised : Node → Prop
  | .ty (.eitherOf ts) => ts ≠ []
  | .fexp (.multiOp _ _ bs) => 2 ≤ bs.length
  | .fexpDa (.multiOp _ _ bs) => 2 ≤ bs.length
  | .metric (.multiOp _ _ bs) => 2 ≤ bs.length
  | .duration (.all cs) => cs ≠ []
  | _ => True

theorem Node.Ok.promised (t : List Char) (n : Node) (h : n.Ok t) : ';' ∉ t → n.Promised := by
  intro hc
  unfold Node.Promised
  split <;> first | exact h | exact h.2 hc | trivial

/-- Text without a comment: all promises are kept.  Only the text of the form itself matters, not what
follows it. -/
abbrev KeptWithoutComments (p : P α) (nodes : α → List Node) : Prop :=
  PartsIn p nodes fun t n => ';' ∉ t → n.Promised

theorem C33_f_exp_no_comments_partial : KeptWithoutComments parseFExp FExp.nodes :=
  parseFExp_snd.partsIn (fun _ _ h => h.ok) Node.Ok.promised
theorem C33_f_exp_da_no_comments_partial : KeptWithoutComments parseFExpDa FExpDa.nodes :=
  parseFExpDa_snd.partsIn (fun _ _ h => h.ok) Node.Ok.promised
theorem C33_metric_exp_no_comments_partial : KeptWithoutComments parseMetricFExp MetricFExp.nodes :=
  parseMetricFExp_snd.partsIn (fun _ _ h => h.ok) Node.Ok.promised
theorem C33_simple_durations_no_comments_partial : KeptWithoutComments parseSimpleDuration SimpleDuration.nodes :=
  parseSimpleDuration_snd.partsIn (fun _ _ h => h.ok) Node.Ok.promised
theorem C33_init_section_no_comments_partial : KeptWithoutComments parseProblemInitDef (List.flatMap InitElement.nodes) :=
  parseProblemInitDef_snd.partsIn (fun _ _ h => h.ok) Node.Ok.promised
theorem C33_goals_no_comments_partial : KeptWithoutComments parseGd GD.nodes :=
  parseGd_snd.partsIn (fun _ _ h => h.ok) Node.Ok.promised
theorem C33_preferences_no_comments_partial : KeptWithoutComments parsePrefGd PrefGD.nodes :=
  parsePrefGd_snd.partsIn (fun _ _ h => h.ok) Node.Ok.promised
theorem C33_preconditions_no_comments_partial : KeptWithoutComments parsePreGd PreGD.nodesL :=
  parsePreGd_snd.partsIn (fun _ _ h => h.ok) Node.Ok.promised
theorem C33_constraints_no_comments_partial : KeptWithoutComments parseConGd ConGD.nodes :=
  parseConGd_snd.partsIn (fun _ _ h => h.ok) Node.Ok.promised
theorem C33_pref_constraints_no_comments_partial : KeptWithoutComments parsePrefConGd PrefConGD.nodesL :=
  parsePrefConGd_snd.partsIn (fun _ _ h => h.ok) Node.Ok.promised
theorem C33_effects_no_comments_partial : KeptWithoutComments parseEffect CEffect.nodesL :=
  parseEffect_snd.partsIn (fun _ _ h => h.ok) Node.Ok.promised
theorem C33_actions_no_comments_partial : KeptWithoutComments parseActionDef ActionDef.nodes :=
  parseActionDef_snd.partsIn (fun _ _ h => h.ok) Node.Ok.promised
theorem C33_derived_no_comments_partial : KeptWithoutComments parseDerivedPredicate DerivedPredicate.nodes :=
  parseDerivedPredicate_snd.partsIn (fun _ _ h => h.ok) Node.Ok.promised
theorem C33_da_conditions_no_comments_partial : KeptWithoutComments parseDaGd DaGD.nodes :=
  parseDaGd_snd.partsIn (fun _ _ h => h.ok) Node.Ok.promised
theorem C33_da_effects_no_comments_partial : KeptWithoutComments parseDaEffect DaEffect.nodes :=
  parseDaEffect_snd.partsIn (fun _ _ h => h.ok) Node.Ok.promised
theorem C33_durative_no_comments_partial : KeptWithoutComments parseDaDef DaDef.nodes :=
  parseDaDef_snd.partsIn (fun _ _ h => h.ok) Node.Ok.promised
theorem C33_structures_no_comments_partial : KeptWithoutComments parseStructureDef StructureDef.nodes :=
  parseStructureDef_snd.partsIn (fun _ _ h => h.ok) Node.Ok.promised
theorem C33_domains_no_comments_partial : KeptWithoutComments parseDomain Domain.nodes :=
  domain_partsIn Node.Ok.promised
theorem C33_problems_no_comments_partial : KeptWithoutComments parseProblem Problem.nodes :=
  problem_partsIn Node.Ok.promised

/-- A text without comments and its three operands; the comment of `C33_false` stands right behind the
first operand, which is the only place where it does harm. -/
example : ∃ a b c, parseFExp c!"(+ 1 2 3)" = .ok (.multiOp .add a [b, c]) [] ∧
    ';' ∉ c!"(+ 1 2 3)" := ⟨.number (Ex.num 1 0), .number (Ex.num 2 0), .number (Ex.num 3 0), rfl, by decide⟩

theorem C33_requirements {s : List Char} {v : List Requirement} {r : List Char}
    (h : parseRequireDef s = .ok v r) : v ≠ [] := by
  obtain ⟨_, t, _, _, ht⟩ := parseRequireDef_snd s v r h trivial
  cases ht with
  | mk _ h _ => exact h.ne_nil

theorem C33_predicates {s : List Char} {v : List Skeleton} {r : List Char}
    (h : parsePredicatesDef s = .ok v r) : v ≠ [] := by
  obtain ⟨_, t, _, _, ht⟩ := parsePredicatesDef_snd s v r h trivial
  cases ht with
  | mk _ h _ => exact h.ne_nil

example : parseRequireDef c!"(:requirements :adl :typing)" = .ok [.adl, .typing] [] := by decide +kernel

/-! ## C52: names are words, numbers are finite and not negative -/

/-- Names are words, numbers are finite and their sign bit is not set, and `FExpDa::Assign` does not
occur. -/
def Node.Clean : Node → Prop
  | .name n => IsWord n.text
  | .ty (.exactly n) => IsWord n.text
  | .num n => FiniteBits n.val.bits ∧ n.val.bits.msb = false
  | .fexpDa (.assign _ _ _) => False
  | _ => True

theorem Node.Ok.clean (t : List Char) (n : Node) (h : n.Ok t) : n.Clean := by
  unfold Node.Clean
  split <;> first | exact h | exact h.1 | exact ⟨h.1, h.2.1⟩ | trivial

theorem C52_terms : PartsOf parseTerm Term.nodes Node.Clean :=
  parseTerm_snd.parts (fun _ _ h => h.ok) Node.Ok.clean
theorem C52_types : PartsOf parseType Ty.nodes Node.Clean :=
  parseType_snd.parts (fun _ _ h => h.ok) Node.Ok.clean
theorem C52_variable_lists : PartsOf parseVarList varNodes Node.Clean :=
  parseVarList_snd.parts (fun _ _ h => h.ok) Node.Ok.clean
theorem C52_skeletons : PartsOf parseAtomicFormulaSkeleton Skeleton.nodes Node.Clean :=
  parseAtomicFormulaSkeleton_snd.parts (fun _ _ h => h.ok) Node.Ok.clean
theorem C52_f_exp : PartsOf parseFExp FExp.nodes Node.Clean :=
  parseFExp_snd.parts (fun _ _ h => h.ok) Node.Ok.clean
theorem C52_f_exp_da : PartsOf parseFExpDa FExpDa.nodes Node.Clean :=
  parseFExpDa_snd.parts (fun _ _ h => h.ok) Node.Ok.clean
theorem C52_metric_exp : PartsOf parseMetricFExp MetricFExp.nodes Node.Clean :=
  parseMetricFExp_snd.parts (fun _ _ h => h.ok) Node.Ok.clean
theorem C52_simple_durations : PartsOf parseSimpleDuration SimpleDuration.nodes Node.Clean :=
  parseSimpleDuration_snd.parts (fun _ _ h => h.ok) Node.Ok.clean
theorem C52_init_section : PartsOf parseProblemInitDef (List.flatMap InitElement.nodes) Node.Clean :=
  parseProblemInitDef_snd.parts (fun _ _ h => h.ok) Node.Ok.clean
theorem C52_goals : PartsOf parseGd GD.nodes Node.Clean :=
  parseGd_snd.parts (fun _ _ h => h.ok) Node.Ok.clean
theorem C52_preferences : PartsOf parsePrefGd PrefGD.nodes Node.Clean :=
  parsePrefGd_snd.parts (fun _ _ h => h.ok) Node.Ok.clean
theorem C52_preconditions : PartsOf parsePreGd PreGD.nodesL Node.Clean :=
  parsePreGd_snd.parts (fun _ _ h => h.ok) Node.Ok.clean
theorem C52_constraints : PartsOf parseConGd ConGD.nodes Node.Clean :=
  parseConGd_snd.parts (fun _ _ h => h.ok) Node.Ok.clean
theorem C52_pref_constraints : PartsOf parsePrefConGd PrefConGD.nodesL Node.Clean :=
  parsePrefConGd_snd.parts (fun _ _ h => h.ok) Node.Ok.clean
theorem C52_effects : PartsOf parseEffect CEffect.nodesL Node.Clean :=
  parseEffect_snd.parts (fun _ _ h => h.ok) Node.Ok.clean
theorem C52_actions : PartsOf parseActionDef ActionDef.nodes Node.Clean :=
  parseActionDef_snd.parts (fun _ _ h => h.ok) Node.Ok.clean
theorem C52_derived : PartsOf parseDerivedPredicate DerivedPredicate.nodes Node.Clean :=
  parseDerivedPredicate_snd.parts (fun _ _ h => h.ok) Node.Ok.clean
theorem C52_da_conditions : PartsOf parseDaGd DaGD.nodes Node.Clean :=
  parseDaGd_snd.parts (fun _ _ h => h.ok) Node.Ok.clean
theorem C52_da_effects : PartsOf parseDaEffect DaEffect.nodes Node.Clean :=
  parseDaEffect_snd.parts (fun _ _ h => h.ok) Node.Ok.clean
theorem C52_durative : PartsOf parseDaDef DaDef.nodes Node.Clean :=
  parseDaDef_snd.parts (fun _ _ h => h.ok) Node.Ok.clean
theorem C52_structures : PartsOf parseStructureDef StructureDef.nodes Node.Clean :=
  parseStructureDef_snd.parts (fun _ _ h => h.ok) Node.Ok.clean
theorem C52_domains : PartsOf parseDomain Domain.nodes Node.Clean := domain_parts Node.Ok.clean
theorem C52_problems : PartsOf parseProblem Problem.nodes Node.Clean := problem_parts Node.Ok.clean

example : Node.name (.new c!"move") ∈ Ex.action.nodes := by simp [ActionDef.nodes, Ex.action, Ex.nm]
example : Node.num (Ex.num 3 0) ∈ Ex.goal.nodes := by
  simp [Ex.goal, GD.nodes, GD.nodesL, FComp.nodes, FExp.nodes]

/-! ## C62: names and numbers are taken from the text -/

/-- Every name stands in the text, and every number is the value of a decimal that stands there.  Only
the types `object` and `number` need not be written. -/
def Node.Taken (t : List Char) : Node → Prop
  | .name n => n.text <:+: t
  | .ty (.exactly n) => n.text <:+: t ∨ n.text = c!"object" ∨ n.text = c!"number"
  | .num n => ∃ u, u <:+: t ∧ NumW n u
  | _ => True

theorem Node.Ok.taken (t : List Char) (n : Node) (h : n.Ok t) : n.Taken t := by
  unfold Node.Taken
  split <;> first | exact h.2 | exact h.2.2 | trivial

theorem C62_terms : PartsIn parseTerm Term.nodes Node.Taken :=
  parseTerm_snd.partsIn (fun _ _ h => h.ok) Node.Ok.taken
theorem C62_types : PartsIn parseType Ty.nodes Node.Taken :=
  parseType_snd.partsIn (fun _ _ h => h.ok) Node.Ok.taken
theorem C62_variable_lists : PartsIn parseVarList varNodes Node.Taken :=
  parseVarList_snd.partsIn (fun _ _ h => h.ok) Node.Ok.taken
theorem C62_skeletons : PartsIn parseAtomicFormulaSkeleton Skeleton.nodes Node.Taken :=
  parseAtomicFormulaSkeleton_snd.partsIn (fun _ _ h => h.ok) Node.Ok.taken
theorem C62_f_exp : PartsIn parseFExp FExp.nodes Node.Taken :=
  parseFExp_snd.partsIn (fun _ _ h => h.ok) Node.Ok.taken
theorem C62_f_exp_da : PartsIn parseFExpDa FExpDa.nodes Node.Taken :=
  parseFExpDa_snd.partsIn (fun _ _ h => h.ok) Node.Ok.taken
theorem C62_metric_exp : PartsIn parseMetricFExp MetricFExp.nodes Node.Taken :=
  parseMetricFExp_snd.partsIn (fun _ _ h => h.ok) Node.Ok.taken
theorem C62_simple_durations : PartsIn parseSimpleDuration SimpleDuration.nodes Node.Taken :=
  parseSimpleDuration_snd.partsIn (fun _ _ h => h.ok) Node.Ok.taken
theorem C62_init_section : PartsIn parseProblemInitDef (List.flatMap InitElement.nodes) Node.Taken :=
  parseProblemInitDef_snd.partsIn (fun _ _ h => h.ok) Node.Ok.taken
theorem C62_goals : PartsIn parseGd GD.nodes Node.Taken :=
  parseGd_snd.partsIn (fun _ _ h => h.ok) Node.Ok.taken
theorem C62_preferences : PartsIn parsePrefGd PrefGD.nodes Node.Taken :=
  parsePrefGd_snd.partsIn (fun _ _ h => h.ok) Node.Ok.taken
theorem C62_preconditions : PartsIn parsePreGd PreGD.nodesL Node.Taken :=
  parsePreGd_snd.partsIn (fun _ _ h => h.ok) Node.Ok.taken
theorem C62_constraints : PartsIn parseConGd ConGD.nodes Node.Taken :=
  parseConGd_snd.partsIn (fun _ _ h => h.ok) Node.Ok.taken
theorem C62_pref_constraints : PartsIn parsePrefConGd PrefConGD.nodesL Node.Taken :=
  parsePrefConGd_snd.partsIn (fun _ _ h => h.ok) Node.Ok.taken
theorem C62_effects : PartsIn parseEffect CEffect.nodesL Node.Taken :=
  parseEffect_snd.partsIn (fun _ _ h => h.ok) Node.Ok.taken
theorem C62_actions : PartsIn parseActionDef ActionDef.nodes Node.Taken :=
  parseActionDef_snd.partsIn (fun _ _ h => h.ok) Node.Ok.taken
theorem C62_derived : PartsIn parseDerivedPredicate DerivedPredicate.nodes Node.Taken :=
  parseDerivedPredicate_snd.partsIn (fun _ _ h => h.ok) Node.Ok.taken
theorem C62_da_conditions : PartsIn parseDaGd DaGD.nodes Node.Taken :=
  parseDaGd_snd.partsIn (fun _ _ h => h.ok) Node.Ok.taken
theorem C62_da_effects : PartsIn parseDaEffect DaEffect.nodes Node.Taken :=
  parseDaEffect_snd.partsIn (fun _ _ h => h.ok) Node.Ok.taken
theorem C62_durative : PartsIn parseDaDef DaDef.nodes Node.Taken :=
  parseDaDef_snd.partsIn (fun _ _ h => h.ok) Node.Ok.taken
theorem C62_structures : PartsIn parseStructureDef StructureDef.nodes Node.Taken :=
  parseStructureDef_snd.partsIn (fun _ _ h => h.ok) Node.Ok.taken
theorem C62_domains : PartsIn parseDomain Domain.nodes Node.Taken := domain_partsIn Node.Ok.taken
theorem C62_problems : PartsIn parseProblem Problem.nodes Node.Taken := problem_partsIn Node.Ok.taken

/-- Two names and a type that are written, and a type that is not. -/
example : ∃ v, parseVarList c!"(?x - tt ?y)" = .ok v [] ∧ Node.name (.new c!"x") ∈ varNodes v ∧
    Node.name (.new c!"y") ∈ varNodes v ∧ Node.ty (.exactly (.new c!"tt")) ∈ varNodes v ∧
    Node.ty Ty.object ∈ varNodes v :=
  ⟨[⟨.new c!"x", .exactly (.new c!"tt")⟩, ⟨.new c!"y", Ty.object⟩], by decide +kernel,
    by simp [varNodes, typedNodes, Name.nodes, Ty.nodes, Ty.object]⟩

end Pddl
