import Verif.Props.FilesX
import Verif.Props.Ops
import Verif.Api

/-!
# C86: the exact texts of every type with an `impl Parser`

One relation gives, for each of the 73 types, the texts that its `parse` accepts, and one equivalence
says that the relation is exact.
-/

namespace Pddl

/-! ## Operators and keys -/

theorem OpSpec.Lawful.iff {S : OpSpec α} {alias : α → List (List Char)} (h : S.Lawful alias)
    (W : α → List Char → Prop) (hW : ∀ op t, W op t ↔ t = S.str op ∨ t ∈ alias op)
    (hok : ∀ op t r, W op t → (S.p (t ++ r) = .ok op r ↔ S.ok op r)) (s : List Char) (op : α) (r : List Char) :
    S.p s = .ok op r ↔ ∃ g t, s = g ++ (t ++ r) ∧ g = [] ∧ W op t ∧ S.ok op r := by
  constructor
  · intro e
    obtain ⟨t, rfl, ht⟩ := h.sound s op r e
    have ht := (hW op t).mpr ht
    exact ⟨[], t, rfl, rfl, ht, (hok op t r ht).mp e⟩
  · rintro ⟨_, t, rfl, rfl, ht, hr⟩
    exact (hok op t r ht).mpr hr

/-- An operator spelled in one way and readable before any text. -/
theorem OpSpec.Lawful.plain {S : OpSpec α} (h : S.Lawful noAlias) (spell : α → List Char)
    (hs : ∀ op, spell op = S.str op) (hok : ∀ op r, S.ok op r) (s : List Char) (op : α) (r : List Char) :
    S.p s = .ok op r ↔ ∃ g t, s = g ++ (t ++ r) ∧ g = [] ∧ t = spell op := by
  rw [h.iff (fun o t => t = spell o) (fun o t => by simp [hs, noAlias])
    (fun o t r e => by subst e; rw [hs]; simp [h.complete o r (hok o r), hok])]
  simp [hok]

theorem binaryComp_iff (s : List Char) (op : BinaryComp) (r : List Char) :
    parseBinaryComp s = .ok op r ↔ ∃ g t, s = g ++ (t ++ r) ∧ g = [] ∧ t = op.spell ∧
      (op = .gt ∨ op = .lt → ∀ r', r ≠ '=' :: r') := by
  refine C41_binaryComp.iff (fun o t => t = o.spell) (fun o t => by cases o <;> simp [binaryCompSpec, noAlias] <;> rfl)
    (fun o t r e => ⟨fun h ho r' hr => ?_, fun h => ?_⟩) s op r
  · subst e hr
    rcases ho with rfl | rfl <;> cases h
  · subst e
    have := C41_binaryComp.complete o r h
    cases o <;> exact this

theorem assignOp_iff (s : List Char) (op : AssignOp) (r : List Char) :
    parseAssignOp s = .ok op r ↔ ∃ g t, s = g ++ (t ++ r) ∧ g = [] ∧ AssignOpW op t := by
  rw [show parseAssignOp = assignOpSpec.p from rfl, C41_assignOp.iff AssignOpW]
  · simp [assignOpSpec]
  · intro o t
    constructor
    · intro h
      cases h with
      | change => right; simp [assignAlias]
      | _ => left; rfl
    · rintro (rfl | h)
      · cases o <;> constructor
      · cases o <;> simp [assignAlias] at h
        subst h
        exact .change
  · intro o t r h
    cases h <;> exact ⟨fun _ => trivial, fun _ => rfl⟩

/-! ## Arguments of constraints, with layout in front -/

theorem ConX.head {v : ConGD} {t : List Char} (h : ConX v t) : ∃ kw, Head kw t ∧ (∀ x, skip (kw ++ x) = kw ++ x) ∧
    ∀ x, parseBinaryComp (kw ++ x) = .err := by
  cases h <;> exact ⟨_, ⟨_, rfl⟩, fun _ => rfl, fun _ => rfl⟩

theorem ConX.no_comparison {v : ConGD} {t g : List Char} (h : ConX v t) (hg : Gap g) (r : List Char) :
    parseFComp (g ++ (t ++ r)) = .err := by
  obtain ⟨kw, ⟨u, rfl⟩, hs, hb⟩ := h.head
  rw [paren_append]
  refine map_err (parens_lead_err hg (parens_err ?_))
  rw [List.append_assoc, hs]
  exact pair_err (hb _)

theorem OkErr.of_append {ps qs : List (P α)} {s : List Char} (h : OkErr (alt (ps ++ qs) s)) : OkErr (alt ps s) := by
  induction ps with
  | nil => exact .alt_nil
  | cons p ps ih =>
    cases e : p s with
    | ok v r => exact .inl ⟨v, r, alt_hit e⟩
    | err =>
      rw [List.cons_append, alt_miss e] at h
      rw [alt_miss e]
      exact ih h
    | _ => simp [OkErr, List.cons_append, alt, e] at h

theorem goal_calm_lead {v : ConGD} {t g : List Char} (h : ConX v t) (hg : Gap g) (r : List Char) :
    OkErr (parseGd (g ++ (t ++ r))) := by
  have hw := (goal_calm _ v t (Nat.le_refl _) (conX_reads.mpr h)).2 r
  rw [parseGd_eq, gdBody_kw] at hw ⊢
  rcases (show OkErr _ from hw.imp (fun ⟨v, e⟩ => ⟨v, r, e⟩) id).of_append with ⟨a, y, e⟩ | e
  · exact .inl ⟨_, _, alt_append_ok (by rw [kwGoals_lead _ hg]; exact e)⟩
  · rw [alt_append_err (by rw [kwGoals_lead _ hg]; exact e)]
    exact .alt_cons (.map (atom_calm _)) (.alt_cons (.map (literal_calm _))
      (.alt_cons (.map (.inr (h.no_comparison hg r))) .alt_nil))

/-- The texts of an argument of a constraint, with the layout in front that is skipped. -/
def Con2Text (g : List Char) : Con2GD → List Char → Prop
  | .goal v, t => GoalLead v g ∧ GDX v t
  | .nested c, t => Gap g ∧ ConX c t ∧ ∀ v, GDX v t → ¬ GoalLead v g

theorem con2_iff (s : List Char) (v : Con2GD) (r : List Char) :
    parseCon2Gd s = .ok v r ↔ ∃ g t, s = g ++ (t ++ r) ∧ Con2Text g v t := by
  cases v with
  | goal v =>
    constructor
    · intro h
      unfold parseCon2Gd con2Of at h
      rcases alt_inv h with h | ⟨_, h⟩
      · obtain ⟨x, h1, e⟩ := map_ok h
        cases e
        exact (C79_goals _ _ _).mp h1
      · rcases alt_inv h with h | ⟨_, h⟩
        · obtain ⟨_, _, e⟩ := map_ok h
          cases e
        · cases h
    · intro h
      unfold parseCon2Gd con2Of
      exact alt_hit (map_run ((C79_goals _ _ _).mpr h))
  | nested c =>
    rw [C21_iff, C82_constraints]
    constructor
    · rintro ⟨hn, g, t, rfl, hg, h⟩
      refine ⟨g, t, rfl, hg, h, fun v hv hl => ?_⟩
      rw [(C79_goals _ v r).mpr ⟨g, t, rfl, hl, hv⟩] at hn
      cases hn
    · rintro ⟨g, t, rfl, hg, h, hn⟩
      refine ⟨(goal_calm_lead h hg r).err_of fun v r' e => ?_, g, t, rfl, hg, h⟩
      obtain ⟨⟨hl, hv⟩, _⟩ := goal_texts.inv hg (con_texts.form (g := []) ⟨.nil, h⟩) e
      exact hn v hv hl

/-! ## The rest -/

theorem forallCEffect_texts : Texts parseForallCEffect
    (fun g v t => Gap g ∧ Paired c!"forall" VarListX (EffX []) v.1 v.2 t) :=
  (varList_texts.paired (.of_kw (by decide)) effect_texts parseEffect_ct).congr fun {g v t} =>
    ⟨fun h => ⟨h.1, h.2.imp (fun _ h => h.2) fun _ h => h⟩,
      fun h => ⟨h.1, h.2.imp (fun _ h => ⟨gapC_nil, h⟩) fun _ h => h⟩⟩

theorem whenCEffect_texts : Texts parseWhenCEffect
    (fun g v t => Gap g ∧ Paired c!"when" GDX (CondX []) v.1 v.2 t) :=
  (goal_texts.paired (.of_kw (by decide)) condEffect_texts parseCondEffect_ct).congr fun {g v t} =>
    ⟨fun h => ⟨h.1, h.2.imp (fun _ h => h.2) fun _ h => h⟩,
      fun h => ⟨h.1, h.2.imp (fun _ h => ⟨GoalLead.nil _, h⟩) fun _ h => h⟩⟩

theorem timeless_section : Section parseTimelessDef c!":timeless" (SomeX c!":timeless" LiteralX) :=
  section_some (fun s v r h _ => by
      obtain ⟨g, t, e, h⟩ := (literal_part.iff s v r).mp h
      exact ⟨g, t, e, literal_part.gap h.1, h.1.2⟩)
    (fun v t h => ⟨fun r _ => (literal_part.iff _ _ _).mpr ⟨[], t, rfl, ⟨by
      cases v with
      | neg => exact Gap.nil
      | pos => exact AtomLead.nil _, h⟩, trivial⟩, literal_part.solid (g := []) ⟨by
      cases v with
      | neg => exact Gap.nil
      | pos => exact AtomLead.nil _, h⟩⟩) literal_close

/-- A text after which the layout up to the remainder is skipped as well. -/
def ThenLayout (R : List Char → Prop) (t r : List Char) : Prop :=
  ∃ u g, t = u ++ g ∧ R u ∧ skip (g ++ r) = r

theorem file_iff {p : P α} {R : α → List Char → Prop}
    (h : ∀ s v r, p s = .ok v r ↔ ∃ g t y, s = g ++ (t ++ y) ∧ Gap g ∧ R v t ∧ r = skip y)
    (s : List Char) (v : α) (r : List Char) :
    p s = .ok v r ↔ ∃ g t, s = g ++ (t ++ r) ∧ Gap g ∧ ThenLayout (R v) t r := by
  rw [h]
  constructor
  · rintro ⟨g, t, y, rfl, hg, ht, rfl⟩
    have : ∃ g', y = g' ++ skip y := by
      by_cases hy : skip y = []
      · exact ⟨y, by rw [hy, List.append_nil]⟩
      · obtain ⟨g', e, _⟩ := skip_gap hy
        exact ⟨g', e⟩
    obtain ⟨g', e⟩ := this
    refine ⟨g, t ++ g', ?_, hg, t, g', rfl, ht, ?_⟩
    · rw [List.append_assoc, ← e]
    · rw [← e]
  · rintro ⟨g, _, rfl, hg, t, g', rfl, ht, hr⟩
    exact ⟨g, t, g' ++ r, by simp, hg, ht, hr.symm⟩

/-! ## Every type -/

namespace Parsable

/-- `k.Reads g v t r`: after the layout `g`, the text `t` followed by `r` is read as `v` by the parser of
the type `k`, and `r` is left. -/
def Reads : (k : Parsable) → List Char → k.Item → List Char → List Char → Prop
  | actionDefinition, g, v, t, _ => Gap g ∧ ActionX v t
  | actionSymbol, g, v, t, r => Gap g ∧ NameW v t ∧ NoWord r
  | assignOp, g, v, t, _ => g = [] ∧ AssignOpW v t
  | assignOpT, g, v, t, _ => g = [] ∧ t = AssignOpT.spell v
  | atomicFormulaSkeleton, g, v, t, _ => GapC g ∧ SkeletonX v t
  | atomicFunctionSkeleton, g, v, t, _ => GapC g ∧ SkeletonX v t
  | basicFunctionTerm, g, v, t, r => (HeadLead t g ∧ BasicX v t) ∧ HeadEnds t r
  | binaryComp, g, v, t, r =>
    g = [] ∧ t = BinaryComp.spell v ∧ (v = BinaryComp.gt ∨ v = BinaryComp.lt → ∀ r', r ≠ '=' :: r')
  | binaryOp, g, v, t, _ => g = [] ∧ t = BinaryOp.spell v
  | cEffect, g, v, t, _ => CEffX g v t
  | forallCEffect, g, v, t, _ => Gap g ∧ Paired c!"forall" VarListX (EffX []) v.1 v.2 t
  | whenCEffect, g, v, t, _ => Gap g ∧ Paired c!"when" GDX (CondX []) v.1 v.2 t
  | conGD, g, v, t, _ => Gap g ∧ ConX v t
  | con2GD, g, v, t, _ => Con2Text g v t
  | conditionalEffect, g, v, t, _ => CondX g v t
  | constants, g, v, t, _ => Gap g ∧ NamesX c!":constants" v t
  | dOp, g, v, t, _ => g = [] ∧ t = DOp.spell v
  | durationValue, g, v, t, r => DValueX g v t ∧ DValueEnds v t r
  | durativeActionDefinition, g, v, t, _ => Gap g ∧ DaDefX v t
  | durativeActionEffect, g, v, t, _ => DaEffX g v t
  | durativeActionGoalDefinition, g, v, t, _ => Gap g ∧ DaGDX v t
  | durativeActionSymbol, g, v, t, r => Gap g ∧ NameW v t ∧ NoWord r
  | derivedPredicate, g, v, t, _ =>
    Gap g ∧ Paired c!":derived" SkeletonX GDX (DerivedPredicate.predicate v) (DerivedPredicate.goal v) t
  | domain, g, v, t, r => Gap g ∧ ThenLayout (DomainX v) t r
  | domainConstraintsDef, g, v, t, _ => Gap g ∧ Wrapped c!":constraints" ConX v t
  | durationConstraint, g, v, t, _ => DurationX g v t
  | effects, g, v, t, _ => EffX g v t
  | fAssignDa, g, v, t, _ => GapC g ∧ AssignDaX v t
  | fComp, g, v, t, _ => GapC g ∧ OpForm (fun o t => t = BinaryComp.spell o) FExpX FExpX
    (FComp.comp v, FComp.first v, FComp.second v) t
  | fExp, g, v, t, r => FExpX g v t ∧ FExpEnds v t r
  | fExpDa, g, v, t, r => FExpDaX g v t ∧ FExpDaEnds v t r
  | fExpT, g, v, t, _ => FExpTX g v t
  | fHead, g, v, t, r => HeadLead t g ∧ FHeadX v t ∧ HeadEnds t r
  | functionSymbol, g, v, t, r => Gap g ∧ NameW v t ∧ NoWord r
  | functionTerm, g, v, t, _ => g = [] ∧ FnTermX v t
  | functionType, g, v, t, r => g = [] ∧ TyX v t r
  | functions, g, v, t, _ => Gap g ∧ FunctionsX v t
  | goalDefinition, g, v, t, _ => GoalLead v g ∧ GDX v t
  | goalDef, g, v, t, _ => Gap g ∧ Wrapped c!":goal" (PreX []) v t
  | initElements, g, v, t, _ => Gap g ∧ InitSectionX v t
  | initElement, g, v, t, _ => InitX g v t
  | interval, g, v, t, _ => g = [] ∧ t = Interval.spell v
  | lengthSpec, g, v, t, _ => Gap g ∧ LengthX v t
  | metricFExp, g, v, t, r => MetricX g v t ∧ MetricEnds v t r
  | metricSpec, g, v, t, _ => Gap g ∧ MetricSpecX v t
  | multiOp, g, v, t, _ => g = [] ∧ t = MultiOp.spell v
  | name, g, v, t, r => Gap g ∧ NameW v t ∧ NoWord r
  | number, g, v, t, r => g = [] ∧ NumW v t ∧ NumEnds t r
  | objects, g, v, t, _ => Gap g ∧ NamesX c!":objects" v t
  | optimization, g, v, t, _ => g = [] ∧ t = Optimization.spell v
  | pEffect, g, v, t, _ => PEffX g v t
  | preconditionGoalDefinitions, g, v, t, _ => PreX g v t
  | predicate, g, v, t, r => Gap g ∧ NameW v t ∧ NoWord r
  | predicateDefinitions, g, v, t, _ => Gap g ∧ SomeX c!":predicates" SkeletonX v t
  | prefConGDs, g, v, t, _ => Gap g ∧ PrefConX v t
  | preferenceGD, g, v, t, _ => PrefLead v g ∧ PrefGDX v t
  | preferenceName, g, v, t, r => Gap g ∧ NameW v t ∧ NoWord r
  | prefTimedGD, g, v, t, _ => Gap g ∧ PrefTimedX v t
  | primitiveType, g, v, t, r =>
    (g = [] ∧ v = Name.new c!"object" ∧ t = c!"object") ∨
      (Gap g ∧ NameW v t ∧ NoWord r ∧ (g = [] → ¬ c!"object" <+: t))
  | problem, g, v, t, r => Gap g ∧ ThenLayout (ProblemX v) t r
  | problemConstraintsDef, g, v, t, _ => Gap g ∧ Wrapped c!":constraints" PrefConX v t
  | requirements, g, v, t, _ => Gap g ∧ SomeX c!":requirements" KeyW v t
  | requirement, g, v, t, _ => g = [] ∧ t = Requirement.spell v
  | simpleDurationConstraint, g, v, t, _ => SimpleDurationX g v t
  | structureDef, g, v, t, _ => Gap g ∧ StructureX v t
  | term, g, v, t, r => TermLead v g ∧ TermX v t ∧ TermEnds v r
  | timeSpecifier, g, v, t, _ => g = [] ∧ t = TimeSpecifier.spell v
  | timedEffect, g, v, t, _ => TimedEffX g v t
  | timedGD, g, v, t, _ => Gap g ∧ TimedGDX v t
  | timeless, g, v, t, _ => Gap g ∧ SomeX c!":timeless" LiteralX v t
  | type_, g, v, t, r => g = [] ∧ TyX v t r
  | types, g, v, t, _ => Gap g ∧ NamesX c!":types" v t
  | variable_, g, v, t, r => g = [] ∧ VarX v t ∧ NoWord r

end Parsable

theorem no_lead {s r : List Char} {R : List Char → Prop} :
    (∃ t, s = t ++ r ∧ R t) ↔ ∃ g t, s = g ++ (t ++ r) ∧ g = [] ∧ R t :=
  ⟨fun ⟨t, e, h⟩ => ⟨[], t, e, rfl, h⟩, fun ⟨_, t, e, hg, h⟩ => ⟨t, by rw [e, hg]; rfl, h⟩⟩

theorem primitive_lead (s : List Char) (n : Name) (r : List Char) :
    parsePrimitiveType s = .ok n r ↔ ∃ g t, s = g ++ (t ++ r) ∧
      ((g = [] ∧ n = Name.new c!"object" ∧ t = c!"object") ∨
        (Gap g ∧ NameW n t ∧ NoWord r ∧ (g = [] → ¬ c!"object" <+: t))) := by
  rw [primitive_iff]
  constructor
  · rintro (⟨hn, e⟩ | ⟨g, t, e, h⟩)
    · exact ⟨[], _, e, .inl ⟨rfl, hn, rfl⟩⟩
    · exact ⟨g, t, e, .inr h⟩
  · rintro ⟨g, t, e, ⟨rfl, hn, rfl⟩ | h⟩
    · exact .inl ⟨hn, e⟩
    · exact .inr ⟨g, t, e, h⟩

/-- C86: for each of the 73 types, exactly which texts its parser reads, as which value and up to where. -/
theorem C86_parse (k : Parsable) (s : List Char) (v : k.Item) (r : List Char) :
    k.parse s = .ok v r ↔ ∃ g t, s = g ++ (t ++ r) ∧ k.Reads g v t r := by
  cases k with
  | actionDefinition => exact C84_actions s v r
  | actionSymbol => exact parseName_exact.iff s v r
  | assignOp => exact assignOp_iff s v r
  | assignOpT => exact C41_assignOpT.plain _ (fun o => by cases o <;> rfl) (fun _ _ => trivial) s v r
  | atomicFormulaSkeleton => exact (C78_skeletons s v r).1
  | atomicFunctionSkeleton => exact (C78_skeletons s v r).2
  | basicFunctionTerm => exact C77_function_terms s v r
  | binaryComp => exact binaryComp_iff s v r
  | binaryOp => exact C41_binaryOp.plain _ (fun o => by cases o <;> rfl) (fun _ _ => trivial) s v r
  | cEffect => exact C81_effects s v r
  | forallCEffect => exact forallCEffect_texts.iff s v r
  | whenCEffect => exact whenCEffect_texts.iff s v r
  | conGD => exact C82_constraints s v r
  | con2GD => exact con2_iff s v r
  | conditionalEffect => exact C81_conditional_effects s v r
  | constants => exact constants_section.iff s v r
  | dOp => exact C41_dOp.plain _ (fun o => by cases o <;> rfl) (fun _ _ => trivial) s v r
  | durationValue => exact C77_duration_values s v r
  | durativeActionDefinition => exact C84_durative_actions s v r
  | durativeActionEffect => exact C83_effects s v r
  | durativeActionGoalDefinition => exact C83_conditions s v r
  | durativeActionSymbol => exact parseName_exact.iff s v r
  | derivedPredicate => exact C84_derived_predicates s v r
  | domain => exact file_iff C85_domains s v r
  | domainConstraintsDef => exact C82_domain_section s v r
  | durationConstraint => exact C77_durations s v r
  | effects => exact C81_effect_lists s v r
  | fAssignDa => exact assignDa_texts.iff s v r
  | fComp => cases v; exact C77_comparisons s _ _ _ r
  | fExp => exact C77_numeric_expressions s v r
  | fExpDa => exact C77_durative_expressions s v r
  | fExpT => exact C77_rates s v r
  | fHead => exact C77_function_heads s v r
  | functionSymbol => exact parseName_exact.iff s v r
  | functionTerm => exact (C68_function_terms s v r).trans no_lead
  | functionType => exact (C78_types s v r).trans no_lead
  | functions => exact functions_section.iff s v r
  | goalDefinition => exact C79_goals s v r
  | goalDef => exact C80_goal_section s v r
  | initElements => exact C77_initial_states s v r
  | initElement => exact C77_initial_elements s v r
  | interval => exact C41_interval.plain _ (fun o => by cases o; rfl) (fun _ _ => trivial) s v r
  | lengthSpec => exact length_section.iff s v r
  | metricFExp => exact C77_metric_expressions s v r
  | metricSpec => exact C77_metrics s v r
  | multiOp => exact C41_multiOp.plain _ (fun o => by cases o <;> rfl) (fun _ _ => trivial) s v r
  | name => exact parseName_exact.iff s v r
  | number => exact (C77_numbers s v r).trans no_lead
  | objects => exact objects_section.iff s v r
  | optimization => exact C41_optimization.plain _ (fun o => by cases o <;> rfl) (fun _ _ => trivial) s v r
  | pEffect => exact C81_simple_effects s v r
  | preconditionGoalDefinitions => exact C80_preconditions s v r
  | predicate => exact parseName_exact.iff s v r
  | predicateDefinitions => exact predicates_section.iff s v r
  | prefConGDs => exact C82_problem_constraints s v r
  | preferenceGD => exact C80_preferences s v r
  | preferenceName => exact parseName_exact.iff s v r
  | prefTimedGD => exact C83_timed_preferences s v r
  | primitiveType => exact primitive_lead s v r
  | problem => exact file_iff C85_problems s v r
  | problemConstraintsDef => exact C82_problem_section s v r
  | requirements => exact requirements_section.iff s v r
  | requirement => exact C34_keys.plain _ (fun o => by cases o <;> rfl) (fun _ _ => trivial) s v r
  | simpleDurationConstraint => exact C77_duration_constraint s v r
  | structureDef => exact C84_structures s v r
  | term => exact C68_terms s v r
  | timeSpecifier => exact C41_timeSpecifier.plain _ (fun o => by cases o <;> rfl) (fun _ _ => trivial) s v r
  | timedEffect => exact C83_timed_effects s v r
  | timedGD => exact C83_timed_goals s v r
  | timeless => exact timeless_section.iff s v r
  | type_ => exact (C78_types s v r).trans no_lead
  | types => exact types_section.iff s v r
  | variable_ => exact (variable_iff s v r).trans no_lead

/-- C86, `Parser::from_str`: what follows the text is not looked at, except where the description of the
type says so. -/
theorem C86_from_str (k : Parsable) (s : List Char) (v : k.Item) :
    k.fromStr s = .ok v [] ↔ ∃ g t r, s = g ++ (t ++ r) ∧ k.Reads g v t r := by
  have h : k.fromStr s = .ok v [] ↔ ∃ r, k.parse s = .ok v r := by
    unfold Parsable.fromStr
    cases k.parse s <;> simp
  rw [h]
  constructor
  · rintro ⟨r, h⟩
    obtain ⟨g, t, e, h⟩ := (C86_parse k s v r).mp h
    exact ⟨g, t, r, e, h⟩
  · rintro ⟨g, t, r, e, h⟩
    exact ⟨r, (C86_parse k s v r).mpr ⟨g, t, e, h⟩⟩

/-- C86, the description is unambiguous: a text has at most one reading, with one value and one
remainder. -/
theorem C86_unique (k : Parsable) {g t r g' t' r' : List Char} {v v' : k.Item} (h : k.Reads g v t r)
    (h' : k.Reads g' v' t' r') (e : g ++ (t ++ r) = g' ++ (t' ++ r')) : v = v' ∧ r = r' := by
  have h1 := (C86_parse k _ v r).mpr ⟨g, t, rfl, h⟩
  rw [e, (C86_parse k _ v' r').mpr ⟨g', t', rfl, h'⟩] at h1
  cases h1
  exact ⟨rfl, rfl⟩

example : (∃ g t, c!" (:timeless (p) (not(q))) rest" = g ++ (t ++ c!" rest") ∧ Parsable.timeless.Reads g
      [.pos (.predicate (Ex.nm c!"p") []), .neg (.predicate (Ex.nm c!"q") [])] t c!" rest") ∧
    (∃ g t, c!"(when(p) (not(q)))" = g ++ (t ++ []) ∧ Parsable.whenCEffect.Reads g
      (.atomic (.predicate (Ex.nm c!"p") []), .single (.notAtomic (.predicate (Ex.nm c!"q") []))) t []) ∧
    Parsable.binaryComp.Reads [] BinaryComp.gt c!">" c!" =" ∧
    ¬ ∃ g v, Parsable.binaryComp.Reads g v c!">" c!"= 1" := by
  refine ⟨(C86_parse .timeless _ _ _).mp rfl, (C86_parse .whenCEffect _ _ _).mp rfl,
    ⟨rfl, rfl, fun _ _ h => by cases h⟩, ?_⟩
  rintro ⟨g, v, rfl, h, h'⟩
  cases v <;> first | (cases h; done) | exact h' (.inl rfl) _ rfl

/-- A blank in front changes what an argument of a constraint is: an atom with the name `always`, or a
constraint. -/
example : (∃ a, ∃ g t, c!"(always (p))" = g ++ (t ++ []) ∧ Parsable.con2GD.Reads g (.goal (.atomic a)) t []) ∧
    ∃ c, ∃ g t, c!" (always (p))" = g ++ (t ++ []) ∧ Parsable.con2GD.Reads g (.nested c) t [] :=
  ⟨⟨_, (C86_parse .con2GD _ _ _).mp rfl⟩, ⟨_, (C86_parse .con2GD _ _ _).mp rfl⟩⟩

/-- The remainder matters where the description mentions it: `p` is a name before a blank, but not before a
letter. -/
example : Parsable.name.Reads [' '] (Ex.nm c!"p") c!"p" c!" q" ∧ ∀ g v, ¬ Parsable.name.Reads g v c!"p" c!"q" := by
  refine ⟨⟨.space rfl .nil, ⟨⟨'p', [], rfl, by decide, by decide⟩, rfl⟩, fun c r h => ?_⟩, fun g v h => ?_⟩
  · cases h; rfl
  · exact absurd (h.2.2 _ _ rfl) (by decide)

end Pddl
