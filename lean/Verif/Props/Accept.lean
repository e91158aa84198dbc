import Verif.Meta.OneForm
import Verif.Props.ReadBack

/-!
# Properties: what acceptance means (C26, C27, C28)

* C26, `ReadsOnly p R`: what was consumed is layout followed by a spelling (`R`, the grammar of
  `Verif/Spec/Grammar.lean` in its loose mode) of exactly the returned value.
* C27, `OneFormOnly p`: what was consumed is layout followed by one parenthesised form
  (`OneForm`, `Verif/Spec/Balance.lean`).
* C28, `TailBlind p`: the text after the consumed one has no influence on the value;
  `SameOutcome`: nor has the text after a form any influence on whether it is rejected.
-/

namespace Pddl

/-! ## The three statements -/

/-- Everything consumed is layout and a spelling of the value returned. -/
def ReadsOnly (p : P α) (R : α → List Char → Prop) : Prop :=
  ∀ s v r, p s = .ok v r → ∃ g t, s = g ++ (t ++ r) ∧ Gap g ∧ R v t

/-- Everything consumed is layout and one parenthesised form. -/
def OneFormOnly (p : P α) : Prop :=
  ∀ s v r, p s = .ok v r → ∃ g t, s = g ++ (t ++ r) ∧ Gap g ∧ OneForm t

/-- If `x` was consumed in front of `r`, then it is consumed in front of every text, with the same
value. -/
def TailBlind (p : P α) : Prop :=
  ∀ x r v, p (x ++ r) = .ok v r → ∀ r', p (x ++ r') = .ok v r'

/-- The same value and the same text left before `k` and `k'`, or the same kind of failure. -/
inductive SameOutcome (k k' : List Char) : Res α → Res α → Prop
  | ok (v : α) (w : List Char) : SameOutcome k k' (.ok v (w ++ k)) (.ok v (w ++ k'))
  | err : SameOutcome k k' .err .err
  | fail : SameOutcome k k' .fail .fail
  | panic : SameOutcome k k' .panic .panic
  | oof : SameOutcome k k' .oof .oof

/-- The outcome on a balanced form, a rejection or a panic included, does not depend on the text
after the form. -/
def OutcomeTailBlind (p : P α) : Prop :=
  ∀ g u k k', Gap g → Bal u → SameOutcome k k' (p (g ++ (paren u ++ k))) (p (g ++ (paren u ++ k')))

theorem Snd.reads {p : P α} {R : α → List Char → Prop} (h : Snd Any Gap p R) : ReadsOnly p R :=
  fun s v r hs => h s v r hs trivial

theorem Snd.oneForm {p : P α} {R : α → List Char → Prop} (h : Snd Any Gap p R)
    (hf : ∀ v t, R v t → Form t) : OneFormOnly p := fun s v r hs => by
  obtain ⟨g, t, h1, h2, h3⟩ := h s v r hs trivial
  exact ⟨g, t, h1, h2, .of_form (hf v t h3)⟩

theorem Snd.tail {p : P α} {R : α → List Char → Prop} (h : Snd Any Gap p R)
    (hf : ∀ v t, R v t → Form t) (hl : Loc p) : TailBlind p := fun x r v hx r' => by
  obtain ⟨g, t, h1, h2, h3⟩ := h _ v r hx trivial
  obtain ⟨u, rfl, hu⟩ := hf v t h3
  rw [← List.append_assoc] at h1
  have h1 := List.append_cancel_right h1
  subst h1
  rw [List.append_assoc] at hx ⊢
  exact hl.ok h2 hu hx r'

theorem Loc.outcome {p : P α} (h : Loc p) : OutcomeTailBlind p := fun g u k k' hg hu => by
  have := h.fl g u k k' hg hu
  revert this
  generalize p (g ++ (paren u ++ k)) = x
  generalize p (g ++ (paren u ++ k')) = y
  intro h
  cases h with
  | ok _ _ => exact .ok _ _
  | err => exact .err
  | fail => exact .fail
  | panic => exact .panic
  | oof => exact .oof

/-! ## C26 -/

theorem C26_names : ReadsOnly parseName NameW :=
  parseName_snd.reads
theorem C26_variables : ReadsOnly parseVariable (VarW .loose) :=
  parseVariable_snd.reads
theorem C26_types : ReadsOnly parseType (TypeW .loose) :=
  parseType_snd.reads
theorem C26_terms : ReadsOnly parseTerm (TermW .loose) :=
  parseTerm_snd.reads
theorem C26_f_heads : ReadsOnly parseFHead (FHeadW .loose) :=
  parseFHead_snd.reads
theorem C26_basic_function_terms : ReadsOnly parseBasicFunctionTerm (BasicW .loose) :=
  parseBasicFunctionTerm_snd.reads
theorem C26_f_exp : ReadsOnly parseFExp (FExpW .loose) :=
  parseFExp_snd.reads
theorem C26_f_exp_da : ReadsOnly parseFExpDa (FExpDaW .loose) :=
  parseFExpDa_snd.reads
theorem C26_f_exp_t : ReadsOnly parseFExpT (FExpTW .loose) :=
  parseFExpT_snd.reads
theorem C26_metric_exp : ReadsOnly parseMetricFExp (MetricW .loose) :=
  parseMetricFExp_snd.reads
theorem C26_duration_values : ReadsOnly parseDValue (DValueW .loose) :=
  parseDValue_snd.reads
theorem C26_variable_lists : ReadsOnly parseVarList (VarsW .loose) :=
  parseVarList_snd.reads
theorem C26_skeletons : ReadsOnly parseAtomicFormulaSkeleton (SkeletonW .loose) :=
  parseAtomicFormulaSkeleton_snd.reads
theorem C26_function_terms : ReadsOnly parseFunctionTerm (FnTermW .loose) :=
  parseFunctionTerm_snd.reads
theorem C26_atoms : ReadsOnly (atomicFormula parseTerm) (AtomW .loose (TermW .loose)) :=
  atom_snd.reads
theorem C26_literals : ReadsOnly (literal parseName) (LiteralW .loose) :=
  literal_snd.reads
theorem C26_comparisons : ReadsOnly parseFComp (FCompW .loose) :=
  parseFComp_snd.reads
theorem C26_goals : ReadsOnly parseGd (GDW .loose) :=
  parseGd_snd.reads
theorem C26_preferences : ReadsOnly parsePrefGd (PrefGDW .loose) :=
  parsePrefGd_snd.reads
theorem C26_preconditions : ReadsOnly parsePreGd (PreGDW .loose) :=
  parsePreGd_snd.reads
theorem C26_constraints : ReadsOnly parseConGd (ConGDW .loose) :=
  parseConGd_snd.reads
theorem C26_nested_constraints : ReadsOnly parseCon2Gd (Con2W .loose (ConGDW .loose)) :=
  parseCon2Gd_snd.reads
theorem C26_pref_constraints : ReadsOnly parsePrefConGd (PrefConGDW .loose) :=
  parsePrefConGd_snd.reads
theorem C26_p_effects : ReadsOnly parsePEffect (PEffectW .loose) :=
  parsePEffect_snd.reads
theorem C26_cond_effects : ReadsOnly parseCondEffect (CondEffectW .loose) :=
  parseCondEffect_snd.reads
theorem C26_c_effects : ReadsOnly parseCEffect (CEffectW .loose) :=
  parseCEffect_snd.reads
theorem C26_effects : ReadsOnly parseEffect (EffectW (CEffectW .loose)) :=
  parseEffect_snd.reads
theorem C26_actions : ReadsOnly parseActionDef (ActionW .loose) :=
  parseActionDef_snd.reads
theorem C26_derived : ReadsOnly parseDerivedPredicate (DerivedW .loose) :=
  parseDerivedPredicate_snd.reads
theorem C26_timed_goals : ReadsOnly parseTimedGd (TimedGDW .loose) :=
  parseTimedGd_snd.reads
theorem C26_pref_timed_goals : ReadsOnly parsePrefTimedGd (PrefTimedGDW .loose) :=
  parsePrefTimedGd_snd.reads
theorem C26_da_conditions : ReadsOnly parseDaGd (DaGDW .loose) :=
  parseDaGd_snd.reads
theorem C26_f_assign_da : ReadsOnly parseFAssignDa (FAssignDaW .loose) :=
  parseFAssignDa_snd.reads
theorem C26_timed_effects : ReadsOnly parseTimedEffect (TimedEffectW .loose) :=
  parseTimedEffect_snd.reads
theorem C26_da_effects : ReadsOnly parseDaEffect (DaEffectW .loose) :=
  parseDaEffect_snd.reads
theorem C26_simple_durations : ReadsOnly parseSimpleDuration (SimpleDurationW .loose) :=
  parseSimpleDuration_snd.reads
theorem C26_durative : ReadsOnly parseDaDef (DaDefW .loose) :=
  parseDaDef_snd.reads
theorem C26_structures : ReadsOnly parseStructureDef (StructureW .loose) :=
  parseStructureDef_snd.reads
theorem C26_requirements : ReadsOnly parseRequireDef (RequirementsW .loose) :=
  parseRequireDef_snd.reads
theorem C26_types_section : ReadsOnly parseTypesDef (TypedNamesW .loose c!":types") :=
  typedNames_snd.reads
theorem C26_constants_section : ReadsOnly parseConstantsDef (TypedNamesW .loose c!":constants") :=
  typedNames_snd.reads
theorem C26_objects_section : ReadsOnly parseProblemObjectsDeclaration (TypedNamesW .loose c!":objects") :=
  typedNames_snd.reads
theorem C26_predicates_section : ReadsOnly parsePredicatesDef (PredicatesW .loose) :=
  parsePredicatesDef_snd.reads
theorem C26_functions_section : ReadsOnly parseFunctionsDef (FunctionsW .loose) :=
  parseFunctionsDef_snd.reads
theorem C26_constraints_section : ReadsOnly parseDomainConstraintsDef (WrapW c!":constraints" Gap (ConGDW .loose)) :=
  parseDomainConstraintsDef_snd.reads
theorem C26_problem_constraints_section : ReadsOnly parseProblemConstraintsDef (WrapW c!":constraints" Gap (PrefConGDW .loose)) :=
  parseProblemConstraintsDef_snd.reads
theorem C26_goal_section : ReadsOnly parseProblemGoalDef (WrapW c!":goal" Gap (PreGDW .loose)) :=
  parseProblemGoalDef_snd.reads
theorem C26_init_elements : ReadsOnly parseInitEl (InitElW .loose) :=
  parseInitEl_snd.reads
theorem C26_init_section : ReadsOnly parseProblemInitDef (InitW .loose) :=
  parseProblemInitDef_snd.reads
theorem C26_length_section : ReadsOnly parseProblemLengthSpec (LengthW .loose) :=
  parseProblemLengthSpec_snd.reads
theorem C26_metric_section : ReadsOnly parseProblemMetricSpec (MetricSpecW .loose) :=
  parseProblemMetricSpec_snd.reads
theorem C26_timeless_section : ReadsOnly parseTimelessDef (TimelessW .loose) :=
  parseTimelessDef_snd.reads

/-! ## C27 -/

theorem C27_variable_lists : OneFormOnly parseVarList :=
  parseVarList_snd.oneForm fun _ _ h => h.form
theorem C27_skeletons : OneFormOnly parseAtomicFormulaSkeleton :=
  parseAtomicFormulaSkeleton_snd.oneForm fun _ _ h => h.form
theorem C27_function_terms : OneFormOnly parseFunctionTerm :=
  parseFunctionTerm_snd.oneForm fun _ _ h => h.form
theorem C27_atoms : OneFormOnly (atomicFormula parseTerm) :=
  atom_snd.oneForm fun _ _ h => h.form fun _ _ h => h.bal
theorem C27_literals : OneFormOnly (literal parseName) :=
  literal_snd.oneForm fun _ _ h => h.form
theorem C27_comparisons : OneFormOnly parseFComp :=
  parseFComp_snd.oneForm fun _ _ h => h.form
theorem C27_goals : OneFormOnly parseGd :=
  parseGd_snd.oneForm fun _ _ h => h.form
theorem C27_preferences : OneFormOnly parsePrefGd :=
  parsePrefGd_snd.oneForm fun _ _ h => h.form
theorem C27_preconditions : OneFormOnly parsePreGd :=
  parsePreGd_snd.oneForm fun _ _ h => h.form
theorem C27_constraints : OneFormOnly parseConGd :=
  parseConGd_snd.oneForm fun _ _ h => h.form
theorem C27_nested_constraints : OneFormOnly parseCon2Gd :=
  parseCon2Gd_snd.oneForm fun _ _ h => h.form
theorem C27_pref_constraints : OneFormOnly parsePrefConGd :=
  parsePrefConGd_snd.oneForm fun _ _ h => h.form
theorem C27_p_effects : OneFormOnly parsePEffect :=
  parsePEffect_snd.oneForm fun _ _ h => h.form
theorem C27_cond_effects : OneFormOnly parseCondEffect :=
  parseCondEffect_snd.oneForm fun _ _ h => h.form
theorem C27_c_effects : OneFormOnly parseCEffect :=
  parseCEffect_snd.oneForm fun _ _ h => h.form
theorem C27_effects : OneFormOnly parseEffect :=
  parseEffect_snd.oneForm fun _ _ h => h.form
theorem C27_actions : OneFormOnly parseActionDef :=
  parseActionDef_snd.oneForm fun _ _ h => h.form
theorem C27_derived : OneFormOnly parseDerivedPredicate :=
  parseDerivedPredicate_snd.oneForm fun _ _ h => h.form
theorem C27_timed_goals : OneFormOnly parseTimedGd :=
  parseTimedGd_snd.oneForm fun _ _ h => h.form
theorem C27_pref_timed_goals : OneFormOnly parsePrefTimedGd :=
  parsePrefTimedGd_snd.oneForm fun _ _ h => h.form
theorem C27_da_conditions : OneFormOnly parseDaGd :=
  parseDaGd_snd.oneForm fun _ _ h => h.form
theorem C27_f_assign_da : OneFormOnly parseFAssignDa :=
  parseFAssignDa_snd.oneForm fun _ _ h => h.form
theorem C27_timed_effects : OneFormOnly parseTimedEffect :=
  parseTimedEffect_snd.oneForm fun _ _ h => h.form
theorem C27_da_effects : OneFormOnly parseDaEffect :=
  parseDaEffect_snd.oneForm fun _ _ h => h.form
theorem C27_simple_durations : OneFormOnly parseSimpleDuration :=
  parseSimpleDuration_snd.oneForm fun _ _ h => h.form
theorem C27_durative : OneFormOnly parseDaDef :=
  parseDaDef_snd.oneForm fun _ _ h => h.form
theorem C27_structures : OneFormOnly parseStructureDef :=
  parseStructureDef_snd.oneForm fun _ _ h => h.form
theorem C27_requirements : OneFormOnly parseRequireDef :=
  parseRequireDef_snd.oneForm fun _ _ h => h.form
theorem C27_types_section : OneFormOnly parseTypesDef :=
  typedNames_snd.oneForm fun _ _ h => TypedNamesW.form h (by decide)
theorem C27_constants_section : OneFormOnly parseConstantsDef :=
  typedNames_snd.oneForm fun _ _ h => TypedNamesW.form h (by decide)
theorem C27_objects_section : OneFormOnly parseProblemObjectsDeclaration :=
  typedNames_snd.oneForm fun _ _ h => TypedNamesW.form h (by decide)
theorem C27_predicates_section : OneFormOnly parsePredicatesDef :=
  parsePredicatesDef_snd.oneForm fun _ _ h => NonEmptyW.form h (by decide) (fun _ h => h) fun _ _ h => h.bal
theorem C27_functions_section : OneFormOnly parseFunctionsDef :=
  parseFunctionsDef_snd.oneForm fun _ _ h => h.form
theorem C27_constraints_section : OneFormOnly parseDomainConstraintsDef :=
  parseDomainConstraintsDef_snd.oneForm fun _ _ h => h.form (by decide) (fun _ h => h) fun _ _ h => h.form.bal
theorem C27_problem_constraints_section : OneFormOnly parseProblemConstraintsDef :=
  parseProblemConstraintsDef_snd.oneForm fun _ _ h => h.form (by decide) (fun _ h => h) fun _ _ h => h.form.bal
theorem C27_goal_section : OneFormOnly parseProblemGoalDef :=
  parseProblemGoalDef_snd.oneForm fun _ _ h => h.form (by decide) (fun _ h => h) fun _ _ h => h.form.bal
theorem C27_init_elements : OneFormOnly parseInitEl :=
  parseInitEl_snd.oneForm fun _ _ h => h.form
theorem C27_init_section : OneFormOnly parseProblemInitDef :=
  parseProblemInitDef_snd.oneForm fun _ _ h => h.form
theorem C27_length_section : OneFormOnly parseProblemLengthSpec :=
  parseProblemLengthSpec_snd.oneForm fun _ _ h => h.form
theorem C27_metric_section : OneFormOnly parseProblemMetricSpec :=
  parseProblemMetricSpec_snd.oneForm fun _ _ h => h.form
theorem C27_timeless_section : OneFormOnly parseTimelessDef :=
  parseTimelessDef_snd.oneForm fun _ _ h => NonEmptyW.form h (by decide) (fun _ h => h) fun _ _ h => h.bal

/-! ## C28 -/

theorem C28_variable_lists : TailBlind parseVarList :=
  parseVarList_snd.tail (fun _ _ h => h.form) parseVarList_loc
theorem C28_skeletons : TailBlind parseAtomicFormulaSkeleton :=
  parseAtomicFormulaSkeleton_snd.tail (fun _ _ h => h.form) parseAtomicFormulaSkeleton_loc
theorem C28_function_terms : TailBlind parseFunctionTerm :=
  parseFunctionTerm_snd.tail (fun _ _ h => h.form) parseFunctionTerm_loc
theorem C28_atoms : TailBlind (atomicFormula parseTerm) :=
  atom_snd.tail (fun _ _ h => h.form fun _ _ h => h.bal) (by loc)
theorem C28_literals : TailBlind (literal parseName) :=
  literal_snd.tail (fun _ _ h => h.form) (by loc)
theorem C28_comparisons : TailBlind parseFComp :=
  parseFComp_snd.tail (fun _ _ h => h.form) parseFComp_loc
theorem C28_goals : TailBlind parseGd :=
  parseGd_snd.tail (fun _ _ h => h.form) parseGd_loc
theorem C28_preferences : TailBlind parsePrefGd :=
  parsePrefGd_snd.tail (fun _ _ h => h.form) parsePrefGd_loc
theorem C28_preconditions : TailBlind parsePreGd :=
  parsePreGd_snd.tail (fun _ _ h => h.form) parsePreGd_loc
theorem C28_constraints : TailBlind parseConGd :=
  parseConGd_snd.tail (fun _ _ h => h.form) parseConGd_loc
theorem C28_nested_constraints : TailBlind parseCon2Gd :=
  parseCon2Gd_snd.tail (fun _ _ h => h.form) parseCon2Gd_loc
theorem C28_pref_constraints : TailBlind parsePrefConGd :=
  parsePrefConGd_snd.tail (fun _ _ h => h.form) parsePrefConGd_loc
theorem C28_p_effects : TailBlind parsePEffect :=
  parsePEffect_snd.tail (fun _ _ h => h.form) parsePEffect_loc
theorem C28_cond_effects : TailBlind parseCondEffect :=
  parseCondEffect_snd.tail (fun _ _ h => h.form) parseCondEffect_loc
theorem C28_c_effects : TailBlind parseCEffect :=
  parseCEffect_snd.tail (fun _ _ h => h.form) parseCEffect_loc
theorem C28_effects : TailBlind parseEffect :=
  parseEffect_snd.tail (fun _ _ h => h.form) parseEffect_loc
theorem C28_actions : TailBlind parseActionDef :=
  parseActionDef_snd.tail (fun _ _ h => h.form) parseActionDef_loc
theorem C28_derived : TailBlind parseDerivedPredicate :=
  parseDerivedPredicate_snd.tail (fun _ _ h => h.form) parseDerivedPredicate_loc
theorem C28_timed_goals : TailBlind parseTimedGd :=
  parseTimedGd_snd.tail (fun _ _ h => h.form) parseTimedGd_loc
theorem C28_pref_timed_goals : TailBlind parsePrefTimedGd :=
  parsePrefTimedGd_snd.tail (fun _ _ h => h.form) parsePrefTimedGd_loc
theorem C28_da_conditions : TailBlind parseDaGd :=
  parseDaGd_snd.tail (fun _ _ h => h.form) parseDaGd_loc
theorem C28_f_assign_da : TailBlind parseFAssignDa :=
  parseFAssignDa_snd.tail (fun _ _ h => h.form) parseFAssignDa_loc
theorem C28_timed_effects : TailBlind parseTimedEffect :=
  parseTimedEffect_snd.tail (fun _ _ h => h.form) parseTimedEffect_loc
theorem C28_da_effects : TailBlind parseDaEffect :=
  parseDaEffect_snd.tail (fun _ _ h => h.form) parseDaEffect_loc
theorem C28_simple_durations : TailBlind parseSimpleDuration :=
  parseSimpleDuration_snd.tail (fun _ _ h => h.form) parseSimpleDuration_loc
theorem C28_durative : TailBlind parseDaDef :=
  parseDaDef_snd.tail (fun _ _ h => h.form) parseDaDef_loc
theorem C28_structures : TailBlind parseStructureDef :=
  parseStructureDef_snd.tail (fun _ _ h => h.form) parseStructureDef_loc
theorem C28_requirements : TailBlind parseRequireDef :=
  parseRequireDef_snd.tail (fun _ _ h => h.form) parseRequireDef_loc
theorem C28_types_section : TailBlind parseTypesDef :=
  typedNames_snd.tail (fun _ _ h => TypedNamesW.form h (by decide)) parseTypesDef_loc
theorem C28_constants_section : TailBlind parseConstantsDef :=
  typedNames_snd.tail (fun _ _ h => TypedNamesW.form h (by decide)) parseConstantsDef_loc
theorem C28_objects_section : TailBlind parseProblemObjectsDeclaration :=
  typedNames_snd.tail (fun _ _ h => TypedNamesW.form h (by decide)) parseProblemObjectsDeclaration_loc
theorem C28_predicates_section : TailBlind parsePredicatesDef :=
  parsePredicatesDef_snd.tail (fun _ _ h => NonEmptyW.form h (by decide) (fun _ h => h) fun _ _ h => h.bal) parsePredicatesDef_loc
theorem C28_functions_section : TailBlind parseFunctionsDef :=
  parseFunctionsDef_snd.tail (fun _ _ h => h.form) parseFunctionsDef_loc
theorem C28_constraints_section : TailBlind parseDomainConstraintsDef :=
  parseDomainConstraintsDef_snd.tail (fun _ _ h => h.form (by decide) (fun _ h => h) fun _ _ h => h.form.bal) parseDomainConstraintsDef_loc
theorem C28_problem_constraints_section : TailBlind parseProblemConstraintsDef :=
  parseProblemConstraintsDef_snd.tail (fun _ _ h => h.form (by decide) (fun _ h => h) fun _ _ h => h.form.bal) parseProblemConstraintsDef_loc
theorem C28_goal_section : TailBlind parseProblemGoalDef :=
  parseProblemGoalDef_snd.tail (fun _ _ h => h.form (by decide) (fun _ h => h) fun _ _ h => h.form.bal) parseProblemGoalDef_loc
theorem C28_init_elements : TailBlind parseInitEl :=
  parseInitEl_snd.tail (fun _ _ h => h.form) parseInitEl_loc
theorem C28_init_section : TailBlind parseProblemInitDef :=
  parseProblemInitDef_snd.tail (fun _ _ h => h.form) parseProblemInitDef_loc
theorem C28_length_section : TailBlind parseProblemLengthSpec :=
  parseProblemLengthSpec_snd.tail (fun _ _ h => h.form) parseProblemLengthSpec_loc
theorem C28_metric_section : TailBlind parseProblemMetricSpec :=
  parseProblemMetricSpec_snd.tail (fun _ _ h => h.form) parseProblemMetricSpec_loc
theorem C28_timeless_section : TailBlind parseTimelessDef :=
  parseTimelessDef_snd.tail (fun _ _ h => NonEmptyW.form h (by decide) (fun _ h => h) fun _ _ h => h.bal) parseTimelessDef_loc

theorem C28_types_outcome : OutcomeTailBlind parseType := Loc.outcome parseType_loc
theorem C28_terms_outcome : OutcomeTailBlind parseTerm := Loc.outcome parseTerm_loc
theorem C28_f_heads_outcome : OutcomeTailBlind parseFHead := Loc.outcome parseFHead_loc
theorem C28_basic_function_terms_outcome : OutcomeTailBlind parseBasicFunctionTerm := Loc.outcome parseBasicFunctionTerm_loc
theorem C28_f_exp_outcome : OutcomeTailBlind parseFExp := Loc.outcome parseFExp_loc
theorem C28_f_exp_da_outcome : OutcomeTailBlind parseFExpDa := Loc.outcome parseFExpDa_loc
theorem C28_f_exp_t_outcome : OutcomeTailBlind parseFExpT := Loc.outcome parseFExpT_loc
theorem C28_metric_exp_outcome : OutcomeTailBlind parseMetricFExp := Loc.outcome parseMetricFExp_loc
theorem C28_duration_values_outcome : OutcomeTailBlind parseDValue := Loc.outcome parseDValue_loc
theorem C28_variable_lists_outcome : OutcomeTailBlind parseVarList := Loc.outcome parseVarList_loc
theorem C28_skeletons_outcome : OutcomeTailBlind parseAtomicFormulaSkeleton := Loc.outcome parseAtomicFormulaSkeleton_loc
theorem C28_function_terms_outcome : OutcomeTailBlind parseFunctionTerm := Loc.outcome parseFunctionTerm_loc
theorem C28_atoms_outcome : OutcomeTailBlind (atomicFormula parseTerm) := Loc.outcome (by loc)
theorem C28_literals_outcome : OutcomeTailBlind (literal parseName) := Loc.outcome (by loc)
theorem C28_comparisons_outcome : OutcomeTailBlind parseFComp := Loc.outcome parseFComp_loc
theorem C28_goals_outcome : OutcomeTailBlind parseGd := Loc.outcome parseGd_loc
theorem C28_preferences_outcome : OutcomeTailBlind parsePrefGd := Loc.outcome parsePrefGd_loc
theorem C28_preconditions_outcome : OutcomeTailBlind parsePreGd := Loc.outcome parsePreGd_loc
theorem C28_constraints_outcome : OutcomeTailBlind parseConGd := Loc.outcome parseConGd_loc
theorem C28_nested_constraints_outcome : OutcomeTailBlind parseCon2Gd := Loc.outcome parseCon2Gd_loc
theorem C28_pref_constraints_outcome : OutcomeTailBlind parsePrefConGd := Loc.outcome parsePrefConGd_loc
theorem C28_p_effects_outcome : OutcomeTailBlind parsePEffect := Loc.outcome parsePEffect_loc
theorem C28_cond_effects_outcome : OutcomeTailBlind parseCondEffect := Loc.outcome parseCondEffect_loc
theorem C28_c_effects_outcome : OutcomeTailBlind parseCEffect := Loc.outcome parseCEffect_loc
theorem C28_effects_outcome : OutcomeTailBlind parseEffect := Loc.outcome parseEffect_loc
theorem C28_actions_outcome : OutcomeTailBlind parseActionDef := Loc.outcome parseActionDef_loc
theorem C28_derived_outcome : OutcomeTailBlind parseDerivedPredicate := Loc.outcome parseDerivedPredicate_loc
theorem C28_timed_goals_outcome : OutcomeTailBlind parseTimedGd := Loc.outcome parseTimedGd_loc
theorem C28_pref_timed_goals_outcome : OutcomeTailBlind parsePrefTimedGd := Loc.outcome parsePrefTimedGd_loc
theorem C28_da_conditions_outcome : OutcomeTailBlind parseDaGd := Loc.outcome parseDaGd_loc
theorem C28_f_assign_da_outcome : OutcomeTailBlind parseFAssignDa := Loc.outcome parseFAssignDa_loc
theorem C28_timed_effects_outcome : OutcomeTailBlind parseTimedEffect := Loc.outcome parseTimedEffect_loc
theorem C28_da_effects_outcome : OutcomeTailBlind parseDaEffect := Loc.outcome parseDaEffect_loc
theorem C28_simple_durations_outcome : OutcomeTailBlind parseSimpleDuration := Loc.outcome parseSimpleDuration_loc
theorem C28_durative_outcome : OutcomeTailBlind parseDaDef := Loc.outcome parseDaDef_loc
theorem C28_structures_outcome : OutcomeTailBlind parseStructureDef := Loc.outcome parseStructureDef_loc
theorem C28_requirements_outcome : OutcomeTailBlind parseRequireDef := Loc.outcome parseRequireDef_loc
theorem C28_types_section_outcome : OutcomeTailBlind parseTypesDef := Loc.outcome parseTypesDef_loc
theorem C28_constants_section_outcome : OutcomeTailBlind parseConstantsDef := Loc.outcome parseConstantsDef_loc
theorem C28_objects_section_outcome : OutcomeTailBlind parseProblemObjectsDeclaration := Loc.outcome parseProblemObjectsDeclaration_loc
theorem C28_predicates_section_outcome : OutcomeTailBlind parsePredicatesDef := Loc.outcome parsePredicatesDef_loc
theorem C28_functions_section_outcome : OutcomeTailBlind parseFunctionsDef := Loc.outcome parseFunctionsDef_loc
theorem C28_constraints_section_outcome : OutcomeTailBlind parseDomainConstraintsDef := Loc.outcome parseDomainConstraintsDef_loc
theorem C28_problem_constraints_section_outcome : OutcomeTailBlind parseProblemConstraintsDef := Loc.outcome parseProblemConstraintsDef_loc
theorem C28_goal_section_outcome : OutcomeTailBlind parseProblemGoalDef := Loc.outcome parseProblemGoalDef_loc
theorem C28_init_elements_outcome : OutcomeTailBlind parseInitEl := Loc.outcome parseInitEl_loc
theorem C28_init_section_outcome : OutcomeTailBlind parseProblemInitDef := Loc.outcome parseProblemInitDef_loc
theorem C28_length_section_outcome : OutcomeTailBlind parseProblemLengthSpec := Loc.outcome parseProblemLengthSpec_loc
theorem C28_metric_section_outcome : OutcomeTailBlind parseProblemMetricSpec := Loc.outcome parseProblemMetricSpec_loc
theorem C28_timeless_section_outcome : OutcomeTailBlind parseTimelessDef := Loc.outcome parseTimelessDef_loc

/-! ## Duration constraints: `()` stands for no constraint -/

theorem C26_durations : ReadsOnly parseDurationConstraint
    (fun o t => (o = none ∧ t = c!"()") ∨ ∃ d, o = some d ∧ DurationW .loose d t) :=
  parseDurationConstraint_snd.reads

theorem duration_form {o : Option DurationConstraint} {t : List Char}
    (h : (o = none ∧ t = c!"()") ∨ ∃ d, o = some d ∧ DurationW .loose d t) : Form t := by
  rcases h with ⟨_, rfl⟩ | ⟨_, _, h⟩
  · exact ⟨[], rfl, .nil⟩
  · exact h.form

theorem C27_durations : OneFormOnly parseDurationConstraint :=
  parseDurationConstraint_snd.oneForm fun _ _ h => duration_form h
theorem C28_durations : TailBlind parseDurationConstraint :=
  parseDurationConstraint_snd.tail (fun _ _ h => duration_form h) parseDurationConstraint_loc
theorem C28_durations_outcome : OutcomeTailBlind parseDurationConstraint :=
  parseDurationConstraint_loc.outcome

/-! ## Whole files -/

/-- Layout, a spelling of the domain, layout. -/
theorem C26_domains {s : List Char} {d : Domain} {r : List Char} (h : parseDomain s = .ok d r) :
    ∃ g t g', s = g ++ (t ++ (g' ++ r)) ∧ Gap g ∧ DomainW .loose d t ∧ GapEnd g' := by
  obtain ⟨g, t, g', h1, h2, h3, h4, _⟩ := parseDomain_snd h
  exact ⟨g, t, g', h1, h2, h3, h4⟩

theorem C26_problems {s : List Char} {d : Problem} {r : List Char} (h : parseProblem s = .ok d r) :
    ∃ g t g', s = g ++ (t ++ (g' ++ r)) ∧ Gap g ∧ ProblemW .loose d t ∧ GapEnd g' := by
  obtain ⟨g, t, g', h1, h2, h3, h4, _⟩ := parseProblem_snd h
  exact ⟨g, t, g', h1, h2, h3, h4⟩

/-- Layout, one form, layout. A comment that is ended by the end of the text can only be the last
thing in it. -/
theorem C27_domains {s : List Char} {d : Domain} {r : List Char} (h : parseDomain s = .ok d r) :
    ∃ g t g', s = g ++ (t ++ (g' ++ r)) ∧ Gap g ∧ OneForm t ∧ GapEnd g' ∧ (r ≠ [] → Gap g') := by
  obtain ⟨g, t, g', h1, h2, h3, h4⟩ := parseDomain_snd h
  exact ⟨g, t, g', h1, h2, .of_form h3.form, h4⟩

theorem C27_problems {s : List Char} {d : Problem} {r : List Char} (h : parseProblem s = .ok d r) :
    ∃ g t g', s = g ++ (t ++ (g' ++ r)) ∧ Gap g ∧ OneForm t ∧ GapEnd g' ∧ (r ≠ [] → Gap g') := by
  obtain ⟨g, t, g', h1, h2, h3, h4⟩ := parseProblem_snd h
  exact ⟨g, t, g', h1, h2, .of_form h3.form, h4⟩

/-- An accepted text is layout and one form, followed by any text: whatever replaces the latter, the
value is the same and only layout at its front is consumed. -/
def FileTailBlind (p : P α) : Prop :=
  ∀ s v r, p s = .ok v r → ∃ g t y, s = g ++ (t ++ y) ∧ Gap g ∧ OneForm t ∧
    ∀ y', ∃ g' r', p (g ++ (t ++ y')) = .ok v r' ∧ y' = g' ++ r' ∧ GapEnd g'

theorem file_tail {p : P α} {f : α → β} {R : β → List Char → Prop}
    (h : Snd NE Gap p (fun x t => ∀ g1 g2, Gap g1 → Gap g2 →
      R (f x) (paren (c!"define" ++ (g1 ++ (t ++ g2)))))) (hl : Tl p) (hf : ∀ v t, R v t → Form t) :
    FileTailBlind (map f (ws2 (prefixExpr c!"define" p))) := by
  intro s d r hs
  obtain ⟨x, h1, rfl⟩ := map_ok hs
  obtain ⟨y, h2, rfl⟩ := ws2_inv h1
  rw [prefixExpr_skip] at h2
  obtain ⟨g, t, rfl, hg, g1, u, g2, rfl, h3, h4, h5⟩ :=
    Snd.prefixExpr (F := Any) h (fun _ => id) _ _ _ h2 trivial
  have hform := hf _ _ (h4 g1 g2 h3 h5)
  refine ⟨g, _, y, rfl, hg, .of_form hform, fun y' => ?_⟩
  obtain ⟨u', e, hu'⟩ := hform
  rw [e] at h2 ⊢
  have h6 := (Loc.prefixExpr (kw := c!"define") hl).ok hg hu' h2 y'
  rw [← prefixExpr_skip, hg.skip_solid ((solid_paren _).append y')] at h6
  obtain ⟨g', h7, h8, _⟩ := skip_spec y'
  exact ⟨g', skip y', map_run (ws2_run hg (solid_paren _) h6), h7, h8⟩

theorem C28_domains : FileTailBlind parseDomain :=
  file_tail domainParts_snd domainParts_tl fun _ _ h => h.form
theorem C28_problems : FileTailBlind parseProblem :=
  file_tail problemParts_snd problemParts_tl fun _ _ h => h.form

/-- `from_str` discards the text after the form, whatever it is. -/
theorem C28_from_str {s : List Char} :
    (∀ d, fromStr parseDomain s = some d →
      ∃ x y, s = x ++ y ∧ ∀ y', fromStr parseDomain (x ++ y') = some d) ∧
    (∀ d, fromStr parseProblem s = some d →
      ∃ x y, s = x ++ y ∧ ∀ y', fromStr parseProblem (x ++ y') = some d) := by
  have key {α} {p : P α} (h : FileTailBlind p) (d : α) (hs : fromStr p s = some d) :
      ∃ x y, s = x ++ y ∧ ∀ y', fromStr p (x ++ y') = some d := by
    cases hp : p s with
    | ok v r =>
      rw [fromStr, hp] at hs
      cases hs
      obtain ⟨g, t, y, rfl, _, _, h3⟩ := h _ _ _ hp
      refine ⟨g ++ t, y, (List.append_assoc ..).symm, fun y' => ?_⟩
      obtain ⟨g', r', h4, _⟩ := h3 y'
      rw [List.append_assoc, fromStr, h4]
    | _ => rw [fromStr, hp] at hs; cases hs
  exact ⟨key C28_domains, key C28_problems⟩

/-! ## Concrete cases -/

example : parseGd (Ex.goal.print ++ c!") (and") = .ok Ex.goal c!") (and" :=
  C15_goals_printed (by decide +kernel) _
example : parseGd c!" ; )\n(and ; (\n(p))x" = .ok (.and [.atomic (Ex.atom c!"p" [])]) c!"x" := by
  exact (C28_goals c!" ; )\n(and ; (\n(p))" [] _ rfl) _
/-- What C27 says of the last example: the comments' parentheses do not count. -/
example : depth false c!"(and ; (\n(p))" = 0 ∧ depth false c!"(and ; (\n(p)" = 1 := by decide
example : fromStr parseDomain (Ex.domain.print ++ c!") ; more (") = some Ex.domain := by
  rw [fromStr, C24_domains_printed (by decide +kernel)]
/-- A rejected form, and a form that panics, for `C28_goals_outcome`. -/
example : parseGd c!"(and (p) (= ?x))" = .err := rfl
example : parseGd c!"(< (f) 1000000000000000000000000000000000000000)" = .panic := rfl

end Pddl
