{
 "claims": [
  {
   "property": "C01",
   "status": "proved",
   "theorems": [
    "Pddl.C01_terminates",
    "Pddl.C01_recursion_equation",
    "Pddl.C01_depth"
   ],
   "note": ""
  },
  {
   "property": "C02",
   "status": "proved",
   "theorems": [
    "Pddl.C02_suffix_progress",
    "Pddl.C02_typed_list_suffix"
   ],
   "note": ""
  },
  {
   "property": "C03",
   "status": "proved",
   "theorems": [
    "Pddl.C03_no_panic_calm",
    "Pddl.C03_no_panic",
    "Pddl.C03_literal_threshold",
    "Pddl.C03_panics"
   ],
   "note": ""
  },
  {
   "property": "C04",
   "status": "proved",
   "theorems": [
    "Pddl.C04_name_iff",
    "Pddl.C04_name_text",
    "Pddl.C04_name_or_err"
   ],
   "note": ""
  },
  {
   "property": "C05",
   "status": "proved",
   "theorems": [
    "Pddl.C05_text_preserved",
    "Pddl.C05_text_preserved_std"
   ],
   "note": "For every search procedure meeting the contract of binary_search_by, and for the loop of Rust 1.68."
  },
  {
   "property": "C06",
   "status": "proved",
   "theorems": [
    "Pddl.C06_canonical",
    "Pddl.C06_table",
    "Pddl.C06_stable"
   ],
   "note": ""
  },
  {
   "property": "C07",
   "status": "proved",
   "theorems": [
    "Pddl.C07_text_preserved",
    "Pddl.C07_canonical",
    "Pddl.C07_progress",
    "Pddl.C07_final",
    "Pddl.C07_schedule_independent"
   ],
   "note": "Small-step model of threads with the mutex; all interleavings; deadlock freedom included."
  },
  {
   "property": "C08",
   "status": "partial",
   "theorems": [
    "Pddl.C08_new_partial",
    "Pddl.C08_history_partial",
    "Pddl.C08_false",
    "Pddl.C08_default_false",
    "Pddl.C08_eq_str",
    "Pddl.C08_iff",
    "Pddl.C08_text",
    "Pddl.C08_mixed"
   ],
   "note": "False of the code: new_static and default differ from new with the same text (C08_false, C08_default_false). C08_iff says exactly which names are equal, for all pairs of calls that make names."
  },
  {
   "property": "C09",
   "status": "proved",
   "theorems": [
    "Pddl.C09_typed_names",
    "Pddl.C09_types",
    "Pddl.C09_constants",
    "Pddl.C09_objects",
    "Pddl.C09_variables",
    "Pddl.C09_skeleton",
    "Pddl.C09_flat_values",
    "Pddl.C09_flat_length"
   ],
   "note": ""
  },
  {
   "property": "C10",
   "status": "proved",
   "theorems": [
    "Pddl.C10_functions",
    "Pddl.C10_functions_all"
   ],
   "note": ""
  },
  {
   "property": "C11",
   "status": "partial",
   "theorems": [
    "Pddl.C11_iff",
    "Pddl.C11_false",
    "Pddl.C11_false_list",
    "Pddl.C11_false_either",
    "Pddl.C11_partial",
    "Pddl.C11_types_partial"
   ],
   "note": "False of the code: 'object' is matched as a bare tag, so 'objective' is read as 'object' followed by 'ive' (C11_false and variants). Proved for every type name that does not begin with 'object'. C11_iff says exactly when a word is read as the type of that name."
  },
  {
   "property": "C12",
   "status": "proved",
   "theorems": [
    "Pddl.C12_type",
    "Pddl.C12_type_outcome",
    "Pddl.C12_typed_variables",
    "Pddl.C12_typed_names",
    "Pddl.C12_typed_functions",
    "Pddl.C12_skeleton",
    "Pddl.C12_goal",
    "Pddl.C12_preference",
    "Pddl.C12_precondition",
    "Pddl.C12_constraint",
    "Pddl.C12_constraint_operand",
    "Pddl.C12_preference_constraint",
    "Pddl.C12_conditional_effect",
    "Pddl.C12_effect",
    "Pddl.C12_action",
    "Pddl.C12_derived",
    "Pddl.C12_timed_goal",
    "Pddl.C12_timed_preference",
    "Pddl.C12_durative_condition",
    "Pddl.C12_durative_effect",
    "Pddl.C12_durative_action",
    "Pddl.C12_structure",
    "Pddl.C12_domain",
    "Pddl.C12_problem",
    "Pddl.C12_only",
    "Pddl.C12_without_dash"
   ],
   "note": "For texts well written up to the place, whatever follows; a constraint nested in a constraint counts as reached when the text is no goal and holds no huge number. C12_only is the converse for all public parsers."
  },
  {
   "property": "C13",
   "status": "proved",
   "theorems": [
    "Pddl.C13_terms",
    "Pddl.C13_terms_printed",
    "Pddl.C13_atoms",
    "Pddl.C13_atoms_printed"
   ],
   "note": "For every spelling of the strict grammar, and in the _printed theorem for every value that can be written."
  },
  {
   "property": "C14",
   "status": "proved",
   "theorems": [
    "Pddl.C14_f_exp",
    "Pddl.C14_f_exp_printed",
    "Pddl.C14_f_exp_da",
    "Pddl.C14_f_exp_da_printed",
    "Pddl.C14_f_exp_t",
    "Pddl.C14_f_comp",
    "Pddl.C14_f_comp_printed",
    "Pddl.C14_shapes"
   ],
   "note": "For every spelling of the strict grammar, and in the _printed theorem for every value that can be written."
  },
  {
   "property": "C15",
   "status": "proved",
   "theorems": [
    "Pddl.C15_goals",
    "Pddl.C15_goals_printed"
   ],
   "note": "For every spelling of the strict grammar, and in the _printed theorem for every value that can be written."
  },
  {
   "property": "C16",
   "status": "proved",
   "theorems": [
    "Pddl.C16_preferences",
    "Pddl.C16_preconditions",
    "Pddl.C16_preconditions_printed",
    "Pddl.C16_and_flattens",
    "Pddl.C16_problem_goal"
   ],
   "note": "For every spelling of the strict grammar, and in the _printed theorem for every value that can be written."
  },
  {
   "property": "C17",
   "status": "proved",
   "theorems": [
    "Pddl.C17_p_effects",
    "Pddl.C17_cond_effects",
    "Pddl.C17_effects",
    "Pddl.C17_effects_printed"
   ],
   "note": "For every spelling of the strict grammar, and in the _printed theorem for every value that can be written."
  },
  {
   "property": "C18",
   "status": "proved",
   "theorems": [
    "Pddl.C18_actions",
    "Pddl.C18_actions_printed",
    "Pddl.C18_derived",
    "Pddl.C18_derived_printed",
    "Pddl.C18_empty_sections"
   ],
   "note": "For every spelling of the strict grammar, and in the _printed theorem for every value that can be written."
  },
  {
   "property": "C19",
   "status": "proved",
   "theorems": [
    "Pddl.C19_durative",
    "Pddl.C19_durative_printed",
    "Pddl.C19_conditions",
    "Pddl.C19_effects",
    "Pddl.C19_timed_effects",
    "Pddl.C19_durations",
    "Pddl.C19_structures"
   ],
   "note": "For every spelling of the strict grammar, and in the _printed theorem for every value that can be written."
  },
  {
   "property": "C20",
   "status": "proved",
   "theorems": [
    "Pddl.C20_constraints",
    "Pddl.C20_constraints_printed",
    "Pddl.C20_pref_constraints",
    "Pddl.C20_pref_constraints_printed",
    "Pddl.C20_operators"
   ],
   "note": "For every spelling of the strict grammar, and in the _printed theorem for every value that can be written."
  },
  {
   "property": "C21",
   "status": "partial",
   "theorems": [
    "Pddl.C21_false",
    "Pddl.C21_false_all",
    "Pddl.C21_iff",
    "Pddl.C21_timed_partial",
    "Pddl.C21_untimed_partial"
   ],
   "note": "False of the code: an operand that is a constraint over untimed operators is read as an atomic goal (C21_false, C21_false_all). Proved for operands the goal parser cannot read (C21_iff and the partial theorems)."
  },
  {
   "property": "C22",
   "status": "proved",
   "theorems": [
    "Pddl.C22_init",
    "Pddl.C22_init_printed"
   ],
   "note": "For every spelling of the strict grammar, and in the _printed theorem for every value that can be written."
  },
  {
   "property": "C23",
   "status": "proved",
   "theorems": [
    "Pddl.C23_metric",
    "Pddl.C23_metric_printed",
    "Pddl.C23_metric_exp"
   ],
   "note": "For every spelling of the strict grammar, and in the _printed theorem for every value that can be written."
  },
  {
   "property": "C24",
   "status": "proved",
   "theorems": [
    "Pddl.C24_domains",
    "Pddl.C24_domains_printed",
    "Pddl.C24_from_str"
   ],
   "note": "For every spelling of the strict grammar, and in the _printed theorem for every value that can be written."
  },
  {
   "property": "C25",
   "status": "proved",
   "theorems": [
    "Pddl.C25_problems",
    "Pddl.C25_problems_printed",
    "Pddl.C25_from_str"
   ],
   "note": "For every spelling of the strict grammar, and in the _printed theorem for every value that can be written."
  },
  {
   "property": "C26",
   "status": "proved",
   "theorems": [
    "Pddl.C26_names",
    "Pddl.C26_variables",
    "Pddl.C26_types",
    "Pddl.C26_terms",
    "Pddl.C26_f_heads",
    "Pddl.C26_basic_function_terms",
    "Pddl.C26_f_exp",
    "Pddl.C26_f_exp_da",
    "Pddl.C26_f_exp_t",
    "Pddl.C26_metric_exp",
    "Pddl.C26_duration_values",
    "Pddl.C26_variable_lists",
    "Pddl.C26_skeletons",
    "Pddl.C26_function_terms",
    "Pddl.C26_atoms",
    "Pddl.C26_literals",
    "Pddl.C26_comparisons",
    "Pddl.C26_goals",
    "Pddl.C26_preferences",
    "Pddl.C26_preconditions",
    "Pddl.C26_constraints",
    "Pddl.C26_nested_constraints",
    "Pddl.C26_pref_constraints",
    "Pddl.C26_p_effects",
    "Pddl.C26_cond_effects",
    "Pddl.C26_c_effects",
    "Pddl.C26_effects",
    "Pddl.C26_actions",
    "Pddl.C26_derived",
    "Pddl.C26_timed_goals",
    "Pddl.C26_pref_timed_goals",
    "Pddl.C26_da_conditions",
    "Pddl.C26_f_assign_da",
    "Pddl.C26_timed_effects",
    "Pddl.C26_da_effects",
    "Pddl.C26_simple_durations",
    "Pddl.C26_durative",
    "Pddl.C26_structures",
    "Pddl.C26_requirements",
    "Pddl.C26_types_section",
    "Pddl.C26_constants_section",
    "Pddl.C26_objects_section",
    "Pddl.C26_predicates_section",
    "Pddl.C26_functions_section",
    "Pddl.C26_constraints_section",
    "Pddl.C26_problem_constraints_section",
    "Pddl.C26_goal_section",
    "Pddl.C26_init_elements",
    "Pddl.C26_init_section",
    "Pddl.C26_length_section",
    "Pddl.C26_metric_section",
    "Pddl.C26_timeless_section",
    "Pddl.C26_durations",
    "Pddl.C26_domains",
    "Pddl.C26_problems"
   ],
   "note": "The loose grammar is the specification; a keyword may be followed by no gap in it (see C46)."
  },
  {
   "property": "C27",
   "status": "proved",
   "theorems": [
    "Pddl.C27_variable_lists",
    "Pddl.C27_skeletons",
    "Pddl.C27_function_terms",
    "Pddl.C27_atoms",
    "Pddl.C27_literals",
    "Pddl.C27_comparisons",
    "Pddl.C27_goals",
    "Pddl.C27_preferences",
    "Pddl.C27_preconditions",
    "Pddl.C27_constraints",
    "Pddl.C27_nested_constraints",
    "Pddl.C27_pref_constraints",
    "Pddl.C27_p_effects",
    "Pddl.C27_cond_effects",
    "Pddl.C27_c_effects",
    "Pddl.C27_effects",
    "Pddl.C27_actions",
    "Pddl.C27_derived",
    "Pddl.C27_timed_goals",
    "Pddl.C27_pref_timed_goals",
    "Pddl.C27_da_conditions",
    "Pddl.C27_f_assign_da",
    "Pddl.C27_timed_effects",
    "Pddl.C27_da_effects",
    "Pddl.C27_simple_durations",
    "Pddl.C27_durative",
    "Pddl.C27_structures",
    "Pddl.C27_requirements",
    "Pddl.C27_types_section",
    "Pddl.C27_constants_section",
    "Pddl.C27_objects_section",
    "Pddl.C27_predicates_section",
    "Pddl.C27_functions_section",
    "Pddl.C27_constraints_section",
    "Pddl.C27_problem_constraints_section",
    "Pddl.C27_goal_section",
    "Pddl.C27_init_elements",
    "Pddl.C27_init_section",
    "Pddl.C27_length_section",
    "Pddl.C27_metric_section",
    "Pddl.C27_timeless_section",
    "Pddl.C27_durations",
    "Pddl.C27_domains",
    "Pddl.C27_problems"
   ],
   "note": ""
  },
  {
   "property": "C28",
   "status": "proved",
   "theorems": [
    "Pddl.C28_variable_lists",
    "Pddl.C28_skeletons",
    "Pddl.C28_function_terms",
    "Pddl.C28_atoms",
    "Pddl.C28_literals",
    "Pddl.C28_comparisons",
    "Pddl.C28_goals",
    "Pddl.C28_preferences",
    "Pddl.C28_preconditions",
    "Pddl.C28_constraints",
    "Pddl.C28_nested_constraints",
    "Pddl.C28_pref_constraints",
    "Pddl.C28_p_effects",
    "Pddl.C28_cond_effects",
    "Pddl.C28_c_effects",
    "Pddl.C28_effects",
    "Pddl.C28_actions",
    "Pddl.C28_derived",
    "Pddl.C28_timed_goals",
    "Pddl.C28_pref_timed_goals",
    "Pddl.C28_da_conditions",
    "Pddl.C28_f_assign_da",
    "Pddl.C28_timed_effects",
    "Pddl.C28_da_effects",
    "Pddl.C28_simple_durations",
    "Pddl.C28_durative",
    "Pddl.C28_structures",
    "Pddl.C28_requirements",
    "Pddl.C28_types_section",
    "Pddl.C28_constants_section",
    "Pddl.C28_objects_section",
    "Pddl.C28_predicates_section",
    "Pddl.C28_functions_section",
    "Pddl.C28_constraints_section",
    "Pddl.C28_problem_constraints_section",
    "Pddl.C28_goal_section",
    "Pddl.C28_init_elements",
    "Pddl.C28_init_section",
    "Pddl.C28_length_section",
    "Pddl.C28_metric_section",
    "Pddl.C28_timeless_section",
    "Pddl.C28_types_outcome",
    "Pddl.C28_terms_outcome",
    "Pddl.C28_f_heads_outcome",
    "Pddl.C28_basic_function_terms_outcome",
    "Pddl.C28_f_exp_outcome",
    "Pddl.C28_f_exp_da_outcome",
    "Pddl.C28_f_exp_t_outcome",
    "Pddl.C28_metric_exp_outcome",
    "Pddl.C28_duration_values_outcome",
    "Pddl.C28_variable_lists_outcome",
    "Pddl.C28_skeletons_outcome",
    "Pddl.C28_function_terms_outcome",
    "Pddl.C28_atoms_outcome",
    "Pddl.C28_literals_outcome",
    "Pddl.C28_comparisons_outcome",
    "Pddl.C28_goals_outcome",
    "Pddl.C28_preferences_outcome",
    "Pddl.C28_preconditions_outcome",
    "Pddl.C28_constraints_outcome",
    "Pddl.C28_nested_constraints_outcome",
    "Pddl.C28_pref_constraints_outcome",
    "Pddl.C28_p_effects_outcome",
    "Pddl.C28_cond_effects_outcome",
    "Pddl.C28_c_effects_outcome",
    "Pddl.C28_effects_outcome",
    "Pddl.C28_actions_outcome",
    "Pddl.C28_derived_outcome",
    "Pddl.C28_timed_goals_outcome",
    "Pddl.C28_pref_timed_goals_outcome",
    "Pddl.C28_da_conditions_outcome",
    "Pddl.C28_f_assign_da_outcome",
    "Pddl.C28_timed_effects_outcome",
    "Pddl.C28_da_effects_outcome",
    "Pddl.C28_simple_durations_outcome",
    "Pddl.C28_durative_outcome",
    "Pddl.C28_structures_outcome",
    "Pddl.C28_requirements_outcome",
    "Pddl.C28_types_section_outcome",
    "Pddl.C28_constants_section_outcome",
    "Pddl.C28_objects_section_outcome",
    "Pddl.C28_predicates_section_outcome",
    "Pddl.C28_functions_section_outcome",
    "Pddl.C28_constraints_section_outcome",
    "Pddl.C28_problem_constraints_section_outcome",
    "Pddl.C28_goal_section_outcome",
    "Pddl.C28_init_elements_outcome",
    "Pddl.C28_init_section_outcome",
    "Pddl.C28_length_section_outcome",
    "Pddl.C28_metric_section_outcome",
    "Pddl.C28_timeless_section_outcome",
    "Pddl.C28_durations",
    "Pddl.C28_durations_outcome",
    "Pddl.C28_domains",
    "Pddl.C28_problems",
    "Pddl.C28_from_str"
   ],
   "note": "Also for rejections, failures and panics (the _outcome theorems) and for from_str."
  },
  {
   "property": "C29",
   "status": "proved",
   "theorems": [
    "Pddl.C29_names",
    "Pddl.C29_keyword_forms",
    "Pddl.C29_actions",
    "Pddl.C29_derived",
    "Pddl.C29_durative",
    "Pddl.C29_structures",
    "Pddl.C29_timed_goals",
    "Pddl.C29_pref_timed_goals",
    "Pddl.C29_da_conditions",
    "Pddl.C29_constraints",
    "Pddl.C29_pref_constraints",
    "Pddl.C29_requirements",
    "Pddl.C29_types",
    "Pddl.C29_constants",
    "Pddl.C29_predicates",
    "Pddl.C29_functions",
    "Pddl.C29_domain_constraints",
    "Pddl.C29_objects",
    "Pddl.C29_init",
    "Pddl.C29_goal_section",
    "Pddl.C29_problem_constraints",
    "Pddl.C29_metric",
    "Pddl.C29_length",
    "Pddl.C29_domains",
    "Pddl.C29_problems",
    "Pddl.C29_trailing",
    "Pddl.C29_trailing_comment",
    "Pddl.C29_goals",
    "Pddl.C29_effects",
    "Pddl.C29_atom_false"
   ],
   "note": "For names, every keyword form, composite goals and effects. Atoms written without keyword tolerate comments but the statement does not cover them (C29_atom_false shows why)."
  },
  {
   "property": "C30",
   "status": "partial",
   "theorems": [
    "Pddl.C30_iff",
    "Pddl.C30_false",
    "Pddl.C30_partial"
   ],
   "note": "False of the code: an empty comment is not skipped (C30_false); proved for non-empty comments. C30_iff: a comment line before a domain is skipped if and only if it has a text."
  },
  {
   "property": "C31",
   "status": "partial",
   "theorems": [
    "Pddl.C31_false_goals",
    "Pddl.C31_goals_iff",
    "Pddl.C31_false",
    "Pddl.C31_false_f_exp",
    "Pddl.C31_goals_partial",
    "Pddl.C31_constraints_partial",
    "Pddl.C31_actions_partial",
    "Pddl.C31_derived_partial",
    "Pddl.C31_durative_partial",
    "Pddl.C31_domains_partial",
    "Pddl.C31_problems_partial",
    "Pddl.C31_numeric_texts",
    "Pddl.C31_durative_numeric_texts",
    "Pddl.C31_metric_texts",
    "Pddl.C31_false_operations",
    "Pddl.C31_numeric_iff",
    "Pddl.C31_false_numeric",
    "Pddl.C31_metric_iff",
    "Pddl.C31_durations_iff",
    "Pddl.C31_facts_iff",
    "Pddl.C31_all_goals_iff",
    "Pddl.C31_simple_effects_iff",
    "Pddl.C31_effects_iff",
    "Pddl.C31_timed_effects_iff"
   ],
   "note": "False of the code for predicates with arguments, comparisons and numeric forms. For every accepted text it is proved exactly which values admit layout before the closing parenthesis: goals, simple, conditional and timed effects, facts, durations, numeric and metric expressions (C31_*_iff)."
  },
  {
   "property": "C32",
   "status": "proved",
   "theorems": [
    "Pddl.C32_goals",
    "Pddl.C32_preferences",
    "Pddl.C32_preconditions",
    "Pddl.C32_constraints",
    "Pddl.C32_pref_constraints",
    "Pddl.C32_effects",
    "Pddl.C32_actions",
    "Pddl.C32_derived",
    "Pddl.C32_da_conditions",
    "Pddl.C32_da_effects",
    "Pddl.C32_durative",
    "Pddl.C32_structures",
    "Pddl.C32_domains",
    "Pddl.C32_problems",
    "Pddl.C32_negated_atom"
   ],
   "note": ""
  },
  {
   "property": "C33",
   "status": "partial",
   "theorems": [
    "Pddl.C33_f_exp_iff",
    "Pddl.C33_f_exp_da_iff",
    "Pddl.C33_metric_exp_iff",
    "Pddl.C33_false",
    "Pddl.C33_terms_partial",
    "Pddl.C33_types_partial",
    "Pddl.C33_variable_lists_partial",
    "Pddl.C33_skeletons_partial",
    "Pddl.C33_f_exp_partial",
    "Pddl.C33_f_exp_da_partial",
    "Pddl.C33_metric_exp_partial",
    "Pddl.C33_simple_durations_partial",
    "Pddl.C33_init_section_partial",
    "Pddl.C33_goals_partial",
    "Pddl.C33_preferences_partial",
    "Pddl.C33_preconditions_partial",
    "Pddl.C33_constraints_partial",
    "Pddl.C33_pref_constraints_partial",
    "Pddl.C33_effects_partial",
    "Pddl.C33_actions_partial",
    "Pddl.C33_derived_partial",
    "Pddl.C33_da_conditions_partial",
    "Pddl.C33_da_effects_partial",
    "Pddl.C33_durative_partial",
    "Pddl.C33_structures_partial",
    "Pddl.C33_domains_partial",
    "Pddl.C33_problems_partial",
    "Pddl.C33_f_exp_no_comments_partial",
    "Pddl.C33_f_exp_da_no_comments_partial",
    "Pddl.C33_metric_exp_no_comments_partial",
    "Pddl.C33_simple_durations_no_comments_partial",
    "Pddl.C33_init_section_no_comments_partial",
    "Pddl.C33_goals_no_comments_partial",
    "Pddl.C33_preferences_no_comments_partial",
    "Pddl.C33_preconditions_no_comments_partial",
    "Pddl.C33_constraints_no_comments_partial",
    "Pddl.C33_pref_constraints_no_comments_partial",
    "Pddl.C33_effects_no_comments_partial",
    "Pddl.C33_actions_no_comments_partial",
    "Pddl.C33_derived_no_comments_partial",
    "Pddl.C33_da_conditions_no_comments_partial",
    "Pddl.C33_da_effects_no_comments_partial",
    "Pddl.C33_durative_no_comments_partial",
    "Pddl.C33_structures_no_comments_partial",
    "Pddl.C33_domains_no_comments_partial",
    "Pddl.C33_problems_no_comments_partial",
    "Pddl.C33_requirements",
    "Pddl.C33_predicates"
   ],
   "note": "False of the code for n-ary numeric operators when a comment follows the first operand (C33_false). At least one further operand is proved for all texts, the promised two for all texts without comments (C33_*_no_comments_partial), and all other arities without restriction. C33_f_exp_iff, C33_f_exp_da_iff and C33_metric_exp_iff give the exact texts with only two operands."
  },
  {
   "property": "C34",
   "status": "proved",
   "theorems": [
    "Pddl.C34_keys",
    "Pddl.C34_prefix_free",
    "Pddl.C34_order_immaterial",
    "Pddl.C34_section",
    "Pddl.C34_section_printed"
   ],
   "note": ""
  },
  {
   "property": "C35",
   "status": "proved",
   "theorems": [
    "Pddl.C35_effective_iff",
    "Pddl.C35_nonempty",
    "Pddl.C35_no_shorthand",
    "Pddl.C35_contains_listed",
    "Pddl.C35_order_repetition",
    "Pddl.C35_monotone",
    "Pddl.C35_idempotent"
   ],
   "note": ""
  },
  {
   "property": "C36",
   "status": "partial",
   "theorems": [
    "Pddl.C36_false",
    "Pddl.C36_contains_expand_partial",
    "Pddl.C36_disagreements"
   ],
   "note": "False of the code for :adl (C36_false); proved for all other requirements; the disagreeing pairs are characterised exactly."
  },
  {
   "property": "C37",
   "status": "partial",
   "theorems": [
    "Pddl.C37_iff",
    "Pddl.C37_cmp_follows_value",
    "Pddl.C37_eq_is_identity",
    "Pddl.C37_hash",
    "Pddl.C37_hash_separates",
    "Pddl.C37_agree_partial",
    "Pddl.C37_false"
   ],
   "note": "False of the code for signed zeros (C37_false); C37_iff says that these are exactly the pairs of finite numbers on which the comparisons disagree."
  },
  {
   "property": "C38",
   "status": "proved",
   "theorems": [
    "Pddl.C38_nearest",
    "Pddl.C38_integers_exact",
    "Pddl.C38_monotone",
    "Pddl.C38_same_value"
   ],
   "note": ""
  },
  {
   "property": "C39",
   "status": "proved",
   "theorems": [
    "Pddl.C39_constructors",
    "Pddl.C39_parsed_finite"
   ],
   "note": ""
  },
  {
   "property": "C40",
   "status": "proved",
   "theorems": [
    "Pddl.C40_length",
    "Pddl.C40_length_printed",
    "Pddl.C40_exact",
    "Pddl.C40_u64_overflow",
    "Pddl.C40_overflow_rejected"
   ],
   "note": ""
  },
  {
   "property": "C41",
   "status": "proved",
   "theorems": [
    "Pddl.C41_try_from",
    "Pddl.C41_binaryOp",
    "Pddl.C41_multiOp",
    "Pddl.C41_binaryComp",
    "Pddl.C41_assignOp",
    "Pddl.C41_assignOpT",
    "Pddl.C41_dOp",
    "Pddl.C41_optimization",
    "Pddl.C41_timeSpecifier",
    "Pddl.C41_interval",
    "Pddl.C41_longest_match",
    "Pddl.C41_multi_binary"
   ],
   "note": ""
  },
  {
   "property": "C42",
   "status": "proved",
   "theorems": [
    "Pddl.C42_type",
    "Pddl.C42_conditional_effect",
    "Pddl.C42_duration_constraint",
    "Pddl.C42_try_get_single",
    "Pddl.C42_try_get_single_none"
   ],
   "note": ""
  },
  {
   "property": "C43",
   "status": "partial",
   "theorems": [
    "Pddl.C43_iff",
    "Pddl.C43_goal",
    "Pddl.C43_constraint",
    "Pddl.C43_constraint_operand",
    "Pddl.C43_preference_constraint_partial",
    "Pddl.C43_preference_constraint_false"
   ],
   "note": "Proved for goals and trajectory constraints; false of the code for quantified preference constraints (C43_preference_constraint_false), and C43_iff says exactly for which."
  },
  {
   "property": "C44",
   "status": "proved",
   "theorems": [
    "Pddl.C44_domain_shape",
    "Pddl.C44_domain",
    "Pddl.C44_problem_shape",
    "Pddl.C44_problem",
    "Pddl.C44_domain_order",
    "Pddl.C44_problem_order",
    "Pddl.C44_domain_unknown",
    "Pddl.C44_domain_timeless",
    "Pddl.C44_domain_misplaced",
    "Pddl.C44_problem_unknown",
    "Pddl.C44_problem_misplaced",
    "Pddl.C44_domain_present",
    "Pddl.C44_problem_present"
   ],
   "note": "The forms written inside (define ...) are determined by the text (Forms.unique); an accepted file consists of exactly the name, each section at most once in the fixed order, and the structures, and every form read alone is the corresponding field; unknown, repeated and misplaced forms (including :timeless) make the parse fail."
  },
  {
   "property": "C45",
   "status": "partial",
   "theorems": [
    "Pddl.C45_iff",
    "Pddl.C45_false",
    "Pddl.C45_false_layout",
    "Pddl.C45_partial",
    "Pddl.C45_wellformed_partial"
   ],
   "note": "False of the code: '(not)', '( and a)' and the like are accepted as atoms (C45_false, C45_false_layout). C45_iff says exactly when. Proved for well-formed connectives."
  },
  {
   "property": "C46",
   "status": "partial",
   "theorems": [
    "Pddl.C46_false",
    "Pddl.C46_false_texts",
    "Pddl.C46_predicates_partial",
    "Pddl.C46_init_partial",
    "Pddl.C46_goal_partial",
    "Pddl.C46_constraints_partial",
    "Pddl.C46_problem_constraints_partial",
    "Pddl.C46_derived_partial",
    "Pddl.C46_domain_partial",
    "Pddl.C46_problem_partial",
    "Pddl.C46_goals_partial",
    "Pddl.C46_trajectory_partial",
    "Pddl.C46_effects_partial",
    "Pddl.C46_never_needed",
    "Pddl.C46_iff"
   ],
   "note": "False of the code: keywords are matched as prefixes (C46_false, C46_false_texts), and any layout or none may follow a keyword (C46_never_needed). C46_iff: the end of a keyword is noticed exactly if no operand begins with a word character; proved for the keywords whose argument must begin with a parenthesis."
  },
  {
   "property": "C47",
   "status": "partial",
   "theorems": [
    "Pddl.C47_iff",
    "Pddl.C47_word_iff",
    "Pddl.C47_false_paren",
    "Pddl.C47_false",
    "Pddl.C47_bare_partial",
    "Pddl.C47_metric_partial",
    "Pddl.C47_function_partial"
   ],
   "note": "False of the code: words that merely begin with total-time are cut (C47_false). Proved: both spellings are read, and other function names are kept. C47_iff and C47_word_iff give the exact texts; C47_false_paren: no text in parentheses is the total time."
  },
  {
   "property": "C48",
   "status": "partial",
   "theorems": [
    "Pddl.C48_false_lists",
    "Pddl.C48_false_goals",
    "Pddl.C48_false_atoms",
    "Pddl.C48_false",
    "Pddl.C48_goals_partial",
    "Pddl.C48_atoms_partial",
    "Pddl.C48_false_numeric",
    "Pddl.C48_goals_iff",
    "Pddl.C48_imply_iff",
    "Pddl.C48_constraints_iff",
    "Pddl.C48_durative_iff",
    "Pddl.C48_effects_iff",
    "Pddl.C48_predicates_iff",
    "Pddl.C48_facts_iff"
   ],
   "note": "False of the code: every list ends at a comment that directly follows an element (C48_false_lists, C48_false_goals, C48_false_atoms, C48_false_numeric). C48_*_iff: lists of goals, effects, constraints, durative conditions and effects, predicates and facts of any length are read exactly if a blank begins the layout between any two members."
  },
  {
   "property": "C49",
   "status": "proved",
   "theorems": [
    "Pddl.C49_names",
    "Pddl.C49_numbers",
    "Pddl.C49_variables",
    "Pddl.C49_variable_lists",
    "Pddl.C49_terms",
    "Pddl.C49_function_terms",
    "Pddl.C49_atoms",
    "Pddl.C49_literals",
    "Pddl.C49_skeletons",
    "Pddl.C49_f_heads",
    "Pddl.C49_f_exps",
    "Pddl.C49_f_exps_da",
    "Pddl.C49_f_exps_t",
    "Pddl.C49_f_comps",
    "Pddl.C49_goals",
    "Pddl.C49_preferences",
    "Pddl.C49_preconditions",
    "Pddl.C49_constraints",
    "Pddl.C49_constraint_operands",
    "Pddl.C49_pref_constraints",
    "Pddl.C49_p_effects",
    "Pddl.C49_cond_effects",
    "Pddl.C49_c_effects",
    "Pddl.C49_effects",
    "Pddl.C49_actions",
    "Pddl.C49_derived",
    "Pddl.C49_timed_goals",
    "Pddl.C49_durative_goals",
    "Pddl.C49_timed_effects",
    "Pddl.C49_durative_effects",
    "Pddl.C49_durations",
    "Pddl.C49_duration_constraints",
    "Pddl.C49_durative_actions",
    "Pddl.C49_structures",
    "Pddl.C49_init_elements",
    "Pddl.C49_metric_exps",
    "Pddl.C49_metrics",
    "Pddl.C49_lengths",
    "Pddl.C49_domains",
    "Pddl.C49_problems",
    "Pddl.C49_print_names",
    "Pddl.C49_print_numbers",
    "Pddl.C49_print_terms",
    "Pddl.C49_print_f_exps",
    "Pddl.C49_print_f_exps_da",
    "Pddl.C49_print_f_comps",
    "Pddl.C49_print_goals",
    "Pddl.C49_print_preconditions",
    "Pddl.C49_print_constraints",
    "Pddl.C49_print_pref_constraints",
    "Pddl.C49_print_effects",
    "Pddl.C49_print_actions",
    "Pddl.C49_print_durative_actions",
    "Pddl.C49_print_domains",
    "Pddl.C49_print_problems"
   ],
   "note": "For the strict grammar of Verif/Spec/Grammar.lean; the loose grammar is ambiguous (example in Props/Unique.lean)."
  },
  {
   "property": "C50",
   "status": "partial",
   "theorems": [
    "Pddl.C50_ok_partial",
    "Pddl.C50_only",
    "Pddl.C50_panics",
    "Pddl.C50_false",
    "Pddl.C50_error",
    "Pddl.C50_agrees"
   ],
   "note": "The claim is false: the conversion panics exactly on the words for infinity and NaN and on decimal texts of too large a value (C50_panics, C50_false). Proved: acceptance exactly on decimal texts of finite value with the nearest f32, errors on all other texts, and agreement with parse_number. f32::from_str itself is modelled from its documentation."
  },
  {
   "property": "C51",
   "status": "partial",
   "theorems": [
    "Pddl.C51_iff",
    "Pddl.C51_trail_partial",
    "Pddl.C51_false",
    "Pddl.C51_false_undefined",
    "Pddl.C51_false_function",
    "Pddl.C51_numeric_partial",
    "Pddl.C51_variable_partial",
    "Pddl.C51_and_partial",
    "Pddl.C51_literal_partial"
   ],
   "note": "False of the code: object constants, undefined and function terms are read as numeric fluents (C51_false, C51_false_undefined, C51_false_function). Proved for numeric updates, variables, everything inside (and ..) and effects that are not assignments. C51_iff says exactly when; C51_trail_partial: layout before the closing parenthesis keeps assignments of objects."
  },
  {
   "property": "C52",
   "status": "proved",
   "theorems": [
    "Pddl.C52_terms",
    "Pddl.C52_types",
    "Pddl.C52_variable_lists",
    "Pddl.C52_skeletons",
    "Pddl.C52_f_exp",
    "Pddl.C52_f_exp_da",
    "Pddl.C52_metric_exp",
    "Pddl.C52_simple_durations",
    "Pddl.C52_init_section",
    "Pddl.C52_goals",
    "Pddl.C52_preferences",
    "Pddl.C52_preconditions",
    "Pddl.C52_constraints",
    "Pddl.C52_pref_constraints",
    "Pddl.C52_effects",
    "Pddl.C52_actions",
    "Pddl.C52_derived",
    "Pddl.C52_da_conditions",
    "Pddl.C52_da_effects",
    "Pddl.C52_durative",
    "Pddl.C52_structures",
    "Pddl.C52_domains",
    "Pddl.C52_problems"
   ],
   "note": ""
  },
  {
   "property": "C53",
   "status": "proved",
   "theorems": [
    "Pddl.C53_nearest",
    "Pddl.C53_exact",
    "Pddl.C53_monotone",
    "Pddl.C53_eq_24bit",
    "Pddl.C53_beyond"
   ],
   "note": "Never panics, nearest, monotone, exact up to 2^24 and faithful comparison there; C53_beyond shows that comparison is not faithful beyond 2^24, as the statement says."
  },
  {
   "property": "C54",
   "status": "proved",
   "theorems": [
    "Pddl.C54_f32",
    "Pddl.C54_f64_nearest",
    "Pddl.C54_f64_panic",
    "Pddl.C54_finite_double"
   ],
   "note": "All bit patterns; C54_finite_double records that some finite doubles panic. The `as f32` conversion is modelled from its documentation."
  },
  {
   "property": "C55",
   "status": "proved",
   "theorems": [
    "Pddl.C55_tokens",
    "Pddl.C55_idempotent",
    "Pddl.C55_normal_form",
    "Pddl.C55_terms",
    "Pddl.C55_atoms",
    "Pddl.C55_literals",
    "Pddl.C55_skeletons",
    "Pddl.C55_f_exps",
    "Pddl.C55_f_exps_da",
    "Pddl.C55_f_exps_t",
    "Pddl.C55_f_comps",
    "Pddl.C55_goals",
    "Pddl.C55_preferences",
    "Pddl.C55_preconditions",
    "Pddl.C55_constraints",
    "Pddl.C55_pref_constraints",
    "Pddl.C55_p_effects",
    "Pddl.C55_cond_effects",
    "Pddl.C55_c_effects",
    "Pddl.C55_effects",
    "Pddl.C55_actions",
    "Pddl.C55_derived",
    "Pddl.C55_timed_goals",
    "Pddl.C55_durative_goals",
    "Pddl.C55_timed_effects",
    "Pddl.C55_durative_effects",
    "Pddl.C55_durations",
    "Pddl.C55_durative_actions",
    "Pddl.C55_structures",
    "Pddl.C55_requirements",
    "Pddl.C55_functions",
    "Pddl.C55_init",
    "Pddl.C55_metric_exps",
    "Pddl.C55_metrics",
    "Pddl.C55_lengths",
    "Pddl.C55_domain_files",
    "Pddl.C55_problem_files",
    "Pddl.C55_domain_tokens",
    "Pddl.C55_problem_tokens"
   ],
   "note": "For every category of the strict grammar and for whole files; tokens are split at layout and parentheses only, so an operator touching its operand, as in (-x), counts as one token."
  },
  {
   "property": "C56",
   "status": "proved",
   "theorems": [
    "Pddl.C56_all_parsers",
    "Pddl.C56_same_outcome",
    "Pddl.C56_inside",
    "Pddl.C56_innermost_first",
    "Pddl.C56_location",
    "Pddl.C56_from_str",
    "Pddl.C56_greedy"
   ],
   "note": "Over the parsers of Verif/Trace, which keep the payload of errors; C56_same_outcome ties them to the others. Positions are remaining texts, offset and line are derived."
  },
  {
   "property": "C57",
   "status": "proved",
   "theorems": [
    "Pddl.C57_behind_dash",
    "Pddl.C57_types"
   ],
   "note": "The place is some dash without a type; which one is determined by the constructs read before it (C12)."
  },
  {
   "property": "C58",
   "status": "proved",
   "theorems": [
    "Pddl.C58_opening",
    "Pddl.C58_domains",
    "Pddl.C58_problems",
    "Pddl.C58_unclosed"
   ],
   "note": "Domains: what stands at the wrong place must not be a keyword of a section, even a misplaced one. Errors inside a section are reported at the beginning of the section because opt discards them."
  },
  {
   "property": "C59",
   "status": "proved",
   "theorems": [
    "Pddl.C59_domains",
    "Pddl.C59_problems"
   ],
   "note": "The reported position is the beginning of the first section, structure or initial-state element that is not accepted; it may lie before the mistake itself because opt and the lists discard the errors of their elements."
  },
  {
   "property": "C60",
   "status": "partial",
   "theorems": [
    "Pddl.C60_same_every",
    "Pddl.C60_reading_every",
    "Pddl.C60_every_partial",
    "Pddl.C60_every_shallow_partial",
    "Pddl.C60_same_domain",
    "Pddl.C60_same_problem",
    "Pddl.C60_reading_domain",
    "Pddl.C60_reading_problem",
    "Pddl.C60_recursion",
    "Pddl.C60_false_polynomial",
    "Pddl.C60_exponential",
    "Pddl.C60_false_polynomial_domain",
    "Pddl.C60_exponential_domain",
    "Pddl.C60_domain_partial",
    "Pddl.C60_problem_partial",
    "Pddl.C60_domain_shallow_partial",
    "Pddl.C60_problem_shallow_partial"
   ],
   "note": "False of the code (C60_false_polynomial): '(+ (+ (+ 1 1 1) 1 1) 1 1)' and so on takes 2^n steps at depth n, because the parser of binary operations reads the first operand before it gives up and the parser of longer operations reads it again. Proved: the work of parse_domain and parse_problem is at most C*2^d*(n+1)^7 with d the nesting depth of operations, for all texts. The count is shown honest: accepted texts take at least one step per consumed character, and the recursion equations hold. Both the bound (C60_every_partial, with only the constant depending on the type) and the count being honest are also proved for from_str of all 73 parsable types."
  },
  {
   "property": "C61",
   "status": "partial",
   "theorems": [
    "Pddl.C61_same_domain",
    "Pddl.C61_same_problem",
    "Pddl.C61_recursion",
    "Pddl.C61_false_nesting",
    "Pddl.C61_comments_deep",
    "Pddl.C61_nesting_deep",
    "Pddl.C61_domain_partial",
    "Pddl.C61_problem_partial",
    "Pddl.C61_domain_no_comments_partial",
    "Pddl.C61_problem_no_comments_partial",
    "Pddl.C61_same_every",
    "Pddl.C61_every_partial",
    "Pddl.C61_every_no_comments_partial"
   ],
   "note": "False of the code (C61_false_nesting): n comment lines before '(define (domain d))' take more than n nested calls of ignore_eol_comment. Proved: the depth of parse_domain and parse_problem is at most the nesting depth of parentheses plus the largest number of comments in a row plus 4, for all texts; without comments the claim holds. The same bound is proved for from_str of all 73 parsable types (C61_every_partial)."
  },
  {
   "property": "C62",
   "status": "proved",
   "theorems": [
    "Pddl.C62_terms",
    "Pddl.C62_types",
    "Pddl.C62_variable_lists",
    "Pddl.C62_skeletons",
    "Pddl.C62_f_exp",
    "Pddl.C62_f_exp_da",
    "Pddl.C62_metric_exp",
    "Pddl.C62_simple_durations",
    "Pddl.C62_init_section",
    "Pddl.C62_goals",
    "Pddl.C62_preferences",
    "Pddl.C62_preconditions",
    "Pddl.C62_constraints",
    "Pddl.C62_pref_constraints",
    "Pddl.C62_effects",
    "Pddl.C62_actions",
    "Pddl.C62_derived",
    "Pddl.C62_da_conditions",
    "Pddl.C62_da_effects",
    "Pddl.C62_durative",
    "Pddl.C62_structures",
    "Pddl.C62_domains",
    "Pddl.C62_problems"
   ],
   "note": ""
  },
  {
   "property": "C63",
   "status": "proved",
   "theorems": [
    "Pddl.C63_durations",
    "Pddl.C63_metric_exp",
    "Pddl.C63_domains",
    "Pddl.C63_problems",
    "Pddl.C63_numbers"
   ],
   "note": ""
  },
  {
   "property": "C64",
   "status": "proved",
   "theorems": [
    "Pddl.C64_histories",
    "Pddl.C64_threads",
    "Pddl.C64_parsers"
   ],
   "note": ""
  },
  {
   "property": "C65",
   "status": "partial",
   "theorems": [
    "Pddl.C65_text_partial",
    "Pddl.C65_no_panic_partial",
    "Pddl.C65_blame_partial",
    "Pddl.C65_well_known_partial",
    "Pddl.C65_poison",
    "Pddl.C65_false_panic",
    "Pddl.C65_false",
    "Pddl.C65_ordinary",
    "Pddl.C65_panic_iff",
    "Pddl.C65_shared_partial"
   ],
   "note": "false of the code: a panicking conversion poisons the mutex (C65_poison, C65_false_panic), contradicting conversions break sharing (C65_false). C65_panic_iff says exactly which calls panic if conversions agree or panic, and C65_shared_partial that all others of one text share one allocation; the other partial theorems prove text, absence of panics without panicking conversions, and well-known names"
  },
  {
   "property": "C66",
   "status": "proved",
   "theorems": [
    "Pddl.C66_files",
    "Pddl.C66_concat",
    "Pddl.C66_not_problem",
    "Pddl.C66_not_domain",
    "Pddl.C66_unique",
    "Pddl.C66_line_end",
    "Pddl.C66_from_str"
   ],
   "note": ""
  },
  {
   "property": "C67",
   "status": "partial",
   "theorems": [
    "Pddl.C67_define",
    "Pddl.C67_domain_sections",
    "Pddl.C67_problem_sections",
    "Pddl.C67_goals",
    "Pddl.C67_goals_lower",
    "Pddl.C67_effects",
    "Pddl.C67_names",
    "Pddl.C67_false",
    "Pddl.C67_names_partial",
    "Pddl.C67_constraints",
    "Pddl.C67_problem_constraints",
    "Pddl.C67_durative_conditions",
    "Pddl.C67_durative_effects",
    "Pddl.C67_words"
   ],
   "note": "false of the code (C67_false); C67_define, C67_domain_sections, C67_problem_sections, C67_constraints, C67_problem_constraints, C67_durative_conditions, C67_durative_effects and C67_words show that these keywords in another case are always rejected, C67_goals and C67_effects that logical keywords in another case silently become predicates; C67_names_partial is what holds"
  },
  {
   "property": "C68",
   "status": "proved",
   "theorems": [
    "Pddl.C68_terms",
    "Pddl.C68_function_terms",
    "Pddl.C68_atoms",
    "Pddl.C68_ground_atoms",
    "Pddl.C68_literals"
   ],
   "note": ""
  },
  {
   "property": "C69",
   "status": "partial",
   "theorems": [
    "Pddl.C69_parse",
    "Pddl.C69_from_str",
    "Pddl.C69_only",
    "Pddl.C69_from_str_only",
    "Pddl.C69_one_meaning",
    "Pddl.C69_safe",
    "Pddl.C69_span",
    "Pddl.C69_own_accepts_all",
    "Pddl.C69_call_partial",
    "Pddl.C69_false_call_unchecked",
    "Pddl.C69_false_call_variable",
    "Pddl.C69_call_iff"
   ],
   "note": "the claim about T::from_str as written is false for six types with a from_str of their own (C69_own_accepts_all, C69_false_call_unchecked, C69_false_call_variable); C69_call_iff says exactly when it holds; the claims about the trait are proved for all 73 types"
  },
  {
   "property": "C70",
   "status": "partial",
   "theorems": [
    "Pddl.C70_domain_frame",
    "Pddl.C70_domain_last",
    "Pddl.C70_domain_default",
    "Pddl.C70_domain_order",
    "Pddl.C70_domain_every",
    "Pddl.C70_as_ref",
    "Pddl.C70_domain_views_partial",
    "Pddl.C70_false_domain_views",
    "Pddl.C70_problem_views",
    "Pddl.C70_problem_frame",
    "Pddl.C70_problem_last",
    "Pddl.C70_problem_default",
    "Pddl.C70_problem_order",
    "Pddl.C70_problem_every",
    "Pddl.C70_action",
    "Pddl.C70_durative_action",
    "Pddl.C70_derived_predicate",
    "Pddl.C70_structure",
    "Pddl.C70_metric_and_length",
    "Pddl.C70_domain_views_iff"
   ],
   "note": "false for the equality of domains that show the same (C70_false_domain_views); C70_domain_views_iff says exactly which domains show the same; all other clauses are proved"
  },
  {
   "property": "C71",
   "status": "partial",
   "theorems": [
    "Pddl.C71_false_timeless",
    "Pddl.C71_false_timeless_section",
    "Pddl.C71_read_partial",
    "Pddl.C71_iff"
   ],
   "note": "false of the code (C71_false_timeless, C71_false_timeless_section); C71_iff says that the timeless predicates are the only part that is not read"
  },
  {
   "property": "C72",
   "status": "partial",
   "theorems": [
    "Pddl.C72_requirement_set",
    "Pddl.C72_effective_set",
    "Pddl.C72_text_lookup_partial",
    "Pddl.C72_false_text_lookup",
    "Pddl.C72_order",
    "Pddl.C72_requirement_tree",
    "Pddl.C72_false_text_order",
    "Pddl.C72_requirement_text",
    "Pddl.C72_assign_text_partial",
    "Pddl.C72_false_assign_text",
    "Pddl.C72_name_set",
    "Pddl.C72_name_set_text",
    "Pddl.C72_hash_input",
    "Pddl.C72_assign_text_iff"
   ],
   "note": "false for lookups by text (C72_false_text_lookup, C72_false_text_order) and for the text 'change' (C72_false_assign_text); C72_text_lookup_partial is what holds of lookups, C72_assign_text_iff says that 'change' is the only such text; all other clauses are proved"
  },
  {
   "property": "C73",
   "status": "proved",
   "theorems": [
    "Pddl.C73_goal_and",
    "Pddl.C73_goal_or",
    "Pddl.C73_goal_not",
    "Pddl.C73_goal_imply",
    "Pddl.C73_goal_exists",
    "Pddl.C73_goal_forall",
    "Pddl.C73_cond_effect_and",
    "Pddl.C73_effect_forall",
    "Pddl.C73_effect_when",
    "Pddl.C73_da_condition_forall",
    "Pddl.C73_da_condition_and",
    "Pddl.C73_da_effect_and",
    "Pddl.C73_da_effect_forall",
    "Pddl.C73_da_effect_when",
    "Pddl.C73_timed_at",
    "Pddl.C73_timed_over",
    "Pddl.C73_constraint_and",
    "Pddl.C73_constraint_forall",
    "Pddl.C73_constraint_at_end",
    "Pddl.C73_constraint_always",
    "Pddl.C73_constraint_sometime",
    "Pddl.C73_constraint_at_most_once",
    "Pddl.C73_constraint_within",
    "Pddl.C73_constraint_hold_after",
    "Pddl.C73_constraint_sometime_after",
    "Pddl.C73_constraint_sometime_before",
    "Pddl.C73_constraint_always_within",
    "Pddl.C73_constraint_hold_during",
    "Pddl.C73_preference_named",
    "Pddl.C73_preference_anonymous",
    "Pddl.C73_preference_goal",
    "Pddl.C73_precondition_forall",
    "Pddl.C73_precondition_and",
    "Pddl.C73_precondition_cases",
    "Pddl.C73_pref_constraint_and",
    "Pddl.C73_pref_constraint_forall",
    "Pddl.C73_pref_constraint_named",
    "Pddl.C73_pref_constraint_anonymous",
    "Pddl.C73_pref_constraint_cases",
    "Pddl.C73_effect_and",
    "Pddl.C73_effect_cases",
    "Pddl.C73_timed_preference_named",
    "Pddl.C73_timed_preference_anonymous",
    "Pddl.C73_timed_required",
    "Pddl.C73_cond_effect_single",
    "Pddl.C73_effect_simple",
    "Pddl.C73_da_condition_timed",
    "Pddl.C73_da_effect_timed",
    "Pddl.C73_exchange",
    "Pddl.C73_respell"
   ],
   "note": "equivalences for every keyword form; for the forms without a keyword (a goal as a preference, a simple effect) the reading implies the reading of the part"
  },
  {
   "property": "C74",
   "status": "proved",
   "theorems": [
    "Pddl.C74_goals",
    "Pddl.C74_preferences",
    "Pddl.C74_constraints",
    "Pddl.C74_effects",
    "Pddl.C74_durative",
    "Pddl.C74_preconditions",
    "Pddl.C74_pref_constraints",
    "Pddl.C74_effect_kinds",
    "Pddl.C74_effect_single",
    "Pddl.C74_options",
    "Pddl.C74_typed_names",
    "Pddl.C74_typed_variables",
    "Pddl.C74_functions",
    "Pddl.C74_object_default",
    "Pddl.C74_number_default",
    "Pddl.C74_types",
    "Pddl.C74_either",
    "Pddl.C74_defaults",
    "Pddl.C74_primitive_default",
    "Pddl.C74_durations",
    "Pddl.C74_nested_constraints",
    "Pddl.C74_default_constraint",
    "Pddl.C74_typed_either"
   ],
   "note": "for goals, constraints, effects and durative conditions as equivalences; for forms without a keyword (From<GoalDefinition> for PreferenceGD and the like) and for joined lists in one direction, since a text may have another reading there (C45). PrimitiveType::default() is the empty name, not object: proved as C74_primitive_default. Collecting no duration constraint stops a debug build (debug_assert): C74_durations."
  },
  {
   "property": "C75",
   "status": "partial",
   "theorems": [
    "Pddl.C75_precondition_partial",
    "Pddl.C75_pref_constraint_partial",
    "Pddl.C75_effect_partial",
    "Pddl.C75_false_goal",
    "Pddl.C75_false_constraint",
    "Pddl.C75_false_da_condition",
    "Pddl.C75_false_da_effect",
    "Pddl.C75_false_cond_effect",
    "Pddl.C75_false_either",
    "Pddl.C75_goal_meaning",
    "Pddl.C75_constraint_meaning",
    "Pddl.C75_cond_effect_meaning",
    "Pddl.C75_either_meaning"
   ],
   "note": "true for preconditions, constraints of problems and effects (not beginning with `(and`, see C45); false for goals, trajectory constraints, durative conditions and effects, conditional effects and either types, where the two values always differ: C75_false_goal, C75_false_constraint, C75_false_da_condition, C75_false_da_effect, C75_false_cond_effect, C75_false_either. For conditional effects and types iteration gives the same members. In meaning they are the same: C75_goal_meaning, C75_constraint_meaning, C75_cond_effect_meaning and C75_either_meaning, for all states."
  },
  {
   "property": "C76",
   "status": "proved",
   "theorems": [
    "Pddl.C76_action",
    "Pddl.C76_derived",
    "Pddl.C76_durative",
    "Pddl.C76_structure_derived",
    "Pddl.C76_structure_action",
    "Pddl.C76_structure_durative",
    "Pddl.C76_init",
    "Pddl.C76_goal_section",
    "Pddl.C76_domain_constraints",
    "Pddl.C76_problem_constraints",
    "Pddl.C76_predicates",
    "Pddl.C76_timeless",
    "Pddl.C76_requirements",
    "Pddl.C76_extends",
    "Pddl.C76_length",
    "Pddl.C76_length_serial",
    "Pddl.C76_length_parallel",
    "Pddl.C76_domain",
    "Pddl.C76_problem"
   ],
   "note": "as equivalences. The sections of typed lists (types, constants, objects, functions) and the metric are taken as parts; their languages are the subject of C09, C10, C48 and C01."
  },
  {
   "property": "C77",
   "status": "proved",
   "theorems": [
    "Pddl.C77_numbers",
    "Pddl.C77_function_heads",
    "Pddl.C77_numeric_expressions",
    "Pddl.C77_durative_expressions",
    "Pddl.C77_metric_expressions",
    "Pddl.C77_comparisons",
    "Pddl.C77_assignments",
    "Pddl.C77_metrics",
    "Pddl.C77_function_terms",
    "Pddl.C77_rates",
    "Pddl.C77_continuous_effects",
    "Pddl.C77_duration_values",
    "Pddl.C77_duration_constraint",
    "Pddl.C77_durations",
    "Pddl.C77_initial_elements",
    "Pddl.C77_initial_states"
   ],
   "note": "as equivalences over all texts, values and remainders."
  },
  {
   "property": "C78",
   "status": "proved",
   "theorems": [
    "Pddl.C78_types",
    "Pddl.C78_variable_lists",
    "Pddl.C78_skeletons",
    "Pddl.C78_name_sections",
    "Pddl.C78_predicates",
    "Pddl.C78_functions"
   ],
   "note": "as equivalences over all texts, values and remainders."
  },
  {
   "property": "C79",
   "status": "proved",
   "theorems": [
    "Pddl.C79_no_literals",
    "Pddl.C79_goals",
    "Pddl.C79_atoms",
    "Pddl.C79_one_reading"
   ],
   "note": "as an equivalence over all texts, goals and remainders."
  },
  {
   "property": "C80",
   "status": "proved",
   "theorems": [
    "Pddl.C80_preferences",
    "Pddl.C80_preconditions",
    "Pddl.C80_goal_section"
   ],
   "note": "as equivalences over all texts, values and remainders."
  },
  {
   "property": "C81",
   "status": "proved",
   "theorems": [
    "Pddl.C81_simple_effects",
    "Pddl.C81_conditional_effects",
    "Pddl.C81_effects",
    "Pddl.C81_effect_lists"
   ],
   "note": "as equivalences over all texts, values and remainders."
  },
  {
   "property": "C82",
   "status": "proved",
   "theorems": [
    "Pddl.C82_constraints",
    "Pddl.C82_arguments",
    "Pddl.C82_problem_constraints",
    "Pddl.C82_domain_section",
    "Pddl.C82_problem_section"
   ],
   "note": "as equivalences over all texts, values and remainders."
  },
  {
   "property": "C83",
   "status": "proved",
   "theorems": [
    "Pddl.C83_timed_goals",
    "Pddl.C83_timed_preferences",
    "Pddl.C83_conditions",
    "Pddl.C83_timed_effects",
    "Pddl.C83_effects"
   ],
   "note": "as equivalences over all texts, values and remainders."
  },
  {
   "property": "C84",
   "status": "proved",
   "theorems": [
    "Pddl.C84_actions",
    "Pddl.C84_durative_actions",
    "Pddl.C84_derived_predicates",
    "Pddl.C84_structures"
   ],
   "note": "as equivalences over all texts, values and remainders."
  },
  {
   "property": "C85",
   "status": "proved",
   "theorems": [
    "Pddl.C85_domains",
    "Pddl.C85_problems",
    "Pddl.C85_domain_from_str",
    "Pddl.C85_problem_from_str",
    "Pddl.C85_domain_unique",
    "Pddl.C85_problem_unique"
   ],
   "note": "as equivalences over all texts, values and remainders; the numbers inside are read by the modelled float reader."
  },
  {
   "property": "C86",
   "status": "proved",
   "theorems": [
    "Pddl.C86_parse",
    "Pddl.C86_from_str",
    "Pddl.C86_unique"
   ],
   "note": "one equivalence over all types; numbers are read by the modelled float reader."
  },
  {
   "property": "C87",
   "status": "proved",
   "theorems": [
    "Pddl.C87_every_type",
    "Pddl.C87_from_str",
    "Pddl.C87_domain",
    "Pddl.C87_problem",
    "Pddl.C87_one_word",
    "Pddl.C87_reserved_prefix",
    "Pddl.C87_reserved_suffix"
   ],
   "note": "words beginning with a reserved word are excluded; the code needs that (C87_reserved_prefix, C87_reserved_suffix)."
  },
  {
   "property": "C88",
   "status": "proved",
   "theorems": [
    "Pddl.C88_every_type",
    "Pddl.C88_from_str",
    "Pddl.C88_domain",
    "Pddl.C88_problem",
    "Pddl.C88_at_end",
    "Pddl.C88_empty_comment",
    "Pddl.C88_no_gap"
   ],
   "note": "`at end` and empty comments are excluded; the code needs that (C88_at_end, C88_empty_comment)."
  },
  {
   "property": "C89",
   "status": "proved",
   "theorems": [
    "Pddl.C89_every_type",
    "Pddl.C89_equivalence",
    "Pddl.C89_domain",
    "Pddl.C89_problem",
    "Pddl.C89_texts",
    "Pddl.C89_layout",
    "Pddl.C89_static_name",
    "Pddl.C89_zero"
   ],
   "note": "names made by Name::new_static differ from names that were read (C89_static_name, see C08); 0.0 and -0.0 differ (C89_zero, see C37)."
  },
  {
   "property": "C90",
   "status": "proved",
   "theorems": [
    "Pddl.C90_head",
    "Pddl.C90_sections",
    "Pddl.C90_files",
    "Pddl.C90_order",
    "Pddl.C90_structures",
    "Pddl.C90_constraints_shared",
    "Pddl.C90_define_is_a_predicate"
   ],
   "note": "the two :constraints sections share their word and overlap (C90_constraints_shared); goals are outside the claim, since define is not reserved (C90_define_is_a_predicate)."
  },
  {
   "property": "C91",
   "status": "proved",
   "theorems": [
    "Pddl.C91_cut",
    "Pddl.C91_cut_read",
    "Pddl.C91_from_str",
    "Pddl.C91_unclosed",
    "Pddl.C91_words_can_be_cut"
   ],
   "note": "words are not forms and can be cut: half of a name is a name (C91_words_can_be_cut)."
  },
  {
   "property": "C92",
   "status": "proved",
   "theorems": [
    "Pddl.C92_undo",
    "Pddl.C92_distinct",
    "Pddl.C92_readable",
    "Pddl.C92_one_word",
    "Pddl.C92_capture"
   ],
   "note": "if the new word occurs already, two names become one (C92_capture); words that begin with a word of PDDL are excluded as in C87."
  },
  {
   "property": "C93",
   "status": "proved",
   "theorems": [
    "Pddl.C93_structures",
    "Pddl.C93_predicates",
    "Pddl.C93_requirements",
    "Pddl.C93_extends",
    "Pddl.C93_facts",
    "Pddl.C93_domain_sections",
    "Pddl.C93_problem_sections"
   ],
   "note": "predicates, requirements and extended domains need at least one element to remain, since these sections may not be empty; typed lists (types, constants, objects, functions) are covered as whole sections only; an added section or element needs a blank in front."
  },
  {
   "property": "C94",
   "status": "proved",
   "theorems": [
    "Pddl.C94_goals",
    "Pddl.C94_preconditions",
    "Pddl.C94_precondition_goals",
    "Pddl.C94_action_precondition",
    "Pddl.C94_action_effect",
    "Pddl.C94_derived_goal",
    "Pddl.C94_structures",
    "Pddl.C94_problem_goal",
    "Pddl.C94_domain_conditions",
    "Pddl.C94_domain_goals",
    "Pddl.C94_derived_goals",
    "Pddl.C94_problem_goals"
   ],
   "note": "a goal that is itself a condition of a precondition is replaced as a precondition (C94_preconditions), since a conjunction there is split into its members; subgoals of durative actions, of constraints and of conditional effects are in C95."
  },
  {
   "property": "C95",
   "status": "proved",
   "theorems": [
    "Pddl.C95_durative_conditions",
    "Pddl.C95_timed_goal",
    "Pddl.C95_durative_effects",
    "Pddl.C95_durative_when",
    "Pddl.C95_quantified_effects",
    "Pddl.C95_effect_conditions",
    "Pddl.C95_effect_consequences",
    "Pddl.C95_effects",
    "Pddl.C95_constraints",
    "Pddl.C95_constraint_goals",
    "Pddl.C95_problem_constraints",
    "Pddl.C95_problem_constraint_goals",
    "Pddl.C95_durative_action",
    "Pddl.C95_constraint_sections",
    "Pddl.C95_domain_effect_goals",
    "Pddl.C95_domain_durative_goals",
    "Pddl.C95_domain_durative_effect_goals",
    "Pddl.C95_domain_constraint_goals",
    "Pddl.C95_problem_goals"
   ],
   "note": "arguments of constraints that are nested constraints are not covered, since a new text there may be read as a goal (C21); a single effect needs a text that is not read differently in a list, as (and (p)) is."
  },
  {
   "property": "C96",
   "status": "proved",
   "theorems": [
    "Pddl.C96_steps",
    "Pddl.C96_parse",
    "Pddl.C96_reads",
    "Pddl.C96_columns",
    "Pddl.C96_offset",
    "Pddl.C96_line_and_column",
    "Pddl.C96_everywhere"
   ],
   "note": "nom_locate is modelled from its source (4.2.0); that line numbers stay below 2^32 is assumed."
  },
  {
   "property": "C97",
   "status": "proved",
   "theorems": [
    "Pddl.C97_is_value",
    "Pddl.C97_one_value",
    "Pddl.C97_unwrap"
   ],
   "note": ""
  },
  {
   "property": "C98",
   "status": "partial",
   "theorems": [
    "Pddl.Reentrant.C98_bound",
    "Pddl.Reentrant.C98_text",
    "Pddl.Reentrant.C98_stuck",
    "Pddl.Reentrant.C98_returns_partial",
    "Pddl.Reentrant.C98_blocked",
    "Pddl.Reentrant.C98_false",
    "Pddl.Reentrant.C98_canonical",
    "Pddl.Reentrant.C98_exact",
    "Pddl.Reentrant.C98_exact_std"
   ],
   "note": "Finiteness, text and order hold for all callers. Progress holds if the conversions of the callers make no names but object and number; otherwise it is false: `as_ref` and `into` run while the mutex is held, and a conversion that makes a name waits for itself forever, and with it every thread that makes a new name (C98_false, C98_blocked). C98_stuck says that this is the only way, C98_exact and C98_exact_std say exactly which programs it can happen to. The results share allocations as in C07 with all callers (C98_canonical)."
  },
  {
   "property": "C99",
   "status": "proved",
   "theorems": [
    "Pddl.C99_values",
    "Pddl.C99_parsed",
    "Pddl.C99_domains",
    "Pddl.C99_problems",
    "Pddl.C99_printed"
   ],
   "note": "One equivalence for all 73 types. The condition is weaker than that of the printer: some values are read only from texts with a blank or a comment in an unusual place."
  },
  {
   "property": "C100",
   "status": "partial",
   "theorems": [
    "Pddl.C100_comparison_iff",
    "Pddl.C100_false_comparison",
    "Pddl.C100_comparison_partial",
    "Pddl.C100_assignment_iff",
    "Pddl.C100_assignment_partial",
    "Pddl.C100_false_assignment"
   ],
   "note": "False of the code: the equality of two functions is always read as an equality of terms (C100_false_comparison) and (assign (f ..) (g ..)) as an assignment of an object (C100_false_assignment), whatever the functions are declared to be. C100_comparison_iff and C100_assignment_iff say exactly when: for comparisons only = between two functions with the = next to the parenthesis, for assignments only (assign x y) where x is a function in parentheses and y a function. All others are read as numeric."
  },
  {
   "property": "C101",
   "status": "proved",
   "theorems": [
    "Pddl.C101_and",
    "Pddl.C101_or",
    "Pddl.C101_not",
    "Pddl.C101_imply",
    "Pddl.C101_forall",
    "Pddl.C101_exists",
    "Pddl.C101_predicate",
    "Pddl.C101_equality",
    "Pddl.C101_comparison"
   ],
   "note": "Atoms whose predicate is one of the keywords and, or, not, imply are excepted (C45), and the equality of two functions, which is one of objects (C100)."
  },
  {
   "property": "C102",
   "status": "proved",
   "theorems": [
    "Pddl.C102_precondition_goal",
    "Pddl.C102_goal_precondition",
    "Pddl.C102_domain_constraint",
    "Pddl.C102_problem_constraint",
    "Pddl.C102_effect_conditional",
    "Pddl.C102_conditional_effect"
   ],
   "note": "Texts with preferences are excepted because as a goal (preference n (p)) is an atom with the name preference (C45), and (when ..) and nothing else because as a simple effect it is an atom with the name when."
  },
  {
   "property": "C103",
   "status": "partial",
   "theorems": [
    "Pddl.C103_operation",
    "Pddl.C103_negative",
    "Pddl.C103_durative_operation",
    "Pddl.C103_durative_negative",
    "Pddl.C103_metric_operation_partial",
    "Pddl.C103_metric_negative_partial",
    "Pddl.C103_operation_read",
    "Pddl.C103_durative_operation_read",
    "Pddl.C103_metric_operation_read",
    "Pddl.C103_metric_total_time",
    "Pddl.C103_false_metric",
    "Pddl.C103_duration",
    "Pddl.C103_total_time",
    "Pddl.C103_is_violated",
    "Pddl.C103_duration_minus"
   ],
   "note": "Proved for numeric expressions and those of durative actions with any layout. Metrics: false, after a comment total-time is read as a function of that name (C103_false_metric, C103_metric_total_time); proved for any layout that has no comment before an operand total-time."
  },
  {
   "property": "C104",
   "status": "proved",
   "theorems": [
    "Pddl.C104_goal",
    "Pddl.C104_precondition",
    "Pddl.C104_effect",
    "Pddl.C104_always",
    "Pddl.C104_number",
    "Pddl.C104_one_word",
    "Pddl.C104_capture"
   ],
   "note": "Renaming as in C87; renaming to a word that does occur can catch a variable (C104_capture)."
  },
  {
   "property": "C105",
   "status": "partial",
   "theorems": [
    "Pddl.C105_at_end",
    "Pddl.C105_always_partial",
    "Pddl.C105_sometime_partial",
    "Pddl.C105_at_most_once_partial",
    "Pddl.C105_within_partial",
    "Pddl.C105_hold_after_partial",
    "Pddl.C105_sometime_after_partial",
    "Pddl.C105_sometime_before_partial",
    "Pddl.C105_always_within_partial",
    "Pddl.C105_hold_during_partial",
    "Pddl.C105_and",
    "Pddl.C105_forall",
    "Pddl.C105_false_nested"
   ],
   "note": "False of nested constraints that can also be read as goals: (always (sometime (p))) is about a predicate named sometime (C105_false_nested, C21). The theorems take an argument as a goal where it can be read as one and as a constraint about the rest of the trajectory otherwise."
  },
  {
   "property": "C106",
   "status": "proved",
   "theorems": [
    "Pddl.C106_expressions",
    "Pddl.C106_value",
    "Pddl.C106_duration",
    "Pddl.C106_assignments"
   ],
   "note": ""
  },
  {
   "property": "C107",
   "status": "partial",
   "theorems": [
    "Pddl.C107_at_start",
    "Pddl.C107_at_end",
    "Pddl.C107_over_all",
    "Pddl.C107_preference",
    "Pddl.C107_and",
    "Pddl.C107_forall",
    "Pddl.C107_timed_effect",
    "Pddl.C107_at_number",
    "Pddl.C107_at_partial",
    "Pddl.C107_continuous",
    "Pddl.C107_effect_and",
    "Pddl.C107_effect_forall",
    "Pddl.C107_when",
    "Pddl.C107_false_object"
   ],
   "note": "False of assignments of objects at a time: (at start (assign (f) a)) assigns the number of a function a (C107_false_object, C51). Proved for all other effects and for all conditions."
  },
  {
   "property": "C108",
   "status": "proved",
   "theorems": [
    "Pddl.C108_rename",
    "Pddl.C108_one_word",
    "Pddl.C108_layout"
   ],
   "note": "Plans are sequences of actions; durative actions, derived predicates, timed initial literals, constraints and preferences have no part in what a plan is here."
  },
  {
   "property": "C109",
   "status": "proved",
   "theorems": [
    "Pddl.C109_goal",
    "Pddl.C109_facts",
    "Pddl.C109_objects",
    "Pddl.C109_constants",
    "Pddl.C109_precondition",
    "Pddl.C109_effect",
    "Pddl.C109_repeat",
    "Pddl.C109_order"
   ],
   "note": "Plans are sequences of actions, as in C108."
  },
  {
   "property": "C110",
   "status": "proved",
   "theorems": [
    "Pddl.C110_add",
    "Pddl.C110_delete",
    "Pddl.C110_number",
    "Pddl.C110_undefined",
    "Pddl.C110_object",
    "Pddl.C110_when",
    "Pddl.C110_forall",
    "Pddl.C110_and",
    "Pddl.C110_nested"
   ],
   "note": "Parts of a conjunction are no conjunctions; C110_nested says what becomes of a conjunction in a conjunction."
  },
  {
   "property": "C111",
   "status": "proved",
   "theorems": [
    "Pddl.C111_step",
    "Pddl.C111_goal",
    "Pddl.C111_facts"
   ],
   "note": "Preconditions and goals without preferences."
  },
  {
   "property": "C112",
   "status": "proved",
   "theorems": [
    "Pddl.C112_constraint",
    "Pddl.C112_durative_condition",
    "Pddl.C112_durative_effect",
    "Pddl.C112_capture"
   ],
   "note": "C112_capture shows that the new word must not occur already."
  },
  {
   "property": "C113",
   "status": "proved",
   "theorems": [
    "Pddl.C113_compare",
    "Pddl.C113_at",
    "Pddl.C113_any",
    "Pddl.C113_one",
    "Pddl.C113_and",
    "Pddl.C113_durative_action",
    "Pddl.C113_derived"
   ],
   "note": "How several durative actions run at the same time is not defined; derived predicates are given by their rules, not by a least model."
  },
  {
   "property": "C114",
   "status": "proved",
   "theorems": [
    "Pddl.C114_durative_action",
    "Pddl.C114_derived"
   ],
   "note": ""
  },
  {
   "property": "C115",
   "status": "proved",
   "theorems": [
    "Pddl.C115_goal",
    "Pddl.C115_named",
    "Pddl.C115_anonymous",
    "Pddl.C115_and",
    "Pddl.C115_forall",
    "Pddl.C115_step",
    "Pddl.C115_plan",
    "Pddl.C115_constraint",
    "Pddl.C115_constraint_named",
    "Pddl.C115_constraint_anonymous",
    "Pddl.C115_constraint_and",
    "Pddl.C115_constraint_forall"
   ],
   "note": ""
  },
  {
   "property": "C116",
   "status": "proved",
   "theorems": [
    "Pddl.C116_precondition",
    "Pddl.C116_constraints",
    "Pddl.C116_metric"
   ],
   "note": ""
  },
  {
   "property": "C117",
   "status": "proved",
   "theorems": [
    "Pddl.C117_plan",
    "Pddl.C117_none",
    "Pddl.C117_texts",
    "Pddl.C117_rename",
    "Pddl.C117_one_word"
   ],
   "note": ""
  },
  {
   "property": "C118",
   "status": "proved",
   "theorems": [
    "Pddl.C118_domain",
    "Pddl.C118_problem",
    "Pddl.C118_section",
    "Pddl.C118_move"
   ],
   "note": ""
  },
  {
   "property": "C119",
   "status": "proved",
   "theorems": [
    "Pddl.C119_rename",
    "Pddl.C119_one_word",
    "Pddl.C119_metric",
    "Pddl.C119_opposite",
    "Pddl.C119_none",
    "Pddl.C119_time",
    "Pddl.C119_violated",
    "Pddl.C119_step",
    "Pddl.C119_append",
    "Pddl.C119_steps"
   ],
   "note": "Preferences without a name are not counted: no metric can name them."
  },
  {
   "property": "C120",
   "status": "proved",
   "theorems": [
    "Pddl.C120_violated",
    "Pddl.C120_constraint_violated",
    "Pddl.C120_named",
    "Pddl.C120_constraint_named",
    "Pddl.C120_goal",
    "Pddl.C120_and",
    "Pddl.C120_constraint_and",
    "Pddl.C120_forall",
    "Pddl.C120_constraint_forall",
    "Pddl.C120_each",
    "Pddl.C120_constraint_each",
    "Pddl.C120_rename",
    "Pddl.C120_constraint_rename"
   ],
   "note": ""
  },
  {
   "property": "C121",
   "status": "proved",
   "theorems": [
    "Pddl.C121_same",
    "Pddl.C121_domain",
    "Pddl.C121_problem",
    "Pddl.C121_domain_names",
    "Pddl.C121_problem_names",
    "Pddl.C121_keyword",
    "Pddl.C121_table",
    "Pddl.C121_rejected",
    "Pddl.C121_rejected_table",
    "Pddl.C121_every",
    "Pddl.C121_every_names",
    "Pddl.C121_every_table",
    "Pddl.C121_rejected_section",
    "Pddl.C121_untyped_twice",
    "Pddl.C121_rejected_item",
    "Pddl.C121_object_once",
    "Pddl.C121_recursion",
    "Pddl.C121_typed_once"
   ],
   "note": ""
  },
  {
   "property": "C122",
   "status": "partial",
   "theorems": [
    "Pddl.C122_steps",
    "Pddl.C122_partial",
    "Pddl.C122_shallow_partial",
    "Pddl.C122_exponential",
    "Pddl.C122_false",
    "Pddl.C122_exponential_domain",
    "Pddl.C122_false_domain",
    "Pddl.C122_exponential_problem",
    "Pddl.C122_false_problem"
   ],
   "note": "false as stated: an accepted text of 8n+1 characters makes 2^n calls (C122_exponential, C122_false), so do domains and problems (C122_exponential_domain, C122_exponential_problem); never more calls than steps (C122_steps), so the number is polynomial where operations are nested to a fixed depth (C122_shallow_partial)"
  }
 ]
}