{"id": "C01", "title": "Every parse terminates", "statement": "Calling any public parser (Domain::parse, Problem::parse, GoalDefinition::parse, ...) on any text returns after finitely many steps, with a recursion depth that never exceeds the number of characters of the text. No input makes a parser loop.", "quantifier": "all input texts, all public parsers", "why_tests_cant": "Termination is a statement about every input, including malformed and adversarial ones; a test run only shows that finitely many inputs return.", "anchors": ["src/parsers/*.rs", "src/parsers/utilities.rs: space_separated_list0, space_separated_list1", "src/parsers/comments.rs: ignore_eol_comment"]}
{"id": "C02", "title": "The remainder is a suffix, and values cost text", "statement": "Whenever a parser succeeds, the remaining text it reports is a suffix of the text it was given: nothing is reordered, duplicated or re-read. Every parser that returns a syntactic element (as opposed to a possibly empty list) consumes at least one character.", "quantifier": "all input texts, all public parsers, all successful results", "why_tests_cant": "Only sampled inputs can be tested; the claim concerns the result on every text that parses.", "anchors": ["src/parsers/mod.rs: Parser::parse, ParseResult", "src/parsers/*.rs"]}
{"id": "C03", "title": "Parsing panics only on unrepresentable numbers", "statement": "Parsing never panics on a text that has no run of 39 or more consecutive decimal digits. A numeric literal on its own panics exactly when its decimal value is at least (2^25-1)*2^103, i.e. rounds to infinity in f32. In particular the 'unhandled variant' expectations in the parsers can never fire.", "quantifier": "all input texts, all public parsers", "why_tests_cant": "Absence of panics is universal over inputs; fuzzing can only sample, and the panicking literals are rare.", "anchors": ["src/parsers/number.rs: parse_number", "src/types/number.rs: Number::new", "src/parsers/{assign_op,assign_op_t,binary_comp,binary_op,d_op,interval,multi_op,optimization,require_key,time_specifier}.rs"]}
{"id": "C04", "title": "Names are read whole and verbatim", "statement": "Name::parse succeeds exactly on texts that, after skipped layout, start with an ASCII letter; the returned name is the longest following run of ASCII letters, digits, '-' and '_', character by character and case preserved, and the remainder starts right after it.", "quantifier": "all input texts", "why_tests_cant": "Characterises the result on every text (including non-ASCII and empty ones), in both directions.", "anchors": ["src/parsers/name.rs: parse_name"]}
{"id": "C05", "title": "Interning preserves text", "statement": "For every history of Name::new calls in a process, the name returned by a call carries exactly the text it was asked for.", "quantifier": "all finite histories of interning calls, all strings", "why_tests_cant": "The answer depends on the content of a process-global table, i.e. on the whole history of earlier calls, and on a binary search with a reversed comparator.", "anchors": ["src/types/name.rs: Name::new, Name::new_string_interned"]}
{"id": "C06", "title": "Interning is canonical", "statement": "For every history of Name::new calls, two calls (with a text other than 'object' and 'number') yield the same shared allocation exactly when they were given the same text; the table never holds a text twice, and an allocation once handed out stays the one handed out for its text.", "quantifier": "all finite histories of interning calls, all pairs of calls in a history", "why_tests_cant": "Depends on the order in which all earlier names were inserted; the number of insertion orders is unbounded.", "anchors": ["src/types/name.rs: Name::new_string_interned, STRING_INTERNING"]}
{"id": "C07", "title": "Interning is schedule independent", "statement": "If several threads create names concurrently, then under every interleaving of their calls each call obtains a name with its own text, and any two calls from any threads share an allocation exactly when their texts are equal. The set of texts interned at the end does not depend on the interleaving.", "quantifier": "all numbers of threads, all per-thread call sequences, all interleavings", "why_tests_cant": "Schedules cannot be enumerated by tests.", "anchors": ["src/types/name.rs: Name::new_string_interned, STRING_INTERNING (Mutex)"]}
{"id": "C08", "title": "Name equality is text equality", "statement": "Two names compare equal exactly when their texts are equal, however they were constructed, so that names from the parser, from Name::new, from Name::new_static and Name::default() can be mixed.", "quantifier": "all pairs of names and all constructors", "why_tests_cant": "Ranges over all strings and all pairs of construction routes.", "anchors": ["src/types/name.rs: NameVariant (derived PartialEq), Name::new, Name::new_static, Name::default"]}
{"id": "C09", "title": "Typed lists assign each group its type", "statement": "A typed list x1 .. xk - t groups followed by an untyped tail is read as the flat list of all elements in source order, each paired with the type written after its own group; untyped tail elements get type object. No element is lost, duplicated, reordered or given another group's type.", "quantifier": "all numbers of groups, all group sizes, all names/variables/types, all layouts between the tokens", "why_tests_cant": "Grouping and counts are unbounded, and acceptance depends on backtracking across groups.", "anchors": ["src/parsers/typed_list.rs: typed_list", "src/types/typed.rs"]}
{"id": "C10", "title": "Function typed lists default to number", "statement": "In a :functions section every function skeleton gets the type written after its own group; trailing functions without a type get type number. Order and multiplicity are preserved.", "quantifier": "all numbers of groups, all group sizes, all skeletons", "why_tests_cant": "Same unboundedness as typed lists.", "anchors": ["src/parsers/function_typed_list.rs: function_typed_list", "src/parsers/functions_def.rs", "src/types/function_type.rs"]}
{"id": "C11", "title": "A type name is read in full", "statement": "Wherever a type is read, a type name that merely begins with 'object' (such as 'objective') is read as that name and not as 'object' followed by leftover text.", "quantifier": "all type names, all positions where a type may be written", "why_tests_cant": "The set of names beginning with 'object' is infinite and the failure depends on surrounding layout; the existing tests only use short names.", "anchors": ["src/parsers/primitive_type.rs: parse_primitive_type", "src/parsers/type.rs: parse_type"]}
{"id": "C12", "title": "A malformed type is an unrecoverable error", "statement": "When '-' in a typed list is not followed by a type, the typed list and every enclosing construct that reaches it reports an unrecoverable failure: no alternative reading of the text is tried, so the element cannot silently become untyped.", "quantifier": "all texts and all contexts in which a typed list is reached", "why_tests_cant": "It is a claim about control flow of all combinators for every input.", "anchors": ["src/parsers/type.rs: parse_type (nom::Err::Failure)", "src/parsers/typed_list.rs"]}
{"id": "C13", "title": "Terms round-trip", "statement": "Writing any term (name, variable, arbitrarily nested function term) in PDDL syntax with any layout between its parts and parsing it returns exactly that term and leaves exactly the text that followed it.", "quantifier": "all terms of unbounded depth and width, all layouts in which neighbouring words are separated by whitespace (then any whitespace and comments; layout before a closing parenthesis, empty comments and comments without whitespace are C31, C30 and C48), all following texts that do not continue the last word", "why_tests_cant": "Terms are an infinite recursive family.", "anchors": ["src/parsers/term.rs: parse_term", "src/parsers/function_term.rs: parse_function_term", "src/parsers/variable.rs"]}
{"id": "C14", "title": "Numeric expressions round-trip", "statement": "Writing any numeric expression (numbers, unary minus, binary and n-ary operators, fluents; and the ?duration variant used in durative effects) and parsing it returns exactly that expression; in particular operand order and operator are preserved and (- e), (- a b), (+ a b), (+ a b c) are told apart at every depth.", "quantifier": "all expressions of unbounded depth and width, all layouts in which neighbouring words are separated by whitespace (then any whitespace and comments; layout before a closing parenthesis, empty comments and comments without whitespace are C31, C30 and C48)", "why_tests_cant": "Backtracking between the binary, n-ary, negated and fluent readings occurs at each level of an unbounded tree.", "anchors": ["src/parsers/f_exp.rs: parse_f_exp", "src/parsers/f_head.rs: parse_f_head", "src/parsers/f_exp_da.rs: parse_f_exp_da", "src/parsers/f_comp.rs"]}
{"id": "C15", "title": "Goal descriptions round-trip", "statement": "Writing any goal description (and/or/not/imply/exists/forall, atomic formulae, numeric comparisons, nested arbitrarily) and parsing it returns exactly that goal description and leaves exactly the text that followed.", "quantifier": "all goal descriptions of unbounded depth and width over non-reserved predicate names, all layouts in which neighbouring words are separated by whitespace (then any whitespace and comments; layout before a closing parenthesis, empty comments and comments without whitespace are C31, C30 and C48), all following texts", "why_tests_cant": "Infinite recursive family with nine ordered alternatives at each level.", "anchors": ["src/parsers/gd.rs: parse_gd", "src/parsers/atomic_formula.rs", "src/types/gd.rs"]}
{"id": "C16", "title": "Precondition conjunctions are flattened in order", "statement": "Parsing a precondition or goal consisting of arbitrarily nested (and ...) of preferences, quantified goals and goals returns the list of its conjuncts in left-to-right order, each conjunct being the one written, with preference names kept.", "quantifier": "all precondition trees over predicate names that do not begin with a keyword (for those see C45, C46), all layouts in which neighbouring words are separated by whitespace (then any whitespace and comments; layout before a closing parenthesis, empty comments and comments without whitespace are C31, C30 and C48)", "why_tests_cant": "Nesting is unbounded; flattening errors (lost, duplicated or swapped conjuncts) may only show at depth.", "anchors": ["src/parsers/pre_gd.rs: parse_pre_gd", "src/parsers/pref_gd.rs: parse_pref_gd", "src/types/pre_gd.rs", "src/parsers/goal_def.rs"]}
{"id": "C17", "title": "Effects round-trip", "statement": "Writing any action effect (and, forall, when, negated and positive atoms, assignments and numeric updates, undefined) and parsing it returns exactly that effect.", "quantifier": "all effects of unbounded depth and width, all layouts in which neighbouring words are separated by whitespace (then any whitespace and comments; layout before a closing parenthesis, empty comments and comments without whitespace are C31, C30 and C48); predicate names are not keywords (C45)", "why_tests_cant": "Mutually recursive infinite family with overlapping alternatives.", "anchors": ["src/parsers/effects.rs: parse_effect", "src/parsers/c_effect.rs: parse_c_effect", "src/parsers/p_effect.rs: parse_p_effect", "src/parsers/cond_effect.rs"]}
{"id": "C18", "title": "Actions round-trip", "statement": "Writing any action (parameters, optional precondition, optional effect, each possibly '()') or derived predicate and parsing it returns exactly its symbol, parameters, precondition and effect; omitted and '()' sections are reported as empty and absent respectively.", "quantifier": "all actions and derived predicates, all layouts in which neighbouring words are separated by whitespace (then any whitespace and comments; layout before a closing parenthesis, empty comments and comments without whitespace are C31, C30 and C48); predicate names are not keywords (C45)", "why_tests_cant": "All parts are unbounded and optional sections interact through backtracking.", "anchors": ["src/parsers/action_def.rs: parse_action_def", "src/parsers/derived_predicate.rs", "src/parsers/structure_def.rs", "src/parsers/empty_or.rs"]}
{"id": "C19", "title": "Durative actions round-trip", "statement": "Writing any durative action (duration constraints, timed conditions, timed and continuous effects) and parsing it returns exactly that durative action.", "quantifier": "all durative actions, all layouts in which neighbouring words are separated by whitespace (then any whitespace and comments; layout before a closing parenthesis, empty comments and comments without whitespace are C31, C30 and C48); predicate names are not keywords (C45); an assignment in a timed effect is a numeric one (C51)", "why_tests_cant": "Infinite recursive family.", "anchors": ["src/parsers/da_def.rs: parse_da_def", "src/parsers/da_gd.rs", "src/parsers/da_effect.rs", "src/parsers/timed_effect.rs", "src/parsers/timed_gd.rs", "src/parsers/duration_constraint.rs", "src/parsers/simple_duration_constraint.rs", "src/parsers/f_exp_t.rs"]}
{"id": "C20", "title": "Trajectory constraints round-trip", "statement": "Writing any trajectory constraint (at end, always, sometime, within, at-most-once, sometime-after/-before, always-within, hold-during, hold-after, and, forall) over goal descriptions and parsing it returns exactly that constraint; preference constraints are flattened in order.", "quantifier": "all constraints, all layouts in which neighbouring words are separated by whitespace (then any whitespace and comments; layout before a closing parenthesis, empty comments and comments without whitespace are C31, C30 and C48); predicate names are not keywords (C45)", "why_tests_cant": "Infinite recursive family; several keywords are prefixes of others.", "anchors": ["src/parsers/con_gd.rs: parse_con_gd", "src/parsers/pref_con_gd.rs: parse_pref_con_gds"]}
{"id": "C21", "title": "Nested trajectory constraints stay constraints", "statement": "A trajectory constraint whose operand is again a trajectory constraint, e.g. (always (sometime (p))), is reported as a nested constraint and never as an atomic goal.", "quantifier": "all constraints", "why_tests_cant": "Universal over nested constraints; the ambiguity with atomic formulae only appears for some operand shapes.", "anchors": ["src/parsers/con_gd.rs: parse_con2_gd", "src/types/con_gd.rs: Con2GD"]}
{"id": "C22", "title": "Initial states round-trip", "statement": "Writing any list of initial-state elements (positive and negated ground atoms, timed literals, numeric and object fluent values) and parsing the :init section returns exactly these elements in order.", "quantifier": "all lists of elements, all layouts in which neighbouring words are separated by whitespace (then any whitespace and comments; layout before a closing parenthesis, empty comments and comments without whitespace are C31, C30 and C48)", "why_tests_cant": "Unbounded lists over an infinite element family with overlapping readings ('=' and 'at').", "anchors": ["src/parsers/init_def.rs", "src/parsers/init_el.rs: parse_init_el", "src/parsers/basic_function_term.rs", "src/parsers/literal.rs"]}
{"id": "C23", "title": "Metric expressions round-trip", "statement": "Writing any plan metric (numbers, operators, total-time, is-violated, functions) and parsing it returns exactly that metric.", "quantifier": "all metric expressions, all layouts in which neighbouring words are separated by whitespace (then any whitespace and comments; layout before a closing parenthesis, empty comments and comments without whitespace are C31, C30 and C48); function names do not begin with total-time or is-violated (C46, C47)", "why_tests_cant": "Infinite recursive family.", "anchors": ["src/parsers/metric_spec.rs", "src/parsers/metric_f_exp.rs: parse_metric_f_exp", "src/parsers/optimization.rs"]}
{"id": "C24", "title": "Domains round-trip", "statement": "Writing any domain (name, extends, requirements, types, constants, predicates, functions, constraints, one or more structures; optional sections present or absent) with any layout, comments included, and parsing it returns a Domain whose accessors give back exactly what was written, with absent sections empty.", "quantifier": "all domains, all layouts in which neighbouring words are separated by whitespace (then any whitespace and comments; layout before a closing parenthesis, empty comments and comments without whitespace are C31, C30 and C48), all following texts; names as in C15-C23", "why_tests_cant": "Domains are unbounded trees; a test covers single files.", "anchors": ["src/parsers/domain.rs: parse_domain", "src/types/domain.rs: Domain"]}
{"id": "C25", "title": "Problems round-trip", "statement": "Writing any problem (name, domain, requirements, objects, init, goal, constraints, metric, length) with any layout and parsing it returns a Problem whose accessors give back exactly what was written, with absent sections empty or None.", "quantifier": "all problems, all layouts in which neighbouring words are separated by whitespace (then any whitespace and comments; layout before a closing parenthesis, empty comments and comments without whitespace are C31, C30 and C48), all following texts; names as in C15-C23", "why_tests_cant": "Problems are unbounded trees; a test covers single files.", "anchors": ["src/parsers/problem.rs: parse_problem", "src/types/problem.rs: Problem"]}
{"id": "C26", "title": "Nothing is read that was not written", "statement": "Whenever a parser accepts, the consumed text with layout (whitespace and comments) ignored is one of the PDDL spellings of exactly the returned value: every non-layout character of the consumed text is accounted for by the value and every part of the value by the text.", "quantifier": "all input texts, all successful results", "why_tests_cant": "Converse of round-trip: it ranges over all accepted texts, not only over well-formed ones.", "anchors": ["src/parsers/*.rs"]}
{"id": "C27", "title": "An accepted form is exactly one balanced form", "statement": "When a parser of a parenthesised construct (domain, problem, goal, action, ...) accepts, the consumed text is layout followed by one balanced parenthesised form (parentheses inside comments not counting), followed by layout for whole files: it never stops inside a form and never swallows a closing parenthesis that belongs to the context.", "quantifier": "all input texts, all parenthesised constructs", "why_tests_cant": "Universal over accepted inputs, including malformed ones accepted by some lenient alternative.", "anchors": ["src/parsers/utilities.rs: prefix_expr, parens", "src/parsers/*.rs"]}
{"id": "C28", "title": "Trailing text does not influence the result", "statement": "The value returned for a parenthesised construct depends only on the text up to its closing parenthesis: replacing everything after it by any other text gives the same value and leaves that other text. Hence from_str on a file followed by arbitrary trailing text returns the same Domain or Problem.", "quantifier": "all input texts, all replacement texts", "why_tests_cant": "Quantifies over all continuations; ordered choice with backtracking could look beyond the form.", "anchors": ["src/parsers/mod.rs: Parser::from_str", "src/parsers/domain.rs", "src/parsers/problem.rs"]}
{"id": "C29", "title": "Layout before an element is irrelevant", "statement": "Prefixing a text by any amount of whitespace and (non-empty) line comments does not change the value parsed or the remainder, for names and for every keyword form ((and ..), (:action ..), (define ..), ...); trailing layout after a domain or problem is consumed.", "quantifier": "all input texts, all layout strings", "why_tests_cant": "Universal over layouts and inputs.", "anchors": ["src/parsers/utilities.rs: ws, ws2", "src/parsers/comments.rs: ignore_eol_comment"]}
{"id": "C30", "title": "Empty comments are comments", "statement": "A line that contains only ';' is skipped like any other comment line.", "quantifier": "all texts containing an empty comment line where layout is allowed", "why_tests_cant": "A universal claim about layout; existing tests only use non-empty comments.", "anchors": ["src/parsers/comments.rs: ignore_eol_comment"]}
{"id": "C31", "title": "Whitespace before a closing parenthesis is irrelevant", "statement": "Inserting whitespace before the closing parenthesis of a form does not change whether and how it parses.", "quantifier": "all forms, all whitespace", "why_tests_cant": "Universal over forms; the two parenthesis helpers of the crate differ.", "anchors": ["src/parsers/utilities.rs: parens, prefix_expr", "src/parsers/atomic_formula.rs"]}
{"id": "C32", "title": "Goals never use the redundant literal variant", "statement": "The result of GoalDefinition::parse never contains the Literal variant, at any depth: an atom is always reported as AtomicFormula and a negated atom as Not, so consumers need not handle two encodings of the same goal. The same holds for goals inside preconditions, constraints, effects and durative conditions.", "quantifier": "all input texts", "why_tests_cant": "Unreachability of an enum variant over all inputs; needs an argument about where earlier alternatives stop.", "anchors": ["src/parsers/gd.rs: parse_gd", "src/types/gd.rs: GoalDefinition::Literal"]}
{"id": "C33", "title": "Parsed n-ary operators have the promised arity", "statement": "In every parsed value an n-ary (MultiOp) numeric expression has at least two further operands after the first, an 'and' duration constraint is non-empty, and an 'either' type, a requirements list and a predicates list are non-empty; the debug assertions in the constructors can never fire from the parser.", "quantifier": "all input texts, all nodes of the result at any depth", "why_tests_cant": "Invariant over all nodes of all results.", "anchors": ["src/parsers/f_exp.rs", "src/parsers/f_exp_da.rs", "src/parsers/metric_f_exp.rs", "src/parsers/duration_constraint.rs", "src/types/metric_f_exp.rs: MetricFExp::new_multi_op", "src/types/duration_constraint.rs: DurationConstraint::new_all"]}
{"id": "C34", "title": "Requirement keys are unambiguous", "statement": "Every requirement's textual key is read back as that requirement, whatever follows it; distinct requirements have distinct keys and none is a prefix of another, so the order of alternatives is immaterial; and a :requirements section returns exactly the written keys in order with duplicates kept.", "quantifier": "all requirements, all following texts, all lists of requirements", "why_tests_cant": "The list and continuation are unbounded; prefix freedom is about all pairs.", "anchors": ["src/parsers/requirements.rs", "src/parsers/requirements.rs", "src/types/requirement.rs: as_str, TryFrom<&str>"]}
{"id": "C35", "title": "Effective requirements form a closure", "statement": "Requirements::to_effective is never empty, contains no shorthand requirement, contains every non-shorthand requirement listed, does not depend on order or repetition, is monotone on non-empty lists, and applying it to its own result changes nothing.", "quantifier": "all requirement lists", "why_tests_cant": "Laws over all lists and pairs of lists.", "anchors": ["src/types/requirements.rs: Requirements::to_effective", "src/types/requirement.rs: Requirement::expand"]}
{"id": "C36", "title": "contains agrees with expand", "statement": "Requirement::contains(a, b) holds exactly when b is a itself or is implied by a, i.e. everything b expands to is in what a expands to; in particular everything in a.expand() is contained in a.", "quantifier": "all pairs of requirements", "why_tests_cant": "It is a law relating two independently written tables over all pairs; the unit test repeats the table's mistake.", "anchors": ["src/types/requirement.rs: Requirement::contains, Requirement::expand"]}
{"id": "C37", "title": "Number comparison is lawful", "statement": "For all numbers, ==, <, Ord::cmp and hashing agree: a == b exactly when a.cmp(b) is Equal, partial_cmp(a,b) is Some(cmp(a,b)), cmp is a total order that follows the numeric value, and equal numbers hash equally.", "quantifier": "all pairs and triples of finite f32 values", "why_tests_cant": "2^64 pairs; the laws are needed by every ordered or hashed collection.", "anchors": ["src/types/number.rs: PartialEq, Ord, PartialOrd, Hash for Number"]}
{"id": "C38", "title": "Numeric literals are rounded correctly", "statement": "Number parsing of digits[.digits] yields the f32 nearest to the written decimal value (ties to even); integers up to 2^24 are exact; a larger literal never yields a smaller number; sign is never negative; leading zeros and trailing fractional zeros do not matter.", "quantifier": "all numeric literals of any length", "why_tests_cant": "Literals are unbounded in length.", "anchors": ["src/parsers/number.rs: parse_number", "src/types/number.rs"]}
{"id": "C39", "title": "Number constructors only admit finite values", "statement": "Number::new returns normally exactly on finite f32 values and Number::try_new returns Ok exactly on those, with the value unchanged; no Number reachable through the constructors or the parser is infinite or NaN.", "quantifier": "all 2^32 f32 bit patterns", "why_tests_cant": "All bit patterns; also used as an invariant by the ordering.", "anchors": ["src/types/number.rs: Number::new, Number::try_new, From impls"]}
{"id": "C40", "title": "Length specifications are exact or rejected", "statement": "Parsing (:length (:serial n) (:parallel m)) returns exactly n and m for all n, m up to 2^64-1, keeps the two apart when one is missing, and rejects rather than wraps any value that does not fit into 64 bits.", "quantifier": "all digit strings, all layouts", "why_tests_cant": "Overflow behaviour over unbounded digit strings.", "anchors": ["src/parsers/length_spec.rs: parse_problem_length_spec", "src/types/length_spec.rs"]}
{"id": "C41", "title": "Operators are read by longest match and print back", "statement": "Every comparison, arithmetic, assignment, duration, optimisation, time and interval operator is read back from its textual form whatever delimiter follows, a two-character comparison is never read as its one-character prefix, and conversion to text and back is the identity for every operator.", "quantifier": "all operators, all following texts", "why_tests_cant": "Covers all continuations; order of alternatives matters.", "anchors": ["src/parsers/{binary_comp,binary_op,multi_op,assign_op,assign_op_t,d_op,optimization,time_specifier,interval}.rs", "src/types/*.rs: as_str, TryFrom<&str>, Display"]}
{"id": "C42", "title": "Flattening iterators and singletons", "statement": "Iterating over a type, conditional effect or duration constraint yields exactly its members in order, len agrees with the number yielded and is_empty with len = 0; try_get_single returns the element exactly when there is exactly one.", "quantifier": "all values of these types", "why_tests_cant": "Laws over unbounded collections.", "anchors": ["src/types/iterators.rs: FlatteningIntoIterator", "src/types/type.rs", "src/types/conditional_effect.rs", "src/types/duration_constraint.rs", "src/types/effects.rs: try_get_single", "src/types/pre_gd.rs: try_get_single"]}
{"id": "C43", "title": "is_empty means no atoms", "statement": "GoalDefinition::is_empty (and the constraint variant) is true exactly when the goal contains no atomic formula, literal, or numeric comparison at any depth, so an empty goal imposes no condition that mentions the state.", "quantifier": "all goal descriptions and constraints", "why_tests_cant": "Recursive predicate over unbounded trees.", "anchors": ["src/types/gd.rs: GoalDefinition::is_empty", "src/types/con_gd.rs: is_empty", "src/types/pref_con_gd.rs: is_empty"]}
{"id": "C44", "title": "Sections are never silently dropped", "statement": "If a domain or problem text parses, every section written in it (requirements, types, constants, predicates, functions, constraints, actions; objects, init, goal, constraints, metric, length) is present in the result; a section out of order, repeated or unknown makes the parse fail rather than being ignored.", "quantifier": "all domain and problem texts", "why_tests_cant": "Optional sections are parsed with backtracking; the claim is about all texts.", "anchors": ["src/parsers/domain.rs: parse_domain", "src/parsers/problem.rs: parse_problem"]}
{"id": "C45", "title": "Reserved words are not predicate names", "statement": "A goal form whose head is a PDDL keyword (and, or, not, imply, exists, forall) is either parsed as that connective or rejected; it is never accepted as an atom whose predicate is the keyword.", "quantifier": "all goal texts", "why_tests_cant": "Universal over texts; malformed uses of a connective fall through to the atom alternative.", "anchors": ["src/parsers/gd.rs: parse_gd", "src/parsers/atomic_formula.rs"]}
{"id": "C46", "title": "Keywords end at a word boundary", "statement": "A section or connective keyword is only recognised when it is followed by layout, a parenthesis or the end of the form, never as a proper prefix of a longer word, e.g. (:domainfoo) is not accepted as (:domain foo).", "quantifier": "all texts", "why_tests_cant": "Universal over continuations of each keyword.", "anchors": ["src/parsers/utilities.rs: prefix_expr"]}
{"id": "C47", "title": "total-time is recognised in both spellings", "statement": "In a metric both total-time and (total-time) denote the built-in total time, and a function whose name merely starts with total-time is not confused with it.", "quantifier": "all metric texts", "why_tests_cant": "Universal over names with that prefix and contexts.", "anchors": ["src/parsers/metric_f_exp.rs: parse_metric_f_exp"]}
{"id": "C48", "title": "A comment separates tokens", "statement": "Between two tokens a line comment does the work of whitespace: a form in which some separating whitespace is replaced by a non-empty line comment parses to the same value.", "quantifier": "all forms, all places between two tokens", "why_tests_cant": "Every pair of neighbouring tokens in every construct is a separate case.", "anchors": ["src/parsers/utilities.rs: space_separated_list0", "src/parsers/comments.rs: ignore_eol_comment"]}
{"id": "C49", "title": "Spelling determines meaning", "statement": "No text is a spelling of two different values: if a text can be written for two terms, expressions, goals, preconditions, constraints, effects, actions, domains or problems, then they are the same one; and the canonical text of a value identifies it.", "quantifier": "all pairs of values of the same category, all texts", "why_tests_cant": "Quantifies over pairs of unbounded trees.", "anchors": ["src/parsers/gd.rs: parse_gd", "src/parsers/domain.rs: parse_domain", "src/parsers/problem.rs: parse_problem"]}
{"id": "C50", "title": "Text conversion of numbers never panics", "statement": "Number::from_str returns Ok exactly on decimal texts (optional sign, digits, fraction, exponent) of finite value, with the nearest f32, and an error otherwise; it does not panic.", "quantifier": "all decimal texts of any length", "why_tests_cant": "The threshold between finite and infinite lies at 39-digit literals.", "anchors": ["src/types/number.rs: FromStr for Number", "src/types/number.rs: Number::new"]}
{"id": "C51", "title": "Assignments in timed effects keep their meaning", "statement": "In (at start E) an assignment E is read as the same kind of assignment as outside a timed effect: (assign (f) undefined) makes f undefined, and (assign (f) x) with an object x assigns the object.", "quantifier": "all timed effects", "why_tests_cant": "Depends on the order of alternatives for all operands.", "anchors": ["src/parsers/timed_effect.rs: parse_timed_effect", "src/parsers/p_effect.rs: parse_p_effect"]}
{"id": "C52", "title": "Parsed values are well-formed throughout", "statement": "In every value returned by a parser, every name at any depth (predicates, functions, types, objects, variables, actions, preferences) is a non-empty legal word: an ASCII letter followed by ASCII letters, digits, '-' and '_'; every number is finite and not negative; and the internal FExpDa::Assign variant never occurs. Consumers need not re-validate.", "quantifier": "all texts, all parsers, all positions inside the returned value", "why_tests_cant": "It is a universal statement about every node of values of unbounded depth, over all accepted texts; tests inspect a few values.", "anchors": ["src/parsers/name.rs", "src/parsers/number.rs", "src/parsers/f_exp_da.rs", "src/types/f_exp_da.rs"]}
{"id": "C53", "title": "Integers convert faithfully to numbers", "statement": "Number::from(i) for i8, u8, i16, u16, i32, u32 never panics, yields the nearest f32 and preserves order; for magnitudes up to 2^24 the value is exact, so comparing a number with an integer (number == i) is comparing integers. Beyond 2^24 distinct integers may compare equal.", "quantifier": "all integers of the convertible types", "why_tests_cant": "There are 2^32 values per type and 2^64 pairs; the rounding boundary lies at 2^24.", "anchors": ["src/types/number.rs: From<i32> for Number", "src/types/number.rs: PartialEq<I> for Number"]}
{"id": "C54", "title": "Which floating point values convert to numbers", "statement": "Number::from(f32) panics exactly on NaN and infinities. Number::from(f64) gives the nearest f32 for every double below the overflow bound and panics on NaN, infinities and finite doubles that round to infinity.", "quantifier": "all 2^32 and 2^64 bit patterns", "why_tests_cant": "Needs all bit patterns, in particular both sides of the rounding boundary at (2^25-1)*2^103.", "anchors": ["src/types/number.rs: From<f64> for Number", "src/types/number.rs: From<UnderlyingType> for Number"]}
{"id": "C55", "title": "Layout carries no meaning", "statement": "The value of a well-written text depends only on its tokens (parentheses and the runs of other characters between parentheses and layout). Removing comments and replacing all layout by single spaces, with none after '(' and before ')', keeps the parsed value of every category; two domain or problem files with the same tokens define the same domain or problem.", "quantifier": "all texts written according to the strict grammar, all layout and comments, all categories", "why_tests_cant": "Every position of every production admits infinitely many layouts; a test fixes one layout per example.", "anchors": ["src/parsers/comments.rs", "src/parsers/utilities.rs", "src/parsers/domain.rs", "src/parsers/problem.rs"]}
{"id": "C56", "title": "Errors point into the text, innermost place first", "statement": "Every error of a public parser carries at least one entry. Every entry is a position inside the given text, with one byte offset and one line. Entries are ordered from the innermost place outwards. The error of a choice is that of the alternative that got furthest (the first of them on a tie), with one entry added for the choice. from_str returns exactly this error, and a value exactly when the parser accepts a beginning of the text.", "quantifier": "all public parsers, all texts, all lists of alternatives", "why_tests_cant": "Positions of errors depend on every combination of alternatives and backtracking over unboundedly many texts.", "anchors": ["src/parsers/mod.rs: ParseError, ParseResult, Span, Parser::from_str", "nom-greedyerror: GreedyError"]}
{"id": "C57", "title": "An unrecoverable error points behind the dash without a type", "statement": "Whenever a public parser (other than the parser of types itself) returns nom::Err::Failure, the error has exactly one entry, of kind Alt, and it lies right behind a '-' of the text after which no type is written. The type parsers report the position where they were called.", "quantifier": "all public parsers, all texts", "why_tests_cant": "The failure may pass through any nesting of alternatives, lists and optional sections before it is returned; all of them must leave the position alone.", "anchors": ["src/parsers/type.rs: parse_type", "src/parsers/typed_list.rs"]}
{"id": "C58", "title": "The error of a file points to the first thing that does not belong there", "statement": "If a domain or problem file has no '(define (domain name' or '(define (problem name' at its beginning, the error points to the first character that deviates. If the file is well written up to a place where something stands that cannot continue it (an unknown or misplaced form, another character, or the end of the text), from_str returns an error with the single position of that place.", "quantifier": "all well-written beginnings of domain and problem files, all layout, all continuations that begin no section", "why_tests_cant": "The place is reached after any number of optional sections and structures, each of which tries and abandons alternatives.", "anchors": ["src/parsers/domain.rs: parse_domain", "src/parsers/problem.rs: parse_problem", "src/parsers/utilities.rs: prefix_expr"]}
{"id": "C59", "title": "Everything before the reported position is all right, and the form there is to blame", "statement": "If parse_domain or parse_problem returns a recoverable error for any text, the text before the reported position can be continued to a text that the parser accepts completely. If a parenthesised form begins at this position, no text that has the same beginning and goes on with this form is accepted, whatever follows. The error of a domain has this single position; so has the error of a problem unless the goal is malformed, in which case the error is the one the goal's parser gives at the beginning of the goal.", "quantifier": "all texts for which parse_domain or parse_problem returns a recoverable error", "why_tests_cant": "Any text can be wrong at any place; both halves quantify over continuations of the text.", "anchors": ["src/parsers/domain.rs: parse_domain", "src/parsers/problem.rs: parse_problem", "src/parsers/utilities.rs: prefix_expr, space_separated_list0"]}
{"id": "C60", "title": "Parsing takes polynomial work", "statement": "There are constants C and k such that parsing any text of n characters as a domain or problem takes at most C*(n+1)^k steps, where every call of a primitive or recursive parser and every consumed character is a step. (This is false: operations with more than two operands, nested in their first operand, are read twice at every level. What holds: the work is at most C*2^d*(n+1)^7, where d is how deep arithmetic operations are nested, so all texts with operations nested at most d deep take polynomial work.)", "quantifier": "all texts, accepted or not", "why_tests_cant": "Tests run on short texts; the number of steps must be bounded for texts of every length, and backtracking multiplies along nesting.", "anchors": ["src/parsers/metric_f_exp.rs: parse_metric_f_exp", "src/parsers/f_exp.rs: parse_f_exp", "src/parsers/f_exp_da.rs: parse_f_exp_da", "src/parsers/domain.rs: parse_domain", "src/parsers/problem.rs: parse_problem"]}
{"id": "C61", "title": "Recursion is only as deep as the text is nested", "statement": "There is a function f such that parsing any text in which parentheses are nested n deep, as a domain or problem, never has more than f(n) calls of recursive parsers open at the same time. (This is false: ignore_eol_comment calls itself once for every comment in a row. What holds: the depth is at most n + c + 4, where c is the largest number of comments in a row; for texts without comments it is at most n + 4.)", "quantifier": "all texts, accepted or not", "why_tests_cant": "Tests use short and shallow texts; whether the stack can be exhausted is a question about texts of every length, and about every path through twelve mutually calling recursive parsers.", "anchors": ["src/parsers/comments.rs: ignore_eol_comment", "src/parsers/gd.rs: parse_gd", "src/parsers/term.rs: parse_term", "src/parsers/domain.rs: parse_domain", "src/parsers/problem.rs: parse_problem"]}
{"id": "C62", "title": "Names and numbers are taken from the text", "statement": "The parsers invent nothing: every name anywhere in a returned value (actions, predicates, functions, variables, objects, preferences, types inside either) is a contiguous part of the text that was consumed, and every number is the correctly rounded value of a decimal literal in it. The only exceptions are the types object and number, which are filled in where no type is written. So a tool can always point from a part of the value back into the file.", "quantifier": "all input texts, all parsers, all names and numbers at any depth of the returned value", "why_tests_cant": "It relates every part of values of unbounded depth to the unbounded text they were read from; tests compare a few values with a few texts.", "anchors": ["src/parsers/name.rs", "src/parsers/number.rs", "src/parsers/typed_list.rs", "src/parsers/domain.rs", "src/parsers/problem.rs"]}
{"id": "C63", "title": "Debug and release builds agree", "statement": "Parsing gives the same result in a build with debug assertions and in one without: for every text the same value, the same kind of error or the same panic. The assertions in the constructors of n-ary duration constraints and metric expressions are never violated by a parser, and those in comparing and hashing numbers hold for every number that can be constructed.", "quantifier": "all input texts, both file parsers; all finite numbers", "why_tests_cant": "Test suites run in one profile. That an assertion never fires is a statement about every text; a release build would silently carry on with a malformed value where the debug build panics.", "anchors": ["src/types/duration_constraint.rs: new_all", "src/types/metric_f_exp.rs: new_multi_op", "src/types/number.rs: Ord, Hash"]}
{"id": "C64", "title": "The interning feature cannot be observed", "statement": "Whether the crate is built with or without the feature interning makes no difference a program can see through a name: after any history of calls of Name::new, also from several threads, the names have the same text, length, emptiness and hash input, compare the same with strings and compare the same with each other.", "quantifier": "all histories of calls, all schedules of any number of threads, all pairs of names made", "why_tests_cant": "The interned build depends on the whole history of the process through a global table; tests see a handful of histories and one build.", "anchors": ["src/types/name.rs: Name::new, PartialEq, Hash, Deref", "Cargo.toml: features"]}
{"id": "C65", "title": "Names made from ordinary strings are unaffected by other callers", "statement": "Name::new is generic: callers pass any type that converts to &str by as_ref and to String by into. Whatever other callers pass, a name made from an ordinary string is returned without panic, has that text, and equal strings share one allocation. (This is false: one panicking conversion poisons the mutex and every later call for a name that is not well-known panics; one caller whose two conversions disagree can put the table out of order, after which equal strings no longer share. What holds: the text is always right, calls panic only after a panicking conversion, and well-known names are never affected.)", "quantifier": "all sequences of calls with arbitrary conversions", "why_tests_cant": "The failure needs another caller's faulty conversion at an earlier time; the table is a global of the process and tests start from a fresh one.", "anchors": ["src/types/name.rs: Name::new, interning table"]}
{"id": "C66", "title": "Several definitions in one text are read one after another", "statement": "A program that calls the parsers again and again on the text they left over gets exactly the definitions that were written, in their order, until only layout is left; a text is never accepted both as a domain and as a problem, so the order in which the two parsers are tried does not matter; and joining two accepted texts with a line end between them gives the definitions of the first and then those of the second. (Without the line end a comment at the end of the first text swallows the second one silently.)", "quantifier": "all accepted texts, all lists of definitions, all layouts", "why_tests_cant": "It is about concatenations of arbitrary accepted texts and about what is left over after any of them; tests read one definition per text.", "anchors": ["src/parsers/domain.rs: parse_domain", "src/parsers/problem.rs: parse_problem", "src/parsers/utilities.rs: ws2", "src/parsers/mod.rs: from_str"]}
{"id": "C67", "title": "Keywords are recognised whatever their case", "statement": "PDDL is not case-sensitive: a text in which the case of keywords is changed is accepted like the original and means the same. (This is false of the crate: a section keyword or define in another case is always rejected, and a logical keyword in another case is silently read as a predicate: (AND (p) (q)) is an atom and (NOT (p)) as an effect adds a fact instead of deleting one. What holds: names may be written in any case, and names that differ in case are different.)", "quantifier": "all capitalisations of all keywords, in all texts", "why_tests_cant": "Every keyword has exponentially many capitalisations and can occur at any depth; a silently different meaning is not an error that a test would see.", "anchors": ["src/parsers/utilities.rs: prefix_expr", "src/parsers/gd.rs: parse_gd", "src/parsers/p_effect.rs: parse_p_effect", "src/parsers/domain.rs: parse_domain", "src/parsers/problem.rs: parse_problem"]}
{"id": "C68", "title": "Exactly which texts are read as a given term, atom or literal", "statement": "For every text, value and remainder: parse_term, parse_function_term, atomic_formula (over terms and over names) and literal (over names) return that value and that remainder exactly when the text is optional layout, a text described by an explicit grammar, and the remainder. The grammar says where layout is optional, required or forbidden: none before the closing parenthesis after arguments, a blank between arguments, none needed after the predicate where the name ends by itself, any layout inside an equality except between ( and =, and what may precede each form.", "quantifier": "all texts, all values, all remainders", "why_tests_cant": "It is an equivalence over all texts: both that every text of the grammar is accepted and that nothing else is; the set of texts is infinite in layout, names and nesting.", "anchors": ["src/parsers/term.rs: parse_term", "src/parsers/function_term.rs: parse_function_term", "src/parsers/atomic_formula.rs: atomic_formula", "src/parsers/literal.rs: literal", "src/parsers/utilities.rs: space_separated_list0, parens"]}
{"id": "C69", "title": "T::from_str and T::parse of every type read texts of that type", "statement": "For each of the 73 types that implement the Parser trait: T::parse and the trait's from_str, given a text of a value of T followed by anything that does not run on, return that value; parse leaves what follows, from_str discards it; they succeed on nothing but layout followed by a text of the value they return; no text denotes two values; every call ends, and panics only on 39 digits in a row. T::from_str(text), as a user writes it, gives what the parser gives. (The last sentence fails for ActionSymbol, DurativeActionSymbol, FunctionSymbol, Predicate, PreferenceName and Variable: they have a function from_str of their own that takes precedence and accepts any text, and for Variable it never gives what the parser gives.)", "quantifier": "all 73 types, all values, all texts, all remainders", "why_tests_cant": "A quantification over all types and all texts; a test calls from_str on a few texts of a few types, and the shadowed function is called with plain names in all tests.", "anchors": ["src/parsers/mod.rs: Parser::parse, Parser::parse_span, Parser::from_str", "src/types/variable.rs: Variable::from_str", "src/types/predicate.rs: Predicate::from_str", "src/types/function_symbols.rs: FunctionSymbol::from_str", "src/types/action_symbols.rs: ActionSymbol::from_str", "src/types/da_symbol.rs: DurativeActionSymbol::from_str", "src/types/pref_name.rs: PreferenceName::from_str"]}
{"id": "C70", "title": "Building a domain or problem step by step and looking at it", "statement": "For every sequence of with_* calls on a domain or a problem: each accessor shows the argument of the last call for its slot, or what the builder was given, or the empty default; calls do not disturb other slots; the order of calls for different slots does not matter; every domain and every problem can be built this way; AsRef shows what the accessor shows; two problems, and two domains, for which all accessors show the same are equal. (The last clause is false for domains: no accessor shows the timeless predicates.)", "quantifier": "all domains and problems, all sequences of builder calls of any length, all accessors", "why_tests_cant": "Sequences of calls are unbounded and the values arbitrary; a test fixes one sequence, and a with_* function that writes the wrong field, or a missing accessor, shows only for the right combination.", "anchors": ["src/types/domain.rs: Domain::builder, Domain::with_*, accessors, AsRef", "src/types/problem.rs: Problem::new, Problem::builder, Problem::with_*, accessors"]}
{"id": "C71", "title": "Every section a domain can hold is read", "statement": "Every part of Domain that the crate can represent is filled by the domain parser when the text has the section for it. (False: parse_domain never reads a :timeless section. Every text with such a section among its sections is rejected, wherever the section stands, and every domain that is read has no timeless predicates, although the crate has a parser for the section and a field for it.)", "quantifier": "all texts, all domains", "why_tests_cant": "A statement about all texts: that no accepted text has the section, and that every domain without timeless predicates is read from some text; the tests parse domains without the section only.", "anchors": ["src/parsers/domain.rs: parse_domain", "src/parsers/timeless_def.rs: parse_timeless_def", "src/types/domain.rs: Domain::timeless, Domain::with_timeless"]}
{"id": "C72", "title": "Names and requirements can be kept in sets and found again", "statement": "For every hasher: a HashSet of names or requirements, and the set returned by to_effective, contains exactly what was put in; an ordered set of requirements likewise; the order of requirements is a total order agreeing with ==; and, because Requirement implements Borrow<str>, the text of a requirement is found in a set exactly when the requirement is. A requirement equals a text exactly if the text is read as that requirement; the same for assignment operators. (The lookup by text is false: a requirement hashes to its variant number, its text to its characters, and the order of requirements is not that of their texts. The last clause is false for the text 'change', read as AssignOp::Assign but not equal to it.) What a name or a requirement feeds into the hasher tells two of them apart exactly when `==` does.", "quantifier": "all hashers and table sizes, all lists of names or requirements, all texts", "why_tests_cant": "The hasher is seeded at random and the table layout depends on the contents, so a test samples one layout; the contract between Hash, Ord and Borrow is a statement about all hashers and all pairs of values.", "anchors": ["src/types/requirement.rs: derive(Hash, Ord), Borrow<str>, PartialEq<&str>", "src/types/name.rs: derive(Hash)", "src/types/requirements.rs: to_effective", "src/types/assign_op.rs: Borrow<str>, PartialEq<&str>, TryFrom<&str>"]}
{"id": "C73", "title": "A form is read by reading its parts", "statement": "A text is read as a conjunction, disjunction, negation, implication, quantified goal, preference, conditional or universal effect, durative condition or effect, or trajectory constraint exactly if it is that keyword in parentheses with parts, each of which, run alone through the parser for that kind of part, is read as the corresponding component. Conjunctions of preconditions, preferred constraints and effects are read as the concatenation of their parts. Hence a part, at any depth, can be exchanged for another text with the same reading without changing what the whole is read as.", "quantifier": "all texts (no size bound), all parts whatever they are, all nesting depths of the exchanged part", "why_tests_cant": "The parsers try alternatives in order, keywords may be prefixes of names, and what an argument is read as may depend on the layout in front of it, so compositionality over all parts and contexts is not visible from examples.", "anchors": ["src/parsers/gd.rs: parse_gd", "src/parsers/pref_gd.rs", "src/parsers/pre_gd.rs", "src/parsers/con_gd.rs: parse_con_gd, parse_con2_gd", "src/parsers/pref_con_gd.rs", "src/parsers/effects.rs", "src/parsers/c_effect.rs", "src/parsers/cond_effect.rs", "src/parsers/timed_gd.rs", "src/parsers/pref_timed_gd.rs", "src/parsers/da_gd.rs", "src/parsers/da_effect.rs"]}
{"id": "C74", "title": "Values built by hand are the values read from text", "statement": "Every constructor and conversion of goals, preferences, preconditions, effects, conditions, trajectory constraints and types gives the value that is read from the form it is named after, with its arguments in the places the name says. Taking a value apart with TryInto undoes exactly the corresponding From, and exactly one of the three TryInto of an effect succeeds. An element without type is Typed::from of it, x - object means the same as x, and (f) - number the same as (f).", "quantifier": "all argument values, all texts of the arguments, all layouts", "why_tests_cant": "It relates two independent ways, building and reading, of getting at a value, for arbitrarily large arguments in every combination.", "anchors": ["src/types/gd.rs", "src/types/pre_gd.rs", "src/types/pref_gd.rs", "src/types/preference.rs", "src/types/con_gd.rs", "src/types/pref_con_gd.rs", "src/types/c_effect.rs", "src/types/effects.rs", "src/types/conditional_effect.rs", "src/types/timed_gd.rs", "src/types/pref_timed_gd.rs", "src/types/da_gd.rs", "src/types/da_effect.rs", "src/types/duration_constraint.rs", "src/types/type.rs", "src/types/function_type.rs", "src/types/typed.rs", "src/types/function_typed.rs"]}
{"id": "C75", "title": "A conjunction of one part means that part", "statement": "(and x) is read as the same value as x, for preconditions, constraints of problems, effects, goals, trajectory constraints, durative conditions and effects, and conditional effects; (either t) is the same type as t.", "quantifier": "all texts x, all layouts inside the parentheses", "why_tests_cant": "x is any text of any size and nesting.", "anchors": ["src/parsers/pre_gd.rs", "src/parsers/pref_con_gd.rs", "src/parsers/effects.rs: parse_effect", "src/types/gd.rs: GoalDefinition::new_and", "src/types/con_gd.rs: ConGD::new_and", "src/types/conditional_effect.rs", "src/types/type.rs: FromIterator for Type"]}
{"id": "C76", "title": "Definitions and files are read by reading their sections", "statement": "A text is read as an action, a durative action, a derived predicate, a section or a whole domain or problem if and only if it is laid out with its keyword and its parts in the documented order and each part is itself read as what the accessor of that part returns. Missing optional parts give empty values; where a part may be written (), that gives the same value as a missing one. Structures are told apart by their keyword alone: a text is read as a structure of a kind exactly if it is read as that definition.", "quantifier": "all texts, all values, all layouts", "why_tests_cant": "It is an equivalence over all texts and all values of arbitrarily large parts, including parts outside the documented grammar that happen to be read.", "anchors": ["src/parsers/action_def.rs", "src/parsers/da_def.rs", "src/parsers/derived_predicate.rs", "src/parsers/structure_def.rs", "src/parsers/domain.rs", "src/parsers/problem.rs", "src/parsers/init_def.rs", "src/parsers/goal_def.rs", "src/parsers/length_spec.rs", "src/parsers/predicates_def.rs", "src/parsers/requirements.rs", "src/parsers/timeless_def.rs", "src/types/action_definition.rs", "src/types/da_def.rs", "src/types/derived_predicate.rs", "src/types/length_spec.rs"]}
{"id": "C77", "title": "The exact texts of numbers, numeric expressions and the forms built from them", "statement": "For each of the following there is an explicit description of texts such that the parser reads a value and leaves a remainder if and only if the text before the remainder is, after the described layout, one of the described texts of that value: numbers, function heads, numeric expressions of conditions, of durative actions and of metrics, comparisons, durative assignments, rates of change and continuous effects, bounds and constraints of durations, metrics, function terms, elements of initial states and the whole :init section. The description names every place where blanks or comments are allowed, required or forbidden, and which of several readings wins.", "quantifier": "all texts, all values, all remainders", "why_tests_cant": "Both directions range over unboundedly nested expressions and arbitrary layout; a test shows one text, not that nothing else is read as the same value.", "anchors": ["src/parsers/number.rs", "src/parsers/f_head.rs", "src/parsers/f_exp.rs", "src/parsers/f_exp_da.rs", "src/parsers/metric_f_exp.rs", "src/parsers/metric_spec.rs", "src/parsers/f_comp.rs", "src/parsers/f_assign_da.rs", "src/parsers/f_exp_t.rs", "src/parsers/timed_effect.rs", "src/parsers/d_value.rs", "src/parsers/simple_duration_constraint.rs", "src/parsers/duration_constraint.rs", "src/parsers/basic_function_term.rs", "src/parsers/init_el.rs", "src/parsers/init_def.rs"]}
{"id": "C78", "title": "The exact texts of types, typed lists, skeletons and their sections", "statement": "For types, lists of typed variables, predicate and function skeletons and the sections :types, :constants, :objects, :predicates and :functions there is an explicit description of texts such that the parser reads a value and leaves a remainder if and only if the text before the remainder is, after the described layout, one of the described texts of that value. The description says which elements get which type, which get the default type, where blanks and comments are allowed, required or forbidden, and where the letters 'object' are cut off a longer word.", "quantifier": "all texts, all values, all remainders", "why_tests_cant": "Typed lists have unboundedly many groups with unboundedly many elements and arbitrary layout between them; a test shows one list, not that nothing else is read as the same value.", "anchors": ["src/parsers/primitive_type.rs", "src/parsers/type.rs", "src/parsers/typed_list.rs", "src/parsers/function_typed_list.rs", "src/parsers/variable.rs", "src/parsers/atomic_formula_skeleton.rs", "src/parsers/atomic_function_skeleton.rs", "src/parsers/types_def.rs", "src/parsers/constants_def.rs", "src/parsers/objects_def.rs", "src/parsers/predicates_def.rs", "src/parsers/functions_def.rs"]}
{"id": "C79", "title": "The exact texts of goals", "statement": "There is an explicit description of texts such that the goal parser reads a goal and leaves a remainder if and only if the text before the remainder is, after the described layout, one of the described texts of that goal. Atoms whose head is and, or, not or imply directly after the parenthesis and whose arguments are function terms in the number the keyword takes are read as keyword goals; every other text of an atom is read as that atom. A comparison is read only where the text is no atom. No goal is read as a literal, and no text has two readings.", "quantifier": "all texts, all goals of any nesting depth, all remainders", "why_tests_cant": "The nine alternatives overlap on infinitely many texts of unbounded depth; which one wins depends on every part of the text, so tests cannot show that nothing else is accepted or that each text is read one way.", "anchors": ["src/parsers/gd.rs", "src/parsers/atomic_formula.rs", "src/parsers/literal.rs", "src/parsers/f_comp.rs"]}
{"id": "C80", "title": "The exact texts of preferences, preconditions and the goal section", "statement": "There is an explicit description of texts such that the parsers of goals with preferences, of preconditions and of the goal section of a problem read a value and leave a remainder if and only if the text before the remainder is, after the described layout, one of the described texts of that value. Nested conjunctions are flattened; a conjunction or universal quantification of goals is always read as one of preconditions; a text that can be read as a preference is never read as a plain goal.", "quantifier": "all texts, all values of any nesting depth, all remainders", "why_tests_cant": "Preferences, preconditions and goals overlap on infinitely many texts of unbounded depth, and flattening hides the structure in the value, so a test of one nesting shows nothing about the others.", "anchors": ["src/parsers/pref_gd.rs", "src/parsers/pre_gd.rs", "src/parsers/goal_def.rs", "src/parsers/gd.rs"]}
{"id": "C81", "title": "The exact texts of effects", "statement": "There is an explicit description of texts such that the parsers of simple effects, of conditional effects, of effects with quantifiers and `when`, and of effect lists read a value and leave a remainder if and only if the text before the remainder is, after the described layout, one of the described texts of that value. A text that can be read as an assignment of `undefined`, of an object or of a number is read in the first of these ways that fits and never as an atom; a text that can be read as a conditional effect or as a conjunction of effects is never read as an atom.", "quantifier": "all texts, all values of any nesting depth, all remainders", "why_tests_cant": "The alternatives for effects overlap on infinitely many texts of unbounded depth; which of them wins depends on whether earlier alternatives fail softly on all of these texts, which no finite set of samples shows.", "anchors": ["src/parsers/p_effect.rs", "src/parsers/cond_effect.rs", "src/parsers/c_effect.rs", "src/parsers/effects.rs", "src/parsers/empty_or.rs"]}
{"id": "C82", "title": "The exact texts of constraints", "statement": "There is an explicit description of texts such that the parsers of trajectory constraints, of the constraints of a problem with preferences, and of the constraints sections of domains and problems read a value and leave a remainder if and only if the text before the remainder is, after layout, one of the described texts of that value. An argument of a constraint that can be read as a goal is always a goal and never a nested constraint; nested conjunctions of a problem's constraints are flattened, and a conjunction or quantification is never kept as one plain constraint there.", "quantifier": "all texts, all values of any nesting depth, all remainders", "why_tests_cant": "Goals and constraints overlap on infinitely many texts of unbounded depth, and whether a nested constraint is reached depends on the goal parser failing softly on every such text.", "anchors": ["src/parsers/con_gd.rs", "src/parsers/pref_con_gd.rs", "src/parsers/domain_constraints_def.rs", "src/parsers/problem_constraints_def.rs"]}
{"id": "C83", "title": "The exact texts of durative conditions and effects", "statement": "There is an explicit description of texts such that the parsers of timed goals, timed preferences, durative conditions, timed effects and durative effects read a value and leave a remainder if and only if the text before the remainder is, after layout, one of the described texts of that value. At a point in time a text that can be read as an assignment of a number is always one, so a conditional effect is read exactly from the texts of conditional effects that are no such assignment.", "quantifier": "all texts, all values of any nesting depth, all remainders", "why_tests_cant": "The alternatives of a timed effect overlap on infinitely many texts, and which one wins depends on the first one ending softly on every text of the second.", "anchors": ["src/parsers/timed_gd.rs", "src/parsers/pref_timed_gd.rs", "src/parsers/da_gd.rs", "src/parsers/timed_effect.rs", "src/parsers/da_effect.rs", "src/parsers/f_assign_da.rs"]}
{"id": "C84", "title": "The exact texts of actions, durative actions and derived predicates", "statement": "There is an explicit description of texts such that the parsers of actions, durative actions and derived predicates, and the parser that tries all three, read a value and leave a remainder if and only if the text before the remainder is, after layout, one of the described texts of that value. An action needs its name and its parameters; the precondition and the effect may be missing or empty and come in this order. A durative action needs all four keywords.", "quantifier": "all texts, all values of any nesting depth, all remainders", "why_tests_cant": "The equivalence speaks about every text that is rejected as well as every text that is accepted, at any nesting depth of conditions and effects.", "anchors": ["src/parsers/action_def.rs", "src/parsers/da_def.rs", "src/parsers/derived_predicate.rs", "src/parsers/structure_def.rs", "src/parsers/empty_or.rs"]}
{"id": "C85", "title": "The exact texts of domains and problems", "statement": "There is an explicit description of texts such that the parsers of domains and problems, and Domain::from_str and Problem::from_str, accept a text with a given value if and only if the text begins, after layout, with one of the described texts of that value; layout behind it is skipped, and from_str ignores whatever follows. The name comes first, then the sections in one fixed order, each at most once and each behind a blank; only the initial state and the goal of a problem are needed. A text describes at most one domain and at most one problem.", "quantifier": "all texts, all domains and problems, all remainders", "why_tests_cant": "The equivalence speaks about every text that is rejected as well as every text that is accepted, for whole files with any number of sections, actions and nested conditions.", "anchors": ["src/parsers/domain.rs", "src/parsers/problem.rs", "src/parsers/requirements.rs", "src/parsers/length_spec.rs", "src/types/domain.rs", "src/types/problem.rs"]}
{"id": "C86", "title": "The exact texts of every type that can be parsed", "statement": "For each of the 73 types with an impl Parser there is an explicit description of its texts, and for every text, value and remainder the parse of the type returns that value and that remainder if and only if the text is layout, a described text of the value, and the remainder. The from_str of the trait accepts a text if and only if it begins with such a text. The description is unambiguous: no text has two values or two remainders.", "quantifier": "all 73 types, all texts, all values, all remainders", "why_tests_cant": "Every type has infinitely many accepted texts and infinitely many rejected ones, and whether a text is accepted depends on the layout in front of it and on what follows it.", "anchors": ["src/parsers/mod.rs", "src/parsers/con_gd.rs", "src/parsers/timeless_def.rs", "src/parsers/c_effect.rs", "src/parsers/binary_comp.rs", "src/parsers/primitive_type.rs", "src/parsers/variable.rs"]}
{"id": "C87", "title": "Names are only labels", "statement": "Replace words of a text by other words, each word everywhere by the same one, where neither the old nor the new word begins with a word that PDDL reserves. Then every parser of the crate does on the new text what it did on the old one: it returns the same value with the names replaced and leaves the rest with the words replaced, or it fails in the same way. Keywords with a colon and numbers are left alone.", "quantifier": "all 73 types, all texts, all renamings of words", "why_tests_cant": "It relates two runs on unboundedly many pairs of texts; a test uses one spelling of each name and cannot show that no other spelling is treated differently.", "anchors": ["src/parsers/name.rs", "src/types/name.rs", "src/parsers/utilities.rs", "src/parsers/domain.rs", "src/parsers/problem.rs", "src/parsers/primitive_type.rs"]}
{"id": "C88", "title": "Layout is interchangeable", "statement": "Replace runs of blanks and line breaks of a text by other runs, and the text of comments by other text. Then every parser of the crate does on the new text what it did on the old one: it returns the same value and leaves the same rest up to layout, or it fails in the same way. This holds for all texts, also for those that are no PDDL. The exceptions are the single blank of `at end` and comments without text.", "quantifier": "all 73 types, all pairs of texts of the same shape", "why_tests_cant": "It relates two runs on unboundedly many pairs of texts, wherever the layout stands; tests use one layout each.", "anchors": ["src/parsers/utilities.rs", "src/parsers/comments.rs", "src/parsers/domain.rs", "src/parsers/problem.rs", "src/parsers/con_gd.rs"]}
{"id": "C89", "title": "== compares everything", "statement": "Two values of any of the crate's types are == exactly if they agree in every part: names, numbers, types, order and nesting. So == is an equivalence, values read from texts that differ only in layout are ==, and a value is == to a value that was read only if it could have been read from the same text.", "quantifier": "all 73 types, all pairs of values", "why_tests_cant": "Tests compare values with ==; they cannot see a part that == leaves out, in values of any size.", "anchors": ["src/types/name.rs", "src/types/number.rs", "src/types/typed_list.rs", "src/types/goal_def.rs", "src/types/domain.rs", "src/types/problem.rs"]}
{"id": "C90", "title": "The first word of a form tells what it is", "statement": "Every section, definition and file is recognised by the word behind its opening parenthesis. A parser for one of them answers anything but a recoverable error only behind its own word, no text is read as two of them with different words, no text is both a domain and a problem, and the order in which a structure is tried as derived predicate, action and durative action makes no difference.", "quantifier": "all texts, all 18 parsers of sections, definitions and files, all orders of the alternatives", "why_tests_cant": "Tests try each parser on texts meant for it; that no text at all is claimed by two parsers, or changes meaning with the order of alternatives, is a statement about all texts.", "anchors": ["src/parsers/structure_def.rs:52-59", "src/parsers/domain.rs:62-111", "src/parsers/problem.rs:39-72", "src/parsers/utilities.rs:12-17"]}
{"id": "C91", "title": "A text that was cut off is not read", "statement": "All sections, definitions, conditions, effects and files are parenthesised forms. Cut off anywhere before its last parenthesis, such a text is not read, neither as what it was nor as any other type of form, by parse or by from_str. A text that begins with a parenthesis which is never closed is not read as any type.", "quantifier": "all 44 types of forms in pairs, all texts and all places to cut; all 73 types for unclosed texts", "why_tests_cant": "A download or a copy can break off at any character of any file; tests try a few places in a few files.", "anchors": ["src/parsers/utilities.rs:12-17", "src/parsers/utilities.rs:72-80", "src/parsers/mod.rs:86-103"]}
{"id": "C92", "title": "Renaming can be undone", "statement": "If the words of a text are renamed and the new words can be taken back to the old ones, then taking back the names in the value that is read gives the value of the original text. So renaming makes no two values equal, and makes nothing readable that was not. In particular a word can be renamed to any word that does not occur.", "quantifier": "all 73 types, all texts, all renamings with an inverse on the words of the text", "why_tests_cant": "That no two names become one, for every file and every renaming, is a statement about all pairs of files.", "anchors": ["src/types/name.rs", "src/parsers/name.rs:28-38", "src/parsers/mod.rs:86-103"]}
{"id": "C93", "title": "A local edit changes only what was edited", "statement": "In every text that is read as a domain or problem, each action, predicate, requirement, extended domain, fact of the initial state and section has its place. Replacing the text there by any other text that the element's own parser reads changes that element and nothing else. Taking the text out removes that element and nothing else, as long as the form may do without it. A further element can be added before or after any other, and a missing section can be added in its place. What follows the file is left unread as before.", "quantifier": "all texts of domains and problems with any layout, all positions, all replacement texts that the element's parser reads", "why_tests_cant": "That an edit leaves the rest of the file alone is a statement about all pairs of file and edit; a test edits one file once.", "anchors": ["src/parsers/domain.rs:62-111", "src/parsers/problem.rs:39-72", "src/parsers/utilities.rs", "src/parsers/init_def.rs"]}
{"id": "C94", "title": "Any subgoal, at any depth, can be replaced on its own", "statement": "In every text that is read as a goal, a precondition, a domain or a problem, each goal inside it, below any number of conjunctions, disjunctions, negations, implications, quantifiers and preferences, has its place. Replacing the text there by any other text that is read as a goal replaces exactly that subgoal in the value. A condition of a precondition can be replaced by any precondition; its conditions take the place of the old one. Preconditions and effects of actions and the goals of derived predicates and problems can be replaced in the same way.", "quantifier": "all texts, all paths to a subgoal of any length, all replacement texts", "why_tests_cant": "Depth, surroundings and replacement are unbounded, and goals are ambiguous enough (atoms named like keywords, flattened conjunctions, preferences) that a replacement could change how its surroundings are read.", "anchors": ["src/parsers/gd.rs:135-192", "src/parsers/pre_gd.rs", "src/parsers/pref_gd.rs", "src/parsers/action_def.rs", "src/parsers/derived_predicate.rs", "src/parsers/goal_def.rs"]}
{"id": "C95", "title": "Any part of an effect, of a durative action or of a constraint can be replaced on its own", "statement": "What holds for the goals of preconditions (C94) holds for the other conditions of a file. In every text that is read as an effect, each goal in the condition of a conditional effect, each consequence and each list of effects under quantifiers can be replaced on its own; a single effect can be replaced by every text that is read as the same effect alone and in a list. In every durative action each condition, each timed goal, each effect and the condition and the consequence of each conditional effect can be replaced. In the constraints of a domain or a problem each constraint below conjunctions and quantifiers, and each goal that is an argument of one, can be replaced. Exactly that part of the value changes.", "quantifier": "all texts, all paths of any length, all replacement texts", "why_tests_cant": "Depth, surroundings and replacement are unbounded, and these parts are ambiguous (an effect named `and`, timed effects read as assignments, arguments of constraints read as goals), so a replacement could change how its surroundings are read.", "anchors": ["src/parsers/effects.rs", "src/parsers/c_effect.rs", "src/parsers/da_gd.rs", "src/parsers/da_effect.rs", "src/parsers/con_gd.rs", "src/parsers/pref_con_gd.rs", "src/parsers/da_def.rs"]}
{"id": "C96", "title": "Offset, line and column are those of the whole text", "statement": "A text is parsed as a span that knows its byte offset and line, and every part that is cut off updates both. However a text is read, in one call or by reading one thing after another, each from what the one before left, the offset and line of what remains and of every position of an error are those of that place in the whole text, also with characters of several bytes. The columns count the bytes or the characters in front of the place in its line. An offset alone, or a line with a column, belongs to only one place of the text.", "quantifier": "all texts, all ways of cutting them into pieces, all public parsers, all sequences of readings", "why_tests_cant": "The numbers are kept by every single step of every parser and counted in bytes; tests use short ASCII texts in one line.", "anchors": ["src/parsers/mod.rs:86-112", "src/parsers/comments.rs", "src/parsers/utilities.rs"]}
{"id": "C97", "title": "is_value and unwrap_value tell what was read", "statement": "For every type that can be parsed: `T::parse(text).is_value(v)` holds exactly if the text begins with a text of `v`, so for at most one value. `unwrap_value` gives this value and panics exactly if there is none.", "quantifier": "all 73 types, all texts, all values", "why_tests_cant": "The crate's own tests are written with these functions; whether they are right cannot be seen from them.", "anchors": ["src/parsers/test_helpers.rs:7-29"]}
{"id": "C98", "title": "Every call of Name::new returns", "statement": "Any number of threads call `Name::new` any number of times, with values of any type that gives a text. Every execution is finite, with at most four steps for a call and one for every name made by the conversion of the caller. As long as a call has not returned, some thread can go on, so that in the end all calls have returned, each with its own text, in the order of each thread.", "quantifier": "all numbers of threads, all lists of calls, all texts, all interleavings, all names made by conversions while the mutex is held", "why_tests_cant": "A deadlock needs a certain order of steps, or a type of the caller that no test of the crate has.", "anchors": ["src/types/name.rs:53-59", "src/types/name.rs:91-112"]}
{"id": "C99", "title": "Exactly which values are read from some text", "statement": "For each of the 73 types with a parser, a value is the result of reading some text if and only if it meets a computable condition on the value alone. A consumer of the tree need handle no other values: goals are never literals, durative expressions are never assignments, a nested constraint has a modal operator, a timed numeric assignment is never a conditional effect, a list of operands has two operands or is one number, no domain has timeless facts.", "quantifier": "all values of all 73 types", "why_tests_cant": "A test shows that one text is read as one value; that no text at all is read as a value, and that some text is read as each of the infinitely many other values, cannot be tested.", "anchors": ["src/parsers/mod.rs", "src/parsers/domain.rs", "src/parsers/problem.rs", "src/parsers/gd.rs", "src/parsers/pre_gd.rs", "src/parsers/con_gd.rs", "src/parsers/f_exp.rs", "src/parsers/f_exp_da.rs", "src/parsers/p_effect.rs", "src/parsers/timed_effect.rs"]}
{"id": "C100", "title": "Comparisons and assignments of numeric fluents are read as such", "statement": "A text that is a comparison of two numeric expressions is read as a goal that is this comparison, and a text that assigns a numeric expression to a numeric fluent is read as an effect that is this numeric assignment. In particular (= (fuel ?a) (fuel ?b)) compares numbers and (assign (fuel ?a) (capacity ?a)) assigns a number.", "quantifier": "all texts that parse_f_comp reads, all texts that the numeric alternative of parse_p_effect reads", "why_tests_cant": "The tests compare and assign literals and sums; whether an earlier alternative takes a comparison away depends on both operands and on the layout, for infinitely many expressions.", "anchors": ["src/parsers/gd.rs", "src/parsers/atomic_formula.rs", "src/parsers/f_comp.rs", "src/parsers/p_effect.rs"]}
{"id": "C101", "title": "Goals read from text are true when the PDDL definition says so", "statement": "Whether the goal read from a text is true in a state follows from the text: (and x ..) is true if all parts are, (or x ..) if one is, (not x) if x is not, (imply x y) if y is or x is not, (forall (v ..) x) and (exists (v ..) x) if x is for all or some objects of the types of the variables, an atom if the predicate is true of the objects its arguments denote, an equality if both sides denote the same object, a comparison if the numbers are so related.", "quantifier": "all texts of goals of any size, all layouts, all states, all values of the variables", "why_tests_cant": "The tests compare the shape of a few trees. Truth in all states of all goals, nested to any depth, is not observable in a test.", "anchors": ["src/parsers/gd.rs", "src/types/gd.rs", "src/parsers/atomic_formula.rs", "src/parsers/f_comp.rs"]}
{"id": "C102", "title": "A condition or an effect means the same wherever it may be written", "statement": "A text without preferences that is read as a precondition is read as a goal, and the other way round, and both are true in the same states, although conjunctions are flattened in one and kept in the other. The same is so for the constraints of a problem and of a domain. Effects that are neither quantified nor conditional make the same changes inside and outside of (when ..).", "quantifier": "all texts, all states, all values of the variables, all meanings of the operators over trajectories", "why_tests_cant": "Two parsers with different result types have to agree on the meaning of every text, of any depth and layout.", "anchors": ["src/parsers/pre_gd.rs", "src/parsers/gd.rs", "src/parsers/pref_gd.rs", "src/parsers/con_gd.rs", "src/parsers/pref_con_gd.rs", "src/parsers/effects.rs", "src/parsers/c_effect.rs", "src/parsers/cond_effect.rs"]}
{"id": "C103", "title": "Arithmetic expressions have the value arithmetic gives to their operands", "statement": "If (op x1 .. xn) is read and every xi is read on its own, then the value of the whole is that of applying op from left to right to the values of the xi, and (- x) is minus the value of x, whichever of the forms for two or for many operands the reader chose. With blanks between the operands it is read exactly if there are two of them, or if op is + or *.", "quantifier": "all texts of operands of any size, any number of them, all layouts, all states, all values of the variables", "why_tests_cant": "Which form is chosen depends on number, kind and layout of the operands at every level; the tests compare a few trees.", "anchors": ["src/parsers/f_exp.rs", "src/parsers/f_exp_da.rs", "src/parsers/metric_f_exp.rs", "src/parsers/binary_op.rs", "src/parsers/multi_op.rs"]}
{"id": "C104", "title": "Renaming keeps the meaning", "statement": "If the words of a text are consistently and injectively renamed, the keywords kept, and the layout exchanged, then the goal or precondition read is true in a state exactly if the one read before is true in the state in which the old words mean what the new ones do; effects make the same changes, numeric expressions have the same value, and a goal that is true in all states stays so. In particular a word may be replaced by one that does not occur.", "quantifier": "all texts, all injective renamings, all layouts, all states, all values of the variables", "why_tests_cant": "A quantifier that binds the wrong variable, or a type lost in a list of variables, shows only in the truth of some text in some state.", "anchors": ["src/parsers/gd.rs", "src/parsers/pre_gd.rs", "src/parsers/effects.rs", "src/parsers/typed_list.rs", "src/parsers/f_exp.rs"]}
{"id": "C105", "title": "Constraints over trajectories mean what PDDL says", "statement": "Whether the constraint read from a text is true of a sequence of states follows from the text: (always x) if x is true in all of them, (sometime x) in one, (at end x) in the last, (within n x) in one not later than n, (at-most-once x) if x does not become true again, (sometime-after x y), (sometime-before x y) and (always-within n x y) with x and y in this order, (hold-during n m x) and (hold-after n x) at these times, conjunctions if all parts are, quantified ones for all objects.", "quantifier": "all texts of constraints of any size, all layouts, all finite trajectories, all values of the variables", "why_tests_cant": "The tests compare trees; whether sometime-before and sometime-after are exchanged, or two arguments, shows only in what is demanded of trajectories.", "anchors": ["src/parsers/con_gd.rs", "src/types/con_gd.rs"]}
{"id": "C106", "title": "Numeric expressions mean the same in durative actions", "statement": "A text without ?duration is read as a numeric expression of a durative action exactly if it is read as one of an action, with the same operators and operands and the same value, whatever the duration; an assignment of a number in an action is the same assignment in a durative action.", "quantifier": "all texts of expressions of any size, all layouts, all states, all durations", "why_tests_cant": "There are two readers with different orders of alternatives; that they agree on all nestings and layouts is no matter of samples.", "anchors": ["src/parsers/f_exp.rs", "src/parsers/f_exp_da.rs", "src/parsers/f_assign_da.rs"]}
{"id": "C107", "title": "Durative conditions and effects mean what PDDL says", "statement": "Whether the durative condition read from a text is met follows from the text: (at start x) if x is true in the first state, (at end x) in the last, (over all x) in all states in between, preferences always, conjunctions if all parts are, quantified ones for all objects. What the durative effect read from a text does follows likewise: (at start x) and (at end x) the changes x makes then, (increase f r) and (decrease f r) a continuous change, (when x y) what y does if x is met, conjunctions what the parts do, quantified ones for all objects.", "quantifier": "all texts of durative conditions and effects of any size, all layouts, all courses of an action, all values of the variables", "why_tests_cant": "The tests compare trees; whether start and end or the state in which a condition is looked at are exchanged shows only in what is demanded of the states.", "anchors": ["src/parsers/da_gd.rs", "src/parsers/timed_gd.rs", "src/parsers/pref_timed_gd.rs", "src/parsers/da_effect.rs", "src/parsers/timed_effect.rs"]}
{"id": "C108", "title": "Renaming keeps the plans", "statement": "If the words of a domain and of a problem are renamed by one and the same bijection that keeps object and number, and layout and comments are changed, both files are still read, and a sequence of actions is a plan of the new files exactly if it is, with the old words, a plan of the old ones. In particular this is so if one word is replaced by a word that occurs in neither file, and if only layout changes.", "quantifier": "all texts of domains and problems, all consistent renamings, all layouts, all sequences of actions of any length, all states and sets of objects that fit the files", "why_tests_cant": "Whether a plan is one depends on all states it goes through; that no name is confused with another one by the reader for any renaming is a statement about pairs of files and all plans.", "anchors": ["src/parsers/domain.rs", "src/parsers/problem.rs", "src/parsers/action_def.rs", "src/parsers/name.rs", "src/types/domain.rs", "src/types/problem.rs"]}
{"id": "C109", "title": "Parts of files with the same meaning can be exchanged without changing the plans", "statement": "In every text of a domain or problem that is read, the goal, every precondition and every effect has its place; writing there any other text with the same meaning gives a text that is read and has the same plans. In particular conditions and effects can be reordered and repeated; so can facts, objects, constants and types in their sections, and actions can be repeated anywhere among the actions.", "quantifier": "all texts of domains and problems, all texts with the same meaning, all sequences of actions of any length, all states and objects that fit", "why_tests_cant": "That exchanging one part leaves the reading of all others alone, and with it what all plans do, is a statement about all pairs of files.", "anchors": ["src/parsers/domain.rs", "src/parsers/problem.rs", "src/parsers/action_def.rs", "src/parsers/pre_gd.rs", "src/parsers/effects.rs", "src/parsers/init_el.rs"]}
{"id": "C110", "title": "Effects of actions mean what PDDL says", "statement": "What an effect changes depends only on its text, as PDDL says: an atom makes a fact true unless its name is a keyword of effects, a negated atom makes it false, an operator with a function and a number changes the number unless both sides of assign are functions (C100), assign with a function term and an object changes the object or takes it away, and makes the changes of its parts, forall those for all objects of the types, when those of its effect if the condition is true.", "quantifier": "all texts of effects, all layout between their parts, all states and values of the variables", "why_tests_cant": "The texts nest without bound, and an effect is read by trying alternatives in an order in which an earlier one may take what is meant for a later one.", "anchors": ["src/parsers/effects.rs", "src/parsers/c_effect.rs", "src/parsers/p_effect.rs", "src/parsers/cond_effect.rs", "src/parsers/assign_op.rs"]}
{"id": "C111", "title": "Steps, initial state and goal are those of the texts", "statement": "In a domain with the action that is written with a name, variables, a precondition and an effect, a step of a plan with this name leads from one state to another exactly if the arguments are of the types of the variables, the text of the precondition is true and the changes are those of the text of the effect; a missing precondition or effect and () demand and change nothing. What is true in the beginning are exactly the facts that are written; numbers and objects of functions are as written. A plan for a problem with (:goal x) leads to states where x is true.", "quantifier": "all texts of actions, goals and initial states, all domains and problems with them, all steps and states", "why_tests_cant": "It connects every text with every transition between states that may be infinitely many.", "anchors": ["src/parsers/action_def.rs", "src/parsers/empty_or.rs", "src/parsers/init_el.rs", "src/parsers/init_def.rs", "src/parsers/goal_def.rs"]}
{"id": "C112", "title": "Renaming keeps the meaning of constraints, durative conditions and durative effects", "statement": "If the words of a constraint over trajectories, a durative condition or a durative effect are consistently renamed and the layout is changed, then what is read is true of a sequence of states (or of the carrying out of an action) exactly if what was read before is true of the same sequence with the old words; a durative effect does the same things at the same times, with the names exchanged.", "quantifier": "all texts, all renamings that keep different words different, all interpretations, trajectories, courses of actions and values of variables", "why_tests_cant": "The texts nest without bound and there are infinitely many trajectories.", "anchors": ["src/parsers/con_gd.rs", "src/parsers/da_gd.rs", "src/parsers/da_effect.rs", "src/parsers/timed_gd.rs", "src/parsers/timed_effect.rs"]}
{"id": "C113", "title": "Durations, durative actions and derived predicates mean what PDDL says", "statement": "A durative action written with a name, variables, a duration, a condition and an effect can be carried out exactly if the arguments are of the types of the variables, the text of the duration is true of how long it takes and the text of the condition is met; then it does exactly what the text of the effect says; () demands and does nothing. (op ?duration x) compares with the value of the expression x at the start, or at the time said by (at ts ..), and and demands all parts. (:derived (p vs) x) makes p true of the objects for which the text x is true.", "quantifier": "all texts of durations, durative actions and derived predicates with all accepted layout, all interpretations, courses of actions and arguments", "why_tests_cant": "It connects every text with every way in which an action can be carried out.", "anchors": ["src/parsers/da_def.rs", "src/parsers/duration_constraint.rs", "src/parsers/simple_duration_constraint.rs", "src/parsers/d_value.rs", "src/parsers/d_op.rs", "src/parsers/derived_predicate.rs"]}
{"id": "C114", "title": "Renaming keeps the meaning of durative actions and derived predicates", "statement": "If the words of a domain are consistently renamed and the layout is changed, a durative action has its new name and can be carried out with the same arguments in exactly the same courses, for exactly the same durations, and does exactly the same things at the same times, in the new words; the rule of a derived predicate is true exactly where it was in the old words.", "quantifier": "all texts of durative actions and derived predicates, all renamings that can be undone, all interpretations, arguments and courses", "why_tests_cant": "There are infinitely many texts, renamings and courses.", "anchors": ["src/parsers/da_def.rs", "src/parsers/duration_constraint.rs", "src/parsers/simple_duration_constraint.rs", "src/parsers/derived_predicate.rs", "src/parsers/structure_def.rs"]}
{"id": "C115", "title": "Conditions, goals and constraints with preferences mean what PDDL says", "statement": "A preference, named or not, demands nothing, and is violated exactly where its goal or constraint is not true; a conjunction demands what its parts demand and has the violated preferences of its parts; a quantified condition demands its body for all objects, and its preferences are violated if they are for some objects; goals and constraints without preferences demand their truth and violate nothing. A plan solves a problem just if it leads to states where what the text of the goal demands is true.", "quantifier": "all texts of conditions, goals and constraints of problems, all layouts, all interpretations, states and trajectories", "why_tests_cant": "There are infinitely many texts, interpretations, states and trajectories.", "anchors": ["src/parsers/pref_gd.rs", "src/parsers/pre_gd.rs", "src/parsers/pref_con_gd.rs", "src/parsers/goal_def.rs"]}
{"id": "C116", "title": "Renaming keeps which preferences are violated and the values of metrics", "statement": "If the words of a problem are consistently renamed and the layout is changed, the same preferences are violated under their new names, the constraints of the problem demand the same, and the metric has the same value and the same direction if the violations are counted under the new names.", "quantifier": "all texts of conditions, constraints of problems and metrics, all renamings that can be undone (for metrics all renamings), all interpretations, trajectories and counts", "why_tests_cant": "There are infinitely many texts, renamings and interpretations.", "anchors": ["src/parsers/pref_gd.rs", "src/parsers/pre_gd.rs", "src/parsers/pref_con_gd.rs", "src/parsers/metric_spec.rs", "src/parsers/metric_f_exp.rs"]}
{"id": "C117", "title": "Plans under constraints follow from the texts, whatever the words are", "statement": "If (:constraints x) is written in the domain and (:constraints y) and (:goal z) in the problem, a sequence of steps with times solves them just if from every initial state it leads through states where x is true of the trajectory and what y demands too, to a state where what z demands is true. Such a plan is a plan without regard to constraints, and where none are written the two are the same. Consistently renaming the words of both files and changing their layout renames these plans and keeps their times.", "quantifier": "all texts of domains and problems, all renamings that can be undone, all sequences of steps and times, all interpretations", "why_tests_cant": "There are infinitely many files, renamings, plans and states.", "anchors": ["src/parsers/domain_constraints_def.rs", "src/parsers/problem_constraints_def.rs", "src/parsers/con_gd.rs", "src/parsers/pref_con_gd.rs", "src/parsers/domain.rs", "src/parsers/problem.rs"]}
{"id": "C118", "title": "Constraints can be exchanged and moved without changing the plans", "statement": "In every domain that is read, the section with constraints can be replaced by any other whose constraints are true of the same trajectories, or be written where there is none: the result is read and the plans under constraints stay the same. The same holds in problems, where preferences can be exchanged for any others. Each section with constraints of a domain is one of a problem with the same meaning, and its text can be taken out of the domain and put into a problem without constraints: both files are read and have the same plans.", "quantifier": "all texts of domains and problems, all sections with constraints, all sequences of steps and times, all interpretations", "why_tests_cant": "There are infinitely many files, constraints, plans and trajectories.", "anchors": ["src/parsers/domain_constraints_def.rs", "src/parsers/problem_constraints_def.rs", "src/parsers/con_gd.rs", "src/parsers/pref_con_gd.rs", "src/parsers/domain.rs", "src/parsers/problem.rs"]}
{"id": "C119", "title": "Which plans are best follows from the metric that is written, whatever the words are", "statement": "Consistently renaming the words of a domain and a problem and changing their layout renames the best plans. The metric of a problem can be replaced by any other that puts plans in the same order: the result is read and the best plans stay the same; so it is if (- e) is to be maximized instead of minimizing e, where negative values are ordered the other way round. With (:metric minimize total-time) or maximize, plans are compared by the times of their last states; (is-violated n) is the number of preferences with the name n that are violated in the goal, in the constraints and, each time a step uses the action, in the precondition of an action, as the text of the precondition says; without a metric all plans that meet the constraints are best.", "quantifier": "all texts of domains and problems, all renamings that can be undone, all metrics, all sequences of steps and times, all interpretations", "why_tests_cant": "There are infinitely many files, renamings, metrics and plans, and being best is a statement about all other plans.", "anchors": ["src/parsers/metric_spec.rs", "src/parsers/metric_f_exp.rs", "src/parsers/optimization.rs", "src/parsers/problem.rs", "src/parsers/domain.rs"]}
{"id": "C120", "title": "How often preferences are violated follows from the text, whatever the words are", "statement": "Every condition and every set of constraints that is written has one number of violations for each name of a preference. (preference n x) counts one where x is not true, what is demanded counts nothing, (and ..) adds the violations of its parts, and (forall (v ..) x) those of x for all objects of the types; so (forall (v - t) (preference n x)) counts the objects of the type for which x is not true. A preference is violated just where this number is not zero. Renaming consistently and changing layout keeps the numbers, under the new names.", "quantifier": "all texts of conditions and constraints, all renamings, all interpretations with any objects, all trajectories", "why_tests_cant": "There are infinitely many texts, states, trajectories and renamings.", "anchors": ["src/parsers/pref_gd.rs", "src/parsers/pre_gd.rs", "src/parsers/pref_con_gd.rs", "src/parsers/metric_f_exp.rs"]}
{"id": "C121", "title": "Reading adds to the table of names only words of the texts", "statement": "Names live in a table that belongs to the process and never shrinks. While domains, problems and parts of them are read, in any number and in any order, only words that stand in the texts are put into it, each of them once, and there are never more entries than characters have been read. This holds for accepted and for rejected texts and for alternatives that a parser gives up. Every name in an accepted value has been put there (but for the two types that need not be written). Names from rejected texts and keywords that were tried as names stay in the table as well.", "quantifier": "all texts, all sequences of texts, all outcomes, all correct search procedures", "why_tests_cant": "A test sees the table after a few texts. That nothing else ever enters it needs all paths through all parsers, also those that end in an error.", "anchors": ["src/types/name.rs:10-14", "src/types/name.rs:86-112", "src/parsers/name.rs:28-33", "src/parsers/primitive_type.rs:24-26"]}
{"id": "C122", "title": "Names are looked up at most polynomially often", "statement": "Every name that a parser makes, except `object` and `number`, takes the lock of the table of names. For each of the types that can be parsed there is a polynomial that bounds how often a name is made by the length of the text.", "quantifier": "all types that can be parsed, all texts, all outcomes", "why_tests_cant": "A test counts the calls for some texts. How the number grows with the length needs all texts, and the worst ones are nested deeper than hand-written ones.", "anchors": ["src/types/name.rs:53-59", "src/types/name.rs:86-112", "src/parsers/name.rs:28-33", "src/parsers/metric_f_exp.rs:78-136"]}
