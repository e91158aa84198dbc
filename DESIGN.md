# Formal model of pddl-rs: design

Everything lives in the Lake project `lean/` (Lean 4.33.0, a few single Mathlib modules). The Rust
source in `/repo` was read as text only; it was neither built nor run.

* `properties.jsonl`: the claims, in the words of a user of the crate.
* `MANIFEST.json`: for every claim its status and the theorems that settle it.
* `seeded/LOG.jsonl`: the wrong programs the theorems were tested against.

## Shape of the model

### Code

| file | models |
|------|--------|
| `Verif/Nom.lean` | the part of nom 7.1.3 the crate uses |
| `Verif/Name.lean`, `Verif/Intern.lean` | `src/types/name.rs`: the value of a name; the interning table, its mutex and threads |
| `Verif/F32.lean`, `Verif/Convert.lean` | `src/types/number.rs` and the `f32` operations under it, bit by bit |
| `Verif/Release.lean` | the same code in other builds: without debug assertions, without the feature `interning`; `Name::new` for callers with arbitrary conversions, and the poisoning of its mutex |
| `Verif/Ast.lean`, `Verif/Types.lean`, `Verif/Ops.lean` | the other types of `src/types`, their methods, their textual forms |
| `Verif/Parsers.lean` | every function of `src/parsers`, with the same combinators in the same order |
| `Verif/Api.lean` | the trait `Parser` and its 73 implementations |
| `Verif/Builders.lean` | `with_*` functions and accessors of `Domain` and `Problem` |
| `Verif/Hashing.lean` | derived `Hash` and `Ord`, `Borrow<str>`, comparison with text; `HashSet` and `BTreeSet` of the standard library as far as used |
| `Verif/Equality.lean` | derived `PartialEq` of every type |
| `Verif/Span.lean` | `Span` (nom_locate): offsets, lines and columns, results with spans; `UnwrapValue` of `src/parsers/test_helpers.rs` |
| `Verif/Accessors.lean` | `new`, accessors, `AsRef` and tuple `From` of actions, durative actions, derived predicates, skeletons, structures, `LengthSpec` and `MetricSpec` |
| `Verif/Conversions.lean` | constructors, `From`, `TryInto`, `FromIterator`, `Default` and `ToTyped` implementations in `src/types` (goals, preconditions, effects, constraints, durative conditions and effects, types, typed elements) |
| `Verif/Trace/Nom.lean`, `Verif/Trace/Parsers.lean` | the same combinators and parsers once more, now returning the payload of errors (`GreedyError`) |
| `Verif/Work/Nom.lean`, `Verif/Work/Parsers.lean` | the same combinators and parsers once more, now counting the steps they take |
| `Verif/Depth/Nom.lean`, `Verif/Depth/Parsers.lean` | the same combinators and parsers once more, now measuring how deep their recursion goes |
| `Verif/Names/Nom.lean`, `Verif/Names/Parsers.lean` | the same combinators and parsers once more, now listing the texts for which they call `Name::new` |

A parser is a function `List Char → Res α`. `Res` has the outcomes `ok value rest`, `err`
(`nom::Err::Error`, recoverable), `fail` (`nom::Err::Failure`), `panic` (a Rust panic), and `oof`.
`oof` means "not yet returned at this recursion depth". It exists so that Lean functions are total.
A self-recursive Rust function is a body with the recursive call as a parameter, closed by `fix`,
which allows `length + 1` nested calls. C01 proves that `oof` never comes out, and the equations
`parseX_eq` (`Verif/Meta/Par.lean`) that `fix` satisfies the recursion equation of the Rust code.

Most properties are about outcomes and values, so the parsers of `Verif/Parsers.lean` drop what an
error carries. The parsers of `Verif/Trace/` (namespace `Pddl.E`) keep it: a list of entries, each
a position and a kind. A position is the text remaining at it; byte offset and line follow from it
(`Verif/Spec/Position.lean`). `C56_same_outcome` proves that the two families agree, so every theorem
about the first also holds of the second.

The parsers of `Verif/Work/` (namespace `Pddl.K`) count steps. A step is a call of a primitive parser,
a character consumed by one, or a call of a recursive parser. The outcome is computed by the
combinators of `Verif/Nom.lean`, so only the counting is new; `C60_same_domain` and `C60_same_problem`
say that the outcomes agree. Not counted: the combinators themselves (a fixed number per primitive
call), building values, interning, and moving the line counter of spans. That reading is counted
(`C60_reading_domain`, `C60_reading_problem`) and that the depth budget of `fix` does not show in the
count (`C60_recursion`) is proved.

The parsers of `Verif/Depth/` (namespace `Pddl.D`) measure the largest number of calls of recursive
parsers that are open at the same time. The stack of the program is at most this number times the
frames of one round through a recursive parser; the size of frames is not modelled.

The parsers of `Verif/Names/` (namespace `Pddl.N`) list the texts for which `Name::new` is called, in
order, also in alternatives that are given up and in texts that are rejected. The outcome is computed
by the combinators of `Verif/Nom.lean`. The depth budget of `fix` does not show in the list
(`C121_recursion`).

### Specification (no reference to the parsers)

| file | says |
|------|------|
| `Verif/Spec/Layout.lean` | what layout is (`Gap`), what a separator is (`Sep`), what a word is |
| `Verif/Spec/Literal.lean` | decimal literals and their values |
| `Verif/Spec/Bits.lean` | the value of a bit pattern, read off its sign, exponent and mantissa fields; what "nearest" means |
| `Verif/Spec/Grammar.lean` | PDDL as inductive relations `XW mode value text`: which texts spell which values |
| `Verif/Spec/Print.lean` | a printer for every value, and which values can be written |
| `Verif/Spec/Balance.lean` | balanced texts and single forms, comments not counting |
| `Verif/Spec/Sections.lean` | how the inside of `(define ..)` splits into forms |
| `Verif/Spec/Nodes.lean` | all parts of a value, at any depth |
| `Verif/Spec/Meaning.lean` | states; when goals, preconditions and constraints are true, which changes effects make |
| `Verif/Spec/Trajectory.lean` | when constraints are true of the states a plan goes through |
| `Verif/Spec/Values.lean` | the values of expressions of durative actions and of metrics |
| `Verif/Spec/Durative.lean` | when durative conditions are met and what durative effects do |
| `Verif/Spec/Temporal.lean` | when durations are allowed, how durative actions are carried out, and the rules of derived predicates |
| `Verif/Spec/Plan.lean` | states, what actions do to them, and which sequences of actions solve a problem |
| `Verif/Spec/Preference.lean` | which preferences are violated |
| `Verif/Spec/Rules.lean` | which timed plans meet the constraints of a domain and a problem |
| `Verif/Spec/Violations.lean` | how often preferences are violated |
| `Verif/Spec/Metric.lean` | which timed plans are best by the metric of a problem |
| `Verif/Spec/Malformed.lean` | texts with a `-` that no type follows |
| `Verif/Spec/Reformat.lean` | the tokens of a text, and a formatter that rewrites all layout |
| `Verif/Spec/Position.lean` | offset and line of a position; texts that cannot continue a file |
| `Verif/Spec/Column.lean` | what lies in front of a position in its line |
| `Verif/Spec/Work.lean` | how deep operations are nested in a text |
| `Verif/Spec/Rename.lean` | renaming of values and of texts, texts without layout |
| `Verif/Spec/Depth.lean` | how deep parentheses are nested in a text and how many comments follow each other |
| `Verif/Spec/Image.lean` | which values some text is read as, for every public parser, without reference to texts |

The specification shares only the types of the syntax tree with the model. Character classes, words,
the name spelled by a word, decimal values, the values of bit patterns and the default types are
defined in `Spec`, so that an error in the model's own helpers cannot hide in a statement.

The grammar has two modes. `strict` is a lower bound: every text it allows must be accepted with
exactly that value. `loose` is an upper bound: every accepted text must be allowed by it. They
differ in where layout may be missing or comments may stand, and in the corner cases where the
code deviates from PDDL (each of which is a separate property with a counterexample: C11, C21,
C31, C33, C45, C46, C47, C48, C51).

### Proofs

| files in `Verif/Meta` | content |
|------|---------|
| `Good`, `GoodAll` | termination, suffixes, progress, panics |
| `Layout`, `Word`, `Num*`, `Round`, `Eval` | what the lexical parsers do |
| `Typed`, `Atoms`, `Goals`, `Effects`, `Durative`, `Sections`, `Top` | completeness: strict texts are read |
| `Sound*` | soundness: what is read is loose |
| `Balance`, `Form`, `OneForm`, `Local*`, `Par` | one balanced form is consumed, what follows has no influence |
| `Bits` | the model's `f32` operations against the fields of `Spec/Bits.lean` |
| `Reformat`, `ReformatAll` | a formatter keeps every spelling of the strict grammar |
| `Nodes` | invariants of all parts of parsed values |
| `Image*` | the values that are read are those of `Spec/Image.lean` |
| `Tactic` | proof automation: applies the lemma named after the head symbol of a parser |
| `Print` | printed texts are strict |
| `Fail`, `FailAll`, `FailOnly` | unrecoverable failures |
| `Erase`, `EraseAll` | forgetting the payloads of `Verif/Trace/` gives the parsers of `Verif/Parsers.lean` |
| `Trace`, `TraceAll`, `ErrorAt` | where the entries of errors lie |
| `Chain` | sequences of sections followed by another end |
| `WorkRun` | counting does not change outcomes |
| `WorkPos`, `WorkEats`, `WorkRules`, `WorkForms`, `WorkLeaves`, `WorkAll` | the bound on the work, by rules for every combinator |
| `WorkLow`, `WorkLowDomain` | texts that take many steps |
| `WorkPays`, `WorkAlike` | consumed characters are counted; the count does not depend on the budget of `fix` |
| `DepthRun`, `DepthAlike` | measuring does not change outcomes; the depth does not depend on the budget of `fix` |
| `DepthRules`, `DepthAll`, `DepthLow` | the bound on the depth, by rules for every combinator; texts with deep recursion |
| `NamesRun`, `NamesAlike` | listing names does not change outcomes; the list does not depend on the budget of `fix` |
| `NamesRules`, `NamesAll` | names that are made are words of the text, by rules for every combinator |
| `NamesKeep`, `NamesKeepAll` | the names in a value have been made |
| `NamesCount` | not more names than steps |
| `Texts`, `OkErr`, `TermForms` | exact descriptions of texts, composed along the combinators |
| `TypedX`, `ArithX` | exact texts of typed lists and of numeric expressions |
| `Rename`, `RenameAll` | every combinator and every parser commutes with renaming and with changes of layout |
| `RenameId`, `Shape` | renaming nothing; texts of the same shape |
| `Equality` | every derived `PartialEq` decides equality |

`Verif/Props/*.lean` hold the theorems named `Cxx_..`, one group per property, with examples that
meet their hypotheses. `Verif/Fidelity.lean` replays the documentation and unit tests of the crate
against the model. Those are tests of the translation, not proofs of properties.

## Trusted base

* The Lean kernel. Every theorem depends on at most `propext`, `Classical.choice` and `Quot.sound`
  (checked with `#print axioms`). No other axiom, no `sorry`, no `native_decide`.
* The hand translation of the Rust functions into Lean; every definition cites file and lines.
* nom 7.1.3 behaves as written in `Verif/Nom.lean`. This covers `map`, `value`, `tuple`/`pair`,
  `preceded`, `terminated`, `delimited`, `alt`, `opt`, `recognize`, `many0`, `many_m_n(0, 1)`,
  `separated_list0/1`, `tag`, `char`, `is_not`, `multispace0/1`, `alpha1`, `digit1`, `u64`, `float`.
* Errors (only for C56-C59): nom raises the error kinds at the positions
  written in `Verif/Trace/Nom.lean`; `alt` merges the errors of its alternatives with `or` and appends
  one entry; `nom_greedyerror::GreedyError::or` keeps the error whose first entry lies further in the
  text and the first one on a tie; `append` adds at the end; slicing a `LocatedSpan` keeps offset and
  line in step with the fragment.
* std behaves as documented: `f32::from_str` and `as f32` round to nearest, ties to even, and give
  infinity on overflow; `f32::total_cmp` is the bit trick of its source; `str::cmp` is lexicographic;
  derived `PartialEq`, `Hash` and `Ord`, `HashSet` and `BTreeSet` work as described in `Verif/Equality.lean` and `Verif/Hashing.lean`;
  `binary_search_by` meets its contract. The loop of Rust 1.68 is modelled as well and proved to
  meet the contract, and the theorems hold for every procedure that does.
* A mutex excludes: a thread that wants it while another holds it, or it holds it itself, does not step. Threads are
  modelled as small steps (lock, search, insert, clone and unlock) with arbitrary interleaving.
* Characters are Unicode scalar values; the parsers only test ASCII classes.

Not modelled: the conversion of errors to text (`convert_error` and the helper
functions of nom-greedyerror, which the crate does not call),
allocation failure, stack overflow, `Debug` output, the trait definitions of
`src/visitor.rs` (they contain no code that runs), the crate's tests, builds without the default
feature `parser` (nothing of the modelled parsers is left in them).
`HashSet` results are modelled by membership, and as sets with buckets in `Verif/Hashing.lean`.
Accessors that return a field are not separate definitions, except those of `Domain` and `Problem` (`Verif/Builders.lean`).

Simplifications, each noted at the definition: newtype wrappers (`Variable`, `Predicate`, ..) are
their content; tuples are nested pairs; `Effects`, `PreconditionGoalDefinitions` and `PrefConGDs` are
lists; the many `From` conversions between wrappers that only store their argument are constructors.

## Properties

| id | how it is modelled and proved |
|----|------|
| C01 | one compositional lemma set (`Good`) shows for all parsers and texts that `oof` never comes out and that a larger budget changes nothing |
| C02 | same lemma set: the remainder is a proper suffix |
| C03 | `panic` outcome; no panic on texts without runs of 39 digits; exact threshold for a literal by arithmetic on the rounding function |
| C04 | direct characterisation of `parseName` by the specification of words |
| C05, C06 | intern table as a state machine, invariant by induction over histories |
| C07 | small-step threads; invariant over all executions; refinement to a sequential history; no deadlock |
| C08 | equality distinguishes the two variants: negation for `new_static` and default, partial theorem for `Name::new`, equivalence for all pairs of calls (`C08_iff`) |
| C09, C10 | typed lists of the grammar are read; lengths, order and types follow |
| C11 | negation with witness (`objective`), partial for all names that do not begin with `object`; `C11_iff` (`Props/Edges.lean`) says exactly which words are read as the type of that name |
| C12 | `Malformed.lean`: every construct that is well written up to the place fails for good, whatever follows; conversely failures only come from a `-` without type |
| C13-C20, C22-C25 | completeness by strong induction on text length; the `_printed` theorems instantiate it with the printer |
| C21 | negation: goals are tried first; the partial theorems and `C21_iff` say exactly when a nested constraint is kept |
| C26 | soundness by induction on the depth budget |
| C27 | soundness plus balance of all spellings |
| C28 | locality: the outcome is independent of the text after an unmatched `)` |
| C29 | lemmas on the layout parsers |
| C30 | negation with witness, partial theorems; `C30_iff` (`Props/Edges.lean`): a comment line is skipped exactly if it has a text |
| C31 | negation for every spelling of the forms without keyword, equivalences for all accepted texts of goals, effects, timed effects, facts, durations and numeric expressions (`Verif/Props/Trail.lean`), partial theorems for the keyword forms |
| C32 | the literal alternative is never reached, by locality |
| C33 | node invariant; negation for n-ary operators with a comment after the first operand; without comments the promised arity is proved everywhere (the binary reading, which is tried first, would have read the same operands); `Props/Edges.lean` derives from C77 the exact texts that are read as an n-ary operation with only two operands |
| C34 | table facts and arbitrary continuation |
| C35, C36 | list laws; C36 is false for `:adl`, the disagreeing pairs are listed exactly |
| C37, C39 | bit-level `f32`; C37 is false for signed zeros, exactly (`C37_iff`) |
| C38 | the rounding function is proved nearest-even, monotone, exact to 2^24 |
| C40, C41 | characterisation with arbitrary continuation |
| C42, C43 | structural induction; C43 is false for quantified preference constraints, `C43_iff` says for which |
| C44 | the forms inside `(define ..)` are determined by the text; accepted files consist of known sections in order |
| C45 | negation with witness, exact condition (`C45_iff`), partial theorems |
| C46 | negation with witness, partial theorems; `Props/Separators.lean`: the layout behind a keyword never matters, and the end of a keyword is noticed exactly if no operand begins with a word character |
| C47 | negation with witness, partial theorems; the exact texts (`C47_iff`, `C47_word_iff`) in `Props/Edges.lean` |
| C48 | comments as separators: every list ends at a comment directly after an element (negation for all lists), proved after a blank for goals and atoms; `Props/Separators.lean`: lists of any length are read exactly if a blank begins the layout between any two members |
| C49 | two strict spellings with the same text have the same value, from completeness |
| C50, C53, C54 | conversions to numbers over the documented `f32::from_str` and `as f32` |
| C51 | timed assignments: false for objects, undefined and function terms; proved for the rest; `C51_iff` (`Props/Edges.lean`) gives the exact condition, and `C51_trail_partial` shows that layout before the closing parenthesis decides the reading |
| C52 | node invariant over all parts of parsed values |
| C55 | the formatter as a transducer; every rule of the strict grammar is preserved by it |
| C56 | erasure of payloads; every position is a suffix of the input, entries are nested; `alt` reports the first of the deepest errors |
| C57 | compositional: an unrecoverable error has one entry, right behind a `-` without type |
| C58 | errors of well-written files that go wrong at one place point to that place |
| C59 | every error of a file: the text before it is completed, the sections before it are read again, a form behind it is rejected whatever follows |
| C60 | steps counted in `Verif/Work/`; negation by families of problems and of domains with `2^n` steps; the bound charges every call to the form it begins at, and every form doubles the work only if an operation begins there; also for all 73 parsable types (`Props/Resources.lean`) |
| C61 | depth of recursion measured in `Verif/Depth/`; negation by comments in a row; the bound follows from every recursive call being inside a further pair of parentheses; also for all 73 parsable types (`Props/Resources.lean`) |
| C62 | node invariant that follows every name and number to its place in the consumed text |
| C63 | copies of the affected functions without debug assertions; shown equal to the originals on every text |
| C64 | names without interning as plain values; every observable of a name compared with the interned one over all histories and schedules |
| C65 | negation with witnesses (poisoned mutex, contradicting conversions); partial theorems for the text of the name, absence of panics and well-known names, over any search procedure that is safe on unsorted slices; exactly which calls panic if conversions agree or panic (`C65_panic_iff`) |
| C66 | the reading loop of a caller as a relation; layout around a definition is insignificant, the rest is what follows it, and the heads of domains and problems exclude each other |
| C67 | negation with witness, and general theorems: any other capitalisation of a section keyword, of a keyword of constraints or durative actions, of a requirement or of an operator is rejected, any other capitalisation of a logical keyword makes an atom; partial: names in any case |
| C68 | equivalences between acceptance and an exact grammar (`TermX`, `FnTermX`, `AtomX`, `LiteralX`) for terms, function terms, atoms and ground literals |
| C69 | the `Parser` trait with its 73 implementations (`Verif/Api.lean`), case by case from the theorems about the parse functions; the six types whose own `from_str` shadows that of the trait are findings, `C69_call_iff` says on which texts |
| C70 | the `with_*` functions as calls that can be put in sequence, the accessors as views (`Verif/Builders.lean`); by induction over the sequence of calls; the constructors and accessors of the definitions inside a file, each recovered from what its accessors show (`Verif/Props/Made.lean`); the clause about domains is false and its negation proved |
| C71 | negation in general form: every text with a `:timeless` section is rejected, and no accepted text gives a domain with timeless predicates; nothing else is missing (`C71_iff`) |
| C72 | the calls a derived `Hash` makes on its hasher, hash sets with an arbitrary bucket function, ordered sets of one node (`Verif/Hashing.lean`); by induction over the insertions; lookup by text is false, with an exact criterion and the negation proved; the text `change` is the only one that is read as an operator it does not equal (`C72_assign_text_iff`) |
| C73 | every parser drops layout in front of a form without a change of the reading (`Shed`), so parts can be cut out; forms are then recognised and rebuilt keyword by keyword; exchange at any depth by induction on the place (`Verif/Props/Compose.lean`) |
| C74 | `Verif/Conversions.lean` models the constructors, From, TryInto, FromIterator and Default implementations; each is related to texts with the equivalences of C73 and the typed lists of C09 and C10. |
| C75 | the lists of the first three kinds are joined on reading; for the others a size argument shows that the values differ, whatever x is. |
| C76 | `Verif/Accessors.lean` models the accessors and constructors of definitions; each direction composes the parser laws of C27, C28 and C73 with the soundness relations of `Verif/Meta`. |
| C77 | `Verif/Meta/ArithX.lean` describes the texts of arithmetic expressions over arbitrary leaves and proves both directions once for the three expression parsers; `Verif/Props/Numeric.lean` gives the leaves, `Verif/Props/NumericForms.lean` the forms around them. |
| C78 | `Verif/Meta/TypedX.lean` describes the texts of types (`TyX`) and of typed lists over arbitrary elements (`TypedX`) and proves both directions once; `Verif/Props/TypedLists.lean` gives the elements and the sections. |
| C79 | `Verif/Meta/TermForms.lean` computes what the keyword parsers do on texts of atoms; `Verif/Props/GoalsX.lean` describes the texts of goals (`GDX`, `Shadowed`, `GoalLead`) and proves both directions by induction on the text. |
| C80 | `Verif/Meta/OkErr.lean` shows that the keyword alternatives end in success or an error on texts of atoms; `Verif/Props/ConditionsX.lean` describes the texts (`PrefGDX`, `PreX`) and proves both directions by induction on the text. |
| C81 | `Verif/Meta/Texts.lean` composes exact descriptions along the combinators; `Verif/Props/EffectsX.lean` describes the texts (`PEffX`, `CondX`, `CEffX`, `EffX`), shows that earlier alternatives end in success or a soft error on texts of later ones, and closes the recursion by induction on the length of the text. |
| C82 | `Verif/Props/ConstraintsX.lean` describes the texts (`ConX`, `Con2X`, `PrefConX`), shows that the goal parser ends in success or a soft error on every text of a constraint, and proves both directions by induction on the length of the text. |
| C83 | `Verif/Props/DurativeX.lean` describes the texts (`TimedGDX`, `PrefTimedX`, `DaGDX`, `TimedEffX`, `DaEffX`), shows that an assignment of a number ends in success or a soft error on every text of a conditional effect, and proves both directions by induction on the length of the text. |
| C84 | `Verif/Props/ActionsX.lean` describes the texts (`ActionX`, `DaDefX`, `StructureX`) over the exact texts of C77-C83 and proves both directions from the runs of the slots. |
| C85 | `Verif/Props/FilesX.lean` describes the texts (`DomainX`, `ProblemX`, `LengthX`) over the exact texts of C68 and C77-C84 and proves both directions, for the parsers and for `from_str`. |
| C86 | `Verif/Props/ApiX.lean` gathers the exact texts of C68 and C77-C85 into one relation `Parsable.Reads`, adds the types not covered there (names, operators, keys, primitive types, `Con2GD` with layout in front, `:timeless`, `forall` and `when` effects) and proves one equivalence over all kinds. |
| C87 | `Verif/Spec/Rename.lean` says what renaming does to values (`mapNames`) and to texts (`Renames`, which also lets layout change, and `renameText` as a function that keeps it). `Verif/Meta/Rename.lean` shows for every combinator that it commutes with renaming (`Equi`), `Verif/Meta/RenameAll.lean` for every parser, `Verif/Props/Rename.lean` for all kinds at once, for domains and problems, and for one word. |
| C88 | `shape` in `Verif/Spec/Rename.lean` is a text without its layout. `Renames` lets layout change along with names, and `shape_iff` in `Verif/Meta/Shape.lean` shows that with names kept it relates exactly the texts of the same shape. `Verif/Meta/RenameId.lean` shows that keeping names keeps values. `Verif/Props/Relayout.lean` concludes from C87. |
| C89 | `Verif/Equality.lean` models the derived `PartialEq` of every type. `Verif/Meta/Equality.lean` shows by induction that each decides equality, `Verif/Props/Equality.lean` combines this with C86 and C88. |
| C90 | `Verif/Props/Heads.lean`: a parser built by `prefix_expr` answers a recoverable error unless its word is there; no word of the list begins another one (whole finite table); `alt` over parsers of which at most one answers does not depend on the order. |
| C91 | `Verif/Props/Cut.lean`: every text of these types is a balanced form (`Parsable.W_form`, `Parsable.W_bal`), two forms at the same place end at the same place, and C69 says that a reading consumes such a text. |
| C92 | `Verif/Props/Undo.lean`: the renamed text is a renaming of the original by the inverse (`undo_pieces`), so C87 can be used in both directions; no induction over values is needed. |
| C93 | `Verif/Props/Edit.lean`: a list of elements in a text is a `Row`, which is closed under replacing, removing and inserting (`Row.nth`, `Row.gapAt`); by the exact description of files (C85) every row and every section may be exchanged in its place. The claims are the structures `EditList`, `EditSection` and `EditNeeded`, stated with parsers only. |
| C94 | `Verif/Props/Replace.lean`: `Local p q get set` says that the part `get` of what `p` reads is read by `q` in its place and can be replaced there; such statements compose (`Local.comp`). For goals by induction over the path, for preconditions by induction over the length of the text, both from the exact descriptions (C79, C80, C84, C85). |
| C95 | `Verif/Props/ReplaceMore.lean`: `Spot` is the counterpart of `Local` for texts, `Local.path` goes along a path of any length; one step for each kind from the exact descriptions (C81, C82, C83), then composition up to domains and problems (C84, C85, C93). |
| C96 | `Verif/Span.lean`: spans with the bytes of their text, `slice`, the columns and parsers on spans. `Verif/Props/Spans.lean`: the byte 10 and the leading bytes of UTF-8, steps add up, positions of C56 as spans, uniqueness of places (`Spec/Position.lean`, `Spec/Column.lean`). |
| C97 | `Verif/Span.lean`, `Verif/Props/Spans.lean`: from the exact texts (C86) and `==` (C89). |
| C98 | `Verif/Reentrant.lean`: threads whose callers make names inside `as_ref` and `into`. `Verif/Props/Reentrant.lean`: an invariant of all executions (who is inside a call holds the mutex), a cost that every step lowers, and the only stuck states. `Verif/Props/ReentrantExact.lean`: the invariant of the table, and runs of one thread alone to reach a stuck state. |
| C99 | `Verif/Spec/Image.lean`: the condition `made`. `Verif/Meta/Image*.lean`: every value with `made` has a text of the exact grammars of C68 and C77–C86, and the value of every such text has `made`. `Verif/Props/Image.lean`: the equivalence. |
| C100 | which texts of comparisons and numeric assignments are also texts of atoms or object assignments: only those whose operands all are functions, because a number or an operation never begins like a term; negation for all functions |
| C101 | `Verif/Spec/Meaning.lean`: states and the truth of goals, terms and numeric expressions. `Verif/Props/Meaning.lean`: one theorem per form, from the exact composition of forms (C73) and the exact texts of atoms and comparisons |
| C102 | `Verif/Spec/Meaning.lean`: truth of preconditions and constraints, changes by effects. `Verif/Props/Meaning.lean`: by induction on the exact texts (C79–C82) |
| C103 | `Verif/Props/Arithmetic.lean`: the operands of an operation are found again from the exact texts (C77), because each one is read on its own up to where the next begins; values in an interpretation whose sums and products of many are repeated ones of two. Metrics with a comment before `total-time`: negation proved and the value read stated; metrics with any other layout in `_partial` theorems. `Verif/Props/Leaves.lean`: what `?duration`, `total-time` and `is-violated` stand for |
| C104 | `Verif/Props/RenameMeaning.lean`: the value read is the renamed one (C87); the truth of a renamed value is that of the value in the state pulled back along the renaming, by induction on goals, preconditions and effects; injectivity is needed where variables are bound |
| C105 | `Verif/Spec/Trajectory.lean`: trajectories and the truth of constraints. `Verif/Props/Trajectory.lean`: one theorem per form, from the exact composition of forms (C73) and the exact texts of arguments (C82) |
| C106 | `Verif/Props/DurativeNumeric.lean`: from the exact texts of both kinds of expressions (C77), by induction over the length of the text in both directions |
| C107 | `Verif/Spec/Durative.lean`: the course of a durative action, the truth of conditions and what effects do. `Verif/Props/DurativeMeaning.lean`: one theorem per form, from the exact composition of forms (C73), the exact texts (C83) and C106 |
| C108 | `Verif/Spec/Plan.lean`: objects that fit the files, initial states, what a step does, plans. `Verif/Props/PlanRename.lean`: from the files read after renaming (C87) and the meaning of conditions and effects after renaming (C104), by induction over the plan and over the hierarchy of types |
| C109 | `Verif/Props/PlanParts.lean`: from replacing parts of texts (C93, C94), and from what plans are made of: steps of a domain whose actions have their like are steps of the other, by induction over the plan |
| C110 | `Verif/Props/EffectMeaning.lean`: from the exact texts of effects (C81); the first word of a text decides between the alternatives |
| C111 | `Verif/Props/PlanText.lean`: from the exact texts of actions and initial states (C84, C77) and from C101, C102 and C110 |
| C112 | `Verif/Props/RenameTime.lean`: renaming commutes with reading (C87), and with the meanings of C105 and C107 |
| C113 | `Verif/Spec/Temporal.lean`, `Verif/Props/DurativeAction.lean`: from the exact texts of durations, durative actions and derived predicates (C77, C84) and from C101 and C107 |
| C114 | `Verif/Props/RenameAction.lean`: renaming commutes with reading (C87) and with the meanings of C113; conditions and effects by C112 |
| C115 | `Verif/Spec/Preference.lean` says which preferences are violated, `Verif/Props/PreferenceMeaning.lean` derives it from the texts by C73; goals without preferences by C111, constraints by C102 |
| C116 | `Verif/Props/RenamePreference.lean`: renaming commutes with reading (C87) and with the meanings of C115 and of metrics (C103) |
| C117 | `Verif/Spec/Rules.lean` says which plans meet the constraints, `Verif/Props/Rules.lean` shows that they are those of the texts (C105, C115, the exact sections of C80 and C82) and that renaming keeps them (C108, C112, C116) |
| C118 | `Verif/Props/RuleParts.lean` shows it with the edits of sections (C93), the exact sections (C82), the reading of constraints as constraints with preferences (C102) and the plans under constraints (C117) |
| C119 | `Verif/Spec/Metric.lean` says which plans are best, `Verif/Props/Best.lean` shows that renaming keeps them (C116, C117) and how they follow from the text of the metric (C77, C93), with the violations of C120; preferences in preconditions are counted for each step that uses the action |
| C120 | `Verif/Spec/Violations.lean` counts violations, `Verif/Props/Violations.lean` derives the numbers from the texts (C73, C115) and shows that renaming keeps them (C116) |
| C121 | `Verif/Names/` is the model of all parsers with the list of the texts for which `Name::new` is called; `Verif/Meta/NamesRun.lean` shows that the outcomes are those of `Verif/Parsers.lean`, `Verif/Meta/NamesAll.lean` that the texts are words of the input, `Verif/Meta/NamesKeepAll.lean` that the names of a value are among them; `Verif/Props/Entered.lean` puts them into the table of C06; `Verif/Props/EnteredAll.lean` does this for all 73 types that can be parsed; `Verif/Props/EnteredItems.lean` and `Verif/Props/EnteredTyped.lean` list the calls for lists exactly, `Verif/Props/EnteredRec.lean` has the recursion equations |
| C122 | `Verif/Meta/NamesCount.lean` compares the parsers that list the names with the parsers that count steps (C60), combinator by combinator; `Verif/Props/Calls.lean` has the bounds and the expressions that need exponentially many calls, `Verif/Props/CallsProblem.lean` and `Verif/Props/CallsDomain.lean` whole problems and domains |

## Findings about the code

The following claims are false of the pinned commit. Each has a `_false` theorem with a witness
and a theorem for what does hold.

* C08: `Name::new("")` differs from `Name::default()`, `Name::new_static(x)` from `Name::new(x)`.
* C11: a type called `objective` is read as `object`, the rest of the word is left over.
* C21: `(always (sometime (p)))` is read as `always` of an atom with predicate `sometime`.
* C30: a line with only `;` is not skipped.
* C31: a blank before `)` makes predicates with arguments, comparisons, function terms and operators
  unreadable.
* C33: `(+ 1 ;c` newline `2)` is an n-ary operator with one further operand.
* C36: `:adl` contains `:continuous-effects` but expands to `:conditional-effects`.
* C37: `0.0` and `-0.0` are different for `==` but equal for `cmp`.
* C43: `is_empty` of a quantified preference constraint looks at the list only.
* C45: `(not)` is accepted as an atom.
* C46: `(:domainfoo)` is accepted as `(:domain foo)`.
* C47: `(total-time)` is read as a function; `total-time-x` is cut.
* C48: a comment directly after an element of a list ends the list.
* C50: `Number::from_str("inf")` panics.
* C51: `(at start (assign (f) undefined))` is a numeric assignment.
* C60: operations with more than two operands take work exponential in their nesting depth.
* C61: `ignore_eol_comment` calls itself once for every comment in a row, so a long block of comment
  lines recurses as deep as it has lines (a file header of that size can exhaust the stack).
* C65: a panic inside a conversion passed to `Name::new` poisons the table for the whole process.
* C67: `(AND (p) (q))` is an atom, and `(NOT (p))` as an effect adds a fact.
* C69: `Variable::from_str("?x")` is the variable `?x` with the question mark in its name, and
  `Predicate::from_str("(on ?x)")` is a predicate of that name: these six types have a `from_str` of
  their own, which hides the parser's.
* C70: no accessor of `Domain` shows the timeless predicates, so domains that differ in them look the same
  but are not equal.
* C71: a domain with a `:timeless` section is rejected; `parse_timeless_def` is never called.
* C72: `Requirement` implements `Borrow<str>` but its derived `Hash` and `Ord` do not agree with those of `str`,
  so `to_effective().contains(":strips")` is false even if the set contains `Requirement::Strips`.
  `AssignOp::try_from("change")` gives `Assign`, but `Assign == "change"` is false.
* C100: `(= (fuel ?a) (fuel ?b))` is read as the equality of two terms and `(assign (f) (g))` as an assignment of an object, even if the functions are numeric; `( = (fuel ?a) (fuel ?b))`, with a blank before `=`, is read as a comparison of numbers.
* C103, metrics: in `(- ;c⏎total-time)` the comment makes `total-time` a function of that name instead of the total time of the plan.
* C105, nested constraints: in `(always (sometime (p)))` the argument is a goal with the predicate `sometime`, so the constraint does not demand that `p` becomes true again and again.
* C107, assignments of objects at a time: `(at start (assign (f) a))` gives `f` the number of a function `a` and not the object `a`; see C51.

Quirks and limits that the exact descriptions bring to light:

* `PrimitiveType::default()` is the empty name, which no text is read as, while `Type::default()` is `object` (C74_primitive_default).
* `(and x)` and `x` are read as different values for goals, trajectory constraints, durative conditions and effects and conditional effects, and `(either t)` differs from `t`; the derived equality tells them apart (C75_false_goal and others). For preconditions, constraints of problems and effects they are equal.
* C77 (documents quirks): `(+ x ;c\n2)` is read as a sum with a list of one operand, `(+ x ;c\ny)` as a binary sum; `(f )` is a function with an empty list of terms while `(f)` has none; `(f a )` and `(+ 1 2 )` are rejected because no layout is skipped before their closing parenthesis; `total-timer` is read as `total-time` leaving `r`, and a comment before `total-time` makes it a function; `(is-violatedp)`, `(atend ..)` and `(at5 (p))` need no blank; `(= f a)` in an initial state is an equality of names, `(= (f) a)` an object assignment.
* C78 (documents quirks): `(:objects a -objectb -c)` declares `a` of type `object` and `b` of type `c`; `a-t` is a name but `(f)-t` a typed function; a blank before the closing parenthesis is allowed in sections and rejected after the last variable of a parameter list unless that variable is typed; `(:predicates (p)(q))` is rejected while `(:functions (f)-number(g))` is accepted.
* C79 (documents quirks): `(imply (p) (q))` is an implication but `(imply (p) (q) (r))`, `(or (p) ?x)` and `( and (p) (q))` are read as atoms of predicates named `imply`, `or` and `and`; the variant `GoalDefinition::Literal` is never produced by the parser.
* C80 (documents quirks): `(preferencex (p))` is a preference named `x`; `(preference x y)` and `( preference x (p))` are read as atoms of a predicate named `preference`.
* C81 (documents quirks): `(assign (f) x)` assigns an object while `(assign f x)` assigns a number; `(assign ?f x)`, `(when (p) q)` and `( when (p) (q))` are read as atoms of predicates named `assign` and `when`.
* C82 (documents a quirk): `(always (sometime (p)))` is no nested constraint: its argument is read as an atom of a predicate named `sometime` with the function term `(p)`.
* C83 (documents a quirk): `(at start (assign (f) undefined))` assigns the value of a function named `undefined`: the keyword is not special in a durative effect, because the assignment of a number is tried first.
* C84 (documents quirks): a comment before `:parameters` or before `()` makes an action unreadable, while no blank at all is needed before the name, `:precondition` and `:effect`: `(:actiona :parameters ():effect ())` is an action named `a`.
* C85 (documents quirks): two sections without a blank between them, or two sections in another order, make a file unreadable, while no blank is needed behind `define`, `domain` or any section keyword: `(define(domaind) (:requirements:strips))` is the domain `d`.
* C86 (documents quirks): layout in front of a text can change what it means: `(always (p))` is read by `Con2GD::parse` as an atom with the predicate `always`, ` (always (p))` with a blank in front as a constraint. `Number`, `Variable`, `Type` and all operators accept no layout in front, names and keyword forms accept any, and atoms with a predicate only comments.
* C87 (limit of the claim): words that begin with a reserved word are not labels. `(either objective box)` is rejected while `(either target box)` is accepted, and `(eitherball box)` is a choice between `ball` and `box`.
* C88 (limit of the claim): in constraints, `(at end …)` is accepted only with exactly one blank between `at` and `end`.
* C89 (limit of the claim): `==` on names looks at how the name was made, see C08.
* C90 (limit of the claim): `(define (domain d))` is also read as a goal, the atom of a predicate named `define`.
* `Name::new` runs code of its caller while it holds the mutex of the table (`name.rs:95,99`). A caller whose `Into<String>` or `AsRef<str>` makes a name deadlocks, and so do all other threads from then on.
* C110 (documents a quirk): a conjunction in a conjunction, which PDDL does not have but planners accept, is not flattened or rejected: `(and (and (p)))` makes a fact with the predicate `and` and the function term `(p)` true.
* C121 (documents a limit): every word can be put into the table by a text that is rejected (`C121_rejected`, `C121_rejected_section` for a section that is given up, `C121_rejected_item` for an item that ends a list), and keywords of accepted texts get there as well, such as `at` of a timed initial literal (`C121_keyword`). The table keeps them until the process ends. The names of a list without types are looked up twice (`C121_untyped_twice`), those of a list with a type once (`C121_typed_once`).
* C122 (false of the code): an operation with three operands reads its first operand twice, so nested ones look up the same name exponentially often: `(+ (+ x 1 1) 1 1)` makes four calls of `Name::new` for the one `x`, each with the lock of the table (`C122_exponential`, in files `C122_exponential_problem` and `C122_exponential_domain`).

Further remarks, not claims that fail: an error inside an optional section or inside an action is
reported at the beginning of that section or action, because `opt` discards the error of the
section (C58, C59).

## Where the theorems are

Files of `Verif/Props/` with the properties whose theorems they hold.

| file | properties |
|------|------------|
| `Robust.lean` | C01, C02, C03 |
| `ReadBack.lean` | C04, C09, C10, C13, C14, C15, C16, C17, C18, C19, C20, C22, C23, C24, C25, C34, C40 |
| `Intern.lean` | C05, C06, C07, C08 |
| `NameEq.lean` | C08 |
| `Edges.lean` | C11, C30, C33, C47, C51 |
| `Quirks.lean` | C11, C21, C45, C46, C47 |
| `Malformed.lean` | C12 |
| `Accept.lean` | C26, C27, C28 |
| `Layout.lean` | C29, C30, C31, C48 |
| `Exact.lean` | C31, C45, C48, C68 |
| `Trail.lean` | C31 |
| `Shape.lean` | C32, C33, C52, C62 |
| `Ops.lean` | C34, C35, C36, C41 |
| `Disagree.lean` | C37, C43 |
| `Number.lean` | C37, C38, C39 |
| `Hashing.lean` | C41, C72 |
| `Types.lean` | C42, C43 |
| `Sections.lean` | C44 |
| `Separators.lean` | C46, C48 |
| `Unique.lean` | C49 |
| `NumberText.lean` | C50 |
| `Timed.lean` | C51 |
| `Convert.lean` | C53, C54 |
| `Reformat.lean` | C55 |
| `Errors.lean` | C56, C57, C58 |
| `Viable.lean` | C59 |
| `Resources.lean` | C60, C61 |
| `Work.lean` | C60 |
| `Depth.lean` | C61 |
| `Builds.lean` | C63, C64, C65 |
| `Panics.lean` | C65, C69, C72 |
| `Files.lean` | C66, C67 |
| `Recase.lean` | C67 |
| `Api.lean` | C69 |
| `Builders.lean` | C70, C71 |
| `Made.lean` | C70 |
| `Timeless.lean` | C70, C71 |
| `Compose.lean` | C73 |
| `Conversions.lean` | C74, C75 |
| `MadeMore.lean` | C74 |
| `Meaning.lean` | C75, C101, C102 |
| `Definitions.lean` | C76 |
| `Numeric.lean` | C77 |
| `NumericForms.lean` | C77 |
| `TypedLists.lean` | C78 |
| `GoalsX.lean` | C79 |
| `ConditionsX.lean` | C80 |
| `EffectsX.lean` | C81 |
| `ConstraintsX.lean` | C82 |
| `DurativeX.lean` | C83 |
| `ActionsX.lean` | C84 |
| `FilesX.lean` | C85 |
| `ApiX.lean` | C86 |
| `Rename.lean` | C87 |
| `Relayout.lean` | C88 |
| `Equality.lean` | C89 |
| `Heads.lean` | C90 |
| `Cut.lean` | C91 |
| `Undo.lean` | C92 |
| `Edit.lean` | C93 |
| `Replace.lean` | C94 |
| `ReplaceMore.lean` | C95 |
| `Spans.lean` | C96, C97 |
| `Reentrant.lean` | C98 |
| `ReentrantExact.lean` | C98 |
| `Image.lean` | C99 |
| `Fluents.lean` | C100 |
| `Arithmetic.lean` | C103 |
| `Leaves.lean` | C103 |
| `RenameMeaning.lean` | C104 |
| `Trajectory.lean` | C105 |
| `DurativeNumeric.lean` | C106 |
| `DurativeMeaning.lean` | C107 |
| `PlanRename.lean` | C108 |
| `PlanParts.lean` | C109 |
| `EffectMeaning.lean` | C110 |
| `PlanText.lean` | C111 |
| `RenameTime.lean` | C112 |
| `DurativeAction.lean` | C113 |
| `RenameAction.lean` | C114 |
| `PreferenceMeaning.lean` | C115 |
| `RenamePreference.lean` | C116 |
| `Rules.lean` | C117 |
| `RuleParts.lean` | C118 |
| `Best.lean` | C119 |
| `Violations.lean` | C120 |
| `Entered.lean` | C121 |
| `EnteredAll.lean` | C121 |
| `EnteredCut.lean` | C121 |
| `EnteredItems.lean` | C121 |
| `EnteredRec.lean` | C121 |
| `EnteredTyped.lean` | C121 |
| `Calls.lean` | C122 |
| `CallsDomain.lean` | C122 |
| `CallsProblem.lean` | C122 |
