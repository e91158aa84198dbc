import Verif.Spec.Api
import Verif.Props.Accept
import Verif.Props.Robust
import Verif.Props.Ops
import Verif.Meta.SoundTop
import Verif.Meta.Top

/-!
# C69: the `Parser` trait

The claims about the parse functions, carried over to `T::parse`, `T::parse_span` and
`T::from_str` of all 73 types.
-/

namespace Pddl

theorem LoneTypeW.acc {ty : Ty} {t : List Char} (h : LoneTypeW .strict ty t) :
    Acc parseType Stop ty t := by
  intro r hr
  obtain ⟨h, ho⟩ := h
  cases h with
  | exactly h => exact ifOk_hit ((EitherMemberW.elem ⟨h, ho⟩).1 r hr)
  | either h1 h2 h3 =>
    refine (ifOk_miss ?_).trans (ifOk_hit (either_acc (Mode.word.gap h1) h2 h3 r trivial))
    rw [paren_append]
    exact parsePrimitive_err (solid_open _) (by decide)

theorem stop_ne_eq {r : List Char} (h : Stop r) : ∀ r', r ≠ '=' :: r' := by
  rintro r' rfl
  rcases h _ _ rfl with h | h | h | h <;> revert h <;> decide

theorem forallCEffect_acc {e : TypedList Name × List CEffect} {t : List Char}
    (h : CEffectW .strict (.forall_ e.1 e.2) t) : Acc parseForallCEffect Stop e t := by
  intro r _
  obtain ⟨vs, es⟩ := e
  cases h with
  | forall_ hg1 hv hg2 he hg3 =>
    rw [parseForallCEffect, forallCEffectOf]
    exact prefix_two hg1 hv.elem.1 hv.solid hg2 (.effectOf parseCEffect_ct) he.elem.1 he.solid hg3 r
      trivial

theorem whenCEffect_acc {e : GD × CondEffect} {t : List Char}
    (h : CEffectW .strict (.when e.1 e.2) t) : Acc parseWhenCEffect Stop e t := by
  intro r _
  obtain ⟨c, e⟩ := e
  cases h with
  | when hg1 hc hg2 he hg3 =>
    rw [parseWhenCEffect]
    exact prefix_two hg1 hc.elem.1 hc.solid hg2 parseCondEffect_ct he.elem.1 he.solid hg3 r trivial

theorem durationConstraint_acc {o : Option DurationConstraint} {t : List Char}
    (h : (o = none ∧ t = c!"()") ∨ ∃ d, o = some d ∧ DurationW .strict d t) :
    Acc parseDurationConstraint Stop o t := by
  intro r _
  rcases h with ⟨rfl, rfl⟩ | ⟨d, rfl, h⟩
  · exact alt_hit (map_run (tag_ok c!"()" r))
  · have h1 := h.acc r trivial
    have : tag c!"()" (t ++ r) = .err := by
      refine tag_err ?_
      cases hs : stripPrefix c!"()" (t ++ r) with
      | none => rfl
      | some x =>
        rw [Good.stripPrefix_eq hs, show c!"()" ++ x = '(' :: ')' :: x from rfl, durationP_rejE] at h1
        cases h1
    exact (alt_miss (map_err this)).trans h1

/-- Everything but the two file parsers. -/
theorem api_acc (k : Parsable) (hk : k.isFile = false) (v : k.Item) (t : List Char)
    (h : k.W .strict v t) : Acc k.parse Stop v t := by
  cases k
  case domain => cases hk
  case problem => cases hk
  case actionDefinition => first | exact ActionW.acc h | exact (ActionW.acc h).mono fun _ _ => trivial
  case actionSymbol => first | exact NameW.acc h | exact (NameW.acc h).mono fun _ _ => trivial
  case assignOp => first | exact AssignOpW.acc h | exact (AssignOpW.acc h).mono fun _ _ => trivial
  case assignOpT => exact fun r _ => by rw [show t = v.spell from h]; cases v <;> rfl
  case atomicFormulaSkeleton => exact (SkeletonW.elem h).1
  case atomicFunctionSkeleton => exact (SkeletonW.elem h).1
  case basicFunctionTerm => first | exact BasicW.acc h | exact (BasicW.acc h).mono fun _ _ => trivial
  case binaryComp => exact fun r hr => by rw [show t = v.spell from h]; exact parseBinaryComp_spell v (stop_ne_eq hr)
  case binaryOp => exact fun r _ => by rw [show t = v.spell from h]; cases v <;> rfl
  case cEffect => first | exact CEffectW.acc h | exact (CEffectW.acc h).mono fun _ _ => trivial
  case forallCEffect => exact forallCEffect_acc h
  case whenCEffect => exact whenCEffect_acc h
  case conGD => first | exact ConGDW.acc h | exact (ConGDW.acc h).mono fun _ _ => trivial
  case con2GD => exact (Con2W.elem h).1
  case conditionalEffect => first | exact CondEffectW.acc h | exact (CondEffectW.acc h).mono fun _ _ => trivial
  case constants => exact (TypedNamesW.full h).elem.1
  case dOp => exact fun r _ => by rw [show t = v.spell from h]; cases v <;> rfl
  case durationValue => first | exact DValueW.acc h | exact (DValueW.acc h).mono fun _ _ => trivial
  case durativeActionDefinition => first | exact DaDefW.acc h | exact (DaDefW.acc h).mono fun _ _ => trivial
  case durativeActionEffect => exact (DaEffectW.full h).elem.1
  case durativeActionGoalDefinition => exact (DaGDW.full h).elem.1
  case durativeActionSymbol => first | exact NameW.acc h | exact (NameW.acc h).mono fun _ _ => trivial
  case derivedPredicate => first | exact DerivedW.acc h | exact (DerivedW.acc h).mono fun _ _ => trivial
  case domainConstraintsDef => exact (WrapW.full h (fun _ h => h) fun _ _ h => ConGDW.elem h).elem.1
  case durationConstraint => exact durationConstraint_acc h
  case effects => exact (EffectW.elem h).1
  case fAssignDa => first | exact FAssignDaW.acc h | exact (FAssignDaW.acc h).mono fun _ _ => trivial
  case fComp => first | exact FCompW.acc h | exact (FCompW.acc h).mono fun _ _ => trivial
  case fExp => first | exact FExpW.acc h | exact (FExpW.acc h).mono fun _ _ => trivial
  case fExpDa => first | exact FExpDaW.acc h | exact (FExpDaW.acc h).mono fun _ _ => trivial
  case fExpT => first | exact FExpTW.acc h | exact (FExpTW.acc h).mono fun _ _ => trivial
  case fHead => first | exact FHeadW.acc h | exact (FHeadW.acc h).mono fun _ _ => trivial
  case functionSymbol => first | exact NameW.acc h | exact (NameW.acc h).mono fun _ _ => trivial
  case functionTerm => first | exact FnTermW.acc h | exact (FnTermW.acc h).mono fun _ _ => trivial
  case functionType => exact LoneTypeW.acc h
  case functions => exact (FunctionsW.full h).elem.1
  case goalDefinition => first | exact GDW.acc h | exact (GDW.acc h).mono fun _ _ => trivial
  case goalDef => exact (WrapW.full h (fun _ h => h) fun _ _ h => PreGDW.elem h).elem.1
  case initElements => exact (InitW.full h).elem.1
  case initElement => first | exact InitElW.acc h | exact (InitElW.acc h).mono fun _ _ => trivial
  case interval => exact fun r _ => by rw [show t = v.spell from h]; cases v <;> rfl
  case lengthSpec => exact (LengthW.full h).elem.1
  case metricFExp => exact (MetricW.elem h).1
  case metricSpec => exact (MetricSpecW.full h).elem.1
  case multiOp => exact fun r _ => by rw [show t = v.spell from h]; cases v <;> rfl
  case name => first | exact NameW.acc h | exact (NameW.acc h).mono fun _ _ => trivial
  case number => first | exact NumW.acc h | exact (NumW.acc h).mono fun _ _ => trivial
  case objects => exact (TypedNamesW.full h).elem.1
  case optimization => exact fun r _ => by rw [show t = v.spell from h]; cases v <;> rfl
  case pEffect => first | exact PEffectW.acc h | exact (PEffectW.acc h).mono fun _ _ => trivial
  case preconditionGoalDefinitions => first | exact PreGDW.acc h | exact (PreGDW.acc h).mono fun _ _ => trivial
  case predicate => first | exact NameW.acc h | exact (NameW.acc h).mono fun _ _ => trivial
  case predicateDefinitions => exact (PredicatesW.full h).elem.1
  case prefConGDs => first | exact PrefConGDW.acc h | exact (PrefConGDW.acc h).mono fun _ _ => trivial
  case preferenceGD => first | exact PrefGDW.acc h | exact (PrefGDW.acc h).mono fun _ _ => trivial
  case preferenceName => first | exact NameW.acc h | exact (NameW.acc h).mono fun _ _ => trivial
  case prefTimedGD => first | exact PrefTimedGDW.acc h | exact (PrefTimedGDW.acc h).mono fun _ _ => trivial
  case primitiveType => exact (EitherMemberW.elem h).1
  case problemConstraintsDef => exact (WrapW.full h (fun _ h => h) fun _ _ h => PrefConGDW.elem h).elem.1
  case requirements => exact (RequirementsW.full h).elem.1
  case requirement => exact (KeyW.elem h).1
  case simpleDurationConstraint => first | exact SimpleDurationW.acc h | exact (SimpleDurationW.acc h).mono fun _ _ => trivial
  case structureDef => first | exact StructureW.acc h | exact (StructureW.acc h).mono fun _ _ => trivial
  case term => first | exact TermW.acc h | exact (TermW.acc h).mono fun _ _ => trivial
  case timeSpecifier => exact fun r _ => by rw [show t = v.spell from h]; cases v <;> rfl
  case timedEffect => first | exact TimedEffectW.acc h | exact (TimedEffectW.acc h).mono fun _ _ => trivial
  case timedGD => first | exact TimedGDW.acc h | exact (TimedGDW.acc h).mono fun _ _ => trivial
  case timeless => exact (TimelessW.full h).elem.1
  case type_ => exact LoneTypeW.acc h
  case types => exact (TypedNamesW.full h).elem.1
  case variable_ => first | exact VarW.acc h | exact (VarW.acc h).mono fun _ _ => trivial

theorem api_snd (k : Parsable) (hk : k.isFile = false) : Snd Any Gap k.parse (k.W .loose) := by
  cases k
  case domain => cases hk
  case problem => cases hk
  case actionDefinition => exact parseActionDef_snd
  case actionSymbol => exact parseName_snd
  case assignOp => exact parseAssignOp_snd.gap
  case assignOpT => exact parseAssignOpT_snd.gap
  case atomicFormulaSkeleton => exact parseAtomicFormulaSkeleton_snd
  case atomicFunctionSkeleton => exact parseAtomicFormulaSkeleton_snd
  case basicFunctionTerm => exact parseBasicFunctionTerm_snd
  case binaryComp => exact parseBinaryComp_snd.gap
  case binaryOp => exact parseBinaryOp_snd.gap
  case cEffect => exact parseCEffect_snd
  case forallCEffect => exact parseForallCEffect_snd
  case whenCEffect => exact parseWhenCEffect_snd
  case conGD => exact parseConGd_snd
  case con2GD => exact parseCon2Gd_snd
  case conditionalEffect => exact parseCondEffect_snd
  case constants => exact typedNames_snd
  case dOp => exact parseDOp_snd.gap
  case durationValue => exact parseDValue_snd
  case durativeActionDefinition => exact parseDaDef_snd
  case durativeActionEffect => exact parseDaEffect_snd
  case durativeActionGoalDefinition => exact parseDaGd_snd
  case durativeActionSymbol => exact parseName_snd
  case derivedPredicate => exact parseDerivedPredicate_snd
  case domainConstraintsDef => exact parseDomainConstraintsDef_snd
  case durationConstraint => exact parseDurationConstraint_snd
  case effects => exact parseEffect_snd
  case fAssignDa => exact parseFAssignDa_snd
  case fComp => exact parseFComp_snd
  case fExp => exact parseFExp_snd
  case fExpDa => exact parseFExpDa_snd
  case fExpT => exact parseFExpT_snd
  case fHead => exact parseFHead_snd
  case functionSymbol => exact parseName_snd
  case functionTerm => exact parseFunctionTerm_snd
  case functionType => exact fun s a r hs hr => let ⟨g, u, h1, h2, h3⟩ := parseType_snd s a r hs hr; ⟨g, u, h1, h2, h3, by intro h; cases h⟩
  case functions => exact parseFunctionsDef_snd
  case goalDefinition => exact parseGd_snd
  case goalDef => exact parseProblemGoalDef_snd
  case initElements => exact parseProblemInitDef_snd
  case initElement => exact parseInitEl_snd
  case interval => exact parseInterval_snd.gap
  case lengthSpec => exact parseProblemLengthSpec_snd
  case metricFExp => exact parseMetricFExp_snd
  case metricSpec => exact parseProblemMetricSpec_snd
  case multiOp => exact parseMultiOp_snd.gap
  case name => exact parseName_snd
  case number => exact parseNumber_snd.gap
  case objects => exact typedNames_snd
  case optimization => exact parseOptimization_snd.gap
  case pEffect => exact parsePEffect_snd
  case preconditionGoalDefinitions => exact parsePreGd_snd
  case predicate => exact parseName_snd
  case predicateDefinitions => exact parsePredicatesDef_snd
  case prefConGDs => exact parsePrefConGd_snd
  case preferenceGD => exact parsePrefGd_snd
  case preferenceName => exact parsePrefName_snd
  case prefTimedGD => exact parsePrefTimedGd_snd
  case primitiveType => exact parsePrimitiveType_snd
  case problemConstraintsDef => exact parseProblemConstraintsDef_snd
  case requirements => exact parseRequireDef_snd
  case requirement => exact parseRequireKey_snd.gap
  case simpleDurationConstraint => exact parseSimpleDuration_snd
  case structureDef => exact parseStructureDef_snd
  case term => exact parseTerm_snd
  case timeSpecifier => exact parseTimeSpecifier_snd.gap
  case timedEffect => exact parseTimedEffect_snd
  case timedGD => exact parseTimedGd_snd
  case timeless => exact parseTimelessDef_snd
  case type_ => exact fun s a r hs hr => let ⟨g, u, h1, h2, h3⟩ := parseType_snd s a r hs hr; ⟨g, u, h1, h2, h3, by intro h; cases h⟩
  case types => exact typedNames_snd
  case variable_ => exact parseVariable_snd

theorem api_good (k : Parsable) (L : Nat) : Good 1 L k.parse k.parse := by
  cases k
  all_goals dsimp only [Parsable.parse, Parsable.Item]
  all_goals (refine Good.mono (by comb_step) ?_; decide)

/-! ## The claims -/

/-- `T::parse` on a text of a value, followed by anything that does not run on: the value, and what
follows is left.  Only the file parsers take layout from what follows. -/
theorem C69_parse (k : Parsable) (v : k.Item) (t r : List Char) (h : k.W .strict v t) (hr : Stop r) :
    ∃ g r', r = g ++ r' ∧ GapEnd g ∧ (k.isFile = false → g = []) ∧ k.parse (t ++ r) = .ok v r' := by
  cases hk : k.isFile with
  | false => exact ⟨[], r, rfl, .gap .nil, fun _ => rfl, api_acc k hk v t h r hr⟩
  | true =>
    obtain ⟨g, h1, h2, _⟩ := skip_spec r
    refine ⟨g, skip r, h1, h2, nofun, ?_⟩
    cases k
    case domain => exact DomainW.acc h .nil r
    case problem => exact ProblemW.acc h .nil r
    all_goals cases hk

/-- A nested goal with a quantifier and an arithmetic comparison, before a closing parenthesis. -/
example : Parsable.goalDefinition.W .strict Ex.goal Ex.goal.print ∧ Stop c!") ; rest" :=
  ⟨GD.print_w _ (by decide +kernel), by rintro c r ⟨⟩; decide⟩
example : Parsable.fExpT.W .strict (.scaled Ex.fexp) c!"(* #t (+ 1 (- (f ?x)) (* 2 (g))))" := by
  have e : (FExpT.scaled Ex.fexp).print = c!"(* #t (+ 1 (- (f ?x)) (* 2 (g))))" := by decide +kernel
  exact e ▸ FExpT.print_w (by decide +kernel)
example : Parsable.type_.W .strict (.exactly (.str c!"truck")) c!"truck" :=
  ⟨.exactly (.of_word (isWord_of _ _ (by decide) (by decide))), fun _ _ h => by
    have := congrArg List.head? h; simp at this⟩
/-- A whole file, and layout after it. -/
example : Parsable.domain.isFile = true ∧ Parsable.goalDefinition.isFile = false := ⟨rfl, rfl⟩

/-- `T::from_str` of the trait on such a text: the value. -/
theorem C69_from_str (k : Parsable) (v : k.Item) (t r : List Char) (h : k.W .strict v t)
    (hr : Stop r) : k.fromStr (t ++ r) = .ok v [] := by
  obtain ⟨g, r', _, _, _, h1⟩ := C69_parse k v t r h hr
  rw [Parsable.fromStr, h1]

/-- `T::parse` succeeds on nothing else: the text is layout, a text of the value with the deviations
of the loose grammar, and what is left. -/
theorem C69_only (k : Parsable) (s : List Char) (v : k.Item) (r : List Char)
    (h : k.parse s = .ok v r) : ∃ g t g', s = g ++ (t ++ (g' ++ r)) ∧ Gap g ∧ k.W .loose v t ∧
      GapEnd g' ∧ (k.isFile = false → g' = []) := by
  cases hk : k.isFile with
  | false =>
    obtain ⟨g, t, h1, h2, h3⟩ := api_snd k hk s v r h trivial
    exact ⟨g, t, [], by simpa using h1, h2, h3, .gap .nil, fun _ => rfl⟩
  | true =>
    cases k
    case domain =>
      obtain ⟨g, t, g', h1, h2, h3, h4, _⟩ := parseDomain_snd h
      exact ⟨g, t, g', h1, h2, h3, h4, nofun⟩
    case problem =>
      obtain ⟨g, t, g', h1, h2, h3, h4, _⟩ := parseProblem_snd h
      exact ⟨g, t, g', h1, h2, h3, h4, nofun⟩
    all_goals cases hk

example : (Parsable.goalDefinition.parse c!" ; c\n(not (p ?x)) rest" matches .ok _ [' ', 'r', 'e', 's', 't']) =
    true := by decide +kernel

/-- The same for `T::from_str`, which also accepts texts that go on after the value. -/
theorem C69_from_str_only (k : Parsable) (s : List Char) (v : k.Item) (r : List Char)
    (h : k.fromStr s = .ok v r) : r = [] ∧ ∃ g t x, s = g ++ (t ++ x) ∧ Gap g ∧ k.W .loose v t := by
  cases h1 : k.parse s with
  | ok v' r' =>
    rw [Parsable.fromStr, h1] at h
    cases h
    obtain ⟨g, t, g', h2, h3, h4, _⟩ := C69_only k s _ _ h1
    exact ⟨rfl, g, t, g' ++ r', h2, h3, h4⟩
  | _ => rw [Parsable.fromStr, h1] at h; cases h

/-- No text means two values of the same type. -/
theorem C69_one_meaning (k : Parsable) (v v' : k.Item) (t : List Char) (h : k.W .strict v t)
    (h' : k.W .strict v' t) : v = v' := by
  have h1 := C69_from_str k v t [] h nofun
  rw [C69_from_str k v' t [] h' nofun] at h1
  cases h1
  rfl

example : Parsable.requirement.W .strict .durativeActions c!":durative-actions" := rfl

/-- Every call of `T::parse` and `T::from_str` ends, and without a panic unless there are 39 digits in
a row. -/
theorem C69_safe (k : Parsable) (s : List Char) : k.parse s ≠ .oof ∧ k.fromStr s ≠ .oof ∧
    (NoLongDigitRun s → k.parse s ≠ .panic ∧ k.fromStr s ≠ .panic) := by
  have hg := (api_good k (s.length + 1) s (by omega)).2
  have h1 : k.parse s ≠ .oof := fun h => by rw [h] at hg; exact hg
  have h2 : NoLongDigitRun s → k.parse s ≠ .panic := fun hs h => by
    rw [h] at hg
    exact hg (calm_of_noLongDigitRun hs)
  rw [Parsable.fromStr]
  cases h : k.parse s <;> simp_all

example : NoLongDigitRun c!"(define (domain d-12))" := by
  intro a ds b h _
  have := congrArg List.length h
  simp at this
  omega

/-- `T::parse_span` is `T::parse`. -/
theorem C69_span (k : Parsable) (s : List Char) : k.parseSpan s = k.parse s := rfl

/-! ## `T::from_str` as it is written

For six types `T::from_str` is not the function of the trait. -/

/-- Whatever the text, the six functions return a value: they do not parse. -/
theorem C69_own_accepts_all (k : Parsable) (f : List Char → k.Item) (h : k.ownFromStr = some f)
    (s : List Char) : k.call s = .ok (f s) [] := by
  rw [Parsable.call, h]

/-- What holds of the calls as written: for the 67 other types they are those of the trait, and for
five of the six types they agree with the trait on every word. -/
theorem C69_call_partial (k : Parsable) (t : List Char)
    (h : k.ownFromStr = none ∨ (k ≠ .variable_ ∧ IsWord t)) : k.call t = k.fromStr t := by
  rcases h with h | ⟨hk, hw⟩
  · rw [Parsable.call, h]
  · have h1 : parseName t = .ok (Name.new t) [] := by
      have := (NameW.of_word hw).acc [] nofun
      rwa [List.append_nil] at this
    cases k
    case variable_ => exact absurd rfl hk
    case actionSymbol => rw [Parsable.fromStr, show Parsable.actionSymbol.parse t = _ from h1]; rfl
    case durativeActionSymbol => rw [Parsable.fromStr, show Parsable.durativeActionSymbol.parse t = _ from h1]; rfl
    case functionSymbol => rw [Parsable.fromStr, show Parsable.functionSymbol.parse t = _ from h1]; rfl
    case predicate => rw [Parsable.fromStr, show Parsable.predicate.parse t = _ from h1]; rfl
    case preferenceName => rw [Parsable.fromStr, show Parsable.preferenceName.parse t = _ from h1]; rfl
    all_goals rfl

example : Parsable.domain.ownFromStr = none ∧ Parsable.predicate.ownFromStr ≠ none ∧
    Parsable.predicate ≠ .variable_ ∧ IsWord c!"on-table" :=
  ⟨rfl, nofun, nofun, isWord_of _ _ (by decide) (by decide)⟩

/-- Outside the words they accept what the trait rejects. -/
theorem C69_false_call_unchecked : Parsable.predicate.call c!"(on ?x)" = .ok (.str c!"(on ?x)") [] ∧
    Parsable.predicate.fromStr c!"(on ?x)" = .err := ⟨rfl, rfl⟩

/-- On no text that is read as a variable does `Variable::from_str` return what the parser returns: it
keeps the question mark in the name. -/
theorem C69_false_call_variable (t : List Char) (v : Name)
    (h : Parsable.variable_.fromStr t = .ok v []) : Parsable.variable_.call t ≠ .ok v [] := by
  obtain ⟨_, g, u, x, rfl, hg, hw⟩ := C69_from_str_only .variable_ t v [] h
  obtain ⟨g', w, rfl, _, hw⟩ := hw
  intro h1
  have h2 : Name.new (g ++ ('?' :: (g' ++ w) ++ x)) = v := (Res.ok.inj h1).1
  obtain ⟨hw, rfl⟩ := hw
  have h3 := congrArg Name.text h2
  rw [wordName_eq, Name.text_new, Name.text_new] at h3
  obtain ⟨c, cs, rfl, hc, hcs⟩ := hw
  have h4 : '?' ∈ c :: cs := by rw [← h3]; simp
  rcases List.mem_cons.mp h4 with h4 | h4
  · rw [← h4] at hc; revert hc; decide
  · have := hcs _ h4; revert this; decide

example : Parsable.variable_.fromStr c!"?x" = .ok (.str c!"x") [] ∧
    Parsable.variable_.call c!"?x" = .ok (.str c!"?x") [] := ⟨rfl, rfl⟩

end Pddl
