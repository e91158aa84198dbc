import Verif.Meta.ImageFiles
import Verif.Props.ApiX

/-!
# C99: the values that some text is read as

For every type with a parser, a value can be the result of parsing if and only if it meets a condition on
the value alone (`Verif/Spec/Image.lean`). The condition is computable.
-/

namespace Pddl

namespace Parsable

/-- The values of the type `k` that are read from some text. Lists of requirements, predicates and timeless
facts are not empty. -/
def Made : (k : Parsable) → k.Item → Bool
  | actionDefinition => ActionDef.made
  | actionSymbol => Name.wf
  | assignOp => fun _ => true
  | assignOpT => fun _ => true
  | atomicFormulaSkeleton => Skeleton.wf
  | atomicFunctionSkeleton => Skeleton.wf
  | basicFunctionTerm => BasicFunctionTerm.wf
  | binaryComp => fun _ => true
  | binaryOp => fun _ => true
  | cEffect => CEffect.made
  | forallCEffect => fun v => wfVars v.1 && CEffect.mades v.2
  | whenCEffect => fun v => v.1.made && v.2.made
  | conGD => ConGD.made
  | con2GD => Con2GD.made
  | conditionalEffect => CondEffect.made
  | constants => fun v => List.all v (Typed.wf Name.wf)
  | dOp => fun _ => true
  | durationValue => DurationValue.made
  | durativeActionDefinition => DaDef.made
  | durativeActionEffect => DaEffect.made
  | durativeActionGoalDefinition => DaGD.made
  | durativeActionSymbol => Name.wf
  | derivedPredicate => DerivedPredicate.made
  | domain => Domain.made
  | domainConstraintsDef => ConGD.made
  | durationConstraint => wfOpt DurationConstraint.made
  | effects => CEffect.mades
  | fAssignDa => FAssignDa.made
  | fComp => FComp.made
  | fExp => FExp.made
  | fExpDa => FExpDa.made
  | fExpT => FExpT.made
  | fHead => FHead.made
  | functionSymbol => Name.wf
  | functionTerm => FunctionTerm.wf
  | functionType => Ty.wf
  | functions => fun v => List.all v (Typed.wf Skeleton.wf)
  | goalDefinition => GD.made
  | goalDef => PreGD.mades
  | initElements => fun v => List.all v InitElement.wf
  | initElement => InitElement.wf
  | interval => fun _ => true
  | lengthSpec => LengthSpec.wf
  | metricFExp => MetricFExp.made
  | metricSpec => MetricSpec.made
  | multiOp => fun _ => true
  | name => Name.wf
  | number => Number.wf
  | objects => fun v => List.all v (Typed.wf Name.wf)
  | optimization => fun _ => true
  | pEffect => PEffect.made
  | preconditionGoalDefinitions => PreGD.mades
  | predicate => Name.wf
  | predicateDefinitions => fun v => !List.isEmpty v && List.all v Skeleton.wf
  | prefConGDs => PrefConGD.mades
  | preferenceGD => PrefGD.made
  | preferenceName => Name.wf
  | prefTimedGD => PrefTimedGD.made
  | primitiveType => Name.wf
  | problem => Problem.made
  | problemConstraintsDef => PrefConGD.mades
  | requirements => fun v => !List.isEmpty v
  | requirement => fun _ => true
  | simpleDurationConstraint => SimpleDuration.made
  | structureDef => StructureDef.made
  | term => Term.wf
  | timeSpecifier => fun _ => true
  | timedEffect => TimedEffect.made
  | timedGD => TimedGD.made
  | timeless => fun v => !List.isEmpty v && List.all v (Literal.wf Name.wf)
  | type_ => Ty.wf
  | types => fun v => List.all v (Typed.wf Name.wf)
  | variable_ => Name.wf

end Parsable

section Helpers

variable {w : Bool} {R : List Char → Prop} {L : List Char → Prop}

theorem led (hL : L []) (h : w = true ↔ ∃ t, R t) : w = true ↔ ∃ g t, ∃ _ : List Char, L g ∧ R t :=
  h.trans ⟨fun ⟨t, h⟩ => ⟨[], t, [], hL, h⟩, fun ⟨_, t, _, _, h⟩ => ⟨t, h⟩⟩

theorem led_end {E : List Char → List Char → Prop} (hE : ∀ t, E t []) (hL : L []) (h : w = true ↔ ∃ t, R t) :
    w = true ↔ ∃ g t r, L g ∧ R t ∧ E t r :=
  h.trans ⟨fun ⟨t, h⟩ => ⟨[], t, [], hL, h, hE t⟩, fun ⟨_, t, _, _, h, _⟩ => ⟨t, h⟩⟩

theorem shown {X : List Char → List Char → Prop} (h1 : w = true → ∃ t, X [] t) (h2 : ∀ g t, X g t → w = true) :
    w = true ↔ ∃ g t, ∃ _ : List Char, X g t :=
  ⟨fun h => let ⟨t, h⟩ := h1 h; ⟨[], t, [], h⟩, fun ⟨g, t, _, h⟩ => h2 g t h⟩

theorem shown_end {X E : List Char → List Char → Prop} (hE : ∀ t, E t []) (h1 : w = true → ∃ t, X [] t)
    (h2 : ∀ g t, X g t → w = true) : w = true ↔ ∃ g t r, X g t ∧ E t r :=
  ⟨fun h => let ⟨t, h⟩ := h1 h; ⟨[], t, [], h, hE t⟩, fun ⟨g, t, _, h, _⟩ => h2 g t h⟩

theorem noWord_nil : NoWord [] := nofun
theorem numEnds_nil (t : List Char) : NumEnds t [] := ⟨nofun, .inr nofun⟩
theorem headEnds_nil (t : List Char) : HeadEnds t [] := .inr noWord_nil
theorem fExpEnds_nil (v : FExp) (t : List Char) : FExpEnds v t [] := by
  cases v <;> first | exact numEnds_nil t | exact headEnds_nil t | trivial
theorem fExpDaEnds_nil (v : FExpDa) (t : List Char) : FExpDaEnds v t [] := by
  cases v <;> first | exact fExpEnds_nil _ t | trivial
theorem metricEnds_nil (v : MetricFExp) (t : List Char) : MetricEnds v t [] := by
  cases v <;> first | exact numEnds_nil t | exact headEnds_nil t | trivial
theorem dValueEnds_nil (v : DurationValue) (t : List Char) : DValueEnds v t [] := by
  cases v <;> first | exact numEnds_nil t | exact fExpEnds_nil _ t

theorem file_shown {d : Bool} {R : List Char → Prop} (h : d = true ↔ ∃ t, R t) :
    d = true ↔ ∃ g t r, Gap g ∧ ThenLayout R t r :=
  h.trans ⟨fun ⟨t, h⟩ => ⟨[], t, [], .nil, t, [], by simp, h, rfl⟩, fun ⟨_, _, _, _, t, _, _, h, _⟩ => ⟨t, h⟩⟩

theorem someX_iff {α : Type} {w : α → Bool} {R : α → List Char → Prop} (h : Has w R) {kw : List Char} {vs : List α} :
    (!vs.isEmpty && vs.all w) = true ↔ ∃ t, SomeX kw R vs t := by
  rw [Bool.and_eq_true, Bool.not_eq_true', List.isEmpty_eq_false_iff, all_iff_mem h]
  constructor
  · rintro ⟨hn, h⟩
    obtain ⟨_, h⟩ := items_of hn h
    exact ⟨_, .mk gap_space h .nil⟩
  · rintro ⟨_, h⟩
    cases h with
    | mk _ h _ => exact ⟨(by rintro rfl; cases h), items_mem h⟩

theorem namesX_iff {kw : List Char} {vs : TypedList Name} :
    vs.all (Typed.wf Name.wf) = true ↔ ∃ t, NamesX kw vs t :=
  names_iff.trans ⟨fun ⟨_, h⟩ => ⟨_, _, _, rfl, h, .nil⟩, fun ⟨_, _, _, _, h, _⟩ => ⟨_, h⟩⟩

theorem functionsX_iff {vs : TypedList Skeleton} :
    vs.all (Typed.wf Skeleton.wf) = true ↔ ∃ t, FunctionsX vs t :=
  (functions_has vs).trans ⟨fun ⟨_, h⟩ => ⟨_, _, _, rfl, h, .nil⟩, fun ⟨_, _, _, _, h, _⟩ => ⟨_, h⟩⟩

theorem varListX_iff {vs : TypedList Name} : wfVars vs = true ↔ ∃ t, VarListX vs t :=
  vars_iff.trans ⟨fun ⟨_, h⟩ => ⟨_, _, rfl, h⟩, fun ⟨_, _, _, h⟩ => ⟨_, h⟩⟩

theorem ConGD.goal_lead {c : ConGD} {t : List Char} (hm : c.modal = false) (h : ConX c t) :
    ∃ v, GDX v t ∧ ∀ g, Gap g → GoalLead v g := by
  cases h with
  | and h => obtain ⟨ws, hw⟩ := sec_map h (ConGD.goals_of _ hm); exact ⟨_, .and hw, fun _ => id⟩
  | forall_ h1 hv h2 h h3 =>
    obtain ⟨v, hg⟩ := ConGD.goal_of _ (by rwa [ConGD.modal] at hm) h
    exact ⟨_, .forall_ h1 hv h2 hg h3, fun _ => id⟩
  | _ => cases hm

theorem Con2Text.made_of {g t : List Char} {c : Con2GD} (h : Con2Text g c t) : c.made = true := by
  cases c with
  | goal v => exact v.made_of h.2
  | nested c =>
    rw [Con2GD.made, c.made_of h.2.1, Bool.and_true]
    cases hm : c.modal with
    | true => rfl
    | false =>
      obtain ⟨v, hv, hl⟩ := ConGD.goal_lead hm h.2.1
      exact absurd (hl g h.1) (h.2.2 v hv)

theorem Con2Text.of {t : List Char} {c : Con2GD} (h : Con2X c t) : Con2Text [] c t := by
  cases h with
  | goal h => exact ⟨GoalLead.nil _, h⟩
  | nested h hn => exact ⟨.nil, h, fun v hv => absurd hv (hn v)⟩

end Helpers

theorem reads_iff (k : Parsable) (v : k.Item) : k.Made v = true ↔ ∃ g t r, k.Reads g v t r := by
  cases k with
  | actionDefinition => exact led .nil actionX_iff
  | actionSymbol => exact led_end (fun _ => noWord_nil) .nil nameW_iff
  | assignOp => exact led (L := (· = [])) rfl ⟨fun _ => AssignOpW.ex v, fun _ => rfl⟩
  | assignOpT => exact led (L := (· = [])) rfl ⟨fun _ => ⟨_, rfl⟩, fun _ => rfl⟩
  | atomicFormulaSkeleton => exact led gapC_nil skeletonX_iff
  | atomicFunctionSkeleton => exact led gapC_nil skeletonX_iff
  | basicFunctionTerm =>
    exact ⟨fun h => let ⟨t, h, _⟩ := basicX_iff.mp h; ⟨[], t, [], ⟨headLead_nil t, h⟩, headEnds_nil t⟩,
      fun ⟨_, _, _, ⟨_, h⟩, _⟩ => h.wf_of⟩
  | binaryComp => exact ⟨fun _ => ⟨[], _, [], rfl, rfl, fun _ _ => nofun⟩, fun _ => rfl⟩
  | binaryOp => exact led (L := (· = [])) rfl ⟨fun _ => ⟨_, rfl⟩, fun _ => rfl⟩
  | cEffect => exact shown v.text_of fun _ _ => v.made_of
  | forallCEffect =>
    obtain ⟨vs, es⟩ : TypedList Name × List CEffect := v
    refine led .nil ?_
    change (wfVars vs && CEffect.mades es) = true ↔ ∃ t, Paired c!"forall" VarListX (EffX []) vs es t
    rw [Bool.and_eq_true, varListX_iff, effX_iff]
    exact ⟨fun ⟨⟨_, h1⟩, _, h2⟩ => paired_of c!"forall" h1 h2,
      fun ⟨_, _, _, _, _, _, _, _, h1, _, h2, _⟩ => ⟨⟨_, h1⟩, _, h2⟩⟩
  | whenCEffect =>
    obtain ⟨c, e⟩ : GD × CondEffect := v
    refine led .nil ?_
    change (c.made && e.made) = true ↔ ∃ t, Paired c!"when" GDX (CondX []) c e t
    rw [Bool.and_eq_true, GD.made_iff, condX_iff]
    exact ⟨fun ⟨⟨_, h1⟩, _, h2⟩ => paired_of c!"when" h1 h2,
      fun ⟨_, _, _, _, _, _, _, _, h1, _, h2, _⟩ => ⟨⟨_, h1⟩, _, h2⟩⟩
  | conGD => exact led .nil ConGD.made_iff
  | con2GD => exact shown (fun h => let ⟨t, h⟩ := Con2GD.made_iff.mp h; ⟨t, Con2Text.of h⟩) fun _ _ h => Con2Text.made_of h
  | conditionalEffect => exact shown condX_iff.mp fun _ _ h => h.made_of
  | constants => exact led .nil namesX_iff
  | dOp => exact led (L := (· = [])) rfl ⟨fun _ => ⟨_, rfl⟩, fun _ => rfl⟩
  | durationValue => exact shown_end (dValueEnds_nil v) dValueX_iff.mp fun _ _ h => h.made_of
  | durativeActionDefinition => exact led .nil daDefX_iff
  | durativeActionEffect => exact shown v.text_of fun _ _ => v.made_of
  | durativeActionGoalDefinition => exact led .nil daGDX_iff
  | durativeActionSymbol => exact led_end (fun _ => noWord_nil) .nil nameW_iff
  | derivedPredicate => exact led .nil derivedX_iff
  | domain => exact file_shown domainX_iff
  | domainConstraintsDef => exact led .nil (wrapped_iff con_has)
  | durationConstraint => exact shown durationX_iff.mp fun _ _ h => h.made_of
  | effects => exact shown effX_iff.mp fun _ _ h => CEffect.mades_of _ (effX_mem h)
  | fAssignDa => exact led gapC_nil fAssignDa_iff
  | fComp => exact led gapC_nil fComp_iff
  | fExp => exact shown_end (fExpEnds_nil v) v.text_of fun _ _ => v.made_of
  | fExpDa => exact shown_end (fExpDaEnds_nil v) v.text_of fun _ _ => v.made_of
  | fExpT => exact shown fExpTX_iff.mp fun _ _ h => h.made_of
  | fHead =>
    exact fHeadX_iff.trans ⟨fun ⟨t, h⟩ => ⟨[], t, [], headLead_nil t, h, headEnds_nil t⟩,
      fun ⟨_, t, _, _, h, _⟩ => ⟨t, h⟩⟩
  | functionSymbol => exact led_end (fun _ => noWord_nil) .nil nameW_iff
  | functionTerm => exact led (L := (· = [])) rfl FnTermX.wf_iff
  | functionType =>
    exact ⟨fun h => let ⟨t, h⟩ := tyX_of h noWord_nil; ⟨[], t, [], rfl, h⟩, fun ⟨_, _, _, _, h⟩ => h.wf_of⟩
  | functions => exact led .nil functionsX_iff
  | goalDefinition =>
    exact GD.made_iff.trans ⟨fun ⟨t, h⟩ => ⟨[], t, [], GoalLead.nil _, h⟩, fun ⟨_, t, _, _, h⟩ => ⟨t, h⟩⟩
  | goalDef => exact led .nil (wrapped_iff pre_has)
  | initElements => exact led .nil initSectionX_iff
  | initElement => exact shown initX_iff.mp fun _ _ h => h.wf_of
  | interval => exact led (L := (· = [])) rfl ⟨fun _ => ⟨_, rfl⟩, fun _ => rfl⟩
  | lengthSpec => exact led .nil lengthSpecX_iff
  | metricFExp => exact shown_end (metricEnds_nil v) v.text_of fun _ _ => v.made_of
  | metricSpec => exact led .nil metricSpecX_iff
  | multiOp => exact led (L := (· = [])) rfl ⟨fun _ => ⟨_, rfl⟩, fun _ => rfl⟩
  | name => exact led_end (fun _ => noWord_nil) .nil nameW_iff
  | number => exact led_end (L := (· = [])) numEnds_nil rfl numW_wf_iff
  | objects => exact led .nil namesX_iff
  | optimization => exact led (L := (· = [])) rfl ⟨fun _ => ⟨_, rfl⟩, fun _ => rfl⟩
  | pEffect => exact shown pEffX_iff.mp fun _ _ h => h.made_of
  | preconditionGoalDefinitions => exact shown preX_iff.mp fun _ _ h => h.made_of
  | predicate => exact led_end (fun _ => noWord_nil) .nil nameW_iff
  | predicateDefinitions => exact led .nil (someX_iff skeleton_has)
  | prefConGDs => exact led .nil prefConX_iff
  | preferenceGD =>
    exact prefGDX_iff.trans ⟨fun ⟨t, h⟩ => ⟨[], t, [], prefLead_nil _, h⟩, fun ⟨_, t, _, _, h⟩ => ⟨t, h⟩⟩
  | preferenceName => exact led_end (fun _ => noWord_nil) .nil nameW_iff
  | prefTimedGD => exact led .nil prefTimedX_iff
  | primitiveType =>
    refine nameW_iff.trans ⟨fun ⟨t, h⟩ => ⟨[' '], t, [], .inr ⟨gap_space, h, noWord_nil, nofun⟩⟩, ?_⟩
    rintro ⟨_, t, _, ⟨_, rfl, _⟩ | ⟨_, h, _⟩⟩
    · exact nameW_iff.mp rfl
    · exact ⟨t, h⟩
  | problem => exact file_shown problemX_iff
  | problemConstraintsDef => exact led .nil (wrapped_iff prefCon_has)
  | requirements =>
    have h := fun v : List Requirement => someX_iff key_has (kw := c!":requirements") (vs := v)
    simp only [List.all_eq_true, implies_true, Bool.and_eq_true, and_true] at h
    exact led .nil (h v)
  | requirement => exact led (L := (· = [])) rfl ⟨fun _ => ⟨_, rfl⟩, fun _ => rfl⟩
  | simpleDurationConstraint => exact shown simpleDurationX_iff.mp fun _ _ h => h.made_of
  | structureDef => exact led .nil structureX_iff
  | term =>
    refine Term.wf_iff.trans ⟨fun ⟨t, h⟩ => ⟨[], t, [], ?_, h, ?_⟩, fun ⟨_, t, _, _, h, _⟩ => ⟨t, h⟩⟩
    · change TermLead v []; cases (v : Term) <;> first | exact Gap.nil | rfl
    · change TermEnds v []; cases (v : Term) <;> first | exact noWord_nil | trivial
  | timeSpecifier => exact led (L := (· = [])) rfl ⟨fun _ => ⟨_, rfl⟩, fun _ => rfl⟩
  | timedEffect => exact shown timedEffX_iff.mp fun _ _ h => h.made_of
  | timedGD => exact led .nil timedGDX_iff
  | timeless => exact led .nil (someX_iff fun _ => literalX_iff)
  | type_ =>
    exact ⟨fun h => let ⟨t, h⟩ := tyX_of h noWord_nil; ⟨[], t, [], rfl, h⟩, fun ⟨_, _, _, _, h⟩ => h.wf_of⟩
  | types => exact led .nil namesX_iff
  | variable_ => exact led_end (L := (· = [])) (fun _ => noWord_nil) rfl varX_iff

/-- C99: a value of any of the types with a parser is the result of reading some text if and only if it meets
the condition `Made`. -/
theorem C99_values (k : Parsable) (v : k.Item) : (∃ s, k.fromStr s = .ok v []) ↔ k.Made v = true := by
  rw [reads_iff]
  constructor
  · rintro ⟨s, h⟩
    obtain ⟨g, t, r, _, h⟩ := (C86_from_str k s v).mp h
    exact ⟨g, t, r, h⟩
  · rintro ⟨g, t, r, h⟩
    exact ⟨_, (C86_from_str k _ v).mpr ⟨g, t, r, rfl, h⟩⟩

/-- The same for `parse`, which also returns what is left. -/
theorem C99_parsed (k : Parsable) (v : k.Item) : (∃ s r, k.parse s = .ok v r) ↔ k.Made v = true := by
  rw [reads_iff]
  constructor
  · rintro ⟨s, r, h⟩
    obtain ⟨g, t, _, h⟩ := (C86_parse k s v r).mp h
    exact ⟨g, t, r, h⟩
  · rintro ⟨g, t, r, h⟩
    exact ⟨_, r, (C86_parse k _ v r).mpr ⟨g, t, rfl, h⟩⟩

/-- C99, domains. -/
theorem C99_domains (d : Domain) : (∃ s, fromStr parseDomain s = some d) ↔ d.made = true :=
  (exists_congr fun s => fromStr_iff).trans (C99_parsed .domain d)

/-- C99, problems. -/
theorem C99_problems (p : Problem) : (∃ s, fromStr parseProblem s = some p) ↔ p.made = true :=
  (exists_congr fun s => fromStr_iff).trans (C99_parsed .problem p)

/-- What the printer of C24 and C25 writes is read, so it writes nothing that does not occur. -/
theorem C99_printed : (∀ d : Domain, d.wf = true → d.made = true) ∧ ∀ p : Problem, p.wf = true → p.made = true :=
  ⟨fun d h => (C99_domains d).mp ⟨d.print, fromStr_iff.mpr ⟨_, by simpa using C24_domains_printed h []⟩⟩,
    fun p h => (C99_problems p).mp ⟨p.print, fromStr_iff.mpr ⟨_, by simpa using C25_problems_printed h []⟩⟩⟩

example : ∃ s, fromStr parseDomain s = some Ex.domain := (C99_domains _).mpr (by decide +kernel)
example : ∃ s, fromStr parseProblem s = some Ex.problem := (C99_problems _).mpr (by decide +kernel)

/-- A domain with a timeless fact is never read. -/
example (l : Literal Name) (ls : List (Literal Name)) (d : Domain) :
    ¬ ∃ s, fromStr parseDomain s = some { d with timeless := l :: ls } := by
  rw [C99_domains]
  simp [Domain.made]

/-- A list of one operand occurs if it is a number, and not if it is a fluent. -/
example : (∃ s, Parsable.fExp.fromStr s =
      .ok (FExp.multiOp .add (.function (.simple (Ex.nm c!"x"))) [.number (Ex.num 2 0)]) []) ∧
    ¬ ∃ s, Parsable.fExp.fromStr s =
      .ok (FExp.multiOp .add (.function (.simple (Ex.nm c!"x"))) [.function (.simple (Ex.nm c!"y"))]) [] :=
  ⟨(C99_values .fExp _).mpr (by decide +kernel), fun h => absurd ((C99_values .fExp _).mp h) (by decide +kernel)⟩

/-- A predicate named `and` occurs, a literal does not. -/
example : (∃ s, Parsable.goalDefinition.fromStr s = .ok (GD.atomic (.predicate (Ex.nm c!"and") [])) []) ∧
    ∀ l, ¬ ∃ s, Parsable.goalDefinition.fromStr s = .ok (GD.literal l) [] :=
  ⟨(C99_values .goalDefinition _).mpr (by decide +kernel), fun _ h => nomatch (C99_values .goalDefinition _).mp h⟩

/-- A nested constraint needs a modal operator. -/
example (g : GD) (h : g.made = true) :
    (∃ s, Parsable.con2GD.fromStr s = .ok (Con2GD.nested (.and [.always (.goal g)])) []) ∧
    ¬ ∃ s, Parsable.con2GD.fromStr s = .ok (Con2GD.nested (.and [.and []])) [] :=
  ⟨(C99_values .con2GD _).mpr (by
    show (Con2GD.nested (.and [.always (.goal g)])).made = true
    simp [Con2GD.made, ConGD.made, ConGD.mades, ConGD.modal, ConGD.modals, h]),
    fun h => nomatch (C99_values .con2GD _).mp h⟩

/-- A timed assignment of a number is never a conditional effect, one of an object is. -/
example : (∃ s, Parsable.timedEffect.fromStr s = .ok (TimedEffect.conditional .start
      (.single (.assignObject ⟨Ex.nm c!"f", []⟩ (some (.name (Ex.nm c!"x")))))) []) ∧
    ∀ ts op h e, ¬ ∃ s, Parsable.timedEffect.fromStr s =
      .ok (TimedEffect.conditional ts (.single (.assignNumeric op h e))) [] :=
  ⟨(C99_values .timedEffect _).mpr (by decide +kernel), fun ts op h e k => by
    have := (C99_values .timedEffect _).mp k
    simp [Parsable.Made, TimedEffect.made, CondEffect.numericB] at this⟩

end Pddl
