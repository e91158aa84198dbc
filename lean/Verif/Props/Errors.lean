import Verif.Props.Robust
import Verif.Props.Malformed
import Verif.Meta.ErrorAt
import Verif.Props.ReadBack

/-!
# C56–C58: what errors say

The parsers of `Verif/Trace/` return, with an error, the list of positions and kinds that the crate
returns. A position is given by the text that remains there (`Verif/Spec/Position.lean`).
-/

namespace Pddl

/-- The public parsers, each with its counterpart that keeps the payloads of errors. -/
def tracedParsers : List ((α : Type) × E.P α × P α) := [
  ⟨_, E.parseName, parseName⟩, ⟨_, E.parseVariable, parseVariable⟩,
  ⟨_, E.parsePredicate, parsePredicate⟩, ⟨_, E.parseFunctionSymbol, parseFunctionSymbol⟩,
  ⟨_, E.parseActionSymbol, parseActionSymbol⟩, ⟨_, E.parseDaSymbol, parseDaSymbol⟩,
  ⟨_, E.parsePrefName, parsePrefName⟩, ⟨_, E.parseNumber, parseNumber⟩,
  ⟨_, E.parsePrimitiveType, parsePrimitiveType⟩, ⟨_, E.parseType, parseType⟩,
  ⟨_, E.parseFunctionType, parseFunctionType⟩, ⟨_, E.parseTerm, parseTerm⟩,
  ⟨_, E.parseFunctionTerm, parseFunctionTerm⟩,
  ⟨_, E.atomicFormula E.parseTerm, atomicFormula parseTerm⟩,
  ⟨_, E.atomicFormula E.parseName, atomicFormula parseName⟩,
  ⟨_, E.literal E.parseTerm, literal parseTerm⟩, ⟨_, E.literal E.parseName, literal parseName⟩,
  ⟨_, E.parseAtomicFormulaSkeleton, parseAtomicFormulaSkeleton⟩,
  ⟨_, E.parseAtomicFunctionSkeleton, parseAtomicFunctionSkeleton⟩,
  ⟨_, E.parseBasicFunctionTerm, parseBasicFunctionTerm⟩, ⟨_, E.parseFHead, parseFHead⟩,
  ⟨_, E.parseMultiOp, parseMultiOp⟩, ⟨_, E.parseBinaryOp, parseBinaryOp⟩,
  ⟨_, E.parseBinaryComp, parseBinaryComp⟩, ⟨_, E.parseAssignOp, parseAssignOp⟩,
  ⟨_, E.parseAssignOpT, parseAssignOpT⟩, ⟨_, E.parseDOp, parseDOp⟩,
  ⟨_, E.parseOptimization, parseOptimization⟩, ⟨_, E.parseTimeSpecifier, parseTimeSpecifier⟩,
  ⟨_, E.parseInterval, parseInterval⟩, ⟨_, E.parseFExp, parseFExp⟩,
  ⟨_, E.parseFComp, parseFComp⟩, ⟨_, E.parseGd, parseGd⟩, ⟨_, E.parsePrefGd, parsePrefGd⟩,
  ⟨_, E.parsePreGd, parsePreGd⟩, ⟨_, E.parseProblemGoalDef, parseProblemGoalDef⟩,
  ⟨_, E.parseConGd, parseConGd⟩, ⟨_, E.parseCon2Gd, parseCon2Gd⟩,
  ⟨_, E.parsePrefConGd, parsePrefConGd⟩,
  ⟨_, E.parseDomainConstraintsDef, parseDomainConstraintsDef⟩,
  ⟨_, E.parseProblemConstraintsDef, parseProblemConstraintsDef⟩,
  ⟨_, E.parsePEffect, parsePEffect⟩, ⟨_, E.parseCondEffect, parseCondEffect⟩,
  ⟨_, E.parseCEffect, parseCEffect⟩, ⟨_, E.parseForallCEffect, parseForallCEffect⟩,
  ⟨_, E.parseWhenCEffect, parseWhenCEffect⟩, ⟨_, E.parseEffect, parseEffect⟩,
  ⟨_, E.parseActionDef, parseActionDef⟩, ⟨_, E.parseDerivedPredicate, parseDerivedPredicate⟩,
  ⟨_, E.parseTimedGd, parseTimedGd⟩, ⟨_, E.parsePrefTimedGd, parsePrefTimedGd⟩,
  ⟨_, E.parseDaGd, parseDaGd⟩, ⟨_, E.parseFExpDa, parseFExpDa⟩,
  ⟨_, E.parseFAssignDa, parseFAssignDa⟩, ⟨_, E.parseFExpT, parseFExpT⟩,
  ⟨_, E.parseTimedEffect, parseTimedEffect⟩, ⟨_, E.parseDaEffect, parseDaEffect⟩,
  ⟨_, E.parseDValue, parseDValue⟩, ⟨_, E.parseSimpleDuration, parseSimpleDuration⟩,
  ⟨_, E.parseDurationConstraint, parseDurationConstraint⟩, ⟨_, E.parseDaDef, parseDaDef⟩,
  ⟨_, E.parseStructureDef, parseStructureDef⟩, ⟨_, E.parseRequireKey, parseRequireKey⟩,
  ⟨_, E.parseRequireDef, parseRequireDef⟩, ⟨_, E.parseTypesDef, parseTypesDef⟩,
  ⟨_, E.parseConstantsDef, parseConstantsDef⟩,
  ⟨_, E.parseProblemObjectsDeclaration, parseProblemObjectsDeclaration⟩,
  ⟨_, E.parsePredicatesDef, parsePredicatesDef⟩, ⟨_, E.parseFunctionsDef, parseFunctionsDef⟩,
  ⟨_, E.parseTimelessDef, parseTimelessDef⟩, ⟨_, E.parseInitEl, parseInitEl⟩,
  ⟨_, E.parseProblemInitDef, parseProblemInitDef⟩,
  ⟨_, E.parseProblemLengthSpec, parseProblemLengthSpec⟩, ⟨_, E.parseMetricFExp, parseMetricFExp⟩,
  ⟨_, E.parseProblemMetricSpec, parseProblemMetricSpec⟩, ⟨_, E.parseDomain, parseDomain⟩,
  ⟨_, E.parseProblem, parseProblem⟩]

/-! ## C56 -/

/-- No public parser is missing in the list, and none is added. -/
theorem C56_all_parsers : tracedParsers.map (fun x => (⟨x.1, x.2.2⟩ : AnyParser)) = publicParsers := by
  simp only [tracedParsers, publicParsers, List.map_cons, List.map_nil]

theorem tracedParsers_erases : ∀ x ∈ tracedParsers, Erases x.2.1 x.2.2 := by
  intro p hp
  simp only [tracedParsers, List.mem_cons, List.not_mem_nil, or_false] at hp
  repeat' (rcases hp with hp | hp)
  all_goals dsimp only
  all_goals first
    | exact .atomicFormula parseTerm_erases
    | exact .atomicFormula parseName_erases
    | exact .literal parseTerm_erases
    | exact .literal parseName_erases
    | comb_step

theorem tracedParsers_traced : ∀ x ∈ tracedParsers, Traced x.2.1 := by
  intro p hp
  simp only [tracedParsers, List.mem_cons, List.not_mem_nil, or_false] at hp
  repeat' (rcases hp with hp | hp)
  all_goals dsimp only
  all_goals first
    | exact .atomicFormula parseTerm_traced
    | exact .atomicFormula parseName_traced
    | exact .literal parseTerm_traced
    | exact .literal parseName_traced
    | comb_step

/-- The parsers with and without payloads have the same outcome. -/
theorem C56_same_outcome : ∀ x ∈ tracedParsers, ∀ s, match x.2.1 s with
    | .ok a r => x.2.2 s = .ok a r
    | .err _ => x.2.2 s = .err
    | .fail _ => x.2.2 s = .fail
    | .panic => x.2.2 s = .panic
    | .oof => False := by
  intro x hx s
  have h := tracedParsers_erases x hx s
  have hm : (⟨x.1, x.2.2⟩ : AnyParser) ∈ publicParsers := by
    rw [← C56_all_parsers]; exact List.mem_map_of_mem hx
  have ho := C01_terminates _ hm s
  cases hp : x.2.1 s <;> rw [hp] at h
  case oof => exact ho h.symm
  all_goals exact h.symm

/-- The positions of an error, recoverable or not. -/
def ErrorOf (p : E.P α) (s : List Char) (e : E.Trace) : Prop := p s = .err e ∨ p s = .fail e

theorem tracedParsers_nested {x} (hx : x ∈ tracedParsers) {s : List Char} {e : E.Trace}
    (h : ErrorOf x.2.1 s e) : Nested s e := by
  have := tracedParsers_traced x hx s
  rcases h with h | h <;> rw [h] at this <;> exact this

/-- An error has at least one entry, and all its positions lie in the text that was given. -/
theorem C56_inside : ∀ x ∈ tracedParsers, ∀ s e, ErrorOf x.2.1 s e →
    e ≠ [] ∧ ∀ y ∈ e, ∃ before, s = before ++ y.rest := by
  intro x hx s e h
  have := tracedParsers_nested hx h
  refine ⟨this.ne, fun y hy => ?_⟩
  obtain ⟨u, hu⟩ := this.inside y hy
  exact ⟨u, hu.symm⟩

/-- The entries are ordered from the inside to the outside: no later entry lies further in the
text. -/
theorem C56_innermost_first : ∀ x ∈ tracedParsers, ∀ s e, ErrorOf x.2.1 s e →
    e.Pairwise fun y z => z.rest.length ≥ y.rest.length := by
  intro x hx s e h
  exact (tracedParsers_nested hx h).order.imp fun h => h.length_le

theorem byteLength_append (a b : List Char) : byteLength (a ++ b) = byteLength a + byteLength b := by
  induction a with
  | nil => simp [byteLength]
  | cons c a ih => simp [byteLength, ih]; omega

theorem lineFeeds_append (a b : List Char) : lineFeeds (a ++ b) = lineFeeds a + lineFeeds b := by
  induction a with
  | nil => simp [lineFeeds]
  | cons c a ih => simp [lineFeeds, ih]; omega

/-- Every position has one byte offset and one line in the text that was given; the offset is at
most the number of bytes, the line at most the number of lines. -/
theorem C56_location : ∀ x ∈ tracedParsers, ∀ s e, ErrorOf x.2.1 s e → ∀ y ∈ e,
    ∃ offset line, IsAt s y.rest offset line ∧ offset + byteLength y.rest = byteLength s ∧
      1 ≤ line ∧ line ≤ 1 + lineFeeds s ∧
      ∀ offset' line', IsAt s y.rest offset' line' → offset' = offset ∧ line' = line := by
  intro x hx s e h y hy
  obtain ⟨u, rfl⟩ := (C56_inside x hx s e h).2 y hy
  refine ⟨_, _, ⟨u, rfl, rfl, rfl⟩, (byteLength_append _ _).symm, by omega,
    by rw [lineFeeds_append]; omega, ?_⟩
  rintro o l ⟨w, he, rfl, rfl⟩
  rw [List.append_cancel_right he]
  exact ⟨rfl, rfl⟩

/-- `from_str` gives the error of the parser, and a value exactly when the parser accepts a
beginning of the text. It has no other outcome unless the parser panics. -/
theorem C56_from_str : ∀ x ∈ tracedParsers, ∀ s,
    (∀ a, E.fromStr x.2.1 s = some (.ok a) ↔ ∃ r, x.2.2 s = .ok a r) ∧
    (∀ e, E.fromStr x.2.1 s = some (.error e) ↔ ErrorOf x.2.1 s e) ∧
    (E.fromStr x.2.1 s = none ↔ x.2.2 s = .panic) := by
  intro x hx s
  have h := C56_same_outcome x hx s
  unfold ErrorOf E.fromStr
  cases hp : x.2.1 s <;> rw [hp] at h <;> dsimp only at h
  all_goals simp [h]

/-- The first entry of the error `e` lies further in the text than that of `e'`. -/
def Further (e e' : E.Trace) : Prop :=
  ∃ x ∈ e.head?, ∃ y ∈ e'.head?, x.rest.length < y.rest.length

theorem altLoop_greedy {s : List Char} (ps : List (E.P α)) :
    ∀ e0 e, e0 ≠ [] → (∀ p ∈ ps, p s ≠ .err []) → E.altLoop ps e0 s = .err e →
      (e = e0 ++ [⟨s, .alt⟩] ∧ ∀ q ∈ ps, ∃ e', q s = .err e' ∧ ¬ Further e' e0) ∨
      ∃ qs p rs e', ps = qs ++ p :: rs ∧ p s = .err e' ∧ e = e' ++ [⟨s, .alt⟩] ∧ Further e' e0 ∧
        (∀ q ∈ qs, ∃ e'', q s = .err e'' ∧ Further e' e'') ∧
        ∀ q ∈ rs, ∃ e'', q s = .err e'' ∧ ¬ Further e'' e' := by
  induction ps with
  | nil =>
    intro e0 e _ _ h
    simp only [E.altLoop, E.Res.err.injEq, E.Trace.append] at h
    exact .inl ⟨h.symm, by simp⟩
  | cons p ps ih =>
    intro e0 e h0 hne h
    simp only [E.altLoop] at h
    cases hp : p s <;> rw [hp] at h <;> try (cases h; done)
    next e1 =>
    have h1 : e1 ≠ [] := fun h1 => hne p (by simp) (by rw [hp, h1])
    have hne' : ∀ q ∈ ps, q s ≠ .err [] := fun q hq => hne q (by simp [hq])
    cases e0 with
    | nil => exact absurd rfl h0
    | cons x e0 =>
      cases e1 with
      | nil => exact absurd rfl h1
      | cons y e1 =>
        simp only [E.Trace.or] at h
        split at h
        · next hl =>
          rcases ih _ _ (by simp) hne' h with ⟨h2, h3⟩ | ⟨qs, q, rs, e', rfl, h2, h3, h4, h5, h6⟩
          · exact .inr ⟨[], p, ps, _, rfl, hp, h2, by simpa [Further] using hl, by simp, h3⟩
          · refine .inr ⟨p :: qs, q, rs, e', rfl, h2, h3, ?_, ?_, h6⟩
            · simp only [Further, List.head?_cons, Option.mem_def, Option.some.injEq,
                exists_eq_left'] at h4 ⊢
              obtain ⟨z, hz, h4⟩ := h4
              exact ⟨z, hz, by omega⟩
            · intro r hr
              rcases List.mem_cons.1 hr with rfl | hr
              · exact ⟨_, hp, h4⟩
              · exact h5 r hr
        · next hl =>
          rcases ih _ _ (by simp) hne' h with ⟨h2, h3⟩ | ⟨qs, q, rs, e', rfl, h2, h3, h4, h5, h6⟩
          · refine .inl ⟨h2, fun q hq => ?_⟩
            rcases List.mem_cons.1 hq with rfl | hq
            · exact ⟨_, hp, by simpa [Further] using hl⟩
            · exact h3 q hq
          · refine .inr ⟨p :: qs, q, rs, e', rfl, h2, h3, h4, fun r hr => ?_, h6⟩
            rcases List.mem_cons.1 hr with rfl | hr
            · refine ⟨_, hp, ?_⟩
              simp only [Further, List.head?_cons, Option.mem_def, Option.some.injEq,
                exists_eq_left'] at h4 ⊢
              obtain ⟨z, hz, h4⟩ := h4
              exact ⟨z, hz, by omega⟩
            · exact h5 r hr

/-- The error of a choice is the error of one of its alternatives with one more entry. It is the
alternative whose error lies furthest in the text, and the first of them if there are several. -/
theorem C56_greedy (ps : List (E.P α)) (s : List Char) (e : E.Trace) (hps : ps ≠ [])
    (hne : ∀ p ∈ ps, p s ≠ .err []) (h : E.alt ps s = .err e) :
    ∃ qs p rs e', ps = qs ++ p :: rs ∧ p s = .err e' ∧ e = e' ++ [⟨s, .alt⟩] ∧
      (∀ q ∈ qs, ∃ e'', q s = .err e'' ∧ Further e' e'') ∧
      ∀ q ∈ rs, ∃ e'', q s = .err e'' ∧ ¬ Further e'' e' := by
  cases ps with
  | nil => exact absurd rfl hps
  | cons p ps =>
    simp only [E.alt] at h
    cases hp : p s <;> rw [hp] at h <;> try (cases h; done)
    next e0 =>
    have h0 : e0 ≠ [] := fun h0 => hne p (by simp) (by rw [hp, h0])
    rcases altLoop_greedy ps e0 e h0 (fun q hq => hne q (by simp [hq])) h with
      ⟨h2, h3⟩ | ⟨qs, q, rs, e', rfl, h2, h3, h4, h5, h6⟩
    · exact ⟨[], p, ps, e0, rfl, hp, h2, by simp, h3⟩
    · refine ⟨p :: qs, q, rs, e', rfl, h2, h3, fun r hr => ?_, h6⟩
      rcases List.mem_cons.1 hr with rfl | hr
      · exact ⟨_, hp, h4⟩
      · exact h5 r hr

/-! Cases that meet the hypotheses. The error of a goal with a number in place of a goal: the deepest
entry is the position where the parser could not go on, the others are the enclosing choices. -/
example : E.parseGd c!"(not (or 5))" =
    .err [⟨c!"5))", .tag⟩, ⟨c!"(or 5))", .alt⟩, ⟨c!"(not (or 5))", .alt⟩] := by rfl
example : ErrorOf E.parseTypesDef c!"(:types a\n - 5)" [⟨c!" 5)", .alt⟩] := .inr rfl
example : IsAt c!"(:types a\n - 5)" c!" 5)" 12 2 := ⟨c!"(:types a\n -", rfl, by decide, by decide⟩
example : E.fromStr E.parseName c!"5" = some (.error [⟨c!"5", .alpha⟩]) := rfl
example : E.alt [E.tag c!"ab", E.preceded (E.tag c!"c") (E.tag c!"d"), E.tag c!"cd"] c!"ce" =
    .err [⟨c!"e", .tag⟩, ⟨c!"ce", .alt⟩] := rfl

/-! ## C57 -/

theorem tracedParsers_typeDash : ∀ x ∈ tracedParsers, x = ⟨_, E.parseType, parseType⟩ ∨
    x = ⟨_, E.parseFunctionType, parseFunctionType⟩ ∨ TypeDash x.2.1 := by
  intro p hp
  simp only [tracedParsers, List.mem_cons, List.not_mem_nil, or_false] at hp
  repeat' (rcases hp with hp | hp)
  all_goals first
    | exact .inl rfl
    | exact .inr (.inl rfl)
    | refine .inr (.inr ?_)
  all_goals dsimp only
  all_goals first
    | exact .atomicFormula parseTerm_typeDash parseTerm_traced
    | exact .atomicFormula parseName_typeDash parseName_traced
    | exact .literal parseTerm_typeDash parseTerm_traced
    | exact .literal parseName_typeDash parseName_traced
    | comb_step

/-- An unrecoverable error has one entry. It points right behind a `-` after which no type is
written. -/
theorem C57_behind_dash : ∀ x ∈ tracedParsers, x ≠ ⟨_, E.parseType, parseType⟩ →
    x ≠ ⟨_, E.parseFunctionType, parseFunctionType⟩ → ∀ s e, x.2.1 s = .fail e →
    ∃ u v, s = u ++ '-' :: v ∧ e = [⟨v, .alt⟩] ∧
      ∀ g ty t r, Sep g → TypeW .strict ty t → Stop r → v ≠ g ++ (t ++ r) := by
  intro x hx h1 h2 s e he
  rcases tracedParsers_typeDash x hx with h | h | h
  · exact absurd h h1
  · exact absurd h h2
  · obtain ⟨u, v, rfl, rfl, hf⟩ := h s e he
    refine ⟨u, v, rfl, rfl, ?_⟩
    rintro g ty t r hg ht hr rfl
    have := ht.acc hg r hr
    rw [List.append_assoc] at this
    rw [parseType_erases.ok this] at hf
    cases hf

/-- The two parsers of types report the place where they were called. -/
theorem C57_types (s : List Char) (e : E.Trace)
    (h : E.parseType s = .fail e ∨ E.parseFunctionType s = .fail e) : e = [⟨s, .alt⟩] :=
  h.elim parseType_fail parseType_fail

/-! Cases that meet the hypotheses: the second `-` is the one without a type; the error survives
the alternatives and optional sections around the typed list. -/
example : E.parseTypesDef c!"(:types a - b c - 5)" = .fail [⟨c!" 5)", .alt⟩] := rfl
example : E.parseGd c!"(exists (?x - ) (p))" = .fail [⟨c!" ) (p))", .alt⟩] := rfl
example : E.parseType c!"5" = .fail [⟨c!"5", .alt⟩] := rfl

/-! ## C58 -/

/-- The errors of the beginning of a file, for a file whose first form is `(kw name)`. -/
inductive BadOpening (kw : List Char) : List Char → E.Entry → Prop
  /-- The file does not begin with a parenthesis. -/
  | noForm {x} : (x = [] ∨ Solid x) → (∀ y, x ≠ '(' :: y) → BadOpening kw x ⟨x, .tag⟩
  /-- The first word is not `define`. -/
  | noDefine {x} : (∀ y, x ≠ c!"define" ++ y) → BadOpening kw ('(' :: x) ⟨x, .tag⟩
  /-- No form follows. -/
  | noHeader {g x} : Gap g → (x = [] ∨ Solid x) → (∀ y, x ≠ '(' :: y) →
      BadOpening kw ('(' :: (c!"define" ++ (g ++ x))) ⟨x, .tag⟩
  /-- The form has another keyword. -/
  | otherHeader {g x} : Gap g → (∀ y, x ≠ kw ++ y) →
      BadOpening kw ('(' :: (c!"define" ++ (g ++ '(' :: x))) ⟨x, .tag⟩
  /-- The name is missing. -/
  | noName {g g' x} : Gap g → Gap g' → (x = [] ∨ Solid x) → (∀ c y, x = c :: y → isLetter c = false) →
      BadOpening kw ('(' :: (c!"define" ++ (g ++ '(' :: (kw ++ (g' ++ x))))) ⟨x, .alpha⟩

theorem Gap.skip_end {g x : List Char} (hg : Gap g) (hx : x = [] ∨ Solid x) :
    Pddl.skip (g ++ x) = x := by
  rcases hx with rfl | hx
  · exact hg.skip []
  · exact hg.skip_solid hx

theorem E.tag_miss {t x : List Char} (h : ∀ y, x ≠ t ++ y) : E.tag t x = .err [⟨x, .tag⟩] := by
  simp only [E.tag]
  cases hs : stripPrefix t x with
  | none => rfl
  | some z => exact absurd (Good.stripPrefix_eq hs) (h z)

theorem E.prefixExpr_noopen {kw : List Char} {p : E.P α} {s x : List Char} (hs : Pddl.skip s = x)
    (h : ∀ y, x ≠ '(' :: y) : E.prefixExpr kw p s = .err [⟨x, .tag⟩] := by
  simp only [E.prefixExpr, E.delimited, E.preceded, E.ws_eq, hs]
  rw [E.tag_miss fun y => h y]
  rfl

theorem E.prefixExpr_otherkw {kw : List Char} {p : E.P α} {s x : List Char}
    (hs : Pddl.skip s = '(' :: x) (h : ∀ y, x ≠ kw ++ y) :
    E.prefixExpr kw p s = .err [⟨x, .tag⟩] := by
  rw [E.prefixExpr_open kw p s _ hs, E.tag_miss h]
  rfl

theorem E.prefixExpr_inner {kw : List Char} {p : E.P α} {s x : List Char} {e : E.Trace}
    (hs : Pddl.skip s = '(' :: (kw ++ x)) (h : p (Pddl.skip x) = .err e) :
    E.prefixExpr kw p s = .err e := by
  rw [E.prefixExpr_open kw p s _ hs, E.tag_run]
  simp only [E.Res.bind, E.ws_eq p, h]

theorem E.parseName_miss {x : List Char} (hs : Pddl.skip x = x)
    (h : ∀ c y, x = c :: y → isLetter c = false) : E.parseName x = .err [⟨x, .alpha⟩] := by
  simp only [E.parseName, E.map, E.ws_eq, hs]
  cases x with
  | nil => rfl
  | cons c x =>
    have : isAlpha c = false := h c x rfl
    simp [E.recognize, E.pair, E.alpha1, E.takeWhile1, this, E.Res.bind, E.Trace.raise]

theorem BadOpening.error {kw x : List Char} {y : E.Entry} (h : BadOpening kw x y) {p : E.P α}
    {g : List Char} (hg : Gap g) :
    E.ws2 (E.prefixExpr c!"define" (E.pair (E.prefixExpr kw E.parseName) p)) (g ++ x) =
      .err [y] := by
  refine E.ws2_err ?_
  cases h with
  | noForm hx hn =>
    rw [hg.skip_end hx]
    exact E.prefixExpr_noopen (Gap.nil.skip_end hx) hn
  | noDefine hn =>
    rw [hg.skip_solid (solid_open _)]
    exact E.prefixExpr_otherkw (solid_open _).skip hn
  | noHeader hg' hx hn =>
    rw [hg.skip_solid (solid_open _)]
    refine E.prefixExpr_inner (solid_open _).skip ?_
    rw [hg'.skip_end hx]
    simp only [E.pair]
    rw [E.prefixExpr_noopen (by simpa using Gap.nil.skip_end hx) hn]
    rfl
  | otherHeader hg' hn =>
    rw [hg.skip_solid (solid_open _)]
    refine E.prefixExpr_inner (solid_open _).skip ?_
    rw [hg'.skip_solid (solid_open _)]
    simp only [E.pair]
    rw [E.prefixExpr_otherkw (solid_open _).skip hn]
    rfl
  | noName hg1 hg2 hx hn =>
    rw [hg.skip_solid (solid_open _)]
    refine E.prefixExpr_inner (solid_open _).skip ?_
    rw [hg1.skip_solid (solid_open _)]
    simp only [E.pair]
    rw [E.prefixExpr_inner (solid_open _).skip (by rw [hg2.skip_end hx]; exact E.parseName_miss (Gap.nil.skip_end hx) hn)]
    rfl

/-- The error of a file without the right beginning points to the first character that is wrong. -/
theorem C58_opening (g x : List Char) (y : E.Entry) (hg : Gap g) :
    (BadOpening c!"domain" x y → E.fromStr E.parseDomain (g ++ x) = some (.error [y])) ∧
    (BadOpening c!"problem" x y → E.fromStr E.parseProblem (g ++ x) = some (.error [y])) := by
  constructor <;> intro h
  · have : E.parseDomain (g ++ x) = .err [y] := by
      simp only [E.parseDomain, E.map, E.domainParts]
      rw [h.error hg]
      rfl
    simp only [E.fromStr, this]
  · have : E.parseProblem (g ++ x) = .err [y] := by
      simp only [E.parseProblem, E.map, E.problemParts]
      rw [h.error hg]
      rfl
    simp only [E.fromStr, this]

/-- A domain that is well written up to a place where something stands that cannot continue it: the
error points exactly to that place. The text `t` is the domain without its last parenthesis, `x` what
comes instead of it. -/
theorem C58_domains {d : Domain} {t g g' x : List Char} (h : DomainW .strict d (t ++ [')']))
    (hg : Gap g) (hg' : Gap g') (hx : Foreign domainKeywords x) (hs : Stop (g' ++ x)) :
    E.fromStr E.parseDomain (g ++ (t ++ (g' ++ x))) = some (.error [⟨x, .tag⟩]) := by
  simp only [E.fromStr, h.error hg hg' hx hs]

/-- The same for problems. -/
theorem C58_problems {d : Problem} {t g g' x : List Char} (h : ProblemW .strict d (t ++ [')']))
    (hg : Gap g) (hg' : Gap g') (hx : Foreign problemKeywords x) :
    E.fromStr E.parseProblem (g ++ (t ++ (g' ++ x))) = some (.error [⟨x, .tag⟩]) := by
  simp only [E.fromStr, h.error hg hg' hx]

/-- In particular a file whose last parenthesis is missing is reported at the end of the text. -/
theorem C58_unclosed {g g' t : List Char} (hg : Gap g) (hg' : Gap g') :
    (∀ d, DomainW .strict d (t ++ [')']) →
      E.fromStr E.parseDomain (g ++ (t ++ g')) = some (.error [⟨[], .tag⟩])) ∧
    (∀ d, ProblemW .strict d (t ++ [')']) →
      E.fromStr E.parseProblem (g ++ (t ++ g')) = some (.error [⟨[], .tag⟩])) := by
  refine ⟨fun d h => ?_, fun d h => ?_⟩
  · have := C58_domains (x := []) h hg hg' ⟨.inl rfl, by simp, by simp⟩ (by
      rw [List.append_nil]
      intro c r hc
      cases hg' with
      | nil => cases hc
      | space h1 h2 => cases hc; exact .inl h1
      | comment h1 h2 => cases hc; simp)
    simpa using this
  · have := C58_problems (x := []) h hg hg' ⟨.inl rfl, by simp, by simp⟩
    simpa using this

/-! Cases that meet the hypotheses: a misspelt section behind the domain of the sample values, a
structure written behind a problem, and the two kinds of files confused. -/
example : DomainW .strict Ex.domain (Ex.domain.print.dropLast ++ [')']) := by
  have := Domain.print_w (d := Ex.domain) (by decide +kernel)
  rwa [show Ex.domain.print = Ex.domain.print.dropLast ++ [')'] by decide +kernel] at this
example : Foreign domainKeywords c!"(:foo)" :=
  ⟨.inr (solid_open _), by simp, by simp [domainKeywords]⟩
example : Stop (c!"\n " ++ c!"(:foo)") := by
  intro c r h; cases h; exact .inl (by decide)
example : ProblemW .strict Ex.problem (Ex.problem.print.dropLast ++ [')']) := by
  have := Problem.print_w (p := Ex.problem) (by decide +kernel)
  rwa [show Ex.problem.print = Ex.problem.print.dropLast ++ [')'] by decide +kernel] at this
example : Foreign problemKeywords c!"(:action a)" :=
  ⟨.inr (solid_open _), by simp, by simp [problemKeywords]⟩
example : E.fromStr E.parseDomain c!"(define (problem p) (:domain d))" =
    some (.error [⟨c!"problem p) (:domain d))", .tag⟩]) :=
  (C58_opening [] _ _ .nil).1 (.otherHeader (g := c!" ") gap_blank (by simp))
example : E.fromStr E.parseProblem c!" (define (problem 5))" =
    some (.error [⟨c!"5))", .alpha⟩]) :=
  (C58_opening c!" " _ _ gap_blank).2 (.noName (g := c!" ") (g' := c!" ") gap_blank gap_blank
    (.inr ⟨_, _, rfl, by decide, by decide⟩) (by rintro c y h; cases h; decide))

end Pddl
