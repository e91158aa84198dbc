import Verif.Api
import Verif.Meta.Eval
import Verif.Meta.Good

/-!
# C90: the first word of a form tells what it is

Every section, every definition and both kinds of file begin with a word of their own.  Here it is
shown that a parser answers anything but "this is not mine" only behind its own word, that no two of
these words can be taken for each other, and what follows: a text is never read as two different
kinds of section, never both as a domain and as a problem, and the order in which `StructureDef` tries
its alternatives makes no difference.
-/

namespace Pddl

/-- The word behind the opening parenthesis of the sections, definitions and files. -/
def Parsable.head : Parsable → Option (List Char)
  | .domain | .problem => some c!"define"
  | .requirements => some c!":requirements"
  | .types => some c!":types"
  | .constants => some c!":constants"
  | .predicateDefinitions => some c!":predicates"
  | .functions => some c!":functions"
  | .timeless => some c!":timeless"
  | .domainConstraintsDef | .problemConstraintsDef => some c!":constraints"
  | .actionDefinition => some c!":action"
  | .durativeActionDefinition => some c!":durative-action"
  | .derivedPredicate => some c!":derived"
  | .objects => some c!":objects"
  | .initElements => some c!":init"
  | .goalDef => some c!":goal"
  | .metricSpec => some c!":metric"
  | .lengthSpec => some c!":length"
  | _ => none

/-- The words above. -/
def heads : List (List Char) := [
  c!"define", c!":requirements", c!":types", c!":constants", c!":predicates", c!":functions",
  c!":timeless", c!":constraints", c!":action", c!":durative-action", c!":derived", c!":objects",
  c!":init", c!":goal", c!":metric", c!":length"]

theorem Parsable.head_mem (k : Parsable) (w : List Char) (h : k.head = some w) : w ∈ heads := by
  cases k <;> first | (cases h; done) | (cases h; decide)

/-- No word of the list begins another one. -/
theorem heads_apart : ∀ w ∈ heads, ∀ w' ∈ heads, w <+: w' → w = w' := by decide +kernel

/-- A parser that answers anything but a recoverable error only on forms with the given word. -/
def Headed (w : List Char) (p : P α) : Prop := ∀ s, p s ≠ .err → ∃ r, skip s = '(' :: (w ++ r)

theorem prefixExpr_opens {w : List Char} {p : P α} {s : List Char} (h : prefixExpr w p s ≠ .err) :
    ∃ x, skip s = '(' :: (w ++ x) ∧ p (skip x) ≠ .err := by
  rw [← prefixExpr_skip] at h
  cases hs : skip s with
  | nil =>
    rw [hs] at h
    exact absurd rfl h
  | cons c t =>
    have hc : c = '(' := Decidable.byContradiction fun hc => h (by
      rw [prefixExpr, delimited, preceded, preceded, ws_eq, skip_skip, hs, tag, stripPrefix,
        if_neg (Ne.symm hc)]
      rfl)
    subst hc
    rw [hs, prefixExpr_open] at h
    cases h1 : stripPrefix w t with
    | none =>
      rw [h1] at h
      exact absurd rfl h
    | some x =>
      refine ⟨x, by rw [← Good.stripPrefix_eq h1], fun h2 => h ?_⟩
      simp only [h1, h2, Res.bind]

theorem Headed.prefixExpr (w : List Char) (p : P α) : Headed w (prefixExpr w p) := fun _ h =>
  let ⟨x, h1, _⟩ := prefixExpr_opens h
  ⟨x, h1⟩

theorem Headed.map {w : List Char} {p : P α} (f : α → β) (h : Headed w p) : Headed w (map f p) :=
  fun s hs => h s fun e => hs (by rw [Pddl.map, e]; rfl)

theorem ws2_opens {p : P α} {s : List Char} (h : ws2 p s ≠ .err) : p (skip s) ≠ .err := fun e => by
  refine h ?_
  have h1 := ws_eq p s
  rw [ws, preceded] at h1
  rw [ws2, delimited, preceded]
  cases h2 : preceded multispace0 ignoreEolComment s with
  | ok _ r =>
    rw [h2] at h1
    have h3 : p r = p (skip s) := h1
    simp only [Res.bind, terminated, h3, e]
  | _ => 
    simp only [preceded, multispace0, takeWhile0, Res.bind, eol_eq] at h2
    cases h2

theorem Headed.ws2 {w : List Char} {p : P α} (h : Headed w p) : Headed w (ws2 p) := fun s hs => by
  have := h _ (ws2_opens hs)
  rwa [skip_skip] at this

theorem pair_opens {p : P α} {q : P β} {s : List Char} (h : pair p q s ≠ .err) : p s ≠ .err :=
  fun e => h (by rw [pair, e]; rfl)

theorem map_opens {p : P α} {f : α → β} {s : List Char} (h : map f p s ≠ .err) : p s ≠ .err :=
  fun e => h (by rw [map, e]; rfl)

theorem Headed.apart {w w' : List Char} {p : P α} {q : P β} (hp : Headed w p) (hq : Headed w' q)
    (hw : w ∈ heads) (hw' : w' ∈ heads) (hne : w ≠ w') {s : List Char} (h : p s ≠ .err) :
    q s = .err := Classical.byContradiction fun h' => by
  obtain ⟨r, h1⟩ := hp s h
  obtain ⟨r', h2⟩ := hq s h'
  rw [h1] at h2
  have h3 : w ++ r = w' ++ r' := (List.cons.inj h2).2
  rcases List.prefix_or_prefix_of_prefix (List.prefix_append w r) (h3 ▸ List.prefix_append w' r')
    with h4 | h4
  · exact hne (heads_apart w hw w' hw' h4)
  · exact hne (heads_apart w' hw' w hw h4).symm

theorem Parsable.headed : (k : Parsable) → (w : List Char) → k.head = some w → Headed w k.parse
  | .domain, _, rfl => .map _ (.ws2 (.prefixExpr _ _))
  | .problem, _, rfl => .map _ (.ws2 (.prefixExpr _ _))
  | .requirements, _, rfl => .prefixExpr _ _
  | .types, _, rfl => .prefixExpr _ _
  | .constants, _, rfl => .prefixExpr _ _
  | .predicateDefinitions, _, rfl => .prefixExpr _ _
  | .functions, _, rfl => .prefixExpr _ _
  | .timeless, _, rfl => .prefixExpr _ _
  | .domainConstraintsDef, _, rfl => .prefixExpr _ _
  | .problemConstraintsDef, _, rfl => .prefixExpr _ _
  | .actionDefinition, _, rfl => .map _ (.prefixExpr _ _)
  | .durativeActionDefinition, _, rfl => .map _ (.prefixExpr _ _)
  | .derivedPredicate, _, rfl => .map _ (.prefixExpr _ _)
  | .objects, _, rfl => .prefixExpr _ _
  | .initElements, _, rfl => .prefixExpr _ _
  | .goalDef, _, rfl => .prefixExpr _ _
  | .metricSpec, _, rfl => .map _ (.prefixExpr _ _)
  | .lengthSpec, _, rfl => .map _ (.prefixExpr _ _)

/-- Anything but a recoverable error, in particular a value, comes only from a text that is layout
followed by an opening parenthesis and the word of that kind of form. -/
theorem C90_head (k : Parsable) (w : List Char) (hk : k.head = some w) (s : List Char)
    (h : k.parse s ≠ .err) : ∃ g r, s = g ++ '(' :: (w ++ r) ∧ Gap g := by
  obtain ⟨r, h1⟩ := k.headed w hk s h
  obtain ⟨g, h2, _, h3⟩ := skip_spec s
  exact ⟨g, r, h1 ▸ h2, h3 (by rw [h1]; exact nofun)⟩

example : Parsable.types.parse c!" ; the types\n(:types a b - c)" ≠ .err ∧
    Parsable.types.parse c!"(:constants a b - c)" = .err := ⟨nofun, rfl⟩

/-- No text is read as two kinds of form with different words: where one parser answers anything but
a recoverable error, the other answers a recoverable error. -/
theorem C90_sections (k k' : Parsable) (w w' : List Char) (hk : k.head = some w)
    (hk' : k'.head = some w') (hne : w ≠ w') (s : List Char) (h : k.parse s ≠ .err) :
    k'.parse s = .err :=
  (k.headed w hk).apart (k'.headed w' hk') (k.head_mem w hk) (k'.head_mem w' hk') hne h

example : Parsable.constants.parse c!"(:constants a)" ≠ .err ∧
    Parsable.domainConstraintsDef.parse c!"(:constants a)" = .err := ⟨nofun, rfl⟩

theorem domain_opens {s : List Char} (h : parseDomain s ≠ .err) : ∃ x r,
    skip s = '(' :: (c!"define" ++ x) ∧ skip x = '(' :: (c!"domain" ++ r) := by
  obtain ⟨x, h1, h2⟩ := prefixExpr_opens (ws2_opens (map_opens h))
  obtain ⟨r, h3, _⟩ := prefixExpr_opens (pair_opens h2)
  exact ⟨x, r, skip_skip s ▸ h1, skip_skip x ▸ h3⟩

theorem problem_opens {s : List Char} (h : parseProblem s ≠ .err) : ∃ x r,
    skip s = '(' :: (c!"define" ++ x) ∧ skip x = '(' :: (c!"problem" ++ r) := by
  obtain ⟨x, h1, h2⟩ := prefixExpr_opens (ws2_opens (map_opens h))
  obtain ⟨r, h3, _⟩ := prefixExpr_opens (pair_opens h2)
  exact ⟨x, r, skip_skip s ▸ h1, skip_skip x ▸ h3⟩

theorem not_both {s : List Char} (h : parseDomain s ≠ .err) (h' : parseProblem s ≠ .err) : False := by
  obtain ⟨x, r, h1, h2⟩ := domain_opens h
  obtain ⟨x', r', h3, h4⟩ := problem_opens h'
  rw [h1] at h3
  rw [List.append_cancel_left (List.cons.inj h3).2, h4] at h2
  exact absurd (List.cons.inj (List.cons.inj h2).2).1 (by decide)

/-- No text is both a domain and a problem. -/
theorem C90_files (s : List Char) : (parseDomain s ≠ .err → parseProblem s = .err) ∧
    (parseProblem s ≠ .err → parseDomain s = .err) :=
  ⟨fun h => Classical.byContradiction fun h' => not_both h h',
    fun h => Classical.byContradiction fun h' => not_both h' h⟩

set_option maxRecDepth 8000 in
example : parseDomain c!"(define (domain d))" ≠ .err ∧
    parseProblem c!"(define (problem p) (:domain d) (:init) (:goal (and)))" ≠ .err :=
  ⟨nofun, nofun⟩

/-- The alternatives of `StructureDef`. -/
def structureAlternatives : List (P StructureDef) :=
  [map StructureDef.derived Parsable.derivedPredicate.parse,
    map StructureDef.action Parsable.actionDefinition.parse,
    map StructureDef.durative Parsable.durativeActionDefinition.parse]

theorem alt_err {ps : List (P α)} {s : List Char} (h : ∀ p ∈ ps, p s = .err) : alt ps s = .err := by
  induction ps with
  | nil => rfl
  | cons p ps ih =>
    simp only [alt, h p List.mem_cons_self]
    exact ih fun q hq => h q (List.mem_cons_of_mem _ hq)

theorem alt_only {ps : List (P α)} {p : P α} {s : List Char} (hp : p ∈ ps)
    (h : ∀ q ∈ ps, q s ≠ .err → q s = p s) : alt ps s = p s := by
  by_cases he : p s = .err
  · rw [he]
    exact alt_err fun q hq => Classical.byContradiction fun h' => h' ((h q hq h').trans he)
  · induction ps with
    | nil => cases hp
    | cons q qs ih =>
      by_cases hq : q s = .err
      · simp only [alt, hq]
        rcases List.mem_cons.mp hp with rfl | hp
        · exact absurd hq he
        · exact ih hp fun q hq => h q (List.mem_cons_of_mem _ hq)
      · have := h q List.mem_cons_self hq
        simp only [alt, this]
        cases hs : p s with
        | err => exact absurd hs he
        | _ => rfl

/-- Each of the alternatives answers alone. -/
theorem structure_alone {p q : P StructureDef} {s : List Char} (hp : p ∈ structureAlternatives)
    (hq : q ∈ structureAlternatives) (h : p s ≠ .err) (h' : q s ≠ .err) : q s = p s := by
  have hd : Headed c!":derived" (map StructureDef.derived Parsable.derivedPredicate.parse) :=
    .map _ (Parsable.headed .derivedPredicate _ rfl)
  have ha : Headed c!":action" (map StructureDef.action Parsable.actionDefinition.parse) :=
    .map _ (Parsable.headed .actionDefinition _ rfl)
  have hu : Headed c!":durative-action"
      (map StructureDef.durative Parsable.durativeActionDefinition.parse) :=
    .map _ (Parsable.headed .durativeActionDefinition _ rfl)
  simp only [structureAlternatives, List.mem_cons, List.not_mem_nil, or_false] at hp hq
  rcases hp with rfl | rfl | rfl <;> rcases hq with rfl | rfl | rfl
  · rfl
  · exact absurd (hd.apart ha (by decide) (by decide) (by decide) h) h'
  · exact absurd (hd.apart hu (by decide) (by decide) (by decide) h) h'
  · exact absurd (ha.apart hd (by decide) (by decide) (by decide) h) h'
  · rfl
  · exact absurd (ha.apart hu (by decide) (by decide) (by decide) h) h'
  · exact absurd (hu.apart hd (by decide) (by decide) (by decide) h) h'
  · exact absurd (hu.apart ha (by decide) (by decide) (by decide) h) h'
  · rfl

/-- In whatever order the alternatives of a structure are tried, the answer is the same. -/
theorem C90_order (ps : List (P StructureDef)) (h : ps.Perm structureAlternatives) (s : List Char) :
    alt ps s = Parsable.structureDef.parse s := by
  show _ = alt structureAlternatives s
  by_cases he : ∃ p ∈ structureAlternatives, p s ≠ .err
  · obtain ⟨p, hp, he⟩ := he
    rw [alt_only (h.mem_iff.mpr hp) fun q hq h' => structure_alone hp (h.mem_iff.mp hq) he h',
      alt_only hp fun q hq h' => structure_alone hp hq he h']
  · have h1 : ∀ p ∈ structureAlternatives, p s = .err := fun p hp =>
      Classical.byContradiction fun h' => he ⟨p, hp, h'⟩
    rw [alt_err fun p hp => h1 p (h.mem_iff.mp hp), alt_err h1]

theorem structure_of {p : P StructureDef} (hp : p ∈ structureAlternatives) {s : List Char}
    (h : p s ≠ .err) : Parsable.structureDef.parse s = p s :=
  alt_only hp fun _ hq h' => structure_alone hp hq h h'

/-- A text is a structure of one of the three kinds exactly if it is a text of that kind. -/
theorem C90_structures (s r : List Char) :
    (∀ a, Parsable.structureDef.parse s = .ok (StructureDef.action a) r ↔
      Parsable.actionDefinition.parse s = .ok a r) ∧
    (∀ a, Parsable.structureDef.parse s = .ok (StructureDef.durative a) r ↔
      Parsable.durativeActionDefinition.parse s = .ok a r) ∧
    (∀ d, Parsable.structureDef.parse s = .ok (StructureDef.derived d) r ↔
      Parsable.derivedPredicate.parse s = .ok d r) := by
  have key : ∀ {α : Type} (f : α → StructureDef) (p : P α), map f p ∈ structureAlternatives →
      ∀ a, p s = .ok a r → Parsable.structureDef.parse s = .ok (f a) r := fun f p hp a h => by
    have h1 : map f p s = .ok (f a) r := by simp only [map, h, Res.bind]
    exact (structure_of hp (by rw [h1]; exact nofun)).trans h1
  have back : ∀ v, Parsable.structureDef.parse s = .ok v r →
      ∃ p ∈ structureAlternatives, p s = .ok v r := fun v h => Classical.byContradiction fun hn => by
    by_cases he : ∃ p ∈ structureAlternatives, p s ≠ .err
    · obtain ⟨p, hp, he⟩ := he
      exact hn ⟨p, hp, (structure_of hp he).symm.trans h⟩
    · have h1 : Parsable.structureDef.parse s = .err := alt_err fun p hp =>
        Classical.byContradiction fun h' => he ⟨p, hp, h'⟩
      rw [h1] at h
      cases h
  have inv : ∀ {α : Type} {f : α → StructureDef} {p : P α} {v}, map f p s = .ok v r →
      ∃ a, p s = .ok a r ∧ f a = v := fun {α f p v} h => by
    rw [map] at h
    cases h1 : p s with
    | ok a r' =>
      rw [h1] at h
      cases h
      exact ⟨a, rfl, rfl⟩
    | _ =>
      rw [h1] at h
      cases h
  refine ⟨fun a => ⟨fun h => ?_, key _ _ (by simp [structureAlternatives]) a⟩,
    fun a => ⟨fun h => ?_, key _ _ (by simp [structureAlternatives]) a⟩,
    fun a => ⟨fun h => ?_, key _ _ (by simp [structureAlternatives]) a⟩⟩
  all_goals
    obtain ⟨p, hp, h1⟩ := back _ h
    simp only [structureAlternatives, List.mem_cons, List.not_mem_nil, or_false] at hp
    rcases hp with rfl | rfl | rfl <;> obtain ⟨b, h2, h3⟩ := inv h1 <;> cases h3 <;> exact h2

/-- The two sections with the same word do overlap: `(:constraints (and))` is a section of a domain and
a section of a problem. -/
theorem C90_constraints_shared :
    Parsable.domainConstraintsDef.parse c!"(:constraints (and))" = .ok (ConGD.and []) [] ∧
    Parsable.problemConstraintsDef.parse c!"(:constraints (and))" = .ok [] [] := ⟨rfl, rfl⟩

/-- The claim is about sections, definitions and files only.  The word `define` is not reserved, and a
domain without sections is also a goal: the atom of a predicate `define`. -/
theorem C90_define_is_a_predicate : Parsable.domain.parse c!"(define (domain d))" ≠ .err ∧
    Parsable.goalDefinition.parse c!"(define (domain d))" ≠ .err := ⟨nofun, nofun⟩

end Pddl
