import Verif.Props.Accept
import Verif.Props.Api

/-!
# C91: a text that was cut off is not read

All sections, definitions, conditions, effects and files are parenthesised forms.  If such a text is
cut off anywhere before its last parenthesis, no parser of such a form reads what is left.
-/

namespace Pddl

/-- The types whose texts are all parenthesised forms. -/
def Parsable.isForm : Parsable → Bool
  | .actionDefinition | .atomicFormulaSkeleton | .atomicFunctionSkeleton | .cEffect | .forallCEffect
  | .whenCEffect | .conGD | .con2GD | .conditionalEffect | .constants | .durativeActionDefinition
  | .durativeActionEffect | .durativeActionGoalDefinition | .derivedPredicate | .domain
  | .domainConstraintsDef | .durationConstraint | .effects | .fAssignDa | .fComp | .functionTerm
  | .functions | .goalDefinition | .goalDef | .initElements | .initElement | .lengthSpec | .metricSpec
  | .objects | .pEffect | .preconditionGoalDefinitions | .predicateDefinitions | .prefConGDs
  | .preferenceGD | .prefTimedGD | .problem | .problemConstraintsDef | .requirements
  | .simpleDurationConstraint | .structureDef | .timedEffect | .timedGD | .timeless | .types => true
  | _ => false

theorem Parsable.W_form (k : Parsable) (hk : k.isForm = true) (v : k.Item) (t : List Char)
    (h : k.W .loose v t) : Form t := by
  cases k
  all_goals first | (cases hk; done) | skip
  all_goals dsimp only [Parsable.W, Parsable.Item] at v h
  case actionDefinition => exact h.form
  case atomicFormulaSkeleton => exact h.form
  case atomicFunctionSkeleton => exact h.form
  case cEffect => exact h.form
  case forallCEffect => exact h.form
  case whenCEffect => exact h.form
  case conGD => exact h.form
  case con2GD => exact h.form
  case conditionalEffect => exact h.form
  case constants => exact TypedNamesW.form h (by decide)
  case durativeActionDefinition => exact h.form
  case durativeActionEffect => exact h.form
  case durativeActionGoalDefinition => exact h.form
  case derivedPredicate => exact h.form
  case domain => exact h.form
  case domainConstraintsDef => exact h.form (by decide) (fun _ h => h) fun _ _ h => h.form.bal
  case durationConstraint =>
    rcases h with ⟨_, rfl⟩ | ⟨d, _, h⟩
    · exact ⟨[], rfl, .nil⟩
    · exact h.form
  case effects => exact h.form
  case fAssignDa => exact h.form
  case fComp => exact h.form
  case functionTerm => exact h.form
  case functions => exact h.form
  case goalDefinition => exact h.form
  case goalDef => exact h.form (by decide) (fun _ h => h) fun _ _ h => h.form.bal
  case initElements => exact h.form
  case initElement => exact h.form
  case lengthSpec => exact h.form
  case metricSpec => exact h.form
  case objects => exact TypedNamesW.form h (by decide)
  case pEffect => exact h.form
  case preconditionGoalDefinitions => exact h.form
  case predicateDefinitions => exact NonEmptyW.form h (by decide) (fun _ h => h) fun _ _ h => h.bal
  case prefConGDs => exact h.form
  case preferenceGD => exact h.form
  case prefTimedGD => exact h.form
  case problem => exact h.form
  case problemConstraintsDef => exact h.form (by decide) (fun _ h => h) fun _ _ h => h.form.bal
  case requirements => exact h.form
  case simpleDurationConstraint => exact h.form
  case structureDef => exact h.form
  case timedEffect => exact h.form
  case timedGD => exact h.form
  case timeless => exact NonEmptyW.form h (by decide) (fun _ h => h) fun _ _ h => h.bal
  case types => exact TypedNamesW.form h (by decide)

theorem Parsable.W_bal (k : Parsable) (v : k.Item) (t : List Char) (h : k.W .loose v t) : Bal t := by
  cases hk : k.isForm with
  | true => exact (k.W_form hk v t h).bal
  | false =>
    cases k
    all_goals first | (cases hk; done) | skip
    all_goals dsimp only [Parsable.W, Parsable.Item] at v h
    all_goals first
      | exact h.bal
      | exact h.1.bal
      | (subst h; exact v.bal)
      | exact h.1.1.bal
      | (cases h with
        | number h => exact h.bal
        | fExp h _ => exact h.bal)

/-- What is consumed is layout, a form and, for a file, layout. -/
theorem Parsable.read_form (k : Parsable) (hk : k.isForm = true) {s r : List Char} {v : k.Item}
    (h : k.parse s = .ok v r) : ∃ g t r', s = g ++ (t ++ r') ∧ Gap g ∧ Form t := by
  obtain ⟨g, t, g', h1, h2, h3, _⟩ := C69_only k s v r h
  exact ⟨g, t, _, h1, h2, k.W_form hk v t h3⟩

/-- A text is layout and a form, as every text of a section, definition, condition, effect or file is.
Cut off anywhere before the last parenthesis it is not read, neither as what it was nor as anything
else of that kind. -/
theorem C91_cut (k k' : Parsable) (hk : k.isForm = true) (hk' : k'.isForm = true) (v : k.Item)
    (g t : List Char) (hg : Gap g) (h : k.W .loose v t) (p q : List Char) (e : g ++ t = p ++ q)
    (hq : q ≠ []) (v' : k'.Item) (r : List Char) : k'.parse p ≠ .ok v' r := fun h1 => by
  obtain ⟨g', t', r', rfl, hg', ht'⟩ := k'.read_form hk' h1
  have e' : g ++ (t ++ []) = g' ++ (t' ++ (r' ++ q)) := by simpa using e
  have h2 := (Form.unique hg hg' (k.W_form hk v t h) ht' e').2
  exact hq (List.append_eq_nil_iff.mp h2.symm).2

/-- The hypotheses can be met: a goal with a comment before it, cut off in its last atom. -/
example : ∃ (v : GD) (g t : List Char), Gap g ∧ Parsable.goalDefinition.W .loose v t ∧
    g ++ t = c!";x\n(and (a) (b" ++ c!"))" := by
  obtain ⟨g, t, h1, h2, h3⟩ := C26_goals c!";x\n(and (a) (b))" (.and [.atomic (.predicate (.str c!"a") []),
    .atomic (.predicate (.str c!"b") [])]) [] rfl
  exact ⟨_, g, t, h2, h3, by simpa using h1.symm⟩

/-- The same starting from a reading: whatever was read, no parser of a form reads less of it than the
form that was there. -/
theorem C91_cut_read (k k' : Parsable) (hk : k.isForm = true) (hk' : k'.isForm = true) (s r : List Char)
    (v : k.Item) (h : k.parse s = .ok v r) : ∃ x y, s = x ++ y ∧ GapEnd (y.take (y.length - r.length)) ∧
      ∀ p q, x = p ++ q → q ≠ [] → ∀ v' r', k'.parse p ≠ .ok v' r' := by
  obtain ⟨g, t, g', rfl, hg, ht, hg', _⟩ := C69_only k s v r h
  refine ⟨g ++ t, g' ++ r, by simp, by simpa using hg', fun p q e hq v' r' => ?_⟩
  exact C91_cut k k' hk hk' v g t hg ht p q e hq v' r'

/-- `from_str` as well answers no value on a text that was cut off. -/
theorem C91_from_str (k k' : Parsable) (hk : k.isForm = true) (hk' : k'.isForm = true) (v : k.Item)
    (g t : List Char) (hg : Gap g) (h : k.W .loose v t) (p q : List Char) (e : g ++ t = p ++ q)
    (hq : q ≠ []) (v' : k'.Item) (r : List Char) : k'.fromStr p ≠ .ok v' r := fun h1 => by
  cases h2 : k'.parse p with
  | ok a r' => exact C91_cut k k' hk hk' v g t hg h p q e hq a r' h2
  | _ =>
    rw [Parsable.fromStr, h2] at h1
    cases h1

/-- A text that begins with a parenthesis which is never closed is not read as any of the 73 types. -/
theorem C91_unclosed (k : Parsable) (s : List Char) (h : s.head? = some '(')
    (hs : ∀ p q, s = p ++ q → p ≠ [] → 0 < depth false p) (v : k.Item) (r : List Char) :
    k.parse s ≠ .ok v r := fun h1 => by
  obtain ⟨g, t, g', h2, hg, ht, _, hf⟩ := C69_only k s v r h1
  have hb : Bal (g ++ t) := hg.bal.append (k.W_bal v t ht)
  have hd : depth false (g ++ t) = 0 := by
    have := hb.depth []
    rwa [List.append_nil] at this
  by_cases hn : g ++ t = []
  · obtain ⟨rfl, rfl⟩ := List.append_eq_nil_iff.mp hn
    cases hk : k.isFile with
    | true =>
      have h3 : k.isForm = true := by cases k <;> first | rfl | cases hk
      exact (k.W_form h3 v _ ht).ne rfl
    | false =>
      have h3 := (api_good k (s.length + 1) s (by omega)).2
      rw [h1] at h3
      rw [hf hk] at h2
      obtain ⟨c, h4, h5⟩ := h3
      have := congrArg List.length h2
      have := congrArg List.length h4
      simp at *
      omega
  · have := hs (g ++ t) (g' ++ r) (by simpa using h2) hn
    omega

example : ∀ p q, c!"(a" = p ++ q → p ≠ [] → 0 < depth false p := by
  intro p q e hp
  match p, e with
  | [], _ => exact absurd rfl hp
  | [_], e => cases e; decide
  | [_, _], e => cases e; decide

/-- The claim is about forms.  Words can be cut: half of a name is a name. -/
theorem C91_words_can_be_cut : Parsable.term.parse c!"abc" = .ok (Term.name (.str c!"abc")) [] ∧
    Parsable.term.parse c!"ab" = .ok (Term.name (.str c!"ab")) [] := ⟨rfl, rfl⟩

end Pddl
