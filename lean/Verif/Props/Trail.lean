import Verif.Props.Edges
import Verif.Meta.ImageEffects

/-!
# C31: layout before a closing parenthesis, for all accepted texts

The theorems of `Verif/Props/Exact.lean` on this claim speak of goals and of the texts of the
grammar. Those here speak of every text that is read, and of the other forms with tight closing
parentheses: numeric expressions, comparisons, assignments, effects, durations and facts.
-/

namespace Pddl

theorem Ends.append {t : List Char} (h : Ends t) (x : List Char) : Ends (x ++ t) := by
  obtain ⟨y, c, rfl, hc⟩ := h
  exact ⟨x ++ y, c, by simp, hc⟩

/-- A text that ends with a blank does not end with something else. -/
theorem Ends.no_trail {w u g : List Char} (hw : Ends w) (hg : Gap g) (hne : g ≠ []) : u ++ g ≠ w := by
  intro e
  obtain ⟨x, c, rfl, hc⟩ := hg.ends hne
  obtain ⟨y, d, rfl, hd⟩ := hw
  have := congrArg List.getLast? e
  simp only [← List.append_assoc, List.getLast?_append, List.getLast?_singleton, Option.some_or] at this
  cases this
  rw [hc] at hd
  cases hd

theorem Items.ends {α : Type} {R : α → List Char → Prop} (hR : ∀ a t, R a t → Ends t) {as : List α} {u : List Char}
    (h : Items R as u) : Ends u := by
  induction h with
  | one h => exact hR _ _ h
  | cons _ _ _ ih => exact (ih.append _).append _

theorem Sec.tight {α : Type} {R : α → List Char → Prop} (hR : ∀ a t, R a t → Ends t) {as : List α} {u : List Char}
    (h : Sec Gap (· = []) (Items R) as u) : as = [] ∨ Ends u := by
  cases h with
  | nil => exact .inl rfl
  | cons _ h e => exact .inr (by rw [e, List.append_nil]; exact (h.ends hR).append _)

theorem NameW.ends {n : Name} {t : List Char} (h : NameW n t) : Ends t := h.1.plain.ends

theorem TermX.ends {a : Term} {t : List Char} (h : TermX a t) : Ends t := by
  cases h with
  | name h => exact h.ends
  | var _ h => exact h.ends.append ('?' :: _)
  | fn => exact ends_paren _

theorem FHeadX.ends {a : FHead} {t : List Char} (h : FHeadX a t) : Ends t := by
  cases h with
  | name h => exact h.ends
  | _ => exact ends_paren _

theorem FExpLeaf.ends {g : List Char} {v : FExp} {t : List Char} (h : FExpLeaf g v t) : Ends t := by
  cases h with
  | number h => exact h.ends
  | function _ h => exact h.ends

theorem FExpDaLeaf.ends {g : List Char} {v : FExpDa} {t : List Char} (h : FExpDaLeaf g v t) : Ends t := by
  cases h with
  | duration => exact ⟨c!"?duratio", 'n', rfl, by decide⟩
  | fExp h => exact h.ends

theorem MetricLeaf.ends {g : List Char} {v : MetricFExp} {t : List Char} (h : MetricLeaf g v t) : Ends t := by
  cases h with
  | number h => exact h.ends
  | totalTime => exact ⟨c!"total-tim", 'e', rfl, by decide⟩
  | symbol _ h => exact h.ends
  | _ => exact ends_paren _

section
variable {α : Type} {bin : BinaryOp → α → α → α} {mul : MultiOp → α → List α → α} {neg : α → α}
  {tight : Char → Bool} {Leaf : List Char → α → List Char → Prop}

theorem ArithX.ends (hl : ∀ {g v t}, Leaf g v t → Ends t) {g : List Char} {v : α} {t : List Char}
    (h : ArithX bin mul neg tight Leaf g v t) : Ends t := by
  cases h with
  | leaf h => exact hl h
  | _ => exact ends_paren _

/-- Operations have no layout before their closing parenthesis. -/
theorem ArithX.trail (hl : ∀ {g v t}, Leaf g v t → Ends t) {g0 u g : List Char} {v : α} (hg : Gap g) (hne : g ≠ [])
    (h : ArithX bin mul neg tight Leaf g0 v (paren (u ++ g))) : Leaf g0 v (paren (u ++ g)) := by
  generalize e : paren (u ++ g) = t at h
  cases h with
  | leaf h => exact h
  | @binary _ _ _ _ _ _ _ _ _ _ _ _ _ _ _ _ _ _ h =>
    refine absurd (paren_inj e) (Ends.no_trail ?_ hg hne)
    exact (((((((h.ends hl).append _).append _).append _).append _).append _).append _).append _
  | @multi _ _ _ _ _ _ _ _ _ _ _ _ _ _ _ _ _ _ h =>
    refine absurd (paren_inj e) (Ends.no_trail ?_ hg hne)
    exact (((((((h.ends fun _ _ h => h.ends hl).append _).append _).append _).append _).append _).append _).append _
  | @negative _ _ _ _ _ _ _ _ _ _ h =>
    refine absurd (paren_inj e) (Ends.no_trail ?_ hg hne)
    exact ((((h.ends hl).append _).append _).append c!"-").append _

end

theorem FHeadX.trail {h : FHead} {u g : List Char} (hg : Gap g) (hne : g ≠ []) (k : FHeadX h (Pddl.paren (u ++ g))) :
    ∃ n, h = .withTerms n [] := by
  generalize e : Pddl.paren (u ++ g) = t at k
  cases k with
  | name h =>
    subst e
    exact absurd ⟨_, rfl⟩ h.not_open
  | paren _ h => exact absurd (paren_inj e) ((h.ends.append _).no_trail hg hne)
  | @terms _ n _ _ ts _ _ _ _ h =>
    rcases h.tight (fun _ _ h => h.ends) with rfl | h
    · exact ⟨n, rfl⟩
    · exact absurd (paren_inj e) ((((h.append _).append _).append _).no_trail hg hne)

theorem FExpLeaf.trail {g0 u g : List Char} {v : FExp} (hg : Gap g) (hne : g ≠ [])
    (h : FExpLeaf g0 v (paren (u ++ g))) : ∃ n, v = .function (.withTerms n []) := by
  generalize e : paren (u ++ g) = t at h
  cases h with
  | number h =>
    subst e
    obtain ⟨c, x, hx, hc⟩ := h.head
    cases hx
    exact absurd hc (by decide)
  | function _ h =>
    subst e
    obtain ⟨n, rfl⟩ := h.trail hg hne
    exact ⟨n, rfl⟩

theorem MetricLeaf.trail {g0 u g : List Char} {v : MetricFExp} (hg : Gap g) (hne : g ≠ [])
    (h : MetricLeaf g0 v (paren (u ++ g))) : ∃ n, v = .function n [] ∨ v = .isViolated n := by
  generalize e : paren (u ++ g) = t at h
  cases h with
  | number h =>
    subst e
    obtain ⟨c, x, hx, hc⟩ := h.head
    cases hx
    exact absurd hc (by decide)
  | totalTime => exact absurd (List.cons.inj e).1 (by decide)
  | isViolated => exact ⟨_, .inr rfl⟩
  | @app _ _ f _ ns _ _ _ _ h =>
    rcases h.tight (fun _ _ h => h.ends) with rfl | h
    · exact ⟨f, .inl rfl⟩
    · exact absurd (paren_inj e) (((h.append _).append _).no_trail hg hne)
  | @symbol _ f => exact ⟨f, .inl rfl⟩

theorem OpForm.no_trail {β α γ : Type} {W : β → List Char → Prop} {X : List Char → α → List Char → Prop}
    {X' : List Char → γ → List Char → Prop} (hX : ∀ {g v t}, X' g v t → Ends t) {v : β × α × γ} {u g : List Char}
    (hg : Gap g) (hne : g ≠ []) : ¬ OpForm W X X' v (paren (u ++ g)) := by
  intro h
  generalize e : paren (u ++ g) = t at h
  cases h with
  | @mk _ _ _ _ _ _ _ _ _ _ _ _ _ _ _ _ _ _ h =>
    refine absurd (paren_inj e) (Ends.no_trail ?_ hg hne)
    exact (((((((hX h).append _).append _).append _).append _).append _).append _).append _

/-- An atom with layout before its closing parenthesis is an equality or has no arguments. -/
theorem AtomX.trail {α : Type} {R F : α → List Char → Prop} (hR : ∀ a t, R a t → Ends t) {a : AtomicFormula α}
    {u g : List Char} (hg : Gap g) (hne : g ≠ []) (h : AtomX R F a (paren (u ++ g))) :
    (∃ x y, a = .equality x y) ∨ ∃ n, a = .predicate n [] := by
  generalize e : paren (u ++ g) = t at h
  cases h with
  | equality => exact .inl ⟨_, _, rfl⟩
  | @predicate _ p _ vs _ _ _ h =>
    rcases h.tight hR with rfl | h
    · exact .inr ⟨p, rfl⟩
    · exact absurd (paren_inj e) (((h.append _).append _).no_trail hg hne)

/-- The text in parentheses that stands before the remainder is what was read. -/
theorem lead_paren {w t g r : List Char} (hg : Gap g) (e : paren w ++ r = g ++ (t ++ r)) : g = [] ∧ t = paren w := by
  cases hg with
  | nil => exact ⟨rfl, (List.append_cancel_right e).symm⟩
  | space hc => exact absurd hc (by rw [← (List.cons.inj e).1]; decide)
  | comment => exact absurd (List.cons.inj e).1 (by decide)

/-! ## Numbers -/

/-- **C31**, numeric expressions: with layout before its closing parenthesis a text in parentheses is
read as a function without arguments or not at all. -/
theorem C31_numeric_texts {u g r : List Char} {v : FExp} (hg : Gap g) (hne : g ≠ [])
    (h : parseFExp (paren (u ++ g) ++ r) = .ok v r) : ∃ n, v = .function (.withTerms n []) := by
  obtain ⟨g0, t, e, h, _⟩ := (C77_numeric_expressions _ _ _).1 h
  obtain ⟨rfl, rfl⟩ := lead_paren (h.gap fExp_arithRun) e
  exact (ArithX.trail (fun h => h.ends) hg hne h).trail hg hne

/-- **C31**, numeric expressions of durative actions. -/
theorem C31_durative_numeric_texts {u g r : List Char} {v : FExpDa} (hg : Gap g) (hne : g ≠ [])
    (h : parseFExpDa (paren (u ++ g) ++ r) = .ok v r) : ∃ n, v = .fExp (.function (.withTerms n [])) := by
  obtain ⟨g0, t, e, h, _⟩ := (C77_durative_expressions _ _ _).1 h
  obtain ⟨rfl, rfl⟩ := lead_paren (h.gap fExpDa_arithRun) e
  have h := ArithX.trail (fun h => h.ends) hg hne h
  generalize e : paren (u ++ g) = t at h
  cases h with
  | duration => exact absurd (List.cons.inj e).1 (by decide)
  | fExp h =>
    subst e
    obtain ⟨n, rfl⟩ := h.trail hg hne
    exact ⟨n, rfl⟩

example : (∃ v, parseFExpDa (paren c!"+ ?duration 1") = .ok v []) ∧ parseFExpDa c!"(+ ?duration 1 )" = .err :=
  ⟨⟨_, rfl⟩, rfl⟩

/-- **C31**, metrics. -/
theorem C31_metric_texts {u g r : List Char} {v : MetricFExp} (hg : Gap g) (hne : g ≠ [])
    (h : parseMetricFExp (paren (u ++ g) ++ r) = .ok v r) : ∃ n, v = .function n [] ∨ v = .isViolated n := by
  obtain ⟨g0, t, e, h, _⟩ := (C77_metric_expressions _ _ _).1 h
  obtain ⟨rfl, rfl⟩ := lead_paren (h.gap metric_arithRun) e
  exact (ArithX.trail (fun h => h.ends) hg hne h).trail hg hne

/-- **C31**, comparisons and assignments in durative actions: no text with layout before its closing
parenthesis is one. -/
theorem C31_false_operations {u g r : List Char} (hg : Gap g) (hne : g ≠ []) :
    (∀ v, parseFComp (paren (u ++ g) ++ r) ≠ .ok v r) ∧ ∀ v, parseFAssignDa (paren (u ++ g) ++ r) ≠ .ok v r := by
  constructor
  · rintro ⟨op, a, b⟩ h
    obtain ⟨g0, t, e, hg0, h⟩ := (C77_comparisons _ _ _ _ _).1 h
    obtain ⟨rfl, rfl⟩ := lead_paren hg0.1 e
    exact OpForm.no_trail (fun h => ArithX.ends (fun h => h.ends) h) hg hne h
  · rintro ⟨op, a, b⟩ h
    obtain ⟨g0, t, e, hg0, h⟩ := (C77_assignments _ _ _ _ _).1 h
    obtain ⟨rfl, rfl⟩ := lead_paren hg0.1 e
    exact OpForm.no_trail (fun h => ArithX.ends (fun h => h.ends) h) hg hne h

theorem noWord_gap {g : List Char} (hg : Gap g) (hne : g ≠ []) : NoWord g := by
  cases hg with
  | nil => exact absurd rfl hne
  | space hc hg => exact (Stop.word (fun c r' h => by cases h; exact .inl hc))
  | comment => exact (Stop.word (fun c r' h => by cases h; simp))

theorem noWord_more {u g : List Char} (hu : NoWord u) (hg : Gap g) : NoWord (u ++ g) := by
  cases u with
  | nil =>
    by_cases hne : g = []
    · rw [hne]; exact hu
    · exact noWord_gap hg hne
  | cons c u => exact fun d x e => hu d u (by rw [(List.cons.inj e).1])

/-- **C31**, numeric expressions: exactly which ones are read with layout before their closing
parenthesis as without it, for every text that is read. -/
theorem C31_numeric_iff {u g : List Char} {v : FExp} (h : parseFExp (paren u) = .ok v []) (hg : Gap g) (hne : g ≠ [])
    (r : List Char) : parseFExp (paren (u ++ g) ++ r) = .ok v r ↔ ∃ n, v = .function (.withTerms n []) := by
  refine ⟨C31_numeric_texts hg hne, ?_⟩
  rintro ⟨n, rfl⟩
  obtain ⟨g0, t, e, h, _⟩ := (C77_numeric_expressions _ _ _).1 h
  obtain ⟨rfl, rfl⟩ := lead_paren (r := []) (h.gap fExp_arithRun) (by simpa using e)
  refine (C77_numeric_expressions _ _ _).2 ⟨[], paren (u ++ g), rfl, ?_, .inl ⟨_, rfl⟩⟩
  generalize e : paren u = t at h
  cases h with
  | leaf h =>
    cases h with
    | function _ h =>
      cases h with
      | terms h1 h2 h3 h4 =>
        cases h4 with
        | nil h4 =>
          rw [paren_inj e]
          simp only [List.append_assoc]
          exact .leaf (.function ⟨.nil, fun _ => gapC_nil⟩ (.terms h1 h2 h3 (.nil (h4.append hg))))
        | cons _ h4 => cases h4

/-- **C31**: layout in front of the closing parenthesis of a function without arguments silently gives
it an empty list of arguments. -/
theorem C31_false_numeric {u g : List Char} {n : Name} (h : parseFExp (paren u) = .ok (.function (.simple n)) [])
    (hg : Sep g) (r : List Char) :
    parseFExp (paren (u ++ g) ++ r) = .ok (.function (.withTerms n [])) r := by
  obtain ⟨g0, t, e, h, _⟩ := (C77_numeric_expressions _ _ _).1 h
  obtain ⟨rfl, rfl⟩ := lead_paren (r := []) (h.gap fExp_arithRun) (by simpa using e)
  refine (C77_numeric_expressions _ _ _).2 ⟨[], paren (u ++ g), rfl, ?_, .inl ⟨_, rfl⟩⟩
  generalize e : paren u = t at h
  cases h with
  | leaf h =>
    cases h with
    | function _ h =>
      cases h with
      | name h => subst e; exact absurd ⟨_, rfl⟩ h.not_open
      | paren h1 h2 =>
        rw [paren_inj e]
        cases hg with
        | @mk c g hc hg =>
          have := FHeadX.terms (b := [c]) h1 h2 ⟨by simp, fun d hd => by cases List.mem_singleton.1 hd; exact hc⟩
            (.nil hg)
          simp only [List.append_assoc]
          exact .leaf (.function ⟨.nil, fun _ => gapC_nil⟩ this)

example : parseFExp (paren c!"f") = .ok (.function (.simple (Ex.nm c!"f"))) [] ∧
    parseFExp c!"(f )" = .ok (.function (.withTerms (Ex.nm c!"f") [])) [] ∧
    (∃ v, parseFExp (paren c!"+ 1 2") = .ok v []) ∧ parseFExp c!"(+ 1 2 )" = .err :=
  ⟨rfl, rfl, ⟨_, rfl⟩, rfl⟩

/-- **C31**, metrics: exactly which ones are read with layout before their closing parenthesis as
without it, for every text that is read. -/
theorem C31_metric_iff {u g : List Char} {v : MetricFExp} (h : parseMetricFExp (paren u) = .ok v []) (hg : Gap g)
    (hne : g ≠ []) (r : List Char) :
    parseMetricFExp (paren (u ++ g) ++ r) = .ok v r ↔ ∃ n, v = .function n [] ∨ v = .isViolated n := by
  refine ⟨C31_metric_texts hg hne, fun hv => ?_⟩
  obtain ⟨g0, t, e, h, _⟩ := (C77_metric_expressions _ _ _).1 h
  obtain ⟨rfl, rfl⟩ := lead_paren (r := []) (h.gap metric_arithRun) (by simpa using e)
  refine (C77_metric_expressions _ _ _).2 ⟨[], paren (u ++ g), rfl, ?_, by
    rcases hv with ⟨n, rfl | rfl⟩
    · exact .inl ⟨_, rfl⟩
    · trivial⟩
  generalize e : paren u = t at h
  cases h with
  | leaf h =>
    cases h with
    | number h => rcases hv with ⟨n, h | h⟩ <;> cases h
    | totalTime => rcases hv with ⟨n, h | h⟩ <;> cases h
    | isViolated h1 h2 h3 h4 =>
      rw [paren_inj e]
      simp only [List.append_assoc]
      exact .leaf (.isViolated h1 h2 h3 (h4.append hg))
    | app h1 h2 h3 h4 h5 h6 =>
      cases h4 with
      | nil h4 =>
        rw [paren_inj e]
        simp only [List.append_assoc]
        exact .leaf (.app h1 h2 h3 (.nil (h4.append hg)) (noWord_more h5 hg) h6)
      | cons _ h4 =>
        rcases hv with ⟨n, h | h⟩ <;> cases h
        cases h4
    | symbol _ h => subst e; exact absurd ⟨_, rfl⟩ h.not_open
  | binary => rcases hv with ⟨n, h | h⟩ <;> cases h
  | multi => rcases hv with ⟨n, h | h⟩ <;> cases h
  | negative => rcases hv with ⟨n, h | h⟩ <;> cases h

example : (∃ v, parseMetricFExp (paren c!"+ 1 total-time") = .ok v []) ∧ parseMetricFExp c!"(+ 1 total-time )" = .err :=
  ⟨⟨_, rfl⟩, rfl⟩

/-! ## Durations -/

theorem DValueX.ends {g : List Char} {v : DurationValue} {t : List Char} (h : DValueX g v t) : Ends t := by
  cases h with
  | number h => exact h.ends
  | fExp h => exact ArithX.ends (fun h => h.ends) h

/-- **C31**, durations: exactly which constraints of durations are read with layout before their closing
parenthesis as without it, for every text that is read. -/
theorem C31_durations_iff {u g : List Char} {v : SimpleDuration} (h : parseSimpleDuration (paren u) = .ok v [])
    (hg : Gap g) (hne : g ≠ []) (r : List Char) :
    parseSimpleDuration (paren (u ++ g) ++ r) = .ok v r ↔ ∃ ts d, v = .at ts d := by
  constructor
  · intro h
    obtain ⟨g0, t, e, h⟩ := (C77_duration_constraint _ _ _).1 h
    obtain ⟨rfl, rfl⟩ := lead_paren h.gap e
    generalize e : paren (u ++ g) = t at h
    cases h with
    | op _ _ _ _ _ k =>
      refine absurd (paren_inj e) (Ends.no_trail ?_ hg hne)
      exact (((((k.ends.append _).append _).append c!"?duration").append _).append _).append _
    | «at» => exact ⟨_, _, rfl⟩
  · rintro ⟨ts, d, rfl⟩
    obtain ⟨g0, t, e, h⟩ := (C77_duration_constraint _ _ _).1 h
    obtain ⟨rfl, rfl⟩ := lead_paren (r := []) h.gap (by simpa using e)
    refine (C77_duration_constraint _ _ _).2 ⟨[], paren (u ++ g), rfl, ?_⟩
    generalize e : paren u = t at h
    cases h with
    | «at» h1 h2 h3 h4 h5 h6 =>
      rw [paren_inj e]
      simp only [List.append_assoc]
      exact .at h1 h2 h3 h4 h5 (h6.append hg)

example : (∃ v, parseSimpleDuration (paren c!"= ?duration 5") = .ok v []) ∧
    parseSimpleDuration c!"(= ?duration 5 )" = .err := ⟨⟨_, rfl⟩, rfl⟩

/-! ## Facts -/

/-- The facts that do not allow layout before their closing parenthesis: predicates with arguments. -/
def InitElement.isTight : InitElement → Prop
  | .literal (.pos (.predicate _ (_ :: _))) => True
  | _ => False

/-- **C31**, initial states: exactly which facts are read with layout before their closing parenthesis
as without it, for every text that is read. -/
theorem C31_facts_iff {u g : List Char} {v : InitElement} (h : parseInitEl (paren u) = .ok v []) (hg : Gap g)
    (hne : g ≠ []) (r : List Char) : parseInitEl (paren (u ++ g) ++ r) = .ok v r ↔ ¬ v.isTight := by
  have hgap : ∀ {g0 v t}, InitX g0 v t → Gap g0 := by
    intro g0 v t h
    cases h with
    | literal h =>
      rename_i l _
      cases l with
      | neg => exact h
      | pos => exact h.gap
    | «at» h => exact h
    | isValue h => exact h
    | isObject h => exact h
  constructor
  · intro h hv
    obtain ⟨g0, t, e, h⟩ := (C77_initial_elements _ _ _).1 h
    obtain ⟨rfl, rfl⟩ := lead_paren (hgap h) e
    cases h with
    | literal _ h =>
      generalize e : paren (u ++ g) = t at h
      cases h with
      | neg => exact hv
      | pos h =>
        subst e
        rcases h.trail (fun _ _ h => NameW.ends h) hg hne with ⟨x, y, rfl⟩ | ⟨n, rfl⟩ <;> exact hv
    | _ => exact hv
  · intro hv
    obtain ⟨g0, t, e, h⟩ := (C77_initial_elements _ _ _).1 h
    obtain ⟨rfl, rfl⟩ := lead_paren (r := []) (hgap h) (by simpa using e)
    refine (C77_initial_elements _ _ _).2 ⟨[], paren (u ++ g), rfl, ?_⟩
    generalize e : paren u = t at h
    cases h with
    | literal hl h =>
      cases h with
      | neg h1 h2 h3 =>
        rw [paren_inj e]
        simp only [List.append_assoc]
        exact .literal hl (.neg h1 h2 (h3.append hg))
      | pos h =>
        cases h with
        | equality h1 h2 h3 h4 h5 h6 =>
          rw [paren_inj e]
          simp only [List.append_assoc]
          exact .literal hl (.pos (.equality h1 h2 h3 h4 h5 (h6.append hg)))
        | predicate h1 h2 h3 h4 =>
          cases h3 with
          | nil h3 =>
            rw [paren_inj e]
            simp only [List.append_assoc]
            exact .literal hl (.pos (.predicate h1 h2 (.nil (h3.append hg)) (noWord_more h4 hg)))
          | cons _ h3 => cases h3 <;> exact absurd trivial hv
    | «at» hl h =>
      cases h with
      | mk h1 h2 h3 =>
        rw [paren_inj e]
        simp only [List.append_assoc]
        exact .at hl (.mk h1 h2 (h3.append hg))
    | isValue hl h =>
      cases h with
      | mk h1 h2 h3 =>
        rw [paren_inj e]
        simp only [List.append_assoc]
        exact .isValue hl (.mk h1 h2 (h3.append hg))
    | isObject hl h =>
      cases h with
      | mk h1 h2 h3 =>
        rw [paren_inj e]
        simp only [List.append_assoc]
        exact .isObject hl (.mk h1 h2 (h3.append hg))

example : (∃ v, parseInitEl (paren c!"p a") = .ok v []) ∧ parseInitEl c!"(p a )" = .err ∧
    ∃ v, parseInitEl (paren c!"= (f a) 5") = .ok v [] ∧ parseInitEl c!"(= (f a) 5 )" = .ok v [] :=
  ⟨⟨_, rfl⟩, rfl, _, rfl, rfl⟩

/-! ## Goals -/

/-- Layout is not followed by anything else. -/
theorem gap_not_solid {g g' x : List Char} (hg : Gap g) (hg' : Gap g') (hx : Solid x) : g ≠ g' ++ x := by
  intro e
  have h1 := hg.skip_solid (solid_close [])
  rw [e, List.append_assoc, hg'.skip_solid (hx.append _)] at h1
  obtain ⟨c, y, rfl, hc⟩ := hx
  have := congrArg List.length h1
  simp at this

/-- A form of one word begins in one way only. -/
theorem lone_word {g t u g' w z : List Char} (hg : Gap g) (ht : IsWord t) (hu : Gap u) (hu' : NoWord u) (hg' : Gap g')
    (hw : IsWord w) (hz : NoWord z) (e : g ++ (t ++ u) = g' ++ (w ++ z)) : t = w ∧ Gap z := by
  have e := congrArg skip e
  rw [hg.skip_solid (ht.solid.append _), hg'.skip_solid (hw.solid.append _)] at e
  obtain ⟨rfl, rfl⟩ := word_cut ht hu' hw hz e
  exact ⟨rfl, hu⟩

theorem GDX.more {v : GD} {u g : List Char} (h : GDX v (paren u)) (hv : ¬ v.isTight) (hg : Gap g) :
    GDX v (paren (u ++ g)) := by
  generalize e : paren u = t at h
  cases h with
  | and h =>
    rw [paren_inj e, List.append_assoc]
    cases h with
    | nil h => exact .and (.nil (h.append hg))
    | cons h1 h2 h3 => simp only [List.append_assoc]; exact .and (.cons h1 h2 (h3.append hg))
  | or h =>
    rw [paren_inj e, List.append_assoc]
    cases h with
    | nil h => exact .or (.nil (h.append hg))
    | cons h1 h2 h3 => simp only [List.append_assoc]; exact .or (.cons h1 h2 (h3.append hg))
  | not h1 h2 h3 => rw [paren_inj e]; simp only [List.append_assoc]; exact .not h1 h2 (h3.append hg)
  | imply h1 h2 h3 h4 h5 => rw [paren_inj e]; simp only [List.append_assoc]; exact .imply h1 h2 h3 h4 (h5.append hg)
  | exist h1 h2 h3 h4 h5 => rw [paren_inj e]; simp only [List.append_assoc]; exact .exist h1 h2 h3 h4 (h5.append hg)
  | forall_ h1 h2 h3 h4 h5 =>
    rw [paren_inj e]; simp only [List.append_assoc]; exact .forall_ h1 h2 h3 h4 (h5.append hg)
  | atomic h hn =>
    cases h with
    | equality h1 h2 h3 h4 h5 h6 =>
      rw [paren_inj e]
      simp only [List.append_assoc]
      exact .atomic (.equality h1 h2 h3 h4 h5 (h6.append hg)) (fun h => nomatch h)
    | @predicate g0 p t vs u' h1 h2 h3 h4 =>
      cases h3 with
      | cons _ h3 => cases h3 <;> exact absurd trivial hv
      | nil h3 =>
        rw [paren_inj e]
        simp only [List.append_assoc]
        refine .atomic (.predicate h1 h2 (.nil (h3.append hg)) (noWord_more h4 hg)) fun hs => hn ?_
        have key : ∀ {kw y : List Char}, IsWord kw → p.text = kw → g0 ++ (t ++ (u' ++ g)) = kw ++ y →
            paren (g0 ++ (t ++ u')) = paren (kw ++ u') := by
          intro kw y hk hp e
          obtain rfl := gap_word h1 hk e
          rw [h2.text] at hp
          rw [hp]; rfl
        generalize hT : paren (g0 ++ (t ++ (u' ++ g))) = T at hs
        cases hs with
        | and hp ha =>
          rw [key isWord_and hp (paren_inj hT)]
          exact .and hp ha
        | or hp ha =>
          rw [key isWord_or hp (paren_inj hT)]
          exact .or hp ha
  | fComp => exact absurd trivial hv

/-- **C31**, goals: exactly which goals are read with layout before their closing parenthesis as
without it, for every text that is read. -/
theorem C31_all_goals_iff {u g : List Char} {v : GD} (h : parseGd (paren u) = .ok v []) (hg : Gap g) (hne : g ≠ [])
    (r : List Char) : parseGd (paren (u ++ g) ++ r) = .ok v r ↔ ¬ v.isTight := by
  constructor
  · intro h hv
    obtain ⟨g0, t, e, h⟩ := (goal_texts.iff _ _ _).1 h
    obtain ⟨rfl, rfl⟩ := lead_paren (goal_texts.gap h) e
    have h := h.2
    generalize e : paren (u ++ g) = t at h
    cases h with
    | atomic h _ =>
      subst e
      rcases h.trail (fun _ _ h => TermX.ends h) hg hne with ⟨x, y, rfl⟩ | ⟨n, rfl⟩ <;> exact hv
    | fComp h =>
      subst e
      exact OpForm.no_trail (fun h => ArithX.ends (fun h => h.ends) h) hg hne h
    | _ => exact hv
  · intro hv
    obtain ⟨g0, t, e, h⟩ := (goal_texts.iff _ _ _).1 h
    obtain ⟨rfl, rfl⟩ := lead_paren (r := []) (goal_texts.gap h) (by simpa using e)
    exact (goal_texts.iff _ _ _).2 ⟨[], paren (u ++ g), rfl, h.1, h.2.more hv hg⟩

example (r : List Char) : parseGd (c!"(and (p ?x) )" ++ r) =
    .ok (.and [.atomic (.predicate (Name.new c!"p") [.var (Name.new c!"x")])]) r :=
  (C31_all_goals_iff (u := c!"and (p ?x)") (g := c!" ") rfl (.space (by decide) .nil) (by decide) r).2 fun h => h

example (r : List Char) : parseGd (c!"(p ?x )" ++ r) ≠
    .ok (.atomic (.predicate (Name.new c!"p") [.var (Name.new c!"x")])) r := fun h =>
  (C31_all_goals_iff (u := c!"p ?x") (g := c!" ") rfl (.space (by decide) .nil) (by decide) r).1 h trivial

/-! ## Effects -/

/-- The simple effects that do not allow layout before their closing parenthesis: predicates with
arguments and updates of numbers. -/
def PEffect.isTight : PEffect → Prop
  | .atomic (.predicate _ (_ :: _)) => True
  | .assignNumeric _ _ _ => True
  | _ => False

theorem sp_cut {b b' x x' : List Char} (hb : Sp0 b) (hb' : Sp0 b') (hx : ∀ c y, x = c :: y → isBlank c = false)
    (hx' : ∀ c y, x' = c :: y → isBlank c = false) (e : b ++ x = b' ++ x') : b = b' ∧ x = x' := by
  have hn : ∀ {r : List Char}, (∀ c y, r = c :: y → isBlank c = false) → r.takeWhile isBlank = [] := by
    intro r hr
    cases r with
    | nil => rfl
    | cons c r => rw [List.takeWhile_cons, hr c r rfl]; rfl
  have h := congrArg (List.takeWhile isBlank) e
  rw [List.takeWhile_append_of_pos hb, List.takeWhile_append_of_pos hb', hn hx, hn hx',
    List.append_nil, List.append_nil] at h
  subst h
  exact ⟨rfl, List.append_cancel_left e⟩

theorem noWord_gap_open {g : List Char} (hg : Gap g) (x : List Char) : NoWord (g ++ paren x) := by
  cases hg with
  | nil => intro c r e; cases e; rfl
  | space hc hg => exact (Stop.word (fun c r' h => by cases h; exact .inl hc))
  | comment => exact (Stop.word (fun c r' h => by cases h; simp))

/-- A form of one word has no part that is a form. -/
theorem lone_no_form {g t u kw g1 x y : List Char} (hg : Gap g) (ht : IsWord t) (hu : Gap u) (hw : NoWord u)
    (hk : IsWord kw) (h1 : Gap g1) (hx : Form x) : g ++ (t ++ u) ≠ kw ++ (g1 ++ (x ++ y)) := by
  intro e
  obtain ⟨w, rfl, _⟩ := hx
  have hnw : NoWord (g1 ++ (paren w ++ y)) := by
    have := noWord_gap_open h1 (w ++ ')' :: y)
    intro c r e
    cases g1 with
    | nil => cases e; rfl
    | cons d g1 =>
      rw [← (List.cons.inj e).1]
      exact this d _ rfl
  obtain ⟨_, hz⟩ := lone_word hg ht hu hw .nil hk hnw (by simpa using e)
  exact gap_not_solid hz h1 ((solid_paren w).append y) rfl

theorem PEffX.more {v : PEffect} {u g : List Char} (h : PEffX [] v (paren u)) (hv : ¬ v.isTight) (hg : Gap g) :
    PEffX [] v (paren (u ++ g)) := by
  generalize e : paren u = t at h
  cases h with
  | notAtomic _ h =>
    obtain ⟨g1, x, g2, rfl, h1, h2, h3⟩ := h
    rw [paren_inj e]
    exact .notAtomic .nil ⟨g1, x, g2 ++ g, by simp only [List.append_assoc], h1, h2, h3.append hg⟩
  | undefined _ h =>
    obtain ⟨g1, x, b, g2, rfl, h1, h2, h3, h4⟩ := h
    rw [paren_inj e]
    exact .undefined .nil ⟨g1, x, b, g2 ++ g, by simp only [List.append_assoc], h1, h2, h3, h4.append hg⟩
  | @object _ f o _ h hn =>
    obtain ⟨g1, x, b, gc, y, g2, rfl, h1, h2, h3, h4, h5, h6, h7⟩ := h
    rw [paren_inj e]
    refine .object .nil ⟨g1, x, b, gc, y, g2 ++ g, by simp only [List.append_assoc], h1, h2, h3, h4, h5, h6,
      h7.append hg⟩ ?_
    rintro f' ⟨g1', x', b', g2', e', k1, k2, k3, k4⟩
    have e' := paren_inj e'
    simp only [List.append_assoc] at e'
    obtain ⟨rfl, rfl, e1⟩ := form_split h1 (fnTermX_form h2) k1 (fnTermX_form k2) (List.append_cancel_left e')
    obtain ⟨rfl, e2⟩ := sp_cut (x := gc ++ (y ++ (g2 ++ g))) (x' := c!"undefined" ++ g2') h3.2 k3.2 (by
      intro c z hz
      have h4' := h4.2
      cases gc with
      | nil =>
        obtain ⟨d, w, rfl, hd, _⟩ := termX_solid h6
        cases hz
        exact hd
      | cons d w =>
        cases hz
        rw [h4' _ _ rfl]; rfl) (by intro c z hz; cases hz; rfl) e1
    obtain rfl := gap_letter (c := 'u') h4.1 (by decide) e2
    have hy : y = c!"undefined" := by
      cases h6 with
      | name h =>
        refine (word_cut h.1 ?_ (isWord_of _ _ (by decide) (by decide)) ?_ e2).1
        · by_cases hz : g2 ++ g = []
          · rw [hz]; exact fun c r h => nomatch h
          · exact noWord_gap (h7.append hg) hz
        · by_cases hz : g2' = []
          · rw [hz]; exact fun c r h => nomatch h
          · exact noWord_gap k4 hz
      | var => cases e2
      | fn => cases e2
    subst hy
    exact hn _ ⟨g1, x, b, g2, rfl, h1, h2, h3, h7⟩
  | numeric => exact absurd trivial hv
  | atomic _ h n1 n2 n3 n4 =>
    cases h with
    | equality h1 h2 h3 h4 h5 h6 =>
      have hh := paren_inj e
      rw [hh]
      simp only [List.append_assoc]
      refine .atomic (.nil _) (.equality h1 h2 h3 h4 h5 (h6.append hg)) ?_ ?_ ?_ fun op k e h =>
        numeric_no_equality h (.equality h1 h2 h3 h4 h5 (h6.append hg))
      · rintro a ⟨_, _, _, e, _⟩
        exact absurd (List.cons.inj (paren_inj e)).1 (by decide)
      · rintro a ⟨_, _, _, _, e, _⟩
        exact absurd (List.cons.inj (paren_inj e)).1 (by decide)
      · rintro a b ⟨_, _, _, _, _, _, e, _⟩
        exact absurd (List.cons.inj (paren_inj e)).1 (by decide)
    | @predicate g0 p t vs u' h1 h2 h3 h4 =>
      cases h3 with
      | cons _ h3 => cases h3 <;> exact absurd trivial hv
      | nil h3 =>
        rw [paren_inj e]
        simp only [List.append_assoc]
        have hu := h3.append hg
        have hw := noWord_more h4 hg
        have form : ∀ {kw g1 x y : List Char}, IsWord kw → Gap g1 → Form x →
            g0 ++ (t ++ (u' ++ g)) ≠ kw ++ (g1 ++ (x ++ y)) := fun hk h5 hx => lone_no_form h1 h2.1 hu hw hk h5 hx
        refine .atomic ⟨.nil, fun _ _ e => nomatch e⟩ (.predicate h1 h2 (.nil hu) hw) ?_ ?_ ?_ ?_
        · rintro a ⟨g1, x, g2, e, h5, h6, _⟩
          exact form isWord_not h5 (atom_texts.form (g := []) ⟨.nil a, h6⟩) (paren_inj e)
        · rintro f ⟨g1, x, b, g2, e, h5, h6, _⟩
          exact form (isWord_of _ _ (by decide) (by decide)) h5 (fnTermX_form h6) (paren_inj e)
        · rintro f o ⟨g1, x, b, g', y, g2, e, h5, h6, _⟩
          exact form (isWord_of _ _ (by decide) (by decide)) h5 (fnTermX_form h6) (paren_inj e)
        · intro op k e h
          generalize hT : paren (g0 ++ (t ++ (u' ++ g))) = T at h
          cases h with
          | mk k1 k2 k3 k4 k5 k6 k7 k8 =>
            obtain ⟨_, hz⟩ := lone_word h1 h2.1 hu hw k1 k2.word (sp_noWord k3) (paren_inj hT)
            have hs : Gap _ := (show Sp _ from k3).sep.gap
            refine gap_not_solid hz (hs.append k4.1) (x := _) ?_ (by rw [List.append_assoc])
            exact Solid.append (by
              cases k5.2 with
              | name h => exact h.1.solid
              | paren => exact solid_paren _
              | terms => exact solid_paren _) _

/-- **C31**, simple effects: exactly which ones are read with layout before their closing parenthesis as
without it, for every text that is read. -/
theorem C31_simple_effects_iff {u g : List Char} {v : PEffect} (h : parsePEffect (paren u) = .ok v []) (hg : Gap g)
    (hne : g ≠ []) (r : List Char) : parsePEffect (paren (u ++ g) ++ r) = .ok v r ↔ ¬ v.isTight := by
  constructor
  · intro h hv
    obtain ⟨g0, t, e, h⟩ := (pEffect_texts.iff _ _ _).1 h
    obtain ⟨rfl, rfl⟩ := lead_paren (pEffect_texts.gap h) e
    cases h with
    | atomic _ h =>
      rcases h.trail (fun _ _ h => TermX.ends h) hg hne with ⟨x, y, rfl⟩ | ⟨n, rfl⟩ <;> exact hv
    | numeric _ h => exact OpForm.no_trail (fun h => ArithX.ends (fun h => h.ends) h) hg hne h
    | _ => exact hv
  · intro hv
    obtain ⟨g0, t, e, h⟩ := (pEffect_texts.iff _ _ _).1 h
    obtain ⟨rfl, rfl⟩ := lead_paren (r := []) (pEffect_texts.gap h) (by simpa using e)
    exact (pEffect_texts.iff _ _ _).2 ⟨[], paren (u ++ g), rfl, h.more hv hg⟩

example (r : List Char) : parsePEffect (c!"(not (p ?x) )" ++ r) =
    .ok (.notAtomic (.predicate (Name.new c!"p") [.var (Name.new c!"x")])) r :=
  (C31_simple_effects_iff (u := c!"not (p ?x)") (g := c!" ") rfl (.space (by decide) .nil) (by decide) r).2 fun h => h

example (r : List Char) : parsePEffect (c!"(assign (f ?x) a )" ++ r) =
    .ok (.assignObject (.mk (Name.new c!"f") [.var (Name.new c!"x")]) (some (.name (Name.new c!"a")))) r :=
  (C31_simple_effects_iff (u := c!"assign (f ?x) a") (g := c!" ") rfl (.space (by decide) .nil) (by decide) r).2
    fun h => h

/-- The effects that do not allow layout before their closing parenthesis. -/
def CEffect.isTight : CEffect → Prop
  | .effect e => e.isTight
  | _ => False

theorem CEffX.more {v : CEffect} {u g : List Char} (h : CEffX [] v (paren u)) (hv : ¬ v.isTight) (hg : Gap g) :
    CEffX [] v (paren (u ++ g)) := by
  generalize e : paren u = t at h
  cases h with
  | forall_ _ h1 h2 h3 h4 h5 =>
    rw [paren_inj e]
    simp only [List.append_assoc]
    exact .forall_ .nil h1 h2 h3 h4 (h5.append hg)
  | when _ h =>
    obtain ⟨g1, x, g2, y, g3, rfl, h1, h2, h3, h4, h5⟩ := h
    rw [paren_inj e]
    exact .when .nil ⟨g1, x, g2, y, g3 ++ g, by simp only [List.append_assoc], h1, h2, h3, h4, h5.append hg⟩
  | effect h hn =>
    subst e
    refine .effect (h.more hv hg) ?_
    rintro c b ⟨g1, x, g2, y, g3, e', k1, k2, k3, k4, k5⟩
    have e' := paren_inj e'
    generalize e : paren u = t at h
    cases h with
    | notAtomic _ h =>
      obtain ⟨_, _, _, rfl, _⟩ := h
      rw [paren_inj e] at e'
      exact absurd (List.cons.inj e').1 (by decide)
    | undefined _ h =>
      obtain ⟨_, _, _, _, rfl, _⟩ := h
      rw [paren_inj e] at e'
      exact absurd (List.cons.inj e').1 (by decide)
    | object _ h =>
      obtain ⟨_, _, _, _, _, _, rfl, _⟩ := h
      rw [paren_inj e] at e'
      exact absurd (List.cons.inj e').1 (by decide)
    | numeric => exact hv trivial
    | atomic _ h =>
      cases h with
      | equality =>
        rw [paren_inj e] at e'
        exact absurd (List.cons.inj e').1 (by decide)
      | predicate h1 h2 h3 h4 =>
        cases h3 with
        | cons _ h3 => cases h3 <;> exact hv trivial
        | nil h3 =>
          rw [paren_inj e] at e'
          simp only [List.append_assoc] at e'
          exact lone_no_form h1 h2.1 (h3.append hg) (noWord_more h4 hg) isWord_when k1
            (goal_texts.form (g := []) ⟨.nil c, k2⟩) e'

/-- **C31**, effects: exactly which ones are read with layout before their closing parenthesis as
without it, for every text that is read. -/
theorem C31_effects_iff {u g : List Char} {v : CEffect} (h : parseCEffect (paren u) = .ok v []) (hg : Gap g)
    (hne : g ≠ []) (r : List Char) : parseCEffect (paren (u ++ g) ++ r) = .ok v r ↔ ¬ v.isTight := by
  constructor
  · intro h hv
    obtain ⟨g0, t, e, h⟩ := (cEffect_texts.iff _ _ _).1 h
    obtain ⟨rfl, rfl⟩ := lead_paren (cEffect_texts.gap h) e
    generalize e1 : paren (u ++ g) = t at h
    cases h with
    | effect h =>
      subst e1
      cases h with
      | atomic _ h =>
        rcases h.trail (fun _ _ h => TermX.ends h) hg hne with ⟨x, y, rfl⟩ | ⟨n, rfl⟩ <;> exact hv
      | numeric _ h => exact OpForm.no_trail (fun h => ArithX.ends (fun h => h.ends) h) hg hne h
      | _ => exact hv
    | _ => exact hv
  · intro hv
    obtain ⟨g0, t, e, h⟩ := (cEffect_texts.iff _ _ _).1 h
    obtain ⟨rfl, rfl⟩ := lead_paren (r := []) (cEffect_texts.gap h) (by simpa using e)
    exact (cEffect_texts.iff _ _ _).2 ⟨[], paren (u ++ g), rfl, h.more hv hg⟩

example (r : List Char) : parseCEffect (c!"(p ?x )" ++ r) ≠
    .ok (.effect (.atomic (.predicate (Name.new c!"p") [.var (Name.new c!"x")]))) r := fun h =>
  (C31_effects_iff (u := c!"p ?x") (g := c!" ") rfl (.space (by decide) .nil) (by decide) r).1 h trivial

/-- The timed effects that do not allow layout before their closing parenthesis: continuous changes. -/
def TimedEffect.isTight : TimedEffect → Prop
  | .continuous _ _ _ => True
  | _ => False

theorem FExpTX.ends {g : List Char} {v : FExpT} {t : List Char} (h : FExpTX g v t) : Ends t := by
  cases h with
  | now => exact ⟨['#'], 't', rfl, by decide⟩
  | scaled _ h => cases h; exact ends_paren _

theorem TimedEffX.more {v : TimedEffect} {u g : List Char} (h : TimedEffX [] v (paren u)) (hv : ¬ v.isTight)
    (hg : Gap g) : TimedEffX [] v (paren (u ++ g)) := by
  generalize e : paren u = t at h
  cases h with
  | assign _ h =>
    obtain ⟨g1, x, g2, y, g3, rfl, h1, h2, h3, h4, h5⟩ := h
    rw [paren_inj e]
    exact .assign .nil ⟨g1, x, g2, y, g3 ++ g, by simp only [List.append_assoc], h1, h2, h3, h4, h5.append hg⟩
  | conditional _ h hn =>
    obtain ⟨g1, x, g2, y, g3, rfl, h1, rfl, h3, h4, h5⟩ := h
    rw [paren_inj e]
    refine .conditional .nil ⟨g1, _, g2, y, g3 ++ g, by simp only [List.append_assoc], h1, rfl, h3, h4, h5.append hg⟩ ?_
    rintro ts a ⟨k1, x, k2, z, k3, e', j1, rfl, j3, j4, j5⟩
    obtain ⟨rfl, rfl⟩ := at_form_unique (ts' := ts) (k2 := g3 ++ g) (j2 := k3) h1 h3 (condEffect_texts.form h4) j1 j3
      (assignDa_texts.form (g := []) ⟨gapC_nil, j4⟩) (by
        simp only [List.append_assoc] at e'
        exact e')
    exact hn _ a ⟨g1, _, g2, y, g3, rfl, h1, rfl, h3, j4, h5⟩
  | continuous => exact absurd trivial hv

/-- **C31**, timed effects: exactly which ones are read with layout before their closing parenthesis as
without it, for every text that is read. -/
theorem C31_timed_effects_iff {u g : List Char} {v : TimedEffect} (h : parseTimedEffect (paren u) = .ok v [])
    (hg : Gap g) (hne : g ≠ []) (r : List Char) :
    parseTimedEffect (paren (u ++ g) ++ r) = .ok v r ↔ ¬ v.isTight := by
  constructor
  · intro h hv
    obtain ⟨g0, t, e, h⟩ := (timedEffect_texts.iff _ _ _).1 h
    obtain ⟨rfl, rfl⟩ := lead_paren (timedEffect_texts.gap h) e
    cases h with
    | continuous _ h => exact OpForm.no_trail (fun h => h.ends) hg hne h
    | _ => exact hv
  · intro hv
    obtain ⟨g0, t, e, h⟩ := (timedEffect_texts.iff _ _ _).1 h
    obtain ⟨rfl, rfl⟩ := lead_paren (r := []) (timedEffect_texts.gap h) (by simpa using e)
    exact (timedEffect_texts.iff _ _ _).2 ⟨[], paren (u ++ g), rfl, h.more hv hg⟩

example (r : List Char) : parseTimedEffect (c!"(at end (p) )" ++ r) =
    .ok (.conditional .end_ (.single (.atomic (.predicate (Name.new c!"p") [])))) r :=
  (C31_timed_effects_iff (u := c!"at end (p)") (g := c!" ") rfl (.space (by decide) .nil) (by decide) r).2 fun h => h

end Pddl
