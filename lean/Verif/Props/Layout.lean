import Verif.Props.Shape

/-!
# Properties: layout (C29, C30, C31, C48)
-/

namespace Pddl

/-! ## C29: layout in front -/

/-- Layout in front of the text changes neither the outcome nor the remaining text. -/
def LeadBlind (p : P α) : Prop := ∀ g s, Gap g → p (g ++ s) = p s

theorem LeadBlind.ws {p : P α} : LeadBlind (Pddl.ws p) := fun g s hg => by
  rw [ws_eq, ws_eq, hg.skip]
theorem LeadBlind.map {f : α → β} {p : P α} (h : LeadBlind p) : LeadBlind (Pddl.map f p) :=
  fun g s hg => by simp only [Pddl.map, h g s hg]
theorem LeadBlind.prefixExpr {kw : List Char} {p : P α} : LeadBlind (Pddl.prefixExpr kw p) :=
  fun g s hg => by rw [← prefixExpr_skip, hg.skip, prefixExpr_skip]
theorem LeadBlind.alt {ps : List (P α)} (h : ∀ p ∈ ps, LeadBlind p) : LeadBlind (Pddl.alt ps) := by
  induction ps with
  | nil => exact fun _ _ _ => rfl
  | cons p ps ih =>
    intro g s hg
    have h1 := h p (by simp) g s hg
    have h2 := ih (fun q hq => h q (by simp [hq])) g s hg
    simp only [Pddl.alt, h1, h2]

/-- Closes goals about forms whose alternatives all begin with a keyword. -/
macro "lead" : tactic => `(tactic| repeat first
  | exact LeadBlind.prefixExpr
  | apply LeadBlind.map
  | (apply LeadBlind.alt; simp only [List.mem_cons, List.not_mem_nil, or_false, forall_eq_or_imp, forall_eq]
     refine ⟨?_, ?_⟩)
  | refine ⟨?_, ?_⟩
  | assumption)

theorem C29_names : LeadBlind parseName := LeadBlind.ws.map
/-- Every form introduced by a keyword. -/
theorem C29_keyword_forms (kw : List Char) (p : P α) : LeadBlind (prefixExpr kw p) := .prefixExpr
theorem C29_actions : LeadBlind parseActionDef := by unfold parseActionDef; lead
theorem C29_derived : LeadBlind parseDerivedPredicate := by unfold parseDerivedPredicate; lead
theorem C29_durative : LeadBlind parseDaDef := by unfold parseDaDef; lead
theorem C29_structures : LeadBlind parseStructureDef := by
  have h1 := C29_actions
  have h2 := C29_derived
  have h3 := C29_durative
  unfold parseStructureDef
  lead
theorem C29_timed_goals : LeadBlind parseTimedGd := by unfold parseTimedGd; lead
theorem C29_pref_timed_goals : LeadBlind parsePrefTimedGd := by
  have h1 := C29_timed_goals
  unfold parsePrefTimedGd
  lead
theorem C29_da_conditions : LeadBlind parseDaGd := by
  have h1 := C29_pref_timed_goals
  rw [parseDaGd_eq]
  unfold daGdBody
  lead
theorem C29_constraints : LeadBlind parseConGd := by
  rw [parseConGd_eq]
  unfold conGdBody
  lead
theorem C29_pref_constraints : LeadBlind parsePrefConGd := by
  have h1 := C29_constraints
  rw [parsePrefConGd_eq]
  unfold prefConGdBody
  lead
theorem C29_requirements : LeadBlind parseRequireDef := by unfold parseRequireDef; lead
theorem C29_types : LeadBlind parseTypesDef := by unfold parseTypesDef; lead
theorem C29_constants : LeadBlind parseConstantsDef := by unfold parseConstantsDef; lead
theorem C29_predicates : LeadBlind parsePredicatesDef := by unfold parsePredicatesDef; lead
theorem C29_functions : LeadBlind parseFunctionsDef := by unfold parseFunctionsDef; lead
theorem C29_domain_constraints : LeadBlind parseDomainConstraintsDef := by
  unfold parseDomainConstraintsDef; lead
theorem C29_objects : LeadBlind parseProblemObjectsDeclaration := by
  unfold parseProblemObjectsDeclaration; lead
theorem C29_init : LeadBlind parseProblemInitDef := by unfold parseProblemInitDef; lead
theorem C29_goal_section : LeadBlind parseProblemGoalDef := by unfold parseProblemGoalDef; lead
theorem C29_problem_constraints : LeadBlind parseProblemConstraintsDef := by
  unfold parseProblemConstraintsDef; lead
theorem C29_metric : LeadBlind parseProblemMetricSpec := by unfold parseProblemMetricSpec; lead
theorem C29_length : LeadBlind parseProblemLengthSpec := by unfold parseProblemLengthSpec; lead

theorem ws2_lead {p : P α} : LeadBlind (ws2 p) := fun g s hg => by
  have hx : ∀ s, preceded multispace0 ignoreEolComment s = .ok () (skip s) := by
    intro s
    simp only [preceded, multispace0, takeWhile0, Res.bind, eol_eq, skip]
  simp only [ws2, delimited]
  rw [show ∀ (q : P α) s, preceded (preceded multispace0 ignoreEolComment) q s = q (skip s) from
    fun q s => by rw [preceded, hx]; rfl]
  rw [show ∀ (q : P α) s, preceded (preceded multispace0 ignoreEolComment) q s = q (skip s) from
    fun q s => by rw [preceded, hx]; rfl, hg.skip]

theorem C29_domains : LeadBlind parseDomain := by unfold parseDomain; exact ws2_lead.map
theorem C29_problems : LeadBlind parseProblem := by unfold parseProblem; exact ws2_lead.map

/-- The text left after a domain or problem does not begin with layout. -/
theorem C29_trailing {s r : List Char} :
    (∀ d, parseDomain s = .ok d r → ∀ g r', r = g ++ r' → Gap g → g = []) ∧
    (∀ d, parseProblem s = .ok d r → ∀ g r', r = g ++ r' → Gap g → g = []) := by
  have key : ∀ y, r = skip y → ∀ g r', r = g ++ r' → Gap g → g = [] := by
    intro y hy g r' e hg
    have h1 : skip r = r := by rw [hy, skip_skip]
    have h2 := skip_length r'
    rw [e, hg.skip] at h1
    rw [h1, List.length_append] at h2
    exact List.eq_nil_of_length_eq_zero (by omega)
  constructor
  · intro d h
    obtain ⟨x, h1, _⟩ := map_ok h
    obtain ⟨y, _, h2⟩ := ws2_inv h1
    exact key y h2
  · intro d h
    obtain ⟨x, h1, _⟩ := map_ok h
    obtain ⟨y, _, h2⟩ := ws2_inv h1
    exact key y h2

/-- A comment that ends with the text is consumed as well. -/
theorem C29_trailing_comment {d : Domain} {s : List Char} (h : DomainW .strict d s) {g : List Char}
    (hg : GapEnd g) : parseDomain (s ++ g) = .ok d [] := by
  have h1 := C24_domains h .nil g
  have : skip g = [] := by
    cases hg with
    | gap hg =>
      have := hg.skip []
      rwa [List.append_nil] at this
    | comment hg hb hbody =>
      have := skip_comment_end hb hbody (r := []) (by simp)
      rw [List.append_nil] at this
      rw [hg.skip, skip_semicolon, this]
      rfl
  rwa [this] at h1

theorem alt_lead {ps qs : List (P α)} (hp : ∀ p ∈ ps, LeadBlind p) {g s : List Char} {v : α} {r}
    (hg : Gap g) (h : alt (ps ++ qs) s = .ok v r) (hq : alt qs s ≠ .ok v r) :
    alt (ps ++ qs) (g ++ s) = .ok v r := by
  induction ps with
  | nil => exact absurd h hq
  | cons p ps ih =>
    have h1 := hp p (by simp) g s hg
    rw [List.cons_append] at h ⊢
    rcases alt_inv h with h | ⟨h2, h⟩
    · exact alt_hit (by rw [h1, h])
    · rw [alt_miss (by rw [h1, h2])]
      exact ih (fun q hq => hp q (by simp [hq])) h

/-- Atoms and comparisons. -/
def GD.isFlat : GD → Prop
  | .atomic _ => True
  | .fComp _ => True
  | .literal _ => True
  | _ => False

/-- Connectives and quantifiers; for atoms see `C29_atom_false`. -/
theorem C29_goals {g s : List Char} {v : GD} {r : List Char} (hg : Gap g)
    (h : parseGd s = .ok v r) (hv : ¬ v.isFlat) : parseGd (g ++ s) = .ok v r := by
  rw [parseGd_eq] at h ⊢
  refine alt_lead (ps := [_, _, _, _, _, _]) (qs := [_, _, _]) ?_ hg h fun h' => hv ?_
  · simp only [List.mem_cons, List.not_mem_nil, or_false, forall_eq_or_imp, forall_eq]
    exact ⟨.map .prefixExpr, .map .prefixExpr, .map .prefixExpr, .map .prefixExpr, .map .prefixExpr,
      .map .prefixExpr⟩
  · rcases alt_inv h' with h | ⟨_, h'⟩
    · obtain ⟨_, _, rfl⟩ := map_ok h
      trivial
    rcases alt_inv h' with h | ⟨_, h'⟩
    · obtain ⟨_, _, rfl⟩ := map_ok h
      trivial
    rcases alt_inv h' with h | ⟨_, h'⟩
    · obtain ⟨_, _, rfl⟩ := map_ok h
      trivial
    · cases h'

/-- Conditional and universal effects. -/
theorem C29_effects {g s : List Char} {v : CEffect} {r : List Char} (hg : Gap g)
    (h : parseCEffect s = .ok v r) (hv : ∀ e, v ≠ .effect e) : parseCEffect (g ++ s) = .ok v r := by
  rw [parseCEffect_eq] at h ⊢
  refine alt_lead (ps := [_, _]) (qs := [_]) ?_ hg h fun h' => ?_
  · simp only [List.mem_cons, List.not_mem_nil, or_false, forall_eq_or_imp, forall_eq]
    exact ⟨.map .prefixExpr, .map .prefixExpr⟩
  · rcases alt_inv h' with h | ⟨_, h'⟩
    · obtain ⟨_, _, e⟩ := map_ok h
      exact hv _ e
    · cases h'

/-- Atoms are not keyword forms, and layout in front of them is not skipped by the parsers
themselves (only by the forms around them). -/
theorem C29_atom_false : ∃ v, parseGd c!"(p)" = .ok v [] ∧ parseGd c!" (p)" = .err :=
  ⟨.atomic (Ex.atom c!"p" []), rfl, rfl⟩

example : parseGd c!" ; c\n (and (p))" = .ok (.and [.atomic (Ex.atom c!"p" [])]) [] :=
  C29_goals (g := c!" ; c\n ") (.space rfl (.comment (b := ' ') (body := c!"c") rfl (by decide) rfl (.space rfl .nil)))
    rfl fun h => h

/-! ## C30: comments without text -/

theorem ws2_skip {p : P α} {s : List Char} (h : p (skip s) = .err) : ws2 p s = .err := by
  have hx : preceded multispace0 ignoreEolComment s = .ok () (skip s) := by
    simp only [preceded, multispace0, takeWhile0, Res.bind, eol_eq, skip]
  simp only [ws2, delimited, preceded, terminated] at hx ⊢
  rw [hx]
  simp only [Res.bind]
  rw [h]

/-- `;` directly followed by the end of the line is not a comment to the parsers: no name, keyword
form, domain or problem is found after it, whatever follows. -/
theorem C30_false (s : List Char) :
    parseName (c!";\n" ++ s) = .err ∧
      (∀ {α} (kw) (p : P α), prefixExpr kw p (c!";\n" ++ s) = .err) ∧
      parseDomain (c!";\n" ++ s) = .err ∧ parseProblem (c!";\n" ++ s) = .err := by
  have h : skip (c!";\n" ++ s) = ';' :: '\n' :: s := by
    show skip (';' :: '\n' :: s) = _
    rw [skip_semicolon, skipC_empty rfl]
  have hp : ∀ {α} (kw) (p : P α), prefixExpr kw p (c!";\n" ++ s) = .err := by
    intro α kw p
    have h' : skip (';' :: '\n' :: s) = ';' :: '\n' :: s := h
    show prefixExpr kw p (';' :: '\n' :: s) = .err
    simp [prefixExpr, delimited, preceded, ws_eq, h', tag, stripPrefix, Res.bind]
  have hd : ∀ {α} (p : P α), ws2 (prefixExpr c!"define" p) (c!";\n" ++ s) = .err := fun p =>
    ws2_skip (by rw [prefixExpr_skip, hp])
  refine ⟨by rw [parseName_eq, h]; rfl, hp, ?_, ?_⟩
  · rw [parseDomain, map, hd]; rfl
  · rw [parseProblem, map, hd]; rfl

/-- Only comments without text are not skipped: a comment line with at least one character after `;`
is skipped (the property asks for this without the condition). -/
theorem C30_partial {b : Char} {body : List Char} {n : Char} (hb : isNewline b = false)
    (hbody : ∀ c ∈ body, isNewline c = false) (hn : isNewline n = true) (s : List Char) :
    parseName (';' :: b :: (body ++ n :: s)) = parseName s ∧
      parseDomain (';' :: b :: (body ++ n :: s)) = parseDomain s ∧
      parseProblem (';' :: b :: (body ++ n :: s)) = parseProblem s ∧
      ∀ {α} (kw) (p : P α), prefixExpr kw p (';' :: b :: (body ++ n :: s)) = prefixExpr kw p s := by
  have hg : Gap (';' :: b :: (body ++ [n])) := .comment hb hbody hn .nil
  have e : ';' :: b :: (body ++ n :: s) = (';' :: b :: (body ++ [n])) ++ s := by simp
  rw [e]
  exact ⟨C29_names _ _ hg, C29_domains _ _ hg, C29_problems _ _ hg, fun kw p => C29_keyword_forms kw p _ _ hg⟩

example : parseName c!"; \nx" = .ok (.new c!"x") [] ∧ parseName c!";\nx" = .err := by decide +kernel

/-! ## C31: layout before a closing parenthesis -/

/-- In an atom with arguments a space before `)` makes the parse fail. -/
theorem C31_false : ∃ v, parseGd c!"(p a)" = .ok v [] ∧ parseGd c!"(p a )" = .err :=
  ⟨.atomic (Ex.atom c!"p" [.name (Ex.nm c!"a")]), rfl, rfl⟩

/-- The same for numeric expressions. -/
theorem C31_false_f_exp : ∃ v, parseFExp c!"(+ 1 2)" = .ok v [] ∧ parseFExp c!"(+ 1 2 )" = .err :=
  ⟨.binaryOp .add (.number (Ex.num 1 0)) (.number (Ex.num 2 0)), rfl, rfl⟩

theorem Sec.pad {lead : List Char → Prop} {B : List α → List Char → Prop} {xs u} {g : List Char}
    (h : Sec lead Gap B xs u) (hg : Gap g) : Sec lead Gap B xs (u ++ g) := by
  cases h with
  | nil h => exact .nil (h.append hg)
  | cons h1 h2 h3 =>
    rw [List.append_assoc, List.append_assoc]
    exact .cons h1 h2 (h3.append hg)

theorem paren_inj {u v : List Char} (h : paren u = paren v) : u = v := by
  unfold paren at h
  injection h with _ h
  exact List.append_cancel_right h

/-- A form introduced by a keyword: layout may be inserted before its closing parenthesis. -/
def Pad (R : α → List Char → Prop) (v : α) : Prop :=
  ∀ u g, R v (paren u) → Gap g → R v (paren (u ++ g))

theorem GDW.pad {v : GD} (hv : ¬ v.isFlat) : Pad (GDW .strict) v := by
  intro u g h hg
  generalize e : paren u = t at h
  cases h with
  | and h => rw [paren_inj e, List.append_assoc]; exact .and (h.pad hg)
  | or h => rw [paren_inj e, List.append_assoc]; exact .or (h.pad hg)
  | not h1 h2 h3 =>
    rw [paren_inj e]
    simp only [List.append_assoc]
    exact .not h1 h2 (h3.append hg)
  | imply h1 h2 h3 h4 h5 =>
    rw [paren_inj e]
    simp only [List.append_assoc]
    exact .imply h1 h2 h3 h4 (h5.append hg)
  | exist h1 h2 h3 h4 h5 =>
    rw [paren_inj e]
    simp only [List.append_assoc]
    exact .exist h1 h2 h3 h4 (h5.append hg)
  | forall_ h1 h2 h3 h4 h5 =>
    rw [paren_inj e]
    simp only [List.append_assoc]
    exact .forall_ h1 h2 h3 h4 (h5.append hg)
  | atomic => exact absurd trivial hv
  | fComp => exact absurd trivial hv

theorem ActionW.pad {v : ActionDef} : Pad (ActionW .strict) v := by
  intro u g h hg
  generalize e : paren u = t at h
  cases h with
  | mk h1 h2 h3 h4 h5 h6 h7 h8 =>
    rw [paren_inj e]
    simp only [List.append_assoc]
    exact .mk h1 h2 h3 h4 h5 h6 h7 (h8.append hg)

theorem DerivedW.pad {v : DerivedPredicate} : Pad (DerivedW .strict) v := by
  intro u g h hg
  generalize e : paren u = t at h
  cases h with
  | mk h1 h2 h3 h4 h5 =>
    rw [paren_inj e]
    simp only [List.append_assoc]
    exact .mk h1 h2 h3 h4 (h5.append hg)

theorem DaDefW.pad {v : DaDef} : Pad (DaDefW .strict) v := by
  intro u g h hg
  generalize e : paren u = t at h
  cases h with
  | mk h1 h2 h3 h4 h5 h6 h7 h8 h9 h10 h11 h12 =>
    rw [paren_inj e]
    simp only [List.append_assoc]
    exact .mk h1 h2 h3 h4 h5 h6 h7 h8 h9 h10 h11 (h12.append hg)

theorem ConGDW.pad {v : ConGD} : Pad (ConGDW .strict) v := by
  intro u g h hg
  generalize e : paren u = t at h
  cases h with
  | and h => rw [paren_inj e, List.append_assoc]; exact .and (h.pad hg)
  | forall_ h1 h2 h3 h4 h5 =>
    rw [paren_inj e]; simp only [List.append_assoc]; exact .forall_ h1 h2 h3 h4 (h5.append hg)
  | atEnd h1 h2 h3 =>
    rw [paren_inj e]; simp only [List.append_assoc]; exact .atEnd h1 h2 (h3.append hg)
  | always h1 h2 h3 =>
    rw [paren_inj e]; simp only [List.append_assoc]; exact .always h1 h2 (h3.append hg)
  | sometime h1 h2 h3 =>
    rw [paren_inj e]; simp only [List.append_assoc]; exact .sometime h1 h2 (h3.append hg)
  | within h1 h2 h3 h4 h5 =>
    rw [paren_inj e]; simp only [List.append_assoc]; exact .within h1 h2 h3 h4 (h5.append hg)
  | atMostOnce h1 h2 h3 =>
    rw [paren_inj e]; simp only [List.append_assoc]; exact .atMostOnce h1 h2 (h3.append hg)
  | sometimeAfter h1 h2 h3 h4 h5 =>
    rw [paren_inj e]; simp only [List.append_assoc]; exact .sometimeAfter h1 h2 h3 h4 (h5.append hg)
  | sometimeBefore h1 h2 h3 h4 h5 =>
    rw [paren_inj e]; simp only [List.append_assoc]; exact .sometimeBefore h1 h2 h3 h4 (h5.append hg)
  | alwaysWithin h1 h2 h3 h4 h5 h6 h7 =>
    rw [paren_inj e]; simp only [List.append_assoc]; exact .alwaysWithin h1 h2 h3 h4 h5 h6 (h7.append hg)
  | holdDuring h1 h2 h3 h4 h5 h6 h7 =>
    rw [paren_inj e]; simp only [List.append_assoc]; exact .holdDuring h1 h2 h3 h4 h5 h6 (h7.append hg)
  | holdAfter h1 h2 h3 h4 h5 =>
    rw [paren_inj e]; simp only [List.append_assoc]; exact .holdAfter h1 h2 h3 h4 (h5.append hg)

theorem DomainW.pad {v : Domain} : Pad (DomainW .strict) v := by
  intro u g h hg
  generalize e : paren u = t at h
  cases h with
  | mk h1 h2 h3 h4 h5 h6 h7 h8 h9 h10 h11 =>
    rw [paren_inj e]
    simp only [List.append_assoc]
    exact .mk h1 h2 h3 h4 h5 h6 h7 h8 h9 h10 (h11.append hg)

theorem ProblemW.pad {v : Problem} : Pad (ProblemW .strict) v := by
  intro u g h hg
  generalize e : paren u = t at h
  cases h with
  | mk h1 h2 h3 h4 h5 h6 h7 h8 h9 h10 h11 h12 h13 h14 =>
    rw [paren_inj e]
    simp only [List.append_assoc]
    exact .mk h1 h2 h3 h4 h5 h6 h7 h8 h9 h10 h11 h12 h13 (h14.append hg)

/-- For forms introduced by a keyword the property holds, on every spelling. (Missing: forms without
keyword, for which it is false.) -/
theorem C31_goals_partial {v : GD} (hv : ¬ v.isFlat) {u g : List Char} (h : GDW .strict v (paren u))
    (hg : Gap g) (r : List Char) :
    parseGd (paren (u ++ g) ++ r) = .ok v r ∧ parseGd (paren u ++ r) = .ok v r :=
  ⟨C15_goals (GDW.pad hv u g h hg) r, C15_goals h r⟩

theorem C31_constraints_partial {v : ConGD} {u g : List Char} (h : ConGDW .strict v (paren u))
    (hg : Gap g) (r : List Char) :
    parseConGd (paren (u ++ g) ++ r) = .ok v r ∧ parseConGd (paren u ++ r) = .ok v r :=
  ⟨C20_constraints (ConGDW.pad u g h hg) r, C20_constraints h r⟩

theorem C31_actions_partial {v : ActionDef} {u g : List Char} (h : ActionW .strict v (paren u))
    (hg : Gap g) (r : List Char) :
    parseActionDef (paren (u ++ g) ++ r) = .ok v r ∧ parseActionDef (paren u ++ r) = .ok v r :=
  ⟨C18_actions (ActionW.pad u g h hg) r, C18_actions h r⟩

theorem C31_derived_partial {v : DerivedPredicate} {u g : List Char} (h : DerivedW .strict v (paren u))
    (hg : Gap g) (r : List Char) :
    parseDerivedPredicate (paren (u ++ g) ++ r) = .ok v r ∧
      parseDerivedPredicate (paren u ++ r) = .ok v r :=
  ⟨C18_derived (DerivedW.pad u g h hg) r, C18_derived h r⟩

theorem C31_durative_partial {v : DaDef} {u g : List Char} (h : DaDefW .strict v (paren u))
    (hg : Gap g) (r : List Char) :
    parseDaDef (paren (u ++ g) ++ r) = .ok v r ∧ parseDaDef (paren u ++ r) = .ok v r :=
  ⟨C19_durative (DaDefW.pad u g h hg) r, C19_durative h r⟩

theorem C31_domains_partial {v : Domain} {u g : List Char} (h : DomainW .strict v (paren u))
    (hg : Gap g) : fromStr parseDomain (paren (u ++ g)) = some v ∧ fromStr parseDomain (paren u) = some v := by
  have h1 := C24_domains (DomainW.pad u g h hg) .nil []
  have h2 := C24_domains h .nil []
  rw [List.append_nil] at h1 h2
  exact ⟨by rw [fromStr]; rw [List.nil_append] at h1; rw [h1],
    by rw [fromStr]; rw [List.nil_append] at h2; rw [h2]⟩

theorem C31_problems_partial {v : Problem} {u g : List Char} (h : ProblemW .strict v (paren u))
    (hg : Gap g) : fromStr parseProblem (paren (u ++ g)) = some v ∧ fromStr parseProblem (paren u) = some v := by
  have h1 := C25_problems (ProblemW.pad u g h hg) .nil []
  have h2 := C25_problems h .nil []
  rw [List.append_nil] at h1 h2
  exact ⟨by rw [fromStr]; rw [List.nil_append] at h1; rw [h1],
    by rw [fromStr]; rw [List.nil_append] at h2; rw [h2]⟩

example : GDW .strict (.and [.atomic (Ex.atom c!"p" [])]) (paren c!"and (p)") :=
  GD.print_w (.and [.atomic (Ex.atom c!"p" [])]) (by decide)

/-! ## C48: comments as separators -/

/-- A comment that directly follows a token does not separate it from the next one. -/
theorem C48_false : ∃ v, parseGd c!"(and (p) (q))" = .ok v [] ∧ parseGd c!"(and (p);c\n(q))" = .err :=
  ⟨.and [.atomic (Ex.atom c!"p" []), .atomic (Ex.atom c!"q" [])], rfl, rfl⟩

/-- After a space a comment does separate: two operands separated by any layout that begins with a
space are read alike. (Missing: layout that begins with a comment, for which it is false, and numeric
operands, before which comments are not skipped.) -/
theorem C48_goals_partial {a b : GD} {ta tb : List Char} (ha : GDW .strict a ta) (hb : GDW .strict b tb)
    {g0 g g1 : List Char} (hg0 : Gap g0) (hg : Sep g) (hg1 : Gap g1) (r : List Char) :
    parseGd (paren (c!"and" ++ (g0 ++ ((ta ++ (g ++ tb)) ++ g1))) ++ r) = .ok (.and [a, b]) r ∧
      parseGd (paren (c!"or" ++ (g0 ++ ((ta ++ (g ++ tb)) ++ g1))) ++ r) = .ok (.or [a, b]) r ∧
      parseGd (paren (c!"imply" ++ (g0 ++ (ta ++ (g ++ (tb ++ g1))))) ++ r) = .ok (.imply a b) r :=
  ⟨C15_goals (.and (.cons hg0 (.cons ha hg (.one hb)) hg1)) r,
   C15_goals (.or (.cons hg0 (.cons ha hg (.one hb)) hg1)) r,
   C15_goals (.imply hg0 ha hg hb hg1) r⟩

/-- Likewise the arguments of an atom. -/
theorem C48_atoms_partial {p : Name} {tp : List Char} (hp : NameW p tp) {a b : Term} {ta tb : List Char}
    (ha : TermW .strict a ta) (hb : TermW .strict b tb) {g1 g2 : List Char} (h1 : Sep g1) (h2 : Sep g2)
    (r : List Char) :
    atomicFormula parseTerm (paren ([] ++ (tp ++ (g1 ++ ((ta ++ (g2 ++ tb)) ++ [])))) ++ r) =
      .ok (.predicate p [a, b]) r :=
  C13_atoms (.predicate .nil hp (.cons h1 (.cons ha h2 (.one hb)) rfl)) r

/-- Numeric operands are not found behind a comment, even after a space. -/
theorem C48_false_numeric : ∃ v, parseGd c!"(< 1 2)" = .ok v [] ∧ parseGd c!"(< 1 ;c\n2)" = .err :=
  ⟨.fComp ⟨.lt, .number (Ex.num 1 0), .number (Ex.num 2 0)⟩, rfl, rfl⟩

example : Sep c!" ; c\n" := .mk rfl (.comment (b := ' ') (body := c!"c") rfl (by decide) rfl .nil)

end Pddl
