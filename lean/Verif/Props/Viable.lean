import Verif.Meta.Chain
import Verif.Props.Errors

/-!
# C59: everything before the reported position is all right
-/

namespace Pddl

/-! ## The errors of a form -/

theorem GapEnd.newline {g : List Char} (h : GapEnd g) : Gap (g ++ ['\n']) := by
  cases h with
  | gap h => exact h.append (.space (by decide) .nil)
  | @comment g b body h1 h2 h3 =>
    rw [List.append_assoc]
    exact h1.append (.comment h2 h3 (by decide) .nil)

/-- Where the error of a form comes from: no parenthesis, another keyword, the contents, or a
missing closing parenthesis. -/
theorem E.prefixExpr_err {kw : List Char} {p : E.P α} {s : List Char} {e : E.Trace}
    (h : E.prefixExpr kw p s = .err e) :
    ((∀ x, Pddl.skip s ≠ '(' :: x) ∧ e = [⟨Pddl.skip s, .tag⟩]) ∨ (∃ x, Pddl.skip s = '(' :: x ∧ e = [⟨x, .tag⟩]) ∨
    (∃ x, Pddl.skip s = '(' :: (kw ++ x) ∧ p (Pddl.skip x) = .err e) ∨
    ∃ x v y, Pddl.skip s = '(' :: (kw ++ x) ∧ p (Pddl.skip x) = .ok v y ∧
      e = [⟨Pddl.skip y, .tag⟩] := by
  by_cases ho : ∃ x, Pddl.skip s = '(' :: x
  · obtain ⟨x, hx⟩ := ho
    rw [E.prefixExpr_open kw p s x hx] at h
    by_cases hk : ∃ y, x = kw ++ y
    · obtain ⟨x, rfl⟩ := hk
      rw [E.tag_run] at h
      simp only [E.Res.bind, E.ws_eq p] at h
      cases hp : p (Pddl.skip x) with
      | ok v y =>
        rw [hp] at h
        dsimp only at h
        by_cases hc : ∃ r, Pddl.skip y = ')' :: r
        · obtain ⟨r, hr⟩ := hc
          rw [E.ws_eq, hr] at h
          simp [E.tag, stripPrefix] at h
        · rw [E.ws_close fun r hr => hc ⟨r, hr⟩] at h
          simp only [E.Res.err.injEq] at h
          exact .inr (.inr (.inr ⟨x, v, y, hx, hp, h.symm⟩))
      | err e' =>
        rw [hp] at h
        simp only [E.Res.err.injEq] at h
        exact .inr (.inr (.inl ⟨x, hx, by rw [hp, h]⟩))
      | _ => rw [hp] at h; cases h
    · rw [E.tag_miss fun y hy => hk ⟨y, hy⟩] at h
      simp only [E.Res.bind, E.Res.err.injEq] at h
      exact .inr (.inl ⟨x, hx, h.symm⟩)
  · rw [E.prefixExpr_noopen rfl fun x hx => ho ⟨x, hx⟩] at h
    simp only [E.Res.err.injEq] at h
    exact .inl ⟨fun x hx => ho ⟨x, hx⟩, h.symm⟩

theorem prefixExpr_mk {kw : List Char} {p : P α} {s x y k : List Char} {v : α}
    (hs : skip s = '(' :: (kw ++ x)) (hp : p (skip x) = .ok v y) (hy : skip y = ')' :: k) :
    prefixExpr kw p s = .ok v k := by
  rw [← prefixExpr_skip, hs, prefixExpr_open, stripPrefix_append]
  simp only [hp, Res.bind, hy]
  rfl

/-! ## Forms to blame -/

/-- `y` is what follows the reported position and `c` comes before it. If `y` begins with a form,
this form cannot stand there, whatever follows it. -/
def Blame (p : P α) (c y : List Char) : Prop := ∀ g t r, y = g ++ (t ++ r) → Gap g → Form t →
  ∀ r', p (c ++ (g ++ (t ++ r'))) = .err

/-- The first character is not part of a keyword. -/
def headOk (kw : List Char) : Bool := match kw with
  | [] => false
  | c :: _ => !(isSpace c || c == ';' || c == '(')

theorem form_head {g t : List Char} (hg : Gap g) (ht : Form t) :
    ∃ c w, (∀ r, g ++ (t ++ r) = c :: (w ++ r)) ∧ (isSpace c || c == ';' || c == '(') = true := by
  obtain ⟨u, rfl, _⟩ := ht
  cases hg with
  | nil => exact ⟨'(', u ++ [')'], fun r => by simp [paren], by decide⟩
  | @space c g hc hg =>
    exact ⟨c, g ++ paren u, fun r => by simp, by simp only [show isSpace c = true from hc, Bool.true_or]⟩
  | @comment b body n g h1 h2 h3 _ =>
    exact ⟨';', b :: (body ++ (n :: (g ++ paren u))), fun r => by simp, by decide⟩

theorem form_stop {g t : List Char} (hg : Gap g) (ht : Form t) (r : List Char) :
    ∀ c x, g ++ (t ++ r) = c :: x → isWordChar c = false := by
  obtain ⟨c, w, h1, h2⟩ := form_head hg ht
  intro d x hd
  rw [h1] at hd
  cases hd
  simp only [Bool.or_eq_true, beq_iff_eq] at h2
  rcases h2 with (h2 | rfl) | rfl
  · exact isWordChar_not (.inl h2)
  · decide
  · decide

theorem kw_form {kw g t : List Char} (hk : headOk kw = true) (hg : Gap g) (ht : Form t)
    (r : List Char) : stripPrefix kw (g ++ (t ++ r)) = none := by
  obtain ⟨c, w, h1, h2⟩ := form_head hg ht
  rw [h1]
  cases kw with
  | nil => cases hk
  | cons d kw =>
    rw [stripPrefix, if_neg]
    rintro rfl
    simp only [headOk, h2] at hk
    cases hk

theorem skip_form {g t : List Char} (hg : Gap g) (ht : Form t) (r : List Char) :
    ∃ u, skip (g ++ (t ++ r)) = t ++ r ∧ t ++ r = '(' :: u := by
  obtain ⟨u, rfl, _⟩ := ht
  exact ⟨u ++ (')' :: r), hg.skip_solid ((solid_paren u).append _), by simp [paren]⟩

/-- A text without layout at the beginning that begins with a form. -/
theorem solid_form {g t r y : List Char} (hy : y = g ++ (t ++ r)) (hs : skip y = y) (hg : Gap g)
    (ht : Form t) : g = [] ∧ y = t ++ r := by
  obtain ⟨u, h1, _⟩ := skip_form hg ht r
  rw [← hy, hs] at h1
  refine ⟨?_, h1⟩
  have := congrArg List.length hy
  rw [h1] at this
  simp only [List.length_append] at this
  exact List.length_eq_zero_iff.1 (by omega)

theorem prefixExpr_contents_err {kw : List Char} {p : P α} {s x : List Char}
    (hs : skip s = '(' :: (kw ++ x)) (hp : p (skip x) = .err) : prefixExpr kw p s = .err := by
  rw [← prefixExpr_skip, hs, prefixExpr_open, stripPrefix_append]
  simp only [hp, Res.bind]

theorem prefixExpr_close_err {kw : List Char} {p : P α} {s x y u : List Char} {v : α}
    (hs : skip s = '(' :: (kw ++ x)) (hp : p (skip x) = .ok v y) (hy : skip y = '(' :: u) :
    prefixExpr kw p s = .err := by
  rw [← prefixExpr_skip, hs, prefixExpr_open, stripPrefix_append]
  simp only [hp, Res.bind, hy]
  rfl

/-- No parenthesis, or another keyword. -/
theorem noForm_blame {p : P α} {y : List Char} (hs : skip y = y) (hn : ∀ x, y ≠ '(' :: x)
    (c : List Char) : Blame p c y := by
  intro g t r hy hg ht
  obtain ⟨rfl, h1⟩ := solid_form hy hs hg ht
  obtain ⟨u, _, h2⟩ := skip_form hg ht r
  exact absurd (h1.trans h2) (hn u)

theorem keyword_blame {kw : List Char} {p : P α} {g0 y : List Char} (hk : headOk kw = true)
    (hg0 : Gap g0) : Blame (prefixExpr kw p) (g0 ++ ['(']) y := by
  intro g t r hy hg ht r'
  have := hg0.skip_solid (s := '(' :: (g ++ (t ++ r'))) (solid_open _)
  rw [← prefixExpr_skip, List.append_assoc, List.singleton_append, this]
  exact prefixExpr_kw (kw_form hk hg ht r')

theorem contents_blame {kw : List Char} {p : P α} {g0 c y : List Char} (hg0 : Gap g0)
    (h : Blame (fun x => p (skip x)) c y) : Blame (prefixExpr kw p) (g0 ++ ('(' :: (kw ++ c))) y := by
  intro g t r hy hg ht r'
  have hs := hg0.skip_solid (s := '(' :: (kw ++ (c ++ (g ++ (t ++ r'))))) (solid_open _)
  have := prefixExpr_contents_err hs (h g t r hy hg ht r')
  simpa using this

theorem close_blame {kw : List Char} {p : P α} {g0 c y : List Char} (hg0 : Gap g0)
    (h : ∀ g t r, y = g ++ (t ++ r) → Gap g → Form t →
      ∀ r', ∃ v w u, p (skip (c ++ (g ++ (t ++ r')))) = .ok v w ∧ skip w = '(' :: u) :
    Blame (prefixExpr kw p) (g0 ++ ('(' :: (kw ++ c))) y := by
  intro g t r hy hg ht r'
  have hs := hg0.skip_solid (s := '(' :: (kw ++ (c ++ (g ++ (t ++ r'))))) (solid_open _)
  obtain ⟨v, w, u, h1, h2⟩ := h g t r hy hg ht r'
  have := prefixExpr_close_err hs h1 h2
  simpa using this

theorem E.parseName_err {s : List Char} {e : E.Trace} (h : E.parseName s = .err e) :
    e = [⟨Pddl.skip s, .alpha⟩] := by
  have e1 : E.parseName s = E.parseName (Pddl.skip s) := by
    simp only [E.parseName, E.map, E.ws_eq, Pddl.skip_skip]
  rw [e1, E.parseName_miss (Pddl.skip_skip s) ?_] at h
  · simp only [E.Res.err.injEq] at h
    exact h.symm
  · intro c y hc
    have := parseName_erases (Pddl.skip s)
    rw [h, parseName_eq, Pddl.skip_skip, hc, wordRes] at this
    show isAlpha c = false
    cases ha : isAlpha c with
    | false => rfl
    | true => rw [ha] at this; cases this

theorem parseName_d (k : List Char) :
    parseName (skip (c!" d)" ++ k)) = .ok (.new c!"d") (')' :: k) := by
  have e : skip (c!" d)" ++ k) = c!"d)" ++ k :=
    Gap.skip_solid (g := c!" ") (.space (by decide) .nil) (s := c!"d)" ++ k)
      ⟨_, _, rfl, by decide, by decide⟩
  rw [e]
  exact (C04_name_iff _ _ _).2 ⟨[], c!"d", rfl, .nil, ⟨_, _, rfl, by decide, by simp⟩, rfl, by
    intro c r h; cases h; decide⟩

/-- The text before the error of a form `(kw name)` is the beginning of such a form. -/
theorem nameForm_viable {kw s : List Char} {e : E.Trace} (hk : headOk kw = true)
    (h : E.prefixExpr kw E.parseName s = .err e) (k : List Char) :
    ∃ c y kd cont v, s = c ++ y ∧ e = [⟨y, kd⟩] ∧ Blame (prefixExpr kw parseName) c y ∧
      prefixExpr kw parseName (c ++ (cont ++ k)) = .ok v k := by
  obtain ⟨g, hg, hge, hgg⟩ := skip_spec s
  rcases E.prefixExpr_err h with ⟨hn, h⟩ | ⟨x, h1, h2⟩ | ⟨x, h1, h2⟩ | ⟨x, v, y, h1, h2, h3⟩
  · refine ⟨g, skip s, _, ['\n'] ++ ('(' :: (kw ++ c!" d)")), .new c!"d", hg, h, ?_⟩
    refine ⟨noForm_blame (skip_skip s) hn g, prefixExpr_mk (x := c!" d)" ++ k) ?_ (parseName_d k) (solid_close k).skip⟩
    have := hge.newline.skip_solid (s := '(' :: (kw ++ (c!" d)" ++ k))) (solid_open _)
    simpa using this
  · have hg' := hgg (by simp [h1])
    refine ⟨g ++ ['('], x, _, kw ++ c!" d)", .new c!"d", ?_, h2, ?_⟩
    · rw [h1] at hg; simpa using hg
    refine ⟨keyword_blame hk hg', prefixExpr_mk (x := c!" d)" ++ k) ?_ (parseName_d k) (solid_close k).skip⟩
    have := hg'.skip_solid (s := '(' :: (kw ++ (c!" d)" ++ k))) (solid_open _)
    simpa using this
  · have hg' := hgg (by simp [h1])
    obtain ⟨g2, hg2, hge2, hgg2⟩ := skip_spec x
    have h3 := E.parseName_err h2
    rw [skip_skip] at h3
    refine ⟨g ++ ('(' :: (kw ++ g2)), skip x, _, c!"\nd)", .new c!"d", ?_, h3, ?_⟩
    · rw [h1] at hg
      refine hg.trans ?_
      conv => lhs; rw [hg2]
      simp
    refine ⟨contents_blame hg' ?_,
      prefixExpr_mk (x := g2 ++ (c!"\nd)" ++ k)) (y := ')' :: k) ?_ ?_ (solid_close k).skip⟩
    · intro g t r hy hg ht r'
      obtain ⟨rfl, h5⟩ := solid_form hy (skip_skip x) hg ht
      obtain ⟨u, _, h6⟩ := skip_form hg ht r
      obtain ⟨u', h7, h8⟩ := skip_form (hgg2 (by rw [h5, h6]; simp)) ht r'
      show parseName (skip (g2 ++ ([] ++ (t ++ r')))) = .err
      rw [List.nil_append, h7, h8, parseName_eq, (solid_open u').skip]
      rfl
    · have := hg'.skip_solid (s := '(' :: (kw ++ (g2 ++ (c!"\nd)" ++ k)))) (solid_open _)
      simpa using this
    · refine (C04_name_iff _ _ _).2 ⟨[], c!"d", ?_, .nil, ⟨_, _, rfl, by decide, by simp⟩, rfl, by
        intro c r h; cases h; decide⟩
      have := hge2.newline.skip_solid (s := c!"d)" ++ k) ⟨_, _, rfl, by decide, by decide⟩
      simpa using this
  · have hg' := hgg (by simp [h1])
    obtain ⟨g2, hg2, _, hgg2⟩ := skip_spec x
    obtain ⟨g3, hg3, hge3, hgg3⟩ := skip_spec y
    obtain ⟨g4, w, h4, h5, h6, h7, h8⟩ := (C04_name_iff _ _ _).1 (parseName_erases.ok' h2)
    have hw := hgg2 (by rw [h4]; have := h6.solid.ne; simp [this])
    refine ⟨g ++ ('(' :: (kw ++ (g2 ++ (g4 ++ (w ++ g3))))), skip y, _, c!"\n)", v, ?_, h3, ?_⟩
    · rw [h1] at hg
      refine hg.trans ?_
      rw [h4] at hg2
      conv => lhs; rw [hg2]; rw [hg3]
      simp
    have hw' : ∀ z, (∀ c r, g3 ++ z = c :: r → isWordChar c = false) → parseName (skip (g2 ++ (g4 ++ (w ++ (g3 ++ z))))) = .ok v (g3 ++ z) := by
      intro z hz
      refine (C04_name_iff _ _ _).2 ⟨[], w, ?_, .nil, h6, h7, hz⟩
      rw [← List.append_assoc, (hw.append h5).skip_solid (h6.solid.append _)]
      rfl
    refine ⟨close_blame hg' ?_, prefixExpr_mk (x := g2 ++ (g4 ++ (w ++ (g3 ++ (c!"\n)" ++ k)))))
      (y := g3 ++ (c!"\n)" ++ k)) ?_ ?_ ?_⟩
    · intro g t r hy hg ht r'
      obtain ⟨rfl, h9⟩ := solid_form hy (skip_skip y) hg ht
      obtain ⟨u, _, h10⟩ := skip_form hg ht r
      have hg3' := hgg3 (by rw [h9, h10]; simp)
      obtain ⟨u', h11, h12⟩ := skip_form hg3' ht r'
      have := hw' (t ++ r') (form_stop hg3' ht r')
      refine ⟨v, g3 ++ (t ++ r'), u', ?_, h11.trans h12⟩
      simpa using this
    · have := hg'.skip_solid (s := '(' :: (kw ++ (g2 ++ (g4 ++ (w ++ (g3 ++ (c!"\n)" ++ k)))))))
        (solid_open _)
      simpa using this
    · refine (C04_name_iff _ _ _).2 ⟨[], w, ?_, .nil, h6, h7, ?_⟩
      · rw [← List.append_assoc, (hw.append h5).skip_solid (h6.solid.append _)]
        rfl
      · intro c r hc
        cases g3 with
        | nil => cases hc; decide
        | cons d g3 =>
          refine h8 c (g3 ++ skip y) (hg3.trans ?_)
          simp only [List.cons_append, List.cons.injEq] at hc ⊢
          exact ⟨hc.1, trivial⟩
    · have := hge3.newline.skip_solid (s := ')' :: k) (solid_close k)
      simpa using this

/-! ## Sections -/

theorem header_sec {kw : List Char} (hk : plainText kw = true) : SecP (prefixExpr kw parseName) :=
  .of Sk.prefixExpr.ct (wrap_snd parseName_snd)
    (fun _ _ h => h.form hk (fun _ h => h) fun _ _ h => h.1.bal) (by loc)

theorem extends_sec : SecP (prefixExpr c!":extends" (spaceSeparatedList1 parseName)) :=
  .of Sk.prefixExpr.ct (nonEmpty_snd (F := Any) parseName_snd nameW_nonE) (fun _ _ h => extends_form h)
    (by loc)

theorem requirements_sec : SecP parseRequireDef :=
  .of Sk.prefixExpr.ct parseRequireDef_snd (fun _ _ h => h.form) parseRequireDef_loc

theorem types_sec : SecP parseTypesDef :=
  .of Sk.prefixExpr.ct typedNames_snd (fun _ _ h => TypedNamesW.form h (by decide)) parseTypesDef_loc

theorem constants_sec : SecP parseConstantsDef :=
  .of Sk.prefixExpr.ct typedNames_snd (fun _ _ h => TypedNamesW.form h (by decide)) parseConstantsDef_loc

theorem objects_sec : SecP parseProblemObjectsDeclaration :=
  .of Sk.prefixExpr.ct typedNames_snd (fun _ _ h => TypedNamesW.form h (by decide))
    parseProblemObjectsDeclaration_loc

theorem predicates_sec : SecP parsePredicatesDef :=
  .of Sk.prefixExpr.ct parsePredicatesDef_snd
    (fun _ _ h => NonEmptyW.form h (by decide) (fun _ h => h) fun _ _ h => h.bal)
    parsePredicatesDef_loc

theorem functions_sec : SecP parseFunctionsDef :=
  .of Sk.prefixExpr.ct parseFunctionsDef_snd (fun _ _ h => h.form) parseFunctionsDef_loc

theorem constraints_sec : SecP parseDomainConstraintsDef :=
  .of Sk.prefixExpr.ct parseDomainConstraintsDef_snd
    (fun _ _ h => h.form (by decide) (fun _ h => h) fun _ _ h => h.form.bal)
    parseDomainConstraintsDef_loc

theorem structure_sk : Sk parseStructureDef :=
  .alt_cons (.map (.map .prefixExpr)) (.alt_cons (.map (.map .prefixExpr))
    (.alt_cons (.map (.map .prefixExpr)) .alt_nil))

theorem structures_sec : SecP parseStructureDef :=
  .of structure_sk.ct parseStructureDef_snd (fun _ _ h => h.form)
    parseStructureDef_loc

theorem init_sec : SecP parseProblemInitDef :=
  .of Sk.prefixExpr.ct parseProblemInitDef_snd (fun _ _ h => h.form) parseProblemInitDef_loc

theorem goal_sec : SecP parseProblemGoalDef :=
  .of Sk.prefixExpr.ct parseProblemGoalDef_snd
    (fun _ _ h => h.form (by decide) (fun _ h => h) fun _ _ h => h.form.bal) parseProblemGoalDef_loc

theorem problem_constraints_sec : SecP parseProblemConstraintsDef :=
  .of Sk.prefixExpr.ct parseProblemConstraintsDef_snd
    (fun _ _ h => h.form (by decide) (fun _ h => h) fun _ _ h => h.form.bal)
    parseProblemConstraintsDef_loc

theorem metric_sec : SecP parseProblemMetricSpec :=
  .of (Sk.map .prefixExpr).ct parseProblemMetricSpec_snd (fun _ _ h => h.form)
    parseProblemMetricSpec_loc

theorem length_sec : SecP parseProblemLengthSpec :=
  .of (Sk.map .prefixExpr).ct parseProblemLengthSpec_snd (fun _ _ h => h.form)
    parseProblemLengthSpec_loc

/-- A form with a keyword is not read where another text follows. -/
theorem sec_miss {p : P α} {kw y : List Char}
    (hy : (∃ k, skip y = ')' :: k) ∨ ∃ kw' k, skip y = '(' :: (kw' ++ k) ∧ differ kw kw' = true) :
    preceded multispace1 (prefixExpr kw p) y = .err := by
  refine ms1_skip_err (prefixExpr_skip kw p) ?_
  rcases hy with ⟨k, hk⟩ | ⟨kw', k, hk, hd⟩
  · rw [hk]; exact serial_close
  · rw [hk]; exact prefixExpr_kw (stripPrefix_differ hd _)

theorem ms1_ct_err {p : P α} (hp : Ct p) {y : List Char}
    (he : p (skip y) = .err) : preceded multispace1 p y = .err := by
  cases hm : multispace1 y with
  | ok u x =>
    rw [preceded_run hm, ← hp, multispace1_rest hm]
    exact he
  | err => exact preceded_err hm
  | _ => simp [multispace1, takeWhile1] at hm; split at hm <;> cases hm

theorem ms1_map_err {p : P α} {f : α → β} {y : List Char} (h : preceded multispace1 p y = .err) :
    preceded multispace1 (map f p) y = .err := by
  simp only [preceded] at h ⊢
  cases hm : multispace1 y <;> rw [hm] at h
  case ok u x => exact map_err h
  all_goals first | rfl | cases h

theorem structure_close {y k : List Char} (hy : skip y = ')' :: k) :
    preceded multispace1 parseStructureDef y = .err := by
  refine ms1_skip_err structure_sk ?_
  have h1 : parseDerivedPredicate (')' :: k) = .err := map_err serial_close
  have h2 : parseActionDef (')' :: k) = .err := map_err serial_close
  have h3 : parseDaDef (')' :: k) = .err := map_err serial_close
  rw [hy, parseStructureDef, alt_miss (map_err h1), alt_miss (map_err h2), alt_miss (map_err h3),
    alt_nil]

/-! ## Domains -/

theorem domainParts_swap {y y' k : List Char} (hy : skip y' = ')' :: k) :
    Swap y y' domainParts :=
  .pair (.first (header_sec (by decide))) (.pair (.opt extends_sec (fun _ => sec_miss (.inl ⟨k, hy⟩)))
  (.pair (.opt requirements_sec (fun _ => sec_miss (.inl ⟨k, hy⟩)))
  (.pair (.opt types_sec (fun _ => sec_miss (.inl ⟨k, hy⟩))) (.pair (.opt constants_sec (fun _ => sec_miss (.inl ⟨k, hy⟩)))
  (.pair (.opt predicates_sec (fun _ => sec_miss (.inl ⟨k, hy⟩)))
  (.pair (.opt functions_sec (fun _ => sec_miss (.inl ⟨k, hy⟩)))
  (.pair (.opt constraints_sec (fun _ => sec_miss (.inl ⟨k, hy⟩)))
  (.list structures_sec fun _ => structure_close hy))))))))

/-- A parser that never gives a recoverable error. -/
def NoErr (p : P α) : Prop := ∀ s, p s ≠ .err

theorem NoErr.opt {p : P α} : NoErr (Pddl.opt p) := fun s h => by
  cases hp : p s <;> simp only [Pddl.opt, hp] at h <;> cases h

theorem NoErr.pair {p : P α} {q : P β} (hp : NoErr p) (hq : NoErr q) : NoErr (Pddl.pair p q) :=
  fun s h => by
    simp only [Pddl.pair] at h
    cases h1 : p s with
    | ok v r =>
      rw [h1] at h
      simp only [Res.bind] at h
      cases h2 : q r with
      | err => exact hq r h2
      | _ => rw [h2] at h; cases h
    | err => exact hp s h1
    | _ => rw [h1] at h; cases h

/-- The error of a sequence whose later parts give none is that of the first. -/
theorem trace_pair_first {p' : E.P α} {q' : E.P β} {q : P β} (h : Erases q' q) (hq : NoErr q)
    {s : List Char} {e : E.Trace} (hs : E.pair p' q' s = .err e) : p' s = .err e := by
  simp only [E.pair] at hs
  cases h1 : p' s with
  | ok v r =>
    rw [h1] at hs
    simp only [E.Res.bind] at hs
    cases h2 : q' r with
    | err e' =>
      have := h r
      rw [h2] at this
      exact absurd this.symm (hq r)
    | _ => rw [h2] at hs; cases hs
  | err e' => rw [h1] at hs; simpa [E.Res.bind] using hs
  | _ => rw [h1] at hs; cases hs

theorem trace_ws2_err {p : E.P α} {s : List Char} {e : E.Trace} (hs : E.ws2 p s = .err e) :
    p (skip s) = .err e := by
  have e1 : E.ws2 p s = (E.preceded E.multispace0 E.ignoreEolComment s).bind fun _ x =>
      (p x).bind fun v r => (E.preceded E.multispace0 E.ignoreEolComment r).bind fun _ r' =>
        .ok v r' := rfl
  rw [e1, layout_run] at hs
  simp only [E.Res.bind, layout_run] at hs
  cases h1 : p (skip s) <;> rw [h1] at hs <;> simpa using hs

/-- The errors of a file: no parenthesis, not `define`, the contents, or no closing parenthesis. -/
theorem file_err {f : α → β} {p : E.P α} {s : List Char} {e : E.Trace}
    (h : E.map f (E.ws2 (E.prefixExpr c!"define" p)) s = .err e) :
    ∃ g, (GapEnd g ∧ ∃ y, s = g ++ y ∧ e = [⟨y, .tag⟩] ∧ skip y = y ∧ ∀ x, y ≠ '(' :: x) ∨ Gap g ∧
      ((∃ x, s = g ++ ('(' :: x) ∧ e = [⟨x, .tag⟩]) ∨
      (∃ x, s = g ++ ('(' :: (c!"define" ++ x)) ∧ p (skip x) = .err e) ∨
      ∃ x v y, s = g ++ ('(' :: (c!"define" ++ x)) ∧ p (skip x) = .ok v y ∧
        e = [⟨skip y, .tag⟩]) := by
  have h1 : E.ws2 (E.prefixExpr c!"define" p) s = .err e := by
    simp only [E.map] at h
    cases hw : E.ws2 (E.prefixExpr c!"define" p) s <;> rw [hw] at h <;> first | exact h | (cases h; rfl) | cases h
  have h2 := trace_ws2_err h1
  obtain ⟨g, hg, hge, hgg⟩ := skip_spec s
  refine ⟨g, ?_⟩
  rcases E.prefixExpr_err h2 with ⟨hn, h⟩ | ⟨x, h1, h2⟩ | ⟨x, h1, h2⟩ | ⟨x, v, y, h1, h2, h3⟩
  · rw [skip_skip] at h hn
    exact .inl ⟨hge, _, hg, h, skip_skip s, hn⟩
  · rw [skip_skip] at h1
    exact .inr ⟨hgg (by simp [h1]), .inl ⟨x, by rw [← h1]; exact hg, h2⟩⟩
  · rw [skip_skip] at h1
    exact .inr ⟨hgg (by simp [h1]), .inr (.inl ⟨x, by rw [← h1]; exact hg, h2⟩)⟩
  · rw [skip_skip] at h1
    exact .inr ⟨hgg (by simp [h1]), .inr (.inr ⟨x, v, y, by rw [← h1]; exact hg, h2, h3⟩)⟩

theorem file_ok {f : α → β} {p : P α} {g x y : List Char} {v : α} (hg : Gap g)
    (hp : p (skip x) = .ok v y) (hy : skip y = c!")") :
    ∃ d, map f (ws2 (prefixExpr c!"define" p)) (g ++ ('(' :: (c!"define" ++ x))) = .ok d [] := by
  have h1 : prefixExpr c!"define" p ('(' :: (c!"define" ++ x)) = .ok v [] :=
    prefixExpr_mk (solid_open _).skip hp hy
  have := ws2_run (p := prefixExpr c!"define" p) (t := '(' :: (c!"define" ++ x)) (r := []) hg
    (solid_open _) (by rw [List.append_nil]; exact h1)
  rw [List.append_nil] at this
  exact ⟨_, map_run this⟩

theorem Sk.pair {p : P α} {q : P β} (h : Sk p) : Sk (Pddl.pair p q) := fun s => by
  simp only [Pddl.pair, h s]

theorem trace_prefixExpr_skip {kw : List Char} {p : E.P α} (s : List Char) :
    E.prefixExpr kw p (skip s) = E.prefixExpr kw p s := by
  simp only [E.prefixExpr, E.delimited, E.preceded, E.ws_eq, skip_skip]

theorem file_blame {f : α → β} {p : P α} {c y : List Char} (h : Blame (prefixExpr c!"define" p) c y) :
    Blame (map f (ws2 (prefixExpr c!"define" p))) c y := by
  intro g t r hy hg ht r'
  refine map_err ?_
  have hx : ∀ s, preceded multispace0 ignoreEolComment s = .ok () (skip s) := by
    intro s
    simp only [preceded, multispace0, takeWhile0, Res.bind, eol_eq, skip]
  have := h g t r hy hg ht r'
  rw [← prefixExpr_skip] at this
  rw [ws2, delimited, preceded_run (hx _), terminated, this]
  rfl

theorem trace_pair_none {p : P α} {q : P β} {s : List Char} (h : p s = .err) : pair p q s = .err := by
  simp only [pair, h, Res.bind]

theorem domainParts_swap_form {g t r r' : List Char} (hg : Gap g) (ht : Form t) :
    Swap (g ++ (t ++ r)) (g ++ (t ++ r')) domainParts :=
  .pair (.first (header_sec (by decide))) (.pair (.opt extends_sec (extends_sec.absent_form hg ht))
  (.pair (.opt requirements_sec (requirements_sec.absent_form hg ht))
  (.pair (.opt types_sec (types_sec.absent_form hg ht)) (.pair (.opt constants_sec (constants_sec.absent_form hg ht))
  (.pair (.opt predicates_sec (predicates_sec.absent_form hg ht))
  (.pair (.opt functions_sec (functions_sec.absent_form hg ht))
  (.pair (.opt constraints_sec (constraints_sec.absent_form hg ht))
  (.list structures_sec (structures_sec.absent_form hg ht)))))))))

/-- Everything before the position of an error of a domain is the beginning of a text that the
parser accepts. If a form begins there, no text that goes on with this form is accepted. The error
has this one position only. -/
theorem C59_domains (s : List Char) (e : E.Trace) (h : E.parseDomain s = .err e) :
    ∃ pre y k, s = pre ++ y ∧ e = [⟨y, k⟩] ∧
      (∀ g t r, y = g ++ (t ++ r) → Gap g → Form t →
        ∀ r', parseDomain (pre ++ (g ++ (t ++ r'))) = .err) ∧
      ∃ cont d, parseDomain (pre ++ cont) = .ok d [] := by
  have hsk : Sk domainParts := .pair .prefixExpr
  obtain ⟨g, ⟨hg, y, h1, h2, hy, hn⟩ | ⟨hg, ⟨x, h1, h2⟩ | ⟨x, h1, h2⟩ | ⟨x, v, y, h1, h2, h3⟩⟩⟩ := file_err h
  · refine ⟨g, y, _, h1, h2, noForm_blame hy hn _, c!"\n(define (domain d))", ?_⟩
    have := file_ok (f := domainOf) (p := domainParts) (x := c!" (domain d))") hg.newline rfl rfl
    simpa [parseDomain] using this
  · refine ⟨g ++ ['('], x, _, by simp [h1], h2, file_blame (keyword_blame (by decide) hg), c!"define (domain d))", ?_⟩
    have := file_ok (f := domainOf) (p := domainParts) (x := c!" (domain d))") hg rfl rfl
    simpa [parseDomain] using this
  · have h3 := trace_pair_first (q := pair _ (pair _ (pair _ (pair _ (pair _ (pair _ (pair _ _)))))))
      (by comb) (.pair .opt (.pair .opt (.pair .opt (.pair .opt (.pair .opt (.pair .opt
        (.pair .opt .opt))))))) h2
    rw [trace_prefixExpr_skip] at h3
    obtain ⟨c, y, kd, cont, v, rfl, h5, hb, h6⟩ := nameForm_viable (by decide) h3 c!")"
    refine ⟨g ++ ('(' :: (c!"define" ++ c)), y, kd, by simp [h1], h5,
      file_blame (contents_blame hg fun g t r hy hg ht r' => ?_), cont ++ c!")", ?_⟩
    · show domainParts _ = .err
      rw [hsk]
      exact trace_pair_none (hb g t r hy hg ht r')
    have := file_ok (f := domainOf) (p := domainParts) (x := c ++ (cont ++ c!")")) hg
      (by rw [hsk]; exact pair_run h6 rfl) rfl
    simpa [parseDomain] using this
  · have h4 := domainParts_erases.ok' h2
    obtain ⟨g1, hg1, _, hgg1⟩ := skip_spec x
    have hg1' := hgg1 fun h0 => by rw [h0] at h4; cases h4
    obtain ⟨gp, hgp, hgpe, hggp⟩ := skip_spec y
    have hy : skip (gp ++ c!"\n)") = c!")" := by
      have := hgpe.newline.skip_solid (solid_close [])
      simpa using this
    obtain ⟨s', hf, hs'⟩ := domainParts_swap (y := y) hy _ _ _ _ h4 .here
    obtain ⟨c, hc, rfl⟩ := hf.split
    refine ⟨g ++ ('(' :: (c!"define" ++ (g1 ++ (c ++ gp)))), skip y, _, ?_, h3, file_blame ?_, c!"\n)", ?_⟩
    · refine h1.trans ?_
      conv => lhs; rw [hg1, hc, hgp]
      simp
    · refine close_blame hg fun g t r hyy hg ht r' => ?_
      obtain ⟨rfl, h9⟩ := solid_form hyy (skip_skip y) hg ht
      obtain ⟨u, _, h10⟩ := skip_form hg ht r
      have hgp' := hggp (by rw [h9, h10]; simp)
      obtain ⟨u', h11, h12⟩ := skip_form hgp' ht r'
      have hyt : y = gp ++ (t ++ r) := by rw [← h9]; exact hgp
      have h4' := h4
      rw [hyt] at h4'
      obtain ⟨s2, hf2, hs2⟩ := domainParts_swap_form (r' := r') hgp' ht _ _ _ _ h4' .here
      obtain ⟨c2, hc2, rfl⟩ := hf2.split
      rw [hc, hyt, List.append_cancel_right_eq] at hc2
      subst hc2
      refine ⟨v, _, u', ?_, h11.trans h12⟩
      rw [hsk]
      have := (hsk.gap hg1' _).trans hs2
      simpa using this
    · have := file_ok (f := domainOf) (p := domainParts) (x := g1 ++ (c ++ (gp ++ c!"\n)"))) hg
        (by rw [hsk, hsk.gap hg1']; exact hs') hy
      simpa [parseDomain] using this

/-! ## Problems -/

theorem trace_pair_err {p : E.P α} {q : E.P β} {s : List Char} {e : E.Trace}
    (h : E.pair p q s = .err e) : p s = .err e ∨ ∃ v r, p s = .ok v r ∧ q r = .err e := by
  simp only [E.pair] at h
  cases h1 : p s with
  | ok v r =>
    rw [h1] at h
    simp only [E.Res.bind] at h
    refine .inr ⟨v, r, rfl, ?_⟩
    cases h2 : q r <;> rw [h2] at h <;> first | exact h | (cases h; rfl) | cases h
  | err e' => rw [h1] at h; exact .inl (by simpa [E.Res.bind] using h)
  | _ => rw [h1] at h; cases h

theorem trace_opt_err {p : E.P α} {s : List Char} {e : E.Trace} : E.opt p s ≠ .err e := fun h => by
  cases hp : p s <;> simp only [E.opt, hp] at h <;> cases h

theorem trace_sec_err {p : E.P α} {s : List Char} {e : E.Trace}
    (h : E.preceded E.multispace1 p s = .err e) :
    ∃ ms y, s = ms ++ y ∧ ((ms = [] ∧ e = [⟨y, .multiSpace⟩]) ∨
      (p y = .err e ∧ ∃ c ms', ms = c :: ms' ∧ ∀ c ∈ ms, isSpace c = true)) := by
  cases s with
  | nil =>
    refine ⟨[], [], rfl, .inl ⟨rfl, ?_⟩⟩
    simpa [E.preceded, E.multispace1, E.takeWhile1, E.Res.bind, E.Trace.raise] using h.symm
  | cons c s =>
    cases hc : isSpace c with
    | false =>
      refine ⟨[], c :: s, rfl, .inl ⟨rfl, ?_⟩⟩
      simpa [E.preceded, E.multispace1, E.takeWhile1, hc, E.Res.bind, E.Trace.raise] using h.symm
    | true =>
      refine ⟨c :: s.takeWhile isSpace, s.dropWhile isSpace, ?_, .inr ⟨?_, _, _, rfl, ?_⟩⟩
      · rw [List.cons_append, List.takeWhile_append_dropWhile]
      · simpa [E.preceded, E.multispace1, E.takeWhile1, hc, E.Res.bind] using h
      · intro d hd
        rcases List.mem_cons.1 hd with rfl | hd
        · exact hc
        · exact all_takeWhile _ _ d hd

theorem Sk.after {p : P α} (h : Sk p) {c : Char} {ms x : List Char} (hc : isSpace c = true)
    (hms : ∀ c ∈ ms, isSpace c = true) : preceded multispace1 p (c :: (ms ++ x)) = p x := by
  rw [preceded_run (multispace1_cons hc _), ← h, ← h x]
  have e : skip ((ms ++ x).dropWhile isSpace) = skip (ms ++ x) := by
    rw [skip, skip, dropWhile_idem]
  rw [e, (Gap.of_spaces hms).skip]

/-- The end of a small problem, from each place where a section is required. -/
def tailGoal : List Char := c!"\n(:goal (a)))"
def tailInit : List Char := c!"\n(:init)\n(:goal (a)))"
def tailDomain : List Char := c!"\n(:domain d)\n(:init)\n(:goal (a)))"

theorem problemParts_swap {y y' k : List Char} (hy : skip y' = ')' :: k) :
    Swap y y' problemParts :=
  .pair (.first (header_sec (by decide))) (.pair (.sec (header_sec (by decide)))
  (.pair (.opt requirements_sec (fun _ => sec_miss (.inl ⟨k, hy⟩)))
  (.pair (.opt objects_sec (fun _ => sec_miss (.inl ⟨k, hy⟩)))
  (.pair (.sec init_sec) (.pair (.sec goal_sec)
  (.pair (.opt problem_constraints_sec (fun _ => sec_miss (.inl ⟨k, hy⟩)))
  (.pair (.opt metric_sec (fun _ => ms1_map_err (sec_miss (.inl ⟨k, hy⟩))))
  (.opt length_sec (fun _ => ms1_map_err (sec_miss (.inl ⟨k, hy⟩)))))))))))

theorem initEl_sec : SecP parseInitEl :=
  .of parseInitEl_ct parseInitEl_snd (fun _ _ h => h.form) parseInitEl_loc

theorem SecP.list0_eq {p : P α} (h : SecP p) (s : List Char) :
    spaceSeparatedList0 p s = match p (skip s) with
      | .err => .ok [] (skip s)
      | .ok a r => (sepLoop multispace1 p (r.length + 1) r).bind fun as r' => .ok (a :: as) r'
      | .fail => .fail
      | .panic => .panic
      | .oof => .oof := by
  have hq : preceded ignoreEolComment p = p := funext fun x => by
    rw [preceded_run (eol_eq x), h.ct]
  rw [spaceSeparatedList0, ws_eq, hq, sepList0]
  cases p (skip s) <;> rfl

theorem SecP.list0_noErr {p : P α} (h : SecP p) : NoErr (spaceSeparatedList0 p) := fun s hs => by
  rw [h.list0_eq] at hs
  cases hp : p (skip s) with
  | ok a r =>
    rw [hp] at hs
    dsimp only at hs
    cases hq : sepLoop multispace1 p (r.length + 1) r with
    | err => exact sepLoop_ne_err _ _ hq
    | _ => rw [hq] at hs; cases hs
  | _ => rw [hp] at hs; cases hs

/-- The text before the error of a form `(kw item …)` whose items are forms is the beginning of
such a form. -/
theorem listForm_viable {kw s : List Char} {e : E.Trace} {p' : E.P α} {p : P α} (hp : SecP p)
    (he : Erases p' p) (hc : ∀ k, p (')' :: k) = .err)
    (hk : headOk kw = true)
    (h : E.prefixExpr kw (E.spaceSeparatedList0 p') s = .err e) (k : List Char) :
    ∃ c y kd cont v, s = c ++ y ∧ e = [⟨y, kd⟩] ∧
      Blame (prefixExpr kw (spaceSeparatedList0 p)) c y ∧
      (∀ kw' (γ : Type) (q : P γ), headOk kw' = true → differ kw' kw = true →
        Blame (prefixExpr kw' q) c y) ∧ (∃ r, skip (c ++ (cont ++ k)) = '(' :: (kw ++ r)) ∧
      prefixExpr kw (spaceSeparatedList0 p) (c ++ (cont ++ k)) = .ok v k := by
  have hel : Erases (E.spaceSeparatedList0 p') (spaceSeparatedList0 p) :=
    .spaceSeparatedList0 he
  have hp0 : spaceSeparatedList0 p (skip (')' :: k)) = .ok [] (')' :: k) := by
    rw [hp.list0_eq, (solid_close k).skip, (solid_close k).skip, hc]
  obtain ⟨g, hg, hge, hgg⟩ := skip_spec s
  rcases E.prefixExpr_err h with ⟨hn, h⟩ | ⟨x, h1, h2⟩ | ⟨x, h1, h2⟩ | ⟨x, v, y, h1, h2, h3⟩
  · have hs := hge.newline.skip_solid (s := '(' :: (kw ++ (')' :: k))) (solid_open _)
    have e1 : g ++ ((['\n'] ++ ('(' :: (kw ++ [')']))) ++ k) =
      (g ++ ['\n']) ++ ('(' :: (kw ++ (')' :: k))) := by simp
    refine ⟨g, skip s, _, ['\n'] ++ ('(' :: (kw ++ [')'])), [], hg, h,
      noForm_blame (skip_skip s) hn g, fun _ _ _ _ _ => noForm_blame (skip_skip s) hn g,
      ⟨_, by rw [e1]; exact hs⟩, ?_⟩
    rw [e1]
    exact prefixExpr_mk hs hp0 (solid_close k).skip
  · have hs := (hgg (by simp [h1])).skip_solid (s := '(' :: (kw ++ (')' :: k))) (solid_open _)
    have e1 : (g ++ ['(']) ++ ((kw ++ [')']) ++ k) = g ++ ('(' :: (kw ++ (')' :: k))) := by simp
    refine ⟨g ++ ['('], x, _, kw ++ [')'], [], ?_, h2,
      keyword_blame hk (hgg (by simp [h1])), fun _ _ _ h _ => keyword_blame h (hgg (by simp [h1])),
      ⟨_, by rw [e1]; exact hs⟩, ?_⟩
    · rw [h1] at hg; simpa using hg
    rw [e1]
    exact prefixExpr_mk hs hp0 (solid_close k).skip
  · have := hel (skip x)
    rw [h2] at this
    exact absurd this.symm (hp.list0_noErr _)
  · have hg' := hgg (by simp [h1])
    obtain ⟨g2, hg2, hge2, hgg2⟩ := skip_spec x
    obtain ⟨g3, hg3, hge3, hgg3⟩ := skip_spec y
    have hy : skip (g3 ++ ('\n' :: ')' :: k)) = ')' :: k := by
      have := hge3.newline.skip_solid (solid_close k)
      simpa using this
    have hskip : ∀ z, spaceSeparatedList0 p (skip z) = spaceSeparatedList0 p z := by
      intro z
      rw [hp.list0_eq, hp.list0_eq, skip_skip]
    suffices hh : ∃ b : List Char, x = b ++ y ∧
        (∃ r', spaceSeparatedList0 p (b ++ (g3 ++ ('\n' :: ')' :: k))) = .ok v r' ∧
          skip r' = ')' :: k) ∧
        ∀ t r r', Form t → Gap g3 → y = g3 ++ (t ++ r) → ∃ w,
          spaceSeparatedList0 p (b ++ (g3 ++ (t ++ r'))) = .ok v w ∧ skip w = t ++ r' by
      obtain ⟨b, hb1, ⟨r', hb2, hb3⟩, hb4⟩ := hh
      have hs := hg'.skip_solid (s := '(' :: (kw ++ (b ++ (g3 ++ ('\n' :: ')' :: k))))) (solid_open _)
      have e1 : (g ++ ('(' :: (kw ++ (b ++ g3)))) ++ (c!"\n)" ++ k) =
        g ++ ('(' :: (kw ++ (b ++ (g3 ++ ('\n' :: ')' :: k))))) := by simp
      refine ⟨g ++ ('(' :: (kw ++ (b ++ g3))), skip y, _, c!"\n)", v, ?_, h3, close_blame hg' ?_, ?_,
        ⟨_, by rw [e1]; exact hs⟩, ?_⟩
      · rw [h1] at hg
        refine hg.trans ?_
        conv => lhs; rw [hb1]; rw [hg3]
        simp
      · intro g t r hyy hg ht r'
        obtain ⟨rfl, h9⟩ := solid_form hyy (skip_skip y) hg ht
        obtain ⟨u, _, h10⟩ := skip_form hg ht r
        obtain ⟨u', _, h12⟩ := skip_form hg ht r'
        have hg3' := hgg3 (by rw [h9, h10]; simp)
        obtain ⟨w, h13, h14⟩ := hb4 t r r' ht hg3' (by rw [← h9]; exact hg3)
        refine ⟨v, w, u', ?_, h14.trans h12⟩
        rw [hskip]
        simpa using h13
      · intro kw' _ q _ hd g1 t r hyy hg1 ht r'
        have hs := hg'.skip_solid (s := '(' :: (kw ++ (b ++ (g3 ++ (g1 ++ (t ++ r')))))) (solid_open _)
        rw [← prefixExpr_skip]
        have e2 : g ++ '(' :: (kw ++ (b ++ g3)) ++ (g1 ++ (t ++ r')) =
          g ++ '(' :: (kw ++ (b ++ (g3 ++ (g1 ++ (t ++ r'))))) := by simp
        rw [e2, hs]
        exact prefixExpr_kw (stripPrefix_differ hd _)
      · rw [e1]
        refine prefixExpr_mk hs ?_ hb3
        rw [hskip, hb2]
    have h4 := hel.ok' h2
    rw [hskip, hp.list0_eq] at h4
    cases hx : p (skip x) <;> rw [hx] at h4
    case err =>
      cases h4
      have hg3' : g3 = [] := by
        have := congrArg List.length hg3
        rw [skip_skip, List.length_append] at this
        exact List.length_eq_zero_iff.1 (by omega)
      have e1 : g2 ++ (g3 ++ ('\n' :: ')' :: k)) = (g2 ++ ['\n']) ++ (')' :: k) := by simp [hg3']
      refine ⟨g2, hg2, ⟨')' :: k, ?_, (solid_close k).skip⟩, ?_⟩
      · rw [e1, hp.list0_eq, hge2.newline.skip_solid (solid_close k), hc]
      · intro t r r' ht hg3 hyy
        subst hg3'
        obtain ⟨u, _, h10⟩ := skip_form hg3 ht r
        obtain ⟨u', h11, h12⟩ := skip_form hg3 ht r'
        rw [List.nil_append] at hyy
        have hg2' := hgg2 (by rw [hyy, h10]; simp)
        obtain ⟨_, h13, _⟩ := skip_form hg2' ht r'
        refine ⟨t ++ r', ?_, h11⟩
        rw [List.nil_append, hp.list0_eq, h13]
        rw [hyy] at hx
        have : p (t ++ r') = .err := by
          obtain ⟨u, rfl, hu⟩ := ht
          have := hp.out [] u r r' .nil hu
          simp only [List.nil_append] at this
          rw [hx] at this
          cases hx : p (paren u ++ r') <;> rw [hx] at this <;> first | rfl | cases this
        rw [this]
    case ok a r =>
      dsimp only at h4
      cases hq : sepLoop multispace1 p (r.length + 1) r <;> rw [hq] at h4 <;> cases h4
      next as =>
      obtain ⟨g', t, f3, hg', ht⟩ := hp.form _ _ _ hx
      obtain ⟨u, rfl, hu⟩ := ht
      have f4 : skip x = paren u ++ r := by
        rw [← skip_skip, f3]
        exact hg'.skip_solid ((solid_paren u).append _)
      have hr : ∀ y', (preceded multispace1 p y = .err → preceded multispace1 p y' = .err) →
          ∃ b, r = b ++ y ∧ spaceSeparatedList0 p (g2 ++ (paren u ++ (b ++ y'))) =
            .ok (a :: as) y' := by
        intro y' hmiss
        obtain ⟨r', f1, f2⟩ := hp.loop hmiss _ _ _ _ _ hq .here
        obtain ⟨b, rfl, rfl⟩ := f1.split
        rw [f4] at hx hg2 hgg2
        have hg2' := hgg2 (by simp [paren])
        refine ⟨b, rfl, ?_⟩
        have e1 : skip (g2 ++ (paren u ++ (b ++ y'))) = paren u ++ (b ++ y') :=
          hg2'.skip_solid ((solid_paren u).append _)
        rw [hp.list0_eq, e1, hp.tail _ _ _ hx]
        dsimp only
        rw [f2 _ (Nat.lt_succ_self _)]
        rfl
      obtain ⟨b, rfl, hb⟩ := hr (g3 ++ ('\n' :: ')' :: k)) fun _ =>
        ms1_ct_err hp.ct (by rw [hy]; exact hc k)
      refine ⟨g2 ++ (paren u ++ b), ?_, ⟨_, ?_, hy⟩, ?_⟩
      · rw [f4] at hg2
        simpa using hg2
      · simpa using hb
      · intro t r r' ht hg3' hyy
        obtain ⟨b', e, hb'⟩ := hr (g3 ++ (t ++ r')) (by
          rw [hyy]; exact hp.absent_form hg3' ht)
        rw [List.append_cancel_right_eq] at e
        subst e
        obtain ⟨_, h13, _⟩ := skip_form hg3' ht r'
        exact ⟨_, by simpa using hb', h13⟩
    all_goals cases h4

/-- The reported position of an error of a problem: an entry of its own, or the entries of
the goal, of which the sequence passes on the error. -/
def ProblemPos (e : E.Trace) (y : List Char) : Prop :=
  (∃ k, e = [⟨y, k⟩]) ∨ E.parseProblemGoalDef y = .err e

/-- Requirements and objects are missing before the second text if they are missing before the
first. -/
def Keep (z z' : List Char) : Prop :=
  (preceded multispace1 parseRequireDef z = .err → preceded multispace1 parseRequireDef z' = .err) ∧
  (preceded multispace1 parseProblemObjectsDeclaration z = .err →
    preceded multispace1 parseProblemObjectsDeclaration z' = .err)

theorem keep_form {c g t r r' y : List Char} (hc : Gap c) (hy : y = g ++ (t ++ r)) (hg : Gap g)
    (ht : Form t) : Keep (c ++ y) (c ++ (g ++ (t ++ r'))) := by
  subst hy
  rw [← List.append_assoc c g, ← List.append_assoc c g]
  exact ⟨requirements_sec.absent_form (hc.append hg) ht, objects_sec.absent_form (hc.append hg) ht⟩

theorem keep_miss {kw z z' r : List Char} (h : skip z' = '(' :: (kw ++ r))
    (h1 : differ c!":requirements" kw = true) (h2 : differ c!":objects" kw = true) : Keep z z' :=
  ⟨fun _ => sec_miss (.inr ⟨kw, r, h, h1⟩), fun _ => sec_miss (.inr ⟨kw, r, h, h2⟩)⟩

/-- Where the traced parser gives an error, the text before it can be completed so that the parser
stops before the last parenthesis, and a form behind it is to blame. The other texts keep the forms
that have been read, and `K` holds of them. -/
def Via (K : List Char → List Char → Prop) (p' : E.P α) (p : P α) : Prop := ∀ s e, p' s = .err e →
  ∃ z c y, z = c ++ y ∧ ProblemPos e y ∧
    (∃ cont s' v, K z (c ++ cont) ∧ Fol z (c ++ cont) s s' ∧ p s' = .ok v c!")") ∧
    ∀ g t r, y = g ++ (t ++ r) → Gap g → Form t → ∀ r', K z (c ++ (g ++ (t ++ r'))) ∧
      ∃ s', Fol z (c ++ (g ++ (t ++ r'))) s s' ∧ p s' = .err

theorem Via.then {K K' : List Char → List Char → Prop} {p' : E.P α} {p : P α} {q' : E.P β} {q : P β}
    (hp : Erases p' p) (hsw : ∀ z z', K z z' → Swap z z' p) (hK : ∀ z z', K z z' → K' z z')
    (h : Via K q' q)
    (h0 : ∀ s e, p' s = .err e → ∃ c y, s = c ++ y ∧ ProblemPos e y ∧
      (∃ cont k v w, K' (c ++ y) (c ++ cont) ∧ p (c ++ cont) = .ok v k ∧ q k = .ok w c!")") ∧
      ∀ g t r, y = g ++ (t ++ r) → Gap g → Form t → ∀ r', K' (c ++ y) (c ++ (g ++ (t ++ r'))) ∧
        p (c ++ (g ++ (t ++ r'))) = .err) :
    Via K' (E.pair p' q') (Pddl.pair p q) := by
  intro s e hs
  rcases trace_pair_err hs with h1 | ⟨v, r, h1, h2⟩
  · obtain ⟨c, y, rfl, h3, ⟨cont, k, v, w, h4, h5, h6⟩, h7⟩ := h0 s e h1
    refine ⟨c ++ y, c, y, rfl, h3, ⟨cont, _, _, h4, .here, pair_run h5 h6⟩, ?_⟩
    intro g t r hy hg ht r'
    obtain ⟨h8, h9⟩ := h7 g t r hy hg ht r'
    exact ⟨h8, _, .here, trace_pair_none h9⟩
  · obtain ⟨z, c, y, h3, h4, ⟨cont, r', w, h5, h6, h7⟩, h8⟩ := h r e h2
    obtain ⟨s', h9, h10⟩ := hsw _ _ h5 _ _ _ _ (hp.ok' h1) h6
    refine ⟨z, c, y, h3, h4, ⟨cont, s', _, hK _ _ h5, h9, pair_run h10 h7⟩, ?_⟩
    intro g t r hy hg ht r'
    obtain ⟨h11, x, h12, h13⟩ := h8 g t r hy hg ht r'
    obtain ⟨s', h14, h15⟩ := hsw _ _ h11 _ _ _ _ (hp.ok' h1) h12
    refine ⟨hK _ _ h11, s', h14, ?_⟩
    simp only [Pddl.pair, h15, h13, Res.bind]

/-- The goal: its errors are passed on as they are. -/
theorem goalSec_viable (s : List Char) (e : E.Trace)
    (h : E.preceded E.multispace1 E.parseProblemGoalDef s = .err e) :
    ∃ c y, s = c ++ y ∧ ProblemPos e y ∧
      (∃ cont v, Keep (c ++ y) (c ++ cont) ∧
        preceded multispace1 parseProblemGoalDef (c ++ cont) = .ok v c!")") ∧
      ∀ g t r, y = g ++ (t ++ r) → Gap g → Form t → ∀ r', Keep (c ++ y) (c ++ (g ++ (t ++ r'))) ∧
        preceded multispace1 parseProblemGoalDef (c ++ (g ++ (t ++ r'))) = .err := by
  have hb : preceded multispace1 parseProblemGoalDef s = .err := by
    have : Erases (E.preceded E.multispace1 E.parseProblemGoalDef)
      (preceded multispace1 parseProblemGoalDef) := by comb
    have := this s
    rw [h] at this
    exact this.symm
  have hbl : ∀ c y, s = c ++ y → Gap c → ∀ g t r, y = g ++ (t ++ r) → Gap g → Form t →
      ∀ r', Keep (c ++ y) (c ++ (g ++ (t ++ r'))) ∧
        preceded multispace1 parseProblemGoalDef (c ++ (g ++ (t ++ r'))) = .err := by
    intro c y hs hc g t r hy hg ht r'
    refine ⟨keep_form hc hy hg ht, ?_⟩
    rw [hs, hy, ← List.append_assoc] at hb
    rw [← List.append_assoc]
    exact goal_sec.absent_form (hc.append hg) ht hb
  have hsk : Sk parseProblemGoalDef := .prefixExpr
  obtain ⟨ms, y, rfl, ⟨rfl, rfl⟩ | ⟨h1, c, ms', rfl, h3⟩⟩ := trace_sec_err h
  · refine ⟨[], y, rfl, .inl ⟨_, rfl⟩, ⟨tailGoal, _, keep_miss (kw := c!":goal") rfl (by decide)
      (by decide), rfl⟩, hbl _ _ rfl .nil⟩
  · refine ⟨_, y, rfl, .inr h1, ⟨tailGoal, _, keep_miss (kw := c!":goal") (r := c!" (a)))") ?_
      (by decide) (by decide), (hsk.after (ms := ms') (h3 c (by simp))
        fun c hc => h3 c (by simp [hc])).trans rfl⟩, hbl _ _ rfl (Gap.of_spaces h3)⟩
    · rw [(Gap.of_spaces h3).skip]
      rfl

/-- The initial state. -/
theorem initSec_viable {k : List Char} (s : List Char) (e : E.Trace)
    (h : E.preceded E.multispace1 E.parseProblemInitDef s = .err e) :
    ∃ c y, s = c ++ y ∧ ProblemPos e y ∧
      (∃ cont v, Keep (c ++ y) (c ++ cont) ∧
        preceded multispace1 parseProblemInitDef (c ++ cont) = .ok v k) ∧
      ∀ g t r, y = g ++ (t ++ r) → Gap g → Form t → ∀ r', Keep (c ++ y) (c ++ (g ++ (t ++ r'))) ∧
        preceded multispace1 parseProblemInitDef (c ++ (g ++ (t ++ r'))) = .err := by
  have hsk : Sk parseProblemInitDef := .prefixExpr
  have hb : preceded multispace1 parseProblemInitDef s = .err := by
    have : Erases (E.preceded E.multispace1 E.parseProblemInitDef)
      (preceded multispace1 parseProblemInitDef) := by comb
    have := this s
    rw [h] at this
    exact this.symm
  obtain ⟨ms, y, rfl, ⟨rfl, rfl⟩ | ⟨h1, c, ms', rfl, h3⟩⟩ := trace_sec_err h
  · refine ⟨[], y, rfl, .inl ⟨_, rfl⟩, ⟨c!"\n(:init)" ++ k, [], keep_miss (kw := c!":init") rfl
      (by decide) (by decide), ?_⟩, ?_⟩
    · have := hsk.after (c := '\n') (ms := []) (x := c!"(:init)" ++ k) (by decide) (by simp)
      exact this.trans rfl
    · intro g t r hy hg ht r'
      refine ⟨keep_form .nil hy hg ht, ?_⟩
      rw [List.nil_append, hy] at hb
      simpa using init_sec.absent_form (r' := r') hg ht hb
  · obtain ⟨c2, y, kd, cont, v, rfl, rfl, h4, h4', ⟨r, h5⟩, h6⟩ :=
      listForm_viable initEl_sec parseInitEl_erases parseInitEl_close (by decide) h1 k
    have ha : ∀ {γ : Type} {q : P γ} (_ : Sk q) (x : List Char),
        preceded multispace1 q (c :: ms' ++ c2 ++ x) = q (c2 ++ x) := by
      intro γ q hq x
      have := hq.after (ms := ms') (x := c2 ++ x) (h3 c (by simp)) fun c hc => h3 c (by simp [hc])
      simpa using this
    refine ⟨c :: ms' ++ c2, y, by simp, .inl ⟨_, rfl⟩, ⟨cont ++ k, v, keep_miss (kw := c!":init")
      (r := r) ?_ (by decide) (by decide), ?_⟩, ?_⟩
    · rw [List.append_assoc, (Gap.of_spaces h3).skip]
      exact h5
    · rw [ha hsk]
      exact h6
    · intro g t r hy hg ht r'
      refine ⟨⟨fun _ => ?_, fun _ => ?_⟩, ?_⟩
      · rw [ha (q := parseRequireDef) .prefixExpr]
        exact h4' _ _ _ (by decide) (by decide) g t r hy hg ht r'
      · rw [ha (q := parseProblemObjectsDeclaration) .prefixExpr]
        exact h4' _ _ _ (by decide) (by decide) g t r hy hg ht r'
      · rw [ha hsk]
        exact h4 g t r hy hg ht r'

/-- A required form `(kw name)`. -/
theorem nameSec_viable {kw t k : List Char} {v : Name} (hk : headOk kw = true)
    (hkp : plainText kw = true)
    (ht : prefixExpr kw parseName ('\n' :: t ++ k) = .ok v k) (s : List Char) (e : E.Trace)
    (h : E.preceded E.multispace1 (E.prefixExpr kw E.parseName) s = .err e) :
    ∃ c y, s = c ++ y ∧ ProblemPos e y ∧
      (∃ cont v, preceded multispace1 (prefixExpr kw parseName) (c ++ cont) = .ok v k) ∧
      Blame (preceded multispace1 (prefixExpr kw parseName)) c y := by
  have hsk : Sk (prefixExpr kw parseName) := .prefixExpr
  have hb : preceded multispace1 (prefixExpr kw parseName) s = .err := by
    have : Erases (E.preceded E.multispace1 (E.prefixExpr kw E.parseName))
      (preceded multispace1 (prefixExpr kw parseName)) := by comb
    have := this s
    rw [h] at this
    exact this.symm
  obtain ⟨ms, y, rfl, ⟨rfl, rfl⟩ | ⟨h1, c, ms', rfl, h3⟩⟩ := trace_sec_err h
  · refine ⟨[], y, rfl, .inl ⟨_, rfl⟩, ⟨'\n' :: t ++ k, v, ?_⟩, ?_⟩
    · have := hsk.after (c := '\n') (ms := []) (x := t ++ k) (by decide) (by simp)
      simp only [List.nil_append] at this ⊢
      refine this.trans (Eq.trans ?_ ht)
      exact (hsk.gap (g := ['\n']) (.space (by decide) .nil) (t ++ k)).symm
    · intro g t r hy hg ht r'
      rw [List.nil_append, hy] at hb
      simpa using (header_sec hkp).absent_form (r' := r') hg ht hb
  · obtain ⟨c2, y, kd, cont, v, rfl, rfl, hbl, h6⟩ := nameForm_viable hk h1 k
    have ha : ∀ (x : List Char), preceded multispace1 (prefixExpr kw parseName) (c :: ms' ++ c2 ++ x) =
        prefixExpr kw parseName (c2 ++ x) := by
      intro x
      have := hsk.after (ms := ms') (x := c2 ++ x) (h3 c (by simp)) fun c hc => h3 c (by simp [hc])
      simpa using this
    refine ⟨c :: ms' ++ c2, y, by simp, .inl ⟨_, rfl⟩, ⟨cont ++ k, v, ?_⟩, ?_⟩
    · rw [ha]
      exact h6
    · intro g t r hy hg ht r'
      rw [ha]
      exact hbl g t r hy hg ht r'

theorem initParts_viable : Via Keep
    (E.pair (E.preceded E.multispace1 E.parseProblemInitDef)
    (E.pair (E.preceded E.multispace1 E.parseProblemGoalDef)
    (E.pair (E.opt (E.preceded E.multispace1 E.parseProblemConstraintsDef))
    (E.pair (E.opt (E.preceded E.multispace1 E.parseProblemMetricSpec))
      (E.opt (E.preceded E.multispace1 E.parseProblemLengthSpec))))))
    (pair (preceded multispace1 parseProblemInitDef)
    (pair (preceded multispace1 parseProblemGoalDef)
    (pair (opt (preceded multispace1 parseProblemConstraintsDef))
    (pair (opt (preceded multispace1 parseProblemMetricSpec))
      (opt (preceded multispace1 parseProblemLengthSpec)))))) := by
  refine .then (K := Keep) (by comb) (fun _ _ _ => .sec init_sec) (fun _ _ h => h) ?_ ?_
  · refine .then (K := fun _ _ => False) (by comb) (fun _ _ h => h.elim) (fun _ _ h => h.elim) ?_ ?_
    · intro s e h
      rcases trace_pair_err h with h | ⟨_, _, _, h⟩
      · exact absurd h trace_opt_err
      rcases trace_pair_err h with h | ⟨_, _, _, h⟩ <;> exact absurd h trace_opt_err
    · intro s e h
      obtain ⟨c, y, h1, h2, ⟨cont, v, h3, h4⟩, h5⟩ := goalSec_viable s e h
      exact ⟨c, y, h1, h2, ⟨cont, _, _, _, h3, h4, rfl⟩, h5⟩
  · intro s e h
    obtain ⟨c, y, h1, h2, ⟨cont, v, h3, h4⟩, h5⟩ := initSec_viable (k := tailGoal) s e h
    exact ⟨c, y, h1, h2, ⟨cont, _, _, _, h3, h4, rfl⟩, h5⟩

theorem problemParts_viable : Via (fun _ _ => True) E.problemParts problemParts := by
  refine .then (K := fun _ _ => True) (by comb) (fun _ _ _ => .first (header_sec (by decide)))
    (fun _ _ _ => trivial) ?_ ?_
  · refine .then (K := Keep) (by comb)
      (fun _ _ _ => .sec (header_sec (by decide))) (fun _ _ _ => trivial) ?_ ?_
    · refine .then (by comb) (fun _ z h => .opt requirements_sec h.1)
        (fun _ _ h => h) ?_ fun _ _ h => absurd h trace_opt_err
      exact .then (by comb) (fun _ z h => .opt objects_sec h.2)
        (fun _ _ h => h) initParts_viable fun _ _ h => absurd h trace_opt_err
    · intro s e h
      obtain ⟨c, y, h1, h2, ⟨cont, v, h3⟩, h4⟩ := nameSec_viable (t := c!"(:domain d)")
        (k := tailInit) (by decide) (by decide) rfl s e h
      exact ⟨c, y, h1, h2, ⟨cont, _, _, _, trivial, h3, rfl⟩,
        fun g t r hy hg ht r' => ⟨trivial, h4 g t r hy hg ht r'⟩⟩
  · intro s e h
    obtain ⟨c, y, kd, cont, v, h1, h2, hb, h3⟩ := nameForm_viable (by decide) h tailDomain
    exact ⟨c, y, h1, .inl ⟨_, h2⟩, ⟨cont ++ tailDomain, _, _, _, trivial, h3, rfl⟩,
        fun g t r hy hg ht r' => ⟨trivial, hb g t r hy hg ht r'⟩⟩

theorem problemParts_swap_form {g t r r' : List Char} (hg : Gap g) (ht : Form t) :
    Swap (g ++ (t ++ r)) (g ++ (t ++ r')) problemParts :=
  .pair (.first (header_sec (by decide))) (.pair (.sec (header_sec (by decide)))
  (.pair (.opt requirements_sec (requirements_sec.absent_form hg ht))
  (.pair (.opt objects_sec (objects_sec.absent_form hg ht))
  (.pair (.sec init_sec) (.pair (.sec goal_sec)
  (.pair (.opt problem_constraints_sec (problem_constraints_sec.absent_form hg ht))
  (.pair (.opt metric_sec (metric_sec.absent_form hg ht))
  (.opt length_sec (length_sec.absent_form hg ht)))))))))

/-- Everything before the position of an error of a problem is the beginning of a text that the
parser accepts. If a form begins there, no text that goes on with this form is accepted. The error
has this one position only, unless it lies in the goal: then the position is the beginning of the
goal, and the error is the one that the parser of this section gives there. -/
theorem C59_problems (s : List Char) (e : E.Trace) (h : E.parseProblem s = .err e) :
    ∃ pre y, s = pre ++ y ∧ ((∃ k, e = [⟨y, k⟩]) ∨ E.parseProblemGoalDef y = .err e) ∧
      (∀ g t r, y = g ++ (t ++ r) → Gap g → Form t →
        ∀ r', parseProblem (pre ++ (g ++ (t ++ r'))) = .err) ∧
      ∃ cont d, parseProblem (pre ++ cont) = .ok d [] := by
  have hsk : Sk problemParts := .pair .prefixExpr
  obtain ⟨g, ⟨hg, y, h1, h2, hy, hn⟩ | ⟨hg, ⟨x, h1, h2⟩ | ⟨x, h1, h2⟩ | ⟨x, v, y, h1, h2, h3⟩⟩⟩ :=
    file_err h
  · refine ⟨g, y, h1, .inl ⟨_, h2⟩, noForm_blame hy hn _,
      c!"\n(define (problem d)" ++ tailDomain, ?_⟩
    have := file_ok (f := problemOf) (p := problemParts) (x := c!" (problem d)" ++ tailDomain)
      hg.newline rfl rfl
    simpa [parseProblem] using this
  · refine ⟨g ++ ['('], x, by simp [h1], .inl ⟨_, h2⟩, file_blame (keyword_blame (by decide) hg),
      c!"define (problem d)" ++ tailDomain, ?_⟩
    have := file_ok (f := problemOf) (p := problemParts) (x := c!" (problem d)" ++ tailDomain) hg
      rfl rfl
    simpa [parseProblem] using this
  · obtain ⟨g1, hg1, hge1, hgg1⟩ := skip_spec x
    obtain ⟨z, c, y, rfl, h5, ⟨cont, s', v, _, h3, h6⟩, h10⟩ := problemParts_viable _ _ h2
    obtain ⟨b, h7, rfl⟩ := h3.split
    by_cases hx : skip x = []
    · -- nothing but layout behind `define`
      rw [hx] at h7
      have hb : b = [] ∧ c = [] ∧ y = [] := by simpa using h7
      obtain ⟨rfl, rfl, rfl⟩ := hb
      refine ⟨g ++ ('(' :: (c!"define" ++ g1)), [], ?_, h5, ?_, '\n' :: cont, ?_⟩
      · refine h1.trans ?_
        conv => lhs; rw [hg1, hx]
        simp
      · intro g t r hy hg ht
        obtain ⟨c, w, hc, _⟩ := form_head hg ht
        rw [hc] at hy
        cases hy
      · have := file_ok (f := problemOf) (p := problemParts) (x := (g1 ++ ['\n']) ++ cont) hg
          (by rw [hsk, hsk.gap hge1.newline]; exact h6) rfl
        simpa [parseProblem] using this
    · refine ⟨g ++ ('(' :: (c!"define" ++ (g1 ++ (b ++ c)))), y, ?_, h5,
        file_blame (contents_blame hg ?_), cont, ?_⟩
      · refine h1.trans ?_
        conv => lhs; rw [hg1, h7]
        simp
      · intro g t r hy hg ht r'
        obtain ⟨_, s2, h11, h12⟩ := h10 g t r hy hg ht r'
        obtain ⟨b2, h13, rfl⟩ := h11.split
        rw [h7, List.append_cancel_right_eq] at h13
        subst h13
        show problemParts _ = .err
        rw [hsk]
        have := (hsk.gap (hgg1 hx) _).trans h12
        simpa using this
      · have := file_ok (f := problemOf) (p := problemParts) (x := g1 ++ (b ++ (c ++ cont))) hg
          (by rw [hsk, hsk.gap (hgg1 hx)]; exact h6) rfl
        simpa [parseProblem] using this
  · have h4 := problemParts_erases.ok' h2
    obtain ⟨g1, hg1, _, hgg1⟩ := skip_spec x
    have hg1' := hgg1 fun h0 => by rw [h0] at h4; cases h4
    obtain ⟨gp, hgp, hgpe, hggp⟩ := skip_spec y
    have hy : skip (gp ++ c!"\n)") = c!")" := by
      have := hgpe.newline.skip_solid (solid_close [])
      simpa using this
    obtain ⟨s', hf, hs'⟩ := problemParts_swap (y := y) hy _ _ _ _ h4 .here
    obtain ⟨c, hc, rfl⟩ := hf.split
    refine ⟨g ++ ('(' :: (c!"define" ++ (g1 ++ (c ++ gp)))), skip y, ?_, .inl ⟨_, h3⟩,
      file_blame ?_, c!"\n)", ?_⟩
    · refine h1.trans ?_
      conv => lhs; rw [hg1, hc, hgp]
      simp
    · refine close_blame hg fun g t r hyy hg ht r' => ?_
      obtain ⟨rfl, h9⟩ := solid_form hyy (skip_skip y) hg ht
      obtain ⟨u, _, h10⟩ := skip_form hg ht r
      have hgp' := hggp (by rw [h9, h10]; simp)
      obtain ⟨u', h11, h12⟩ := skip_form hgp' ht r'
      have hyt : y = gp ++ (t ++ r) := by rw [← h9]; exact hgp
      have h4' := h4
      rw [hyt] at h4'
      obtain ⟨s2, hf2, hs2⟩ := problemParts_swap_form (r' := r') hgp' ht _ _ _ _ h4' .here
      obtain ⟨c2, hc2, rfl⟩ := hf2.split
      rw [hc, hyt, List.append_cancel_right_eq] at hc2
      subst hc2
      refine ⟨v, _, u', ?_, h11.trans h12⟩
      rw [hsk]
      have := (hsk.gap hg1' _).trans hs2
      simpa using this
    · have := file_ok (f := problemOf) (p := problemParts) (x := g1 ++ (c ++ (gp ++ c!"\n)"))) hg
        (by rw [hsk, hsk.gap hg1']; exact hs') hy
      simpa [parseProblem] using this

-- An error inside an action is reported at the beginning of the action.
example : E.parseDomain c!"(define (domain d) (:types a) (:action b :parameters (x)))" =
    .err [⟨c!"(:action b :parameters (x)))", .tag⟩] := by rfl
example : Form c!"(:action b :parameters (x))" :=
  ⟨c!":action b :parameters (x)", rfl,
    (Bal.of_kw (u := c!":action b :parameters ") (by decide)).append
      (.nest (Bal.of_kw (u := c!"x") (by decide)) .nil)⟩
example : E.parseProblem c!"(define (problem p) (:domain d) (:init (a) 5) (:goal (b)))" =
    .err [⟨c!"5) (:goal (b)))", .tag⟩] := by rfl
example : E.parseProblem c!"(define (problem p) (:domain d) (:init) (:goal 5))" =
    .err [⟨c!"5))", .tag⟩, ⟨c!"5))", .alt⟩] ∧
    E.parseProblemGoalDef c!"(:goal 5))" = .err [⟨c!"5))", .tag⟩, ⟨c!"5))", .alt⟩] := ⟨rfl, rfl⟩

end Pddl
