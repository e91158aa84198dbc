import Verif.Props.ActionsX

/-!
# C46 and C48, exactly

C46 ("keywords end at a word boundary") and C48 ("a comment separates tokens") are false of the code. This file
says exactly when they hold: nothing need follow a keyword, so its end is noticed exactly if its operand cannot
begin with a word; and a comment separates the members of a list exactly if a blank stands before it.
-/

namespace Pddl

/-! ## Keywords -/

/-- C46: between a keyword and what follows, any layout and none are the same. -/
theorem C46_never_needed {kw : List Char} {p : P α} {g0 g y : List Char} (h0 : Gap g0) (hg : Gap g) (hy : Solid y) :
    prefixExpr kw p (g0 ++ '(' :: (kw ++ (g ++ y))) = prefixExpr kw p (g0 ++ '(' :: (kw ++ y)) := by
  rw [← prefixExpr_skip, h0.skip_solid (solid_open _), ← prefixExpr_skip (s := g0 ++ '(' :: (kw ++ y)),
    h0.skip_solid (solid_open _), prefixExpr_open, prefixExpr_open, stripPrefix_append, stripPrefix_append]
  simp only [hg.skip_solid hy, hy.skip]

/-- C46: the end of the keyword is noticed exactly if no operand begins with a word character. -/
theorem C46_iff (kw : List Char) (p : P α) : KeywordEnds kw (prefixExpr kw p) ↔
    ∀ c y v r, isWordChar c = true → p (c :: y) = .ok v r → ∀ r', skip r ≠ ')' :: r' := by
  constructor
  · intro h c y v r hc hp r' hr
    obtain ⟨_, _, h1, h2⟩ := wordChar_solid hc
    have hs : prefixExpr kw p ('(' :: (kw ++ c :: y)) = .ok v r' := by
      rw [prefixExpr_open, stripPrefix_append]
      simp only [(Solid.cons h2 h1 y).skip, hp, Res.bind, hr, closeRes_close]
    obtain ⟨g, z, e, hg, hn⟩ := h _ _ _ hs
    have e' := congrArg skip e
    rw [(solid_open _).skip, hg.skip_solid (solid_open _)] at e'
    have e'' := List.append_cancel_left (List.cons.inj e').2
    have := hn c y e''.symm
    rw [hc] at this
    cases this
  · intro h s v r hs
    obtain ⟨g, hg0, _, hg⟩ := skip_spec s
    rw [← prefixExpr_skip] at hs
    cases hk : skip s with
    | nil => rw [hk] at hs; cases hs
    | cons c x =>
      have hg := hg (by rw [hk]; simp)
      rw [hk] at hs hg0
      have hc : c = '(' := by
        refine Classical.byContradiction fun hc => ?_
        have hsk : skip (c :: x) = c :: x := by rw [← hk, skip_skip]
        simp [prefixExpr, delimited, preceded, ws_eq, hsk, tag, stripPrefix, Ne.symm hc, Res.bind] at hs
      subst hc
      rw [prefixExpr_open] at hs
      cases hst : stripPrefix kw x with
      | none => rw [hst] at hs; cases hs
      | some y =>
        rw [hst] at hs
        have hx := Good.stripPrefix_eq hst
        refine ⟨g, y, by rw [hg0, hx], hg, ?_⟩
        rintro d y' rfl
        refine Bool.eq_false_iff.mpr fun hd => ?_
        obtain ⟨_, _, h1, h2⟩ := wordChar_solid hd
        simp only [(Solid.cons h2 h1 y').skip] at hs
        cases hp : p (d :: y') with
        | ok v' r' =>
          rw [hp] at hs
          simp only [Res.bind] at hs
          cases hr : skip r' with
          | nil => rw [hr] at hs; cases hs
          | cons e r'' =>
            by_cases he : e = ')'
            · subst he
              exact h d y' v' r' hd hp r'' hr
            · rw [closeRes_err (fun x hx => he (by rw [hr] at hx; exact (List.cons.inj hx).1))] at hs
              cases hs
        | err => rw [hp] at hs; cases hs
        | fail => rw [hp] at hs; cases hs
        | panic => rw [hp] at hs; cases hs
        | oof => rw [hp] at hs; cases hs

/-- A name directly behind its keyword is read, and so is a number; a goal cannot stand there. -/
example : ¬ KeywordEnds c!":domain" (prefixExpr c!":domain" parseName) ∧
    ¬ KeywordEnds c!"within" (prefixExpr c!"within" parseNumber) ∧ KeywordEnds c!"not" (prefixExpr c!"not" parseGd) :=
  ⟨fun h => (C46_iff _ _).mp h 'd' c!")" (.new c!"d") c!")" rfl rfl [] rfl,
    fun h => (C46_iff _ _).mp h '5' c!")" _ c!")" rfl rfl [] rfl, .of_nw parseGd_par.nw⟩

/-! ## Comments between the members of a list -/

/-- Parts in any layout. `gs` are the layouts between them. -/
inductive Loose (R : α → List Char → Prop) : List α → List (List Char) → List Char → Prop
  | one {a t} : R a t → Loose R [a] [] t
  | cons {a t g as gs u} : R a t → Gap g → Loose R as gs u → Loose R (a :: as) (g :: gs) (t ++ (g ++ u))

theorem Loose.form {R : α → List Char → Prop} (hR : ∀ a t, R a t → Form t) {as : List α} {gs : List (List Char)}
    {u : List Char} (h : Loose R as gs u) : ∃ t v, u = t ++ v ∧ Form t := by
  cases h with
  | one h => exact ⟨u, [], by simp, hR _ _ h⟩
  | cons h => exact ⟨_, _, rfl, hR _ _ h⟩

theorem items_lead {R : α → List Char → Prop} (hR : ∀ a t, R a t → Form t) {as : List α}
    {u : List Char} (h : Items R as u) : ∃ t v, u = t ++ v ∧ Form t := by
  cases h with
  | one h => exact ⟨u, [], by simp, hR _ _ h⟩
  | cons h => exact ⟨_, _, rfl, hR _ _ h⟩

theorem Loose.to_items {R : α → List Char → Prop} {as : List α} {gs : List (List Char)} {u : List Char}
    (h : Loose R as gs u) (hs : ∀ g ∈ gs, Sep g) : Items R as u := by
  induction h with
  | one h => exact .one h
  | cons h _ _ ih => exact .cons h (hs _ (by simp)) (ih fun g hg => hs g (by simp [hg]))

theorem Loose.sep {R : α → List Char → Prop} (hR : ∀ a t, R a t → Form t) {as : List α} {gs : List (List Char)}
    {u : List Char} (h : Loose R as gs u) : ∀ {x y u'}, Items R as u' → Gap x → Gap y → u ++ x = u' ++ y →
      (∀ g ∈ gs, Sep g) ∧ u = u' := by
  induction h with
  | @one a t h =>
    intro x y u' h' _ _ e
    cases h' with
    | one h' =>
      obtain ⟨_, e2, _⟩ := form_split (g := []) (g' := []) .nil (hR _ _ h) .nil (hR _ _ h') (by simpa using e)
      exact ⟨by simp, e2⟩
    | cons _ _ h' => cases h'
  | @cons a t g as gs u h hg hl ih =>
    intro x y u' h' hx hy e
    cases h' with
    | one => cases hl
    | @cons _ t' g' _ u' h1 h2 h3 =>
      obtain ⟨_, rfl, e1⟩ := form_split (g := []) (g' := []) (r := g ++ (u ++ x)) (r' := g' ++ (u' ++ y))
        .nil (hR _ _ h) .nil (hR _ _ h1) (by simpa only [List.nil_append, List.append_assoc] using e)
      obtain ⟨t2, v2, e2, f2⟩ := hl.form hR
      obtain ⟨t3, v3, e3, f3⟩ := items_lead hR h3
      obtain ⟨rfl, _, _⟩ := form_split hg f2 h2.gap f3 (r := v2 ++ x) (r' := v3 ++ y)
        (by simpa only [e2, e3, List.append_assoc] using e1)
      obtain ⟨k1, k2⟩ := ih h3 hx hy (List.append_cancel_left e1)
      refine ⟨fun g' hg' => ?_, by rw [k2]⟩
      rcases List.mem_cons.mp hg' with rfl | hg'
      · exact h2
      · exact k1 g' hg'

/-- The members are read exactly if a blank begins the layout between any two of them. -/
theorem loose_iff {R : α → List Char → Prop} (hR : ∀ a t, R a t → Form t) {as : List α} {gs : List (List Char)}
    {u g1 g2 : List Char} (h : Loose R as gs u) (h1 : Gap g1) (h2 : Gap g2) :
    Sec Gap Gap (Items R) as (g1 ++ (u ++ g2)) ↔ ∀ g ∈ gs, Sep g := by
  refine ⟨fun k => ?_, fun k => .cons h1 (h.to_items k) h2⟩
  generalize e : g1 ++ (u ++ g2) = w at k
  cases k with
  | nil => cases h
  | @cons g3 _ u' g4 k1 k2 k3 =>
    obtain ⟨t, v, rfl, f⟩ := h.form hR
    obtain ⟨t', v', rfl, f'⟩ := items_lead hR k2
    obtain ⟨rfl, _, _⟩ := form_split h1 f k1 f' (by simpa only [List.append_assoc] using e)
    exact (h.sep hR k2 h2 k3 (List.append_cancel_left e)).1

theorem paren_inj_kw {kw x y : List Char} (e : paren (kw ++ x) = paren (kw ++ y)) : x = y := by
  simp only [paren, List.cons.injEq, true_and] at e
  exact List.append_cancel_left (List.append_cancel_right e)

/-- What is read where a form begins. -/
theorem Texts.at_open {p : P α} {X : List Char → α → List Char → Prop} (T : Texts p X) (v : α) (x r : List Char) :
    p (paren x ++ r) = .ok v r ↔ X [] v (paren x) := by
  constructor
  · intro h
    obtain ⟨g, t, e, h⟩ := (T.iff _ _ _).mp h
    have e' := congrArg skip e
    rw [((solid_paren x).append r).skip, (T.gap h).skip_solid ((T.form h).solid.append r)] at e'
    rw [List.append_cancel_right e']
    exact T.base h
  · intro h
    exact (T.iff _ _ _).mpr ⟨[], _, rfl, h⟩

/-- C48, the members of conjunctions and disjunctions of goals, in any number. -/
theorem C48_goals_iff {as : List GD} {gs : List (List Char)} {u g1 g2 : List Char} (h : Loose GDX as gs u)
    (h1 : Gap g1) (h2 : Gap g2) (r : List Char) :
    (parseGd (paren (c!"and" ++ (g1 ++ (u ++ g2))) ++ r) = .ok (.and as) r ↔ ∀ g ∈ gs, Sep g) ∧
    (parseGd (paren (c!"or" ++ (g1 ++ (u ++ g2))) ++ r) = .ok (.or as) r ↔ ∀ g ∈ gs, Sep g) := by
  rw [← loose_iff (fun _ _ h => goal_texts.form ⟨.nil _, h⟩) h h1 h2, goal_texts.at_open, goal_texts.at_open]
  refine ⟨⟨fun ⟨_, k⟩ => ?_, fun k => ⟨.nil _, .and k⟩⟩, ⟨fun ⟨_, k⟩ => ?_, fun k => ⟨.nil _, .or k⟩⟩⟩
  · generalize e : paren (c!"and" ++ (g1 ++ (u ++ g2))) = t at k
    cases k with
    | and k => rw [paren_inj_kw e]; exact k
  · generalize e : paren (c!"or" ++ (g1 ++ (u ++ g2))) = t at k
    cases k with
    | or k => rw [paren_inj_kw e]; exact k

/-- C48, the two goals of an implication. -/
theorem C48_imply_iff {a b : GD} {x y g1 g2 g3 : List Char} (ha : GDX a x) (hb : GDX b y) (h1 : Gap g1) (h2 : Gap g2)
    (h3 : Gap g3) (r : List Char) :
    parseGd (paren (c!"imply" ++ (g1 ++ (x ++ (g2 ++ (y ++ g3))))) ++ r) = .ok (.imply a b) r ↔ Sep g2 := by
  have F : ∀ {v t}, GDX v t → Form t := fun h => goal_texts.form ⟨.nil _, h⟩
  rw [goal_texts.at_open]
  refine ⟨fun ⟨_, k⟩ => ?_, fun k => ⟨.nil _, .imply h1 ha k hb h3⟩⟩
  generalize e : paren (c!"imply" ++ (g1 ++ (x ++ (g2 ++ (y ++ g3))))) = t at k
  cases k with
  | imply k1 k2 k3 k4 k5 =>
    obtain ⟨_, _, e⟩ := form_split h1 (F ha) k1 (F k2) (paren_inj_kw e)
    obtain ⟨rfl, _, _⟩ := form_split h2 (F hb) k3.gap (F k4) e
    exact k3

/-- C48, the members of conjunctions of constraints. -/
theorem C48_constraints_iff {as : List ConGD} {gs : List (List Char)} {u g1 g2 : List Char} (h : Loose ConX as gs u)
    (h1 : Gap g1) (h2 : Gap g2) (r : List Char) :
    parseConGd (paren (c!"and" ++ (g1 ++ (u ++ g2))) ++ r) = .ok (.and as) r ↔ ∀ g ∈ gs, Sep g := by
  rw [← loose_iff (fun _ _ h => con_texts.form (g := []) ⟨.nil, h⟩) h h1 h2, con_texts.at_open]
  refine ⟨fun ⟨_, k⟩ => ?_, fun k => ⟨.nil, .and k⟩⟩
  generalize e : paren (c!"and" ++ (g1 ++ (u ++ g2))) = t at k
  cases k with
  | and k => rw [paren_inj_kw e]; exact k

/-- C48, the members of conjunctions in the conditions and effects of durative actions. -/
theorem C48_durative_iff {g1 g2 : List Char} (h1 : Gap g1) (h2 : Gap g2) (r : List Char) :
    (∀ {as : List DaGD} {gs : List (List Char)} {u : List Char}, Loose DaGDX as gs u →
      (parseDaGd (paren (c!"and" ++ (g1 ++ (u ++ g2))) ++ r) = .ok (.and as) r ↔ ∀ g ∈ gs, Sep g)) ∧
    (∀ {as : List DaEffect} {gs : List (List Char)} {u : List Char}, Loose (DaEffX []) as gs u →
      (parseDaEffect (paren (c!"and" ++ (g1 ++ (u ++ g2))) ++ r) = .ok (.all as) r ↔ ∀ g ∈ gs, Sep g)) := by
  constructor
  · intro as gs u h
    rw [← loose_iff (fun _ _ h => daGd_texts.form (g := []) ⟨.nil, h⟩) h h1 h2, daGd_texts.at_open]
    refine ⟨fun ⟨_, k⟩ => ?_, fun k => ⟨.nil, .and k⟩⟩
    generalize e : paren (c!"and" ++ (g1 ++ (u ++ g2))) = t at k
    cases k with
    | and k => rw [paren_inj_kw e]; exact k
  · intro as gs u h
    rw [← loose_iff (fun _ _ h => daEffect_texts.form h) h h1 h2, daEffect_texts.at_open]
    refine ⟨fun k => ?_, fun k => .all .nil k⟩
    generalize e : paren (c!"and" ++ (g1 ++ (u ++ g2))) = t at k
    cases k with
    | all _ k => rw [paren_inj_kw e]; exact k

/-- C48, the members of lists of effects. -/
theorem C48_effects_iff {as : List CEffect} {gs : List (List Char)} {u g1 g2 : List Char} (h : Loose (CEffX []) as gs u)
    (h1 : Gap g1) (h2 : Gap g2) (r : List Char) :
    parseEffect (paren (c!"and" ++ (g1 ++ (u ++ g2))) ++ r) = .ok as r ↔ ∀ g ∈ gs, Sep g := by
  have L := loose_iff (fun _ _ h => cEffect_texts.form h) h h1 h2
  refine ⟨fun k => ?_, fun k => (effect_texts.at_open _ _ _).mpr (.and .nil (L.mpr k))⟩
  cases h with
  | one => exact fun g hg => nomatch hg
  | cons _ _ h =>
    cases h with
    | one =>
      refine L.mp ?_
      have k := (effect_texts.at_open _ _ _).mp k
      generalize e : paren (c!"and" ++ (g1 ++ (_ ++ g2))) = t at k
      cases k with
      | and _ k => rw [paren_inj_kw e]; exact k
    | cons =>
      refine L.mp ?_
      have k := (effect_texts.at_open _ _ _).mp k
      generalize e : paren (c!"and" ++ (g1 ++ (_ ++ g2))) = t at k
      cases k with
      | and _ k => rw [paren_inj_kw e]; exact k

/-- C48, the declarations of predicates. -/
theorem C48_predicates_iff {as : List Skeleton} {gs : List (List Char)} {u g1 g2 : List Char}
    (h : Loose SkeletonX as gs u) (h1 : Gap g1) (h2 : Gap g2) (r : List Char) :
    parsePredicatesDef (paren (c!":predicates" ++ (g1 ++ (u ++ g2))) ++ r) = .ok as r ↔ ∀ g ∈ gs, Sep g := by
  rw [← loose_iff (fun _ _ h => skeleton_texts.form (g := []) ⟨gapC_nil, h⟩) h h1 h2, C78_predicates]
  constructor
  · rintro ⟨g, g3, u', g4, e, hg, h3, h4, h5⟩
    have e' := congrArg skip e
    rw [((solid_paren _).append r).skip, hg.skip_solid ((solid_paren _).append r)] at e'
    rw [paren_inj_kw (List.append_cancel_right e')]
    exact .cons h3 h4 h5
  · intro k
    generalize e : g1 ++ (u ++ g2) = w at k
    cases k with
    | nil => cases h
    | cons k1 k2 k3 => exact ⟨[], _, _, _, rfl, .nil, k1, k2, k3⟩

theorem initX_form {v : InitElement} {t : List Char} (h : InitX [] v t) : Form t :=
  form_of_snd parseInitEl_snd (fun _ _ h => h.form) h.solid ((C77_initial_elements _ _ _).mpr ⟨[], t, by simp, h⟩)

/-- C48, the facts of an initial state. -/
theorem C48_facts_iff {as : List InitElement} {gs : List (List Char)} {u g1 g2 : List Char}
    (h : Loose (InitX []) as gs u) (h1 : Gap g1) (h2 : Gap g2) (r : List Char) :
    parseProblemInitDef (paren (c!":init" ++ (g1 ++ (u ++ g2))) ++ r) = .ok as r ↔ ∀ g ∈ gs, Sep g := by
  rw [← loose_iff (fun _ _ => initX_form) h h1 h2, C77_initial_states]
  constructor
  · rintro ⟨g, t, e, hg, k⟩
    have e' := congrArg skip e
    rw [((solid_paren _).append r).skip, hg.skip_solid (Solid.append (by cases k <;> exact solid_paren _) r)] at e'
    have e := List.append_cancel_right e'
    cases k with
    | nil => cases h
    | cons k1 k2 k3 =>
      rw [paren_inj_kw e]
      exact .cons k1 k2 k3
  · intro k
    generalize e : g1 ++ (u ++ g2) = w at k
    cases k with
    | nil => cases h
    | cons k1 k2 k3 => exact ⟨[], _, rfl, .nil, .cons k1 k2 k3⟩

/-- Three goals. A comment between the second and the third one is harmless behind a blank, and spoils the text
without one. -/
example : Loose (fun (_ : Nat) t => t = c!"(p)") [1, 2, 3] [c!" ", c!";c\n"] c!"(p) (p);c\n(p)" ∧
    ¬ Sep c!";c\n" ∧ (∃ v, parseGd c!"(and (p) (p) ;c\n(p))" = .ok v []) ∧
    parseGd c!"(and (p) (p);c\n(p))" = .err :=
  ⟨.cons (t := c!"(p)") rfl (.space rfl .nil) (.cons (t := c!"(p)") rfl
    (.comment (b := 'c') (body := []) rfl (by decide) rfl .nil) (.one rfl)), (fun h => by cases h with | mk h _ => cases h),
    ⟨_, rfl⟩, rfl⟩

end Pddl
