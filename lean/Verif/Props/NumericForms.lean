import Verif.Props.Numeric

/-!
# C77, continued: the exact texts of the forms built from numeric expressions
-/

namespace Pddl

/-- What is needed of a part of a form: `X g v t` are the texts `t` read as `v` after the layout `g`. -/
structure Part (p : P α) (X : List Char → α → List Char → Prop)
    (E : α → List Char → List Char → Prop) : Prop where
  iff : ∀ s v r, p s = .ok v r ↔ ∃ g t, s = g ++ (t ++ r) ∧ X g v t ∧ E v t r
  gap : ∀ {g v t}, X g v t → Gap g
  solid : ∀ {g v t}, X g v t → Solid t
  stop : ∀ {v t r}, Stop r → E v t r

/-- What is needed of an operator: the texts `W o`, and nothing is skipped before them. -/
structure OpPart (q : P β) (W : β → List Char → Prop) : Prop where
  run : ∀ {o t r}, W o t → Stop r → q (t ++ r) = .ok o r
  inv : ∀ {s o r}, q s = .ok o r → ∃ t, s = t ++ r ∧ W o t
  solid : ∀ {o t}, W o t → Solid t

section
variable {α β γ : Type} {p : P α} {X : List Char → α → List Char → Prop}
  {E : α → List Char → List Char → Prop} {p' : P γ} {X' : List Char → γ → List Char → Prop}
  {E' : γ → List Char → List Char → Prop} {q : P β} {W : β → List Char → Prop}

theorem Part.run (H : Part p X E) {g v t r} (h : X g v t) (hr : Stop r) : p (g ++ (t ++ r)) = .ok v r :=
  (H.iff _ v r).mpr ⟨g, t, rfl, h, H.stop hr⟩

/-- A part behind blanks. -/
theorem Part.blank_inv (H : Part p X E) {s v r} (h : preceded multispace1 p s = .ok v r) :
    ∃ b g t, s = b ++ (g ++ (t ++ r)) ∧ Sp b ∧ GapC g ∧ X g v t ∧ E v t r := by
  obtain ⟨b, y, rfl, hb, hy, h⟩ := pms1_inv h
  obtain ⟨g, t, rfl, h, hr⟩ := (H.iff _ _ _).mp h
  exact ⟨b, g, t, rfl, hb, .of_no_space (H.gap h) hy, h, hr⟩

theorem Part.blank_run (H : Part p X E) {b g v t r} (hb : Sp b) (hg : GapC g) (h : X g v t) (hr : Stop r) :
    preceded multispace1 p (b ++ (g ++ (t ++ r))) = .ok v r := by
  rw [pms1_gapC hb hg ((H.solid h).append r)]
  exact H.run h hr

/-- A part behind layout that is skipped. -/
theorem Part.skip_inv (H : Part p X E) {s v r} (h : p (skip s) = .ok v r) :
    ∃ g t, s = g ++ (t ++ r) ∧ Gap g ∧ X [] v t ∧ E v t r := by
  obtain ⟨g, t, e, h, hr⟩ := (H.iff _ _ _).mp h
  have e' := skip_skip s
  rw [e, (H.gap h).skip_solid ((H.solid h).append r)] at e'
  have hg : g = [] := by simpa using e'
  subst hg
  rw [List.nil_append] at e
  obtain ⟨g, h1, h2⟩ := skip_gap (s := s) (by rw [e]; exact ((H.solid h).append r).ne)
  rw [e] at h1
  exact ⟨g, t, h1, h2, h, hr⟩

theorem Part.skip_run (H : Part p X E) {g v t r} (hg : Gap g) (h : X [] v t) (hr : Stop r) :
    p (skip (g ++ (t ++ r))) = .ok v r := by
  rw [hg.skip_solid ((H.solid h).append r)]
  exact H.run h hr

theorem Part.elem (H : Part p X E) {v t} (h : X [] v t) : Elem p v t :=
  ⟨fun _ hr => H.run h hr, H.solid h⟩

theorem Part.snd (H : Part p X E) : Snd Any Gap (ws p) (X []) := by
  intro s v r hs _
  rw [ws_eq] at hs
  obtain ⟨g, t, h1, h2, h3, _⟩ := H.skip_inv hs
  exact ⟨g, t, h1, h2, h3⟩

/-- An operator with two operands in parentheses. -/
inductive OpForm (W : β → List Char → Prop) (X : List Char → α → List Char → Prop)
    (X' : List Char → γ → List Char → Prop) : β × α × γ → List Char → Prop
  | mk {g o w b1 g1 a t1 b2 g2 b t2} : Gap g → W o w → Sp b1 → GapC g1 → X g1 a t1 →
      Sp b2 → GapC g2 → X' g2 b t2 →
      OpForm W X X' (o, a, b) (paren (g ++ (w ++ (b1 ++ (g1 ++ (t1 ++ (b2 ++ (g2 ++ t2))))))))

theorem opForm_iff (Q : OpPart q W) (H : Part p X E) (H' : Part p' X' E') (s : List Char) (v) (r : List Char) :
    parens (pair q (pair (preceded multispace1 p) (preceded multispace1 p'))) s = .ok v r ↔
      ∃ g t, s = g ++ (t ++ r) ∧ GapC g ∧ OpForm W X X' v t := by
  constructor
  · intro hs
    obtain ⟨o, a, b⟩ := v
    obtain ⟨g0, x, rfl, hg0, h2⟩ := parens_invC hs
    obtain ⟨r1, h3, h4⟩ := pair_ok h2
    obtain ⟨w, h3, hw⟩ := Q.inv h3
    obtain ⟨g, hx, hg⟩ := skip_gap (s := x) (by rw [h3]; exact ((Q.solid hw).append _).ne)
    rw [h3] at hx
    subst hx
    obtain ⟨r2, h4, h5⟩ := pair_ok h4
    obtain ⟨b1, g1, t1, rfl, hb1, hg1, k1, _⟩ := H.blank_inv h4
    obtain ⟨b2, g2, t2, rfl, hb2, hg2, k2, _⟩ := H'.blank_inv h5
    exact ⟨g0, paren (g ++ (w ++ (b1 ++ (g1 ++ (t1 ++ (b2 ++ (g2 ++ t2))))))), by simp [paren], hg0,
      .mk hg hw hb1 hg1 k1 hb2 hg2 k2⟩
  · rintro ⟨g0, t, rfl, hg0, h⟩
    cases h with
    | @mk g o w b1 g1 a t1 b2 g2 b t2 hg hw hb1 hg1 k1 hb2 hg2 k2 =>
      simp only [paren_append, List.append_assoc]
      rw [parens_gapC hg0]
      refine parens_run ?_
      rw [hg.skip_solid ((Q.solid hw).append _)]
      exact pair_run (Q.run hw (.sp hb1 _)) (pair_run (H.blank_run hb1 hg1 k1 (.sp hb2 _))
        (H'.blank_run hb2 hg2 k2 (.close r)))

end

/-! ## The parts -/

theorem fExp_part : Part parseFExp FExpX FExpEnds where
  iff := C77_numeric_expressions
  gap h := h.gap fExp_arithRun
  solid h := h.solid fExp_arithRun
  stop := fExp_arithRun.ends_stop

theorem fExpDa_part : Part parseFExpDa FExpDaX FExpDaEnds where
  iff := C77_durative_expressions
  gap h := h.gap fExpDa_arithRun
  solid h := h.solid fExpDa_arithRun
  stop := fExpDa_arithRun.ends_stop

theorem metric_part : Part parseMetricFExp MetricX MetricEnds where
  iff := C77_metric_expressions
  gap h := h.gap metric_arithRun
  solid h := h.solid metric_arithRun
  stop := metric_arithRun.ends_stop

theorem fHead_part : Part parseFHead (fun g h t => HeadLead t g ∧ FHeadX h t) (fun _ => HeadEnds) where
  iff s v r := by rw [C77_function_heads]; simp only [and_assoc]
  gap h := h.1.1
  solid h := h.2.solid
  stop := Stop.headEnds

theorem number_part : Part parseNumber (fun g n t => g = [] ∧ NumW n t) (fun _ => NumEnds) where
  iff s v r := by
    rw [C77_numbers]
    constructor
    · rintro ⟨t, h1, h2, h3⟩; exact ⟨[], t, h1, ⟨rfl, h2⟩, h3⟩
    · rintro ⟨g, t, h1, ⟨rfl, h2⟩, h3⟩; exact ⟨t, h1, h2, h3⟩
  gap h := by rw [h.1]; exact .nil
  solid h := h.2.solid
  stop := Stop.numEnds

theorem name_part : Part parseName (fun g n t => Gap g ∧ NameW n t) (fun _ _ => NoWord) where
  iff s v r := by
    rw [parseName_exact.iff]
    simp only [and_assoc]
  gap h := h.1
  solid h := h.2.solid
  stop h := h.word

theorem OpPart.of_snd {q : P β} {W : β → List Char → Prop} (h : Snd Any Nil q W)
    (hr : ∀ {o t r}, W o t → Stop r → q (t ++ r) = .ok o r) (hs : ∀ {o t}, W o t → Solid t) : OpPart q W where
  run := hr
  inv h' := by
    obtain ⟨g, t, h1, h2, h3⟩ := h _ _ _ h' trivial
    cases h2
    exact ⟨t, h1, h3⟩
  solid := hs

theorem binaryComp_part : OpPart parseBinaryComp (fun o t => t = o.spell) :=
  .of_snd parseBinaryComp_snd (fun {o t r} e hr => by
    subst e
    refine parseBinaryComp_spell o fun r' e => ?_
    rcases hr _ _ e with h | h | h | h <;> exact absurd h (by decide)) (fun {o t} e => by
    subst e; exact o.spell_solid)

theorem assignOp_part : OpPart parseAssignOp AssignOpW :=
  .of_snd parseAssignOp_snd (fun {o t r} h _ => by cases h <;> rfl) (fun {o t} h => by
    cases h <;> exact .cons (by decide) (by decide) _)

/-! ## Comparisons and assignments -/

/-- C77, comparisons: `(op a b)`, with layout allowed before the operator, and at least one blank before each
operand. -/
theorem C77_comparisons (s : List Char) (op : BinaryComp) (a b : FExp) (r : List Char) :
    parseFComp s = .ok ⟨op, a, b⟩ r ↔ ∃ g t, s = g ++ (t ++ r) ∧ GapC g ∧
      OpForm (fun o t => t = BinaryComp.spell o) FExpX FExpX (op, a, b) t := by
  rw [← opForm_iff binaryComp_part fExp_part fExp_part, parseFComp]
  constructor
  · intro h
    obtain ⟨⟨_, _, _⟩, h1, h2⟩ := map_ok h
    cases h2
    exact h1
  · exact fun h => map_run h

/-- Layout is skipped before the operator but not before the closing parenthesis. -/
example : (∃ a b, parseFComp c!"( >= x ;c\n(- y))" = .ok ⟨.ge, a, b⟩ []) ∧ parseFComp c!"(>= x y )" = .err :=
  ⟨⟨.function (.simple (Name.new c!"x")), .negative (.function (.simple (Name.new c!"y"))), rfl⟩, rfl⟩

/-- C77, assignments to functions in durative effects. -/
theorem C77_assignments (s : List Char) (op : AssignOp) (h : FHead) (e : FExpDa) (r : List Char) :
    parseFAssignDa s = .ok ⟨op, h, e⟩ r ↔ ∃ g t, s = g ++ (t ++ r) ∧ GapC g ∧
      OpForm AssignOpW (fun g h t => HeadLead t g ∧ FHeadX h t) FExpDaX (op, h, e) t := by
  rw [← opForm_iff assignOp_part fHead_part fExpDa_part, parseFAssignDa]
  constructor
  · intro h
    obtain ⟨⟨_, _, _⟩, h1, h2⟩ := map_ok h
    cases h2
    exact h1
  · exact fun h => map_run h

example : parseFAssignDa c!"(increase (f) ?duration)" =
    .ok ⟨.increase, .simple (Name.new c!"f"), .duration⟩ [] := rfl

example : ∃ g t, c!"(increase (f) ?duration)" = g ++ (t ++ []) ∧ GapC g ∧ OpForm AssignOpW
    (fun g h t => HeadLead t g ∧ FHeadX h t) FExpDaX (.increase, .simple (Name.new c!"f"), .duration) t :=
  (C77_assignments _ _ _ _ _).mp rfl

/-! ## Metrics -/

/-- The texts of a metric. -/
inductive MetricSpecX : MetricSpec → List Char → Prop
  | mk {g1 o b g e t g2} : Gap g1 → Sp b → GapC g → MetricX g e t → Gap g2 →
      MetricSpecX ⟨o, e⟩ (paren (c!":metric" ++ (g1 ++ (o.spell ++ (b ++ (g ++ (t ++ g2)))))))

/-- C77, metrics. -/
theorem C77_metrics (s : List Char) (v : MetricSpec) (r : List Char) :
    parseProblemMetricSpec s = .ok v r ↔ ∃ g t, s = g ++ (t ++ r) ∧ Gap g ∧ MetricSpecX v t := by
  constructor
  · intro h
    obtain ⟨⟨o, e⟩, h1, rfl⟩ := map_ok h
    obtain ⟨g0, x, y, rfl, hg0, h2, h3⟩ := prefixExpr_inv h1
    obtain ⟨r1, h4, h5⟩ := pair_ok h2
    obtain ⟨_, w, h6, hn, hw⟩ := parseOptimization_snd _ _ _ h4 trivial
    cases hn
    subst hw
    have hs : Solid (o.spell ++ r1) := (Optimization.elem o).2.append _
    obtain ⟨g1, hx, hg1⟩ := skip_gap (s := x) (by rw [h6]; exact hs.ne)
    rw [h6] at hx
    obtain ⟨b, g, t, rfl, hb, hg, k, _⟩ := metric_part.blank_inv h5
    obtain ⟨g2, hy, hg2⟩ := skip_gap (s := y) (by rw [h3]; simp)
    rw [h3] at hy
    subst hx hy
    exact ⟨g0, paren (c!":metric" ++ (g1 ++ (o.spell ++ (b ++ (g ++ (t ++ g2)))))), by simp [paren], hg0,
      .mk hg1 hb hg k hg2⟩
  · rintro ⟨g0, t, rfl, hg0, h⟩
    cases h with
    | @mk g1 o b g e t g2 hg1 hb hg k hg2 =>
      simp only [paren_append, List.append_assoc]
      refine map_run (a := (o, e)) ?_
      rw [prefix_lead hg0]
      refine prefixExpr_run (y := g2 ++ ')' :: r) ?_ (hg2.skip_solid (solid_close r))
      rw [hg1.skip_solid ((Optimization.elem o).2.append _)]
      exact pair_run ((Optimization.elem o).1 _ (.sp hb _))
        (metric_part.blank_run hb hg k (.gap hg2 (.close r)))

example : ∃ g t, c!" (:metric;c\nmaximize total-time )" = g ++ (t ++ []) ∧ Gap g ∧
    MetricSpecX ⟨.maximize, .totalTime⟩ t := (C77_metrics _ _ _).mp rfl

/-! ## Function terms of initial states -/

/-- The texts of a function term over names. -/
inductive BasicX : BasicFunctionTerm → List Char → Prop
  | name {n t} : NameW n t → BasicX ⟨n, []⟩ t
  | terms {g n t ns u} : Gap g → NameW n t → Sec Gap (· = []) (Items NameW) ns u → NoWord u →
      BasicX ⟨n, ns⟩ (paren (g ++ (t ++ u)))

theorem BasicX.solid {v t} (h : BasicX v t) : Solid t := by
  cases h with
  | name h => exact h.solid
  | terms => exact solid_open _

/-- C77, function terms over names. -/
theorem C77_function_terms (s : List Char) (v : BasicFunctionTerm) (r : List Char) :
    parseBasicFunctionTerm s = .ok v r ↔
      ∃ g t, s = g ++ (t ++ r) ∧ (HeadLead t g ∧ BasicX v t) ∧ HeadEnds t r := by
  constructor
  · intro hs
    unfold parseBasicFunctionTerm at hs
    rcases alt_inv hs with hs | ⟨_, hs⟩
    · obtain ⟨n, h1, rfl⟩ := map_ok hs
      obtain ⟨g, t, h3, hg, ht, rfl, hr⟩ := (C04_name_iff _ _ _).mp h1
      have hn : NameW _ t := ⟨ht, rfl⟩
      exact ⟨g, t, h3, ⟨⟨hg, fun h => absurd h hn.not_open⟩, .name hn⟩, .inr hr⟩
    rcases alt_inv hs with hs | ⟨_, hs⟩
    · obtain ⟨⟨n, ns⟩, h1, rfl⟩ := map_ok hs
      obtain ⟨g0, x, rfl, hg0, h2⟩ := parens_invC h1
      rw [show ws (spaceSeparatedList0 parseName) = spaceSeparatedList0 parseName by
        unfold spaceSeparatedList0; exact ws_ws _] at h2
      obtain ⟨g, t, u, h3, hg, hn, hu, hw⟩ := head_list_inv parseName_exact.snd parseName_exact.nonE h2
      obtain ⟨g', h4, hg'⟩ := skip_gap (s := x) (by rw [h3]; simp)
      rw [h3] at h4
      subst h4
      exact ⟨g0, paren ((g' ++ g) ++ (t ++ u)), by simp [paren], ⟨⟨hg0.1, fun _ => hg0⟩,
        .terms (hg'.append hg) hn hu hw⟩, .inl ⟨_, rfl⟩⟩
    cases hs
  · rintro ⟨g0, t, rfl, ⟨hg0, h⟩, hr⟩
    unfold parseBasicFunctionTerm
    cases h with
    | name hn =>
      refine alt_hit (map_run ((C04_name_iff _ _ _).mpr ⟨g0, t, rfl, hg0.1, hn.1, hn.2, ?_⟩))
      exact hr.resolve_left hn.not_open
    | @terms g n t ns u hg hn hu hw =>
      have e : g0 ++ (paren (g ++ (t ++ u)) ++ r) = g0 ++ '(' :: (g ++ (t ++ (u ++ ')' :: r))) := by
        simp [paren]
      have hg0 := hg0.2 ⟨_, rfl⟩
      rw [e, alt_miss (map_err (p := parseFunctionSymbol)
        (parseName_gap_err hg0.1 (solid_open _) (by decide)))]
      refine alt_hit (map_run (a := (n, ns)) ?_)
      rw [parens_gapC hg0]
      refine parens_run ?_
      rw [show ws (spaceSeparatedList0 parseName) = spaceSeparatedList0 parseName by
        unfold spaceSeparatedList0; exact ws_ws _, hg.skip_solid (hn.solid.append _)]
      exact head_list_run .nil hn hu (fun a t h _ => h.elem) hw parseName_close r

/-- No blank is needed before a name that comes after a comment. -/
example : ∃ g t, c!"(f;c\na b)" = g ++ (t ++ []) ∧ (HeadLead t g ∧
    BasicX ⟨Name.new c!"f", [Name.new c!"a", Name.new c!"b"]⟩ t) ∧ HeadEnds t [] := (C77_function_terms _ _ _).mp rfl

theorem basic_part : Part parseBasicFunctionTerm (fun g v t => HeadLead t g ∧ BasicX v t)
    (fun _ => HeadEnds) where
  iff := C77_function_terms
  gap h := h.1.1
  solid h := h.2.solid
  stop := Stop.headEnds

/-! ## Forms that begin with a keyword -/

/-- What is needed of the part of a form behind its keyword. -/
structure KeyBody (p : P α) (X : α → List Char → Prop) : Prop where
  run : ∀ {v t r}, X v t → Stop r → p (t ++ r) = .ok v r
  inv : ∀ {s v r}, p (skip s) = .ok v r → ∃ g t, s = g ++ (t ++ r) ∧ Gap g ∧ X v t
  solid : ∀ {v t}, X v t → Solid t

theorem Part.body {p : P α} {X E} (H : Part p X E) : KeyBody p (X []) where
  run h hr := H.run h hr
  inv h := by
    obtain ⟨g, t, h1, h2, h3, _⟩ := H.skip_inv h
    exact ⟨g, t, h1, h2, h3⟩
  solid := H.solid

theorem OpPart.body {q : P β} {W} (H : OpPart q W) : KeyBody q W where
  run := H.run
  inv {s v r} h := by
    obtain ⟨t, h1, h2⟩ := H.inv h
    obtain ⟨g, hx, hg⟩ := skip_gap (s := s) (by rw [h1]; exact ((H.solid h2).append _).ne)
    rw [h1] at hx
    exact ⟨g, t, hx, hg, h2⟩
  solid := H.solid

/-- Two parts with at least one blank between them. -/
inductive PairX (X : α → List Char → Prop) (X' : List Char → γ → List Char → Prop) :
    α × γ → List Char → Prop
  | mk {a t1 b g c t2} : X a t1 → Sp b → GapC g → X' g c t2 → PairX X X' (a, c) (t1 ++ (b ++ (g ++ t2)))

theorem KeyBody.pair {p : P α} {X} {p' : P γ} {X' E'} (H : KeyBody p X) (H' : Part p' X' E') :
    KeyBody (pair p (preceded multispace1 p')) (PairX X X') where
  run h hr := by
    cases h with
    | mk h1 hb hg h2 =>
      simp only [List.append_assoc]
      exact pair_run (H.run h1 (.sp hb _)) (H'.blank_run hb hg h2 hr)
  inv {s v r} h := by
    obtain ⟨a, c⟩ := v
    obtain ⟨r1, h1, h2⟩ := pair_ok h
    obtain ⟨b, g, t2, rfl, hb, hg, k2, _⟩ := H'.blank_inv h2
    obtain ⟨g1, t1, rfl, hg1, k1⟩ := H.inv h1
    exact ⟨g1, _, by simp, hg1, .mk k1 hb hg k2⟩
  solid h := by
    cases h with
    | mk h1 => exact (H.solid h1).append _

/-- A keyword, which no layout precedes, and a body with layout on both sides. -/
inductive KeyX (kw : List Char) (X : α → List Char → Prop) : α → List Char → Prop
  | mk {g1 v t g2} : Gap g1 → X v t → Gap g2 → KeyX kw X v (paren (kw ++ (g1 ++ (t ++ g2))))

theorem key_iff {p : P α} {X} (H : KeyBody p X) (kw s : List Char) (v : α) (r : List Char) :
    prefixExpr kw p s = .ok v r ↔ ∃ g t, s = g ++ (t ++ r) ∧ Gap g ∧ KeyX kw X v t := by
  constructor
  · intro h
    obtain ⟨g0, x, y, rfl, hg0, h2, h3⟩ := prefixExpr_inv h
    obtain ⟨g1, t, rfl, hg1, k⟩ := H.inv h2
    obtain ⟨g2, hy, hg2⟩ := skip_gap (s := y) (by rw [h3]; simp)
    rw [h3] at hy
    subst hy
    exact ⟨g0, paren (kw ++ (g1 ++ (t ++ g2))), by simp [paren], hg0, .mk hg1 k hg2⟩
  · rintro ⟨g0, t, rfl, hg0, h⟩
    cases h with
    | @mk g1 v t g2 hg1 k hg2 =>
      simp only [paren_append, List.append_assoc]
      rw [prefix_lead hg0]
      refine prefixExpr_run (y := g2 ++ ')' :: r) ?_ (hg2.skip_solid (solid_close r))
      rw [hg1.skip_solid ((H.solid k).append _)]
      exact H.run k (.gap hg2 (.close r))

/-! ## Continuous effects -/

/-- An expression times `#t`. -/
inductive ScaledX : FExp → List Char → Prop
  | front {b g e t} : Sp b → GapC g → FExpX g e t → ScaledX e (c!"#t" ++ (b ++ (g ++ t)))
  | back {e t b} : FExpX [] e t → Sp b → ScaledX e (t ++ (b ++ c!"#t"))

/-- The texts of a rate of change. -/
inductive FExpTX : List Char → FExpT → List Char → Prop
  | now : FExpTX [] .now c!"#t"
  | scaled {g e t} : Gap g → KeyX c!"*" ScaledX e t → FExpTX g (.scaled e) t

theorem FExpX.front {g e t} (h : FExpX g e t) :
    ∃ c x, t = c :: x ∧ (c = '(' ∨ isDec c = true ∨ isAlpha c = true) := by
  cases h with
  | leaf h =>
    cases h with
    | number h =>
      obtain ⟨c, x, e, hc⟩ := h.head
      exact ⟨c, x, e, .inr (.inl hc)⟩
    | function _ h =>
      cases h with
      | name h => obtain ⟨c, x, e, hc, _⟩ := h.1; exact ⟨c, x, e, .inr (.inr hc)⟩
      | paren => exact ⟨_, _, rfl, .inl rfl⟩
      | terms => exact ⟨_, _, rfl, .inl rfl⟩
  | binary => exact ⟨_, _, rfl, .inl rfl⟩
  | multi => exact ⟨_, _, rfl, .inl rfl⟩
  | negative => exact ⟨_, _, rfl, .inl rfl⟩

theorem ms1_run {b x : List Char} (hb : Sp b) (hx : Solid x) : multispace1 (b ++ x) = .ok b x := by
  have h1 : (b ++ x).takeWhile isSpace = b := (takeWhile_all hb.2 hx.no_space).1
  have h2 := sp_drop hb.2 hx
  simp [multispace1, takeWhile1, h1, h2, hb.1]

theorem scaled_body : KeyBody (alt [
        preceded (pair (tag c!"#t") multispace1) parseFExp,
        terminated parseFExp (pair multispace1 (tag c!"#t"))]) ScaledX where
  run {v t r} h hr := by
    cases h with
    | @front b g e t hb hg h =>
      refine alt_hit ?_
      simp only [List.append_assoc]
      obtain ⟨_, r1, h1, h2⟩ := preceded_ok (fExp_part.blank_run hb hg h hr)
      rw [preceded_run (pair_run (tag_ok c!"#t" _) h1)]
      exact h2
    | @back e t b h hb =>
      simp only [List.append_assoc]
      obtain ⟨c, x, rfl, hc⟩ := h.front
      have hm : tag c!"#t" (c :: x ++ (b ++ (c!"#t" ++ r))) = .err := tag_err (stripPrefix_head (by
        rintro rfl; rcases hc with h | h | h <;> exact absurd h (by decide)))
      rw [alt_miss (preceded_err (pair_err hm))]
      have hk : multispace1 (b ++ (c!"#t" ++ r)) = .ok b (c!"#t" ++ r) := ms1_run hb
        (.cons (by decide) (by decide) _)
      have hp := fExp_part.run (g := []) (t := c :: x) (r := b ++ (c!"#t" ++ r)) h (.sp hb _)
      rw [List.nil_append] at hp
      exact alt_hit (terminated_run hp (pair_run hk (tag_ok _ _)))
  inv {s v r} h := by
    rcases alt_inv h with h | ⟨_, h⟩
    · obtain ⟨_, r1, h1, h2⟩ := preceded_ok h
      obtain ⟨r2, h3, h4⟩ := pair_ok h1
      obtain ⟨_, h3⟩ := tag_inv h3
      obtain ⟨b, g, t, rfl, hb, hg, k, _⟩ := fExp_part.blank_inv ((preceded_run h4).trans h2)
      obtain ⟨g1, hx, hg1⟩ := skip_gap (s := s) (by rw [h3]; simp)
      rw [h3] at hx
      exact ⟨g1, _, by rw [hx]; simp, hg1, .front hb hg k⟩
    rcases alt_inv h with h | ⟨_, h⟩
    · obtain ⟨_, r1, h1, h2⟩ := terminated_ok h
      obtain ⟨r2, h3, h4⟩ := pair_ok h2
      obtain ⟨_, h4⟩ := tag_inv h4
      obtain ⟨g, t, rfl, hg, k, _⟩ := fExp_part.skip_inv h1
      obtain ⟨rfl, hb⟩ := ms1_inv h3
      subst h4
      exact ⟨g, _, by simp, hg, .back k hb⟩
    cases h
  solid h := by
    cases h with
    | front => exact .cons (by decide) (by decide) _
    | back h => exact (fExp_part.solid h).append _

theorem fExpT_iff (s : List Char) (v : FExpT) (r : List Char) :
    parseFExpT s = .ok v r ↔ ∃ g t, s = g ++ (t ++ r) ∧ FExpTX g v t ∧ True := by
  constructor
  · intro h
    unfold parseFExpT at h
    rcases alt_inv h with h | ⟨_, h⟩
    · obtain ⟨e, h1, rfl⟩ := map_ok h
      obtain ⟨g, t, e, hg, k⟩ := (key_iff scaled_body _ _ _ _).mp h1
      exact ⟨g, t, e, .scaled hg k, trivial⟩
    rcases alt_inv h with h | ⟨_, h⟩
    · obtain ⟨_, h1, rfl⟩ := map_ok h
      obtain ⟨_, rfl⟩ := tag_inv h1
      exact ⟨[], _, rfl, .now, trivial⟩
    cases h
  · rintro ⟨g, t, rfl, h, -⟩
    unfold parseFExpT
    cases h with
    | now =>
      have hm : ∀ {α : Type} (p : P α), prefixExpr c!"*" p ('#' :: 't' :: r) = .err := fun p =>
        prefixExpr_head (.cons (by decide) (by decide) _) (by decide)
      rw [List.nil_append, List.cons_append, List.cons_append, List.nil_append, alt_miss (map_err (hm _))]
      exact alt_hit (map_run (tag_ok _ _))
    | scaled hg k => exact alt_hit (map_run ((key_iff scaled_body _ _ _ _).mpr ⟨g, t, rfl, hg, k⟩))

/-- C77, rates of change: `#t`, or a product of `#t` and an expression in either order. -/
theorem C77_rates (s : List Char) (v : FExpT) (r : List Char) :
    parseFExpT s = .ok v r ↔ ∃ g t, s = g ++ (t ++ r) ∧ FExpTX g v t := by
  rw [fExpT_iff]; simp only [and_true]

example : ∃ g t, c!" (*x #t )" = g ++ (t ++ []) ∧ FExpTX g (.scaled (.function (.simple (Name.new c!"x")))) t :=
  (C77_rates _ _ _).mp rfl

theorem fExpT_part : Part parseFExpT FExpTX (fun _ _ _ => True) where
  iff := fExpT_iff
  gap h := by
    cases h with
    | now => exact .nil
    | scaled h => exact h
  solid h := by
    cases h with
    | now => exact .cons (by decide) (by decide) _
    | scaled _ h => cases h with | mk => exact solid_open _
  stop _ := trivial

theorem assignOpT_part : OpPart parseAssignOpT (fun o t => t = o.spell) :=
  .of_snd parseAssignOpT_snd (fun {o t r} e hr => by subst e; cases o <;> rfl) (fun {o t} e => by
    subst e; cases o <;> exact .cons (by decide) (by decide) _)

/-- C77, continuous effects. -/
theorem C77_continuous_effects (s : List Char) (op : AssignOpT) (h : FHead) (e : FExpT) (r : List Char) :
    parseTimedEffect s = .ok (.continuous op h e) r ↔ ∃ g t, s = g ++ (t ++ r) ∧ GapC g ∧
      OpForm (fun o t => t = AssignOpT.spell o) (fun g h t => HeadLead t g ∧ FHeadX h t) FExpTX (op, h, e) t := by
  rw [← opForm_iff assignOpT_part fHead_part fExpT_part]
  constructor
  · intro hs
    unfold parseTimedEffect at hs
    rcases alt_inv hs with hs | ⟨_, hs⟩
    · obtain ⟨_, _, k⟩ := map_ok hs; cases k
    rcases alt_inv hs with hs | ⟨_, hs⟩
    · obtain ⟨_, _, k⟩ := map_ok hs; cases k
    rcases alt_inv hs with hs | ⟨_, hs⟩
    · obtain ⟨⟨_, _, _⟩, h1, k⟩ := map_ok hs; cases k; exact h1
    cases hs
  · intro hs
    obtain ⟨g0, x, rfl, hg0, h2⟩ := parens_invC hs
    have hm : ∀ {α : Type} (p : P α), prefixExpr c!"at" p (g0 ++ '(' :: x) = .err := by
      intro α p
      obtain ⟨r1, h3, _⟩ := pair_ok h2
      obtain ⟨w, h3, hw⟩ := assignOpT_part.inv h3
      rw [prefix_lead hg0.1]
      refine prefixExpr_kw ?_
      cases x with
      | nil => rfl
      | cons c x =>
        refine stripPrefix_head ?_
        rintro rfl
        rw [Solid.skip (.cons (by decide) (by decide) _)] at h3
        subst hw
        cases op <;> cases h3
    unfold parseTimedEffect
    rw [alt_miss (map_err (hm _)), alt_miss (map_err (hm _))]
    exact alt_hit (map_run (a := (op, h, e)) hs)

example : ∃ g t, c!"(decrease x (* #t x))" = g ++ (t ++ []) ∧ GapC g ∧
    OpForm (fun o t => t = AssignOpT.spell o) (fun g h t => HeadLead t g ∧ FHeadX h t) FExpTX
      (.decrease, .simple (Name.new c!"x"), .scaled (.function (.simple (Name.new c!"x")))) t :=
  (C77_continuous_effects _ _ _ _ _).mp rfl

/-! ## Durations -/

/-- The texts of a bound of a duration. -/
inductive DValueX : List Char → DurationValue → List Char → Prop
  | number {n t} : NumW n t → DValueX [] (.number n) t
  | fExp {g e t} : FExpX g e t → (∀ n, e ≠ .number n) → DValueX g (.fExp e) t

/-- What may follow a bound of a duration. -/
def DValueEnds : DurationValue → List Char → List Char → Prop
  | .number _, t, r => NumEnds t r
  | .fExp e, t, r => FExpEnds e t r

theorem paren_not_number {g : List Char} (hg : GapC g) (x : List Char) : parseNumber (g ++ '(' :: x) = .err := by
  refine parseNumber_miss fun c y h => ?_
  cases g with
  | nil => cases h; decide
  | cons d g =>
    obtain ⟨rfl, -⟩ := List.cons.inj h
    rw [hg.2 _ _ rfl]
    decide

theorem FExpX.not_number {g e t} (h : FExpX g e t) (hn : ∀ n, e ≠ .number n) (r : List Char) :
    parseNumber (g ++ (t ++ r)) = .err := by
  cases h with
  | leaf h =>
    cases h with
    | number => exact absurd rfl (hn _)
    | function hg h => exact head_not_number hg.1 h.shape r
  | binary hg => exact paren_not_number hg _
  | multi hg => exact paren_not_number hg _
  | negative hg => exact paren_not_number hg _

/-- C77, bounds of durations. -/
theorem C77_duration_values (s : List Char) (v : DurationValue) (r : List Char) :
    parseDValue s = .ok v r ↔ ∃ g t, s = g ++ (t ++ r) ∧ DValueX g v t ∧ DValueEnds v t r := by
  constructor
  · intro h
    unfold parseDValue at h
    rcases alt_inv h with h | ⟨hn, h⟩
    · obtain ⟨n, h1, rfl⟩ := map_ok h
      obtain ⟨t, h2, h3, h4⟩ := (C77_numbers _ _ _).mp h1
      exact ⟨[], t, h2, .number h3, h4⟩
    rcases alt_inv h with h | ⟨_, h⟩
    · obtain ⟨e, h1, rfl⟩ := map_ok h
      obtain ⟨g, t, rfl, h3, h4⟩ := (C77_numeric_expressions _ _ _).mp h1
      refine ⟨g, t, rfl, .fExp h3 ?_, h4⟩
      rintro n rfl
      cases h3 with
      | leaf h =>
        cases h with
        | number h =>
          rw [List.nil_append, map_run ((C77_numbers _ _ _).mpr ⟨t, rfl, h, h4⟩)] at hn
          cases hn
    cases h
  · rintro ⟨g, t, rfl, h, hr⟩
    unfold parseDValue
    cases h with
    | number h => exact alt_hit (map_run ((C77_numbers _ _ _).mpr ⟨t, rfl, h, hr⟩))
    | fExp h hn =>
      rw [alt_miss (map_err (h.not_number hn r))]
      exact alt_hit (map_run ((C77_numeric_expressions _ _ _).mpr ⟨g, t, rfl, h, hr⟩))

example : ∃ g t, c!"(- x))" = g ++ (t ++ c!")") ∧
    DValueX g (.fExp (.negative (.function (.simple (Name.new c!"x"))))) t ∧
      DValueEnds (.fExp (.negative (.function (.simple (Name.new c!"x"))))) t c!")" :=
  (C77_duration_values _ _ _).mp rfl

theorem dValue_part : Part parseDValue DValueX DValueEnds where
  iff := C77_duration_values
  gap h := by
    cases h with
    | number => exact .nil
    | fExp h => exact fExp_part.gap h
  solid h := by
    cases h with
    | number h => exact h.solid
    | fExp h => exact fExp_part.solid h
  stop {v t r} hr := by
    cases v with
    | number n => exact Stop.numEnds hr
    | fExp e => exact fExp_part.stop hr

/-- The texts of one constraint on a duration. -/
inductive SimpleDurationX : List Char → SimpleDuration → List Char → Prop
  | op {g0 g o b1 b2 g2 v t} : GapC g0 → Gap g → Sp b1 → Sp b2 → GapC g2 → DValueX g2 v t →
      SimpleDurationX g0 (.op o v)
        (paren (g ++ (DOp.spell o ++ (b1 ++ (c!"?duration" ++ (b2 ++ (g2 ++ t)))))))
  | «at» {g0 g1 ts b g d t g2} : Gap g0 → Gap g1 → Sp b → GapC g → SimpleDurationX g d t → Gap g2 →
      SimpleDurationX g0 (.at ts d)
        (paren (c!"at" ++ (g1 ++ (TimeSpecifier.spell ts ++ (b ++ (g ++ (t ++ g2)))))))

theorem SimpleDurationX.gap {g v t} (h : SimpleDurationX g v t) : Gap g := by
  cases h with
  | op h => exact h.1
  | «at» h => exact h

theorem SimpleDurationX.solid {g v t} (h : SimpleDurationX g v t) : Solid t := by
  cases h <;> exact solid_open _

theorem SimpleDurationX.drop {g v t} (h : SimpleDurationX g v t) : SimpleDurationX [] v t := by
  cases h with
  | op _ h2 h3 h4 h5 h6 => exact .op gapC_nil h2 h3 h4 h5 h6
  | «at» _ h2 h3 h4 h5 h6 => exact .at .nil h2 h3 h4 h5 h6

theorem gap_or_blank {g : List Char} (hg : Gap g) : GapC g ∨ ∃ c g', g = c :: g' ∧ isSpace c = true := by
  cases g with
  | nil => exact .inl gapC_nil
  | cons c g =>
    cases h : isSpace c with
    | true => exact .inr ⟨c, g, rfl, h⟩
    | false =>
      refine .inl ⟨hg, ?_⟩
      intro c' g' e
      cases e
      cases hg with
      | space h' => rw [show isSpace c = true from h'] at h; cases h
      | comment => rfl

/-- A form in parentheses without a keyword is not found after a blank. -/
theorem parens_lead_err {p : P α} {g x : List Char} (hg : Gap g) (h : parens p ('(' :: x) = .err) :
    parens p (g ++ '(' :: x) = .err := by
  rcases gap_or_blank hg with hg | ⟨c, g', rfl, hc⟩
  · rw [parens_gapC hg, h]
  · exact parens_head (by rintro rfl; exact absurd hc (by decide)) (by rintro rfl; exact absurd hc (by decide))

theorem simple_sound (n : Nat) : ∀ s v r, s.length < n → parseSimpleDuration s = .ok v r →
    ∃ g t, s = g ++ (t ++ r) ∧ SimpleDurationX g v t := by
  induction n with
  | zero => intro s v r h; omega
  | succ n ih =>
    intro s v r hn h
    rw [parseSimpleDuration_eq] at h
    unfold simpleDurationBody at h
    rcases alt_inv h with h | ⟨_, h⟩
    · obtain ⟨⟨o, v⟩, h1, rfl⟩ := map_ok h
      obtain ⟨g0, x, rfl, hg0, h2⟩ := parens_invC h1
      obtain ⟨r1, h3, h4⟩ := pair_ok h2
      obtain ⟨_, w, h3, hw, hw'⟩ := parseDOp_snd _ _ _ h3 trivial
      cases hw
      subst hw'
      obtain ⟨g, hx, hg⟩ := skip_gap (s := x) (by rw [h3]; exact (o.spell_solid.append _).ne)
      rw [h3] at hx
      obtain ⟨_, r2, h5, h6⟩ := preceded_ok h4
      obtain ⟨r3, h5, h7⟩ := pair_ok h5
      obtain ⟨r4, h7, h8⟩ := pair_ok h7
      obtain ⟨rfl, hb1⟩ := ms1_inv h5
      obtain ⟨_, rfl⟩ := tag_inv h7
      obtain ⟨b2, g2, t, rfl, hb2, hg2, k, _⟩ := dValue_part.blank_inv ((preceded_run h8).trans h6)
      subst hx
      exact ⟨g0, _, by simp [paren], .op hg0 hg hb1 hb2 hg2 k⟩
    rcases alt_inv h with h | ⟨_, h⟩
    · obtain ⟨⟨ts, d⟩, h1, rfl⟩ := map_ok h
      obtain ⟨g0, x, y, rfl, hg0, h2, h3⟩ := prefixExpr_inv h1
      obtain ⟨r1, h4, h5⟩ := pair_ok h2
      obtain ⟨_, w, h4, hw, hw'⟩ := parseTimeSpecifier_snd _ _ _ h4 trivial
      cases hw
      subst hw'
      obtain ⟨g1, hx, hg1⟩ := skip_gap (s := x) (by rw [h4]; exact (ts.spell_solid.append _).ne)
      rw [h4] at hx
      obtain ⟨b, z, rfl, hb, hz, h5⟩ := pms1_inv h5
      obtain ⟨g, t, rfl, k⟩ := ih z d _ (by subst hx; simp at hn; omega) h5
      obtain ⟨g2, hy, hg2⟩ := skip_gap (s := y) (by rw [h3]; simp)
      rw [h3] at hy
      subst hy hx
      exact ⟨g0, _, by simp [paren], .at hg0 hg1 hb (.of_no_space k.gap hz) k hg2⟩
    cases h

theorem SimpleDurationX.run {g v t} (h : SimpleDurationX g v t) : ∀ r,
    parseSimpleDuration (g ++ (t ++ r)) = .ok v r := by
  induction h with
  | @op g0 g o b1 b2 g2 v t hg0 hg hb1 hb2 hg2 k =>
    intro r
    rw [parseSimpleDuration_eq, simpleDurationBody]
    refine alt_hit (map_run (a := (o, v)) ?_)
    simp only [paren_append, List.append_assoc]
    rw [parens_gapC hg0]
    refine parens_run ?_
    rw [hg.skip_solid (o.spell_solid.append _)]
    refine pair_run (o.acc _ trivial) ?_
    obtain ⟨_, r1, h1, h2⟩ := preceded_ok (dValue_part.blank_run hb2 hg2 k (.close r))
    have hk : multispace1 (b1 ++ (c!"?duration" ++ (b2 ++ (g2 ++ (t ++ ')' :: r))))) =
      .ok b1 (c!"?duration" ++ (b2 ++ (g2 ++ (t ++ ')' :: r)))) := ms1_run hb1 (.cons (by decide) (by decide) _)
    rw [preceded_run (pair_run hk (pair_run (tag_ok c!"?duration" _) h1))]
    exact h2
  | @«at» g0 g1 ts b g d t g2 hg0 hg1 hb hg k hg2 ih =>
    intro r
    rw [parseSimpleDuration_eq, simpleDurationBody]
    simp only [paren_append, List.append_assoc]
    rw [alt_miss (map_err (parens_lead_err hg0 (parens_err ?_)))]
    · refine alt_hit (map_run (a := (ts, d)) ?_)
      rw [prefix_lead hg0]
      refine prefixExpr_run (y := g2 ++ ')' :: r) ?_ (hg2.skip_solid (solid_close r))
      rw [hg1.skip_solid (ts.spell_solid.append _)]
      refine pair_run (ts.acc _ trivial) ?_
      rw [pms1_gapC hb hg (k.solid.append _)]
      exact ih _
    · rw [List.cons_append, Solid.skip (.cons (by decide) (by decide) _)]
      exact pair_err rfl

/-- C77, single constraints on durations. -/
theorem C77_duration_constraint (s : List Char) (v : SimpleDuration) (r : List Char) :
    parseSimpleDuration s = .ok v r ↔ ∃ g t, s = g ++ (t ++ r) ∧ SimpleDurationX g v t := by
  constructor
  · exact simple_sound _ s v r (Nat.lt_succ_self _)
  · rintro ⟨g, t, rfl, h⟩
    exact h.run r

/-- No blank is needed behind `at`. -/
example : ∃ g t, c!"(atend (<= ?duration x) )" = g ++ (t ++ []) ∧
    SimpleDurationX g (.at .end_ (.op .le (.fExp (.function (.simple (Name.new c!"x")))))) t :=
  (C77_duration_constraint _ _ _).mp rfl

/-- The texts of the `:duration` of an action. `and` needs at least one constraint. -/
inductive DurationX : List Char → Option DurationConstraint → List Char → Prop
  | none : DurationX [] none c!"()"
  | single {g d t} : SimpleDurationX g d t → DurationX g (some (.single d)) t
  | all {g g1 ds u g2} : Gap g → Gap g1 → Items (SimpleDurationX []) ds u → Gap g2 →
      DurationX g (some (.all ds)) (paren (c!"and" ++ (g1 ++ (u ++ g2))))

theorem unit_miss {g y : List Char} (hg : Gap g) (hy : ∀ x, y ≠ ')' :: x) : tag c!"()" (g ++ '(' :: y) = .err := by
  refine tag_err ?_
  cases hg with
  | nil =>
    cases y with
    | nil => rfl
    | cons c y =>
      have : c ≠ ')' := by rintro rfl; exact hy y rfl
      simp [stripPrefix, Ne.symm this]
  | space h => exact stripPrefix_head (by rintro rfl; exact absurd h (by decide))
  | comment => exact stripPrefix_head (by decide)

theorem SimpleDurationX.not_unit {g v t} (h : SimpleDurationX g v t) (r : List Char) :
    tag c!"()" (g ++ (t ++ r)) = .err := by
  cases h with
  | @op _ g o b1 b2 g2 v t hg0 hg =>
    refine unit_miss hg0.1 fun x h => ?_
    cases hg with
    | nil => cases o <;> cases h
    | space hc => cases h; exact absurd hc (by decide)
    | comment => cases h
  | «at» hg0 => exact unit_miss hg0 fun x h => by cases h

theorem simple_snd : Snd Any Gap parseSimpleDuration (SimpleDurationX []) := by
  intro s v r h _
  obtain ⟨g, t, h1, h2⟩ := (C77_duration_constraint _ _ _).mp h
  exact ⟨g, t, h1, h2.gap, h2.drop⟩

theorem simple_nonE : NonE (SimpleDurationX []) := fun _ _ h => h.solid.ne

theorem SimpleDurationX.elem {v t} (h : SimpleDurationX [] v t) : Elem parseSimpleDuration v t :=
  ⟨fun r _ => h.run r, h.solid⟩

/-- C77, constraints on durations. -/
theorem C77_durations (s : List Char) (v : Option DurationConstraint) (r : List Char) :
    parseDurationConstraint s = .ok v r ↔ ∃ g t, s = g ++ (t ++ r) ∧ DurationX g v t := by
  constructor
  · intro h
    unfold parseDurationConstraint at h
    rcases alt_inv h with h | ⟨_, h⟩
    · obtain ⟨_, h1, rfl⟩ := map_ok h
      obtain ⟨_, rfl⟩ := tag_inv h1
      exact ⟨[], _, rfl, .none⟩
    rcases alt_inv h with h | ⟨_, h⟩
    · obtain ⟨d, h1, rfl⟩ := map_ok h
      obtain ⟨g, t, h1, h2⟩ := (C77_duration_constraint _ _ _).mp h1
      exact ⟨g, t, h1, .single h2⟩
    rcases alt_inv h with h | ⟨_, h⟩
    · obtain ⟨ds, h1, hv⟩ := mapExpect_inv h
      obtain ⟨g0, x, y, rfl, hg0, h2, h3⟩ := prefixExpr_inv h1
      obtain ⟨g1, u, h4, hg1, k⟩ := (simple_snd.list1 simple_nonE) _ _ _ h2 trivial
      obtain ⟨g1', hx, hg1'⟩ := skip_gap (s := x) (by
        rw [h4]; intro h; exact k.nonE simple_nonE _ _ (by simp at h; exact h.2.1))
      rw [h4] at hx
      obtain ⟨g2, hy, hg2⟩ := skip_gap (s := y) (by rw [h3]; simp)
      rw [h3] at hy
      subst hy hx
      have hv' : v = some (.all ds) := by
        cases k <;> simp [DurationConstraint.newAll] at hv <;> exact hv.symm
      subst hv'
      exact ⟨g0, _, by simp [paren], .all hg0 (hg1'.append hg1) k hg2⟩
    cases h
  · rintro ⟨g, t, rfl, h⟩
    unfold parseDurationConstraint
    cases h with
    | none => exact alt_hit (map_run (tag_ok _ _))
    | single h =>
      rw [alt_miss (map_err (h.not_unit r))]
      exact alt_hit (map_run (h.run r))
    | @all g g1 ds u g2 hg hg1 k hg2 =>
      simp only [paren_append, List.append_assoc]
      rw [alt_miss (map_err (unit_miss hg (by rintro x ⟨⟩))), alt_miss (map_err ?_)]
      · refine alt_hit (mapExpect_run (a := ds) ?_ ?_)
        · rw [prefix_lead hg]
          refine prefixExpr_run (y := g2 ++ ')' :: r) ?_ (hg2.skip_solid (solid_close r))
          have hI : Items (Elem parseSimpleDuration) ds u := k.mono fun _ _ h _ => h.elem
          rw [hg1.skip_solid (hI.solid.append _)]
          have hp := list1_items (g := []) (y := g2 ++ ')' :: r) hI .nil (.gap hg2 (.close r)) (by
            rw [hg2.skip_solid (solid_close r)]
            exact parseSimpleDuration_par.close r)
          rwa [List.nil_append] at hp
        · cases ds with
          | nil => cases k
          | cons => rfl
      · rw [parseSimpleDuration_eq, simpleDurationBody, alt_miss (map_err (parens_lead_err hg (parens_err ?_))),
          alt_miss (map_err ?_), alt_nil]
        · rw [prefix_lead hg]
          exact prefixExpr_kw rfl
        · rw [List.cons_append, Solid.skip (.cons (by decide) (by decide) _)]
          exact pair_err rfl

example : ∃ g t, c!" (and(= ?duration x) (= ?duration y) )" = g ++ (t ++ []) ∧
    DurationX g (some (.all [.op .eq (.fExp (.function (.simple (Name.new c!"x")))),
      .op .eq (.fExp (.function (.simple (Name.new c!"y"))))])) t := (C77_durations _ _ _).mp rfl

example : parseDurationConstraint c!"( )" = .err := rfl

/-! ## Initial states -/

theorem alt_err_inv {p : P α} {ps : List (P α)} {s} (h : alt (p :: ps) s = .err) :
    p s = .err ∧ alt ps s = .err := by
  unfold alt at h
  cases hp : p s with
  | err => rw [hp] at h; exact ⟨rfl, h⟩
  | _ => rw [hp] at h; cases h

/-- A form that is not a literal is not one after layout. -/
theorem literal_lead_err {g x : List Char} (hg : Gap g) (h : literal parseName ('(' :: x) = .err) :
    literal parseName (g ++ '(' :: x) = .err := by
  unfold literal atomicFormula at h ⊢
  obtain ⟨h1, h2⟩ := alt_err_inv h
  obtain ⟨h3, h4⟩ := alt_err_inv (map_err_inv (alt_err_inv h2).1)
  have h3 := map_err_inv h3
  have h4 := map_err_inv (alt_err_inv h4).1
  rw [alt_miss (map_err (by rw [prefix_lead hg]; exact map_err_inv h1)), alt_miss (map_err ?_), alt_nil]
  rw [alt_miss (map_err ?_), alt_miss (map_err (parens_lead_err hg h4)), alt_nil]
  unfold delimited preceded at h3 ⊢
  rw [ws_eq] at h3 ⊢
  rwa [hg.skip]

/-- A word in parentheses that something else than a name or a closing parenthesis follows. -/
theorem pred_miss {w y : List Char} (hw : IsWord w) (hy : NoWord y) {c : Char} {z : List Char}
    (hc : skip y = c :: z) (h1 : isAlpha c = false) (h2 : c ≠ ')') :
    parens (pair parsePredicate (ws (spaceSeparatedList0 parseName))) ('(' :: (w ++ y)) = .err := by
  refine parens_tail (v := (wordName w, [])) (y := c :: z) ?_ ?_
  · rw [(hw.solid.append _).skip]
    refine pair_run ((C04_name_iff _ _ _).mpr ⟨[], w, rfl, .nil, hw, rfl, hy⟩) ?_
    have e : ws (spaceSeparatedList0 parseName) = spaceSeparatedList0 parseName := ws_ws _
    rw [e, list0_nil, hc]
    refine parseName_err fun d r h => ?_
    rw [skip_skip, hc] at h
    cases h
    exact h1
  · intro r h
    cases h
    exact h2 rfl

/-- A time and a literal are not read as a literal. -/
theorem at_not_literal {g1 tn b g t x : List Char} {n : Number} {l : Literal Name} (hg1 : Gap g1) (hn : NumW n tn)
    (hb : Sp b) (hg : Gap g) (ht : LiteralX l t) :
    literal parseName ('(' :: (c!"at" ++ (g1 ++ (tn ++ (b ++ (g ++ (t ++ x))))))) = .err := by
  unfold literal atomicFormula
  rw [alt_miss (map_err (prefixExpr_kw rfl)), alt_miss (map_err ?_), alt_nil]
  rw [alt_miss (map_err (eq_miss fun y h => by cases h)), alt_miss (map_err ?_), alt_nil]
  obtain ⟨t', rfl⟩ : ∃ t', t = '(' :: t' := by
    cases ht with
    | neg => exact ⟨_, rfl⟩
    | pos h => cases h <;> exact ⟨_, rfl⟩
  cases g1 with
  | cons d g1 =>
    obtain ⟨c, cs, rfl, hc⟩ := hn.head
    refine pred_miss isWord_at ?_ (hg1.skip_solid (hn.solid.append _)) (isDigit_alpha hc) ?_
    · intro e r' h
      obtain ⟨rfl, -⟩ := List.cons.inj h
      cases hg1 with
      | space h => exact isWordChar_not (.inl h)
      | comment => decide
    · rintro rfl; exact absurd hc (by decide)
  | nil =>
    obtain ⟨l', rfl, _⟩ := hn
    have hw : IsWord (c!"at" ++ l'.int) := by
      refine ⟨'a', 't' :: l'.int, rfl, by decide, ?_⟩
      intro c hc
      rcases List.mem_cons.mp hc with rfl | hc
      · decide
      · simp [isWordChar, l'.int_digits c hc]
    unfold Literal10.text
    split
    · rw [List.nil_append, ← List.append_assoc]
      refine pred_miss hw (Stop.word (.sp hb _)) ?_ (c := '(') (z := t' ++ x) (by decide) (by decide)
      rw [← List.append_assoc, ((hb.sep.gap).append hg).skip_solid ((solid_open _).append _)]
      rfl
    · rw [List.nil_append, List.append_assoc, ← List.append_assoc]
      refine pred_miss hw (c := '.') ?_ (Solid.skip (.cons (by decide) (by decide) _)) (by decide) (by decide)
      intro e r' h
      cases h
      decide

/-- A function term with a value is not read as a literal. -/
theorem eq_not_literal {g1 tf b y : List Char} {f : BasicFunctionTerm} (hg1 : Gap g1) (hf : BasicX f tf) (hb : Sp b)
    (h : (∃ x, tf = '(' :: x) ∨ parseName (skip (b ++ y)) = .err) :
    literal parseName ('(' :: (c!"=" ++ (g1 ++ (tf ++ (b ++ y))))) = .err := by
  unfold literal atomicFormula
  have e0 : ∀ s, ws (tag c!"(=") ('(' :: '=' :: s) = .ok c!"(=" s := by
    intro s
    rw [ws_eq, (solid_open _).skip]
    exact tag_ok c!"(=" _
  rw [alt_miss (map_err (prefixExpr_kw rfl)), alt_miss (map_err ?_), alt_nil]
  rw [alt_miss (map_err ?_), alt_miss (map_err ?_), alt_nil]
  · refine parens_err ?_
    rw [List.cons_append, Solid.skip (.cons (by decide) (by decide) _)]
    exact pair_err (parseName_err_cons (.cons (by decide) (by decide) _) (by decide))
  · refine (preceded_run (e0 _)).trans (terminated_err ?_)
    change pair (ws parseName) (ws parseName) (g1 ++ (tf ++ (b ++ y))) = .err
    cases hf with
    | terms =>
      refine pair_err ?_
      rw [ws_eq, paren_append, hg1.skip_solid (solid_open _)]
      exact parseName_err_cons (solid_open _) (by decide)
    | @name n _ hn =>
      refine pair_err2 (a := n) (r := b ++ y) ?_ ?_
      · rw [ws_eq, hg1.skip_solid (hn.solid.append _)]
        exact hn.acc _ (.sp hb _)
      · rw [ws_eq]
        exact h.resolve_left hn.not_open

/-- The texts of an element of an initial state. -/
inductive InitX : List Char → InitElement → List Char → Prop
  | literal {g l t} : LiteralLead l g → LiteralX l t → InitX g (.literal l) t
  | «at» {g n l t} : Gap g → KeyX c!"at" (PairX NumW fun g l t => LiteralLead l g ∧ LiteralX l t) (n, l) t →
      InitX g (.at n l) t
  | isValue {g f n t} : Gap g → KeyX c!"=" (PairX BasicX fun g n t => g = [] ∧ NumW n t) (f, n) t →
      InitX g (.isValue f n) t
  | isObject {g f o t} : Gap g → KeyX c!"=" (PairX (fun f t => BasicX f t ∧ ∃ x, t = '(' :: x)
      fun g o t => Gap g ∧ NameW o t) (f, o) t → InitX g (.isObject f o) t

theorem literal_part : Part (literal parseName) (fun g l t => LiteralLead l g ∧ LiteralX l t)
    (fun _ _ _ => True) where
  iff s v r := by rw [C68_literals]; simp only [and_true]
  gap {g v t} h := by
    obtain ⟨h, _⟩ := h
    cases v with
    | neg => exact h
    | pos => exact h.gap
  solid h := by
    cases h.2 with
    | neg => exact solid_open _
    | pos h => cases h <;> exact solid_open _
  stop _ := trivial

theorem number_body : KeyBody parseNumber NumW where
  run h hr := number_part.run (g := []) ⟨rfl, h⟩ hr
  inv h := by
    obtain ⟨g, t, h1, h2, h3⟩ := number_part.body.inv h
    exact ⟨g, t, h1, h2, h3.2⟩
  solid h := h.solid

theorem basic_body : KeyBody parseBasicFunctionTerm BasicX where
  run h hr := basic_part.run (g := []) ⟨⟨.nil, fun _ => gapC_nil⟩, h⟩ hr
  inv h := by
    obtain ⟨g, t, h1, h2, h3⟩ := basic_part.body.inv h
    exact ⟨g, t, h1, h2, h3.2⟩
  solid h := h.solid

/-- C77, elements of initial states. -/
theorem C77_initial_elements (s : List Char) (v : InitElement) (r : List Char) :
    parseInitEl s = .ok v r ↔ ∃ g t, s = g ++ (t ++ r) ∧ InitX g v t := by
  constructor
  · intro h
    unfold parseInitEl at h
    rcases alt_inv h with h | ⟨hl, h⟩
    · obtain ⟨l, h1, rfl⟩ := map_ok h
      obtain ⟨g, t, h1, h2, h3⟩ := (C68_literals _ _ _).mp h1
      exact ⟨g, t, h1, .literal h2 h3⟩
    rcases alt_inv h with h | ⟨_, h⟩
    · obtain ⟨⟨n, l⟩, h1, rfl⟩ := map_ok h
      obtain ⟨g, t, h1, h2, h3⟩ := (key_iff (number_body.pair literal_part) _ _ _ _).mp h1
      exact ⟨g, t, h1, .at h2 h3⟩
    rcases alt_inv h with h | ⟨_, h⟩
    · obtain ⟨⟨n, l⟩, h1, rfl⟩ := map_ok h
      obtain ⟨g, t, h1, h2, h3⟩ := (key_iff (basic_body.pair number_part) _ _ _ _).mp h1
      exact ⟨g, t, h1, .isValue h2 h3⟩
    rcases alt_inv h with h | ⟨_, h⟩
    · obtain ⟨⟨f, o⟩, h1, rfl⟩ := map_ok h
      obtain ⟨g, t, rfl, h2, h3⟩ := (key_iff (basic_body.pair name_part) _ _ _ _).mp h1
      refine ⟨g, t, rfl, .isObject h2 ?_⟩
      cases h3 with
      | mk hg1 hx hg2 =>
        cases hx with
        | @mk _ t1 b g' _ t2 hf hb hg' ho =>
          refine .mk hg1 (.mk ⟨hf, ?_⟩ hb hg' ho) hg2
          cases hf with
          | terms => exact ⟨_, rfl⟩
          | @name n _ hn =>
            exfalso
            have hl := map_err_inv hl
            rw [(C68_literals _ (.pos (.equality n o)) r).mpr ⟨g, _, rfl, h2, .pos (?_)⟩] at hl
            · cases hl
            · have := AtomX.equality (F := fun _ => NoWord) hg1 hn (hb.sep.gap.append ho.1)
                (by rw [List.append_assoc]; exact Stop.word (.sp hb _)) ho.2 hg2
              simpa using this
    cases h
  · rintro ⟨g, t, rfl, h⟩
    unfold parseInitEl
    cases h with
    | literal h1 h2 => exact alt_hit (map_run ((C68_literals _ _ _).mpr ⟨g, t, rfl, h1, h2⟩))
    | @«at» n l _ hg h =>
      have hp := (key_iff (number_body.pair literal_part) _ _ _ r).mpr ⟨g, t, rfl, hg, h⟩
      rw [alt_miss (map_err ?_)]
      · exact alt_hit (map_run hp)
      · cases h with
        | mk hg1 hx hg2 =>
          cases hx with
          | mk hn hb hg' hl =>
            simp only [paren_append, List.append_assoc]
            exact literal_lead_err hg (at_not_literal hg1 hn hb hg'.1 hl.2)
    | @isValue f n _ hg h =>
      have hp := (key_iff (basic_body.pair number_part) _ _ _ r).mpr ⟨g, t, rfl, hg, h⟩
      cases h with
      | mk hg1 hx hg2 =>
        cases hx with
        | mk hf hb hg' hn =>
          obtain ⟨rfl, hn⟩ := hn
          simp only [paren_append, List.append_assoc] at hp ⊢
          rw [alt_miss (map_err (literal_lead_err hg (eq_not_literal hg1 hf hb (.inr ?_)))),
            alt_miss (map_err (by rw [prefix_lead hg]; exact prefixExpr_kw rfl))]
          · exact alt_hit (map_run (a := (f, n)) hp)
          · obtain ⟨c, cs, rfl, hc⟩ := hn.head
            rw [List.nil_append, hb.sep.gap.skip_solid (hn.solid.append _)]
            exact parseName_digit _ hc
    | @isObject f o _ hg h =>
      cases h with
      | mk hg1 hx hg2 =>
        cases hx with
        | @mk _ t1 b g' _ t2 hf hb hg' hn =>
          have hp := (key_iff (basic_body.pair name_part) c!"=" _ _ r).mpr ⟨g, _, rfl, hg, .mk hg1 (.mk hf.1 hb hg' hn) hg2⟩
          simp only [paren_append, List.append_assoc] at hp ⊢
          rw [alt_miss (map_err (literal_lead_err hg (eq_not_literal hg1 hf.1 hb (.inl hf.2)))),
            alt_miss (map_err (by rw [prefix_lead hg]; exact prefixExpr_kw rfl)), alt_miss (map_err ?_)]
          · exact alt_hit (map_run (a := (f, o)) hp)
          · rw [prefix_lead hg]
            refine prefixExpr_body_err ?_
            rw [hg1.skip_solid (hf.1.solid.append _)]
            refine pair_err2 (basic_body.run hf.1 (.sp hb _)) ?_
            rw [pms1_gapC hb hg' (hn.2.solid.append _)]
            obtain ⟨c, cs, rfl, hc, _⟩ := hn.2.1
            refine parseNumber_miss fun d y e => ?_
            cases g' with
            | nil => cases e; exact letter_not_dec hc
            | cons d' g' =>
              obtain ⟨rfl, -⟩ := List.cons.inj e
              rw [hg'.2 _ _ rfl]
              decide

/-- A function without parentheses and an object are read as an equality of names. -/
example : parseInitEl c!"(= f a)" = .ok (.literal (.pos (.equality (Name.new c!"f") (Name.new c!"a")))) [] ∧
    parseInitEl c!"(= (f) a)" = .ok (.isObject ⟨Name.new c!"f", []⟩ (Name.new c!"a")) [] := ⟨rfl, rfl⟩

/-- No blank is needed behind `at`. -/
example : ∃ n g t, c!"(at5 (p))" = g ++ (t ++ []) ∧ InitX g (.at n (.pos (.predicate (Name.new c!"p") []))) t :=
  ⟨Ex.num 5 0, (C77_initial_elements _ _ _).mp rfl⟩

theorem InitX.gap {g v t} (h : InitX g v t) : Gap g := by
  cases h with
  | literal h1 h2 => exact literal_part.gap ⟨h1, h2⟩
  | «at» h => exact h
  | isValue h => exact h
  | isObject h => exact h

theorem InitX.solid {g v t} (h : InitX g v t) : Solid t := by
  cases h with
  | literal h1 h2 => exact literal_part.solid ⟨h1, h2⟩
  | «at» _ h => cases h; exact solid_open _
  | isValue _ h => cases h; exact solid_open _
  | isObject _ h => cases h; exact solid_open _

theorem InitX.drop {g v t} (h : InitX g v t) : InitX [] v t := by
  cases h with
  | @literal l _ h1 h2 =>
    refine .literal ?_ h2
    cases l with
    | neg => exact .nil
    | pos a => exact AtomLead.nil a
  | «at» _ h => exact .at .nil h
  | isValue _ h => exact .isValue .nil h
  | isObject _ h => exact .isObject .nil h

/-- The texts of the `:init` section. -/
inductive InitSectionX : List InitElement → List Char → Prop
  | nil {g} : Gap g → InitSectionX [] (paren (c!":init" ++ g))
  | cons {g1 es u g2} : Gap g1 → Items (InitX []) es u → Gap g2 →
      InitSectionX es (paren (c!":init" ++ (g1 ++ (u ++ g2))))

/-- C77, the `:init` section. -/
theorem C77_initial_states (s : List Char) (v : List InitElement) (r : List Char) :
    parseProblemInitDef s = .ok v r ↔ ∃ g t, s = g ++ (t ++ r) ∧ Gap g ∧ InitSectionX v t := by
  have hsnd : Snd Any Gap parseInitEl (InitX []) := by
    intro s v r h _
    obtain ⟨g, t, h1, h2⟩ := (C77_initial_elements _ _ _).mp h
    exact ⟨g, t, h1, h2.gap, h2.drop⟩
  have hne : NonE (InitX []) := fun _ _ h => h.solid.ne
  constructor
  · intro h
    obtain ⟨g0, x, y, rfl, hg0, h2, h3⟩ := prefixExpr_inv h
    obtain ⟨g2, hy, hg2⟩ := skip_gap (s := y) (by rw [h3]; simp)
    rw [h3] at hy
    obtain ⟨_, u, h4, hn, k⟩ := list0_exact hsnd hne (skip x) v y h2 (by intro h; rw [hy] at h; simp at h)
    cases hn
    obtain ⟨g1, hx, hg1⟩ := skip_gap (s := x) (by rw [h4, hy]; simp)
    rw [h4] at hx
    subst hy
    cases k with
    | nil hu =>
      subst hx
      exact ⟨g0, paren (c!":init" ++ (g1 ++ u ++ g2)), by simp [paren], hg0,
        .nil ((hg1.append hu).append hg2)⟩
    | @cons g' _ u _ hg' hu ht =>
      subst hx ht
      exact ⟨g0, paren (c!":init" ++ ((g1 ++ g') ++ (u ++ g2))), by simp [paren], hg0,
        .cons (hg1.append hg') hu hg2⟩
  · rintro ⟨g0, t, rfl, hg0, h⟩
    unfold parseProblemInitDef
    rw [prefix_lead hg0]
    cases h with
    | @nil g hg =>
      simp only [paren_append, List.append_assoc]
      refine prefixExpr_run (y := ')' :: r) ?_ (solid_close r).skip
      have hk := hg.skip_solid (solid_close r)
      rw [hk, list0_nil] <;> rw [(solid_close r).skip]
      exact parseInitEl_par.close r
    | @cons g1 _ u g2 hg1 hu hg2 =>
      simp only [paren_append, List.append_assoc]
      have hI : Items (Elem parseInitEl) v u := hu.mono fun a t h _ =>
        ⟨fun r _ => (C77_initial_elements _ _ _).mpr ⟨[], t, rfl, h⟩, h.solid⟩
      refine prefixExpr_run (y := g2 ++ ')' :: r) ?_ (hg2.skip_solid (solid_close r))
      rw [hg1.skip_solid (hI.solid.append _)]
      have hp := list0_items (g := []) (y := g2 ++ ')' :: r) hI .nil (.gap hg2 (.close r)) (by
        rw [hg2.skip_solid (solid_close r)]
        exact parseInitEl_par.close r)
      rwa [List.nil_append] at hp

example : ∃ g t, c!"(:init(p) (= (f a) b) )" = g ++ (t ++ []) ∧ Gap g ∧
    InitSectionX [.literal (.pos (.predicate (Name.new c!"p") [])),
      .isObject ⟨Name.new c!"f", [Name.new c!"a"]⟩ (Name.new c!"b")] t := (C77_initial_states _ _ _).mp rfl

end Pddl
