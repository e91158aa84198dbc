import Verif.Props.FilesX
import Verif.Props.Timed
import Verif.Meta.Reformat

/-!
# Exact boundaries of claims that hold only in part

For some claims that are false of the code, the exact texts of C77-C85 make it possible to say precisely
where they hold: C11 (types that begin with `object`), C30 (empty comments), C33 (operands of n-ary
operators), C47 (`total-time`) and C51 (assignments in timed effects).
-/

namespace Pddl

/-! ## C11 -/

/-- C11, exactly when a word in the place of a type is read as the type of that name: after layout always,
without layout if it does not go on behind `object`. -/
theorem C11_iff {g w r : List Char} (hg : Gap g) (hw : IsWord w) (hr : NoWord r) :
    parseType (g ++ (w ++ r)) = .ok (.exactly (Name.new w)) r ↔ g ≠ [] ∨ ∀ x, w = c!"object" ++ x → x = [] := by
  refine ⟨fun h => ?_, C11_partial hg hw hr⟩
  by_cases hn : g = []
  · right
    rintro x rfl
    subst hn
    rw [List.nil_append, List.append_assoc, C11_false] at h
    exact List.append_left_eq_self.mp (Res.ok.inj h).2
  · exact .inl hn

example : ¬ parseType ([] ++ (c!"objects" ++ c!" a")) = .ok (.exactly (Name.new c!"objects")) c!" a" := fun h =>
  ((C11_iff .nil ⟨'o', c!"bjects", rfl, by decide, by decide⟩ (by intro c r h; cases h; decide)).mp h).elim
    (fun h => h rfl) fun h => absurd (h c!"s" rfl) (by decide)

/-! ## C30 -/

/-- C30, exactly when a comment line is skipped: if it has a text. -/
theorem C30_iff {body : List Char} {n : Char} (hb : ∀ c ∈ body, isNewline c = false) (hn : isNewline n = true) :
    (∀ s, parseDomain (';' :: (body ++ n :: s)) = parseDomain s) ↔ body ≠ [] := by
  constructor
  · rintro h rfl
    have := h c!"(define (domain d))"
    have e : skip (';' :: n :: c!"(define (domain d))") = ';' :: n :: c!"(define (domain d))" := by
      rw [skip_semicolon, skipC_empty (by simp [hn])]
    have hp : ∀ {α} (kw) (p : P α), prefixExpr kw p (';' :: n :: c!"(define (domain d))") = .err := by
      intro α kw p
      simp only [prefixExpr, delimited, preceded, ws_eq, e]
      simp [tag, stripPrefix, Res.bind]
    have hd : parseDomain (';' :: n :: c!"(define (domain d))") = .err := by
      rw [parseDomain, map, show ∀ {α} (p : P α), ws2 (prefixExpr c!"define" p) _ = .err from fun p =>
        ws2_skip (by rw [prefixExpr_skip, hp])]
      rfl
    rw [List.nil_append, hd] at this
    cases this
  · intro h s
    cases body with
    | nil => exact absurd rfl h
    | cons b body =>
      exact (C30_partial (hb b (by simp)) (fun c hc => hb c (by simp [hc])) hn s).2.1

example : (∀ s, parseDomain (';' :: (c!" a (comment" ++ '\n' :: s)) = parseDomain s) ∧
    ¬ ∀ s, parseDomain (';' :: ([] ++ '\n' :: s)) = parseDomain s :=
  ⟨(C30_iff (by decide) (by decide)).mpr (by decide),
    fun h => (C30_iff (by decide) (by decide)).mp h rfl⟩

/-! ## C33 -/

theorem isDec_letter {c : Char} (h : isDec c = true) (h' : isLetter c = true) : False := by
  simp [isDec] at h
  simp [isLetter] at h'
  omega

theorem Items.single {α : Type} {R : α → List Char → Prop} {a : α} {u : List Char} (h : Items R [a] u) : R a u := by
  cases h with
  | one h => exact h
  | cons _ _ h => cases h

/-- C33, exactly when an n-ary sum or product has only one further operand: a comment comes before the
second operand, which is a number. -/
theorem C33_f_exp_iff (op : MultiOp) (a b : FExp) (s r : List Char) :
    parseFExp s = .ok (.multiOp op a [b]) r ↔ ∃ g0 g b1 g1 t1 b2 g2 t2 n,
      s = g0 ++ (paren (g ++ (op.spell ++ (b1 ++ (g1 ++ (t1 ++ (b2 ++ (g2 ++ t2)))))))  ++ r) ∧ GapC g0 ∧ Gap g ∧
      Sp b1 ∧ GapC g1 ∧ FExpX g1 a t1 ∧ Sp b2 ∧ GapC g2 ∧ g2 ≠ [] ∧ b = .number n ∧ NumW n t2 := by
  rw [C77_numeric_expressions]
  constructor
  · rintro ⟨g0, t, rfl, h, _⟩
    cases h with
    | leaf h => cases h
    | multi hg0 hg hb1 hg1 ha hb2 hg2 hu hc =>
      rcases hc with hc | ⟨hne, c, u', rfl, hd⟩
      · simp at hc
      · have hb := hu.single
        cases hb with
        | leaf hb =>
          cases hb with
          | @number n _ hn => exact ⟨g0, _, _, _, _, _, _, _, n, rfl, hg0, hg, hb1, hg1, ha, hb2, hg2, hne, rfl, hn⟩
          | function _ hh =>
            cases hh with
            | name hn =>
              obtain ⟨c', r', e, hc', _⟩ := hn.1
              cases e
              exact (isDec_letter hd hc').elim
            | _ => exact absurd hd (by decide)
        | _ => exact absurd hd (by decide)
  · rintro ⟨g0, g, b1, g1, t1, b2, g2, t2, n, rfl, hg0, hg, hb1, hg1, ha, hb2, hg2, hne, rfl, hn⟩
    obtain ⟨c, u', rfl, hd⟩ := hn.head
    exact ⟨g0, _, rfl, .multi hg0 hg hb1 hg1 ha hb2 hg2 (.one (.leaf (.number hn))) (.inr ⟨hne, c, u', rfl, hd⟩), trivial⟩

/-- C33, the same for durative expressions, where the second operand may also be `?duration`. -/
theorem C33_f_exp_da_iff (op : MultiOp) (a b : FExpDa) (s r : List Char) :
    parseFExpDa s = .ok (.multiOp op a [b]) r ↔ ∃ g0 g b1 g1 t1 b2 g2 t2,
      s = g0 ++ (paren (g ++ (op.spell ++ (b1 ++ (g1 ++ (t1 ++ (b2 ++ (g2 ++ t2))))))) ++ r) ∧ GapC g0 ∧ Gap g ∧
      Sp b1 ∧ GapC g1 ∧ FExpDaX g1 a t1 ∧ Sp b2 ∧ GapC g2 ∧ g2 ≠ [] ∧
      ((∃ n, b = .fExp (.number n) ∧ NumW n t2) ∨ b = .duration ∧ t2 = c!"?duration") := by
  rw [C77_durative_expressions]
  constructor
  · rintro ⟨g0, t, rfl, h, _⟩
    cases h with
    | leaf h => cases h
    | multi hg0 hg hb1 hg1 ha hb2 hg2 hu hc =>
      rcases hc with hc | ⟨hne, c, u', rfl, hd⟩
      · simp at hc
      · have hb := hu.single
        cases hb with
        | leaf hb =>
          cases hb with
          | duration => exact ⟨g0, _, _, _, _, _, _, _, rfl, hg0, hg, hb1, hg1, ha, hb2, hg2, hne, .inr ⟨rfl, rfl⟩⟩
          | fExp hb =>
            cases hb with
            | @number n _ hn =>
              exact ⟨g0, _, _, _, _, _, _, _, rfl, hg0, hg, hb1, hg1, ha, hb2, hg2, hne, .inl ⟨n, rfl, hn⟩⟩
            | function _ hh =>
              cases hh with
              | name hn =>
                obtain ⟨c', r', e, hc', _⟩ := hn.1
                cases e
                simp only [durTight, Bool.or_eq_true, beq_iff_eq] at hd
                rcases hd with hd | rfl
                · exact (isDec_letter hd hc').elim
                · exact absurd hc' (by decide)
              | _ => exact absurd hd (by decide)
        | _ => exact absurd hd (by decide)
  · rintro ⟨g0, g, b1, g1, t1, b2, g2, t2, rfl, hg0, hg, hb1, hg1, ha, hb2, hg2, hne, ⟨n, rfl, hn⟩ | ⟨rfl, rfl⟩⟩
    · obtain ⟨c, u', rfl, hd⟩ := hn.head
      exact ⟨g0, _, rfl, .multi hg0 hg hb1 hg1 ha hb2 hg2 (.one (.leaf (.fExp (.number hn))))
        (.inr ⟨hne, c, u', rfl, by simp [durTight, show isDec c = true from hd]⟩), trivial⟩
    · exact ⟨g0, _, rfl, .multi hg0 hg hb1 hg1 ha hb2 hg2 (.one (.leaf .duration))
        (.inr ⟨hne, '?', _, rfl, rfl⟩), trivial⟩

/-- C33, the same for metrics. -/
theorem C33_metric_exp_iff (op : MultiOp) (a b : MetricFExp) (s r : List Char) :
    parseMetricFExp s = .ok (.multiOp op a [b]) r ↔ ∃ g0 g b1 g1 t1 b2 g2 t2 n,
      s = g0 ++ (paren (g ++ (op.spell ++ (b1 ++ (g1 ++ (t1 ++ (b2 ++ (g2 ++ t2))))))) ++ r) ∧ GapC g0 ∧ Gap g ∧
      Sp b1 ∧ GapC g1 ∧ MetricX g1 a t1 ∧ Sp b2 ∧ GapC g2 ∧ g2 ≠ [] ∧ b = .number n ∧ NumW n t2 := by
  rw [C77_metric_expressions]
  constructor
  · rintro ⟨g0, t, rfl, h, _⟩
    cases h with
    | leaf h => cases h
    | multi hg0 hg hb1 hg1 ha hb2 hg2 hu hc =>
      rcases hc with hc | ⟨hne, c, u', rfl, hd⟩
      · simp at hc
      · have hb := hu.single
        cases hb with
        | leaf hb =>
          cases hb with
          | @number n _ hn => exact ⟨g0, _, _, _, _, _, _, _, n, rfl, hg0, hg, hb1, hg1, ha, hb2, hg2, hne, rfl, hn⟩
          | symbol _ hn =>
            obtain ⟨c', r', e, hc', _⟩ := hn.1
            cases e
            exact (isDec_letter hd hc').elim
          | _ => exact absurd hd (by decide)
        | _ => exact absurd hd (by decide)
  · rintro ⟨g0, g, b1, g1, t1, b2, g2, t2, n, rfl, hg0, hg, hb1, hg1, ha, hb2, hg2, hne, rfl, hn⟩
    obtain ⟨c, u', rfl, hd⟩ := hn.head
    exact ⟨g0, _, rfl, .multi hg0 hg hb1 hg1 ha hb2 hg2 (.one (.leaf (.number hn))) (.inr ⟨hne, c, u', rfl, hd⟩), trivial⟩

example : ∃ a b, parseFExp c!"(+ x ; c\n 2)" = .ok (.multiOp .add a [b]) [] ∧
    ∃ a b, parseFExp c!"(+ x ; c\n y)" = .ok (.binaryOp .add a b) [] := ⟨_, _, rfl, _, _, rfl⟩

example : ∃ a b, parseFExpDa c!"(* x ; c\n ?duration)" = .ok (.multiOp .mul a [b]) [] ∧ b = .duration :=
  ⟨_, _, rfl, rfl⟩

example : ∃ a b, parseMetricFExp c!"(+ x ; c\n 2)" = .ok (.multiOp .add a [b]) [] := ⟨_, _, rfl⟩

/-! ## C47 -/

/-- C47, exactly which texts are read as the built-in total time. -/
theorem C47_iff (s r : List Char) : parseMetricFExp s = .ok .totalTime r ↔ s = c!"total-time" ++ r := by
  rw [C77_metric_expressions]
  constructor
  · rintro ⟨g, t, rfl, h, _⟩
    cases h with
    | leaf h => cases h; rfl
  · rintro rfl
    exact ⟨[], _, rfl, .leaf .totalTime, trivial⟩

/-- C47, exactly when a bare word is read as the function of that name: if it does not begin with
`total-time`, or if layout comes before it. -/
theorem C47_word_iff {g w r : List Char} (hg : Gap g) (hw : IsWord w) (hr : NoWord r) :
    parseMetricFExp (g ++ (w ++ r)) = .ok (.function (wordName w) []) r ↔ g ≠ [] ∨ ¬ c!"total-time" <+: w := by
  constructor
  · intro h
    by_cases hn : g = []
    · right
      rintro ⟨x, rfl⟩
      subst hn
      rw [List.nil_append, List.append_assoc, C47_bare_partial] at h
      cases h
    · exact .inl hn
  · intro h
    refine (C77_metric_expressions _ _ _).mpr ⟨g, w, rfl, .leaf (.symbol hg ⟨hw, rfl⟩ ?_), .inr hr⟩
    rintro rfl ⟨x, rfl⟩
    rcases h with h | h
    · exact h rfl
    · exact h ⟨x, rfl⟩

/-- C47, in parentheses no text is the built-in total time. -/
theorem C47_false_paren {g : List Char} (hg : Gap g) (x r : List Char) :
    parseMetricFExp (g ++ '(' :: x) ≠ .ok .totalTime r := by
  intro h
  have := (C47_iff _ _).mp h
  have := congrArg skip this
  rw [hg.skip_solid (solid_open x)] at this
  exact absurd (List.cons.inj (this.trans (show skip (c!"total-time" ++ r) = c!"total-time" ++ r from rfl))).1
    (by decide)

example : c!" total-time-x)" = [' '] ++ (c!"total-time-x" ++ c!")") ∧
    parseMetricFExp c!" total-time-x)" = .ok (.function (wordName c!"total-time-x") []) c!")" :=
  ⟨rfl, (C47_word_iff (g := [' ']) (.space rfl .nil) ⟨'t', c!"otal-time-x", rfl, by decide, by decide⟩
    (by intro c r h; cases h; decide)).mpr (.inl (by decide))⟩

/-! ## C51 -/

theorem at_form_unique {k0 k1 k2 t j0 j1 j2 u : List Char} {ts ts' : TimeSpecifier} (hk0 : Gap k0) (hk1 : Sep k1)
    (ht : Form t) (hj0 : Gap j0) (hj1 : Sep j1) (hu : Form u)
    (e : atText k0 ts k1 t k2 = atText j0 ts' j1 u j2) : ts = ts' ∧ t = u := by
  have e := List.append_cancel_left (paren_inj e)
  have hs : ∀ (o : TimeSpecifier) x, Solid (o.spell ++ x) := fun o x => by
    cases o <;> exact .cons (by decide) (by decide) _
  have e1 := congrArg skip e
  rw [hk0.skip_solid (hs _ _), hj0.skip_solid (hs _ _)] at e1
  have hts : ts = ts' := by
    cases ts <;> cases ts' <;> first | rfl | exact absurd (List.cons.inj e1).1 (by decide)
  subst hts
  exact ⟨rfl, (form_split hk1.gap ht hj1.gap hu (List.append_cancel_left e1)).2.1⟩

/-- C51, exactly when an effect keeps its meaning at a time: if it cannot be read as an assignment of a
number. -/
theorem C51_iff {e : CondEffect} {t k0 k1 k2 : List Char} (ts : TimeSpecifier) (ht : Solid t)
    (h : parseCondEffect t = .ok e []) (hk0 : Gap k0) (hk1 : Sep k1) (hk2 : Gap k2) (r : List Char) :
    (parseTimedEffect (atText k0 ts k1 t k2 ++ r) = .ok (.conditional ts e) r ↔ ∀ a, parseFAssignDa t ≠ .ok a []) ∧
      ∀ a, parseTimedEffect (atText k0 ts k1 t k2 ++ r) = .ok (.numericFluent ts a) r ↔
        parseFAssignDa t = .ok a [] := by
  have hc : CondX [] e t := condEffect_texts.reads.mp ⟨ht, h⟩
  have hf := condEffect_texts.form hc
  have ha : ∀ {a}, parseFAssignDa t = .ok a [] ↔ AssignDaX a t := fun {a} => by
    have := assignDa_texts.reads (v := a) (t := t)
    exact ⟨fun h => (this.mp ⟨ht, h⟩).2, fun h => (this.mpr ⟨gapC_nil, h⟩).2⟩
  have hF : Form (atText k0 ts k1 t k2) := by
    obtain ⟨u, rfl, hu⟩ := hf
    exact .mk ((Bal.of_kw (u := c!"at") (by decide)).append (hk0.bal.append ((spell_bal ts).append
      (hk1.gap.bal.append (hu.paren.append hk2.bal)))))
  have key : ∀ v, parseTimedEffect (atText k0 ts k1 t k2 ++ r) = .ok v r ↔ TimedEffX [] v (atText k0 ts k1 t k2) :=
    fun v => ⟨fun h => (timedEffect_texts.inv .nil hF (g := []) h).1, fun h => timedEffect_texts.run0 h r⟩
  constructor
  · rw [key]
    constructor
    · intro h a he
      cases h with
      | conditional _ _ hn => exact hn ts a ⟨k0, _, k1, t, k2, rfl, hk0, rfl, hk1, ha.mp he, hk2⟩
    · intro hn
      refine .conditional .nil ⟨k0, _, k1, t, k2, rfl, hk0, rfl, hk1, hc, hk2⟩ ?_
      rintro ts' a ⟨j0, _, j1, u, j2, e, hj0, rfl, hj1, hu, _⟩
      obtain ⟨rfl, rfl⟩ := at_form_unique hk0 hk1 hf hj0 hj1 (assignDa_texts.form (g := []) ⟨gapC_nil, hu⟩) e
      exact hn a (ha.mpr hu)
  · intro a
    rw [key, ha]
    constructor
    · intro h
      cases h with
      | assign _ h =>
        obtain ⟨j0, _, j1, u, j2, e, hj0, rfl, hj1, hu, _⟩ := h
        obtain ⟨_, rfl⟩ := at_form_unique hk0 hk1 hf hj0 hj1 (assignDa_texts.form (g := []) ⟨gapC_nil, hu⟩) e
        exact hu
    · exact fun h => .assign .nil ⟨k0, _, k1, t, k2, rfl, hk0, rfl, hk1, h, hk2⟩

/-- The text does not end with a blank. -/
def Ends (t : List Char) : Prop := ∃ x c, t = x ++ [c] ∧ isSpace c = false

theorem Plain.ends {t : List Char} (h : Plain t) : Ends t :=
  ⟨t.dropLast, t.getLast h.1, (List.dropLast_concat_getLast h.1).symm, (isPlain_iff.1 (h.2 _ (List.getLast_mem h.1))).1⟩

theorem ends_paren (u : List Char) : Ends (paren u) := ⟨'(' :: u, ')', rfl, by decide⟩

theorem NumW.ends {n : Number} {t : List Char} (h : NumW n t) : Ends t := by
  obtain ⟨l, rfl, _⟩ := h
  unfold Literal10.text
  split
  · exact Plain.ends ⟨l.int_ne, fun c hc => isDec.plain (l.int_digits c hc)⟩
  · rename_i hf
    obtain ⟨x, c, e, hc⟩ := Plain.ends (t := l.frac) ⟨hf, fun c hc => isDec.plain (l.frac_digits c hc)⟩
    exact ⟨l.int ++ '.' :: x, c, by rw [e]; simp, hc⟩

theorem FExpDaX.ends {g : List Char} {v : FExpDa} {t : List Char} (h : FExpDaX g v t) : Ends t := by
  cases h with
  | leaf h =>
    cases h with
    | duration => exact ⟨c!"?duratio", 'n', rfl, by decide⟩
    | fExp h =>
      cases h with
      | number h => exact h.ends
      | function _ h =>
        cases h with
        | name h => exact h.1.plain.ends
        | _ => exact ends_paren _
  | _ => exact ends_paren _

theorem Gap.ends {g : List Char} (h : Gap g) (hne : g ≠ []) : ∃ x c, g = x ++ [c] ∧ isSpace c = true := by
  induction h with
  | nil => exact absurd rfl hne
  | @space c g hc hg ih =>
    by_cases hn : g = []
    · exact ⟨[], c, by rw [hn]; rfl, hc⟩
    · obtain ⟨x, d, e, hd⟩ := ih hn
      exact ⟨c :: x, d, by rw [e]; rfl, hd⟩
  | @comment b body n g h1 h2 h3 hg ih =>
    by_cases hn : g = []
    · exact ⟨';' :: b :: body, n, by rw [hn]; rfl, isNewline_isSpace h3⟩
    · obtain ⟨x, d, e, hd⟩ := ih hn
      exact ⟨';' :: b :: (body ++ n :: x), d, by rw [e]; simp, hd⟩

/-- A numeric assignment has no layout before the closing parenthesis. -/
theorem AssignDaX.no_trail {a : FAssignDa} {u g : List Char} (hg : Gap g) (hne : g ≠ []) :
    ¬ AssignDaX a (paren (u ++ g)) := by
  intro h
  generalize e : paren (u ++ g) = t at h
  obtain ⟨x, c, rfl, hc⟩ := hg.ends hne
  cases h with
  | @mk g o w b1 g1 _ t1 b2 g2 _ t2 _ _ _ _ _ _ _ h =>
    obtain ⟨y, d, rfl, hd⟩ := FExpDaX.ends h
    have := congrArg List.getLast? (paren_inj e)
    simp only [← List.append_assoc, List.getLast?_append, List.getLast?_singleton, Option.some_or] at this
    cases this
    rw [hc] at hd
    cases hd

/-- C51, layout before the closing parenthesis decides what kind of assignment is read at a time: with it,
assignments of objects and of `undefined` keep their meaning. -/
theorem C51_trail_partial {f : FunctionTerm} {o : Option Term} {u g k0 k1 k2 : List Char} (ts : TimeSpecifier)
    (h : parsePEffect (paren (c!"assign" ++ (u ++ g))) = .ok (.assignObject f o) []) (hg : Gap g) (hne : g ≠ [])
    (hk0 : Gap k0) (hk1 : Sep k1) (hk2 : Gap k2) (r : List Char) :
    parseTimedEffect (atText k0 ts k1 (paren (c!"assign" ++ (u ++ g))) k2 ++ r) =
      .ok (.conditional ts (.single (.assignObject f o))) r := by
  have ht : Solid (paren (c!"assign" ++ (u ++ g))) := solid_paren _
  have hp := pEffect_texts.reads.mp ⟨ht, h⟩
  have hc : CondX [] (.single (.assignObject f o)) (paren (c!"assign" ++ (u ++ g))) := .single hp fun es he => by
    obtain ⟨w, e, _⟩ := he
    exact absurd (List.cons.inj (List.cons.inj (paren_inj e)).2).1 (by decide)
  refine (C51_iff ts ht (condEffect_texts.reads.mpr hc).2 hk0 hk1 hk2 r).1.mpr fun a ha => ?_
  have := (assignDa_texts.reads.mp ⟨ht, ha⟩).2
  rw [← List.append_assoc] at this
  exact this.no_trail hg hne

example : (∃ a, parseTimedEffect c!"(at start (assign (f) x))" = .ok (.numericFluent .start a) []) ∧
    ∃ e, parseTimedEffect c!"(at start (assign (f) x ))" = .ok (.conditional .start e) [] := ⟨⟨_, rfl⟩, ⟨_, rfl⟩⟩

end Pddl
