import Verif.Meta.Texts

/-!
# C81: the exact texts of effects
-/

namespace Pddl

/-- `(assign f undefined)`. -/
def UndefX (f : FunctionTerm) (t : List Char) : Prop :=
  ∃ g1 x b g2, t = paren (c!"assign" ++ (g1 ++ (x ++ (b ++ (c!"undefined" ++ g2))))) ∧ Gap g1 ∧
    FnTermX f x ∧ Sp b ∧ Gap g2

/-- `(assign f o)`. -/
def ObjectX (f : FunctionTerm) (o : Term) (t : List Char) : Prop :=
  ∃ g1 x b g y g2, t = paren (c!"assign" ++ (g1 ++ (x ++ (b ++ (g ++ (y ++ g2)))))) ∧ Gap g1 ∧
    FnTermX f x ∧ Sp b ∧ GapC g ∧ TermLead o g ∧ TermX o y ∧ Gap g2

/-- An operator, the head of a fluent and a numeric expression. -/
def NumericX (op : AssignOp) (h : FHead) (e : FExp) (t : List Char) : Prop :=
  OpForm AssignOpW (fun g h t => HeadLead t g ∧ FHeadX h t) FExpX (op, h, e) t

/-- The accepted texts of a simple effect, with the layout `g` in front. A text that can be read in
an earlier way is not read in a later one: an assignment of an object is no assignment of a number,
and an atom is no assignment and no negated atom. -/
inductive PEffX : List Char → PEffect → List Char → Prop
  | notAtomic {g a t} : Gap g → Wrapped c!"not" (AtomX TermX TermEnds) a t → PEffX g (.notAtomic a) t
  | undefined {g f t} : Gap g → UndefX f t → PEffX g (.assignObject f none) t
  | object {g f o t} : Gap g → ObjectX f o t → (∀ f, ¬ UndefX f t) → PEffX g (.assignObject f (some o)) t
  | numeric {g op h e t} : GapC g → NumericX op h e t → (∀ f, ¬ UndefX f t) → (∀ f o, ¬ ObjectX f o t) →
      PEffX g (.assignNumeric op h e) t
  | atomic {g a t} : AtomLead a g → AtomX TermX TermEnds a t →
      (∀ a, ¬ Wrapped c!"not" (AtomX TermX TermEnds) a t) → (∀ f, ¬ UndefX f t) → (∀ f o, ¬ ObjectX f o t) →
      (∀ op h e, ¬ NumericX op h e t) → PEffX g (.atomic a) t

/-- The accepted texts of the effect of a `when` or of a timed effect. -/
inductive CondX : List Char → CondEffect → List Char → Prop
  | all {g es t} : Gap g → Listed c!"and" (PEffX []) es t → CondX g (.all es) t
  | single {g e t} : PEffX g e t → (∀ es, ¬ Listed c!"and" (PEffX []) es t) → CondX g (.single e) t

mutual

/-- The accepted texts of an effect. -/
inductive CEffX : List Char → CEffect → List Char → Prop
  | forall_ {g g1 vs w g2 es y g3} : Gap g → Gap g1 → TypedX VarX Apart objectTy vs w → Sep g2 → EffX [] es y →
      Gap g3 → CEffX g (.forall_ vs es) (paren (c!"forall" ++ (g1 ++ (paren w ++ (g2 ++ (y ++ g3))))))
  | when {g c e t} : Gap g → Paired c!"when" GDX (CondX []) c e t → CEffX g (.when c e) t
  | effect {g e t} : PEffX g e t → (∀ c e, ¬ Paired c!"when" GDX (CondX []) c e t) → CEffX g (.effect e) t

/-- The accepted texts of a list of effects. An atom with the name `and` whose arguments all are
function terms is a conjunction of atoms. -/
inductive EffX : List Char → List CEffect → List Char → Prop
  | and {g es u} : Gap g → Sec Gap Gap (Items (CEffX [])) es u → EffX g es (paren (c!"and" ++ u))
  | single {g e t} : CEffX g e t → (∀ es, ¬ Listed c!"and" (PEffX []) es t) → EffX g [e] t

end

/-! ## The alternatives of a simple effect -/

theorem fnTermX_form {f : FunctionTerm} {t : List Char} (h : FnTermX f t) : Form t :=
  form_of_snd parseFunctionTerm_snd (fun _ _ h => h.form) (by cases h; exact solid_paren _)
    ((C68_function_terms _ _ _).mpr ⟨t, by simp, h⟩)

theorem fnTerm_snd : Snd Any Nil parseFunctionTerm FnTermX := fun s v r h _ => by
  obtain ⟨t, e, k⟩ := (C68_function_terms _ _ _).mp h
  exact ⟨[], t, e, rfl, k⟩

theorem fnTermX_run {f : FunctionTerm} {t : List Char} (h : FnTermX f t) (r : List Char) :
    parseFunctionTerm (t ++ r) = .ok f r := (C68_function_terms _ _ _).mpr ⟨t, rfl, h⟩

theorem termX_bal {a : Term} {t : List Char} (h : TermX a t) : Bal t := by
  cases h with
  | name h => exact h.1.bal
  | var hg h => exact .plain (by decide) (by decide) (by decide) (hg.bal.append h.1.bal)
  | fn h1 h2 h3 h4 =>
    obtain ⟨u, e, hu⟩ := fnTermX_form (.mk h1 h2 h3 h4)
    rw [e]
    exact hu.paren

theorem undefined_texts :
    Texts (prefixExpr c!"assign" (terminated parseFunctionTerm (pair multispace1 (tag c!"undefined"))))
      (fun g f t => Gap g ∧ UndefX f t) where
  iff s v r := by
    constructor
    · intro h
      obtain ⟨g, t, e, hg, g1, x, g2, rfl, hg1, ⟨x, b, rfl, hx, hb⟩, hg2⟩ :=
        Snd.prefixExpr (F := Any) (Snd.terminated_tag fnTerm_snd) Nil.gap s v r h trivial
      exact ⟨g, _, e, hg, g1, x, b, g2, by simp, hg1, hx, hb, hg2⟩
    · rintro ⟨g, t, rfl, hg, g1, x, b, g2, rfl, hg1, h, hb, hg2⟩
      rw [prefix_lead hg]
      simp only [paren_append, List.append_assoc]
      refine prefixExpr_run (y := g2 ++ ')' :: r) ?_ (hg2.skip_solid (solid_close r))
      rw [hg1.skip_solid ((fnTermX_form h).solid.append _)]
      refine terminated_run (fnTermX_run h _) (pair_run (ms1_run hb ?_) (tag_ok _ _))
      exact .cons (by decide) (by decide) _
  gap h := h.1
  base h := ⟨.nil, h.2⟩
  form := by
    rintro _ _ _ ⟨_, g1, x, b, g2, rfl, hg1, h, hb, hg2⟩
    obtain ⟨u, rfl, hu⟩ := fnTermX_form h
    have hu := hu.paren
    exact .mk (by bal)

theorem object_texts :
    Texts (prefixExpr c!"assign" (pair parseFunctionTerm (preceded multispace1 parseTerm)))
      (fun g x t => Gap g ∧ ObjectX x.1 x.2 t) where
  iff s v r := by
    obtain ⟨f, o⟩ := v
    constructor
    · intro h
      obtain ⟨g, x, y, rfl, hg, h1, h2⟩ := prefixExpr_inv h
      obtain ⟨z, h3, h4⟩ := pair_ok h1
      obtain ⟨t1, h3, hf⟩ := (C68_function_terms _ _ _).mp h3
      obtain ⟨b, z', rfl, hb, hz, h4⟩ := pms1_inv h4
      obtain ⟨g4, t2, rfl, hl, ho, _⟩ := (C68_terms _ _ _).mp h4
      obtain ⟨g1, hx, hg1⟩ := skip_gap (s := x) (by rw [h3]; exact ((fnTermX_form hf).solid.append _).ne)
      obtain ⟨g2, hy, hg2⟩ := skip_gap (s := y) (by rw [h2]; simp)
      rw [h3] at hx
      rw [h2] at hy
      subst hx hy
      exact ⟨g, _, by simp [paren], hg, g1, t1, b, g4, t2, g2, rfl, hg1, hf, hb,
        .of_no_space hl.gap hz, hl, ho, hg2⟩
    · rintro ⟨g, t, rfl, hg, g1, x, b, g3, y, g2, rfl, hg1, h, hb, hc, hl, ho, hg2⟩
      rw [prefix_lead hg]
      simp only [paren_append, List.append_assoc]
      refine prefixExpr_run (y := g2 ++ ')' :: r) ?_ (hg2.skip_solid (solid_close r))
      rw [hg1.skip_solid ((fnTermX_form h).solid.append _)]
      refine pair_run (fnTermX_run h _) ?_
      rw [pms1_gapC hb hc ((termX_solid ho).append _)]
      exact (C68_terms _ _ _).mpr ⟨g3, y, rfl, hl, ho, parseTerm_exact.stop _ _ (.gap hg2 (.close r))⟩
  gap h := h.1
  base h := ⟨.nil, h.2⟩
  form := by
    rintro _ _ _ ⟨_, g1, x, b, g3, y, g2, rfl, hg1, h, hb, hc, hl, ho, hg2⟩
    obtain ⟨u, rfl, hu⟩ := fnTermX_form h
    have hu := hu.paren
    have := termX_bal ho
    have := hl.gap
    exact .mk (by bal)

theorem numeric_texts :
    Texts (parens (pair parseAssignOp (pair (preceded multispace1 parseFHead) (preceded multispace1 parseFExp))))
      (fun g x t => GapC g ∧ NumericX x.1 x.2.1 x.2.2 t) where
  iff s v r := by
    rw [opForm_iff assignOp_part fHead_part fExp_part]
    rfl
  gap h := h.1.1
  base h := ⟨gapC_nil, h.2⟩
  form := by
    rintro _ ⟨o, h, e⟩ _ ⟨_, h⟩
    cases h with
    | @mk g o w b1 g1 a t1 b2 g2 b t2 hg hw hb1 hg1 k1 hb2 hg2 k2 =>
      have := hw.word.bal
      have := fHead_part.bal parseFHead_snd (fun _ _ h => h.bal) (fun _ _ h => h.solid) k1
      have := fExp_part.bal parseFExp_snd (fun _ _ h => h.bal) (fun _ _ h => h.solid) k2
      have := hg1.1
      have := hg2.1
      exact .mk (by bal)

/-! ## The alternatives on the texts of later ones -/

theorem multispace1_mild : Mild multispace1 := fun s => by
  unfold multispace1 takeWhile1
  split <;> simp

theorem negAtom_calm (s : List Char) : OkErr (prefixExpr c!"not" (atomicFormula parseTerm) s) :=
  .of_mild (k := 0) (.prefixExpr (.atomicFormula parseTerm_mild)) (.mono (by good) (Nat.zero_le _))

theorem parseFunctionTerm_mild : Mild parseFunctionTerm :=
  .map (.delimited .tag (.pair parseName_mild (.spaceSeparatedList0 parseTerm_mild)) .tag)

theorem undefined_calm (s : List Char) :
    OkErr (prefixExpr c!"assign" (terminated parseFunctionTerm (pair multispace1 (tag c!"undefined"))) s) :=
  .of_mild (k := 0) (.prefixExpr (.terminated parseFunctionTerm_mild (.pair multispace1_mild .tag))) (.mono (by good) (Nat.zero_le _))

theorem object_calm (s : List Char) :
    OkErr (prefixExpr c!"assign" (pair parseFunctionTerm (preceded multispace1 parseTerm)) s) :=
  .of_mild (k := 0) (.prefixExpr (.pair parseFunctionTerm_mild (.preceded multispace1_mild parseTerm_mild))) (.mono (by good) (Nat.zero_le _))

theorem OkErr.parens {p : P α} {x : List Char} (h : OkErr (p (skip x))) : OkErr (Pddl.parens p ('(' :: x)) := by
  rcases h with ⟨v, y, h⟩ | h
  · by_cases hy : ∃ r, y = ')' :: r
    · obtain ⟨r, rfl⟩ := hy
      exact .inl ⟨v, r, parens_run h⟩
    · exact .inr (parens_tail h fun r hr => hy ⟨r, hr⟩)
  · exact .inr (parens_err h)

theorem parseFHead_mild : Mild parseFHead :=
  .alt_cons (.map parseName_mild) (.alt_cons (.map (.parens parseName_mild))
    (.alt_one (.map (.parens (.pair parseName_mild (.preceded multispace1_mild (.spaceSeparatedList0 parseTerm_mild)))))))

theorem fHead_calm (s : List Char) : OkErr (parseFHead s) := .of_mild parseFHead_mild parseFHead_good

/-- On the text of a term the operators of numeric expressions do not apply. -/
theorem termX_op_miss {self : P α} {a : Term} {x : List Char} (h : TermX a x) (y : List Char) :
    binP self (x ++ y) = .err ∧ mulP self (x ++ y) = .err ∧
      negP self (x ++ y) = .err ∧ parseNumber (x ++ y) = .err := by
  cases h with
  | name h =>
    obtain ⟨⟨c, cs, rfl, hc, _⟩, _⟩ := h
    have h1 : c ≠ '(' := by rintro rfl; exact absurd hc (by decide)
    have h2 := (isAlpha_solid hc).2
    exact ⟨parens_head h2 h1, parens_head h2 h1, parens_head h2 h1, parseNumber_alpha _ hc⟩
  | var =>
    exact ⟨parens_head (by decide) (by decide), parens_head (by decide) (by decide),
      parens_head (by decide) (by decide), parseNumber_err fun c r e => by cases e; decide⟩
  | fn hg h =>
    simp only [paren_append, List.append_assoc]
    exact ⟨bin_miss_word hg h.1, mul_miss_word hg h.1, neg_miss_word hg h.1, parseNumber_open _⟩

theorem fExp_calm {g : List Char} (hg : GapC g) {a : Term} {x : List Char} (h : TermX a x) (y : List Char) :
    OkErr (parseFExp (g ++ (x ++ y))) := by
  have key : parseFExp (g ++ (x ++ y)) = alt [map FExp.function parseFHead] (x ++ y) := by
    obtain ⟨h1, h2, h3, h4⟩ := termX_op_miss (self := parseFExp) h y
    have hct : Ct (alt [
        map (fun x : BinaryOp × FExp × FExp => FExp.binaryOp x.1 x.2.1 x.2.2) (binP parseFExp),
        map (fun x : MultiOp × FExp × List FExp => FExp.multiOp x.1 x.2.1 x.2.2) (mulP parseFExp),
        map FExp.negative (negP parseFExp), map FExp.function parseFHead]) :=
      .alt_cons (.map .parens) (.alt_cons (.map .parens) (.alt_cons (.map .parens)
        (.alt_one (.map parseFHead_ct))))
    have hn : parseNumber (g ++ (x ++ y)) = .err := by
      cases g with
      | nil => exact h4
      | cons c g =>
        cases hg.2 c g rfl
        exact parseNumber_semi _
    rw [parseFExp_eq, fExpBody, alt_miss (map_err hn), ← hct, hg.skipC_solid ((termX_solid h).append y),
      alt_miss (map_err h1), alt_miss (map_err h2), alt_miss (map_err h3)]
  rw [key]
  exact .alt_cons (.map (fHead_calm _)) .alt_nil

theorem Gap.gapC_or {g : List Char} (hg : Gap g) : GapC g ∨ ∃ c g', g = c :: g' ∧ isSpace c = true := by
  cases hg with
  | nil => exact .inl gapC_nil
  | space hc => exact .inr ⟨_, _, rfl, hc⟩
  | comment h1 h2 h3 h4 =>
    exact .inl ⟨.comment h1 h2 h3 h4, fun c g' e => (List.cons.inj e).1.symm⟩

theorem OkErr.parens_lead {p : P α} {g x : List Char} (hg : Gap g) (h : OkErr (p (skip x))) :
    OkErr (Pddl.parens p (g ++ '(' :: x)) := by
  rcases hg.gapC_or with hg | ⟨c, g', rfl, hc⟩
  · rw [parens_gapC hg]
    exact .parens h
  · refine .inr (parens_head ?_ ?_) <;> (rintro rfl; exact absurd hc (by decide))

/-- What is left after the head of a fluent that is read at a term. -/
theorem fHead_rest {a : Term} {x y z : List Char} {v : FHead} (h : TermX a x) (hy : NoWord y)
    (hv : parseFHead (x ++ y) = .ok v z) : z = y := by
  cases h with
  | @name n x h =>
    have := (C77_function_heads (x ++ y) (.simple n) y).mpr ⟨[], x, rfl,
      ⟨.nil, fun h' => absurd h' h.not_open⟩, .name h, .inr hy⟩
    rw [hv] at this
    cases this
    rfl
  | @var n g x hg h =>
    obtain ⟨g', t, e, hl, ht, _⟩ := (C77_function_heads _ _ _).mp hv
    have hs := congrArg skip e
    rw [hl.1.skip_solid (ht.solid.append z), List.cons_append,
      (Solid.cons (by decide) (by decide) _ : Solid ('?' :: _)).skip] at hs
    cases ht with
    | name h' =>
      obtain ⟨⟨c, w, rfl, hc, _⟩, _⟩ := h'
      cases (List.cons.inj hs).1
      exact absurd hc (by decide)
    | _ => exact absurd (List.cons.inj hs).1 (by decide)
  | @fn g f x ts u h1 h2 h3 h4 =>
    obtain ⟨g', t, e, hl, ht, _⟩ := (C77_function_heads _ _ _).mp hv
    have hs := congrArg skip e
    rw [hl.1.skip_solid (ht.solid.append z), ((solid_paren _).append y).skip] at hs
    have hf : Form t := by
      have hb := fHead_part.bal parseFHead_snd (fun _ _ h => h.bal) (fun _ _ h => h.solid)
        (g := []) ⟨⟨.nil, fun _ => gapC_nil⟩, ht⟩
      cases ht with
      | name h' =>
        obtain ⟨⟨c, w, rfl, hc, _⟩, _⟩ := h'
        cases (List.cons.inj hs).1
        exact absurd hc (by decide)
      | paren g1 g2 =>
        refine .mk ?_
        have := g2.1.bal
        bal
      | terms g1 g2 g3 g4 =>
        refine .mk ?_
        have := g2.1.bal
        have : Bal _ := g4.bal (fun _ => id) (fun _ h => h ▸ Gap.nil) fun _ h _ => h.bal fun a t h _ => termX_bal h
        bal
    exact ((form_split (g := []) (g' := []) .nil (fnTermX_form (.mk h1 h2 h3 h4)) .nil hf hs).2.2).symm

theorem Gap.blanks {g : List Char} (hg : Gap g) : ∃ b g', g = b ++ g' ∧ Sp0 b ∧ GapC g' := by
  induction hg with
  | nil => exact ⟨[], [], rfl, .nil, gapC_nil⟩
  | @space c g hc _ ih =>
    obtain ⟨b, g', rfl, hb, hg'⟩ := ih
    exact ⟨c :: b, g', rfl, fun d hd => by
      rcases List.mem_cons.mp hd with rfl | hd
      · exact hc
      · exact hb d hd, hg'⟩
  | comment h1 h2 h3 h4 =>
    exact ⟨[], _, rfl, .nil, .comment h1 h2 h3 h4, fun c g' e => (List.cons.inj e).1.symm⟩

/-- A parser after blanks, at layout. -/
theorem OkErr.after {q : P α} {g s : List Char} (hg : Gap g) (hs : Solid s)
    (hq : ∀ {g'}, GapC g' → OkErr (q (g' ++ s))) : OkErr (preceded multispace1 q (g ++ s)) := by
  obtain ⟨b, g', rfl, hb, hg'⟩ := hg.blanks
  rw [List.append_assoc]
  by_cases hn : b = []
  · subst hn
    refine .inr (preceded_err (multispace1_err fun c x e => ?_))
    exact hg'.no_space hs c x e
  · rw [pms1_gapC ⟨hn, hb⟩ hg' hs]
    exact hq hg'

/-- A parser after blanks at what is left of the terms of a list. -/
theorem Rest.calm {q : P α} (hq : ∀ {g a x}, GapC g → TermX a x → ∀ y, OkErr (q (g ++ (x ++ y))))
    (hc : ∀ {g}, GapC g → ∀ y, OkErr (q (g ++ ')' :: y))) {n : Nat} {r y : List Char} (h : Rest n r y) :
    OkErr (preceded multispace1 q y) := by
  cases h with
  | gap hg => exact .after hg (solid_close r) fun hg' => hc hg' r
  | @more g ts w hg hw hl =>
    refine .after hg.gap ((items_term_solid hw).append _) fun hg' => ?_
    obtain ⟨a, as, x, y, rfl, rfl, h⟩ := items_head hw
    rw [List.append_assoc]
    exact hq hg' h _

theorem fExp_close_calm {g : List Char} (hg : GapC g) (y : List Char) : OkErr (parseFExp (g ++ ')' :: y)) := by
  cases g with
  | nil => exact .inr (parseFExp_close y)
  | cons c g =>
    cases hg.2 c g rfl
    have hct : Ct (alt [
        map (fun x : BinaryOp × FExp × FExp => FExp.binaryOp x.1 x.2.1 x.2.2) (binP parseFExp),
        map (fun x : MultiOp × FExp × List FExp => FExp.multiOp x.1 x.2.1 x.2.2) (mulP parseFExp),
        map FExp.negative (negP parseFExp), map FExp.function parseFHead]) :=
      .alt_cons (.map .parens) (.alt_cons (.map .parens) (.alt_cons (.map .parens)
        (.alt_one (.map parseFHead_ct))))
    have hn : parseNumber (';' :: g ++ ')' :: y) = .err := parseNumber_semi _
    have h1 : ∀ {β : Type} {p : P β}, parens p (')' :: y) = .err :=
      parens_head (by decide) (by decide)
    rw [parseFExp_eq, fExpBody, alt_miss (map_err hn), ← hct, hg.skipC_solid (solid_close y),
      alt_miss (map_err h1), alt_miss (map_err h1), alt_miss (map_err h1),
      alt_miss (map_err (parseFHead_close y)), alt_nil]
    exact .inr rfl

theorem pms1_ok {q : P α} (hq : Ct q) {g s y : List Char} {v : α} (hg : Gap g) (hs : Solid s)
    (h : preceded multispace1 q (g ++ s) = .ok v y) : q s = .ok v y := by
  cases hg with
  | nil =>
    rw [List.nil_append, preceded_err (ms1_solid hs)] at h
    cases h
  | space hc hg => rwa [pms1_sep hq (.mk hc hg) hs] at h
  | comment =>
    rw [preceded_err (multispace1_err (by intro c x e; cases e; decide))] at h
    cases h

theorem assignOp_calm (s : List Char) : OkErr (parseAssignOp s) := by
  refine .of_mild (fun s => ?_) parseAssignOp_good
  unfold parseAssignOp mapExpect
  have hm : Mild (alt [tag c!"change", tag c!"assign", tag c!"scale-up", tag c!"scale-down", tag c!"increase",
      tag c!"decrease"]) :=
    .alt_cons .tag (.alt_cons .tag (.alt_cons .tag (.alt_cons .tag (.alt_cons .tag (.alt_one .tag)))))
  cases e : alt [tag c!"change", tag c!"assign", tag c!"scale-up", tag c!"scale-down", tag c!"increase",
      tag c!"decrease"] s with
  | ok t r =>
    have hn : ∃ o, AssignOp.tryFrom t = some o := by
      iterate 6
        rcases alt_inv e with h | ⟨_, e⟩
        · obtain ⟨rfl, _⟩ := tag_inv h
          exact ⟨_, rfl⟩
      cases e
    obtain ⟨o, hn⟩ := hn
    simp [Res.bind, hn]
  | err => decide
  | fail => exact absurd e (hm s).1
  | panic => exact absurd e (hm s).2
  | oof => decide

/-- On the text of an atom the assignment of a number is no failure and no panic. -/
theorem assign_calm {q : P β} (hq : ∀ {g a x}, GapC g → TermX a x → ∀ y, OkErr (q (g ++ (x ++ y))))
    (hc : ∀ {g}, GapC g → ∀ y, OkErr (q (g ++ ')' :: y))) {a : AtomicFormula Term} {g t : List Char} (hg : Gap g)
    (h : AtomX TermX TermEnds a t) (r : List Char) :
    OkErr (parens (pair parseAssignOp (pair (preceded multispace1 parseFHead) (preceded multispace1 q)))
      (g ++ (t ++ r))) := by
  cases h with
  | equality =>
    simp only [paren_append, List.append_assoc, List.cons_append, List.nil_append]
    refine .parens_lead hg (.inr (pair_err ?_))
    rw [(Solid.cons (by decide) (by decide) _ : Solid ('=' :: _)).skip]
    exact parseAssignOp_head (by decide)
  | @predicate g0 p t vs u hg0 hp hs hu =>
    simp only [paren_append, List.append_assoc]
    refine .parens_lead hg ?_
    have hno : NoWord (u ++ ')' :: r) := (NoWord.close r).mpr hu
    rw [hg0.skip_solid (hp.1.solid.append _)]
    refine .pair (assignOp_calm _) fun o y ho => ?_
    obtain ⟨w, e, hw⟩ := assignOp_part.inv ho
    obtain ⟨w', rfl⟩ := kw_prefix (IsWord.chars hw.word) hno ⟨y, e.symm⟩
    rw [List.append_assoc] at e
    cases List.append_cancel_left e
    cases w' with
    | cons c w' =>
      have hc := hp.1.append_cons (by obtain ⟨c, cs, rfl, _⟩ := hw.word; simp)
      obtain ⟨_, _, h2, h3⟩ := wordChar_solid hc
      exact .inr (pair_err (preceded_err (ms1_solid (.cons h3 h2 _))))
    | nil =>
      rw [List.nil_append]
      rcases Rest.of_sec (n := u.length + 1) hs (Nat.lt_succ_self _) r with
        ⟨g, hg, rfl⟩ | ⟨g, a, x, z, hg, rfl, h, hx, hr⟩
      · refine .pair (.after hg (solid_close r) fun _ => fHead_calm _) fun v y hv => ?_
        have := pms1_ok parseFHead_ct hg (solid_close r) hv
        rw [parseFHead_close] at this
        cases this
      · simp only [List.append_assoc]
        refine .pair (.after hg ((termX_solid h).append _) fun _ => fHead_calm _) fun v y hv => ?_
        obtain rfl := fHead_rest h hr.noWord (pms1_ok parseFHead_ct hg ((termX_solid h).append _) hv)
        exact hr.calm hq hc

theorem numeric_calm {a : AtomicFormula Term} {g t : List Char} (hg : Gap g) (h : AtomX TermX TermEnds a t)
    (r : List Char) :
    OkErr (parens (pair parseAssignOp (pair (preceded multispace1 parseFHead) (preceded multispace1 parseFExp)))
      (g ++ (t ++ r))) :=
  assign_calm (fun hg h y => fExp_calm hg h y) (fun hg y => fExp_close_calm hg y) hg h r

/-! ## Simple effects -/

theorem negAtom_texts : Texts (prefixExpr c!"not" (atomicFormula parseTerm))
    (fun g a t => Gap g ∧ Wrapped c!"not" (AtomX TermX TermEnds) a t) :=
  (atom_texts.wrapped (.of_kw (by decide))).congr fun {g a t} =>
    ⟨fun h => ⟨h.1, h.2.imp fun _ h => h.2⟩, fun h => ⟨h.1, h.2.imp fun _ h => ⟨AtomLead.nil a, h⟩⟩⟩

theorem NumericX.head {op : AssignOp} {h : FHead} {e : FExp} {t : List Char} (H : NumericX op h e t) :
    ∃ g w u, t = paren (g ++ (w ++ u)) ∧ Gap g ∧ AssignOpW op w ∧ NoWord u := by
  cases H with
  | mk hg hw hb => exact ⟨_, _, _, rfl, hg, hw, (Stop.sp hb _).word⟩

theorem numeric_no_equality {op : AssignOp} {h : FHead} {e : FExp} {a b : Term} {t : List Char}
    (H : NumericX op h e t) : ¬ AtomX TermX TermEnds (.equality a b) t := by
  obtain ⟨g, w, u, rfl, hg, hw, _⟩ := H.head
  intro k
  generalize hz : paren (g ++ (w ++ u)) = z at k
  cases k with
  | equality =>
    have := (List.cons.inj hz).2
    have := congrArg skip this
    simp only [List.append_assoc, List.cons_append, List.nil_append] at this
    rw [hg.skip_solid (hw.word.solid.append _),
      (Solid.cons (by decide) (by decide) _ : Solid ('=' :: _)).skip] at this
    obtain ⟨c, cs, rfl, hc, _⟩ := hw.word
    cases (List.cons.inj this).1
    exact absurd hc (by decide)

theorem numeric_no_not {op : AssignOp} {h : FHead} {e : FExp} {t : List Char} (H : NumericX op h e t) :
    ¬ Head c!"not" t := by
  obtain ⟨g, w, u, rfl, hg, hw, _⟩ := H.head
  rintro ⟨y, e⟩
  have e := (List.cons.inj e).2
  simp only [List.append_assoc] at e
  obtain rfl := gap_word hg (isWord_of _ _ (by decide) (by decide)) e
  cases hw <;> exact absurd (List.cons.inj e).1 (by decide)

theorem Head.differ {kw kw' t : List Char} (h : Head kw t) (h' : Head kw' t)
    (hk : ∀ x, stripPrefix kw (kw' ++ x) = none) : False := by
  obtain ⟨u, rfl⟩ := h
  obtain ⟨u', e⟩ := h'
  have e := List.append_cancel_right (List.cons.inj e).2
  have := hk u'
  rw [← e] at this
  exact stripPrefix_none.mp this ⟨u, rfl⟩

theorem UndefX.head {f : FunctionTerm} {t : List Char} (h : UndefX f t) : Head c!"assign" t := by
  obtain ⟨_, _, _, _, rfl, _⟩ := h
  exact ⟨_, rfl⟩

theorem ObjectX.head {f : FunctionTerm} {o : Term} {t : List Char} (h : ObjectX f o t) : Head c!"assign" t := by
  obtain ⟨_, _, _, _, _, _, rfl, _⟩ := h
  exact ⟨_, rfl⟩

theorem pEffect_texts : Texts parsePEffect PEffX := by
  have T5 := (atom_texts.map PEffect.atomic).one
  have T4 := (numeric_texts.map fun x : AssignOp × FHead × FExp => PEffect.assignNumeric x.1 x.2.1 x.2.2).alt T5
    (by
      rintro g v t ⟨a, rfl, hl, h⟩ r
      exact .map (numeric_calm hl.gap h r))
    (by
      rintro g v w t ⟨a, rfl, hl, h⟩ ⟨x, rfl, _, k⟩
      refine ⟨x, rfl, ?_, k⟩
      cases a with
      | equality => exact absurd h (numeric_no_equality k)
      | predicate => exact hl)
  have T3 := (object_texts.map fun x : FunctionTerm × Term => PEffect.assignObject x.1 (some x.2)).alt T4
    (fun _ r => .map (object_calm _)) (fun h ⟨x, e, _, k⟩ => ⟨x, e, T4.gap h, k⟩)
  have T2 := (undefined_texts.map fun f => PEffect.assignObject f none).alt T3
    (fun _ r => .map (undefined_calm _)) (fun h ⟨x, e, _, k⟩ => ⟨x, e, T3.gap h, k⟩)
  have T1 := (negAtom_texts.map PEffect.notAtomic).alt T2
    (fun _ r => .map (negAtom_calm _)) (fun h ⟨x, e, _, k⟩ => ⟨x, e, T2.gap h, k⟩)
  refine T1.congr fun {g v t} => ⟨?_, ?_⟩
  · rintro (⟨a, rfl, hg, h⟩ | ⟨⟨f, rfl, hg, h⟩ | ⟨⟨⟨f, o⟩, rfl, hg, h⟩ | ⟨⟨⟨op, k, e⟩, rfl, hg, h⟩ |
      ⟨⟨a, rfl, hg, h⟩, n4⟩, n3⟩, n2⟩, n1⟩)
    · exact .notAtomic hg h
    · exact .undefined hg h
    · exact .object hg h fun f h => n2 _ ⟨f, rfl, .nil, h⟩
    · exact .numeric hg h (fun f h => n2 _ ⟨f, rfl, .nil, h⟩) fun f o h => n3 _ ⟨(f, o), rfl, .nil, h⟩
    · exact .atomic hg h (fun a h => n1 _ ⟨a, rfl, .nil, h⟩) (fun f h => n2 _ ⟨f, rfl, .nil, h⟩)
        (fun f o h => n3 _ ⟨(f, o), rfl, .nil, h⟩) fun op k e h => n4 _ ⟨(op, k, e), rfl, gapC_nil, h⟩
  · intro h
    cases h with
    | notAtomic hg h => exact .inl ⟨_, rfl, hg, h⟩
    | undefined hg h =>
      refine .inr ⟨.inl ⟨_, rfl, hg, h⟩, ?_⟩
      rintro _ ⟨a, rfl, _, k⟩
      exact k.head.differ h.head fun _ => rfl
    | object hg h n2 =>
      refine .inr ⟨.inr ⟨.inl ⟨(_, _), rfl, hg, h⟩, ?_⟩, ?_⟩
      · rintro _ ⟨f, rfl, _, k⟩
        exact n2 f k
      · rintro _ ⟨a, rfl, _, k⟩
        exact k.head.differ h.head fun _ => rfl
    | numeric hg h n2 n3 =>
      refine .inr ⟨.inr ⟨.inr ⟨.inl ⟨(_, _, _), rfl, hg, h⟩, ?_⟩, ?_⟩, ?_⟩
      · rintro _ ⟨⟨f, o⟩, rfl, _, k⟩
        exact n3 f o k
      · rintro _ ⟨f, rfl, _, k⟩
        exact n2 f k
      · rintro _ ⟨a, rfl, _, k⟩
        exact numeric_no_not h k.head
    | atomic hg h n1 n2 n3 n4 =>
      refine .inr ⟨.inr ⟨.inr ⟨.inr ⟨⟨_, rfl, hg, h⟩, ?_⟩, ?_⟩, ?_⟩, ?_⟩
      · rintro _ ⟨⟨op, k, e⟩, rfl, _, k⟩
        exact n4 _ _ _ k
      · rintro _ ⟨⟨f, o⟩, rfl, _, k⟩
        exact n3 f o k
      · rintro _ ⟨f, rfl, _, k⟩
        exact n2 f k
      · rintro _ ⟨a, rfl, _, k⟩
        exact n1 a k

/-- C81, simple effects. -/
theorem C81_simple_effects (s : List Char) (v : PEffect) (r : List Char) :
    parsePEffect s = .ok v r ↔ ∃ g t, s = g ++ (t ++ r) ∧ PEffX g v t := pEffect_texts.iff s v r

theorem atomX_pEff {a : AtomicFormula Term} {t : List Char} (h : AtomX TermX TermEnds a t) :
    ∃ v, PEffX [] v t := by
  by_cases h1 : ∃ a, Wrapped c!"not" (AtomX TermX TermEnds) a t
  · exact ⟨_, .notAtomic .nil h1.choose_spec⟩
  by_cases h2 : ∃ f, UndefX f t
  · exact ⟨_, .undefined .nil h2.choose_spec⟩
  have n2 := fun f h => h2 ⟨f, h⟩
  by_cases h3 : ∃ f o, ObjectX f o t
  · obtain ⟨f, o, h3⟩ := h3
    exact ⟨_, .object .nil h3 n2⟩
  have n3 := fun f o h => h3 ⟨f, o, h⟩
  by_cases h4 : ∃ op k e, NumericX op k e t
  · obtain ⟨op, k, e, h4⟩ := h4
    exact ⟨_, .numeric gapC_nil h4 n2 n3⟩
  exact ⟨_, .atomic (AtomLead.nil a) h (fun a h => h1 ⟨a, h⟩) n2 n3 fun op k e h => h4 ⟨op, k, e, h⟩⟩

/-- Every atom is read in some way by a parser with all the texts of simple effects. -/
theorem FnRead.of_texts {p : P α} {X : List Char → α → List Char → Prop} (H : Texts p X) (hp : Par p)
    (h : ∀ {a t}, AtomX TermX TermEnds a t → ∃ v, X [] v t) (n : Nat) : FnRead p n :=
  ⟨fun f ts x _ hf => by
    obtain ⟨v, hv⟩ := h (termX_atom hf)
    exact ⟨v, H.run0 hv⟩, hp⟩

theorem pEffect_fnRead (n : Nat) : FnRead parsePEffect n := .of_texts pEffect_texts parsePEffect_par atomX_pEff n

theorem FnRead.list_calm {q : P α} {n : Nat} (H : FnRead q n) {kw : List Char} (hkw : IsWord kw)
    {a : AtomicFormula Term} {t : List Char} (h : AtomX TermX TermEnds a t) (ht : t.length ≤ n) (r : List Char) :
    OkErr (prefixExpr kw (spaceSeparatedList0 q) (t ++ r)) := by
  cases h with
  | equality =>
    simp only [paren_append, List.append_assoc, List.cons_append, List.nil_append]
    exact .inr (kw_equality hkw _)
  | @predicate g p t vs u hg hp hs hu =>
    have hl : u.length < n := by
      simp only [paren, List.length_cons, List.length_append, List.length_nil] at ht
      omega
    simp only [paren_append, List.append_assoc]
    by_cases e : g = [] ∧ t = kw
    · obtain ⟨rfl, rfl⟩ := e
      have := H.all t hs hl r
      by_cases hx : ∀ x ∈ vs, IsFn x
      · obtain ⟨v, hv⟩ := this.1 hx
        exact .inl ⟨_, _, hv⟩
      · exact .inr (this.2 hx)
    · exact .inr (kw_other hkw (.list0 H.par) hg hp.1 ((NoWord.close r).mpr hu) fun h1 h2 => e ⟨h1, h2⟩)

theorem FnRead.two_calm {q : P α} {q' : P β} {n : Nat} (H : FnRead q n) (H' : FnRead q' n) (hc : Ct q')
    {kw : List Char} (hkw : IsWord kw)
    {a : AtomicFormula Term} {t : List Char} (h : AtomX TermX TermEnds a t) (ht : t.length ≤ n) (r : List Char) :
    OkErr (prefixExpr kw (pair q (preceded multispace1 q')) (t ++ r)) := by
  cases h with
  | equality =>
    simp only [paren_append, List.append_assoc, List.cons_append, List.nil_append]
    exact .inr (kw_equality hkw _)
  | @predicate g p t vs u hg hp hs hu =>
    have hl : u.length < n := by
      simp only [paren, List.length_cons, List.length_append, List.length_nil] at ht
      omega
    simp only [paren_append, List.append_assoc]
    by_cases e : g = [] ∧ t = kw
    · obtain ⟨rfl, rfl⟩ := e
      have := H.two H' hc t hs hl r
      by_cases hx : ∃ x y, vs = [x, y] ∧ IsFn x ∧ IsFn y
      · obtain ⟨v, hv⟩ := this.1 hx
        exact .inl ⟨_, _, hv⟩
      · exact .inr (this.2 hx)
    · exact .inr (kw_other hkw (Par.pair H.par).nw hg hp.1 ((NoWord.close r).mpr hu) fun h1 h2 => e ⟨h1, h2⟩)

theorem AssignOpW.not_kw {op : AssignOp} {w : List Char} (h : AssignOpW op w) {kw : List Char}
    (hk : kw = c!"and" ∨ kw = c!"when" ∨ kw = c!"forall") : w ≠ kw := by
  rintro rfl
  rcases hk with rfl | rfl | rfl <;> cases h

/-- A simple effect that is no atom misses the keywords. -/
theorem PEffX.kw_miss {g : List Char} {v : PEffect} {t : List Char} (h : PEffX g v t) (hv : ∀ a, v ≠ .atomic a)
    {kw : List Char} (hk : kw = c!"and" ∨ kw = c!"when" ∨ kw = c!"forall") {p : P α} (hp : Nw p) (r : List Char) :
    prefixExpr kw p (t ++ r) = .err := by
  have hd : ∀ {kw'}, Head kw' t → (∀ x, stripPrefix kw (kw' ++ x) = none) → prefixExpr kw p (t ++ r) = .err := by
    rintro kw' ⟨u, rfl⟩ h
    exact Pddl.kw_miss h u r
  cases h with
  | notAtomic _ h => exact hd h.head (by rcases hk with rfl | rfl | rfl <;> exact fun _ => rfl)
  | undefined _ h => exact hd h.head (by rcases hk with rfl | rfl | rfl <;> exact fun _ => rfl)
  | object _ h => exact hd h.head (by rcases hk with rfl | rfl | rfl <;> exact fun _ => rfl)
  | numeric _ h =>
    obtain ⟨g, w, u, rfl, hg, hw, hu⟩ := h.head
    simp only [paren_append, List.append_assoc]
    refine kw_other ?_ hp hg hw.word ((NoWord.close r).mpr hu) fun _ => hw.not_kw hk
    rcases hk with rfl | rfl | rfl <;> exact isWord_of _ _ (by decide) (by decide)
  | atomic => exact absurd rfl (hv _)

/-! ## Conditional effects -/

theorem pEff_and_calm {q : P α} (H : ∀ n, FnRead q n) {g : List Char} {v : PEffect} {t : List Char}
    (h : PEffX g v t) (r : List Char) : OkErr (prefixExpr c!"and" (spaceSeparatedList0 q) (t ++ r)) := by
  by_cases hv : ∃ a, v = .atomic a
  · obtain ⟨a, rfl⟩ := hv
    cases h with
    | atomic _ h => exact (H _).list_calm isWord_and' h (Nat.le_refl _) r
  · exact .inr (h.kw_miss (fun a e => hv ⟨a, e⟩) (.inl rfl) (.list0 (H 0).par) r)

theorem condEffect_texts : Texts parseCondEffect CondX := by
  have T := ((pEffect_texts.listed (kw := c!"and") (.of_kw (by decide)) parsePEffect_par.close).map CondEffect.all).alt
    (pEffect_texts.map CondEffect.single).one
    (by
      rintro g v t ⟨e, rfl, h⟩ r
      rw [map_prefix_lead (pEffect_texts.gap h)]
      exact .map (pEff_and_calm pEffect_fnRead h r))
    (by
      rintro g v w t ⟨e, rfl, h⟩ ⟨es, e', _, k⟩
      exact ⟨es, e', pEffect_texts.gap h, k⟩)
  refine T.congr fun {g v t} => ⟨?_, ?_⟩
  · rintro (⟨es, rfl, hg, h⟩ | ⟨⟨e, rfl, h⟩, n⟩)
    · exact .all hg h
    · exact .single h fun es h => n _ ⟨es, rfl, .nil, h⟩
  · intro h
    cases h with
    | all hg h => exact .inl ⟨_, rfl, hg, h⟩
    | single h n => exact .inr ⟨⟨_, rfl, h⟩, fun w ⟨es, _, _, k⟩ => n es k⟩

/-- C81, the effects of a `when` and of timed effects. -/
theorem C81_conditional_effects (s : List Char) (v : CondEffect) (r : List Char) :
    parseCondEffect s = .ok v r ↔ ∃ g t, s = g ++ (t ++ r) ∧ CondX g v t := condEffect_texts.iff s v r

theorem atomX_cond {a : AtomicFormula Term} {t : List Char} (h : AtomX TermX TermEnds a t) :
    ∃ v, CondX [] v t := by
  obtain ⟨v, hv⟩ := atomX_pEff h
  by_cases h1 : ∃ es, Listed c!"and" (PEffX []) es t
  · exact ⟨_, .all .nil h1.choose_spec⟩
  · exact ⟨_, .single hv fun es h => h1 ⟨es, h⟩⟩

theorem condEffect_fnRead (n : Nat) : FnRead parseCondEffect n :=
  .of_texts condEffect_texts parseCondEffect_par atomX_cond n

/-! ## Effects -/

/-- The texts of effects without quantifier. -/
inductive WhenX : List Char → CEffect → List Char → Prop
  | when {g c e t} : Gap g → Paired c!"when" GDX (CondX []) c e t → WhenX g (.when c e) t
  | effect {g e t} : PEffX g e t → (∀ c e, ¬ Paired c!"when" GDX (CondX []) c e t) → WhenX g (.effect e) t

theorem when_texts : Texts (alt [
    map (fun x : GD × CondEffect => CEffect.when x.1 x.2) parseWhenCEffect, map CEffect.effect parsePEffect]) WhenX := by
  have T0 : Texts parseWhenCEffect (fun g v t => Gap g ∧ Paired c!"when" GDX (CondX []) v.1 v.2 t) :=
    (goal_texts.paired (.of_kw (by decide)) condEffect_texts parseCondEffect_ct).congr fun {g v t} =>
      ⟨fun h => ⟨h.1, h.2.imp (fun _ h => h.2) fun _ h => h⟩,
        fun h => ⟨h.1, h.2.imp (fun _ h => ⟨GoalLead.nil _, h⟩) fun _ h => h⟩⟩
  have T := (T0.map fun x : GD × CondEffect => CEffect.when x.1 x.2).alt
    (pEffect_texts.map CEffect.effect).one
    (by
      rintro g v t ⟨e, rfl, h⟩ r
      unfold parseWhenCEffect
      rw [map_prefix_lead (pEffect_texts.gap h)]
      refine .map ?_
      by_cases hv : ∃ a, e = .atomic a
      · obtain ⟨a, rfl⟩ := hv
        cases h with
        | atomic _ h =>
          exact (parseGd_fnRead _).two_calm (condEffect_fnRead _) parseCondEffect_ct isWord_when h (Nat.le_refl _) r
      · exact .inr (h.kw_miss (fun a e => hv ⟨a, e⟩) (.inr (.inl rfl)) (Par.pair parseGd_par).nw r))
    (by
      rintro g v w t ⟨e, rfl, h⟩ ⟨es, e', _, k⟩
      exact ⟨es, e', pEffect_texts.gap h, k⟩)
  refine T.congr fun {g v t} => ⟨?_, ?_⟩
  · rintro (⟨x, rfl, hg, h⟩ | ⟨⟨e, rfl, h⟩, n⟩)
    · exact .when hg h
    · exact .effect h fun c e h => n _ ⟨(c, e), rfl, .nil, h⟩
  · intro h
    cases h with
    | when hg h => exact .inl ⟨(_, _), rfl, hg, h⟩
    | effect h n => exact .inr ⟨⟨_, rfl, h⟩, fun w ⟨x, _, _, k⟩ => n _ _ k⟩

theorem WhenX.forall_miss {p : P β} {g : List Char} {v : CEffect} {t : List Char} (h : WhenX g v t) (r : List Char) :
    prefixExpr c!"forall" (pair parseVarList p) (t ++ r) = .err := by
  cases h with
  | when _ h =>
    obtain ⟨u, rfl⟩ := h.head
    exact Pddl.kw_miss (fun _ => rfl) u r
  | @effect e t h =>
    by_cases hv : ∃ a, e = .atomic a
    · obtain ⟨a, rfl⟩ := hv
      cases h with
      | atomic _ h => exact forall_atom h r
    · exact h.kw_miss (fun a e => hv ⟨a, e⟩) (.inr (.inr rfl)) (Par.pair parseVarList_par).nw r

/-- The texts of effects, where the effects under a quantifier are what `parse_effect` reads. -/
def CEffX1 (g : List Char) (v : CEffect) (t : List Char) : Prop :=
  (∃ vs es, v = .forall_ vs es ∧ Gap g ∧ Paired c!"forall" VarListX (Sem parseEffect []) vs es t) ∨ WhenX g v t

theorem effect_sem : Texts parseEffect (Sem parseEffect) :=
  .sem parseEffect_snd (fun _ _ h => h.form) C28_effects parseEffect_shed

theorem cEffect_texts1 : Texts parseCEffect CEffX1 := by
  have T0 := ((varList_texts.paired (kw := c!"forall") (.of_kw (by decide)) effect_sem parseEffect_ct).map
    fun x : TypedList Name × List CEffect => CEffect.forall_ x.1 x.2).alt_apart when_texts
    (by
      intro g v t h r
      rw [map_prefix_lead (when_texts.gap h)]
      exact map_err (h.forall_miss r))
  rw [parseCEffect_eq]
  refine T0.congr fun {g v t} => ⟨?_, ?_⟩
  · rintro (⟨⟨vs, es⟩, rfl, hg, h⟩ | h)
    · exact .inl ⟨vs, es, rfl, hg, h.imp (fun _ h => h.2) fun _ h => h⟩
    · exact .inr h
  · rintro (⟨vs, es, rfl, hg, h⟩ | h)
    · exact .inl ⟨(vs, es), rfl, hg, h.imp (fun _ h => ⟨gapC_nil, h⟩) fun _ h => h⟩
    · exact .inr h

theorem pEff_cEff {g : List Char} {e : PEffect} {t : List Char} (h : PEffX g e t) : ∃ v, CEffX1 g v t := by
  by_cases h1 : ∃ c e, Paired c!"when" GDX (CondX []) c e t
  · obtain ⟨c, e', h1⟩ := h1
    exact ⟨_, .inr (.when (pEffect_texts.gap h) h1)⟩
  · exact ⟨_, .inr (.effect h fun c e k => h1 ⟨c, e, k⟩)⟩

theorem cEffect_fnRead (n : Nat) : FnRead parseCEffect n :=
  .of_texts cEffect_texts1 parseCEffect_par (fun h => by
    obtain ⟨v, hv⟩ := atomX_pEff h
    exact pEff_cEff hv) n

theorem CEffX1.and_calm {g : List Char} {v : CEffect} {t : List Char} (h : CEffX1 g v t) (r : List Char) :
    OkErr (prefixExpr c!"and" (spaceSeparatedList0 parseCEffect) (t ++ r)) := by
  rcases h with ⟨vs, es, rfl, _, h⟩ | h
  · obtain ⟨u, rfl⟩ := h.head
    exact .inr (Pddl.kw_miss (fun _ => rfl) u r)
  · cases h with
    | when _ h =>
      obtain ⟨u, rfl⟩ := h.head
      exact .inr (Pddl.kw_miss (fun _ => rfl) u r)
    | effect h => exact pEff_and_calm cEffect_fnRead h r

theorem effect_texts1 : Texts parseEffect (fun g es t => (Gap g ∧ Listed c!"and" (CEffX1 []) es t) ∨
    ((∃ e, es = [e] ∧ CEffX1 g e t) ∧ ∀ es, ¬ Listed c!"and" (CEffX1 []) es t)) := by
  have T := (cEffect_texts1.listed (kw := c!"and") (.of_kw (by decide)) parseCEffect_par.close).alt
    (cEffect_texts1.map fun e => [e]).one
    (by
      rintro g v t ⟨e, rfl, h⟩ r
      rw [prefix_lead (cEffect_texts1.gap h)]
      exact h.and_calm r)
    (by
      rintro g v w t ⟨e, rfl, h⟩ ⟨_, k⟩
      exact ⟨cEffect_texts1.gap h, k⟩)
  refine T.congr fun {g v t} => ⟨?_, ?_⟩
  · rintro (h | ⟨h, n⟩)
    · exact .inl h
    · exact .inr ⟨h, fun es h => n es ⟨.nil, h⟩⟩
  · rintro (h | ⟨h, n⟩)
    · exact .inl h
    · exact .inr ⟨h, fun es h => n es h.2⟩

/-- A single effect that is a conjunction of effects is one of simple effects. -/
theorem and_same {g : List Char} {v : CEffect} {t : List Char} (h : CEffX1 g v t) :
    (∃ es, Listed c!"and" (CEffX1 []) es t) ↔ ∃ es, Listed c!"and" (PEffX []) es t := by
  constructor
  · rintro ⟨es, k⟩
    have hrun := (cEffect_texts1.listed (kw := c!"and") (.of_kw (by decide)) parseCEffect_par.close).run0
      ⟨Gap.nil, k⟩ []
    rcases h with ⟨vs, es, rfl, _, h⟩ | h
    · exact (k.head.differ h.head fun _ => rfl).elim
    · cases h with
      | when _ h => exact (k.head.differ h.head fun _ => rfl).elim
      | @effect e t h =>
        by_cases hv : ∃ a, e = .atomic a
        · obtain ⟨a, rfl⟩ := hv
          cases h with
          | atomic _ h =>
            have hk : ∃ vs r', prefixExpr c!"and" (spaceSeparatedList0 parsePEffect) (t ++ []) = .ok vs r' := by
              cases h with
              | equality =>
                simp only [paren_append, List.append_assoc, List.cons_append, List.nil_append] at hrun
                rw [kw_equality isWord_and'] at hrun
                cases hrun
              | @predicate g p t vs u hg hp hs hu =>
                simp only [paren_append, List.append_assoc] at hrun ⊢
                by_cases e : g = [] ∧ t = c!"and"
                · obtain ⟨rfl, rfl⟩ := e
                  by_cases hx : ∀ x ∈ vs, IsFn x
                  · obtain ⟨v, hv⟩ := ((pEffect_fnRead _).all c!"and" hs (Nat.lt_succ_self _) []).1 hx
                    exact ⟨v, _, hv⟩
                  · have := ((cEffect_fnRead _).all c!"and" hs (Nat.lt_succ_self _) []).2 hx
                    rw [List.nil_append] at hrun
                    rw [this] at hrun
                    cases hrun
                · rw [kw_other isWord_and' (.list0 parseCEffect_par) hg hp.1 ((NoWord.close []).mpr hu)
                    fun h1 h2 => e ⟨h1, h2⟩] at hrun
                  cases hrun
            obtain ⟨vs, r', hk⟩ := hk
            have := (pEffect_texts.listed (kw := c!"and") (.of_kw (by decide)) parsePEffect_par.close).inv
              (g := []) .nil (atom_texts.form (g := []) ⟨AtomLead.nil _, h⟩) hk
            exact ⟨vs, this.1.2⟩
        · rw [h.kw_miss (fun a e => hv ⟨a, e⟩) (.inl rfl) (.list0 parseCEffect_par) []] at hrun
          cases hrun
  · rintro ⟨es, u, rfl, k⟩
    obtain ⟨vs, hvs⟩ := k.choose fun _ k _ => k.choose fun _ _ k _ => pEff_cEff k
    exact ⟨vs, u, rfl, hvs⟩

theorem effX_aux (n : Nat) : (∀ g v t, t.length < n → (CEffX1 g v t ↔ CEffX g v t)) ∧
    ∀ g es t, t.length < n → (Sem parseEffect g es t ↔ EffX g es t) := by
  induction n with
  | zero => exact ⟨fun _ _ _ h => absurd h (Nat.not_lt_zero _), fun _ _ _ h => absurd h (Nat.not_lt_zero _)⟩
  | succ n ih =>
    have h1 : ∀ g v t, t.length < n + 1 → (CEffX1 g v t ↔ CEffX g v t) := by
      intro g v t hl
      constructor
      · rintro (⟨vs, es, rfl, hg, g1, x, g2, y, g3, rfl, hg1, ⟨w, rfl, hw⟩, hg2, he, hg3⟩ | h)
        · refine .forall_ hg hg1 hw hg2 ((ih.2 _ _ _ ?_).mp he) hg3
          simp only [paren, List.length_cons, List.length_append, List.length_nil] at hl
          omega
        · cases h with
          | when hg h => exact .when hg h
          | effect h n => exact .effect h n
      · intro h
        cases h with
        | forall_ hg hg1 hw hg2 he hg3 =>
          refine .inl ⟨_, _, rfl, hg, _, _, _, _, _, rfl, hg1, ⟨_, rfl, hw⟩, hg2, (ih.2 _ _ _ ?_).mpr he, hg3⟩
          simp only [paren, List.length_cons, List.length_append, List.length_nil] at hl
          omega
        | when hg h => exact .inr (.when hg h)
        | effect h n => exact .inr (.effect h n)
    refine ⟨h1, fun g es t hl => ?_⟩
    rw [effect_sem.eqv effect_texts1]
    constructor
    · rintro (⟨hg, u, rfl, h⟩ | ⟨⟨e, rfl, h⟩, hn⟩)
      · refine .and hg (h.mono fun w h hw => h.mono fun a x h hx => (ih.1 _ _ _ ?_).mp h)
        simp only [paren, List.length_cons, List.length_append, List.length_nil] at hl
        omega
      · exact .single ((h1 _ _ _ hl).mp h) fun es k =>
          have ⟨es', k'⟩ := (and_same h).mpr ⟨es, k⟩
          hn es' k'
    · intro h
      cases h with
      | and hg h =>
        refine .inl ⟨hg, _, rfl, h.mono fun w h hw => h.mono fun a x h hx => (ih.1 _ _ _ ?_).mpr h⟩
        simp only [paren, List.length_cons, List.length_append, List.length_nil] at hl
        omega
      | single h hn =>
        have h := (h1 _ _ _ hl).mpr h
        exact .inr ⟨⟨_, rfl, h⟩, fun es k =>
          have ⟨es', k'⟩ := (and_same h).mp ⟨es, k⟩
          hn es' k'⟩

theorem cEffect_texts : Texts parseCEffect CEffX :=
  cEffect_texts1.congr fun {g v t} => (effX_aux _).1 g v t (Nat.lt_succ_self _)

theorem effect_texts : Texts parseEffect EffX :=
  effect_sem.congr fun {g v t} => (effX_aux _).2 g v t (Nat.lt_succ_self _)

/-- C81, effects. -/
theorem C81_effects (s : List Char) (v : CEffect) (r : List Char) :
    parseCEffect s = .ok v r ↔ ∃ g t, s = g ++ (t ++ r) ∧ CEffX g v t := cEffect_texts.iff s v r

/-- C81, the effect of an action. -/
theorem C81_effect_lists (s : List Char) (v : List CEffect) (r : List Char) :
    parseEffect s = .ok v r ↔ ∃ g t, s = g ++ (t ++ r) ∧ EffX g v t := effect_texts.iff s v r

/-- A quantified conditional effect with layout that is not needed. -/
example : ∃ t, EffX [] [.forall_ [⟨Ex.nm c!"x", objectTy⟩]
      [.when (.atomic (.predicate (Ex.nm c!"p") [])) (.single (.notAtomic (.predicate (Ex.nm c!"q") [])))]] t ∧
    t = c!"(forall(?x) (when(p) (not(q))))" := by
  obtain ⟨g, t, e, h⟩ := (C81_effect_lists c!"(forall(?x) (when(p) (not(q))))" _ []).mp rfl
  have := solid_whole (solid_open _) e (effect_texts.gap h) (effect_texts.solid h)
  subst this
  exact ⟨_, effect_texts.base h, rfl⟩

/-- An assignment of an object, of a number, and of nothing; an atom whose name is `assign`. -/
example : (∃ f o, parsePEffect c!"(assign (f) x)" = .ok (.assignObject f (some o)) []) ∧
    (∃ o h e, parsePEffect c!"(assign f x)" = .ok (.assignNumeric o h e) []) ∧
    (∃ f, parsePEffect c!"(assign (f) undefined)" = .ok (.assignObject f none) []) ∧
    ∃ a, parsePEffect c!"(assign ?f x)" = .ok (.atomic a) [] :=
  ⟨⟨_, _, rfl⟩, ⟨_, _, _, rfl⟩, ⟨_, rfl⟩, _, rfl⟩

/-- A text that is an atom and a conditional effect is a conditional effect. -/
example : (∃ c e, parseCEffect c!"(when (p) (q))" = .ok (.when c e) []) ∧
    (∃ a, parseCEffect c!"(when (p) q)" = .ok (.effect (.atomic a)) []) ∧
    ∃ a, parseCEffect c!"( when (p) (q))" = .ok (.effect (.atomic a)) [] :=
  ⟨⟨_, _, rfl⟩, ⟨_, rfl⟩, _, rfl⟩

end Pddl
