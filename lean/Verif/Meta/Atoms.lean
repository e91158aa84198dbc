import Verif.Meta.Par
import Verif.Props.Ops

/-!
# Meta-theory: terms, atoms, fluents and numeric expressions are read back
-/

namespace Pddl

theorem Name.text_new (t : List Char) : (Name.new t).text = t := by
  unfold Name.new Name.mapToStatic
  split
  · rename_i u h
    split at h
    · rename_i h'; cases h; rw [h']; rfl
    · split at h
      · rename_i h'; cases h; rw [h']; rfl
      · cases h
  · rfl

theorem NameW.text {n : Name} {t : List Char} (h : NameW n t) : n.text = t := by
  rw [h.2, wordName_eq, Name.text_new]

/-! ## Terms -/

theorem parseTerm_err {c : Char} {s : List Char} (hs : Solid (c :: s)) (h1 : isAlpha c = false)
    (h2 : c ≠ '?') (h3 : c ≠ '(') : parseTerm (c :: s) = .err := by
  rw [parseTerm_eq, termBody]
  refine (ifOk_miss (parseVariable_err ?_)).trans ?_
  · intro r h; cases h; exact h2 rfl
  refine (ifOk_miss (parseName_err_cons hs h1)).trans ?_
  exact ifOk_miss (map_err (preceded_err (tag_err (stripPrefix_head (Ne.symm h3)))))

theorem parseTerm_close (s : List Char) : parseTerm (')' :: s) = .err :=
  parseTerm_err (solid_close s) (by decide) (by decide) (by decide)

theorem TermW.solid {m : Mode} {v : Term} {t : List Char} (h : TermW m v t) : Solid t := by
  cases h with
  | name h => exact h.solid
  | var h => exact h.solid
  | fn => exact solid_paren _

theorem parseVariable_word {t : List Char} (h : IsWord t) (r : List Char) :
    parseVariable (t ++ r) = .err := by
  obtain ⟨c, cs, rfl, hc, _⟩ := h
  refine parseVariable_err fun r h => ?_
  cases h
  exact absurd hc (by decide)

theorem parseVariable_open (r : List Char) : parseVariable ('(' :: r) = .err :=
  parseVariable_err fun _ h => by cases h

/-- `( name x1 .. xn )`, the body of a function term. -/
theorem functionTerm_run {p : P Term} {g t u : List Char} {n : Name} {as : List Term} (hg : Gap g)
    (hn : NameW n t) (h : Sec (Mode.word .strict) (Mode.tight .strict) (Items (Elem p)) as u)
    (hp : ∀ x, p (')' :: x) = .err) :
    Acc (functionTermOf p) Any ⟨n, as⟩ (paren (g ++ (t ++ u))) := by
  intro r _
  rw [paren_append]
  simp only [List.append_assoc]
  have h1 := parens_head_list hg hn h hp r
  have h2 : pair parseFunctionSymbol (spaceSeparatedList0 p) (g ++ (t ++ (u ++ ')' :: r))) =
      .ok (n, as) (')' :: r) := by
    rw [← h1]
    simp only [pair, parseFunctionSymbol, parseName_eq, skip_skip]
  exact map_run (a := (n, as)) ((preceded_run (tag_ok c!"(" _)).trans
    (terminated_run h2 (tag_ok c!")" r)))

theorem TermW.acc_aux (n : Nat) : ∀ v t, t.length ≤ n → TermW .strict v t → Acc parseTerm Stop v t := by
  induction n with
  | zero =>
    intro v t hn h
    obtain ⟨c, r, rfl, _⟩ := h.solid
    simp at hn
  | succ n ih =>
    intro v t hn h r hr
    rw [parseTerm_eq, termBody]
    cases h with
    | name h =>
      exact (ifOk_miss (parseVariable_word h.1 r)).trans (ifOk_hit (h.acc r hr))
    | var h => exact ifOk_hit (h.acc r hr)
    | @fn g f t ts u hg hf h =>
      refine (ifOk_miss ?_).trans ((ifOk_miss ?_).trans
        (ifOk_hit (functionTerm_run hg hf (h.mono fun t h hl => h.mono fun a t' h hl' => ?_)
          parseTerm_close r trivial)))
      · rw [paren_append]; exact parseVariable_open _
      · rw [paren_append]; exact parseName_open _
      · refine ⟨ih _ _ ?_ h, h.solid⟩
        simp only [paren, List.length_append, List.length_cons] at hn
        omega

theorem TermW.acc {v : Term} {t : List Char} (h : TermW .strict v t) : Acc parseTerm Stop v t :=
  TermW.acc_aux _ v t (Nat.le_refl _) h

theorem TermW.elem {v : Term} {t : List Char} (h : TermW .strict v t) : Elem parseTerm v t :=
  ⟨h.acc, h.solid⟩

theorem FnTermW.acc {f : FunctionTerm} {t : List Char} (h : FnTermW .strict f t) :
    Acc parseFunctionTerm Any f t := by
  cases h with
  | mk hg hf h =>
    exact functionTerm_run hg hf (h.mono fun t h _ => h.mono fun _ _ h _ => h.elem) parseTerm_close

theorem FnTermW.solid {m : Mode} {f : FunctionTerm} {t : List Char} (h : FnTermW m f t) : Solid t := by
  cases h; exact solid_paren _

/-! ## Atoms -/

theorem AtomW.mono {m : Mode} {R R' : α → List Char → Prop} {a t} (h : AtomW m R a t)
    (hR : ∀ a t', R a t' → t'.length ≤ t.length → R' a t') : AtomW m R' a t := by
  cases h with
  | equality h1 ha h2 hb h3 =>
    exact .equality h1 (hR _ _ ha (by simp only [paren, List.length_append, List.length_cons]; omega)) h2
      (hR _ _ hb (by simp only [paren, List.length_append, List.length_cons]; omega)) h3
  | predicate hg hp h =>
    exact .predicate hg hp (h.mono fun t h hl => h.mono fun a t h hl' => hR _ _ h (by
      simp only [paren, List.length_append, List.length_cons]; omega))

theorem AtomW.solid {m : Mode} {R : α → List Char → Prop} {a t} (h : AtomW m R a t) : Solid t := by
  cases h <;> exact solid_paren _

theorem Sec.stop {p : P α} {as : List α} {u : List Char}
    (h : Sec (Mode.word .strict) (Mode.tight .strict) (Items (Elem p)) as u) (x : List Char) :
    Stop (u ++ ')' :: x) := by
  cases h with
  | nil hg => exact .gap hg (.close x)
  | cons hg _ _ => simp only [List.append_assoc]; exact .sep hg _

/-- The first alternative of `atomic_formula`. -/
theorem eq_run {p : P α} {a b : α} {g1 t1 g2 t2 g3 : List Char} (hg1 : Gap g1)
    (h1 : Elem p a t1) (hg2 : Sep g2) (h2 : Elem p b t2) (hg3 : Gap g3) (r : List Char) :
    delimited (ws (tag c!"(=")) (pair (ws p) (ws p)) (ws (char ')'))
      ('(' :: '=' :: (g1 ++ (t1 ++ (g2 ++ (t2 ++ (g3 ++ ')' :: r)))))) = .ok (a, b) r := by
  have e0 : ws (tag c!"(=") ('(' :: '=' :: (g1 ++ (t1 ++ (g2 ++ (t2 ++ (g3 ++ ')' :: r)))))) =
      .ok c!"(=" (g1 ++ (t1 ++ (g2 ++ (t2 ++ (g3 ++ ')' :: r))))) := by
    rw [ws_eq, (solid_open _).skip]
    exact tag_ok c!"(=" _
  refine (preceded_run e0).trans (terminated_run (pair_run (r := g2 ++ (t2 ++ (g3 ++ ')' :: r)))
    ?_ (r' := g3 ++ ')' :: r) ?_) (b := ')') ?_)
  · rw [ws_eq, hg1.skip_solid (h1.2.append _)]
    exact h1.1 _ (.sep hg2 _)
  · rw [ws_eq, hg2.gap.skip_solid (h2.2.append _)]
    exact h2.1 _ (.gap hg3 (.close r))
  · rw [ws_eq, hg3.skip_solid (solid_close r)]
    simp [char]

/-- The first alternative of `atomic_formula` rejects every form that does not begin with `(=`. -/
theorem eq_miss {p : P α} {x : List Char} (h : ∀ y, x ≠ '=' :: y) :
    delimited (ws (tag c!"(=")) (pair (ws p) (ws p)) (ws (char ')')) ('(' :: x) = .err := by
  refine preceded_err ?_
  rw [ws_eq, (solid_open x).skip]
  refine tag_err ?_
  cases x with
  | nil => rfl
  | cons c x =>
    have : ¬ '=' = c := fun hc => h x (by rw [hc])
    simp [stripPrefix, this]

theorem gap_word_ne {g t : List Char} (hg : Gap g) (ht : IsWord t) (x : List Char) {k : Char}
    (h1 : isSpace k = false) (h2 : k ≠ ';') (h3 : isAlpha k = false) (y : List Char) :
    g ++ (t ++ x) ≠ k :: y := by
  intro h
  have := stripPrefix_gap_word (ks := []) hg ht x h1 h2 h3
  rw [h] at this
  simp [stripPrefix] at this

theorem AtomW.acc {p : P α} {a : AtomicFormula α} {t : List Char} (h : AtomW .strict (Elem p) a t)
    (hp : ∀ x, p (')' :: x) = .err) : Acc (atomicFormula p) Any a t := by
  intro r _
  rw [atomicFormula]
  cases h with
  | equality hg1 h1 hg2 h2 hg3 =>
    simp only [paren_append, List.append_assoc]
    exact alt_hit (map_run (a := (_, _)) (eq_run hg1 h1 hg2 h2 hg3 r))
  | @predicate g n t vs u hg hn h =>
    simp only [paren_append, List.append_assoc]
    rw [alt_miss (map_err (eq_miss (gap_word_ne hg hn.1 _ (by decide) (by decide) (by decide))))]
    refine alt_hit (map_run (a := (n, vs)) (parens_run ?_))
    have e : ws (spaceSeparatedList0 p) = spaceSeparatedList0 p := ws_ws _
    rw [e]
    exact parens_head_list hg hn h hp r

theorem AtomW.acc_term {a : AtomicFormula Term} {t : List Char}
    (h : AtomW .strict (TermW .strict) a t) : Acc (atomicFormula parseTerm) Any a t :=
  (h.mono fun _ _ h _ => h.elem).acc parseTerm_close

theorem AtomW.acc_name {a : AtomicFormula Name} {t : List Char}
    (h : AtomW .strict NameW a t) : Acc (atomicFormula parseName) Any a t :=
  (h.mono fun _ _ h _ => h.elem).acc parseName_close

/-- A keyword form rejects an atom with another head. -/
theorem AtomW.miss {p : P β} {kw : List Char} {R : α → List Char → Prop} {a : AtomicFormula α}
    {t : List Char} (hkw : IsWord kw) (hp : Nw p) (h : AtomW .strict R a t) (hne : a.headNot [kw])
    (r : List Char) : prefixExpr kw p (t ++ r) = .err := by
  cases h with
  | equality =>
    obtain ⟨k, ks, rfl, hk, _⟩ := hkw
    simp only [paren_append, List.append_assoc]
    refine prefixExpr_kw (stripPrefix_head ?_)
    rintro rfl
    exact absurd hk (by decide)
  | @predicate g n t vs u hg hn h =>
    simp only [paren_append, List.append_assoc]
    refine prefix_word hkw hp hg hn.1 ?_ ?_
    · cases h with
      | nil hg => exact .gap hg (.close r)
      | cons hg _ _ => simp only [List.append_assoc]; exact .sep hg _
    · rintro rfl
      simp [AtomicFormula.headNot, hn.text] at hne

theorem AtomicFormula.headNot.of {ws : List (List Char)} {a : AtomicFormula α} (h : a.headNot ws)
    {kw : List Char} (hk : kw ∈ ws) : a.headNot [kw] := by
  cases a with
  | equality => trivial
  | predicate p vs =>
    simp only [headNot, List.mem_singleton] at h ⊢
    rintro rfl; exact h hk

theorem LiteralW.solid {m : Mode} {l : Literal Name} {t : List Char} (h : LiteralW m l t) : Solid t := by
  cases h with
  | neg => exact solid_paren _
  | pos h => exact h.solid

theorem isWord_of (c : Char) (cs : List Char) (hc : isAlpha c = true)
    (h : cs.all isWordChar = true) : IsWord (c :: cs) :=
  ⟨c, cs, rfl, hc, List.all_eq_true.mp h⟩

theorem isWord_not : IsWord c!"not" := isWord_of _ _ (by decide) (by decide)

/-- `not` before an atom: the negation alternative comes first, and fails on every atom: also on an
atom with predicate `not`, whose first argument is not a parenthesised form. -/
theorem not_miss {p : P α} {a : AtomicFormula Name} {t : List Char}
    (h : AtomW .strict NameW a t) (r : List Char) :
    prefixExpr c!"not" (atomicFormula p) (t ++ r) = .err := by
  by_cases hne : a.headNot [c!"not"]
  · exact h.miss isWord_not Par.atomicFormula.nw hne r
  · cases h with
    | equality => exact absurd trivial hne
    | @predicate g n t vs u hg hn h =>
      have ht : t = c!"not" := by
        refine Classical.byContradiction fun ht => hne ?_
        simp [AtomicFormula.headNot, hn.text, ht]
      subst ht
      simp only [paren_append, List.append_assoc]
      cases hg with
      | nil =>
        refine prefixExpr_body_err ?_
        cases h with
        | nil hg =>
          rw [hg.skip_solid (solid_close r)]
          exact Par.atomicFormula _ _ (by decide) (by decide) (by decide)
        | @cons g xs t g' hg h hg' =>
          have hgap := Mode.word.gap hg
          simp only [List.append_assoc]
          have hsol : ∀ x, ∃ c s, t ++ x = c :: s ∧ isAlpha c = true := by
            intro x
            cases h with
            | one h => obtain ⟨c, cs, rfl, hc, _⟩ := h.1; exact ⟨c, _, rfl, hc⟩
            | cons h => obtain ⟨c, cs, rfl, hc, _⟩ := h.1; exact ⟨c, _, rfl, hc⟩
          obtain ⟨c, s, hs, hc⟩ := hsol (g' ++ ')' :: r)
          have h1 := isAlpha_solid hc
          rw [hs, hgap.skip_solid (.cons h1.1 h1.2 s)]
          exact Par.atomicFormula _ _ (by rintro rfl; exact absurd hc (by decide)) h1.2 h1.1
      | space hc => exact prefixExpr_kw (stripPrefix_head (not_space hc 'n' rfl))
      | comment => exact prefixExpr_kw (stripPrefix_head (by decide))

theorem LiteralW.acc {l : Literal Name} {t : List Char} (h : LiteralW .strict l t) :
    Acc (literal parseName) Any l t := by
  intro r _
  rw [literal]
  cases h with
  | neg hg h hg' =>
    exact alt_hit (map_run (prefix_one hg (h.acc_name.mono fun _ _ => trivial) h.solid hg' r trivial))
  | pos h =>
    rw [alt_miss (map_err (not_miss h r))]
    exact alt_hit (map_run (h.acc_name r trivial))

theorem LiteralW.elem {l : Literal Name} {t : List Char} (h : LiteralW .strict l t) :
    Elem (literal parseName) l t := ⟨h.acc.mono fun _ _ => trivial, h.solid⟩

/-! ## Function terms and fluents -/

theorem parseFunctionSymbol_open (s : List Char) : parseFunctionSymbol ('(' :: s) = .err :=
  parseName_open s

theorem BasicW.solid {m : Mode} {f : BasicFunctionTerm} {t : List Char} (h : BasicW m f t) :
    Solid t := by
  cases h with
  | bare h => exact h.solid
  | app => exact solid_paren _

theorem BasicW.acc {f : BasicFunctionTerm} {t : List Char} (h : BasicW .strict f t) :
    Acc parseBasicFunctionTerm Stop f t := by
  intro r hr
  rw [parseBasicFunctionTerm]
  cases h with
  | bare h => exact alt_hit (map_run (h.acc r hr))
  | @app g f t ns u hg hf h =>
    simp only [paren_append, List.append_assoc]
    rw [alt_miss (map_err (parseFunctionSymbol_open _))]
    refine alt_hit (map_run (a := (f, ns)) (parens_run ?_))
    have e : ws (spaceSeparatedList0 parseName) = spaceSeparatedList0 parseName := ws_ws _
    rw [e]
    exact parens_head_list hg hf (h.mono fun t h _ => h.mono fun _ _ h _ => h.elem) parseName_close r

theorem FHeadW.solid {m : Mode} {h : FHead} {t : List Char} (H : FHeadW m h t) : Solid t := by
  cases H with
  | bare h => exact h.solid
  | simple => exact solid_paren _
  | terms => exact solid_paren _

theorem FHeadW.acc {h : FHead} {t : List Char} (H : FHeadW .strict h t) : Acc parseFHead Stop h t := by
  intro r hr
  rw [parseFHead]
  cases H with
  | bare h => exact alt_hit (map_run (h.acc r hr))
  | @simple g f t g' hg hf hg' =>
    cases (show g' = [] from hg')
    simp only [paren_append, List.append_assoc, List.nil_append]
    rw [alt_miss (map_err (parseFunctionSymbol_open _))]
    refine alt_hit (map_run (parens_run ?_))
    rw [hg.skip_solid (hf.solid.append _)]
    exact hf.acc _ (.close r)
  | @terms g f t ts u hg hf h hne =>
    have hne := hne rfl
    simp only [paren_append, List.append_assoc]
    rw [alt_miss (map_err (parseFunctionSymbol_open _))]
    cases h with
    | nil => exact absurd rfl hne
    | @cons g1 xs t1 g1' hg1 h hg1' =>
      cases (show g1' = [] from hg1')
      have h' : Items (Elem parseTerm) ts t1 := h.mono fun _ _ h _ => h.elem
      simp only [List.append_assoc, List.nil_append, List.append_nil]
      have hname : parseFunctionSymbol (skip (g ++ (t ++ (g1 ++ (t1 ++ ')' :: r))))) =
          .ok f (g1 ++ (t1 ++ ')' :: r)) := by
        rw [hg.skip_solid (hf.solid.append _)]
        exact hf.acc _ (.sep hg1 _)
      rw [alt_miss (map_err (parens_tail hname ?_))]
      · refine alt_hit (map_run (a := (f, ts)) (parens_run (pair_run hname ?_)))
        rw [pms1_sep Ct.spaceSeparatedList0 hg1 (h'.solid.append _)]
        have := list0_items h' (g := []) .nil (.close r)
          (by rw [(solid_close r).skip]; exact parseTerm_close r)
        simpa using this
      · intro x hx
        obtain ⟨c, y, rfl, hc⟩ := sep_head hg1
        cases hx
        exact absurd hc (by decide)

theorem FHeadW.head {m : Mode} {h : FHead} {t : List Char} (H : FHeadW m h t) :
    ∃ c y, t = c :: y ∧ (c = '(' ∨ isAlpha c = true) := by
  cases H with
  | bare h => obtain ⟨c, cs, rfl, hc, _⟩ := h.1; exact ⟨c, cs, rfl, .inr hc⟩
  | simple => exact ⟨_, _, rfl, .inl rfl⟩
  | terms => exact ⟨_, _, rfl, .inl rfl⟩

end Pddl
