import Verif.Meta.NumExp

/-!
# Meta-theory: goals and trajectory constraints are read back
-/

namespace Pddl

/-- A keyword form rejects a form with another keyword. -/
theorem kw_miss {kw kw' : List Char} {p : P α} (h : ∀ x, stripPrefix kw (kw' ++ x) = none)
    (u r : List Char) : prefixExpr kw p (paren (kw' ++ u) ++ r) = .err := by
  simp only [paren_append, List.append_assoc]
  exact prefixExpr_kw (h _)

/-- A parser of parenthesised forms rejects `)`. -/
theorem Par.close {p : P α} (h : Par p) (s : List Char) : p (')' :: s) = .err :=
  h _ _ (by decide) (by decide) (by decide)

theorem isWord_and : IsWord c!"and" := isWord_of _ _ (by decide) (by decide)
theorem isWord_or : IsWord c!"or" := isWord_of _ _ (by decide) (by decide)
theorem isWord_imply : IsWord c!"imply" := isWord_of _ _ (by decide) (by decide)
theorem isWord_exists : IsWord c!"exists" := isWord_of _ _ (by decide) (by decide)
theorem isWord_forall : IsWord c!"forall" := isWord_of _ _ (by decide) (by decide)
theorem isWord_preference : IsWord c!"preference" := isWord_of _ _ (by decide) (by decide)

/-! ## Goals -/

theorem GDW.solid {m : Mode} {g : GD} {t : List Char} (h : GDW m g t) : Solid t := by
  cases h with
  | atomic h => exact h.solid
  | fComp h => exact h.solid
  | _ => exact solid_paren _

theorem GDW.acc_aux (n : Nat) : ∀ g t, t.length ≤ n → GDW .strict g t → Acc parseGd Any g t := by
  induction n with
  | zero =>
    intro v t hn h
    obtain ⟨c, r, rfl, _⟩ := h.solid
    simp at hn
  | succ n ih =>
    have el : ∀ e t, t.length ≤ n → GDW .strict e t → Elem parseGd e t :=
      fun e t hl h => ⟨(ih e t hl h).mono fun _ _ => trivial, h.solid⟩
    have els : ∀ {es : List GD} {u : List Char}, u.length ≤ n → Sec Gap Gap (Items (GDW .strict)) es u →
        Sec Gap Gap (Items (Elem parseGd)) es u := fun hl h =>
      h.mono fun t h hl1 => h.mono fun a t' h hl2 => el a t' (by omega) h
    have hpc := parseGd_par.close
    intro v t hn h r hr
    rw [parseGd_eq, gdBody]
    cases h with
    | and h =>
      simp only [paren, List.length_append, List.length_cons] at hn
      exact alt_hit (map_run (prefix_list0 (els (by omega) h) (fun _ h => h) hpc r trivial))
    | or h =>
      simp only [paren, List.length_append, List.length_cons] at hn
      rw [alt_miss (map_err (kw_miss (fun _ => rfl) _ r))]
      exact alt_hit (map_run (prefix_list0 (els (by omega) h) (fun _ h => h) hpc r trivial))
    | @not g1 g t g2 hg1 h hg2 =>
      simp only [paren, List.length_append, List.length_cons] at hn
      have h := el _ t (by omega) h
      rw [alt_miss (map_err (kw_miss (fun _ => rfl) _ r)),
        alt_miss (map_err (kw_miss (fun _ => rfl) _ r))]
      exact alt_hit (map_run (prefix_one hg1 h.1 h.2 hg2 r trivial))
    | @imply g1 a t1 g2 b t2 g3 hg1 ha hg2 hb hg3 =>
      simp only [paren, List.length_append, List.length_cons] at hn
      have ha := el _ t1 (by omega) ha
      have hb := el _ t2 (by omega) hb
      rw [alt_miss (map_err (kw_miss (fun _ => rfl) _ r)),
        alt_miss (map_err (kw_miss (fun _ => rfl) _ r)),
        alt_miss (map_err (kw_miss (fun _ => rfl) _ r))]
      exact alt_hit (map_run (a := (a, b))
        (prefix_two hg1 ha.1 ha.2 hg2 parseGd_ct hb.1 hb.2 hg3 r trivial))
    | @exist g1 vs t1 g2 g t2 g3 hg1 hv hg2 hb hg3 =>
      simp only [paren, List.length_append, List.length_cons] at hn
      have hb := el _ t2 (by omega) hb
      rw [alt_miss (map_err (kw_miss (fun _ => rfl) _ r)),
        alt_miss (map_err (kw_miss (fun _ => rfl) _ r)),
        alt_miss (map_err (kw_miss (fun _ => rfl) _ r)),
        alt_miss (map_err (kw_miss (fun _ => rfl) _ r))]
      exact alt_hit (map_run (a := (vs, g)) (prefix_two hg1 (hv.acc.mono fun _ _ => trivial)
        hv.solid hg2 parseGd_ct hb.1 hb.2 hg3 r trivial))
    | @forall_ g1 vs t1 g2 g t2 g3 hg1 hv hg2 hb hg3 =>
      simp only [paren, List.length_append, List.length_cons] at hn
      have hb := el _ t2 (by omega) hb
      rw [alt_miss (map_err (kw_miss (fun _ => rfl) _ r)),
        alt_miss (map_err (kw_miss (fun _ => rfl) _ r)),
        alt_miss (map_err (kw_miss (fun _ => rfl) _ r)),
        alt_miss (map_err (kw_miss (fun _ => rfl) _ r)),
        alt_miss (map_err (kw_miss (fun _ => rfl) _ r))]
      exact alt_hit (map_run (a := (vs, g)) (prefix_two hg1 (hv.acc.mono fun _ _ => trivial)
        hv.solid hg2 parseGd_ct hb.1 hb.2 hg3 r trivial))
    | atomic h hq =>
      have hq := hq rfl
      rw [alt_miss (map_err (h.miss isWord_and (.list0 parseGd_par) (hq.of (by decide)) r)),
        alt_miss (map_err (h.miss isWord_or (.list0 parseGd_par) (hq.of (by decide)) r)),
        alt_miss (map_err (h.miss isWord_not parseGd_par.nw (hq.of (by decide)) r)),
        alt_miss (map_err (h.miss isWord_imply (Par.pair parseGd_par).nw (hq.of (by decide)) r)),
        alt_miss (map_err (h.miss isWord_exists (Par.pair parseVarList_par).nw (hq.of (by decide)) r)),
        alt_miss (map_err (h.miss isWord_forall (Par.pair parseVarList_par).nw (hq.of (by decide)) r))]
      exact alt_hit (map_run (h.acc_term r trivial))
    | fComp h hq =>
      have ha := h.no_atom (hq rfl) r
      have hl : literal parseTerm (t ++ r) = .err := by
        rw [literal, alt_miss (map_err (h.kw_miss isWord_not r)), alt_miss (map_err ha), alt_nil]
      rw [alt_miss (map_err (h.kw_miss isWord_and r)),
        alt_miss (map_err (h.kw_miss isWord_or r)), alt_miss (map_err (h.kw_miss isWord_not r)),
        alt_miss (map_err (h.kw_miss isWord_imply r)), alt_miss (map_err (h.kw_miss isWord_exists r)),
        alt_miss (map_err (h.kw_miss isWord_forall r)), alt_miss (map_err ha), alt_miss (map_err hl)]
      exact alt_hit (map_run (h.acc r trivial))

theorem GDW.acc {g : GD} {t : List Char} (h : GDW .strict g t) : Acc parseGd Any g t :=
  GDW.acc_aux _ g t (Nat.le_refl _) h

theorem GDW.elem {g : GD} {t : List Char} (h : GDW .strict g t) : Elem parseGd g t :=
  ⟨h.acc.mono fun _ _ => trivial, h.solid⟩

theorem VarsW.elem {vs : TypedList Name} {t : List Char} (h : VarsW .strict vs t) :
    Elem parseVarList vs t := ⟨h.acc.mono fun _ _ => trivial, h.solid⟩

/-- Goals begin with no other keyword. -/
theorem GDW.kw_miss {g : GD} {t kw : List Char} {p : P α} (h : GDW .strict g t)
    (hkw : IsWord kw) (hp : Nw p) (hg : ∀ w ∈ goalWords, ∀ x, stripPrefix kw (w ++ x) = none)
    (ha : ∀ a, g = .atomic a → a.headNot [kw]) (r : List Char) : prefixExpr kw p (t ++ r) = .err := by
  cases h with
  | and => exact Pddl.kw_miss (hg _ (by decide)) _ r
  | or => exact Pddl.kw_miss (hg _ (by decide)) _ r
  | not => exact Pddl.kw_miss (hg _ (by decide)) _ r
  | imply => exact Pddl.kw_miss (hg _ (by decide)) _ r
  | exist => exact Pddl.kw_miss (hg _ (by decide)) _ r
  | forall_ => exact Pddl.kw_miss (hg _ (by decide)) _ r
  | atomic h _ => exact h.miss hkw hp (ha _ rfl) r
  | fComp h _ => exact h.kw_miss hkw r

/-! ## Preferences -/

theorem PrefGDW.solid {m : Mode} {g : PrefGD} {t : List Char} (h : PrefGDW m g t) : Solid t := by
  cases h with
  | goal h => exact h.solid
  | _ => exact solid_paren _

theorem opt_name {n : Name} {t : List Char} (h : NameW n t) : Acc (opt parseName) Stop (some n) t :=
  fun r hr => opt_run (h.acc r hr)

/-- A parenthesised form in the place of an optional name and a form after spaces. -/
theorem opt_name_miss {p : P α} {g t x kw : List Char} (hg : Gap g) (ht : ∃ y, t = '(' :: y) (r : List Char) :
    prefixExpr kw (pair (opt parsePrefName) (preceded multispace1 p)) (paren (kw ++ (g ++ (t ++ x))) ++ r)
      = .err := by
  obtain ⟨y, rfl⟩ := ht
  simp only [paren_append, List.append_assoc, List.cons_append]
  refine prefixExpr_body_err ?_
  rw [hg.skip_solid (solid_open _)]
  have : opt parsePrefName ('(' :: (y ++ (x ++ ')' :: r))) = .ok none ('(' :: (y ++ (x ++ ')' :: r))) :=
    opt_err (parseName_open _)
  exact pair_err2 this (preceded_err (ms1_solid (solid_open _)))

theorem GDW.open {m : Mode} {g : GD} {t : List Char} (h : GDW m g t) : ∃ y, t = '(' :: y := by
  cases h with
  | atomic h _ => cases h <;> exact ⟨_, rfl⟩
  | fComp h _ => cases h; exact ⟨_, rfl⟩
  | _ => exact ⟨_, rfl⟩

theorem GDW.pref_miss {g : GD} {t : List Char} {p : P α} (h : GDW .strict g t) (hq : g.notPreference)
    (r : List Char) : prefixExpr c!"preference" p (t ++ r) = .err := by
  cases h with
  | atomic h _ =>
    cases h with
    | equality =>
      simp only [paren_append, List.append_assoc]
      exact prefixExpr_kw (by rfl)
    | @predicate g n t vs u hg hn h =>
      simp only [paren_append, List.append_assoc]
      refine prefixExpr_kw ?_
      cases hg with
      | nil =>
        rw [List.nil_append]
        refine stripPrefix_word isWord_preference hn.1 ?_ ?_
        · cases h with
          | nil hg => exact .gap hg (.close r)
          | cons hg _ _ => simp only [List.append_assoc]; exact .sep hg _
        · intro x hx
          exact hq x (by rw [hn.text, hx])
      | space hc => exact stripPrefix_head (not_space hc 'p' rfl)
      | comment => exact stripPrefix_head (by decide)
  | fComp h _ => exact h.kw_miss isWord_preference r
  | _ => exact Pddl.kw_miss (fun _ => rfl) _ r

theorem PrefGDW.acc {g : PrefGD} {t : List Char} (h : PrefGDW .strict g t) : Acc parsePrefGd Any g t := by
  intro r _
  rw [parsePrefGd]
  cases h with
  | goal h hq =>
    rw [alt_miss (map_err (h.pref_miss (hq rfl) r)), alt_miss (map_err (h.pref_miss (hq rfl) r))]
    exact alt_hit (map_run (h.acc r trivial))
  | @named g1 n tn g2 g t g3 hg1 hn hg2 h hg3 =>
    exact alt_hit (map_run (a := (some n, g)) (prefix_two (Mode.word.gap hg1) (opt_name hn) hn.solid hg2
      parseGd_ct h.elem.1 h.solid hg3 r trivial))
  | anonymous hg1 h hg2 =>
    rw [alt_miss (map_err (opt_name_miss hg1 h.open r))]
    exact alt_hit (map_run (prefix_one hg1 h.elem.1 h.solid hg2 r trivial))

theorem PreGDW.solid {m : Mode} {g : List PreGD} {t : List Char} (h : PreGDW m g t) : Solid t := by
  cases h with
  | pref h => exact h.solid
  | _ => exact solid_paren _

theorem PrefGDW.pre_miss {g : PrefGD} {t : List Char} {p : P α} (h : PrefGDW .strict g t)
    (hq : g.notPre) (hp : Nw p) (r : List Char) :
    prefixExpr c!"and" p (t ++ r) = .err ∧ prefixExpr c!"forall" p (t ++ r) = .err := by
  cases h with
  | goal h _ =>
    cases h with
    | and => exact hq.elim
    | forall_ => exact hq.elim
    | atomic h hw =>
      exact ⟨h.miss isWord_and hp ((hw rfl).of (by decide)) r,
        h.miss isWord_forall hp ((hw rfl).of (by decide)) r⟩
    | fComp h _ => exact ⟨h.kw_miss isWord_and r, h.kw_miss isWord_forall r⟩
    | _ => exact ⟨Pddl.kw_miss (fun _ => rfl) _ r, Pddl.kw_miss (fun _ => rfl) _ r⟩
  | _ => exact ⟨Pddl.kw_miss (fun _ => rfl) _ r, Pddl.kw_miss (fun _ => rfl) _ r⟩

theorem PreGDW.acc_aux (n : Nat) :
    ∀ g t, t.length ≤ n → PreGDW .strict g t → Acc parsePreGd Any g t := by
  induction n with
  | zero =>
    intro v t hn h
    obtain ⟨c, r, rfl, _⟩ := h.solid
    simp at hn
  | succ n ih =>
    have el : ∀ e t, t.length ≤ n → PreGDW .strict e t → Elem parsePreGd e t :=
      fun e t hl h => ⟨(ih e t hl h).mono fun _ _ => trivial, h.solid⟩
    have els : ∀ {es : List (List PreGD)} {u : List Char}, u.length ≤ n →
        Sec Gap Gap (Items (PreGDW .strict)) es u →
        Sec Gap Gap (Items (Elem parsePreGd)) es u := fun hl h =>
      h.mono fun t h hl1 => h.mono fun a t' h hl2 => el a t' (by omega) h
    intro v t hn h r hr
    rw [parsePreGd_eq, preGdBody]
    cases h with
    | @forall_ g1 vs t1 g2 g t2 g3 hg1 hv hg2 hb hg3 =>
      simp only [paren, List.length_append, List.length_cons] at hn
      have hb := el _ t2 (by omega) hb
      exact alt_hit (map_run (a := (vs, g)) (prefix_two hg1 hv.elem.1
        hv.solid hg2 parsePreGd_ct hb.1 hb.2 hg3 r trivial))
    | and h =>
      simp only [paren, List.length_append, List.length_cons] at hn
      rw [alt_miss (map_err (kw_miss (fun _ => rfl) _ r))]
      exact alt_hit (map_run (prefix_list0 (els (by omega) h) (fun _ h => h) parsePreGd_par.close r
        trivial))
    | pref h hq =>
      rw [alt_miss (map_err (h.pre_miss (hq rfl) (Par.pair parseVarList_par).nw r).2),
        alt_miss (map_err (h.pre_miss (hq rfl) (.list0 parsePreGd_par) r).1)]
      exact alt_hit (map_run (h.acc r trivial))

theorem PreGDW.acc {g : List PreGD} {t : List Char} (h : PreGDW .strict g t) :
    Acc parsePreGd Any g t := PreGDW.acc_aux _ g t (Nat.le_refl _) h

theorem PreGDW.elem {g : List PreGD} {t : List Char} (h : PreGDW .strict g t) :
    Elem parsePreGd g t := ⟨h.acc.mono fun _ _ => trivial, h.solid⟩

/-! ## Trajectory constraints -/

/-- A form whose first argument is a number is no goal. -/
theorem gd_num_miss {kw g tn x : List Char} {n : Number} (hkw : IsWord kw) (hne : kw ∉ goalWords)
    (hg : Sep g) (hn : NumW n tn) (r : List Char) :
    parseGd (paren (kw ++ (g ++ (tn ++ x))) ++ r) = .err := by
  simp only [paren_append, List.append_assoc]
  have km : ∀ {α} {w : List Char} {p : P α}, IsWord w → w ∈ goalWords → Nw p →
      prefixExpr w p ('(' :: (kw ++ (g ++ (tn ++ (x ++ ')' :: r))))) = .err := by
    intro α w p hw hmem hp
    have := prefix_word hw hp (g := []) .nil hkw (.sep hg (tn ++ (x ++ ')' :: r)))
      (by rintro rfl; exact hne hmem)
    simpa using this
  obtain ⟨d, ds, htn, hd⟩ := hn.head
  have hterm : parseTerm (tn ++ (x ++ ')' :: r)) = .err :=
    (FExpW.number (m := .strict) hn).no_term id _
  have hsk : skip (kw ++ (g ++ (tn ++ (x ++ ')' :: r)))) = kw ++ (g ++ (tn ++ (x ++ ')' :: r))) :=
    (hkw.solid.append _).skip
  have hname : parseName (kw ++ (g ++ (tn ++ (x ++ ')' :: r)))) =
      .ok (Name.new kw) (g ++ (tn ++ (x ++ ')' :: r))) :=
    NameW.acc (.of_word hkw) _ (.sep hg _)
  have hk := hg.gap.skip_solid (hn.solid.append (x ++ ')' :: r))
  have hatom : atomicFormula parseTerm ('(' :: (kw ++ (g ++ (tn ++ (x ++ ')' :: r))))) = .err := by
    rw [atomicFormula, alt_miss (map_err (eq_miss ?_))]
    · rw [alt_miss (map_err (parens_tail (v := (Name.new kw, [])) (y := tn ++ (x ++ ')' :: r)) ?_ ?_)),
        alt_nil]
      · rw [hsk]
        refine pair_run hname ?_
        rw [ws_eq, list0_skip, list0_nil (by rw [hk, hterm]), hk]
      · intro y hy
        rw [htn] at hy
        cases hy
        exact absurd hd (by decide)
    · obtain ⟨c, cs, rfl, hc, _⟩ := hkw
      intro y hy
      cases hy
      exact absurd hc (by decide)
  have hcomp : parseFComp ('(' :: (kw ++ (g ++ (tn ++ (x ++ ')' :: r))))) = .err := by
    refine map_err (parens_err (pair_err ?_))
    rw [hsk]
    obtain ⟨c, cs, rfl, hc, _⟩ := hkw
    refine mapExpect_err ?_
    have : ∀ k ks, isAlpha k = false → tag (k :: ks) (c :: cs ++ (g ++ (tn ++ (x ++ ')' :: r)))) = .err :=
      fun k ks hk => tag_err (stripPrefix_head (by rintro rfl; exact absurd (hc.symm.trans hk) (by decide)))
    rw [alt_miss (this _ _ (by decide)), alt_miss (this _ _ (by decide)),
      alt_miss (this _ _ (by decide)), alt_miss (this _ _ (by decide)),
      alt_miss (this _ _ (by decide)), alt_nil]
  rw [parseGd_eq, gdBody,
    alt_miss (map_err (km isWord_and (by decide) (.list0 parseGd_par))),
    alt_miss (map_err (km isWord_or (by decide) (.list0 parseGd_par))),
    alt_miss (map_err (km isWord_not (by decide) parseGd_par.nw)),
    alt_miss (map_err (km isWord_imply (by decide) (Par.pair parseGd_par).nw)),
    alt_miss (map_err (km isWord_exists (by decide) (Par.pair parseVarList_par).nw)),
    alt_miss (map_err (km isWord_forall (by decide) (Par.pair parseVarList_par).nw)),
    alt_miss (map_err hatom), alt_miss (map_err ?_), alt_miss (map_err hcomp), alt_nil]
  rw [literal, alt_miss (map_err (km isWord_not (by decide) Par.atomicFormula.nw)),
    alt_miss (map_err hatom), alt_nil]

theorem ConGDW.solid {m : Mode} {g : ConGD} {t : List Char} (h : ConGDW m g t) : Solid t := by
  cases h <;> exact solid_paren _

theorem Con2W.solid {m : Mode} {g : Con2GD} {t : List Char} (h : Con2W m (ConGDW m) g t) :
    Solid t := by
  cases h with
  | goal h => exact h.solid
  | nested h => exact h.solid

theorem ConGDW.timed_miss {c : ConGD} {t : List Char} (h : ConGDW .strict c t) (hc : c.isTimed)
    (r : List Char) : parseGd (t ++ r) = .err := by
  cases h with
  | within hg hn =>
    exact gd_num_miss (isWord_of _ _ (by decide) (by decide)) (by decide) hg hn r
  | alwaysWithin hg hn =>
    exact gd_num_miss (isWord_of _ _ (by decide) (by decide)) (by decide) hg hn r
  | holdDuring hg hn =>
    exact gd_num_miss (isWord_of _ _ (by decide) (by decide)) (by decide) hg hn r
  | holdAfter hg hn =>
    exact gd_num_miss (isWord_of _ _ (by decide) (by decide)) (by decide) hg hn r
  | _ => exact hc.elim

theorem con2_acc {p : P ConGD} {g : Con2GD} {t : List Char} (h : Con2W .strict (ConGDW .strict) g t)
    (hp : ∀ c, ConGDW .strict c t → Acc p Any c t) : Acc (con2Of p) Any g t := by
  intro r _
  rw [con2Of]
  cases h with
  | goal h => exact alt_hit (map_run (h.acc r trivial))
  | nested h hc =>
    rw [alt_miss (map_err (h.timed_miss (hc rfl) r))]
    exact alt_hit (map_run (hp _ h r trivial))

/-- `always` does not match `always-within`, nor `sometime` the longer words. -/
theorem kw_longer {kw kw' tl : List Char} {p : P α} (hp : Par p) {c : Char}
    (h : ∀ x, stripPrefix kw (kw' ++ x) = some (c :: (tl ++ x))) (hc : isWordChar c = true)
    (u r : List Char) : prefixExpr kw p (paren (kw' ++ u) ++ r) = .err := by
  obtain ⟨h1, _, h2, h3⟩ := wordChar_solid hc
  simp only [paren_append, List.append_assoc]
  rw [prefixExpr_open, h]
  simp only
  rw [(Solid.cons h3 h2 _).skip, hp _ _ h1 h2 h3]
  rfl

/-- `(kw x y z)` -/
theorem prefix_three {p : P α} {q : P β} {q' : P γ} {g1 t1 g2 t2 g3 t3 g4 kw : List Char} {a : α}
    {b : β} {c : γ} (hg1 : Gap g1) (h1 : Elem p a t1) (hg2 : Sep g2) (hq : Ct q ∨ Sp g2)
    (h2 : Elem q b t2) (hg3 : Sep g3) (hq' : Ct q') (h3 : Elem q' c t3) (hg4 : Gap g4) :
    Acc (prefixExpr kw (pair p (pair (preceded multispace1 q) (preceded multispace1 q')))) Any (a, b, c)
      (paren (kw ++ (g1 ++ (t1 ++ (g2 ++ (t2 ++ (g3 ++ (t3 ++ g4)))))))) := by
  intro r _
  simp only [paren_append, List.append_assoc]
  refine prefixExpr_run (y := g4 ++ ')' :: r) ?_ (hg4.skip_solid (solid_close r))
  rw [hg1.skip_solid (h1.2.append _)]
  refine pair_run (h1.1 _ (.sep hg2 _)) (pair_run (r := g3 ++ (t3 ++ (g4 ++ ')' :: r))) ?_ ?_)
  · rcases hq with hq | hsp
    · rw [pms1_sep hq hg2 (h2.2.append _)]
      exact h2.1 _ (.sep hg3 _)
    · rw [pms1_sp hsp (h2.2.append _)]
      exact h2.1 _ (.sep hg3 _)
  · rw [pms1_sep hq' hg3 (h3.2.append _)]
    exact h3.1 _ (.gap hg4 (.close r))

theorem NumW.elem {n : Number} {t : List Char} (h : NumW n t) : Elem parseNumber n t := ⟨h.acc, h.solid⟩

theorem ConGDW.acc_aux (n : Nat) :
    ∀ g t, t.length ≤ n → ConGDW .strict g t → Acc parseConGd Any g t := by
  induction n with
  | zero =>
    intro v t hn h
    obtain ⟨c, r, rfl, _⟩ := h.solid
    simp at hn
  | succ n ih =>
    have el : ∀ e t, t.length ≤ n → ConGDW .strict e t → Elem parseConGd e t :=
      fun e t hl h => ⟨(ih e t hl h).mono fun _ _ => trivial, h.solid⟩
    have els : ∀ {es : List ConGD} {u : List Char}, u.length ≤ n →
        Sec Gap Gap (Items (ConGDW .strict)) es u →
        Sec Gap Gap (Items (Elem parseConGd)) es u := fun hl h =>
      h.mono fun t h hl1 => h.mono fun a t' h hl2 => el a t' (by omega) h
    have el2 : ∀ e t, t.length ≤ n → Con2W .strict (ConGDW .strict) e t →
        Elem (con2Of parseConGd) e t := fun e t hl h =>
      ⟨(con2_acc h fun c h => ih c t hl h).mono fun _ _ => trivial, h.solid⟩
    have c2 : Ct (con2Of parseConGd) := .con2Of parseConGd_ct
    have p2 : Par (con2Of parseConGd) := .con2Of parseConGd_par
    intro v t hn h r hr
    rw [parseConGd_eq, conGdBody]
    cases h with
    | and h =>
      simp only [paren, List.length_append, List.length_cons] at hn
      exact alt_hit (map_run (prefix_list0 (els (by omega) h) (fun _ h => h) parseConGd_par.close r
        trivial))
    | @forall_ g1 vs t1 g2 g t2 g3 hg1 hv hg2 hb hg3 =>
      simp only [paren, List.length_append, List.length_cons] at hn
      have hb := el _ t2 (by omega) hb
      rw [alt_miss (map_err (kw_miss (fun _ => rfl) _ r))]
      exact alt_hit (map_run (a := (vs, g)) (prefix_two hg1 hv.elem.1
        hv.solid hg2 parseConGd_ct hb.1 hb.2 hg3 r trivial))
    | atEnd hg1 h hg2 =>
      rw [alt_miss (map_err (kw_miss (fun _ => rfl) _ r)),
        alt_miss (map_err (kw_miss (fun _ => rfl) _ r))]
      exact alt_hit (map_run (prefix_one hg1 h.elem.1 h.solid hg2 r trivial))
    | @always g1 g t g2 hg1 h hg2 =>
      simp only [paren, List.length_append, List.length_cons] at hn
      have h := el2 _ t (by omega) h
      rw [alt_miss (map_err (kw_miss (fun _ => rfl) _ r)),
        alt_miss (map_err (kw_miss (fun _ => rfl) _ r)),
        alt_miss (map_err (kw_miss (fun _ => rfl) _ r))]
      exact alt_hit (map_run (prefix_one hg1 h.1 h.2 hg2 r trivial))
    | @sometime g1 g t g2 hg1 h hg2 =>
      simp only [paren, List.length_append, List.length_cons] at hn
      have h := el2 _ t (by omega) h
      rw [alt_miss (map_err (kw_miss (fun _ => rfl) _ r)),
        alt_miss (map_err (kw_miss (fun _ => rfl) _ r)),
        alt_miss (map_err (kw_miss (fun _ => rfl) _ r)),
        alt_miss (map_err (kw_miss (fun _ => rfl) _ r))]
      exact alt_hit (map_run (prefix_one hg1 h.1 h.2 hg2 r trivial))
    | @within g1 k tn g2 g t g3 hg1 hk hg2 h hg3 =>
      simp only [paren, List.length_append, List.length_cons] at hn
      have h := el2 _ t (by omega) h
      rw [alt_miss (map_err (kw_miss (fun _ => rfl) _ r)),
        alt_miss (map_err (kw_miss (fun _ => rfl) _ r)),
        alt_miss (map_err (kw_miss (fun _ => rfl) _ r)),
        alt_miss (map_err (kw_miss (fun _ => rfl) _ r)),
        alt_miss (map_err (kw_miss (fun _ => rfl) _ r))]
      exact alt_hit (map_run (a := (k, g)) (prefix_two (Mode.word.gap hg1) hk.acc hk.solid hg2 c2 h.1
        h.2 hg3 r trivial))
    | @atMostOnce g1 g t g2 hg1 h hg2 =>
      simp only [paren, List.length_append, List.length_cons] at hn
      have h := el2 _ t (by omega) h
      rw [alt_miss (map_err (kw_miss (fun _ => rfl) _ r)),
        alt_miss (map_err (kw_miss (fun _ => rfl) _ r)),
        alt_miss (map_err (kw_miss (fun _ => rfl) _ r)),
        alt_miss (map_err (kw_miss (fun _ => rfl) _ r)),
        alt_miss (map_err (kw_miss (fun _ => rfl) _ r)),
        alt_miss (map_err (kw_miss (fun _ => rfl) _ r))]
      exact alt_hit (map_run (prefix_one hg1 h.1 h.2 hg2 r trivial))
    | @sometimeAfter g1 a t1 g2 b t2 g3 hg1 ha hg2 hb hg3 =>
      simp only [paren, List.length_append, List.length_cons] at hn
      have ha := el2 _ t1 (by omega) ha
      have hb := el2 _ t2 (by omega) hb
      rw [alt_miss (map_err (kw_miss (fun _ => rfl) _ r)),
        alt_miss (map_err (kw_miss (fun _ => rfl) _ r)),
        alt_miss (map_err (kw_miss (fun _ => rfl) _ r)),
        alt_miss (map_err (kw_miss (fun _ => rfl) _ r)),
        alt_miss (map_err (kw_longer p2 (tl := c!"after") (fun _ => rfl) (by decide) _ r)),
        alt_miss (map_err (kw_miss (fun _ => rfl) _ r)),
        alt_miss (map_err (kw_miss (fun _ => rfl) _ r))]
      exact alt_hit (map_run (a := (a, b)) (prefix_two hg1 ha.1 ha.2 hg2 c2 hb.1 hb.2 hg3 r trivial))
    | @sometimeBefore g1 a t1 g2 b t2 g3 hg1 ha hg2 hb hg3 =>
      simp only [paren, List.length_append, List.length_cons] at hn
      have ha := el2 _ t1 (by omega) ha
      have hb := el2 _ t2 (by omega) hb
      rw [alt_miss (map_err (kw_miss (fun _ => rfl) _ r)),
        alt_miss (map_err (kw_miss (fun _ => rfl) _ r)),
        alt_miss (map_err (kw_miss (fun _ => rfl) _ r)),
        alt_miss (map_err (kw_miss (fun _ => rfl) _ r)),
        alt_miss (map_err (kw_longer p2 (tl := c!"before") (fun _ => rfl) (by decide) _ r)),
        alt_miss (map_err (kw_miss (fun _ => rfl) _ r)),
        alt_miss (map_err (kw_miss (fun _ => rfl) _ r)),
        alt_miss (map_err (kw_miss (fun _ => rfl) _ r))]
      exact alt_hit (map_run (a := (a, b)) (prefix_two hg1 ha.1 ha.2 hg2 c2 hb.1 hb.2 hg3 r trivial))
    | @alwaysWithin g1 k tn g2 a t1 g3 b t2 g4 hg1 hk hg2 ha hg3 hb hg4 =>
      simp only [paren, List.length_append, List.length_cons] at hn
      have ha := el2 _ t1 (by omega) ha
      have hb := el2 _ t2 (by omega) hb
      rw [alt_miss (map_err (kw_miss (fun _ => rfl) _ r)),
        alt_miss (map_err (kw_miss (fun _ => rfl) _ r)),
        alt_miss (map_err (kw_miss (fun _ => rfl) _ r)),
        alt_miss (map_err (kw_longer p2 (tl := c!"within") (fun _ => rfl) (by decide) _ r)),
        alt_miss (map_err (kw_miss (fun _ => rfl) _ r)),
        alt_miss (map_err (kw_miss (fun _ => rfl) _ r)),
        alt_miss (map_err (kw_miss (fun _ => rfl) _ r)),
        alt_miss (map_err (kw_miss (fun _ => rfl) _ r)),
        alt_miss (map_err (kw_miss (fun _ => rfl) _ r))]
      exact alt_hit (map_run (a := (k, a, b)) (prefix_three (Mode.word.gap hg1) hk.elem hg2 (.inl c2)
        ha hg3 c2 hb hg4 r trivial))
    | @holdDuring g1 k tn g2 k' tk g3 g t g4 hg1 hk hg2 hk' hg3 h hg4 =>
      simp only [paren, List.length_append, List.length_cons] at hn
      have h := el2 _ t (by omega) h
      rw [alt_miss (map_err (kw_miss (fun _ => rfl) _ r)),
        alt_miss (map_err (kw_miss (fun _ => rfl) _ r)),
        alt_miss (map_err (kw_miss (fun _ => rfl) _ r)),
        alt_miss (map_err (kw_miss (fun _ => rfl) _ r)),
        alt_miss (map_err (kw_miss (fun _ => rfl) _ r)),
        alt_miss (map_err (kw_miss (fun _ => rfl) _ r)),
        alt_miss (map_err (kw_miss (fun _ => rfl) _ r)),
        alt_miss (map_err (kw_miss (fun _ => rfl) _ r)),
        alt_miss (map_err (kw_miss (fun _ => rfl) _ r)),
        alt_miss (map_err (kw_miss (fun _ => rfl) _ r))]
      exact alt_hit (map_run (a := (k, k', g)) (prefix_three (Mode.word.gap hg1) hk.elem
        (show Sp g2 from hg2).sep (.inr hg2) hk'.elem hg3 c2 h hg4 r trivial))
    | @holdAfter g1 k tn g2 g t g3 hg1 hk hg2 h hg3 =>
      simp only [paren, List.length_append, List.length_cons] at hn
      have h := el2 _ t (by omega) h
      rw [alt_miss (map_err (kw_miss (fun _ => rfl) _ r)),
        alt_miss (map_err (kw_miss (fun _ => rfl) _ r)),
        alt_miss (map_err (kw_miss (fun _ => rfl) _ r)),
        alt_miss (map_err (kw_miss (fun _ => rfl) _ r)),
        alt_miss (map_err (kw_miss (fun _ => rfl) _ r)),
        alt_miss (map_err (kw_miss (fun _ => rfl) _ r)),
        alt_miss (map_err (kw_miss (fun _ => rfl) _ r)),
        alt_miss (map_err (kw_miss (fun _ => rfl) _ r)),
        alt_miss (map_err (kw_miss (fun _ => rfl) _ r)),
        alt_miss (map_err (kw_miss (fun _ => rfl) _ r)),
        alt_miss (map_err (kw_miss (fun _ => rfl) _ r))]
      exact alt_hit (map_run (a := (k, g)) (prefix_two (Mode.word.gap hg1) hk.acc hk.solid hg2 c2 h.1
        h.2 hg3 r trivial))

theorem ConGDW.acc {g : ConGD} {t : List Char} (h : ConGDW .strict g t) : Acc parseConGd Any g t :=
  ConGDW.acc_aux _ g t (Nat.le_refl _) h

theorem ConGDW.elem {g : ConGD} {t : List Char} (h : ConGDW .strict g t) : Elem parseConGd g t :=
  ⟨h.acc.mono fun _ _ => trivial, h.solid⟩

theorem Con2W.elem {g : Con2GD} {t : List Char} (h : Con2W .strict (ConGDW .strict) g t) :
    Elem parseCon2Gd g t :=
  ⟨(con2_acc h fun _ h => h.acc).mono fun _ _ => trivial, h.solid⟩

theorem PrefConGDW.solid {m : Mode} {g : List PrefConGD} {t : List Char} (h : PrefConGDW m g t) :
    Solid t := by
  cases h with
  | goal h => exact h.solid
  | _ => exact solid_paren _

theorem ConGDW.open {m : Mode} {g : ConGD} {t : List Char} (h : ConGDW m g t) : ∃ y, t = '(' :: y := by
  cases h <;> exact ⟨_, rfl⟩

theorem PrefConGDW.acc_aux (n : Nat) :
    ∀ g t, t.length ≤ n → PrefConGDW .strict g t → Acc parsePrefConGd Any g t := by
  induction n with
  | zero =>
    intro v t hn h
    obtain ⟨c, r, rfl, _⟩ := h.solid
    simp at hn
  | succ n ih =>
    have el : ∀ e t, t.length ≤ n → PrefConGDW .strict e t → Elem parsePrefConGd e t :=
      fun e t hl h => ⟨(ih e t hl h).mono fun _ _ => trivial, h.solid⟩
    have els : ∀ {es : List (List PrefConGD)} {u : List Char}, u.length ≤ n →
        Sec Gap Gap (Items (PrefConGDW .strict)) es u →
        Sec Gap Gap (Items (Elem parsePrefConGd)) es u := fun hl h =>
      h.mono fun t h hl1 => h.mono fun a t' h hl2 => el a t' (by omega) h
    intro v t hn h r hr
    rw [parsePrefConGd_eq, prefConGdBody]
    cases h with
    | and h =>
      simp only [paren, List.length_append, List.length_cons] at hn
      exact alt_hit (map_run (prefix_list0 (els (by omega) h) (fun _ h => h) parsePrefConGd_par.close r
        trivial))
    | @forall_ g1 vs t1 g2 g t2 g3 hg1 hv hg2 hb hg3 =>
      simp only [paren, List.length_append, List.length_cons] at hn
      have hb := el _ t2 (by omega) hb
      rw [alt_miss (map_err (kw_miss (fun _ => rfl) _ r))]
      exact alt_hit (map_run (a := (vs, g)) (prefix_two hg1 hv.elem.1
        hv.solid hg2 parsePrefConGd_ct hb.1 hb.2 hg3 r trivial))
    | @named g1 k tn g2 g t g3 hg1 hk hg2 h hg3 =>
      rw [alt_miss (map_err (kw_miss (fun _ => rfl) _ r)),
        alt_miss (map_err (kw_miss (fun _ => rfl) _ r))]
      exact alt_hit (map_run (a := (k, g)) (prefix_two (Mode.word.gap hg1) hk.acc hk.solid hg2
        parseConGd_ct h.elem.1 h.solid hg3 r trivial))
    | @anonymous g1 g t g2 hg1 h hg2 =>
      have hm : prefixExpr c!"preference" (pair parsePrefName (preceded multispace1 parseConGd))
          (paren (c!"preference" ++ (g1 ++ (t ++ g2))) ++ r) = .err := by
        obtain ⟨y, rfl⟩ := h.open
        simp only [paren_append, List.append_assoc, List.cons_append]
        refine prefixExpr_body_err ?_
        rw [hg1.skip_solid (solid_open _)]
        exact pair_err (parseName_open _)
      rw [alt_miss (map_err (kw_miss (fun _ => rfl) _ r)),
        alt_miss (map_err (kw_miss (fun _ => rfl) _ r)), alt_miss (map_err hm)]
      exact alt_hit (map_run (prefix_one hg1 h.elem.1 h.solid hg2 r trivial))
    | goal h hq =>
      have hq := hq rfl
      have hall : ∀ {α} {kw : List Char} {p : P α},
          (kw = c!"and" ∨ kw = c!"forall" ∨ kw = c!"preference") →
          prefixExpr kw p (t ++ r) = .err := by
        intro α kw p hkw
        cases h with
        | and => exact hq.elim
        | forall_ => exact hq.elim
        | _ => rcases hkw with rfl | rfl | rfl <;> exact kw_miss (fun _ => rfl) _ r
      rw [alt_miss (map_err (hall (by simp))), alt_miss (map_err (hall (by simp))),
        alt_miss (map_err (hall (by simp))), alt_miss (map_err (hall (by simp)))]
      exact alt_hit (map_run (h.acc r trivial))

theorem PrefConGDW.acc {g : List PrefConGD} {t : List Char} (h : PrefConGDW .strict g t) :
    Acc parsePrefConGd Any g t := PrefConGDW.acc_aux _ g t (Nat.le_refl _) h

theorem PrefConGDW.elem {g : List PrefConGD} {t : List Char} (h : PrefConGDW .strict g t) :
    Elem parsePrefConGd g t := ⟨h.acc.mono fun _ _ => trivial, h.solid⟩

end Pddl
