import Verif.Meta.Effects

/-!
# Meta-theory: durative actions are read back
-/

namespace Pddl

theorem TimeSpecifier.acc (ts : TimeSpecifier) : Acc parseTimeSpecifier Any ts ts.spell := by
  intro r _; cases ts <;> rfl

theorem TimeSpecifier.spell_solid (ts : TimeSpecifier) : Solid ts.spell := by
  cases ts <;> exact .cons (by decide) (by decide) _

theorem Interval.acc (i : Interval) : Acc parseInterval Any i i.spell := by
  intro r _; cases i; rfl

theorem Interval.spell_solid (i : Interval) : Solid i.spell := by
  cases i; exact .cons (by decide) (by decide) _

theorem TimeSpecifier.elem (ts : TimeSpecifier) : Elem parseTimeSpecifier ts ts.spell :=
  ⟨ts.acc.mono fun _ _ => trivial, ts.spell_solid⟩

theorem Interval.elem (ts : Interval) : Elem parseInterval ts ts.spell :=
  ⟨ts.acc.mono fun _ _ => trivial, ts.spell_solid⟩

/-- A keyword that begins with another letter than the word after the parenthesis. -/
theorem kw_gap_miss {k c : Char} {ks g x : List Char} {p : P α} (hg : Gap g) (hne : k ≠ c)
    (hs : isSpace k = false) (hk : k ≠ ';') : prefixExpr (k :: ks) p ('(' :: (g ++ c :: x)) = .err := by
  cases hg with
  | nil => exact prefixExpr_kw (stripPrefix_head hne)
  | space hc => exact prefixExpr_kw (stripPrefix_head (not_space hc k hs))
  | comment => exact prefixExpr_kw (stripPrefix_head hk)

/-! ## Conditions -/

theorem TimedGDW.solid {m : Mode} {g : TimedGD} {t : List Char} (h : TimedGDW m g t) : Solid t := by
  cases h <;> exact solid_paren _

theorem TimedGDW.open {m : Mode} {g : TimedGD} {t : List Char} (h : TimedGDW m g t) :
    ∃ y, t = '(' :: y := by
  cases h <;> exact ⟨_, rfl⟩

theorem TimedGDW.acc {g : TimedGD} {t : List Char} (h : TimedGDW .strict g t) :
    Acc parseTimedGd Any g t := by
  intro r _
  rw [parseTimedGd]
  cases h with
  | @«at» g1 ts g2 g t g3 hg1 hg2 h hg3 =>
    exact alt_hit (map_run (a := (ts, g)) (prefix_two (Mode.word.gap hg1) ts.elem.1 ts.spell_solid hg2
      parseGd_ct h.elem.1 h.solid hg3 r trivial))
  | @over g1 ts g2 g t g3 hg1 hg2 h hg3 =>
    rw [alt_miss (map_err (kw_miss (fun _ => rfl) _ r))]
    exact alt_hit (map_run (a := (ts, g)) (prefix_two (Mode.word.gap hg1) ts.elem.1 ts.spell_solid hg2
      parseGd_ct h.elem.1 h.solid hg3 r trivial))

theorem PrefTimedGDW.solid {m : Mode} {g : PrefTimedGD} {t : List Char} (h : PrefTimedGDW m g t) :
    Solid t := by
  cases h with
  | required h => exact h.solid
  | _ => exact solid_paren _

theorem PrefTimedGDW.acc {g : PrefTimedGD} {t : List Char} (h : PrefTimedGDW .strict g t) :
    Acc parsePrefTimedGd Any g t := by
  intro r _
  rw [parsePrefTimedGd]
  cases h with
  | required h =>
    have hm : ∀ {p : P (Option Name × TimedGD)}, prefixExpr c!"preference" p (t ++ r) = .err := by
      intro p
      cases h <;> exact kw_miss (fun _ => rfl) _ r
    rw [alt_miss (map_err hm)]
    exact alt_hit (map_run (h.acc r trivial))
  | @named g1 n tn g2 g t g3 hg1 hn hg2 h hg3 =>
    simp only [paren_append, List.append_assoc]
    refine alt_hit (map_run (a := (some n, g)) (prefixExpr_run (y := g3 ++ ')' :: r) ?_
      (hg3.skip_solid (solid_close r))))
    rw [(Mode.word.gap hg1).skip_solid (hn.solid.append _)]
    have hk := hg2.gap.skip_solid (h.solid.append (g3 ++ ')' :: r))
    obtain ⟨c, g2', rfl, hc⟩ := sep_head hg2
    refine pair_run (r := (g2' ++ (t ++ (g3 ++ ')' :: r))).dropWhile isSpace) (opt_run ?_) ?_
    · exact terminated_run (hn.acc _ (.sep hg2 _)) (multispace1_cons hc _)
    · rw [List.cons_append, skip, List.dropWhile_cons, if_pos (isBlank_space hc)] at hk
      rw [← parseTimedGd_ct, hk]
      exact h.acc _ trivial
  | @anonymous g1 g t g2 hg1 h hg2 =>
    simp only [paren_append, List.append_assoc]
    refine alt_hit (map_run (a := (none, g)) (prefixExpr_run (y := g2 ++ ')' :: r) ?_
      (hg2.skip_solid (solid_close r))))
    rw [hg1.skip_solid (h.solid.append _)]
    refine pair_run (r := t ++ (g2 ++ ')' :: r)) (opt_err ?_) (h.acc _ trivial)
    obtain ⟨y, rfl⟩ := h.open
    exact terminated_err (parseName_open _)

theorem PrefTimedGDW.miss {g : PrefTimedGD} {t kw : List Char} {p : P α} (h : PrefTimedGDW .strict g t)
    (hkw : kw = c!"and" ∨ kw = c!"forall") (r : List Char) : prefixExpr kw p (t ++ r) = .err := by
  cases h with
  | required h =>
    cases h <;> rcases hkw with rfl | rfl <;> exact kw_miss (fun _ => rfl) _ r
  | _ => rcases hkw with rfl | rfl <;> exact kw_miss (fun _ => rfl) _ r

theorem DaGDW.solid {m : Mode} {g : DaGD} {t : List Char} (h : DaGDW m g t) : Solid t := by
  cases h with
  | timed h => exact h.solid
  | _ => exact solid_paren _

theorem DaGDW.acc_aux (n : Nat) :
    ∀ g t, t.length ≤ n → DaGDW .strict g t → Acc parseDaGd Any g t := by
  induction n with
  | zero =>
    intro v t hn h
    obtain ⟨c, r, rfl, _⟩ := h.solid
    simp at hn
  | succ n ih =>
    have el : ∀ e t, t.length ≤ n → DaGDW .strict e t → Elem parseDaGd e t :=
      fun e t hl h => ⟨(ih e t hl h).mono fun _ _ => trivial, h.solid⟩
    intro v t hn h r hr
    rw [parseDaGd_eq, daGdBody]
    cases h with
    | @forall_ g1 vs t1 g2 g t2 g3 hg1 hv hg2 h hg3 =>
      simp only [paren, List.length_append, List.length_cons] at hn
      exact alt_hit (map_run (a := (vs, g)) (prefix_two hg1 hv.elem.1 hv.solid hg2 parseDaGd_ct
        (el g t2 (by omega) h).1 h.solid hg3 r trivial))
    | and h =>
      rw [alt_miss (map_err (kw_miss (fun _ => rfl) _ r))]
      simp only [paren, List.length_append, List.length_cons] at hn
      exact alt_hit (map_run (prefix_list0 (h.mono fun t h hl => h.mono fun a t h hl' =>
        el a t (by omega) h) (fun _ h => h) parseDaGd_par.close r trivial))
    | timed h =>
      rw [alt_miss (map_err (h.miss (.inr rfl) r)), alt_miss (map_err (h.miss (.inl rfl) r))]
      exact alt_hit (map_run (h.acc r trivial))

theorem DaGDW.full {g : DaGD} {t : List Char} (h : DaGDW .strict g t) : Full parseDaGd g t :=
  ⟨DaGDW.acc_aux _ g t (Nat.le_refl _) h, h.solid⟩

/-! ## Effects -/

theorem FAssignDaW.solid {m : Mode} {g : FAssignDa} {t : List Char} (h : FAssignDaW m g t) :
    Solid t := by
  cases h; exact solid_paren _

theorem FAssignDaW.acc {g : FAssignDa} {t : List Char} (h : FAssignDaW .strict g t) :
    Acc parseFAssignDa Any g t := by
  intro r _
  rw [parseFAssignDa]
  cases h with
  | @mk g0 op s g1 h t1 g2 e t2 g3 hg0 hs hg1 hh hg2 he hg3 =>
    cases (show g3 = [] from hg3)
    simp only [paren_append, List.append_assoc, List.nil_append]
    refine map_run (a := (op, h, e)) (parens_run ?_)
    rw [hg0.skip_solid (hs.word.solid.append _)]
    refine pair_run (hs.acc _ trivial) (pair_run (r := g2 ++ (t2 ++ ')' :: r)) ?_ ?_)
    · rw [pms1_sep parseFHead_ct hg1 (hh.solid.append _)]
      exact hh.acc _ (.sp hg2 _)
    · rw [pms1_sp hg2 (he.solid.append _)]
      exact he.acc _ (.close r)

theorem CondEffectW.assign_miss {e : CondEffect} {t : List Char} (h : CondEffectW .strict e t)
    (hne : e.notAssignment) (r : List Char) : parseFAssignDa (t ++ r) = .err := by
  refine map_err ?_
  have kw : ∀ {k : Char} {ks x : List Char}, Solid (k :: ks) →
      (∀ y, parseAssignOp (k :: ks ++ y) = .err) →
      parens (pair parseAssignOp
        (pair (preceded multispace1 parseFHead) (preceded multispace1 parseFExpDa)))
        (paren (k :: ks ++ x) ++ r) = .err := by
    intro k ks x hs h
    rw [paren_append, List.append_assoc]
    refine parens_err (pair_err ?_)
    rw [(hs.append _).skip]
    exact h _
  cases h with
  | single h =>
    cases h with
    | notAtomic => exact kw (.cons (by decide) (by decide) _) fun _ => rfl
    | undefined => exact hne.elim
    | object => exact hne.elim
    | numeric => exact hne.elim
    | atomic h hq => exact h.assign_miss ((hq rfl).sub (by decide)) r
  | all => exact kw (.cons (by decide) (by decide) _) fun _ => rfl

theorem AssignOpT.acc (op : AssignOpT) : Acc parseAssignOpT Any op op.spell := by
  intro r _; cases op <;> rfl

theorem AssignOpT.spell_solid (op : AssignOpT) : Solid op.spell := by
  cases op <;> exact .cons (by decide) (by decide) _

theorem TimedEffectW.solid {m : Mode} {g : TimedEffect} {t : List Char} (h : TimedEffectW m g t) :
    Solid t := by
  cases h <;> exact solid_paren _

theorem TimedEffectW.acc {g : TimedEffect} {t : List Char} (h : TimedEffectW .strict g t) :
    Acc parseTimedEffect Any g t := by
  intro r _
  rw [parseTimedEffect]
  cases h with
  | @conditional g1 ts g2 e t g3 hg1 hg2 h hg3 hne =>
    rw [alt_miss (map_err ?_)]
    · exact alt_hit (map_run (a := (ts, e)) (prefix_two (Mode.word.gap hg1) ts.elem.1 ts.spell_solid
        hg2 parseCondEffect_ct h.elem.1 h.solid hg3 r trivial))
    · simp only [paren_append, List.append_assoc]
      refine prefixExpr_body_err ?_
      rw [(Mode.word.gap hg1).skip_solid (ts.spell_solid.append _)]
      refine pair_err2 (ts.acc _ trivial) ?_
      rw [pms1_sep parseFAssignDa_ct hg2 (h.solid.append _)]
      exact h.assign_miss (hne rfl) _
  | @numericFluent g1 ts g2 e t g3 hg1 hg2 h hg3 =>
    exact alt_hit (map_run (a := (ts, e)) (prefix_two (Mode.word.gap hg1) ts.elem.1 ts.spell_solid
      hg2 parseFAssignDa_ct (h.acc.mono fun _ _ => trivial) h.solid hg3 r trivial))
  | @continuous g0 op g1 h t1 g2 e t2 g3 hg0 hg1 hh hg2 he hg3 =>
    cases (show g3 = [] from hg3)
    simp only [paren_append, List.append_assoc, List.nil_append]
    have hm : ∀ {α : Type} {p : P α} {x}, prefixExpr c!"at" p ('(' :: (g0 ++ (op.spell ++ x))) = .err := by
      intro α p x
      cases op <;> exact kw_gap_miss hg0 (by decide) (by decide) (by decide)
    rw [alt_miss (map_err hm), alt_miss (map_err hm)]
    refine alt_hit (map_run (a := (op, h, e)) (parens_run ?_))
    rw [hg0.skip_solid (op.spell_solid.append _)]
    refine pair_run (op.acc _ trivial) (pair_run (r := g2 ++ (t2 ++ ')' :: r)) ?_ ?_)
    · rw [pms1_sep parseFHead_ct hg1 (hh.solid.append _)]
      exact hh.acc _ (.sp hg2 _)
    · rw [pms1_sp hg2 (he.solid.append _)]
      exact he.acc _ trivial

theorem TimedEffectW.miss {e : TimedEffect} {t kw : List Char} {p : P α} (h : TimedEffectW .strict e t)
    (hkw : kw = c!"and" ∨ kw = c!"forall" ∨ kw = c!"when") (r : List Char) :
    prefixExpr kw p (t ++ r) = .err := by
  cases h with
  | @continuous g0 op g1 h t1 g2 e t2 g3 hg0 hg1 hh hg2 he hg3 =>
    simp only [paren_append, List.append_assoc]
    rcases hkw with rfl | rfl | rfl <;> cases op <;>
      exact kw_gap_miss hg0 (by decide) (by decide) (by decide)
  | _ => rcases hkw with rfl | rfl | rfl <;> exact kw_miss (fun _ => rfl) _ r

theorem DaEffectW.solid {m : Mode} {g : DaEffect} {t : List Char} (h : DaEffectW m g t) : Solid t := by
  cases h with
  | timed h => exact h.solid
  | _ => exact solid_paren _

theorem DaEffectW.acc_aux (n : Nat) :
    ∀ g t, t.length ≤ n → DaEffectW .strict g t → Acc parseDaEffect Any g t := by
  induction n with
  | zero =>
    intro v t hn h
    obtain ⟨c, r, rfl, _⟩ := h.solid
    simp at hn
  | succ n ih =>
    have el : ∀ e t, t.length ≤ n → DaEffectW .strict e t → Elem parseDaEffect e t :=
      fun e t hl h => ⟨(ih e t hl h).mono fun _ _ => trivial, h.solid⟩
    intro v t hn h r hr
    rw [parseDaEffect_eq, daEffectBody]
    cases h with
    | all h =>
      simp only [paren, List.length_append, List.length_cons] at hn
      exact alt_hit (map_run (prefix_list0 (h.mono fun t h hl => h.mono fun a t h hl' =>
        el a t (by omega) h) (fun _ h => h) parseDaEffect_par.close r trivial))
    | @forall_ g1 vs t1 g2 g t2 g3 hg1 hv hg2 h hg3 =>
      rw [alt_miss (map_err (kw_miss (fun _ => rfl) _ r))]
      simp only [paren, List.length_append, List.length_cons] at hn
      exact alt_hit (map_run (a := (vs, g)) (prefix_two hg1 hv.elem.1 hv.solid hg2 parseDaEffect_ct
        (el g t2 (by omega) h).1 h.solid hg3 r trivial))
    | @when g1 c t1 g2 e t2 g3 hg1 hc hg2 he hg3 =>
      rw [alt_miss (map_err (kw_miss (fun _ => rfl) _ r)),
        alt_miss (map_err (kw_miss (fun _ => rfl) _ r))]
      exact alt_hit (map_run (a := (c, e)) (prefix_two hg1 hc.full.elem.1 hc.solid hg2
        parseTimedEffect_ct (he.acc.mono fun _ _ => trivial) he.solid hg3 r trivial))
    | timed h =>
      rw [alt_miss (map_err (h.miss (.inl rfl) r)), alt_miss (map_err (h.miss (.inr (.inl rfl)) r)),
        alt_miss (map_err (h.miss (.inr (.inr rfl)) r))]
      exact alt_hit (map_run (h.acc r trivial))

theorem DaEffectW.full {g : DaEffect} {t : List Char} (h : DaEffectW .strict g t) :
    Full parseDaEffect g t :=
  ⟨DaEffectW.acc_aux _ g t (Nat.le_refl _) h, h.solid⟩

/-! ## Durations -/

theorem DValueW.solid {m : Mode} {g : DurationValue} {t : List Char} (h : DValueW m g t) : Solid t := by
  cases h with
  | number h => exact h.solid
  | fExp h => exact h.solid

theorem FExpW.number_err {m : Mode} {e : FExp} {t : List Char} (h : FExpW m e t) (hne : ¬ e.isNumber)
    (r : List Char) : parseNumber (t ++ r) = .err := by
  cases h with
  | number => exact (hne trivial).elim
  | function h =>
    cases h with
    | bare h =>
      obtain ⟨c, cs, rfl, hc, _⟩ := h.1
      exact parseNumber_alpha _ hc
    | _ => exact parseNumber_open _
  | _ => exact parseNumber_open _

theorem DValueW.acc {g : DurationValue} {t : List Char} (h : DValueW .strict g t) :
    Acc parseDValue Stop g t := by
  intro r hr
  rw [parseDValue]
  cases h with
  | number h => exact alt_hit (map_run (h.elem.1 r hr))
  | fExp h hne =>
    rw [alt_miss (map_err (h.number_err (hne rfl) r))]
    exact alt_hit (map_run (h.acc r hr))

theorem DOp.acc (op : DOp) : Acc parseDOp Any op op.spell := by
  intro r _; cases op <;> rfl

theorem DOp.spell_solid (op : DOp) : Solid op.spell := by
  cases op <;> exact .cons (by decide) (by decide) _

theorem SimpleDurationW.solid {m : Mode} {g : SimpleDuration} {t : List Char}
    (h : SimpleDurationW m g t) : Solid t := by
  cases h <;> exact solid_paren _

theorem dop_miss {k : Char} {ks x r : List Char} {q : P α} (hs : Solid (k :: ks))
    (h : ∀ y, parseDOp (k :: ks ++ y) = .err) :
    parens (pair parseDOp q) (paren (k :: ks ++ x) ++ r) = .err := by
  rw [paren_append, List.append_assoc]
  refine parens_err (pair_err ?_)
  rw [(hs.append _).skip]
  exact h _

theorem SimpleDurationW.acc {g : SimpleDuration} {t : List Char} (h : SimpleDurationW .strict g t) :
    Acc parseSimpleDuration Any g t := by
  induction h with
  | @op g0 o g1 g2 v t g3 hg0 hg1 hg2 h hg3 =>
    intro r _
    rw [parseSimpleDuration_eq, simpleDurationBody]
    cases (show g3 = [] from hg3)
    simp only [paren_append, List.append_assoc, List.nil_append]
    refine alt_hit (map_run (a := (o, v)) (parens_run ?_))
    rw [hg0.skip_solid (o.spell_solid.append _)]
    refine pair_run (o.acc _ trivial) ?_
    obtain ⟨x, hx⟩ := ms1_sp hg1 ((Solid.cons (c := '?') (by decide) (by decide) c!"duration").append
      (g2 ++ (t ++ ')' :: r)))
    obtain ⟨y, hy⟩ := ms1_sp (show Sp g2 from hg2) (h.solid.append (')' :: r))
    rw [preceded_run (pair_run hx (pair_run (tag_ok c!"?duration" _) hy))]
    exact h.acc _ (.close r)
  | @«at» g1 ts g2 c t g3 hg1 hg2 h hg3 ih =>
    intro r _
    rw [parseSimpleDuration_eq, simpleDurationBody,
      alt_miss (map_err (dop_miss (.cons (by decide) (by decide) _) fun _ => rfl))]
    exact alt_hit (map_run (a := (ts, c)) (prefix_two (Mode.word.gap hg1) ts.elem.1 ts.spell_solid
      hg2 parseSimpleDuration_ct (ih.mono fun _ _ => trivial) h.solid hg3 r trivial))

theorem SimpleDurationW.elem {g : SimpleDuration} {t : List Char} (h : SimpleDurationW .strict g t) :
    Elem parseSimpleDuration g t := ⟨h.acc.mono fun _ _ => trivial, h.solid⟩

theorem DurationW.solid {m : Mode} {g : DurationConstraint} {t : List Char}
    (h : DurationW m g t) : Solid t := by
  cases h with
  | single h => exact h.solid
  | all => exact solid_paren _

/-- The alternatives of a duration constraint other than `()`. -/
abbrev durationP : P (Option DurationConstraint) :=
  alt [map (fun c => some (DurationConstraint.single c)) parseSimpleDuration,
    mapExpect (fun cs => (DurationConstraint.newAll cs).map some)
      (prefixExpr c!"and" (spaceSeparatedList1 parseSimpleDuration))]

theorem durationP_rejE : RejE durationP :=
  .alt_cons (.map parseSimpleDuration_rejE) (.alt_one (.mapExpect (.prefixExpr_cons)))

theorem durationP_ct : Ct durationP :=
  .alt_cons (.map parseSimpleDuration_ct) (.alt_one (.mapExpect (.prefixExpr)))

theorem DurationW.acc {g : DurationConstraint} {t : List Char} (h : DurationW .strict g t) :
    Acc durationP Any (some g) t := by
  intro r _
  cases h with
  | single h => exact alt_hit (map_run (h.acc r trivial))
  | @all g1 cs t g2 hg1 h hg2 =>
    have hm : parseSimpleDuration (paren (c!"and" ++ (g1 ++ (t ++ g2))) ++ r) = .err := by
      rw [parseSimpleDuration_eq, simpleDurationBody,
        alt_miss (map_err (dop_miss (.cons (by decide) (by decide) _) fun _ => rfl)),
        alt_miss (map_err (kw_miss (fun _ => rfl) _ r))]
      rfl
    rw [durationP, alt_miss (map_err hm)]
    refine alt_hit (mapExpect_run (prefix_list1 hg1 (h.mono fun _ _ h _ => h.elem) hg2
      parseSimpleDuration_par.close r trivial) ?_)
    have : cs ≠ [] := h.ne_nil
    cases cs with
    | nil => exact absurd rfl this
    | cons => rfl

theorem duration_run {o : Option DurationConstraint} {u : List Char}
    (h : EmptyOrW (DurationW .strict) o u) (r : List Char) :
    preceded multispace1 parseDurationConstraint (u ++ r) = .ok o r := by
  cases h with
  | empty hg =>
    rw [List.append_assoc, pms1_sp hg (solid_unit r)]
    exact alt_hit (map_run (tag_ok c!"()" r))
  | some hg h =>
    rw [List.append_assoc]
    exact empty_miss durationP_ct durationP_rejE rfl hg h.solid (h.acc r trivial)

/-! ## Durative actions -/

theorem sec_kw {kw g u r : List Char} {p : P α} {v : α} (hg : Sp g) (hkw : Solid kw)
    (h : p (u ++ r) = .ok v r) :
    preceded multispace1 (preceded (tag kw) p) (g ++ (kw ++ (u ++ r))) = .ok v r := by
  rw [pms1_sp hg (hkw.append _), preceded_run (tag_ok kw _), h]

theorem DaDefW.solid {m : Mode} {a : DaDef} {t : List Char} (h : DaDefW m a t) : Solid t := by
  cases h; exact solid_paren _

theorem DaDefW.acc {a : DaDef} {t : List Char} (h : DaDefW .strict a t) : Acc parseDaDef Any a t := by
  intro r _
  cases h with
  | @mk g1 n tn g2 g3 vs tv g4 d ud g5 c uc g6 e ue g7 hg1 hn hg2 hg3 hv hg4 hd hg5 hc hg6 he hg7 =>
    simp only [paren_append, List.append_assoc]
    refine map_run (a := (n, vs, d, c, e)) (prefixExpr_run (y := g7 ++ ')' :: r) ?_
      (hg7.skip_solid (solid_close r)))
    rw [(Mode.word.gap hg1).skip_solid (hn.solid.append _)]
    exact pair_run (hn.acc _ (.sp hg2 _)) (pair_run (parameters_run hg2 hg3 hv)
      (pair_run (sec_kw hg4 solidK (duration_run hd _))
        (pair_run (sec_kw hg5 solidK
            (emptyOr_run parseDaGd_ct parseDaGd_rejE (fun _ _ h => h.full) hc _))
          (sec_kw hg6 solidK
            (emptyOr_run parseDaEffect_ct parseDaEffect_rejE (fun _ _ h => h.full) he _)))))

theorem StructureW.solid {m : Mode} {a : StructureDef} {t : List Char} (h : StructureW m a t) :
    Solid t := by
  cases h with
  | derived h => exact h.solid
  | action h => exact h.solid
  | durative h => exact h.solid

theorem StructureW.acc {a : StructureDef} {t : List Char} (h : StructureW .strict a t) :
    Acc parseStructureDef Any a t := by
  intro r _
  rw [parseStructureDef]
  cases h with
  | derived h => exact alt_hit (map_run (h.acc r trivial))
  | action h =>
    have h1 : parseDerivedPredicate (t ++ r) = .err := by
      cases h; exact map_err (kw_miss (fun _ => rfl) _ r)
    rw [alt_miss (map_err h1)]
    exact alt_hit (map_run (h.acc r trivial))
  | durative h =>
    have h1 : parseDerivedPredicate (t ++ r) = .err := by
      cases h; exact map_err (kw_miss (fun _ => rfl) _ r)
    have h2 : parseActionDef (t ++ r) = .err := by
      cases h; exact map_err (kw_miss (fun _ => rfl) _ r)
    rw [alt_miss (map_err h1), alt_miss (map_err h2)]
    exact alt_hit (map_run (h.acc r trivial))

theorem StructureW.elem {a : StructureDef} {t : List Char} (h : StructureW .strict a t) :
    Elem parseStructureDef a t := ⟨h.acc.mono fun _ _ => trivial, h.solid⟩

end Pddl
