import Verif.Meta.Durative

/-!
# Meta-theory: sections, domains and problems are read back
-/

namespace Pddl

/-! ## Sections with at least one element -/

theorem NonEmptyW.full {p : P α} {kw t : List Char} {lead : List Char → Prop}
    {R : α → List Char → Prop} {xs : List α} (h : NonEmptyW kw lead R xs t)
    (hl : ∀ g, lead g → Gap g) (hR : ∀ x t, R x t → Elem p x t) (hp : ∀ x, p (')' :: x) = .err) :
    Full (prefixExpr kw (spaceSeparatedList1 p)) xs t := by
  cases h with
  | mk hg h hg' =>
    exact ⟨prefix_list1 (hl _ hg) (h.mono fun a t h _ => hR a t h) hg' hp, solid_paren _⟩

theorem KeyW.elem {k : Requirement} {t : List Char} (h : KeyW k t) : Elem parseRequireKey k t := by
  cases h
  exact ⟨fun r _ => by cases k <;> rfl, by cases k <;> exact solidK⟩

theorem parseRequireKey_close (x : List Char) : parseRequireKey (')' :: x) = .err := rfl

theorem RequirementsW.full {ks : List Requirement} {t : List Char} (h : RequirementsW .strict ks t) :
    Full parseRequireDef ks t :=
  NonEmptyW.full h (fun _ h => Mode.word.gap h) (fun _ _ h => h.elem) parseRequireKey_close

theorem ExtendsW.full {ns : List Name} {t : List Char} (h : ExtendsW .strict ns t) :
    Full (prefixExpr c!":extends" (spaceSeparatedList1 parseName)) ns t :=
  NonEmptyW.full h (fun _ h => Mode.word.gap h) (fun _ _ h => h.elem) parseName_close

theorem PredicatesW.full {ps : List Skeleton} {t : List Char} (h : PredicatesW .strict ps t) :
    Full parsePredicatesDef ps t :=
  NonEmptyW.full h (fun _ h => h) (fun _ _ h => h.elem)
    fun s => parseSkeleton_err s (by decide) (by decide)

theorem literal_close (x : List Char) : literal parseName (')' :: x) = .err :=
  Par.close Par.literal x

theorem TimelessW.full {ps : List (Literal Name)} {t : List Char} (h : TimelessW .strict ps t) :
    Full parseTimelessDef ps t :=
  NonEmptyW.full h (fun _ h => h) (fun _ _ h => h.elem) literal_close

theorem WrapW.full {p : P α} {kw t : List Char} {lead : List Char → Prop}
    {R : α → List Char → Prop} {x : α} (h : WrapW kw lead R x t)
    (hl : ∀ g, lead g → Gap g) (hR : ∀ x t, R x t → Elem p x t) : Full (prefixExpr kw p) x t := by
  cases h with
  | mk hg h hg' =>
    exact ⟨prefix_one (hl _ hg) (hR _ _ h).1 (hR _ _ h).2 hg', solid_paren _⟩

/-! ## The initial state -/

theorem InitElW.solid {m : Mode} {e : InitElement} {t : List Char} (h : InitElW m e t) : Solid t := by
  cases h with
  | literal h => exact h.solid
  | _ => exact solid_paren _

theorem isDigit_alpha {c : Char} (h : isDigit c = true) : isAlpha c = false := by
  cases ha : isAlpha c with
  | false => rfl
  | true =>
    simp only [isAlpha, isDigit, Bool.or_eq_true, Bool.and_eq_true, decide_eq_true_eq] at h ha
    omega

theorem parseName_digit {c : Char} (s : List Char) (h : isDigit c = true) : parseName (c :: s) = .err :=
  parseName_err_cons (.cons (isDigit_solid h).1 (isDigit_solid h).2 s) (isDigit_alpha h)

theorem isWord_at : IsWord c!"at" := isWord_of _ _ (by decide) (by decide)

/-- `(at 5 ..)` is not a literal. -/
theorem at_literal_miss {g tn x r : List Char} {n : Number} (hg : Sep g) (hn : NumW n tn) :
    literal parseName (paren (c!"at" ++ (g ++ (tn ++ x))) ++ r) = .err := by
  rw [literal, alt_miss (map_err (kw_miss (fun _ => rfl) _ r))]
  simp only [paren_append, List.append_assoc]
  have h1 : delimited (ws (tag c!"(=")) (pair (ws parseName) (ws parseName)) (ws (char ')'))
      ('(' :: (c!"at" ++ (g ++ (tn ++ (x ++ ')' :: r))))) = .err := eq_miss fun y h => by cases h
  obtain ⟨c, cs, rfl, hc⟩ := hn.head
  have hk := hg.gap.skip_solid ((hn.solid).append (x ++ ')' :: r))
  have h2 : parens (pair parsePredicate (ws (spaceSeparatedList0 parseName)))
      ('(' :: (c!"at" ++ (g ++ (c :: cs ++ (x ++ ')' :: r))))) = .err := by
    refine parens_tail (v := (Name.new c!"at", [])) (y := c :: cs ++ (x ++ ')' :: r)) ?_ ?_
    · rw [(isWord_at.solid.append _).skip]
      refine pair_run (NameW.acc (.of_word isWord_at) _ (.sep hg _)) ?_
      have e : ws (spaceSeparatedList0 parseName) = spaceSeparatedList0 parseName := ws_ws _
      rw [e, list0_nil, hk]
      rw [hk]
      exact parseName_digit _ hc
    · intro z hz
      cases hz
      exact absurd hc (by decide)
  rw [alt_miss (map_err ?_)]
  · rfl
  · rw [atomicFormula, alt_miss (map_err h1), alt_miss (map_err h2)]
    rfl

/-- `(= f v)` is not a literal unless `f` and `v` are names. -/
theorem eq_literal_miss {g1 t1 g2 t2 x r : List Char} {f : BasicFunctionTerm} (hg1 : Gap g1)
    (hf : BasicW .strict f t1) (hg2 : Sep g2) (ht2 : Solid t2)
    (h : t1.head? = some '(' ∨ ∀ y, parseName (t2 ++ y) = .err) :
    literal parseName (paren (c!"=" ++ (g1 ++ (t1 ++ (g2 ++ (t2 ++ x))))) ++ r) = .err := by
  rw [literal, alt_miss (map_err (kw_miss (fun _ => rfl) _ r))]
  simp only [paren_append, List.append_assoc]
  have e0 : ∀ s, ws (tag c!"(=") ('(' :: '=' :: s) = .ok c!"(=" s := by
    intro s
    rw [ws_eq, (solid_open _).skip]
    exact tag_ok c!"(=" _
  have h1 : delimited (ws (tag c!"(=")) (pair (ws parseName) (ws parseName)) (ws (char ')'))
      ('(' :: (c!"=" ++ (g1 ++ (t1 ++ (g2 ++ (t2 ++ (x ++ ')' :: r))))))) = .err := by
    refine (preceded_run (e0 (g1 ++ (t1 ++ (g2 ++ (t2 ++ (x ++ ')' :: r))))))).trans
      (terminated_err ?_)
    cases hf with
    | @bare fn _ hn =>
      refine pair_err2 (a := fn) (r := g2 ++ (t2 ++ (x ++ ')' :: r))) ?_ ?_
      · rw [ws_eq, hg1.skip_solid (hn.solid.append _)]
        exact hn.acc _ (.sep hg2 _)
      · rw [ws_eq, hg2.gap.skip_solid (ht2.append _)]
        refine (h.resolve_left ?_) _
        obtain ⟨c, cs, rfl, hc, _⟩ := hn.1
        intro hh
        cases hh
        exact absurd hc (by decide)
    | app =>
      refine pair_err ?_
      rw [ws_eq, hg1.skip_solid ((solid_paren _).append _)]
      exact parseName_open _
  have h2 : parens (pair parsePredicate (ws (spaceSeparatedList0 parseName)))
      ('(' :: (c!"=" ++ (g1 ++ (t1 ++ (g2 ++ (t2 ++ (x ++ ')' :: r))))))) = .err := by
    refine parens_err (pair_err ?_)
    have hs : ∀ x, skip (c!"=" ++ x) = '=' :: x := fun x => (Solid.cons (by decide) (by decide) x).skip
    rw [hs]
    exact parseName_err_cons (.cons (by decide) (by decide) _) (by decide)
  rw [alt_miss (map_err ?_)]
  · rfl
  · rw [atomicFormula, alt_miss (map_err h1), alt_miss (map_err h2)]
    rfl

theorem NumW.parseName_err {n : Number} {t : List Char} (h : NumW n t) (y : List Char) :
    parseName (t ++ y) = .err := by
  obtain ⟨c, cs, rfl, hc⟩ := h.head
  exact parseName_digit _ hc

theorem InitElW.acc {e : InitElement} {t : List Char} (h : InitElW .strict e t) :
    Acc parseInitEl Any e t := by
  intro r _
  rw [parseInitEl]
  cases h with
  | literal h => exact alt_hit (map_run (h.acc r trivial))
  | @«at» g1 n tn g2 l t g3 hg1 hn hg2 h hg3 =>
    rw [alt_miss (map_err (at_literal_miss hg1 hn))]
    exact alt_hit (map_run (a := (n, l)) (prefix_two (Mode.word.gap hg1) hn.elem.1 hn.solid hg2
      .literal h.elem.1 h.solid hg3 r trivial))
  | @isValue g1 f t1 g2 n t2 g3 hg1 hf hg2 hn hg3 =>
    rw [alt_miss (map_err (eq_literal_miss hg1 hf (show Sp g2 from hg2).sep hn.solid
      (.inr hn.parseName_err))), alt_miss (map_err (kw_miss (fun _ => rfl) _ r))]
    exact alt_hit (map_run (a := (f, n)) (prefix_two_sp hg1 hf.acc hf.solid hg2 hn.elem.1 hn.solid
      hg3 r trivial))
  | @isObject g1 f t1 g2 o t2 g3 hg1 hf hg2 ho hg3 hp =>
    rw [alt_miss (map_err (eq_literal_miss hg1 hf hg2 ho.solid (.inl (hp rfl)))),
      alt_miss (map_err (kw_miss (fun _ => rfl) _ r)), alt_miss (map_err ?_)]
    · exact alt_hit (map_run (a := (f, o)) (prefix_two hg1 hf.acc hf.solid hg2 parseName_ct ho.acc
        ho.solid hg3 r trivial))
    · simp only [paren_append, List.append_assoc]
      refine prefixExpr_body_err ?_
      rw [hg1.skip_solid (hf.solid.append _)]
      refine pair_err2 (hf.acc _ (.sep hg2 _)) ?_
      have hk := hg2.gap.skip_solid (ho.solid.append (g3 ++ ')' :: r))
      obtain ⟨c, g', rfl, hc⟩ := sep_head hg2
      rw [List.cons_append] at hk ⊢
      rw [preceded_run (multispace1_cons hc _)]
      rw [skip, List.dropWhile_cons, if_pos (isBlank_space hc)] at hk
      generalize (g' ++ (t2 ++ (g3 ++ ')' :: r))).dropWhile isSpace = s at hk
      rcases skipC_cases s with h1 | ⟨y, rfl⟩
      · rw [h1] at hk
        subst hk
        obtain ⟨c, cs, rfl, hc, _⟩ := ho.1
        exact parseNumber_alpha _ hc
      · exact parseNumber_semi _

theorem InitElW.elem {e : InitElement} {t : List Char} (h : InitElW .strict e t) :
    Elem parseInitEl e t := ⟨h.acc.mono fun _ _ => trivial, h.solid⟩

theorem parseInitEl_close (x : List Char) : parseInitEl (')' :: x) = .err := by
  have hk : ∀ {α : Type} {kw : List Char} {p : P α}, prefixExpr kw p (')' :: x) = .err :=
    prefixExpr_head (solid_close x) (by decide)
  rw [parseInitEl, alt_miss (map_err (literal_close x)), alt_miss (map_err hk),
    alt_miss (map_err hk), alt_miss (map_err hk), alt_nil]

theorem InitW.full {es : List InitElement} {t : List Char} (h : InitW .strict es t) :
    Full parseProblemInitDef es t := by
  cases h with
  | mk h =>
    exact ⟨prefix_list0 (h.mono fun _ h _ => h.mono fun _ _ h _ => h.elem) (fun _ h => h)
      parseInitEl_close, solid_paren _⟩

/-! ## The plan length -/

theorem decVal_le (t : List Char) : ∀ v : Nat, v ≤ t.foldl (fun v c => v * 10 + digitVal c) v := by
  induction t with
  | nil => exact fun v => Nat.le_refl _
  | cons c t ih =>
    intro v
    refine Nat.le_trans ?_ (ih _)
    show v ≤ v * 10 + digitVal c
    omega

theorem u64Loop_run {t r : List Char} (hr : ∀ c r', r = c :: r' → isDigit c = false) :
    ∀ v : Nat, (∀ c ∈ t, isDigit c = true) → t.foldl (fun v c => v * 10 + digitVal c) v < 2 ^ 64 →
      u64Loop v (t ++ r) = .ok (t.foldl (fun v c => v * 10 + digitVal c) v) r := by
  induction t with
  | nil =>
    intro v _ _
    cases r with
    | nil => rfl
    | cons c r => simp [u64Loop, hr c r rfl]
  | cons c t ih =>
    intro v hd hlt
    have h1 := decVal_le t (v * 10 + digitVal c)
    simp only [List.foldl_cons] at hlt ⊢
    rw [List.cons_append, u64Loop, if_pos (hd c (by simp))]
    dsimp only
    rw [if_pos (Nat.lt_of_le_of_lt h1 hlt)]
    exact ih _ (fun c hc => hd c (by simp [hc])) hlt

theorem U64W.elem {n : Nat} {t : List Char} (h : U64W n t) : Elem u64 n t := by
  obtain ⟨hne, hd, hn, hlt⟩ := h
  subst hn
  cases t with
  | nil => exact absurd rfl hne
  | cons c t =>
    have hc : isDigit c = true := hd c (by simp)
    refine ⟨fun r hr => ?_, .cons (isDigit_solid hc).1 (isDigit_solid hc).2 _⟩
    rw [List.cons_append, u64, if_pos hc]
    refine u64Loop_run (t := c :: t) (fun c r' h => ?_) 0 hd hlt
    have := hr.word c r' h
    simp only [isWordChar_eq, Bool.or_eq_false_iff] at this
    exact this.1.1.2

theorem serial_close {kw x : List Char} {p : P α} : prefixExpr kw p (')' :: x) = .err :=
  prefixExpr_head (solid_close x) (by decide)

theorem dropWhile_idem (f : Char → Bool) (s : List Char) :
    (s.dropWhile f).dropWhile f = s.dropWhile f := by
  induction s with
  | nil => rfl
  | cons c s ih =>
    cases h : f c
    · simp [h]
    · simp [h, ih]

theorem ms0_prefix {kw : List Char} {p : P α} (s : List Char) :
    preceded multispace0 (prefixExpr kw p) s = prefixExpr kw p s := by
  have h : ∀ s, multispace0 s = .ok (s.takeWhile isSpace) (s.dropWhile isSpace) := fun _ => rfl
  rw [preceded_run (h s), ← prefixExpr_skip, ← prefixExpr_skip kw p s]
  congr 1
  rw [skip, skip, dropWhile_idem]

theorem LengthW.full {m : Mode} {l : LengthSpec} {t : List Char} (h : LengthW m l t) :
    Full parseProblemLengthSpec l t := by
  cases h with
  | @mk s u1 p u2 g hs hp hg =>
    refine ⟨fun r _ => ?_, solid_paren _⟩
    simp only [paren_append, List.append_assoc]
    have hk := hg.skip_solid (solid_close r)
    have hpar : ∃ y, skip y = ')' :: r ∧ ∀ s, skip s = skip (u2 ++ (g ++ ')' :: r)) → skip s = s ∨ s = u2 ++ (g ++ ')' :: r) →
        opt (preceded multispace0 (prefixExpr c!":parallel" u64)) s =
        .ok p (if p.isSome then y else s) := by
      cases hp with
      | absent =>
        refine ⟨g ++ ')' :: r, hk, fun s hs _ => opt_err ?_⟩
        rw [ms0_prefix, ← prefixExpr_skip, hs, List.nil_append, hk]
        exact serial_close
      | @present g' n t hg' h =>
        refine ⟨g ++ ')' :: r, hk, fun s hs _ => opt_run ?_⟩
        have := h.full (fun _ h => Mode.word.gap h) fun _ _ h => U64W.elem h
        rw [ms0_prefix, ← prefixExpr_skip, hs, List.append_assoc, hg'.skip_solid (this.2.append _)]
        exact this.1 _ trivial
    obtain ⟨y, hy, hpar⟩ := hpar
    cases hs with
    | absent =>
      rw [List.nil_append]
      have h1 : opt (prefixExpr c!":serial" u64) (skip (u2 ++ (g ++ ')' :: r))) =
          .ok none (skip (u2 ++ (g ++ ')' :: r))) := by
        refine opt_err ?_
        cases hp with
        | absent => rw [List.nil_append, hk]; exact serial_close
        | present hg' h =>
          cases h with
          | mk =>
            rw [List.append_assoc, hg'.skip_solid ((solid_paren _).append _)]
            exact kw_miss (fun _ => rfl) _ _
      have h2 := hpar (skip (u2 ++ (g ++ ')' :: r))) (skip_skip _) (.inl (skip_skip _))
      refine map_run (a := (none, p)) (prefixExpr_run (pair_run h1 h2) ?_)
      cases hp with
      | absent => simp only [Option.isSome, List.nil_append, hk]; exact (solid_close r).skip
      | present => simpa using hy
    | @present g' n t hg' h =>
      have hf := h.full (fun _ h => Mode.word.gap h) fun _ _ h => U64W.elem h
      have h2 := hpar (u2 ++ (g ++ ')' :: r)) rfl (.inr rfl)
      rw [List.append_assoc]
      refine map_run (a := (some n, p)) (prefixExpr_run (pair_run (opt_run ?_) h2) ?_)
      · rw [hg'.skip_solid (hf.2.append _)]
        exact hf.1 _ trivial
      · cases hp with
        | absent => simpa using hk
        | present => simpa using hy

/-! ## Metric expressions -/

theorem Ct.cw {p : P α} (h : Ct p) : Cw p := fun s v _ _ hp => .inr ⟨v, by rw [← h]; exact hp⟩

theorem Cw.alt_ct {q : P α} {ps : List (P α)} (hq : Ct q) (h : Cw (alt ps)) : Cw (alt (q :: ps)) := by
  intro s v y hy hp
  have e := hq s
  simp only [alt] at hp ⊢
  rw [e] at hp
  cases hqs : q s with
  | ok a r => rw [hqs] at hp; exact .inr ⟨v, hp⟩
  | err => rw [hqs] at hp; exact h s v y hy hp
  | _ => rw [hqs] at hp; cases hp

/-- A parser without tolerance for comments, whose texts the remaining ones reject or read to the
same end. -/
theorem Cw.alt_sharp {q : P α} {ps : List (P α)} (hq : ∀ s, q (';' :: s) = .err)
    (hd : ∀ s v y, Stop y → q s = .ok v y → alt ps s = .err ∨ ∃ v', alt ps s = .ok v' y)
    (hc : ∀ s, alt ps (skipC s) = .err → alt ps s = .err)
    (h : Cw (alt ps)) : Cw (alt (q :: ps)) := by
  refine .of_ne fun s v y hy hp => ?_
  rw [alt_miss (hq s)]
  simp only [alt] at hp
  cases hqs : q (skipC (';' :: s)) with
  | ok a r =>
    rw [hqs] at hp
    cases hp
    rcases hd _ _ _ hy hqs with h1 | ⟨v', h1⟩
    · exact .inl (hc _ h1)
    · exact h _ _ _ hy h1
  | err => rw [hqs] at hp; exact h _ _ _ hy hp
  | _ => rw [hqs] at hp; cases hp

/-- Rejection is not changed by comments in front. -/
def Cr (p : P α) : Prop := ∀ s, p (skipC s) = .err → p s = .err

theorem Ct.cr {p : P α} (h : Ct p) : Cr p := fun s hp => by rw [← h]; exact hp

theorem Cr.alt_sharp {q : P α} {ps : List (P α)} (hq : ∀ s, q (';' :: s) = .err) (h : Cr (alt ps)) :
    Cr (alt (q :: ps)) := by
  intro s hp
  rcases skipC_cases s with hs | ⟨r, rfl⟩
  · rw [hs] at hp; exact hp
  · rw [alt_miss (hq r)]
    simp only [alt] at hp
    cases hqs : q (skipC (';' :: r)) with
    | err => rw [hqs] at hp; exact h _ hp
    | _ => rw [hqs] at hp; cases hp

theorem Cr.alt_ct {q : P α} {ps : List (P α)} (hq : Ct q) (h : Cr (alt ps)) : Cr (alt (q :: ps)) := by
  intro s hp
  have e := hq s
  simp only [alt] at hp ⊢
  rw [e] at hp
  cases hqs : q s with
  | err => rw [hqs] at hp; exact h s hp
  | _ => rw [hqs] at hp; cases hp

theorem totalTime_semi (s : List Char) :
    map (fun _ => MetricFExp.totalTime) (tag c!"total-time") (';' :: s) = .err :=
  map_err (tag_err (stripPrefix_head (by decide)))

theorem isWord_totalTime : IsWord c!"total-time" := isWord_of _ _ (by decide) (by decide)
theorem isWord_isViolated : IsWord c!"is-violated" := isWord_of _ _ (by decide) (by decide)

/-- The alternatives after `total-time`. -/
abbrev metricRest : List (P MetricFExp) := [
    map MetricFExp.isViolated (prefixExpr c!"is-violated" parsePrefName),
    map (fun x : Name × List Name => MetricFExp.function x.1 x.2)
      (parens (pair parseFunctionSymbol (ws (spaceSeparatedList0 parseName)))),
    map (fun f => MetricFExp.function f []) parseFunctionSymbol]

theorem metricRest_ct : Ct (alt metricRest) :=
  .alt_cons (.map .prefixExpr) (.alt_cons (.map .parens) (.alt_one (.map parseName_ct)))

/-- A word in the place of a metric expression. -/
theorem metricRest_word {t r : List Char} {n : Name} (h : NameW n t) (hr : Stop r) :
    alt metricRest (t ++ r) = .ok (.function n []) r := by
  have hn : parseFunctionSymbol (t ++ r) = .ok n r := h.acc r hr
  obtain ⟨c, cs, rfl, hc, hcs⟩ := h.1
  have hne : c ≠ '(' := by rintro rfl; exact absurd hc (by decide)
  have h2 := isAlpha_solid hc
  rw [List.cons_append] at hn ⊢
  rw [metricRest, alt_miss (map_err (prefixExpr_head (.cons h2.1 h2.2 _) hne)),
    alt_miss (map_err (parens_head h2.2 hne))]
  exact alt_hit (map_run hn)

theorem metricRest_digit {c : Char} (s : List Char) (hc : isDigit c = true) :
    alt metricRest (c :: s) = .err := by
  have h1 : c ≠ '(' := by rintro rfl; exact absurd hc (by decide)
  have h2 := isDigit_solid hc
  have h3 : parseFunctionSymbol (c :: s) = .err := parseName_digit s hc
  rw [metricRest, alt_miss (map_err (prefixExpr_head (.cons h2.1 h2.2 _) h1)),
    alt_miss (map_err (parens_head h2.2 h1)), alt_miss (map_err h3), alt_nil]

theorem parseMetric_cw : Cw parseMetricFExp := by
  rw [parseMetricFExp_eq, metricFExpBody]
  have hr : Cw (alt (map (fun _ => MetricFExp.totalTime) (tag c!"total-time") :: metricRest)) := by
    refine .alt_sharp totalTime_semi ?_ metricRest_ct.cr metricRest_ct.cw
    intro s v y hy h
    obtain ⟨x, hx, _⟩ := map_ok h
    have hs : s = c!"total-time" ++ y := by
      simp only [tag] at hx
      cases hp : stripPrefix c!"total-time" s with
      | none => rw [hp] at hx; cases hx
      | some z => rw [hp] at hx; cases hx; exact Good.stripPrefix_eq hp
    subst hs
    exact .inr ⟨_, metricRest_word (n := Name.new c!"total-time") ⟨isWord_totalTime, rfl⟩ hy⟩
  have hcr : Cr (alt (map (fun _ => MetricFExp.totalTime) (tag c!"total-time") :: metricRest)) :=
    .alt_sharp totalTime_semi metricRest_ct.cr
  refine .alt_sharp (fun s => map_err (parseNumber_semi s)) ?_
    (Cr.alt_ct (.map .parens) (Cr.alt_ct (.mapExpect .parens) (Cr.alt_ct (.map .parens) hcr)))
    (.alt_ct (.map .parens) (.alt_ct (.mapExpect .parens) (.alt_ct (.map .parens) hr)))
  intro s v y _ h
  obtain ⟨n, hn, _⟩ := map_ok h
  obtain ⟨c, x, rfl, hc⟩ := parseNumber_ok_head hn
  have h1 : c ≠ '(' := by rintro rfl; exact absurd hc (by decide)
  have h2 := (isDigit_solid hc).2
  have h3 : tag c!"total-time" (c :: x) = .err :=
    tag_err (stripPrefix_head (by rintro rfl; exact absurd hc (by decide)))
  left
  rw [alt_miss (map_err (parens_head h2 h1)), alt_miss (mapExpect_err (parens_head h2 h1)),
    alt_miss (map_err (parens_head h2 h1)), alt_miss (map_err h3)]
  exact metricRest_digit _ hc

theorem parseMetric_close (s : List Char) : parseMetricFExp (')' :: s) = .err := by
  have h1 : parseFunctionSymbol (')' :: s) = .err := parseName_close s
  have h3 : tag c!"total-time" (')' :: s) = .err := tag_err (stripPrefix_head (by decide))
  rw [parseMetricFExp_eq, metricFExpBody,
    alt_miss (map_err (parseNumber_err fun c r h => by cases h; decide)),
    alt_miss (map_err (parens_head (by decide) (by decide))),
    alt_miss (mapExpect_err (parens_head (by decide) (by decide))),
    alt_miss (map_err (parens_head (by decide) (by decide))),
    alt_miss (map_err h3), alt_miss (map_err serial_close),
    alt_miss (map_err (parens_head (by decide) (by decide))), alt_miss (map_err h1), alt_nil]

theorem MetricW.solid {m : Mode} {e : MetricFExp} {t : List Char} (h : MetricW m e t) : Solid t := by
  cases h with
  | number h => exact h.solid
  | totalTime => exact .cons (by decide) (by decide) _
  | bare h => exact h.solid
  | _ => exact solid_paren _

/-- A parenthesised word, as the operator alternatives see it. -/
theorem metric_miss_word {g t x : List Char} {ps : List (P MetricFExp)} (hg : Gap g) (ht : IsWord t) :
    alt (map MetricFExp.number parseNumber ::
      map (fun x : BinaryOp × MetricFExp × MetricFExp => MetricFExp.binaryOp x.1 x.2.1 x.2.2)
        (binP parseMetricFExp) ::
      mapExpect (fun x : MultiOp × MetricFExp × List MetricFExp =>
        MetricFExp.newMultiOp x.1 x.2.1 x.2.2) (mulP parseMetricFExp) ::
      map MetricFExp.negative (negP parseMetricFExp) ::
      map (fun _ => MetricFExp.totalTime) (tag c!"total-time") :: ps) ('(' :: (g ++ (t ++ x))) =
      alt ps ('(' :: (g ++ (t ++ x))) := by
  have h3 : tag c!"total-time" ('(' :: (g ++ (t ++ x))) = .err :=
    tag_err (stripPrefix_head (by decide))
  rw [alt_miss (map_err (parseNumber_open _)), alt_miss (map_err (bin_miss_word hg ht)),
    alt_miss (mapExpect_err (mul_miss_word hg ht)), alt_miss (map_err (neg_miss_word hg ht)),
    alt_miss (map_err h3)]

theorem MetricW.acc_aux (n : Nat) :
    ∀ e t, t.length ≤ n → MetricW .strict e t → Acc parseMetricFExp Stop e t := by
  induction n with
  | zero =>
    intro v t hn h
    obtain ⟨c, r, rfl, _⟩ := h.solid
    simp at hn
  | succ n ih =>
    have el : ∀ e t, t.length ≤ n → MetricW .strict e t → Elem parseMetricFExp e t :=
      fun e t hl h => ⟨ih e t hl h, h.solid⟩
    intro v t hn h r hr
    rw [parseMetricFExp_eq, metricFExpBody]
    cases h with
    | number h => exact alt_hit (map_run (h.acc r hr))
    | @negative g0 g e t g' hg0 hg he hg' =>
      cases (show g' = [] from hg')
      simp only [paren, List.length_append, List.length_cons] at hn
      have he := el e t (by omega) he
      simp only [paren_append, List.append_assoc, List.append_nil]
      rw [alt_miss (map_err (parseNumber_open _)), alt_miss (map_err (bin_miss_neg hg0 hg he)),
        alt_miss (mapExpect_err (mul_miss_neg hg0))]
      exact alt_hit (map_run (neg_run hg0 hg he))
    | @binaryOp g0 op g1 a t1 g2 b t2 g3 hg0 hg1 ha hg2 hb hg3 =>
      cases (show g3 = [] from hg3)
      simp only [paren, List.length_append, List.length_cons] at hn
      have ha := el a t1 (by omega) ha
      have hb := el b t2 (by omega) hb
      simp only [paren_append, List.append_assoc, List.append_nil]
      rw [alt_miss (map_err (parseNumber_open _))]
      exact alt_hit (map_run (a := (op, a, b)) (bin_run hg0 hg1 ha hg2 hb))
    | @multiOp g0 op g1 a t1 g2 bs t2 g3 hg0 hg1 ha hg2 hb hg3 hl =>
      cases (show g3 = [] from hg3)
      simp only [paren, List.length_append, List.length_cons] at hn
      have ha := el a t1 (by omega) ha
      have hb : Items (Elem parseMetricFExp) bs t2 := hb.mono fun a t h hl => el a t (by omega) h
      simp only [paren_append, List.append_assoc, List.append_nil]
      rw [alt_miss (map_err (parseNumber_open _)),
        alt_miss (map_err (bin_miss_mul parseMetric_cw hg0 hg1 ha hg2 hb hl))]
      refine alt_hit (mapExpect_run (a := (op, a, bs)) (mul_run hg0 hg1 ha hg2 hb parseMetric_close) ?_)
      cases bs with
      | nil => exact absurd hl (by simp [Mode.wide])
      | cons => rfl
    | totalTime =>
      have e : c!"total-time" ++ r = 't' :: (c!"otal-time" ++ r) := rfl
      rw [e, alt_miss (map_err (parseNumber_alpha _ (by decide))),
        alt_miss (map_err (parens_head (by decide) (by decide))),
        alt_miss (mapExpect_err (parens_head (by decide) (by decide))),
        alt_miss (map_err (parens_head (by decide) (by decide)))]
      exact alt_hit (map_run (tag_ok c!"total-time" r))
    | @isViolated g1 n t g2 hg1 hn' hg2 =>
      have := metric_miss_word (ps := metricRest) (x := g1 ++ (t ++ (g2 ++ ')' :: r))) .nil isWord_isViolated
      have e : paren (c!"is-violated" ++ (g1 ++ (t ++ g2))) ++ r =
        '(' :: ([] ++ (c!"is-violated" ++ (g1 ++ (t ++ (g2 ++ ')' :: r))))) := by
          simp only [paren_append, List.append_assoc, List.nil_append]
      rw [e, this, ← e]
      exact alt_hit (map_run (prefix_one (Mode.word.gap hg1) hn'.acc hn'.solid hg2 r trivial))
    | @function g f t ns u hg hf h hne =>
      have := metric_miss_word (ps := metricRest) (x := u ++ ')' :: r) hg hf.1
      have e : paren (g ++ (t ++ u)) ++ r = '(' :: (g ++ (t ++ (u ++ ')' :: r))) := by
        simp only [paren_append, List.append_assoc]
      rw [e, this]
      have hx : Stop (u ++ ')' :: r) := by
        cases h with
        | nil hg => exact .gap hg (.close r)
        | cons hg _ _ => simp only [List.append_assoc]; exact .sep hg _
      have hm : prefixExpr c!"is-violated" parsePrefName ('(' :: (g ++ (t ++ (u ++ ')' :: r)))) = .err := by
        cases hg with
        | nil => rw [List.nil_append]; exact prefixExpr_kw (stripPrefix_word isWord_isViolated hf.1 hx (hne rfl))
        | space hc => exact prefixExpr_kw (stripPrefix_head (not_space hc 'i' rfl))
        | comment => exact prefixExpr_kw (stripPrefix_head (by decide))
      rw [alt_miss (map_err hm)]
      refine alt_hit (map_run (a := (f, ns)) (parens_run ?_))
      have e : ws (spaceSeparatedList0 parseName) = spaceSeparatedList0 parseName := ws_ws _
      rw [e]
      exact parens_head_list hg hf (h.mono fun t h _ => h.mono fun _ _ h _ => h.elem) parseName_close r
    | @bare f t hf hne =>
      have hw := metricRest_word hf hr
      have h3 : tag c!"total-time" (t ++ r) = .err :=
        tag_err (stripPrefix_word isWord_totalTime hf.1 hr (hne rfl))
      obtain ⟨c, cs, rfl, hc, hcs⟩ := hf.1
      have h1 : c ≠ '(' := by rintro rfl; exact absurd hc (by decide)
      have h2 := (isAlpha_solid hc).2
      rw [List.cons_append] at h3 hw ⊢
      rw [alt_miss (map_err (parseNumber_alpha _ hc)),
        alt_miss (map_err (parens_head h2 h1)), alt_miss (mapExpect_err (parens_head h2 h1)),
        alt_miss (map_err (parens_head h2 h1)), alt_miss (map_err h3)]
      exact hw

theorem MetricW.elem {e : MetricFExp} {t : List Char} (h : MetricW .strict e t) :
    Elem parseMetricFExp e t := ⟨MetricW.acc_aux _ e t (Nat.le_refl _) h, h.solid⟩

theorem Optimization.elem (o : Optimization) : Elem parseOptimization o o.spell :=
  ⟨fun r _ => by cases o <;> rfl, by cases o <;> exact .cons (by decide) (by decide) _⟩

theorem MetricSpecW.full {e : MetricSpec} {t : List Char} (h : MetricSpecW .strict e t) :
    Full parseProblemMetricSpec e t := by
  cases h with
  | @mk g1 o g2 e t g3 hg1 hg2 h hg3 =>
    refine ⟨fun r _ => ?_, solid_paren _⟩
    exact map_run (a := (o, e)) (prefix_two_sp (Mode.word.gap hg1) o.elem.1 o.elem.2 hg2 h.elem.1
      h.elem.2 hg3 r trivial)

end Pddl
