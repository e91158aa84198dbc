import Verif.Meta.Sections

/-!
# Meta-theory: domains and problems are read back
-/

namespace Pddl

/-! ## Missing sections -/

/-- The two keywords differ at some position that both have. -/
def differ : List Char → List Char → Bool
  | a :: as, b :: bs => a != b || differ as bs
  | _, _ => false

theorem stripPrefix_differ : ∀ {kw kw' : List Char}, differ kw kw' = true → ∀ x,
    stripPrefix kw (kw' ++ x) = none
  | [], _, h => by simp [differ] at h
  | _ :: _, [], h => by simp [differ] at h
  | a :: as, b :: bs, h => by
    intro x
    by_cases hab : a = b
    · subst hab
      have h' : differ as bs = true := by simpa [differ] using h
      simp only [List.cons_append, stripPrefix, if_true]
      exact stripPrefix_differ h' x
    · exact stripPrefix_head hab

/-- The text continues with a section that has one of the given keywords, or with `)`. -/
inductive Lead (kws : List (List Char)) : List Char → Prop
  | close {g x} : Gap g → Lead kws (g ++ ')' :: x)
  | sec {g kw x} : Sep g → kw ∈ kws → Lead kws (g ++ '(' :: (kw ++ x))

theorem Lead.mono {kws kws' : List (List Char)} {s : List Char} (h : Lead kws s)
    (hk : ∀ kw ∈ kws, kw ∈ kws') : Lead kws' s := by
  cases h with
  | close hg => exact .close hg
  | sec hg hkw => exact .sec hg (hk _ hkw)

/-- After layout, a parser that skips layout sees the next token. -/
theorem ms1_gap_err {p : P α} {g s : List Char} (hg : Gap g) (hs : Solid s)
    (hp : ∀ x, p (skip x) = p x) (he : p s = .err) : preceded multispace1 p (g ++ s) = .err := by
  have hk := hg.skip_solid hs
  have key : ∀ c g', isSpace c = true → g = c :: g' → preceded multispace1 p (g ++ s) = .err := by
    rintro c g' hc rfl
    rw [List.cons_append] at hk ⊢
    rw [preceded_run (multispace1_cons hc _), ← hp]
    have e : skip ((g' ++ s).dropWhile isSpace) = skip (c :: (g' ++ s)) := by
      rw [skip, skip, List.dropWhile_cons, if_pos (isBlank_space hc), dropWhile_idem]
    rw [e, hk, he]
  cases hg with
  | nil => exact preceded_err (ms1_solid hs)
  | space hc => exact key _ _ hc rfl
  | comment => exact preceded_err (multispace1_err fun c r h => by cases h; decide)

theorem Lead.miss {kws : List (List Char)} {kw s : List Char} {p : P α} (h : Lead kws s)
    (hkw : kws.all (differ kw) = true) : preceded multispace1 (prefixExpr kw p) s = .err := by
  cases h with
  | close hg => exact ms1_gap_err hg (solid_close _) (prefixExpr_skip kw p) serial_close
  | sec hg hm =>
    exact ms1_gap_err hg.gap (solid_open _) (prefixExpr_skip kw p)
      (prefixExpr_kw (stripPrefix_differ (List.all_eq_true.mp hkw _ hm) _))

theorem Lead.opt {kws : List (List Char)} {kw u r : List Char} {R : α → List Char → Prop}
    {o : Option α} (h : OptW Sep R o u) (hR : ∀ v t, R v t → ∃ x, t = '(' :: (kw ++ x))
    (hr : Lead kws r) : Lead (kw :: kws) (u ++ r) := by
  cases h with
  | absent => exact hr.mono fun _ h => List.mem_cons_of_mem _ h
  | present hg h =>
    obtain ⟨x, rfl⟩ := hR _ _ h
    simp only [List.append_assoc, List.cons_append]
    exact .sec hg (by simp)

/-- An optional section. -/
theorem opt_sec {kws : List (List Char)} {kw u r : List Char} {R : α → List Char → Prop}
    {p : P α} {o : Option α} (h : OptW Sep R o u)
    (hR : ∀ v t, R v t → Full (prefixExpr kw p) v t) (hr : Lead kws r)
    (hkw : kws.all (differ kw) = true) :
    opt (preceded multispace1 (prefixExpr kw p)) (u ++ r) = .ok o r := by
  cases h with
  | absent => exact opt_err (hr.miss hkw)
  | present hg h =>
    have := hR _ _ h
    rw [List.append_assoc]
    refine opt_run ?_
    rw [pms1_sep .prefixExpr hg (this.2.append _)]
    exact this.1 _ trivial

/-- An optional section whose value is transformed. -/
theorem opt_sec_map {kws : List (List Char)} {kw u r : List Char} {R : β → List Char → Prop}
    {p : P α} {f : α → β} {o : Option β} (h : OptW Sep R o u)
    (hR : ∀ v t, R v t → Full (map f (prefixExpr kw p)) v t) (hr : Lead kws r)
    (hkw : kws.all (differ kw) = true) :
    opt (preceded multispace1 (map f (prefixExpr kw p))) (u ++ r) = .ok o r := by
  cases h with
  | absent =>
    refine opt_err ?_
    have := hr.miss (p := p) hkw
    simp only [preceded] at this ⊢
    rw [List.nil_append]
    cases hm : multispace1 r with
    | ok a x =>
      rw [hm] at this
      exact map_err this
    | err => rfl
    | _ => rw [hm] at this; cases this
  | present hg h =>
    have := hR _ _ h
    rw [List.append_assoc]
    refine opt_run ?_
    rw [pms1_sep (.map .prefixExpr) hg (this.2.append _)]
    exact this.1 _ trivial

theorem sec_run {g u r : List Char} {p : P α} {v : α} {kw : List Char} (hg : Sep g)
    (h : Full (prefixExpr kw p) v u) :
    preceded multispace1 (prefixExpr kw p) (g ++ (u ++ r)) = .ok v r := by
  rw [pms1_sep .prefixExpr hg (h.2.append _)]
  exact h.1 _ trivial

theorem NonEmptyW.head {kw t : List Char} {lead : List Char → Prop} {R : α → List Char → Prop}
    {v : List α} (h : NonEmptyW kw lead R v t) : ∃ x, t = '(' :: (kw ++ x) := by
  cases h with
  | @mk g1 xs t g2 => exact ⟨g1 ++ (t ++ g2) ++ [')'], by simp [paren]⟩

theorem WrapW.head {kw t : List Char} {lead : List Char → Prop} {R : α → List Char → Prop}
    {v : α} (h : WrapW kw lead R v t) : ∃ x, t = '(' :: (kw ++ x) := by
  cases h with
  | @mk g1 x t g2 => exact ⟨g1 ++ (t ++ g2) ++ [')'], by simp [paren]⟩

theorem TypedNamesW.head {m : Mode} {kw t : List Char} {v : TypedList Name}
    (h : TypedNamesW m kw v t) : ∃ x, t = '(' :: (kw ++ x) := by
  cases h with
  | mk h =>
    rename_i u
    exact ⟨u ++ [')'], by simp only [paren, List.append_assoc]⟩

theorem TypedNamesW.full {kw t : List Char} {v : TypedList Name}
    (h : TypedNamesW .strict kw v t) : Full (prefixExpr kw (typedList parseName)) v t :=
  ⟨h.acc, by cases h; exact solid_paren _⟩

theorem FunctionsW.head {m : Mode} {t : List Char} {v : TypedList Skeleton}
    (h : FunctionsW m v t) : ∃ x, t = '(' :: (c!":functions" ++ x) := by
  cases h with
  | mk h =>
    rename_i u
    exact ⟨u ++ [')'], by simp only [paren, List.append_assoc]⟩

theorem FunctionsW.full {t : List Char} {v : TypedList Skeleton} (h : FunctionsW .strict v t) :
    Full parseFunctionsDef v t := ⟨h.acc, by cases h; exact solid_paren _⟩

theorem MetricSpecW.head {m : Mode} {t : List Char} {v : MetricSpec}
    (h : MetricSpecW m v t) : ∃ x, t = '(' :: (c!":metric" ++ x) := by
  cases h with
  | @mk g1 o g2 e t g3 => exact ⟨g1 ++ (o.spell ++ (g2 ++ (t ++ g3))) ++ [')'], by simp [paren]⟩

theorem LengthW.head {m : Mode} {t : List Char} {v : LengthSpec}
    (h : LengthW m v t) : ∃ x, t = '(' :: (c!":length" ++ x) := by
  cases h with
  | @mk s u1 p u2 g => exact ⟨u1 ++ (u2 ++ g) ++ [')'], by simp [paren]⟩

theorem StructureW.head {m : Mode} {t : List Char} {v : StructureDef} (h : StructureW m v t) :
    ∃ kw ∈ [c!":derived", c!":action", c!":durative-action"], ∃ x, t = '(' :: (kw ++ x) := by
  cases h with
  | derived h => cases h; exact ⟨c!":derived", by simp, _, by simp [paren]; rfl⟩
  | action h => cases h; exact ⟨c!":action", by simp, _, by simp [paren]; rfl⟩
  | durative h => cases h; exact ⟨c!":durative-action", by simp, _, by simp [paren]; rfl⟩

theorem parseStructureDef_close (x : List Char) : parseStructureDef (')' :: x) = .err := by
  have h1 : parseDerivedPredicate (')' :: x) = .err := map_err serial_close
  have h2 : parseActionDef (')' :: x) = .err := map_err serial_close
  have h3 : parseDaDef (')' :: x) = .err := map_err serial_close
  rw [parseStructureDef, alt_miss (map_err h1), alt_miss (map_err h2), alt_miss (map_err h3), alt_nil]

theorem opt_structures {o : Option (List StructureDef)} {u g r : List Char}
    (h : OptW Sep (Items (StructureW .strict)) o u) (hg : Gap g) :
    opt (preceded multispace1 (spaceSeparatedList1 parseStructureDef)) (u ++ (g ++ ')' :: r)) =
      .ok o (g ++ ')' :: r) := by
  have hk := hg.skip_solid (solid_close r)
  cases h with
  | absent =>
    rw [List.nil_append]
    refine opt_err (ms1_gap_err hg (solid_close r) (list1_skip _) (list1_nil ?_))
    rw [(solid_close r).skip, parseStructureDef_close]
  | present hs h =>
    have h' : Items (Elem parseStructureDef) _ _ := h.mono fun _ _ h _ => h.elem
    rw [List.append_assoc]
    refine opt_run ?_
    rw [pms1_sep Ct.spaceSeparatedList1 hs (h'.solid.append _)]
    have := list1_items h' (g := []) .nil (.gap hg (.close r))
      (by rw [hk, parseStructureDef_close])
    simpa using this

theorem structures_head {os : List StructureDef} {t : List Char} (h : Items (StructureW .strict) os t) :
    ∃ kw ∈ [c!":derived", c!":action", c!":durative-action"], ∃ x, t = '(' :: (kw ++ x) := by
  cases h with
  | one h => exact h.head
  | @cons a t g as u h _ _ =>
    obtain ⟨kw, hm, x, rfl⟩ := h.head
    exact ⟨kw, hm, x ++ (g ++ u), by simp only [List.cons_append, List.append_assoc]⟩

theorem Lead.structures {o : Option (List StructureDef)} {u g r : List Char}
    (h : OptW Sep (Items (StructureW .strict)) o u) (hg : Gap g) :
    Lead [c!":derived", c!":action", c!":durative-action"] (u ++ (g ++ ')' :: r)) := by
  cases h with
  | absent => exact .close hg
  | present hs h =>
    obtain ⟨kw, hm, x, rfl⟩ := structures_head h
    simp only [List.append_assoc, List.cons_append]
    exact .sec hs hm

theorem PrefConGDW.full {g : List PrefConGD} {t : List Char} (h : WrapW c!":constraints" Gap (PrefConGDW .strict) g t) :
    Full parseProblemConstraintsDef g t := h.full (fun _ h => h) fun _ _ h => h.elem

/-- `ws2`, on a text that is accepted as a whole. -/
theorem ws2_run {p : P α} {g t r : List Char} {v : α} (hg : Gap g) (hs : Solid t)
    (h : p (t ++ r) = .ok v r) : ws2 p (g ++ (t ++ r)) = .ok v (skip r) := by
  have hx : ∀ s, preceded multispace0 ignoreEolComment s = .ok () (skip s) := by
    intro s
    simp only [preceded, multispace0, takeWhile0, Res.bind, eol_eq, skip]
  have h1 := hx (g ++ (t ++ r))
  rw [hg.skip_solid (hs.append r)] at h1
  exact (preceded_run h1).trans (terminated_run h (hx r))

/-- A domain, read from its text. -/
theorem DomainW.acc {d : Domain} {t : List Char} (h : DomainW .strict d t) {g : List Char} (hg : Gap g)
    (r : List Char) : parseDomain (g ++ (t ++ r)) = .ok d (skip r) := by
  cases h with
  | @mk g1 name tn ext u1 req u2 ty u3 con u4 pre u5 fn u6 cstr u7 st u8 g2 hg1 hn h1 h2 h3 h4 h5 h6
      h7 h8 hg2 =>
    have hn := hn.full (p := parseName) (fun _ h => Mode.word.gap h) fun _ _ h => h.elem
    have l8 := Lead.structures (r := r) h8 hg2
    have l7 := Lead.opt h7 (fun _ _ h => h.head) l8
    have l6 := Lead.opt h6 (fun _ _ h => h.head) l7
    have l5 := Lead.opt h5 (fun _ _ h => h.head) l6
    have l4 := Lead.opt h4 (fun _ _ h => h.head) l5
    have l3 := Lead.opt h3 (fun _ _ h => h.head) l4
    have l2 := Lead.opt h2 (fun _ _ h => h.head) l3
    have hrun : domainParts (tn ++ (u1 ++ (u2 ++ (u3 ++ (u4 ++ (u5 ++ (u6 ++ (u7 ++ (u8 ++
        (g2 ++ ')' :: r)))))))))) =
        .ok (name, ext, req, ty, con, pre, fn, cstr, st) (g2 ++ ')' :: r) :=
      pair_run (hn.1 _ trivial) (pair_run
        (opt_sec h1 (fun _ _ h => ExtendsW.full h) l2 (by decide)) (pair_run
        (opt_sec h2 (fun _ _ h => RequirementsW.full h) l3 (by decide)) (pair_run
        (opt_sec h3 (fun _ _ h => TypedNamesW.full h) l4 (by decide)) (pair_run
        (opt_sec h4 (fun _ _ h => TypedNamesW.full h) l5 (by decide)) (pair_run
        (opt_sec h5 (fun _ _ h => PredicatesW.full h) l6 (by decide)) (pair_run
        (opt_sec h6 (fun _ _ h => FunctionsW.full h) l7 (by decide)) (pair_run
        (opt_sec h7 (fun _ _ h => h.full (fun _ h => h) fun _ _ h => h.elem) l8 (by decide))
        (opt_structures h8 hg2))))))))
    refine map_run (a := (name, ext, req, ty, con, pre, fn, cstr, st)) (ws2_run hg (solid_paren _) ?_)
    simp only [paren_append, List.append_assoc]
    refine prefixExpr_run (y := g2 ++ ')' :: r) ?_ (hg2.skip_solid (solid_close r))
    rw [hg1.skip_solid (hn.2.append _)]
    exact hrun

/-- A problem, read from its text. -/
theorem ProblemW.acc {d : Problem} {t : List Char} (h : ProblemW .strict d t) {g : List Char}
    (hg : Gap g) (r : List Char) : parseProblem (g ++ (t ++ r)) = .ok d (skip r) := by
  cases h with
  | @mk g1 name tn g2 domain td req u1 obj u2 g3 init ti g4 goal tg cstr u3 met u4 len u5 g5
      hg1 hn hg2 hd h1 h2 hg3 hi hg4 hgoal h3 h4 h5 hg5 =>
    have hn := hn.full (p := parseName) (fun _ h => Mode.word.gap h) fun _ _ h => h.elem
    have hd := hd.full (p := parseName) (fun _ h => Mode.word.gap h) fun _ _ h => h.elem
    have hgoal := hgoal.full (p := parsePreGd) (fun _ h => h) fun _ _ h => h.elem
    have l6 : Lead [] (g5 ++ ')' :: r) := .close hg5
    have l5 := Lead.opt h5 (fun _ _ h => h.head) l6
    have l4 := Lead.opt h4 (fun _ _ h => h.head) l5
    have l3 : Lead [c!":init"] (g3 ++ (ti ++ (g4 ++ (tg ++ (u3 ++ (u4 ++ (u5 ++ (g5 ++ ')' :: r)))))))) := by
      cases hi with
      | mk => simp only [paren_append, List.append_assoc]; exact .sec hg3 (by simp)
    have l2 := Lead.opt h2 (fun _ _ h => h.head) l3
    have hrun : problemParts (tn ++ (g2 ++ (td ++ (u1 ++ (u2 ++ (g3 ++ (ti ++ (g4 ++ (tg ++ (u3 ++
        (u4 ++ (u5 ++ (g5 ++ ')' :: r))))))))))))) =
        .ok (name, domain, req, obj, init, goal, cstr, met, len) (g5 ++ ')' :: r) :=
      pair_run (hn.1 _ trivial) (pair_run (sec_run hg2 hd) (pair_run
        (opt_sec h1 (fun _ _ h => RequirementsW.full h) l2 (by decide)) (pair_run
        (opt_sec h2 (fun _ _ h => TypedNamesW.full h) l3 (by decide)) (pair_run
        (sec_run hg3 hi.full) (pair_run (sec_run hg4 hgoal) (pair_run
        (opt_sec h3 (fun _ _ h => PrefConGDW.full h) l4 (by decide)) (pair_run
        (opt_sec_map h4 (fun _ _ h => MetricSpecW.full h) l5 (by decide))
        (opt_sec_map h5 (fun _ _ h => LengthW.full h) l6 (by decide)))))))))
    refine map_run (a := (name, domain, req, obj, init, goal, cstr, met, len))
      (ws2_run hg (solid_paren _) ?_)
    simp only [paren_append, List.append_assoc]
    refine prefixExpr_run (y := g5 ++ ')' :: r) ?_ (hg5.skip_solid (solid_close r))
    rw [hg1.skip_solid (hn.2.append _)]
    exact hrun

end Pddl
