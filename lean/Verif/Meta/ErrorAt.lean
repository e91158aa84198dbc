import Verif.Meta.EraseAll
import Verif.Meta.TraceAll
import Verif.Meta.Top
import Verif.Spec.Position

/-!
# Where errors of domains and problems point
-/

namespace Pddl

/-! ## Parsers with payloads on text where those without succeed -/

theorem Erases.ok {p' : E.P α} {p : P α} (h : Erases p' p) {s : List Char} {a : α} {r : List Char}
    (hs : p s = .ok a r) : p' s = .ok a r := by
  have := h s
  rw [hs] at this
  cases hp : p' s <;> rw [hp] at this <;> simp [E.Res.erase] at this
  simp [this]

theorem Erases.ok' {p' : E.P α} {p : P α} (h : Erases p' p) {s : List Char} {a : α} {r : List Char}
    (hs : p' s = .ok a r) : p s = .ok a r := by
  rw [← h s, hs]
  rfl

theorem layout_run (s : List Char) :
    E.preceded E.multispace0 E.ignoreEolComment s = .ok () (skip s) :=
  (Erases.multispace0.preceded ignoreEolComment_erases).ok (by
    simp only [preceded, multispace0, takeWhile0, Res.bind, eol_eq, skip])

theorem E.ws_eq (p : E.P α) (s : List Char) : E.ws p s = p (skip s) := by
  have := layout_run s
  simp only [E.ws]
  simp only [E.preceded] at this ⊢
  rw [this]
  rfl

/-- The closing parenthesis is missing: the error lies where it should be. -/
theorem E.ws_close {y : List Char} (h : ∀ r, skip y ≠ ')' :: r) :
    E.ws (E.tag c!")") y = .err [⟨skip y, .tag⟩] := by
  rw [E.ws_eq]
  generalize skip y = x at h
  simp only [E.tag]
  cases x with
  | nil => rfl
  | cons c x =>
    have hc : ¬ ')' = c := fun hc => h x (by rw [hc])
    simp [stripPrefix, hc, E.Trace.raise]

theorem E.prefixExpr_open (kw : List Char) (p : E.P α) (s x : List Char) (hs : skip s = '(' :: x) :
    E.prefixExpr kw p s = (E.tag kw x).bind fun _ z =>
      (E.ws p z).bind fun v y => (E.ws (E.tag c!")") y).bind fun _ y' => .ok v y' := by
  simp only [E.prefixExpr, E.delimited, E.preceded, E.terminated, E.ws_eq, hs]
  simp [E.tag, stripPrefix, E.Res.bind]

theorem E.tag_run (t x : List Char) : E.tag t (t ++ x) = .ok t x :=
  Erases.tag.ok (tag_ok t x)

/-- The contents of a form are read, but then its closing parenthesis is missing. -/
theorem E.prefixExpr_noclose {kw : List Char} {p : E.P α} {s x y : List Char} {v : α}
    (hs : skip s = '(' :: (kw ++ x)) (h : p (skip x) = .ok v y) (hy : ∀ r, skip y ≠ ')' :: r) :
    E.prefixExpr kw p s = .err [⟨skip y, .tag⟩] := by
  rw [E.prefixExpr_open kw p s _ hs, E.tag_run]
  simp only [E.Res.bind, E.ws_eq p, h]
  rw [E.ws_close hy]

theorem E.ws2_err {p : E.P α} {s : List Char} {e : E.Trace} (h : p (skip s) = .err e) :
    E.ws2 p s = .err e := by
  have := layout_run s
  simp only [E.ws2, E.delimited]
  simp only [E.preceded] at this ⊢
  rw [this]
  simp only [E.terminated, E.Res.bind, h]

/-! ## Missing sections before an arbitrary text -/

theorem prefixExpr_foreign {K : List (List Char)} {x kw : List Char} {p : P α} (h : Foreign K x)
    (hk : kw ∈ K) : prefixExpr kw p x = .err := by
  rcases h.1 with rfl | ⟨c, y, rfl, h1, h2⟩
  · rfl
  · by_cases hc : c = '('
    · subst hc
      refine prefixExpr_kw ?_
      cases hs : stripPrefix kw y with
      | none => rfl
      | some z =>
        have := Good.stripPrefix_eq hs
        exact absurd (by rw [this]) (h.2.2 kw hk z)
    · exact prefixExpr_head ⟨c, y, rfl, h1, h2⟩ hc

theorem ms1_skip_err {p : P α} (hp : ∀ x, p (skip x) = p x) {y : List Char}
    (he : p (skip y) = .err) : preceded multispace1 p y = .err := by
  cases y with
  | nil => rfl
  | cons c y =>
    cases hc : isSpace c with
    | false => exact preceded_err (multispace1_err fun d r h => by cases h; exact hc)
    | true =>
      rw [preceded_run (multispace1_cons hc _), ← hp]
      have e : skip (y.dropWhile isSpace) = skip (c :: y) := by
        rw [skip, skip, List.dropWhile_cons, if_pos hc, dropWhile_idem]
      rw [e, he]

/-- The text continues with a section that has one of the keywords `kws`, or with a foreign text. -/
inductive LeadF (K kws : List (List Char)) : List Char → Prop
  | tail {y} : Foreign K (skip y) → LeadF K kws y
  | sec {g kw x} : Sep g → kw ∈ kws → LeadF K kws (g ++ '(' :: (kw ++ x))

namespace LeadF

variable {K kws : List (List Char)} {kw : List Char}

theorem mono {kws' : List (List Char)} {s : List Char} (h : LeadF K kws s)
    (hk : ∀ kw ∈ kws, kw ∈ kws') : LeadF K kws' s := by
  cases h with
  | tail hg => exact .tail hg
  | sec hg hkw => exact .sec hg (hk _ hkw)

theorem miss {s : List Char} {p : P α} (h : LeadF K kws s) (hK : kw ∈ K)
    (hkw : kws.all (differ kw) = true) : preceded multispace1 (prefixExpr kw p) s = .err := by
  cases h with
  | tail hf => exact ms1_skip_err (prefixExpr_skip kw p) (prefixExpr_foreign hf hK)
  | sec hg hm =>
    exact ms1_gap_err hg.gap (solid_open _) (prefixExpr_skip kw p)
      (prefixExpr_kw (stripPrefix_differ (List.all_eq_true.mp hkw _ hm) _))

theorem opt {u r : List Char} {R : α → List Char → Prop} {o : Option α} (h : OptW Sep R o u)
    (hR : ∀ v t, R v t → ∃ x, t = '(' :: (kw ++ x)) (hr : LeadF K kws r) :
    LeadF K (kw :: kws) (u ++ r) := by
  cases h with
  | absent => exact hr.mono fun _ h => List.mem_cons_of_mem _ h
  | present hg h =>
    obtain ⟨x, rfl⟩ := hR _ _ h
    simp only [List.append_assoc, List.cons_append]
    exact .sec hg (by simp)

theorem opt_sec {u r : List Char} {R : α → List Char → Prop} {p : P α} {o : Option α}
    (h : OptW Sep R o u) (hR : ∀ v t, R v t → Full (prefixExpr kw p) v t) (hr : LeadF K kws r)
    (hK : kw ∈ K) (hkw : kws.all (differ kw) = true) :
    Pddl.opt (preceded multispace1 (prefixExpr kw p)) (u ++ r) = .ok o r := by
  cases h with
  | absent => exact opt_err (hr.miss hK hkw)
  | present hg h =>
    have := hR _ _ h
    rw [List.append_assoc]
    refine opt_run ?_
    rw [pms1_sep .prefixExpr hg (this.2.append _)]
    exact this.1 _ trivial

theorem opt_sec_map {u r : List Char} {R : β → List Char → Prop} {p : P α} {f : α → β}
    {o : Option β} (h : OptW Sep R o u)
    (hR : ∀ v t, R v t → Full (map f (prefixExpr kw p)) v t) (hr : LeadF K kws r)
    (hK : kw ∈ K) (hkw : kws.all (differ kw) = true) :
    Pddl.opt (preceded multispace1 (map f (prefixExpr kw p))) (u ++ r) = .ok o r := by
  cases h with
  | absent =>
    refine opt_err ?_
    have := hr.miss (p := p) hK hkw
    simp only [preceded] at this ⊢
    rw [List.nil_append]
    cases hm : multispace1 r with
    | ok a x =>
      rw [hm] at this
      exact map_err this
    | err => rfl
    | _ => rw [hm] at this; cases this
  | present hg h =>
    have := hR _ _ h
    rw [List.append_assoc]
    refine opt_run ?_
    rw [pms1_sep (.map .prefixExpr) hg (this.2.append _)]
    exact this.1 _ trivial

end LeadF

theorem structure_foreign {x : List Char} (h : Foreign domainKeywords x) :
    parseStructureDef x = .err := by
  have h1 : parseDerivedPredicate x = .err := map_err (prefixExpr_foreign h (by decide))
  have h2 : parseActionDef x = .err := map_err (prefixExpr_foreign h (by decide))
  have h3 : parseDaDef x = .err := map_err (prefixExpr_foreign h (by decide))
  rw [parseStructureDef, alt_miss (map_err h1), alt_miss (map_err h2), alt_miss (map_err h3), alt_nil]

theorem opt_structures_foreign {o : Option (List StructureDef)} {u y : List Char}
    (h : OptW Sep (Items (StructureW .strict)) o u) (hy : Stop y)
    (hf : Foreign domainKeywords (skip y)) :
    opt (preceded multispace1 (spaceSeparatedList1 parseStructureDef)) (u ++ y) = .ok o y := by
  have he := structure_foreign hf
  cases h with
  | absent =>
    rw [List.nil_append]
    exact opt_err (ms1_skip_err (list1_skip _) (by rw [list1_skip]; exact list1_nil he))
  | present hs h =>
    have h' : Items (Elem parseStructureDef) _ _ := h.mono fun _ _ h _ => h.elem
    rw [List.append_assoc]
    refine opt_run ?_
    rw [pms1_sep Ct.spaceSeparatedList1 hs (h'.solid.append _)]
    have := list1_items h' (g := []) .nil hy he
    simpa using this

theorem LeadF.structures {o : Option (List StructureDef)} {u y : List Char}
    (h : OptW Sep (Items (StructureW .strict)) o u) (hf : Foreign domainKeywords (skip y)) :
    LeadF domainKeywords [c!":derived", c!":action", c!":durative-action"] (u ++ y) := by
  cases h with
  | absent => exact .tail hf
  | present hs h =>
    obtain ⟨kw, hm, x, rfl⟩ := structures_head h
    simp only [List.append_assoc, List.cons_append]
    exact .sec hs hm

theorem Foreign.skip_eq {K : List (List Char)} {g x : List Char} (hg : Gap g) (h : Foreign K x) :
    skip (g ++ x) = x := by
  rcases h.1 with rfl | hs
  · rw [hg.skip]; rfl
  · exact hg.skip_solid hs

/-- A well-written domain with a foreign text in place of its closing parenthesis. -/
theorem DomainW.error {d : Domain} {t : List Char} (h : DomainW .strict d (t ++ [')']))
    {g g' x : List Char} (hg : Gap g) (hg' : Gap g') (hx : Foreign domainKeywords x)
    (hs : Stop (g' ++ x)) : E.parseDomain (g ++ (t ++ (g' ++ x))) = .err [⟨x, .tag⟩] := by
  generalize hT : t ++ [')'] = T at h
  cases h with
  | @mk g1 name tn ext u1 req u2 ty u3 con u4 pre u5 fn u6 cstr u7 st u8 g2 hg1 hn h1 h2 h3 h4 h5 h6
      h7 h8 hg2 =>
    have hn := hn.full (p := parseName) (fun _ h => Mode.word.gap h) fun _ _ h => h.elem
    have ht : t = '(' :: (c!"define" ++ (g1 ++ (tn ++ (u1 ++ (u2 ++ (u3 ++ (u4 ++ (u5 ++ (u6 ++
        (u7 ++ (u8 ++ g2))))))))))) := by
      simp only [paren] at hT
      exact List.append_cancel_right (hT.trans (by simp))
    subst ht
    have hskip : skip (g2 ++ (g' ++ x)) = x := by
      rw [← List.append_assoc]; exact hx.skip_eq (hg2.append hg')
    have hstop : Stop (g2 ++ (g' ++ x)) := .gap hg2 hs
    generalize hy : g2 ++ (g' ++ x) = y at hskip hstop
    have hf : Foreign domainKeywords (skip y) := by rw [hskip]; exact hx
    have l8 := LeadF.structures (y := y) h8 hf
    have l7 := LeadF.opt h7 (fun _ _ h => h.head) l8
    have l6 := LeadF.opt h6 (fun _ _ h => h.head) l7
    have l5 := LeadF.opt h5 (fun _ _ h => h.head) l6
    have l4 := LeadF.opt h4 (fun _ _ h => h.head) l5
    have l3 := LeadF.opt h3 (fun _ _ h => h.head) l4
    have l2 := LeadF.opt h2 (fun _ _ h => h.head) l3
    have hrun : domainParts (tn ++ (u1 ++ (u2 ++ (u3 ++ (u4 ++ (u5 ++ (u6 ++ (u7 ++ (u8 ++
        y))))))))) = .ok (name, ext, req, ty, con, pre, fn, cstr, st) y :=
      pair_run (hn.1 _ trivial) (pair_run
        (LeadF.opt_sec h1 (fun _ _ h => ExtendsW.full h) l2 (by decide) (by decide)) (pair_run
        (LeadF.opt_sec h2 (fun _ _ h => RequirementsW.full h) l3 (by decide) (by decide)) (pair_run
        (LeadF.opt_sec h3 (fun _ _ h => TypedNamesW.full h) l4 (by decide) (by decide)) (pair_run
        (LeadF.opt_sec h4 (fun _ _ h => TypedNamesW.full h) l5 (by decide) (by decide)) (pair_run
        (LeadF.opt_sec h5 (fun _ _ h => PredicatesW.full h) l6 (by decide) (by decide)) (pair_run
        (LeadF.opt_sec h6 (fun _ _ h => FunctionsW.full h) l7 (by decide) (by decide)) (pair_run
        (LeadF.opt_sec h7 (fun _ _ h => h.full (fun _ h => h) fun _ _ h => h.elem) l8 (by decide)
          (by decide))
        (opt_structures_foreign h8 hstop hf))))))))
    have hrun' := domainParts_erases.ok hrun
    have e : g ++ ('(' :: (c!"define" ++ (g1 ++ (tn ++ (u1 ++ (u2 ++ (u3 ++ (u4 ++ (u5 ++ (u6 ++
        (u7 ++ (u8 ++ g2))))))))))) ++ (g' ++ x)) =
        g ++ ('(' :: (c!"define" ++ (g1 ++ (tn ++ (u1 ++ (u2 ++ (u3 ++ (u4 ++ (u5 ++ (u6 ++
          (u7 ++ (u8 ++ y)))))))))))) := by
      rw [← hy]; simp
    rw [e]
    have hE : E.prefixExpr c!"define" E.domainParts ('(' :: (c!"define" ++ (g1 ++ (tn ++ (u1 ++ (u2 ++
        (u3 ++ (u4 ++ (u5 ++ (u6 ++ (u7 ++ (u8 ++ y)))))))))))) = .err [⟨x, .tag⟩] := by
      have := E.prefixExpr_noclose (p := E.domainParts) (kw := c!"define") (y := y)
        (hs := (solid_open _).skip) (x := g1 ++ (tn ++ (u1 ++ (u2 ++
          (u3 ++ (u4 ++ (u5 ++ (u6 ++ (u7 ++ (u8 ++ y)))))))))) (v := _)
        (by rw [hg1.skip_solid (hn.2.append _)]; exact hrun') (by rw [hskip]; exact hx.2.1)
      rw [this, hskip]
    simp only [E.parseDomain, E.map]
    rw [E.ws2_err (e := [⟨x, .tag⟩]) (by rw [hg.skip_solid (solid_open _)]; exact hE)]
    rfl

/-- A well-written problem with a foreign text in place of its closing parenthesis. -/
theorem ProblemW.error {d : Problem} {t : List Char} (h : ProblemW .strict d (t ++ [')']))
    {g g' x : List Char} (hg : Gap g) (hg' : Gap g') (hx : Foreign problemKeywords x) :
    E.parseProblem (g ++ (t ++ (g' ++ x))) = .err [⟨x, .tag⟩] := by
  generalize hT : t ++ [')'] = T at h
  cases h with
  | @mk g1 name tn g2 domain td req u1 obj u2 g3 init ti g4 goal tg cstr u3 met u4 len u5 g5
      hg1 hn hg2 hd h1 h2 hg3 hi hg4 hgoal h3 h4 h5 hg5 =>
    have hn := hn.full (p := parseName) (fun _ h => Mode.word.gap h) fun _ _ h => h.elem
    have hd := hd.full (p := parseName) (fun _ h => Mode.word.gap h) fun _ _ h => h.elem
    have hgoal := hgoal.full (p := parsePreGd) (fun _ h => h) fun _ _ h => h.elem
    have ht : t = '(' :: (c!"define" ++ (g1 ++ (tn ++ (g2 ++ (td ++ (u1 ++ (u2 ++ (g3 ++ (ti ++
        (g4 ++ (tg ++ (u3 ++ (u4 ++ (u5 ++ g5)))))))))))))) := by
      simp only [paren] at hT
      exact List.append_cancel_right (hT.trans (by simp))
    subst ht
    have hskip : skip (g5 ++ (g' ++ x)) = x := by
      rw [← List.append_assoc]; exact hx.skip_eq (hg5.append hg')
    generalize hy : g5 ++ (g' ++ x) = y at hskip
    have hf : Foreign problemKeywords (skip y) := by rw [hskip]; exact hx
    have l6 : LeadF problemKeywords [] y := .tail hf
    have l5 := LeadF.opt h5 (fun _ _ h => h.head) l6
    have l4 := LeadF.opt h4 (fun _ _ h => h.head) l5
    have l3 : Lead [c!":init"] (g3 ++ (ti ++ (g4 ++ (tg ++ (u3 ++ (u4 ++ (u5 ++ y))))))) := by
      cases hi with
      | mk => simp only [paren_append, List.append_assoc]; exact .sec hg3 (by simp)
    have l2 := Lead.opt h2 (fun _ _ h => h.head) l3
    have hrun : problemParts (tn ++ (g2 ++ (td ++ (u1 ++ (u2 ++ (g3 ++ (ti ++ (g4 ++ (tg ++ (u3 ++
        (u4 ++ (u5 ++ y)))))))))))) =
        .ok (name, domain, req, obj, init, goal, cstr, met, len) y :=
      pair_run (hn.1 _ trivial) (pair_run (sec_run hg2 hd) (pair_run
        (opt_sec h1 (fun _ _ h => RequirementsW.full h) l2 (by decide)) (pair_run
        (opt_sec h2 (fun _ _ h => TypedNamesW.full h) l3 (by decide)) (pair_run
        (sec_run hg3 hi.full) (pair_run (sec_run hg4 hgoal) (pair_run
        (LeadF.opt_sec h3 (fun _ _ h => PrefConGDW.full h) l4 (by decide) (by decide)) (pair_run
        (LeadF.opt_sec_map h4 (fun _ _ h => MetricSpecW.full h) l5 (by decide) (by decide))
        (LeadF.opt_sec_map h5 (fun _ _ h => LengthW.full h) l6 (by decide) (by decide)))))))))
    have hrun' := problemParts_erases.ok hrun
    have e : g ++ ('(' :: (c!"define" ++ (g1 ++ (tn ++ (g2 ++ (td ++ (u1 ++ (u2 ++ (g3 ++ (ti ++
        (g4 ++ (tg ++ (u3 ++ (u4 ++ (u5 ++ g5)))))))))))))) ++ (g' ++ x)) =
        g ++ ('(' :: (c!"define" ++ (g1 ++ (tn ++ (g2 ++ (td ++ (u1 ++ (u2 ++ (g3 ++ (ti ++
          (g4 ++ (tg ++ (u3 ++ (u4 ++ (u5 ++ y))))))))))))))) := by
      rw [← hy]; simp
    rw [e]
    have hE : E.prefixExpr c!"define" E.problemParts ('(' :: (c!"define" ++ (g1 ++ (tn ++ (g2 ++
        (td ++ (u1 ++ (u2 ++ (g3 ++ (ti ++ (g4 ++ (tg ++ (u3 ++ (u4 ++ (u5 ++ y)))))))))))))))
        = .err [⟨x, .tag⟩] := by
      have := E.prefixExpr_noclose (p := E.problemParts) (kw := c!"define") (y := y)
        (hs := (solid_open _).skip) (x := g1 ++ (tn ++ (g2 ++
        (td ++ (u1 ++ (u2 ++ (g3 ++ (ti ++ (g4 ++ (tg ++ (u3 ++ (u4 ++ (u5 ++ y))))))))))))) (v := _)
        (by rw [hg1.skip_solid (hn.2.append _)]; exact hrun') (by rw [hskip]; exact hx.2.1)
      rw [this, hskip]
    simp only [E.parseProblem, E.map]
    rw [E.ws2_err (e := [⟨x, .tag⟩]) (by rw [hg.skip_solid (solid_open _)]; exact hE)]
    rfl

end Pddl
