import Verif.Props.ActionsX

/-!
# C85: the exact texts of domains and problems
-/

namespace Pddl

/-! ## Sections -/

/-- A typed list of names behind a keyword. -/
def NamesX (kw : List Char) (xs : TypedList Name) (t : List Char) : Prop :=
  ∃ w g, t = paren (kw ++ (w ++ g)) ∧ TypedX NameW Apart objectTy xs w ∧ Gap g

/-- The functions of a domain. -/
def FunctionsX (xs : TypedList Skeleton) (t : List Char) : Prop :=
  ∃ w g, t = paren (c!":functions" ++ (w ++ g)) ∧ TypedX SkeletonX (fun _ => True) numberTy xs w ∧ Gap g

/-- `(kw x1 .. xn)` with at least one element; no blank is needed behind the keyword. -/
abbrev SomeX (kw : List Char) (R : α → List Char → Prop) := NonEmptyW kw Gap R

/-- `(kw x)`; no blank is needed behind the keyword. -/
abbrev OneX (kw : List Char) (R : α → List Char → Prop) := WrapW kw Gap R

/-- The parser `p` reads exactly the texts `R`, and these begin with the keyword. -/
structure Section (p : P α) (kw : List Char) (R : α → List Char → Prop) : Prop where
  iff : ∀ s v r, p s = .ok v r ↔ ∃ g t, s = g ++ (t ++ r) ∧ Gap g ∧ R v t
  head : ∀ v t, R v t → ∃ x, t = '(' :: (kw ++ x)

namespace Section
variable {p : P α} {kw : List Char} {R : α → List Char → Prop}

theorem snd (H : Section p kw R) : Snd Any Gap p R := fun s v r h _ => (H.iff s v r).mp h

theorem full (H : Section p kw R) (v : α) (t : List Char) (h : R v t) : Full p v t :=
  ⟨fun r _ => (H.iff _ _ _).mpr ⟨[], t, rfl, .nil, h⟩, by
    obtain ⟨x, rfl⟩ := H.head v t h
    exact solid_open _⟩

end Section

theorem section_one {p : P α} {kw : List Char} {R : α → List Char → Prop} (hs : Snd Any Gap p R)
    (he : ∀ v t, R v t → Elem p v t) : Section (prefixExpr kw p) kw (OneX kw R) where
  iff s v r := by
    constructor
    · exact fun h => wrap_snd (F := Any) hs s v r h trivial
    · rintro ⟨g, t, rfl, hg, h⟩
      rw [prefix_lead hg]
      exact (h.full (fun _ h => h) he).1 r trivial
  head _ _ h := h.head

theorem section_some {p : P α} {kw : List Char} {R : α → List Char → Prop} (hs : Snd Any Gap p R)
    (he : ∀ v t, R v t → Elem p v t) (hp : ∀ x, p (')' :: x) = .err) :
    Section (prefixExpr kw (spaceSeparatedList1 p)) kw (SomeX kw R) where
  iff s v r := by
    constructor
    · exact fun h => nonEmpty_snd (F := Any) hs (fun v t h => (he v t h).2.ne) s v r h trivial
    · rintro ⟨g, t, rfl, hg, h⟩
      rw [prefix_lead hg]
      exact (h.full (fun _ h => h) he hp).1 r trivial
  head _ _ h := h.head

theorem extends_section : Section (prefixExpr c!":extends" (spaceSeparatedList1 parseName)) c!":extends"
    (SomeX c!":extends" NameW) := section_some parseName_snd (fun _ _ h => h.elem) parseName_close

theorem requirements_section : Section parseRequireDef c!":requirements" (SomeX c!":requirements" KeyW) where
  iff s v r := by
    constructor
    · exact fun h => parseRequireDef_snd s v r h trivial
    · rintro ⟨g, t, rfl, hg, h⟩
      rw [parseRequireDef, prefix_lead hg]
      exact (h.full (fun _ h => h) (fun _ _ h => KeyW.elem h) parseRequireKey_close).1 r trivial
  head _ _ h := h.head

theorem names_section {p : P (TypedList Name)} {kw : List Char}
    (h : ∀ s xs r, p s = .ok xs r ↔ ∃ g w g', s = g ++ (paren (kw ++ (w ++ g')) ++ r) ∧
      Gap g ∧ TypedX NameW Apart objectTy xs w ∧ Gap g') : Section p kw (NamesX kw) where
  iff s v r := by
    rw [h]
    constructor
    · rintro ⟨g, w, g', e, hg, hw, hg'⟩
      exact ⟨g, _, e, hg, w, g', rfl, hw, hg'⟩
    · rintro ⟨g, _, e, hg, w, g', rfl, hw, hg'⟩
      exact ⟨g, w, g', e, hg, hw, hg'⟩
  head := by
    rintro v _ ⟨w, g', rfl, _, _⟩
    exact ⟨w ++ g' ++ [')'], by simp [paren]⟩

theorem types_section : Section parseTypesDef c!":types" (NamesX c!":types") :=
  names_section fun s xs r => (C78_name_sections s xs r).1

theorem constants_section : Section parseConstantsDef c!":constants" (NamesX c!":constants") :=
  names_section fun s xs r => (C78_name_sections s xs r).2.1

theorem objects_section : Section parseProblemObjectsDeclaration c!":objects" (NamesX c!":objects") :=
  names_section fun s xs r => (C78_name_sections s xs r).2.2

theorem predicates_section : Section parsePredicatesDef c!":predicates" (SomeX c!":predicates" SkeletonX) where
  iff s v r := by
    rw [C78_predicates]
    constructor
    · rintro ⟨g, g1, u, g2, e, hg, hg1, hu, hg2⟩
      exact ⟨g, _, e, hg, .mk hg1 hu hg2⟩
    · rintro ⟨g, t, e, hg, h⟩
      cases h with
      | mk hg1 hu hg2 => exact ⟨g, _, _, _, e, hg, hg1, hu, hg2⟩
  head _ _ h := h.head

theorem functions_section : Section parseFunctionsDef c!":functions" FunctionsX where
  iff s v r := by
    rw [C78_functions]
    constructor
    · rintro ⟨g, w, g', e, hg, hw, hg'⟩
      exact ⟨g, _, e, hg, w, g', rfl, hw, hg'⟩
    · rintro ⟨g, _, e, hg, w, g', rfl, hw, hg'⟩
      exact ⟨g, w, g', e, hg, hw, hg'⟩
  head := by
    rintro v _ ⟨w, g', rfl, _, _⟩
    exact ⟨w ++ g' ++ [')'], by simp [paren]⟩

theorem wrapped_section {p : P α} {kw : List Char} {R : α → List Char → Prop}
    (h : ∀ s v r, p s = .ok v r ↔ ∃ g t, s = g ++ (t ++ r) ∧ Gap g ∧ Wrapped kw R v t) : Section p kw (Wrapped kw R) where
  iff := h
  head := by
    rintro v _ ⟨g1, x, g2, rfl, _⟩
    exact ⟨g1 ++ (x ++ g2) ++ [')'], by simp [paren]⟩

theorem constraints_section : Section parseDomainConstraintsDef c!":constraints" (Wrapped c!":constraints" ConX) :=
  wrapped_section C82_domain_section

theorem prefConstraints_section :
    Section parseProblemConstraintsDef c!":constraints" (Wrapped c!":constraints" PrefConX) :=
  wrapped_section C82_problem_section

theorem goal_section : Section parseProblemGoalDef c!":goal" (Wrapped c!":goal" (PreX [])) :=
  wrapped_section C80_goal_section

theorem init_section : Section parseProblemInitDef c!":init" InitSectionX where
  iff := C77_initial_states
  head := by
    intro v t h
    cases h with
    | @nil g => exact ⟨g ++ [')'], by simp [paren]⟩
    | @cons g1 es u g2 => exact ⟨g1 ++ (u ++ g2) ++ [')'], by simp [paren]⟩

theorem metric_section : Section parseProblemMetricSpec c!":metric" MetricSpecX where
  iff := C77_metrics
  head := by
    intro v t h
    cases h with
    | @mk g1 o b g e t g2 => exact ⟨g1 ++ (o.spell ++ (b ++ (g ++ (t ++ g2)))) ++ [')'], by simp [paren]⟩

/-- The length section: both parts optional, with any layout or none around them. -/
inductive LengthX : LengthSpec → List Char → Prop
  | mk {s u1 p u2 g} : OptW Gap (OneX c!":serial" U64W) s u1 → OptW Gap (OneX c!":parallel" U64W) p u2 → Gap g →
      LengthX ⟨s, p⟩ (paren (c!":length" ++ (u1 ++ (u2 ++ g))))

theorem lengthX_iff {v : LengthSpec} {t : List Char} : LengthW .loose v t ↔ LengthX v t :=
  ⟨fun h => by cases h with | mk h1 h2 h3 => exact .mk h1 h2 h3,
    fun h => by cases h with | mk h1 h2 h3 => exact .mk h1 h2 h3⟩

theorem length_section : Section parseProblemLengthSpec c!":length" LengthX where
  iff s v r := by
    constructor
    · intro h
      obtain ⟨g, t, e, hg, k⟩ := parseProblemLengthSpec_snd s v r h trivial
      exact ⟨g, t, e, hg, lengthX_iff.mp k⟩
    · rintro ⟨g, t, rfl, hg, h⟩
      rw [parseProblemLengthSpec, map_prefix_lead hg]
      exact (lengthX_iff.mpr h).full.1 r trivial
  head _ _ h := (lengthX_iff.mpr h).head

/-! ## Domains -/

/-- The accepted texts of a domain: the name, the sections in this order, each at most once, and the actions and
derived predicates. What is missing is empty. -/
inductive DomainX : Domain → List Char → Prop
  | mk {g1 name tn ext u1 req u2 ty u3 con u4 pre u5 fn u6 cstr u7 st u8 g2} :
      Gap g1 → OneX c!"domain" NameW name tn →
      OptW Sep (SomeX c!":extends" NameW) ext u1 →
      OptW Sep (SomeX c!":requirements" KeyW) req u2 →
      OptW Sep (NamesX c!":types") ty u3 →
      OptW Sep (NamesX c!":constants") con u4 →
      OptW Sep (SomeX c!":predicates" SkeletonX) pre u5 →
      OptW Sep FunctionsX fn u6 →
      OptW Sep (Wrapped c!":constraints" ConX) cstr u7 →
      OptW Sep (Items StructureX) st u8 → Gap g2 →
      DomainX
        { name, extends_ := ext.getD [], requirements := req.getD [], types := ty.getD [],
          constants := con.getD [], predicates := pre.getD [], functions := fn.getD [],
          constraints := cstr.getD (.and []), timeless := [], structure_ := st.getD [] }
        (paren (c!"define" ++ (g1 ++ (tn ++ (u1 ++ (u2 ++ (u3 ++ (u4 ++ (u5 ++ (u6 ++ (u7 ++
          (u8 ++ g2))))))))))))

theorem StructureX.full {v : StructureDef} {t : List Char} (h : StructureX v t) : Full parseStructureDef v t :=
  structure_texts.full v t ⟨.nil, h⟩

theorem StructureX.head {v : StructureDef} {t : List Char} (h : StructureX v t) :
    ∃ kw ∈ [c!":derived", c!":action", c!":durative-action"], ∃ x, t = '(' :: (kw ++ x) := by
  have hk : ∀ {kw t : List Char}, Head kw t → ∃ x, t = '(' :: (kw ++ x) := by
    rintro kw _ ⟨u, rfl⟩
    exact ⟨u ++ [')'], by simp [paren]⟩
  cases h with
  | derived h => exact ⟨c!":derived", by simp, hk h.head⟩
  | action h => exact ⟨c!":action", by simp, hk h.head⟩
  | durative h => exact ⟨c!":durative-action", by simp, hk h.head⟩

theorem opt_structuresX {o : Option (List StructureDef)} {u g r : List Char}
    (h : OptW Sep (Items StructureX) o u) (hg : Gap g) :
    opt (preceded multispace1 (spaceSeparatedList1 parseStructureDef)) (u ++ (g ++ ')' :: r)) =
      .ok o (g ++ ')' :: r) := by
  have hk := hg.skip_solid (solid_close r)
  cases h with
  | absent =>
    rw [List.nil_append]
    refine opt_err (ms1_gap_err hg (solid_close r) (list1_skip _) (list1_nil ?_))
    rw [(solid_close r).skip, parseStructureDef_close]
  | present hs h =>
    have h' : Items (Elem parseStructureDef) _ _ := h.mono fun _ _ h _ => h.full.elem
    rw [List.append_assoc]
    refine opt_run ?_
    rw [pms1_sep Ct.spaceSeparatedList1 hs (h'.solid.append _)]
    have := list1_items h' (g := []) .nil (.gap hg (.close r))
      (by rw [hk, parseStructureDef_close])
    simpa using this

theorem Lead.structuresX {o : Option (List StructureDef)} {u g r : List Char}
    (h : OptW Sep (Items StructureX) o u) (hg : Gap g) :
    Lead [c!":derived", c!":action", c!":durative-action"] (u ++ (g ++ ')' :: r)) := by
  cases h with
  | absent => exact .close hg
  | @present _ _ t hs h =>
    have : ∃ kw ∈ [c!":derived", c!":action", c!":durative-action"], ∃ x, t = '(' :: (kw ++ x) := by
      cases h with
      | one h => exact h.head
      | @cons a t g as u h _ _ =>
        obtain ⟨kw, hm, x, rfl⟩ := h.head
        exact ⟨kw, hm, x ++ (g ++ u), by simp only [List.cons_append, List.append_assoc]⟩
    obtain ⟨kw, hm, x, rfl⟩ := this
    simp only [List.append_assoc, List.cons_append]
    exact .sec hs hm

theorem domainX_run {d : Domain} {t : List Char} (h : DomainX d t) {g : List Char} (hg : Gap g)
    (r : List Char) : parseDomain (g ++ (t ++ r)) = .ok d (skip r) := by
  cases h with
  | @mk g1 name tn ext u1 req u2 ty u3 con u4 pre u5 fn u6 cstr u7 st u8 g2 hg1 hn h1 h2 h3 h4 h5 h6
      h7 h8 hg2 =>
    have hn := hn.full (p := parseName) (fun _ h => h) fun _ _ h => h.elem
    have l8 := Lead.structuresX (r := r) h8 hg2
    have l7 := Lead.opt h7 constraints_section.head l8
    have l6 := Lead.opt h6 functions_section.head l7
    have l5 := Lead.opt h5 predicates_section.head l6
    have l4 := Lead.opt h4 constants_section.head l5
    have l3 := Lead.opt h3 types_section.head l4
    have l2 := Lead.opt h2 requirements_section.head l3
    have hrun : domainParts (tn ++ (u1 ++ (u2 ++ (u3 ++ (u4 ++ (u5 ++ (u6 ++ (u7 ++ (u8 ++
        (g2 ++ ')' :: r)))))))))) =
        .ok (name, ext, req, ty, con, pre, fn, cstr, st) (g2 ++ ')' :: r) :=
      pair_run (hn.1 _ trivial) (pair_run
        (opt_sec h1 extends_section.full l2 (by decide)) (pair_run
        (opt_sec h2 requirements_section.full l3 (by decide)) (pair_run
        (opt_sec h3 types_section.full l4 (by decide)) (pair_run
        (opt_sec h4 constants_section.full l5 (by decide)) (pair_run
        (opt_sec h5 predicates_section.full l6 (by decide)) (pair_run
        (opt_sec h6 functions_section.full l7 (by decide)) (pair_run
        (opt_sec h7 constraints_section.full l8 (by decide))
        (opt_structuresX h8 hg2))))))))
    refine map_run (a := (name, ext, req, ty, con, pre, fn, cstr, st)) (ws2_run hg (solid_paren _) ?_)
    simp only [paren_append, List.append_assoc]
    refine prefixExpr_run (y := g2 ++ ')' :: r) ?_ (hg2.skip_solid (solid_close r))
    rw [hg1.skip_solid (hn.2.append _)]
    exact hrun

theorem domainPartsX_snd : Snd NE Gap domainParts (fun x t => ∀ g1 g2, Gap g1 → Gap g2 →
    DomainX (domainOf x) (paren (c!"define" ++ (g1 ++ (t ++ g2))))) := by
  have hs {α} {p : P α} {R : α → List Char → Prop} (h : Snd Any Gap p R) :
      Snd Any Nil (opt (preceded multispace1 p)) (OptW Sep R) := Snd.opt (Snd.ms1 h fun _ => id)
  refine (Snd.pair (wrap_snd parseName_snd) (Snd.pair (hs extends_section.snd)
    (Snd.pair (hs requirements_section.snd) (Snd.pair (hs types_section.snd) (Snd.pair (hs constants_section.snd)
    (Snd.pair (hs predicates_section.snd) (Snd.pair (hs functions_section.snd)
    (Snd.pair (hs constraints_section.snd)
      (hs (Snd.list1 (structure_texts.snd.mono (fun _ => id) (fun _ => id) fun _ _ h => h.2)
        fun _ _ h => h.full.2.ne)).anyF)))))))).mono
      (fun _ => id) (fun _ => id) ?_
  rintro ⟨name, ext, req, ty, con, pre, fn, cstr, st⟩ t ⟨tn, _, _, rfl, h1, rfl,
    u1, _, _, rfl, h2, rfl, u2, _, _, rfl, h3, rfl, u3, _, _, rfl, h4, rfl, u4, _, _, rfl, h5, rfl,
    u5, _, _, rfl, h6, rfl, u6, _, _, rfl, h7, rfl, u7, _, u8, rfl, h8, rfl, h9⟩ g1 g2 hg1 hg2
  have := DomainX.mk hg1 h1 h2 h3 h4 h5 h6 h7 h8 h9 hg2
  simpa [domainOf, Domain.builder, Domain.withExtends, Domain.withRequirements, Domain.withTypes,
    Domain.withConstants, Domain.withPredicates, Domain.withFunctions, Domain.withConstraints] using this

/-- A form that is read behind layout, after which layout is skipped. -/
theorem define_iff {p : P α} {f : α → β} {R : β → List Char → Prop}
    (h : Snd NE Gap p (fun x t => ∀ g1 g2, Gap g1 → Gap g2 →
      R (f x) (paren (c!"define" ++ (g1 ++ (t ++ g2))))))
    (hr : ∀ {d t g}, R d t → Gap g → ∀ r, map f (ws2 (prefixExpr c!"define" p)) (g ++ (t ++ r)) = .ok d (skip r))
    (s : List Char) (d : β) (r : List Char) :
    map f (ws2 (prefixExpr c!"define" p)) s = .ok d r ↔
      ∃ g t y, s = g ++ (t ++ y) ∧ Gap g ∧ R d t ∧ r = skip y := by
  constructor
  · intro hs
    obtain ⟨x, h1, rfl⟩ := map_ok hs
    obtain ⟨y, h2, rfl⟩ := ws2_inv h1
    rw [prefixExpr_skip] at h2
    obtain ⟨g, t, rfl, hg, g1, u, g2, rfl, h3, h4, h5⟩ :=
      Snd.prefixExpr (F := Any) h (fun _ => id) _ _ _ h2 trivial
    exact ⟨g, _, y, rfl, hg, h4 g1 g2 h3 h5, rfl⟩
  · rintro ⟨g, t, y, rfl, hg, ht, rfl⟩
    exact hr ht hg y

/-- C85, domains: exactly these texts are read, each as this domain. -/
theorem C85_domains (s : List Char) (d : Domain) (r : List Char) :
    parseDomain s = .ok d r ↔ ∃ g t y, s = g ++ (t ++ y) ∧ Gap g ∧ DomainX d t ∧ r = skip y :=
  define_iff domainPartsX_snd (fun h hg r => domainX_run h hg r) s d r

/-! ## Problems -/

/-- The accepted texts of a problem: the name, the domain, and the sections in this order; the initial state and
the goal are needed. -/
inductive ProblemX : Problem → List Char → Prop
  | mk {g1 name tn g2 domain td req u1 obj u2 g3 init ti g4 goal tg cstr u3 met u4 len u5 g5} :
      Gap g1 → OneX c!"problem" NameW name tn →
      Sep g2 → OneX c!":domain" NameW domain td →
      OptW Sep (SomeX c!":requirements" KeyW) req u1 →
      OptW Sep (NamesX c!":objects") obj u2 →
      Sep g3 → InitSectionX init ti →
      Sep g4 → Wrapped c!":goal" (PreX []) goal tg →
      OptW Sep (Wrapped c!":constraints" PrefConX) cstr u3 →
      OptW Sep MetricSpecX met u4 →
      OptW Sep LengthX len u5 → Gap g5 →
      ProblemX
        { name, domain, requires := req.getD [], objects := obj.getD [], init, goal,
          constraints := cstr.getD [], metricSpec := met, lengthSpec := len }
        (paren (c!"define" ++ (g1 ++ (tn ++ (g2 ++ (td ++ (u1 ++ (u2 ++ (g3 ++ (ti ++ (g4 ++ (tg ++
          (u3 ++ (u4 ++ (u5 ++ g5)))))))))))))))

theorem problemX_run {d : Problem} {t : List Char} (h : ProblemX d t) {g : List Char}
    (hg : Gap g) (r : List Char) : parseProblem (g ++ (t ++ r)) = .ok d (skip r) := by
  cases h with
  | @mk g1 name tn g2 domain td req u1 obj u2 g3 init ti g4 goal tg cstr u3 met u4 len u5 g5
      hg1 hn hg2 hd h1 h2 hg3 hi hg4 hgoal h3 h4 h5 hg5 =>
    have hn := hn.full (p := parseName) (fun _ h => h) fun _ _ h => h.elem
    have hd := hd.full (p := parseName) (fun _ h => h) fun _ _ h => h.elem
    have l6 : Lead [] (g5 ++ ')' :: r) := .close hg5
    have l5 := Lead.opt h5 length_section.head l6
    have l4 := Lead.opt h4 metric_section.head l5
    have l3 : Lead [c!":init"] (g3 ++ (ti ++ (g4 ++ (tg ++ (u3 ++ (u4 ++ (u5 ++ (g5 ++ ')' :: r)))))))) := by
      obtain ⟨x, rfl⟩ := init_section.head _ _ hi
      simp only [List.append_assoc, List.cons_append]
      exact .sec (kw := c!":init") hg3 (by simp)
    have l2 := Lead.opt h2 objects_section.head l3
    have hrun : problemParts (tn ++ (g2 ++ (td ++ (u1 ++ (u2 ++ (g3 ++ (ti ++ (g4 ++ (tg ++ (u3 ++
        (u4 ++ (u5 ++ (g5 ++ ')' :: r))))))))))))) =
        .ok (name, domain, req, obj, init, goal, cstr, met, len) (g5 ++ ')' :: r) :=
      pair_run (hn.1 _ trivial) (pair_run (sec_run hg2 hd) (pair_run
        (opt_sec h1 requirements_section.full l2 (by decide)) (pair_run
        (opt_sec h2 objects_section.full l3 (by decide)) (pair_run
        (sec_run hg3 (init_section.full _ _ hi)) (pair_run (sec_run hg4 (goal_section.full _ _ hgoal)) (pair_run
        (opt_sec h3 prefConstraints_section.full l4 (by decide)) (pair_run
        (opt_sec_map h4 metric_section.full l5 (by decide))
        (opt_sec_map h5 length_section.full l6 (by decide)))))))))
    refine map_run (a := (name, domain, req, obj, init, goal, cstr, met, len))
      (ws2_run hg (solid_paren _) ?_)
    simp only [paren_append, List.append_assoc]
    refine prefixExpr_run (y := g5 ++ ')' :: r) ?_ (hg5.skip_solid (solid_close r))
    rw [hg1.skip_solid (hn.2.append _)]
    exact hrun

theorem problemPartsX_snd : Snd NE Gap problemParts (fun x t => ∀ g1 g2, Gap g1 → Gap g2 →
    ProblemX (problemOf x) (paren (c!"define" ++ (g1 ++ (t ++ g2))))) := by
  have hs {α} {p : P α} {R : α → List Char → Prop} (h : Snd Any Gap p R) :
      Snd Any Nil (opt (preceded multispace1 p)) (OptW Sep R) := Snd.opt (Snd.ms1 h fun _ => id)
  refine (Snd.pair (wrap_snd parseName_snd) (Snd.pair (Snd.ms1 (wrap_snd parseName_snd) fun _ => id)
    (Snd.pair (hs requirements_section.snd) (Snd.pair (hs objects_section.snd)
    (Snd.pair (Snd.ms1 init_section.snd fun _ => id)
    (Snd.pair (Snd.ms1 goal_section.snd fun _ => id)
    (Snd.pair (hs prefConstraints_section.snd) (Snd.pair (hs metric_section.snd)
      (hs length_section.snd).anyF)))))))).mono (fun _ => id) (fun _ => id) ?_
  rintro ⟨name, domain, req, obj, init, goal, cstr, met, len⟩ t ⟨tn, g2, _, rfl, h1, hg2,
    td, _, _, rfl, h2, rfl, u1, _, _, rfl, h3, rfl, u2, g3, _, rfl, h4, hg3, ti, g4, _, rfl, h5, hg4,
    tg, _, _, rfl, h6, rfl, u3, _, _, rfl, h7, rfl, u4, _, u5, rfl, h8, rfl, h9⟩ g1 g5 hg1 hg5
  have := ProblemX.mk hg1 h1 hg2 h2 h3 h4 hg3 h5 hg4 h6 h7 h8 h9 hg5
  simpa [problemOf] using this

/-- C85, problems: exactly these texts are read, each as this problem. -/
theorem C85_problems (s : List Char) (d : Problem) (r : List Char) :
    parseProblem s = .ok d r ↔ ∃ g t y, s = g ++ (t ++ y) ∧ Gap g ∧ ProblemX d t ∧ r = skip y :=
  define_iff problemPartsX_snd (fun h hg r => problemX_run h hg r) s d r

/-! ## The public entry points -/

theorem fromStr_iff {p : P α} {s : List Char} {v : α} : fromStr p s = some v ↔ ∃ r, p s = .ok v r := by
  unfold fromStr
  cases p s <;> simp

/-- C85, `Domain::from_str`: a text is accepted as a domain exactly if, after layout, it begins with one of the
texts of the domain; whatever follows is ignored. -/
theorem C85_domain_from_str (s : List Char) (d : Domain) :
    fromStr parseDomain s = some d ↔ ∃ g t y, s = g ++ (t ++ y) ∧ Gap g ∧ DomainX d t := by
  rw [fromStr_iff]
  constructor
  · rintro ⟨r, h⟩
    obtain ⟨g, t, y, e, hg, ht, _⟩ := (C85_domains _ _ _).mp h
    exact ⟨g, t, y, e, hg, ht⟩
  · rintro ⟨g, t, y, e, hg, ht⟩
    exact ⟨_, (C85_domains _ _ _).mpr ⟨g, t, y, e, hg, ht, rfl⟩⟩

/-- C85, `Problem::from_str`. -/
theorem C85_problem_from_str (s : List Char) (d : Problem) :
    fromStr parseProblem s = some d ↔ ∃ g t y, s = g ++ (t ++ y) ∧ Gap g ∧ ProblemX d t := by
  rw [fromStr_iff]
  constructor
  · rintro ⟨r, h⟩
    obtain ⟨g, t, y, e, hg, ht, _⟩ := (C85_problems _ _ _).mp h
    exact ⟨g, t, y, e, hg, ht⟩
  · rintro ⟨g, t, y, e, hg, ht⟩
    exact ⟨_, (C85_problems _ _ _).mpr ⟨g, t, y, e, hg, ht, rfl⟩⟩

/-- A text is the text of at most one domain. -/
theorem C85_domain_unique {t : List Char} {d d' : Domain} (h : DomainX d t) (h' : DomainX d' t) : d = d' := by
  have h1 := domainX_run h .nil []
  rw [domainX_run h' .nil []] at h1
  cases h1
  rfl

/-- A text is the text of at most one problem. -/
theorem C85_problem_unique {t : List Char} {d d' : Problem} (h : ProblemX d t) (h' : ProblemX d' t) : d = d' := by
  have h1 := problemX_run h .nil []
  rw [problemX_run h' .nil []] at h1
  cases h1
  rfl

/-- A domain with three sections and an action. -/
example : ∃ g t y, c!" (define(domain d) (:requirements:strips) (:predicates(p)) (:action a :parameters ():effect (p)))x" =
    g ++ (t ++ y) ∧ Gap g ∧ DomainX
      { name := Ex.nm c!"d", extends_ := [], requirements := [.strips], types := [], constants := [],
        predicates := [⟨Ex.nm c!"p", []⟩], functions := [], constraints := .and [], timeless := [],
        structure_ := [.action ⟨Ex.nm c!"a", [], [], some [.effect (.atomic (.predicate (Ex.nm c!"p") []))]⟩] } t :=
  (C85_domain_from_str _ _).mp rfl

/-- A problem with a preference. -/
example : ∃ g t y, c!"(define (problem x) (:domain d) (:init) (:goal (preference (p))))" =
    g ++ (t ++ y) ∧ Gap g ∧ ProblemX
      { name := Ex.nm c!"x", domain := Ex.nm c!"d", requires := [], objects := [], init := [],
        goal := [.preference (.preference none (.atomic (.predicate (Ex.nm c!"p") [])))],
        constraints := [], metricSpec := none, lengthSpec := none } t :=
  (C85_problem_from_str _ _).mp rfl

/-- No blank is needed behind the keywords. -/
example : (fromStr parseDomain c!"(define(domaind) (:requirements:strips))").map (·.name) = some (Ex.nm c!"d") := rfl

/-- Sections in another order, or without a blank between them, are not read. -/
example : fromStr parseDomain c!"(define (domain d) (:types t)(:predicates (p)))" = none ∧
    fromStr parseDomain c!"(define (domain d) (:predicates (p)) (:types t))" = none ∧
    fromStr parseProblem c!"(define (problem x) (:domain d) (:goal (p)) (:init))" = none := ⟨rfl, rfl, rfl⟩

end Pddl
