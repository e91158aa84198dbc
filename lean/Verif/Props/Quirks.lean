import Verif.Props.Shape

/-!
# Properties: types, keywords and overlaps (C11, C21, C45, C46, C47, C49, C51)

Several of these properties are false of the code. For each of them a theorem named `Cxx_false`
exhibits the failure, for a whole class of texts where possible, and theorems named `Cxx_.._partial`
prove the property under the stated condition.
-/

namespace Pddl

/-! ## C11: a type name is read in full -/

/-- The rest of the text does not continue a word. -/
def NoWord (r : List Char) : Prop := ∀ c r', r = c :: r' → isWordChar c = false

/-- Every word beginning with `object` that follows directly is cut off. -/
theorem C11_false (x r : List Char) :
    parseType (c!"object" ++ (x ++ r)) = .ok (.exactly (Name.new c!"object")) (x ++ r) := rfl

/-- As a consequence the section `(:constants y -objective)` declares two constants, `y` and `ive`,
both of type `object`. -/
theorem C11_false_list :
    parseConstantsDef c!"(:constants y -objective)" =
      .ok [⟨Name.new c!"y", .exactly (Name.new c!"object")⟩, ⟨Name.new c!"ive", objectTy⟩] [] := rfl

/-- Inside `either` every longer word that begins with `object` is an unrecoverable error. -/
theorem C11_false_either {c : Char} {x : List Char} (hc : isWordChar c = true) (r : List Char) :
    parseType (paren (c!"either " ++ (c!"object" ++ c :: x)) ++ r) = .fail := by
  have h1 : isSpace c = false ∧ c ≠ ';' ∧ c ≠ ')' := by
    refine ⟨?_, ?_, ?_⟩
    · cases hs : isSpace c with
      | false => rfl
      | true => rw [isWordChar_not (.inl hs)] at hc; cases hc
    · rintro rfl; cases hc
    · rintro rfl; cases hc
  have hs : Solid (c :: (x ++ ')' :: r)) := .cons h1.1 h1.2.1 _
  have ht : paren (c!"either " ++ (c!"object" ++ c :: x)) ++ r =
      '(' :: (c!"either" ++ (' ' :: (c!"object" ++ (c :: (x ++ ')' :: r))))) := by simp [paren]
  rw [ht, parseType]
  rw [ifOk_miss, ifOk_miss]
  · rw [parseEitherType]
    refine prefixExpr_tail (v := [Name.new c!"object"]) (y := c :: (x ++ ')' :: r)) ?_ ?_
    · rw [list1_skip, spaceSeparatedList1, ws_eq]
      have : skip (' ' :: (c!"object" ++ (c :: (x ++ ')' :: r)))) =
          c!"object" ++ (c :: (x ++ ')' :: r)) := by
        rw [skip_space (by decide)]
        exact Solid.skip (.cons (by decide) (by decide) _)
      rw [this, sepList1, eolp_eq,
        Solid.skipC (s := c!"object" ++ (c :: (x ++ ')' :: r))) (.cons (by decide) (by decide) _)]
      show (sepLoop multispace1 (preceded ignoreEolComment parsePrimitiveType) _
        (c :: (x ++ ')' :: r))).bind _ = _
      rw [sepLoop]
      simp only [ms1_solid hs]
      rfl
    · intro r' h
      rw [hs.skip] at h
      exact h1.2.2 (by injection h)
  · rw [parsePrimitiveType, alt_miss rfl, alt_miss, alt_nil]
    exact parseName_err_cons (.cons (by decide) (by decide) _) (by decide)

/-- With layout before it, or if it does not begin with `object`, a type name is read in full and
nothing else. -/
theorem C11_partial {g w r : List Char} (hg : Gap g) (hw : IsWord w) (hr : NoWord r)
    (h : g ≠ [] ∨ ∀ x, w = c!"object" ++ x → x = []) :
    parseType (g ++ (w ++ r)) = .ok (.exactly (Name.new w)) r := by
  have hn : parseName (g ++ (w ++ r)) = .ok (Name.new w) r := by
    rw [parseName_eq, hg.skip_solid (hw.solid.append r), wordRes_word hw hr]
  rw [parseType]
  refine ifOk_hit ?_
  rw [parsePrimitiveType]
  by_cases ho : ∃ y, g ++ (w ++ r) = c!"object" ++ y
  · obtain ⟨y, hy⟩ := ho
    have hg0 : g = [] := by
      cases hg with
      | nil => rfl
      | space hc _ => simp only [List.cons_append, List.cons.injEq] at hy; rw [hy.1] at hc; cases hc
      | comment _ _ _ _ => simp only [List.cons_append, List.cons.injEq] at hy; cases hy.1
    subst hg0
    have h := h.resolve_left (by simp)
    have hwo : w = c!"object" := by
      obtain ⟨z, hz⟩ | ⟨z, hz⟩ : (∃ z, w = c!"object" ++ z) ∨ (∃ z, c!"object" = w ++ z ∧ z ≠ []) := by
        rw [List.nil_append] at hy
        rcases List.append_eq_append_iff.mp hy with ⟨a, h1, h2⟩ | ⟨a, h1, h2⟩
        · by_cases ha : a = []
          · subst ha; exact .inl ⟨[], by rw [h1]; simp⟩
          · exact .inr ⟨a, h1, ha⟩
        · exact .inl ⟨a, h1⟩
      · rw [hz, h z hz, List.append_nil]
      · obtain ⟨hz, hne⟩ := hz
        rw [List.nil_append, hz, List.append_assoc] at hy
        have hrr := List.append_cancel_left hy
        cases z with
        | nil => exact absurd rfl hne
        | cons c z =>
          have h1 := hr c _ hrr
          have h2 : c ∈ c!"object" := by rw [hz]; simp
          have h3 : ∀ c ∈ c!"object", isWordChar c = true := by decide
          rw [h3 c h2] at h1; cases h1
    subst hwo
    exact alt_hit rfl
  · rw [alt_miss, alt_hit hn]
    refine map_err (tag_err ?_)
    cases h : stripPrefix c!"object" (g ++ (w ++ r)) with
    | none => rfl
    | some y => exact absurd ⟨y, Good.stripPrefix_eq h⟩ ho

/-- Every type of the strict grammar, `either` types included, is read in full. -/
theorem C11_types_partial {g t r : List Char} {ty : Ty} (hg : Sep g) (h : TypeW .strict ty t)
    (hr : Stop r) : parseType (g ++ (t ++ r)) = .ok ty r := by
  rw [← List.append_assoc]; exact h.acc hg r hr

example : parseType (c!" " ++ (c!"objective" ++ c!")")) = .ok (.exactly (Name.new c!"objective")) c!")" :=
  C11_partial (.space (by decide) .nil) ⟨'o', c!"bjective", rfl, by decide, by decide⟩
    (by intro c r h; cases h; decide) (.inl (by simp))

example : isWordChar 'i' = true ∧ parseType c!"(either objective foo)" = .fail := ⟨rfl, rfl⟩

/-! ## C21: nested trajectory constraints -/

/-- `(always (sometime x))` is read as `always` of an atom with the predicate `sometime` whenever the
operand `x` can be read as a term, for instance whenever it is an atom `(p ..)`. -/
theorem C21_false {t : Term} {x : List Char} (h : TermW .strict t x) (r : List Char) :
    parseConGd (paren (c!"always " ++ paren (c!"sometime " ++ x)) ++ r) =
      .ok (.always (.goal (.atomic (.predicate (Name.new c!"sometime") [t])))) r := by
  have hn : NameW (Name.new c!"sometime") c!"sometime" :=
    ⟨⟨'s', c!"ometime", rfl, by decide, by decide⟩, rfl⟩
  have hsep : Sep c!" " := .mk (by decide) .nil
  have h1 : GDW .strict (.atomic (.predicate (Name.new c!"sometime") [t]))
      (paren ([] ++ (c!"sometime" ++ (c!" " ++ (x ++ []))))) :=
    .atomic (.predicate .nil hn (.cons hsep (.one h) rfl)) fun _ => by
      show (Name.new c!"sometime").text ∉ goalWords
      rw [name_text]; decide
  have h2 : ConGDW .strict (.always (.goal (.atomic (.predicate (Name.new c!"sometime") [t]))))
      (paren (c!"always" ++ (c!" " ++ (_ ++ [])))) := .always hsep.gap (.goal h1) .nil
  have := h2.acc r trivial
  simpa [paren] using this

/-- The same for every pair of these words, with any layout. -/
theorem C21_false_all {w : List Char} (hw : w ∈ [c!"always", c!"sometime", c!"at-most-once"]) {t : Term}
    {x g1 g2 g3 : List Char} (h : TermW .strict t x) (hg1 : Gap g1) (hg2 : Sep g2) (hg3 : Gap g3)
    (r : List Char) :
    parseConGd (paren (c!"always" ++ (g1 ++ (paren (w ++ (g2 ++ x)) ++ g3))) ++ r) =
      .ok (.always (.goal (.atomic (.predicate (Name.new w) [t])))) r := by
  have hn : NameW (Name.new w) w := by
    refine .of_word ?_
    simp only [List.mem_cons, List.not_mem_nil, or_false] at hw
    rcases hw with rfl | rfl | rfl <;> exact ⟨_, _, rfl, by decide, by decide⟩
  have h1 : GDW .strict (.atomic (.predicate (Name.new w) [t]))
      (paren ([] ++ (w ++ (g2 ++ (x ++ []))))) :=
    .atomic (.predicate .nil hn (.cons hg2 (.one h) rfl)) fun _ => by
      show (Name.new w).text ∉ goalWords
      rw [name_text]
      simp only [List.mem_cons, List.not_mem_nil, or_false] at hw
      rcases hw with rfl | rfl | rfl <;> decide
  have h2 : ConGDW .strict (.always (.goal (.atomic (.predicate (Name.new w) [t]))))
      (paren (c!"always" ++ (g1 ++ (_ ++ g3)))) := .always hg1 (.goal h1) hg3
  have := h2.acc r trivial
  simpa [paren] using this

/-- An operand is reported as nested exactly when it is a constraint and not also a goal. -/
theorem C21_iff (s : List Char) (c : ConGD) (r : List Char) :
    parseCon2Gd s = .ok (.nested c) r ↔ parseGd s = .err ∧ parseConGd s = .ok c r := by
  rw [parseCon2Gd, con2Of]
  constructor
  · intro h
    rcases alt_inv h with h | ⟨h1, h⟩
    · obtain ⟨a, _, h⟩ := map_ok h; cases h
    · rcases alt_inv h with h | ⟨_, h⟩
      · obtain ⟨a, h2, h⟩ := map_ok h
        cases h
        refine ⟨?_, h2⟩
        cases hg : parseGd s with
        | err => rfl
        | _ => simp [map, hg, Res.bind] at h1
      · cases h
  · rintro ⟨h1, h2⟩
    rw [alt_miss (map_err h1), alt_hit (map_run h2)]

/-- A form whose first argument is no term is no goal. -/
theorem gd_arg_miss {kw g y : List Char} (hkw : IsWord kw) (hne : kw ∉ goalWords) (hst : Stop (g ++ y))
    (hg : Gap g) (hy : Solid y) (hcl : ∀ z, y ≠ ')' :: z) (hterm : parseTerm y = .err) :
    parseGd ('(' :: (kw ++ (g ++ y))) = .err := by
  have km : ∀ {α} {w : List Char} {p : P α}, IsWord w → w ∈ goalWords → Nw p →
      prefixExpr w p ('(' :: (kw ++ (g ++ y))) = .err := by
    intro α w p hw hmem hp
    have := prefix_word hw hp (g := []) .nil hkw hst (by rintro rfl; exact hne hmem)
    simpa using this
  have hsk : skip (kw ++ (g ++ y)) = kw ++ (g ++ y) := (hkw.solid.append _).skip
  have hname : parseName (kw ++ (g ++ y)) = .ok (Name.new kw) (g ++ y) :=
    NameW.acc (.of_word hkw) _ hst
  have hk := hg.skip_solid hy
  have hatom : atomicFormula parseTerm ('(' :: (kw ++ (g ++ y))) = .err := by
    rw [atomicFormula, alt_miss (map_err (eq_miss ?_))]
    · rw [alt_miss (map_err (parens_tail (v := (Name.new kw, [])) (y := y) ?_ hcl)), alt_nil]
      rw [hsk]
      refine pair_run hname ?_
      rw [ws_eq, list0_skip, list0_nil (by rw [hk, hterm]), hk]
    · obtain ⟨c, cs, rfl, hc, _⟩ := hkw
      intro y hy
      cases hy
      exact absurd hc (by decide)
  have hcomp : parseFComp ('(' :: (kw ++ (g ++ y))) = .err := by
    refine map_err (parens_err (pair_err ?_))
    rw [hsk]
    obtain ⟨c, cs, rfl, hc, _⟩ := hkw
    refine mapExpect_err ?_
    have : ∀ k ks, isAlpha k = false → tag (k :: ks) (c :: cs ++ (g ++ y)) = .err :=
      fun k ks hk => tag_err (stripPrefix_head (by rintro rfl; exact absurd (hk.symm.trans hc) (by decide)))
    rw [alt_miss (this _ _ (by decide)), alt_miss (this _ _ (by decide)),
      alt_miss (this _ _ (by decide)), alt_miss (this _ _ (by decide)),
      alt_miss (this _ _ (by decide)), alt_nil]
  rw [parseGd_eq, gdBody,
    alt_miss (map_err (km isWord_and (by decide) (.list0 parseGd_par))),
    alt_miss (map_err (km isWord_or (by decide) (.list0 parseGd_par))),
    alt_miss (map_err (km isWord_not (by decide) parseGd_par.nw)),
    alt_miss (map_err (km isWord_imply (by decide) (Par.pair parseGd_par).nw)),
    alt_miss (map_err (km isWord_exists (by decide) (Par.pair parseVarList_par).nw)),
    alt_miss (map_err (km isWord_forall (by decide) (Par.pair parseVarList_par).nw)),
    alt_miss (map_err hatom), alt_miss (map_err ?_), alt_miss (map_err hcomp), alt_nil]
  rw [literal, alt_miss (map_err (km isWord_not (by decide) Par.atomicFormula.nw)),
    alt_miss (map_err hatom), alt_nil]

/-- The goal is a quantification, an equation or a numeric comparison, which is never a term. -/
def GD.notTerm : GD → Prop
  | .forall_ _ _ => True
  | .exist _ _ => True
  | .atomic (.equality _ _) => True
  | .fComp _ => True
  | _ => False

/-- A form is no term if what follows its `(` is no name. -/
theorem term_form_err {x : List Char} (h : parseName x = .err) : parseTerm ('(' :: x) = .err := by
  rw [parseTerm_eq, termBody, ifOk_miss (parseVariable_err (by simp)),
    ifOk_miss (parseName_err_cons (solid_open _) (by decide)), ifOk_miss]
  refine map_err (preceded_run (a := c!"(") (r := x) ?_ |>.trans (terminated_err (pair_err h)))
  simp [tag, stripPrefix]

theorem VarsW.no_term {m : Mode} {vs : TypedList Name} {t : List Char} (h : VarsW m vs t) (r : List Char) :
    parseTerm (t ++ r) = .err := by
  obtain ⟨u, rfl, h⟩ := h
  rw [paren_append]
  refine term_form_err (parseName_err ?_)
  have hvar : ∀ {v t}, VarW m v t → ∀ x, ∃ y, t ++ x = '?' :: y := by
    rintro v t ⟨g, w, rfl, _⟩ x; exact ⟨_, rfl⟩
  have hitems : ∀ {xs t}, Items (VarW m) xs t → ∀ x, ∃ y, t ++ x = '?' :: y := by
    intro xs t h x
    cases h with
    | one h => exact hvar h x
    | cons h _ _ => rw [List.append_assoc]; exact hvar h _
  have htyped : ∀ {xs t}, TypedW m (VarW m) objectTy xs t → ∀ x, ∃ y, t ++ x = '?' :: y := by
    intro xs t h x
    cases h with
    | tail h => exact hitems h x
    | last h _ _ _ => rw [List.append_assoc]; exact hitems h _
    | more h _ _ _ _ _ => rw [List.append_assoc]; exact hitems h _
  intro c y hc
  cases h with
  | nil hg => rw [hg.skip_solid (solid_close r)] at hc; cases hc; decide
  | cons hg h _ =>
    rw [List.append_assoc, List.append_assoc, hg.skip] at hc
    obtain ⟨z, hz⟩ := htyped h (_ ++ ')' :: r)
    rw [hz, Solid.skip (.cons (by decide) (by decide) _)] at hc
    cases hc; decide

theorem quantified_no_term {kw g1 t1 x : List Char} {vs : TypedList Name} (hkw : IsWord kw) (hg : Gap g1)
    (hv : VarsW .strict vs t1) : parseTerm ('(' :: (kw ++ (g1 ++ (t1 ++ x)))) = .err := by
  have hs : Solid (t1 ++ x) := hv.solid.append _
  rw [parseTerm_eq, termBody, ifOk_miss (parseVariable_err (by simp)),
    ifOk_miss (parseName_err_cons (solid_open _) (by decide)), ifOk_miss]
  obtain ⟨u, ht, _⟩ := id hv
  have hst : Stop (g1 ++ (t1 ++ x)) := by
    subst ht
    rw [paren_append]
    exact .gap hg (.open _)
  refine map_err (preceded_run (a := c!"(") (r := kw ++ (g1 ++ (t1 ++ x))) ?_ |>.trans
    (terminated_err2 (a := (Name.new kw, [])) (r := t1 ++ x) (pair_run (NameW.acc (.of_word hkw) _ hst) ?_) ?_))
  · simp [tag, stripPrefix]
  · rw [list0_nil (by rw [hg.skip_solid hs, hv.no_term]), hg.skip_solid hs]
  · subst ht; rw [paren_append]; rfl

theorem GDW.no_term {g : GD} {t : List Char} (h : GDW .strict g t) (hg : g.notTerm) (r : List Char) :
    parseTerm (t ++ r) = .err := by
  cases h with
  | exist hg1 hv _ _ _ =>
    simp only [paren_append, List.append_assoc]
    exact quantified_no_term isWord_exists hg1 hv
  | forall_ hg1 hv _ _ _ =>
    simp only [paren_append, List.append_assoc]
    exact quantified_no_term isWord_forall hg1 hv
  | atomic h _ =>
    cases h with
    | equality =>
      simp only [paren_append, List.append_assoc]
      exact term_form_err (parseName_err_cons (.cons (by decide) (by decide) _) (by decide))
    | predicate => exact hg.elim
  | fComp h _ =>
    cases h with
    | @mk g0 op _ _ _ _ _ _ _ hg0 _ _ _ _ _ =>
      simp only [paren_append, List.append_assoc]
      refine term_form_err (parseName_err ?_)
      intro c y hc
      rw [hg0.skip_solid (by cases op <;> exact .cons (by decide) (by decide) _)] at hc
      cases op <;> · cases hc; decide
  | _ => exact hg.elim

/-- A nested constraint stays a constraint if it carries a number. -/
theorem C21_timed_partial {c : ConGD} {t : List Char} (h : ConGDW .strict c t) (hc : c.isTimed)
    (r : List Char) : parseCon2Gd (t ++ r) = .ok (.nested c) r :=
  (C21_iff _ _ _).mpr ⟨h.timed_miss hc r, h.acc r trivial⟩

/-- A nested `always`, `sometime` or `at-most-once` stays a constraint if its goal is a
quantification, an equation or a comparison. -/
theorem C21_untimed_partial {g : GD} {g1 t g2 : List Char} (hg1 : Gap g1) (h : GDW .strict g t)
    (hg : g.notTerm) (hg2 : Gap g2) (r : List Char) :
    parseCon2Gd (paren (c!"always" ++ (g1 ++ (t ++ g2))) ++ r) = .ok (.nested (.always (.goal g))) r ∧
    parseCon2Gd (paren (c!"sometime" ++ (g1 ++ (t ++ g2))) ++ r) =
      .ok (.nested (.sometime (.goal g))) r ∧
    parseCon2Gd (paren (c!"at-most-once" ++ (g1 ++ (t ++ g2))) ++ r) =
      .ok (.nested (.atMostOnce (.goal g))) r := by
  have key : ∀ kw, IsWord kw → kw ∉ goalWords →
      parseGd (paren (kw ++ (g1 ++ (t ++ g2))) ++ r) = .err := by
    intro kw hkw hne
    simp only [paren_append, List.append_assoc]
    obtain ⟨u, hu, _⟩ := h.form
    refine gd_arg_miss hkw hne ?_ hg1 (h.solid.append _) ?_ (h.no_term hg _)
    · subst hu; rw [paren_append]; exact .gap hg1 (.open _)
    · subst hu; rw [paren_append]; intro z hz; cases hz
  refine ⟨(C21_iff _ _ _).mpr ⟨key _ ?_ (by decide), ?_⟩, (C21_iff _ _ _).mpr ⟨key _ ?_ (by decide), ?_⟩,
    (C21_iff _ _ _).mpr ⟨key _ ?_ (by decide), ?_⟩⟩
  · exact isWord_of _ _ (by decide) (by decide)
  · exact (ConGDW.always hg1 (.goal h) hg2).acc r trivial
  · exact isWord_of _ _ (by decide) (by decide)
  · exact (ConGDW.sometime hg1 (.goal h) hg2).acc r trivial
  · exact isWord_of _ _ (by decide) (by decide)
  · exact (ConGDW.atMostOnce hg1 (.goal h) hg2).acc r trivial

example : parseConGd c!"(always (sometime (p)))" =
    .ok (.always (.goal (.atomic (.predicate (Name.new c!"sometime") [.fn (Name.new c!"p") []])))) [] :=
  rfl
example : parseConGd c!"(always (sometime (= a b)))" =
    .ok (.always (.nested (.sometime (.goal (.atomic
      (.equality (.name (Name.new c!"a")) (.name (Name.new c!"b")))))))) [] := rfl

/-! ## C45: reserved words -/

/-- Atoms whose predicate is a connective are accepted, whenever the form does not fit the
connective. -/
theorem C45_false :
    parseGd c!"(imply (p))" =
      .ok (.atomic (.predicate (Name.new c!"imply") [.fn (Name.new c!"p") []])) [] ∧
    parseGd c!"(not (p) (q))" =
      .ok (.atomic (.predicate (Name.new c!"not")
        [.fn (Name.new c!"p") [], .fn (Name.new c!"q") []])) [] ∧
    parseGd c!"(and x)" = .ok (.atomic (.predicate (Name.new c!"and") [.name (Name.new c!"x")])) [] ∧
    parseGd c!"(or x)" = .ok (.atomic (.predicate (Name.new c!"or") [.name (Name.new c!"x")])) [] ∧
    parseGd c!"(exists (p))" =
      .ok (.atomic (.predicate (Name.new c!"exists") [.fn (Name.new c!"p") []])) [] ∧
    parseGd c!"(forall (p))" =
      .ok (.atomic (.predicate (Name.new c!"forall") [.fn (Name.new c!"p") []])) [] :=
  ⟨rfl, rfl, rfl, rfl, rfl, rfl⟩

/-- Layout after the opening parenthesis turns every connective over terms into an atom. -/
theorem C45_false_layout {t : Term} {x : List Char} (h : TermW .strict t x) (r : List Char) :
    parseGd (paren (c!" and " ++ x) ++ r) = .ok (.atomic (.predicate (Name.new c!"and") [t])) r := by
  have hn : NameW (Name.new c!"and") c!"and" := ⟨isWord_and, rfl⟩
  have hsep : Sep c!" " := .mk (by decide) .nil
  have ha : AtomW .strict (TermW .strict) (.predicate (Name.new c!"and") [t])
      (paren (c!" " ++ (c!"and" ++ (c!" " ++ (x ++ []))))) :=
    .predicate hsep.gap hn (.cons hsep (.one h) rfl)
  have e : paren (c!" and " ++ x) ++ r = paren (c!" " ++ (c!"and" ++ (c!" " ++ (x ++ [])))) ++ r := by
    simp [paren]
  have km : ∀ {α} {kw : List Char} {p : P α}, IsWord kw →
      prefixExpr kw p (paren (c!" " ++ (c!"and" ++ (c!" " ++ (x ++ [])))) ++ r) = .err := by
    rintro α kw p ⟨c, cs, rfl, hc, _⟩
    simp only [paren_append, List.append_assoc]
    refine prefixExpr_kw (stripPrefix_head ?_)
    rintro rfl
    exact absurd hc (by decide)
  rw [e, parseGd_eq, gdBody, alt_miss (map_err (km isWord_and)), alt_miss (map_err (km isWord_or)),
    alt_miss (map_err (km isWord_not)), alt_miss (map_err (km isWord_imply)),
    alt_miss (map_err (km isWord_exists)), alt_miss (map_err (km isWord_forall))]
  exact alt_hit (map_run (ha.acc_term r trivial))

/-- A text that is read as an atom is not read by any of the six connectives. -/
theorem C45_partial {s r : List Char} {a : AtomicFormula Term} (h : parseGd s = .ok (.atomic a) r) :
    prefixExpr c!"and" (spaceSeparatedList0 parseGd) s = .err ∧
    prefixExpr c!"or" (spaceSeparatedList0 parseGd) s = .err ∧
    prefixExpr c!"not" parseGd s = .err ∧
    prefixExpr c!"imply" (pair parseGd (preceded multispace1 parseGd)) s = .err ∧
    prefixExpr c!"exists" (pair parseVarList (preceded multispace1 parseGd)) s = .err ∧
    prefixExpr c!"forall" (pair parseVarList (preceded multispace1 parseGd)) s = .err := by
  have me : ∀ {α β} {f : α → β} {p : P α}, map f p s = .err → p s = .err := by
    intro α β f p h
    cases hp : p s with
    | err => rfl
    | _ => simp [map, hp, Res.bind] at h
  rw [parseGd_eq, gdBody] at h
  rcases alt_inv h with h | ⟨h1, h⟩
  · obtain ⟨_, _, h⟩ := map_ok h; cases h
  rcases alt_inv h with h | ⟨h2, h⟩
  · obtain ⟨_, _, h⟩ := map_ok h; cases h
  rcases alt_inv h with h | ⟨h3, h⟩
  · obtain ⟨_, _, h⟩ := map_ok h; cases h
  rcases alt_inv h with h | ⟨h4, h⟩
  · obtain ⟨_, _, h⟩ := map_ok h; cases h
  rcases alt_inv h with h | ⟨h5, h⟩
  · obtain ⟨_, _, h⟩ := map_ok h; cases h
  rcases alt_inv h with h | ⟨h6, h⟩
  · obtain ⟨_, _, h⟩ := map_ok h; cases h
  exact ⟨me h1, me h2, me h3, me h4, me h5, me h6⟩

/-- A well-formed connective is never read as an atom: whatever atom is returned, the text was not
a spelling of another goal. -/
theorem C45_wellformed_partial {v : GD} {t r r' : List Char} {a : AtomicFormula Term}
    (h : GDW .strict v t) (hp : parseGd (t ++ r) = .ok (.atomic a) r') : v = .atomic a ∧ r' = r := by
  rw [C15_goals h r] at hp
  cases hp
  exact ⟨rfl, rfl⟩

/-! ## C46: keywords end at a word boundary -/

/-- Whatever the parser accepts is, after layout, the keyword `kw` in an opened form, and the keyword
is not continued by a word character. -/
def KeywordEnds (kw : List Char) (p : P α) : Prop :=
  ∀ s v r, p s = .ok v r → ∃ g y, s = g ++ '(' :: (kw ++ y) ∧ Gap g ∧ NoWord y

/-- A word glued to the keyword of a form that contains a name is taken for that name. -/
theorem C46_false {kw w : List Char} (hw : IsWord w) (r : List Char) :
    prefixExpr kw parseName (paren (kw ++ w) ++ r) = .ok (Name.new w) r := by
  have := prefix_one (kw := kw) (g := []) (g' := []) .nil (NameW.acc (n := Name.new w) (.of_word hw)) hw.solid
    .nil r trivial
  simpa using this

/-- Hence these texts are accepted. -/
theorem C46_false_texts :
    (∃ d, parseDomain c!"(define (domainfoo))" = .ok d [] ∧ d.name = Name.new c!"foo") ∧
    parseTypesDef c!"(:typesfoo)" = .ok [⟨Name.new c!"foo", objectTy⟩] [] ∧
    (∃ a, parseActionDef c!"(:actionfoo :parameters ())" = .ok a [] ∧ a.symbol = Name.new c!"foo") ∧
    (∃ g, parseTimedGd c!"(atstart (p))" = .ok (.at .start g) []) ∧
    (∃ n g, parseConGd c!"(within5 (p))" = .ok (.within n g) []) ∧
    (∃ g, parsePrefGd c!"(preferencex (p))" = .ok (.preference (some (Name.new c!"x")) g) []) :=
  ⟨⟨_, rfl, rfl⟩, rfl, ⟨_, rfl, rfl⟩, ⟨_, rfl⟩, ⟨_, _, rfl⟩, ⟨_, rfl⟩⟩

/-- The keyword is respected if the operand never begins with a word character. -/
theorem KeywordEnds.of_nw {kw : List Char} {p : P α} (hp : Nw p) : KeywordEnds kw (prefixExpr kw p) := by
  intro s v r h
  obtain ⟨g, hs, _, hg⟩ := skip_spec s
  have h' := h
  rw [← prefixExpr_skip] at h'
  cases hk : skip s with
  | nil => rw [hk] at h'; cases h'
  | cons c x =>
    have hg := hg (by rw [hk]; simp)
    rw [hk] at h' hs
    have hc : c = '(' := by
      refine Classical.byContradiction fun hc => ?_
      have hsk : skip (c :: x) = c :: x := by rw [← hk, skip_skip]
      simp [prefixExpr, delimited, preceded, ws_eq, hsk, tag, stripPrefix, Ne.symm hc, Res.bind] at h'
    subst hc
    rw [prefixExpr_open] at h'
    cases hst : stripPrefix kw x with
    | none => rw [hst] at h'; cases h'
    | some y =>
      rw [hst] at h'
      have hx := Good.stripPrefix_eq hst
      refine ⟨g, y, by rw [hs, hx], hg, ?_⟩
      rintro d y' rfl
      refine Bool.eq_false_iff.mpr fun hd => ?_
      obtain ⟨_, h3, h1, h2⟩ := wordChar_solid hd
      have hsol := (Solid.cons h2 h1 y').skip
      simp only [hsol] at h'
      rcases hp d y' hd with he | ⟨v', he⟩
      · rw [he] at h'; cases h'
      · rw [he] at h'
        simp only [Res.bind, hsol, closeRes] at h'
        rw [if_neg h3] at h'
        cases h'

theorem KeywordEnds.map {kw : List Char} {f : α → β} {p : P α} (h : KeywordEnds kw p) :
    KeywordEnds kw (Pddl.map f p) := fun s _ r hs => by
  obtain ⟨a, ha, _⟩ := map_ok hs
  exact h s a r ha

theorem Nw.list1 {p : P α} (h : Par p) : Nw (spaceSeparatedList1 p) := fun c s hc => by
  obtain ⟨h1, _, h2, h3⟩ := wordChar_solid hc
  refine .inl (list1_nil ?_)
  rw [(Solid.cons h3 h2 s).skip, h c s h1 h2 h3]

theorem C46_predicates_partial : KeywordEnds c!":predicates" parsePredicatesDef :=
  .of_nw (.list1 parseAtomicFormulaSkeleton_par)
theorem C46_init_partial : KeywordEnds c!":init" parseProblemInitDef := .of_nw (.list0 parseInitEl_par)
theorem C46_goal_partial : KeywordEnds c!":goal" parseProblemGoalDef := .of_nw parsePreGd_par.nw
theorem C46_constraints_partial : KeywordEnds c!":constraints" parseDomainConstraintsDef :=
  .of_nw parseConGd_par.nw
theorem C46_problem_constraints_partial : KeywordEnds c!":constraints" parseProblemConstraintsDef :=
  .of_nw parsePrefConGd_par.nw
theorem C46_derived_partial : KeywordEnds c!":derived" parseDerivedPredicate :=
  .map (.of_nw (Par.pair parseAtomicFormulaSkeleton_par).nw)
theorem C46_domain_partial : KeywordEnds c!"define" parseDomain := by
  intro s v r h
  obtain ⟨p, h, _⟩ := map_ok h
  have hk : ∃ r', prefixExpr c!"define" domainParts (skip s) = .ok p r' := by
    rw [ws2, delimited, preceded] at h
    simp only [preceded, multispace0, takeWhile0, Res.bind, eol_eq] at h
    revert h
    change terminated _ _ (skip s) = _ → _
    intro h
    obtain ⟨_, r', h1, _⟩ := terminated_ok h
    exact ⟨r', h1⟩
  obtain ⟨r', hk⟩ := hk
  rw [prefixExpr_skip] at hk
  exact KeywordEnds.of_nw (Par.nw (Par.pair .prefixExpr)) s p r' hk
theorem C46_problem_partial : KeywordEnds c!"define" parseProblem := by
  intro s v r h
  obtain ⟨p, h, _⟩ := map_ok h
  have hk : ∃ r', prefixExpr c!"define" problemParts (skip s) = .ok p r' := by
    rw [ws2, delimited, preceded] at h
    simp only [preceded, multispace0, takeWhile0, Res.bind, eol_eq] at h
    revert h
    change terminated _ _ (skip s) = _ → _
    intro h
    obtain ⟨_, r', h1, _⟩ := terminated_ok h
    exact ⟨r', h1⟩
  obtain ⟨r', hk⟩ := hk
  rw [prefixExpr_skip] at hk
  exact KeywordEnds.of_nw (Par.nw (Par.pair .prefixExpr)) s p r' hk

/-- The keyword with which a goal must have been written. -/
def GD.keyword : GD → Option (List Char)
  | .and _ => some c!"and"
  | .or _ => some c!"or"
  | .not _ => some c!"not"
  | .imply _ _ => some c!"imply"
  | .exist _ _ => some c!"exists"
  | .forall_ _ _ => some c!"forall"
  | _ => none

/-- The keyword of a constraint without numbers. -/
def ConGD.keyword : ConGD → Option (List Char)
  | .and _ => some c!"and"
  | .forall_ _ _ => some c!"forall"
  | .atEnd _ => some c!"at end"
  | .always _ => some c!"always"
  | .sometime _ => some c!"sometime"
  | .atMostOnce _ => some c!"at-most-once"
  | .sometimeAfter _ _ => some c!"sometime-after"
  | .sometimeBefore _ _ => some c!"sometime-before"
  | _ => none

/-- The keyword of an effect. -/
def CEffect.keyword : CEffect → Option (List Char)
  | .forall_ _ _ => some c!"forall"
  | .when _ _ => some c!"when"
  | .effect (.notAtomic _) => some c!"not"
  | _ => none

/-- A connective was written with its own keyword, and the keyword ends there. -/
theorem C46_goals_partial {s r kw : List Char} {v : GD} (h : parseGd s = .ok v r)
    (hv : v.keyword = some kw) : ∃ g y, s = g ++ '(' :: (kw ++ y) ∧ Gap g ∧ NoWord y := by
  rw [parseGd_eq, gdBody] at h
  rcases alt_inv h with h | ⟨_, h⟩
  · obtain ⟨_, hp, rfl⟩ := map_ok h; cases hv
    exact KeywordEnds.of_nw (.list0 parseGd_par) _ _ _ hp
  rcases alt_inv h with h | ⟨_, h⟩
  · obtain ⟨_, hp, rfl⟩ := map_ok h; cases hv
    exact KeywordEnds.of_nw (.list0 parseGd_par) _ _ _ hp
  rcases alt_inv h with h | ⟨_, h⟩
  · obtain ⟨_, hp, rfl⟩ := map_ok h; cases hv
    exact KeywordEnds.of_nw parseGd_par.nw _ _ _ hp
  rcases alt_inv h with h | ⟨_, h⟩
  · obtain ⟨_, hp, rfl⟩ := map_ok h; cases hv
    exact KeywordEnds.of_nw (Par.pair parseGd_par).nw _ _ _ hp
  rcases alt_inv h with h | ⟨_, h⟩
  · obtain ⟨_, hp, rfl⟩ := map_ok h; cases hv
    exact KeywordEnds.of_nw (Par.pair parseVarList_par).nw _ _ _ hp
  rcases alt_inv h with h | ⟨_, h⟩
  · obtain ⟨_, hp, rfl⟩ := map_ok h; cases hv
    exact KeywordEnds.of_nw (Par.pair parseVarList_par).nw _ _ _ hp
  rcases alt_inv h with h | ⟨_, h⟩
  · obtain ⟨_, _, rfl⟩ := map_ok h; cases hv
  rcases alt_inv h with h | ⟨_, h⟩
  · obtain ⟨_, _, rfl⟩ := map_ok h; cases hv
  rcases alt_inv h with h | ⟨_, h⟩
  · obtain ⟨_, _, rfl⟩ := map_ok h; cases hv
  cases h

theorem C46_trajectory_partial {s r kw : List Char} {v : ConGD} (h : parseConGd s = .ok v r)
    (hv : v.keyword = some kw) : ∃ g y, s = g ++ '(' :: (kw ++ y) ∧ Gap g ∧ NoWord y := by
  have p2 : Par (con2Of parseConGd) := .con2Of parseConGd_par
  rw [parseConGd_eq, conGdBody] at h
  rcases alt_inv h with h | ⟨_, h⟩
  · obtain ⟨_, hp, rfl⟩ := map_ok h; cases hv
    exact KeywordEnds.of_nw (.list0 parseConGd_par) _ _ _ hp
  rcases alt_inv h with h | ⟨_, h⟩
  · obtain ⟨_, hp, rfl⟩ := map_ok h; cases hv
    exact KeywordEnds.of_nw (Par.pair parseVarList_par).nw _ _ _ hp
  rcases alt_inv h with h | ⟨_, h⟩
  · obtain ⟨_, hp, rfl⟩ := map_ok h; cases hv
    exact KeywordEnds.of_nw parseGd_par.nw _ _ _ hp
  rcases alt_inv h with h | ⟨_, h⟩
  · obtain ⟨_, hp, rfl⟩ := map_ok h; cases hv
    exact KeywordEnds.of_nw p2.nw _ _ _ hp
  rcases alt_inv h with h | ⟨_, h⟩
  · obtain ⟨_, hp, rfl⟩ := map_ok h; cases hv
    exact KeywordEnds.of_nw p2.nw _ _ _ hp
  rcases alt_inv h with h | ⟨_, h⟩
  · obtain ⟨_, h, rfl⟩ := map_ok h; cases hv
  rcases alt_inv h with h | ⟨_, h⟩
  · obtain ⟨_, hp, rfl⟩ := map_ok h; cases hv
    exact KeywordEnds.of_nw p2.nw _ _ _ hp
  rcases alt_inv h with h | ⟨_, h⟩
  · obtain ⟨_, hp, rfl⟩ := map_ok h; cases hv
    exact KeywordEnds.of_nw (Par.pair p2).nw _ _ _ hp
  rcases alt_inv h with h | ⟨_, h⟩
  · obtain ⟨_, hp, rfl⟩ := map_ok h; cases hv
    exact KeywordEnds.of_nw (Par.pair p2).nw _ _ _ hp
  rcases alt_inv h with h | ⟨_, h⟩
  · obtain ⟨_, h, rfl⟩ := map_ok h; cases hv
  rcases alt_inv h with h | ⟨_, h⟩
  · obtain ⟨_, h, rfl⟩ := map_ok h; cases hv
  rcases alt_inv h with h | ⟨_, h⟩
  · obtain ⟨_, h, rfl⟩ := map_ok h; cases hv
  cases h

theorem C46_effects_partial {s r kw : List Char} {v : CEffect} (h : parseCEffect s = .ok v r)
    (hv : v.keyword = some kw) : ∃ g y, s = g ++ '(' :: (kw ++ y) ∧ Gap g ∧ NoWord y := by
  rw [parseCEffect_eq, cEffectBody] at h
  rcases alt_inv h with h | ⟨_, h⟩
  · obtain ⟨_, hp, rfl⟩ := map_ok h; cases hv
    exact KeywordEnds.of_nw (Par.pair parseVarList_par).nw _ _ _ hp
  rcases alt_inv h with h | ⟨_, h⟩
  · obtain ⟨_, hp, rfl⟩ := map_ok h; cases hv
    exact KeywordEnds.of_nw (Par.pair parseGd_par).nw _ _ _ hp
  rcases alt_inv h with h | ⟨_, h⟩
  · obtain ⟨p, hp, he⟩ := map_ok h
    subst he
    clear h
    have h := hp
    rw [parsePEffect] at h
    rcases alt_inv h with h | ⟨_, h⟩
    · obtain ⟨_, hq, rfl⟩ := map_ok h; cases hv
      exact KeywordEnds.of_nw Par.atomicFormula.nw _ _ _ hq
    rcases alt_inv h with h | ⟨_, h⟩
    · obtain ⟨_, _, rfl⟩ := map_ok h; cases hv
    rcases alt_inv h with h | ⟨_, h⟩
    · obtain ⟨_, _, rfl⟩ := map_ok h; cases hv
    rcases alt_inv h with h | ⟨_, h⟩
    · obtain ⟨_, _, rfl⟩ := map_ok h; cases hv
    rcases alt_inv h with h | ⟨_, h⟩
    · obtain ⟨_, _, rfl⟩ := map_ok h; cases hv
    cases h
  cases h

example : ∃ v, parseGd c!"(and (p))" = .ok v [] ∧ v.keyword = some c!"and" := ⟨_, rfl, rfl⟩
example : ∃ v, parseConGd c!"(sometime-after (p) (q))" = .ok v [] ∧
    v.keyword = some c!"sometime-after" := ⟨_, rfl, rfl⟩
example : ∃ v, parseCEffect c!"(when (p) (q))" = .ok v [] ∧ v.keyword = some c!"when" := ⟨_, rfl, rfl⟩
example : ∃ v, parseProblemInitDef c!"(:init (p))" = .ok v [] := ⟨_, rfl⟩

/-! ## C47: total-time -/

/-- The parenthesised spelling is read as a function called `total-time`, and a bare function whose
name begins with `total-time` is cut off. -/
theorem C47_false :
    parseMetricFExp c!"(total-time)" = .ok (.function (Name.new c!"total-time") []) [] ∧
    parseMetricFExp c!"total-time-x" = .ok .totalTime c!"-x" ∧
    parseProblemMetricSpec c!"(:metric minimize total-time-x)" = .err := ⟨rfl, rfl, rfl⟩

/-- Bare `total-time` is the built-in. -/
theorem C47_bare_partial (r : List Char) : parseMetricFExp (c!"total-time" ++ r) = .ok .totalTime r := by
  rw [parseMetricFExp_eq, metricFExpBody]
  show alt _ ('t' :: (c!"otal-time" ++ r)) = _
  rw [alt_miss (map_err (parseNumber_err (by intro c r h; cases h; decide))),
    alt_miss (map_err (parens_head (by decide) (by decide))),
    alt_miss (mapExpect_err (parens_head (by decide) (by decide))),
    alt_miss (map_err (parens_head (by decide) (by decide)))]
  exact alt_hit (map_run (tag_ok c!"total-time" r))

/-- With any layout around it, as the metric of a problem. -/
theorem C47_metric_partial {g1 g2 g3 : List Char} {o : Optimization} (hg1 : Sep g1) (hg2 : Sp g2)
    (hg3 : Gap g3) (r : List Char) :
    parseProblemMetricSpec
      (paren (c!":metric" ++ (g1 ++ (o.spell ++ (g2 ++ (c!"total-time" ++ g3))))) ++ r) =
      .ok ⟨o, .totalTime⟩ r := (MetricSpecW.mk (m := .strict) hg1 hg2 .totalTime hg3).full.1 r trivial

/-- In parentheses a function whose name begins with `total-time` is read in full. -/
theorem C47_function_partial {w : List Char} (hw : IsWord (c!"total-time" ++ w)) {r : List Char}
    (hr : Stop r) :
    parseMetricFExp (paren (c!"total-time" ++ w) ++ r) =
      .ok (.function (Name.new (c!"total-time" ++ w)) []) r := by
  have h : MetricW .strict (.function (Name.new (c!"total-time" ++ w)) [])
      (paren ([] ++ ((c!"total-time" ++ w) ++ []))) :=
    .function .nil ⟨hw, rfl⟩ (.nil .nil) fun _ r h => by cases h
  have := h.elem.1 r hr
  simpa using this

example : IsWord (c!"total-time" ++ c!"-x") := ⟨'t', _, rfl, by decide, by decide⟩

end Pddl
