import Verif.Meta.Goals

/-!
# Meta-theory: effects and actions are read back
-/

namespace Pddl

/-! ## Operator words -/

/-- A list of tags applied to another word: no tag matches, or a longer word remains. -/
theorem alt_tags_word {ts : List (List Char)} {t x : List Char} (hts : ∀ w ∈ ts, IsWord w)
    (ht : IsWord t) (hx : Stop x) (hne : t ∉ ts) :
    alt (ts.map tag) (t ++ x) = .err ∨
      ∃ w ∈ ts, ∃ c y, alt (ts.map tag) (t ++ x) = .ok w (c :: y) ∧ isWordChar c = true := by
  induction ts with
  | nil => exact .inl rfl
  | cons w ts ih =>
    have hw := hts w (by simp)
    by_cases h : ∃ y, t = w ++ y
    · obtain ⟨y, rfl⟩ := h
      cases y with
      | nil => exact absurd (by simp) hne
      | cons c y =>
        have hnil : w ≠ [] := by obtain ⟨_, _, rfl, _⟩ := hw; simp
        refine .inr ⟨w, by simp, c, y ++ x, ?_, ht.append_cons hnil⟩
        rw [List.map_cons, List.append_assoc]
        exact alt_hit (tag_ok w _)
    · have hs := stripPrefix_word hw ht hx fun y hy => h ⟨y, hy⟩
      rw [List.map_cons, alt_miss (tag_err hs)]
      rcases ih (fun w hw => hts w (by simp [hw])) (fun h => hne (by simp [h])) with h | ⟨w, hw, h⟩
      · exact .inl h
      · exact .inr ⟨w, by simp [hw], h⟩

/-- An operator word followed by spaces does not match another word. -/
theorem op_word_miss {f : List Char → Option β} {ts : List (List Char)} {t x : List Char} {q : P α}
    (hts : ∀ w ∈ ts, IsWord w) (hf : ∀ w ∈ ts, f w ≠ none)
    (ht : IsWord t) (hx : Stop x) (hne : t ∉ ts) :
    pair (mapExpect f (alt (ts.map tag))) (pair (preceded multispace1 q) q') (t ++ x) = .err := by
  rcases alt_tags_word hts ht hx hne with h | ⟨w, hw, c, y, h, hc⟩
  · exact pair_err (mapExpect_err h)
  · cases hfw : f w with
    | none => exact absurd hfw (hf w hw)
    | some b =>
      have hs := wordChar_solid hc
      exact pair_err2 (mapExpect_run h hfw)
        (pair_err (preceded_err (ms1_solid (.cons hs.2.2.2 hs.2.2.1 y))))

/-- The texts of the assignment operators. -/
def assignWords : List (List Char) :=
  [c!"change", c!"assign", c!"scale-up", c!"scale-down", c!"increase", c!"decrease"]

theorem assignWords_word : ∀ w ∈ assignWords, IsWord w := by
  intro w hw
  simp only [assignWords, List.mem_cons, List.not_mem_nil, or_false] at hw
  rcases hw with rfl | rfl | rfl | rfl | rfl | rfl <;> exact isWord_of _ _ (by decide) (by decide)

theorem AssignOpW.mem {op : AssignOp} {s : List Char} (h : AssignOpW op s) : s ∈ assignWords := by
  cases h <;> decide

theorem AssignOpW.word {op : AssignOp} {s : List Char} (h : AssignOpW op s) : IsWord s :=
  assignWords_word _ h.mem

theorem AssignOpW.acc {op : AssignOp} {s : List Char} (h : AssignOpW op s) :
    Acc parseAssignOp Any op s := by
  intro r _
  cases h <;> rfl

theorem assign_miss {t x : List Char} {q : P α} {q' : P β} (ht : IsWord t) (hx : Stop x)
    (hne : t ∉ assignWords) :
    pair parseAssignOp (pair (preceded multispace1 q) q') (t ++ x) = .err :=
  op_word_miss (ts := assignWords) assignWords_word (by decide) ht hx hne

theorem parseAssignOp_head {c : Char} {s : List Char} (hc : isAlpha c = false) :
    parseAssignOp (c :: s) = .err := by
  refine mapExpect_err ?_
  have : ∀ k ks, isAlpha k = true → tag (k :: ks) (c :: s) = .err :=
    fun k ks hk => tag_err (stripPrefix_head (by rintro rfl; exact absurd (hc.symm.trans hk) (by decide)))
  rw [alt_miss (this _ _ (by decide)), alt_miss (this _ _ (by decide)),
    alt_miss (this _ _ (by decide)), alt_miss (this _ _ (by decide)),
    alt_miss (this _ _ (by decide)), alt_miss (this _ _ (by decide)), alt_nil]

/-- An assignment form rejects an atom with another predicate. -/
theorem AtomW.assign_miss {R : α → List Char → Prop} {a : AtomicFormula α} {t : List Char} {q : P β}
    {q' : P γ} (h : AtomW .strict R a t) (hne : a.headNot assignWords) (r : List Char) :
    parens (pair parseAssignOp (pair (preceded multispace1 q) q')) (t ++ r) = .err := by
  cases h with
  | equality =>
    simp only [paren_append, List.append_assoc]
    refine parens_err (pair_err ?_)
    have hs : ∀ x, skip (c!"=" ++ x) = '=' :: x := fun x => (Solid.cons (by decide) (by decide) x).skip
    rw [hs]
    exact parseAssignOp_head (by decide)
  | @predicate g n t vs u hg hn h =>
    simp only [paren_append, List.append_assoc]
    refine parens_err ?_
    rw [hg.skip_solid (hn.solid.append _)]
    refine Pddl.assign_miss hn.1 ?_ ?_
    · cases h with
      | nil hg => exact .gap hg (.close r)
      | cons hg _ _ => simp only [List.append_assoc]; exact .sep hg _
    · intro hm
      rw [← hn.text] at hm
      exact hne hm

theorem AtomicFormula.headNot.sub {ws ws' : List (List Char)} {a : AtomicFormula α} (h : a.headNot ws)
    (hk : ∀ w ∈ ws', w ∈ ws) : a.headNot ws' := by
  cases a with
  | equality => trivial
  | predicate p vs => exact fun hm => h (hk _ hm)

/-! ## Primitive effects -/

theorem isWord_assign : IsWord c!"assign" := isWord_of _ _ (by decide) (by decide)
theorem isWord_when : IsWord c!"when" := isWord_of _ _ (by decide) (by decide)
theorem isWord_undefined : IsWord c!"undefined" := isWord_of _ _ (by decide) (by decide)

theorem parseFunctionTerm_par : Par parseFunctionTerm := fun _ _ h1 _ _ =>
  map_err (preceded_err (tag_err (stripPrefix_head (Ne.symm h1))))

theorem FHeadW.fnTerm {h : FHead} {t : List Char} (H : FHeadW .strict h t)
    (ht : t.head? = some '(') : ∃ f, FnTermW .strict f t := by
  cases H with
  | bare h =>
    obtain ⟨c, cs, rfl, hc, _⟩ := h.1
    cases ht
    exact absurd hc (by decide)
  | @simple g f t g' hg hf hg' =>
    cases (show g' = [] from hg')
    exact ⟨_, .mk hg hf (.nil .nil)⟩
  | @terms g f t ts u hg hf h _ => exact ⟨_, .mk hg hf h⟩

theorem FHeadW.no_fnTerm {h : FHead} {t : List Char} (H : FHeadW .strict h t)
    (ht : t.head? ≠ some '(') (r : List Char) : parseFunctionTerm (t ++ r) = .err := by
  obtain ⟨c, y, rfl, hc⟩ := H.head
  have h1 : c ≠ '(' := fun h => ht (by rw [h]; rfl)
  have h2 := isAlpha_solid (hc.resolve_left h1)
  exact parseFunctionTerm_par _ _ h1 h2.2 h2.1

theorem undefined_no_fexp {m : Mode} {e : FExp} {t : List Char} (h : FExpW m e t)
    (he : ¬ e.isFunction) (r : List Char) : tag c!"undefined" (t ++ r) = .err := by
  have hd : ∃ c y, t = c :: y ∧ c ≠ 'u' := by
    cases h with
    | number h =>
      obtain ⟨c, y, rfl, hc⟩ := h.head
      exact ⟨c, y, rfl, by rintro rfl; exact absurd hc (by decide)⟩
    | function => exact absurd trivial he
    | _ => exact ⟨_, _, rfl, by decide⟩
  obtain ⟨c, y, rfl, hc⟩ := hd
  exact tag_err (stripPrefix_head hc.symm)

theorem PEffectW.solid {m : Mode} {e : PEffect} {t : List Char} (h : PEffectW m e t) : Solid t := by
  cases h with
  | atomic h => exact h.solid
  | _ => exact solid_paren _

/-- A term other than the word `undefined`, where the word is expected. -/
theorem undefined_term {o : Term} {t g : List Char} (h : TermW .strict o t) (hne : t ≠ c!"undefined")
    (hg : Gap g) (r : List Char) :
    tag c!"undefined" (t ++ (g ++ ')' :: r)) = .err ∨
      ∃ y, tag c!"undefined" (t ++ (g ++ ')' :: r)) = .ok c!"undefined" y ∧ ∀ z, skip y ≠ ')' :: z := by
  have word : ∀ {n}, NameW n t → tag c!"undefined" (t ++ (g ++ ')' :: r)) = .err ∨
      ∃ y, tag c!"undefined" (t ++ (g ++ ')' :: r)) = .ok c!"undefined" y ∧ ∀ z, skip y ≠ ')' :: z := by
    intro n hn
    by_cases hp : ∃ y, t = c!"undefined" ++ y
    · obtain ⟨y, rfl⟩ := hp
      cases y with
      | nil => simp at hne
      | cons c y =>
        have hc := hn.1.append_cons (by simp)
        obtain ⟨_, h1, h2, h3⟩ := wordChar_solid hc
        refine .inr ⟨c :: (y ++ (g ++ ')' :: r)), ?_, ?_⟩
        · rw [List.append_assoc]; exact tag_ok c!"undefined" _
        · intro z hz
          rw [(Solid.cons h3 h2 _).skip] at hz
          cases hz
          exact h1 rfl
    · exact .inl (tag_err (stripPrefix_word isWord_undefined hn.1 (.gap hg (.close r))
        fun y hy => hp ⟨y, hy⟩))
  cases h with
  | name h => exact word h
  | var h =>
    obtain ⟨g', w, rfl, _⟩ := h
    exact .inl (tag_err (stripPrefix_head (by decide)))
  | fn => exact .inl (tag_err (stripPrefix_head (by decide)))

/-- The two object assignments reject a numeric update. -/
theorem assign_numeric_miss {g0 s g1 t1 g2 t2 : List Char} {op : AssignOp} {h : FHead} {e : FExp}
    {q : P α}
    (hg0 : Gap g0) (hs : AssignOpW op s) (hg1 : Sep g1) (hh : FHeadW .strict h t1) (hg2 : Sp g2)
    (he : FExpW .strict e t2) (hq : Nw q)
    (hbody : t1.head? = some '(' → ¬ e.isFunction → ∀ f r', parseFunctionTerm (t1 ++ (g2 ++ r')) =
      .ok f (g2 ++ r') → r' = t2 ++ ')' :: r → q (t1 ++ (g2 ++ r')) = .err)
    (hfn : ∀ x, parseFunctionTerm x = .err → q x = .err)
    (hc : s = c!"assign" → t1.head? = some '(' → ¬ e.isFunction) :
    prefixExpr c!"assign" q ('(' :: (g0 ++ (s ++ (g1 ++ (t1 ++ (g2 ++ (t2 ++ ')' :: r))))))) = .err := by
  by_cases hsa : s = c!"assign"
  · subst hsa
    cases hg0 with
    | nil =>
      rw [List.nil_append]
      refine prefixExpr_body_err ?_
      rw [hg1.gap.skip_solid (hh.solid.append _)]
      by_cases ht : t1.head? = some '('
      · obtain ⟨f, hf⟩ := hh.fnTerm ht
        exact hbody ht (hc rfl ht) f _ (hf.acc _ trivial) rfl
      · exact hfn _ (hh.no_fnTerm ht _)
    | space hc => exact prefixExpr_kw (stripPrefix_head (not_space hc 'a' rfl))
    | comment => exact prefixExpr_kw (stripPrefix_head (by decide))
  · exact prefix_word isWord_assign hq hg0 hs.word (.sep hg1 _) hsa

theorem PEffectW.acc {e : PEffect} {t : List Char} (h : PEffectW .strict e t) :
    Acc parsePEffect Any e t := by
  intro r _
  rw [parsePEffect]
  cases h with
  | notAtomic hg1 h hg2 =>
    exact alt_hit (map_run (prefix_one hg1 (h.acc_term.mono fun _ _ => trivial) h.solid hg2 r trivial))
  | @undefined g1 f t g2 g3 hg1 h hg2 hg3 =>
    rw [alt_miss (map_err (kw_miss (fun _ => rfl) _ r))]
    simp only [paren_append, List.append_assoc]
    refine alt_hit (map_run (prefixExpr_run (y := g3 ++ ')' :: r) ?_ (hg3.skip_solid (solid_close r))))
    rw [hg1.skip_solid (h.solid.append _)]
    obtain ⟨x, hx⟩ := ms1_sp hg2 (isWord_undefined.solid.append (g3 ++ ')' :: r))
    exact terminated_run (h.acc _ trivial) (pair_run hx (tag_ok c!"undefined" _))
  | @object g1 f t1 g2 o t2 g3 hg1 hf hg2 ho hg3 hne =>
    have hne := hne rfl
    have hhit := prefix_two_sp (kw := c!"assign") hg1 (hf.acc.mono fun _ _ => trivial) hf.solid
      (show Sp g2 from hg2) ho.acc ho.solid hg3 r trivial
    rw [alt_miss (map_err (kw_miss (fun _ => rfl) _ r)), alt_miss (map_err ?_)]
    · exact alt_hit (map_run (a := (f, o)) hhit)
    · simp only [paren_append, List.append_assoc]
      obtain ⟨x, hx⟩ := ms1_sp (show Sp g2 from hg2) (ho.solid.append (g3 ++ ')' :: r))
      rcases undefined_term ho hne hg3 r with hu | ⟨y, hu, hy⟩
      · refine prefixExpr_body_err ?_
        rw [hg1.skip_solid (hf.solid.append _)]
        exact terminated_err2 (hf.acc _ trivial) (pair_err2 hx hu)
      · refine prefixExpr_tail (v := f) (y := y) ?_ hy
        rw [hg1.skip_solid (hf.solid.append _)]
        exact terminated_run (hf.acc _ trivial) (pair_run hx hu)
  | @numeric g0 op s g1 h t1 g2 e t2 g3 hg0 hs hg1 hh hg2 he hg3 hc =>
    cases (show g3 = [] from hg3)
    have hc := hc rfl
    simp only [paren_append, List.append_assoc, List.nil_append]
    have hm1 : prefixExpr c!"not" (atomicFormula parseTerm)
        ('(' :: (g0 ++ (s ++ (g1 ++ (t1 ++ (g2 ++ (t2 ++ ')' :: r))))))) = .err :=
      prefix_word isWord_not Par.atomicFormula.nw hg0 hs.word (.sep hg1 _)
        (by rintro rfl; exact absurd hs.mem (by decide))
    rw [alt_miss (map_err hm1),
      alt_miss (map_err (assign_numeric_miss hg0 hs hg1 hh hg2 he
        (Par.terminated parseFunctionTerm_par).nw ?_ (fun x hx => terminated_err hx) hc)),
      alt_miss (map_err (assign_numeric_miss hg0 hs hg1 hh hg2 he
        (Par.pair parseFunctionTerm_par).nw ?_ (fun x hx => pair_err hx) hc))]
    · refine alt_hit (map_run (a := (op, h, e)) (parens_run ?_))
      rw [hg0.skip_solid (hs.word.solid.append _)]
      refine pair_run (hs.acc _ trivial) (pair_run (r := g2 ++ (t2 ++ ')' :: r)) ?_ ?_)
      · rw [pms1_sep parseFHead_ct hg1 (hh.solid.append _)]
        exact hh.acc _ (.sp hg2 _)
      · rw [pms1_sp hg2 (he.solid.append _)]
        exact he.acc _ (.close r)
    · intro _ hne f r' hf hr'
      subst hr'
      refine pair_err2 hf ?_
      rw [pms1_sp hg2 (he.solid.append _)]
      exact he.no_term hne _
    · intro _ hne f r' hf hr'
      subst hr'
      obtain ⟨x, hx⟩ := ms1_sp (show Sp g2 from hg2) (he.solid.append (')' :: r))
      exact terminated_err2 hf (pair_err2 hx (undefined_no_fexp he hne _))
  | atomic h hq =>
    have hq := hq rfl
    rw [alt_miss (map_err (h.miss isWord_not Par.atomicFormula.nw (hq.of (by decide)) r)),
      alt_miss (map_err (h.miss isWord_assign (Par.terminated parseFunctionTerm_par).nw
        (hq.of (by decide)) r)),
      alt_miss (map_err (h.miss isWord_assign (Par.pair parseFunctionTerm_par).nw
        (hq.of (by decide)) r)),
      alt_miss (map_err (h.assign_miss (hq.sub (by decide)) r))]
    exact alt_hit (map_run (h.acc_term r trivial))

theorem PEffectW.elem {e : PEffect} {t : List Char} (h : PEffectW .strict e t) : Elem parsePEffect e t :=
  ⟨h.acc.mono fun _ _ => trivial, h.solid⟩

/-- Primitive effects do not begin with `and`, `forall` or `when`. -/
theorem PEffectW.kw_miss {e : PEffect} {t kw : List Char} {p : P α} (h : PEffectW .strict e t)
    (hp : Nw p) (hkw : kw = c!"and" ∨ kw = c!"forall" ∨ kw = c!"when") (r : List Char) :
    prefixExpr kw p (t ++ r) = .err := by
  have hw : IsWord kw := by
    rcases hkw with rfl | rfl | rfl
    · exact isWord_and
    · exact isWord_forall
    · exact isWord_when
  cases h with
  | numeric hg0 hs hg1 =>
    simp only [paren_append, List.append_assoc]
    refine prefix_word hw hp hg0 hs.word (.sep hg1 _) ?_
    rintro rfl
    rcases hkw with rfl | rfl | rfl <;> exact absurd hs.mem (by decide)
  | atomic h hq =>
    refine h.miss hw hp ((hq rfl).of ?_) r
    rcases hkw with rfl | rfl | rfl <;> decide
  | _ => rcases hkw with rfl | rfl | rfl <;> exact Pddl.kw_miss (fun _ => rfl) _ r

/-! ## Effects -/

theorem CondEffectW.solid {m : Mode} {e : CondEffect} {t : List Char} (h : CondEffectW m e t) :
    Solid t := by
  cases h with
  | single h => exact h.solid
  | all => exact solid_paren _

theorem CondEffectW.acc {e : CondEffect} {t : List Char} (h : CondEffectW .strict e t) :
    Acc parseCondEffect Any e t := by
  intro r _
  rw [parseCondEffect]
  cases h with
  | single h =>
    rw [alt_miss (map_err (h.kw_miss (.list0 parsePEffect_par) (.inl rfl) r))]
    exact alt_hit (map_run (h.acc r trivial))
  | all h =>
    exact alt_hit (map_run (prefix_list0 (h.mono fun _ h _ => h.mono fun _ _ h _ => h.elem)
      (fun _ h => h) parsePEffect_par.close r trivial))

theorem CondEffectW.elem {e : CondEffect} {t : List Char} (h : CondEffectW .strict e t) :
    Elem parseCondEffect e t := ⟨h.acc.mono fun _ _ => trivial, h.solid⟩

theorem CEffectW.solid {m : Mode} {e : CEffect} {t : List Char} (h : CEffectW m e t) : Solid t := by
  cases h with
  | effect h => exact h.solid
  | _ => exact solid_paren _

theorem EffectW.solid {m : Mode} {e : List CEffect} {t : List Char} (h : EffectW (CEffectW m) e t) :
    Solid t := by
  cases h with
  | single h => exact h.solid
  | all => exact solid_paren _

theorem CEffectW.and_miss {e : CEffect} {t : List Char} {p : P α} (h : CEffectW .strict e t)
    (hp : Nw p) (r : List Char) : prefixExpr c!"and" p (t ++ r) = .err := by
  cases h with
  | effect h => exact h.kw_miss hp (.inl rfl) r
  | _ => exact kw_miss (fun _ => rfl) _ r

theorem effect_acc {p : P CEffect} (hpar : Par p) {es : List CEffect} {t : List Char}
    (h : EffectW (CEffectW .strict) es t)
    (hp : ∀ e t', t'.length ≤ t.length → CEffectW .strict e t' → Elem p e t') :
    Acc (effectOf p) Stop es t := by
  intro r hr
  rw [effectOf]
  cases h with
  | single h =>
    rw [alt_miss (h.and_miss (.list0 hpar) r)]
    exact alt_hit (map_run ((hp _ _ (Nat.le_refl _) h).1 r hr))
  | all h =>
    refine alt_hit (prefix_list0 (h.mono fun t h hl => h.mono fun a t h hl' => hp a t ?_ h)
      (fun _ h => h) hpar.close r trivial)
    simp only [paren, List.length_append, List.length_cons]
    omega

theorem CEffectW.acc_aux (n : Nat) :
    ∀ e t, t.length ≤ n → CEffectW .strict e t → Acc parseCEffect Any e t := by
  induction n with
  | zero =>
    intro v t hn h
    obtain ⟨c, r, rfl, _⟩ := h.solid
    simp at hn
  | succ n ih =>
    have el : ∀ e t, t.length ≤ n → CEffectW .strict e t → Elem parseCEffect e t :=
      fun e t hl h => ⟨(ih e t hl h).mono fun _ _ => trivial, h.solid⟩
    intro v t hn h r hr
    rw [parseCEffect_eq, cEffectBody, forallCEffectOf, parseWhenCEffect]
    cases h with
    | effect h =>
      rw [alt_miss (map_err (h.kw_miss (Par.pair parseVarList_par).nw (.inr (.inl rfl)) r)),
        alt_miss (map_err (h.kw_miss (Par.pair parseGd_par).nw (.inr (.inr rfl)) r))]
      exact alt_hit (map_run (h.acc r trivial))
    | @forall_ g1 vs t1 g2 es t2 g3 hg1 hv hg2 he hg3 =>
      simp only [paren, List.length_append, List.length_cons] at hn
      have he' := effect_acc parseCEffect_par he fun e t hl h => el e t (by omega) h
      exact alt_hit (map_run (a := (vs, es)) (prefix_two hg1 hv.elem.1
        hv.solid hg2 (.effectOf parseCEffect_ct) he' he.solid hg3 r trivial))
    | @when g1 c t1 g2 e t2 g3 hg1 hc hg2 he hg3 =>
      rw [alt_miss (map_err (kw_miss (fun _ => rfl) _ r))]
      exact alt_hit (map_run (a := (c, e)) (prefix_two hg1 hc.elem.1 hc.solid hg2 parseCondEffect_ct
        he.elem.1 he.solid hg3 r trivial))

theorem CEffectW.acc {e : CEffect} {t : List Char} (h : CEffectW .strict e t) :
    Acc parseCEffect Any e t := CEffectW.acc_aux _ e t (Nat.le_refl _) h

theorem CEffectW.elem {e : CEffect} {t : List Char} (h : CEffectW .strict e t) :
    Elem parseCEffect e t := ⟨h.acc.mono fun _ _ => trivial, h.solid⟩

theorem EffectW.elem {es : List CEffect} {t : List Char} (h : EffectW (CEffectW .strict) es t) :
    Elem parseEffect es t :=
  ⟨effect_acc parseCEffect_par h fun _ _ _ h => h.elem, h.solid⟩

/-! ## Sections that may be `()` -/

theorem RejE.parens {p : P α} {q : P β} (h : ∀ s, p (')' :: s) = .err) :
    RejE (Pddl.parens (Pddl.pair p q)) := RejE.parens_pair h

theorem parseBinaryComp_close (s : List Char) : parseBinaryComp (')' :: s) = .err := rfl
theorem parseAssignOp_close (s : List Char) : parseAssignOp (')' :: s) = .err := rfl
theorem parseAssignOpT_close (s : List Char) : parseAssignOpT (')' :: s) = .err := rfl
theorem parseDOp_close (s : List Char) : parseDOp (')' :: s) = .err := rfl

/-- `comb`, then the first letters of the keywords. -/
macro "rej" : tactic => `(tactic| (comb; all_goals try (unfold autoParam; decide)))

theorem parseFComp_rejE : RejE parseFComp := .map (.parens parseBinaryComp_close)
theorem parseGd_rejE : RejE parseGd := by rw [parseGd_eq, gdBody]; rej
theorem parsePrefGd_rejE : RejE parsePrefGd := by unfold parsePrefGd; rej
theorem parsePreGd_rejE : RejE parsePreGd := by rw [parsePreGd_eq, preGdBody]; rej
theorem parsePEffect_rejE : RejE parsePEffect := by
  unfold parsePEffect; rej; exact parseAssignOp_close
theorem parseCEffect_rejE : RejE parseCEffect := by
  rw [parseCEffect_eq, cEffectBody, forallCEffectOf, parseWhenCEffect]; rej
theorem parseEffect_rejE : RejE parseEffect := by unfold parseEffect effectOf; rej
theorem parseTimedGd_rejE : RejE parseTimedGd := by unfold parseTimedGd; rej
theorem parsePrefTimedGd_rejE : RejE parsePrefTimedGd := by unfold parsePrefTimedGd; rej
theorem parseDaGd_rejE : RejE parseDaGd := by rw [parseDaGd_eq, daGdBody]; rej
theorem parseTimedEffect_rejE : RejE parseTimedEffect := by
  unfold parseTimedEffect; rej; exact parseAssignOpT_close
theorem parseDaEffect_rejE : RejE parseDaEffect := by rw [parseDaEffect_eq, daEffectBody]; rej
theorem parseSimpleDuration_rejE : RejE parseSimpleDuration := by
  rw [parseSimpleDuration_eq, simpleDurationBody]; rej; exact parseDOp_close

/-- After spaces, an alternative `()` in front does not matter for a text accepted by `p`. -/
theorem empty_miss {p : P α} (hc : Ct p) (he : RejE p) {f : List Char → α} {ps : List (P α)} {v : α}
    {g t r : List Char} (hp : p = alt ps) (hg : Sep g) (hs : Solid t) (h : p (t ++ r) = .ok v r) :
    preceded multispace1 (alt (map f (tag c!"()") :: ps)) (g ++ (t ++ r)) = .ok v r := by
  have hk := hg.gap.skip_solid (hs.append r)
  obtain ⟨c, g', rfl, hcs⟩ := sep_head hg
  rw [List.cons_append] at hk ⊢
  rw [preceded_run (multispace1_cons hcs _)]
  rw [skip, List.dropWhile_cons, if_pos (isBlank_space hcs)] at hk
  generalize (g' ++ (t ++ r)).dropWhile isSpace = s at hk
  have ht : tag c!"()" s = .err := by
    rcases skipC_cases s with h1 | ⟨y, rfl⟩
    · rw [h1] at hk
      subst hk
      cases hx : stripPrefix c!"()" (t ++ r) with
      | none => exact tag_err hx
      | some y =>
        rw [Good.stripPrefix_eq hx] at h
        have := he y
        rw [show c!"()" ++ y = '(' :: ')' :: y from rfl, this] at h
        cases h
    · exact tag_err (stripPrefix_head (by decide))
  rw [alt_miss (map_err ht), ← hp, ← hc, hk, h]

theorem solid_unit (x : List Char) : Solid (c!"()" ++ x) := .cons (by decide) (by decide) _

/-- `p` reads the value `v` from the text `t`, whatever follows. -/
def Full (p : P α) (v : α) (t : List Char) : Prop := Acc p Any v t ∧ Solid t

theorem Full.elem {p : P α} {v : α} {t : List Char} (h : Full p v t) : Elem p v t :=
  ⟨h.1.mono fun _ _ => trivial, h.2⟩

theorem emptyOr_run {p : P α} (hc : Ct p) (he : RejE p) {R : α → List Char → Prop}
    (hR : ∀ v t, R v t → Full p v t) {o : Option α} {u : List Char} (h : EmptyOrW R o u)
    (r : List Char) : preceded multispace1 (emptyOr p) (u ++ r) = .ok o r := by
  cases h with
  | empty hg =>
    rw [List.append_assoc, pms1_sp hg (solid_unit r)]
    exact alt_hit (map_run (tag_ok c!"()" r))
  | some hg h =>
    rw [List.append_assoc]
    have := hR _ _ h
    exact empty_miss (p := alt [map Option.some p]) (.alt_one (.map hc)) (.alt_one (.map he)) rfl hg
      this.2 (alt_hit (map_run (this.1 r trivial)))

theorem EffectW.full {es : List CEffect} {t : List Char} (h : EffectW (CEffectW .strict) es t) :
    Full parseEffect es t := by
  refine ⟨fun r _ => ?_, h.solid⟩
  rw [parseEffect, effectOf]
  cases h with
  | single h =>
    rw [alt_miss (h.and_miss (.list0 parseCEffect_par) r)]
    exact alt_hit (map_run (h.acc r trivial))
  | all h =>
    exact alt_hit (prefix_list0 (h.mono fun t h hl => h.mono fun a t h hl' => h.elem)
      (fun _ h => h) parseCEffect_par.close r trivial)

theorem PreGDW.full {g : List PreGD} {t : List Char} (h : PreGDW .strict g t) :
    Full parsePreGd g t := ⟨h.acc, h.solid⟩

/-! ## Actions -/

/-- Keywords that begin with a colon. -/
theorem solidK {k : List Char} : Solid (':' :: k) := .cons (by decide) (by decide) _

/-- `:parameters (..)` -/
theorem parameters_run {g1 g2 t r : List Char} {vs : TypedList Name} (hg1 : Sp g1) (hg2 : Sep g2)
    (h : VarsW .strict vs t) :
    preceded multispace1 parseParameters (g1 ++ (c!":parameters" ++ (g2 ++ (t ++ r)))) = .ok vs r := by
  rw [pms1_sp hg1 (solidK.append _), parseParameters,
    preceded_run (tag_ok c!":parameters" _), pms1_sep parseVarList_ct hg2 (h.solid.append _)]
  exact h.acc _ trivial

/-- The parser of an optional section. -/
abbrev slotP (kw : List Char) (p : P α) : P (Option α) :=
  ws (preceded (tag kw) (preceded multispace1 (emptyOr p)))

theorem slotP_skip {kw : List Char} {p : P α} (s : List Char) : slotP kw p (skip s) = slotP kw p s := by
  rw [slotP, ws_eq, ws_eq, skip_skip]

theorem slot_run {kw : List Char} {p : P α} {R : α → List Char → Prop} (hc : Ct p) (he : RejE p)
    (hR : ∀ v t, R v t → Full p v t) {g u : List Char} {o : Option α} (hg : Gap g) (hkw : Solid kw)
    (h : EmptyOrW R o u) (r : List Char) : slotP kw p (g ++ (kw ++ (u ++ r))) = .ok o r := by
  rw [slotP, ws_eq, hg.skip_solid (hkw.append _), preceded_run (tag_ok kw _)]
  exact emptyOr_run hc he hR h r

theorem slot_none {kw : List Char} {p : P α} {s : List Char} (h : stripPrefix kw (skip s) = none) :
    opt (slotP kw p) s = .ok none s := by
  refine opt_err ?_
  rw [slotP, ws_eq]
  exact preceded_err (tag_err h)

theorem ActionW.solid {m : Mode} {a : ActionDef} {t : List Char} (h : ActionW m a t) : Solid t := by
  cases h; exact solid_paren _

theorem ActionW.acc {a : ActionDef} {t : List Char} (h : ActionW .strict a t) :
    Acc parseActionDef Any a t := by
  intro r _
  cases h with
  | @mk g1 n tn g2 g3 vs tv pre u1 eff u2 g4 hg1 hn hg2 hg3 hv hpre heff hg4 =>
    simp only [paren_append, List.append_assoc]
    have hk := hg4.skip_solid (solid_close r)
    have hslots : ∃ y, skip y = ')' :: r ∧
        ws (pair (opt (slotP c!":precondition" parsePreGd)) (opt (slotP c!":effect" parseEffect)))
          (u1 ++ (u2 ++ (g4 ++ ')' :: r))) = .ok (pre, eff) y := by
      rw [ws_eq]
      cases hpre with
      | absent =>
        rw [List.nil_append]
        cases heff with
        | absent =>
          rw [List.nil_append, hk]
          refine ⟨')' :: r, (solid_close r).skip, ?_⟩
          have h1 : ∀ {α : Type} {k : Char} {ks : List Char} {p : P α}, k ≠ ')' →
              opt (slotP (k :: ks) p) (')' :: r) = .ok none (')' :: r) := fun hne =>
            slot_none (by rw [(solid_close r).skip]; exact stripPrefix_head hne)
          exact pair_run (h1 (by decide)) (h1 (by decide))
        | @present g o u hg ho =>
          simp only [List.append_assoc]
          have hs := hg.skip_solid ((solidK (k := c!"effect")).append (u ++ (g4 ++ ')' :: r)))
          refine ⟨g4 ++ ')' :: r, hk, pair_run
            (r := skip (g ++ (c!":effect" ++ (u ++ (g4 ++ ')' :: r))))) ?_ (opt_run ?_)⟩
          · refine slot_none ?_
            rw [skip_skip, hs]
            rfl
          · rw [slotP_skip]
            exact slot_run (.effectOf parseCEffect_ct) parseEffect_rejE (fun _ _ h => h.full) hg solidK ho _
      | @present g o u hg ho =>
        simp only [List.append_assoc]
        have h1 : opt (slotP c!":precondition" parsePreGd)
            (skip (g ++ (c!":precondition" ++ (u ++ (u2 ++ (g4 ++ ')' :: r)))))) =
            .ok (some o) (u2 ++ (g4 ++ ')' :: r)) := by
          refine opt_run ?_
          rw [slotP_skip]
          exact slot_run parsePreGd_ct parsePreGd_rejE (fun _ _ h => h.full) hg solidK ho _
        cases heff with
        | absent =>
          rw [List.nil_append] at h1 ⊢
          refine ⟨g4 ++ ')' :: r, hk, pair_run h1 (slot_none ?_)⟩
          rw [hk]; rfl
        | @present g' o' u' hg' ho' =>
          simp only [List.append_assoc] at h1 ⊢
          refine ⟨g4 ++ ')' :: r, hk, pair_run h1 (opt_run ?_)⟩
          exact slot_run (.effectOf parseCEffect_ct) parseEffect_rejE (fun _ _ h => h.full) hg' solidK ho' _
    obtain ⟨y, hy, hrun⟩ := hslots
    refine map_run (a := (n, vs, pre, eff)) (prefixExpr_run (y := y) ?_ hy)
    rw [(Mode.word.gap hg1).skip_solid (hn.solid.append _)]
    exact pair_run (hn.acc _ (.sp hg2 _)) (pair_run (parameters_run hg2 hg3 hv) hrun)

theorem DerivedW.solid {m : Mode} {a : DerivedPredicate} {t : List Char} (h : DerivedW m a t) :
    Solid t := by
  cases h; exact solid_paren _

theorem DerivedW.acc {a : DerivedPredicate} {t : List Char} (h : DerivedW .strict a t) :
    Acc parseDerivedPredicate Any a t := by
  intro r _
  cases h with
  | @mk g1 p t1 g2 g t2 g3 hg1 hp hg2 hg hg3 =>
    exact map_run (a := (p, g)) (prefix_two hg1 hp.elem.1 hp.solid hg2 parseGd_ct hg.elem.1 hg.solid
      hg3 r trivial)

end Pddl
