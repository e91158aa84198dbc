import Verif.Meta.Sound

/-!
# Meta-theory: soundness up to numeric comparisons
-/

namespace Pddl

theorem nameW_nonE : NonE NameW := fun _ _ h => h.1.solid.ne

theorem parseName_snd : Snd Any Gap parseName NameW := fun s n r hs _ => by
  rw [parseName_eq] at hs
  obtain ⟨t, h1, h2, h3, _⟩ := wordRes_ok hs
  obtain ⟨g, h4, hg⟩ := skip_gap (s := s) (by rw [h1]; simp [h2.solid.ne])
  exact ⟨g, t, by rw [← h1, ← h4], hg, h2, by rw [h3, wordName_eq]⟩

theorem VarW.solid' {m : Mode} {v : Name} {t : List Char} (h : VarW m v t) : Solid t := by
  obtain ⟨g, w, rfl, _⟩ := h
  exact .cons (by decide) (by decide) _

theorem varW_nonE {m : Mode} : NonE (VarW m) := fun _ _ h => h.solid'.ne

theorem parseVariable_snd : Snd Any Gap parseVariable (VarW .loose) :=
  (Snd.preceded_tag parseName_snd).mono (fun _ => id) Nil.gap (by
    rintro v t ⟨g, u, rfl, hg, h⟩
    exact ⟨g, u, rfl, hg, h⟩)

/-! ## Types and typed lists -/

theorem parsePrimitiveType_snd : Snd Any Gap parsePrimitiveType (EitherMemberW .loose) := by
  refine .alt_cons (.map Snd.tag.gap ?_) (.alt_cons ?_ .alt_nil)
  · rintro a t ⟨rfl, rfl⟩
    exact ⟨⟨isWord_object, rfl⟩, fun h => nomatch h⟩
  · exact parseName_snd.mono (fun _ => id) (fun _ => id) fun _ _ h => ⟨h, fun h => nomatch h⟩

theorem eitherMember_nonE {m : Mode} : NonE (EitherMemberW m) := fun _ _ h => h.1.1.solid.ne

theorem parseType_snd : Snd Any Gap parseType (TypeW .loose) := by
  refine .ifOk parsePrimitiveType_snd (fun _ _ h => .exactly h.1) (.ifOk
    (Snd.prefixExpr (Snd.list1 parsePrimitiveType_snd eitherMember_nonE).anyF fun _ => id) ?_ ?_)
  · rintro ns t ⟨g1, u, g2, rfl, h1, h2, h3⟩
    exact .either h1 h2 h3
  · exact fun _ _ _ hs => by cases hs

theorem explicit_snd {p : P α} {R : α → List Char → Prop} (h : Snd Any Gap p R) (hR : NonE R) :
    Snd Any Gap (explicitlyTyped p) (fun xs t => ∃ ys ty t1 g1 g2 u, xs = ys.map (fun y => ⟨y, ty⟩) ∧
      t = t1 ++ (g1 ++ (c!"-" ++ (g2 ++ u))) ∧ Items R ys t1 ∧ Gap g1 ∧ Gap g2 ∧
      TypeW .loose ty u) := by
  intro s xs r hs _
  obtain ⟨⟨ys, ty⟩, h1, rfl⟩ := map_ok hs
  obtain ⟨r1, h2, h3⟩ := pair_ok h1
  obtain ⟨_, r2, h4, h5⟩ := preceded_ok h3
  rw [ws_eq] at h4
  have h4 := char_inv h4
  obtain ⟨g2, u, rfl, hg2, hu⟩ := parseType_snd _ _ _ h5 trivial
  obtain ⟨g1, h6, hg1⟩ := skip_gap (s := r1) (by rw [h4]; simp)
  rw [h4] at h6
  subst h6
  obtain ⟨g, t, rfl, hg, ht⟩ := Snd.list1 h hR _ _ _ h2 trivial
  exact ⟨g, t ++ (g1 ++ (c!"-" ++ (g2 ++ u))), by simp, hg, ys, ty, t, g1, g2, u, rfl, rfl, ht, hg1,
    hg2, hu⟩

theorem Items.unmap {R : α → List Char → Prop} {f : α → β} {ys : List β} {t : List Char}
    (h : Items (fun y t => ∃ x, R x t ∧ y = f x) ys t) : ∃ xs, ys = xs.map f ∧ Items R xs t := by
  induction h with
  | one h => obtain ⟨x, h, rfl⟩ := h; exact ⟨[x], rfl, .one h⟩
  | cons h hg _ ih =>
    obtain ⟨x, h, rfl⟩ := h
    obtain ⟨xs, rfl, ih⟩ := ih
    exact ⟨x :: xs, rfl, .cons h hg ih⟩

theorem typed_snd {p : P α} {R : α → List Char → Prop} {d : Ty} (h : Snd Any Gap p R)
    (hR : NonE R) : Snd NE Nil (typedListD d p) (Sec Gap Gap (TypedW .loose R d)) := by
  intro s xs r hs hr
  obtain ⟨⟨as, bs⟩, h1, rfl⟩ := map_ok hs
  obtain ⟨r1, h0, h3⟩ := pair_ok h1
  obtain ⟨ass, h2, h0'⟩ := map_ok h0
  dsimp only at h0' h3 ⊢
  subst h0'
  clear h0
  unfold many0 at h2
  revert h2
  generalize s.length + 1 = n
  intro h2
  clear h1 hs
  induction n generalizing s ass with
  | zero => cases h2
  | succ n ih =>
    rw [many0Loop] at h2
    dsimp only at h2
    split at h2
    · cases h2
      have hl := Snd.list0 (p := map (fun o => Typed.mk o d) p)
        (R := fun y t => ∃ x, R x t ∧ y = Typed.mk x d) (h.map fun a t ha => ⟨a, ha, rfl⟩)
        (by rintro a t ⟨x, hx, _⟩; exact hR _ _ hx)
      obtain ⟨g, t, h4, rfl, h5⟩ := hl _ _ _ h3 hr
      refine ⟨[], t, h4, rfl, ?_⟩
      cases h5 with
      | nil hg => exact .nil hg
      | cons h6 h7 h8 =>
        obtain ⟨xs, hxs, h7'⟩ := h7.unmap
        subst hxs
        exact .cons h6 (.tail h7') h8
    · rename_i a r2 h4
      split at h2
      · cases h2
      · cases hl : many0Loop (explicitlyTyped p) n r2 with
        | ok as' r' =>
          rw [hl] at h2
          cases h2
          obtain ⟨g, t, rfl, rfl, h5⟩ := ih _ _ hl
          obtain ⟨g', t', rfl, hg', ys, ty, t1, g1, g2, u, rfl, rfl, h6, hg1, hg2, hu⟩ :=
            explicit_snd h hR _ _ _ h4 trivial
          have hz : (ys.map (fun y => Typed.mk y ty) :: as').flatten ++ bs =
              ys.map (fun y => Typed.mk y ty) ++ (as'.flatten ++ bs) := by
            simp only [List.flatten_cons, List.append_assoc]
          rw [hz]
          revert h5
          generalize as'.flatten ++ bs = zs
          intro h5
          cases h5 with
          | nil hg =>
            refine ⟨[], g' ++ ((t1 ++ (g1 ++ (c!"-" ++ (g2 ++ u)))) ++ t), by simp, rfl, ?_⟩
            rw [List.append_nil]
            exact .cons hg' (.last h6 hg1 hg2 hu) hg
          | @cons g3 _ t3 g4 h7 h8 h9 =>
            refine ⟨[], g' ++ ((t1 ++ (g1 ++ (c!"-" ++ (g2 ++ (u ++ (g3 ++ t3)))))) ++ g4),
              by simp, rfl, ?_⟩
            exact .cons hg' (.more h6 hg1 hg2 hu h7 h8) h9
        | _ => rw [hl] at h2; cases h2
    all_goals cases h2

theorem vars_sec : Snd NE Nil (typedList parseVariable)
    (Sec Gap Gap (TypedW .loose (VarW .loose) Ty.object)) := typed_snd parseVariable_snd varW_nonE

theorem parseVarList_snd : Snd Any Gap parseVarList (VarsW .loose) :=
  (Snd.parens vars_sec Nil.gap).mono (fun _ => id) (fun _ => id) (by
    rintro vs t ⟨g, u, rfl, hg, h⟩
    exact ⟨_, rfl, h.lead hg⟩)

theorem parseAtomicFormulaSkeleton_snd : Snd Any Gap parseAtomicFormulaSkeleton (SkeletonW .loose) :=
  .map (Snd.parens_sec parseName_snd vars_sec.sec_ws) (by
    rintro ⟨p, vs⟩ t ⟨g, t1, u, rfl, hg, h1, h2⟩
    exact .mk hg h1 h2)

/-! ## Terms and atoms -/

theorem names_sec : Snd NE Nil (spaceSeparatedList0 parseName) (Sec Gap Gap (Items NameW)) :=
  .list0 parseName_snd nameW_nonE

theorem termW_nonE {m : Mode} : NonE (TermW m) := fun _ _ h => h.solid.ne

theorem functionTermOf_snd {p : P Term} (h : Snd Any Gap p (TermW .loose)) :
    Snd Any Gap (functionTermOf p) (FnTermW .loose) := by
  refine .map (R := fun x t => ∃ g t1 u, t = paren (g ++ (t1 ++ u)) ∧ Gap g ∧ NameW x.1 t1 ∧
    Sec Gap Gap (Items (TermW .loose)) x.2 u) ?_ ?_
  · intro s x r hs _
    obtain ⟨_, r1, h1, h2⟩ := preceded_ok hs
    obtain ⟨_, r2, h3, h4⟩ := terminated_ok h2
    obtain ⟨_, rfl⟩ := tag_inv h1
    obtain ⟨_, rfl⟩ := tag_inv h4
    obtain ⟨g, t, rfl, hg, t1, g2, t2, rfl, h5, rfl, h6⟩ :=
      Snd.pair parseName_snd (Snd.list0 h termW_nonE) _ _ _ h3 (by simp [NE])
    exact ⟨[], paren (g ++ (t1 ++ t2)), by simp [paren], .nil, g, t1, t2, rfl, hg, h5, h6⟩
  · rintro ⟨f, ts⟩ t ⟨g, t1, u, rfl, hg, h1, h2⟩
    exact .mk hg h1 h2

theorem parseTerm_snd : Snd Any Gap parseTerm (TermW .loose) := by
  refine .fix fun self h => .ifOk parseVariable_snd (fun _ _ h => .var h)
    (.ifOk parseName_snd (fun _ _ h => .name h) (.ifOk (functionTermOf_snd h) ?_ ?_))
  · rintro ⟨f, ts⟩ t h
    cases h with
    | mk h1 h2 h3 => exact .fn h1 h2 h3
  · exact fun _ _ _ hs => by cases hs

theorem parseFunctionTerm_snd : Snd Any Gap parseFunctionTerm (FnTermW .loose) :=
  functionTermOf_snd parseTerm_snd

theorem terms_sec : Snd NE Nil (spaceSeparatedList0 parseTerm)
    (Sec Gap Gap (Items (TermW .loose))) := .list0 parseTerm_snd termW_nonE

theorem atomicFormula_snd {p : P α} {R : α → List Char → Prop} (h : Snd Any Gap p R) (hR : NonE R) :
    Snd Any Gap (atomicFormula p) (AtomW .loose R) := by
  refine .alt_cons (.map (R := fun x t => AtomW .loose R (.equality x.1 x.2) t) ?_ fun _ _ h => h)
    (.alt_cons (.map (Snd.parens_sec parseName_snd (Snd.list0 h hR).sec_ws) ?_) .alt_nil)
  · intro s x r hs _
    obtain ⟨_, r1, h1, h2⟩ := preceded_ok hs
    obtain ⟨_, r2, h3, h4⟩ := terminated_ok h2
    rw [ws_eq] at h1 h4
    obtain ⟨_, h1⟩ := tag_inv h1
    have h4 := char_inv h4
    obtain ⟨g, h5, hg⟩ := skip_gap (s := s) (by rw [h1]; simp)
    obtain ⟨g3, h6, hg3⟩ := skip_gap (s := r2) (by rw [h4]; simp)
    rw [h1] at h5
    rw [h4] at h6
    subst h5 h6
    obtain ⟨g1, t, rfl, hg1, t1, g2, t2, rfl, h7, hg2, h8⟩ :=
      Snd.pair (Snd.ws h (fun _ => id) hR) (Snd.ws h (fun _ => id) hR) _ _ _ h3 trivial
    exact ⟨g, _, by simp [paren], hg, .equality hg1 h7 hg2 h8 hg3⟩
  · rintro ⟨f, ts⟩ t ⟨g, t1, u, rfl, hg, h1, h2⟩
    exact .predicate hg h1 h2

theorem atom_snd : Snd Any Gap (atomicFormula parseTerm) (AtomW .loose (TermW .loose)) :=
  atomicFormula_snd parseTerm_snd termW_nonE

theorem literal_snd : Snd Any Gap (literal parseName) (LiteralW .loose) := by
  have ha := atomicFormula_snd parseName_snd nameW_nonE
  refine .alt_cons (.map (Snd.prefixExpr ha.anyF fun _ => id) ?_) (.alt_cons (.map ha ?_) .alt_nil)
  · rintro a t ⟨g1, u, g2, rfl, h1, h2, h3⟩
    exact .neg h1 h2 h3
  · exact fun _ _ h => .pos h

theorem parseBasicFunctionTerm_snd : Snd Any Gap parseBasicFunctionTerm (BasicW .loose) := by
  refine .alt_cons (.map parseName_snd fun _ _ h => .bare h)
    (.alt_cons (.map (Snd.parens_sec parseName_snd names_sec.sec_ws) ?_) .alt_nil)
  rintro ⟨f, ts⟩ t ⟨g, t1, u, rfl, hg, h1, h2⟩
  exact .app hg h1 h2

theorem parseFHead_snd : Snd Any Gap parseFHead (FHeadW .loose) := by
  refine .alt_cons (.map parseName_snd fun _ _ h => .bare h)
    (.alt_cons (.map (Snd.parens parseName_snd.anyF fun _ => id) ?_)
    (.alt_cons (.map (Snd.parens_sec parseName_snd
      ((Snd.ms1 terms_sec Nil.gap).lead fun _ => Sep.gap).sec) ?_) .alt_nil))
  · rintro f t ⟨g, u, rfl, hg, h⟩
    have := FHeadW.simple (m := .loose) hg h Gap.nil
    rwa [List.append_nil] at this
  · rintro ⟨f, ts⟩ t ⟨g, t1, u, rfl, hg, h1, h2⟩
    exact .terms hg h1 h2 fun h => nomatch h

/-! ## Numbers and operators -/

theorem numW_nonE : NonE NumW := fun _ _ h => h.solid.ne

theorem parseNumber_snd : Snd Any Nil parseNumber NumW := fun s n r hs _ => by
  rw [parseNumber_eq] at hs
  cases h : numSplit s with
  | none => rw [h] at hs; cases hs
  | some x =>
    obtain ⟨t, r'⟩ := x
    obtain ⟨h1, ds, hne, hd, ht⟩ := numSplit_spec h
    rw [h] at hs
    dsimp only at hs
    cases hn : Number.new (floatOf t) with
    | none => rw [hn] at hs; cases hs
    | some m =>
      rw [hn] at hs
      cases hs
      have hv : n.val = floatOf t ∧ (floatOf t).isFinite = true := by
        unfold Number.new at hn
        split at hn
        · rename_i hf
          cases hn
          exact ⟨rfl, hf⟩
        · cases hn
      refine ⟨[], t, h1, rfl, ?_⟩
      rcases ht with rfl | ⟨fs, hfne, hf, rfl⟩
      · refine numW_iff.mpr ⟨⟨t, [], hne, hd, by simp⟩, by simp [Literal10.text], ?_, by rw [hv.1]; exact hv.2⟩
        rw [hv.1, floatOf, litValue_int hd]
        simp [Literal10.num]
      · refine numW_iff.mpr ⟨⟨ds, fs, hne, hd, hf⟩, by simp [Literal10.text, hfne], ?_, by rw [hv.1]; exact hv.2⟩
        rw [hv.1, floatOf, litValue_frac hd]
        rfl

theorem minus_snd {F : List Char → Prop} {p : P α} {R : α → List Char → Prop} (h : Snd F Gap p R) :
    Snd F Gap (preceded (pair (char '-') multispace0) p) (After c!"-" Gap R) := fun s a r hs hr => by
  obtain ⟨_, r1, h1, h2⟩ := preceded_ok hs
  obtain ⟨r2, h3, h4⟩ := pair_ok h1
  obtain ⟨g, t, rfl, hg, ht⟩ := h _ _ _ h2 hr
  obtain ⟨h4, hsp⟩ := ms0_inv h4
  rw [char_inv h3, h4]
  exact ⟨[], _, by simp, .nil, _ ++ g, t, rfl, (Gap.of_spaces hsp).append hg, ht⟩

theorem ops_snd {p : P β} {str : β → List Char}
    (h : ∀ s b r, p s = .ok b r → ∃ t, s = t ++ r ∧ (t = str b ∨ t ∈ noAlias b)) :
    Snd Any Nil p (fun b t => t = str b) := fun s b r hs _ => by
  obtain ⟨t, h1, h2⟩ := h s b r hs
  rcases h2 with h2 | h2
  · exact ⟨[], t, h1, rfl, h2⟩
  · cases h2

theorem parseBinaryOp_snd : Snd Any Nil parseBinaryOp (fun o t => t = o.spell) :=
  (ops_snd C41_binaryOp.sound).mono (fun _ => id) (fun _ => id) (by rintro o t rfl; cases o <;> rfl)
theorem parseMultiOp_snd : Snd Any Nil parseMultiOp (fun o t => t = o.spell) :=
  (ops_snd C41_multiOp.sound).mono (fun _ => id) (fun _ => id) (by rintro o t rfl; cases o <;> rfl)
theorem parseBinaryComp_snd : Snd Any Nil parseBinaryComp (fun o t => t = o.spell) :=
  (ops_snd C41_binaryComp.sound).mono (fun _ => id) (fun _ => id) (by rintro o t rfl; cases o <;> rfl)
theorem parseAssignOpT_snd : Snd Any Nil parseAssignOpT (fun o t => t = o.spell) :=
  (ops_snd C41_assignOpT.sound).mono (fun _ => id) (fun _ => id) (by rintro o t rfl; cases o <;> rfl)
theorem parseDOp_snd : Snd Any Nil parseDOp (fun o t => t = o.spell) :=
  (ops_snd C41_dOp.sound).mono (fun _ => id) (fun _ => id) (by rintro o t rfl; cases o <;> rfl)
theorem parseOptimization_snd : Snd Any Nil parseOptimization (fun o t => t = o.spell) :=
  (ops_snd C41_optimization.sound).mono (fun _ => id) (fun _ => id) (by rintro o t rfl; cases o <;> rfl)
theorem parseTimeSpecifier_snd : Snd Any Nil parseTimeSpecifier (fun o t => t = o.spell) :=
  (ops_snd C41_timeSpecifier.sound).mono (fun _ => id) (fun _ => id) (by rintro o t rfl; cases o <;> rfl)
theorem parseInterval_snd : Snd Any Nil parseInterval (fun o t => t = o.spell) :=
  (ops_snd C41_interval.sound).mono (fun _ => id) (fun _ => id) (by rintro o t rfl; cases o <;> rfl)

theorem parseAssignOp_snd : Snd Any Nil parseAssignOp AssignOpW := fun s o r hs _ => by
  obtain ⟨t, h1, h2⟩ := C41_assignOp.sound s o r hs
  refine ⟨[], t, h1, rfl, ?_⟩
  rcases h2 with rfl | h2
  · cases o <;> constructor
  · cases o <;> simp [assignAlias] at h2
    subst h2
    exact .change

/-! ## Numeric expressions -/

theorem fExpW_nonE {m : Mode} : NonE (FExpW m) := fun _ _ h => h.solid.ne

/-- The text of an n-ary operator. A single operand after the first stands behind a comment. -/
def MulT (R : α → List Char → Prop) (x : MultiOp × α × List α) (t : List Char) : Prop :=
  ∃ g0 g1 t1 g2 t2, t = paren (g0 ++ (x.1.spell ++ (g1 ++ (t1 ++ (g2 ++ t2))))) ∧ Gap g0 ∧ Sep g1 ∧
    R x.2.1 t1 ∧ Sep g2 ∧ Items R x.2.2 t2 ∧ Mode.wide .loose g2 x.2.2.length

theorem list1_one {self : P α} {R : α → List Char → Prop} (h : Snd Any Gap self R) (hR : NonE R)
    {s a r} (hs : spaceSeparatedList1 self s = .ok [a] r) : self (skip s) = .ok a r := by
  unfold spaceSeparatedList1 at hs
  rw [ws_eq] at hs
  unfold sepList1 at hs
  rw [eolp_eq, skipC_skip] at hs
  cases hp : self (skip s) with
  | ok b r1 =>
    rw [hp] at hs
    simp only [Res.bind] at hs
    cases hl : sepLoop multispace1 (preceded ignoreEolComment self) (r1.length + 1) r1 with
    | ok as' r' =>
      rw [hl] at hs
      cases hs
      rcases sepLoop_inv h hR _ _ _ _ hl with ⟨_, rfl⟩ | ⟨_, _, _, _, hi⟩
      · rfl
      · cases hi
    | _ => rw [hl] at hs; cases hs
  | _ => rw [hp] at hs; cases hs

theorem parens_inv_skip {p : P α} {s a r} (h : parens p s = .ok a r) :
    ∃ x, skipC s = '(' :: x ∧ p (skip x) = .ok a (')' :: r) := by
  unfold parens delimited at h
  rw [eolp_eq] at h
  obtain ⟨_, r1, h1, h2⟩ := preceded_ok h
  obtain ⟨_, y, h3, h4⟩ := terminated_ok h2
  rw [ws_eq] at h3
  exact ⟨r1, char_inv h1, by rw [h3, char_inv h4]⟩

theorem items_one {R : α → List Char → Prop} {a t} (h : Items R [a] t) : R a t := by
  generalize hl : [a] = l at h
  cases h with
  | one h => cases hl; exact h
  | cons _ _ h => cases hl; cases h

/-- Where the binary reading fails, the n-ary one finds two operands after the first, or a comment. -/
theorem mul_inv {self : P α} {R : α → List Char → Prop} (h : Snd Any Gap self R)
    (hS : ∀ a t, R a t → Solid t) {s x r} (hb : binP self s = .err) (hm : mulP self s = .ok x r) :
    ∃ g t, s = g ++ (t ++ r) ∧ Gap g ∧ MulT R x t := by
  have hR : NonE R := fun a t h => (hS a t h).ne
  obtain ⟨op, a, bs⟩ := x
  obtain ⟨x, hx, h1⟩ := parens_inv_skip hm
  obtain ⟨g, hs, hg⟩ := skipC_gap (s := s) (by rw [hx]; simp)
  rw [hx] at hs
  obtain ⟨r1, h2, h3⟩ := pair_ok h1
  obtain ⟨r2, h4, h5⟩ := pair_ok h3
  obtain ⟨v, r3, h6, h7⟩ := preceded_ok h5
  obtain ⟨e6, hsp⟩ := ms1_inv h6
  obtain ⟨g3, t2, e7, hg3, ht2⟩ := Snd.list1 h hR _ _ _ h7 trivial
  obtain ⟨g1, t1, e4, hg1, ht1⟩ := Snd.ms1 h (fun _ => id) _ _ _ h4 trivial
  obtain ⟨_, _, e2, rfl, rfl⟩ := parseMultiOp_snd _ _ _ h2 trivial
  obtain ⟨g0, e0, hg0⟩ := skip_gap (s := x) (by rw [e2, e4]; simp [hR _ _ ht1])
  refine ⟨g, _, ?_, hg, g0, g1, t1, v ++ g3, t2, rfl, hg0, hg1, ht1, hsp.sep.append hg3, ht2, ?_⟩
  · rw [hs, e0, e2, e4, e6, e7]
    simp [paren]
  · by_cases hl : 2 ≤ bs.length
    · exact .inl hl
    · right
      match bs with
      | [] => cases ht2
      | _ :: _ :: _ => exact absurd (by simp) hl
      | [b] =>
        have hhead : skip r3 = skipC r3 := skip_of_head (by
          unfold multispace1 takeWhile1 at h6
          split at h6 <;> cases h6
          exact head_dropWhile _ _)
        rcases skipC_cases r3 with hc | ⟨y, hy⟩
        · exfalso
          have h8 := list1_one h hR h7
          rw [hhead, hc] at h8
          obtain ⟨o, ho⟩ := parseBinaryOp_multi op r1
          rw [binP, ← parens_skipC, hx, parens_run (v := (o, a, b)) (r := r)] at hb
          · cases hb
          · rw [e2]
            exact pair_run ho (pair_run h4 ((preceded_run h6).trans h8))
        · cases g3 with
          | nil =>
            obtain ⟨c, u, rfl, _, hne⟩ := hS _ _ (items_one ht2)
            rw [hy] at e7
            simp only [List.nil_append, List.cons_append, List.cons.injEq] at e7
            exact absurd e7.1.symm hne
          | cons c g3 =>
            rw [hy] at e7
            simp only [List.cons_append, List.cons.injEq] at e7
            simp [← e7.1]
theorem Snd.alt_two {F G : List Char → Prop} {p q : P α} {ps : List (P α)}
    {R : α → List Char → Prop} (hp : Snd F G p R)
    (hq : ∀ s a r, p s = .err → q s = .ok a r → ∃ g t, s = g ++ (t ++ r) ∧ G g ∧ R a t)
    (hps : Snd F G (alt ps) R) : Snd F G (alt (p :: q :: ps)) R := fun s a r hs hr => by
  rcases alt_inv hs with hs | ⟨he, hs⟩
  · exact hp s a r hs hr
  · rcases alt_inv hs with hs | ⟨_, hs⟩
    · exact hq s a r he hs
    · exact hps s a r hs hr

theorem map_err_inv {f : α → β} {p : P α} {s} (h : map f p s = .err) : p s = .err := by
  unfold map at h
  cases hp : p s with
  | err => rfl
  | _ => rw [hp] at h; cases h

/-- The two readings of operators, one after the other. -/
theorem Snd.operators {self : P α} {R : α → List Char → Prop} (h : Snd Any Gap self R)
    (hS : ∀ a t, R a t → Solid t) {f : BinaryOp × α × α → α} {q : P α} {ps : List (P α)}
    (mk : MultiOp → α → List α → α)
    (hq : ∀ s a r, q s = .ok a r → ∃ x, mulP self s = .ok x r ∧ a = mk x.1 x.2.1 x.2.2)
    (hbin : ∀ {op : BinaryOp} {g0 g1 t1 g2 t2 a b}, Gap g0 → Sep g1 → R a t1 → Sep g2 → R b t2 →
      R (f (op, a, b)) (paren (g0 ++ (op.spell ++ (g1 ++ (t1 ++ (g2 ++ (t2 ++ []))))))))
    (hmul : ∀ {op : MultiOp} {g0 g1 t1 g2 t2 a bs}, Gap g0 → Sep g1 → R a t1 → Sep g2 →
      Items R bs t2 → Mode.wide .loose g2 bs.length →
      R (mk op a bs) (paren (g0 ++ (op.spell ++ (g1 ++ (t1 ++ (g2 ++ (t2 ++ []))))))))
    (hps : Snd Any Gap (alt ps) R) : Snd Any Gap (alt (Pddl.map f (binP self) :: q :: ps)) R := by
  refine .alt_two (.map (Snd.parens (Snd.pair parseBinaryOp_snd.gap
    (Snd.pair (Snd.ms1 h fun _ => id) (Snd.ms1 h fun _ => id)).anyF) fun _ => id) ?_) ?_ hps
  · rintro ⟨op, a, b⟩ t ⟨g, u, rfl, hg, t1, g1, t2, rfl, rfl, hg1, t3, g2, t4, rfl, h1, hg2, h2⟩
    have := hbin (op := op) hg hg1 h1 hg2 h2
    simpa using this
  · intro s a r he hs
    obtain ⟨x, h1, rfl⟩ := hq s a r hs
    obtain ⟨g, t, h2, hg, g0, g1, t1, g2, t2, rfl, hg0, hg1, ht1, hg2, ht2, hw⟩ :=
      mul_inv h hS (map_err_inv he) h1
    have := hmul (op := x.1) hg0 hg1 ht1 hg2 ht2 hw
    exact ⟨g, _, h2, hg, by simpa using this⟩

theorem map_mul {self : P α} {mk : MultiOp → α → List α → α} (s a r)
    (h : map (fun x : MultiOp × α × List α => mk x.1 x.2.1 x.2.2) (mulP self) s = .ok a r) :
    ∃ x, mulP self s = .ok x r ∧ a = mk x.1 x.2.1 x.2.2 := by
  obtain ⟨x, h1, rfl⟩ := map_ok h
  exact ⟨x, h1, rfl⟩

theorem parseFExp_snd : Snd Any Gap parseFExp (FExpW .loose) := by
  refine .fix fun self h => .alt_cons (.map parseNumber_snd.gap fun _ _ h => .number h)
    (.operators h (fun _ _ h => h.solid) .multiOp map_mul
      (fun h0 h1 ha h2 hb => .binaryOp h0 h1 ha h2 hb Gap.nil)
      (fun h0 h1 ha h2 hb hw => .multiOp h0 h1 ha h2 hb Gap.nil hw)
    (.alt_cons (.map (Snd.parens (minus_snd h.anyF) fun _ => id) ?_)
    (.alt_cons (.map parseFHead_snd fun _ _ h => .function h) .alt_nil)))
  rintro e t ⟨g, u, rfl, hg, g1, t1, rfl, hg1, h1⟩
  have := FExpW.negative (m := .loose) hg hg1 h1 Gap.nil
  simpa using this

theorem parseFComp_snd : Snd Any Gap parseFComp (FCompW .loose) := by
  refine .map (Snd.parens (Snd.pair parseBinaryComp_snd.gap
      (Snd.pair (Snd.ms1 parseFExp_snd fun _ => id) (Snd.ms1 parseFExp_snd fun _ => id)).anyF)
      fun _ => id) ?_
  rintro ⟨op, a, b⟩ t ⟨g, u, rfl, hg, t1, g1, t2, rfl, rfl, hg1, t3, g2, t4, rfl, h1, hg2, h2⟩
  have := FCompW.mk (m := .loose) (op := op) hg hg1 h1 hg2 h2 Gap.nil
  simpa using this

end Pddl
