import Verif.Props.EffectsX

/-!
# C100: are comparisons and assignments of numbers read as such?

`(= (f ?x) (g ?x))` and `(assign (f ?x) (g ?x))` are both comparisons or assignments of numbers and of
objects. The code always takes them as the latter. All other comparisons and assignments of numbers are
read as such.
-/

namespace Pddl

/-- The function `h`, taken as a term: `f` is a constant, `(f)` and `(f t ..)` are function terms. -/
def HeadTerm : FHead → Term → Prop
  | .simple f, x => x = .name f ∨ x = .fn f []
  | .withTerms f ts, x => x = .fn f ts

theorem FHeadX.term {h : FHead} {t : List Char} (H : FHeadX h t) : ∃ x, HeadTerm h x ∧ TermX x t := by
  cases H with
  | @name n _ hn => exact ⟨.name n, .inl rfl, .name hn⟩
  | @paren g n w hg hn =>
    refine ⟨.fn n [], .inr rfl, ?_⟩
    have := TermX.fn hg hn (.nil .nil) (fun c r h => by cases h) (ts := [])
    rwa [List.append_nil] at this
  | @terms g n w b ts u hg hn hb hs =>
    refine ⟨.fn n ts, rfl, .fn hg hn ?_ (Stop.sp hb u).word⟩
    cases hs with
    | nil hg' => exact .nil (hb.sep.gap.append hg')
    | @cons g1 _ t1 g2 h1 h2 h3 =>
      have := Sec.cons (lead := Gap) (trail := (· = [])) (hb.sep.gap.append h1) h2 h3
      rwa [List.append_assoc] at this

/-- An operand that begins like a term is a function. -/
theorem FExpX.as_term {g : List Char} {e : FExp} {t : List Char} (h : FExpX g e t) {r : List Char} {x : Term}
    {r' : List Char} (hr : Stop r) (hx : parseTerm (t ++ r) = .ok x r') :
    r' = r ∧ ∃ f, e = .function f ∧ FHeadX f t ∧ HeadTerm f x := by
  have op : ∀ {g' : List Char} {c : Char} {y : List Char}, Gap g' → Solid (c :: y) → isAlpha c = false →
      parseTerm (paren (g' ++ c :: y) ++ r) ≠ .ok x r' := fun {g' c y} hg hs hc he => by
    rw [paren_append, List.append_assoc, parseTerm_open] at he
    · cases he
    · refine parseName_err fun d z hd => ?_
      rw [hg.skip_solid (hs.append _)] at hd
      cases hd
      exact hc
  cases h with
  | leaf h =>
    cases h with
    | number hn =>
      obtain ⟨c, y, rfl, hc⟩ := hn.head
      rw [List.cons_append, parseTerm_err] at hx
      · cases hx
      · exact .cons (isDigit_solid hc).1 (isDigit_solid hc).2 _
      · cases ha : isAlpha c with
        | false => rfl
        | true => rw [show isDigit c = false from letter_not_dec ha] at hc; cases hc
      · rintro rfl; exact absurd hc (by decide)
      · rintro rfl; exact absurd hc (by decide)
    | function hl hf =>
      obtain ⟨x', h1, h2⟩ := hf.term
      have e := h2.run (parseTerm_exact.stop x' r hr)
      rw [hx] at e
      cases e
      exact ⟨rfl, _, rfl, hf, h1⟩
  | @binary _ _ _ _ _ _ _ _ o _ _ _ hg =>
    cases o <;> exact absurd hx (op hg (.cons (by decide) (by decide) _) (by decide))
  | @multi _ _ _ _ _ _ _ _ o _ _ _ hg =>
    cases o <;> exact absurd hx (op hg (.cons (by decide) (by decide) _) (by decide))
  | negative _ hg =>
    exact absurd hx (op hg (.cons (by decide) (by decide) _) (by decide))

theorem gap_solid_inj {g g' x x' : List Char} (hg : Gap g) (hg' : Gap g') (hx : Solid x) (hx' : Solid x')
    (e : g ++ x = g' ++ x') : g = g' ∧ x = x' := by
  have h : x = x' := by rw [← hg.skip_solid hx, e, hg'.skip_solid hx']
  subst h
  exact ⟨List.append_cancel_right e, rfl⟩

theorem FExpX.solid {g : List Char} {e : FExp} {t : List Char} (h : FExpX g e t) : Solid t :=
  ArithX.solid fExp_arith.toArithRun h

theorem OpForm.spelled {op : BinaryComp} {a b : FExp} {t : List Char}
    (h : OpForm (fun o t => t = BinaryComp.spell o) FExpX FExpX (op, a, b) t) :
    ∃ g b1 g1 t1 b2 g2 t2, t = paren (g ++ (op.spell ++ (b1 ++ (g1 ++ (t1 ++ (b2 ++ (g2 ++ t2))))))) ∧ Gap g ∧
      Sp b1 ∧ GapC g1 ∧ FExpX g1 a t1 ∧ Sp b2 ∧ GapC g2 ∧ FExpX g2 b t2 := by
  cases h with
  | mk h1 h2 h3 h4 h5 h6 h7 h8 =>
    cases h2
    exact ⟨_, _, _, _, _, _, _, rfl, h1, h3, h4, h5, h6, h7, h8⟩

/-- A comparison that is also the text of an atom is the equality of two functions. -/
theorem comparison_as_atom {op : BinaryComp} {a b : FExp} {t : List Char} {v : AtomicFormula Term}
    (h : OpForm (fun o t => t = BinaryComp.spell o) FExpX FExpX (op, a, b) t) (hv : AtomX TermX TermEnds v t) :
    op = .eq ∧ (∃ u, t = '(' :: '=' :: u) ∧ ∃ f f' x x', a = .function f ∧ b = .function f' ∧ HeadTerm f x ∧
      HeadTerm f' x' ∧ v = .equality x x' := by
  obtain ⟨g, b1, g1, t1, b2, g2, t2, rfl, hg, hb1, hg1, ha, hb2, hg2, hb⟩ := h.spelled
  have head : ∀ c y, op.spell = c :: y → isBlank c = false ∧ c ≠ ';' ∧ isAlpha c = false := by
    cases op <;> (intro c y e; cases e; decide)
  have hop : ∃ c y, op.spell = c :: y := by cases op <;> exact ⟨_, _, rfl⟩
  obtain ⟨c, y, ec⟩ := hop
  have hc := head c y ec
  generalize e : paren (g ++ (op.spell ++ (b1 ++ (g1 ++ (t1 ++ (b2 ++ (g2 ++ t2))))))) = t at hv
  cases hv with
  | @equality k1 x s1 k2 x' s2 k3 hk1 hx hk2 hf hx' hk3 =>
    have e1 : g ++ (op.spell ++ (b1 ++ (g1 ++ (t1 ++ (b2 ++ (g2 ++ t2)))))) =
        [] ++ (c!"=" ++ (k1 ++ (s1 ++ (k2 ++ (s2 ++ k3))))) := List.append_cancel_right (List.cons.inj e).2
    rw [ec] at e1
    obtain ⟨rfl, e2⟩ := gap_solid_inj hg .nil (.cons hc.1 hc.2.1 _) (.cons (by decide) (by decide) _) e1
    have hop : op = .eq ∧ y = [] := by
      cases op with
      | eq => cases ec; exact ⟨rfl, rfl⟩
      | _ => cases ec; cases (List.cons.inj e2).1
    obtain ⟨rfl, rfl⟩ := hop
    have e3 : (b1 ++ g1) ++ (t1 ++ (b2 ++ (g2 ++ t2))) = k1 ++ (s1 ++ (k2 ++ (s2 ++ k3))) := by
      have := (List.cons.inj e2).2
      simpa using this
    have st1 : Solid s1 := termX_solid hx
    have st2 : Solid s2 := termX_solid hx'
    obtain ⟨-, e4⟩ := gap_solid_inj (hb1.sep.gap.append hg1.1) hk1 (ha.solid.append _) (st1.append _) e3
    have r1 : parseTerm (t1 ++ (b2 ++ (g2 ++ t2))) = .ok x (k2 ++ (s2 ++ k3)) := by
      rw [e4]
      refine hx.run ?_
      rw [← List.append_assoc]
      exact (parseTerm_exact.head x _ _ (fun h => st2.ne (List.append_eq_nil_iff.mp h).2)).mpr hf
    obtain ⟨e5, f, rfl, -, h1⟩ := ha.as_term (Stop.sp hb2 _) r1
    have e6 : k2 ++ (s2 ++ k3) = (b2 ++ g2) ++ t2 := by rw [e5, List.append_assoc]
    obtain ⟨-, e7⟩ := gap_solid_inj hk2 (hb2.sep.gap.append hg2.1) (st2.append _) hb.solid e6
    have r2 : parseTerm (t2 ++ [')']) = .ok x' (k3 ++ [')']) := by
      rw [← e7, List.append_assoc]
      exact hx'.run (parseTerm_exact.stop x' _ (.gap hk3 (.close [])))
    obtain ⟨-, f', rfl, -, h2⟩ := hb.as_term (.close []) r2
    exact ⟨rfl, ⟨_, rfl⟩, f, f', x, x', rfl, rfl, h1, h2, rfl⟩
  | @predicate k p w vs u hk hp _ _ =>
    exfalso
    have e1 : g ++ (op.spell ++ (b1 ++ (g1 ++ (t1 ++ (b2 ++ (g2 ++ t2)))))) = k ++ (w ++ u) :=
      List.append_cancel_right (List.cons.inj e).2
    obtain ⟨d, z, rfl, hd, _⟩ := hp.1
    rw [ec] at e1
    obtain ⟨-, e2⟩ := gap_solid_inj hg hk (.cons hc.1 hc.2.1 _) (.cons (isAlpha_solid hd).1 (isAlpha_solid hd).2 _) e1
    rw [(List.cons.inj e2).1, show isAlpha d = true from hd] at hc
    cases hc.2.2

/-- The equality of two functions is the text of an atom. -/
theorem equality_as_atom {f f' : FHead} {t : List Char}
    (h : OpForm (fun o t => t = BinaryComp.spell o) FExpX FExpX (.eq, .function f, .function f') t)
    (he : ∃ u, t = '(' :: '=' :: u) :
    ∃ x x', HeadTerm f x ∧ HeadTerm f' x' ∧ AtomX TermX TermEnds (.equality x x') t := by
  obtain ⟨g, b1, g1, t1, b2, g2, t2, rfl, hg, hb1, hg1, ha, hb2, hg2, hb⟩ := h.spelled
  have eg : g = [] := by
    obtain ⟨u, hu⟩ := he
    cases hg with
    | nil => rfl
    | space hc => cases (List.cons.inj (List.cons.inj hu).2).1; cases hc
    | comment => cases (List.cons.inj (List.cons.inj hu).2).1
  subst eg
  cases ha with
  | leaf ha =>
  cases hb with
  | leaf hb =>
  cases ha with
  | function _ ha =>
  cases hb with
  | function _ hb =>
  obtain ⟨x, h1, h2⟩ := ha.term
  obtain ⟨x', h3, h4⟩ := hb.term
  refine ⟨x, x', h1, h3, ?_⟩
  have := AtomX.equality (F := TermEnds) (hb1.sep.gap.append hg1.1) h2 (hb2.sep.gap.append hg2.1)
    (parseTerm_exact.stop x _ (by rw [List.append_assoc]; exact Stop.sp hb2 _)) h4 .nil
  simpa [BinaryComp.spell] using this

/-! ## Comparisons -/

/-- C100 for comparisons, exactly: a comparison of numbers is read as a goal that is this comparison,
unless it is the equality of two functions, with the `=` next to the parenthesis. -/
theorem C100_comparison_iff (s : List Char) (op : BinaryComp) (a b : FExp) (r : List Char)
    (h : parseFComp s = .ok ⟨op, a, b⟩ r) :
    parseGd s = .ok (.fComp ⟨op, a, b⟩) r ↔
      ¬ (op = .eq ∧ (∃ f, a = .function f) ∧ (∃ f, b = .function f) ∧
        ∃ g u, Gap g ∧ s = g ++ '(' :: '=' :: u) := by
  obtain ⟨g, t, rfl, hg, ht⟩ := (C77_comparisons _ _ _ _ _).mp h
  constructor
  · rintro hs ⟨rfl, ⟨f, rfl⟩, ⟨f', rfl⟩, g', u, hg', e⟩
    have hu : ∃ u, t = '(' :: '=' :: u := by
      have hsol : Solid t := (opForm_form ht).solid
      obtain ⟨-, e⟩ := gap_solid_inj hg.1 hg' (hsol.append r) (solid_open _) e
      obtain ⟨g1, b1, _, _, _, _, _, rfl, k1, _⟩ := ht.spelled
      cases k1 with
      | nil => exact ⟨_, rfl⟩
      | space hc => cases (List.cons.inj (List.cons.inj e).2).1; cases hc
      | comment => cases (List.cons.inj (List.cons.inj e).2).1
    obtain ⟨x, x', _, _, hx⟩ := equality_as_atom ht hu
    obtain ⟨g2, t2, e2, hg2, ht2⟩ := (C79_goals _ _ _).mp hs
    cases ht2 with
    | fComp h2 hn =>
      obtain ⟨-, e3⟩ := gap_solid_inj hg.1 hg2.1 ((opForm_form ht).solid.append r) ((opForm_form h2).solid.append r) e2
      cases List.append_cancel_right e3
      exact hn _ hx
  · intro hn
    refine comparison_run hg ht (fun v hv => hn ?_) r
    obtain ⟨rfl, ⟨u, rfl⟩, f, f', _, _, rfl, rfl, _⟩ := comparison_as_atom ht hv
    exact ⟨rfl, ⟨f, rfl⟩, ⟨f', rfl⟩, g, u ++ r, hg.1, rfl⟩

/-- Which goal the others are: the equality of the two functions taken as terms. -/
theorem C100_false_comparison (s : List Char) (f f' : FHead) (r : List Char)
    (h : parseFComp s = .ok ⟨.eq, .function f, .function f'⟩ r) (hs : ∃ g u, Gap g ∧ s = g ++ '(' :: '=' :: u) :
    ∃ x x', HeadTerm f x ∧ HeadTerm f' x' ∧ parseGd s = .ok (.atomic (.equality x x')) r := by
  obtain ⟨g, t, rfl, hg, ht⟩ := (C77_comparisons _ _ _ _ _).mp h
  have hu : ∃ u, t = '(' :: '=' :: u := by
    obtain ⟨g', u, hg', e⟩ := hs
    have hsol : Solid t := (opForm_form ht).solid
    obtain ⟨-, e⟩ := gap_solid_inj hg.1 hg' (hsol.append r) (solid_open _) e
    obtain ⟨g1, b1, _, _, _, _, _, rfl, k1, _⟩ := ht.spelled
    cases k1 with
    | nil => exact ⟨_, rfl⟩
    | space hc => cases (List.cons.inj (List.cons.inj e).2).1; cases hc
    | comment => cases (List.cons.inj (List.cons.inj e).2).1
  obtain ⟨x, x', h1, h2, hx⟩ := equality_as_atom ht hu
  exact ⟨x, x', h1, h2, (C79_goals _ _ _).mpr ⟨g, t, rfl, hg.1, .atomic hx (by rintro ⟨⟩)⟩⟩

/-- The other comparisons are always read as such. -/
theorem C100_comparison_partial (s : List Char) (op : BinaryComp) (a b : FExp) (r : List Char)
    (h : parseFComp s = .ok ⟨op, a, b⟩ r)
    (hn : op ≠ .eq ∨ (∀ f, a ≠ .function f) ∨ ∀ f, b ≠ .function f) :
    parseGd s = .ok (.fComp ⟨op, a, b⟩) r := by
  refine (C100_comparison_iff s op a b r h).mpr ?_
  rintro ⟨h1, ⟨f, h2⟩, ⟨f', h3⟩, _⟩
  rcases hn with hn | hn | hn
  · exact hn h1
  · exact hn f h2
  · exact hn f' h3

/-- `(= (f) (g))` compares objects, `(<= (f) (g))` and `( = (f) (g))` compare numbers. -/
example : parseGd c!"(= (f) (g))" =
      .ok (.atomic (.equality (.fn (Name.new c!"f") []) (.fn (Name.new c!"g") []))) [] ∧
    parseGd c!"(<= (f) (g))" = .ok (.fComp ⟨.le, .function (.simple (Name.new c!"f")),
      .function (.simple (Name.new c!"g"))⟩) [] ∧
    parseGd c!"( = (f) (g))" = .ok (.fComp ⟨.eq, .function (.simple (Name.new c!"f")),
      .function (.simple (Name.new c!"g"))⟩) [] ∧
    parseFComp c!"(= (f) (g))" = .ok ⟨.eq, .function (.simple (Name.new c!"f")),
      .function (.simple (Name.new c!"g"))⟩ [] := ⟨rfl, rfl, rfl, rfl⟩

/-! ## Assignments -/

/-- The parser of assignments of numbers, the alternative `numeric` of `parse_p_effect`,
`/repo/src/parsers/p_effect.rs:76-83`. -/
def numericAssign : P (AssignOp × FHead × FExp) :=
  parens (pair parseAssignOp (pair (preceded multispace1 parseFHead) (preceded multispace1 parseFExp)))

theorem numericAssign_iff (s : List Char) (op : AssignOp) (h : FHead) (e : FExp) (r : List Char) :
    numericAssign s = .ok (op, h, e) r ↔ ∃ g t, s = g ++ (t ++ r) ∧ GapC g ∧ NumericX op h e t :=
  opForm_iff assignOp_part fHead_part fExp_part s (op, h, e) r

theorem sp_nonblank_inj {b b' x x' : List Char} (hb : Sp b) (hb' : Sp b') (hx : ∃ c y, x = c :: y ∧ isBlank c = false)
    (hx' : ∃ c y, x' = c :: y ∧ isBlank c = false) (e : b ++ x = b' ++ x') : x = x' := by
  have drop : ∀ {b x : List Char}, Sp0 b → (∃ c y, x = c :: y ∧ isBlank c = false) →
      (b ++ x).dropWhile isBlank = x := by
    intro b
    induction b with
    | nil =>
      rintro x - ⟨c, y, rfl, hc⟩
      simp [hc]
    | cons d b ih =>
      intro x h1 h2
      rw [List.cons_append, List.dropWhile_cons_of_pos (h1 d (by simp))]
      exact ih (fun c hc => h1 c (by simp [hc])) h2
  rw [← drop hb.2 hx, e, drop hb'.2 hx']

theorem gapC_nonblank {g x : List Char} (hg : GapC g) (hx : Solid x) : ∃ c y, g ++ x = c :: y ∧ isBlank c = false := by
  cases g with
  | nil =>
    obtain ⟨c, y, rfl, h, _⟩ := hx
    exact ⟨c, y, rfl, h⟩
  | cons c g => exact ⟨c, g ++ x, rfl, by rw [hg.2 c g rfl]; decide⟩

/-- The text of an assignment of a number that also begins like an assignment of an object. -/
theorem numeric_as_object {op : AssignOp} {h : FHead} {e : FExp} {x b v g1 : List Char} {f : FunctionTerm}
    (hn : NumericX op h e (paren (c!"assign" ++ (g1 ++ (x ++ (b ++ v)))))) (hg1 : Gap g1) (hx : FnTermX f x)
    (hb : Sp b) (hv : ∃ c y, v = c :: y ∧ isBlank c = false) :
    op = .assign ∧ FHeadX h x ∧ ∃ g t, GapC g ∧ v = g ++ t ∧ FExpX g e t := by
  generalize E : paren (c!"assign" ++ (g1 ++ (x ++ (b ++ v)))) = t at hn
  cases hn with
  | @mk g _ w b1 k1 _ t1 b2 k2 _ t2 hg hw hb1 hk1 h1 hb2 hk2 h2 =>
    have E1 : [] ++ (c!"assign" ++ (g1 ++ (x ++ (b ++ v)))) =
        g ++ (w ++ (b1 ++ (k1 ++ (t1 ++ (b2 ++ (k2 ++ t2)))))) := List.append_cancel_right (List.cons.inj E).2
    have hw1 : ∃ c y, w = c :: y ∧ isBlank c = false ∧ c ≠ ';' := by cases hw <;> exact ⟨_, _, rfl, by decide, by decide⟩
    obtain ⟨c, y, ec, hc⟩ := hw1
    obtain ⟨rfl, E2⟩ := gap_solid_inj .nil hg (.cons (by decide) (by decide) _)
      (by rw [ec]; exact .cons hc.1 hc.2 _) E1
    have hop : op = .assign ∧ w = c!"assign" := by
      cases hw
      · exact ⟨rfl, rfl⟩
      all_goals cases (List.cons.inj E2).1
    obtain ⟨rfl, rfl⟩ := hop
    refine ⟨rfl, ?_⟩
    have E2' : c!"assign" ++ (g1 ++ (x ++ (b ++ v))) =
        c!"assign" ++ (b1 ++ (k1 ++ (t1 ++ (b2 ++ (k2 ++ t2))))) := E2
    have E3 : g1 ++ (x ++ (b ++ v)) = (b1 ++ k1) ++ (t1 ++ (b2 ++ (k2 ++ t2))) := by
      rw [List.append_cancel_left E2']; simp
    have hxs : Solid x := by cases hx; exact solid_paren _
    obtain ⟨-, E4⟩ := gap_solid_inj hg1 (hb1.sep.gap.append hk1.1) (hxs.append _) (h1.2.solid.append _) E3
    obtain ⟨z, _, hz⟩ := h1.2.term
    have R1 := hz.run (parseTerm_exact.stop z _ (Stop.sp hb2 (k2 ++ t2)))
    have R2 : ∃ z, parseTerm (x ++ (b ++ v)) = .ok z (b ++ v) := by
      cases hx with
      | mk q1 q2 q3 q4 => exact ⟨_, (TermX.fn q1 q2 q3 q4).run trivial⟩
    obtain ⟨z', R2⟩ := R2
    rw [E4, R1] at R2
    injection R2 with _ R3
    have E5 : x = t1 := by rw [R3] at E4; exact List.append_cancel_right E4
    exact ⟨E5 ▸ h1.2, k2, t2, hk2, sp_nonblank_inj hb hb2 hv (gapC_nonblank hk2 h2.solid) R3.symm, h2⟩

theorem FHeadX.fnTerm {h : FHead} {t : List Char} (H : FHeadX h t) (hp : ∃ z, t = '(' :: z) :
    ∃ f : FunctionTerm, HeadTerm h (.fn f.symbol f.terms) ∧ FnTermX f t := by
  obtain ⟨x, h1, h2⟩ := H.term
  obtain ⟨z, rfl⟩ := hp
  cases h2 with
  | name h => exact absurd ⟨z, rfl⟩ h.not_open
  | fn k1 k2 k3 k4 => exact ⟨⟨_, _⟩, h1, .mk k1 k2 k3 k4⟩

/-- `(assign x y)` where `x` is the function `h` in parentheses and `y` is a function, `e`. If `y` is in
parentheses there is no comment between `x` and `y`. -/
def BothAssign (h : FHead) (e : FExp) (t : List Char) : Prop :=
  ∃ g x b k y h', t = paren (c!"assign" ++ (g ++ (x ++ (b ++ (k ++ y))))) ∧ Gap g ∧ FHeadX h x ∧
    (∃ z, x = '(' :: z) ∧ Sp b ∧ GapC k ∧ e = .function h' ∧ FHeadX h' y ∧ ((∃ z, y = '(' :: z) → k = [])

theorem numeric_not_object {op : AssignOp} {h : FHead} {e : FExp} {t : List Char} (hn : NumericX op h e t)
    (hne : op ≠ .assign ∨ ¬ BothAssign h e t) : (∀ f, ¬ UndefX f t) ∧ ∀ f o, ¬ ObjectX f o t := by
  have hopen : ∀ {f x}, FnTermX f x → ∃ z, x = '(' :: z := fun h => by cases h; exact ⟨_, rfl⟩
  constructor
  · rintro f ⟨g1, x, b, g2, rfl, hg1, hx, hb, hg2⟩
    obtain ⟨h1, hh, g, y, hg, E, hy⟩ := numeric_as_object hn hg1 hx hb ⟨'u', _, rfl, by decide⟩
    rcases hne with hne | hne
    · exact hne h1
    obtain ⟨rfl, E9⟩ := gap_solid_inj (g := []) .nil hg.1 (.cons (by decide) (by decide) _) hy.solid E
    obtain ⟨-, f, rfl, hf, -⟩ := hy.as_term (r := [')']) (r' := g2 ++ [')']) (x := .name (Name.new c!"undefined"))
      (.close []) (by
        rw [← E9]
        have := (TermX.name (.of_word (isWord_of 'u' c!"ndefined" (by decide) (by decide)))).run
          (r := g2 ++ [')']) ((Stop.gap hg2 (.close [])).word)
        simpa using this)
    refine hne ⟨g1, x, b, [], y, f, ?_, hg1, hh, hopen hx, hb, gapC_nil, rfl, hf, fun _ => rfl⟩
    rw [← E9]
    simp
  · rintro f o ⟨g1, x, b, g, y, g2, rfl, hg1, hx, hb, hg, hl, hy, hg2⟩
    obtain ⟨h1, hh, k, t, hk, E, ht⟩ := numeric_as_object hn hg1 hx hb (gapC_nonblank hg ((termX_solid hy).append g2))
    rcases hne with hne | hne
    · exact hne h1
    obtain ⟨rfl, E9⟩ := gap_solid_inj hg.1 hk.1 ((termX_solid hy).append _) ht.solid E
    obtain ⟨_, f, rfl, hf, ho⟩ := ht.as_term (r := [')']) (r' := g2 ++ [')']) (x := o) (.close []) (by
      rw [← E9, List.append_assoc]
      exact hy.run (parseTerm_exact.stop o _ (.gap hg2 (.close []))))
    refine hne ⟨g1, x, b, g, t, f, by rw [← E9], hg1, hh, hopen hx, hb, hg, rfl, hf, ?_⟩
    rintro ⟨z, rfl⟩
    cases o with
    | name n =>
      cases hy with
      | name hn =>
        obtain ⟨c, cs, rfl, hc, _⟩ := hn.1
        cases (List.cons.inj E9).1
        exact absurd hc (by decide)
    | _ => exact hl

/-- C100 for assignments, exactly. -/
theorem C100_assignment_iff (s : List Char) (op : AssignOp) (h : FHead) (e : FExp) (r : List Char)
    (hs : numericAssign s = .ok (op, h, e) r) :
    parsePEffect s = .ok (.assignNumeric op h e) r ↔ ¬ ∃ g t, s = g ++ (t ++ r) ∧ Gap g ∧ BothAssign h e t := by
  constructor
  · rintro hp ⟨g, t, rfl, hg, g1, x, b, k, y, h', rfl, hg1, hx, hpx, hb, hk, rfl, hy, hky⟩
    obtain ⟨f, hf1, hf2⟩ := hx.fnTerm hpx
    obtain ⟨z, hz1, hz2⟩ := hy.term
    have ho : ObjectX f z (paren (c!"assign" ++ (g1 ++ (x ++ (b ++ (k ++ y)))))) := by
      refine ⟨g1, x, b, k, y, [], by simp, hg1, hf2, hb, hk, ?_, hz2, .nil⟩
      cases hz2 with
      | name => exact hk.1
      | var =>
        rcases hy.shape with ⟨c, cs, e, hc, _⟩ | ⟨_, _, _, e, _⟩
        · cases e
          exact absurd hc (by decide)
        · cases e
      | fn => exact hky ⟨_, rfl⟩
    obtain ⟨g2, t2, e2, h2⟩ := (C81_simple_effects _ _ _).mp hp
    cases h2 with
    | numeric k1 k2 k3 k4 =>
      have st : Solid t2 := by cases k2; exact solid_paren _
      obtain ⟨-, e3⟩ := gap_solid_inj hg k1.1 ((solid_paren _).append r) (st.append r) e2
      exact k4 _ _ (List.append_cancel_right e3 ▸ ho)
  · intro hn
    obtain ⟨g, t, rfl, hg, ht⟩ := (numericAssign_iff _ _ _ _ _).mp hs
    obtain ⟨h1, h2⟩ := numeric_not_object ht (.inr fun hb => hn ⟨g, t, rfl, hg.1, hb⟩)
    exact (C81_simple_effects _ _ _).mpr ⟨g, t, rfl, .numeric hg ht h1 h2⟩

/-- One that does not just assign a function is read as an assignment of a number. -/
theorem C100_assignment_partial (s : List Char) (op : AssignOp) (h : FHead) (e : FExp) (r : List Char)
    (hs : numericAssign s = .ok (op, h, e) r) (hne : op ≠ .assign ∨ ∀ f, e ≠ .function f) :
    parsePEffect s = .ok (.assignNumeric op h e) r := by
  obtain ⟨g, t, rfl, hg, ht⟩ := (numericAssign_iff _ _ _ _ _).mp hs
  obtain ⟨h1, h2⟩ := numeric_not_object ht (hne.imp id fun hne => by
    rintro ⟨_, _, _, _, _, f, _, _, _, _, _, _, e, _⟩
    exact hne f e)
  exact (C81_simple_effects _ _ _).mpr ⟨g, t, rfl, .numeric hg ht h1 h2⟩

/-- Assigning a function to a function never is an assignment of a number: it is one of the other
function taken as an object, and of nothing if that is `undefined`. -/
theorem C100_false_assignment {h h' : FHead} {x y b b' : List Char} (hx : FHeadX h x) (hp : ∃ z, x = '(' :: z)
    (hy : FHeadX h' y) (hb : Sp b) (hb' : Sp b') (r : List Char) :
    numericAssign (paren (c!"assign" ++ (b ++ (x ++ (b' ++ y)))) ++ r) = .ok (.assign, h, .function h') r ∧
      ∃ f o, HeadTerm h (.fn f.symbol f.terms) ∧
        ((o = none ∧ y = c!"undefined") ∨ ∃ z, o = some z ∧ HeadTerm h' z) ∧
        parsePEffect (paren (c!"assign" ++ (b ++ (x ++ (b' ++ y)))) ++ r) = .ok (.assignObject f o) r := by
  constructor
  · refine (numericAssign_iff _ _ _ _ _).mpr ⟨[], paren (c!"assign" ++ (b ++ (x ++ (b' ++ y)))), rfl, gapC_nil, ?_⟩
    exact .mk (g := []) (w := c!"assign") (g1 := []) (g2 := []) .nil .assign hb gapC_nil
      ⟨⟨.nil, fun _ => gapC_nil⟩, hx⟩ hb' gapC_nil (.leaf (.function ⟨.nil, fun _ => gapC_nil⟩ hy))
  · obtain ⟨f, hf1, hf2⟩ := hx.fnTerm hp
    obtain ⟨z, hz1, hz2⟩ := hy.term
    by_cases hu : ∃ f', UndefX f' (paren (c!"assign" ++ (b ++ (x ++ (b' ++ y)))))
    · obtain ⟨f', hu⟩ := hu
      have hu' := hu
      obtain ⟨g1, x', b2, g2, E, hg1, hx', hb2, hg2⟩ := hu'
      have E1 : c!"assign" ++ (b ++ (x ++ (b' ++ y))) = c!"assign" ++ (g1 ++ (x' ++ (b2 ++ (c!"undefined" ++ g2)))) :=
        List.append_cancel_right (List.cons.inj E).2
      have hs' : Solid x' := by cases hx'; exact solid_paren _
      obtain ⟨-, E2⟩ := gap_solid_inj hb.sep.gap hg1 (hx.solid.append _) (hs'.append _) (List.append_cancel_left E1)
      have R := fnTermX_run hf2 (b' ++ y)
      rw [E2, fnTermX_run hx'] at R
      injection R with e1 e2
      subst e1
      have hy0 := gapC_nonblank gapC_nil hy.solid
      have E3 := sp_nonblank_inj hb' hb2 hy0 ⟨'u', _, rfl, by decide⟩ e2.symm
      refine ⟨f', none, hf1, .inl ⟨rfl, ?_⟩, (C81_simple_effects _ _ _).mpr
        ⟨[], paren (c!"assign" ++ (b ++ (x ++ (b' ++ y)))), rfl, .undefined .nil hu⟩⟩
      rcases hy.shape with hw | ⟨_, _, _, e, _⟩
      · cases hg2 with
        | nil => exact E3
        | @space c g hc =>
          obtain ⟨d, ds, rfl, _, hds⟩ := hw
          have hm : c ∈ ds := by
            rw [(List.cons.inj E3).2]
            simp
          exact absurd (hds c hm) (by rw [isWordChar_not (.inl (isBlank_space hc))]; decide)
        | comment =>
          obtain ⟨d, ds, rfl, _, hds⟩ := hw
          have hm : ';' ∈ ds := by
            rw [(List.cons.inj E3).2]
            simp
          exact absurd (hds _ hm) (by decide)
      · rw [e] at E3
        cases E3
    · refine ⟨f, some z, hf1, .inr ⟨z, rfl, hz1⟩, (C81_simple_effects _ _ _).mpr
        ⟨[], paren (c!"assign" ++ (b ++ (x ++ (b' ++ y)))), rfl, .object .nil
        ⟨b, x, b', [], y, [], by simp, hb.sep.gap, hf2, hb', gapC_nil, ?_, hz2, .nil⟩ fun f' h => hu ⟨f', h⟩⟩⟩
      cases z
      · exact .nil
      all_goals rfl

/-- `(assign (f) (g))` assigns an object; `(assign (f) 1)`, `(assign f (g))`, `(increase (f) (g))` and
`(change (f) (g))` assign numbers. -/
example : parsePEffect c!"(assign (f) (g))" =
      .ok (.assignObject ⟨Name.new c!"f", []⟩ (some (.fn (Name.new c!"g") []))) [] ∧
    numericAssign c!"(assign (f) (g))" = .ok (.assign, .simple (Name.new c!"f"), .function (.simple (Name.new c!"g"))) [] ∧
    (∃ n, parsePEffect c!"(assign (f) 1)" = .ok (.assignNumeric .assign (.simple (Name.new c!"f")) (.number n)) []) ∧
    parsePEffect c!"(assign f (g))" =
      .ok (.assignNumeric .assign (.simple (Name.new c!"f")) (.function (.simple (Name.new c!"g")))) [] ∧
    parsePEffect c!"(increase (f) (g))" =
      .ok (.assignNumeric .increase (.simple (Name.new c!"f")) (.function (.simple (Name.new c!"g")))) [] ∧
    parsePEffect c!"(change (f) (g))" =
      .ok (.assignNumeric .assign (.simple (Name.new c!"f")) (.function (.simple (Name.new c!"g")))) [] :=
  ⟨rfl, rfl, ⟨Ex.num 1 0, rfl⟩, rfl, rfl, rfl⟩

end Pddl
