import Verif.Meta.Balance

/-!
# Meta-theory: soundness of goals and trajectory constraints
-/

namespace Pddl

/-- A balanced parenthesised form. -/
def Form (t : List Char) : Prop := ∃ u, t = paren u ∧ Bal u

theorem Form.mk {u : List Char} (h : Bal u) : Form (paren u) := ⟨u, rfl, h⟩
theorem Form.ne {t : List Char} (h : Form t) : t ≠ [] := by
  obtain ⟨u, rfl, _⟩ := h
  exact (solid_paren u).ne

theorem Form.bal {t : List Char} (h : Form t) : Bal t := by
  obtain ⟨u, rfl, h⟩ := h
  exact h.paren

/-- Two forms at the same place end at the same place. -/
theorem Form.unique {g g' t t' r r' : List Char} (hg : Gap g) (hg' : Gap g') (h : Form t)
    (h' : Form t') (he : g ++ (t ++ r) = g' ++ (t' ++ r')) : t = t' ∧ r = r' := by
  obtain ⟨u, rfl, h⟩ := h
  obtain ⟨u', rfl, h'⟩ := h'
  have h1 := hg.skip_solid (s := paren u ++ r) ((solid_paren u).append r)
  have h2 := hg'.skip_solid (s := paren u' ++ r') ((solid_paren u').append r')
  rw [he, h2] at h1
  simp only [paren, List.cons_append, List.append_assoc, List.cons.injEq, true_and,
    List.nil_append] at h1
  obtain ⟨rfl, rfl⟩ := h.unique h' h1.symm
  exact ⟨rfl, rfl⟩

theorem AtomW.form {m : Mode} {R : α → List Char → Prop} {a : AtomicFormula α} {t : List Char}
    (h : AtomW m R a t) (hR : ∀ a t, R a t → Bal t) : Form t := by
  cases h with
  | equality _ h1 _ h2 =>
    have := hR _ _ h1
    have := hR _ _ h2
    exact .mk (by bal)
  | predicate h1 h2 h =>
    have := h.bal (fun _ => Mode.word.gap) (fun _ => Mode.tight.gap) fun _ h _ =>
      h.bal fun a t h _ => hR a t h
    exact .mk (by bal)

theorem FCompW.form {m : Mode} {v : FComp} {t : List Char} (h : FCompW m v t) : Form t := by
  cases h with
  | @mk _ op _ _ _ _ _ _ _ _ _ h1 _ h2 =>
    have := h1.bal
    have := h2.bal
    have := op.bal
    exact .mk (by bal)

theorem sec_bal {R : α → List Char → Prop} {xs : List α} {u : List Char}
    (h : Sec Gap Gap (Items R) xs u) (hR : ∀ a t, R a t → t.length ≤ u.length → Bal t) : Bal u :=
  h.bal (fun _ => id) (fun _ => id) fun _ h hl => h.bal fun a t h hl' => hR a t h (by omega)

theorem GDW.form_aux {m : Mode} (n : Nat) : ∀ g t, t.length ≤ n → GDW m g t → Form t := by
  induction n with
  | zero =>
    intro v t hn h
    obtain ⟨c, r, rfl, _⟩ := h.solid
    simp at hn
  | succ n ih =>
    intro v t hn h
    cases h with
    | and h =>
      simp only [paren, List.length_append, List.length_cons] at hn
      have := sec_bal h fun a t h hl => (ih a t (by omega) h).bal
      exact .mk (by bal)
    | or h =>
      simp only [paren, List.length_append, List.length_cons] at hn
      have := sec_bal h fun a t h hl => (ih a t (by omega) h).bal
      exact .mk (by bal)
    | not _ h =>
      simp only [paren, List.length_append, List.length_cons] at hn
      have := (ih _ _ (by omega) h).bal
      exact .mk (by bal)
    | imply _ h1 _ h2 =>
      simp only [paren, List.length_append, List.length_cons] at hn
      have := (ih _ _ (by omega) h1).bal
      have := (ih _ _ (by omega) h2).bal
      exact .mk (by bal)
    | exist _ h1 _ h2 =>
      simp only [paren, List.length_append, List.length_cons] at hn
      have := h1.bal
      have := (ih _ _ (by omega) h2).bal
      exact .mk (by bal)
    | forall_ _ h1 _ h2 =>
      simp only [paren, List.length_append, List.length_cons] at hn
      have := h1.bal
      have := (ih _ _ (by omega) h2).bal
      exact .mk (by bal)
    | atomic h => exact h.form fun _ _ h => h.bal
    | fComp h => exact h.form

theorem GDW.form {m : Mode} {g : GD} {t : List Char} (h : GDW m g t) : Form t :=
  GDW.form_aux _ g t (Nat.le_refl _) h

theorem GDW.bal {m : Mode} {g : GD} {t : List Char} (h : GDW m g t) : Bal t := h.form.bal

theorem gdW_nonE {m : Mode} : NonE (GDW m) := fun _ _ h => h.solid.ne

/-- The form of most alternatives: a keyword, a first part, spaces and a second part. -/
theorem Snd.kw2 {F : List Char → Prop} {kw : List Char} {p : P α} {q : P β} {f : α × β → γ}
    {G1 G2 : List Char → Prop} {R1 : α → List Char → Prop} {R2 : β → List Char → Prop}
    {R : γ → List Char → Prop} (h1 : Snd Any G1 p R1) (h2 : Snd NE G2 q R2)
    (hG1 : ∀ g, G1 g → Gap g)
    (hR : ∀ {g1 a t1 g2 b t2 g3}, Gap g1 → R1 a t1 → G2 g2 → R2 b t2 → Gap g3 →
      R (f (a, b)) (paren (kw ++ (g1 ++ (t1 ++ (g2 ++ (t2 ++ g3))))))) :
    Snd F Gap (Pddl.map f (Pddl.prefixExpr kw (Pddl.pair p q))) R := by
  refine .map (Snd.prefixExpr (Snd.pair h1 h2) hG1) ?_
  rintro ⟨a, b⟩ t ⟨g1, u, g2, rfl, hg1, ⟨t1, g, t2, rfl, h1, hg, h2⟩, hg2⟩
  simpa using hR hg1 h1 hg h2 hg2

/-- A keyword and one part. -/
theorem Snd.kw1 {F : List Char → Prop} {kw : List Char} {p : P α} {f : α → γ}
    {R1 : α → List Char → Prop} {R : γ → List Char → Prop} (h1 : Snd Any Gap p R1)
    (hR : ∀ {g1 a t1 g2}, Gap g1 → R1 a t1 → Gap g2 →
      R (f a) (paren (kw ++ (g1 ++ (t1 ++ g2))))) :
    Snd F Gap (Pddl.map f (Pddl.prefixExpr kw p)) R := by
  refine .map (Snd.prefixExpr h1.anyF fun _ => id) ?_
  rintro a t ⟨g1, u, g2, rfl, hg1, h1, hg2⟩
  exact hR hg1 h1 hg2

/-- A keyword and a list. -/
theorem Snd.kwL {F : List Char → Prop} {kw : List Char} {p : P α} {f : List α → γ}
    {R1 : α → List Char → Prop} {R : γ → List Char → Prop} (h1 : Snd Any Gap p R1)
    (hne : NonE R1)
    (hR : ∀ {as u}, Sec Gap Gap (Items R1) as u → R (f as) (paren (kw ++ u))) :
    Snd F Gap (Pddl.map f (Pddl.prefixExpr kw (spaceSeparatedList0 p))) R := by
  refine .map (Snd.prefix_sec (.list0 h1 hne)) ?_
  rintro as t ⟨u, rfl, h⟩
  exact hR h

theorem gdF_snd (n : Nat) : Snd Any Gap (fixF gdBody n) (GDW .loose) := by
  induction n with
  | zero => exact fun _ _ _ hs => by cases hs
  | succ n ih =>
    intro s a r hs hr
    rw [fixF] at hs
    have ms := (Snd.ms1 ih fun _ => id).anyF (F := NE)
    rcases alt_inv hs with hs | ⟨_, hs⟩
    · exact Snd.kwL ih gdW_nonE (fun h => .and h) s a r hs hr
    rcases alt_inv hs with hs | ⟨_, hs⟩
    · exact Snd.kwL ih gdW_nonE (fun h => .or h) s a r hs hr
    rcases alt_inv hs with hs | ⟨hnot, hs⟩
    · exact Snd.kw1 ih (fun h1 h2 h3 => .not h1 h2 h3) s a r hs hr
    rcases alt_inv hs with hs | ⟨_, hs⟩
    · exact Snd.kw2 ih ms (fun _ => id) (fun h1 h2 h3 h4 h5 => .imply h1 h2 h3 h4 h5) s a r hs hr
    rcases alt_inv hs with hs | ⟨_, hs⟩
    · exact Snd.kw2 parseVarList_snd ms (fun _ => id) (fun h1 h2 h3 h4 h5 => .exist h1 h2 h3 h4 h5)
        s a r hs hr
    rcases alt_inv hs with hs | ⟨_, hs⟩
    · exact Snd.kw2 parseVarList_snd ms (fun _ => id)
        (fun h1 h2 h3 h4 h5 => .forall_ h1 h2 h3 h4 h5) s a r hs hr
    rcases alt_inv hs with hs | ⟨hatom, hs⟩
    · exact Snd.map (R' := GDW .loose) atom_snd (fun _ _ h => .atomic h fun h => nomatch h)
        s a r hs hr
    rcases alt_inv hs with hs | ⟨_, hs⟩
    · -- a literal would have been read as an atom or as a negation
      exfalso
      obtain ⟨l, hl, _⟩ := map_ok hs
      rcases alt_inv hl with hl | ⟨_, hl⟩
      · obtain ⟨b, hb, _⟩ := map_ok hl
        obtain ⟨g, x, y, rfl, hg, h1, h2⟩ := prefixExpr_inv hb
        have hbad : ∀ p : P GD, prefixExpr c!"not" p (g ++ '(' :: (c!"not" ++ x)) =
            (p (skip x)).bind fun v y => closeRes v (skip y) := fun p => by
          rw [← prefixExpr_skip, hg.skip_solid (solid_open _), prefixExpr_open, stripPrefix_append]
        cases n with
        | zero =>
          rw [map, hbad] at hnot
          cases hnot
        | succ n =>
          cases hself : fixF gdBody (n + 1) (skip x) with
          | ok v y' =>
            obtain ⟨g1, t1, e1, hg1, hv⟩ := ih _ _ _ hself trivial
            obtain ⟨g2, t2, e2, hg2, ha⟩ := atom_snd _ _ _ h1 trivial
            obtain ⟨_, rfl⟩ := Form.unique hg1 hg2 hv.form (ha.form fun _ _ h => h.bal)
              (e1.symm.trans e2)
            rw [map, hbad, hself] at hnot
            simp only [Res.bind, h2, closeRes_close] at hnot
            cases hnot
          | err =>
            -- then the atom is rejected as well
            have hna : map GD.atomic (atomicFormula parseTerm) (skip x) = .err := by
              rw [fixF] at hself
              simp only [gdBody, alt] at hself
              repeat (split at hself <;> first | (cases hself; done) | skip)
              all_goals assumption
            rw [map_run h1] at hna
            cases hna
          | _ => rw [map, hbad, hself] at hnot; cases hnot
      · rcases alt_inv hl with hl | ⟨_, hl⟩
        · obtain ⟨b, hb, _⟩ := map_ok hl
          rw [map_run hb] at hatom
          cases hatom
        · cases hl
    rcases alt_inv hs with hs | ⟨_, hs⟩
    · exact Snd.map (R' := GDW .loose) parseFComp_snd (fun _ _ h => .fComp h fun h => nomatch h)
        s a r hs hr
    · cases hs

theorem parseGd_snd : Snd Any Gap parseGd (GDW .loose) := fun s a r hs hr => gdF_snd _ s a r hs hr

/-- One operand after spaces. -/
theorem Snd.arg {p : P α} {R : α → List Char → Prop} (h : Snd Any Gap p R) :
    Snd NE Sep (preceded multispace1 p) R := (Snd.ms1 h fun _ => id).anyF

theorem parsePrefName_snd : Snd Any Gap parsePrefName NameW := parseName_snd

theorem parsePrefGd_snd : Snd Any Gap parsePrefGd (PrefGDW .loose) := by
  refine .alt_cons (Snd.kw2 (G1 := Nil) (Snd.opt parsePrefName_snd) (.arg parseGd_snd) Nil.gap ?_)
    (.alt_cons (Snd.kw1 parseGd_snd fun h1 h2 h3 => .anonymous h1 h2 h3)
    (.alt_cons (.map parseGd_snd fun _ _ h => .goal h fun h => nomatch h) .alt_nil))
  intro g1 o t1 g2 b t2 g3 h1 h2 h3 h4 h5
  cases h2 with
  | absent =>
    have := PrefGDW.anonymous (m := .loose) (h1.append h3.gap) h4 h5
    simpa using this
  | present hg hn =>
    have := PrefGDW.named (m := .loose) (h1.append hg) hn h3 h4 h5
    simpa using this

theorem prefGDW_nonE {m : Mode} : NonE (PrefGDW m) := fun _ _ h => by
  cases h with
  | goal h => exact gdW_nonE _ _ h
  | _ => exact (solid_paren _).ne

theorem preGDW_nonE {m : Mode} : NonE (PreGDW m) := fun _ _ h => by
  cases h with
  | pref h => exact prefGDW_nonE _ _ h
  | _ => exact (solid_paren _).ne

theorem parsePreGd_snd : Snd Any Gap parsePreGd (PreGDW .loose) :=
  .fix fun _ h => .alt_cons (Snd.kw2 parseVarList_snd (.arg h) (fun _ => id)
      fun h1 h2 h3 h4 h5 => .forall_ h1 h2 h3 h4 h5)
    (.alt_cons (Snd.kwL h preGDW_nonE fun h => .and h)
    (.alt_cons (.map parsePrefGd_snd fun _ _ h => .pref h fun h => nomatch h) .alt_nil))

theorem wrap_snd {F : List Char → Prop} {kw : List Char} {p : P α} {R : α → List Char → Prop}
    (h : Snd Any Gap p R) : Snd F Gap (prefixExpr kw p) (WrapW kw Gap R) :=
  (Snd.prefixExpr h.anyF fun _ => id).mono (fun _ => id) (fun _ => id) (by
    rintro x t ⟨g1, u, g2, rfl, h1, h2, h3⟩
    exact .mk h1 h2 h3)

theorem parseProblemGoalDef_snd : Snd Any Gap parseProblemGoalDef
    (WrapW c!":goal" Gap (PreGDW .loose)) := wrap_snd parsePreGd_snd

theorem con2Of_snd {self : P ConGD} (h : Snd Any Gap self (ConGDW .loose)) :
    Snd Any Gap (con2Of self) (Con2W .loose (ConGDW .loose)) :=
  .alt_cons (.map parseGd_snd fun _ _ h => .goal h)
    (.alt_cons (.map h fun _ _ h => .nested h fun h => nomatch h) .alt_nil)

theorem conGDW_nonE {m : Mode} : NonE (ConGDW m) := fun _ _ h => by
  cases h <;> exact (solid_paren _).ne

theorem parseConGd_snd : Snd Any Gap parseConGd (ConGDW .loose) := by
  refine .fix fun self h => ?_
  have h2 := con2Of_snd h
  have hn := parseNumber_snd.gap
  refine .alt_cons (Snd.kwL h conGDW_nonE fun h => .and h)
    (.alt_cons (Snd.kw2 parseVarList_snd (.arg h) (fun _ => id)
      fun h1 h2 h3 h4 h5 => .forall_ h1 h2 h3 h4 h5)
    (.alt_cons (Snd.kw1 parseGd_snd fun h1 h2 h3 => .atEnd h1 h2 h3)
    (.alt_cons (Snd.kw1 h2 fun h1 h2 h3 => .always h1 h2 h3)
    (.alt_cons (Snd.kw1 h2 fun h1 h2 h3 => .sometime h1 h2 h3)
    (.alt_cons (Snd.kw2 hn (.arg h2) (fun _ => id) fun h1 h2 h3 h4 h5 => .within h1 h2 h3 h4 h5)
    (.alt_cons (Snd.kw1 h2 fun h1 h2 h3 => .atMostOnce h1 h2 h3)
    (.alt_cons (Snd.kw2 h2 (.arg h2) (fun _ => id)
      fun h1 h2 h3 h4 h5 => .sometimeAfter h1 h2 h3 h4 h5)
    (.alt_cons (Snd.kw2 h2 (.arg h2) (fun _ => id)
      fun h1 h2 h3 h4 h5 => .sometimeBefore h1 h2 h3 h4 h5)
    (.alt_cons (Snd.kw2 hn (Snd.pair (Snd.ms1 h2 fun _ => id) (.arg h2)) (fun _ => id) ?_)
    (.alt_cons (Snd.kw2 hn (Snd.pair (Snd.ms1 hn fun _ => id) (.arg h2)) (fun _ => id) ?_)
    (.alt_cons (Snd.kw2 hn (.arg h2) (fun _ => id) fun h1 h2 h3 h4 h5 => .holdAfter h1 h2 h3 h4 h5)
      .alt_nil)))))))))))
  · rintro g1 n t1 g2 ⟨a, b⟩ t2 g3 h1 h2 h3 ⟨u, g, v, rfl, h4, hg, h5⟩ h6
    have := ConGDW.alwaysWithin (m := .loose) h1 h2 h3 h4 hg h5 h6
    simpa using this
  · rintro g1 n t1 g2 ⟨a, b⟩ t2 g3 h1 h2 h3 ⟨u, g, v, rfl, h4, hg, h5⟩ h6
    have := ConGDW.holdDuring (m := .loose) h1 h2 h3 h4 hg h5 h6
    simpa using this

theorem parseCon2Gd_snd : Snd Any Gap parseCon2Gd (Con2W .loose (ConGDW .loose)) :=
  con2Of_snd parseConGd_snd

theorem prefConGDW_nonE {m : Mode} : NonE (PrefConGDW m) := fun _ _ h => by
  cases h with
  | goal h => exact conGDW_nonE _ _ h
  | _ => exact (solid_paren _).ne

theorem parsePrefConGd_snd : Snd Any Gap parsePrefConGd (PrefConGDW .loose) :=
  .fix fun _ h => .alt_cons (Snd.kwL h prefConGDW_nonE fun h => .and h)
    (.alt_cons (Snd.kw2 parseVarList_snd (.arg h) (fun _ => id)
      fun h1 h2 h3 h4 h5 => .forall_ h1 h2 h3 h4 h5)
    (.alt_cons (Snd.kw2 parsePrefName_snd (.arg parseConGd_snd) (fun _ => id)
      fun h1 h2 h3 h4 h5 => .named h1 h2 h3 h4 h5)
    (.alt_cons (Snd.kw1 parseConGd_snd fun h1 h2 h3 => .anonymous h1 h2 h3)
    (.alt_cons (.map parseConGd_snd fun _ _ h => .goal h fun h => nomatch h) .alt_nil))))

theorem parseDomainConstraintsDef_snd : Snd Any Gap parseDomainConstraintsDef
    (WrapW c!":constraints" Gap (ConGDW .loose)) := wrap_snd parseConGd_snd
theorem parseProblemConstraintsDef_snd : Snd Any Gap parseProblemConstraintsDef
    (WrapW c!":constraints" Gap (PrefConGDW .loose)) := wrap_snd parsePrefConGd_snd

end Pddl
