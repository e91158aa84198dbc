import Verif.Meta.SoundGoals

/-!
# Meta-theory: soundness of effects, actions and durative actions
-/

namespace Pddl

/-- A value followed by spaces and a fixed word. -/
theorem Snd.terminated_tag {F G : List Char → Prop} {kw : List Char} {p : P α}
    {R : α → List Char → Prop} (h : Snd Any G p R) :
    Snd F G (terminated p (Pddl.pair multispace1 (Pddl.tag kw)))
      (fun x t => ∃ t1 g, t = t1 ++ (g ++ kw) ∧ R x t1 ∧ Sp g) := fun s a r hs _ => by
  obtain ⟨_, r1, h1, h2⟩ := terminated_ok hs
  obtain ⟨r2, h3, h4⟩ := pair_ok h2
  obtain ⟨rfl, hsp⟩ := ms1_inv h3
  obtain ⟨_, rfl⟩ := tag_inv h4
  obtain ⟨g, t, rfl, hg, ht⟩ := h _ _ _ h1 trivial
  exact ⟨g, _, by simp, hg, t, _, rfl, ht, hsp⟩

/-- The pattern of numeric updates. -/
theorem Snd.update {F : List Char → Prop} {o : P α} {p : P β} {f : α × FHead × β → γ}
    {R1 : α → List Char → Prop} {R2 : β → List Char → Prop} {R : γ → List Char → Prop}
    (h1 : Snd Any Nil o R1) (h2 : Snd Any Gap p R2)
    (hR : ∀ {g0 a s g1 h t1 g2 e t2}, Gap g0 → R1 a s → Sep g1 → FHeadW .loose h t1 → Sep g2 →
      R2 e t2 → R (f (a, h, e)) (paren (g0 ++ (s ++ (g1 ++ (t1 ++ (g2 ++ (t2 ++ []))))))) ) :
    Snd F Gap (Pddl.map f (Pddl.parens (Pddl.pair o
      (Pddl.pair (preceded multispace1 parseFHead) (preceded multispace1 p))))) R := by
  refine .map (Snd.parens (Snd.pair h1 (Snd.pair (Snd.ms1 parseFHead_snd fun _ => id)
    (Snd.arg h2))) Nil.gap) ?_
  rintro ⟨a, h, e⟩ t ⟨g, u, rfl, hg, t1, g1, t2, rfl, h1, hg1, t3, g2, t4, rfl, h3, hg2, h4⟩
  have := hR hg h1 hg1 h3 hg2 h4
  simpa using this

theorem parsePEffect_snd : Snd Any Gap parsePEffect (PEffectW .loose) := by
  refine .alt_cons (Snd.kw1 atom_snd fun h1 h2 h3 => .notAtomic h1 h2 h3)
    (.alt_cons (.map (Snd.prefixExpr (Snd.terminated_tag parseFunctionTerm_snd) fun _ => id) ?_)
    (.alt_cons (Snd.kw2 parseFunctionTerm_snd (.arg parseTerm_snd) (fun _ => id)
      fun h1 h2 h3 h4 h5 => .object h1 h2 h3 h4 h5 fun h => nomatch h)
    (.alt_cons (Snd.update parseAssignOp_snd parseFExp_snd
      fun h1 h2 h3 h4 h5 h6 => .numeric h1 h2 h3 h4 h5 h6 Gap.nil fun h => nomatch h)
    (.alt_cons (.map atom_snd fun _ _ h => .atomic h fun h => nomatch h) .alt_nil))))
  rintro f t ⟨g1, _, g2, rfl, h1, ⟨t1, g, rfl, h2, h3⟩, h4⟩
  have := PEffectW.undefined (m := .loose) h1 h2 h3 h4
  simpa using this

theorem pEffectW_nonE {m : Mode} : NonE (PEffectW m) := fun _ _ h => by
  cases h with
  | atomic h => exact (h.form fun _ _ h => h.bal).ne
  | _ => exact (solid_paren _).ne

theorem parseCondEffect_snd : Snd Any Gap parseCondEffect (CondEffectW .loose) :=
  .alt_cons (Snd.kwL parsePEffect_snd pEffectW_nonE fun h => .all h)
    (.alt_cons (.map parsePEffect_snd fun _ _ h => .single h) .alt_nil)

theorem cEffectW_nonE {m : Mode} : NonE (CEffectW m) := fun _ _ h => by
  cases h with
  | effect h => exact pEffectW_nonE _ _ h
  | _ => exact (solid_paren _).ne

theorem effectOf_snd {self : P CEffect} (h : Snd Any Gap self (CEffectW .loose)) :
    Snd Any Gap (effectOf self) (EffectW (CEffectW .loose)) :=
  .alt_cons ((Snd.prefix_sec (.list0 h cEffectW_nonE)).mono (fun _ => id) (fun _ => id) (by
      rintro es t ⟨u, rfl, h⟩
      exact .all h))
    (.alt_cons (.map h fun _ _ h => .single h) .alt_nil)

/-- A quantified effect, as a pair. -/
theorem forallCEffectOf_snd {self : P CEffect} (h : Snd Any Gap self (CEffectW .loose)) :
    Snd Any Gap (forallCEffectOf self) (fun x t => CEffectW .loose (.forall_ x.1 x.2) t) :=
  (Snd.prefixExpr (Snd.pair parseVarList_snd (Snd.arg (effectOf_snd h))) fun _ => id).mono
    (fun _ => id) (fun _ => id) (by
      rintro ⟨a, b⟩ t ⟨g1, u, g2, rfl, hg1, ⟨t1, g, t2, rfl, h1, hg, h2⟩, hg2⟩
      have := CEffectW.forall_ (m := .loose) hg1 h1 hg h2 hg2
      simpa using this)

theorem parseWhenCEffect_snd :
    Snd Any Gap parseWhenCEffect (fun x t => CEffectW .loose (.when x.1 x.2) t) :=
  (Snd.prefixExpr (Snd.pair parseGd_snd (Snd.arg parseCondEffect_snd)) fun _ => id).mono
    (fun _ => id) (fun _ => id) (by
      rintro ⟨a, b⟩ t ⟨g1, u, g2, rfl, hg1, ⟨t1, g, t2, rfl, h1, hg, h2⟩, hg2⟩
      have := CEffectW.when (m := .loose) hg1 h1 hg h2 hg2
      simpa using this)

theorem parseCEffect_snd : Snd Any Gap parseCEffect (CEffectW .loose) :=
  .fix fun _ h => .alt_cons (.map (forallCEffectOf_snd h) fun _ _ h => h)
    (.alt_cons (.map parseWhenCEffect_snd fun _ _ h => h)
    (.alt_cons (.map parsePEffect_snd fun _ _ h => .effect h) .alt_nil))

theorem parseEffect_snd : Snd Any Gap parseEffect (EffectW (CEffectW .loose)) :=
  effectOf_snd parseCEffect_snd
theorem parseForallCEffect_snd :
    Snd Any Gap parseForallCEffect (fun x t => CEffectW .loose (.forall_ x.1 x.2) t) :=
  forallCEffectOf_snd parseCEffect_snd

/-! ## Actions -/

theorem emptyOr_snd {p : P α} {R : α → List Char → Prop} (h : Snd Any Gap p R) :
    Snd Any Nil (preceded multispace1 (emptyOr p)) (EmptyOrW R) := fun s o r hs _ => by
  obtain ⟨_, r1, h1, h2⟩ := preceded_ok hs
  obtain ⟨rfl, hsp⟩ := ms1_inv h1
  rcases alt_inv h2 with h2 | ⟨_, h2⟩
  · obtain ⟨_, h3, rfl⟩ := map_ok h2
    obtain ⟨_, rfl⟩ := tag_inv h3
    exact ⟨[], _, by simp, rfl, .empty hsp⟩
  · rcases alt_inv h2 with h2 | ⟨_, h2⟩
    · obtain ⟨a, h3, rfl⟩ := map_ok h2
      obtain ⟨g, t, rfl, hg, ht⟩ := h _ _ _ h3 trivial
      exact ⟨[], _, by simp, rfl, .some (hsp.sep.append hg) ht⟩
    · cases h2

theorem parseParameters_snd : Snd Any Nil parseParameters (After c!":parameters" Sep (VarsW .loose)) :=
  Snd.preceded_tag (Snd.ms1 parseVarList_snd fun _ => id)

/-- A section of an action. -/
theorem slot_snd {p : P α} {R : α → List Char → Prop} {kw : List Char} (hkw : kw ≠ [])
    (h : Snd Any Gap p R) :
    Snd Any Nil (opt (ws (preceded (tag kw) (preceded multispace1 (emptyOr p))))) (SlotW kw R) :=
  (Snd.opt (Snd.ws (Snd.preceded_tag (emptyOr_snd h)) Nil.gap (by
      rintro _ _ ⟨g, u, rfl, _⟩
      simp [hkw]))).mono (fun _ => id) (fun _ => id) (by
    intro o t h
    cases h with
    | absent => exact .absent
    | present hg h =>
      obtain ⟨_, u, rfl, rfl, h⟩ := h
      exact .present hg h)

theorem SlotW.lead {kw : List Char} {R : α → List Char → Prop} {o : Option (Option α)}
    {t g : List Char} (hg : Gap g) (h : SlotW kw R o t) : SlotW kw R o (g ++ t) ∨ (o = none ∧ t = []) := by
  cases h with
  | absent => exact .inr ⟨rfl, rfl⟩
  | present hg' h =>
    rw [← List.append_assoc]
    exact .inl (.present (hg.append hg') h)

theorem parseActionDef_snd : Snd Any Gap parseActionDef (ActionW .loose) := by
  refine .map (Snd.prefixExpr (Snd.pair parseName_snd (Snd.pair (Snd.ms1_sp parseParameters_snd)
    (Snd.ws_ne (Snd.pair (slot_snd (by decide) parsePreGd_snd)
      (slot_snd (by decide) parseEffect_snd).anyF) Nil.gap))) fun _ => id) ?_
  rintro ⟨n, vs, pre, eff⟩ t ⟨g1, u, g4, rfl, h1, ⟨tn, g2, _, rfl, hn, hg2, _, g, _, rfl,
    ⟨g3, tv, rfl, hg3, hv⟩, hg, u1, _, u2, rfl, hp, rfl, he⟩, h4⟩
  dsimp only at hn hv hp he ⊢
  rcases hp.lead hg with hp' | ⟨rfl, rfl⟩
  · have := ActionW.mk (m := .loose) h1 hn hg2 hg3 hv hp' he h4
    simpa using this
  · rcases he.lead hg with he' | ⟨rfl, rfl⟩
    · have := ActionW.mk (m := .loose) h1 hn hg2 hg3 hv SlotW.absent he' h4
      simpa using this
    · have := ActionW.mk (m := .loose) h1 hn hg2 hg3 hv SlotW.absent SlotW.absent (hg.append h4)
      simpa using this

theorem parseDerivedPredicate_snd : Snd Any Gap parseDerivedPredicate (DerivedW .loose) :=
  Snd.kw2 parseAtomicFormulaSkeleton_snd (.arg parseGd_snd) (fun _ => id)
    fun h1 h2 h3 h4 h5 => .mk h1 h2 h3 h4 h5

/-! ## Durative actions -/

theorem parseTimedGd_snd : Snd Any Gap parseTimedGd (TimedGDW .loose) := by
  refine .alt_cons (Snd.kw2 parseTimeSpecifier_snd (.arg parseGd_snd) Nil.gap ?_)
    (.alt_cons (Snd.kw2 parseInterval_snd (.arg parseGd_snd) Nil.gap ?_) .alt_nil)
  · rintro g1 ts _ g2 b t2 g3 h1 rfl h3 h4 h5
    exact .at h1 h3 h4 h5
  · rintro g1 ts _ g2 b t2 g3 h1 rfl h3 h4 h5
    exact .over h1 h3 h4 h5

theorem timedGDW_nonE {m : Mode} : NonE (TimedGDW m) := fun _ _ h => by
  cases h <;> exact (solid_paren _).ne

theorem parsePrefTimedGd_snd : Snd Any Gap parsePrefTimedGd (PrefTimedGDW .loose) := by
  refine .alt_cons (Snd.kw2 (G1 := Nil) (Snd.opt (G := Gap)
      (R := fun n t => ∃ t1 g, t = t1 ++ g ∧ NameW n t1 ∧ Sp g) ?_)
      parseTimedGd_snd.anyF Nil.gap ?_)
    (.alt_cons (.map parseTimedGd_snd fun _ _ h => .required h) .alt_nil)
  · intro s n r hs _
    obtain ⟨_, r1, h1, h2⟩ := terminated_ok hs
    obtain ⟨rfl, hsp⟩ := ms1_inv h2
    obtain ⟨g, t, rfl, hg, ht⟩ := parseName_snd _ _ _ h1 trivial
    exact ⟨g, _, by simp, hg, t, _, rfl, ht, hsp⟩
  · intro g1 o t1 g2 b t2 g3 h1 h2 h3 h4 h5
    cases h2 with
    | absent =>
      have := PrefTimedGDW.anonymous (m := .loose) (h1.append h3) h4 h5
      simpa using this
    | present hg hn =>
      obtain ⟨tn, g', rfl, hn, hsp⟩ := hn
      have := PrefTimedGDW.named (m := .loose) (h1.append hg) hn (hsp.sep.append h3) h4 h5
      simpa using this

theorem prefTimedGDW_nonE {m : Mode} : NonE (PrefTimedGDW m) := fun _ _ h => by
  cases h with
  | required h => exact timedGDW_nonE _ _ h
  | _ => exact (solid_paren _).ne

theorem daGDW_nonE {m : Mode} : NonE (DaGDW m) := fun _ _ h => by
  cases h with
  | timed h => exact prefTimedGDW_nonE _ _ h
  | _ => exact (solid_paren _).ne

theorem parseDaGd_snd : Snd Any Gap parseDaGd (DaGDW .loose) :=
  .fix fun _ h => .alt_cons (Snd.kw2 parseVarList_snd (.arg h) (fun _ => id)
      fun h1 h2 h3 h4 h5 => .forall_ h1 h2 h3 h4 h5)
    (.alt_cons (Snd.kwL h daGDW_nonE fun h => .and h)
    (.alt_cons (.map parsePrefTimedGd_snd fun _ _ h => .timed h) .alt_nil))

theorem fExpDaW_nonE {m : Mode} : NonE (FExpDaW m) := fun _ _ h => h.solid.ne

theorem parseFExpDa_snd : Snd Any Gap parseFExpDa (FExpDaW .loose) := by
  refine .fix fun self h => .alt_cons (.map Snd.tag.gap ?_)
    (.operators h (fun _ _ h => h.solid) .multiOp map_mul
      (fun h0 h1 ha h2 hb => .binaryOp h0 h1 ha h2 hb Gap.nil)
      (fun h0 h1 ha h2 hb hw => .multiOp h0 h1 ha h2 hb Gap.nil hw)
    (.alt_cons (.map (Snd.parens (minus_snd h.anyF) fun _ => id) ?_)
    (.alt_cons (.map parseFExp_snd fun _ _ h => .fExp h fun h => nomatch h) .alt_nil)))
  · rintro _ _ ⟨rfl, rfl⟩
    exact .duration
  · rintro e t ⟨g, u, rfl, hg, g1, t1, rfl, hg1, h1⟩
    have := FExpDaW.negative (m := .loose) hg hg1 h1 Gap.nil
    simpa using this

theorem parseFAssignDa_snd : Snd Any Gap parseFAssignDa (FAssignDaW .loose) :=
  Snd.update parseAssignOp_snd parseFExpDa_snd
    fun h1 h2 h3 h4 h5 h6 => .mk h1 h2 h3 h4 h5 h6 Gap.nil

theorem parseFExpT_snd : Snd Any Gap parseFExpT (FExpTW .loose) := by
  refine .alt_cons (.map (R := Kw c!"*" fun e u =>
      (∃ g t, u = c!"#t" ++ (g ++ t) ∧ Sep g ∧ FExpW .loose e t) ∨
      ∃ t g, u = t ++ (g ++ c!"#t") ∧ FExpW .loose e t ∧ Sp g) (Snd.prefixExpr (G := Gap) ?_ fun _ => id) ?_)
    (.alt_cons (.map Snd.tag.gap ?_) .alt_nil)
  · refine .alt_cons ?_ (.alt_cons ((Snd.terminated_tag parseFExp_snd).mono (fun _ => id) (fun _ => id)
      fun _ _ h => .inr h) .alt_nil)
    intro s e r hs _
    obtain ⟨_, r1, h1, h2⟩ := preceded_ok hs
    obtain ⟨r2, h3, h4⟩ := pair_ok h1
    obtain ⟨_, rfl⟩ := tag_inv h3
    obtain ⟨rfl, hsp⟩ := ms1_inv h4
    obtain ⟨g, t, rfl, hg, ht⟩ := parseFExp_snd _ _ _ h2 trivial
    exact ⟨[], _, by simp, .nil, .inl ⟨_, t, rfl, hsp.sep.append hg, ht⟩⟩
  · rintro e t ⟨g1, u, g2, rfl, h1, ⟨g, t, rfl, hg, h⟩ | ⟨t, g, rfl, h, hg⟩, h2⟩
    · have := FExpTW.left (m := .loose) h1 hg h h2
      simpa using this
    · have := FExpTW.right (m := .loose) h1 h hg h2
      simpa using this
  · rintro _ _ ⟨rfl, rfl⟩
    exact .now

theorem parseTimedEffect_snd : Snd Any Gap parseTimedEffect (TimedEffectW .loose) := by
  refine .alt_cons (Snd.kw2 parseTimeSpecifier_snd (.arg parseFAssignDa_snd) Nil.gap ?_)
    (.alt_cons (Snd.kw2 parseTimeSpecifier_snd (.arg parseCondEffect_snd) Nil.gap ?_)
    (.alt_cons (Snd.update parseAssignOpT_snd parseFExpT_snd ?_) .alt_nil))
  · rintro g1 ts _ g2 b t2 g3 h1 rfl h3 h4 h5
    exact .numericFluent h1 h3 h4 h5
  · rintro g1 ts _ g2 b t2 g3 h1 rfl h3 h4 h5
    exact .conditional h1 h3 h4 h5 fun h => nomatch h
  · rintro g0 a _ g1 h t1 g2 e t2 h1 rfl h3 h4 h5 h6
    exact .continuous h1 h3 h4 h5 h6 Gap.nil

theorem timedEffectW_nonE {m : Mode} : NonE (TimedEffectW m) := fun _ _ h => by
  cases h <;> exact (solid_paren _).ne

theorem daEffectW_nonE {m : Mode} : NonE (DaEffectW m) := fun _ _ h => by
  cases h with
  | timed h => exact timedEffectW_nonE _ _ h
  | _ => exact (solid_paren _).ne

theorem parseDaEffect_snd : Snd Any Gap parseDaEffect (DaEffectW .loose) :=
  .fix fun _ h => .alt_cons (Snd.kwL h daEffectW_nonE fun h => .all h)
    (.alt_cons (Snd.kw2 parseVarList_snd (.arg h) (fun _ => id)
      fun h1 h2 h3 h4 h5 => .forall_ h1 h2 h3 h4 h5)
    (.alt_cons (Snd.kw2 parseDaGd_snd (.arg parseTimedEffect_snd) (fun _ => id)
      fun h1 h2 h3 h4 h5 => .when h1 h2 h3 h4 h5)
    (.alt_cons (.map parseTimedEffect_snd fun _ _ h => .timed h) .alt_nil)))

theorem parseDValue_snd : Snd Any Gap parseDValue (DValueW .loose) :=
  .alt_cons (.map parseNumber_snd.gap fun _ _ h => .number h)
    (.alt_cons (.map parseFExp_snd fun _ _ h => .fExp h fun h => nomatch h) .alt_nil)

theorem simpleDurationW_nonE {m : Mode} : NonE (SimpleDurationW m) := fun _ _ h => by
  cases h <;> exact (solid_paren _).ne

theorem parseSimpleDuration_snd : Snd Any Gap parseSimpleDuration (SimpleDurationW .loose) := by
  refine .fix fun self h => .alt_cons (.map (Snd.parens (Snd.pair parseDOp_snd (G2 := Sp)
      (R2 := fun v t => ∃ g u, t = c!"?duration" ++ (g ++ u) ∧ Sep g ∧ DValueW .loose v u) ?_)
      Nil.gap) ?_)
    (.alt_cons (Snd.kw2 parseTimeSpecifier_snd (.arg h) Nil.gap ?_) .alt_nil)
  · intro s v r hs _
    obtain ⟨_, r1, h1, h2⟩ := preceded_ok hs
    obtain ⟨r2, h3, h4⟩ := pair_ok h1
    obtain ⟨r3, h5, h6⟩ := pair_ok h4
    obtain ⟨rfl, hsp⟩ := ms1_inv h3
    obtain ⟨_, rfl⟩ := tag_inv h5
    obtain ⟨rfl, hsp'⟩ := ms1_inv h6
    obtain ⟨g, t, rfl, hg, ht⟩ := parseDValue_snd _ _ _ h2 trivial
    exact ⟨_, _, by simp, hsp, _, t, rfl, hsp'.sep.append hg, ht⟩
  · rintro ⟨o, v⟩ t ⟨g, u, rfl, hg, t1, g1, _, rfl, rfl, hg1, g2, t2, rfl, hg2, h⟩
    have := SimpleDurationW.op (m := .loose) (o := o) hg hg1 hg2 h Gap.nil
    simpa using this
  · rintro g1 ts _ g2 b t2 g3 h1 rfl h3 h4 h5
    exact .at h1 h3 h4 h5

theorem parseDurationConstraint_snd : Snd Any Gap parseDurationConstraint
    (fun o t => (o = none ∧ t = c!"()") ∨ ∃ d, o = some d ∧ DurationW .loose d t) := by
  refine .alt_cons (.map Snd.tag.gap fun _ _ h => .inl ⟨rfl, h.2⟩)
    (.alt_cons (.map parseSimpleDuration_snd fun _ _ h => .inr ⟨_, rfl, .single h⟩)
    (.alt_cons (.mapExpect (Snd.prefixExpr (Snd.list1 parseSimpleDuration_snd
      simpleDurationW_nonE).anyF fun _ => id) ?_) .alt_nil))
  rintro cs o t h ⟨g1, u, g2, rfl, h1, h2, h3⟩
  unfold DurationConstraint.newAll at h
  split at h
  · cases h
  · cases h
    exact .inr ⟨_, rfl, .all h1 h2 h3⟩

theorem duration_snd : Snd Any Nil (preceded multispace1 parseDurationConstraint)
    (EmptyOrW (DurationW .loose)) := fun s o r hs _ => by
  obtain ⟨_, r1, h1, h2⟩ := preceded_ok hs
  obtain ⟨rfl, hsp⟩ := ms1_inv h1
  rcases alt_inv h2 with h2 | ⟨_, h2⟩
  · obtain ⟨_, h3, rfl⟩ := map_ok h2
    obtain ⟨_, rfl⟩ := tag_inv h3
    exact ⟨[], _, by simp, rfl, .empty hsp⟩
  · rcases alt_inv h2 with h2 | ⟨_, h2⟩
    · obtain ⟨a, h3, rfl⟩ := map_ok h2
      obtain ⟨g, t, rfl, hg, ht⟩ := parseSimpleDuration_snd _ _ _ h3 trivial
      exact ⟨[], _, by simp, rfl, .some (hsp.sep.append hg) (.single ht)⟩
    · rcases alt_inv h2 with h2 | ⟨_, h2⟩
      · obtain ⟨cs, h3, h4⟩ := mapExpect_inv h2
        obtain ⟨g, t, rfl, hg, g1, u, g2, rfl, h5, h6, h7⟩ := Snd.prefixExpr (F := Any)
          (Snd.list1 parseSimpleDuration_snd simpleDurationW_nonE).anyF (fun _ => id) _ _ _ h3 trivial
        unfold DurationConstraint.newAll at h4
        split at h4
        · cases h4
        · cases h4
          exact ⟨[], _, by simp, rfl, .some (hsp.sep.append hg) (.all h5 h6 h7)⟩
      · cases h2

theorem parseDaDef_snd : Snd Any Gap parseDaDef (DaDefW .loose) := by
  refine .map (Snd.prefixExpr (Snd.pair parseName_snd (Snd.pair (Snd.ms1_sp parseParameters_snd)
    (Snd.pair (Snd.ms1_sp (Snd.preceded_tag duration_snd))
    (Snd.pair (Snd.ms1_sp (Snd.preceded_tag (emptyOr_snd parseDaGd_snd)))
      (Snd.ms1_sp (Snd.preceded_tag (emptyOr_snd parseDaEffect_snd))).anyF)))) fun _ => id) ?_
  rintro ⟨n, vs, d, c, e⟩ t ⟨g1, u, g7, rfl, h1, ⟨tn, g2, _, rfl, hn, hg2, _, g4, _, rfl,
    ⟨g3, tv, rfl, hg3, hv⟩, hg4, _, g5, _, rfl, ⟨_, ud, rfl, rfl, hd⟩, hg5, _, g6, _, rfl,
    ⟨_, uc, rfl, rfl, hc⟩, hg6, _, ue, rfl, rfl, he⟩, h7⟩
  have := DaDefW.mk (m := .loose) h1 hn hg2 hg3 hv hg4 hd hg5 hc hg6 he h7
  simpa using this

theorem parseStructureDef_snd : Snd Any Gap parseStructureDef (StructureW .loose) :=
  .alt_cons (.map parseDerivedPredicate_snd fun _ _ h => .derived h)
    (.alt_cons (.map parseActionDef_snd fun _ _ h => .action h)
    (.alt_cons (.map parseDaDef_snd fun _ _ h => .durative h) .alt_nil))

theorem structureW_nonE {m : Mode} : NonE (StructureW m) := fun _ _ h => by
  cases h with
  | derived h => cases h; exact (solid_paren _).ne
  | action h => cases h; exact (solid_paren _).ne
  | durative h => cases h; exact (solid_paren _).ne

end Pddl
