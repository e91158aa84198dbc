import Verif.Props.DurativeX

/-!
# C84: the exact texts of actions, durative actions and derived predicates
-/

namespace Pddl

/-- The accepted texts of an action. No blank is needed before the name or before the keywords of the
precondition and the effect; blanks and no comments come before `:parameters`. -/
inductive ActionX : ActionDef → List Char → Prop
  | mk {g1 n tn g2 g3 vs w pre u1 eff u2 g4} : Gap g1 → NameW n tn → Sp g2 → Sep g3 →
      TypedX VarX Apart objectTy vs w → SlotW c!":precondition" (PreX []) pre u1 →
      SlotW c!":effect" (EffX []) eff u2 → Gap g4 →
      ActionX ⟨n, vs, pre.join.getD [], eff.join⟩
        (paren (c!":action" ++ (g1 ++ (tn ++ (g2 ++ (c!":parameters" ++ (g3 ++ (paren w ++
          (u1 ++ (u2 ++ g4))))))))))

/-- The accepted texts of a durative action. All four keywords are needed. -/
inductive DaDefX : DaDef → List Char → Prop
  | mk {g1 n tn g2 g3 vs w g4 b g5 d td g6 c uc g7 e ue g8} : Gap g1 → NameW n tn → Sp g2 → Sep g3 →
      TypedX VarX Apart objectTy vs w → Sp g4 → Sp b → GapC g5 → DurationX g5 d td → Sp g6 →
      EmptyOrW DaGDX c uc → Sp g7 → EmptyOrW (DaEffX []) e ue → Gap g8 →
      DaDefX ⟨n, vs, d, c, e⟩
        (paren (c!":durative-action" ++ (g1 ++ (tn ++ (g2 ++ (c!":parameters" ++ (g3 ++ (paren w ++
          (g4 ++ (c!":duration" ++ (b ++ (g5 ++ (td ++ (g6 ++ (c!":condition" ++ (uc ++ (g7 ++
          (c!":effect" ++ (ue ++ g8)))))))))))))))))))

/-- The accepted texts of an action, a durative action or a derived predicate. -/
inductive StructureX : StructureDef → List Char → Prop
  | derived {p g t} : Paired c!":derived" SkeletonX GDX p g t → StructureX (.derived ⟨p, g⟩) t
  | action {a t} : ActionX a t → StructureX (.action a) t
  | durative {a t} : DaDefX a t → StructureX (.durative a) t

/-! ## Derived predicates -/

theorem skeleton_texts : Texts parseAtomicFormulaSkeleton (fun g k t => GapC g ∧ SkeletonX k t) where
  iff s v r := (C78_skeletons s v r).1
  gap h := h.1.1
  base h := ⟨gapC_nil, h.2⟩
  form := fun {g v t} ⟨_, h⟩ => form_of_snd parseAtomicFormulaSkeleton_snd (fun _ _ h => h.form)
    (by cases h; exact solid_paren _) (((C78_skeletons t v []).1).mpr ⟨[], t, by simp, gapC_nil, h⟩)

theorem derived_texts : Texts parseDerivedPredicate
    (fun g v t => Gap g ∧ Paired c!":derived" SkeletonX GDX v.predicate v.goal t) :=
  ((skeleton_texts.paired (kw := c!":derived") (.of_kw (by decide)) goal_texts parseGd_ct).map
    fun x : Skeleton × GD => DerivedPredicate.mk x.1 x.2).congr fun {g v t} => by
      constructor
      · rintro ⟨x, rfl, hg, h⟩
        exact ⟨hg, h.imp (fun _ h => h.2) fun _ h => h.2⟩
      · rintro ⟨hg, h⟩
        exact ⟨(v.1, v.2), rfl, hg, h.imp (fun _ h => ⟨gapC_nil, h⟩) fun _ h => ⟨GoalLead.nil _, h⟩⟩

/-! ## Actions -/

theorem pre_texts : Texts parsePreGd PreX where
  iff := C80_preconditions
  gap h := h.gap
  base h := prex_reads.mp (PreX.reads _ _ _ _ (Nat.le_refl _) h)
  form h := form_of_snd parsePreGd_snd (fun _ _ h => h.form) (PreX.reads _ _ _ _ (Nat.le_refl _) h).1
    (PreX.reads _ _ _ _ (Nat.le_refl _) h).2

theorem Texts.full {p : P α} {X : List Char → α → List Char → Prop} (H : Texts p X) (v : α) (t : List Char)
    (h : X [] v t) : Full p v t := ⟨fun r _ => H.run0 h r, H.solid h⟩

/-- `:parameters (..)` -/
theorem parametersX_run {g1 g2 t r : List Char} {vs : TypedList Name} (hg1 : Sp g1) (hg2 : Sep g2)
    (h : VarListX vs t) :
    preceded multispace1 parseParameters (g1 ++ (c!":parameters" ++ (g2 ++ (t ++ r)))) = .ok vs r := by
  have hs := varList_texts.solid (g := []) ⟨gapC_nil, h⟩
  rw [pms1_sp hg1 (solidK.append _), parseParameters,
    preceded_run (tag_ok c!":parameters" _), pms1_sep parseVarList_ct hg2 (hs.append _)]
  exact varList_texts.run0 (g := []) ⟨gapC_nil, h⟩ r

theorem parametersX_snd : Snd Any Nil parseParameters (After c!":parameters" Sep VarListX) :=
  Snd.preceded_tag (Snd.ms1 (varList_texts.snd.mono (fun _ => id) (fun _ => id) fun _ _ h => h.2) fun _ => id)

theorem actionX_snd : Snd Any Gap parseActionDef ActionX := by
  refine .map (Snd.prefixExpr (Snd.pair parseName_snd (Snd.pair (Snd.ms1_sp parametersX_snd)
    (Snd.ws_ne (Snd.pair (slot_snd (by decide) pre_texts.snd)
      (slot_snd (by decide) effect_texts.snd).anyF) Nil.gap))) fun _ => id) ?_
  rintro ⟨n, vs, pre, eff⟩ t ⟨g1, u, g4, rfl, h1, ⟨tn, g2, _, rfl, hn, hg2, _, g, _, rfl,
    ⟨g3, _, rfl, hg3, w, rfl, hv⟩, hg, u1, _, u2, rfl, hp, rfl, he⟩, h4⟩
  dsimp only at hn hv hp he ⊢
  rcases hp.lead hg with hp' | ⟨rfl, rfl⟩
  · have := ActionX.mk h1 hn hg2 hg3 hv hp' he h4
    simpa using this
  · rcases he.lead hg with he' | ⟨rfl, rfl⟩
    · have := ActionX.mk h1 hn hg2 hg3 hv SlotW.absent he' h4
      simpa using this
    · have := ActionX.mk h1 hn hg2 hg3 hv SlotW.absent SlotW.absent (hg.append h4)
      simpa using this

theorem actionX_run {a : ActionDef} {t : List Char} (h : ActionX a t) (r : List Char) :
    parseActionDef (t ++ r) = .ok a r := by
  cases h with
  | @mk g1 n tn g2 g3 vs w pre u1 eff u2 g4 hg1 hn hg2 hg3 hv hpre heff hg4 =>
    have hv := (⟨w, rfl, hv⟩ : VarListX vs (paren w))
    generalize paren w = tv at hv ⊢
    simp only [paren_append, List.append_assoc]
    have hk := hg4.skip_solid (solid_close r)
    have hslots : ∃ y, skip y = ')' :: r ∧
        ws (pair (opt (slotP c!":precondition" parsePreGd)) (opt (slotP c!":effect" parseEffect)))
          (u1 ++ (u2 ++ (g4 ++ ')' :: r))) = .ok (pre, eff) y := by
      rw [ws_eq]
      cases hpre with
      | absent =>
        rw [List.nil_append]
        cases heff with
        | absent =>
          rw [List.nil_append, hk]
          refine ⟨')' :: r, (solid_close r).skip, ?_⟩
          have h1 : ∀ {α : Type} {k : Char} {ks : List Char} {p : P α}, k ≠ ')' →
              opt (slotP (k :: ks) p) (')' :: r) = .ok none (')' :: r) := fun hne =>
            slot_none (by rw [(solid_close r).skip]; exact stripPrefix_head hne)
          exact pair_run (h1 (by decide)) (h1 (by decide))
        | @present g o u hg ho =>
          simp only [List.append_assoc]
          have hs := hg.skip_solid ((solidK (k := c!"effect")).append (u ++ (g4 ++ ')' :: r)))
          refine ⟨g4 ++ ')' :: r, hk, pair_run
            (r := skip (g ++ (c!":effect" ++ (u ++ (g4 ++ ')' :: r))))) ?_ (opt_run ?_)⟩
          · refine slot_none ?_
            rw [skip_skip, hs]
            rfl
          · rw [slotP_skip]
            exact slot_run (.effectOf parseCEffect_ct) parseEffect_rejE effect_texts.full hg solidK ho _
      | @present g o u hg ho =>
        simp only [List.append_assoc]
        have h1 : opt (slotP c!":precondition" parsePreGd)
            (skip (g ++ (c!":precondition" ++ (u ++ (u2 ++ (g4 ++ ')' :: r)))))) =
            .ok (some o) (u2 ++ (g4 ++ ')' :: r)) := by
          refine opt_run ?_
          rw [slotP_skip]
          exact slot_run parsePreGd_ct parsePreGd_rejE pre_texts.full hg solidK ho _
        cases heff with
        | absent =>
          rw [List.nil_append] at h1 ⊢
          refine ⟨g4 ++ ')' :: r, hk, pair_run h1 (slot_none ?_)⟩
          rw [hk]; rfl
        | @present g' o' u' hg' ho' =>
          simp only [List.append_assoc] at h1 ⊢
          refine ⟨g4 ++ ')' :: r, hk, pair_run h1 (opt_run ?_)⟩
          exact slot_run (.effectOf parseCEffect_ct) parseEffect_rejE effect_texts.full hg' solidK ho' _
    obtain ⟨y, hy, hrun⟩ := hslots
    refine map_run (a := (n, vs, pre, eff)) (prefixExpr_run (y := y) ?_ hy)
    rw [hg1.skip_solid (hn.solid.append _)]
    refine pair_run (hn.acc _ (.sp hg2 _)) (pair_run ?_ hrun)
    exact parametersX_run hg2 hg3 hv

theorem ActionX.head {a : ActionDef} {t : List Char} (h : ActionX a t) : Head c!":action" t := by
  cases h; exact ⟨_, rfl⟩

theorem action_texts : Texts parseActionDef (fun g a t => Gap g ∧ ActionX a t) :=
  .of_reads parseActionDef_snd (fun _ _ h => h.form) C28_actions C29_actions fun v t => by
    constructor
    · rintro ⟨hs, h⟩
      obtain ⟨g, u, e, hg, k⟩ := actionX_snd t v [] h trivial
      obtain rfl := solid_whole hs e hg (by cases k; exact solid_paren _)
      exact k
    · intro h
      exact .of (by cases h; exact solid_paren _) (actionX_run h [])

/-! ## Durative actions -/

theorem durationX_snd : Snd Any Nil (preceded multispace1 parseDurationConstraint)
    (fun d u => ∃ b g t, u = b ++ (g ++ t) ∧ Sp b ∧ GapC g ∧ DurationX g d t) := by
  intro s v r h _
  obtain ⟨b, y, rfl, hb, hy, h⟩ := pms1_inv h
  obtain ⟨g, t, rfl, k⟩ := (C77_durations _ _ _).mp h
  exact ⟨[], b ++ (g ++ t), by simp, rfl, b, g, t, rfl, hb, .of_no_space (by
    cases k with
    | none => exact .nil
    | single k => exact k.gap
    | all k => exact k) hy, k⟩

theorem daDefX_snd : Snd Any Gap parseDaDef DaDefX := by
  refine .map (Snd.prefixExpr (Snd.pair parseName_snd (Snd.pair (Snd.ms1_sp parametersX_snd)
    (Snd.pair (Snd.ms1_sp (Snd.preceded_tag durationX_snd))
    (Snd.pair (Snd.ms1_sp (Snd.preceded_tag (emptyOr_snd (daGd_texts.snd.mono (fun _ => id) (fun _ => id)
        fun _ _ h => h.2))))
      (Snd.ms1_sp (Snd.preceded_tag (emptyOr_snd daEffect_texts.snd))).anyF)))) fun _ => id) ?_
  rintro ⟨n, vs, d, c, e⟩ t ⟨g1, u, g7, rfl, h1, ⟨tn, g2, _, rfl, hn, hg2, _, g4, _, rfl,
    ⟨g3, _, rfl, hg3, w, rfl, hv⟩, hg4, _, g5, _, rfl, ⟨_, _, rfl, rfl, b, g, td, rfl, hb, hg, hd⟩, hg5, _, g6, _, rfl,
    ⟨_, uc, rfl, rfl, hc⟩, hg6, _, ue, rfl, rfl, he⟩, h7⟩
  have := DaDefX.mk h1 hn hg2 hg3 hv hg4 hb hg hd hg5 hc hg6 he h7
  simpa using this

theorem daDefX_run {a : DaDef} {t : List Char} (h : DaDefX a t) (r : List Char) : parseDaDef (t ++ r) = .ok a r := by
  cases h with
  | @mk g1 n tn g2 g3 vs w g4 b g5 d td g6 c uc g7 e ue g8 hg1 hn hg2 hg3 hv hg4 hb hg5 hd hg6 hc hg7 he hg8 =>
    have hv := (⟨w, rfl, hv⟩ : VarListX vs (paren w))
    generalize paren w = tv at hv ⊢
    simp only [paren_append, List.append_assoc]
    refine map_run (a := (n, vs, d, c, e)) (prefixExpr_run (y := g8 ++ ')' :: r) ?_
      (hg8.skip_solid (solid_close r)))
    rw [hg1.skip_solid (hn.solid.append _)]
    refine pair_run (hn.acc _ (.sp hg2 _)) (pair_run (parametersX_run hg2 hg3 hv)
      (pair_run ?_
        (pair_run (sec_kw hg6 solidK
            (emptyOr_run parseDaGd_ct parseDaGd_rejE (fun v t h => daGd_texts.full v t ⟨.nil, h⟩) hc _))
          (sec_kw hg7 solidK
            (emptyOr_run parseDaEffect_ct parseDaEffect_rejE daEffect_texts.full he _)))))
    have hs : Solid td := by
      cases hd with
      | none => exact .cons (by decide) (by decide) _
      | single h => exact h.solid
      | all => exact solid_paren _
    rw [pms1_sp hg4 (solidK.append _), preceded_run (tag_ok c!":duration" _), pms1_gapC hb hg5 (hs.append _)]
    exact (C77_durations _ _ _).mpr ⟨g5, td, rfl, hd⟩

theorem DaDefX.head {a : DaDef} {t : List Char} (h : DaDefX a t) : Head c!":durative-action" t := by
  cases h; exact ⟨_, rfl⟩

theorem daDef_texts : Texts parseDaDef (fun g a t => Gap g ∧ DaDefX a t) :=
  .of_reads parseDaDef_snd (fun _ _ h => h.form) C28_durative C29_durative fun v t => by
    constructor
    · rintro ⟨hs, h⟩
      obtain ⟨g, u, e, hg, k⟩ := daDefX_snd t v [] h trivial
      obtain rfl := solid_whole hs e hg (by cases k; exact solid_paren _)
      exact k
    · intro h
      exact .of (by cases h; exact solid_paren _) (daDefX_run h [])

/-! ## Structures -/

theorem structure_texts : Texts parseStructureDef (fun g v t => Gap g ∧ StructureX v t) := by
  have T3 := (daDef_texts.map StructureDef.durative).one
  have T2 := (action_texts.map StructureDef.action).alt_apart T3 (by
    rintro g v t ⟨x, rfl, hg, h⟩ r
    obtain ⟨u, rfl⟩ := h.head
    refine map_err (map_err ?_)
    rw [prefix_lead hg]
    exact kw_miss (fun _ => rfl) u r)
  have T1 := (derived_texts.map StructureDef.derived).alt_apart T2 (by
    rintro g v t (⟨x, rfl, hg, h⟩ | ⟨x, rfl, hg, h⟩) r
    · obtain ⟨u, rfl⟩ := h.head
      refine map_err (map_err ?_)
      rw [prefix_lead hg]
      exact kw_miss (fun _ => rfl) u r
    · obtain ⟨u, rfl⟩ := h.head
      refine map_err (map_err ?_)
      rw [prefix_lead hg]
      exact kw_miss (fun _ => rfl) u r)
  refine T1.congr fun {g v t} => ⟨?_, ?_⟩
  · rintro (⟨x, rfl, hg, h⟩ | ⟨x, rfl, hg, h⟩ | ⟨x, rfl, hg, h⟩)
    · exact ⟨hg, .derived h⟩
    · exact ⟨hg, .action h⟩
    · exact ⟨hg, .durative h⟩
  · rintro ⟨hg, h⟩
    cases h with
    | derived h => exact .inl ⟨_, rfl, hg, h⟩
    | action h => exact .inr (.inl ⟨_, rfl, hg, h⟩)
    | durative h => exact .inr (.inr ⟨_, rfl, hg, h⟩)

/-! ## The claims -/

/-- C84, actions. -/
theorem C84_actions (s : List Char) (v : ActionDef) (r : List Char) :
    parseActionDef s = .ok v r ↔ ∃ g t, s = g ++ (t ++ r) ∧ Gap g ∧ ActionX v t := action_texts.iff s v r

/-- C84, durative actions. -/
theorem C84_durative_actions (s : List Char) (v : DaDef) (r : List Char) :
    parseDaDef s = .ok v r ↔ ∃ g t, s = g ++ (t ++ r) ∧ Gap g ∧ DaDefX v t := daDef_texts.iff s v r

/-- C84, derived predicates. -/
theorem C84_derived_predicates (s : List Char) (v : DerivedPredicate) (r : List Char) :
    parseDerivedPredicate s = .ok v r ↔
      ∃ g t, s = g ++ (t ++ r) ∧ Gap g ∧ Paired c!":derived" SkeletonX GDX v.predicate v.goal t :=
  derived_texts.iff s v r

/-- C84, all three together. -/
theorem C84_structures (s : List Char) (v : StructureDef) (r : List Char) :
    parseStructureDef s = .ok v r ↔ ∃ g t, s = g ++ (t ++ r) ∧ Gap g ∧ StructureX v t :=
  structure_texts.iff s v r

/-- An action with layout that is not needed, an empty precondition and no effect. -/
example : ∃ t, StructureX (.action ⟨Ex.nm c!"a", [⟨Ex.nm c!"x", objectTy⟩], [], none⟩) t ∧
    t = c!"(:actiona :parameters (?x):precondition ();c\n)" := by
  obtain ⟨g, t, e, hg, h⟩ := (C84_structures c!"(:actiona :parameters (?x):precondition ();c\n)" _ []).mp rfl
  obtain rfl := solid_whole (solid_open _) e hg (structure_texts.solid (g := []) ⟨.nil, h⟩)
  exact ⟨_, h, rfl⟩

/-- A durative action without a duration, with a condition and an effect. -/
example : ∃ t, StructureX (.durative ⟨Ex.nm c!"a", [], none,
      some (.timed (.required (.at .start (.atomic (.predicate (Ex.nm c!"p") []))))), some (.all [])⟩) t ∧
    t = c!"(:durative-action a :parameters () :duration () :condition (at start (p)) :effect (and))" := by
  obtain ⟨g, t, e, hg, h⟩ := (C84_structures
    c!"(:durative-action a :parameters () :duration () :condition (at start (p)) :effect (and))" _ []).mp rfl
  obtain rfl := solid_whole (solid_open _) e hg (structure_texts.solid (g := []) ⟨.nil, h⟩)
  exact ⟨_, h, rfl⟩

/-- A derived predicate. -/
example : ∃ t, StructureX (.derived ⟨⟨Ex.nm c!"p", []⟩, .not (.atomic (.predicate (Ex.nm c!"q") []))⟩) t ∧
    t = c!"(:derived(p) (not(q)))" := by
  obtain ⟨g, t, e, hg, h⟩ := (C84_structures c!"(:derived(p) (not(q)))" _ []).mp rfl
  obtain rfl := solid_whole (solid_open _) e hg (structure_texts.solid (g := []) ⟨.nil, h⟩)
  exact ⟨_, h, rfl⟩

/-- A comment before `:parameters` is not allowed, nor one before an empty precondition; the keywords come
in one order. -/
example : parseActionDef c!"(:action a;c\n:parameters ())" = .err ∧
    parseActionDef c!"(:action a :parameters () :precondition ;c\n())" = .err ∧
    parseActionDef c!"(:action a :parameters () :effect (p) :precondition (q))" = .err := ⟨rfl, rfl, rfl⟩

end Pddl
