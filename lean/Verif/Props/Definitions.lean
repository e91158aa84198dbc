import Verif.Props.Compose
import Verif.Meta.SoundTop
import Verif.Meta.Top
import Verif.Props.Files
import Verif.Builders
import Verif.Accessors

/-!
# C76: definitions and files are read by reading their sections

`ReadsAs p v t` says that the whole text `t`, which begins with the form itself, is read by `p` as `v`. Each
theorem is an equivalence: a text is read as a definition if and only if it is laid out in the stated way
and each part is read as what the accessor of that part returns. Nothing is assumed about the parts but
that they are read, so the theorems hold also of parts outside the strict grammar of `Verif.Spec`.
-/

namespace Pddl

/-- The next alternative builds another kind of value. -/
local macro "other" h:ident : tactic => `(tactic|
  (rcases alt_inv $h with e | ⟨_, $h⟩
   · (obtain ⟨_, _, e⟩ := map_ok e; cases e)))

/-! ## The parts -/

theorem ReadsAs.full {p : P α} (hp : TailBlind p) (v : α) (t : List Char) (h : ReadsAs p v t) :
    Full p v t := ⟨fun r _ => hp t [] v (by rw [List.append_nil]; exact h.2) r, h.1⟩

theorem parseAtomicFormulaSkeleton_parts :
    Snd Any Gap parseAtomicFormulaSkeleton (ReadsAs parseAtomicFormulaSkeleton) :=
  Shed.snd (Shed.map .parens) C27_skeletons C28_skeletons
theorem parseActionDef_parts : Snd Any Gap parseActionDef (ReadsAs parseActionDef) :=
  C29_actions.shed.snd C27_actions C28_actions
theorem parseDerivedPredicate_parts : Snd Any Gap parseDerivedPredicate (ReadsAs parseDerivedPredicate) :=
  C29_derived.shed.snd C27_derived C28_derived
theorem parseDaDef_parts : Snd Any Gap parseDaDef (ReadsAs parseDaDef) :=
  C29_durative.shed.snd C27_durative C28_durative
theorem parseStructureDef_parts : Snd Any Gap parseStructureDef (ReadsAs parseStructureDef) :=
  C29_structures.shed.snd C27_structures C28_structures

/-! ## Actions -/

/-- The text of an action with these parts: `:precondition` and `:effect` may be missing (`none`) or be `()`
(`some none`). -/
def ActionText (n : Name) (vs : TypedList Name) (pre : Option (Option (List PreGD)))
    (eff : Option (Option (List CEffect))) (t : List Char) : Prop :=
  ∃ g1 tn g2 g3 tv u1 u2 g4,
    t = paren (c!":action" ++ (g1 ++ (tn ++ (g2 ++ (c!":parameters" ++ (g3 ++ (tv ++
      (u1 ++ (u2 ++ g4))))))))) ∧
    Gap g1 ∧ NameW n tn ∧ Sp g2 ∧ Sep g3 ∧ ReadsAs parseVarList vs tv ∧
    SlotW c!":precondition" (ReadsAs parsePreGd) pre u1 ∧
    SlotW c!":effect" (ReadsAs parseEffect) eff u2 ∧ Gap g4

theorem params_run {g1 g2 t r : List Char} {vs : TypedList Name} (hg1 : Sp g1) (hg2 : Sep g2)
    (h : ReadsAs parseVarList vs t) :
    preceded multispace1 parseParameters (g1 ++ (c!":parameters" ++ (g2 ++ (t ++ r)))) = .ok vs r := by
  have h := h.full C28_variable_lists
  rw [pms1_sp hg1 (solidK.append _), parseParameters,
    preceded_run (tag_ok c!":parameters" _), pms1_sep parseVarList_ct hg2 (h.2.append _)]
  exact h.1 _ trivial

theorem parseParameters_parts :
    Snd Any Nil parseParameters (After c!":parameters" Sep (ReadsAs parseVarList)) :=
  Snd.preceded_tag (Snd.ms1 parseVarList_parts fun _ => id)

/-- An action is read from its symbol, its parameters and the optional precondition and effect. A missing
precondition and `()` are no condition; a missing effect and `()` are no effect. -/
theorem C76_action {a : ActionDef} {t : List Char} : ReadsAs parseActionDef a t ↔
    ∃ pre eff, ActionText a.getSymbol a.getParameters pre eff t ∧
      a.getPrecondition = pre.join.getD [] ∧ a.getEffect = eff.join := by
  constructor
  · rintro ⟨ht, h⟩
    refine snd_inv (R := fun a t => ∃ pre eff, ActionText a.getSymbol a.getParameters pre eff t ∧
      a.getPrecondition = pre.join.getD [] ∧ a.getEffect = eff.join) ?_ ht h
    refine .map (Snd.prefixExpr (Snd.pair parseName_snd (Snd.pair (Snd.ms1_sp parseParameters_parts)
      (Snd.ws_ne (Snd.pair (slot_snd (by decide) parsePreGd_parts)
        (slot_snd (by decide) parseEffect_parts).anyF) Nil.gap))) fun _ => id) ?_
    rintro ⟨n, vs, pre, eff⟩ t ⟨g1, u, g4, rfl, h1, ⟨tn, g2, _, rfl, hn, hg2, _, g, _, rfl,
      ⟨g3, tv, rfl, hg3, hv⟩, hg, u1, _, u2, rfl, hp, rfl, he⟩, h4⟩
    dsimp only at hn hv hp he ⊢
    refine ⟨pre, eff, ?_, rfl, rfl⟩
    rcases hp.lead hg with hp' | ⟨rfl, rfl⟩
    · exact ⟨g1, tn, g2, g3, tv, _, _, g4, by simp, h1, hn, hg2, hg3, hv, hp', he, h4⟩
    · rcases he.lead hg with he' | ⟨rfl, rfl⟩
      · exact ⟨g1, tn, g2, g3, tv, _, _, g4, by simp, h1, hn, hg2, hg3, hv, .absent, he', h4⟩
      · exact ⟨g1, tn, g2, g3, tv, _, _, g ++ g4, by simp, h1, hn, hg2, hg3, hv, .absent, .absent,
          hg.append h4⟩
  · rintro ⟨pre, eff, ⟨g1, tn, g2, g3, tv, u1, u2, g4, rfl, hg1, hn, hg2, hg3, hv, hpre, heff, hg4⟩,
      hpr, hef⟩
    refine .of (solid_paren _) ?_
    obtain ⟨n, vs, _, _⟩ := a
    dsimp only [ActionDef.getPrecondition, ActionDef.getEffect, ActionDef.getSymbol,
      ActionDef.getParameters] at hpr hef hn hv
    subst hpr
    subst hef
    suffices h : ∀ r, parseActionDef (_ ++ r) = .ok _ r from h []
    intro r
    simp only [paren_append, List.append_assoc]
    have hk := hg4.skip_solid (solid_close r)
    have hfp : ∀ v t, ReadsAs parsePreGd v t → Full parsePreGd v t := ReadsAs.full C28_preconditions
    have hfe : ∀ v t, ReadsAs parseEffect v t → Full parseEffect v t := ReadsAs.full C28_effects
    have hslots : ∃ y, skip y = ')' :: r ∧
        ws (pair (opt (slotP c!":precondition" parsePreGd)) (opt (slotP c!":effect" parseEffect)))
          (u1 ++ (u2 ++ (g4 ++ ')' :: r))) = .ok (pre, eff) y := by
      rw [ws_eq]
      cases hpre with
      | absent =>
        rw [List.nil_append]
        cases heff with
        | absent =>
          rw [List.nil_append, hk]
          refine ⟨')' :: r, (solid_close r).skip, ?_⟩
          have h1 : ∀ {α : Type} {k : Char} {ks : List Char} {p : P α}, k ≠ ')' →
              opt (slotP (k :: ks) p) (')' :: r) = .ok none (')' :: r) := fun hne =>
            slot_none (by rw [(solid_close r).skip]; exact stripPrefix_head hne)
          exact pair_run (h1 (by decide)) (h1 (by decide))
        | @present g o u hg ho =>
          simp only [List.append_assoc]
          have hs := hg.skip_solid ((solidK (k := c!"effect")).append (u ++ (g4 ++ ')' :: r)))
          refine ⟨g4 ++ ')' :: r, hk, pair_run
            (r := skip (g ++ (c!":effect" ++ (u ++ (g4 ++ ')' :: r))))) ?_ (opt_run ?_)⟩
          · refine slot_none ?_
            rw [skip_skip, hs]
            rfl
          · rw [slotP_skip]
            exact slot_run (.effectOf parseCEffect_ct) parseEffect_rejE hfe hg solidK ho _
      | @present g o u hg ho =>
        simp only [List.append_assoc]
        have h1 : opt (slotP c!":precondition" parsePreGd)
            (skip (g ++ (c!":precondition" ++ (u ++ (u2 ++ (g4 ++ ')' :: r)))))) =
            .ok (some o) (u2 ++ (g4 ++ ')' :: r)) := by
          refine opt_run ?_
          rw [slotP_skip]
          exact slot_run parsePreGd_ct parsePreGd_rejE hfp hg solidK ho _
        cases heff with
        | absent =>
          rw [List.nil_append] at h1 ⊢
          refine ⟨g4 ++ ')' :: r, hk, pair_run h1 (slot_none ?_)⟩
          rw [hk]; rfl
        | @present g' o' u' hg' ho' =>
          simp only [List.append_assoc] at h1 ⊢
          refine ⟨g4 ++ ')' :: r, hk, pair_run h1 (opt_run ?_)⟩
          exact slot_run (.effectOf parseCEffect_ct) parseEffect_rejE hfe hg' solidK ho' _
    obtain ⟨y, hy, hrun⟩ := hslots
    refine map_run (a := (n, vs, pre, eff)) (prefixExpr_run (y := y) ?_ hy)
    rw [hg1.skip_solid (hn.solid.append _)]
    exact pair_run (hn.acc _ (.sp hg2 _)) (pair_run (params_run hg2 hg3 hv) hrun)

/-- A derived predicate is read from its skeleton and its goal. -/
theorem C76_derived {d : DerivedPredicate} {t : List Char} : ReadsAs parseDerivedPredicate d t ↔
    Paired c!":derived" (ReadsAs parseAtomicFormulaSkeleton) (ReadsAs parseGd) d.getPredicate
      d.getExpression t := by
  constructor
  · rintro ⟨ht, h⟩
    obtain ⟨x, h1, rfl⟩ := map_ok h
    exact paired_inv parseAtomicFormulaSkeleton_parts (fun _ => id) parseGd_parts ht h1
  · intro h
    exact .of h.solid (map_run (a := (d.getPredicate, d.getExpression))
      (h.run (ReadsAs.elem C28_skeletons) (ReadsAs.elem C28_goals) parseGd_ct))

/-! ## Durative actions -/

/-- The text of a durative action with these parts: `()` in place of a part is `none`. -/
def DurativeText (n : Name) (vs : TypedList Name) (d : Option DurationConstraint) (c : Option DaGD)
    (e : Option DaEffect) (t : List Char) : Prop :=
  ∃ g1 tn g2 g3 tv g4 ud g5 uc g6 ue g7,
    t = paren (c!":durative-action" ++ (g1 ++ (tn ++ (g2 ++ (c!":parameters" ++ (g3 ++ (tv ++
          (g4 ++ (c!":duration" ++ (ud ++ (g5 ++ (c!":condition" ++ (uc ++ (g6 ++
          (c!":effect" ++ (ue ++ g7)))))))))))))))) ∧
    Gap g1 ∧ NameW n tn ∧ Sp g2 ∧ Sep g3 ∧ ReadsAs parseVarList vs tv ∧ Sp g4 ∧
    EmptyOrW (fun d => ReadsAs parseDurationConstraint (some d)) d ud ∧ Sp g5 ∧
    EmptyOrW (ReadsAs parseDaGd) c uc ∧ Sp g6 ∧ EmptyOrW (ReadsAs parseDaEffect) e ue ∧ Gap g7

theorem durationP_iff {s r : List Char} {o : Option DurationConstraint} :
    durationP s = .ok o r ↔ ∃ d, o = some d ∧ parseDurationConstraint s = .ok (some d) r := by
  constructor
  · intro h
    have hn : tag c!"()" s = .err := by
      cases hx : stripPrefix c!"()" s with
      | none => exact tag_err hx
      | some y =>
        rw [Good.stripPrefix_eq hx, show c!"()" ++ y = '(' :: ')' :: y from rfl] at h
        have := durationP_rejE y
        rw [this] at h
        cases h
    have hd : ∃ d, o = some d := by
      rcases alt_inv h with h | ⟨_, h⟩
      · obtain ⟨a, _, rfl⟩ := map_ok h
        exact ⟨_, rfl⟩
      · rcases alt_inv h with h | ⟨_, h⟩
        · obtain ⟨cs, _, h4⟩ := mapExpect_inv h
          obtain ⟨d, _, rfl⟩ := Option.map_eq_some_iff.mp h4
          exact ⟨_, rfl⟩
        · cases h
    obtain ⟨d, rfl⟩ := hd
    refine ⟨d, rfl, ?_⟩
    rw [parseDurationConstraint, alt_miss (map_err hn)]
    exact h
  · rintro ⟨d, rfl, h⟩
    rcases alt_inv h with h | ⟨_, h⟩
    · obtain ⟨a, _, e⟩ := map_ok h
      cases e
    · exact h

theorem durationP_one : OneFormOnly durationP := fun s o r h => by
  obtain ⟨d, rfl, h1⟩ := durationP_iff.mp h
  exact C27_durations s _ r h1

theorem durationP_tail : TailBlind durationP := fun s r o h r' => by
  obtain ⟨d, rfl, h1⟩ := durationP_iff.mp h
  exact durationP_iff.mpr ⟨d, rfl, C28_durations s r _ h1 r'⟩

theorem duration_parts : Snd Any Nil (preceded multispace1 parseDurationConstraint)
    (EmptyOrW fun d => ReadsAs parseDurationConstraint (some d)) := fun s o r hs _ => by
  obtain ⟨w, r1, h1, h2⟩ := preceded_ok hs
  have h1' := ms1_inv h1
  rcases alt_inv h2 with h2 | ⟨_, h2⟩
  · obtain ⟨rfl, hsp⟩ := h1'
    obtain ⟨_, h3, rfl⟩ := map_ok h2
    obtain ⟨_, rfl⟩ := tag_inv h3
    exact ⟨[], _, by simp, rfl, .empty hsp⟩
  · obtain ⟨g, t, rfl, hg, ht, h3⟩ := ct_arg (F := Any) durationP_ct durationP_one durationP_tail
      s o r (by rw [preceded_run h1]; exact h2) trivial
    obtain ⟨d, rfl, h4⟩ := durationP_iff.mp h3
    exact ⟨[], _, by simp, rfl, .some hg ⟨ht, h4⟩⟩

theorem duration_parts_run {o : Option DurationConstraint} {u : List Char}
    (h : EmptyOrW (fun d => ReadsAs parseDurationConstraint (some d)) o u) (r : List Char) :
    preceded multispace1 parseDurationConstraint (u ++ r) = .ok o r := by
  cases h with
  | empty hg =>
    rw [List.append_assoc, pms1_sp hg (solid_unit r)]
    exact alt_hit (map_run (tag_ok c!"()" r))
  | some hg h =>
    rw [List.append_assoc]
    have h1 := (h.full C28_durations).1 r trivial
    exact empty_miss durationP_ct durationP_rejE rfl hg h.1 (durationP_iff.mpr ⟨_, rfl, h1⟩)

/-- A durative action is read from its symbol, parameters, duration, condition and effect. -/
theorem C76_durative {a : DaDef} {t : List Char} : ReadsAs parseDaDef a t ↔
    DurativeText a.getSymbol a.getParameters a.getDuration a.getCondition a.getEffect t := by
  constructor
  · rintro ⟨ht, h⟩
    refine snd_inv (R := fun a t => DurativeText a.getSymbol a.getParameters a.getDuration a.getCondition a.getEffect t)
      ?_ ht h
    refine .map (Snd.prefixExpr (Snd.pair parseName_snd (Snd.pair (Snd.ms1_sp parseParameters_parts)
      (Snd.pair (Snd.ms1_sp (Snd.preceded_tag duration_parts))
      (Snd.pair (Snd.ms1_sp (Snd.preceded_tag (emptyOr_snd parseDaGd_parts)))
        (Snd.ms1_sp (Snd.preceded_tag (emptyOr_snd parseDaEffect_parts))).anyF)))) fun _ => id) ?_
    rintro ⟨n, vs, d, c, e⟩ t ⟨g1, u, g7, rfl, h1, ⟨tn, g2, _, rfl, hn, hg2, _, g4, _, rfl,
      ⟨g3, tv, rfl, hg3, hv⟩, hg4, _, g5, _, rfl, ⟨_, ud, rfl, rfl, hd⟩, hg5, _, g6, _, rfl,
      ⟨_, uc, rfl, rfl, hc⟩, hg6, _, ue, rfl, rfl, he⟩, h7⟩
    exact ⟨g1, tn, g2, g3, tv, g4, ud, g5, uc, g6, ue, g7, by simp, h1, hn, hg2, hg3, hv, hg4, hd, hg5,
      hc, hg6, he, h7⟩
  · obtain ⟨n, vs, d, c, e⟩ := a
    rintro ⟨g1, tn, g2, g3, tv, g4, ud, g5, uc, g6, ue, g7, rfl, hg1, hn, hg2, hg3, hv, hg4, hd, hg5,
      hc, hg6, he, hg7⟩
    refine .of (solid_paren _) ?_
    suffices h : ∀ r, parseDaDef (_ ++ r) = .ok _ r from h []
    intro r
    simp only [paren_append, List.append_assoc]
    refine map_run (a := (n, vs, d, c, e)) (prefixExpr_run (y := g7 ++ ')' :: r) ?_
      (hg7.skip_solid (solid_close r)))
    rw [hg1.skip_solid (hn.solid.append _)]
    exact pair_run (hn.acc _ (.sp hg2 _)) (pair_run (params_run hg2 hg3 hv)
      (pair_run (sec_kw hg4 solidK (duration_parts_run hd _))
        (pair_run (sec_kw hg5 solidK
            (emptyOr_run parseDaGd_ct parseDaGd_rejE (ReadsAs.full C28_da_conditions) hc _))
          (sec_kw hg6 solidK
            (emptyOr_run parseDaEffect_ct parseDaEffect_rejE (ReadsAs.full C28_da_effects) he _)))))

/-! ## Structures -/

/-- A structure is read as a derived predicate exactly if the text is read as that predicate. -/
theorem C76_structure_derived {d : DerivedPredicate} {t : List Char} :
    ReadsAs parseStructureDef (.newDerived d) t ↔ ReadsAs parseDerivedPredicate d t := by
  constructor
  · rintro ⟨ht, h⟩
    rcases alt_inv h with h | ⟨_, h⟩
    · obtain ⟨x, h1, e⟩ := map_ok h
      cases e
      exact ⟨ht, h1⟩
    · other h
      other h
      cases h
  · rintro ⟨ht, h⟩
    exact ⟨ht, alt_hit (map_run h)⟩

/-- A form has only one keyword. -/
theorem ReadsAs.prefix_head {kw t : List Char} {p : P α} {v : α} (h : ReadsAs (prefixExpr kw p) v t) :
    ∃ x, t = '(' :: (kw ++ x) := by
  obtain ⟨g, x, y, e, hg, h1, h2⟩ := prefixExpr_inv h.2
  have := h.1
  rw [e] at this
  obtain rfl := hg.nil_of_solid this
  exact ⟨x, by rw [e]; rfl⟩

theorem ReadsAs.map_head {kw t : List Char} {p : P α} {f : α → β} {v : β}
    (h : ReadsAs (map f (prefixExpr kw p)) v t) : ∃ x, t = '(' :: (kw ++ x) := by
  obtain ⟨a, h1, rfl⟩ := map_ok h.2
  exact ReadsAs.prefix_head ⟨h.1, h1⟩

/-- A structure is read as an action exactly if the text is read as that action. -/
theorem C76_structure_action {a : ActionDef} {t : List Char} :
    ReadsAs parseStructureDef (.newAction a) t ↔ ReadsAs parseActionDef a t := by
  constructor
  · rintro ⟨ht, h⟩
    other h
    rcases alt_inv h with h | ⟨_, h⟩
    · obtain ⟨x, h1, e⟩ := map_ok h
      cases e
      exact ⟨ht, h1⟩
    · other h
      cases h
  · intro h
    obtain ⟨x, e⟩ := h.map_head
    refine ⟨h.1, ?_⟩
    have h1 : parseDerivedPredicate t = .err := by
      rw [e]; exact map_err (prefixExpr_kw rfl)
    rw [parseStructureDef, alt_miss (map_err h1)]
    exact alt_hit (map_run h.2)

/-- A structure is read as a durative action exactly if the text is read as that action. -/
theorem C76_structure_durative {a : DaDef} {t : List Char} :
    ReadsAs parseStructureDef (.newDurativeAction a) t ↔ ReadsAs parseDaDef a t := by
  constructor
  · rintro ⟨ht, h⟩
    other h
    other h
    rcases alt_inv h with h | ⟨_, h⟩
    · obtain ⟨x, h1, e⟩ := map_ok h
      cases e
      exact ⟨ht, h1⟩
    · cases h
  · intro h
    obtain ⟨x, e⟩ := h.map_head
    refine ⟨h.1, ?_⟩
    have h1 : parseDerivedPredicate t = .err := by
      rw [e]; exact map_err (prefixExpr_kw rfl)
    have h2 : parseActionDef t = .err := by
      rw [e]; exact map_err (prefixExpr_kw rfl)
    rw [parseStructureDef, alt_miss (map_err h1), alt_miss (map_err h2)]
    exact alt_hit (map_run h.2)

theorem ReadsAs.structure_head {a : StructureDef} {t : List Char} (h : ReadsAs parseStructureDef a t) :
    ∃ kw ∈ [c!":derived", c!":action", c!":durative-action"], ∃ x, t = '(' :: (kw ++ x) := by
  cases a with
  | derived => exact ⟨_, by simp, (C76_structure_derived.mp h).map_head⟩
  | action => exact ⟨_, by simp, (C76_structure_action.mp h).map_head⟩
  | durative => exact ⟨_, by simp, (C76_structure_durative.mp h).map_head⟩

/-! ## Sections -/

theorem wrapW_wrapped {kw : List Char} {R : α → List Char → Prop} {v : α} {t : List Char} :
    WrapW kw Gap R v t ↔ Wrapped kw R v t := by
  constructor
  · rintro ⟨h1, h2, h3⟩
    exact ⟨_, _, _, rfl, h1, h2, h3⟩
  · rintro ⟨_, _, _, rfl, h1, h2, h3⟩
    exact .mk h1 h2 h3

/-- The elements of a list are read where no layout is in front. -/
theorem sepLoop_ws (p : P α) : ∀ n s, sepLoop multispace1 (preceded ignoreEolComment p) n s =
    sepLoop multispace1 (preceded ignoreEolComment (ws p)) n s := by
  intro n
  induction n with
  | zero => intro s; rfl
  | succ n ih =>
    intro s
    simp only [sepLoop]
    cases h : multispace1 s with
    | ok v r =>
      have hr : preceded ignoreEolComment (ws p) r = preceded ignoreEolComment p r := by
        rw [eolp_eq, eolp_eq, ws_eq, skip_skipC]
        have : r = s.dropWhile isSpace := by
          unfold multispace1 takeWhile1 at h
          split at h
          · cases h
          · exact (Res.ok.inj h).2.symm
        rw [skip, this, dropWhile_idem]
      simp only [hr, ih]
    | _ => rfl

theorem list0_ws (p : P α) : spaceSeparatedList0 p = spaceSeparatedList0 (ws p) := by
  funext s
  unfold spaceSeparatedList0
  rw [ws_eq, ws_eq]
  have hr : preceded ignoreEolComment (ws p) (skip s) = preceded ignoreEolComment p (skip s) := by
    rw [eolp_eq, eolp_eq, ws_eq, skip_skipC, skip_skip, skipC_skip]
  unfold sepList0
  rw [hr]
  cases preceded ignoreEolComment p (skip s) with
  | ok a r => dsimp only; rw [sepLoop_ws]
  | _ => rfl

theorem list1_ws (p : P α) : spaceSeparatedList1 p = spaceSeparatedList1 (ws p) := by
  funext s
  unfold spaceSeparatedList1
  rw [ws_eq, ws_eq]
  have hr : preceded ignoreEolComment (ws p) (skip s) = preceded ignoreEolComment p (skip s) := by
    rw [eolp_eq, eolp_eq, ws_eq, skip_skipC, skip_skip, skipC_skip]
  unfold sepList1
  rw [hr]
  cases preceded ignoreEolComment p (skip s) with
  | ok a r => simp only [Res.bind]; rw [sepLoop_ws]
  | _ => rfl

theorem ws_parts {p : P α} (h1 : OneFormOnly p) (h2 : TailBlind p) : Snd Any Gap (ws p) (ReadsAs p) :=
  fun s v r hs _ => by
  rw [ws_eq] at hs
  obtain ⟨t, ht, hv⟩ := stable_inv h1 h2 (skip_skip _) hs
  obtain ⟨g, hg1, hg2⟩ := skip_gap (s := s) (by rw [ht]; exact (hv.1.append r).ne)
  exact ⟨g, t, by rw [← ht]; exact hg1, hg2, hv⟩

/-- The initial state is read element by element; it may be empty. -/
theorem C76_init {es : List InitElement} {t : List Char} : ReadsAs parseProblemInitDef es t ↔
    Listed c!":init" (ReadsAs parseInitEl) es t := by
  constructor
  · rintro ⟨ht, h⟩
    rw [parseProblemInitDef, list0_ws] at h
    exact listed_inv (ws_parts C27_init_elements C28_init_elements) readsAs_nonE ht h
  · rintro h
    refine .of h.solid ?_
    obtain ⟨u, rfl, h⟩ := h
    exact prefix_list0 (h.mono fun _ h _ => h.mono fun a t h _ => h.elem C28_init_elements)
      (fun _ h => h) parseInitEl_close [] trivial

/-- The goal section is read by reading the goal. -/
theorem C76_goal_section {v : List PreGD} {t : List Char} : ReadsAs parseProblemGoalDef v t ↔
    Wrapped c!":goal" (ReadsAs parsePreGd) v t :=
  ⟨fun h => wrapped_inv parsePreGd_parts h.1 h.2, fun h => .of h.solid (h.run (ReadsAs.elem C28_preconditions))⟩

/-- The constraints of a domain are read by reading the constraint. -/
theorem C76_domain_constraints {v : ConGD} {t : List Char} : ReadsAs parseDomainConstraintsDef v t ↔
    Wrapped c!":constraints" (ReadsAs parseConGd) v t :=
  ⟨fun h => wrapped_inv parseConGd_parts h.1 h.2, fun h => .of h.solid (h.run (ReadsAs.elem C28_constraints))⟩

/-- The constraints of a problem are read by reading them. -/
theorem C76_problem_constraints {v : List PrefConGD} {t : List Char} :
    ReadsAs parseProblemConstraintsDef v t ↔ Wrapped c!":constraints" (ReadsAs parsePrefConGd) v t :=
  ⟨fun h => wrapped_inv parsePrefConGd_parts h.1 h.2,
    fun h => .of h.solid (h.run (ReadsAs.elem C28_pref_constraints))⟩

theorem nonEmpty_iff {kw : List Char} {p : P α} {R : α → List Char → Prop} {vs : List α} {t : List Char}
    (h : Snd Any Gap (ws p) R) (hne : NonE R) (hR : ∀ x t, R x t → Elem p x t)
    (hp : ∀ x, p (')' :: x) = .err) :
    ReadsAs (prefixExpr kw (spaceSeparatedList1 p)) vs t ↔ Listed kw R vs t ∧ vs ≠ [] := by
  constructor
  · rintro ⟨ht, h1⟩
    rw [list1_ws] at h1
    cases snd_inv (nonEmpty_snd h hne) ht h1 with
    | mk h3 h4 h5 => exact ⟨⟨_, rfl, .cons h3 h4 h5⟩, by cases h4 <;> simp⟩
  · rintro ⟨⟨u, rfl, h1⟩, h2⟩
    cases h1 with
    | nil => exact absurd rfl h2
    | cons h1 h2 h3 =>
      have := (NonEmptyW.mk (kw := kw) (lead := Gap) h1 h2 h3).full (fun _ => id) hR hp
      exact .of this.2 (this.1 [] trivial)

/-- The predicates are read one by one; there is at least one. -/
theorem C76_predicates {ps : List Skeleton} {t : List Char} : ReadsAs parsePredicatesDef ps t ↔
    Listed c!":predicates" (ReadsAs parseAtomicFormulaSkeleton) ps t ∧ ps ≠ [] :=
  nonEmpty_iff (ws_parts C27_skeletons C28_skeletons) readsAs_nonE (ReadsAs.elem C28_skeletons)
    fun s => parseSkeleton_err s (by decide) (by decide)

/-- The timeless literals are read one by one; there is at least one. -/
theorem C76_timeless {ps : List (Literal Name)} {t : List Char} : ReadsAs parseTimelessDef ps t ↔
    Listed c!":timeless" (ReadsAs (literal parseName)) ps t ∧ ps ≠ [] :=
  nonEmpty_iff (ws_parts C27_literals C28_literals) readsAs_nonE (ReadsAs.elem C28_literals) literal_close

/-- The requirements are read one by one; there is at least one. -/
theorem C76_requirements {ks : List Requirement} {t : List Char} : ReadsAs parseRequireDef ks t ↔
    Listed c!":requirements" KeyW ks t ∧ ks ≠ [] :=
  nonEmpty_iff (Snd.ws parseRequireKey_snd.gap (fun _ => id) keyW_nonE) keyW_nonE (fun _ _ h => h.elem)
    parseRequireKey_close

/-- The names of `:extends` are read one by one; there is at least one. -/
theorem C76_extends {ns : List Name} {t : List Char} :
    ReadsAs (prefixExpr c!":extends" (spaceSeparatedList1 parseName)) ns t ↔
    Listed c!":extends" NameW ns t ∧ ns ≠ [] :=
  nonEmpty_iff (Snd.ws parseName_snd (fun _ => id) nameW_nonE) nameW_nonE (fun _ _ h => h.elem)
    parseName_close

/-- The length is read from the two bounds, each of which may be missing, in this order. -/
theorem C76_length {l : LengthSpec} {t : List Char} : ReadsAs parseProblemLengthSpec l t ↔
    ∃ u1 u2 g, t = paren (c!":length" ++ (u1 ++ (u2 ++ g))) ∧
      OptW Gap (Wrapped c!":serial" U64W) l.getSerial u1 ∧
      OptW Gap (Wrapped c!":parallel" U64W) l.getParallel u2 ∧ Gap g := by
  have conv : ∀ {kw : List Char} {o : Option Nat} {u : List Char}, OptW Gap (WrapW kw Gap U64W) o u ↔
      OptW Gap (Wrapped kw U64W) o u := by
    intro kw o u
    constructor <;> intro h <;> cases h with
    | absent => exact .absent
    | present hg h => exact .present hg (by first | exact wrapW_wrapped.mp h | exact wrapW_wrapped.mpr h)
  constructor
  · intro h
    cases snd_inv parseProblemLengthSpec_snd h.1 h.2 with
    | mk h1 h2 h3 => exact ⟨_, _, _, rfl, conv.mp h1, conv.mp h2, h3⟩
  · rintro ⟨u1, u2, g, rfl, h1, h2, h3⟩
    have := (LengthW.mk (m := .loose) (conv.mpr h1) (conv.mpr h2) h3).full
    exact .of this.2 (this.1 [] trivial)

/-- Only `:serial` is given: the value is the one `new_serial` builds. -/
theorem C76_length_serial {n : Nat} {g1 g2 g3 g4 x : List Char} (h1 : Gap g1) (h2 : Gap g2) (hx : U64W n x)
    (h3 : Gap g3) (h4 : Gap g4) : ReadsAs parseProblemLengthSpec (.newSerial n)
      (paren (c!":length" ++ (g1 ++ (paren (c!":serial" ++ (g2 ++ (x ++ g3))) ++ g4)))) :=
  C76_length.mpr ⟨_, [], g4, by simp, .present h1 ⟨_, _, _, rfl, h2, hx, h3⟩, .absent, h4⟩

/-- Only `:parallel` is given: the value is the one `new_parallel` builds. -/
theorem C76_length_parallel {n : Nat} {g1 g2 g3 g4 x : List Char} (h1 : Gap g1) (h2 : Gap g2) (hx : U64W n x)
    (h3 : Gap g3) (h4 : Gap g4) : ReadsAs parseProblemLengthSpec (.newParallel n)
      (paren (c!":length" ++ (g1 ++ (paren (c!":parallel" ++ (g2 ++ (x ++ g3))) ++ g4)))) :=
  C76_length.mpr ⟨[], _, g4, by simp, .absent, .present h1 ⟨_, _, _, rfl, h2, hx, h3⟩, h4⟩

/-! ## Files -/

/-- The text of a domain with these sections. A section that is missing is `none`. -/
def DomainText (name : Name) (ext : Option (List Name)) (req : Option (List Requirement))
    (ty con : Option (TypedList Name)) (pre : Option (List Skeleton)) (fn : Option (TypedList Skeleton))
    (cstr : Option ConGD) (st : Option (List StructureDef)) (t : List Char) : Prop :=
  ∃ g1 tn u1 u2 u3 u4 u5 u6 u7 u8 g2,
    t = paren (c!"define" ++ (g1 ++ (tn ++ (u1 ++ (u2 ++ (u3 ++ (u4 ++ (u5 ++ (u6 ++ (u7 ++
          (u8 ++ g2))))))))))) ∧
    Gap g1 ∧ Wrapped c!"domain" NameW name tn ∧
    OptW Sep (ReadsAs (prefixExpr c!":extends" (spaceSeparatedList1 parseName))) ext u1 ∧
    OptW Sep (ReadsAs parseRequireDef) req u2 ∧
    OptW Sep (ReadsAs parseTypesDef) ty u3 ∧
    OptW Sep (ReadsAs parseConstantsDef) con u4 ∧
    OptW Sep (ReadsAs parsePredicatesDef) pre u5 ∧
    OptW Sep (ReadsAs parseFunctionsDef) fn u6 ∧
    OptW Sep (ReadsAs parseDomainConstraintsDef) cstr u7 ∧
    OptW Sep (Items (ReadsAs parseStructureDef)) st u8 ∧ Gap g2

/-- The text of a problem with these sections. -/
def ProblemText (name domain : Name) (req : Option (List Requirement)) (obj : Option (TypedList Name))
    (init : List InitElement) (goal : List PreGD) (cstr : Option (List PrefConGD))
    (met : Option MetricSpec) (len : Option LengthSpec) (t : List Char) : Prop :=
  ∃ g1 tn g2 td u1 u2 g3 ti g4 tg u3 u4 u5 g5,
    t = paren (c!"define" ++ (g1 ++ (tn ++ (g2 ++ (td ++ (u1 ++ (u2 ++ (g3 ++ (ti ++ (g4 ++ (tg ++
          (u3 ++ (u4 ++ (u5 ++ g5)))))))))))))) ∧
    Gap g1 ∧ Wrapped c!"problem" NameW name tn ∧ Sep g2 ∧ Wrapped c!":domain" NameW domain td ∧
    OptW Sep (ReadsAs parseRequireDef) req u1 ∧
    OptW Sep (ReadsAs parseProblemObjectsDeclaration) obj u2 ∧
    Sep g3 ∧ ReadsAs parseProblemInitDef init ti ∧
    Sep g4 ∧ ReadsAs parseProblemGoalDef goal tg ∧
    OptW Sep (ReadsAs parseProblemConstraintsDef) cstr u3 ∧
    OptW Sep (ReadsAs parseProblemMetricSpec) met u4 ∧
    OptW Sep (ReadsAs parseProblemLengthSpec) len u5 ∧ Gap g5

theorem prefix_parts {kw : List Char} {p : P α} (h1 : OneFormOnly (prefixExpr kw p))
    (h2 : TailBlind (prefixExpr kw p)) : Snd Any Gap (prefixExpr kw p) (ReadsAs (prefixExpr kw p)) :=
  (LeadBlind.prefixExpr (kw := kw) (p := p)).shed.snd h1 h2

theorem extends_one : OneFormOnly (prefixExpr c!":extends" (spaceSeparatedList1 parseName)) :=
  (nonEmpty_snd parseName_snd nameW_nonE).oneForm fun _ _ h => extends_form h

theorem extends_tail : TailBlind (prefixExpr c!":extends" (spaceSeparatedList1 parseName)) :=
  (nonEmpty_snd parseName_snd nameW_nonE).tail (fun _ _ h => extends_form h) (by loc)

theorem opt_structure_parts {o : Option (List StructureDef)} {u g r : List Char}
    (h : OptW Sep (Items (ReadsAs parseStructureDef)) o u) (hg : Gap g) :
    opt (preceded multispace1 (spaceSeparatedList1 parseStructureDef)) (u ++ (g ++ ')' :: r)) =
      .ok o (g ++ ')' :: r) := by
  have hk := hg.skip_solid (solid_close r)
  cases h with
  | absent =>
    rw [List.nil_append]
    refine opt_err (ms1_gap_err hg (solid_close r) (list1_skip _) (list1_nil ?_))
    rw [(solid_close r).skip, parseStructureDef_close]
  | present hs h =>
    have h' : Items (Elem parseStructureDef) _ _ := h.mono fun _ _ h _ => h.elem C28_structures
    rw [List.append_assoc]
    refine opt_run ?_
    rw [pms1_sep Ct.spaceSeparatedList1 hs (h'.solid.append _)]
    have := list1_items h' (g := []) .nil (.gap hg (.close r))
      (by rw [hk, parseStructureDef_close])
    simpa using this

theorem lead_structure_parts {o : Option (List StructureDef)} {u g r : List Char}
    (h : OptW Sep (Items (ReadsAs parseStructureDef)) o u) (hg : Gap g) :
    Lead [c!":derived", c!":action", c!":durative-action"] (u ++ (g ++ ')' :: r)) := by
  cases h with
  | absent => exact .close hg
  | present hs h =>
    cases h with
    | one h =>
      obtain ⟨kw, hm, x, rfl⟩ := h.structure_head
      simp only [List.append_assoc, List.cons_append]
      exact .sec hs hm
    | cons h _ _ =>
      obtain ⟨kw, hm, x, rfl⟩ := h.structure_head
      simp only [List.append_assoc, List.cons_append]
      exact .sec hs hm

/-- A text is read as a domain if and only if it consists of sections, in this order, each read as what
the accessor returns; the accessors return empty values for missing sections. -/
theorem C76_domain {d : Domain} {s : List Char} : parseDomain s = .ok d [] ↔
    ∃ g t g' ext req ty con pre fn cstr st, s = g ++ (t ++ g') ∧ Gap g ∧ GapEnd g' ∧
      DomainText (d.view .name) ext req ty con pre fn cstr st t ∧
      d.view .extends_ = ext.getD [] ∧ d.view .requirements = req.getD [] ∧
      d.view .types = ty.getD [] ∧ d.view .constants = con.getD [] ∧
      d.view .predicates = pre.getD [] ∧ d.view .functions = fn.getD [] ∧
      d.view .constraints = cstr.getD (.and []) ∧ d.view .structure_ = st.getD [] ∧
      d.timeless = [] := by
  constructor
  · intro h
    have hs {α} {p : P α} {R : α → List Char → Prop} (h : Snd Any Gap p R) :
        Snd Any Nil (opt (preceded multispace1 p)) (OptW Sep R) := Snd.opt (Snd.ms1 h fun _ => id)
    obtain ⟨g, t, g', rfl, hg, ⟨ext, req, ty, con, pre, fn, cstr, st, h⟩, hg', _⟩ :=
      ws2_define (R := fun d t => ∃ ext req ty con pre fn cstr st,
      DomainText (d.view .name) ext req ty con pre fn cstr st t ∧
      d.view .extends_ = ext.getD [] ∧ d.view .requirements = req.getD [] ∧
      d.view .types = ty.getD [] ∧ d.view .constants = con.getD [] ∧
      d.view .predicates = pre.getD [] ∧ d.view .functions = fn.getD [] ∧
      d.view .constraints = cstr.getD (.and []) ∧ d.view .structure_ = st.getD [] ∧
      d.timeless = []) (f := domainOf) (p := domainParts) (by
        refine (Snd.pair (wrap_snd parseName_snd) (Snd.pair (hs (prefix_parts extends_one extends_tail))
          (Snd.pair (hs (prefix_parts C27_requirements C28_requirements))
          (Snd.pair (hs (prefix_parts C27_types_section C28_types_section))
          (Snd.pair (hs (prefix_parts C27_constants_section C28_constants_section))
          (Snd.pair (hs (prefix_parts C27_predicates_section C28_predicates_section))
          (Snd.pair (hs (prefix_parts C27_functions_section C28_functions_section))
          (Snd.pair (hs (prefix_parts C27_constraints_section C28_constraints_section))
            (hs (Snd.list1 parseStructureDef_parts readsAs_nonE)).anyF)))))))).mono
            (fun _ => id) (fun _ => id) ?_
        rintro ⟨name, ext, req, ty, con, pre, fn, cstr, st⟩ t ⟨tn, _, _, rfl, h1, rfl,
          u1, _, _, rfl, h2, rfl, u2, _, _, rfl, h3, rfl, u3, _, _, rfl, h4, rfl, u4, _, _, rfl, h5, rfl,
          u5, _, _, rfl, h6, rfl, u6, _, _, rfl, h7, rfl, u7, _, u8, rfl, h8, rfl, h9⟩ g1 g2 hg1 hg2
        exact ⟨ext, req, ty, con, pre, fn, cstr, st, ⟨g1, tn, u1, u2, u3, u4, u5, u6, u7, u8, g2, by simp,
          hg1, wrapW_wrapped.mp h1, h2, h3, h4, h5, h6, h7, h8, h9, hg2⟩, rfl, rfl, rfl, rfl, rfl, rfl, rfl,
          rfl, rfl⟩) h
    exact ⟨g, t, g', ext, req, ty, con, pre, fn, cstr, st, by simp, hg, hg', h⟩
  · obtain ⟨name, ext', req', ty', con', pre', fn', cstr', tl', st'⟩ := d
    rintro ⟨g, t, g', ext, req, ty, con, pre, fn, cstr, st, rfl, hg, hg', h, h1, h2, h3, h4, h5, h6, h7,
      h8, h9⟩
    simp only [Domain.view] at h h1 h2 h3 h4 h5 h6 h7 h8 h9
    subst h1 h2 h3 h4 h5 h6 h7 h8 h9
    obtain ⟨g1, tn, u1, u2, u3, u4, u5, u6, u7, u8, g2, rfl, hg1, hn, h1, h2, h3, h4, h5, h6, h7, h8,
      hg2⟩ := h
    suffices h : ∀ r, parseDomain (g ++ (_ ++ r)) = .ok _ (skip r) by
      have := h g'
      rwa [skip_gapEnd hg'] at this
    intro r
    have hn := (wrapW_wrapped.mpr hn).full (p := parseName) (fun _ h => h) fun _ _ h => h.elem
    have l8 := lead_structure_parts (r := r) h8 hg2
    have l7 := Lead.opt h7 (fun _ _ h => h.prefix_head) l8
    have l6 := Lead.opt h6 (fun _ _ h => h.prefix_head) l7
    have l5 := Lead.opt h5 (fun _ _ h => h.prefix_head) l6
    have l4 := Lead.opt h4 (fun _ _ h => h.prefix_head) l5
    have l3 := Lead.opt h3 (fun _ _ h => h.prefix_head) l4
    have l2 := Lead.opt h2 (fun _ _ h => h.prefix_head) l3
    have hrun : domainParts (tn ++ (u1 ++ (u2 ++ (u3 ++ (u4 ++ (u5 ++ (u6 ++ (u7 ++ (u8 ++
        (g2 ++ ')' :: r)))))))))) =
        .ok (name, ext, req, ty, con, pre, fn, cstr, st) (g2 ++ ')' :: r) :=
      pair_run (hn.1 _ trivial) (pair_run
        (opt_sec h1 (ReadsAs.full extends_tail) l2 (by decide)) (pair_run
        (opt_sec h2 (ReadsAs.full C28_requirements) l3 (by decide)) (pair_run
        (opt_sec h3 (ReadsAs.full C28_types_section) l4 (by decide)) (pair_run
        (opt_sec h4 (ReadsAs.full C28_constants_section) l5 (by decide)) (pair_run
        (opt_sec h5 (ReadsAs.full C28_predicates_section) l6 (by decide)) (pair_run
        (opt_sec h6 (ReadsAs.full C28_functions_section) l7 (by decide)) (pair_run
        (opt_sec h7 (ReadsAs.full C28_constraints_section) l8 (by decide))
        (opt_structure_parts h8 hg2))))))))
    refine map_run (a := (name, ext, req, ty, con, pre, fn, cstr, st)) (ws2_run hg (solid_paren _) ?_)
    simp only [paren_append, List.append_assoc]
    refine prefixExpr_run (y := g2 ++ ')' :: r) ?_ (hg2.skip_solid (solid_close r))
    rw [hg1.skip_solid (hn.2.append _)]
    exact hrun

/-- A text is read as a problem if and only if it consists of sections, in this order, each read as what
the accessor returns; the accessors return empty values for missing sections. -/
theorem C76_problem {d : Problem} {s : List Char} : parseProblem s = .ok d [] ↔
    ∃ g t g' req obj cstr, s = g ++ (t ++ g') ∧ Gap g ∧ GapEnd g' ∧
      ProblemText (d.view .name) (d.view .domain) req obj (d.view .init) (d.view .goals) cstr
        (d.view .metricSpec) (d.view .lengthSpec) t ∧
      d.view .requirements = req.getD [] ∧ d.view .objects = obj.getD [] ∧
      d.view .constraints = cstr.getD [] := by
  constructor
  · intro h
    have hs {α} {p : P α} {R : α → List Char → Prop} (h : Snd Any Gap p R) :
        Snd Any Nil (opt (preceded multispace1 p)) (OptW Sep R) := Snd.opt (Snd.ms1 h fun _ => id)
    obtain ⟨g, t, g', rfl, hg, ⟨req, obj, cstr, h⟩, hg', _⟩ :=
      ws2_define (R := fun d t => ∃ req obj cstr,
      ProblemText (d.view .name) (d.view .domain) req obj (d.view .init) (d.view .goals) cstr
        (d.view .metricSpec) (d.view .lengthSpec) t ∧
      d.view .requirements = req.getD [] ∧ d.view .objects = obj.getD [] ∧
      d.view .constraints = cstr.getD []) (f := problemOf) (p := problemParts) (by
        refine (Snd.pair (wrap_snd parseName_snd) (Snd.pair (Snd.ms1 (wrap_snd parseName_snd) fun _ => id)
          (Snd.pair (hs (prefix_parts C27_requirements C28_requirements))
          (Snd.pair (hs (prefix_parts C27_objects_section C28_objects_section))
          (Snd.pair (Snd.ms1 (prefix_parts C27_init_section C28_init_section) fun _ => id)
          (Snd.pair (Snd.ms1 (prefix_parts C27_goal_section C28_goal_section) fun _ => id)
          (Snd.pair (hs (prefix_parts C27_problem_constraints_section C28_problem_constraints_section))
          (Snd.pair (hs (C29_metric.shed.snd C27_metric_section C28_metric_section))
            (hs (C29_length.shed.snd C27_length_section C28_length_section)).anyF)))))))).mono
            (fun _ => id) (fun _ => id) ?_
        rintro ⟨name, domain, req, obj, init, goal, cstr, met, len⟩ t ⟨tn, g2, _, rfl, h1, hg2,
          td, _, _, rfl, h2, rfl, u1, _, _, rfl, h3, rfl, u2, g3, _, rfl, h4, hg3, ti, g4, _, rfl, h5, hg4,
          tg, _, _, rfl, h6, rfl, u3, _, _, rfl, h7, rfl, u4, _, u5, rfl, h8, rfl, h9⟩ g1 g5 hg1 hg5
        exact ⟨req, obj, cstr, ⟨g1, tn, g2, td, u1, u2, g3, ti, g4, tg, u3, u4, u5, g5, by simp,
          hg1, wrapW_wrapped.mp h1, hg2, wrapW_wrapped.mp h2, h3, h4, hg3, h5, hg4, h6, h7, h8, h9, hg5⟩,
          rfl, rfl, rfl⟩) h
    exact ⟨g, t, g', req, obj, cstr, by simp, hg, hg', h⟩
  · obtain ⟨name, domain, req', obj', init, goal, cstr', met, len⟩ := d
    rintro ⟨g, t, g', req, obj, cstr, rfl, hg, hg', h, e1, e2, e3⟩
    simp only [Problem.view] at h e1 e2 e3
    subst e1 e2 e3
    obtain ⟨g1, tn, g2, td, u1, u2, g3, ti, g4, tg, u3, u4, u5, g5, rfl, hg1, hn, hg2, hd, h1, h2, hg3, hi,
      hg4, hgoal, h3, h4, h5, hg5⟩ := h
    suffices h : ∀ r, parseProblem (g ++ (_ ++ r)) = .ok _ (skip r) by
      have := h g'
      rwa [skip_gapEnd hg'] at this
    intro r
    have hn := (wrapW_wrapped.mpr hn).full (p := parseName) (fun _ h => h) fun _ _ h => h.elem
    have hd := (wrapW_wrapped.mpr hd).full (p := parseName) (fun _ h => h) fun _ _ h => h.elem
    have l6 : Lead [] (g5 ++ ')' :: r) := .close hg5
    have l5 := Lead.opt h5 (fun _ _ h => h.map_head) l6
    have l4 := Lead.opt h4 (fun _ _ h => h.map_head) l5
    have l3 : Lead [c!":init"] (g3 ++ (ti ++ (g4 ++ (tg ++ (u3 ++ (u4 ++ (u5 ++ (g5 ++ ')' :: r)))))))) := by
      obtain ⟨x, rfl⟩ := hi.prefix_head
      simp only [List.cons_append, List.append_assoc]
      exact .sec hg3 (List.mem_singleton.mpr rfl)
    have l2 := Lead.opt h2 (fun _ _ h => h.prefix_head) l3
    have hrun : problemParts (tn ++ (g2 ++ (td ++ (u1 ++ (u2 ++ (g3 ++ (ti ++ (g4 ++ (tg ++ (u3 ++
        (u4 ++ (u5 ++ (g5 ++ ')' :: r))))))))))))) =
        .ok (name, domain, req, obj, init, goal, cstr, met, len) (g5 ++ ')' :: r) :=
      pair_run (hn.1 _ trivial) (pair_run (sec_run hg2 hd) (pair_run
        (opt_sec h1 (ReadsAs.full C28_requirements) l2 (by decide)) (pair_run
        (opt_sec h2 (ReadsAs.full C28_objects_section) l3 (by decide)) (pair_run
        (sec_run hg3 (hi.full C28_init_section)) (pair_run (sec_run hg4 (hgoal.full C28_goal_section)) (pair_run
        (opt_sec h3 (ReadsAs.full C28_problem_constraints_section) l4 (by decide)) (pair_run
        (opt_sec_map h4 (ReadsAs.full C28_metric_section) l5 (by decide))
        (opt_sec_map h5 (ReadsAs.full C28_length_section) l6 (by decide)))))))))
    refine map_run (a := (name, domain, req, obj, init, goal, cstr, met, len))
      (ws2_run hg (solid_paren _) ?_)
    simp only [paren_append, List.append_assoc]
    refine prefixExpr_run (y := g5 ++ ')' :: r) ?_ (hg5.skip_solid (solid_close r))
    rw [hg1.skip_solid (hn.2.append _)]
    exact hrun

/-! ## Examples -/

/-- An action without precondition, with a comment between the sections. -/
example : ReadsAs parseActionDef (.new (.new c!"go") [] [] (some [.effect (.atomic (Ex.atom c!"p" []))]))
    c!"(:action go :parameters ();c\n :effect (p))" := ⟨solid_open _, rfl⟩
example : ReadsAs parseActionDef (.new (.new c!"go") [] [.preference (.goal (.atomic (Ex.atom c!"p" [])))] none)
    c!"(:action go :parameters () :precondition (p) :effect ())" := ⟨solid_open _, rfl⟩
/-- The same, from the parts. -/
example : ReadsAs parseActionDef (.new (.new c!"go") [] [.preference (.goal (.atomic (Ex.atom c!"p" [])))] none)
    c!"(:action go :parameters () :precondition (p) :effect ())" :=
  have hs : Sp c!" " := ⟨by simp, by intro c hc; simp at hc; subst hc; rfl⟩
  C76_action.mpr ⟨some (some _), some none, ⟨c!" ", c!"go", c!" ", c!" ", c!"()", c!" :precondition (p)",
    c!" :effect ()", [], rfl, .space rfl .nil, .of_word ⟨'g', c!"o", rfl, by decide, by decide⟩, hs, .mk rfl .nil,
    ⟨solid_open _, rfl⟩, .present (g := c!" ") (.space rfl .nil)
      (.some (g := c!" ") (t := c!"(p)") (.mk rfl .nil) ⟨solid_open _, rfl⟩),
    .present (g := c!" ") (.space rfl .nil) (.empty (g := c!" ") hs), .nil⟩, rfl, rfl⟩
example : ReadsAs parseDerivedPredicate (.new (.new (.new c!"p") []) (.not (.atomic (Ex.atom c!"q" []))))
    c!"(:derived (p) ;c\n(not (q)))" := ⟨solid_open _, rfl⟩
example : ReadsAs parseDaDef (.new (.new c!"go") [] none (some (.timed (.required (.at .start
      (.atomic (Ex.atom c!"p" [])))))) none)
    c!"(:durative-action go :parameters () :duration () :condition (at start (p)) :effect ())" :=
  ⟨solid_open _, rfl⟩
example : ReadsAs parseStructureDef (.newDerived (.new (.new (.new c!"p") []) (.not (.atomic (Ex.atom c!"q" [])))))
    c!"(:derived (p) (not (q)))" := ⟨solid_open _, rfl⟩
example : ReadsAs parseStructureDef (.newAction (.new (.new c!"go") [] [] none))
    c!"(:action go :parameters ())" := ⟨solid_open _, rfl⟩
example : ReadsAs parseStructureDef (.newDurativeAction (.new (.new c!"go") [] none none none))
    c!"(:durative-action go :parameters () :duration () :condition () :effect ())" := ⟨solid_open _, rfl⟩
example : ReadsAs parseProblemGoalDef [.preference (.goal (.atomic (Ex.atom c!"p" [])))]
    c!"(:goal (and (p)))" := ⟨solid_open _, rfl⟩
example : ReadsAs parseDomainConstraintsDef (.always (.goal (.atomic (Ex.atom c!"p" []))))
    c!"(:constraints (always (p)))" := ⟨solid_open _, rfl⟩
example : ReadsAs parseProblemConstraintsDef [.preference none (.always (.goal (.atomic (Ex.atom c!"p" []))))]
    c!"(:constraints (preference (always (p))))" := ⟨solid_open _, rfl⟩
example : ReadsAs parsePredicatesDef [.new (.new c!"p") [], .new (.new c!"q") []]
    c!"(:predicates (p) (q))" := ⟨solid_open _, rfl⟩
example : ReadsAs parseRequireDef [.strips, .typing] c!"(:requirements :strips :typing)" :=
  ⟨solid_open _, rfl⟩
example : ReadsAs parseProblemInitDef [] c!"(:init )" := ⟨solid_open _, rfl⟩
example : ReadsAs parseTimelessDef [.pos (.predicate (.new c!"p") [])] c!"(:timeless (p))" := ⟨solid_open _, rfl⟩
example : ReadsAs (prefixExpr c!":extends" (spaceSeparatedList1 parseName)) [.new c!"a", .new c!"b"]
    c!"(:extends a b)" := ⟨solid_open _, rfl⟩
example : ReadsAs parseProblemLengthSpec (.newParallel 7) c!"(:length (:parallel 7))" :=
  ⟨solid_open _, rfl⟩
example : ReadsAs parseProblemLengthSpec (.new (some 3) (some 7)) c!"(:length (:serial 3)(:parallel 7))" :=
  ⟨solid_open _, rfl⟩

example : parseDomain c!" (define (domain d)\n (:requirements :strips) (:action a :parameters ())) ; end" = .ok
    { Domain.builder (.new c!"d") [.newAction (.new (.new c!"a") [] [] none)] with requirements := [.strips] }
    [] := rfl
example : parseProblem c!"(define (problem p) (:domain d) (:init) (:goal (and)))" = .ok
    (Problem.builder (.new c!"p") (.new c!"d") [] []) [] := rfl

end Pddl
