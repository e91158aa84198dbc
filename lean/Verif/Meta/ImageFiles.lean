import Verif.Meta.ImageEffects
import Verif.Meta.ImageCons
import Verif.Props.FilesX

/-!
# Every value that has a text: actions, domains and problems
-/

namespace Pddl

/-- Exactly the values with `w` have a text. -/
abbrev Has {α : Type} (w : α → Bool) (R : α → List Char → Prop) : Prop := ∀ v, w v = true ↔ ∃ t, R v t

theorem name_has : Has Name.wf NameW := fun _ => nameW_iff
theorem names_has : Has (List.all · (Typed.wf Name.wf)) (TypedX NameW Apart objectTy) := fun _ => names_iff
theorem skeleton_has : Has Skeleton.wf SkeletonX := fun _ => skeletonX_iff
theorem functions_has : Has (List.all · (Typed.wf Skeleton.wf)) (TypedX SkeletonX (fun _ => True) numberTy) :=
  fun _ => typedX_iff trivial rfl skeleton_has
theorem eff_has : Has CEffect.mades (EffX []) := fun _ => effX_iff
theorem pre_has : Has PreGD.mades (PreX []) := fun _ => preX_iff
theorem daGD_has : Has DaGD.made DaGDX := fun _ => daGDX_iff
theorem daEff_has : Has DaEffect.made (DaEffX []) := fun _ => daEffX_iff
theorem con_has : Has ConGD.made ConX := fun _ => ConGD.made_iff
theorem prefCon_has : Has PrefConGD.mades PrefConX := fun _ => prefConX_iff
theorem metric_has : Has MetricSpec.made MetricSpecX := fun _ => metricSpecX_iff
theorem key_has : Has (fun _ => true) KeyW := fun _ => ⟨fun _ => ⟨_, rfl⟩, fun _ => rfl⟩
theorem u64_has : Has (fun n => decide (n < 2 ^ 64)) U64W := fun _ =>
  ⟨fun h => ⟨_, numeral_w (of_decide_eq_true h)⟩, fun ⟨_, h⟩ => decide_eq_true h.2.2.2⟩

/-! ## Optional parts -/

theorem emptyOr_iff {α : Type} {R : α → List Char → Prop} {w : α → Bool} (hw : Has w R)
    {o : Option α} : wfOpt w o = true ↔ ∃ t, EmptyOrW R o t := by
  cases o with
  | none => exact ⟨fun _ => ⟨_, .empty sp_space⟩, fun _ => rfl⟩
  | some v =>
    exact (hw v).trans ⟨fun ⟨_, h⟩ => ⟨_, .some sep_space h⟩, fun ⟨_, h⟩ => by cases h with | some _ h => exact ⟨_, h⟩⟩

theorem slot_iff {α : Type} {R : α → List Char → Prop} {w : α → Bool} (hw : Has w R)
    {kw : List Char} {o : Option α} : wfOpt w o = true ↔ ∃ p t, SlotW kw R p t ∧ p.join = o :=
  (emptyOr_iff hw).trans ⟨fun ⟨_, h⟩ => ⟨some o, _, .present .nil h, rfl⟩, fun ⟨p, _, h, e⟩ => by
    cases h with
    | absent => subst e; exact ⟨_, .empty sp_space⟩
    | present _ h => subst e; exact ⟨_, h⟩⟩

/-- A list that is empty if its part is missing. -/
theorem part_iff {α : Type} {R : List α → List Char → Prop} {w : List α → Bool} {lead : List Char → Prop}
    (hl : lead [' ']) (h0 : w [] = true) (hw : ∀ v, v ≠ [] → w v = true → ∃ t, R v t)
    (hv : ∀ v t, R v t → w v = true) {v : List α} :
    w v = true ↔ ∃ o t, OptW lead R o t ∧ o.getD [] = v := by
  constructor
  · intro h
    by_cases hn : v = []
    · exact ⟨none, _, .absent, hn.symm⟩
    · exact let ⟨_, h⟩ := hw v hn h; ⟨some v, _, .present hl h, rfl⟩
  · rintro ⟨o, _, h, rfl⟩
    cases h with
    | absent => exact h0
    | present _ h => exact hv _ _ h

theorem opt_iff {α : Type} {R : α → List Char → Prop} {w : α → Bool} {lead : List Char → Prop}
    (hl : lead [' ']) (hw : Has w R) {v : Option α} :
    wfOpt w v = true ↔ ∃ t, OptW lead R v t := by
  cases v with
  | none => exact ⟨fun _ => ⟨_, .absent⟩, fun _ => rfl⟩
  | some v =>
    exact (hw v).trans ⟨fun ⟨_, h⟩ => ⟨_, .present hl h⟩, fun ⟨_, h⟩ => by cases h with | present _ h => exact ⟨_, h⟩⟩

theorem one_iff {α : Type} {R : α → List Char → Prop} {w : α → Bool} (hw : Has w R)
    {kw : List Char} {v : α} : w v = true ↔ ∃ t, OneX kw R v t :=
  (hw v).trans ⟨fun ⟨_, h⟩ => ⟨_, .mk gap_space h .nil⟩, fun ⟨_, h⟩ => by cases h with | mk _ h _ => exact ⟨_, h⟩⟩

theorem wrapped_iff {α : Type} {R : α → List Char → Prop} {w : α → Bool} (hw : Has w R)
    {kw : List Char} {v : α} : w v = true ↔ ∃ t, Wrapped kw R v t :=
  (hw v).trans ⟨fun ⟨_, h⟩ => wrapped_of kw h, fun ⟨_, _, _, _, _, _, h, _⟩ => ⟨_, h⟩⟩

theorem some_part {α : Type} {R : α → List Char → Prop} {w : α → Bool} (hw : Has w R)
    (kw : List Char) {vs : List α} : vs.all w = true ↔ ∃ o t, OptW Sep (SomeX kw R) o t ∧ o.getD [] = vs :=
  part_iff sep_space rfl
    (fun _ hn h => let ⟨_, h⟩ := items_of hn ((all_iff_mem hw).mp h); ⟨_, .mk gap_space h .nil⟩)
    fun _ _ h => by cases h with | mk _ h _ => exact (all_iff_mem hw).mpr (items_mem h)

theorem names_part (kw : List Char) {vs : TypedList Name} :
    vs.all (Typed.wf Name.wf) = true ↔ ∃ o t, OptW Sep (NamesX kw) o t ∧ o.getD [] = vs :=
  part_iff (w := (List.all · (Typed.wf Name.wf))) sep_space rfl
    (fun _ _ h => let ⟨_, h⟩ := (names_has _).mp h; ⟨_, _, _, rfl, h, .nil⟩)
    fun _ _ ⟨_, _, _, h, _⟩ => (names_has _).mpr ⟨_, h⟩

theorem functions_part {vs : TypedList Skeleton} :
    vs.all (Typed.wf Skeleton.wf) = true ↔ ∃ o t, OptW Sep FunctionsX o t ∧ o.getD [] = vs :=
  part_iff (w := (List.all · (Typed.wf Skeleton.wf))) sep_space rfl
    (fun _ _ h => let ⟨_, h⟩ := (functions_has _).mp h; ⟨_, _, _, rfl, h, .nil⟩)
    fun _ _ ⟨_, _, _, h, _⟩ => (functions_has _).mpr ⟨_, h⟩

/-! ## Actions -/

theorem actionX_iff {a : ActionDef} : a.made = true ↔ ∃ t, ActionX a t := by
  obtain ⟨n, vs, pre, eff⟩ := a
  rw [ActionDef.made, Bool.and_eq_true, Bool.and_eq_true, Bool.and_eq_true]
  constructor
  · rintro ⟨⟨⟨h1, h2⟩, h3⟩, h4⟩
    obtain ⟨_, h1⟩ := nameW_iff.mp h1
    obtain ⟨_, h2⟩ := vars_iff.mp h2
    obtain ⟨_, h3⟩ := preX_iff.mp h3
    obtain ⟨_, _, k4, rfl⟩ := (slot_iff (kw := c!":effect") eff_has).mp h4
    exact ⟨_, .mk gap_space h1 sp_space sep_space h2 (.present (o := some pre) gap_space (.some sep_space h3)) k4 .nil⟩
  · rintro ⟨_, h⟩
    cases h with
    | @mk _ _ _ _ _ _ _ p _ _ _ _ _ h1 _ _ h2 h3 h4 _ =>
      refine ⟨⟨⟨nameW_iff.mpr ⟨_, h1⟩, vars_iff.mpr ⟨_, h2⟩⟩, ?_⟩,
        (slot_iff eff_has).mpr ⟨_, _, h4, rfl⟩⟩
      have := (slot_iff pre_has).mpr ⟨_, _, h3, rfl⟩
      show PreGD.mades (p.join.getD []) = true
      cases h : p.join with
      | none => rfl
      | some v => rw [h] at this; exact this

theorem daDefX_iff {a : DaDef} : a.made = true ↔ ∃ t, DaDefX a t := by
  obtain ⟨n, vs, d, c, e⟩ := a
  rw [DaDef.made, Bool.and_eq_true, Bool.and_eq_true, Bool.and_eq_true, Bool.and_eq_true]
  constructor
  · rintro ⟨⟨⟨⟨h1, h2⟩, h3⟩, h4⟩, h5⟩
    obtain ⟨_, h1⟩ := nameW_iff.mp h1
    obtain ⟨_, h2⟩ := vars_iff.mp h2
    obtain ⟨_, h3⟩ := durationX_iff.mp h3
    obtain ⟨_, h4⟩ := (emptyOr_iff daGD_has).mp h4
    obtain ⟨_, h5⟩ := (emptyOr_iff daEff_has).mp h5
    exact ⟨_, .mk gap_space h1 sp_space sep_space h2 sp_space sp_space gapC_nil h3 sp_space h4 sp_space h5 .nil⟩
  · rintro ⟨_, h⟩
    cases h with
    | mk _ h1 _ _ h2 _ _ _ h3 _ h4 _ h5 _ =>
      exact ⟨⟨⟨⟨nameW_iff.mpr ⟨_, h1⟩, vars_iff.mpr ⟨_, h2⟩⟩, h3.made_of⟩,
        (emptyOr_iff daGD_has).mpr ⟨_, h4⟩⟩, (emptyOr_iff daEff_has).mpr ⟨_, h5⟩⟩

theorem derivedX_iff {d : DerivedPredicate} :
    d.made = true ↔ ∃ t, Paired c!":derived" SkeletonX GDX d.predicate d.goal t := by
  rw [DerivedPredicate.made, Bool.and_eq_true, skeletonX_iff, GD.made_iff]
  exact ⟨fun ⟨⟨_, h1⟩, _, h2⟩ => paired_of c!":derived" h1 h2,
    fun ⟨_, _, _, _, _, _, _, _, h1, _, h2, _⟩ => ⟨⟨_, h1⟩, _, h2⟩⟩

theorem structureX_iff {v : StructureDef} : v.made = true ↔ ∃ t, StructureX v t := by
  cases v with
  | action a => exact actionX_iff.trans ⟨fun ⟨_, h⟩ => ⟨_, .action h⟩, fun ⟨_, h⟩ => by cases h with | action h => exact ⟨_, h⟩⟩
  | durative a =>
    exact daDefX_iff.trans ⟨fun ⟨_, h⟩ => ⟨_, .durative h⟩, fun ⟨_, h⟩ => by cases h with | durative h => exact ⟨_, h⟩⟩
  | derived d =>
    exact derivedX_iff.trans ⟨fun ⟨_, h⟩ => ⟨_, .derived h⟩, fun ⟨_, h⟩ => by cases h with | derived h => exact ⟨_, h⟩⟩

/-! ## Domains and problems -/

theorem domainX_iff {d : Domain} : d.made = true ↔ ∃ t, DomainX d t := by
  obtain ⟨name, ext, req, ty, con, pre, fn, cstr, tl, st⟩ := d
  simp only [Domain.made, Bool.and_eq_true]
  constructor
  · rintro ⟨⟨⟨⟨⟨⟨⟨⟨h1, h2⟩, h3⟩, h4⟩, h5⟩, h6⟩, h7⟩, h8⟩, h9⟩
    obtain ⟨_, h1⟩ := (one_iff name_has (kw := c!"domain")).mp h1
    obtain ⟨_, _, k2, rfl⟩ := (some_part name_has c!":extends").mp h2
    obtain ⟨_, _, k3, rfl⟩ := (names_part c!":types").mp h3
    obtain ⟨_, _, k4, rfl⟩ := (names_part c!":constants").mp h4
    obtain ⟨_, _, k5, rfl⟩ := (some_part skeleton_has c!":predicates").mp h5
    obtain ⟨_, _, k6, rfl⟩ := functions_part.mp h6
    obtain ⟨_, h7⟩ := (wrapped_iff con_has (kw := c!":constraints")).mp h7
    obtain rfl := List.isEmpty_iff.mp h8
    obtain ⟨_, _, k9, rfl⟩ := (part_iff (R := Items StructureX) sep_space rfl
      (fun _ hn h => items_of hn ((all_iff_mem fun _ => structureX_iff).mp h))
      fun _ _ h => (all_iff_mem fun _ => structureX_iff).mpr (items_mem h)).mp h9
    obtain ⟨_, _, hr, rfl⟩ := (some_part key_has
      c!":requirements" (vs := req)).mp (by simp)
    exact ⟨_, .mk gap_space h1 k2 hr k3 k4 k5 k6 (.present (v := cstr) sep_space h7) k9 .nil⟩
  · rintro ⟨_, h⟩
    cases h with
    | @mk _ _ _ _ _ _ _ _ _ _ _ _ _ _ _ c _ _ _ _ _ h1 h2 _ h3 h4 h5 h6 h7 h9 _ =>
      refine ⟨⟨⟨⟨⟨⟨⟨⟨(one_iff name_has).mpr ⟨_, h1⟩, (some_part name_has _).mpr ⟨_, _, h2, rfl⟩⟩,
        (names_part _).mpr ⟨_, _, h3, rfl⟩⟩, (names_part _).mpr ⟨_, _, h4, rfl⟩⟩,
        (some_part skeleton_has _).mpr ⟨_, _, h5, rfl⟩⟩, functions_part.mpr ⟨_, _, h6, rfl⟩⟩, ?_⟩, rfl⟩, ?_⟩
      · cases h7 with
        | absent => rfl
        | present _ h => exact (wrapped_iff con_has).mpr ⟨_, h⟩
      · cases h9 with
        | absent => rfl
        | present _ h => exact (all_iff_mem fun _ => structureX_iff).mpr (items_mem h)

theorem lengthSpecX_iff {l : LengthSpec} : l.wf = true ↔ ∃ t, LengthX l t := by
  obtain ⟨s, p⟩ := l
  have h (kw : List Char) : Has _ (OneX kw U64W) := fun _ => one_iff u64_has
  rw [LengthSpec.wf, Bool.and_eq_true, opt_iff gap_space (h c!":serial"), opt_iff gap_space (h c!":parallel")]
  exact ⟨fun ⟨⟨_, h1⟩, _, h2⟩ => ⟨_, .mk h1 h2 .nil⟩, fun ⟨_, h⟩ => by
    cases h with | mk h1 h2 _ => exact ⟨⟨_, h1⟩, _, h2⟩⟩

theorem length_has : Has LengthSpec.wf LengthX := fun _ => lengthSpecX_iff

theorem problemX_iff {p : Problem} : p.made = true ↔ ∃ t, ProblemX p t := by
  obtain ⟨name, domain, req, obj, init, goal, cstr, met, len⟩ := p
  simp only [Problem.made, Bool.and_eq_true]
  constructor
  · rintro ⟨⟨⟨⟨⟨⟨⟨h1, h2⟩, h3⟩, h4⟩, h5⟩, h6⟩, h7⟩, h8⟩
    obtain ⟨_, h1⟩ := (one_iff name_has (kw := c!"problem")).mp h1
    obtain ⟨_, h2⟩ := (one_iff name_has (kw := c!":domain")).mp h2
    obtain ⟨_, _, k3, rfl⟩ := (names_part c!":objects").mp h3
    obtain ⟨_, h4⟩ := initSectionX_iff.mp h4
    obtain ⟨_, h5⟩ := (wrapped_iff pre_has (kw := c!":goal")).mp h5
    obtain ⟨_, h6⟩ := (wrapped_iff prefCon_has (kw := c!":constraints")).mp h6
    obtain ⟨_, h7⟩ := (opt_iff (lead := Sep) sep_space metric_has).mp h7
    obtain ⟨_, h8⟩ := (opt_iff (lead := Sep) sep_space length_has).mp h8
    obtain ⟨_, _, hr, rfl⟩ := (some_part key_has
      c!":requirements" (vs := req)).mp (by simp)
    exact ⟨_, .mk gap_space h1 sep_space h2 hr k3 sep_space h4 sep_space h5 (.present (v := cstr) sep_space h6) h7 h8 .nil⟩
  · rintro ⟨_, h⟩
    cases h with
    | mk _ h1 _ h2 _ h3 _ h4 _ h5 h6 h7 h8 _ =>
      refine ⟨⟨⟨⟨⟨⟨⟨(one_iff name_has).mpr ⟨_, h1⟩, (one_iff name_has).mpr ⟨_, h2⟩⟩,
        (names_part _).mpr ⟨_, _, h3, rfl⟩⟩, initSectionX_iff.mpr ⟨_, h4⟩⟩,
        (wrapped_iff pre_has).mpr ⟨_, h5⟩⟩, ?_⟩, (opt_iff sep_space metric_has).mpr ⟨_, h7⟩⟩,
        (opt_iff sep_space length_has).mpr ⟨_, h8⟩⟩
      cases h6 with
      | absent => rfl
      | present _ h => exact (wrapped_iff prefCon_has).mpr ⟨_, h⟩

end Pddl
