import Verif.Meta.Image
import Verif.Props.ConditionsX

/-!
# Meta-theory: the values that are read, forms with numbers, goals, preconditions
-/

namespace Pddl

/-! ## Forms with numbers -/

theorem opForm_of {α β γ : Type} {W : β → List Char → Prop} {X : List Char → α → List Char → Prop}
    {X' : List Char → γ → List Char → Prop} {o : β} {a : α} {b : γ} (ho : ∃ w, W o w) (ha : ∃ t, X [] a t)
    (hb : ∃ t, X' [] b t) : ∃ t, OpForm W X X' (o, a, b) t ∧ ∃ x, t = paren (' ' :: x) :=
  let ⟨_, ho⟩ := ho
  let ⟨_, ha⟩ := ha
  let ⟨_, hb⟩ := hb
  ⟨_, .mk gap_space ho sp_space gapC_nil ha sp_space gapC_nil hb, _, rfl⟩

theorem opForm_made {α β γ : Type} {W : β → List Char → Prop} {X : List Char → α → List Char → Prop}
    {X' : List Char → γ → List Char → Prop} {o : β} {a : α} {b : γ} {m : α → Bool} {m' : γ → Bool}
    (ho : ∃ w, W o w) (ha : m a = true ↔ ∃ t, X [] a t) (hb : m' b = true ↔ ∃ t, X' [] b t)
    (hX : ∀ {g t}, X g a t → X [] a t) (hX' : ∀ {g t}, X' g b t → m' b = true) :
    (m a && m' b) = true ↔ ∃ t, OpForm W X X' (o, a, b) t := by
  rw [Bool.and_eq_true]
  constructor
  · rintro ⟨h1, h2⟩
    obtain ⟨t, h, _⟩ := opForm_of ho (ha.mp h1) (hb.mp h2)
    exact ⟨t, h⟩
  · rintro ⟨t, h⟩
    cases h with | mk _ _ _ _ h1 _ _ h2 => exact ⟨ha.mpr ⟨_, hX h1⟩, hX' h2⟩

theorem fHeadL_iff {h : FHead} : h.made = true ↔ ∃ t, HeadLead t [] ∧ FHeadX h t :=
  fHeadX_iff.trans ⟨fun ⟨t, h⟩ => ⟨t, headLead_nil t, h⟩, fun ⟨t, _, h⟩ => ⟨t, h⟩⟩

theorem fComp_iff {c : FComp} : c.made = true ↔
    ∃ t, OpForm (fun o t => t = BinaryComp.spell o) FExpX FExpX (c.comp, c.first, c.second) t := by
  rw [FComp.made, Bool.and_eq_true]
  constructor
  · rintro ⟨h1, h2⟩
    obtain ⟨t, h, _⟩ := opForm_of (W := fun o t => t = BinaryComp.spell o) (o := c.comp) ⟨_, rfl⟩
      (FExp.made_iff.mp h1) (FExp.made_iff.mp h2)
    exact ⟨t, h⟩
  · rintro ⟨t, h⟩
    cases h with | mk _ _ _ _ h1 _ _ h2 => exact ⟨FExp.made_of _ h1, FExp.made_of _ h2⟩

theorem AssignOpW.ex (op : AssignOp) : ∃ w, AssignOpW op w := by cases op <;> exact ⟨_, by constructor⟩

theorem fAssignDa_iff {a : FAssignDa} : a.made = true ↔
    ∃ t, OpForm AssignOpW (fun g h t => HeadLead t g ∧ FHeadX h t) FExpDaX (a.op, a.head, a.exp) t :=
  opForm_made (m := FHead.made) (m' := FExpDa.made) (AssignOpW.ex _) fHeadL_iff FExpDa.made_iff
    (fun h => ⟨headLead_nil _, h.2⟩) (FExpDa.made_of _)

theorem metricSpecX_iff {m : MetricSpec} : m.made = true ↔ ∃ t, MetricSpecX m t := by
  obtain ⟨o, e⟩ := m
  constructor
  · intro h
    obtain ⟨t, ht⟩ := MetricFExp.made_iff.mp h
    exact ⟨_, .mk gap_space sp_space gapC_nil ht .nil⟩
  · rintro ⟨t, h⟩
    cases h with | mk _ _ _ h _ => exact MetricFExp.made_of _ h

theorem basicX_iff {f : BasicFunctionTerm} : f.wf = true ↔ ∃ t, BasicX f t ∧ ∃ x, t = '(' :: x := by
  obtain ⟨n, ns⟩ := f
  simp only [BasicFunctionTerm.wf, Bool.and_eq_true]
  constructor
  · rintro ⟨h1, h2⟩
    obtain ⟨t, ht⟩ := nameW_iff.mp h1
    obtain ⟨u, hu, hl⟩ := sec_of (tr := (· = [])) rfl (names_all_iff.mp h2)
    exact ⟨_, .terms .nil ht hu hl.noWord, _, rfl⟩
  · rintro ⟨_, h, _⟩
    cases h with
    | name h => exact ⟨h.wf, rfl⟩
    | terms _ h hs _ => exact ⟨h.wf, names_all_iff.mpr (sec_mem hs)⟩

theorem BasicX.wf_of {f : BasicFunctionTerm} {t : List Char} (h : BasicX f t) : f.wf = true := by
  cases h with
  | name h => rw [BasicFunctionTerm.wf, h.wf]; rfl
  | terms _ h hs _ => rw [BasicFunctionTerm.wf, h.wf, names_all_iff.mpr (sec_mem hs)]; rfl

theorem FExpTX.made_of {g t : List Char} {v : FExpT} (h : FExpTX g v t) : v.made = true := by
  cases h with
  | now => rfl
  | scaled _ h =>
    cases h with
    | mk _ h _ =>
      cases h with
      | front _ _ h => exact FExp.made_of _ h
      | back h _ => exact FExp.made_of _ h

theorem fExpTX_iff {v : FExpT} : v.made = true ↔ ∃ t, FExpTX [] v t := by
  refine ⟨fun h => ?_, fun ⟨_, h⟩ => h.made_of⟩
  cases v with
  | now => exact ⟨_, .now⟩
  | scaled e =>
    obtain ⟨t, ht⟩ := FExp.made_iff.mp h
    exact ⟨_, .scaled .nil (.mk gap_space (.front sp_space gapC_nil ht) .nil)⟩

theorem DValueX.made_of {g t : List Char} {v : DurationValue} (h : DValueX g v t) : v.made = true := by
  cases h with
  | number h => exact h.wf
  | fExp h hn =>
    rename_i e
    rw [DurationValue.made, FExp.made_of _ h]
    cases e <;> first | rfl | exact absurd rfl (hn _)

theorem dValueX_iff {v : DurationValue} : v.made = true ↔ ∃ t, DValueX [] v t := by
  refine ⟨fun h => ?_, fun ⟨_, h⟩ => h.made_of⟩
  cases v with
  | number n => obtain ⟨t, ht⟩ := numW_wf_iff.mp h; exact ⟨_, .number ht⟩
  | fExp e =>
    rw [DurationValue.made, Bool.and_eq_true] at h
    obtain ⟨t, ht⟩ := FExp.made_iff.mp h.1
    exact ⟨_, .fExp ht (by rintro n rfl; exact absurd h.2 (by simp [FExp.isNumberB]))⟩

theorem SimpleDurationX.made_of {g t : List Char} {v : SimpleDuration} (h : SimpleDurationX g v t) :
    v.made = true := by
  induction h with
  | op _ _ _ _ _ h => exact h.made_of
  | «at» _ _ _ _ _ _ ih => exact ih

theorem simpleDurationX_iff {v : SimpleDuration} : v.made = true ↔ ∃ t, SimpleDurationX [] v t := by
  refine ⟨fun h => ?_, fun ⟨_, h⟩ => h.made_of⟩
  induction v with
  | op o v =>
    obtain ⟨t, ht⟩ := dValueX_iff.mp h
    exact ⟨_, .op gapC_nil .nil sp_space sp_space gapC_nil ht⟩
  | «at» ts c ih =>
    obtain ⟨t, ht⟩ := ih h
    exact ⟨_, .at .nil gap_space sp_space gapC_nil ht .nil⟩

theorem DurationX.made_of {g t : List Char} {v : Option DurationConstraint} (h : DurationX g v t) :
    wfOpt DurationConstraint.made v = true := by
  cases h with
  | none => rfl
  | single h => exact h.made_of
  | all _ _ h _ =>
    simp only [wfOpt, DurationConstraint.made, Bool.and_eq_true, Bool.not_eq_true', List.isEmpty_eq_false_iff]
    exact ⟨by cases h <;> simp, (all_iff_mem fun _ => simpleDurationX_iff).mpr (items_mem h)⟩

theorem durationX_iff {v : Option DurationConstraint} :
    wfOpt DurationConstraint.made v = true ↔ ∃ t, DurationX [] v t := by
  refine ⟨fun h => ?_, fun ⟨_, h⟩ => h.made_of⟩
  match v with
  | none => exact ⟨_, .none⟩
  | some (.single d) => obtain ⟨t, ht⟩ := simpleDurationX_iff.mp h; exact ⟨_, .single ht⟩
  | some (.all ds) =>
    simp only [wfOpt, DurationConstraint.made, Bool.and_eq_true, Bool.not_eq_true', List.isEmpty_eq_false_iff] at h
    obtain ⟨u, hu⟩ := items_of h.1 ((all_iff_mem fun _ => simpleDurationX_iff).mp h.2)
    exact ⟨_, .all .nil gap_space hu .nil⟩

theorem literalLead_nil (l : Literal Name) : LiteralLead l [] := by
  cases l with
  | neg a => exact Gap.nil
  | pos a => exact AtomLead.nil a

theorem InitX.wf_of {g t : List Char} {v : InitElement} (h : InitX g v t) : v.wf = true := by
  cases h with
  | literal _ h => exact literalX_iff.mpr ⟨_, h⟩
  | «at» _ h =>
    cases h with
    | mk _ h _ =>
      cases h with
      | mk h1 _ _ h2 => rw [InitElement.wf, h1.wf, literalX_iff.mpr ⟨_, h2.2⟩]; rfl
  | isValue _ h =>
    cases h with
    | mk _ h _ => cases h with | mk h1 _ _ h2 => rw [InitElement.wf, h1.wf_of, h2.2.wf]; rfl
  | isObject _ h =>
    cases h with
    | mk _ h _ => cases h with | mk h1 _ _ h2 => rw [InitElement.wf, h1.1.wf_of, h2.2.wf]; rfl

theorem initX_iff {v : InitElement} : v.wf = true ↔ ∃ t, InitX [] v t := by
  refine ⟨fun h => ?_, fun ⟨_, h⟩ => h.wf_of⟩
  cases v with
  | literal l =>
    obtain ⟨t, ht⟩ := literalX_iff.mp h
    exact ⟨_, .literal (literalLead_nil l) ht⟩
  | «at» n l =>
    rw [InitElement.wf, Bool.and_eq_true] at h
    obtain ⟨x, hx⟩ := numW_wf_iff.mp h.1
    obtain ⟨t, ht⟩ := literalX_iff.mp h.2
    exact ⟨_, .at .nil (.mk gap_space (.mk hx sp_space gapC_nil ⟨literalLead_nil l, ht⟩) .nil)⟩
  | isValue f n =>
    rw [InitElement.wf, Bool.and_eq_true] at h
    obtain ⟨x, hx, -⟩ := basicX_iff.mp h.1
    obtain ⟨t, ht⟩ := numW_wf_iff.mp h.2
    exact ⟨_, .isValue .nil (.mk gap_space (.mk hx sp_space gapC_nil ⟨rfl, ht⟩) .nil)⟩
  | isObject f o =>
    rw [InitElement.wf, Bool.and_eq_true] at h
    obtain ⟨x, hx⟩ := basicX_iff.mp h.1
    obtain ⟨t, ht⟩ := nameW_iff.mp h.2
    exact ⟨_, .isObject .nil (.mk gap_space (.mk hx sp_space gapC_nil ⟨.nil, ht⟩) .nil)⟩

theorem initSectionX_iff {vs : List InitElement} : vs.all InitElement.wf = true ↔ ∃ t, InitSectionX vs t := by
  rw [all_iff_mem fun _ => initX_iff]
  constructor
  · intro h
    by_cases hv : vs = []
    · subst hv; exact ⟨_, .nil .nil⟩
    · obtain ⟨u, hu⟩ := items_of hv h
      exact ⟨_, .cons gap_space hu .nil⟩
  · rintro ⟨t, h⟩
    cases h with
    | nil _ => exact nofun
    | cons _ h _ => exact items_mem h

/-! ## Goals -/

theorem GDX.comp_no_atom {o : BinaryComp} {x : List Char} (a : AtomicFormula Term) :
    ¬ AtomX TermX TermEnds a (paren (' ' :: (o.spell ++ x))) := by
  intro h
  generalize ht : paren (' ' :: (o.spell ++ x)) = t at h
  cases h with
  | equality _ _ _ _ _ _ => cases ht
  | predicate hg hn _ _ =>
    have e := congrArg skip (List.append_cancel_right (List.cons.inj ht).2)
    obtain ⟨⟨c, cs, rfl, hc, _⟩, _⟩ := hn
    rw [List.cons_append, hg.skip_solid ⟨c, _, rfl, (isAlpha_solid hc).1, (isAlpha_solid hc).2⟩] at e
    have e := congrArg List.head? e
    cases o <;> (cases Option.some.inj e; cases hc)

/-- The texts are chosen so that they do not begin with `(p`. -/
def NoPref (t : List Char) : Prop := ∃ c x, t = '(' :: c :: x ∧ c ≠ 'p'

mutual
theorem GD.made_of : ∀ (v : GD) {t : List Char}, GDX v t → v.made = true
  | .atomic a, _, h => by cases h with | atomic h _ => exact atomX_term_iff.mpr ⟨_, h⟩
  | .literal _, _, h => nomatch h
  | .and vs, _, h => by cases h with | and h => exact GD.mades_of vs (sec_mem h)
  | .or vs, _, h => by cases h with | or h => exact GD.mades_of vs (sec_mem h)
  | .not v, _, h => by cases h with | not _ h _ => rw [GD.made]; exact v.made_of h
  | .imply a b, _, h => by
    cases h with | imply _ h1 _ h2 _ => rw [GD.made, a.made_of h1, b.made_of h2]; rfl
  | .exist vs v, _, h => by
    cases h with | exist _ hv _ h _ => rw [GD.made, vars_iff.mpr ⟨_, hv⟩, v.made_of h]; rfl
  | .forall_ vs v, _, h => by
    cases h with | forall_ _ hv _ h _ => rw [GD.made, vars_iff.mpr ⟨_, hv⟩, v.made_of h]; rfl
  | .fComp c, _, h => by cases h with | fComp h _ => exact fComp_iff.mpr ⟨_, h⟩
theorem GD.mades_of : ∀ vs : List GD, (∀ v ∈ vs, ∃ t, GDX v t) → GD.mades vs = true
  | [], _ => rfl
  | v :: vs, h => by
    obtain ⟨t, ht⟩ := h v (by simp)
    rw [GD.mades, v.made_of ht, GD.mades_of vs fun x hx => h x (List.mem_cons_of_mem _ hx)]; rfl
end

mutual
theorem GD.text_of : ∀ v : GD, v.made = true → ∃ t, GDX v t ∧ NoPref t
  | .atomic a, h => by
    obtain ⟨t, ht, hs⟩ := atomX_of (fun v h => v.text_of h) termEnds_space h
    rcases hs with ⟨x, y, rfl⟩ | ⟨x, rfl⟩
    · cases ht with
      | equality h1 h2 h3 h4 h5 h6 => exact ⟨_, .atomic (.equality h1 h2 h3 h4 h5 h6) nofun, _, _, rfl, by decide⟩
    · refine ⟨_, .atomic ht ?_, _, _, rfl, by decide⟩
      generalize hu : paren (' ' :: x) = u
      intro h
      cases h <;> cases hu
  | .literal _, h => nomatch h
  | .and vs, h =>
    let ⟨_, hu, _⟩ := sec_of (tr := Gap) .nil (GD.texts_of vs h)
    ⟨_, .and hu, _, _, rfl, by decide⟩
  | .or vs, h =>
    let ⟨_, hu, _⟩ := sec_of (tr := Gap) .nil (GD.texts_of vs h)
    ⟨_, .or hu, _, _, rfl, by decide⟩
  | .not v, h =>
    let ⟨_, ht, _⟩ := v.text_of (by rwa [GD.made] at h)
    ⟨_, .not gap_space ht .nil, _, _, rfl, by decide⟩
  | .imply a b, h => by
    rw [GD.made, Bool.and_eq_true] at h
    obtain ⟨_, h1, _⟩ := a.text_of h.1
    obtain ⟨_, h2, _⟩ := b.text_of h.2
    exact ⟨_, .imply gap_space h1 sep_space h2 .nil, _, _, rfl, by decide⟩
  | .exist vs v, h => by
    rw [GD.made, Bool.and_eq_true] at h
    obtain ⟨_, h1⟩ := vars_iff.mp h.1
    obtain ⟨_, h2, _⟩ := v.text_of h.2
    exact ⟨_, .exist gap_space h1 sep_space h2 .nil, _, _, rfl, by decide⟩
  | .forall_ vs v, h => by
    rw [GD.made, Bool.and_eq_true] at h
    obtain ⟨_, h1⟩ := vars_iff.mp h.1
    obtain ⟨_, h2, _⟩ := v.text_of h.2
    exact ⟨_, .forall_ gap_space h1 sep_space h2 .nil, _, _, rfl, by decide⟩
  | .fComp c, h => by
    obtain ⟨op, a, b⟩ := c
    rw [GD.made, FComp.made, Bool.and_eq_true] at h
    obtain ⟨_, h1⟩ := FExp.made_iff.mp h.1
    obtain ⟨_, h2⟩ := FExp.made_iff.mp h.2
    exact ⟨_, .fComp (.mk gap_space rfl sp_space gapC_nil h1 sp_space gapC_nil h2) GDX.comp_no_atom,
      _, _, rfl, by decide⟩
theorem GD.texts_of : ∀ vs : List GD, GD.mades vs = true → ∀ v ∈ vs, ∃ t, GDX v t
  | [], _ => nofun
  | v :: vs, h => by
    rw [GD.mades, Bool.and_eq_true] at h
    exact List.forall_mem_cons.mpr ⟨let ⟨t, ht, _⟩ := v.text_of h.1; ⟨t, ht⟩, GD.texts_of vs h.2⟩
end

theorem GD.made_iff {v : GD} : v.made = true ↔ ∃ t, GDX v t :=
  ⟨fun h => let ⟨t, ht, _⟩ := v.text_of h; ⟨t, ht⟩, fun ⟨_, h⟩ => v.made_of h⟩

/-! ## Preferences and preconditions -/

theorem PrefGDX.made_of {v : PrefGD} {t : List Char} (h : PrefGDX v t) : v.made = true := by
  cases h with
  | named h =>
    obtain ⟨_, _, _, _, _, _, _, h1, _, h2, _⟩ := h
    rw [PrefGD.made, GD.made_of _ h2, wfOptName, h1.wf]; rfl
  | anonymous h =>
    obtain ⟨_, _, _, _, _, h2, _⟩ := h
    rw [PrefGD.made, GD.made_of _ h2]; rfl
  | goal h _ _ => exact GD.made_of _ h

theorem NoPref.paired {α β : Type} {R : α → List Char → Prop} {S : β → List Char → Prop} {a : α} {b : β} {t : List Char}
    (h : NoPref t) : ¬ Paired c!"preference" R S a b t := by
  rintro ⟨_, _, _, _, _, e, _⟩
  obtain ⟨c, x, rfl, hc⟩ := h
  cases e
  exact hc rfl

theorem NoPref.wrapped {α : Type} {R : α → List Char → Prop} {a : α} {t : List Char}
    (h : NoPref t) : ¬ Wrapped c!"preference" R a t := by
  rintro ⟨_, _, _, e, _⟩
  obtain ⟨c, x, rfl, hc⟩ := h
  cases e
  exact hc rfl

theorem paired_of {α β : Type} {R : α → List Char → Prop} {S : β → List Char → Prop} {a : α} {b : β} {x y : List Char}
    (kw : List Char) (h1 : R a x) (h2 : S b y) : ∃ t, Paired kw R S a b t :=
  ⟨_, _, _, _, _, _, rfl, gap_space, h1, sep_space, h2, .nil⟩

theorem wrapped_of {α : Type} {R : α → List Char → Prop} {a : α} {x : List Char}
    (kw : List Char) (h1 : R a x) : ∃ t, Wrapped kw R a t :=
  ⟨_, _, _, _, rfl, gap_space, h1, .nil⟩

theorem prefGDX_iff {v : PrefGD} : v.made = true ↔ ∃ t, PrefGDX v t := by
  refine ⟨fun h => ?_, fun ⟨_, h⟩ => h.made_of⟩
  match v with
  | .goal v =>
    obtain ⟨t, ht, hp⟩ := v.text_of h
    exact ⟨t, .goal ht (fun _ _ => hp.paired) fun _ => hp.wrapped⟩
  | .preference none v =>
    obtain ⟨t, ht⟩ := GD.made_iff.mp (show v.made = true from h)
    exact let ⟨t, h⟩ := wrapped_of c!"preference" ht; ⟨t, .anonymous h⟩
  | .preference (some n) v =>
    rw [PrefGD.made, Bool.and_eq_true] at h
    obtain ⟨x, hx⟩ := nameW_iff.mp h.1
    obtain ⟨t, ht⟩ := GD.made_iff.mp h.2
    exact let ⟨t, h⟩ := paired_of c!"preference" hx ht; ⟨t, .named h⟩

theorem PreGD.mades_iff {vs : List PreGD} : PreGD.mades vs = true ↔ ∀ v ∈ vs, v.made = true := by
  induction vs with
  | nil => simp [PreGD.mades]
  | cons v vs ih => rw [PreGD.mades, Bool.and_eq_true, ih, List.forall_mem_cons]

theorem items_mem_len {α : Type} {R : α → List Char → Prop} {vs : List α} {u : List Char} (h : Items R vs u) :
    ∀ v ∈ vs, ∃ t, R v t ∧ t.length ≤ u.length := by
  induction h with
  | one h => intro v hv; obtain rfl := List.mem_singleton.mp hv; exact ⟨_, h, Nat.le_refl _⟩
  | cons h _ _ ih =>
    intro v hv
    rcases List.mem_cons.mp hv with rfl | hv
    · exact ⟨_, h, by simp⟩
    · obtain ⟨t, ht, hl⟩ := ih v hv
      exact ⟨t, ht, by simp only [List.length_append]; omega⟩

theorem sec_mem_len {α : Type} {R : α → List Char → Prop} {l tr : List Char → Prop} {vs : List α} {u : List Char}
    (h : Sec l tr (Items R) vs u) : ∀ v ∈ vs, ∃ t, R v t ∧ t.length ≤ u.length := by
  cases h with
  | nil _ => intro v hv; cases hv
  | cons _ h _ =>
    intro v hv
    obtain ⟨t, ht, hl⟩ := items_mem_len h v hv
    exact ⟨t, ht, by simp only [List.length_append]; omega⟩

theorem PreX.made_len : ∀ (n : Nat) {g t : List Char} {vs : List PreGD}, t.length < n → PreX g vs t →
    PreGD.mades vs = true
  | 0, _, _, _, hn, _ => absurd hn (Nat.not_lt_zero _)
  | n + 1, _, _, _, hn, h => by
    cases h with
    | forall_ _ _ hv _ h _ =>
      simp only [paren, List.length_cons, List.length_append] at hn
      rw [PreGD.mades, PreGD.made, vars_iff.mpr ⟨_, hv⟩, PreX.made_len n (by omega) h]; rfl
    | and _ hs =>
      simp only [paren, List.length_cons, List.length_append] at hn
      refine PreGD.mades_iff.mpr fun v hv => ?_
      obtain ⟨ws, hw, hv⟩ := List.mem_flatten.mp hv
      obtain ⟨t, ht, hl⟩ := sec_mem_len hs ws hw
      exact PreGD.mades_iff.mp (PreX.made_len n (by omega) ht) v hv
    | @other _ p _ _ h h1 h2 =>
      rw [PreGD.mades, PreGD.made, h.made_of]
      cases p with
      | preference _ _ => rfl
      | goal v => cases v <;> first | rfl | exact absurd rfl (h1 _) | exact absurd rfl (h2 _ _)

theorem PreX.made_of {g t : List Char} {vs : List PreGD} (h : PreX g vs t) : PreGD.mades vs = true :=
  PreX.made_len _ (Nat.lt_succ_self _) h

theorem flatten_singletons {α : Type} (vs : List α) : (vs.map fun v => [v]).flatten = vs := by
  induction vs with
  | nil => rfl
  | cons v vs ih => rw [List.map_cons, List.flatten_cons, ih]; rfl

/-- A conjunction of the elements of a list. -/
theorem preX_all {vs : List PreGD} (h : ∀ v ∈ vs, ∃ t, PreX [] [v] t) : ∃ t, PreX [] vs t := by
  obtain ⟨u, hu, _⟩ := sec_of (R := PreX []) (tr := Gap) .nil (vs := vs.map fun v => [v]) (by
    intro w hw
    obtain ⟨v, hv, rfl⟩ := List.mem_map.mp hw
    exact h v hv)
  have := PreX.and (g := []) .nil hu
  rw [flatten_singletons] at this
  exact ⟨_, this⟩

theorem prefLead_nil (p : PrefGD) : PrefLead p [] := by
  cases p with
  | preference _ _ => exact Gap.nil
  | goal v => cases v <;> first | exact Gap.nil | exact gapC_nil | exact AtomLead.nil _

mutual
theorem PreGD.text_of : ∀ v : PreGD, v.made = true → ∃ t, PreX [] [v] t
  | .preference p, h => by
    rw [PreGD.made, Bool.and_eq_true] at h
    obtain ⟨t, ht⟩ := prefGDX_iff.mp h.1
    exact ⟨t, .other (prefLead_nil p) ht (by rintro vs rfl; cases h.2) (by rintro vs b rfl; cases h.2)⟩
  | .forall_ vs gs, h => by
    rw [PreGD.made, Bool.and_eq_true] at h
    obtain ⟨_, h1⟩ := vars_iff.mp h.1
    obtain ⟨_, h2⟩ := preX_all (PreGD.texts_of gs h.2)
    exact ⟨_, .forall_ .nil gap_space h1 sep_space h2 .nil⟩
theorem PreGD.texts_of : ∀ vs : List PreGD, PreGD.mades vs = true → ∀ v ∈ vs, ∃ t, PreX [] [v] t
  | [], _ => nofun
  | v :: vs, h => by
    rw [PreGD.mades, Bool.and_eq_true] at h
    exact List.forall_mem_cons.mpr ⟨v.text_of h.1, PreGD.texts_of vs h.2⟩
end

theorem preX_iff {vs : List PreGD} : PreGD.mades vs = true ↔ ∃ t, PreX [] vs t :=
  ⟨fun h => preX_all (PreGD.texts_of vs h), fun ⟨_, h⟩ => h.made_of⟩

end Pddl
