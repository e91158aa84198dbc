import Verif.Meta.ImageCons
import Verif.Props.DurativeX

/-!
# Meta-theory: the values that are read, effects and durative parts
-/

namespace Pddl

/-! ## Ends of numeric expressions -/

theorem NumW.last {n : Number} {t : List Char} (h : NumW n t) : LastSolid t := by
  obtain ⟨l, rfl, -⟩ := h
  have hd : ∀ {c : Char}, isDec c = true → isBlank c = false := fun h =>
    isWordChar_blank (by simp [isWordChar, h])
  unfold Literal10.text
  split
  · exact lastSolid_all l.int_ne fun c hc => hd (l.int_digits c hc)
  · exact ((lastSolid_all ‹_› fun c hc => hd (l.frac_digits c hc)).append ['.']).append _

theorem FHeadX.last {h : FHead} {t : List Char} (hx : FHeadX h t) : LastSolid t := by
  cases hx with
  | name h => exact h.1.last
  | paren _ _ => exact lastSolid_paren _
  | terms _ _ _ _ => exact lastSolid_paren _

theorem FExpDaX.last {g t : List Char} {v : FExpDa} (h : FExpDaX g v t) : LastSolid t := by
  cases h with
  | leaf h =>
    cases h with
    | duration => exact ⟨c!"?duratio", 'n', rfl, rfl⟩
    | fExp h =>
      cases h with
      | number h => exact h.last
      | function _ h => exact h.last
  | binary _ _ _ _ _ _ _ _ => exact lastSolid_paren _
  | multi _ _ _ _ _ _ _ _ _ => exact lastSolid_paren _
  | negative _ _ _ _ _ => exact lastSolid_paren _

/-! ## Texts that are no assignment -/

/-- The front and the end of an assignment. -/
theorem assign_parts {α γ : Type} {X : List Char → α → List Char → Prop} {X' : List Char → γ → List Char → Prop}
    {v : AssignOp × α × γ} {t : List Char} (h : OpForm AssignOpW X X' v t) :
    ∃ g w b z, t = paren (g ++ (w ++ (b ++ z))) ∧ Gap g ∧ AssignOpW v.1 w ∧ Sp b := by
  cases h with | mk hg hw hb _ _ _ _ _ => exact ⟨_, _, _, _, rfl, hg, hw, hb⟩

theorem sp_noWord {b z : List Char} (h : Sp b) : NoWord (b ++ z) := by
  obtain ⟨hne, hb⟩ := h
  cases b with
  | nil => exact absurd rfl hne
  | cons c b =>
    intro d r e
    cases e
    cases hw : isWordChar c with
    | false => rfl
    | true => have := hb c (by simp); rw [isWordChar_blank hw] at this; cases this

/-- A word followed by a comment is no operator. -/
theorem word_no_assign {α γ : Type} {X : List Char → α → List Char → Prop} {X' : List Char → γ → List Char → Prop}
    {v : AssignOp × α × γ} {w x : List Char} (hw : IsWord w) :
    ¬ OpForm AssignOpW X X' v (paren (' ' :: (w ++ (';' :: x)))) := by
  intro h
  obtain ⟨g, w', b, z, e, hg, hw', hb⟩ := assign_parts h
  have e := congrArg skip (paren_inj e)
  have hs : ∀ {w : List Char}, IsWord w → ∀ y, Solid (w ++ y) := by
    rintro _ ⟨c, cs, rfl, hc, _⟩ y
    exact ⟨c, _, rfl, (isAlpha_solid hc).1, (isAlpha_solid hc).2⟩
  rw [hg.skip_solid (hs hw'.word _)] at e
  have e2 : skip ([' '] ++ (w ++ (';' :: x))) = w ++ (';' :: x) := gap_space.skip_solid (hs hw _)
  rw [show ' ' :: (w ++ (';' :: x)) = [' '] ++ (w ++ (';' :: x)) from rfl, e2] at e
  obtain ⟨-, e⟩ := word_cut hw (by intro c r h; cases h; rfl) hw'.word (sp_noWord hb) e
  obtain ⟨hne, hb⟩ := hb
  cases b with
  | nil => exact hne rfl
  | cons c b => cases e; exact absurd (hb ';' (by simp)) (by decide)

/-- A form whose first word is no operator. -/
theorem key_no_assign {α γ : Type} {X : List Char → α → List Char → Prop} {X' : List Char → γ → List Char → Prop}
    {v : AssignOp × α × γ} {c d : Char} {x : List Char} (hc : isBlank c = false) (hs : c ≠ ';')
    (h1 : ∀ op w, AssignOpW op w → ∀ z, w ++ z ≠ c :: d :: x) :
    ¬ OpForm AssignOpW X X' v (paren (c :: d :: x)) := by
  intro h
  obtain ⟨g, w, b, z, e, hg, hw, -⟩ := assign_parts h
  have e := congrArg skip (paren_inj e)
  obtain ⟨k, ks, rfl, hk, _⟩ := hw.word
  rw [List.cons_append, hg.skip_solid ⟨k, _, rfl, (isAlpha_solid hk).1, (isAlpha_solid hk).2⟩,
    Solid.skip ⟨c, _, rfl, hc, hs⟩] at e
  exact h1 _ _ hw _ e.symm

/-- A form with a blank before its closing parenthesis. -/
theorem blank_no_assign {a : FAssignDa} {x : List Char} : ¬ AssignDaX a (paren (x ++ [' '])) := by
  intro h
  generalize ht : paren (x ++ [' ']) = t at h
  cases h with
  | mk _ _ _ _ _ _ _ h =>
    refine not_lastSolid_blank x ?_
    rw [paren_inj ht]
    exact ((((((h.last.append _).append _).append _).append _).append _).append _).append _

/-! ## Simple effects -/

theorem gap_comment : Gap [';', 'c', '\n'] := gapC_comment.1

/-- A list with a comment in front. -/
theorem sec_comment {α : Type} {R : α → List Char → Prop} {tr : List Char → Prop} (htr : tr []) {vs : List α}
    (h : ∀ v ∈ vs, ∃ t, R v t) : ∃ x, Sec Gap tr (Items R) vs (';' :: x) := by
  by_cases hv : vs = []
  · subst hv; exact ⟨_, .nil gap_comment⟩
  · obtain ⟨u, hu⟩ := items_of hv h
    exact ⟨_, .cons gap_comment hu htr⟩

/-- How the chosen texts of effects begin. -/
def EffHead (t : List Char) : Prop :=
  ∃ x, t = '(' :: ' ' :: x ∨ t = '(' :: '=' :: x ∨ t = '(' :: 'n' :: x ∨ t = '(' :: 'a' :: 's' :: x

theorem PEffX.made_of {g t : List Char} {v : PEffect} (h : PEffX g v t) : v.made = true := by
  cases h with
  | notAtomic _ h => obtain ⟨_, _, _, _, _, h, _⟩ := h; exact atomX_term_iff.mpr ⟨_, h⟩
  | undefined _ h =>
    obtain ⟨_, _, _, _, _, _, h, _⟩ := h
    rw [PEffect.made, FnTermX.wf_iff.mpr ⟨_, h⟩]; rfl
  | object _ h _ =>
    obtain ⟨_, _, _, _, _, _, _, _, h, _, _, _, h2, _⟩ := h
    rw [PEffect.made, FnTermX.wf_iff.mpr ⟨_, h⟩, wfOpt, Term.wf_iff.mpr ⟨_, h2⟩]; rfl
  | numeric _ h _ _ =>
    cases h with
    | mk _ _ _ _ h1 _ _ h2 => rw [PEffect.made, fHeadX_iff.mpr ⟨_, h1.2⟩, FExp.made_of _ h2]; rfl
  | atomic _ h _ _ _ _ => exact atomX_term_iff.mpr ⟨_, h⟩

def PEffect.numericB : PEffect → Bool
  | .assignNumeric _ _ _ => true
  | _ => false

theorem PEffect.text_of (v : PEffect) (h : v.made = true) :
    ∃ t, PEffX [] v t ∧ EffHead t ∧ (v.numericB = false → ∀ a, ¬ AssignDaX a t) := by
  match v, h with
  | .notAtomic a, h =>
    obtain ⟨x, hx⟩ := atomX_term_iff.mp h
    refine ⟨_, .notAtomic .nil ⟨[' '], x, [' '], rfl, gap_space, hx, gap_space⟩, ⟨_, .inr (.inr (.inl rfl))⟩, fun _ a => ?_⟩
    exact blank_no_assign (x := c!"not" ++ ([' '] ++ x)) (a := a) ∘ (by simp)
  | .assignObject f none, h =>
    rw [PEffect.made, Bool.and_eq_true] at h
    obtain ⟨x, hx⟩ := FnTermX.wf_iff.mp h.1
    refine ⟨_, .undefined .nil ⟨[' '], x, [' '], [' '], rfl, gap_space, hx, sp_space, gap_space⟩,
      ⟨_, .inr (.inr (.inr rfl))⟩, fun _ a => ?_⟩
    exact blank_no_assign (x := c!"assign" ++ ([' '] ++ (x ++ ([' '] ++ c!"undefined")))) (a := a) ∘ (by simp)
  | .assignObject f (some o), h =>
    rw [PEffect.made, Bool.and_eq_true] at h
    obtain ⟨x, hx⟩ := FnTermX.wf_iff.mp h.1
    obtain ⟨y, hy⟩ := Term.wf_iff.mp h.2
    obtain ⟨g, hg, hl, c, z, hc, hb, hu⟩ : ∃ g, GapC g ∧ TermLead o g ∧
        ∃ c z, g ++ (y ++ [' ']) = c :: z ∧ isBlank c = false ∧ c ≠ 'u' := by
      cases o with
      | name n => exact ⟨_, gapC_comment, gap_comment, _, _, rfl, rfl, by decide⟩
      | var v => cases hy with | var _ _ => exact ⟨[], gapC_nil, rfl, _, _, rfl, rfl, by decide⟩
      | fn f ts => cases hy with | fn _ _ _ _ => exact ⟨[], gapC_nil, rfl, _, _, rfl, rfl, by decide⟩
    refine ⟨_, .object .nil ⟨[' '], x, [' '], g, y, [' '], rfl, gap_space, hx, sp_space, hg, hl, hy, gap_space⟩ ?_,
      ⟨_, .inr (.inr (.inr rfl))⟩, fun _ a => ?_⟩
    · rintro f' ⟨g1, x', b, g2, e, hg1, hx', hsp, -⟩
      have e := List.append_cancel_left (paren_inj e)
      obtain ⟨-, -, e⟩ := form_split gap_space (fnTermX_form hx) hg1 (fnTermX_form hx') e
      rw [hc] at e
      obtain ⟨hne, hsp⟩ := hsp
      cases b with
      | nil => exact hne rfl
      | cons b0 b =>
        have e := (List.cons.inj e).2
        cases b with
        | nil => cases e; exact hu rfl
        | cons b1 b => cases e; have := hsp c (by simp); rw [hb] at this; cases this
    · exact blank_no_assign (x := c!"assign" ++ ([' '] ++ (x ++ ([' '] ++ (g ++ y))))) (a := a) ∘ (by simp)
  | .assignNumeric op hd e, h =>
    rw [PEffect.made, Bool.and_eq_true] at h
    obtain ⟨t, ht, x, rfl⟩ := opForm_of
      (X := fun g h t => HeadLead t g ∧ FHeadX h t) (AssignOpW.ex op) (fHeadL_iff.mp h.1) (FExp.made_iff.mp h.2)
    exact ⟨_, .numeric gapC_nil ht (by rintro f ⟨_, _, _, _, e, _⟩; cases e)
      (by rintro f o ⟨_, _, _, _, _, _, e, _⟩; cases e), ⟨_, .inl rfl⟩, nofun⟩
  | .atomic (.equality a b), h =>
    obtain ⟨t, ht⟩ := atomX_term_iff.mp (show (AtomicFormula.equality a b).wf Term.wf = true from h)
    cases ht with
    | @equality g1 _ t1 g2 _ t2 g3 k1 k2 k3 k4 k5 k6 =>
      have hno : ∀ {α γ : Type} {X : List Char → α → List Char → Prop} {X' : List Char → γ → List Char → Prop}
          {v : AssignOp × α × γ}, ¬ OpForm AssignOpW X X' v (paren (c!"=" ++ (g1 ++ (t1 ++ (g2 ++ (t2 ++ g3)))))) := by
        intro α γ X X' v h
        obtain ⟨g, w, b, z, e, hg, hw, -⟩ := assign_parts h
        have e := congrArg skip (paren_inj e)
        obtain ⟨k, ks, rfl, hk, _⟩ := hw.word
        rw [hg.skip_solid (s := k :: ks ++ (b ++ z)) ⟨k, _, rfl, (isAlpha_solid hk).1, (isAlpha_solid hk).2⟩,
          Solid.skip (s := ['='] ++ (g1 ++ (t1 ++ (g2 ++ (t2 ++ g3))))) ⟨'=', _, rfl, rfl, by decide⟩] at e
        rw [← (List.cons.inj e).1] at hk
        cases hk
      exact ⟨_, .atomic (AtomLead.nil _) (.equality k1 k2 k3 k4 k5 k6) (by rintro a ⟨_, _, _, e, _⟩; cases e)
        (by rintro f ⟨_, _, _, _, e, _⟩; cases e) (by rintro f o ⟨_, _, _, _, _, _, e, _⟩; cases e)
        (fun _ _ _ => hno), ⟨_, .inr (.inl rfl)⟩, fun _ _ => hno⟩
  | .atomic (.predicate p vs), h =>
    rw [PEffect.made, AtomicFormula.wf, Bool.and_eq_true, List.all_eq_true] at h
    obtain ⟨t, ht⟩ := nameW_iff.mp h.1
    obtain ⟨x, hx⟩ := sec_comment (R := TermX) (tr := (· = [])) rfl fun v hv => v.text_of (h.2 v hv)
    exact ⟨_, .atomic (AtomLead.nil _) (.predicate gap_space ht hx (by intro c r h; cases h; rfl))
      (by rintro a ⟨_, _, _, e, _⟩; cases e) (by rintro f ⟨_, _, _, _, e, _⟩; cases e)
      (by rintro f o ⟨_, _, _, _, _, _, e, _⟩; cases e) (fun _ _ _ => word_no_assign ht.1),
      ⟨_, .inl rfl⟩, fun _ _ => word_no_assign ht.1⟩

theorem pEffX_iff {v : PEffect} : v.made = true ↔ ∃ t, PEffX [] v t :=
  ⟨fun h => let ⟨t, h, _⟩ := v.text_of h; ⟨t, h⟩, fun ⟨_, h⟩ => h.made_of⟩

/-! ## Effects -/

theorem EffHead.not_and {α : Type} {R : α → List Char → Prop} {vs : List α} {t : List Char} (h : EffHead t) :
    ¬ Listed c!"and" R vs t := by
  rintro ⟨u, rfl, _⟩
  obtain ⟨x, h | h | h | h⟩ := h <;> cases h

theorem EffHead.not_when {α β : Type} {R : α → List Char → Prop} {S : β → List Char → Prop} {a : α} {b : β}
    {t : List Char} (h : EffHead t) : ¬ Paired c!"when" R S a b t := by
  rintro ⟨_, _, _, _, _, rfl, _⟩
  obtain ⟨x, h | h | h | h⟩ := h <;> cases h

theorem CondX.made_of {g t : List Char} {v : CondEffect} (h : CondX g v t) : v.made = true := by
  cases h with
  | all _ h =>
    obtain ⟨u, rfl, h⟩ := h
    exact (all_iff_mem fun _ => pEffX_iff).mpr (sec_mem h)
  | single h _ => exact h.made_of

theorem CondEffect.text_of (v : CondEffect) (h : v.made = true) :
    ∃ t, CondX [] v t ∧ (v.numericB = false → ∀ a, ¬ AssignDaX a t) := by
  cases v with
  | single p =>
    obtain ⟨t, ht, he, hn⟩ := p.text_of h
    exact ⟨t, .single ht fun _ => he.not_and, fun hp => hn (by cases p <;> first | rfl | cases hp)⟩
  | all ps =>
    obtain ⟨u, hu, _⟩ := sec_of (tr := Gap) .nil ((all_iff_mem fun _ => pEffX_iff).mp h)
    exact ⟨_, .all .nil ⟨u, rfl, hu⟩, fun _ _ => key_no_assign (c := 'a') (d := 'n') rfl (by decide) (by
      intro op w hw z e; cases hw <;> cases e)⟩

theorem condX_iff {v : CondEffect} : v.made = true ↔ ∃ t, CondX [] v t :=
  ⟨fun h => let ⟨t, h, _⟩ := v.text_of h; ⟨t, h⟩, fun ⟨_, h⟩ => h.made_of⟩

theorem effX_mem {g t : List Char} {es : List CEffect} (h : EffX g es t) : ∀ e ∈ es, ∃ t, CEffX [] e t := by
  cases h with
  | and _ h => exact sec_mem h
  | single h _ =>
    intro e he
    obtain rfl := List.mem_singleton.mp he
    exact ⟨_, cEffect_texts.base h⟩

mutual
theorem CEffect.made_of : ∀ (v : CEffect) {g t : List Char}, CEffX g v t → v.made = true
  | .effect p, _, _, h => by cases h with | effect h _ => exact h.made_of
  | .forall_ vs es, _, _, h => by
    cases h with
    | forall_ _ _ hv _ h _ => rw [CEffect.made, vars_iff.mpr ⟨_, hv⟩, CEffect.mades_of es (effX_mem h)]; rfl
  | .when c e, _, _, h => by
    cases h with
    | when _ h =>
      obtain ⟨_, _, _, _, _, _, _, h1, _, h2, _⟩ := h
      rw [CEffect.made, GD.made_of _ h1, h2.made_of]; rfl
theorem CEffect.mades_of : ∀ es : List CEffect, (∀ e ∈ es, ∃ t, CEffX [] e t) → CEffect.mades es = true
  | [], _ => rfl
  | v :: vs, h => by
    obtain ⟨t, ht⟩ := h v (by simp)
    rw [CEffect.mades, v.made_of ht, CEffect.mades_of vs fun x hx => h x (List.mem_cons_of_mem _ hx)]; rfl
end

theorem effX_all {es : List CEffect} (h : ∀ e ∈ es, ∃ t, CEffX [] e t) : ∃ t, EffX [] es t :=
  let ⟨_, hu, _⟩ := sec_of (tr := Gap) .nil h
  ⟨_, .and .nil hu⟩

mutual
theorem CEffect.text_of : ∀ v : CEffect, v.made = true → ∃ t, CEffX [] v t
  | .effect p, h =>
    let ⟨t, ht, he, _⟩ := p.text_of h
    ⟨t, .effect ht fun _ _ => he.not_when⟩
  | .forall_ vs es, h => by
    rw [CEffect.made, Bool.and_eq_true] at h
    obtain ⟨_, h1⟩ := vars_iff.mp h.1
    obtain ⟨_, h2⟩ := effX_all (CEffect.texts_of es h.2)
    exact ⟨_, .forall_ .nil gap_space h1 sep_space h2 .nil⟩
  | .when c e, h => by
    rw [CEffect.made, Bool.and_eq_true] at h
    obtain ⟨_, h1⟩ := GD.made_iff.mp h.1
    obtain ⟨_, h2⟩ := condX_iff.mp h.2
    exact let ⟨t, h⟩ := paired_of c!"when" h1 h2; ⟨t, .when .nil h⟩
theorem CEffect.texts_of : ∀ es : List CEffect, CEffect.mades es = true → ∀ e ∈ es, ∃ t, CEffX [] e t
  | [], _ => nofun
  | v :: vs, h => by
    rw [CEffect.mades, Bool.and_eq_true] at h
    exact List.forall_mem_cons.mpr ⟨v.text_of h.1, CEffect.texts_of vs h.2⟩
end

theorem cEffX_iff {v : CEffect} : v.made = true ↔ ∃ t, CEffX [] v t := ⟨v.text_of, fun ⟨_, h⟩ => v.made_of h⟩
theorem effX_iff {vs : List CEffect} : CEffect.mades vs = true ↔ ∃ t, EffX [] vs t :=
  ⟨fun h => effX_all (CEffect.texts_of vs h), fun ⟨_, h⟩ => CEffect.mades_of vs (effX_mem h)⟩

/-! ## Durative conditions -/

theorem timedGDX_iff {v : TimedGD} : v.made = true ↔ ∃ t, TimedGDX v t := by
  cases v with
  | «at» ts g =>
    exact GD.made_iff.trans ⟨fun ⟨_, h⟩ => let ⟨t, h⟩ := paired_of c!"at" (R := fun o x => x = TimeSpecifier.spell o) rfl h
      ⟨t, .at h⟩, fun ⟨_, h⟩ => by cases h with | «at» h => obtain ⟨_, _, _, _, _, _, _, _, _, h, _⟩ := h; exact ⟨_, h⟩⟩
  | over i g =>
    exact GD.made_iff.trans ⟨fun ⟨_, h⟩ => let ⟨t, h⟩ := paired_of c!"over" (R := fun o x => x = Interval.spell o) rfl h
      ⟨t, .over h⟩, fun ⟨_, h⟩ => by cases h with | over h => obtain ⟨_, _, _, _, _, _, _, _, _, h, _⟩ := h; exact ⟨_, h⟩⟩

theorem prefTimedX_iff {v : PrefTimedGD} : v.made = true ↔ ∃ t, PrefTimedX v t := by
  match v with
  | .required g =>
    exact timedGDX_iff.trans ⟨fun ⟨_, h⟩ => ⟨_, .required h⟩, fun ⟨_, h⟩ => by
      cases h with | required h => exact ⟨_, h⟩⟩
  | .preference none g =>
    exact (show _ ↔ g.made = true from Iff.rfl).trans (timedGDX_iff.trans
      ⟨fun ⟨_, h⟩ => let ⟨t, h⟩ := wrapped_of c!"preference" h; ⟨t, .anonymous h⟩, fun ⟨_, h⟩ => by
        cases h with | anonymous h => obtain ⟨_, _, _, _, _, h, _⟩ := h; exact ⟨_, h⟩⟩)
  | .preference (some n) g =>
    rw [PrefTimedGD.made, Bool.and_eq_true, wfOptName, nameW_iff, timedGDX_iff]
    constructor
    · rintro ⟨⟨_, h1⟩, _, h2⟩
      exact let ⟨t, h⟩ := paired_of c!"preference" h1 h2; ⟨t, .named h⟩
    · rintro ⟨_, h⟩
      cases h with | named h => obtain ⟨_, _, _, _, _, _, _, h1, _, h2, _⟩ := h; exact ⟨⟨_, h1⟩, _, h2⟩

mutual
theorem DaGD.made_of : ∀ (v : DaGD) {t : List Char}, DaGDX v t → v.made = true
  | .timed g, _, h => by cases h with | timed h => exact prefTimedX_iff.mpr ⟨_, h⟩
  | .and gs, _, h => by cases h with | and h => exact DaGD.mades_of gs (sec_mem h)
  | .forall_ vs g, _, h => by
    cases h with | forall_ _ hv _ h _ => rw [DaGD.made, vars_iff.mpr ⟨_, hv⟩, g.made_of h]; rfl
theorem DaGD.mades_of : ∀ vs : List DaGD, (∀ v ∈ vs, ∃ t, DaGDX v t) → DaGD.mades vs = true
  | [], _ => rfl
  | v :: vs, h => by
    obtain ⟨t, ht⟩ := h v (by simp)
    rw [DaGD.mades, v.made_of ht, DaGD.mades_of vs fun x hx => h x (List.mem_cons_of_mem _ hx)]; rfl
end

mutual
theorem DaGD.text_of : ∀ v : DaGD, v.made = true → ∃ t, DaGDX v t
  | .timed g, h => let ⟨t, h⟩ := prefTimedX_iff.mp h; ⟨t, .timed h⟩
  | .and gs, h =>
    let ⟨_, hu, _⟩ := sec_of (tr := Gap) .nil (DaGD.texts_of gs h)
    ⟨_, .and hu⟩
  | .forall_ vs g, h => by
    rw [DaGD.made, Bool.and_eq_true] at h
    obtain ⟨_, h1⟩ := vars_iff.mp h.1
    obtain ⟨_, h2⟩ := g.text_of h.2
    exact ⟨_, .forall_ gap_space h1 sep_space h2 .nil⟩
theorem DaGD.texts_of : ∀ vs : List DaGD, DaGD.mades vs = true → ∀ v ∈ vs, ∃ t, DaGDX v t
  | [], _ => nofun
  | v :: vs, h => by
    rw [DaGD.mades, Bool.and_eq_true] at h
    exact List.forall_mem_cons.mpr ⟨v.text_of h.1, DaGD.texts_of vs h.2⟩
end

theorem daGDX_iff {v : DaGD} : v.made = true ↔ ∃ t, DaGDX v t := ⟨v.text_of, fun ⟨_, h⟩ => v.made_of h⟩

/-! ## Durative effects -/

theorem TimedEffX.made_of {g t : List Char} {v : TimedEffect} (h : TimedEffX g v t) : v.made = true := by
  cases h with
  | assign _ h =>
    obtain ⟨_, _, _, _, _, _, _, _, _, h, _⟩ := h
    exact fAssignDa_iff.mpr ⟨_, h⟩
  | @conditional ts e _ _ h hn =>
    obtain ⟨g1, x, g2, y, g3, rfl, h1, h2, h3, h4, h5⟩ := h
    rw [TimedEffect.made, h4.made_of]
    cases hq : e.numericB with
    | false => rfl
    | true =>
      exfalso
      match e, hq with
      | .single (.assignNumeric op hd ex), _ =>
        cases h4 with
        | single h4 _ =>
          cases h4 with
          | numeric _ h4 _ _ =>
            obtain ⟨e', h4⟩ := h4.toDa
            exact hn ts _ ⟨g1, x, g2, y, g3, rfl, h1, h2, h3, h4, h5⟩
  | continuous _ h =>
    cases h with
    | mk _ _ _ _ h1 _ _ h2 => rw [TimedEffect.made, fHeadX_iff.mpr ⟨_, h1.2⟩, h2.made_of]; rfl

theorem TimeSpecifier.isWord (ts : TimeSpecifier) : IsWord ts.spell := by cases ts <;> exact isWordB_iff rfl

theorem sep_noWord {g x : List Char} (h : Sep g) : NoWord (g ++ x) := by
  cases h with
  | mk hb _ =>
    intro c r e
    have e := (List.cons.inj e).1
    rw [e] at hb
    cases hw : isWordChar c with
    | false => rfl
    | true => rw [isWordChar_blank hw] at hb; cases hb

theorem timedEffX_iff {v : TimedEffect} : v.made = true ↔ ∃ t, TimedEffX [] v t := by
  refine ⟨fun h => ?_, fun ⟨_, h⟩ => h.made_of⟩
  cases v with
  | numericFluent ts a =>
    obtain ⟨t, ht⟩ := fAssignDa_iff.mp (show a.made = true from h)
    exact let ⟨t, h⟩ := paired_of c!"at" (R := fun o x => x = TimeSpecifier.spell o) (S := AssignDaX) rfl ht
      ⟨t, .assign .nil h⟩
  | continuous op hd e =>
    rw [TimedEffect.made, Bool.and_eq_true] at h
    obtain ⟨t, ht, _⟩ := opForm_of (W := fun o t => t = AssignOpT.spell o) (o := op)
      (X := fun g h t => HeadLead t g ∧ FHeadX h t) ⟨_, rfl⟩ (fHeadL_iff.mp h.1) (fExpTX_iff.mp h.2)
    exact ⟨t, .continuous gapC_nil ht⟩
  | conditional ts e =>
    rw [TimedEffect.made, Bool.and_eq_true, Bool.not_eq_true'] at h
    obtain ⟨t, ht, hn⟩ := e.text_of h.1
    refine ⟨_, .conditional .nil ⟨[' '], ts.spell, [' '], t, [], rfl, gap_space, rfl, sep_space, ht, .nil⟩ ?_⟩
    rintro ts' a ⟨g1, _, g2, y, g3, e, hg1, rfl, hs2, hy, -⟩
    have e := congrArg skip (List.append_cancel_left (paren_inj e))
    have hs : ∀ (ts : TimeSpecifier) (y : List Char), Solid (ts.spell ++ y) := by
      intro ts y; cases ts <;> exact ⟨_, _, rfl, rfl, by decide⟩
    rw [gap_space.skip_solid (hs _ _), hg1.skip_solid (hs _ _)] at e
    obtain ⟨-, e⟩ := word_cut ts.isWord (sep_noWord sep_space) ts'.isWord (sep_noWord hs2) e
    obtain ⟨-, rfl, -⟩ := form_split gap_space (condEffect_texts.form ht) hs2.gap
      (assignDa_texts.form (g := []) ⟨gapC_nil, hy⟩) e
    exact hn h.2 a hy

mutual
theorem DaEffect.made_of : ∀ (v : DaEffect) {g t : List Char}, DaEffX g v t → v.made = true
  | .timed e, _, _, h => by cases h with | timed h => exact h.made_of
  | .all es, _, _, h => by cases h with | all _ h => exact DaEffect.mades_of es (sec_mem h)
  | .forall_ vs e, _, _, h => by
    cases h with | forall_ _ _ hv _ h _ => rw [DaEffect.made, vars_iff.mpr ⟨_, hv⟩, e.made_of h]; rfl
  | .when g e, _, _, h => by
    cases h with
    | when _ h =>
      obtain ⟨_, _, _, _, _, _, _, h1, _, h2, _⟩ := h
      rw [DaEffect.made, DaGD.made_of _ h1, h2.made_of]; rfl
theorem DaEffect.mades_of : ∀ vs : List DaEffect, (∀ v ∈ vs, ∃ t, DaEffX [] v t) → DaEffect.mades vs = true
  | [], _ => rfl
  | v :: vs, h => by
    obtain ⟨t, ht⟩ := h v (by simp)
    rw [DaEffect.mades, v.made_of ht, DaEffect.mades_of vs fun x hx => h x (List.mem_cons_of_mem _ hx)]; rfl
end

mutual
theorem DaEffect.text_of : ∀ v : DaEffect, v.made = true → ∃ t, DaEffX [] v t
  | .timed e, h => let ⟨t, h⟩ := timedEffX_iff.mp h; ⟨t, .timed h⟩
  | .all es, h =>
    let ⟨_, hu, _⟩ := sec_of (tr := Gap) .nil (DaEffect.texts_of es h)
    ⟨_, .all .nil hu⟩
  | .forall_ vs e, h => by
    rw [DaEffect.made, Bool.and_eq_true] at h
    obtain ⟨_, h1⟩ := vars_iff.mp h.1
    obtain ⟨_, h2⟩ := e.text_of h.2
    exact ⟨_, .forall_ .nil gap_space h1 sep_space h2 .nil⟩
  | .when g e, h => by
    rw [DaEffect.made, Bool.and_eq_true] at h
    obtain ⟨_, h1⟩ := daGDX_iff.mp h.1
    obtain ⟨_, h2⟩ := timedEffX_iff.mp h.2
    exact let ⟨t, h⟩ := paired_of c!"when" h1 h2; ⟨t, .when .nil h⟩
theorem DaEffect.texts_of : ∀ vs : List DaEffect, DaEffect.mades vs = true → ∀ v ∈ vs, ∃ t, DaEffX [] v t
  | [], _ => nofun
  | v :: vs, h => by
    rw [DaEffect.mades, Bool.and_eq_true] at h
    exact List.forall_mem_cons.mpr ⟨v.text_of h.1, DaEffect.texts_of vs h.2⟩
end

theorem daEffX_iff {v : DaEffect} : v.made = true ↔ ∃ t, DaEffX [] v t := ⟨v.text_of, fun ⟨_, h⟩ => v.made_of h⟩

end Pddl
