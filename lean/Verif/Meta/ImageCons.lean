import Verif.Meta.ImageGoals
import Verif.Props.ConstraintsX

/-!
# Meta-theory: the values that are read, trajectory constraints
-/

namespace Pddl

/-! ## The end of a text -/

/-- The last character is no blank. -/
def LastSolid (t : List Char) : Prop := ∃ x c, t = x ++ [c] ∧ isBlank c = false

theorem LastSolid.append {t : List Char} (h : LastSolid t) (x : List Char) : LastSolid (x ++ t) := by
  obtain ⟨y, c, rfl, hc⟩ := h
  exact ⟨x ++ y, c, by simp, hc⟩

theorem lastSolid_paren (x : List Char) : LastSolid (paren x) := ⟨'(' :: x, ')', rfl, rfl⟩

theorem lastSolid_all {t : List Char} (hne : t ≠ []) (h : ∀ c ∈ t, isBlank c = false) : LastSolid t :=
  ⟨t.dropLast, t.getLast hne, (List.dropLast_concat_getLast hne).symm, h _ (List.getLast_mem hne)⟩

theorem isLetter_word {c : Char} (h : isLetter c = true) : isWordChar c = true := by simp [isWordChar, h]

theorem isWordChar_blank {c : Char} (h : isWordChar c = true) : isBlank c = false := by
  cases hb : isBlank c with
  | false => rfl
  | true =>
    simp only [isBlank, Bool.or_eq_true, beq_iff_eq] at hb
    rcases hb with ((rfl | rfl) | rfl) | rfl <;> cases h

theorem IsWord.all {t : List Char} (h : IsWord t) : t ≠ [] ∧ ∀ c ∈ t, isWordChar c = true := by
  obtain ⟨c, cs, rfl, h1, h2⟩ := h
  exact ⟨by simp, List.forall_mem_cons.mpr ⟨isLetter_word h1, h2⟩⟩

theorem IsWord.last {t : List Char} (h : IsWord t) : LastSolid t :=
  lastSolid_all h.all.1 fun c hc => isWordChar_blank (h.all.2 c hc)

theorem TermX.last {v : Term} {t : List Char} (h : TermX v t) : LastSolid t := by
  cases h with
  | name h => exact h.1.last
  | var _ h => exact (h.1.last.append _).append ['?']
  | fn _ _ _ _ => exact lastSolid_paren _

theorem items_last {α : Type} {R : α → List Char → Prop} (hR : ∀ v t, R v t → LastSolid t) {vs : List α}
    {u : List Char} (h : Items R vs u) : LastSolid u := by
  induction h with
  | one h => exact hR _ _ h
  | cons _ _ _ ih => exact (ih.append _).append _

theorem not_lastSolid_blank (x : List Char) : ¬ LastSolid (x ++ [' ']) := by
  rintro ⟨y, c, e, hc⟩
  have := (List.append_inj' e rfl).2
  cases this
  cases hc

/-- A word ends where it ends. -/
theorem word_cut {t r t' r' : List Char} (ht : IsWord t) (hr : NoWord r) (ht' : IsWord t') (hr' : NoWord r')
    (e : t ++ r = t' ++ r') : t = t' ∧ r = r' := by
  have hn : ∀ {r : List Char}, NoWord r → r.takeWhile isWordChar = [] := by
    intro r hr
    cases r with
    | nil => rfl
    | cons c r => rw [List.takeWhile_cons, hr c r rfl]; rfl
  have h := congrArg (List.takeWhile isWordChar) e
  rw [List.takeWhile_append_of_pos ht.all.2, List.takeWhile_append_of_pos ht'.all.2, hn hr, hn hr',
    List.append_nil, List.append_nil] at h
  subst h
  exact ⟨rfl, List.append_cancel_left e⟩

/-- No layout before a letter. -/
theorem gap_letter {g x y : List Char} {c : Char} (hg : Gap g) (hc : isLetter c = true) (e : g ++ x = c :: y) :
    g = [] := by
  cases hg with
  | nil => rfl
  | space hb _ => cases e; rw [isWordChar_blank (isLetter_word hc)] at hb; cases hb
  | comment _ _ _ _ => cases e; cases hc

/-- A word, something else than layout, and a blank before the closing parenthesis: this is no atom. -/
theorem no_atom {kw x w : List Char} {c : Char} (hk : IsWord kw) (hb : isBlank c = false) (hc : c ≠ ';')
    (hw : kw ++ (' ' :: c :: x) = w ++ [' ']) (a : AtomicFormula Term) :
    ¬ AtomX TermX TermEnds a (paren (kw ++ (' ' :: c :: x))) := by
  intro h
  generalize ht : paren (kw ++ (' ' :: c :: x)) = t at h
  cases h with
  | equality _ _ _ _ _ _ =>
    obtain ⟨d, ds, rfl, hd, _⟩ := hk
    have := List.cons.inj (paren_inj ht)
    rw [this.1] at hd
    cases hd
  | @predicate g _ _ _ _ hg hn hs hu =>
    have e := paren_inj ht
    have hg' : g = [] := by
      obtain ⟨d, ds, rfl, hd, _⟩ := hk
      exact gap_letter hg hd e.symm
    subst hg'
    obtain ⟨rfl, e2⟩ := word_cut hk (noWord_space _) hn.1 hu e
    subst e2
    generalize hu' : ' ' :: c :: x = u at hs
    cases hs with
    | nil h =>
      subst hu'
      cases h with
      | space _ h =>
        cases h with
        | space h _ => rw [hb] at h; cases h
        | comment _ _ _ _ => exact hc rfl
    | cons _ h h0 =>
      subst h0
      rw [hu', List.append_nil] at hw
      refine not_lastSolid_blank w ?_
      rw [← hw]
      exact ((items_last (fun _ _ h => h.last) h).append _).append _

/-- A text beginning with a word is no comparison. -/
theorem no_comparison {c : Char} {x : List Char} (hc : isLetter c = true) (op : BinaryComp) (a b : FExp) :
    ¬ OpForm (fun o t => t = BinaryComp.spell o) FExpX FExpX (op, a, b) (paren (c :: x)) := by
  intro h
  generalize ht : paren (c :: x) = t at h
  cases h with
  | mk hg hw _ _ _ _ _ _ =>
    have e := paren_inj ht
    have hg' := gap_letter hg hc e.symm
    subst hg' hw
    have := congrArg List.head? e
    cases op <;> (cases Option.some.inj this; cases hc)

/-! ## Constraints that are goals -/

theorem items_map {α β : Type} {R : α → List Char → Prop} {S : β → List Char → Prop} {vs : List α} {u : List Char}
    (h : Items R vs u) (hf : ∀ v ∈ vs, ∀ t, R v t → ∃ w, S w t) : ∃ ws, Items S ws u := by
  induction h with
  | one h => obtain ⟨w, hw⟩ := hf _ (by simp) _ h; exact ⟨_, .one hw⟩
  | cons h hg _ ih =>
    obtain ⟨w, hw⟩ := hf _ (by simp) _ h
    obtain ⟨ws, hws⟩ := ih fun v hv => hf v (List.mem_cons_of_mem _ hv)
    exact ⟨_, .cons hw hg hws⟩

theorem sec_map {α β : Type} {R : α → List Char → Prop} {S : β → List Char → Prop} {l tr : List Char → Prop}
    {vs : List α} {u : List Char} (h : Sec l tr (Items R) vs u) (hf : ∀ v ∈ vs, ∀ t, R v t → ∃ w, S w t) :
    ∃ ws, Sec l tr (Items S) ws u := by
  cases h with
  | nil h => exact ⟨_, .nil h⟩
  | cons h1 h h2 => obtain ⟨ws, hw⟩ := items_map h hf; exact ⟨ws, .cons h1 hw h2⟩

mutual
theorem ConGD.goal_of : ∀ (c : ConGD) {t : List Char}, c.modal = false → ConX c t → ∃ v, GDX v t
  | .and gs, _, hm, h => by
    cases h with
    | and h => obtain ⟨ws, hw⟩ := sec_map h (ConGD.goals_of gs hm); exact ⟨_, .and hw⟩
  | .forall_ vs g, _, hm, h => by
    cases h with
    | forall_ h1 hv h2 h h3 =>
      obtain ⟨v, hg⟩ := g.goal_of (by rwa [ConGD.modal] at hm) h
      exact ⟨_, .forall_ h1 hv h2 hg h3⟩
  | .atEnd _, _, hm, _ | .always _, _, hm, _ | .sometime _, _, hm, _ | .within _ _, _, hm, _
  | .atMostOnce _, _, hm, _ | .sometimeAfter _ _, _, hm, _ | .sometimeBefore _ _, _, hm, _
  | .alwaysWithin _ _ _, _, hm, _ | .holdDuring _ _ _, _, hm, _ | .holdAfter _ _, _, hm, _ => nomatch hm
theorem ConGD.goals_of : ∀ gs : List ConGD, ConGD.modals gs = false → ∀ v ∈ gs, ∀ t, ConX v t → ∃ w, GDX w t
  | [], _ => nofun
  | g :: gs, h => by
    rw [ConGD.modals, Bool.or_eq_false_iff] at h
    exact List.forall_mem_cons.mpr ⟨fun t ht => g.goal_of h.1 ht, ConGD.goals_of gs h.2⟩
end

mutual
theorem ConGD.made_of : ∀ (c : ConGD) {t : List Char}, ConX c t → c.made = true
  | .and gs, _, h => by cases h with | and h => exact ConGD.mades_of gs (sec_mem h)
  | .forall_ vs g, _, h => by
    cases h with | forall_ _ hv _ h _ => rw [ConGD.made, vars_iff.mpr ⟨_, hv⟩, g.made_of h]; rfl
  | .atEnd g, _, h => by cases h with | atEnd _ h _ => rw [ConGD.made]; exact GD.made_of _ h
  | .always g, _, h => by cases h with | always _ h _ => rw [ConGD.made]; exact g.made_of h
  | .sometime g, _, h => by cases h with | sometime _ h _ => rw [ConGD.made]; exact g.made_of h
  | .within n g, _, h => by cases h with | within _ hn _ h _ => rw [ConGD.made, hn.wf, g.made_of h]; rfl
  | .atMostOnce g, _, h => by cases h with | atMostOnce _ h _ => rw [ConGD.made]; exact g.made_of h
  | .sometimeAfter a b, _, h => by
    cases h with | sometimeAfter _ h _ h' _ => rw [ConGD.made, a.made_of h, b.made_of h']; rfl
  | .sometimeBefore a b, _, h => by
    cases h with | sometimeBefore _ h _ h' _ => rw [ConGD.made, a.made_of h, b.made_of h']; rfl
  | .alwaysWithin n a b, _, h => by
    cases h with
    | alwaysWithin _ hn _ h _ h' _ => rw [ConGD.made, hn.wf, a.made_of h, b.made_of h']; rfl
  | .holdDuring n m g, _, h => by
    cases h with | holdDuring _ hn _ hm _ h _ => rw [ConGD.made, hn.wf, hm.wf, g.made_of h]; rfl
  | .holdAfter n g, _, h => by cases h with | holdAfter _ hn _ h _ => rw [ConGD.made, hn.wf, g.made_of h]; rfl
theorem Con2GD.made_of : ∀ (c : Con2GD) {t : List Char}, Con2X c t → c.made = true
  | .goal g, _, h => by cases h with | goal h => rw [Con2GD.made]; exact GD.made_of _ h
  | .nested c, _, h => by
    cases h with
    | nested h hn =>
      rw [Con2GD.made, c.made_of h, Bool.and_true]
      cases hm : c.modal with
      | true => rfl
      | false => obtain ⟨v, hv⟩ := c.goal_of hm h; exact absurd hv (hn v)
theorem ConGD.mades_of : ∀ gs : List ConGD, (∀ v ∈ gs, ∃ t, ConX v t) → ConGD.mades gs = true
  | [], _ => rfl
  | v :: vs, h => by
    obtain ⟨t, ht⟩ := h v (by simp)
    rw [ConGD.mades, v.made_of ht, ConGD.mades_of vs fun x hx => h x (List.mem_cons_of_mem _ hx)]; rfl
end

/-! ## Texts that are no goals -/

theorem GDX.isForm {v : GD} {t : List Char} (h : GDX v t) : Form t := goal_texts.form ⟨GoalLead.nil v, h⟩
theorem ConX.isForm {v : ConGD} {t : List Char} (h : ConX v t) : Form t :=
  con_texts.form (g := []) ⟨Gap.nil, h⟩
theorem varList_isForm {vs : TypedList Name} {w : List Char} (h : TypedX VarX Apart objectTy vs w) : Form (paren w) :=
  varList_texts.form (g := []) ⟨gapC_nil, w, rfl, h⟩

/-- The text of a constraint, which is no text of a goal if the constraint is modal. -/
def ConT (c : ConGD) (t : List Char) : Prop := ConX c t ∧ (c.modal = true → ∀ v, ¬ GDX v t)

theorem gap_no_form {r g t x : List Char} (hr : Gap r) (hg : Gap g) (ht : Form t) : r ≠ g ++ (t ++ x) := by
  intro e
  have h := congrArg skip e
  rw [hg.skip_solid (ht.solid.append x)] at h
  have h2 := hr.skip []
  rw [List.append_nil] at h2
  rw [h2] at h
  obtain ⟨c, y, rfl, _⟩ := ht.solid
  cases h

/-- If a list of constraints is read as a list of goals, none of them is modal. -/
theorem conT_align {vs : List ConGD} {w : List Char} (h : Items ConT vs w) : ∀ {ws : List GD} {w' g r g' r' : List Char},
    Items GDX ws w' → Gap g → Gap g' → Gap r → Gap r' → g ++ (w ++ r) = g' ++ (w' ++ r') → ConGD.modals vs = false := by
  have key : ∀ {c : ConGD} {t : List Char} {v : GD}, ConT c t → GDX v t → c.modal = false := by
    intro c t v h hv
    cases hm : c.modal with
    | false => rfl
    | true => exact absurd hv (h.2 hm v)
  induction h with
  | one h =>
    intro ws w' g r g' r' hw hg hg' hr hr' e
    rw [ConGD.modals, ConGD.modals, Bool.or_false]
    cases hw with
    | one hv => obtain ⟨-, rfl, -⟩ := form_split hg h.1.isForm hg' hv.isForm e; exact key h hv
    | cons hv _ _ =>
      rw [List.append_assoc] at e
      obtain ⟨-, rfl, -⟩ := form_split hg h.1.isForm hg' hv.isForm e; exact key h hv
  | @cons a t g0 as u h hs hrest ih =>
    intro ws w' g r g' r' hw hg hg' hr hr' e
    rw [ConGD.modals, Bool.or_eq_false_iff]
    rw [List.append_assoc, List.append_assoc] at e
    cases hw with
    | one hv =>
      obtain ⟨-, rfl, e2⟩ := form_split hg h.1.isForm hg' hv.isForm e
      refine absurd e2.symm ?_
      cases hrest with
      | one h' => exact gap_no_form hr' hs.gap h'.1.isForm
      | cons h' _ _ => rw [List.append_assoc]; exact gap_no_form hr' hs.gap h'.1.isForm
    | cons hv hs' hw =>
      rw [List.append_assoc, List.append_assoc] at e
      obtain ⟨-, rfl, e2⟩ := form_split hg h.1.isForm hg' hv.isForm e
      exact ⟨key h hv, ih hw hs.gap hs'.gap hr hr' e2⟩

/-- The words differ in some place. -/
def wordsDiffer : List Char → List Char → Bool
  | c :: x, d :: y => c != d || wordsDiffer x y
  | _, _ => false

theorem wordsDiffer_ne : ∀ {k l x y : List Char}, wordsDiffer k l = true → k ++ x ≠ l ++ y
  | c :: k, d :: l, x, y, h, e => by
    rw [wordsDiffer, Bool.or_eq_true] at h
    obtain ⟨rfl, e2⟩ := List.cons.inj e
    rcases h with h | h
    · simp at h
    · exact wordsDiffer_ne h e2
  | [], _, _, _, h, _ => by simp [wordsDiffer] at h
  | _ :: _, [], _, _, h, _ => by simp [wordsDiffer] at h

/-- The keywords of goals. -/
def goalKeys : List (List Char) := [c!"and", c!"or", c!"not", c!"imply", c!"exists", c!"forall"]

/-- A form with a keyword that goals do not have, and a blank before the closing parenthesis. -/
theorem modal_no_goal {kw x y : List Char} (hk : isWordB kw = true) (hx : Solid x)
    (h1 : goalKeys.all (wordsDiffer kw) = true)
    (v : GD) : ¬ GDX v (paren (kw ++ (' ' :: (x ++ (y ++ [' ']))))) := by
  intro h
  generalize ht : paren (kw ++ (' ' :: (x ++ (y ++ [' '])))) = t at h
  have hp : ∀ {k u}, k ∈ goalKeys → paren (kw ++ (' ' :: (x ++ (y ++ [' '])))) ≠ paren (k ++ u) :=
    fun hk e => wordsDiffer_ne (List.all_eq_true.mp h1 _ hk) (paren_inj e)
  cases h with
  | and _ => exact hp (by simp [goalKeys]) ht
  | or _ => exact hp (by simp [goalKeys]) ht
  | not _ _ _ => exact hp (by simp [goalKeys]) ht
  | imply _ _ _ _ _ => exact hp (by simp [goalKeys]) ht
  | exist _ _ _ _ _ => exact hp (by simp [goalKeys]) ht
  | forall_ _ _ _ _ _ => exact hp (by simp [goalKeys]) ht
  | atomic h _ =>
    subst ht
    obtain ⟨c, r, rfl, hb, hc⟩ := hx
    exact no_atom (w := kw ++ (' ' :: c :: (r ++ y))) (isWordB_iff hk) hb hc (by simp) _ h
  | fComp h _ =>
    subst ht
    obtain ⟨d, ds, rfl, hd, _⟩ := isWordB_iff hk
    exact no_comparison hd _ _ _ h

theorem conT_modal {c : ConGD} {kw x y : List Char} (hk : isWordB kw = true) (hx : Solid x)
    (h1 : goalKeys.all (wordsDiffer kw) = true)
    (h : ConX c (paren (kw ++ (' ' :: (x ++ (y ++ [' '])))))) : ∃ t, ConT c t :=
  ⟨_, h, fun _ v => modal_no_goal hk hx h1 v⟩

theorem Con2X.solid {c : Con2GD} {t : List Char} (h : Con2X c t) : Solid t := by
  cases h with
  | goal h => exact h.isForm.solid
  | nested h _ => exact h.isForm.solid

theorem conT_and {vs : List ConGD} (h : ∀ v ∈ vs, ∃ t, ConT v t) : ∃ t, ConT (.and vs) t := by
  by_cases hv : vs = []
  · subst hv; exact ⟨_, .and (.nil .nil), nofun⟩
  · obtain ⟨u, hu⟩ := items_of hv h
    have hc : Items ConX vs u := by
      clear h hv
      induction hu with
      | one h => exact .one h.1
      | cons h hs _ ih => exact .cons h.1 hs ih
    refine ⟨_, .and (.cons gap_space hc gap_space), fun hm v hx => ?_⟩
    have hsol : Solid u := by
      cases hu with
      | one h' => exact h'.1.isForm.solid
      | cons h' _ _ => exact h'.1.isForm.solid.append _
    generalize ht : paren (c!"and" ++ ([' '] ++ (u ++ [' ']))) = t at hx
    cases hx with
    | and hs =>
      have e := paren_inj ht
      have e : [' '] ++ (u ++ [' ']) = _ := List.append_cancel_left e
      have hn : ConGD.modals vs = false := by
        cases hs with
        | nil hg =>
          refine absurd e.symm ?_
          cases hu with
          | one h' => exact gap_no_form hg gap_space h'.1.isForm
          | cons h' _ _ => rw [List.append_assoc]; exact gap_no_form hg gap_space h'.1.isForm
        | cons hg hs hg' => exact conT_align hu hs gap_space hg gap_space hg' e
      rw [ConGD.modal, hn] at hm
      cases hm
    | or _ => cases ht
    | not _ _ _ => cases ht
    | imply _ _ _ _ _ => cases ht
    | exist _ _ _ _ _ => cases ht
    | forall_ _ _ _ _ _ => cases ht
    | atomic h _ =>
      subst ht
      obtain ⟨c, r, rfl, hb, hc⟩ := hsol
      exact no_atom (kw := c!"and") (w := c!"and" ++ (' ' :: c :: r)) (isWordB_iff rfl) hb hc (by simp) _ h
    | fComp h _ => subst ht; exact no_comparison (by decide) _ _ _ h

theorem conT_forall {vs : TypedList Name} {w : List Char} (hv : TypedX VarX Apart objectTy vs w) {c : ConGD}
    (h : ∃ t, ConT c t) : ∃ t, ConT (.forall_ vs c) t := by
  obtain ⟨y, h, hm⟩ := h
  refine ⟨_, .forall_ gap_space hv sep_space h gap_space, fun hmod v hx => ?_⟩
  have hm := hm (by rwa [ConGD.modal] at hmod)
  generalize ht : paren (c!"forall" ++ ([' '] ++ (paren w ++ ([' '] ++ (y ++ [' ']))))) = t at hx
  cases hx with
  | forall_ hg1 hv' hs2 hb hg3 =>
    have e := List.append_cancel_left (paren_inj ht)
    obtain ⟨-, -, e⟩ := form_split gap_space (varList_isForm hv) hg1 (varList_isForm hv') e
    obtain ⟨-, rfl, -⟩ := form_split gap_space h.isForm hs2.gap hb.isForm e
    exact hm _ hb
  | and _ => cases ht
  | or _ => cases ht
  | not _ _ _ => cases ht
  | imply _ _ _ _ _ => cases ht
  | exist _ _ _ _ _ => cases ht
  | atomic h _ =>
    subst ht
    exact no_atom (kw := c!"forall") (c := '(') (x := w ++ ([')'] ++ ([' '] ++ (y ++ [' ']))))
      (w := c!"forall" ++ (' ' :: '(' :: (w ++ ([')'] ++ ([' '] ++ y))))) (isWordB_iff rfl) rfl (by decide)
      (by simp) _ (by simpa [paren] using h)
  | fComp h _ => subst ht; exact no_comparison (by decide) _ _ _ h

mutual
theorem ConGD.text_of : ∀ c : ConGD, c.made = true → ∃ t, ConT c t
  | .and gs, h => conT_and (ConGD.texts_of gs h)
  | .forall_ vs g, h => by
    rw [ConGD.made, Bool.and_eq_true] at h
    obtain ⟨_, h1⟩ := vars_iff.mp h.1
    exact conT_forall h1 (g.text_of h.2)
  | .atEnd g, h => by
    rw [ConGD.made] at h
    obtain ⟨x, hx⟩ := GD.made_iff.mp h
    exact conT_modal (kw := c!"at") (x := c!"end") (y := ' ' :: x) rfl ⟨_, _, rfl, rfl, by decide⟩ rfl
      (.atEnd gap_space hx gap_space)
  | .always g, h => by
    rw [ConGD.made] at h
    obtain ⟨x, hx⟩ := g.text_of h
    exact conT_modal (y := []) rfl hx.solid rfl (.always gap_space hx gap_space)
  | .sometime g, h => by
    rw [ConGD.made] at h
    obtain ⟨x, hx⟩ := g.text_of h
    exact conT_modal (y := []) rfl hx.solid rfl (.sometime gap_space hx gap_space)
  | .within n g, h => by
    rw [ConGD.made, Bool.and_eq_true] at h
    obtain ⟨x, hx⟩ := numW_wf_iff.mp h.1
    obtain ⟨y, hy⟩ := g.text_of h.2
    exact conT_modal (y := ' ' :: y) rfl hx.solid rfl (.within gap_space hx sep_space hy gap_space)
  | .atMostOnce g, h => by
    rw [ConGD.made] at h
    obtain ⟨x, hx⟩ := g.text_of h
    exact conT_modal (y := []) rfl hx.solid rfl (.atMostOnce gap_space hx gap_space)
  | .sometimeAfter a b, h => by
    rw [ConGD.made, Bool.and_eq_true] at h
    obtain ⟨x, hx⟩ := a.text_of h.1
    obtain ⟨y, hy⟩ := b.text_of h.2
    exact conT_modal (y := ' ' :: y) rfl hx.solid rfl
      (.sometimeAfter gap_space hx sep_space hy gap_space)
  | .sometimeBefore a b, h => by
    rw [ConGD.made, Bool.and_eq_true] at h
    obtain ⟨x, hx⟩ := a.text_of h.1
    obtain ⟨y, hy⟩ := b.text_of h.2
    exact conT_modal (y := ' ' :: y) rfl hx.solid rfl
      (.sometimeBefore gap_space hx sep_space hy gap_space)
  | .alwaysWithin n a b, h => by
    rw [ConGD.made, Bool.and_eq_true, Bool.and_eq_true] at h
    obtain ⟨x, hx⟩ := numW_wf_iff.mp h.1.1
    obtain ⟨y, hy⟩ := a.text_of h.1.2
    obtain ⟨z, hz⟩ := b.text_of h.2
    exact conT_modal (kw := c!"always-within") (x := x) (y := ' ' :: (y ++ (' ' :: z))) rfl hx.solid rfl
      (by simpa using ConX.alwaysWithin gap_space hx sep_space hy sep_space hz gap_space)
  | .holdDuring n m g, h => by
    rw [ConGD.made, Bool.and_eq_true, Bool.and_eq_true] at h
    obtain ⟨x, hx⟩ := numW_wf_iff.mp h.1.1
    obtain ⟨y, hy⟩ := numW_wf_iff.mp h.1.2
    obtain ⟨z, hz⟩ := g.text_of h.2
    exact conT_modal (kw := c!"hold-during") (x := x) (y := ' ' :: (y ++ (' ' :: z))) rfl hx.solid rfl
      (by simpa using ConX.holdDuring gap_space hx sp_space hy sep_space hz gap_space)
  | .holdAfter n g, h => by
    rw [ConGD.made, Bool.and_eq_true] at h
    obtain ⟨x, hx⟩ := numW_wf_iff.mp h.1
    obtain ⟨y, hy⟩ := g.text_of h.2
    exact conT_modal (y := ' ' :: y) rfl hx.solid rfl (.holdAfter gap_space hx sep_space hy gap_space)
theorem Con2GD.text_of : ∀ c : Con2GD, c.made = true → ∃ t, Con2X c t
  | .goal g, h => by
    rw [Con2GD.made] at h
    obtain ⟨x, hx⟩ := GD.made_iff.mp h
    exact ⟨x, .goal hx⟩
  | .nested c, h => by
    rw [Con2GD.made, Bool.and_eq_true] at h
    obtain ⟨t, ht, hm⟩ := c.text_of h.2
    exact ⟨t, .nested ht (hm h.1)⟩
theorem ConGD.texts_of : ∀ gs : List ConGD, ConGD.mades gs = true → ∀ v ∈ gs, ∃ t, ConT v t
  | [], _ => nofun
  | g :: gs, h => by
    rw [ConGD.mades, Bool.and_eq_true] at h
    exact List.forall_mem_cons.mpr ⟨g.text_of h.1, ConGD.texts_of gs h.2⟩
end

theorem ConGD.made_iff {c : ConGD} : c.made = true ↔ ∃ t, ConX c t :=
  ⟨fun h => let ⟨t, h, _⟩ := c.text_of h; ⟨t, h⟩, fun ⟨_, h⟩ => c.made_of h⟩
theorem Con2GD.made_iff {c : Con2GD} : c.made = true ↔ ∃ t, Con2X c t := ⟨c.text_of, fun ⟨_, h⟩ => c.made_of h⟩

/-! ## Constraints of a problem -/

theorem PrefConGD.mades_iff {vs : List PrefConGD} : PrefConGD.mades vs = true ↔ ∀ v ∈ vs, v.made = true := by
  induction vs with
  | nil => simp [PrefConGD.mades]
  | cons v vs ih => rw [PrefConGD.mades, Bool.and_eq_true, ih, List.forall_mem_cons]

theorem PrefConX.made_len : ∀ (n : Nat) {t : List Char} {vs : List PrefConGD}, t.length < n → PrefConX vs t →
    PrefConGD.mades vs = true
  | 0, _, _, hn, _ => absurd hn (Nat.not_lt_zero _)
  | n + 1, _, _, hn, h => by
    cases h with
    | forall_ _ hv _ h _ =>
      simp only [paren, List.length_cons, List.length_append] at hn
      rw [PrefConGD.mades, PrefConGD.made, vars_iff.mpr ⟨_, hv⟩, PrefConX.made_len n (by omega) h]; rfl
    | and hs =>
      simp only [paren, List.length_cons, List.length_append] at hn
      refine PrefConGD.mades_iff.mpr fun v hv => ?_
      obtain ⟨ws, hw, hv⟩ := List.mem_flatten.mp hv
      obtain ⟨t, ht, hl⟩ := sec_mem_len hs ws hw
      exact PrefConGD.mades_iff.mp (PrefConX.made_len n (by omega) ht) v hv
    | named h =>
      obtain ⟨_, _, _, _, _, _, _, h1, _, h2, _⟩ := h
      rw [PrefConGD.mades, PrefConGD.made, wfOptName, h1.wf, ConGD.made_of _ h2]; rfl
    | anonymous h =>
      obtain ⟨_, _, _, _, _, h2, _⟩ := h
      rw [PrefConGD.mades, PrefConGD.made, wfOptName, ConGD.made_of _ h2]; rfl
    | @goal c _ h h1 h2 =>
      rw [PrefConGD.mades, PrefConGD.made, ConGD.made_of _ h]
      cases c <;> first | rfl | exact absurd rfl (h1 _) | exact absurd rfl (h2 _ _)

theorem prefConX_all {vs : List PrefConGD} (h : ∀ v ∈ vs, ∃ t, PrefConX [v] t) : ∃ t, PrefConX vs t := by
  obtain ⟨u, hu, _⟩ := sec_of (R := PrefConX) (tr := Gap) .nil (vs := vs.map fun v => [v]) (by
    intro w hw
    obtain ⟨v, hv, rfl⟩ := List.mem_map.mp hw
    exact h v hv)
  have := PrefConX.and hu
  rw [flatten_singletons] at this
  exact ⟨_, this⟩

mutual
theorem PrefConGD.text_of : ∀ v : PrefConGD, v.made = true → ∃ t, PrefConX [v] t
  | .goal c, h => by
    rw [PrefConGD.made, Bool.and_eq_true] at h
    obtain ⟨t, ht⟩ := ConGD.made_iff.mp h.1
    exact ⟨t, .goal ht (by rintro vs rfl; cases h.2) (by rintro vs b rfl; cases h.2)⟩
  | .forall_ vs gs, h => by
    rw [PrefConGD.made, Bool.and_eq_true] at h
    obtain ⟨_, h1⟩ := vars_iff.mp h.1
    obtain ⟨_, h2⟩ := prefConX_all (PrefConGD.texts_of gs h.2)
    exact ⟨_, .forall_ gap_space h1 sep_space h2 .nil⟩
  | .preference none c, h => by
    rw [PrefConGD.made, Bool.and_eq_true] at h
    obtain ⟨t, ht⟩ := ConGD.made_iff.mp h.2
    exact let ⟨t, h⟩ := wrapped_of c!"preference" ht; ⟨t, .anonymous h⟩
  | .preference (some n) c, h => by
    rw [PrefConGD.made, Bool.and_eq_true] at h
    obtain ⟨x, hx⟩ := nameW_iff.mp h.1
    obtain ⟨t, ht⟩ := ConGD.made_iff.mp h.2
    exact let ⟨t, h⟩ := paired_of c!"preference" hx ht; ⟨t, .named h⟩
theorem PrefConGD.texts_of : ∀ vs : List PrefConGD, PrefConGD.mades vs = true → ∀ v ∈ vs, ∃ t, PrefConX [v] t
  | [], _ => nofun
  | v :: vs, h => by
    rw [PrefConGD.mades, Bool.and_eq_true] at h
    exact List.forall_mem_cons.mpr ⟨v.text_of h.1, PrefConGD.texts_of vs h.2⟩
end

theorem prefConX_iff {vs : List PrefConGD} : PrefConGD.mades vs = true ↔ ∃ t, PrefConX vs t :=
  ⟨fun h => prefConX_all (PrefConGD.texts_of vs h), fun ⟨_, h⟩ => PrefConX.made_len _ (Nat.lt_succ_self _) h⟩

end Pddl
