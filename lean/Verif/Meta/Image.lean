import Verif.Spec.Image
import Verif.Meta.Print
import Verif.Props.GoalsX
import Verif.Props.NumericForms

/-!
# Meta-theory: the values that are read, up to goals

For each exact description `X v t` of the texts `t` read as `v`: every described value is `made`, and
every value that is `made` has a described text.
-/

namespace Pddl

/-! ## Names, numbers, lists -/

theorem NameW.wf {n : Name} {t : List Char} (h : NameW n t) : n.wf = true := by
  have ht := h.text
  obtain ⟨⟨c, cs, rfl, h1, h2⟩, h3⟩ := h
  simp only [Name.wf, Bool.and_eq_true, decide_eq_true_eq]
  rw [ht]
  exact ⟨by simp [isWordB, h1, List.all_eq_true]; exact h2, h3⟩

theorem NumW.wf {n : Number} {t : List Char} (h : NumW n t) : n.wf = true := by
  obtain ⟨l, -, -, hf⟩ := numW_iff.mp h
  obtain ⟨l, -, -, hm, -⟩ := h
  simp only [Number.wf, Bool.and_eq_true, Bool.not_eq_true', bne_iff_ne]
  exact ⟨(isFinite_iff _).mp hf, hm⟩

theorem items_mem {α : Type} {R : α → List Char → Prop} {vs : List α} {u : List Char} (h : Items R vs u) :
    ∀ v ∈ vs, ∃ t, R v t := by
  induction h with
  | one h => intro v hv; obtain rfl := List.mem_singleton.mp hv; exact ⟨_, h⟩
  | cons h _ _ ih =>
    intro v hv
    rcases List.mem_cons.mp hv with rfl | hv
    · exact ⟨_, h⟩
    · exact ih v hv

theorem sec_mem {α : Type} {R : α → List Char → Prop} {l tr : List Char → Prop} {vs : List α} {u : List Char}
    (h : Sec l tr (Items R) vs u) : ∀ v ∈ vs, ∃ t, R v t := by
  cases h with
  | nil _ => intro v hv; cases hv
  | cons _ h _ => exact items_mem h

theorem sep_space : Sep [' '] := .mk rfl .nil
theorem gap_space : Gap [' '] := .space rfl .nil
theorem sp_space : Sp [' '] := ⟨by simp, by intro c hc; obtain rfl := List.mem_singleton.mp hc; rfl⟩

theorem items_of {α : Type} {R : α → List Char → Prop} : ∀ {vs : List α}, vs ≠ [] → (∀ v ∈ vs, ∃ t, R v t) →
    ∃ u, Items R vs u
  | [], h, _ => absurd rfl h
  | [v], _, h => let ⟨t, ht⟩ := h v (by simp); ⟨t, .one ht⟩
  | v :: w :: vs, _, h =>
    let ⟨t, ht⟩ := h v (by simp)
    let ⟨u, hu⟩ := items_of (vs := w :: vs) (by simp) fun x hx => h x (List.mem_cons_of_mem _ hx)
    ⟨_, .cons ht sep_space hu⟩

/-- Empty, or a blank first. -/
def BlankLead (u : List Char) : Prop := u = [] ∨ ∃ x, u = ' ' :: x

theorem BlankLead.noWord {u : List Char} (h : BlankLead u) : NoWord u := by
  rcases h with rfl | ⟨x, rfl⟩
  · exact nofun
  · intro c r h; cases h; rfl

theorem sec_of {α : Type} {R : α → List Char → Prop} {tr : List Char → Prop} (htr : tr []) {vs : List α}
    (h : ∀ v ∈ vs, ∃ t, R v t) : ∃ u, Sec Gap tr (Items R) vs u ∧ BlankLead u := by
  by_cases hv : vs = []
  · subst hv; exact ⟨[], .nil .nil, .inl rfl⟩
  · obtain ⟨u, hu⟩ := items_of hv h
    exact ⟨_, .cons gap_space hu htr, .inr ⟨_, rfl⟩⟩

theorem all_iff_mem {α : Type} {p : α → Bool} {P : α → Prop} (h : ∀ v, p v = true ↔ P v) {vs : List α} :
    vs.all p = true ↔ ∀ v ∈ vs, P v := by
  rw [List.all_eq_true]; exact forall_congr' fun v => imp_congr_right fun _ => h v

theorem nameW_iff {n : Name} : n.wf = true ↔ ∃ t, NameW n t :=
  ⟨fun h => ⟨_, Name.print_w h⟩, fun ⟨_, h⟩ => h.wf⟩

theorem numW_wf_iff {n : Number} : n.wf = true ↔ ∃ t, NumW n t :=
  ⟨fun h => ⟨_, Number.print_w h⟩, fun ⟨_, h⟩ => h.wf⟩

/-! ## Terms -/

mutual
theorem Term.wf_of : ∀ (v : Term) {t : List Char}, TermX v t → v.wf = true
  | .name n, _, h => by cases h with | name h => exact h.wf
  | .var v, _, h => by cases h with | var _ h => exact h.wf
  | .fn f ts, _, h => by
    cases h with | fn _ h hs _ => rw [Term.wf, h.wf, Term.wfs_of ts (sec_mem hs)]; rfl
theorem Term.wfs_of : ∀ ts : List Term, (∀ v ∈ ts, ∃ t, TermX v t) → Term.wfs ts = true
  | [], _ => rfl
  | v :: ts, h => by
    obtain ⟨t, ht⟩ := h v (by simp)
    rw [Term.wfs, v.wf_of ht, Term.wfs_of ts fun x hx => h x (List.mem_cons_of_mem _ hx)]; rfl
end

mutual
theorem Term.text_of : ∀ v : Term, v.wf = true → ∃ t, TermX v t
  | .name n, h => let ⟨_, h⟩ := nameW_iff.mp h; ⟨_, .name h⟩
  | .var v, h => let ⟨_, h⟩ := nameW_iff.mp h; ⟨_, .var .nil h⟩
  | .fn f ts, h => by
    rw [Term.wf, Bool.and_eq_true] at h
    obtain ⟨t, ht⟩ := nameW_iff.mp h.1
    obtain ⟨u, hu, hl⟩ := sec_of (tr := (· = [])) rfl (Term.texts_of ts h.2)
    exact ⟨_, .fn .nil ht hu hl.noWord⟩
theorem Term.texts_of : ∀ ts : List Term, Term.wfs ts = true → ∀ v ∈ ts, ∃ t, TermX v t
  | [], _ => nofun
  | x :: xs, h => by
    rw [Term.wfs, Bool.and_eq_true] at h
    exact List.forall_mem_cons.mpr ⟨x.text_of h.1, Term.texts_of xs h.2⟩
end

theorem Term.wf_iff {v : Term} : v.wf = true ↔ ∃ t, TermX v t := ⟨v.text_of, fun ⟨_, h⟩ => v.wf_of h⟩
theorem Term.wfs_iff {vs : List Term} : Term.wfs vs = true ↔ ∀ v ∈ vs, ∃ t, TermX v t :=
  ⟨Term.texts_of vs, Term.wfs_of vs⟩

theorem FnTermX.wf_iff {f : FunctionTerm} : f.wf = true ↔ ∃ t, FnTermX f t := by
  obtain ⟨n, ts⟩ := f
  simp only [FunctionTerm.wf, Bool.and_eq_true]
  constructor
  · rintro ⟨h1, h2⟩
    obtain ⟨t, ht⟩ := nameW_iff.mp h1
    obtain ⟨u, hu, hl⟩ := sec_of (tr := (· = [])) rfl (Term.wfs_iff.mp h2)
    exact ⟨_, .mk .nil ht hu hl.noWord⟩
  · rintro ⟨_, h⟩
    cases h with | mk _ h hs _ => exact ⟨h.wf, Term.wfs_iff.mpr (sec_mem hs)⟩

/-! ## Atoms and literals -/

theorem AtomX.wf_of {α : Type} {R F : α → List Char → Prop} {w : α → Bool} (hw : ∀ v t, R v t → w v = true)
    {a : AtomicFormula α} {t : List Char} (h : AtomX R F a t) : a.wf w = true := by
  cases h with
  | equality _ h1 _ _ h2 _ => simp only [AtomicFormula.wf, hw _ _ h1, hw _ _ h2]; rfl
  | predicate _ h hs _ =>
    simp only [AtomicFormula.wf, h.wf, Bool.true_and, List.all_eq_true]
    intro v hv; obtain ⟨t, ht⟩ := sec_mem hs v hv; exact hw _ _ ht

/-- A text with a blank after the parenthesis if it is no equality. -/
theorem atomX_of {α : Type} {R F : α → List Char → Prop} {w : α → Bool} (hw : ∀ v, w v = true → ∃ t, R v t)
    (hF : ∀ v x, F v (' ' :: x)) {a : AtomicFormula α} (h : a.wf w = true) :
    ∃ t, AtomX R F a t ∧ ((∃ x y, a = .equality x y) ∨ ∃ x, t = paren (' ' :: x)) := by
  cases a with
  | equality a b =>
    simp only [AtomicFormula.wf, Bool.and_eq_true] at h
    obtain ⟨t1, h1⟩ := hw _ h.1
    obtain ⟨t2, h2⟩ := hw _ h.2
    exact ⟨_, .equality gap_space h1 gap_space (hF _ _) h2 .nil, .inl ⟨_, _, rfl⟩⟩
  | predicate p vs =>
    simp only [AtomicFormula.wf, Bool.and_eq_true, List.all_eq_true] at h
    obtain ⟨t, ht⟩ := nameW_iff.mp h.1
    obtain ⟨u, hu, hl⟩ := sec_of (R := R) (tr := (· = [])) rfl fun v hv => hw _ (h.2 v hv)
    exact ⟨_, .predicate gap_space ht hu hl.noWord, .inr ⟨_, rfl⟩⟩

theorem noWord_space (x : List Char) : NoWord (' ' :: x) := by intro c r h; cases h; rfl

theorem termEnds_space (v : Term) (x : List Char) : TermEnds v (' ' :: x) := by
  cases v <;> first | exact noWord_space x | trivial

theorem atomX_term_iff {a : AtomicFormula Term} : a.wf Term.wf = true ↔ ∃ t, AtomX TermX TermEnds a t :=
  ⟨fun h => let ⟨t, h, _⟩ := atomX_of (fun v h => v.text_of h) termEnds_space h; ⟨t, h⟩,
    fun ⟨_, h⟩ => h.wf_of fun v _ h => v.wf_of h⟩

theorem atomX_name_iff {a : AtomicFormula Name} : a.wf Name.wf = true ↔ ∃ t, AtomX NameW (fun _ => NoWord) a t :=
  ⟨fun h => let ⟨t, h, _⟩ := atomX_of (fun _ h => nameW_iff.mp h) (fun _ => noWord_space) h; ⟨t, h⟩,
    fun ⟨_, h⟩ => h.wf_of fun _ _ h => h.wf⟩

theorem literalX_iff {l : Literal Name} : l.wf Name.wf = true ↔ ∃ t, LiteralX l t := by
  cases l with
  | neg a => exact atomX_name_iff.trans ⟨fun ⟨_, h⟩ => ⟨_, .neg .nil h .nil⟩, fun ⟨_, h⟩ => by
      cases h with | neg _ h _ => exact ⟨_, h⟩⟩
  | pos a => exact atomX_name_iff.trans ⟨fun ⟨_, h⟩ => ⟨_, .pos h⟩, fun ⟨_, h⟩ => by
      cases h with | pos h => exact ⟨_, h⟩⟩

/-! ## Types and typed lists -/

theorem notObjectB_iff {t : List Char} : notObjectPrefix t = true ↔ (c!"object" <+: t → t = c!"object") := by
  simp only [notObjectPrefix, Bool.or_eq_true, beq_iff_eq, Bool.not_eq_true', ← Bool.not_eq_true,
    List.isPrefixOf_iff_prefix]
  exact ⟨fun h hp => h.resolve_right fun hn => hn hp, fun h => by
    by_cases hp : c!"object" <+: t
    · exact .inl (h hp)
    · exact .inr hp⟩

theorem eitherX_iff {n : Name} : (n.wf && notObjectPrefix n.text) = true ↔ ∃ t, EitherX n t := by
  rw [Bool.and_eq_true, nameW_iff, notObjectB_iff]
  constructor
  · rintro ⟨⟨t, ht⟩, h⟩; rw [ht.text] at h; exact ⟨t, ht, h⟩
  · rintro ⟨t, ht, h⟩; rw [ht.text]; exact ⟨⟨t, ht⟩, h⟩

theorem TyX.wf_of {ty : Ty} {x w : List Char} (h : TyX ty x w) : ty.wf = true := by
  cases h with
  | object => rfl
  | word _ h _ _ => exact h.wf
  | either _ _ h _ =>
    simp only [Ty.wf, Bool.and_eq_true, Bool.not_eq_true', List.isEmpty_eq_false_iff]
    refine ⟨by cases h <;> simp, (all_iff_mem fun _ => eitherX_iff).mpr (items_mem h)⟩

theorem tyX_of {ty : Ty} (h : ty.wf = true) {w : List Char} (hw : NoWord w) : ∃ x, TyX ty x w := by
  cases ty with
  | exactly n =>
    obtain ⟨t, ht⟩ := nameW_iff.mp h
    exact ⟨_, .word gap_space ht (by simp) hw⟩
  | eitherOf ns =>
    simp only [Ty.wf, Bool.and_eq_true, Bool.not_eq_true', List.isEmpty_eq_false_iff] at h
    obtain ⟨u, hu⟩ := items_of h.1 ((all_iff_mem fun _ => eitherX_iff).mp h.2)
    exact ⟨_, .either .nil gap_space hu .nil⟩

theorem typedX_mem {α : Type} {R : α → List Char → Prop} {J : List Char → Prop} {d : Ty} (hd : d.wf = true)
    {vs : TypedList α} {w : List Char} (h : TypedX R J d vs w) :
    ∀ v ∈ vs, (∃ t, R v.value t) ∧ v.ty.wf = true := by
  induction h with
  | rest h =>
    intro v hv
    obtain ⟨x, hx, rfl⟩ := List.mem_map.mp hv
    exact ⟨sec_mem h x hx, hd⟩
  | group _ h _ _ hty _ ih =>
    intro v hv
    rcases List.mem_append.mp hv with hv | hv
    · obtain ⟨x, hx, rfl⟩ := List.mem_map.mp hv
      exact ⟨items_mem h x hx, hty.wf_of⟩
    · exact ih v hv

theorem typedX_of {α : Type} {R : α → List Char → Prop} {J : List Char → Prop} {d : Ty} (hJ : J [' ']) :
    ∀ {vs : TypedList α}, (∀ v ∈ vs, (∃ t, R v.value t) ∧ v.ty.wf = true) → ∃ w, TypedX R J d vs w ∧ BlankLead w
  | [], _ => ⟨[], .rest (xs := []) (.nil .nil), .inl rfl⟩
  | v :: vs, h => by
    obtain ⟨w, hw, hl⟩ := typedX_of (R := R) (d := d) hJ (vs := vs) fun x hx => h x (List.mem_cons_of_mem _ hx)
    obtain ⟨⟨t, ht⟩, hty⟩ := h v (by simp)
    obtain ⟨x, hx⟩ := tyX_of hty hl.noWord
    exact ⟨_, .group (xs := [v.value]) gap_space (.one ht) gap_space hJ hx hw, .inr ⟨_, rfl⟩⟩

theorem typedX_iff {α : Type} {R : α → List Char → Prop} {J : List Char → Prop} {d : Ty} (hJ : J [' '])
    (hd : d.wf = true) {w : α → Bool} (hw : ∀ v, w v = true ↔ ∃ t, R v t) {vs : TypedList α} :
    vs.all (Typed.wf w) = true ↔ ∃ t, TypedX R J d vs t := by
  rw [all_iff_mem (P := fun v : Typed α => (∃ t, R v.value t) ∧ v.ty.wf = true) fun v => by
    rw [Typed.wf, Bool.and_eq_true, hw]]
  exact ⟨fun h => let ⟨t, h, _⟩ := typedX_of hJ h; ⟨t, h⟩, fun ⟨_, h⟩ => typedX_mem hd h⟩

theorem varX_iff {v : Name} : v.wf = true ↔ ∃ t, VarX v t :=
  nameW_iff.trans ⟨fun ⟨t, h⟩ => ⟨_, [], t, rfl, .nil, h⟩, fun ⟨_, _, w, _, _, h⟩ => ⟨w, h⟩⟩

theorem vars_iff {vs : TypedList Name} : wfVars vs = true ↔ ∃ t, TypedX VarX Apart objectTy vs t :=
  typedX_iff (by simp [Apart]) rfl fun _ => varX_iff

theorem names_iff {vs : TypedList Name} : vs.all (Typed.wf Name.wf) = true ↔ ∃ t, TypedX NameW Apart objectTy vs t :=
  typedX_iff (by simp [Apart]) rfl fun _ => nameW_iff

theorem skeletonX_iff {s : Skeleton} : s.wf = true ↔ ∃ t, SkeletonX s t := by
  obtain ⟨p, vs⟩ := s
  simp only [Skeleton.wf, Bool.and_eq_true]
  constructor
  · rintro ⟨h1, h2⟩
    obtain ⟨t, ht⟩ := nameW_iff.mp h1
    obtain ⟨w, hw⟩ := vars_iff.mp h2
    obtain ⟨w, hw, hl⟩ := typedX_of (R := VarX) (J := Apart) (d := objectTy) (by simp [Apart])
      (typedX_mem rfl hw)
    exact ⟨_, .mk .nil ht hw hl.noWord⟩
  · rintro ⟨_, h⟩
    cases h with | mk _ h hs _ => exact ⟨h.wf, vars_iff.mpr ⟨_, hs⟩⟩

/-! ## Numeric expressions -/

theorem fHeadX_iff {h : FHead} : h.made = true ↔ ∃ t, FHeadX h t := by
  cases h with
  | simple n =>
    exact nameW_iff.trans ⟨fun ⟨_, h⟩ => ⟨_, .name h⟩, fun ⟨_, h⟩ => by
      cases h with
      | name h => exact ⟨_, h⟩
      | paren _ h => exact ⟨_, h⟩⟩
  | withTerms n ts =>
    simp only [FHead.made, Bool.and_eq_true]
    constructor
    · rintro ⟨h1, h2⟩
      obtain ⟨t, ht⟩ := nameW_iff.mp h1
      obtain ⟨u, hu, -⟩ := sec_of (tr := (· = [])) rfl (Term.wfs_iff.mp h2)
      exact ⟨_, .terms .nil ht sp_space hu⟩
    · rintro ⟨_, h⟩
      cases h with | terms _ h _ hs => exact ⟨h.wf, Term.wfs_iff.mpr (sec_mem hs)⟩

theorem headLead_nil (t : List Char) : HeadLead t [] := ⟨.nil, fun _ => gapC_nil⟩

theorem fHeadX_head {h : FHead} {t : List Char} (hx : FHeadX h t) :
    ∃ c x, t = c :: x ∧ durTight c = false := by
  cases hx with
  | name h =>
    obtain ⟨⟨c, cs, rfl, hc, _⟩, _⟩ := h
    refine ⟨c, cs, rfl, ?_⟩
    simp only [durTight, Bool.or_eq_false_iff, beq_eq_false_iff_ne]
    exact ⟨by
      simp only [isLetter, isDec, Bool.or_eq_true, Bool.and_eq_true, decide_eq_true_eq, Bool.and_eq_false_iff,
        decide_eq_false_iff_not] at hc ⊢
      omega, by rintro rfl; exact absurd hc (by decide)⟩
  | paren _ _ => exact ⟨'(', _, rfl, rfl⟩
  | terms _ _ _ _ => exact ⟨'(', _, rfl, rfl⟩

/-- A comment before an operand. -/
theorem gapC_comment : GapC [';', 'c', '\n'] :=
  ⟨.comment (body := []) rfl nofun rfl .nil, by intro c g h; cases h; rfl⟩

theorem FExpX.tight {g t : List Char} {v : FExp} (h : FExpX g v t) :
    (∃ n, v = .number n ∧ NumW n t) ∨ ∃ c x, t = c :: x ∧ durTight c = false := by
  cases h with
  | leaf h =>
    cases h with
    | number h => exact .inl ⟨_, rfl, h⟩
    | function _ h => exact .inr (fHeadX_head h)
  | binary _ _ _ _ _ _ _ _ => exact .inr ⟨'(', _, rfl, rfl⟩
  | multi _ _ _ _ _ _ _ _ _ => exact .inr ⟨'(', _, rfl, rfl⟩
  | negative _ _ _ _ _ => exact .inr ⟨'(', _, rfl, rfl⟩

theorem FExpX.lone {bs : List FExp} {c : Char} {u : List Char} (h : Items (FExpX []) bs (c :: u))
    (hc : isDec c = true) : 2 ≤ bs.length ∨ FExp.loneNumber bs = true := by
  match bs with
  | [] => cases h
  | _ :: _ :: _ => exact .inl (by simp)
  | [v] =>
    generalize hu : c :: u = w at h
    cases h with
    | cons _ _ h => cases h
    | one h =>
      rcases h.tight with ⟨n, rfl, _⟩ | ⟨d, x, rfl, hd⟩
      · exact .inr rfl
      · cases hu; simp [durTight, hc] at hd

theorem FExpX.of_lone {bs : List FExp} (h : FExp.loneNumber bs = true) (hs : ∀ v ∈ bs, ∃ t, FExpX [] v t) :
    ∃ u, Items (FExpX []) bs u ∧ ∃ c u', u = c :: u' ∧ isDec c = true := by
  match bs, h with
  | [.number n], _ =>
    obtain ⟨t, ht⟩ := hs (.number n) (by simp)
    refine ⟨t, .one ht, ?_⟩
    cases ht with | leaf h => cases h with | number h => exact h.head

mutual
theorem FExp.made_of : ∀ (v : FExp) {g t : List Char}, FExpX g v t → v.made = true
  | .number n, _, _, h => by
    cases h with | leaf h => cases h with | number h => exact h.wf
  | .function h, _, _, hx => by
    cases hx with | leaf hx => cases hx with | function _ hx => exact fHeadX_iff.mpr ⟨_, hx⟩
  | .negative e, _, _, h => by
    cases h with
    | leaf h => cases h
    | negative _ _ _ _ h => rw [FExp.made, e.made_of h]
  | .binaryOp _ a b, _, _, h => by
    cases h with
    | leaf h => cases h
    | binary _ _ _ _ h1 _ _ h2 => rw [FExp.made, a.made_of h1, b.made_of h2]; rfl
  | .multiOp _ a bs, _, _, h => by
    cases h with
    | leaf h => cases h
    | multi _ _ _ _ h1 _ _ hs ho =>
      rw [FExp.made, a.made_of h1, FExp.mades_of bs (items_mem hs)]
      simp only [Bool.true_and, Bool.and_true, Bool.or_eq_true, decide_eq_true_eq]
      rcases ho with h2 | ⟨_, c, u', rfl, hc⟩
      · exact .inl h2
      · exact FExpX.lone hs hc
theorem FExp.mades_of : ∀ vs : List FExp, (∀ v ∈ vs, ∃ t, FExpX [] v t) → FExp.mades vs = true
  | [], _ => rfl
  | v :: vs, h => by
    obtain ⟨t, ht⟩ := h v (by simp)
    rw [FExp.mades, v.made_of ht, FExp.mades_of vs fun x hx => h x (List.mem_cons_of_mem _ hx)]; rfl
end

mutual
theorem FExp.text_of : ∀ v : FExp, v.made = true → ∃ t, FExpX [] v t
  | .number n, h => let ⟨_, h⟩ := numW_wf_iff.mp h; ⟨_, .leaf (.number h)⟩
  | .function h, hm => let ⟨_, h⟩ := fHeadX_iff.mp hm; ⟨_, .leaf (.function (headLead_nil _) h)⟩
  | .negative e, h =>
    let ⟨_, ht⟩ := e.text_of (by rwa [FExp.made] at h)
    ⟨_, .negative gapC_nil .nil (b := []) nofun gapC_nil ht⟩
  | .binaryOp _ a b, h => by
    rw [FExp.made, Bool.and_eq_true] at h
    obtain ⟨t1, h1⟩ := a.text_of h.1
    obtain ⟨t2, h2⟩ := b.text_of h.2
    exact ⟨_, .binary gapC_nil .nil sp_space gapC_nil h1 sp_space gapC_nil h2⟩
  | .multiOp _ a bs, h => by
    simp only [FExp.made, Bool.and_eq_true, Bool.or_eq_true, decide_eq_true_eq] at h
    obtain ⟨⟨ha, ho⟩, hs⟩ := h
    obtain ⟨t1, h1⟩ := a.text_of ha
    have hs := FExp.texts_of bs hs
    rcases ho with ho | ho
    · obtain ⟨u, hu⟩ := items_of (by rintro rfl; simp at ho) hs
      exact ⟨_, .multi gapC_nil .nil sp_space gapC_nil h1 sp_space gapC_nil hu (.inl ho)⟩
    · obtain ⟨u, hu, ht⟩ := FExpX.of_lone ho hs
      exact ⟨_, .multi gapC_nil .nil sp_space gapC_nil h1 sp_space gapC_comment hu
        (.inr ⟨by simp, ht⟩)⟩
theorem FExp.texts_of : ∀ vs : List FExp, FExp.mades vs = true → ∀ v ∈ vs, ∃ t, FExpX [] v t
  | [], _ => nofun
  | v :: vs, h => by
    rw [FExp.mades, Bool.and_eq_true] at h
    exact List.forall_mem_cons.mpr ⟨v.text_of h.1, FExp.texts_of vs h.2⟩
end

theorem FExp.made_iff {v : FExp} : v.made = true ↔ ∃ t, FExpX [] v t := ⟨v.text_of, fun ⟨_, h⟩ => v.made_of h⟩

theorem fExpLeaf_iff {e : FExp} :
    ((e.isFunctionB || e.isNumberB) && e.made) = true ↔ ∃ t, FExpLeaf [] e t := by
  constructor
  · intro h
    rw [Bool.and_eq_true] at h
    obtain ⟨h1, h⟩ := h
    cases e with
    | number n => exact let ⟨_, h⟩ := numW_wf_iff.mp h; ⟨_, .number h⟩
    | function f => exact let ⟨_, h⟩ := fHeadX_iff.mp h; ⟨_, .function (headLead_nil _) h⟩
    | negative _ => cases h1
    | binaryOp _ _ _ => cases h1
    | multiOp _ _ _ => cases h1
  · rintro ⟨t, h⟩
    cases h with
    | number h => exact h.wf
    | function _ h => exact fHeadX_iff.mpr ⟨_, h⟩

theorem FExpLeaf.nil {g t : List Char} {e : FExp} (h : FExpLeaf g e t) : FExpLeaf [] e t := by
  cases h with
  | number h => exact .number h
  | function _ h => exact .function (headLead_nil _) h

theorem FExpDaX.lone {bs : List FExpDa} {c : Char} {u : List Char} (h : Items (FExpDaX []) bs (c :: u))
    (hc : durTight c = true) : 2 ≤ bs.length ∨ FExpDa.loneLeaf bs = true := by
  match bs with
  | [] => cases h
  | _ :: _ :: _ => exact .inl (by simp)
  | [v] =>
    generalize hu : c :: u = w at h
    cases h with
    | cons _ _ h => cases h
    | one h =>
      cases h with
      | leaf h =>
        cases h with
        | duration => exact .inr rfl
        | fExp h =>
          cases h with
          | number h => exact .inr rfl
          | function _ h => obtain ⟨d, x, rfl, hd⟩ := fHeadX_head h; cases hu; simp [hc] at hd
      | binary _ _ _ _ _ _ _ _ => cases hu; cases hc
      | multi _ _ _ _ _ _ _ _ _ => cases hu; cases hc
      | negative _ _ _ _ _ => cases hu; cases hc

theorem FExpDaX.of_lone {bs : List FExpDa} (h : FExpDa.loneLeaf bs = true)
    (hs : ∀ v ∈ bs, ∃ t, FExpDaX [] v t) :
    ∃ u, Items (FExpDaX []) bs u ∧ ∃ c u', u = c :: u' ∧ durTight c = true := by
  match bs, h with
  | [.fExp (.number n)], _ =>
    obtain ⟨t, ht⟩ := hs (.fExp (.number n)) (by simp)
    refine ⟨t, .one ht, ?_⟩
    cases ht with
    | leaf h =>
      cases h with
      | fExp h =>
        cases h with | number h => obtain ⟨c, x, rfl, hc⟩ := h.head; exact ⟨c, x, rfl, by simp [durTight, show isDec c = true from hc]⟩
  | [.duration], _ => exact ⟨_, .one (.leaf .duration), _, _, rfl, rfl⟩

mutual
theorem FExpDa.made_of : ∀ (v : FExpDa) {g t : List Char}, FExpDaX g v t → v.made = true
  | .assign _ _ _, _, _, h => by cases h with | leaf h => cases h
  | .duration, _, _, _ => rfl
  | .fExp e, _, _, h => by
    cases h with | leaf h => cases h with | fExp h => exact fExpLeaf_iff.mpr ⟨_, h.nil⟩
  | .negative e, _, _, h => by
    cases h with
    | leaf h => cases h
    | negative _ _ _ _ h => rw [FExpDa.made, e.made_of h]
  | .binaryOp _ a b, _, _, h => by
    cases h with
    | leaf h => cases h
    | binary _ _ _ _ h1 _ _ h2 => rw [FExpDa.made, a.made_of h1, b.made_of h2]; rfl
  | .multiOp _ a bs, _, _, h => by
    cases h with
    | leaf h => cases h
    | multi _ _ _ _ h1 _ _ hs ho =>
      rw [FExpDa.made, a.made_of h1, FExpDa.mades_of bs (items_mem hs)]
      simp only [Bool.true_and, Bool.and_true, Bool.or_eq_true, decide_eq_true_eq]
      rcases ho with h2 | ⟨_, c, u', rfl, hc⟩
      · exact .inl h2
      · exact FExpDaX.lone hs hc
theorem FExpDa.mades_of : ∀ vs : List FExpDa, (∀ v ∈ vs, ∃ t, FExpDaX [] v t) → FExpDa.mades vs = true
  | [], _ => rfl
  | v :: vs, h => by
    obtain ⟨t, ht⟩ := h v (by simp)
    rw [FExpDa.mades, v.made_of ht, FExpDa.mades_of vs fun x hx => h x (List.mem_cons_of_mem _ hx)]; rfl
end

mutual
theorem FExpDa.text_of : ∀ v : FExpDa, v.made = true → ∃ t, FExpDaX [] v t
  | .assign _ _ _, h => nomatch h
  | .duration, _ => ⟨_, .leaf .duration⟩
  | .fExp e, h => let ⟨_, h⟩ := fExpLeaf_iff.mp h; ⟨_, .leaf (.fExp h)⟩
  | .negative e, h =>
    let ⟨_, ht⟩ := e.text_of (by rwa [FExpDa.made] at h)
    ⟨_, .negative gapC_nil .nil (b := []) nofun gapC_nil ht⟩
  | .binaryOp _ a b, h => by
    rw [FExpDa.made, Bool.and_eq_true] at h
    obtain ⟨t1, h1⟩ := a.text_of h.1
    obtain ⟨t2, h2⟩ := b.text_of h.2
    exact ⟨_, .binary gapC_nil .nil sp_space gapC_nil h1 sp_space gapC_nil h2⟩
  | .multiOp _ a bs, h => by
    simp only [FExpDa.made, Bool.and_eq_true, Bool.or_eq_true, decide_eq_true_eq] at h
    obtain ⟨⟨ha, ho⟩, hs⟩ := h
    obtain ⟨t1, h1⟩ := a.text_of ha
    have hs := FExpDa.texts_of bs hs
    rcases ho with ho | ho
    · obtain ⟨u, hu⟩ := items_of (by rintro rfl; simp at ho) hs
      exact ⟨_, .multi gapC_nil .nil sp_space gapC_nil h1 sp_space gapC_nil hu (.inl ho)⟩
    · obtain ⟨u, hu, ht⟩ := FExpDaX.of_lone ho hs
      exact ⟨_, .multi gapC_nil .nil sp_space gapC_nil h1 sp_space gapC_comment hu
        (.inr ⟨by simp, ht⟩)⟩
theorem FExpDa.texts_of : ∀ vs : List FExpDa, FExpDa.mades vs = true → ∀ v ∈ vs, ∃ t, FExpDaX [] v t
  | [], _ => nofun
  | v :: vs, h => by
    rw [FExpDa.mades, Bool.and_eq_true] at h
    exact List.forall_mem_cons.mpr ⟨v.text_of h.1, FExpDa.texts_of vs h.2⟩
end

theorem FExpDa.made_iff {v : FExpDa} : v.made = true ↔ ∃ t, FExpDaX [] v t := ⟨v.text_of, fun ⟨_, h⟩ => v.made_of h⟩

theorem MetricX.lone {bs : List MetricFExp} {c : Char} {u : List Char} (h : Items (MetricX []) bs (c :: u))
    (hc : isDec c = true) : 2 ≤ bs.length ∨ MetricFExp.loneNumber bs = true := by
  match bs with
  | [] => cases h
  | _ :: _ :: _ => exact .inl (by simp)
  | [v] =>
    generalize hu : c :: u = w at h
    cases h with
    | cons _ _ h => cases h
    | one h =>
      cases h with
      | leaf h =>
        cases h with
        | number _ => exact .inr rfl
        | totalTime => cases hu; cases hc
        | isViolated _ _ _ _ => cases hu; cases hc
        | app _ _ _ _ _ _ => cases hu; cases hc
        | symbol _ h _ =>
          obtain ⟨d, x, rfl, hd⟩ := fHeadX_head (.name h); cases hu; simp [durTight, hc] at hd
      | binary _ _ _ _ _ _ _ _ => cases hu; cases hc
      | multi _ _ _ _ _ _ _ _ _ => cases hu; cases hc
      | negative _ _ _ _ _ => cases hu; cases hc

theorem MetricX.of_lone {bs : List MetricFExp} (h : MetricFExp.loneNumber bs = true)
    (hs : ∀ v ∈ bs, ∃ t, MetricX [] v t) :
    ∃ u, Items (MetricX []) bs u ∧ ∃ c u', u = c :: u' ∧ isDec c = true := by
  match bs, h with
  | [.number n], _ =>
    obtain ⟨t, ht⟩ := hs (.number n) (by simp)
    refine ⟨t, .one ht, ?_⟩
    cases ht with | leaf h => cases h with | number h => exact h.head

theorem names_all_iff {ns : List Name} : ns.all Name.wf = true ↔ ∀ n ∈ ns, ∃ t, NameW n t :=
  all_iff_mem fun _ => nameW_iff

mutual
theorem MetricFExp.made_of : ∀ (v : MetricFExp) {g t : List Char}, MetricX g v t → v.made = true
  | .number n, _, _, h => by
    cases h with | leaf h => cases h with | number h => exact h.wf
  | .totalTime, _, _, _ => rfl
  | .isViolated p, _, _, h => by
    cases h with | leaf h => cases h with | isViolated _ _ h _ => exact h.wf
  | .function f ns, _, _, h => by
    cases h with
    | leaf h =>
      cases h with
      | app _ _ h hs _ _ => rw [MetricFExp.made, h.wf, names_all_iff.mpr (sec_mem hs)]; rfl
      | symbol _ h _ => rw [MetricFExp.made, h.wf]; rfl
  | .negative e, _, _, h => by
    cases h with
    | leaf h => cases h
    | negative _ _ _ _ h => rw [MetricFExp.made, e.made_of h]
  | .binaryOp _ a b, _, _, h => by
    cases h with
    | leaf h => cases h
    | binary _ _ _ _ h1 _ _ h2 => rw [MetricFExp.made, a.made_of h1, b.made_of h2]; rfl
  | .multiOp _ a bs, _, _, h => by
    cases h with
    | leaf h => cases h
    | multi _ _ _ _ h1 _ _ hs ho =>
      rw [MetricFExp.made, a.made_of h1, MetricFExp.mades_of bs (items_mem hs)]
      simp only [Bool.true_and, Bool.and_true, Bool.or_eq_true, decide_eq_true_eq]
      rcases ho with h2 | ⟨_, c, u', rfl, hc⟩
      · exact .inl h2
      · exact MetricX.lone hs hc
theorem MetricFExp.mades_of : ∀ vs : List MetricFExp, (∀ v ∈ vs, ∃ t, MetricX [] v t) → MetricFExp.mades vs = true
  | [], _ => rfl
  | v :: vs, h => by
    obtain ⟨t, ht⟩ := h v (by simp)
    rw [MetricFExp.mades, v.made_of ht, MetricFExp.mades_of vs fun x hx => h x (List.mem_cons_of_mem _ hx)]; rfl
end

mutual
theorem MetricFExp.text_of : ∀ v : MetricFExp, v.made = true → ∃ t, MetricX [] v t
  | .number n, h => let ⟨_, h⟩ := numW_wf_iff.mp h; ⟨_, .leaf (.number h)⟩
  | .totalTime, _ => ⟨_, .leaf .totalTime⟩
  | .isViolated p, h => let ⟨_, h⟩ := nameW_iff.mp h; ⟨_, .leaf (.isViolated .nil gap_space h .nil)⟩
  | .function f ns, h => by
    rw [MetricFExp.made, Bool.and_eq_true] at h
    obtain ⟨t, ht⟩ := nameW_iff.mp h.1
    obtain ⟨u, hu, hl⟩ := sec_of (tr := (· = [])) rfl (names_all_iff.mp h.2)
    exact ⟨_, .leaf (.app gapC_nil gap_space ht hu hl.noWord fun hv => absurd hv.1 (by simp))⟩
  | .negative e, h =>
    let ⟨_, ht⟩ := e.text_of (by rwa [MetricFExp.made] at h)
    ⟨_, .negative gapC_nil .nil (b := []) nofun gapC_nil ht⟩
  | .binaryOp _ a b, h => by
    rw [MetricFExp.made, Bool.and_eq_true] at h
    obtain ⟨t1, h1⟩ := a.text_of h.1
    obtain ⟨t2, h2⟩ := b.text_of h.2
    exact ⟨_, .binary gapC_nil .nil sp_space gapC_nil h1 sp_space gapC_nil h2⟩
  | .multiOp _ a bs, h => by
    simp only [MetricFExp.made, Bool.and_eq_true, Bool.or_eq_true, decide_eq_true_eq] at h
    obtain ⟨⟨ha, ho⟩, hs⟩ := h
    obtain ⟨t1, h1⟩ := a.text_of ha
    have hs := MetricFExp.texts_of bs hs
    rcases ho with ho | ho
    · obtain ⟨u, hu⟩ := items_of (by rintro rfl; simp at ho) hs
      exact ⟨_, .multi gapC_nil .nil sp_space gapC_nil h1 sp_space gapC_nil hu (.inl ho)⟩
    · obtain ⟨u, hu, ht⟩ := MetricX.of_lone ho hs
      exact ⟨_, .multi gapC_nil .nil sp_space gapC_nil h1 sp_space gapC_comment hu
        (.inr ⟨by simp, ht⟩)⟩
theorem MetricFExp.texts_of : ∀ vs : List MetricFExp, MetricFExp.mades vs = true → ∀ v ∈ vs, ∃ t, MetricX [] v t
  | [], _ => nofun
  | v :: vs, h => by
    rw [MetricFExp.mades, Bool.and_eq_true] at h
    exact List.forall_mem_cons.mpr ⟨v.text_of h.1, MetricFExp.texts_of vs h.2⟩
end

theorem MetricFExp.made_iff {v : MetricFExp} : v.made = true ↔ ∃ t, MetricX [] v t := ⟨v.text_of, fun ⟨_, h⟩ => v.made_of h⟩

end Pddl
