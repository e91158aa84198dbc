import Verif.Props.ConditionsX

/-!
# Meta-theory: parsers and the texts they accept

`Texts p X` says that `X g v t` holds exactly of the texts `t` that `p` reads as `v` after the layout
`g`, whatever follows. It is kept by ordered choice: a later alternative accepts its texts less the
texts of the earlier ones.
-/

namespace Pddl

/-- The parser accepts exactly the texts of `X`. Layout in front may always be left out, and every
text is one balanced form in parentheses. -/
structure Texts (p : P α) (X : List Char → α → List Char → Prop) : Prop where
  iff : ∀ s v r, p s = .ok v r ↔ ∃ g t, s = g ++ (t ++ r) ∧ X g v t
  gap : ∀ {g v t}, X g v t → Gap g
  base : ∀ {g v t}, X g v t → X [] v t
  form : ∀ {g v t}, X g v t → Form t

theorem Form.solid {t : List Char} (h : Form t) : Solid t := by
  obtain ⟨u, rfl, _⟩ := h
  exact solid_paren u

/-- Layout and one form in front of a text are determined by the text. -/
theorem form_split {g t r g' t' r' : List Char} (hg : Gap g) (ht : Form t) (hg' : Gap g') (ht' : Form t')
    (e : g ++ (t ++ r) = g' ++ (t' ++ r')) : g = g' ∧ t = t' ∧ r = r' := by
  have hs := congrArg skip e
  rw [hg.skip_solid (ht.solid.append r), hg'.skip_solid (ht'.solid.append r')] at hs
  obtain rfl := (OneForm.of_form ht).unique (.of_form ht') hs
  obtain rfl := List.append_cancel_left hs
  exact ⟨List.append_cancel_right e, rfl, rfl⟩

theorem form_of_snd {p : P α} {R : α → List Char → Prop} (h : Snd Any Gap p R) (hR : ∀ v t, R v t → Form t)
    {v : α} {t : List Char} (ht : Solid t) (hp : p t = .ok v []) : Form t := hR v t (snd_inv h ht hp)

theorem OkErr.of_mild {p : P α} {k : Nat} (hm : Mild p) {s : List Char} (hg : Good k (s.length + 1) p p) :
    OkErr (p s) := by
  have hm := hm s
  cases e : p s with
  | ok a r => exact .inl ⟨a, r, rfl⟩
  | err => exact .inr rfl
  | fail => exact absurd e hm.1
  | panic => exact absurd e hm.2
  | oof =>
    have := (hg s (Nat.lt_succ_self _)).2
    rw [e] at this
    exact this.elim

namespace Texts
variable {α β γ : Type} {p : P α} {X Y : List Char → α → List Char → Prop}

theorem run (H : Texts p X) {g v t} (h : X g v t) (r : List Char) : p (g ++ (t ++ r)) = .ok v r :=
  (H.iff _ v r).mpr ⟨g, t, rfl, h⟩

theorem run0 (H : Texts p X) {g v t} (h : X g v t) (r : List Char) : p (t ++ r) = .ok v r :=
  H.run (H.base h) r

theorem solid (H : Texts p X) {g v t} (h : X g v t) : Solid t := (H.form h).solid

theorem inv (H : Texts p X) {g t : List Char} (hg : Gap g) (ht : Form t) {r r' : List Char} {v : α}
    (h : p (g ++ (t ++ r)) = .ok v r') : X g v t ∧ r' = r := by
  obtain ⟨g', t', e, k⟩ := (H.iff _ _ _).mp h
  obtain ⟨rfl, rfl, rfl⟩ := form_split hg ht (H.gap k) (H.form k) e
  exact ⟨k, rfl⟩

theorem eqv (H : Texts p X) (K : Texts p Y) {g v t} : X g v t ↔ Y g v t :=
  ⟨fun h => (K.inv (H.gap h) (H.form h) (H.run h [])).1, fun h => (H.inv (K.gap h) (K.form h) (K.run h [])).1⟩

theorem det (H : Texts p X) {g g' v w t} (h : X g v t) (h' : X g' w t) : v = w := by
  have := H.run0 h []
  rw [H.run0 h' []] at this
  cases this
  rfl

theorem congr (H : Texts p X) (h : ∀ {g v t}, X g v t ↔ Y g v t) : Texts p Y where
  iff s v r := by rw [H.iff]; simp only [h]
  gap k := H.gap (h.mpr k)
  base k := h.mp (H.base (h.mpr k))
  form k := H.form (h.mpr k)

theorem reads (H : Texts p X) {v t} : ReadsAs p v t ↔ X [] v t := by
  constructor
  · rintro ⟨ht, h⟩
    obtain ⟨g, u, e, h⟩ := (H.iff _ _ _).mp h
    rw [List.append_nil] at e
    obtain rfl := solid_whole ht (by rw [List.append_nil]; exact e) (H.gap h) (H.solid h)
    exact H.base h
  · exact fun h => .of (H.solid h) (H.run0 h [])

theorem snd (H : Texts p X) : Snd Any Gap p (X []) := fun s v r hs _ => by
  obtain ⟨g, t, e, h⟩ := (H.iff _ _ _).mp hs
  exact ⟨g, t, e, H.gap h, H.base h⟩

theorem elem (H : Texts p X) {v t} (h : X [] v t) : Elem p v t := ⟨fun r _ => H.run0 h r, H.solid h⟩

theorem nonE (H : Texts p X) : NonE (X []) := fun _ _ h => (H.form h).ne

/-! ## Ways to build parsers -/

theorem map (H : Texts p X) (f : α → β) : Texts (Pddl.map f p) (fun g v t => ∃ a, v = f a ∧ X g a t) where
  iff s v r := by
    constructor
    · intro h
      obtain ⟨a, h, e⟩ := map_ok h
      obtain ⟨g, t, e', h⟩ := (H.iff _ _ _).mp h
      exact ⟨g, t, e', a, e, h⟩
    · rintro ⟨g, t, rfl, a, rfl, h⟩
      exact map_run (H.run h r)
  gap := fun ⟨_, _, h⟩ => H.gap h
  base := fun ⟨a, e, h⟩ => ⟨a, e, H.base h⟩
  form := fun ⟨_, _, h⟩ => H.form h

theorem one (H : Texts p X) : Texts (alt [p]) X where
  iff s v r := by
    rw [← H.iff]
    constructor
    · intro h
      rcases alt_inv h with h | ⟨_, h⟩
      · exact h
      · cases h
    · exact fun h => alt_hit h
  gap := H.gap
  base := H.base
  form := H.form

/-- Ordered choice. -/
theorem alt {ps : List (P α)} (H : Texts p X) (K : Texts (alt ps) Y)
    (calm : ∀ {g v t}, Y g v t → ∀ r, OkErr (p (g ++ (t ++ r))))
    (lead : ∀ {g v w t}, Y g v t → X [] w t → X g w t) :
    Texts (Pddl.alt (p :: ps)) (fun g v t => X g v t ∨ (Y g v t ∧ ∀ w, ¬ X [] w t)) where
  iff s v r := by
    constructor
    · intro h
      rcases alt_inv h with h | ⟨hn, h⟩
      · obtain ⟨g, t, e, h⟩ := (H.iff _ _ _).mp h
        exact ⟨g, t, e, .inl h⟩
      · obtain ⟨g, t, rfl, k⟩ := (K.iff _ _ _).mp h
        refine ⟨g, t, rfl, .inr ⟨k, fun w hw => ?_⟩⟩
        rw [H.run (lead k hw)] at hn
        cases hn
    · rintro ⟨g, t, rfl, h | ⟨h, hn⟩⟩
      · exact alt_hit (H.run h r)
      · rw [alt_miss ((calm h r).err_of fun w r' e => ?_)]
        · exact K.run h r
        · exact hn w (H.base (H.inv (K.gap h) (K.form h) e).1)
  gap := fun h => h.elim H.gap fun h => K.gap h.1
  base := fun h => h.imp H.base fun h => ⟨K.base h.1, h.2⟩
  form := fun h => h.elim H.form fun h => K.form h.1

/-- Ordered choice between alternatives with no text in common. -/
theorem alt_apart {ps : List (P α)} (H : Texts p X) (K : Texts (Pddl.alt ps) Y)
    (miss : ∀ {g v t}, Y g v t → ∀ r, p (g ++ (t ++ r)) = .err) :
    Texts (Pddl.alt (p :: ps)) (fun g v t => X g v t ∨ Y g v t) := by
  have hn : ∀ {g v w t}, Y g v t → ¬ X [] w t := fun hy hx => by
    have := miss (K.base hy) []
    rw [List.nil_append, H.run0 hx []] at this
    cases this
  refine (alt H K (fun h r => .inr (miss h r)) fun hy hx => absurd hx (hn hy)).congr fun {g v t} => ?_
  exact ⟨fun h => h.imp id (·.1), fun h => h.imp id fun h => ⟨h, fun _ => hn h⟩⟩

theorem wrapped {kw : List Char} (hk : Bal kw) (H : Texts p X) :
    Texts (prefixExpr kw p) (fun g v t => Gap g ∧ Wrapped kw (X []) v t) where
  iff s v r := by
    constructor
    · intro h
      obtain ⟨g, t, e, hg, ht⟩ := Snd.kw1 (kw := kw) (f := id) (F := Any) (R := Wrapped kw (X [])) H.snd
        (fun h1 h2 h3 => ⟨_, _, _, rfl, h1, h2, h3⟩) s v r (map_run h) trivial
      exact ⟨g, t, e, hg, ht⟩
    · rintro ⟨g, t, rfl, hg, g1, x, g2, rfl, hg1, h, hg2⟩
      rw [prefix_lead hg]
      exact prefix_one hg1 (H.elem h).1 (H.elem h).2 hg2 r trivial
  gap h := h.1
  base h := ⟨.nil, h.2⟩
  form := by
    rintro _ _ _ ⟨_, g1, x, g2, rfl, hg1, h, hg2⟩
    obtain ⟨u, rfl, hu⟩ := H.form h
    exact .mk (hk.append (hg1.bal.append (hu.paren.append hg2.bal)))

theorem listed {kw : List Char} (hk : Bal kw) (H : Texts p X) (hp : ∀ x, p (')' :: x) = .err) :
    Texts (prefixExpr kw (spaceSeparatedList0 p)) (fun g v t => Gap g ∧ Listed kw (X []) v t) where
  iff s v r := by
    constructor
    · intro h
      obtain ⟨g, t, e, hg, ht⟩ := Snd.prefix_sec (F := Any) (kw := kw) (.list0 H.snd H.nonE) s v r h trivial
      exact ⟨g, t, e, hg, ht⟩
    · rintro ⟨g, t, rfl, hg, u, rfl, h⟩
      rw [prefix_lead hg]
      exact prefix_list0 (h.mono fun _ h _ => h.mono fun a t h _ => H.elem h) (fun _ h => h) hp r trivial
  gap h := h.1
  base h := ⟨.nil, h.2⟩
  form := by
    rintro _ _ _ ⟨_, u, rfl, h⟩
    refine .mk (hk.append (sec_bal h fun a t h _ => ?_))
    obtain ⟨u, rfl, hu⟩ := H.form h
    exact hu.paren

theorem paired {kw : List Char} {q : P β} {Z : List Char → β → List Char → Prop} (hk : Bal kw) (H : Texts p X)
    (K : Texts q Z) (hq : Ct q) :
    Texts (prefixExpr kw (pair p (preceded multispace1 q)))
      (fun g v t => Gap g ∧ Paired kw (X []) (Z []) v.1 v.2 t) where
  iff s v r := by
    constructor
    · intro h
      obtain ⟨g, t, e, hg, ht⟩ := Snd.kw2 (kw := kw) (f := id) (F := Any)
        (R := fun x => Paired kw (X []) (Z []) x.1 x.2) H.snd (.arg K.snd) (fun _ => id)
        (fun h1 h2 h3 h4 h5 => ⟨_, _, _, _, _, rfl, h1, h2, h3, h4, h5⟩) s v r (map_run h) trivial
      exact ⟨g, t, e, hg, ht⟩
    · rintro ⟨g, t, rfl, hg, g1, x, g2, y, g3, rfl, hg1, ha, hg2, hb, hg3⟩
      rw [prefix_lead hg]
      exact prefix_two hg1 (H.elem ha).1 (H.elem ha).2 hg2 hq (K.elem hb).1 (K.elem hb).2 hg3 r trivial
  gap h := h.1
  base h := ⟨.nil, h.2⟩
  form := by
    rintro _ _ _ ⟨_, g1, x, g2, y, g3, rfl, hg1, ha, hg2, hb, hg3⟩
    obtain ⟨u, rfl, hu⟩ := H.form ha
    obtain ⟨w, rfl, hw⟩ := K.form hb
    exact .mk (hk.append (hg1.bal.append (hu.paren.append (hg2.gap.bal.append (hw.paren.append hg3.bal)))))

/-! ## The texts of a parser, as given by the parser itself -/

/-- The parser reads the text as the value after the layout `g`. -/
def _root_.Pddl.Sem (p : P α) (g : List Char) (v : α) (t : List Char) : Prop :=
  Gap g ∧ Solid t ∧ p (g ++ t) = .ok v []

theorem sem {R : α → List Char → Prop} (hs : Snd Any Gap p R) (hR : ∀ v t, R v t → Form t) (ht : TailBlind p)
    (hsh : Shed p) : Texts p (Sem p) where
  iff s v r := by
    constructor
    · intro h
      obtain ⟨g, t, rfl, hg, k⟩ := hs s v r h trivial
      refine ⟨g, t, rfl, hg, (hR _ _ k).solid, ?_⟩
      have := ht (g ++ t) r v (by rw [List.append_assoc]; exact h) []
      rwa [List.append_nil] at this
    · rintro ⟨g, t, rfl, hg, _, h⟩
      have := ht (g ++ t) [] v (by rw [List.append_nil]; exact h) r
      rwa [List.append_assoc] at this
  gap h := h.1
  base := fun ⟨hg, hs, h⟩ => ⟨.nil, hs, hsh _ _ _ _ hg hs h⟩
  form := fun ⟨hg, ht, h⟩ => by
    exact form_of_snd hs hR ht (hsh _ _ _ _ hg ht h)

end Texts

/-- The texts of parts are balanced. -/
theorem Part.bal {p : P α} {X : List Char → α → List Char → Prop} {E : α → List Char → List Char → Prop}
    {R : α → List Char → Prop} (H : Part p X E) (hs : Snd Any Gap p R) (hR : ∀ v t, R v t → Bal t)
    (hR' : ∀ v t, R v t → Solid t) {g v t} (h : X g v t) : Bal t := by
  obtain ⟨g', t', e, hg', ht'⟩ := hs _ v [] (H.run h (r := []) (by intro c x e; cases e)) trivial
  have := congrArg skip e
  rw [(H.gap h).skip_solid ((H.solid h).append _), hg'.skip_solid ((hR' _ _ ht').append _)] at this
  simp only [List.append_nil] at this
  exact this ▸ hR _ _ ht'

/-! ## Atoms, goals and variable lists -/

theorem atom_texts : Texts (atomicFormula parseTerm) (fun g a t => AtomLead a g ∧ AtomX TermX TermEnds a t) where
  iff := C68_atoms
  gap h := h.1.gap
  base h := ⟨AtomLead.nil _, h.2⟩
  form := fun ⟨_, h⟩ => form_of_snd atom_snd (fun _ _ h => h.form fun _ _ h => h.bal) h.solid
    (by have := atomX_run h []; rwa [List.append_nil] at this)

theorem goal_texts : Texts parseGd (fun g v t => GoalLead v g ∧ GDX v t) where
  iff := C79_goals
  gap h := h.1.gap
  base h := ⟨GoalLead.nil _, h.2⟩
  form := fun ⟨_, h⟩ => form_of_snd parseGd_snd (fun _ _ h => h.form) h.solid (gdx_reads.mpr h).2

/-- The accepted texts of a variable list. -/
def VarListX (vs : TypedList Name) (t : List Char) : Prop :=
  ∃ w, t = paren w ∧ TypedX VarX Apart objectTy vs w

theorem varList_texts : Texts parseVarList (fun g vs t => GapC g ∧ VarListX vs t) where
  iff s v r := by
    rw [C78_variable_lists]
    constructor
    · rintro ⟨g, w, e, hg, h⟩
      exact ⟨g, _, e, hg, w, rfl, h⟩
    · rintro ⟨g, _, e, hg, w, rfl, h⟩
      exact ⟨g, w, e, hg, h⟩
  gap h := h.1.1
  base h := ⟨gapC_nil, h.2⟩
  form := by
    rintro _ v _ ⟨_, w, rfl, h⟩
    refine form_of_snd parseVarList_snd (fun _ _ h => h.form) (solid_paren w) (v := v) ?_
    exact (C78_variable_lists _ _ _).mpr ⟨[], w, by simp, gapC_nil, h⟩

end Pddl
