import Verif.Props.DurativeMeaning
import Verif.Meta.ImageEffects

/-!
# C110: effects mean what PDDL says

The parts of a conjunction are effects that are no conjunctions: PDDL has no others. `C110_nested` says what becomes
of those.
-/

namespace Pddl

/-- The text of effects. -/
def IsEffect (t : List Char) : Prop := ∃ es, ReadsAs parseEffect es t

/-- The text of an effect that is no conjunction: as a part of a conjunction it is read in the same way. -/
def IsSingleEffect (t : List Char) : Prop := ∃ x, ReadsAs parseEffect [x] t ∧ ReadsAs parseCEffect x t

/-- The text of effects that are neither quantified nor conditional. -/
def IsPlainEffect (t : List Char) : Prop := ∃ es, ReadsAs parseEffect es t ∧ AllSimple es

/-- A text is read as effects that make the change `c`. -/
def MakesChange (M : Interp) (e : M.Env) (c : Change M) (t : List Char) : Prop :=
  ∃ es, ReadsAs parseEffect es t ∧ CEffect.MakeSome M c es e

theorem IsSingleEffect.effect {t : List Char} : IsSingleEffect t → IsEffect t := fun ⟨x, h, _⟩ => ⟨[x], h⟩

theorem IsPlainEffect.effect {t : List Char} : IsPlainEffect t → IsEffect t := fun ⟨x, h, _⟩ => ⟨x, h⟩

theorem makesChange_iff {M : Interp} {e : M.Env} {c : Change M} {t : List Char} {es : List CEffect}
    (h : ReadsAs parseEffect es t) : MakesChange M e c t ↔ CEffect.MakeSome M c es e :=
  ⟨fun ⟨_, h1, h2⟩ => h.det h1 ▸ h2, fun h2 => ⟨es, h, h2⟩⟩

theorem makesChange_single {M : Interp} {e : M.Env} {c : Change M} {t : List Char} {x : CEffect}
    (h : ReadsAs parseEffect [x] t) : MakesChange M e c t ↔ CEffect.Makes M c x e := by
  rw [makesChange_iff h, CEffect.MakeSome, CEffect.MakeSome, or_false]

/-! ## The first word of a text -/

/-- A text in parentheses that begins with a word. -/
def BeginsWith (w t : List Char) : Prop := ∃ g u, t = paren (g ++ (w ++ u)) ∧ Gap g ∧ IsWord w ∧ NoWord u

theorem IsWord.solid_append {w : List Char} (h : IsWord w) (u : List Char) : Solid (w ++ u) := by
  obtain ⟨c, cs, rfl, hc, _⟩ := h
  exact .cons (isAlpha_solid hc).1 (isAlpha_solid hc).2 _

theorem BeginsWith.det {w w' t : List Char} (h : BeginsWith w t) (h' : BeginsWith w' t) : w = w' := by
  obtain ⟨g, u, rfl, hg, hw, hu⟩ := h
  obtain ⟨g', u', e, hg', hw', hu'⟩ := h'
  obtain ⟨-, e⟩ := gap_solid_inj hg hg' (hw.solid_append u) (hw'.solid_append u') (paren_inj e)
  exact (word_cut hw hu hw' hu' e).1

theorem noWord_open (x : List Char) : NoWord ('(' :: x) := by intro c r h; cases h; rfl

theorem begins_gap {w g x : List Char} (hw : IsWord w) (hg : Gap g) : BeginsWith w (paren (w ++ (g ++ '(' :: x))) :=
  ⟨[], _, rfl, .nil, hw, hg.noWord (noWord_open x)⟩

theorem Form.open {t : List Char} (h : Form t) : ∃ x, t = '(' :: x := by
  obtain ⟨u, rfl, _⟩ := h
  exact ⟨_, rfl⟩

theorem begins_not {a : AtomicFormula Term} {t : List Char} (h : Wrapped c!"not" (AtomX TermX TermEnds) a t) :
    BeginsWith c!"not" t := by
  obtain ⟨g1, x, g2, rfl, h1, hx, h2⟩ := h
  have : ∃ z, x = '(' :: z := by cases hx <;> exact ⟨_, rfl⟩
  obtain ⟨z, rfl⟩ := this
  exact begins_gap (isWord_of _ _ (by decide) (by decide)) h1

theorem begins_undefined {f : FunctionTerm} {t : List Char} (h : UndefX f t) : BeginsWith c!"assign" t := by
  obtain ⟨g1, x, b, g2, rfl, h1, hx, _⟩ := h
  obtain ⟨z, rfl⟩ := (fnTermX_form hx).open
  exact begins_gap (isWord_of _ _ (by decide) (by decide)) h1

theorem begins_object {f : FunctionTerm} {o : Term} {t : List Char} (h : ObjectX f o t) : BeginsWith c!"assign" t := by
  obtain ⟨g1, x, b, g, y, g2, rfl, h1, hx, _⟩ := h
  obtain ⟨z, rfl⟩ := (fnTermX_form hx).open
  exact begins_gap (isWord_of _ _ (by decide) (by decide)) h1

theorem begins_numeric {op : AssignOp} {h : FHead} {x : FExp} {t : List Char} (hn : NumericX op h x t) :
    ∃ w, AssignOpW op w ∧ BeginsWith w t := by
  cases hn with
  | @mk g _ w b1 _ _ _ _ _ _ _ hg hw hb =>
    refine ⟨w, hw, g, _, rfl, hg, ?_, sp_noWord hb⟩
    cases hw <;> exact isWord_of _ _ (by decide) (by decide)

theorem begins_and {es : List PEffect} {t : List Char} (h : Listed c!"and" (PEffX []) es t) : BeginsWith c!"and" t := by
  obtain ⟨u, rfl, hu⟩ := h
  refine ⟨[], u, rfl, .nil, isWord_of _ _ (by decide) (by decide), ?_⟩
  cases hu with
  | nil hg => simpa using hg.noWord (s := []) nofun
  | cons h1 h2 h3 =>
    cases h2 with
    | one h =>
      obtain ⟨z, rfl⟩ := (pEffect_texts.form h).open
      exact h1.noWord (noWord_open _)
    | cons h =>
      obtain ⟨z, rfl⟩ := (pEffect_texts.form h).open
      exact h1.noWord (noWord_open _)

theorem begins_when {g : GD} {x : CondEffect} {t : List Char} (h : Paired c!"when" GDX (CondX []) g x t) :
    BeginsWith c!"when" t := by
  obtain ⟨g1, y, g2, z, g3, rfl, h1, hy, _⟩ := h
  obtain ⟨c, z, rfl⟩ : ∃ c z, y = c :: z := by
    cases y with
    | nil => cases (gdx_form hy).1
    | cons c z => exact ⟨c, z, rfl⟩
  cases (gdx_form hy).1
  exact begins_gap (isWord_of _ _ (by decide) (by decide)) h1

theorem begins_predicate {p : Name} {ts : List Term} {t : List Char}
    (h : AtomX TermX TermEnds (.predicate p ts) t) : BeginsWith p.text t := by
  cases h with
  | @predicate g _ x _ u hg hp hs hu =>
    have : p.text = x := by rw [hp.2]; exact wordName_text x
    exact ⟨g, u, by rw [this], hg, by rw [this]; exact hp.1, hu⟩

theorem begins_equality {a b : Term} {w t : List Char} (h : AtomX TermX TermEnds (.equality a b) t) : ¬ BeginsWith w t := by
  cases h with
  | equality =>
    rintro ⟨g, u, e, hg, hw, hu⟩
    obtain ⟨-, e⟩ := gap_solid_inj .nil hg (.cons (by decide) (by decide) _) (hw.solid_append u)
      (paren_inj e : [] ++ _ = _)
    obtain ⟨c, cs, rfl, hc, _⟩ := hw
    cases (List.cons.inj e).1
    exact absurd hc (by decide)

/-! ## Simple effects -/

/-- A simple effect that does not begin with the word of another kind of effects. -/
theorem simple_reads {p : PEffect} {t : List Char} (h : PEffX [] p t) (ha : ¬ BeginsWith c!"and" t)
    (hw : ¬ BeginsWith c!"when" t) : ReadsAs parseEffect [.effect p] t ∧ ReadsAs parseCEffect (.effect p) t := by
  have h1 : CEffX [] (.effect p) t := .effect h fun _ _ k => hw (begins_when k)
  exact ⟨effect_texts.reads.mpr (.single h1 fun _ k => ha (begins_and k)), cEffect_texts.reads.mpr h1⟩

theorem simple_single {p : PEffect} {t : List Char} (h : PEffX [] p t) (ha : ¬ BeginsWith c!"and" t)
    (hw : ¬ BeginsWith c!"when" t) : IsSingleEffect t ∧ IsPlainEffect t ∧
      ∀ (M : Interp) (e : M.Env) (c : Change M), MakesChange M e c t ↔ c = p.change M e := by
  obtain ⟨h1, h2⟩ := simple_reads h ha hw
  refine ⟨⟨_, h1, h2⟩, ⟨_, h1, fun x hx => ⟨p, ?_⟩⟩, fun M e c => ?_⟩
  · simpa using hx
  · rw [makesChange_single h1, CEffect.Makes]

theorem begins_ne {w w' t : List Char} (h : BeginsWith w t) (hn : w ≠ w') : ¬ BeginsWith w' t := fun h' => hn (h.det h')

variable {t x y : List Char} (M : Interp) (e : M.Env) (c : Change M)

/-- `(p x ..)` makes that fact true. The name of the predicate is no keyword of effects. -/
theorem C110_add {p : Name} {ts : List Term} (h : ReadsAs (atomicFormula parseTerm) (.predicate p ts) t)
    (hp : p.text ∉ [c!"and", c!"when", c!"not", c!"assign", c!"change", c!"scale-up", c!"scale-down", c!"increase",
      c!"decrease"]) :
    IsSingleEffect t ∧ IsPlainEffect t ∧ (MakesChange M e c t ↔ c = .add p.text (ts.map (Term.denote M e))) := by
  obtain ⟨g, u, e1, hg, hu⟩ := (C68_atoms _ _ _).mp h.2
  have := solid_whole h.1 e1 hg.gap hu.solid
  subst this
  have hd := begins_predicate hu
  simp only [List.mem_cons, List.not_mem_nil, or_false, not_or] at hp
  obtain ⟨k1, k2, k3, k4, k5, k6, k7, k8, k9⟩ := hp
  obtain ⟨h1, h2, h3⟩ := simple_single (.atomic (.nil _) hu (fun _ k => k3 (hd.det (begins_not k)))
    (fun _ k => k4 (hd.det (begins_undefined k))) (fun _ _ k => k4 (hd.det (begins_object k)))
    (fun _ _ _ k => by
      obtain ⟨w, hw, k⟩ := begins_numeric k
      have := hd.det k
      cases hw <;> contradiction)) (begins_ne hd k1) (begins_ne hd k2)
  exact ⟨h1, h2, h3 M e c⟩

/-- `(not (p x ..))` makes that fact false. -/
theorem C110_delete {p : Name} {ts : List Term}
    (h : Wrapped c!"not" (ReadsAs (atomicFormula parseTerm)) (.predicate p ts) t) :
    IsSingleEffect t ∧ IsPlainEffect t ∧ (MakesChange M e c t ↔ c = .delete p.text (ts.map (Term.denote M e))) := by
  obtain ⟨g1, x, g2, rfl, h1, hx, h2⟩ := h
  obtain ⟨g, u, e1, hg, hu⟩ := (C68_atoms _ _ _).mp hx.2
  have := solid_whole hx.1 e1 hg.gap hu.solid
  subst this
  have hw : Wrapped c!"not" (AtomX TermX TermEnds) (.predicate p ts) (paren (c!"not" ++ (g1 ++ (x ++ g2)))) :=
    ⟨g1, x, g2, rfl, h1, hu, h2⟩
  have hd := begins_not hw
  obtain ⟨h1, h2, h3⟩ := simple_single (.notAtomic .nil hw) (begins_ne hd (by decide)) (begins_ne hd (by decide))
  exact ⟨h1, h2, h3 M e c⟩

/-- `(op (f x ..) n)` changes the number of `f`, unless it is `(assign (f x ..) (g y ..))` (C100). -/
theorem C110_number {op : AssignOp} {h : FHead} {a : FExp} (hs : ReadsAs numericAssign (op, h, a) t)
    (hn : ¬ BothAssign h a t) :
    IsSingleEffect t ∧ IsPlainEffect t ∧
      (MakesChange M e c t ↔ c = .number op (h.fluent M e).1 (h.fluent M e).2 (a.denote M e)) := by
  have hp := (C100_assignment_iff t op h a [] hs.2).mpr (by
    rintro ⟨g, u, e1, hg, hb⟩
    have := solid_whole hs.1 e1 hg (by obtain ⟨_, _, _, _, _, _, rfl, _⟩ := hb; exact solid_paren _)
    subst this
    exact hn hb)
  have hX := pEffect_texts.reads.mp (⟨hs.1, hp⟩ : ReadsAs parsePEffect _ t)
  cases hX with
  | numeric _ hX k1 k2 =>
    obtain ⟨w, hw, hd⟩ := begins_numeric hX
    obtain ⟨h1, h2, h3⟩ := simple_single (.numeric gapC_nil hX k1 k2) (begins_ne hd (by cases hw <;> decide))
      (begins_ne hd (by cases hw <;> decide))
    refine ⟨h1, h2, (h3 M e c).trans ?_⟩
    cases h <;> exact Iff.rfl

/-- `(assign (f x ..) undefined)` takes the object of `f` away. -/
theorem C110_undefined {f : FunctionTerm} {g1 b g2 : List Char} (hg1 : Gap g1) (hx : ReadsAs parseFunctionTerm f x)
    (hb : Sp b) (hg2 : Gap g2) (ht : t = paren (c!"assign" ++ (g1 ++ (x ++ (b ++ (c!"undefined" ++ g2)))))) :
    IsSingleEffect t ∧ IsPlainEffect t ∧
      (MakesChange M e c t ↔ c = .object f.symbol.text (f.terms.map (Term.denote M e)) none) := by
  obtain ⟨u, e1, hu⟩ := (C68_function_terms _ _ _).mp hx.2
  rw [List.append_nil] at e1
  subst e1
  have hX : UndefX f t := ⟨g1, x, b, g2, ht, hg1, hu, hb, hg2⟩
  have hd := begins_undefined hX
  obtain ⟨h1, h2, h3⟩ := simple_single (.undefined .nil hX) (begins_ne hd (by decide)) (begins_ne hd (by decide))
  exact ⟨h1, h2, h3 M e c⟩

/-- `(assign (f x ..) o)` makes `o` the object of `f`. -/
theorem C110_object {f : FunctionTerm} {o : Term} {g1 b g2 : List Char} (hg1 : Gap g1)
    (hx : ReadsAs parseFunctionTerm f x) (hb : Sp b) (hy : ReadsAs parseTerm o y) (hg2 : Gap g2)
    (hu : y ≠ c!"undefined") (ht : t = paren (c!"assign" ++ (g1 ++ (x ++ (b ++ (y ++ g2)))))) :
    IsSingleEffect t ∧ IsPlainEffect t ∧
      (MakesChange M e c t ↔ c = .object f.symbol.text (f.terms.map (Term.denote M e)) (some (o.denote M e))) := by
  obtain ⟨u, e1, hfx⟩ := (C68_function_terms _ _ _).mp hx.2
  rw [List.append_nil] at e1
  subst e1
  obtain ⟨g, z, e1, hg, hoy, -⟩ := (C68_terms _ _ _).mp hy.2
  have : y = z := by simpa using solid_whole hy.1 e1 (by cases hoy <;> first | exact hg | (cases hg; exact .nil)) (termX_solid hoy)
  subst this
  have hX : ObjectX f o t := ⟨g1, x, b, [], y, g2, ht, hg1, hfx, hb, gapC_nil, (by cases o <;> first | exact .nil | rfl), hoy, hg2⟩
  have hd := begins_object hX
  have hnu : ∀ f, ¬ UndefX f t := by
    rintro f' ⟨k1, x', b', k2, e2, hk1, hx', hb', hk2⟩
    rw [ht] at e2
    have e3 := List.append_cancel_left (paren_inj e2)
    obtain ⟨-, e4⟩ := gap_solid_inj hg1 hk1 ((fnTermX_form hfx).solid.append _) ((fnTermX_form hx').solid.append _) e3
    have r1 := fnTermX_run hfx (b ++ (y ++ g2))
    rw [e4, fnTermX_run hx'] at r1
    injection r1 with _ r1
    have e5 := sp_nonblank_inj hb' hb ⟨_, _, rfl, by decide⟩ (gapC_nonblank gapC_nil (hy.1.append g2)) r1
    have hk : ∀ {g : List Char}, Gap g → NoWord g := fun hg => by simpa using hg.noWord (s := []) nofun
    cases hoy with
    | name h =>
      exact hu (word_cut h.1 (hk hg2) (isWord_of _ _ (by decide) (by decide)) (hk hk2) e5.symm).1
    | var => cases (List.cons.inj e5).1
    | fn => cases (List.cons.inj e5).1
  obtain ⟨h1, h2, h3⟩ := simple_single (.object .nil hX hnu) (begins_ne hd (by decide)) (begins_ne hd (by decide))
  exact ⟨h1, h2, h3 M e c⟩

/-! ## Effects of effects -/

/-- `(when x y)` makes the changes of `y` if `x` is true. -/
theorem C110_when (h : Paired c!"when" (fun x t => t = x ∧ IsGoal x) (fun y t => t = y ∧ IsPlainEffect y) x y t) :
    IsSingleEffect t ∧ (MakesChange M e c t ↔ IsTrue M e x ∧ MakesChange M e c y) := by
  obtain ⟨g1, _, g2, _, g3, rfl, h1, ⟨rfl, a, ha⟩, h2, ⟨rfl, es, hb, hs⟩, h3⟩ := h
  obtain ⟨v, k1, k2⟩ := C102_effect_conditional _ es [] hb.2 hs
  have h4 := C73_effect_when.mpr ⟨g1, _, g2, _, g3, rfl, h1, ha, h2, ⟨hb.1, k1⟩, h3⟩
  have h5 : ReadsAs parseEffect [.when a v] _ := effect_texts.reads.mpr (.single (cEffect_texts.reads.mp h4)
    fun _ k => by
      obtain ⟨u, e1, _⟩ := k
      cases (List.cons.inj (paren_inj e1)).1)
  exact ⟨⟨_, h5, h4⟩, by rw [makesChange_single h5, makesChange_iff hb, isTrue_iff ha, CEffect.Makes, k2 M e c]⟩

/-- `(forall (v ..) x)` makes the changes that `x` makes for some objects of the types of the variables. -/
theorem C110_forall {vs : TypedList Name}
    (h : Paired c!"forall" (ReadsAs parseVarList) (fun x t => t = x ∧ IsEffect x) vs x t) :
    IsSingleEffect t ∧ (MakesChange M e c t ↔ ForSome M vs e fun e => MakesChange M e c x) := by
  obtain ⟨g1, w, g2, _, g3, rfl, h1, hw, h2, ⟨rfl, b, hb⟩, h3⟩ := h
  have h4 := C73_effect_forall.mpr ⟨g1, w, g2, _, g3, rfl, h1, hw, h2, hb, h3⟩
  have h5 : ReadsAs parseEffect [.forall_ vs b] _ := effect_texts.reads.mpr (.single (cEffect_texts.reads.mp h4)
    fun _ k => by
      obtain ⟨u, e1, _⟩ := k
      cases (List.cons.inj (paren_inj e1)).1)
  exact ⟨⟨_, h5, h4⟩, by
    rw [makesChange_single h5, CEffect.Makes]; exact ForSome.congr (fun e => (makesChange_iff hb).symm) vs e⟩

theorem effects_of_texts {ts : List (List Char)} {u : List Char}
    (h : Items (fun x t => t = x ∧ IsSingleEffect x) ts u) :
    ∃ es, Items (ReadsAs parseCEffect) es u ∧ ((∀ x ∈ ts, IsPlainEffect x) → AllSimple es) ∧
      ∀ (M : Interp) (e : M.Env) (c : Change M), CEffect.MakeSome M c es e ↔ ∃ x ∈ ts, MakesChange M e c x := by
  have key : ∀ {x v}, ReadsAs parseEffect [v] x → IsPlainEffect x → ∃ p, v = .effect p := fun h1 ⟨es, h2, h3⟩ => by
    cases h1.det h2
    exact h3 _ List.mem_cons_self
  induction h with
  | one h =>
    obtain ⟨rfl, x, hx, hx'⟩ := h
    refine ⟨[x], .one hx', fun hp y hy => ?_, fun M e c => ?_⟩
    · cases List.mem_singleton.mp hy
      exact key hx (hp _ List.mem_cons_self)
    · simp [CEffect.MakeSome, makesChange_single hx]
  | cons h hs _ ih =>
    obtain ⟨rfl, x, hx, hx'⟩ := h
    obtain ⟨es, h1, h2, h3⟩ := ih
    refine ⟨x :: es, .cons hx' hs h1, fun hp y hy => ?_, fun M e c => ?_⟩
    · rcases List.mem_cons.mp hy with rfl | hy
      · exact key hx (hp _ List.mem_cons_self)
      · exact h2 (fun x hx => hp x (by simp [hx])) y hy
    · simp [CEffect.MakeSome, makesChange_single hx, h3 M e c]

/-- `(and x ..)` makes the changes of its parts. -/
theorem C110_and {ts : List (List Char)} (h : Listed c!"and" (fun x t => t = x ∧ IsSingleEffect x) ts t) :
    IsEffect t ∧ ((∀ x ∈ ts, IsPlainEffect x) → IsPlainEffect t) ∧
      (MakesChange M e c t ↔ ∃ x ∈ ts, MakesChange M e c x) := by
  obtain ⟨u, rfl, hu⟩ := h
  cases hu with
  | nil hg =>
    have h3 := C73_effect_and ⟨u, rfl, .nil hg⟩
    exact ⟨⟨_, h3⟩, fun _ => ⟨_, h3, nofun⟩, by rw [makesChange_iff h3, CEffect.MakeSome]; simp⟩
  | cons h1 h2 h3 =>
    obtain ⟨es, k1, k2, k3⟩ := effects_of_texts h2
    have h4 := C73_effect_and ⟨_, rfl, .cons h1 k1 h3⟩
    exact ⟨⟨_, h4⟩, fun hp => ⟨_, h4, k2 hp⟩, by rw [makesChange_iff h4, k3]⟩

/-- A conjunction in a conjunction, whose parts can be function terms, is no conjunction: it makes a fact with the
name `and` true. -/
theorem C110_nested {ts : List Term} {u g1 g2 : List Char} (hu : Sec Gap (· = []) (Items TermX) ts u)
    (hn : NoWord u) (hg1 : Gap g1) (hg2 : Gap g2) (ht : t = paren (c!"and" ++ (g1 ++ (paren (c!"and" ++ u) ++ g2)))) :
    IsEffect t ∧ (MakesChange M e c t ↔ c = .add c!"and" (ts.map (Term.denote M e))) := by
  have ha : AtomX TermX TermEnds (.predicate (wordName c!"and") ts) (paren (c!"and" ++ u)) :=
    .predicate (g := []) .nil ⟨isWord_of _ _ (by decide) (by decide), rfl⟩ hu hn
  have hd := begins_predicate ha
  have h1 : CEffX [] (.effect (.atomic (.predicate (wordName c!"and") ts))) (paren (c!"and" ++ u)) := by
    refine .effect (.atomic gapC_nil ha ?_ ?_ ?_ ?_) ?_
    · exact fun _ k => begins_ne hd (by decide) (begins_not k)
    · exact fun _ k => begins_ne hd (by decide) (begins_undefined k)
    · exact fun _ _ k => begins_ne hd (by decide) (begins_object k)
    · intro _ _ _ k
      obtain ⟨w, hw, k⟩ := begins_numeric k
      exact begins_ne hd (by cases hw <;> decide) k
    · exact fun _ _ k => begins_ne hd (by decide) (begins_when k)
  have h2 : ReadsAs parseEffect [.effect (.atomic (.predicate (wordName c!"and") ts))] t :=
    C73_effect_and ⟨g1 ++ (paren (c!"and" ++ u) ++ g2), ht, .cons hg1 (.one (cEffect_texts.reads.mpr h1)) hg2⟩
  refine ⟨⟨_, h2⟩, ?_⟩
  rw [makesChange_single h2, CEffect.Makes]
  exact Iff.rfl

/-! ## Instances -/

/-- In a state where `p` is true of 0 only: the conditional effect counts, what is assigned depends on the state. -/
example (e : exInterp.Env) :
    MakesChange exInterp e (.add c!"q" [(1 : Nat)]) c!"(forall (?x) (and (when (not (p ?x)) (q ?x)) (increase (f) (g))))" ∧
    ¬ MakesChange exInterp e (.add c!"q" [(0 : Nat)]) c!"(forall (?x) (and (when (not (p ?x)) (q ?x)) (increase (f) (g))))" ∧
    MakesChange exInterp e (.delete c!"and" []) c!"(and;c
 (not( and)))" := by
  have h1 : ReadsAs parseEffect _ c!"(forall (?x) (and (when (not (p ?x)) (q ?x)) (increase (f) (g))))" :=
    ⟨solid_open _, rfl⟩
  have h2 : ReadsAs parseEffect _ c!"(and;c
 (not( and)))" := ⟨solid_open _, rfl⟩
  refine ⟨(makesChange_iff h1).mpr ?_, mt (makesChange_iff h1).mp ?_, (makesChange_iff h2).mpr (.inl rfl)⟩
  · refine .inl ⟨(1 : Nat), (by decide : (1 : Nat) < 3), .inl ⟨fun h => ?_, rfl⟩⟩
    injection (h.2 : [(1 : Nat)] = [0]) with h
    cases h
  · rintro (⟨o, -, ⟨h, k⟩ | k | k⟩ | k)
    · injection k with _ k
      injection k with k
      exact h ⟨rfl, congrArg (fun x => [x]) k.symm⟩
    · cases k
    · exact k
    · exact k

/-- An instance of `C110_nested`. -/
example (e : exInterp.Env) : MakesChange exInterp e (.add c!"and" [(1 : Nat)]) c!"(and (and (p)))" ∧
    ¬ MakesChange exInterp e (.add c!"p" []) c!"(and (and (p)))" := by
  have hp : TermX (.fn (wordName c!"p") []) c!"(p)" :=
    .fn (g := []) (u := []) .nil ⟨isWord_of _ _ (by decide) (by decide), rfl⟩ (.nil .nil) nofun
  have hu : Sec Gap (· = []) (Items TermX) [.fn (wordName c!"p") []] c!" (p)" :=
    Sec.cons (g := c!" ") (t := c!"(p)") (g' := []) (.space (by decide) .nil) (Items.one hp) rfl
  have h := fun c => (C110_nested (t := c!"(and (and (p)))") exInterp e c (g1 := c!" ") (g2 := []) hu (noWord_space _)
    (.space (by decide) .nil) .nil rfl).2
  refine ⟨(h _).mpr rfl, mt (h _).mp ?_⟩
  intro k
  injection k with k
  cases k

/-- An instance of `C110_object`, of `C110_undefined` and of `C110_number`. -/
example (e : exInterp.Env) : MakesChange exInterp e (.object c!"f" [] (some (0 : Nat))) c!"(assign (f) undefinedly)" ∧
    MakesChange exInterp e (.object c!"f" [] none) c!"(assign (f) undefined)" ∧
    MakesChange exInterp e (.number .assign c!"f" [] (2 : Nat)) c!"(assign f (g))" := by
  have hf : ReadsAs parseFunctionTerm ⟨.str c!"f", []⟩ c!"(f)" := ⟨solid_open _, rfl⟩
  have hb : Sp c!" " := ⟨by decide, by unfold Sp0; decide⟩
  refine ⟨(C110_object exInterp e _ (b := c!" ") (y := c!"undefinedly") (o := .name (.str c!"undefinedly"))
      (.space (c := ' ') (by decide) .nil) hf hb
    ⟨.cons (by decide) (by decide) _, rfl⟩ .nil (by decide) rfl).2.2.mpr rfl,
    (C110_undefined exInterp e _ (b := c!" ") (.space (c := ' ') (by decide) .nil) hf hb .nil rfl).2.2.mpr rfl, ?_⟩
  exact (makesChange_iff (es := [.effect (.assignNumeric .assign (.simple (.str c!"f")) (.function (.simple (.str c!"g"))))])
    ⟨solid_open _, rfl⟩).mpr (.inl rfl)

end Pddl
