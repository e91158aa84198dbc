import Verif.Props.ConstraintsX

/-!
# C83: the exact texts of durative conditions and effects
-/

namespace Pddl

/-- The accepted texts of a timed goal. -/
inductive TimedGDX : TimedGD → List Char → Prop
  | at {ts v t} : Paired c!"at" (fun o x => x = TimeSpecifier.spell o) GDX ts v t → TimedGDX (.at ts v) t
  | over {i v t} : Paired c!"over" (fun o x => x = Interval.spell o) GDX i v t → TimedGDX (.over i v) t

/-- The accepted texts of a timed goal with an optional preference. -/
inductive PrefTimedX : PrefTimedGD → List Char → Prop
  | named {n v t} : Paired c!"preference" NameW TimedGDX n v t → PrefTimedX (.preference (some n) v) t
  | anonymous {v t} : Wrapped c!"preference" TimedGDX v t → PrefTimedX (.preference none v) t
  | required {v t} : TimedGDX v t → PrefTimedX (.required v) t

/-- The accepted texts of a durative condition. -/
inductive DaGDX : DaGD → List Char → Prop
  | and {vs u} : Sec Gap Gap (Items DaGDX) vs u → DaGDX (.and vs) (paren (c!"and" ++ u))
  | forall_ {g1 vs w g2 b y g3} : Gap g1 → TypedX VarX Apart objectTy vs w → Sep g2 → DaGDX b y → Gap g3 →
      DaGDX (.forall_ vs b) (paren (c!"forall" ++ (g1 ++ (paren w ++ (g2 ++ (y ++ g3))))))
  | timed {v t} : PrefTimedX v t → DaGDX (.timed v) t

/-- The texts of an assignment in a durative effect. -/
def AssignDaX (a : FAssignDa) (t : List Char) : Prop :=
  OpForm AssignOpW (fun g h t => HeadLead t g ∧ FHeadX h t) FExpDaX (a.op, a.head, a.exp) t

/-- The accepted texts of a timed effect, with the layout `g` in front. A text that can be read as an
assignment of a number is not read as a conditional effect. -/
inductive TimedEffX : List Char → TimedEffect → List Char → Prop
  | assign {g ts a t} : Gap g → Paired c!"at" (fun o x => x = TimeSpecifier.spell o) AssignDaX ts a t →
      TimedEffX g (.numericFluent ts a) t
  | conditional {g ts e t} : Gap g → Paired c!"at" (fun o x => x = TimeSpecifier.spell o) (CondX []) ts e t →
      (∀ ts a, ¬ Paired c!"at" (fun o x => x = TimeSpecifier.spell o) AssignDaX ts a t) →
      TimedEffX g (.conditional ts e) t
  | continuous {g op h e t} : GapC g → OpForm (fun o t => t = AssignOpT.spell o)
      (fun g h t => HeadLead t g ∧ FHeadX h t) FExpTX (op, h, e) t → TimedEffX g (.continuous op h e) t

/-- The accepted texts of a durative effect. -/
inductive DaEffX : List Char → DaEffect → List Char → Prop
  | all {g vs u} : Gap g → Sec Gap Gap (Items (DaEffX [])) vs u → DaEffX g (.all vs) (paren (c!"and" ++ u))
  | forall_ {g g1 vs w g2 b y g3} : Gap g → Gap g1 → TypedX VarX Apart objectTy vs w → Sep g2 → DaEffX [] b y →
      Gap g3 → DaEffX g (.forall_ vs b) (paren (c!"forall" ++ (g1 ++ (paren w ++ (g2 ++ (y ++ g3))))))
  | when {g c e t} : Gap g → Paired c!"when" DaGDX (TimedEffX []) c e t → DaEffX g (.when c e) t
  | timed {g e t} : TimedEffX g e t → DaEffX g (.timed e) t

/-! ## Conditions -/

theorem timedGdx_reads {v : TimedGD} {t : List Char} : ReadsAs parseTimedGd v t ↔ TimedGDX v t := by
  cases v with
  | «at» ts v =>
    rw [C73_timed_at]
    exact ⟨fun h => .at (h.imp (fun _ h => h) fun _ => gdx_reads.mp),
      fun h => by cases h with | «at» h => exact h.imp (fun _ h => h) fun _ => gdx_reads.mpr⟩
  | over i v =>
    rw [C73_timed_over]
    exact ⟨fun h => .over (h.imp (fun _ h => h) fun _ => gdx_reads.mp),
      fun h => by cases h with | over h => exact h.imp (fun _ h => h) fun _ => gdx_reads.mpr⟩

theorem TimedGDX.head {v : TimedGD} {t : List Char} (h : TimedGDX v t) : Head c!"at" t ∨ Head c!"over" t := by
  cases h with
  | «at» h => exact .inl h.head
  | over h => exact .inr h.head

theorem TimedGDX.kw_miss {v : TimedGD} {t : List Char} (h : TimedGDX v t) {kw : List Char} {p : P α}
    (h1 : ∀ x, stripPrefix kw (c!"at" ++ x) = none) (h2 : ∀ x, stripPrefix kw (c!"over" ++ x) = none)
    (r : List Char) : prefixExpr kw p (t ++ r) = .err := by
  rcases h.head with ⟨u, rfl⟩ | ⟨u, rfl⟩
  · exact Pddl.kw_miss h1 u r
  · exact Pddl.kw_miss h2 u r

theorem prefTimedX_reads {v : PrefTimedGD} {t : List Char} : ReadsAs parsePrefTimedGd v t ↔ PrefTimedX v t := by
  cases v with
  | preference n v =>
    cases n with
    | some n =>
      rw [C73_timed_preference_named]
      exact ⟨fun h => .named (h.imp (fun _ h => h) fun _ => timedGdx_reads.mp),
        fun h => by cases h with | named h => exact h.imp (fun _ h => h) fun _ => timedGdx_reads.mpr⟩
    | none =>
      rw [C73_timed_preference_anonymous]
      exact ⟨fun h => .anonymous (h.imp fun _ => timedGdx_reads.mp),
        fun h => by cases h with | anonymous h => exact h.imp fun _ => timedGdx_reads.mpr⟩
  | required v =>
    constructor
    · exact fun h => .required (timedGdx_reads.mp (C73_timed_required h))
    · intro h
      cases h with
      | required h =>
        have k := timedGdx_reads.mpr h
        refine .of k.1 ?_
        rw [parsePrefTimedGd, alt_miss (map_err (h.kw_miss (fun _ => rfl) (fun _ => rfl) []))]
        exact alt_hit (map_run (k.run C28_timed_goals []))

theorem PrefTimedX.kw_miss {v : PrefTimedGD} {t : List Char} (h : PrefTimedX v t) {kw : List Char} {p : P α}
    (h1 : ∀ x, stripPrefix kw (c!"at" ++ x) = none) (h2 : ∀ x, stripPrefix kw (c!"over" ++ x) = none)
    (h3 : ∀ x, stripPrefix kw (c!"preference" ++ x) = none) (r : List Char) : prefixExpr kw p (t ++ r) = .err := by
  cases h with
  | named h =>
    obtain ⟨u, rfl⟩ := h.head
    exact Pddl.kw_miss h3 u r
  | anonymous h =>
    obtain ⟨u, rfl⟩ := h.head
    exact Pddl.kw_miss h3 u r
  | required h => exact h.kw_miss h1 h2 r

theorem DaGDX.solid {v : DaGD} {t : List Char} (h : DaGDX v t) : Solid t := by
  cases h with
  | timed h => exact (prefTimedX_reads.mpr h).1
  | _ => exact solid_paren _

theorem daGdx_aux (n : Nat) : ∀ v t, t.length ≤ n → (ReadsAs parseDaGd v t ↔ DaGDX v t) := by
  induction n with
  | zero =>
    intro v t hl
    have : t = [] := List.length_eq_zero_iff.mp (Nat.le_zero.mp hl)
    exact ⟨fun h => absurd this h.1.ne, fun h => absurd this h.solid.ne⟩
  | succ n ih =>
    intro v t hl
    cases v with
    | and vs =>
      rw [C73_da_condition_and]
      constructor
      · rintro ⟨u, rfl, h⟩
        simp only [paren, List.length_cons, List.length_append, List.length_nil] at hl
        exact .and (h.mono fun w h hw => h.mono fun a x h hx => (ih a x (by omega)).mp h)
      · intro h
        cases h with
        | and h =>
          simp only [paren, List.length_cons, List.length_append, List.length_nil] at hl
          exact ⟨_, rfl, h.mono fun w h hw => h.mono fun a x h hx => (ih a x (by omega)).mpr h⟩
    | forall_ vs b =>
      rw [C73_da_condition_forall]
      constructor
      · rintro ⟨g1, x, g2, y, g3, rfl, hg1, hx, hg2, hy, hg3⟩
        simp only [paren, List.length_cons, List.length_append, List.length_nil] at hl
        obtain ⟨w, rfl, hw⟩ := varList_reads.mp hx
        exact .forall_ hg1 hw hg2 ((ih b y (by omega)).mp hy) hg3
      · intro h
        cases h with
        | forall_ hg1 hw hg2 hy hg3 =>
          simp only [paren, List.length_cons, List.length_append, List.length_nil] at hl
          exact ⟨_, _, _, _, _, rfl, hg1, varList_reads.mpr ⟨_, rfl, hw⟩, hg2, (ih b _ (by omega)).mpr hy, hg3⟩
    | timed v =>
      constructor
      · exact fun h => .timed (prefTimedX_reads.mp (C73_da_condition_timed h))
      · intro h
        cases h with
        | timed h =>
          have k := prefTimedX_reads.mpr h
          refine .of k.1 ?_
          rw [parseDaGd_eq, daGdBody, alt_miss (map_err (h.kw_miss (fun _ => rfl) (fun _ => rfl) (fun _ => rfl) [])),
            alt_miss (map_err (h.kw_miss (fun _ => rfl) (fun _ => rfl) (fun _ => rfl) []))]
          exact alt_hit (map_run (k.run C28_pref_timed_goals []))

theorem daGdx_reads {v : DaGD} {t : List Char} : ReadsAs parseDaGd v t ↔ DaGDX v t := daGdx_aux _ v t (Nat.le_refl _)

theorem timedGd_texts : Texts parseTimedGd (fun g v t => Gap g ∧ TimedGDX v t) :=
  .of_reads parseTimedGd_snd (fun _ _ h => h.form) C28_timed_goals C29_timed_goals fun _ _ => timedGdx_reads

theorem prefTimedGd_texts : Texts parsePrefTimedGd (fun g v t => Gap g ∧ PrefTimedX v t) :=
  .of_reads parsePrefTimedGd_snd (fun _ _ h => h.form) C28_pref_timed_goals C29_pref_timed_goals
    fun _ _ => prefTimedX_reads

theorem daGd_texts : Texts parseDaGd (fun g v t => Gap g ∧ DaGDX v t) :=
  .of_reads parseDaGd_snd (fun _ _ h => h.form) C28_da_conditions C29_da_conditions fun _ _ => daGdx_reads

/-- C83, timed goals. -/
theorem C83_timed_goals (s : List Char) (v : TimedGD) (r : List Char) :
    parseTimedGd s = .ok v r ↔ ∃ g t, s = g ++ (t ++ r) ∧ Gap g ∧ TimedGDX v t := timedGd_texts.iff s v r

/-- C83, timed goals with preferences. -/
theorem C83_timed_preferences (s : List Char) (v : PrefTimedGD) (r : List Char) :
    parsePrefTimedGd s = .ok v r ↔ ∃ g t, s = g ++ (t ++ r) ∧ Gap g ∧ PrefTimedX v t := prefTimedGd_texts.iff s v r

/-- C83, durative conditions. -/
theorem C83_conditions (s : List Char) (v : DaGD) (r : List Char) :
    parseDaGd s = .ok v r ↔ ∃ g t, s = g ++ (t ++ r) ∧ Gap g ∧ DaGDX v t := daGd_texts.iff s v r

/-! ## Assignments on the texts of conditional effects -/

theorem assignDa_texts : Texts parseFAssignDa (fun g a t => GapC g ∧ AssignDaX a t) where
  iff s v r := C77_assignments s v.op v.head v.exp r
  gap h := h.1.1
  base h := ⟨gapC_nil, h.2⟩
  form := fun {g v t} ⟨_, h⟩ => form_of_snd parseFAssignDa_snd (fun _ _ h => h.form)
    (by cases h; exact solid_paren _) (v := v) ((C77_assignments t v.op v.head v.exp []).mpr ⟨[], t, by simp, gapC_nil, h⟩)

theorem fExpDa_lead {g s : List Char} (hg : GapC g) (hs : Solid s) (h1 : binP parseFExpDa s = .err)
    (h2 : mulP parseFExpDa s = .err) (h3 : negP parseFExpDa s = .err) (h4 : OkErr (parseFExp (g ++ s))) :
    OkErr (parseFExpDa (g ++ s)) := by
  have hp : ∀ {β : Type} {p : P β}, parens p (g ++ s) = parens p s := fun {β p} => by
    rw [← Ct.parens (p := p) (g ++ s), hg.skipC_solid hs]
  rw [parseFExpDa_eq, fExpDaBody]
  refine .alt_cons (.map (.of_mild (k := 0) .tag (.mono (by good) (Nat.zero_le _)))) ?_
  rw [alt_miss (map_err (hp.trans h1)), alt_miss (map_err (hp.trans h2)), alt_miss (map_err (hp.trans h3))]
  exact .alt_cons (.map h4) .alt_nil

/-- The durative expression at the text of a term. -/
theorem fExpDa_calm {g : List Char} (hg : GapC g) {a : Term} {x : List Char} (h : TermX a x) (y : List Char) :
    OkErr (parseFExpDa (g ++ (x ++ y))) := by
  obtain ⟨h1, h2, h3, _⟩ := termX_op_miss (self := parseFExpDa) h y
  exact fExpDa_lead hg ((termX_solid h).append y) h1 h2 h3 (fExp_calm hg h y)

theorem fExpDa_close_calm {g : List Char} (hg : GapC g) (y : List Char) : OkErr (parseFExpDa (g ++ ')' :: y)) :=
  fExpDa_lead hg (solid_close y) (parens_head (by decide) (by decide)) (parens_head (by decide) (by decide))
    (parens_head (by decide) (by decide)) (fExp_close_calm hg y)

/-- The assignment at `(assign f o)`, where `f` is a function term and `o` a term. -/
theorem assignDa_object {f : FunctionTerm} {o : Term} {g1 x b g y g2 : List Char} (hg1 : Gap g1) (hx : FnTermX f x)
    (hb : Sp b) (hg : GapC g) (hy : TermX o y) (r : List Char) :
    OkErr (parseFAssignDa (paren (c!"assign" ++ (g1 ++ (x ++ (b ++ (g ++ (y ++ g2)))))) ++ r)) := by
  have hx' : TermX (.fn f.symbol f.terms) x := by
    cases hx with
    | mk h1 h2 h3 h4 => exact .fn h1 h2 h3 h4
  simp only [paren_append, List.append_assoc]
  refine .map (.parens ?_)
  rw [show ∀ z, skip (c!"assign" ++ z) = c!"assign" ++ z from fun _ => rfl]
  refine .pair (assignOp_calm _) fun op z ho => ?_
  have : parseAssignOp (c!"assign" ++ (g1 ++ (x ++ (b ++ (g ++ (y ++ (g2 ++ ')' :: r))))))) =
    .ok .assign (g1 ++ (x ++ (b ++ (g ++ (y ++ (g2 ++ ')' :: r)))))) := rfl
  rw [this] at ho
  cases ho
  refine .pair (.after hg1 ((termX_solid hx').append _) fun _ => fHead_calm _) fun v z hv => ?_
  obtain rfl := fHead_rest hx' (Stop.sp hb _).word (pms1_ok parseFHead_ct hg1 ((termX_solid hx').append _) hv)
  rw [pms1_gapC hb hg ((termX_solid hy).append _)]
  exact fExpDa_calm hg hy _

theorem NumericX.toDa {op : AssignOp} {h : FHead} {e : FExp} {t : List Char} (k : NumericX op h e t) :
    ∃ e', AssignDaX ⟨op, h, e'⟩ t := by
  cases k with
  | mk hg hw hb1 hg1 k1 hb2 hg2 k2 =>
    obtain ⟨e', k2⟩ := FExpX.toDa k2
    exact ⟨e', .mk hg hw hb1 hg1 k1 hb2 hg2 k2⟩

/-- An assignment is read, or rejected without a failure, at every conditional effect. -/
theorem assignDa_calm {e : CondEffect} {t : List Char} (h : CondX [] e t) (r : List Char) :
    OkErr (parseFAssignDa (t ++ r)) := by
  have hk : ∀ {kw t : List Char}, Head kw t → (∀ x, skip (kw ++ x) = kw ++ x) → (∀ x, parseAssignOp (kw ++ x) = .err) →
      OkErr (parseFAssignDa (t ++ r)) := by
    rintro kw _ ⟨u, rfl⟩ hs hb
    simp only [paren_append, List.append_assoc]
    refine .map (.parens (.inr ?_))
    rw [hs]
    exact pair_err (hb _)
  cases h with
  | all _ h => exact hk h.head (fun _ => rfl) fun _ => rfl
  | single h _ =>
    cases h with
    | notAtomic _ h => exact hk h.head (fun _ => rfl) fun _ => rfl
    | undefined _ h =>
      obtain ⟨g1, x, b, g2, rfl, hg1, hx, hb, hg2⟩ := h
      have := assignDa_object (g2 := g2) hg1 hx hb gapC_nil (.name (n := wordName c!"undefined")
        ⟨isWord_of _ _ (by decide) (by decide), rfl⟩) r
      exact this
    | object _ h =>
      obtain ⟨g1, x, b, g, y, g2, rfl, hg1, hx, hb, hg, _, hy, hg2⟩ := h
      exact assignDa_object hg1 hx hb hg hy r
    | numeric _ h =>
      obtain ⟨e', h⟩ := h.toDa
      exact .inl ⟨_, _, assignDa_texts.run0 (g := []) ⟨gapC_nil, h⟩ r⟩
    | atomic _ h =>
      exact .map (assign_calm (fun hg h y => fExpDa_calm hg h y) (fun hg y => fExpDa_close_calm hg y) .nil h r)

/-! ## Timed effects -/

/-- `(kw a x)`, where `a` is a word. -/
theorem Texts.headed {kw : List Char} {p : P α} {R : α → List Char → Prop} {q : P β}
    {Z : List Char → β → List Char → Prop} (hk : Bal kw) (hp : Snd Any Nil p R) (he : ∀ a x, R a x → Elem p a x)
    (hb : ∀ a x, R a x → Bal x) (K : Texts q Z) (hq : Ct q) :
    Texts (prefixExpr kw (pair p (preceded multispace1 q))) (fun g v t => Gap g ∧ Paired kw R (Z []) v.1 v.2 t) where
  iff s v r := by
    constructor
    · intro h
      obtain ⟨g, t, e, hg, ht⟩ := Snd.kw2 (kw := kw) (f := id) (F := Any)
        (R := fun x => Paired kw R (Z []) x.1 x.2) hp (.arg K.snd) Nil.gap
        (fun h1 h2 h3 h4 h5 => ⟨_, _, _, _, _, rfl, h1, h2, h3, h4, h5⟩) s v r (map_run h) trivial
      exact ⟨g, t, e, hg, ht⟩
    · rintro ⟨g, t, rfl, hg, g1, x, g2, y, g3, rfl, hg1, ha, hg2, hb, hg3⟩
      rw [prefix_lead hg]
      exact prefix_two hg1 (he _ _ ha).1 (he _ _ ha).2 hg2 hq (K.elem hb).1 (K.elem hb).2 hg3 r trivial
  gap h := h.1
  base h := ⟨.nil, h.2⟩
  form := by
    rintro _ _ _ ⟨_, g1, x, g2, y, g3, rfl, hg1, ha, hg2, hb', hg3⟩
    obtain ⟨w, rfl, hw⟩ := K.form hb'
    exact .mk (hk.append (hg1.bal.append ((hb _ _ ha).append (hg2.gap.bal.append (hw.paren.append hg3.bal)))))

theorem spell_bal (a : TimeSpecifier) : Bal a.spell := by cases a <;> exact .of_kw (by decide)

theorem at_texts {q : P β} {Z : List Char → β → List Char → Prop} (K : Texts q Z) (hq : Ct q) :
    Texts (prefixExpr c!"at" (pair parseTimeSpecifier (preceded multispace1 q)))
      (fun g v t => Gap g ∧ Paired c!"at" (fun o x => x = TimeSpecifier.spell o) (Z []) v.1 v.2 t) :=
  .headed (.of_kw (by decide)) parseTimeSpecifier_snd (fun v _ e => e ▸ TimeSpecifier.elem v)
    (fun v _ e => e ▸ spell_bal v) K hq

/-- The texts of a continuous effect. -/
def ContinuousX (v : AssignOpT × FHead × FExpT) (t : List Char) : Prop :=
  OpForm (fun o t => t = AssignOpT.spell o) (fun g h t => HeadLead t g ∧ FHeadX h t) FExpTX v t

theorem continuous_texts : Texts (parens (pair parseAssignOpT
    (pair (preceded multispace1 parseFHead) (preceded multispace1 parseFExpT))))
    (fun g v t => GapC g ∧ ContinuousX v t) where
  iff := opForm_iff assignOpT_part fHead_part fExpT_part
  gap h := h.1.1
  base h := ⟨gapC_nil, h.2⟩
  form := fun {g v t} ⟨_, h⟩ => by
    refine form_of_snd parseTimedEffect_snd (fun _ _ h => h.form) (by cases h; exact solid_paren _)
      (v := .continuous v.1 v.2.1 v.2.2) ((C77_continuous_effects t v.1 v.2.1 v.2.2 []).mpr ⟨[], t, by simp, gapC_nil, h⟩)

theorem ContinuousX.kw_miss {v : AssignOpT × FHead × FExpT} {t : List Char} (h : ContinuousX v t) {k : Char}
    {ks : List Char} {p : P α} (h1 : k ≠ 'i') (h2 : k ≠ 'd') (hs : isSpace k = false) (hk : k ≠ ';') (r : List Char) :
    prefixExpr (k :: ks) p (t ++ r) = .err := by
  cases h with
  | @mk _ o _ _ _ _ _ _ _ _ _ hg hw =>
    cases hw
    simp only [paren_append, List.append_assoc]
    cases o
    · exact kw_gap_miss hg h1 hs hk
    · exact kw_gap_miss hg h2 hs hk

theorem timedEffect_texts : Texts parseTimedEffect TimedEffX := by
  have T3 := (continuous_texts.map fun x : AssignOpT × FHead × FExpT => TimedEffect.continuous x.1 x.2.1 x.2.2).one
  have T2 := ((at_texts condEffect_texts parseCondEffect_ct).map
    fun x : TimeSpecifier × CondEffect => TimedEffect.conditional x.1 x.2).alt_apart T3 (by
      rintro g v t ⟨x, rfl, hg, h⟩ r
      rw [map_prefix_lead hg.1]
      exact map_err (h.kw_miss (by decide) (by decide) (by decide) (by decide) r))
  have T1 := ((at_texts assignDa_texts parseFAssignDa_ct).map
    fun x : TimeSpecifier × FAssignDa => TimedEffect.numericFluent x.1 x.2).alt T2
    (by
      rintro g v t (⟨x, rfl, hg, h⟩ | ⟨x, rfl, hg, h⟩) r
      · rw [map_prefix_lead hg]
        obtain ⟨g1, _, g2, y, g3, rfl, hg1, rfl, hg2, hy, hg3⟩ := h
        simp only [paren_append, List.append_assoc]
        refine .map (.prefixExpr fun z e => ?_)
        cases List.append_cancel_left e
        have hE := TimeSpecifier.elem x.1
        rw [hg1.skip_solid (hE.2.append _)]
        refine .pair (.inl ⟨_, _, hE.1 _ (.sep hg2 _)⟩) fun v z e => ?_
        rw [hE.1 _ (.sep hg2 _)] at e
        cases e
        rw [pms1_sep parseFAssignDa_ct hg2 ((condEffect_texts.solid hy).append _)]
        exact assignDa_calm hy _
      · rw [map_prefix_lead hg.1]
        exact .inr (map_err (h.kw_miss (by decide) (by decide) (by decide) (by decide) r)))
    (fun h ⟨x, e, _, k⟩ => ⟨x, e, T2.gap h, k⟩)
  refine T1.congr fun {g v t} => ⟨?_, ?_⟩
  · rintro (⟨x, rfl, hg, h⟩ | ⟨⟨x, rfl, hg, h⟩ | ⟨x, rfl, hg, h⟩, hn⟩)
    · exact .assign hg (h.imp (fun _ h => h) fun _ h => h.2)
    · exact .conditional hg h fun ts a k => hn _ ⟨(ts, a), rfl, .nil, k.imp (fun _ h => h) fun _ h => ⟨gapC_nil, h⟩⟩
    · exact .continuous hg h
  · intro h
    cases h with
    | assign hg h => exact .inl ⟨(_, _), rfl, hg, h.imp (fun _ h => h) fun _ h => ⟨gapC_nil, h⟩⟩
    | conditional hg h hn =>
      refine .inr ⟨.inl ⟨(_, _), rfl, hg, h⟩, ?_⟩
      rintro _ ⟨x, rfl, _, k⟩
      exact hn _ _ (k.imp (fun _ h => h) fun _ h => h.2)
    | continuous hg h =>
      refine .inr ⟨.inr ⟨(_, _, _), rfl, hg, h⟩, ?_⟩
      rintro _ ⟨x, rfl, _, k⟩
      have := (at_texts assignDa_texts parseFAssignDa_ct).run0 ⟨Gap.nil, k⟩ []
      rw [ContinuousX.kw_miss h (by decide) (by decide) (by decide) (by decide)] at this
      cases this

/-! ## Durative effects -/

theorem TimedEffX.kw_miss {g : List Char} {v : TimedEffect} {t : List Char} (h : TimedEffX g v t) {k : Char}
    {ks : List Char} {p : P α} (h1 : k ≠ 'i') (h2 : k ≠ 'd') (hs : isSpace k = false) (hk : k ≠ ';')
    (ha : ∀ x, stripPrefix (k :: ks) (c!"at" ++ x) = none) (r : List Char) :
    prefixExpr (k :: ks) p (t ++ r) = .err := by
  cases h with
  | assign _ h =>
    obtain ⟨u, rfl⟩ := h.head
    exact Pddl.kw_miss ha u r
  | conditional _ h =>
    obtain ⟨u, rfl⟩ := h.head
    exact Pddl.kw_miss ha u r
  | continuous _ h => exact ContinuousX.kw_miss h h1 h2 hs hk r

theorem daEffect_sem : Texts parseDaEffect (Sem parseDaEffect) :=
  .sem parseDaEffect_snd (fun _ _ h => h.form) C28_da_effects parseDaEffect_shed

/-- The texts of a durative effect, where the parts are what the parser reads. -/
inductive DaEffX1 : List Char → DaEffect → List Char → Prop
  | all {g vs t} : Gap g → Listed c!"and" (Sem parseDaEffect []) vs t → DaEffX1 g (.all vs) t
  | forall_ {g vs b t} : Gap g → Paired c!"forall" VarListX (Sem parseDaEffect []) vs b t → DaEffX1 g (.forall_ vs b) t
  | when {g c e t} : Gap g → Paired c!"when" DaGDX (TimedEffX []) c e t → DaEffX1 g (.when c e) t
  | timed {g e t} : TimedEffX g e t → DaEffX1 g (.timed e) t

theorem daEffect_texts1 : Texts parseDaEffect DaEffX1 := by
  have T4 := (timedEffect_texts.map DaEffect.timed).one
  have T3 := ((daGd_texts.paired (kw := c!"when") (.of_kw (by decide)) timedEffect_texts parseTimedEffect_ct).map
    fun x : DaGD × TimedEffect => DaEffect.when x.1 x.2).alt_apart T4 (by
      rintro g v t ⟨x, rfl, h⟩ r
      rw [map_prefix_lead (timedEffect_texts.gap h)]
      exact map_err (h.kw_miss (by decide) (by decide) (by decide) (by decide) (fun _ => rfl) r))
  have T2 := ((varList_texts.paired (kw := c!"forall") (.of_kw (by decide)) daEffect_sem parseDaEffect_ct).map
    fun x : TypedList Name × DaEffect => DaEffect.forall_ x.1 x.2).alt_apart T3 (by
      rintro g v t (⟨x, rfl, hg, h⟩ | ⟨x, rfl, h⟩) r
      · rw [map_prefix_lead hg]
        obtain ⟨u, rfl⟩ := h.head
        exact map_err (Pddl.kw_miss (fun _ => rfl) u r)
      · rw [map_prefix_lead (timedEffect_texts.gap h)]
        exact map_err (h.kw_miss (by decide) (by decide) (by decide) (by decide) (fun _ => rfl) r))
  have T1 := ((daEffect_sem.listed (kw := c!"and") (.of_kw (by decide)) parseDaEffect_par.close).map
    DaEffect.all).alt_apart T2 (by
      rintro g v t (⟨x, rfl, hg, h⟩ | ⟨x, rfl, hg, h⟩ | ⟨x, rfl, h⟩) r
      · rw [map_prefix_lead hg]
        obtain ⟨u, rfl⟩ := h.head
        exact map_err (Pddl.kw_miss (fun _ => rfl) u r)
      · rw [map_prefix_lead hg]
        obtain ⟨u, rfl⟩ := h.head
        exact map_err (Pddl.kw_miss (fun _ => rfl) u r)
      · rw [map_prefix_lead (timedEffect_texts.gap h)]
        exact map_err (h.kw_miss (by decide) (by decide) (by decide) (by decide) (fun _ => rfl) r))
  refine Texts.congr (p := parseDaEffect) (by rw [parseDaEffect_eq]; exact T1) fun {g v t} => ⟨?_, ?_⟩
  · rintro (⟨x, rfl, hg, h⟩ | ⟨x, rfl, hg, h⟩ | ⟨x, rfl, hg, h⟩ | ⟨x, rfl, h⟩)
    · exact .all hg h
    · exact .forall_ hg (h.imp (fun _ h => h.2) fun _ h => h)
    · exact .when hg (h.imp (fun _ h => h.2) fun _ h => h)
    · exact .timed h
  · intro h
    cases h with
    | all hg h => exact .inl ⟨_, rfl, hg, h⟩
    | forall_ hg h => exact .inr (.inl ⟨(_, _), rfl, hg, h.imp (fun _ h => ⟨gapC_nil, h⟩) fun _ h => h⟩)
    | when hg h => exact .inr (.inr (.inl ⟨(_, _), rfl, hg, h.imp (fun _ h => ⟨.nil, h⟩) fun _ h => h⟩))
    | timed h => exact .inr (.inr (.inr ⟨_, rfl, h⟩))

theorem daEffX_aux (n : Nat) : ∀ g v t, t.length < n → (Sem parseDaEffect g v t ↔ DaEffX g v t) := by
  induction n with
  | zero => exact fun _ _ _ h => absurd h (Nat.not_lt_zero _)
  | succ n ih =>
    intro g v t hl
    rw [daEffect_sem.eqv daEffect_texts1]
    constructor
    · intro h
      cases h with
      | all hg h =>
        obtain ⟨u, rfl, h⟩ := h
        refine .all hg (h.mono fun w h hw => h.mono fun a x h hx => (ih _ _ _ ?_).mp h)
        simp only [paren, List.length_cons, List.length_append, List.length_nil] at hl
        omega
      | forall_ hg h =>
        obtain ⟨g1, x, g2, y, g3, rfl, hg1, ⟨w, rfl, hw⟩, hg2, he, hg3⟩ := h
        refine .forall_ hg hg1 hw hg2 ((ih _ _ _ ?_).mp he) hg3
        simp only [paren, List.length_cons, List.length_append, List.length_nil] at hl
        omega
      | when hg h => exact .when hg h
      | timed h => exact .timed h
    · intro h
      cases h with
      | all hg h =>
        refine .all hg ⟨_, rfl, h.mono fun w h hw => h.mono fun a x h hx => (ih _ _ _ ?_).mpr h⟩
        simp only [paren, List.length_cons, List.length_append, List.length_nil] at hl
        omega
      | forall_ hg hg1 hw hg2 he hg3 =>
        refine .forall_ hg ⟨_, _, _, _, _, rfl, hg1, ⟨_, rfl, hw⟩, hg2, (ih _ _ _ ?_).mpr he, hg3⟩
        simp only [paren, List.length_cons, List.length_append, List.length_nil] at hl
        omega
      | when hg h => exact .when hg h
      | timed h => exact .timed h

theorem daEffect_texts : Texts parseDaEffect DaEffX :=
  daEffect_sem.congr fun {g v t} => daEffX_aux _ g v t (Nat.lt_succ_self _)

/-- C83, timed effects. -/
theorem C83_timed_effects (s : List Char) (v : TimedEffect) (r : List Char) :
    parseTimedEffect s = .ok v r ↔ ∃ g t, s = g ++ (t ++ r) ∧ TimedEffX g v t := timedEffect_texts.iff s v r

/-- C83, durative effects. -/
theorem C83_effects (s : List Char) (v : DaEffect) (r : List Char) :
    parseDaEffect s = .ok v r ↔ ∃ g t, s = g ++ (t ++ r) ∧ DaEffX g v t := daEffect_texts.iff s v r

/-- A preference on a timed goal under a quantifier, with layout that is not needed. -/
example : ∃ t, DaGDX (.forall_ [⟨Ex.nm c!"x", objectTy⟩] (.timed (.preference none
      (.over .all (.atomic (.predicate (Ex.nm c!"p") [])))))) t ∧
    t = c!"(forall(?x) (preference(over all (p))))" := by
  obtain ⟨g, t, e, hg, h⟩ := (C83_conditions c!"(forall(?x) (preference(over all (p))))" _ []).mp rfl
  have := solid_whole (solid_open _) e hg (daGd_texts.solid (g := []) ⟨.nil, h⟩)
  subst this
  exact ⟨_, h, rfl⟩

/-- A quantified effect and a conditional effect, as the parts of a conjunction. -/
example : ∃ t, DaEffX [] (.all [.forall_ [⟨Ex.nm c!"x", objectTy⟩]
      (.timed (.conditional .end_ (.single (.notAtomic (.predicate (Ex.nm c!"q") []))))),
      .when (.and []) (.conditional .start (.single (.atomic (.predicate (Ex.nm c!"p") []))))]) t ∧
    t = c!"(and(forall(?x) (at end (not(q)))) (when(and) (at start (p))))" := by
  obtain ⟨g, t, e, h⟩ := (C83_effects c!"(and(forall(?x) (at end (not(q)))) (when(and) (at start (p))))" _ []).mp rfl
  have := solid_whole (solid_open _) e (daEffect_texts.gap h) (daEffect_texts.solid h)
  subst this
  exact ⟨_, daEffect_texts.base h, rfl⟩

/-- An assignment to `undefined` at a time is read as one of a number, and one of an object is not. -/
example : (∃ a, parseTimedEffect c!"(at start (assign (f) undefined))" = .ok (.numericFluent .start a) []) ∧
    (∃ e, parseTimedEffect c!"(at start (assign (f) ?x))" = .ok (.conditional .start e) []) ∧
    (∃ o h e, parseTimedEffect c!"(increase (f) #t)" = .ok (.continuous o h e) []) :=
  ⟨⟨_, rfl⟩, ⟨_, rfl⟩, _, _, _, rfl⟩

end Pddl
