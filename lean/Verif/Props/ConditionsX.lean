import Verif.Meta.OkErr

/-!
# C80: the exact texts of preferences and preconditions
-/

namespace Pddl

/-- The accepted texts of a goal with an optional preference. A text that can be read as a
preference is not read as a goal. -/
inductive PrefGDX : PrefGD → List Char → Prop
  | named {n v t} : Paired c!"preference" NameW GDX n v t → PrefGDX (.preference (some n) v) t
  | anonymous {v t} : Wrapped c!"preference" GDX v t → PrefGDX (.preference none v) t
  | goal {v t} : GDX v t → (∀ n w, ¬ Paired c!"preference" NameW GDX n w t) →
      (∀ w, ¬ Wrapped c!"preference" GDX w t) → PrefGDX (.goal v) t

/-- Layout skipped in front of it. -/
def PrefLead : PrefGD → List Char → Prop
  | .goal v, g => GoalLead v g
  | _, g => Gap g

/-- The accepted texts of a precondition, with the layout `g` in front. Conjunctions are flattened, so
the value of a text is a list. -/
inductive PreX : List Char → List PreGD → List Char → Prop
  | forall_ {g g1 vs w g2 b y g3} : Gap g → Gap g1 → TypedX VarX Apart objectTy vs w → Sep g2 →
      PreX [] b y → Gap g3 →
      PreX g [.forall_ vs b] (paren (c!"forall" ++ (g1 ++ (paren w ++ (g2 ++ (y ++ g3))))))
  | and {g vss u} : Gap g → Sec Gap Gap (Items (PreX [])) vss u → PreX g vss.flatten (paren (c!"and" ++ u))
  | other {g p t} : PrefLead p g → PrefGDX p t → (∀ vs, p ≠ .goal (.and vs)) →
      (∀ vs b, p ≠ .goal (.forall_ vs b)) → PreX g [.preference p] t

/-! ## Goals -/

theorem GoalLead.gap {v : GD} {g : List Char} (h : GoalLead v g) : Gap g := by
  cases v with
  | atomic a => exact AtomLead.gap h
  | fComp => exact h.1
  | _ => exact h

theorem GoalLead.nil (v : GD) : GoalLead v [] := by
  cases v with
  | atomic a => exact AtomLead.nil a
  | fComp => exact gapC_nil
  | _ => exact Gap.nil

theorem gdx_reads {v : GD} {t : List Char} : ReadsAs parseGd v t ↔ GDX v t :=
  ⟨.of_reads _ v t (Nat.le_refl _), GDX.reads _ v t (Nat.le_refl _)⟩

theorem gdx_run {v : GD} {t : List Char} (h : GDX v t) (r : List Char) : parseGd (t ++ r) = .ok v r :=
  C28_goals t [] v (by rw [List.append_nil]; exact (gdx_reads.mpr h).2) r

theorem gdx_form {v : GD} {t : List Char} (h : GDX v t) : OneForm t :=
  oneForm_of C27_goals h.solid (gdx_reads.mpr h).2

theorem Paired.imp {kw : List Char} {R R' : α → List Char → Prop} {S S' : β → List Char → Prop} {a b t}
    (h : Paired kw R S a b t) (h1 : ∀ t, R a t → R' a t) (h2 : ∀ t, S b t → S' b t) : Paired kw R' S' a b t := by
  obtain ⟨g1, x, g2, y, g3, e, h3, h4, h5, h6, h7⟩ := h
  exact ⟨g1, x, g2, y, g3, e, h3, h1 _ h4, h5, h2 _ h6, h7⟩

theorem Wrapped.imp {kw : List Char} {R R' : α → List Char → Prop} {v t}
    (h : Wrapped kw R v t) (h1 : ∀ t, R v t → R' v t) : Wrapped kw R' v t := by
  obtain ⟨g1, x, g2, e, h3, h4, h5⟩ := h
  exact ⟨g1, x, g2, e, h3, h1 _ h4, h5⟩

/-- A goal that is no atom begins with one of six keywords or with an operator. -/
theorem gdx_miss {v : GD} {t : List Char} (h : GDX v t) (hv : ∀ a, v ≠ .atomic a) {kw : List Char} (hkw : IsWord kw)
    (hk : ∀ k, v.keyword = some k → ∀ x, stripPrefix kw (k ++ x) = none)
    (p : P α) (r : List Char) : prefixExpr kw p (t ++ r) = .err := by
  cases h with
  | atomic => exact absurd rfl (hv _)
  | fComp h => exact opForm_kw h hkw p r
  | _ => exact kw_miss (hk _ rfl) _ r

theorem atomX_gdx {a : AtomicFormula Term} {t : List Char} (h : AtomX TermX TermEnds a t) : ∃ v, GDX v t := by
  obtain ⟨v, hv⟩ := gd_reads_atom (parseGd_fnRead _) h (Nat.le_refl _)
  exact ⟨v, gdx_reads.mp (.of h.solid (hv []))⟩

theorem reads_of_ok {p : P α} (h1 : Snd Any Gap p (ReadsAs p)) (h2 : OneFormOnly p) {t r r' : List Char} {v : α}
    (ht : OneForm t) (h : p (t ++ r) = .ok v r') : ReadsAs p v t ∧ r' = r := by
  obtain ⟨g, u, e, hg, hu⟩ := h1 _ v r' h trivial
  have hs := congrArg skip e
  rw [(ht.solid.append r).skip, hg.skip_solid (hu.1.append r')] at hs
  obtain rfl := ht.unique (oneForm_of h2 hu.1 hu.2) hs
  exact ⟨hu, (List.append_cancel_left hs).symm⟩

theorem ReadsAs.run {p : P α} (hp : TailBlind p) {v : α} {t : List Char} (h : ReadsAs p v t) (r : List Char) :
    p (t ++ r) = .ok v r := hp t [] v (by rw [List.append_nil]; exact h.2) r

theorem ReadsAs.det {p : P α} {v w : α} {t : List Char} (h : ReadsAs p v t) (h' : ReadsAs p w t) : v = w := by
  have := h.2
  rw [h'.2] at this
  cases this
  rfl

/-- The first alternatives skip layout. -/
theorem alt_front {ps qs : List (P α)} {g x r : List Char} {v : α} (hb : alt ps (g ++ x) = alt ps x)
    (h : alt (ps ++ qs) x = .ok v r) (hq : alt qs x ≠ .ok v r) : alt (ps ++ qs) (g ++ x) = .ok v r := by
  rcases alt_append_inv h with h | h
  · exact alt_append_ok (by rw [hb]; exact h)
  · exact absurd h hq

/-! ## Preferences -/

theorem isWord_forall' : IsWord c!"forall" := isWord_of _ _ (by decide) (by decide)

theorem FnRead.single {q : P α} {n : Nat} (H : FnRead q n) {kw : List Char} (hkw : IsWord kw)
    {a : AtomicFormula Term} {t : List Char} (h : AtomX TermX TermEnds a t) (ht : t.length ≤ n) (r : List Char) :
    OkErr (prefixExpr kw q (t ++ r)) := by
  cases h with
  | equality =>
    simp only [paren_append, List.append_assoc, List.cons_append, List.nil_append]
    exact .inr (kw_equality hkw _)
  | @predicate g p t vs u hg hp hs hu =>
    have hl : u.length < n := by
      simp only [paren, List.length_cons, List.length_append, List.length_nil] at ht
      omega
    simp only [paren_append, List.append_assoc]
    by_cases e : g = [] ∧ t = kw
    · obtain ⟨rfl, rfl⟩ := e
      have := H.one t hs hl r
      by_cases hx : ∃ x, vs = [x] ∧ IsFn x
      · obtain ⟨v, hv⟩ := this.1 hx
        exact .inl ⟨_, _, hv⟩
      · exact .inr (this.2 hx)
    · exact .inr (kw_other hkw H.par.nw hg hp.1 ((NoWord.close r).mpr hu) fun h1 h2 => e ⟨h1, h2⟩)

theorem pref_calm {v : GD} {t : List Char} (h : GDX v t) (r : List Char) :
    OkErr (prefixExpr c!"preference" (pair (opt parsePrefName) (preceded multispace1 parseGd)) (t ++ r)) ∧
    OkErr (prefixExpr c!"preference" parseGd (t ++ r)) := by
  by_cases hv : ∃ a, v = .atomic a
  · obtain ⟨a, rfl⟩ := hv
    cases h with
    | atomic h hs =>
      exact ⟨(parseGd_fnRead _).named parseGd_ct isWord_preference h (Nat.le_refl _) r,
        (parseGd_fnRead _).single isWord_preference h (Nat.le_refl _) r⟩
  · have hk : ∀ k, v.keyword = some k → ∀ x, stripPrefix c!"preference" (k ++ x) = none := by
      intro k hk x
      cases v <;> cases hk <;> rfl
    have hv : ∀ a, v ≠ .atomic a := fun a e => hv ⟨a, e⟩
    exact ⟨.inr (gdx_miss h hv isWord_preference hk _ r), .inr (gdx_miss h hv isWord_preference hk _ r)⟩

/-- The first two alternatives of `parse_pref_gd`. -/
def kwPrefs : List (P PrefGD) := [
  map (fun x : Option Name × GD => PrefGD.preference x.1 x.2)
    (prefixExpr c!"preference" (pair (opt parsePrefName) (preceded multispace1 parseGd))),
  map (PrefGD.preference none) (prefixExpr c!"preference" parseGd)]

theorem parsePrefGd_kw : parsePrefGd = alt (kwPrefs ++ [map PrefGD.goal parseGd]) := rfl

theorem kwPrefs_lead {g s : List Char} (hg : Gap g) : alt kwPrefs (g ++ s) = alt kwPrefs s := by
  unfold kwPrefs
  simp only [alt, map_prefix_lead hg]

theorem kwPrefs_calm {v : GD} {t : List Char} (h : GDX v t) (r : List Char) : OkErr (alt kwPrefs (t ++ r)) :=
  .alt_cons (.map (pref_calm h r).1) (.alt_cons (.map (pref_calm h r).2) .alt_nil)

theorem kwPrefs_value {s r : List Char} {v : PrefGD} (h : alt kwPrefs s = .ok v r) : ∃ n w, v = .preference n w := by
  unfold kwPrefs at h
  rcases alt_inv h with h | ⟨_, h⟩
  · obtain ⟨_, _, e⟩ := map_ok h
    exact ⟨_, _, e⟩
  rcases alt_inv h with h | ⟨_, h⟩
  · obtain ⟨_, _, e⟩ := map_ok h
    exact ⟨_, _, e⟩
  · cases h

theorem pref_run {v : GD} {t : List Char} (h : GDX v t) : ∃ w, ∀ r, parsePrefGd (t ++ r) = .ok w r := by
  have : ∃ w r', parsePrefGd (t ++ []) = .ok w r' := by
    rw [parsePrefGd_kw]
    rcases kwPrefs_calm h [] with ⟨w, r', e⟩ | e
    · exact ⟨w, r', alt_append_ok e⟩
    · rw [alt_append_err e]
      exact ⟨_, _, alt_hit (map_run (gdx_run h []))⟩
  obtain ⟨w, r', hw⟩ := this
  obtain ⟨h1, _⟩ := reads_of_ok parsePrefGd_parts C27_preferences (gdx_form h) hw
  exact ⟨w, h1.run C28_preferences⟩

theorem named_reads {n : Name} {v : GD} {t : List Char} :
    ReadsAs parsePrefGd (.preference (some n) v) t ↔ Paired c!"preference" NameW GDX n v t :=
  C73_preference_named.trans ⟨fun h => h.imp (fun _ h => h) fun _ => gdx_reads.mp,
    fun h => h.imp (fun _ h => h) fun _ => gdx_reads.mpr⟩

theorem anonymous_reads {v : GD} {t : List Char} :
    ReadsAs parsePrefGd (.preference none v) t ↔ Wrapped c!"preference" GDX v t :=
  C73_preference_anonymous.trans ⟨fun h => h.imp fun _ => gdx_reads.mp, fun h => h.imp fun _ => gdx_reads.mpr⟩

theorem kwPrefs_miss {v : GD} {t : List Char} (h : GDX v t) (h1 : ∀ n w, ¬ Paired c!"preference" NameW GDX n w t)
    (h2 : ∀ w, ¬ Wrapped c!"preference" GDX w t) (r : List Char) : alt kwPrefs (t ++ r) = .err := by
  refine (kwPrefs_calm h r).err_of fun w r' e => ?_
  obtain ⟨n, w, rfl⟩ := kwPrefs_value e
  obtain ⟨hr, _⟩ := reads_of_ok parsePrefGd_parts C27_preferences (gdx_form h)
    (show parsePrefGd (t ++ r) = .ok _ r' by rw [parsePrefGd_kw]; exact alt_append_ok e)
  cases n with
  | some n => exact h1 n w (named_reads.mp hr)
  | none => exact h2 w (anonymous_reads.mp hr)

theorem prefGdx_reads {p : PrefGD} {t : List Char} : ReadsAs parsePrefGd p t ↔ PrefGDX p t := by
  constructor
  · intro h
    cases p with
    | preference n v =>
      cases n with
      | some n => exact .named (named_reads.mp h)
      | none => exact .anonymous (anonymous_reads.mp h)
    | goal v =>
      exact .goal (gdx_reads.mp (C73_preference_goal h)) (fun n w h' => nomatch h.det (named_reads.mpr h'))
        (fun w h' => nomatch h.det (anonymous_reads.mpr h'))
  · intro h
    cases h with
    | named h => exact named_reads.mpr h
    | anonymous h => exact anonymous_reads.mpr h
    | goal h h1 h2 =>
      refine .of h.solid ?_
      rw [parsePrefGd_kw, alt_append_err (kwPrefs_miss h h1 h2 [])]
      exact alt_hit (map_run (gdx_run h []))

/-- C80, preferences: exactly these texts are read, each as this preference or goal. -/
theorem C80_preferences (s : List Char) (v : PrefGD) (r : List Char) :
    parsePrefGd s = .ok v r ↔ ∃ g t, s = g ++ (t ++ r) ∧ PrefLead v g ∧ PrefGDX v t := by
  constructor
  · intro h
    cases v with
    | preference n v =>
      obtain ⟨g, t, e, hg, ht⟩ := parsePrefGd_parts s _ r h trivial
      exact ⟨g, t, e, hg, prefGdx_reads.mp ht⟩
    | goal v =>
      have h0 := h
      rw [parsePrefGd_kw] at h0
      rcases alt_append_inv h0 with h0 | h0
      · obtain ⟨_, _, e⟩ := kwPrefs_value h0
        cases e
      · rcases alt_inv h0 with h0 | ⟨_, h0⟩
        · obtain ⟨_, h1, e⟩ := map_ok h0
          cases e
          obtain ⟨g, t, rfl, hg, ht⟩ := (C79_goals _ _ _).mp h1
          refine ⟨g, t, rfl, hg, prefGdx_reads.mp ⟨ht.solid, ?_⟩⟩
          have := parsePrefGd_shed g (t ++ r) _ r hg.gap (ht.solid.append r) h
          have := C28_preferences t r _ this []
          rwa [List.append_nil] at this
        · cases h0
  · rintro ⟨g, t, rfl, hg, h⟩
    have h0 := (prefGdx_reads.mpr h).run C28_preferences r
    rw [parsePrefGd_kw] at h0 ⊢
    cases v with
    | preference n v =>
      refine alt_front (kwPrefs_lead hg) h0 fun e => ?_
      rcases alt_inv e with e | ⟨_, e⟩
      · obtain ⟨_, _, e⟩ := map_ok e
        cases e
      · cases e
    | goal v =>
      cases h with
      | goal h h1 h2 =>
        rw [alt_append_err (by rw [kwPrefs_lead hg.gap]; exact kwPrefs_miss h h1 h2 r)]
        exact alt_hit (map_run ((C79_goals _ _ _).mpr ⟨g, t, rfl, hg, h⟩))

/-! ## Preconditions -/

/-- The first two alternatives of `parse_pre_gd`. -/
def kwPres : List (P (List PreGD)) := [
  map (fun x : TypedList Name × List PreGD => [PreGD.forall_ x.1 x.2])
    (prefixExpr c!"forall" (pair parseVarList (preceded multispace1 parsePreGd))),
  map List.flatten (prefixExpr c!"and" (spaceSeparatedList0 parsePreGd))]

theorem parsePreGd_kw : parsePreGd = alt (kwPres ++ [map (fun x => [PreGD.preference x]) parsePrefGd]) := by
  rw [parsePreGd_eq, preGdBody]
  rfl

theorem kwPres_lead {g s : List Char} (hg : Gap g) : alt kwPres (g ++ s) = alt kwPres s := by
  unfold kwPres
  simp only [alt, map_prefix_lead hg]

theorem isWord_and' : IsWord c!"and" := isWord_of _ _ (by decide) (by decide)

/-- `(forall (vars) ..)` is no atom. -/
theorem forall_atom {p : P β} {a : AtomicFormula Term} {t : List Char} (h : AtomX TermX TermEnds a t)
    (r : List Char) : prefixExpr c!"forall" (pair parseVarList p) (t ++ r) = .err := by
  cases h with
  | equality =>
    simp only [paren_append, List.append_assoc, List.cons_append, List.nil_append]
    exact kw_equality isWord_forall' _
  | @predicate g n t vs u hg hp hs hu =>
    simp only [paren_append, List.append_assoc]
    by_cases e : g = [] ∧ t = c!"forall"
    · obtain ⟨rfl, rfl⟩ := e
      exact varList_miss _ hs r
    · exact kw_other isWord_forall' (Par.pair parseVarList_par).nw hg hp.1 ((NoWord.close r).mpr hu)
        fun h1 h2 => e ⟨h1, h2⟩

/-- A conjunction of parts that is no conjunction of goals is no conjunction of other parts. -/
theorem FnRead.and_atom {q : P α} {m : Nat} (H : FnRead q m) {a : AtomicFormula Term} {t : List Char}
    (h : AtomX TermX TermEnds a t) (ht : t.length ≤ m) (hs : ¬ Shadowed a t)
    (r : List Char) : prefixExpr c!"and" (spaceSeparatedList0 q) (t ++ r) = .err := by
  cases h with
  | equality =>
    simp only [paren_append, List.append_assoc, List.cons_append, List.nil_append]
    exact kw_equality isWord_and' _
  | @predicate g n t vs u hg hp hsec hu =>
    have hl : u.length < m := by
      simp only [paren, List.length_cons, List.length_append, List.length_nil] at ht
      omega
    simp only [paren_append, List.append_assoc]
    by_cases e : g = [] ∧ t = c!"and"
    · obtain ⟨rfl, rfl⟩ := e
      refine (H.all c!"and" hsec hl r).2 fun ha => hs (.and ?_ ha)
      rw [hp.2]
      exact wordName_text _
    · exact kw_other isWord_and' (.list0 H.par) hg hp.1 ((NoWord.close r).mpr hu)
        fun h1 h2 => e ⟨h1, h2⟩

theorem Items.choose {R : α → List Char → Prop} {R' : β → List Char → Prop} {as u} (h : Items R as u)
    (hR : ∀ a t, R a t → t.length ≤ u.length → ∃ b, R' b t) : ∃ bs, Items R' bs u := by
  induction h with
  | one h =>
    obtain ⟨b, hb⟩ := hR _ _ h (Nat.le_refl _)
    exact ⟨_, .one hb⟩
  | cons h hg _ ih =>
    obtain ⟨b, hb⟩ := hR _ _ h (by simp)
    obtain ⟨bs, hbs⟩ := ih fun a t h hl => hR a t h (by simp only [List.length_append] at hl ⊢; omega)
    exact ⟨_, .cons hb hg hbs⟩

theorem Sec.choose {B : List α → List Char → Prop} {B' : List β → List Char → Prop}
    {lead trail : List Char → Prop} {xs u} (h : Sec lead trail B xs u)
    (hB : ∀ t, B xs t → t.length ≤ u.length → ∃ ys, B' ys t) : ∃ ys, Sec lead trail B' ys u := by
  cases h with
  | nil hg => exact ⟨_, .nil hg⟩
  | cons hg h hg' =>
    obtain ⟨ys, hy⟩ := hB _ h (by simp only [List.length_append]; omega)
    exact ⟨ys, .cons hg hy hg'⟩

/-- Every text of a goal is read as a precondition. -/
theorem pre_run (n : Nat) : ∀ v t, t.length ≤ n → GDX v t → ∃ w, ReadsAs parsePreGd w t := by
  induction n with
  | zero =>
    intro v t hl h
    exact absurd (List.length_eq_zero_iff.mp (Nat.le_zero.mp hl)) h.solid.ne
  | succ n ih =>
    intro v t hl h
    have H : FnRead parsePreGd (n + 1) := ⟨fun f ts x hx hf => by
      obtain ⟨v, hv⟩ := atomX_gdx (termX_atom hf)
      obtain ⟨w, hw⟩ := ih v x (by omega) hv
      exact ⟨w, hw.run C28_preconditions⟩, parsePreGd_par⟩
    have last : alt kwPres (t ++ []) = .err → ∃ w, ReadsAs parsePreGd w t := fun e => by
      obtain ⟨w, hw⟩ := pref_run h
      refine ⟨[.preference w], .of h.solid ?_⟩
      rw [parsePreGd_kw, alt_append_err e]
      exact alt_hit (map_run (hw []))
    by_cases hv : ∃ a, v = .atomic a
    · obtain ⟨a, rfl⟩ := hv
      cases h with
      | atomic h hs =>
        refine last ?_
        unfold kwPres
        rw [alt_miss (map_err (forall_atom h [])), alt_miss (map_err (H.and_atom h hl hs [])), alt_nil]
    · have hv : ∀ a, v ≠ .atomic a := fun a e => hv ⟨a, e⟩
      by_cases h1 : ∃ vs, v = .and vs
      · obtain ⟨vs, rfl⟩ := h1
        cases h with
        | @and _ u hs =>
          obtain ⟨vss, hs⟩ := hs.choose (B' := Items (ReadsAs parsePreGd)) fun x hx hx' =>
            hx.choose fun a t ht ht' => ih a t (by
              simp only [paren, List.length_cons, List.length_append] at hl
              omega) ht
          exact ⟨_, C73_precondition_and ⟨u, rfl, hs⟩⟩
      by_cases h2 : ∃ vs b, v = .forall_ vs b
      · obtain ⟨vs, b, rfl⟩ := h2
        cases h with
        | @forall_ g1 _ w g2 _ y g3 h1 h2 h3 h4 h5 =>
          obtain ⟨b, hb⟩ := ih _ y (by simp only [paren, List.length_cons, List.length_append] at hl; omega) h4
          exact ⟨_, C73_precondition_forall ⟨g1, paren w, g2, y, g3, rfl, h1, varList_reads.mpr ⟨w, rfl, h2⟩, h3, hb, h5⟩⟩
      refine last ?_
      unfold kwPres
      rw [alt_miss (map_err (gdx_miss h hv isWord_forall' ?_ _ [])),
        alt_miss (map_err (gdx_miss h hv isWord_and' ?_ _ [])), alt_nil]
      · intro k hk x
        cases v <;> cases hk <;> first | rfl | exact absurd ⟨_, rfl⟩ h1
      · intro k hk x
        cases v <;> cases hk <;> first | rfl | exact absurd ⟨_, _, rfl⟩ h2

theorem parsePreGd_fnRead (n : Nat) : FnRead parsePreGd n := ⟨fun f ts x _ hf => by
  obtain ⟨v, hv⟩ := atomX_gdx (termX_atom hf)
  obtain ⟨w, hw⟩ := pre_run _ v x (Nat.le_refl _) hv
  exact ⟨w, hw.run C28_preconditions⟩, parsePreGd_par⟩

/-- The keywords of a precondition miss every other text. -/
theorem kwPres_miss {p : PrefGD} {t : List Char} (h : PrefGDX p t) (h1 : ∀ vs, p ≠ .goal (.and vs))
    (h2 : ∀ vs b, p ≠ .goal (.forall_ vs b)) (r : List Char) : alt kwPres (t ++ r) = .err := by
  unfold kwPres
  cases h with
  | named h =>
    obtain ⟨_, _, _, _, _, rfl, _⟩ := h
    rw [alt_miss (map_err (kw_miss (fun _ => rfl) _ r)), alt_miss (map_err (kw_miss (fun _ => rfl) _ r)), alt_nil]
  | anonymous h =>
    obtain ⟨_, _, _, rfl, _⟩ := h
    rw [alt_miss (map_err (kw_miss (fun _ => rfl) _ r)), alt_miss (map_err (kw_miss (fun _ => rfl) _ r)), alt_nil]
  | @goal v _ h _ _ =>
    by_cases hv : ∃ a, v = .atomic a
    · obtain ⟨a, rfl⟩ := hv
      cases h with
      | atomic h hs =>
        rw [alt_miss (map_err (forall_atom h r)),
          alt_miss (map_err ((parsePreGd_fnRead _).and_atom h (Nat.le_refl _) hs r)), alt_nil]
    · have hv : ∀ a, v ≠ .atomic a := fun a e => hv ⟨a, e⟩
      rw [alt_miss (map_err (gdx_miss h hv isWord_forall' ?_ _ r)),
        alt_miss (map_err (gdx_miss h hv isWord_and' ?_ _ r)), alt_nil]
      · intro k hk x
        cases v <;> cases hk <;> first | rfl | exact absurd rfl (h1 _)
      · intro k hk x
        cases v <;> cases hk <;> first | rfl | exact absurd rfl (h2 _ _)

/-- A conjunction or quantification of goals is one of preconditions. -/
theorem kwPres_hit {v : GD} {t : List Char} (h : GDX v t) (hv : (∃ vs, v = .and vs) ∨ ∃ vs b, v = .forall_ vs b)
    (r : List Char) : alt kwPres (t ++ r) ≠ .err := by
  rcases hv with ⟨vs, rfl⟩ | ⟨vs, b, rfl⟩
  · cases h with
    | @and _ u hs =>
      obtain ⟨vss, hs⟩ := hs.choose (B' := Items (ReadsAs parsePreGd)) fun x hx hx' =>
        hx.choose fun a t ht ht' => pre_run _ a t (Nat.le_refl _) ht
      unfold kwPres
      rw [alt_miss (map_err (kw_miss (fun _ => rfl) _ r)),
        alt_hit (map_run (prefix_list0 (hs.mono fun _ h _ => h.mono fun a t h _ => h.elem C28_preconditions)
          (fun _ h => h) parsePreGd_par.close r trivial))]
      intro e
      cases e
  · cases h with
    | @forall_ g1 _ w g2 _ y g3 h1 h2 h3 h4 h5 =>
      obtain ⟨b, hb⟩ := pre_run _ _ y (Nat.le_refl _) h4
      unfold kwPres
      rw [alt_hit (map_run (prefix_two h1 ((varList_reads.mpr ⟨w, rfl, h2⟩).acc C28_variable_lists) (solid_paren w) h3
        parsePreGd_ct (hb.acc C28_preconditions) hb.1 h5 r trivial))]
      intro e
      cases e

theorem PreX.of_reads (n : Nat) : ∀ v t, t.length ≤ n → ReadsAs parsePreGd v t → PreX [] v t := by
  induction n with
  | zero =>
    intro v t hl h
    exact absurd (List.length_eq_zero_iff.mp (Nat.le_zero.mp hl)) h.1.ne
  | succ n ih =>
    intro v t hl h
    obtain ⟨ht, h⟩ := h
    rw [parsePreGd_kw] at h
    rcases alt_append_inv' h with h | ⟨hm, h⟩
    · unfold kwPres at h
      rcases alt_inv h with h | ⟨_, h⟩
      · obtain ⟨⟨a, b⟩, h0, rfl⟩ := map_ok h
        obtain ⟨g1, x, g2, y, g3, rfl, h1, h2, h3, h4, h5⟩ :=
          paired_inv parseVarList_parts (fun _ => id) parsePreGd_parts ht h0
        obtain ⟨w, rfl, hw⟩ := varList_reads.mp h2
        simp only [paren, List.length_cons, List.length_append] at hl
        exact .forall_ .nil h1 hw h3 (ih _ _ (by omega) h4) h5
      rcases alt_inv h with h | ⟨_, h⟩
      · obtain ⟨vss, h1, rfl⟩ := map_ok h
        obtain ⟨u, rfl, hs⟩ := listed_inv parsePreGd_parts readsAs_nonE ht h1
        refine .and .nil (hs.mono fun x hx hx' => hx.mono fun a t ht ht' => ih a t ?_ ht)
        simp only [paren, List.length_cons, List.length_append] at hl
        omega
      · cases h
    · rcases alt_inv h with h | ⟨_, h⟩
      · obtain ⟨p, h1, rfl⟩ := map_ok h
        have hp := prefGdx_reads.mp ⟨ht, h1⟩
        have hne : ∀ v, p = .goal v → ¬ ((∃ vs, v = .and vs) ∨ ∃ vs b, v = .forall_ vs b) := by
          rintro v rfl hv
          cases hp with
          | goal h _ _ =>
            refine kwPres_hit h hv [] ?_
            rw [List.append_nil]
            exact hm
        exact .other (by cases p with | goal v => exact GoalLead.nil v | _ => exact Gap.nil) hp
          (fun vs e => hne _ e (.inl ⟨vs, rfl⟩)) (fun vs b e => hne _ e (.inr ⟨vs, b, rfl⟩))
      · cases h

theorem PreX.gap {g : List Char} {v : List PreGD} {t : List Char} (h : PreX g v t) : Gap g := by
  cases h with
  | forall_ h => exact h
  | and h => exact h
  | @other _ p _ h =>
    cases p with
    | goal v => exact GoalLead.gap h
    | _ => exact h

theorem PrefGDX.solid {p : PrefGD} {t : List Char} (h : PrefGDX p t) : Solid t := by
  cases h with
  | named h => exact h.solid
  | anonymous h => exact h.solid
  | goal h => exact h.solid

theorem PreX.solid {g : List Char} {v : List PreGD} {t : List Char} (h : PreX g v t) : Solid t := by
  cases h with
  | other _ h => exact h.solid
  | _ => exact solid_paren _

theorem PreX.reads (n : Nat) : ∀ g v t, t.length ≤ n → PreX g v t → ReadsAs parsePreGd v t := by
  induction n with
  | zero =>
    intro g v t hl h
    exact absurd (List.length_eq_zero_iff.mp (Nat.le_zero.mp hl)) h.solid.ne
  | succ n ih =>
    intro g v t hl h
    cases h with
    | forall_ _ h1 h2 h3 h4 h5 =>
      simp only [paren, List.length_cons, List.length_append] at hl
      exact C73_precondition_forall
        ⟨_, _, _, _, _, rfl, h1, varList_reads.mpr ⟨_, rfl, h2⟩, h3, ih _ _ _ (by omega) h4, h5⟩
    | and _ hs =>
      refine C73_precondition_and ⟨_, rfl, hs.mono fun x hx hx' => hx.mono fun a t ht ht' => ih _ a t ?_ ht⟩
      simp only [paren, List.length_cons, List.length_append] at hl
      omega
    | other _ h h1 h2 =>
      refine .of h.solid ?_
      rw [parsePreGd_kw, alt_append_err (kwPres_miss h h1 h2 [])]
      exact alt_hit (map_run ((prefGdx_reads.mpr h).run C28_preferences []))

/-- C80, preconditions: exactly these texts are read, each as this list of parts. -/
theorem C80_preconditions (s : List Char) (v : List PreGD) (r : List Char) :
    parsePreGd s = .ok v r ↔ ∃ g t, s = g ++ (t ++ r) ∧ PreX g v t := by
  constructor
  · intro h
    obtain ⟨g, t, rfl, hg, ht⟩ := parsePreGd_parts s v r h trivial
    refine ⟨g, t, rfl, ?_⟩
    cases PreX.of_reads _ v t (Nat.le_refl _) ht with
    | forall_ _ h1 h2 h3 h4 h5 => exact .forall_ hg h1 h2 h3 h4 h5
    | and _ hs => exact .and hg hs
    | @other _ p _ _ hp h1 h2 =>
      rw [parsePreGd_kw, alt_append_err (by rw [kwPres_lead hg]; exact kwPres_miss hp h1 h2 r)] at h
      rcases alt_inv h with h | ⟨_, h⟩
      · obtain ⟨_, h, e⟩ := map_ok h
        cases e
        obtain ⟨g', t', e, hg', hp'⟩ := (C80_preferences _ _ _).mp h
        have hgap : Gap g' := by
          cases p with
          | goal v => exact GoalLead.gap hg'
          | _ => exact hg'
        have hs := congrArg skip e
        rw [hg.skip_solid (hp.solid.append r), hgap.skip_solid (hp'.solid.append r)] at hs
        obtain rfl := List.append_cancel_right hs
        obtain rfl := List.append_cancel_right e
        exact .other hg' hp h1 h2
      · cases h
  · rintro ⟨g, t, rfl, h⟩
    have h0 := (PreX.reads _ g v t (Nat.le_refl _) h).run C28_preconditions r
    have hg := h.gap
    cases h with
    | @other _ p _ hl hp h1 h2 =>
      rw [parsePreGd_kw, alt_append_err (by rw [kwPres_lead hg]; exact kwPres_miss hp h1 h2 r)]
      exact alt_hit (map_run ((C80_preferences _ _ _).mpr ⟨g, t, rfl, hl, hp⟩))
    | forall_ _ h1 h2 h3 h4 h5 =>
      rw [parsePreGd_kw] at h0 ⊢
      refine alt_append_ok ?_
      rw [kwPres_lead hg]
      unfold kwPres
      have hb := PreX.reads _ _ _ _ (Nat.le_refl _) h4
      exact alt_hit (map_run (prefix_two h1 ((varList_reads.mpr ⟨_, rfl, h2⟩).acc C28_variable_lists) (solid_paren _) h3
        parsePreGd_ct (hb.acc C28_preconditions) hb.1 h5 r trivial))
    | and _ hs =>
      rw [parsePreGd_kw] at h0 ⊢
      refine alt_append_ok ?_
      rw [kwPres_lead hg]
      unfold kwPres
      rw [alt_miss (map_err (kw_miss (fun _ => rfl) _ r))]
      exact alt_hit (map_run (prefix_list0 (hs.mono fun _ h _ => h.mono fun a t h _ =>
        (PreX.reads _ _ _ _ (Nat.le_refl _) h).elem C28_preconditions) (fun _ h => h) parsePreGd_par.close r trivial))

/-- `(kw x)` over parts with known texts. -/
theorem prefix_exact {p : P α} {X : α → List Char → Prop} (h1 : Snd Any Gap p (ReadsAs p)) (h2 : TailBlind p)
    (hx : ∀ v t, ReadsAs p v t ↔ X v t) {kw : List Char} (s : List Char) (v : α) (r : List Char) :
    prefixExpr kw p s = .ok v r ↔ ∃ g t, s = g ++ (t ++ r) ∧ Gap g ∧ Wrapped kw X v t := by
  constructor
  · intro h
    obtain ⟨g, t, e, hg, ht⟩ := Snd.kw1 (kw := kw) (f := id) (F := Any) (R := Wrapped kw X) h1
      (fun h1 h2 h3 => ⟨_, _, _, rfl, h1, (hx _ _).mp h2, h3⟩) s v r (map_run h) trivial
    exact ⟨g, t, e, hg, ht⟩
  · rintro ⟨g, t, rfl, hg, g1, x, g2, rfl, hg1, h, hg2⟩
    have h := (hx _ _).mpr h
    rw [prefix_lead hg]
    exact prefix_one hg1 (h.acc h2) h.1 hg2 r trivial

theorem prex_reads {v : List PreGD} {t : List Char} : ReadsAs parsePreGd v t ↔ PreX [] v t :=
  ⟨.of_reads _ v t (Nat.le_refl _), PreX.reads _ [] v t (Nat.le_refl _)⟩

/-- C80, the goal of a problem. -/
theorem C80_goal_section (s : List Char) (v : List PreGD) (r : List Char) :
    parseProblemGoalDef s = .ok v r ↔
      ∃ g t, s = g ++ (t ++ r) ∧ Gap g ∧ Wrapped c!":goal" (PreX []) v t :=
  prefix_exact parsePreGd_parts C28_preconditions (fun _ _ => prex_reads) s v r

/-- A preference and a nested conjunction, flattened to one list. -/
example : ∃ t, Wrapped c!":goal" (PreX [])
    [.preference (.preference (some (Ex.nm c!"x")) (.atomic (.predicate (Ex.nm c!"p") []))),
      .preference (.goal (.atomic (.predicate (Ex.nm c!"q") [])))] t ∧
    t = c!"(:goal (and (preference x (p)) (and (q))))" := by
  obtain ⟨g, t, e, hg, h⟩ := (C80_goal_section c!"(:goal (and (preference x (p)) (and (q))))" _ []).mp rfl
  exact ⟨t, h, (solid_whole (solid_open _) e hg h.solid).symm⟩

/-- The word after `preference` need not be separated from it; with two names after it the text is
an atom. -/
example : parsePrefGd c!"(preferencex (p))" =
      .ok (.preference (some (Ex.nm c!"x")) (.atomic (.predicate (Ex.nm c!"p") []))) [] ∧
    (∃ a, parsePrefGd c!"(preference x y)" = .ok (.goal (.atomic a)) []) ∧
    ∃ a, parsePrefGd c!"( preference x (p))" = .ok (.goal (.atomic a)) [] :=
  ⟨rfl, ⟨_, rfl⟩, ⟨_, rfl⟩⟩

end Pddl
