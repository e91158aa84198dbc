import Verif.Meta.TermForms
import Verif.Props.Compose
import Verif.Meta.Fail

/-!
# C79: the exact texts of goals

`parse_gd` tries its nine alternatives in order, and a text may fit more than one of them. The
statements here say exactly which texts are read as which goal.
-/

namespace Pddl

/-- The atom at this text is also a goal built with a keyword: the keyword follows the parenthesis
without layout in between, and its arguments are function terms, as many as the keyword takes. -/
inductive Shadowed : AtomicFormula Term → List Char → Prop
  | and {n ts u} : n.text = c!"and" → (∀ x ∈ ts, IsFn x) → Shadowed (.predicate n ts) (paren (c!"and" ++ u))
  | or {n ts u} : n.text = c!"or" → (∀ x ∈ ts, IsFn x) → Shadowed (.predicate n ts) (paren (c!"or" ++ u))
  | not {n x u} : n.text = c!"not" → IsFn x → Shadowed (.predicate n [x]) (paren (c!"not" ++ u))
  | imply {n x y u} : n.text = c!"imply" → IsFn x → IsFn y →
      Shadowed (.predicate n [x, y]) (paren (c!"imply" ++ u))

/-- The accepted texts of a goal, without layout in front. -/
inductive GDX : GD → List Char → Prop
  | and {vs u} : Sec Gap Gap (Items GDX) vs u → GDX (.and vs) (paren (c!"and" ++ u))
  | or {vs u} : Sec Gap Gap (Items GDX) vs u → GDX (.or vs) (paren (c!"or" ++ u))
  | not {g1 v x g2} : Gap g1 → GDX v x → Gap g2 → GDX (.not v) (paren (c!"not" ++ (g1 ++ (x ++ g2))))
  | imply {g1 a x g2 b y g3} : Gap g1 → GDX a x → Sep g2 → GDX b y → Gap g3 →
      GDX (.imply a b) (paren (c!"imply" ++ (g1 ++ (x ++ (g2 ++ (y ++ g3))))))
  | exist {g1 vs w g2 b y g3} : Gap g1 → TypedX VarX Apart objectTy vs w → Sep g2 → GDX b y → Gap g3 →
      GDX (.exist vs b) (paren (c!"exists" ++ (g1 ++ (paren w ++ (g2 ++ (y ++ g3))))))
  | forall_ {g1 vs w g2 b y g3} : Gap g1 → TypedX VarX Apart objectTy vs w → Sep g2 → GDX b y → Gap g3 →
      GDX (.forall_ vs b) (paren (c!"forall" ++ (g1 ++ (paren w ++ (g2 ++ (y ++ g3))))))
  | atomic {a t} : AtomX TermX TermEnds a t → ¬ Shadowed a t → GDX (.atomic a) t
  | fComp {op a b t} : OpForm (fun o t => t = BinaryComp.spell o) FExpX FExpX (op, a, b) t →
      (∀ a, ¬ AtomX TermX TermEnds a t) → GDX (.fComp ⟨op, a, b⟩) t

/-- Layout that is skipped before a goal: any before a keyword or an equality, but only layout that
begins with a comment before a predicate or a comparison. -/
def GoalLead : GD → List Char → Prop
  | .atomic a, g => AtomLead a g
  | .fComp _, g => GapC g
  | _, g => Gap g

/-! ## The keyword alternatives on the texts of atoms -/

/-- The first six alternatives of `parse_gd`. -/
def kwGoals (q : P GD) : List (P GD) := [
  map GD.and (prefixExpr c!"and" (spaceSeparatedList0 q)),
  map GD.or (prefixExpr c!"or" (spaceSeparatedList0 q)),
  map GD.not (prefixExpr c!"not" q),
  map (fun x : GD × GD => GD.imply x.1 x.2) (prefixExpr c!"imply" (pair q (preceded multispace1 q))),
  map (fun x : TypedList Name × GD => GD.exist x.1 x.2)
    (prefixExpr c!"exists" (pair parseVarList (preceded multispace1 q))),
  map (fun x : TypedList Name × GD => GD.forall_ x.1 x.2)
    (prefixExpr c!"forall" (pair parseVarList (preceded multispace1 q)))]

theorem gdBody_kw (q : P GD) : gdBody q = alt (kwGoals q ++ [
    map GD.atomic (atomicFormula parseTerm), map GD.literal (literal parseTerm), map GD.fComp parseFComp]) := rfl

theorem wordName_text (t : List Char) : (wordName t).text = t := by
  unfold wordName
  split <;> rfl

/-- A gap in front of a word, where the text begins with a letter. -/
theorem gap_word {g kw x y : List Char} (hg : Gap g) (hkw : IsWord kw) (h : g ++ x = kw ++ y) : g = [] := by
  obtain ⟨k, ks, rfl, hk, _⟩ := hkw
  cases hg with
  | nil => rfl
  | space hc =>
    cases (List.cons.inj h).1
    exact absurd (isBlank_space hc) (by simp [(isAlpha_solid hk).1])
  | comment =>
    exact absurd (List.cons.inj h).1.symm (isAlpha_solid hk).2

theorem kw_goals {q : P GD} {n : Nat} (H : FnRead q n) (hc : Ct q) {a : AtomicFormula Term}
    {t : List Char} (h : AtomX TermX TermEnds a t) (ht : t.length ≤ n) (r : List Char) :
    (Shadowed a t → ∃ v, alt (kwGoals q) (t ++ r) = .ok v r) ∧
    (¬ Shadowed a t → alt (kwGoals q) (t ++ r) = .err) := by
  have w1 : IsWord c!"and" := isWord_of _ _ (by decide) (by decide)
  have w2 : IsWord c!"or" := isWord_of _ _ (by decide) (by decide)
  have w3 : IsWord c!"not" := isWord_of _ _ (by decide) (by decide)
  have w4 : IsWord c!"imply" := isWord_of _ _ (by decide) (by decide)
  have w5 : IsWord c!"exists" := isWord_of _ _ (by decide) (by decide)
  have w6 : IsWord c!"forall" := isWord_of _ _ (by decide) (by decide)
  cases h with
  | equality =>
    refine ⟨fun h => (nomatch h), fun _ => ?_⟩
    simp only [paren_append, List.append_assoc, List.cons_append, List.nil_append]
    unfold kwGoals
    rw [alt_miss (map_err (kw_equality w1 _)), alt_miss (map_err (kw_equality w2 _)),
      alt_miss (map_err (kw_equality w3 _)), alt_miss (map_err (kw_equality w4 _)),
      alt_miss (map_err (kw_equality w5 _)), alt_miss (map_err (kw_equality w6 _)), alt_nil]
  | @predicate g p t vs u hg hp hs hu =>
    have hl : u.length < n := by
      simp only [paren, List.length_cons, List.length_append, List.length_nil] at ht
      omega
    have hw := (NoWord.close r).mpr hu
    have miss : ∀ {β γ : Type} {kw : List Char} {p : P β} {f : β → γ}, IsWord kw → Nw p → (g = [] → t ≠ kw) →
        map f (prefixExpr kw p) ('(' :: (g ++ (t ++ (u ++ ')' :: r)))) = .err :=
      fun hkw hn hne => map_err (kw_other hkw hn hg hp.1 hw hne)
    have n1 : Nw (spaceSeparatedList0 q) := .list0 H.par
    have n2 : Nw q := H.par.nw
    have n3 : Nw (pair q (preceded multispace1 q)) := (Par.pair H.par).nw
    have n4 : Nw (pair parseVarList (preceded multispace1 q)) := (Par.pair parseVarList_par).nw
    have hpt : p.text = t := by rw [hp.2]; exact wordName_text t
    simp only [paren_append, List.append_assoc]
    have key : ∀ {kw x : List Char}, IsWord kw → p.text = kw → paren (g ++ (t ++ u)) = paren (kw ++ x) →
        g = [] ∧ t = kw := fun hkw h1 h2 =>
      ⟨gap_word hg hkw (paren_inj h2), by rw [← hpt, h1]⟩
    unfold kwGoals
    by_cases e : g = []
    · subst e
      simp only [List.nil_append] at miss key ⊢
      by_cases e1 : t = c!"and"
      · subst e1
        have := H.all c!"and" hs hl r
        by_cases ha : ∀ x ∈ vs, IsFn x
        · obtain ⟨v, hv⟩ := this.1 ha
          exact ⟨fun _ => ⟨_, alt_hit (map_run hv)⟩, fun h => absurd (.and hpt ha) h⟩
        · refine ⟨fun h => ?_, fun _ => ?_⟩
          · generalize hT : paren (c!"and" ++ u) = T at h
            cases h with
            | and _ h => exact absurd h ha
            | or h => rw [hpt] at h; cases h
            | not h => rw [hpt] at h; cases h
            | imply h => rw [hpt] at h; cases h
          · rw [alt_miss (map_err (this.2 ha)), alt_miss (miss w2 n1 (fun _ => by decide)),
              alt_miss (miss w3 n2 (fun _ => by decide)), alt_miss (miss w4 n3 (fun _ => by decide)),
              alt_miss (miss w5 n4 (fun _ => by decide)), alt_miss (miss w6 n4 (fun _ => by decide)), alt_nil]
      rw [alt_miss (miss w1 n1 fun _ => e1)]
      by_cases e2 : t = c!"or"
      · subst e2
        have := H.all c!"or" hs hl r
        by_cases ha : ∀ x ∈ vs, IsFn x
        · obtain ⟨v, hv⟩ := this.1 ha
          exact ⟨fun _ => ⟨_, alt_hit (map_run hv)⟩, fun h => absurd (.or hpt ha) h⟩
        · refine ⟨fun h => ?_, fun _ => ?_⟩
          · generalize hT : paren (c!"or" ++ u) = T at h
            cases h with
            | or _ h => exact absurd h ha
            | and h => rw [hpt] at h; cases h
            | not h => rw [hpt] at h; cases h
            | imply h => rw [hpt] at h; cases h
          · rw [alt_miss (map_err (this.2 ha)),
              alt_miss (miss w3 n2 (fun _ => by decide)), alt_miss (miss w4 n3 (fun _ => by decide)),
              alt_miss (miss w5 n4 (fun _ => by decide)), alt_miss (miss w6 n4 (fun _ => by decide)), alt_nil]
      rw [alt_miss (miss w2 n1 fun _ => e2)]
      by_cases e3 : t = c!"not"
      · subst e3
        have := H.one c!"not" hs hl r
        by_cases ha : ∃ x, vs = [x] ∧ IsFn x
        · obtain ⟨v, hv⟩ := this.1 ha
          obtain ⟨x, rfl, hx⟩ := ha
          exact ⟨fun _ => ⟨_, alt_hit (map_run hv)⟩, fun h => absurd (.not hpt hx) h⟩
        · refine ⟨fun h => ?_, fun _ => ?_⟩
          · generalize hT : paren (c!"not" ++ u) = T at h
            cases h with
            | not _ h => exact absurd ⟨_, rfl, h⟩ ha
            | and h => rw [hpt] at h; cases h
            | or h => rw [hpt] at h; cases h
            | imply h => rw [hpt] at h; cases h
          · rw [alt_miss (map_err (this.2 ha)), alt_miss (miss w4 n3 (fun _ => by decide)),
              alt_miss (miss w5 n4 (fun _ => by decide)), alt_miss (miss w6 n4 (fun _ => by decide)), alt_nil]
      rw [alt_miss (miss w3 n2 fun _ => e3)]
      by_cases e4 : t = c!"imply"
      · subst e4
        have := H.two H hc c!"imply" hs hl r
        by_cases ha : ∃ x y, vs = [x, y] ∧ IsFn x ∧ IsFn y
        · obtain ⟨v, hv⟩ := this.1 ha
          obtain ⟨x, y, rfl, hx, hy⟩ := ha
          exact ⟨fun _ => ⟨_, alt_hit (map_run hv)⟩, fun h => absurd (.imply hpt hx hy) h⟩
        · refine ⟨fun h => ?_, fun _ => ?_⟩
          · generalize hT : paren (c!"imply" ++ u) = T at h
            cases h with
            | imply _ h h' => exact absurd ⟨_, _, rfl, h, h'⟩ ha
            | and h => rw [hpt] at h; cases h
            | or h => rw [hpt] at h; cases h
            | not h => rw [hpt] at h; cases h
          · rw [alt_miss (map_err (this.2 ha)),
              alt_miss (miss w5 n4 (fun _ => by decide)), alt_miss (miss w6 n4 (fun _ => by decide)), alt_nil]
      rw [alt_miss (miss w4 n3 fun _ => e4)]
      have hsh : ¬ Shadowed (.predicate p vs) (paren (t ++ u)) := fun h => by
        generalize hT : paren (t ++ u) = T at h
        cases h with
        | and h => exact e1 (hpt.symm.trans h)
        | or h => exact e2 (hpt.symm.trans h)
        | not h => exact e3 (hpt.symm.trans h)
        | imply h => exact e4 (hpt.symm.trans h)
      refine ⟨fun h => absurd h hsh, fun _ => ?_⟩
      by_cases e5 : t = c!"exists"
      · subst e5
        rw [alt_miss (map_err (varList_miss _ hs r)), alt_miss (miss w6 n4 (fun _ => by decide)), alt_nil]
      rw [alt_miss (miss w5 n4 fun _ => e5)]
      by_cases e6 : t = c!"forall"
      · subst e6
        rw [alt_miss (map_err (varList_miss _ hs r)), alt_nil]
      rw [alt_miss (miss w6 n4 fun _ => e6), alt_nil]
    · have no : ∀ {kw : List Char}, g = [] → t ≠ kw := fun h => absurd h e
      refine ⟨fun h => ?_, fun _ => ?_⟩
      · generalize hT : paren (g ++ (t ++ u)) = T at h
        cases h with
        | and h => exact absurd (key w1 h hT).1 e
        | or h => exact absurd (key w2 h hT).1 e
        | not h => exact absurd (key w3 h hT).1 e
        | imply h => exact absurd (key w4 h hT).1 e
      · rw [alt_miss (miss w1 n1 no), alt_miss (miss w2 n1 no), alt_miss (miss w3 n2 no),
          alt_miss (miss w4 n3 no), alt_miss (miss w5 n4 no), alt_miss (miss w6 n4 no), alt_nil]

/-! ## Every function term is read as a goal -/

theorem termX_atom {f : Name} {ts : List Term} {x : List Char} (h : TermX (.fn f ts) x) :
    AtomX TermX TermEnds (.predicate f ts) x := by
  cases h with
  | fn h1 h2 h3 h4 => exact .predicate h1 h2 h3 h4

theorem atomX_run {a : AtomicFormula Term} {t : List Char} (h : AtomX TermX TermEnds a t) (r : List Char) :
    atomicFormula parseTerm (t ++ r) = .ok a r :=
  (C68_atoms _ _ _).mpr ⟨[], t, rfl, .nil a, h⟩

theorem gd_reads_atom {n : Nat} (H : FnRead parseGd n) {a : AtomicFormula Term} {t : List Char}
    (h : AtomX TermX TermEnds a t) (ht : t.length ≤ n) : ∃ v, ∀ r, parseGd (t ++ r) = .ok v r := by
  have : ∃ v, parseGd (t ++ []) = .ok v [] := by
    have hk := kw_goals H parseGd_ct h ht []
    rw [parseGd_eq, gdBody_kw]
    by_cases hs : Shadowed a t
    · obtain ⟨v, hv⟩ := hk.1 hs
      exact ⟨v, alt_append_ok hv⟩
    · rw [alt_append_err (hk.2 hs)]
      exact ⟨_, alt_hit (map_run (atomX_run h []))⟩
  obtain ⟨v, hv⟩ := this
  exact ⟨v, C28_goals t [] v hv⟩

theorem parseGd_fnRead (n : Nat) : FnRead parseGd n := by
  induction n with
  | zero => exact ⟨fun _ _ _ h => absurd h (Nat.not_lt_zero _), parseGd_par⟩
  | succ n ih => exact ⟨fun f ts x hx h => gd_reads_atom ih (termX_atom h) (by omega), parseGd_par⟩

/-- The keyword alternatives of `parse_gd` on an atom. -/
theorem kw_goals_atom {a : AtomicFormula Term} {t : List Char} (h : AtomX TermX TermEnds a t) (r : List Char) :
    (Shadowed a t → ∃ v, alt (kwGoals parseGd) (t ++ r) = .ok v r) ∧
    (¬ Shadowed a t → alt (kwGoals parseGd) (t ++ r) = .err) :=
  kw_goals (parseGd_fnRead _) parseGd_ct h (Nat.le_refl _) r

/-! ## Layout in front -/

theorem map_prefix_lead {kw : List Char} {p : P α} {f : α → β} {g s : List Char} (hg : Gap g) :
    map f (prefixExpr kw p) (g ++ s) = map f (prefixExpr kw p) s := by
  unfold map
  rw [prefix_lead hg]

theorem kwGoals_lead (q : P GD) {g s : List Char} (hg : Gap g) :
    alt (kwGoals q) (g ++ s) = alt (kwGoals q) s := by
  unfold kwGoals
  simp only [alt, map_prefix_lead hg]

/-! ## One form -/

theorem OneForm.unique {t r t' r' : List Char} (h : OneForm t) (h' : OneForm t') (e : t ++ r = t' ++ r') :
    t = t' := by
  have ne : ∀ {t : List Char}, OneForm t → t ≠ [] := fun h e => by
    subst e
    cases h.1
  rcases List.append_eq_append_iff.mp e with ⟨z, rfl, _⟩ | ⟨z, rfl, _⟩
  · by_cases hz : z = []
    · rw [hz, List.append_nil]
    · exact absurd (h'.2.2 t z rfl (ne h) hz) (by rw [h.2.1]; exact Int.lt_irrefl 0)
  · by_cases hz : z = []
    · rw [hz, List.append_nil]
    · exact absurd (h.2.2 t' z rfl (ne h') hz) (by rw [h'.2.1]; exact Int.lt_irrefl 0)

theorem oneForm_of {p : P α} (hp : OneFormOnly p) {t : List Char} {v : α} (ht : Solid t) (h : p t = .ok v []) :
    OneForm t := by
  obtain ⟨g, u, e, hg, hu⟩ := hp t v [] h
  rw [List.append_nil] at e
  have := congrArg skip e
  rw [ht.skip, hg.skip_solid hu.solid] at this
  exact this ▸ hu

theorem atomX_form {a : AtomicFormula Term} {t : List Char} (h : AtomX TermX TermEnds a t) : OneForm t :=
  oneForm_of C27_atoms h.solid (by have := atomX_run h []; rwa [List.append_nil] at this)

/-- Every text of a comparison misses the keywords. -/
theorem opForm_kw {op : BinaryComp} {a b : FExp} {t : List Char}
    (h : OpForm (fun o t => t = BinaryComp.spell o) FExpX FExpX (op, a, b) t) {kw : List Char} (hkw : IsWord kw)
    (p : P α) (r : List Char) : prefixExpr kw p (t ++ r) = .err := by
  cases h with
  | mk hg hw =>
    cases hw
    simp only [paren_append, List.append_assoc]
    exact comp_kw_miss hg hkw _

theorem opForm_form {op : BinaryComp} {a b : FExp} {t : List Char}
    (h : OpForm (fun o t => t = BinaryComp.spell o) FExpX FExpX (op, a, b) t) : OneForm t := by
  refine oneForm_of C27_comparisons (by cases h; exact solid_paren _) (v := ⟨op, a, b⟩) ?_
  exact (C77_comparisons _ _ _ _ _).mpr ⟨[], t, by simp, gapC_nil, h⟩

/-- A text that is no atom is rejected by `atomic_formula`. -/
theorem atom_miss {g t : List Char} (hg : Gap g) (ht : OneForm t) (h : ∀ a, ¬ AtomX TermX TermEnds a t)
    (r : List Char) : atomicFormula parseTerm (g ++ (t ++ r)) = .err := by
  have hm := Mild.atomicFormula parseTerm_mild (g ++ (t ++ r))
  cases e : atomicFormula parseTerm (g ++ (t ++ r)) with
  | ok a r' =>
    obtain ⟨g', t', e', hl, ha⟩ := (C68_atoms _ _ _).mp e
    have hs := congrArg skip e'
    rw [hg.skip_solid (ht.solid.append r), hl.gap.skip_solid (ha.solid.append r')] at hs
    exact absurd ((ht.unique (atomX_form ha) hs) ▸ ha) (h a)
  | err => rfl
  | fail => exact absurd e hm.1
  | panic => exact absurd e hm.2
  | oof =>
    have := ((Good.atomicFormula parseTerm_good (k := 1)) (g ++ (t ++ r)) (Nat.lt_succ_self _)).2
    rw [e] at this
    exact this.elim

theorem kwGoals_value {q : P GD} {s r : List Char} {v : GD} (h : alt (kwGoals q) s = .ok v r) :
    (∀ a, v ≠ .atomic a) ∧ (∀ a, v ≠ .literal a) ∧ ∀ c, v ≠ .fComp c := by
  unfold kwGoals at h
  repeat' (rcases alt_inv h with e | ⟨_, h⟩; (obtain ⟨_, _, e⟩ := map_ok e; subst e; simp))
  cases h

/-- `parse_gd` returns no literal: `(not a)` with an atom `a` is read as the negation of a goal. -/
theorem C79_no_literals (s : List Char) (l : Literal Term) (r : List Char) : parseGd s ≠ .ok (.literal l) r := by
  intro h
  rw [parseGd_eq, gdBody] at h
  rcases alt_inv h with e | ⟨_, h⟩
  · obtain ⟨_, _, e⟩ := map_ok e; cases e
  rcases alt_inv h with e | ⟨_, h⟩
  · obtain ⟨_, _, e⟩ := map_ok e; cases e
  rcases alt_inv h with e | ⟨hn, h⟩
  · obtain ⟨_, _, e⟩ := map_ok e; cases e
  rcases alt_inv h with e | ⟨_, h⟩
  · obtain ⟨_, _, e⟩ := map_ok e; cases e
  rcases alt_inv h with e | ⟨_, h⟩
  · obtain ⟨_, _, e⟩ := map_ok e; cases e
  rcases alt_inv h with e | ⟨_, h⟩
  · obtain ⟨_, _, e⟩ := map_ok e; cases e
  rcases alt_inv h with e | ⟨ha, h⟩
  · obtain ⟨_, _, e⟩ := map_ok e; cases e
  rcases alt_inv h with e | ⟨_, h⟩
  · obtain ⟨_, e, _⟩ := map_ok e
    rw [literal] at e
    rcases alt_inv e with e | ⟨_, e⟩
    · obtain ⟨a, e, _⟩ := map_ok e
      obtain ⟨g, x, y, rfl, hg, e1, e2⟩ := prefixExpr_inv e
      obtain ⟨g', t, e', hl, hx⟩ := (C68_atoms _ _ _).mp e1
      have hs := congrArg skip e'
      rw [skip_skip, hl.gap.skip_solid (hx.solid.append y)] at hs
      obtain ⟨v, hv⟩ := gd_reads_atom (parseGd_fnRead _) hx (Nat.le_refl _)
      rw [map_prefix_lead hg, map_run (prefixExpr_run (by rw [hs, hv]) e2)] at hn
      cases hn
    rcases alt_inv e with e | ⟨_, e⟩
    · obtain ⟨a, e, _⟩ := map_ok e
      rw [map_run e] at ha
      cases ha
    · cases e
  rcases alt_inv h with e | ⟨_, h⟩
  · obtain ⟨_, _, e⟩ := map_ok e; cases e
  · cases h

/-! ## The statement -/

theorem solid_whole {t g u : List Char} (ht : Solid t) (h : t = g ++ (u ++ [])) (hg : Gap g) (hu : Solid u) :
    t = u := by
  rw [List.append_nil] at h
  have := congrArg skip h
  rwa [ht.skip, hg.skip_solid hu] at this

theorem varList_reads {vs : TypedList Name} {t : List Char} :
    ReadsAs parseVarList vs t ↔ ∃ w, t = paren w ∧ TypedX VarX Apart objectTy vs w := by
  constructor
  · rintro ⟨ht, h⟩
    obtain ⟨g, w, e, hg, hw⟩ := (C78_variable_lists _ _ _).mp h
    exact ⟨w, solid_whole ht e hg.1 (solid_paren w), hw⟩
  · rintro ⟨w, rfl, hw⟩
    exact .of (solid_paren w) ((C78_variable_lists _ _ _).mpr ⟨[], w, rfl, gapC_nil, hw⟩)

theorem atomic_goal {s : List Char} {a : AtomicFormula Term} {r : List Char}
    (h : parseGd s = .ok (.atomic a) r) :
    ∃ g t, s = g ++ (t ++ r) ∧ AtomLead a g ∧ GDX (.atomic a) t := by
  obtain ⟨⟨h1, h2, h3, h4, h5, h6⟩, g, t, rfl, hg, ht⟩ := (C45_iff _ _ _).mp h
  refine ⟨g, t, rfl, hg, .atomic ht fun hs => ?_⟩
  obtain ⟨v, hv⟩ := (kw_goals_atom ht r).1 hs
  rw [← kwGoals_lead _ hg.gap] at hv
  unfold kwGoals at hv
  rw [alt_miss (map_err h1), alt_miss (map_err h2), alt_miss (map_err h3),
    alt_miss (map_err h4), alt_miss (map_err h5), alt_miss (map_err h6)] at hv
  cases hv

theorem AtomLead.gapC {g : List Char} (a : AtomicFormula α) (hg : GapC g) : AtomLead a g := by
  cases a
  · exact hg.1
  · exact hg

theorem comparison_goal {s : List Char} {op : BinaryComp} {a b : FExp} {r : List Char}
    (h : parseGd s = .ok (.fComp ⟨op, a, b⟩) r) :
    ∃ g t, s = g ++ (t ++ r) ∧ GapC g ∧ GDX (.fComp ⟨op, a, b⟩) t := by
  rw [parseGd_eq, gdBody] at h
  rcases alt_inv h with e | ⟨_, h⟩
  · obtain ⟨_, _, e⟩ := map_ok e; cases e
  rcases alt_inv h with e | ⟨_, h⟩
  · obtain ⟨_, _, e⟩ := map_ok e; cases e
  rcases alt_inv h with e | ⟨_, h⟩
  · obtain ⟨_, _, e⟩ := map_ok e; cases e
  rcases alt_inv h with e | ⟨_, h⟩
  · obtain ⟨_, _, e⟩ := map_ok e; cases e
  rcases alt_inv h with e | ⟨_, h⟩
  · obtain ⟨_, _, e⟩ := map_ok e; cases e
  rcases alt_inv h with e | ⟨_, h⟩
  · obtain ⟨_, _, e⟩ := map_ok e; cases e
  rcases alt_inv h with e | ⟨ha, h⟩
  · obtain ⟨_, _, e⟩ := map_ok e; cases e
  rcases alt_inv h with e | ⟨_, h⟩
  · obtain ⟨_, _, e⟩ := map_ok e; cases e
  rcases alt_inv h with e | ⟨_, h⟩
  · obtain ⟨_, e1, e⟩ := map_ok e
    cases e
    obtain ⟨g, t, rfl, hg, ht⟩ := (C77_comparisons _ _ _ _ _).mp e1
    refine ⟨g, t, rfl, hg, .fComp ht fun a' hx => ?_⟩
    rw [map_run ((C68_atoms _ _ _).mpr ⟨g, t, rfl, AtomLead.gapC a' hg, hx⟩)] at ha
    cases ha
  · cases h

theorem GDX.solid {v : GD} {t : List Char} (h : GDX v t) : Solid t := by
  cases h with
  | atomic h => exact h.solid
  | fComp h => cases h; exact solid_paren _
  | _ => exact solid_paren _

theorem GDX.of_reads (n : Nat) : ∀ v t, t.length ≤ n → ReadsAs parseGd v t → GDX v t := by
  induction n with
  | zero =>
    intro v t hl h
    exact absurd (List.length_eq_zero_iff.mp (Nat.le_zero.mp hl)) h.1.ne
  | succ n ih =>
    intro v t hl h
    cases v with
    | and vs =>
      obtain ⟨u, rfl, hs⟩ := C73_goal_and.mp h
      refine .and (hs.mono fun x hx hx' => hx.mono fun a t ht ht' => ih a t ?_ ht)
      simp only [paren, List.length_cons, List.length_append] at hl
      omega
    | or vs =>
      obtain ⟨u, rfl, hs⟩ := C73_goal_or.mp h
      refine .or (hs.mono fun x hx hx' => hx.mono fun a t ht ht' => ih a t ?_ ht)
      simp only [paren, List.length_cons, List.length_append] at hl
      omega
    | not v =>
      obtain ⟨g1, x, g2, rfl, h1, h2, h3⟩ := C73_goal_not.mp h
      refine .not h1 (ih _ _ ?_ h2) h3
      simp only [paren, List.length_cons, List.length_append] at hl
      omega
    | imply a b =>
      obtain ⟨g1, x, g2, y, g3, rfl, h1, h2, h3, h4, h5⟩ := C73_goal_imply.mp h
      simp only [paren, List.length_cons, List.length_append] at hl
      exact .imply h1 (ih _ _ (by omega) h2) h3 (ih _ _ (by omega) h4) h5
    | exist vs b =>
      obtain ⟨g1, x, g2, y, g3, rfl, h1, h2, h3, h4, h5⟩ := C73_goal_exists.mp h
      simp only [paren, List.length_cons, List.length_append] at hl
      obtain ⟨w, rfl, hw⟩ := varList_reads.mp h2
      exact .exist h1 hw h3 (ih _ _ (by omega) h4) h5
    | forall_ vs b =>
      obtain ⟨g1, x, g2, y, g3, rfl, h1, h2, h3, h4, h5⟩ := C73_goal_forall.mp h
      simp only [paren, List.length_cons, List.length_append] at hl
      obtain ⟨w, rfl, hw⟩ := varList_reads.mp h2
      exact .forall_ h1 hw h3 (ih _ _ (by omega) h4) h5
    | atomic a =>
      obtain ⟨g, u, e, hg, hu⟩ := atomic_goal h.2
      exact solid_whole h.1 e hg.gap hu.solid ▸ hu
    | literal l => exact absurd h.2 (C79_no_literals _ _ _)
    | fComp c =>
      obtain ⟨g, u, e, hg, hu⟩ := comparison_goal (op := c.comp) (a := c.first) (b := c.second) h.2
      exact solid_whole h.1 e hg.1 hu.solid ▸ hu

/-- The text of a comparison misses all alternatives before the last. -/
theorem comparison_run {op : BinaryComp} {a b : FExp} {g t : List Char} (hg : GapC g)
    (h : OpForm (fun o t => t = BinaryComp.spell o) FExpX FExpX (op, a, b) t)
    (hn : ∀ a, ¬ AtomX TermX TermEnds a t) (r : List Char) :
    parseGd (g ++ (t ++ r)) = .ok (.fComp ⟨op, a, b⟩) r := by
  have w1 : IsWord c!"and" := isWord_of _ _ (by decide) (by decide)
  have w2 : IsWord c!"or" := isWord_of _ _ (by decide) (by decide)
  have w3 : IsWord c!"not" := isWord_of _ _ (by decide) (by decide)
  have w4 : IsWord c!"imply" := isWord_of _ _ (by decide) (by decide)
  have w5 : IsWord c!"exists" := isWord_of _ _ (by decide) (by decide)
  have w6 : IsWord c!"forall" := isWord_of _ _ (by decide) (by decide)
  have miss : ∀ {β γ : Type} {kw : List Char} {p : P β} {f : β → γ}, IsWord kw →
      map f (prefixExpr kw p) (g ++ (t ++ r)) = .err := fun hkw => by
    rw [map_prefix_lead hg.1]
    exact map_err (opForm_kw h hkw _ r)
  have ha := atom_miss hg.1 (opForm_form h) hn r
  rw [parseGd_eq, gdBody, alt_miss (miss w1), alt_miss (miss w2), alt_miss (miss w3), alt_miss (miss w4),
    alt_miss (miss w5), alt_miss (miss w6), alt_miss (map_err ha),
    alt_miss (map_err (by rw [literal, alt_miss (miss w3), alt_miss (map_err ha), alt_nil]))]
  exact alt_hit (map_run ((C77_comparisons _ _ _ _ _).mpr ⟨g, t, rfl, hg, h⟩))

theorem GDX.reads (n : Nat) : ∀ v t, t.length ≤ n → GDX v t → ReadsAs parseGd v t := by
  induction n with
  | zero =>
    intro v t hl h
    exact absurd (List.length_eq_zero_iff.mp (Nat.le_zero.mp hl)) h.solid.ne
  | succ n ih =>
    intro v t hl h
    cases h with
    | and hs =>
      refine C73_goal_and.mpr ⟨_, rfl, hs.mono fun x hx hx' => hx.mono fun a t ht ht' => ih a t ?_ ht⟩
      simp only [paren, List.length_cons, List.length_append] at hl
      omega
    | or hs =>
      refine C73_goal_or.mpr ⟨_, rfl, hs.mono fun x hx hx' => hx.mono fun a t ht ht' => ih a t ?_ ht⟩
      simp only [paren, List.length_cons, List.length_append] at hl
      omega
    | not h1 h2 h3 =>
      simp only [paren, List.length_cons, List.length_append] at hl
      exact C73_goal_not.mpr ⟨_, _, _, rfl, h1, ih _ _ (by omega) h2, h3⟩
    | imply h1 h2 h3 h4 h5 =>
      simp only [paren, List.length_cons, List.length_append] at hl
      exact C73_goal_imply.mpr ⟨_, _, _, _, _, rfl, h1, ih _ _ (by omega) h2, h3, ih _ _ (by omega) h4, h5⟩
    | exist h1 h2 h3 h4 h5 =>
      simp only [paren, List.length_cons, List.length_append] at hl
      exact C73_goal_exists.mpr
        ⟨_, _, _, _, _, rfl, h1, varList_reads.mpr ⟨_, rfl, h2⟩, h3, ih _ _ (by omega) h4, h5⟩
    | forall_ h1 h2 h3 h4 h5 =>
      simp only [paren, List.length_cons, List.length_append] at hl
      exact C73_goal_forall.mpr
        ⟨_, _, _, _, _, rfl, h1, varList_reads.mpr ⟨_, rfl, h2⟩, h3, ih _ _ (by omega) h4, h5⟩
    | atomic h hs =>
      refine .of h.solid ?_
      rw [parseGd_eq, gdBody_kw, alt_append_err ((kw_goals_atom h []).2 hs)]
      exact alt_hit (map_run (atomX_run h []))
    | fComp h hn =>
      refine .of (by cases h; exact solid_paren _) ?_
      exact comparison_run gapC_nil h hn []

/-- C79, goals: exactly these texts are read, each as this goal. -/
theorem C79_goals (s : List Char) (v : GD) (r : List Char) :
    parseGd s = .ok v r ↔ ∃ g t, s = g ++ (t ++ r) ∧ GoalLead v g ∧ GDX v t := by
  constructor
  · intro h
    have other : ∃ g t, s = g ++ (t ++ r) ∧ Gap g ∧ GDX v t := by
      obtain ⟨g, t, e, hg, ht⟩ := parseGd_parts s v r h trivial
      exact ⟨g, t, e, hg, .of_reads _ v t (Nat.le_refl _) ht⟩
    cases v with
    | atomic a => exact atomic_goal h
    | fComp c => exact comparison_goal (op := c.comp) (a := c.first) (b := c.second) h
    | _ => exact other
  · rintro ⟨g, t, rfl, hg, h⟩
    have h0 : parseGd (t ++ r) = .ok v r := C28_goals t [] v (by
      rw [List.append_nil]
      exact (h.reads _ v t (Nat.le_refl _)).2) r
    have kw : Gap g → (∀ a, v ≠ .atomic a) → (∀ c, v ≠ .fComp c) → parseGd (g ++ (t ++ r)) = .ok v r := by
      intro hg h1 h2
      rw [parseGd_eq, gdBody_kw] at h0 ⊢
      rcases alt_append_inv h0 with h0 | h0
      · exact alt_append_ok (by rw [kwGoals_lead _ hg]; exact h0)
      · rcases alt_inv h0 with e | ⟨_, h0⟩
        · obtain ⟨_, _, e⟩ := map_ok e
          exact absurd e (h1 _)
        rcases alt_inv h0 with e | ⟨_, h0⟩
        · obtain ⟨_, _, e⟩ := map_ok e
          cases e
          cases h
        rcases alt_inv h0 with e | ⟨_, h0⟩
        · obtain ⟨_, _, e⟩ := map_ok e
          exact absurd e (h2 _)
        · cases h0
    cases h with
    | atomic h hs =>
      rw [parseGd_eq, gdBody_kw, alt_append_err (by rw [kwGoals_lead _ hg.gap]; exact (kw_goals_atom h r).2 hs)]
      exact alt_hit (map_run ((C68_atoms _ _ _).mpr ⟨g, t, rfl, hg, h⟩))
    | fComp h hn => exact comparison_run hg h hn r
    | _ => exact kw hg (fun _ e => nomatch e) (fun _ e => nomatch e)

/-- A comparison inside a conjunction, by the description. -/
example : GDX (.and [.fComp ⟨.ge, .function (.simple (Ex.nm c!"f")), .function (.simple (Ex.nm c!"g"))⟩, .and []])
    c!"(and (>= f g) (and))" := by
  obtain ⟨g, t, e, _, h⟩ := (C79_goals c!"(and (>= f g) (and))" _ []).mp rfl
  exact solid_whole (solid_open _) e (by assumption) h.solid ▸ h

/-- C79: every text of an atom is read as a goal, as that atom unless it is shadowed by a keyword. -/
theorem C79_atoms {a : AtomicFormula Term} {t : List Char} (h : AtomX TermX TermEnds a t) (r : List Char) :
    (¬ Shadowed a t → parseGd (t ++ r) = .ok (.atomic a) r) ∧
    (Shadowed a t → ∃ v, parseGd (t ++ r) = .ok v r ∧ (∀ a, v ≠ .atomic a) ∧ ∀ c, v ≠ .fComp c) := by
  refine ⟨fun hs => (C79_goals _ _ _).mpr ⟨[], t, rfl, .nil a, .atomic h hs⟩, fun hs => ?_⟩
  obtain ⟨v, hv⟩ := (kw_goals_atom h r).1 hs
  have := kwGoals_value hv
  exact ⟨v, by rw [parseGd_eq, gdBody_kw]; exact alt_append_ok hv, this.1, this.2.2⟩

/-- Shadowed: `(imply (p) (q))` is also the text of an atom. With three arguments, with a variable
among the arguments or with a blank before the keyword it is nothing but an atom. -/
example : Shadowed (.predicate (Ex.nm c!"imply") [.fn (Ex.nm c!"p") [], .fn (Ex.nm c!"q") []])
    c!"(imply (p) (q))" := .imply (u := c!" (p) (q)") rfl trivial trivial
example : (∃ a, parseGd c!"(imply (p) (q) (r))" = .ok (.atomic a) []) ∧
    (∃ a, parseGd c!"(or (p) ?x)" = .ok (.atomic a) []) ∧ (∃ a, parseGd c!"( and (p) (q))" = .ok (.atomic a) []) :=
  ⟨⟨_, rfl⟩, ⟨_, rfl⟩, ⟨_, rfl⟩⟩

/-- C79: no text has two readings as a goal. -/
theorem C79_one_reading {v v' : GD} {t : List Char} (h : GDX v t) (h' : GDX v' t) : v = v' := by
  have e := (h.reads _ v t (Nat.le_refl _)).2
  rw [(h'.reads _ v' t (Nat.le_refl _)).2] at e
  cases e
  rfl

end Pddl
