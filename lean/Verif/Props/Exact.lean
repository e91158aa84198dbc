import Verif.Props.Quirks
import Verif.Props.Layout

/-!
# C68: the exact texts of terms, atoms and literals

For the flat expressions the grammar relations of `Verif/Spec/Grammar.lean` leave a gap: every strict
spelling is accepted, and every accepted text is a loose spelling. Here the accepted texts are
described exactly, with an equivalence for every text, value and remainder. The description tells
where layout is optional, where it is required, and where it is forbidden.
-/

namespace Pddl

/-- Layout that is empty or begins with a comment. -/
def GapC (g : List Char) : Prop := Gap g ∧ ∀ c g', g = c :: g' → c = ';'

/-- The accepted texts of a term: a name; `?` and a name, with any layout in between; or a
parenthesised name with arguments. Layout may follow the opening parenthesis. Between the name and
the first argument layout is needed only where the name would go on. The arguments are separated by
layout that begins with a blank. No layout follows the last argument. -/
inductive TermX : Term → List Char → Prop
  | name {n t} : NameW n t → TermX (.name n) t
  | var {g v w} : Gap g → NameW v w → TermX (.var v) ('?' :: (g ++ w))
  | fn {g f t ts u} : Gap g → NameW f t → Sec Gap (· = []) (Items TermX) ts u → NoWord u →
      TermX (.fn f ts) (paren (g ++ (t ++ u)))

/-- The accepted texts of a function term. -/
inductive FnTermX : FunctionTerm → List Char → Prop
  | mk {g f t ts u} : Gap g → NameW f t → Sec Gap (· = []) (Items TermX) ts u → NoWord u →
      FnTermX ⟨f, ts⟩ (paren (g ++ (t ++ u)))

/-- Layout that is skipped before a term: only before a name. -/
def TermLead : Term → List Char → Prop
  | .name _, g => Gap g
  | _, g => g = []

/-- What may follow a term: anything after a parenthesis, but no word character after a name. -/
def TermEnds : Term → List Char → Prop
  | .fn _ _, _ => True
  | _, r => NoWord r

/-- The accepted texts of an atom over arguments with texts `R` and followers `F`. In an equality,
which begins with `(=` without layout in between, layout is optional everywhere else. -/
inductive AtomX {α : Type} (R F : α → List Char → Prop) : AtomicFormula α → List Char → Prop
  | equality {g1 a t1 g2 b t2 g3} : Gap g1 → R a t1 → Gap g2 → F a (g2 ++ t2) → R b t2 → Gap g3 →
      AtomX R F (.equality a b) (paren (c!"=" ++ (g1 ++ (t1 ++ (g2 ++ (t2 ++ g3))))))
  | predicate {g p t vs u} : Gap g → NameW p t → Sec Gap (· = []) (Items R) vs u → NoWord u →
      AtomX R F (.predicate p vs) (paren (g ++ (t ++ u)))

/-- Layout that is skipped before an atom: any before an equality, but only layout that begins with
a comment before a predicate. -/
def AtomLead {α : Type} : AtomicFormula α → List Char → Prop
  | .equality _ _, g => Gap g
  | .predicate _ _, g => GapC g

/-- What is needed of the arguments of an atom. -/
structure Exact (p : P α) (L R F : α → List Char → Prop) : Prop where
  iff : ∀ s a r, p s = .ok a r ↔ ∃ g t, s = g ++ (t ++ r) ∧ L a g ∧ R a t ∧ F a r
  lead : ∀ a g, L a g → Gap g
  none : ∀ a, L a []
  solid : ∀ a t, R a t → Solid t
  stop : ∀ a r, Stop r → F a r
  head : ∀ a x y, x ≠ [] → (F a (x ++ y) ↔ F a x)
  close : ∀ x, p (')' :: x) = .err

theorem Exact.nonE {p : P α} {L R F : α → List Char → Prop} (h : Exact p L R F) : NonE R :=
  fun a t ht => (h.solid a t ht).ne

theorem Exact.snd {p : P α} {L R F : α → List Char → Prop} (h : Exact p L R F) : Snd Any Gap p R := by
  intro s a r hs _
  obtain ⟨g, t, h1, h2, h3, _⟩ := (h.iff s a r).mp hs
  exact ⟨g, t, h1, h.lead a g h2, h3⟩

theorem Exact.run {p : P α} {L R F : α → List Char → Prop} (h : Exact p L R F) {a t r} (ht : R a t)
    (hr : F a r) : p (t ++ r) = .ok a r := (h.iff _ a r).mpr ⟨[], t, rfl, h.none a, ht, hr⟩

theorem Exact.elem {p : P α} {L R F : α → List Char → Prop} (h : Exact p L R F) {a t} (ht : R a t) :
    Elem p a t := ⟨fun r hr => h.run ht (h.stop a r hr), h.solid a t ht⟩

/-! ## Lists -/

/-- A list consumes no layout after its last element. -/
theorem list0_exact {p : P α} {R : α → List Char → Prop} (h : Snd Any Gap p R) (hR : NonE R) :
    Snd NE Nil (spaceSeparatedList0 p) (Sec Gap (· = []) (Items R)) := by
  intro s as r hs hr
  unfold spaceSeparatedList0 at hs
  rw [ws_eq] at hs
  have hne : skip s ≠ [] → ∃ g, s = g ++ skip s ∧ Gap g := skip_gap
  unfold sepList0 at hs
  rw [eolp_eq] at hs
  cases hp : p (skipC (skip s)) with
  | ok a r1 =>
    rw [hp] at hs
    simp only [Res.bind] at hs
    cases hl : sepLoop multispace1 (preceded ignoreEolComment p) (r1.length + 1) r1 with
    | ok as' r' =>
      rw [hl] at hs
      cases hs
      obtain ⟨g, t, h1, hg, ht⟩ := list_tail h hR hp hl
      obtain ⟨g0, h2, hg0⟩ := hne (by rw [h1]; simp [Items.nonE hR _ _ ht])
      rw [h1] at h2
      exact ⟨[], (g0 ++ g) ++ (t ++ []), by rw [h2]; simp, rfl, .cons (hg0.append hg) ht rfl⟩
    | _ => rw [hl] at hs; cases hs
  | err =>
    rw [hp] at hs
    cases hs
    obtain ⟨g0, h2, hg0⟩ := hne hr
    exact ⟨[], g0, by rw [List.nil_append]; exact h2, rfl, .nil hg0⟩
  | _ => rw [hp] at hs; cases hs

theorem parseName_noWord {s : List Char} {n : Name} {r : List Char} (h : parseName s = .ok n r) :
    NoWord r := by
  obtain ⟨_, _, _, _, _, _, h⟩ := (C04_name_iff s n r).mp h
  exact h

theorem NoWord.head {x : List Char} (hx : x ≠ []) (y : List Char) : NoWord (x ++ y) ↔ NoWord x := by
  cases x with
  | nil => exact absurd rfl hx
  | cons c x =>
    constructor
    · intro h d r hd; cases hd; exact h _ _ rfl
    · intro h d r hd; cases hd; exact h _ _ rfl

theorem NoWord.close {u : List Char} (x : List Char) : NoWord (u ++ ')' :: x) ↔ NoWord u := by
  cases u with
  | nil =>
    constructor
    · intro _ d r hd; cases hd
    · intro _ d r hd; cases hd; decide
  | cons c u => exact NoWord.head (by simp) _

/-- A name and a list, up to the closing parenthesis. -/
theorem head_list_inv {p : P α} {R : α → List Char → Prop} (h : Snd Any Gap p R) (hR : NonE R)
    {s : List Char} {n : Name} {as : List α} {r : List Char}
    (hs : pair parseName (spaceSeparatedList0 p) s = .ok (n, as) (')' :: r)) :
    ∃ g t u, s = g ++ (t ++ (u ++ ')' :: r)) ∧ Gap g ∧ NameW n t ∧
      Sec Gap (· = []) (Items R) as u ∧ NoWord u := by
  obtain ⟨r1, h1, h2⟩ := pair_ok hs
  obtain ⟨g, t, h3, hg, ht, rfl, hr⟩ := (C04_name_iff _ _ _).mp h1
  obtain ⟨g', u, rfl, hg', hu⟩ := list0_exact h hR _ _ _ h2 (by simp [NE])
  cases hg'
  exact ⟨g, t, u, h3, hg, ⟨ht, rfl⟩, hu, (NoWord.close r).mp hr⟩

theorem head_list_run {p : P α} {R : α → List Char → Prop} {g t u : List Char} {n : Name}
    {as : List α} (hg : Gap g) (hn : NameW n t) (h : Sec Gap (· = []) (Items R) as u)
    (hE : ∀ a t', R a t' → t'.length ≤ u.length → Elem p a t') (hu : NoWord u)
    (hp : ∀ x, p (')' :: x) = .err) (r : List Char) :
    pair parseName (spaceSeparatedList0 p) (g ++ (t ++ (u ++ ')' :: r))) = .ok (n, as) (')' :: r) := by
  obtain ⟨y, h1, _, h3⟩ := list0_sec (p := p)
    (h.mono fun t h hl => h.mono fun a t' h hl' => hE a t' h (by omega)) (fun _ h => h)
    (fun _ h => by subst h; exact .nil) hp r
  cases h3 fun _ h => h
  refine pair_run ?_ h1
  exact (C04_name_iff _ _ _).mpr ⟨g, t, rfl, hg, hn.1, hn.2, (NoWord.close r).mpr hu⟩

/-! ## Terms -/

theorem termX_solid {v : Term} {t : List Char} (h : TermX v t) : Solid t := by
  cases h with
  | name h => exact h.solid
  | var => exact ⟨'?', _, rfl, by decide, by decide⟩
  | fn => exact solid_paren _

theorem functionTermOf_inv {p : P Term} (h : Snd Any Gap p TermX) {s : List Char} {v : FunctionTerm}
    {r : List Char} (hs : functionTermOf p s = .ok v r) : ∃ t, s = t ++ r ∧ FnTermX v t := by
  obtain ⟨⟨f, ts⟩, h0, rfl⟩ := map_ok hs
  obtain ⟨_, r1, h1, h2⟩ := preceded_ok h0
  obtain ⟨_, r2, h3, h4⟩ := terminated_ok h2
  obtain ⟨_, rfl⟩ := tag_inv h1
  obtain ⟨_, rfl⟩ := tag_inv h4
  obtain ⟨g, t, u, rfl, hg, hn, hu, hw⟩ := head_list_inv h (fun _ _ h => (termX_solid h).ne) h3
  exact ⟨_, by simp [paren], .mk hg hn hu hw⟩

theorem parseVariable_inv {s : List Char} {v : Name} {r : List Char}
    (h : parseVariable s = .ok v r) :
    ∃ g w, s = '?' :: (g ++ w) ++ r ∧ Gap g ∧ NameW v w ∧ NoWord r := by
  obtain ⟨_, r1, h1, h2⟩ := preceded_ok h
  obtain ⟨_, rfl⟩ := tag_inv h1
  obtain ⟨g, t, rfl, hg, ht, rfl, hr⟩ := (C04_name_iff _ _ _).mp h2
  exact ⟨g, t, by simp, hg, ⟨ht, rfl⟩, hr⟩

theorem termBody_inv {p : P Term} (h : Snd Any Gap p TermX) {s : List Char} {v : Term}
    {r : List Char} (hs : termBody p s = .ok v r) :
    ∃ g t, s = g ++ (t ++ r) ∧ TermLead v g ∧ TermX v t ∧ TermEnds v r := by
  rcases ifOk_inv hs with ⟨a, h1, rfl⟩ | hs
  · obtain ⟨g, w, rfl, hg, hw, hr⟩ := parseVariable_inv h1
    exact ⟨[], _, rfl, rfl, .var hg hw, hr⟩
  rcases ifOk_inv hs with ⟨a, h1, rfl⟩ | hs
  · obtain ⟨g, t, h3, hg, ht, rfl, hr⟩ := (C04_name_iff _ _ _).mp h1
    exact ⟨g, t, h3, hg, .name ⟨ht, rfl⟩, hr⟩
  rcases ifOk_inv hs with ⟨a, h1, rfl⟩ | hs
  · obtain ⟨t, rfl, ht⟩ := functionTermOf_inv h h1
    cases ht with
    | mk h2 h3 h4 h5 => exact ⟨[], _, rfl, rfl, .fn h2 h3 h4 h5, trivial⟩
  · cases hs

theorem TermLead.gap {v : Term} {g : List Char} (h : TermLead v g) : Gap g := by
  cases v with
  | name => exact h
  | _ => cases h; exact .nil

theorem parseTerm_sndX : Snd Any Gap parseTerm TermX :=
  .fix fun self h s a r hs _ => by
    obtain ⟨g, t, h1, h2, h3, _⟩ := termBody_inv h hs
    exact ⟨g, t, h1, h2.gap, h3⟩

theorem functionTermOf_run {p : P Term} {g t u : List Char} {f : Name} {ts : List Term} (hg : Gap g)
    (hn : NameW f t) (h : Sec Gap (· = []) (Items TermX) ts u)
    (hE : ∀ a t', TermX a t' → t'.length ≤ u.length → Elem p a t') (hu : NoWord u)
    (hp : ∀ x, p (')' :: x) = .err) (r : List Char) :
    functionTermOf p (paren (g ++ (t ++ u)) ++ r) = .ok ⟨f, ts⟩ r := by
  simp only [paren_append, List.append_assoc]
  exact map_run (a := (f, ts)) ((preceded_run (tag_ok c!"(" _)).trans
    (terminated_run (head_list_run hg hn h hE hu hp r) (tag_ok c!")" r)))

theorem TermX.run_aux (n : Nat) : ∀ v t r, t.length ≤ n → TermX v t → TermEnds v r →
    parseTerm (t ++ r) = .ok v r := by
  induction n with
  | zero =>
    intro v t r hn h
    obtain ⟨c, r, rfl, _⟩ := termX_solid h
    simp at hn
  | succ n ih =>
    intro v t r hn h hr
    rw [parseTerm_eq, termBody]
    cases h with
    | name h =>
      exact (ifOk_miss (parseVariable_word h.1 r)).trans (ifOk_hit
        ((C04_name_iff _ _ _).mpr ⟨[], t, rfl, .nil, h.1, h.2, hr⟩))
    | @var g v w hg hw =>
      refine ifOk_hit ((preceded_run (tag_ok c!"?" ((g ++ w) ++ r))).trans ?_)
      exact (C04_name_iff _ _ _).mpr ⟨g, w, by simp, hg, hw.1, hw.2, hr⟩
    | @fn g f t ts u hg hf h hu =>
      refine (ifOk_miss ?_).trans ((ifOk_miss ?_).trans
        (ifOk_hit (functionTermOf_run hg hf h (fun a t' ha hl => ⟨fun r hr => ih _ _ _ ?_ ha ?_,
          termX_solid ha⟩) hu parseTerm_close r)))
      · rw [paren_append]; exact parseVariable_open _
      · rw [paren_append]; exact parseName_open _
      · simp only [paren, List.length_append, List.length_cons] at hn
        omega
      · cases a with
        | fn => trivial
        | _ => exact hr.word

theorem TermX.run {v : Term} {t r : List Char} (h : TermX v t) (hr : TermEnds v r) :
    parseTerm (t ++ r) = .ok v r := h.run_aux _ v t r (Nat.le_refl _) hr

/-- `parse_term` reads `v` and leaves `r` exactly when the text consists of layout (only before a
name), an accepted text of `v`, and `r`, which does not go on with a word character if `v` ends in a
name. -/
theorem C68_terms (s : List Char) (v : Term) (r : List Char) :
    parseTerm s = .ok v r ↔
      ∃ g t, s = g ++ (t ++ r) ∧ TermLead v g ∧ TermX v t ∧ TermEnds v r := by
  constructor
  · intro h
    rw [parseTerm_eq] at h
    exact termBody_inv parseTerm_sndX h
  · rintro ⟨g, t, rfl, hg, ht, hr⟩
    cases v with
    | name n =>
      cases ht with
      | name h =>
        have hv : parseVariable (g ++ (t ++ r)) = .err := by
          refine parseVariable_err fun x hx => ?_
          exact gap_word_ne hg h.1 r (by decide) (by decide) (by decide) x hx
        rw [parseTerm_eq, termBody]
        exact (ifOk_miss hv).trans (ifOk_hit ((C04_name_iff _ _ _).mpr ⟨g, t, rfl, hg, h.1, h.2, hr⟩))
    | _ => cases hg; exact ht.run hr

/-- `parse_function_term` reads exactly the accepted texts of function terms, without layout in
front. -/
theorem C68_function_terms (s : List Char) (v : FunctionTerm) (r : List Char) :
    parseFunctionTerm s = .ok v r ↔ ∃ t, s = t ++ r ∧ FnTermX v t := by
  constructor
  · exact functionTermOf_inv parseTerm_sndX
  · rintro ⟨t, rfl, ht⟩
    cases ht with
    | mk h1 h2 h3 h4 =>
      refine functionTermOf_run h1 h2 h3 (fun a t ha _ => ⟨fun r hr => ha.run ?_, termX_solid ha⟩) h4
        parseTerm_close r
      cases a with
      | fn => trivial
      | _ => exact hr.word

/-- The layout in `(f?x ; c` newline `?y)`: none before `?x`, a blank and a comment before `?y`. -/
example : TermX (.fn (Ex.nm c!"f") [.var (Ex.nm c!"x"), .var (Ex.nm c!"y")]) c!"(f?x ; c\n? y)" :=
  .fn (g := []) (t := c!"f") (u := c!"?x ; c\n? y") .nil ⟨isWord_of _ _ (by decide) (by decide), rfl⟩
    (.cons (g := []) (t := c!"?x ; c\n? y") (g' := []) .nil
      (.cons (t := c!"?x") (g := c!" ; c\n") (u := c!"? y")
        (.var (g := []) (w := c!"x") .nil ⟨isWord_of _ _ (by decide) (by decide), rfl⟩)
        (.mk rfl (.comment (b := ' ') (body := c!"c") rfl (by decide) rfl .nil))
        (.one (.var (g := c!" ") (w := c!"y") (.space rfl .nil)
          ⟨isWord_of _ _ (by decide) (by decide), rfl⟩)))
      rfl)
    (by intro c r h; cases h; decide)
example : parseTerm c!"(f?x ; c\n? y)" =
    .ok (.fn (Ex.nm c!"f") [.var (Ex.nm c!"x"), .var (Ex.nm c!"y")]) [] := rfl
example : parseTerm c!"(f ?x )" = .err := rfl
example : parseTerm c!" (f ?x)" = .err ∧ parseTerm c!" f" = .ok (.name (Ex.nm c!"f")) [] := ⟨rfl, rfl⟩

theorem parseTerm_exact : Exact parseTerm TermLead TermX TermEnds where
  iff := C68_terms
  lead _ _ h := h.gap
  none a := by cases a <;> first | rfl | exact Gap.nil
  solid _ _ h := termX_solid h
  stop a r h := by cases a <;> first | trivial | exact h.word
  head a x y hx := by cases a <;> first | exact Iff.rfl | exact NoWord.head hx y
  close := parseTerm_close

theorem parseName_exact : Exact parseName (fun _ => Gap) NameW (fun _ => NoWord) where
  iff s n r := by
    rw [C04_name_iff]
    constructor
    · rintro ⟨g, t, h1, h2, h3, h4, h5⟩; exact ⟨g, t, h1, h2, ⟨h3, h4⟩, h5⟩
    · rintro ⟨g, t, h1, h2, ⟨h3, h4⟩, h5⟩; exact ⟨g, t, h1, h2, h3, h4, h5⟩
  lead _ _ h := h
  none _ := .nil
  solid _ _ h := h.solid
  stop _ _ h := h.word
  head _ _ y hx := NoWord.head hx y
  close := parseName_close

/-! ## Atoms -/

theorem GapC.skipC_solid {g t : List Char} (hg : GapC g) (ht : Solid t) : skipC (g ++ t) = t := by
  cases g with
  | nil => exact ht.skipC
  | cons c g =>
    have hc := hg.2 c g rfl
    subst hc
    exact (show skipC (';' :: g ++ t) = skip (';' :: g ++ t) from rfl).trans (hg.1.skip_solid ht)

theorem skipC_open {s x : List Char} (h : skipC s = '(' :: x) : ∃ g, s = g ++ '(' :: x ∧ GapC g := by
  obtain ⟨g, h1, hg⟩ := skipC_gap (s := s) (by rw [h]; simp)
  rw [h] at h1
  rcases skipC_cases s with hs | ⟨r, hs⟩
  · exact ⟨[], by rw [← hs, h]; rfl, .nil, fun _ _ h => by cases h⟩
  · refine ⟨g, h1, hg, fun c g' hg' => ?_⟩
    subst hg'
    rw [hs] at h1
    cases h1
    rfl

/-- `atomic_formula` over arguments with known texts. -/
theorem atom_exact {p : P α} {L R F : α → List Char → Prop} (h : Exact p L R F) (s : List Char)
    (v : AtomicFormula α) (r : List Char) :
    atomicFormula p s = .ok v r ↔ ∃ g t, s = g ++ (t ++ r) ∧ AtomLead v g ∧ AtomX R F v t := by
  have hws : ws (spaceSeparatedList0 p) = spaceSeparatedList0 p := ws_ws _
  rw [atomicFormula, hws]
  constructor
  · intro hs
    rcases alt_inv hs with hs | ⟨_, hs⟩
    · obtain ⟨⟨a, b⟩, h0, rfl⟩ := map_ok hs
      obtain ⟨_, r1, h1, h2⟩ := preceded_ok h0
      obtain ⟨_, r2, h3, h4⟩ := terminated_ok h2
      rw [ws_eq] at h1 h4
      obtain ⟨_, h1⟩ := tag_inv h1
      have h4 := char_inv h4
      obtain ⟨g, h5, hg⟩ := skip_gap (s := s) (by rw [h1]; simp)
      obtain ⟨g3, h6, hg3⟩ := skip_gap (s := r2) (by rw [h4]; simp)
      rw [h1] at h5
      rw [h4] at h6
      subst h5 h6
      obtain ⟨r3, h7, h8⟩ := pair_ok h3
      rw [ws_eq] at h7 h8
      obtain ⟨ga, ta, h9, hga, hta, hfa⟩ := (h.iff _ _ _).mp h7
      obtain ⟨gb, tb, h10, hgb, htb, hfb⟩ := (h.iff _ _ _).mp h8
      obtain ⟨g1, h11, hg1⟩ := skip_gap (s := r1) (by rw [h9]; simp [(h.solid _ _ hta).ne])
      obtain ⟨g2, h12, hg2⟩ := skip_gap (s := r3) (by rw [h10]; simp [(h.solid _ _ htb).ne])
      rw [h9] at h11
      rw [h10] at h12
      subst h11 h12
      refine ⟨g, _, ?_, hg, .equality (g1 := g1 ++ ga) (g2 := g2 ++ gb) (hg1.append (h.lead _ _ hga)) hta
        (hg2.append (h.lead _ _ hgb)) ?_ htb hg3⟩
      · simp [paren]
      · refine (h.head _ _ (g3 ++ ')' :: r) ?_).mp ?_
        · simp [(h.solid _ _ htb).ne]
        · simpa using hfa
    · rcases alt_inv hs with hs | ⟨_, hs⟩
      · obtain ⟨⟨n, as⟩, h0, rfl⟩ := map_ok hs
        obtain ⟨x, h1, h2⟩ := parens_inv_skip h0
        obtain ⟨g0, h3, hg0⟩ := skipC_open h1
        obtain ⟨g, t, u, h4, hg, hn, hu, hw⟩ := head_list_inv h.snd h.nonE h2
        obtain ⟨g1, h5, hg1⟩ := skip_gap (s := x) (by rw [h4]; simp [hn.solid.ne])
        rw [h4] at h5
        subst h3 h5
        exact ⟨g0, _, by simp [paren], hg0, .predicate (g := g1 ++ g) (hg1.append hg) hn hu hw⟩
      · cases hs
  · rintro ⟨g, t, rfl, hg, ht⟩
    cases ht with
    | @equality g1 a t1 g2 b t2 g3 hg1 h1 hg2 hf h2 hg3 =>
      refine alt_hit (map_run (a := (a, b)) ?_)
      have e0 : ws (tag c!"(=") (g ++ (paren (c!"=" ++ (g1 ++ (t1 ++ (g2 ++ (t2 ++ g3))))) ++ r)) =
          .ok c!"(=" (g1 ++ (t1 ++ (g2 ++ (t2 ++ (g3 ++ ')' :: r))))) := by
        rw [ws_eq, hg.skip_solid ((solid_paren _).append r)]
        simp only [paren_append, List.append_assoc]
        exact tag_ok c!"(=" _
      refine (preceded_run e0).trans (terminated_run (pair_run (r := g2 ++ (t2 ++ (g3 ++ ')' :: r)))
        ?_ (r' := g3 ++ ')' :: r) ?_) (b := ')') ?_)
      · rw [ws_eq, hg1.skip_solid ((h.solid _ _ h1).append _)]
        refine h.run h1 ?_
        have := (h.head a (g2 ++ t2) (g3 ++ ')' :: r) (by simp [(h.solid _ _ h2).ne])).mpr hf
        simpa using this
      · rw [ws_eq, hg2.skip_solid ((h.solid _ _ h2).append _)]
        exact h.run h2 (h.stop _ _ (.gap hg3 (.close r)))
      · rw [ws_eq, hg3.skip_solid (solid_close r)]
        simp [char]
    | @predicate g1 n t vs u hg1 hn hu hw =>
      have e : g ++ (paren (g1 ++ (t ++ u)) ++ r) = g ++ ('(' :: (g1 ++ (t ++ (u ++ ')' :: r)))) := by
        simp [paren]
      have hm : delimited (ws (tag c!"(=")) (pair (ws p) (ws p)) (ws (char ')'))
          (g ++ ('(' :: (g1 ++ (t ++ (u ++ ')' :: r))))) = .err := by
        rw [← eq_miss (p := p) (gap_word_ne hg1 hn.1 (u ++ ')' :: r) (k := '=') (by decide) (by decide)
          (by decide))]
        unfold delimited preceded
        rw [ws_eq, ws_eq, hg.1.skip_solid (solid_open _), (solid_open _).skip]
      rw [e, alt_miss (map_err hm)]
      refine alt_hit (map_run (a := (n, vs)) ?_)
      have hpar : ∀ x, parens (pair parsePredicate (spaceSeparatedList0 p)) (g ++ '(' :: x) =
          parens (pair parsePredicate (spaceSeparatedList0 p)) ('(' :: x) := by
        intro x
        unfold parens
        rw [eolp_eq, eolp_eq, hg.skipC_solid (solid_open x), (solid_open x).skipC]
      rw [hpar]
      refine parens_run ?_
      have := head_list_run (p := p) hg1 hn hu (fun a t' ha _ => h.elem ha) hw h.close r
      rw [← this, hg1.skip_solid (hn.solid.append _)]
      simp only [pair, parsePredicate, parseName_eq, hg1.skip_solid (hn.solid.append _),
        (hn.solid.append _).skip]

/-- `atomic_formula` over terms. -/
theorem C68_atoms (s : List Char) (v : AtomicFormula Term) (r : List Char) :
    atomicFormula parseTerm s = .ok v r ↔
      ∃ g t, s = g ++ (t ++ r) ∧ AtomLead v g ∧ AtomX TermX TermEnds v t :=
  atom_exact parseTerm_exact s v r

/-- `atomic_formula` over names. -/
theorem C68_ground_atoms (s : List Char) (v : AtomicFormula Name) (r : List Char) :
    atomicFormula parseName s = .ok v r ↔
      ∃ g t, s = g ++ (t ++ r) ∧ AtomLead v g ∧ AtomX NameW (fun _ => NoWord) v t :=
  atom_exact parseName_exact s v r

example : GapC c!"; c\n " := ⟨.comment (b := ' ') (body := c!"c") rfl (by decide) rfl (.space rfl .nil),
  fun _ _ h => by cases h; rfl⟩
/-- In `(=?x?y)` no layout is needed at all; `(=x y)` needs the blank. -/
example : AtomX TermX TermEnds (.equality (.var (Ex.nm c!"x")) (.var (Ex.nm c!"y"))) c!"(=?x?y)" :=
  .equality (g1 := []) (t1 := c!"?x") (g2 := []) (t2 := c!"?y") (g3 := []) .nil
    (.var (g := []) (w := c!"x") .nil ⟨isWord_of _ _ (by decide) (by decide), rfl⟩) .nil
    (fun c r h => by cases h; decide)
    (.var (g := []) (w := c!"y") .nil ⟨isWord_of _ _ (by decide) (by decide), rfl⟩) .nil
example : atomicFormula parseTerm c!"(=?x?y)" =
    .ok (.equality (.var (Ex.nm c!"x")) (.var (Ex.nm c!"y"))) [] := rfl
example : atomicFormula parseName c!"(= x y )" = .ok (.equality (Ex.nm c!"x") (Ex.nm c!"y")) [] ∧
    atomicFormula parseName c!"(= xy)" = .err ∧ atomicFormula parseName c!"( = x y)" = .err :=
  ⟨rfl, rfl, rfl⟩
/-- Blanks before an equality, but not before a predicate, except after a comment. -/
example : atomicFormula parseName c!" (= x y)" = .ok (.equality (Ex.nm c!"x") (Ex.nm c!"y")) [] ∧
    atomicFormula parseName c!" (p)" = .err ∧
    atomicFormula parseName c!"; c\n (p)" = .ok (.predicate (Ex.nm c!"p") []) [] := ⟨rfl, rfl, rfl⟩

/-! ## Literals -/

/-- The accepted texts of a ground literal. -/
inductive LiteralX : Literal Name → List Char → Prop
  | neg {g a t g'} : Gap g → AtomX NameW (fun _ => NoWord) a t → Gap g' →
      LiteralX (.neg a) (paren (c!"not" ++ (g ++ (t ++ g'))))
  | pos {a t} : AtomX NameW (fun _ => NoWord) a t → LiteralX (.pos a) t

/-- Layout that is skipped before a literal. -/
def LiteralLead : Literal Name → List Char → Prop
  | .neg _, g => Gap g
  | .pos a, g => AtomLead a g

theorem AtomLead.gap {α : Type} {a : AtomicFormula α} {g : List Char} (h : AtomLead a g) : Gap g := by
  cases a with
  | equality => exact h
  | predicate => exact h.1

theorem AtomLead.nil {α : Type} (a : AtomicFormula α) : AtomLead a [] := by
  cases a with
  | equality => exact Gap.nil
  | predicate => exact ⟨.nil, fun _ _ h => by cases h⟩

theorem AtomX.solid {α : Type} {R F : α → List Char → Prop} {a t} (h : AtomX R F a t) : Solid t := by
  cases h <;> exact solid_paren _

theorem atom_head {p : P α} {c : Char} {x : List Char} (hs : Solid (c :: x)) (hc : c ≠ '(') :
    atomicFormula p (c :: x) = .err := by
  have h1 : delimited (ws (tag c!"(=")) (pair (ws p) (ws p)) (ws (char ')')) (c :: x) = .err := by
    refine preceded_err ?_
    rw [ws_eq, hs.skip]
    exact tag_err (stripPrefix_head (Ne.symm hc))
  have h2 : c ≠ ';' := by obtain ⟨d, r, h, _, h2⟩ := hs; cases h; exact h2
  rw [atomicFormula, alt_miss (map_err h1), alt_miss (map_err (parens_head h2 hc)), alt_nil]

theorem prefix_lead {kw : List Char} {p : P α} {g s : List Char} (hg : Gap g) :
    prefixExpr kw p (g ++ s) = prefixExpr kw p s := by
  unfold prefixExpr delimited preceded
  rw [ws_eq, ws_eq, hg.skip]

/-- A positive ground literal is not a negated one. -/
theorem AtomX.not_miss {a : AtomicFormula Name} {t : List Char}
    (h : AtomX NameW (fun _ => NoWord) a t) (r : List Char) :
    prefixExpr c!"not" (atomicFormula parseName) (t ++ r) = .err := by
  cases h with
  | equality =>
    simp only [paren_append, List.append_assoc]
    exact prefixExpr_kw (stripPrefix_head (by decide))
  | @predicate g n t vs u hg hn hu hw =>
    simp only [paren_append, List.append_assoc]
    obtain ⟨c, cs, rfl, hc, hcs⟩ := hn.1
    cases hg with
    | space hsp =>
      refine prefixExpr_kw (stripPrefix_head ?_)
      rintro rfl
      exact absurd hsp (by decide)
    | comment => exact prefixExpr_kw (stripPrefix_head (by decide))
    | nil =>
      by_cases hx : ∃ w, (c :: cs) = c!"not" ++ w
      · obtain ⟨w, hw'⟩ := hx
        rw [hw', List.nil_append, List.append_assoc]
        refine prefixExpr_body_err ?_
        cases w with
        | nil =>
          rw [List.nil_append]
          cases hu with
          | nil hg =>
            rw [hg.skip_solid (solid_close r)]
            exact atom_head (solid_close r) (by decide)
          | @cons g1 _ u g2 hg1 hi hg2 =>
            subst hg2
            have key : ∀ {as u}, Items NameW as u → ∃ d w, u = d :: w ∧ isAlpha d = true := by
              intro as u hi
              cases hi with
              | one h => obtain ⟨d, w, rfl, hd, _⟩ := h.1; exact ⟨d, w, rfl, hd⟩
              | cons h => obtain ⟨d, w, rfl, hd, _⟩ := h.1; exact ⟨d, _, rfl, hd⟩
            obtain ⟨d, w, rfl, hd⟩ := key hi
            have hs := isAlpha_solid hd
            have e : (g1 ++ (d :: w ++ []) ++ ')' :: r) = g1 ++ (d :: (w ++ ')' :: r)) := by simp
            rw [e, hg1.skip_solid (.cons hs.1 hs.2 _)]
            exact atom_head (.cons hs.1 hs.2 _) (by rintro rfl; exact absurd hd (by decide))
        | cons d w =>
          have hd : isWordChar d = true := by
            have : d ∈ cs := by cases hw'; simp
            exact hcs d this
          have hs : isSpace d = false ∧ d ≠ ';' ∧ d ≠ '(' := by
            refine ⟨?_, ?_, ?_⟩
            · cases h : isSpace d with
              | false => rfl
              | true =>
                have := isWordChar_not (c := d) (.inl h)
                rw [this] at hd; cases hd
            · rintro rfl; exact absurd hd (by decide)
            · rintro rfl; exact absurd hd (by decide)
          rw [List.cons_append, (Solid.cons hs.1 hs.2.1 _).skip]
          exact atom_head (.cons hs.1 hs.2.1 _) hs.2.2
      · rw [List.nil_append]
        refine prefixExpr_kw ?_
        cases hsp : stripPrefix c!"not" (c :: cs ++ (u ++ ')' :: r)) with
        | none => rfl
        | some x =>
          exfalso
          have e := Good.stripPrefix_eq hsp
          have key : ∀ d z, u ++ ')' :: r = d :: z → isWordChar d = false := (NoWord.close r).mpr hw
          apply hx
          match cs, e, key with
          | [], e, key =>
            simp only [List.cons_append, List.nil_append, List.cons.injEq] at e
            exact absurd (key 'o' _ e.2) (by decide)
          | [c1], e, key =>
            simp only [List.cons_append, List.nil_append, List.cons.injEq] at e
            exact absurd (key 't' _ e.2.2) (by decide)
          | c1 :: c2 :: cs, e, _ =>
            simp only [List.cons_append, List.nil_append, List.cons.injEq] at e
            exact ⟨cs, by rw [e.1, e.2.1, e.2.2.1]; rfl⟩

/-- `literal` over names, as in the `:init` section. -/
theorem C68_literals (s : List Char) (v : Literal Name) (r : List Char) :
    literal parseName s = .ok v r ↔
      ∃ g t, s = g ++ (t ++ r) ∧ LiteralLead v g ∧ LiteralX v t := by
  rw [literal]
  constructor
  · intro hs
    rcases alt_inv hs with hs | ⟨_, hs⟩
    · obtain ⟨a, h0, rfl⟩ := map_ok hs
      obtain ⟨g, x, y, rfl, hg, h1, h2⟩ := prefixExpr_inv h0
      obtain ⟨g1, t, h3, hg1, ht⟩ := (C68_ground_atoms _ _ _).mp h1
      obtain ⟨g2, h4, hg2⟩ := skip_gap (s := x) (by rw [h3]; simp [ht.solid.ne])
      obtain ⟨g3, h5, hg3⟩ := skip_gap (s := y) (by rw [h2]; simp)
      rw [h3] at h4
      rw [h2] at h5
      subst h4 h5
      exact ⟨g, _, by simp [paren], hg, .neg (g := g2 ++ g1) (hg2.append hg1.gap) ht hg3⟩
    · rcases alt_inv hs with hs | ⟨_, hs⟩
      · obtain ⟨a, h0, rfl⟩ := map_ok hs
        obtain ⟨g, t, h3, hg, ht⟩ := (C68_ground_atoms _ _ _).mp h0
        exact ⟨g, t, h3, hg, .pos ht⟩
      · cases hs
  · rintro ⟨g, t, rfl, hg, ht⟩
    cases ht with
    | @neg g1 a t g2 hg1 ht hg2 =>
      refine alt_hit (map_run ?_)
      rw [prefix_lead hg]
      refine prefix_one hg1 (fun r' _ => ?_) ht.solid hg2 r trivial
      exact (C68_ground_atoms _ _ _).mpr ⟨[], t, rfl, AtomLead.nil a, ht⟩
    | @pos a t ht =>
      rw [alt_miss (map_err (by rw [prefix_lead (AtomLead.gap hg)]; exact ht.not_miss r))]
      exact alt_hit (map_run ((C68_ground_atoms _ _ _).mpr ⟨g, t, rfl, hg, ht⟩))

example : LiteralX (.neg (.predicate (Ex.nm c!"p") [])) c!"(not(p) )" :=
  .neg (g := []) (t := c!"(p)") (g' := c!" ") .nil
    (.predicate (g := []) (t := c!"p") (u := []) .nil ⟨isWord_of _ _ (by decide) (by decide), rfl⟩
      (.nil .nil) (by intro c r h; cases h)) (.space rfl .nil)
example : literal parseName c!"(not(p) )" = .ok (.neg (.predicate (Ex.nm c!"p") [])) [] ∧
    literal parseName c!"(not p)" = .ok (.pos (.predicate (Ex.nm c!"not") [Ex.nm c!"p"])) [] :=
  ⟨rfl, rfl⟩

/-! ## Consequences -/

/-- When a goal is read as an atom: when it is read by none of the six connectives and has the text
of an atom. -/
theorem C45_iff (s : List Char) (a : AtomicFormula Term) (r : List Char) :
    parseGd s = .ok (.atomic a) r ↔
      (prefixExpr c!"and" (spaceSeparatedList0 parseGd) s = .err ∧
      prefixExpr c!"or" (spaceSeparatedList0 parseGd) s = .err ∧
      prefixExpr c!"not" parseGd s = .err ∧
      prefixExpr c!"imply" (pair parseGd (preceded multispace1 parseGd)) s = .err ∧
      prefixExpr c!"exists" (pair parseVarList (preceded multispace1 parseGd)) s = .err ∧
      prefixExpr c!"forall" (pair parseVarList (preceded multispace1 parseGd)) s = .err) ∧
      ∃ g t, s = g ++ (t ++ r) ∧ AtomLead a g ∧ AtomX TermX TermEnds a t := by
  rw [← C68_atoms]
  constructor
  · intro h
    have h6 := C45_partial h
    refine ⟨h6, ?_⟩
    obtain ⟨h1, h2, h3, h4, h5, h6⟩ := h6
    rw [parseGd_eq, gdBody, alt_miss (map_err h1), alt_miss (map_err h2), alt_miss (map_err h3),
      alt_miss (map_err h4), alt_miss (map_err h5), alt_miss (map_err h6)] at h
    rcases alt_inv h with h | ⟨_, h⟩
    · obtain ⟨_, h0, e⟩ := map_ok h
      cases e
      exact h0
    rcases alt_inv h with h | ⟨_, h⟩
    · obtain ⟨_, h0, e⟩ := map_ok h
      cases e
    rcases alt_inv h with h | ⟨_, h⟩
    · obtain ⟨_, h0, e⟩ := map_ok h
      cases e
    · cases h
  · rintro ⟨⟨h1, h2, h3, h4, h5, h6⟩, h⟩
    rw [parseGd_eq, gdBody, alt_miss (map_err h1), alt_miss (map_err h2), alt_miss (map_err h3),
      alt_miss (map_err h4), alt_miss (map_err h5), alt_miss (map_err h6)]
    exact alt_hit (map_run h)

example : parseGd c!"(imply x)" = .ok (.atomic (.predicate (Ex.nm c!"imply") [.name (Ex.nm c!"x")])) [] :=
  rfl

/-! ### Where a list ends -/

theorem sepLoop_cut {p : P α} {as : List α} {u : List Char} (h : Items (Elem p) as u)
    {g z : List Char} (hg : Sep g) (n : Nat) (hn : (g ++ (u ++ ';' :: z)).length < n) :
    sepLoop multispace1 (preceded ignoreEolComment p) n (g ++ (u ++ ';' :: z)) = .ok as (';' :: z) := by
  have hy : Stop (';' :: z) := fun c r h => by cases h; simp
  induction h generalizing g n with
  | @one a t h =>
    have hk := hg.gap.skip_solid (h.2.append (';' :: z))
    cases hg with
    | @mk c g hc hg =>
      rw [List.cons_append] at hk hn ⊢
      match n with
      | 0 | 1 => simp at hn
      | n + 2 =>
      rw [sepLoop_step hc, hk, h.1 _ hy]
      rfl
  | @cons a t g' as u h hg' hu ih =>
    have e : t ++ (g' ++ u) ++ ';' :: z = t ++ (g' ++ (u ++ ';' :: z)) := by simp
    rw [e] at hn ⊢
    have hk := hg.gap.skip_solid (h.2.append (g' ++ (u ++ ';' :: z)))
    cases hg with
    | @mk c g hc hg =>
      rw [List.cons_append] at hk hn ⊢
      match n with
      | 0 => simp at hn
      | n + 1 =>
      rw [sepLoop_step hc, hk, h.1 _ (.sep hg' _)]
      dsimp only
      rw [ih hg' n (by simp only [List.length_append, List.length_cons] at hn ⊢; omega)]
      rfl

/-- Every list of elements ends at a comment that directly follows an element, whatever comes after
the comment. -/
theorem C48_false_lists {p : P α} {as : List α} {u : List Char} (h : Items (Elem p) as u)
    {g : List Char} (hg : Gap g) (z : List Char) :
    spaceSeparatedList0 p (g ++ (u ++ ';' :: z)) = .ok as (';' :: z) ∧
      spaceSeparatedList1 p (g ++ (u ++ ';' :: z)) = .ok as (';' :: z) := by
  have hy : Stop (';' :: z) := fun c r h => by cases h; simp
  have hk := hg.skip_solid (h.solid.append (';' :: z))
  rw [spaceSeparatedList0, spaceSeparatedList1, ws_eq, ws_eq, hk]
  cases h with
  | one h =>
    simp only [sepList0, sepList1, eolp_eq, (h.2.append (';' :: z)).skipC, h.1 _ hy, Res.bind]
    exact ⟨rfl, rfl⟩
  | @cons a t g' as u h hg' hu =>
    have e : t ++ (g' ++ u) ++ ';' :: z = t ++ (g' ++ (u ++ ';' :: z)) := by simp
    simp only [e, sepList0, sepList1, eolp_eq, (h.2.append (g' ++ (u ++ ';' :: z))).skipC,
      h.1 _ (.sep hg' _), Res.bind, sepLoop_cut hu hg' _ (Nat.lt_succ_self _), and_self]

/-- A conjunction or disjunction is rejected, or read as something else, if a comment directly
follows one of its parts and more than layout comes before the closing parenthesis. -/
theorem C48_false_goals {gs : List GD} {u : List Char} (h : Items (GDW .strict) gs u) {g z : List Char}
    (hg : Gap g) (hz : ∀ r, skip (';' :: z) ≠ ')' :: r) (vs : List GD) (r : List Char) :
    parseGd ('(' :: (c!"and" ++ (g ++ (u ++ ';' :: z)))) ≠ .ok (.and vs) r ∧
      parseGd ('(' :: (c!"or" ++ (g ++ (u ++ ';' :: z)))) ≠ .ok (.or vs) r := by
  have hi : Items (Elem parseGd) gs u := h.mono fun _ _ h _ => h.elem
  have hl := (C48_false_lists hi hg z).1
  rw [← list0_skip] at hl
  constructor
  · intro hp
    rw [parseGd_eq, gdBody, alt_miss (map_err (prefixExpr_tail hl hz))] at hp
    rcases alt_inv hp with hp | ⟨_, hp⟩
    · obtain ⟨_, _, e⟩ := map_ok hp; cases e
    rcases alt_inv hp with hp | ⟨_, hp⟩
    · obtain ⟨_, _, e⟩ := map_ok hp; cases e
    rcases alt_inv hp with hp | ⟨_, hp⟩
    · obtain ⟨_, _, e⟩ := map_ok hp; cases e
    rcases alt_inv hp with hp | ⟨_, hp⟩
    · obtain ⟨_, _, e⟩ := map_ok hp; cases e
    rcases alt_inv hp with hp | ⟨_, hp⟩
    · obtain ⟨_, _, e⟩ := map_ok hp; cases e
    rcases alt_inv hp with hp | ⟨_, hp⟩
    · obtain ⟨_, _, e⟩ := map_ok hp; cases e
    rcases alt_inv hp with hp | ⟨_, hp⟩
    · obtain ⟨_, _, e⟩ := map_ok hp; cases e
    rcases alt_inv hp with hp | ⟨_, hp⟩
    · obtain ⟨_, _, e⟩ := map_ok hp; cases e
    · cases hp
  · intro hp
    have e : prefixExpr c!"and" (spaceSeparatedList0 parseGd)
        ('(' :: (c!"or" ++ (g ++ (u ++ ';' :: z)))) = .err := prefixExpr_kw rfl
    rw [parseGd_eq, gdBody, alt_miss (map_err e), alt_miss (map_err (prefixExpr_tail hl hz))] at hp
    rcases alt_inv hp with hp | ⟨_, hp⟩
    · obtain ⟨_, _, e⟩ := map_ok hp; cases e
    rcases alt_inv hp with hp | ⟨_, hp⟩
    · obtain ⟨_, _, e⟩ := map_ok hp; cases e
    rcases alt_inv hp with hp | ⟨_, hp⟩
    · obtain ⟨_, _, e⟩ := map_ok hp; cases e
    rcases alt_inv hp with hp | ⟨_, hp⟩
    · obtain ⟨_, _, e⟩ := map_ok hp; cases e
    rcases alt_inv hp with hp | ⟨_, hp⟩
    · obtain ⟨_, _, e⟩ := map_ok hp; cases e
    rcases alt_inv hp with hp | ⟨_, hp⟩
    · obtain ⟨_, _, e⟩ := map_ok hp; cases e
    rcases alt_inv hp with hp | ⟨_, hp⟩
    · obtain ⟨_, _, e⟩ := map_ok hp; cases e
    · cases hp

/-- A predicate whose arguments are not directly followed by `)` is no goal. -/
theorem gd_args_cut {n g x y : List Char} {as : List Term} (hn : IsWord n) (hne : n ∉ goalWords)
    (hg : Gap g) (hx : Stop x) (hl : spaceSeparatedList0 parseTerm x = .ok as y)
    (hy : ∀ r, y ≠ ')' :: r) : parseGd ('(' :: (g ++ (n ++ x))) = .err := by
  have km : ∀ {α} {w : List Char} {p : P α}, IsWord w → w ∈ goalWords → Nw p →
      prefixExpr w p ('(' :: (g ++ (n ++ x))) = .err := fun hw hmem hp =>
    prefix_word hw hp hg hn hx (by rintro rfl; exact hne hmem)
  have hsk : skip (g ++ (n ++ x)) = n ++ x := hg.skip_solid (hn.solid.append _)
  have hatom : atomicFormula parseTerm ('(' :: (g ++ (n ++ x))) = .err := by
    rw [atomicFormula, alt_miss (map_err (eq_miss
      (gap_word_ne hg hn _ (by decide) (by decide) (by decide))))]
    rw [alt_miss (map_err (parens_tail (v := (Name.new n, as)) (y := y) ?_ hy)), alt_nil]
    rw [hsk]
    refine pair_run (NameW.acc (.of_word hn) _ hx) ?_
    rw [ws_eq, list0_skip, hl]
  have hcomp : parseFComp ('(' :: (g ++ (n ++ x))) = .err := by
    refine map_err (parens_err (pair_err ?_))
    rw [hsk]
    obtain ⟨c, cs, rfl, hc, _⟩ := hn
    refine mapExpect_err ?_
    have : ∀ k ks, isAlpha k = false → tag (k :: ks) (c :: cs ++ x) = .err :=
      fun k ks hk => tag_err (stripPrefix_head (by rintro rfl; exact absurd (hk.symm.trans hc) (by decide)))
    rw [alt_miss (this _ _ (by decide)), alt_miss (this _ _ (by decide)),
      alt_miss (this _ _ (by decide)), alt_miss (this _ _ (by decide)),
      alt_miss (this _ _ (by decide)), alt_nil]
  have hlit : literal parseTerm ('(' :: (g ++ (n ++ x))) = .err := by
    rw [literal, alt_miss (map_err (km isWord_not (by decide) Par.atomicFormula.nw)),
      alt_miss (map_err hatom), alt_nil]
  rw [parseGd_eq, gdBody,
    alt_miss (map_err (km isWord_and (by decide) (.list0 parseGd_par))),
    alt_miss (map_err (km isWord_or (by decide) (.list0 parseGd_par))),
    alt_miss (map_err (km isWord_not (by decide) parseGd_par.nw)),
    alt_miss (map_err (km isWord_imply (by decide) (Par.pair parseGd_par).nw)),
    alt_miss (map_err (km isWord_exists (by decide) (Par.pair parseVarList_par).nw)),
    alt_miss (map_err (km isWord_forall (by decide) (Par.pair parseVarList_par).nw)),
    alt_miss (map_err hatom), alt_miss (map_err hlit), alt_miss (map_err hcomp), alt_nil]

/-- An atom is rejected if a comment directly follows one of its arguments. -/
theorem C48_false_atoms {n : Name} {tn : List Char} (hn : NameW n tn) (hne : n.text ∉ goalWords)
    {vs : List Term} {u : List Char} (h : Items (TermW .strict) vs u) {g0 g : List Char} (hg0 : Gap g0)
    (hg : Sep g) (z : List Char) :
    parseGd ('(' :: (g0 ++ (tn ++ (g ++ (u ++ ';' :: z))))) = .err := by
  have hi : Items (Elem parseTerm) vs u := h.mono fun _ _ h _ => h.elem
  rw [hn.text] at hne
  exact gd_args_cut hn.1 hne hg0 (.sep hg _) (C48_false_lists hi hg.gap z).1 (fun _ h => by cases h)

example : Items (TermW .strict) [.name (Ex.nm c!"a")] c!"a" :=
  .one (.name ⟨isWord_of _ _ (by decide) (by decide), rfl⟩)
example : parseGd c!"(p a;c\n b)" = .err ∧ ∃ v, parseGd c!"(p a ;c\n b)" = .ok v [] := ⟨rfl, _, rfl⟩
example : ∀ r, skip c!";c\n(q))" ≠ ')' :: r := by intro r h; cases h

/-! ### Layout before a closing parenthesis -/

/-- The forms that do not admit layout before their closing parenthesis: predicates with arguments
and comparisons. -/
def GD.isTight : GD → Prop
  | .atomic (.predicate _ (_ :: _)) => True
  | .fComp _ => True
  | _ => False

theorem gap_ne_close {g : List Char} (hg : Gap g) (hne : g ≠ []) (x r : List Char) :
    g ++ x ≠ ')' :: r := by
  intro h
  cases hg with
  | nil => exact hne rfl
  | space hc => cases h; exact absurd hc (by decide)
  | comment => cases h

/-- A comparison is no atom, whatever follows its operands. -/
theorem comp_no_atom {op : BinaryComp} {a b : FExp} {g0 g1 t1 g2 t2 : List Char} (hg0 : Gap g0)
    (hg1 : Sp g1) (ha : FExpW .strict a t1) (hg2 : Sp g2) (hb : FExpW .strict b t2)
    (hq : op = .eq → ¬ (a.isFunction ∧ b.isFunction)) (y : List Char) :
    atomicFormula parseTerm ('(' :: (g0 ++ (op.spell ++ (g1 ++ (t1 ++ (g2 ++ (t2 ++ y))))))) = .err := by
  obtain ⟨k, y', hk, h1, h2, h3, h4, h5⟩ := op.spell_cons
  have e1 : parens (pair parsePredicate (ws (spaceSeparatedList0 parseTerm)))
      ('(' :: (g0 ++ (op.spell ++ (g1 ++ (t1 ++ (g2 ++ (t2 ++ y))))))) = .err := by
    refine parens_err (pair_err ?_)
    rw [hg0.skip_solid (op.spell_solid.append _), hk, List.cons_append]
    exact parseName_err_cons (.cons h2 h3 _) h1
  have e2 : delimited (ws (tag c!"(=")) (pair (ws parseTerm) (ws parseTerm)) (ws (char ')'))
      ('(' :: (g0 ++ (op.spell ++ (g1 ++ (t1 ++ (g2 ++ (t2 ++ y))))))) = .err := by
    by_cases hx : ∃ z, g0 ++ (op.spell ++ (g1 ++ (t1 ++ (g2 ++ (t2 ++ y))))) = '=' :: z
    · have hg : g0 = [] := by
        obtain ⟨z, hz⟩ := hx
        cases hg0 with
        | nil => rfl
        | space hc => cases hz; exact absurd hc (by decide)
        | comment => cases hz
      subst hg
      have hop : op = .eq := by
        refine Classical.byContradiction fun hop => ?_
        obtain ⟨z, hz⟩ := hx
        rw [hk] at hz; cases hz; exact h4 hop rfl
      subst hop
      have hq := hq rfl
      have e0 : ws (tag c!"(=") ('(' :: '=' :: (g1 ++ (t1 ++ (g2 ++ (t2 ++ y))))) =
          .ok c!"(=" (g1 ++ (t1 ++ (g2 ++ (t2 ++ y)))) := by
        rw [ws_eq, (solid_open _).skip]
        exact tag_ok c!"(=" _
      refine (preceded_run e0).trans (terminated_err ?_)
      by_cases hfa : a.isFunction
      · have hfb : ¬ b.isFunction := fun h => hq ⟨hfa, h⟩
        cases ha with
        | function hh =>
          obtain ⟨v, hv⟩ := hh.term
          refine pair_err2 (a := v) (r := g2 ++ (t2 ++ y)) ?_ ?_
          · rw [ws_eq, hg1.sep.gap.skip_solid (hh.solid.append _)]
            exact hv.acc _ (.sp hg2 _)
          · rw [ws_eq, hg2.sep.gap.skip_solid (hb.solid.append _)]
            exact hb.no_term hfb _
        | _ => exact hfa.elim
      · refine pair_err ?_
        rw [ws_eq, hg1.sep.gap.skip_solid (ha.solid.append _)]
        exact ha.no_term hfa _
    · exact eq_miss fun z hz => hx ⟨z, hz⟩
  rw [atomicFormula, alt_miss (map_err e2), alt_miss (map_err e1), alt_nil]

theorem comp_kw_miss {op : BinaryComp} {g0 kw : List Char} {p : P α} (hg0 : Gap g0) (hkw : IsWord kw)
    (x : List Char) : prefixExpr kw p ('(' :: (g0 ++ (op.spell ++ x))) = .err := by
  obtain ⟨k, y, hk, h1, h2, h3, _⟩ := op.spell_cons
  obtain ⟨w, ws, rfl, hw, _⟩ := hkw
  have hs := isAlpha_solid hw
  rw [hk]
  cases hg0 with
  | nil =>
    refine prefixExpr_kw (stripPrefix_head ?_)
    rintro rfl
    exact absurd (hw.symm.trans h1) (by decide)
  | space hc =>
    refine prefixExpr_kw (stripPrefix_head ?_)
    rintro rfl
    exact absurd (hs.1.symm.trans hc) (by decide)
  | comment => exact prefixExpr_kw (stripPrefix_head hs.2)

/-- Predicates with arguments and comparisons are rejected with layout before their closing
parenthesis, on every spelling. -/
theorem C31_false_goals {v : GD} (hv : v.isTight) {u g : List Char} (h : GDW .strict v (paren u))
    (hg : Gap g) (hne : g ≠ []) (r : List Char) : parseGd (paren (u ++ g) ++ r) = .err := by
  generalize e : paren u = t at h
  cases h with
  | @atomic a t ha hq =>
    have hq := hq rfl
    cases ha with
    | equality => exact hv.elim
    | @predicate g0 n tn vs w hg0 hn hs =>
      have hw : ∀ a t, TermW .strict a t → Elem parseTerm a t := fun _ _ h => h.elem
      rw [paren_inj e]
      cases hs with
      | nil => exact hv.elim
      | @cons g1 vs w g2 hg1 hi hg2 =>
        cases (show g2 = [] from hg2)
        simp only [paren_append, List.append_assoc, List.nil_append]
        have hi : Items (Elem parseTerm) vs w := hi.mono fun _ _ h _ => h.elem
        refine gd_args_cut hn.1 ?_ hg0 (.sep hg1 _)
          (list0_items hi hg1.gap (.gap hg (.close r)) ?_) (gap_ne_close hg hne _)
        · simpa [AtomicFormula.headNot, hn.text] using hq
        · rw [hg.skip_solid (solid_close r)]
          exact parseTerm_close r
  | @fComp c t hc hq =>
    cases hc with
    | @mk g0 op g1 a t1 g2 b t2 g3 hg0 hg1 ha hg2 hb hg3 =>
      cases (show g3 = [] from hg3)
      have ha' := comp_no_atom hg0 hg1 ha hg2 hb (hq rfl) (g ++ ')' :: r)
      have e' : paren (u ++ g) ++ r =
          '(' :: (g0 ++ (op.spell ++ (g1 ++ (t1 ++ (g2 ++ (t2 ++ (g ++ ')' :: r))))))) := by
        rw [paren_inj e]; simp [paren]
      have hc : parseFComp (paren (u ++ g) ++ r) = .err := by
        rw [e']
        refine map_err (parens_tail (v := (op, a, b)) (y := g ++ ')' :: r) ?_ (gap_ne_close hg hne _))
        rw [hg0.skip_solid (op.spell_solid.append _)]
        refine pair_run (parseBinaryComp_spell op ?_)
          (pair_run (r := g2 ++ (t2 ++ (g ++ ')' :: r))) ?_ ?_)
        · intro r' h
          obtain ⟨c, y, rfl, hc⟩ := sep_head (show Sp g1 from hg1).sep
          cases h
          exact absurd hc (by decide)
        · rw [pms1_sp hg1 (ha.solid.append _)]
          exact ha.acc _ (.sp hg2 _)
        · rw [pms1_sp hg2 (hb.solid.append _)]
          exact hb.acc _ (.gap hg (.close r))
      rw [← e'] at ha'
      have km : ∀ {α} {kw : List Char} {p : P α}, IsWord kw →
          prefixExpr kw p (paren (u ++ g) ++ r) = .err := fun hkw => by
        rw [e']; exact comp_kw_miss hg0 hkw _
      have hlit : literal parseTerm (paren (u ++ g) ++ r) = .err := by
        rw [literal, alt_miss (map_err (km isWord_not)), alt_miss (map_err ha'), alt_nil]
      rw [parseGd_eq, gdBody, alt_miss (map_err (km isWord_and)),
        alt_miss (map_err (km isWord_or)), alt_miss (map_err (km isWord_not)),
        alt_miss (map_err (km isWord_imply)), alt_miss (map_err (km isWord_exists)),
        alt_miss (map_err (km isWord_forall)), alt_miss (map_err ha'), alt_miss (map_err hlit),
        alt_miss (map_err hc), alt_nil]
  | _ => exact hv.elim

/-- Exactly which goals admit layout before their closing parenthesis, on every spelling. -/
theorem C31_goals_iff {v : GD} {u g : List Char} (h : GDW .strict v (paren u)) (hg : Gap g)
    (hne : g ≠ []) (r : List Char) : parseGd (paren (u ++ g) ++ r) = .ok v r ↔ ¬ v.isTight := by
  constructor
  · intro hp hv
    rw [C31_false_goals hv h hg hne r] at hp
    cases hp
  · intro hv
    by_cases hf : v.isFlat
    · generalize e : paren u = t at h
      cases h with
      | @atomic a t ha hq =>
        cases ha with
        | @equality g1 a t1 g2 b t2 g3 h1 ha h2 hb h3 =>
          rw [paren_inj e]
          refine C15_goals (.atomic ?_ hq) r
          simp only [List.append_assoc]
          exact .equality h1 ha h2 hb (h3.append hg)
        | @predicate g0 n tn vs w hg0 hn hs =>
          cases hs with
          | nil h =>
            rw [paren_inj e]
            refine C15_goals (.atomic ?_ hq) r
            simp only [List.append_assoc]
            exact .predicate hg0 hn (.nil (h.append hg))
          | @cons g1 vs w g2 hg1 hi hg2 => cases hi <;> exact absurd trivial hv
      | fComp => exact absurd trivial hv
      | _ => exact hf.elim
    · exact (C31_goals_partial hf h hg r).1

example : GDW .strict (.atomic (Ex.atom c!"p" [.name (Ex.nm c!"a")])) (paren c!"p a") :=
  GD.print_w (.atomic (Ex.atom c!"p" [.name (Ex.nm c!"a")])) (by decide)
example : GDW .strict (.fComp ⟨.lt, .number (Ex.num 1 0), .number (Ex.num 2 0)⟩) (paren c!"< 1 2") :=
  GD.print_w (.fComp ⟨.lt, .number (Ex.num 1 0), .number (Ex.num 2 0)⟩) (by decide)
example : parseGd c!"(p )" = .ok (.atomic (Ex.atom c!"p" [])) [] ∧ parseGd c!"(< 1 2 )" = .err :=
  ⟨rfl, rfl⟩

end Pddl
