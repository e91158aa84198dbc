import Verif.Spec.Malformed
import Verif.Meta.Top
import Verif.Meta.SoundTop
import Verif.Meta.OneForm

/-!
# Meta-theory: unrecoverable failures are passed on
-/

namespace Pddl

/-! ## Basic steps -/

theorem map_fail {f : α → β} {p : P α} {s} (h : p s = .fail) : map f p s = .fail := by
  simp [map, h, Res.bind]

theorem pair_fail {p : P α} {q : P β} {s} (h : p s = .fail) : pair p q s = .fail := by
  simp [pair, h, Res.bind]

theorem pair_fail2 {p : P α} {q : P β} {s a r} (h : p s = .ok a r) (h' : q r = .fail) :
    pair p q s = .fail := by
  simp [pair, h, h', Res.bind]

theorem terminated_fail {p : P α} {q : P β} {s} (h : p s = .fail) : terminated p q s = .fail := by
  simp [terminated, h, Res.bind]

theorem alt_fail {p : P α} {ps : List (P α)} {s} (h : p s = .fail) : alt (p :: ps) s = .fail := by
  simp [alt, h]

theorem opt_fail {p : P α} {s} (h : p s = .fail) : opt p s = .fail := by
  simp [opt, h]

theorem prefixExpr_fail {kw : List Char} {p : P α} {x : List Char} (h : p (skip x) = .fail) :
    prefixExpr kw p ('(' :: (kw ++ x)) = .fail := by
  simp [prefixExpr_open, stripPrefix_append, h, Res.bind]

theorem parens_fail {p : P α} {x : List Char} (h : p (skip x) = .fail) :
    parens p ('(' :: x) = .fail := by
  simp [parens_open, h, Res.bind]

theorem sepLoop_fail0 {p : P α} {g s : List Char} (hg : Sep g) (hs : Solid s) (h : p s = .fail)
    (n : Nat) : sepLoop multispace1 (preceded ignoreEolComment p) (n + 1) (g ++ s) = .fail := by
  have hk := hg.gap.skip_solid hs
  cases hg with
  | mk hc hg =>
    rw [List.cons_append] at hk ⊢
    rw [sepLoop_step hc, hk, h]

theorem sepLoop_fail {p : P α} {as : List α} {u : List Char} (h : Items (Elem p) as u)
    {g g' s : List Char} (hg : Sep g) (hg' : Sep g') (hs : Solid s) (hp : p s = .fail) (n : Nat)
    (hn : (g ++ (u ++ (g' ++ s))).length < n) :
    sepLoop multispace1 (preceded ignoreEolComment p) n (g ++ (u ++ (g' ++ s))) = .fail := by
  induction h generalizing g n with
  | @one a t h =>
    have hk := hg.gap.skip_solid (h.2.append (g' ++ s))
    cases hg with
    | @mk c g hc hg =>
      rw [List.cons_append] at hk hn ⊢
      match n with
      | 0 | 1 => simp at hn
      | n + 2 =>
      rw [sepLoop_step hc, hk, h.1 _ (.sep hg' _)]
      dsimp only
      rw [sepLoop_fail0 hg' hs hp n]; rfl
  | @cons a t g'' as u h hg'' hu ih =>
    have e : t ++ (g'' ++ u) ++ (g' ++ s) = t ++ (g'' ++ (u ++ (g' ++ s))) := by simp
    rw [e] at hn ⊢
    have hk := hg.gap.skip_solid (h.2.append (g'' ++ (u ++ (g' ++ s))))
    cases hg with
    | @mk c g hc hg =>
      rw [List.cons_append] at hk hn ⊢
      match n with
      | 0 => simp at hn
      | n + 1 =>
      rw [sepLoop_step hc, hk, h.1 _ (.sep hg'' _)]
      dsimp only
      rw [ih hg'' n (by simp only [List.length_append, List.length_cons] at hn ⊢; omega)]
      rfl

theorem Before.solid {p : P α} {u s : List Char} (h : Before (Elem p) u) (hs : Solid s) :
    Solid (u ++ s) := by
  cases h with
  | nil => exact hs
  | items h _ => rw [List.append_assoc]; exact h.solid.append _

theorem Before.mono {R R' : α → List Char → Prop} {u} (h : Before R u)
    (hR : ∀ a t, R a t → t.length ≤ u.length → R' a t) : Before R' u := by
  cases h with
  | nil => exact .nil
  | items h hg =>
    exact .items (h.mono fun a t h hl => hR a t h (by simp only [List.length_append]; omega)) hg

theorem list_fail {p : P α} {g u s : List Char} (hg : Gap g) (hu : Before (Elem p) u) (hs : Solid s)
    (hp : p s = .fail) :
    spaceSeparatedList0 p (g ++ (u ++ s)) = .fail ∧ spaceSeparatedList1 p (g ++ (u ++ s)) = .fail := by
  rw [spaceSeparatedList0, spaceSeparatedList1, ws_eq, ws_eq, hg.skip_solid (hu.solid hs)]
  cases hu with
  | nil =>
    simp only [List.nil_append, sepList0, sepList1, eolp_eq, hs.skipC, hp, Res.bind, and_self]
  | @items xs t g' h hg' =>
    cases h with
    | one h =>
      simp only [List.append_assoc, sepList0, sepList1, eolp_eq, (h.2.append (g' ++ s)).skipC,
        h.1 _ (.sep hg' _), Res.bind, sepLoop_fail0 hg' hs hp, and_self]
    | @cons a t g'' as u h hg'' hu =>
      have e : t ++ (g'' ++ u) ++ g' ++ s = t ++ (g'' ++ (u ++ (g' ++ s))) := by simp
      simp only [e, sepList0, sepList1, eolp_eq, (h.2.append (g'' ++ (u ++ (g' ++ s)))).skipC,
        h.1 _ (.sep hg'' _), Res.bind, sepLoop_fail hu hg'' hg' hs hp _ (Nat.lt_succ_self _), and_self]

/-! ## Parsers that neither fail nor panic -/

/-- The parser returns a value or a recoverable error on every input. -/
def Mild (p : P α) : Prop := ∀ s, p s ≠ .fail ∧ p s ≠ .panic

namespace Mild

theorem bind {x : Res α} {f : α → List Char → Res β} (h : x ≠ .fail ∧ x ≠ .panic)
    (hf : ∀ a r, f a r ≠ .fail ∧ f a r ≠ .panic) : x.bind f ≠ .fail ∧ x.bind f ≠ .panic := by
  cases x with
  | ok a r => exact hf a r
  | fail => exact absurd rfl h.1
  | panic => exact absurd rfl h.2
  | _ => simp [Res.bind]

theorem map {f : α → β} {p : P α} (h : Mild p) : Mild (map f p) := fun s =>
  bind (h s) fun _ _ => by simp
theorem pair {p : P α} {q : P β} (h : Mild p) (h' : Mild q) : Mild (pair p q) := fun s =>
  bind (h s) fun _ r => bind (h' r) fun _ _ => by simp
theorem preceded {p : P α} {q : P β} (h : Mild p) (h' : Mild q) : Mild (preceded p q) := fun s =>
  bind (h s) fun _ r => h' r
theorem terminated {p : P α} {q : P β} (h : Mild p) (h' : Mild q) : Mild (terminated p q) := fun s =>
  bind (h s) fun _ r => bind (h' r) fun _ _ => by simp
theorem delimited {p : P α} {q : P β} {r : P γ} (h : Mild p) (h' : Mild q) (h'' : Mild r) :
    Mild (delimited p q r) := preceded h (terminated h' h'')
theorem alt_nil : Mild (alt ([] : List (P α))) := fun s => by simp [alt]
theorem alt_cons {p : P α} {ps : List (P α)} (h : Mild p) (h' : Mild (alt ps)) :
    Mild (alt (p :: ps)) := fun s => by
  have h1 := h s
  have h2 := h' s
  rw [alt]
  dsimp only
  cases hp : p s <;> simp_all
theorem alt_one {p : P α} (h : Mild p) : Mild (alt [p]) := alt_cons h alt_nil
theorem tag {t : List Char} : Mild (tag t) := fun s => by
  unfold Pddl.tag; split <;> simp
theorem char {c : Char} : Mild (char c) := fun s => by
  unfold Pddl.char; split
  · split <;> simp
  · simp
theorem ws {p : P α} (h : Mild p) : Mild (ws p) := fun s => by rw [ws_eq]; exact h _
theorem prefixExpr {kw : List Char} {p : P α} (h : Mild p) : Mild (prefixExpr kw p) :=
  delimited (preceded (ws tag) tag) (ws h) (ws tag)
theorem sepLoop {p : P α} (h : Mild p) (n : Nat) :
    Mild (sepLoop multispace1 (Pddl.preceded ignoreEolComment p) n) := by
  induction n with
  | zero => intro s; simp [Pddl.sepLoop]
  | succ n ih =>
    intro s
    have hm : Mild multispace1 := fun s => by
      unfold multispace1 takeWhile1; split <;> simp
    rw [Pddl.sepLoop]
    dsimp only
    have h1 := hm s
    cases hs : multispace1 s with
    | ok a r =>
      dsimp only
      split
      · simp
      · rw [eolp_eq]
        have h2 := h (skipC r)
        cases hp : p (skipC r) with
        | ok b r' => exact bind (ih r') fun _ _ => by simp
        | fail => exact absurd hp h2.1
        | panic => exact absurd hp h2.2
        | _ => simp
    | fail => exact absurd hs h1.1
    | panic => exact absurd hs h1.2
    | _ => simp
theorem spaceSeparatedList0 {p : P α} (h : Mild p) : Mild (spaceSeparatedList0 p) := by
  refine ws fun s => ?_
  rw [sepList0, eolp_eq]
  have h2 := h (skipC s)
  cases hp : p (skipC s) with
  | ok b r' => exact bind (sepLoop h _ r') fun _ _ => by simp
  | fail => exact absurd hp h2.1
  | panic => exact absurd hp h2.2
  | _ => simp
theorem spaceSeparatedList1 {p : P α} (h : Mild p) : Mild (spaceSeparatedList1 p) := by
  refine ws fun s => ?_
  rw [sepList1, eolp_eq]
  exact bind (h _) fun _ _ => bind (sepLoop h _ _) fun _ _ => by simp
theorem parens {p : P α} (h : Mild p) : Mild (parens p) := fun s => by
  rw [Pddl.parens, eolp_eq]
  exact delimited char (ws h) char _
theorem ifOk {p : P α} {f : α → β} {k : P β} (h : ∀ s, p s ≠ .panic) (h' : Mild k) :
    Mild (ifOk p f k) := fun s => by
  have h1 := h s
  have h2 := h' s
  unfold Pddl.ifOk
  split <;> simp_all
end Mild

theorem parseName_mild : Mild parseName := fun s => by
  rw [parseName_eq]
  unfold wordRes
  split
  · simp
  · split <;> simp

theorem parsePrimitiveType_mild : Mild parsePrimitiveType :=
  .alt_cons (.map .tag) (.alt_one parseName_mild)

theorem parseVariable_mild : Mild parseVariable := .preceded .tag parseName_mild

theorem parseTerm_mild : Mild parseTerm := by
  have key : ∀ n, Mild (fixF termBody n) := by
    intro n
    induction n with
    | zero => intro s; simp [fixF]
    | succ n ih =>
      have hf : Mild (functionTermOf (fixF termBody n)) :=
        .map (.delimited .tag (.pair parseName_mild (.spaceSeparatedList0 ih)) .tag)
      exact .ifOk (fun s => (parseVariable_mild s).2) (.ifOk (fun s => (parseName_mild s).2)
        (.ifOk (fun s => (hf s).2) fun s => by simp))
  exact fun s => key _ s

theorem Mild.atomicFormula {p : P α} (h : Mild p) : Mild (atomicFormula p) :=
  .alt_cons (.map (.delimited (.ws .tag) (.pair (.ws h) (.ws h)) (.ws .char)))
    (.alt_one (.map (.parens (.pair parseName_mild (.ws (.spaceSeparatedList0 h))))))

theorem Mild.literal {p : P α} (h : Mild p) : Mild (literal p) :=
  .alt_cons (.map (.prefixExpr h.atomicFormula)) (.alt_one (.map h.atomicFormula))

/-! ## Types and typed lists -/

theorem parseType_outcome (s : List Char) : (∃ ty r, parseType s = .ok ty r) ∨ parseType s = .fail := by
  have h1 := (parsePrimitiveType_mild s).2
  have h2 := (Mild.prefixExpr (kw := c!"either") (.spaceSeparatedList1 parsePrimitiveType_mild) s).2
  have h3 := (parseType_good (L := s.length + 1) s (by omega)).2
  revert h3
  unfold parseType ifOk parseEitherType
  cases h : parsePrimitiveType s with
  | ok a r => intro _; exact .inl ⟨_, _, rfl⟩
  | panic => exact absurd h h1
  | oof => intro h; exact h.elim
  | _ =>
    cases h' : prefixExpr c!"either" (spaceSeparatedList1 parsePrimitiveType) s with
    | ok a r => intro _; exact .inl ⟨_, _, rfl⟩
    | panic => exact absurd h' h2
    | oof => intro h; exact h.elim
    | _ => intro _; exact .inr rfl

theorem NoType.fail {s : List Char} (h : NoType s) : parseType s = .fail := by
  rcases parseType_outcome s with ⟨ty, r, hp⟩ | hp
  · obtain ⟨g, u, rfl, hg, hu⟩ := parseType_snd _ _ _ hp trivial
    exact absurd rfl (h g ty u r hg hu)
  · exact hp

/-- The parser fails here, and the text begins with no layout. -/
def Fails (p : P α) (s : List Char) : Prop := Solid s ∧ p s = .fail

theorem BadTyped.solid {p : P α} {B : List Char → Prop} {s : List Char}
    (h : BadTyped (Elem p) B s) (hB : ∀ s, B s → Solid s) : Solid s := by
  cases h with
  | here h => exact h.solid.append _
  | elem h hb => exact h.solid (hB _ hb)
  | more h => exact h.solid.append _

theorem many0_loops {inner : P α} (hd : ∀ s, inner ('-' :: s) = .err) {B : List Char → Prop}
    (hB : ∀ s, B s → Fails inner s) {s : List Char} (h : BadTyped (Elem inner) B s)
    {g : List Char} (hg : Gap g) (n : Nat) (hn : (g ++ s).length < n) :
    many0Loop (explicitlyTyped inner) n (g ++ s) = .fail := by
  induction h generalizing g n with
  | @here xs t g1 s h hg1 hs =>
    have hk : skip (g1 ++ '-' :: s) = '-' :: s := hg1.gap.skip_solid (solid_dash _)
    have : explicitlyTyped inner (g ++ (t ++ (g1 ++ '-' :: s))) = .fail := by
      refine map_fail (pair_fail2 (list1_items h hg (.sep hg1 _) (by rw [hk]; exact hd _)) ?_)
      have : ws (char '-') (g1 ++ '-' :: s) = .ok '-' s := by
        rw [ws_eq, hk]
        simp [char]
      rw [preceded_run this, hs.fail]
    match n with
    | 0 => simp at hn
    | n + 1 =>
      rw [many0Loop]
      dsimp only
      rw [this]
  | @elem u s hu hs =>
    have hs := hB _ hs
    have : explicitlyTyped inner (g ++ (u ++ s)) = .fail :=
      map_fail (pair_fail (list_fail hg hu hs.1 hs.2).2)
    match n with
    | 0 => simp at hn
    | n + 1 =>
      rw [many0Loop]
      dsimp only
      rw [this]
  | @more xs t g1 g2 ty u g3 s h h1 h2 hu h3 _ ih =>
    match n with
    | 0 => simp at hn
    | n + 1 =>
    have hpos := h.pos
    rw [many0Loop]
    dsimp only
    rw [explicit_run hd hg h h1 h2 hu (.sep h3 _)]
    dsimp only
    rw [if_neg, ih h3.gap n (by
      simp only [List.length_append, List.length_cons] at hn ⊢; omega)]
    · rfl
    · simp only [List.length_append]
      omega

theorem typed_fail {inner : P α} (hd : ∀ s, inner ('-' :: s) = .err) {B : List Char → Prop}
    (hB : ∀ s, B s → Fails inner s) {s : List Char} (h : BadTyped (Elem inner) B s)
    {g : List Char} (hg : Gap g) (d : Ty) : typedListD d inner (g ++ s) = .fail :=
  map_fail (pair_fail (map_fail (many0_loops hd hB h hg _ (Nat.lt_succ_self _))))

theorem BadTyped.mono {R R' : α → List Char → Prop} {B B' : List Char → Prop} {s : List Char}
    (h : BadTyped R B s) (hR : ∀ a t, R a t → R' a t) (hB : ∀ s, B s → B' s) : BadTyped R' B' s := by
  induction h with
  | here h => exact .here (h.mono fun a t h _ => hR a t h) (by assumption) (by assumption)
  | elem h hb => exact .elem (h.mono fun a t h _ => hR a t h) (hB _ hb)
  | more h h1 h2 h3 h4 _ ih => exact .more (h.mono fun a t h _ => hR a t h) h1 h2 h3 h4 ih

theorem vars_fail {s g : List Char} (hg : Gap g) (h : BadTyped (VarW .strict) (fun _ => False) s) :
    typedList parseVariable (g ++ s) = .fail :=
  typed_fail (B := fun _ => False) parseVariable_dash (fun _ h => h.elim)
    (h.mono (fun _ _ h => h.elem) fun _ h => h) hg _

theorem BadVars.fails {s : List Char} (h : BadVars s) : Fails parseVarList s := by
  cases h with
  | @mk g s hg h =>
    refine ⟨solid_open _, parens_fail ?_⟩
    have := vars_fail (g := []) .nil h
    rw [hg.skip_solid ((h.mono (fun _ _ h => VarW.elem h) fun _ h => h).solid fun _ h => h.elim)]
    exact this

theorem BadSkeleton.fails {s : List Char} (h : BadSkeleton s) : Fails parseAtomicFormulaSkeleton s := by
  cases h with
  | @mk g n t g' s hg hn hg' h =>
    refine ⟨solid_open _, map_fail (parens_fail ?_)⟩
    rw [hg.skip_solid (hn.solid.append _)]
    refine pair_fail2 (hn.acc _ (.sep hg' _)) ?_
    rw [ws_eq, hg'.gap.skip_solid
      ((h.mono (fun _ _ h => VarW.elem h) fun _ h => h).solid fun _ h => h.elim)]
    exact vars_fail (g := []) .nil h

/-! ## Contexts -/

/-- The text begins with `(` and the keyword. -/
def Hd (kw s : List Char) : Prop := ∃ x, s = '(' :: (kw ++ x)

theorem Hd.miss {kw kw' s : List Char} {p : P α} (h : Hd kw' s)
    (hk : ∀ x, stripPrefix kw (kw' ++ x) = none) : prefixExpr kw p s = .err := by
  obtain ⟨x, rfl⟩ := h
  exact prefixExpr_kw (hk x)

theorem Hd.longer {kw kw' tl s : List Char} {p : P α} (hp : Par p) {c : Char} (h : Hd kw' s)
    (hk : ∀ x, stripPrefix kw (kw' ++ x) = some (c :: (tl ++ x))) (hc : isWordChar c = true) :
    prefixExpr kw p s = .err := by
  obtain ⟨h1, _, h2, h3⟩ := wordChar_solid hc
  obtain ⟨x, rfl⟩ := h
  rw [prefixExpr_open, hk]
  simp only
  rw [(Solid.cons h3 h2 _).skip, hp _ _ h1 h2 h3]
  rfl

theorem Hd.solid {kw s : List Char} (h : Hd kw s) : Solid s := by
  obtain ⟨x, rfl⟩ := h
  exact solid_open _

theorem In1.hd {kw s : List Char} {B} (h : In1 kw B s) : Hd kw s := by cases h; exact ⟨_, rfl⟩
theorem In2.hd {kw s : List Char} {lead} {R : α → List Char → Prop} {B} (h : In2 kw lead R B s) :
    Hd kw s := by cases h; exact ⟨_, rfl⟩
theorem In3.hd {kw s : List Char} {lead} {R : α → List Char → Prop} {R' : β → List Char → Prop} {B}
    (h : In3 kw R lead R' B s) : Hd kw s := by cases h; exact ⟨_, rfl⟩
theorem InList.hd {kw s : List Char} {R : α → List Char → Prop} {B} (h : InList kw R B s) :
    Hd kw s := by cases h; exact ⟨_, rfl⟩
theorem InQuant.hd {kw s : List Char} {B} (h : InQuant kw B s) : Hd kw s := by
  cases h <;> exact ⟨_, rfl⟩

/-- What the induction hypothesis says about the parts of `s`. -/
abbrev FailsIn (B : List Char → Prop) (p : P α) (s : List Char) : Prop :=
  ∀ s', s'.length < s.length → B s' → Fails p s'

theorem In1.fail {kw s : List Char} {B} {p : P α} (h : In1 kw B s) (hB : FailsIn B p s) :
    prefixExpr kw p s = .fail := by
  cases h with
  | @mk g s hg h =>
    have := hB s (by simp only [List.length_cons, List.length_append]; omega) h
    refine prefixExpr_fail ?_
    rw [hg.skip_solid this.1]
    exact this.2

/-- In the first of two parts. -/
theorem In1.fail_pair {kw s : List Char} {B} {p : P α} {q : P β} (h : In1 kw B s)
    (hB : FailsIn B p s) : prefixExpr kw (pair p q) s = .fail :=
  h.fail fun s hl hb => ⟨(hB s hl hb).1, pair_fail (hB s hl hb).2⟩

theorem In2.fail {kw s : List Char} {lead} {R : α → List Char → Prop} {B} {p : P γ} {q : P β}
    (h : In2 kw lead R B s) (hl : ∀ g, lead g → Gap g) (hR : ∀ a t, R a t → ∃ b, Elem p b t) (hq : Ct q)
    (hB : FailsIn B q s) : prefixExpr kw (pair p (preceded multispace1 q)) s = .fail := by
  cases h with
  | @mk g1 v t g2 s hg1 hv hg2 h =>
    have := hB s (by simp only [List.length_cons, List.length_append]; omega) h
    obtain ⟨_, hv⟩ := hR _ _ hv
    refine prefixExpr_fail ?_
    rw [(hl _ hg1).skip_solid (hv.2.append _)]
    refine pair_fail2 (hv.1 _ (.sep hg2 _)) ?_
    rw [pms1_sep hq hg2 this.1]
    exact this.2

/-- In the second of three parts. -/
theorem In2.fail_pair {kw s : List Char} {lead} {R : α → List Char → Prop} {B} {p : P α} {q : P β}
    {q' : P γ} (h : In2 kw lead R B s) (hl : ∀ g, lead g → Gap g) (hR : ∀ a t, R a t → Elem p a t)
    (hq : Ct q) (hB : FailsIn B q s) :
    prefixExpr kw (pair p (pair (preceded multispace1 q) q')) s = .fail := by
  cases h with
  | @mk g1 v t g2 s hg1 hv hg2 h =>
    have := hB s (by simp only [List.length_cons, List.length_append]; omega) h
    have hv := hR _ _ hv
    refine prefixExpr_fail ?_
    rw [(hl _ hg1).skip_solid (hv.2.append _)]
    refine pair_fail2 (hv.1 _ (.sep hg2 _)) (pair_fail ?_)
    rw [pms1_sep hq hg2 this.1]
    exact this.2

theorem In3.fail {kw s : List Char} {lead} {R : α → List Char → Prop} {R' : β → List Char → Prop} {B}
    {p : P α} {q : P β} {q' : P γ} (h : In3 kw R lead R' B s) (hl : ∀ g, lead g → Sep g)
    (hR : ∀ a t, R a t → Elem p a t) (hR' : ∀ a t, R' a t → Elem q a t)
    (hq : ∀ g, lead g → Ct q ∨ Sp g) (hq' : Ct q') (hB : FailsIn B q' s) :
    prefixExpr kw (pair p (pair (preceded multispace1 q) (preceded multispace1 q'))) s = .fail := by
  cases h with
  | @mk g1 v t g2 v' t' g3 s hg1 hv hg2 hv' hg3 h =>
    have := hB s (by simp only [List.length_cons, List.length_append]; omega) h
    have hv := hR _ _ hv
    have hv' := hR' _ _ hv'
    refine prefixExpr_fail ?_
    rw [hg1.gap.skip_solid (hv.2.append _)]
    refine pair_fail2 (hv.1 _ (.sep (hl _ hg2) _)) (pair_fail2 (a := v') (r := g3 ++ s) ?_ ?_)
    · rcases hq _ hg2 with hc | hsp
      · rw [pms1_sep hc (hl _ hg2) (hv'.2.append _)]
        exact hv'.1 _ (.sep hg3 _)
      · rw [pms1_sp hsp (hv'.2.append _)]
        exact hv'.1 _ (.sep hg3 _)
    · rw [pms1_sep hq' hg3 this.1]
      exact this.2

theorem InList.fail {kw s : List Char} {R : α → List Char → Prop} {B} {p : P α}
    (h : InList kw R B s) (hR : ∀ a t, R a t → Elem p a t) (hB : FailsIn B p s) :
    prefixExpr kw (spaceSeparatedList0 p) s = .fail ∧
      prefixExpr kw (spaceSeparatedList1 p) s = .fail := by
  cases h with
  | @mk g u s hg hu h =>
    have := hB s (by simp only [List.length_cons, List.length_append]; omega) h
    have := list_fail hg (hu.mono fun a t h _ => hR a t h) this.1 this.2
    exact ⟨prefixExpr_fail (by rw [list0_skip, this.1]), prefixExpr_fail (by rw [list1_skip, this.2])⟩

theorem InQuant.fail {kw s : List Char} {B} {q : P α} (h : InQuant kw B s) (hq : Ct q)
    (hB : FailsIn B q s) : prefixExpr kw (pair parseVarList (preceded multispace1 q)) s = .fail := by
  cases h with
  | @vars g s hg h =>
    exact In1.fail_pair (B := BadVars) (.mk hg h) fun s _ h => h.fails
  | @body g1 vs t g2 s hg1 hv hg2 h =>
    exact In2.fail (lead := Gap) (R := VarsW .strict) (B := B) (.mk hg1 hv hg2 h) (fun _ h => h)
      (fun _ _ h => ⟨_, h.elem⟩) hq hB

/-! ## Goals -/

theorem parseGd_bad (n : Nat) : ∀ s, s.length ≤ n → BadGD s → Fails parseGd s := by
  induction n with
  | zero =>
    intro s hn h
    have h0 : s = [] := by cases s with | nil => rfl | cons => simp at hn
    cases h with
    | and h | or h | not h | implyLeft h | implyRight h | exist h | forall_ h =>
      obtain ⟨x, rfl⟩ := h.hd
      cases h0
  | succ n ih =>
    intro s hn h
    have ih' : FailsIn BadGD parseGd s := fun s' hl => ih s' (by omega)
    rw [parseGd_eq, gdBody]
    cases h with
    | and h => exact ⟨h.hd.solid, alt_fail (map_fail (h.fail (fun _ _ h => h.elem) ih').1)⟩
    | or h =>
      refine ⟨h.hd.solid, ?_⟩
      rw [alt_miss (map_err (h.hd.miss fun _ => rfl))]
      exact alt_fail (map_fail (h.fail (fun _ _ h => h.elem) ih').1)
    | not h =>
      refine ⟨h.hd.solid, ?_⟩
      rw [alt_miss (map_err (h.hd.miss fun _ => rfl)), alt_miss (map_err (h.hd.miss fun _ => rfl))]
      exact alt_fail (map_fail (h.fail ih'))
    | implyLeft h =>
      refine ⟨h.hd.solid, ?_⟩
      rw [alt_miss (map_err (h.hd.miss fun _ => rfl)), alt_miss (map_err (h.hd.miss fun _ => rfl)),
        alt_miss (map_err (h.hd.miss fun _ => rfl))]
      exact alt_fail (map_fail (h.fail_pair ih'))
    | implyRight h =>
      refine ⟨h.hd.solid, ?_⟩
      rw [alt_miss (map_err (h.hd.miss fun _ => rfl)), alt_miss (map_err (h.hd.miss fun _ => rfl)),
        alt_miss (map_err (h.hd.miss fun _ => rfl))]
      exact alt_fail (map_fail (h.fail (fun _ h => h) (fun _ _ h => ⟨_, h.elem⟩) parseGd_ct ih'))
    | exist h =>
      refine ⟨h.hd.solid, ?_⟩
      rw [alt_miss (map_err (h.hd.miss fun _ => rfl)), alt_miss (map_err (h.hd.miss fun _ => rfl)),
        alt_miss (map_err (h.hd.miss fun _ => rfl)), alt_miss (map_err (h.hd.miss fun _ => rfl))]
      exact alt_fail (map_fail (h.fail parseGd_ct ih'))
    | forall_ h =>
      refine ⟨h.hd.solid, ?_⟩
      rw [alt_miss (map_err (h.hd.miss fun _ => rfl)), alt_miss (map_err (h.hd.miss fun _ => rfl)),
        alt_miss (map_err (h.hd.miss fun _ => rfl)), alt_miss (map_err (h.hd.miss fun _ => rfl)),
        alt_miss (map_err (h.hd.miss fun _ => rfl))]
      exact alt_fail (map_fail (h.fail parseGd_ct ih'))

theorem BadGD.fails {s : List Char} (h : BadGD s) : Fails parseGd s :=
  parseGd_bad _ s (Nat.le_refl _) h

end Pddl
