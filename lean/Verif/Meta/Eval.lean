import Verif.Meta.Word
import Verif.Spec.Grammar
import Verif.Props.Number

/-!
# Meta-theory: running the combinators on written text
-/

namespace Pddl

/-! ## Basic steps -/

theorem stripPrefix_append (t s : List Char) : stripPrefix t (t ++ s) = some s := by
  induction t with
  | nil => rfl
  | cons c t ih => simp [stripPrefix, ih]

theorem tag_ok (t s : List Char) : tag t (t ++ s) = .ok t s := by
  simp [tag, stripPrefix_append]

theorem tag_err {t s : List Char} (h : stripPrefix t s = none) : tag t s = .err := by
  simp [tag, h]

theorem map_run {f : α → β} {p : P α} {s a r} (h : p s = .ok a r) : map f p s = .ok (f a) r := by
  simp [map, h, Res.bind]

theorem map_err {f : α → β} {p : P α} {s} (h : p s = .err) : map f p s = .err := by
  simp [map, h, Res.bind]

theorem pair_run {p : P α} {q : P β} {s a r b r'} (h : p s = .ok a r) (h' : q r = .ok b r') :
    pair p q s = .ok (a, b) r' := by
  simp [pair, h, h', Res.bind]

theorem pair_err {p : P α} {q : P β} {s} (h : p s = .err) : pair p q s = .err := by
  simp [pair, h, Res.bind]

theorem pair_err2 {p : P α} {q : P β} {s a r} (h : p s = .ok a r) (h' : q r = .err) :
    pair p q s = .err := by
  simp [pair, h, h', Res.bind]

theorem preceded_run {p : P α} {q : P β} {s a r} (h : p s = .ok a r) : preceded p q s = q r := by
  simp [preceded, h, Res.bind]

theorem preceded_err {p : P α} {q : P β} {s} (h : p s = .err) : preceded p q s = .err := by
  simp [preceded, h, Res.bind]

theorem terminated_run {p : P α} {q : P β} {s a r b r'} (h : p s = .ok a r) (h' : q r = .ok b r') :
    terminated p q s = .ok a r' := by
  simp [terminated, h, h', Res.bind]

theorem terminated_err {p : P α} {q : P β} {s} (h : p s = .err) : terminated p q s = .err := by
  simp [terminated, h, Res.bind]

theorem terminated_err2 {p : P α} {q : P β} {s a r} (h : p s = .ok a r) (h' : q r = .err) :
    terminated p q s = .err := by
  simp [terminated, h, h', Res.bind]

theorem alt_hit {p : P α} {ps : List (P α)} {s a r} (h : p s = .ok a r) :
    alt (p :: ps) s = .ok a r := by
  simp [alt, h]

theorem alt_miss {p : P α} {ps : List (P α)} {s} (h : p s = .err) :
    alt (p :: ps) s = alt ps s := by
  simp [alt, h]

theorem alt_nil {s : List Char} : alt ([] : List (P α)) s = .err := rfl

theorem opt_run {p : P α} {s a r} (h : p s = .ok a r) : opt p s = .ok (some a) r := by
  simp [opt, h]

theorem opt_err {p : P α} {s} (h : p s = .err) : opt p s = .ok none s := by
  simp [opt, h]

theorem ifOk_hit {p : P α} {f : α → β} {k : P β} {s a r} (h : p s = .ok a r) :
    ifOk p f k s = .ok (f a) r := by
  simp [ifOk, h]

theorem ifOk_miss {p : P α} {f : α → β} {k : P β} {s} (h : p s = .err) :
    ifOk p f k s = k s := by
  simp [ifOk, h]

theorem mapExpect_run {f : α → Option β} {p : P α} {s a r b} (h : p s = .ok a r)
    (hf : f a = some b) : mapExpect f p s = .ok b r := by
  simp [mapExpect, h, hf, Res.bind]

theorem mapExpect_err {f : α → Option β} {p : P α} {s} (h : p s = .err) :
    mapExpect f p s = .err := by
  simp [mapExpect, h, Res.bind]

theorem paren_append (x r : List Char) : paren x ++ r = '(' :: (x ++ ')' :: r) := by
  simp [paren]

theorem solid_paren (x : List Char) : Solid (paren x) := .cons (by decide) (by decide) _

theorem solid_close (x : List Char) : Solid (')' :: x) := .cons (by decide) (by decide) _

theorem solid_open (x : List Char) : Solid ('(' :: x) := .cons (by decide) (by decide) _

/-- The next character is a closing parenthesis. -/
def closeRes (v : α) (s : List Char) : Res α := match s with
  | [] => .err
  | c :: r => if c = ')' then .ok v r else .err

theorem closeRes_close (v : α) (r : List Char) : closeRes v (')' :: r) = .ok v r := by
  simp [closeRes]

theorem closeRes_err {v : α} {s : List Char} (h : ∀ r, s ≠ ')' :: r) : closeRes v s = .err := by
  cases s with
  | nil => rfl
  | cons c r =>
    have : c ≠ ')' := fun hc => h r (by rw [hc])
    simp [closeRes, this]

theorem closeRes_ok {v a : α} {s r : List Char} (h : closeRes v s = .ok a r) :
    a = v ∧ s = ')' :: r := by
  cases s with
  | nil => cases h
  | cons c s =>
    simp only [closeRes] at h
    split at h
    · rename_i hc
      cases h
      exact ⟨rfl, by rw [hc]⟩
    · cases h

theorem tag_close (s : List Char) (v : α) :
    (Res.bind (tag c!")" s) fun _ r => .ok v r) = closeRes v s := by
  cases s with
  | nil => rfl
  | cons c s =>
    by_cases h : c = ')'
    · subst h; simp [tag, stripPrefix, Res.bind, closeRes]
    · simp [tag, stripPrefix, Res.bind, closeRes, h, Ne.symm h]

theorem char_close (s : List Char) (v : α) :
    (Res.bind (char ')' s) fun _ r => .ok v r) = closeRes v s := by
  cases s with
  | nil => rfl
  | cons c s =>
    by_cases h : c = ')'
    · subst h; simp [char, Res.bind, closeRes]
    · simp [char, Res.bind, closeRes, h]

/-! ## `prefix_expr` and `parens` -/

theorem prefixExpr_open (kw : List Char) (p : P α) (s : List Char) :
    prefixExpr kw p ('(' :: s) = match stripPrefix kw s with
      | none => .err
      | some x => (p (skip x)).bind fun v y => closeRes v (skip y) := by
  simp only [prefixExpr, delimited, preceded, terminated, ws_eq, (solid_open s).skip]
  simp only [tag, stripPrefix, if_true, Res.bind]
  cases stripPrefix kw s with
  | none => rfl
  | some x =>
    dsimp only
    cases p (skip x) with
    | ok v y =>
      have := tag_close (skip y) v
      simp only [tag, Res.bind] at this
      exact this
    | _ => rfl

theorem prefixExpr_run {kw : List Char} {p : P α} {x y r : List Char} {v : α}
    (h : p (skip x) = .ok v y) (hy : skip y = ')' :: r) :
    prefixExpr kw p ('(' :: (kw ++ x)) = .ok v r := by
  simp [prefixExpr_open, stripPrefix_append, h, Res.bind, hy, closeRes_close]

theorem prefixExpr_tail {kw : List Char} {p : P α} {x y : List Char} {v : α}
    (h : p (skip x) = .ok v y) (hy : ∀ r, skip y ≠ ')' :: r) :
    prefixExpr kw p ('(' :: (kw ++ x)) = .err := by
  simp [prefixExpr_open, stripPrefix_append, h, Res.bind, closeRes_err hy]

theorem prefixExpr_body_err {kw : List Char} {p : P α} {x : List Char} (h : p (skip x) = .err) :
    prefixExpr kw p ('(' :: (kw ++ x)) = .err := by
  simp [prefixExpr_open, stripPrefix_append, h, Res.bind]

theorem prefixExpr_kw {kw : List Char} {p : P α} {s : List Char} (h : stripPrefix kw s = none) :
    prefixExpr kw p ('(' :: s) = .err := by
  simp [prefixExpr_open, h]

theorem prefixExpr_skip (kw : List Char) (p : P α) (s : List Char) :
    prefixExpr kw p (skip s) = prefixExpr kw p s := by
  simp only [prefixExpr, delimited, preceded, ws_eq, skip_skip]

theorem prefixExpr_head {kw : List Char} {p : P α} {c : Char} {s : List Char} (h : Solid (c :: s))
    (hc : c ≠ '(') : prefixExpr kw p (c :: s) = .err := by
  simp [prefixExpr, delimited, preceded, ws_eq, h.skip, tag, stripPrefix, Ne.symm hc, Res.bind]

theorem parens_open (p : P α) (s : List Char) :
    parens p ('(' :: s) = (p (skip s)).bind fun v y => closeRes v y := by
  unfold parens
  rw [eolp_eq, skipC_of_ne (show '(' ≠ ';' by decide)]
  simp only [delimited, preceded, terminated, ws_eq, char, if_true, Res.bind]
  cases p (skip s) with
  | ok v y =>
    have := char_close y v
    simp only [char, Res.bind] at this
    exact this
  | _ => rfl

theorem parens_run {p : P α} {x r : List Char} {v : α} (h : p (skip x) = .ok v (')' :: r)) :
    parens p ('(' :: x) = .ok v r := by
  simp [parens_open, h, Res.bind, closeRes_close]

theorem parens_tail {p : P α} {x y : List Char} {v : α} (h : p (skip x) = .ok v y)
    (hy : ∀ r, y ≠ ')' :: r) : parens p ('(' :: x) = .err := by
  simp [parens_open, h, Res.bind, closeRes_err hy]

theorem parens_err {p : P α} {x : List Char} (h : p (skip x) = .err) :
    parens p ('(' :: x) = .err := by
  simp [parens_open, h, Res.bind]

theorem parens_head {p : P α} {c : Char} {s : List Char} (hs : c ≠ ';')
    (hc : c ≠ '(') : parens p (c :: s) = .err := by
  unfold parens
  rw [eolp_eq, skipC_of_ne hs]
  simp [delimited, preceded, char, hc, Res.bind]

/-! ## Spaces -/

theorem multispace1_cons {c : Char} (h : isSpace c = true) (s : List Char) :
    multispace1 (c :: s) = .ok (c :: s.takeWhile isSpace) (s.dropWhile isSpace) :=
  takeWhile1_cons h s

theorem multispace1_err {s : List Char} (h : ∀ c r, s = c :: r → isSpace c = false) :
    multispace1 s = .err := by
  cases s with
  | nil => rfl
  | cons c s => exact takeWhile1_err (h c s rfl) s

theorem Solid.no_space {s : List Char} (h : Solid s) : ∀ c r, s = c :: r → isSpace c = false := by
  obtain ⟨c, r, rfl, h, _⟩ := h
  intro c' r' e; cases e; exact h

theorem ms1_solid {s : List Char} (h : Solid s) : multispace1 s = .err := multispace1_err h.no_space

theorem sp_drop {g s : List Char} (hg : Sp0 g) (hs : Solid s) : (g ++ s).dropWhile isSpace = s :=
  (takeWhile_all hg hs.no_space).2

theorem ms1_sp {g s : List Char} (hg : Sp g) (hs : Solid s) :
    ∃ x, multispace1 (g ++ s) = .ok x s := by
  obtain ⟨hne, hg⟩ := hg
  cases g with
  | nil => exact absurd rfl hne
  | cons c g =>
    refine ⟨c :: (g ++ s).takeWhile isSpace, ?_⟩
    rw [List.cons_append, multispace1_cons (hg c (by simp)),
      sp_drop (fun d hd => hg d (by simp [hd])) hs]

theorem ms0_sp {g s : List Char} (hg : Sp0 g) (hs : Solid s) :
    ∃ x, multispace0 (g ++ s) = .ok x s := by
  exact ⟨_, by rw [multispace0, takeWhile0, sp_drop hg hs]⟩

theorem pms1_sp {g s : List Char} {p : P α} (hg : Sp g) (hs : Solid s) :
    preceded multispace1 p (g ++ s) = p s := by
  obtain ⟨x, hx⟩ := ms1_sp hg hs
  exact preceded_run hx

/-- The parser does not mind comments in front. -/
def Ct (p : P α) : Prop := ∀ s, p (skipC s) = p s

theorem pms1_sep {g s : List Char} {p : P α} (hp : Ct p) (hg : Sep g) (hs : Solid s) :
    preceded multispace1 p (g ++ s) = p s := by
  have hk := hg.gap.skip_solid hs
  cases hg with
  | mk hc hg =>
    rw [List.cons_append] at hk ⊢
    rw [preceded_run (multispace1_cons hc _)]
    rw [skip, List.dropWhile_cons, if_pos (isBlank_space hc)] at hk
    rw [← hp, hk]

theorem pms1_err {s : List Char} {p : P α} (h : ∀ c r, s = c :: r → isSpace c = false) :
    preceded multispace1 p s = .err := preceded_err (multispace1_err h)

theorem skip_skipC (s : List Char) : skip (skipC s) = skip s := by
  cases s with
  | nil => rfl
  | cons c s =>
    by_cases hc : c = ';'
    · subst hc
      rw [skip_semicolon, skip_of_head]
      · exact skipC_skipC _
      · apply skipC_head
        intro c r h; cases h; decide
    · rw [skipC_of_ne hc]

namespace Ct
theorem ws {p : P α} : Ct (ws p) := fun s => by rw [ws_eq, ws_eq, skip_skipC]
theorem map {f : α → β} {p : P α} (h : Ct p) : Ct (map f p) := fun s => by simp only [Pddl.map, h s]
theorem mapExpect {f : α → Option β} {p : P α} (h : Ct p) : Ct (mapExpect f p) := fun s => by
  simp only [Pddl.mapExpect, h s]
theorem preceded {p : P α} {q : P β} (h : Ct p) : Ct (preceded p q) := fun s => by
  simp only [Pddl.preceded, h s]
theorem pair {p : P α} {q : P β} (h : Ct p) : Ct (pair p q) := fun s => by
  simp only [Pddl.pair, h s]
theorem delimited {p : P α} {q : P β} {r : P γ} (h : Ct p) : Ct (delimited p q r) :=
  preceded h
theorem alt_one {p : P α} (h : Ct p) : Ct (alt [p]) := fun s => by simp only [alt, h s]
theorem alt_cons {p q : P α} {ps : List (P α)} (h : Ct p) (h' : Ct (alt (q :: ps))) :
    Ct (alt (p :: q :: ps)) := fun s => by
  have h1 := h s
  have h2 := h' s
  simp only [alt] at h1 h2 ⊢
  simp only [h1, h2]
theorem prefixExpr {kw : List Char} {p : P α} : Ct (prefixExpr kw p) := preceded (preceded ws)
theorem parens {p : P α} : Ct (parens p) := fun s => by
  simp only [Pddl.parens, eolp_eq, skipC_skipC]
theorem spaceSeparatedList0 {p : P α} : Ct (spaceSeparatedList0 p) := ws
theorem spaceSeparatedList1 {p : P α} : Ct (spaceSeparatedList1 p) := ws
theorem atomicFormula {p : P α} : Ct (atomicFormula p) :=
  alt_cons (map (delimited ws)) (alt_one (map parens))
theorem literal {p : P α} : Ct (literal p) := alt_cons (map prefixExpr) (alt_one (map atomicFormula))
end Ct

theorem parseName_ct : Ct parseName := fun s => by rw [parseName_eq, parseName_eq, skip_skipC]

/-! ## Words and numbers -/

theorem Stop.nil : Stop [] := fun _ _ h => by cases h
theorem Stop.close (r : List Char) : Stop (')' :: r) := fun _ _ h => by cases h; simp
theorem Stop.open (r : List Char) : Stop ('(' :: r) := fun _ _ h => by cases h; simp
theorem Stop.gap {g r : List Char} (hg : Gap g) (hr : Stop r) : Stop (g ++ r) := by
  cases hg with
  | nil => exact hr
  | space hc _ => intro c r' h; cases h; exact .inl hc
  | comment => intro c r' h; cases h; simp
theorem Stop.sep {g : List Char} (hg : Sep g) (r : List Char) : Stop (g ++ r) := by
  cases hg with
  | mk hc _ => intro c r' h; cases h; exact .inl hc
theorem Stop.sp {g : List Char} (hg : Sp g) (r : List Char) : Stop (g ++ r) := .sep hg.sep r

theorem Stop.num {r : List Char} (h : Stop r) : NumEnd r := by
  intro c r' hr
  have := h c r' hr
  simp only [isBlank, Bool.or_eq_true, beq_iff_eq] at this
  rcases this with (((rfl | rfl) | rfl) | rfl) | rfl | rfl | rfl <;> decide

/-- On the text `t` followed by an admissible text, `p` returns `v` and leaves that text. -/
def Acc (p : P α) (F : List Char → Prop) (v : α) (t : List Char) : Prop :=
  ∀ r, F r → p (t ++ r) = .ok v r

theorem Acc.mono {p : P α} {F F' : List Char → Prop} {v t} (h : Acc p F v t)
    (hF : ∀ r, F' r → F r) : Acc p F' v t := fun r hr => h r (hF r hr)

/-- Any text may follow. -/
abbrev Any : List Char → Prop := fun _ => True

theorem wordName_eq (t : List Char) : wordName t = Name.new t := by
  unfold wordName Name.new Name.mapToStatic Name.newStatic
  by_cases h : t = c!"object"
  · simp [h]
  · by_cases h2 : t = c!"number" <;> simp [h, h2]

theorem NameW.of_word {t : List Char} (h : IsWord t) : NameW (Name.new t) t := ⟨h, (wordName_eq t).symm⟩

theorem NameW.acc {n : Name} {t : List Char} (h : NameW n t) : Acc parseName Stop n t := by
  intro r hr
  rw [parseName_word h.1 hr.word, h.2, wordName_eq]

theorem NameW.solid {n : Name} {t : List Char} (h : NameW n t) : Solid t := h.1.solid

theorem isDigit_solid {c : Char} (h : isDigit c = true) : isSpace c = false ∧ c ≠ ';' := by
  constructor
  · cases hs : isSpace c with
    | false => rfl
    | true =>
      simp only [isSpace, Bool.or_eq_true, beq_iff_eq] at hs
      rcases hs with ((rfl | rfl) | rfl) | rfl <;> exact absurd h (by decide)
  · rintro rfl; exact absurd h (by decide)

theorem NumW.head {n : Number} {t : List Char} (h : NumW n t) : ∃ c r, t = c :: r ∧ isDigit c = true := by
  obtain ⟨l, rfl, _⟩ := h
  unfold Literal10.text
  cases hi : l.int with
  | nil => exact absurd hi l.int_ne
  | cons c r =>
    have hc : isDigit c = true := l.int_digits c (by rw [hi]; simp)
    split
    · exact ⟨c, r, rfl, hc⟩
    · exact ⟨c, r ++ '.' :: l.frac, rfl, hc⟩

theorem NumW.solid {n : Number} {t : List Char} (h : NumW n t) : Solid t := by
  obtain ⟨c, r, rfl, hc⟩ := h.head
  exact .cons (isDigit_solid hc).1 (isDigit_solid hc).2 r

theorem numW_iff {n : Number} {t : List Char} : NumW n t ↔ ∃ l : Literal10, t = l.text ∧
    n.val = F32.ofDecimal l.num l.frac.length ∧ n.val.isFinite = true := by
  constructor
  · rintro ⟨l, rfl, h1, h2, h3⟩
    have := eq_ofDecimal h1 ((msb_eq _).symm.trans h2) h3
    exact ⟨l, rfl, this, by rw [this]; exact (F32.ofDecimal_finite _ _).mpr h1⟩
  · rintro ⟨l, rfl, h1, h2⟩
    rw [h1, F32.ofDecimal_finite] at h2
    refine ⟨l, rfl, h2, ?_, ?_⟩
    · rw [msb_eq, h1]; exact ofDecimal_pos _ _
    · rw [h1]; exact ofDecimal_nearest h2

theorem NumW.acc {n : Number} {t : List Char} (h : NumW n t) : Acc parseNumber Stop n t := by
  intro r hr
  obtain ⟨l, rfl, hv, hf⟩ := numW_iff.mp h
  rw [hv] at hf
  rw [parseNumber_text l hr.num ((F32.ofDecimal_finite _ _).mp hf), ← hv]

theorem VarW.solid {m : Mode} {v : Name} {t : List Char} (h : VarW m v t) : Solid t := by
  obtain ⟨g, w, rfl, _⟩ := h
  exact .cons (by decide) (by decide) _

theorem VarW.acc {v : Name} {t : List Char} (h : VarW .strict v t) : Acc parseVariable Stop v t := by
  intro r hr
  obtain ⟨g, w, rfl, hg, hw⟩ := h
  have hg : g = [] := hg
  subst hg
  have : parseVariable ('?' :: ([] ++ w) ++ r) = parseName (w ++ r) := rfl
  rw [this, hw.acc r hr]

/-- `wordRes` on something that does not start with a letter. -/
theorem parseName_err {s : List Char} (h : ∀ c r, skip s = c :: r → isAlpha c = false) :
    parseName s = .err := by
  rw [parseName_eq]
  cases hs : skip s with
  | nil => rfl
  | cons c r => simp [wordRes, h c r hs]

theorem parseName_err_cons {c : Char} {s : List Char} (h : Solid (c :: s)) (hc : isAlpha c = false) :
    parseName (c :: s) = .err :=
  parseName_err fun c' r' h' => by
    rw [h.skip] at h'; cases h'; exact hc

theorem parseNumber_err {s : List Char} (h : ∀ c r, s = c :: r → isDigit c = false) :
    parseNumber s = .err := by
  have : s.takeWhile isDigit = [] := by
    cases s with
    | nil => rfl
    | cons c r => simp [h c r rfl]
  simp [parseNumber, mapExpect, recognize, pair, digit1, takeWhile1, this, Res.bind]

theorem parseVariable_err {s : List Char} (h : ∀ r, s ≠ '?' :: r) : parseVariable s = .err := by
  refine preceded_err (tag_err ?_)
  cases s with
  | nil => rfl
  | cons c r =>
    have : ¬ '?' = c := fun hc => h r (by rw [hc])
    simp [stripPrefix, this]

/-! ## Lists -/

/-- An element of a list: `p` reads it back and it does not start with layout. -/
def Elem (p : P α) (a : α) (t : List Char) : Prop := Acc p Stop a t ∧ Solid t

theorem Items.mono {R R' : α → List Char → Prop} {as u} (h : Items R as u)
    (hR : ∀ a t, R a t → t.length ≤ u.length → R' a t) : Items R' as u := by
  induction h with
  | one h => exact .one (hR _ _ h (Nat.le_refl _))
  | cons h hg _ ih =>
    refine .cons (hR _ _ h (by simp)) hg (ih fun a t h hl => hR a t h ?_)
    simp only [List.length_append] at hl ⊢; omega

theorem Items.ne_nil {R : α → List Char → Prop} {as u} (h : Items R as u) : as ≠ [] := by
  cases h <;> simp

theorem Items.solid {p : P α} {as u} (h : Items (Elem p) as u) : Solid u := by
  cases h with
  | one h => exact h.2
  | cons h => exact h.2.append _

theorem sepLoop_step {p : P α} {c : Char} (hc : isSpace c = true) (s : List Char) (n : Nat) :
    sepLoop multispace1 (preceded ignoreEolComment p) (n + 1) (c :: s) =
      match p (skip (c :: s)) with
        | .err => .ok [] (c :: s)
        | .ok a r' => (sepLoop multispace1 (preceded ignoreEolComment p) n r').bind
            fun as r'' => .ok (a :: as) r''
        | .fail => .fail
        | .panic => .panic
        | .oof => .oof := by
  have h1 := length_dropWhile_le isSpace s
  rw [sepLoop]
  dsimp only
  rw [multispace1_cons hc]
  dsimp only
  rw [if_neg (by simp only [List.length_cons]; omega), eolp_eq]
  have : skipC (s.dropWhile isSpace) = skip (c :: s) := by
    rw [skip, List.dropWhile_cons, if_pos (isBlank_space hc)]
  rw [this]
  cases p (skip (c :: s)) <;> rfl

theorem sepLoop_end {p : P α} {y : List Char} (h : p (skip y) = .err) (n : Nat) :
    sepLoop multispace1 (preceded ignoreEolComment p) (n + 1) y = .ok [] y := by
  cases y with
  | nil => rfl
  | cons c y =>
    cases hc : isSpace c with
    | false =>
      have := multispace1_err (s := c :: y) (by intro c' r h; cases h; exact hc)
      rw [sepLoop]
      dsimp only
      rw [this]
    | true => rw [sepLoop_step hc, h]

theorem sepLoop_items {p : P α} {as : List α} {u : List Char} (h : Items (Elem p) as u)
    {g y : List Char} (hg : Sep g) (hy : Stop y) (he : p (skip y) = .err) (n : Nat)
    (hn : (g ++ (u ++ y)).length < n) :
    sepLoop multispace1 (preceded ignoreEolComment p) n (g ++ (u ++ y)) = .ok as y := by
  induction h generalizing g n with
  | @one a t h =>
    have hk := hg.gap.skip_solid (h.2.append y)
    cases hg with
    | @mk c g hc hg =>
      rw [List.cons_append] at hk hn ⊢
      match n with
      | 0 | 1 => simp at hn
      | n + 2 =>
      rw [sepLoop_step hc, hk, h.1 y hy]
      dsimp only
      rw [sepLoop_end he n]; rfl
  | @cons a t g' as u h hg' hu ih =>
    have e : t ++ (g' ++ u) ++ y = t ++ (g' ++ (u ++ y)) := by simp
    rw [e] at hn ⊢
    have hk := hg.gap.skip_solid (h.2.append (g' ++ (u ++ y)))
    cases hg with
    | @mk c g hc hg =>
      rw [List.cons_append] at hk hn ⊢
      match n with
      | 0 => simp at hn
      | n + 1 =>
      rw [sepLoop_step hc, hk, h.1 _ (.sep hg' _)]
      dsimp only
      rw [ih hg' n (by simp only [List.length_append, List.length_cons] at hn ⊢; omega)]
      rfl

theorem sepList1_items {p : P α} {as : List α} {u : List Char} (h : Items (Elem p) as u)
    {y : List Char} (hy : Stop y) (he : p (skip y) = .err) :
    sepList1 multispace1 (preceded ignoreEolComment p) (u ++ y) = .ok as y := by
  cases h with
  | one h =>
    simp only [sepList1, eolp_eq, (h.2.append y).skipC, h.1 y hy, Res.bind, sepLoop_end he]
  | @cons a t g' as u h hg' hu =>
    have e : t ++ (g' ++ u) ++ y = t ++ (g' ++ (u ++ y)) := by simp
    simp only [e, sepList1, eolp_eq, (h.2.append (g' ++ (u ++ y))).skipC, h.1 _ (.sep hg' _), Res.bind,
      sepLoop_items hu hg' hy he _ (Nat.lt_succ_self _)]

theorem sepList0_items {p : P α} {as : List α} {u : List Char} (h : Items (Elem p) as u)
    {y : List Char} (hy : Stop y) (he : p (skip y) = .err) :
    sepList0 multispace1 (preceded ignoreEolComment p) (u ++ y) = .ok as y := by
  cases h with
  | one h =>
    simp only [sepList0, eolp_eq, (h.2.append y).skipC, h.1 y hy, Res.bind, sepLoop_end he]
  | @cons a t g' as u h hg' hu =>
    have e : t ++ (g' ++ u) ++ y = t ++ (g' ++ (u ++ y)) := by simp
    simp only [e, sepList0, eolp_eq, (h.2.append (g' ++ (u ++ y))).skipC, h.1 _ (.sep hg' _), Res.bind,
      sepLoop_items hu hg' hy he _ (Nat.lt_succ_self _)]

theorem list1_items {p : P α} {as : List α} {u : List Char} (h : Items (Elem p) as u)
    {g y : List Char} (hg : Gap g) (hy : Stop y) (he : p (skip y) = .err) :
    spaceSeparatedList1 p (g ++ (u ++ y)) = .ok as y := by
  rw [spaceSeparatedList1, ws_eq, hg.skip_solid (h.solid.append y), sepList1_items h hy he]

theorem list0_items {p : P α} {as : List α} {u : List Char} (h : Items (Elem p) as u)
    {g y : List Char} (hg : Gap g) (hy : Stop y) (he : p (skip y) = .err) :
    spaceSeparatedList0 p (g ++ (u ++ y)) = .ok as y := by
  rw [spaceSeparatedList0, ws_eq, hg.skip_solid (h.solid.append y), sepList0_items h hy he]

theorem list0_nil {p : P α} {s : List Char} (h : p (skip s) = .err) :
    spaceSeparatedList0 p s = .ok [] (skip s) := by
  rw [spaceSeparatedList0, ws_eq, sepList0, eolp_eq, skipC_skip, h]

theorem list1_nil {p : P α} {s : List Char} (h : p (skip s) = .err) :
    spaceSeparatedList1 p s = .err := by
  rw [spaceSeparatedList1, ws_eq, sepList1, eolp_eq, skipC_skip, h]
  rfl

theorem list0_skip (p : P α) (s : List Char) :
    spaceSeparatedList0 p (skip s) = spaceSeparatedList0 p s := ws_skip _ _

theorem list1_skip (p : P α) (s : List Char) :
    spaceSeparatedList1 p (skip s) = spaceSeparatedList1 p s := ws_skip _ _

theorem Mode.tight.gap {m : Mode} {g : List Char} (h : m.tight g) : Gap g := by
  cases m with
  | strict => cases (show g = [] from h); exact .nil
  | loose => exact h

theorem Mode.word.gap {m : Mode} {g : List Char} (h : m.word g) : Gap g := by
  cases m with
  | strict => exact Sep.gap h
  | loose => exact h

/-- The rest of a form, up to its closing parenthesis. -/
theorem list0_sec {p : P α} {lead trail : List Char → Prop} {as : List α} {u : List Char}
    (h : Sec lead trail (Items (Elem p)) as u) (hl : ∀ g, lead g → Gap g)
    (ht : ∀ g, trail g → Gap g) (hp : ∀ x, p (')' :: x) = .err) (x : List Char) :
    ∃ y, spaceSeparatedList0 p (u ++ ')' :: x) = .ok as y ∧ skip y = ')' :: x ∧
      ((∀ g, trail g → g = []) → y = ')' :: x) := by
  cases h with
  | nil hg =>
    have hk := hg.skip_solid (solid_close x)
    refine ⟨')' :: x, ?_, (solid_close x).skip, fun _ => rfl⟩
    rw [list0_nil (by rw [hk, hp]), hk]
  | @cons g xs t g' hg h hg' =>
    refine ⟨g' ++ ')' :: x, ?_, (ht _ hg').skip_solid (solid_close x), fun h => by rw [h _ hg']; rfl⟩
    simp only [List.append_assoc]
    exact list0_items h (hl _ hg) (.gap (ht _ hg') (.close x))
      (by rw [(ht _ hg').skip_solid (solid_close x), hp])

theorem Sec.mono {B B' : List α → List Char → Prop} {lead trail : List Char → Prop} {xs u}
    (h : Sec lead trail B xs u) (hB : ∀ t, B xs t → t.length ≤ u.length → B' xs t) :
    Sec lead trail B' xs u := by
  cases h with
  | nil hg => exact .nil hg
  | cons hg h hg' => exact .cons hg (hB _ h (by simp only [List.length_append]; omega)) hg'

/-- `(kw x1 .. xn)` -/
theorem prefix_list0 {p : P α} {lead : List Char → Prop} {as : List α} {u kw : List Char}
    (h : Sec lead Gap (Items (Elem p)) as u) (hl : ∀ g, lead g → Gap g)
    (hp : ∀ x, p (')' :: x) = .err) :
    Acc (prefixExpr kw (spaceSeparatedList0 p)) Any as (paren (kw ++ u)) := by
  intro r _
  obtain ⟨y, h1, h2, _⟩ := list0_sec h hl (fun _ h => h) hp r
  simp only [paren_append, List.append_assoc]
  exact prefixExpr_run (by rw [list0_skip, h1]) h2

/-- `(kw x1 .. xn)`, not empty. -/
theorem prefix_list1 {p : P α} {g g' : List Char} {as : List α} {u kw : List Char}
    (hg : Gap g) (h : Items (Elem p) as u) (hg' : Gap g') (hp : ∀ x, p (')' :: x) = .err) :
    Acc (prefixExpr kw (spaceSeparatedList1 p)) Any as (paren (kw ++ (g ++ (u ++ g')))) := by
  intro r _
  simp only [paren_append, List.append_assoc]
  have hk := hg'.skip_solid (solid_close r)
  refine prefixExpr_run (y := g' ++ ')' :: r) ?_ hk
  rw [list1_skip]
  exact list1_items h hg (.gap hg' (.close r)) (by rw [hk, hp])

/-- `(kw x)` -/
theorem prefix_one {p : P α} {g g' t kw : List Char} {v : α} (hg : Gap g) (h : Acc p Stop v t)
    (ht : Solid t) (hg' : Gap g') :
    Acc (prefixExpr kw p) Any v (paren (kw ++ (g ++ (t ++ g')))) := by
  intro r _
  simp only [paren_append, List.append_assoc]
  refine prefixExpr_run (y := g' ++ ')' :: r) ?_ (hg'.skip_solid (solid_close r))
  rw [hg.skip_solid (ht.append _)]
  exact h _ (.gap hg' (.close r))

/-- `(kw x y)` where `y` does not mind comments in front. -/
theorem prefix_two {p : P α} {q : P β} {g1 t1 g2 t2 g3 kw : List Char} {a : α} {b : β} (hg1 : Gap g1)
    (h1 : Acc p Stop a t1) (hs1 : Solid t1) (hg2 : Sep g2) (hq : Ct q)
    (h2 : Acc q Stop b t2) (hs2 : Solid t2) (hg3 : Gap g3) :
    Acc (prefixExpr kw (pair p (preceded multispace1 q))) Any (a, b)
      (paren (kw ++ (g1 ++ (t1 ++ (g2 ++ (t2 ++ g3)))))) := by
  intro r _
  simp only [paren_append, List.append_assoc]
  refine prefixExpr_run (y := g3 ++ ')' :: r) ?_ (hg3.skip_solid (solid_close r))
  rw [hg1.skip_solid (hs1.append _)]
  refine pair_run (h1 _ (.sep hg2 _)) ?_
  rw [pms1_sep hq hg2 (hs2.append _)]
  exact h2 _ (.gap hg3 (.close r))

/-- `(kw x y)` with only spaces before `y`. -/
theorem prefix_two_sp {p : P α} {q : P β} {g1 t1 g2 t2 g3 kw : List Char} {a : α} {b : β}
    (hg1 : Gap g1) (h1 : Acc p Stop a t1) (hs1 : Solid t1) (hg2 : Sp g2)
    (h2 : Acc q Stop b t2) (hs2 : Solid t2) (hg3 : Gap g3) :
    Acc (prefixExpr kw (pair p (preceded multispace1 q))) Any (a, b)
      (paren (kw ++ (g1 ++ (t1 ++ (g2 ++ (t2 ++ g3)))))) := by
  intro r _
  simp only [paren_append, List.append_assoc]
  refine prefixExpr_run (y := g3 ++ ')' :: r) ?_ (hg3.skip_solid (solid_close r))
  rw [hg1.skip_solid (hs1.append _)]
  refine pair_run (h1 _ (.sp hg2 _)) ?_
  rw [pms1_sp hg2 (hs2.append _)]
  exact h2 _ (.gap hg3 (.close r))

/-- `(f x1 .. xn)` with a name as head. -/
theorem parens_head_list {p : P α} {g t u : List Char} {n : Name} {as : List α} (hg : Gap g)
    (hn : NameW n t) (h : Sec (Mode.word .strict) (Mode.tight .strict) (Items (Elem p)) as u)
    (hp : ∀ x, p (')' :: x) = .err) (x : List Char) :
    pair parseName (spaceSeparatedList0 p) (skip (g ++ (t ++ (u ++ ')' :: x)))) =
      .ok (n, as) (')' :: x) := by
  obtain ⟨y, h1, h2, h3⟩ := list0_sec h (fun _ h => Mode.word.gap h) (fun _ h => Mode.tight.gap h)
    hp x
  cases h3 fun _ h => h
  rw [hg.skip_solid (hn.solid.append _)]
  refine pair_run (hn.acc _ ?_) h1
  cases h with
  | nil hg => exact .gap hg (.close x)
  | cons hg _ _ => simp only [List.append_assoc]; exact .sep hg _

end Pddl
