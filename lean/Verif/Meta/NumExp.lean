import Verif.Meta.Atoms

/-!
# Meta-theory: numeric expressions are read back
-/

namespace Pddl

/-! ## Operators on other texts -/

theorem parseBinaryOp_err {c : Char} (s : List Char) (h1 : c ≠ '*') (h2 : c ≠ '+') (h3 : c ≠ '-')
    (h4 : c ≠ '/') : parseBinaryOp (c :: s) = .err := by
  refine mapExpect_err ?_
  rw [alt_miss (tag_err (stripPrefix_head h1.symm)), alt_miss (tag_err (stripPrefix_head h2.symm)),
    alt_miss (tag_err (stripPrefix_head h3.symm)), alt_miss (tag_err (stripPrefix_head h4.symm)), alt_nil]

theorem parseMultiOp_err {c : Char} (s : List Char) (h1 : c ≠ '*') (h2 : c ≠ '+') :
    parseMultiOp (c :: s) = .err := by
  refine mapExpect_err ?_
  rw [alt_miss (tag_err (stripPrefix_head h1.symm)), alt_miss (tag_err (stripPrefix_head h2.symm)), alt_nil]

theorem parseBinaryOp_spell (op : BinaryOp) (r : List Char) : parseBinaryOp (op.spell ++ r) = .ok op r :=
  C41_binaryOp.complete op r trivial

theorem parseBinaryOp_multi (op : MultiOp) (r : List Char) :
    ∃ o, parseBinaryOp (op.spell ++ r) = .ok o r := by
  cases op
  · exact ⟨.mul, C41_binaryOp.complete .mul r trivial⟩
  · exact ⟨.add, C41_binaryOp.complete .add r trivial⟩

theorem parseMultiOp_spell (op : MultiOp) (r : List Char) : parseMultiOp (op.spell ++ r) = .ok op r :=
  C41_multiOp.complete op r trivial

theorem BinaryOp.spell_solid (op : BinaryOp) : Solid op.spell := by
  cases op <;> exact .cons (by decide) (by decide) _

theorem MultiOp.spell_solid (op : MultiOp) : Solid op.spell := by
  cases op <;> exact .cons (by decide) (by decide) _

/-- Comments in front of the text: the parser either rejects them or ends at the same place. -/
def Cw (p : P α) : Prop :=
  ∀ s v y, Stop y → p (skipC s) = .ok v y → p s = .err ∨ ∃ v', p s = .ok v' y

/-- `(op a b)`, the parser -/
abbrev binP (self : P α) : P (BinaryOp × α × α) :=
  parens (pair parseBinaryOp (pair (preceded multispace1 self) (preceded multispace1 self)))
/-- `(op a b c ..)`, the parser -/
abbrev mulP (self : P α) : P (MultiOp × α × List α) :=
  parens (pair parseMultiOp
    (pair (preceded multispace1 self) (preceded multispace1 (spaceSeparatedList1 self))))
/-- `(- a)`, the parser -/
abbrev negP (self : P α) : P α := parens (preceded (pair (char '-') multispace0) self)

theorem bin_run {self : P α} {op : BinaryOp} {g0 g1 t1 g2 t2 r : List Char} {a b : α} (hg0 : Gap g0)
    (hg1 : Sp g1) (h1 : Elem self a t1) (hg2 : Sp g2) (h2 : Elem self b t2) :
    binP self ('(' :: (g0 ++ (op.spell ++ (g1 ++ (t1 ++ (g2 ++ (t2 ++ ')' :: r))))))) =
      .ok (op, a, b) r := by
  refine parens_run ?_
  rw [hg0.skip_solid (op.spell_solid.append _)]
  refine pair_run (parseBinaryOp_spell op _) (pair_run (r := g2 ++ (t2 ++ ')' :: r)) ?_ ?_)
  · rw [pms1_sp hg1 (h1.2.append _)]
    exact h1.1 _ (.sp hg2 _)
  · rw [pms1_sp hg2 (h2.2.append _)]
    exact h2.1 _ (.close r)

theorem mul_run {self : P α} {op : MultiOp} {g0 g1 t1 g2 t2 r : List Char} {a : α} {bs : List α}
    (hg0 : Gap g0) (hg1 : Sp g1) (h1 : Elem self a t1) (hg2 : Sep g2) (h2 : Items (Elem self) bs t2)
    (hc : ∀ x, self (')' :: x) = .err) :
    mulP self ('(' :: (g0 ++ (op.spell ++ (g1 ++ (t1 ++ (g2 ++ (t2 ++ ')' :: r))))))) =
      .ok (op, a, bs) r := by
  refine parens_run ?_
  rw [hg0.skip_solid (op.spell_solid.append _)]
  refine pair_run (parseMultiOp_spell op _) (pair_run (r := g2 ++ (t2 ++ ')' :: r)) ?_ ?_)
  · rw [pms1_sp hg1 (h1.2.append _)]
    exact h1.1 _ (.sep hg2 _)
  · rw [pms1_sep Ct.spaceSeparatedList1 hg2 (h2.solid.append _)]
    have := list1_items h2 (g := []) .nil (.close r) (by rw [(solid_close r).skip, hc])
    simpa using this

/-- The binary form does not fit three or more operands. -/
theorem bin_miss_mul {self : P α} (hw : Cw self) {op : MultiOp} {g0 g1 t1 g2 t2 r : List Char} {a : α}
    {bs : List α} (hg0 : Gap g0) (hg1 : Sp g1) (h1 : Elem self a t1) (hg2 : Sep g2)
    (h2 : Items (Elem self) bs t2) (hl : 2 ≤ bs.length) :
    binP self ('(' :: (g0 ++ (op.spell ++ (g1 ++ (t1 ++ (g2 ++ (t2 ++ ')' :: r))))))) = .err := by
  obtain ⟨o, ho⟩ := parseBinaryOp_multi op (g1 ++ (t1 ++ (g2 ++ (t2 ++ ')' :: r))))
  have e1 : preceded multispace1 self (g1 ++ (t1 ++ (g2 ++ (t2 ++ ')' :: r)))) =
      .ok a (g2 ++ (t2 ++ ')' :: r)) := by
    rw [pms1_sp hg1 (h1.2.append _)]
    exact h1.1 _ (.sep hg2 _)
  cases h2 with
  | one => simp at hl
  | @cons b t g' bs u hb hg' hu =>
    have hk := hg2.gap.skip_solid (hb.2.append (g' ++ u ++ ')' :: r))
    have e2 : preceded multispace1 self (g2 ++ (t ++ (g' ++ u) ++ ')' :: r)) = .err ∨
        ∃ v', preceded multispace1 self (g2 ++ (t ++ (g' ++ u) ++ ')' :: r)) =
          .ok v' (g' ++ (u ++ ')' :: r)) := by
      obtain ⟨c, y, rfl, hc⟩ := sep_head hg2
      simp only [List.cons_append, List.append_assoc] at hk ⊢
      rw [preceded_run (multispace1_cons hc _)]
      rw [skip, List.dropWhile_cons, if_pos (isBlank_space hc)] at hk
      exact hw _ b _ (.sep hg' _) (by rw [hk]; exact hb.1 _ (.sep hg' _))
    rcases e2 with e2 | ⟨v', e2⟩
    · refine parens_err ?_
      rw [hg0.skip_solid (op.spell_solid.append _)]
      exact pair_err2 ho (pair_err2 e1 e2)
    · refine parens_tail (v := (o, a, v')) (y := g' ++ (u ++ ')' :: r)) ?_ ?_
      · rw [hg0.skip_solid (op.spell_solid.append _)]
        exact pair_run ho (pair_run e1 e2)
      · intro x hx
        obtain ⟨c, y, rfl, hc⟩ := sep_head hg'
        cases hx
        exact absurd hc (by decide)

theorem neg_run {self : P α} {g0 g t r : List Char} {a : α} (hg0 : Gap g0) (hg : Sp0 g)
    (h : Elem self a t) :
    negP self ('(' :: (g0 ++ (c!"-" ++ (g ++ (t ++ ')' :: r))))) = .ok a r := by
  refine parens_run ?_
  have hk : skip (g0 ++ (c!"-" ++ (g ++ (t ++ ')' :: r)))) = '-' :: (g ++ (t ++ ')' :: r)) :=
    hg0.skip_solid (solid_dash _)
  rw [hk]
  obtain ⟨x, hx⟩ := ms0_sp hg (h.2.append (')' :: r))
  rw [preceded_run (pair_run (a := '-') (r := g ++ (t ++ ')' :: r)) (by simp [char]) hx)]
  exact h.1 _ (.close r)

/-- The binary form does not fit a unary minus. -/
theorem bin_miss_neg {self : P α} {g0 g t r : List Char} {a : α} (hg0 : Gap g0) (hg : Sp0 g)
    (h : Elem self a t) :
    binP self ('(' :: (g0 ++ (c!"-" ++ (g ++ (t ++ ')' :: r))))) = .err := by
  refine parens_err ?_
  have hk : skip (g0 ++ (c!"-" ++ (g ++ (t ++ ')' :: r)))) = '-' :: (g ++ (t ++ ')' :: r)) :=
    hg0.skip_solid (solid_dash _)
  rw [hk]
  refine pair_err2 (parseBinaryOp_spell .sub (g ++ (t ++ ')' :: r))) ?_
  by_cases hn : g = []
  · subst hn
    exact pair_err (preceded_err (ms1_solid (h.2.append _)))
  · refine pair_err2 (a := a) (r := ')' :: r) ?_ (preceded_err (ms1_solid (solid_close r)))
    rw [pms1_sp ⟨hn, hg⟩ (h.2.append _)]
    exact h.1 _ (.close r)

theorem mul_miss_neg {self : P α} {g0 x : List Char} (hg0 : Gap g0) :
    mulP self ('(' :: (g0 ++ (c!"-" ++ x))) = .err := by
  refine parens_err (pair_err ?_)
  have hk : skip (g0 ++ (c!"-" ++ x)) = '-' :: x := hg0.skip_solid (solid_dash _)
  rw [hk]
  exact parseMultiOp_err _ (by decide) (by decide)

theorem bin_miss_word {self : P α} {g t x : List Char} (hg : Gap g) (ht : IsWord t) :
    binP self ('(' :: (g ++ (t ++ x))) = .err := by
  refine parens_err (pair_err ?_)
  rw [hg.skip_solid (ht.solid.append _)]
  obtain ⟨c, cs, rfl, hc, _⟩ := ht
  refine parseBinaryOp_err _ ?_ ?_ ?_ ?_ <;> (rintro rfl; exact absurd hc (by decide))

theorem mul_miss_word {self : P α} {g t x : List Char} (hg : Gap g) (ht : IsWord t) :
    mulP self ('(' :: (g ++ (t ++ x))) = .err := by
  refine parens_err (pair_err ?_)
  rw [hg.skip_solid (ht.solid.append _)]
  obtain ⟨c, cs, rfl, hc, _⟩ := ht
  refine parseMultiOp_err _ ?_ ?_ <;> (rintro rfl; exact absurd hc (by decide))

theorem neg_miss_word {self : P α} {g t x : List Char} (hg : Gap g) (ht : IsWord t) :
    negP self ('(' :: (g ++ (t ++ x))) = .err := by
  refine parens_err (preceded_err (pair_err ?_))
  rw [hg.skip_solid (ht.solid.append _)]
  obtain ⟨c, cs, rfl, hc, _⟩ := ht
  have : c ≠ '-' := by rintro rfl; exact absurd hc (by decide)
  simp [char, this]

theorem parseNumber_open (s : List Char) : parseNumber ('(' :: s) = .err :=
  parseNumber_err fun c r h => by cases h; decide

theorem parseNumber_alpha {c : Char} (s : List Char) (h : isAlpha c = true) :
    parseNumber (c :: s) = .err :=
  parseNumber_err fun c' r h' => by
    cases h'
    cases hd : isDigit c with
    | false => rfl
    | true =>
      simp only [isAlpha, isDigit, Bool.or_eq_true, Bool.and_eq_true, decide_eq_true_eq] at h hd
      omega

/-- The head of a fluent, as the operator alternatives see it. -/
theorem FHeadW.shape {m : Mode} {h : FHead} {t : List Char} (H : FHeadW m h t) :
    IsWord t ∨ ∃ g w x, t = '(' :: (g ++ (w ++ x)) ∧ Gap g ∧ IsWord w := by
  cases H with
  | bare h => exact .inl h.1
  | @simple g f t g' hg h _ =>
    exact .inr ⟨g, t, g' ++ [')'], by simp only [paren, List.append_assoc], hg, h.1⟩
  | @terms g f t ts u hg h _ _ =>
    exact .inr ⟨g, t, u ++ [')'], by simp only [paren, List.append_assoc], hg, h.1⟩

theorem fhead_op_miss {self : P α} {h : FHead} {t : List Char} (H : FHeadW .strict h t)
    (r : List Char) : binP self (t ++ r) = .err ∧ mulP self (t ++ r) = .err ∧
      negP self (t ++ r) = .err ∧ parseNumber (t ++ r) = .err := by
  rcases H.shape with h | ⟨g, w, x, rfl, hg, hw⟩
  · obtain ⟨c, cs, rfl, hc, _⟩ := h
    have h1 : c ≠ '(' := by rintro rfl; exact absurd hc (by decide)
    have h2 := (isAlpha_solid hc).2
    exact ⟨parens_head h2 h1, parens_head h2 h1, parens_head h2 h1, parseNumber_alpha _ hc⟩
  · have e : '(' :: (g ++ (w ++ x)) ++ r = '(' :: (g ++ (w ++ (x ++ r))) := by simp
    rw [e]
    exact ⟨bin_miss_word hg hw, mul_miss_word hg hw, neg_miss_word hg hw, parseNumber_open _⟩

theorem num_op_miss {self : P α} {n : Number} {t : List Char} (h : NumW n t) (r : List Char) :
    binP self (t ++ r) = .err ∧ mulP self (t ++ r) = .err ∧ negP self (t ++ r) = .err := by
  obtain ⟨c, cs, rfl, hc⟩ := h.head
  have h1 : c ≠ '(' := by rintro rfl; exact absurd hc (by decide)
  have h2 := (isDigit_solid hc).2
  exact ⟨parens_head h2 h1, parens_head h2 h1, parens_head h2 h1⟩

theorem parseFHead_digit {c : Char} (s : List Char) (hc : isDigit c = true) :
    parseFHead (c :: s) = .err := by
  have h1 : c ≠ '(' := by rintro rfl; exact absurd hc (by decide)
  have h2 := isDigit_solid hc
  have h3 : isAlpha c = false := by
    cases h : isAlpha c with
    | false => rfl
    | true =>
      simp only [isAlpha, isDigit, Bool.or_eq_true, Bool.and_eq_true, decide_eq_true_eq] at h hc
      omega
  have h4 : parseFunctionSymbol (c :: s) = .err := parseName_err_cons (.cons h2.1 h2.2 s) h3
  rw [parseFHead, alt_miss (map_err h4), alt_miss (map_err (parens_head h2.2 h1)),
    alt_miss (map_err (parens_head h2.2 h1)), alt_nil]

theorem parseFHead_close (s : List Char) : parseFHead (')' :: s) = .err := by
  have h4 : parseFunctionSymbol (')' :: s) = .err := parseName_close s
  rw [parseFHead, alt_miss (map_err h4), alt_miss (map_err (parens_head (by decide) (by decide))),
    alt_miss (map_err (parens_head (by decide) (by decide))), alt_nil]

/-! ## `FExp` -/

theorem parseFExp_close (s : List Char) : parseFExp (')' :: s) = .err := by
  rw [parseFExp_eq, fExpBody, alt_miss (map_err (parseNumber_err fun c r h => by cases h; decide)),
    alt_miss (map_err (parens_head (by decide) (by decide))),
    alt_miss (map_err (parens_head (by decide) (by decide))),
    alt_miss (map_err (parens_head (by decide) (by decide))),
    alt_miss (map_err (parseFHead_close s)), alt_nil]

theorem parseNumber_ok_head {s : List Char} {n r} (h : parseNumber s = .ok n r) :
    ∃ c y, s = c :: y ∧ isDigit c = true := by
  cases s with
  | nil => cases h
  | cons c y =>
    cases hc : isDigit c with
    | true => exact ⟨c, y, rfl, hc⟩
    | false =>
      rw [parseNumber_err fun c' r h => by cases h; exact hc] at h
      cases h

theorem skipC_cases (s : List Char) : skipC s = s ∨ ∃ r, s = ';' :: r := by
  cases s with
  | nil => exact .inl rfl
  | cons c r =>
    by_cases h : c = ';'
    · exact .inr ⟨r, by rw [h]⟩
    · exact .inl (skipC_of_ne h r)

theorem Cw.of_ne {p : P α} (h : ∀ s v y, Stop y → p (skipC (';' :: s)) = .ok v y →
    p (';' :: s) = .err ∨ ∃ v', p (';' :: s) = .ok v' y) : Cw p := by
  intro s v y hy hp
  rcases skipC_cases s with hs | ⟨r, rfl⟩
  · rw [hs] at hp; exact .inr ⟨v, hp⟩
  · exact h r v y hy hp

theorem parseNumber_semi (s : List Char) : parseNumber (';' :: s) = .err :=
  parseNumber_err fun c r h => by cases h; decide

theorem parseFExp_cw : Cw parseFExp := by
  refine .of_ne fun s v y _ h => ?_
  rw [parseFExp_eq, fExpBody] at h ⊢
  rw [alt_miss (map_err (parseNumber_semi s))]
  have hct : Ct (alt [
      map (fun x : BinaryOp × FExp × FExp => FExp.binaryOp x.1 x.2.1 x.2.2) (binP parseFExp),
      map (fun x : MultiOp × FExp × List FExp => FExp.multiOp x.1 x.2.1 x.2.2) (mulP parseFExp),
      map FExp.negative (negP parseFExp), map FExp.function parseFHead]) :=
    .alt_cons (.map .parens) (.alt_cons (.map .parens) (.alt_cons (.map .parens)
      (.alt_one (.map parseFHead_ct))))
  rw [← hct]
  cases hn : parseNumber (skipC (';' :: s)) with
  | ok n r =>
    left
    obtain ⟨c, x, hx, hc⟩ := parseNumber_ok_head hn
    have h1 : c ≠ '(' := by rintro rfl; exact absurd hc (by decide)
    have h2 := (isDigit_solid hc).2
    rw [hx, alt_miss (map_err (parens_head h2 h1)), alt_miss (map_err (parens_head h2 h1)),
      alt_miss (map_err (parens_head h2 h1)), alt_miss (map_err (parseFHead_digit _ hc)), alt_nil]
  | err =>
    right
    rw [alt_miss (map_err hn)] at h
    exact ⟨v, h⟩
  | fail => simp [alt, map, hn, Res.bind] at h
  | panic => simp [alt, map, hn, Res.bind] at h
  | oof => simp [alt, map, hn, Res.bind] at h

theorem FExpW.solid {m : Mode} {e : FExp} {t : List Char} (h : FExpW m e t) : Solid t := by
  cases h with
  | number h => exact h.solid
  | function h => exact h.solid
  | negative => exact solid_paren _
  | binaryOp => exact solid_paren _
  | multiOp => exact solid_paren _

theorem FExpW.acc_aux (n : Nat) :
    ∀ e t, t.length ≤ n → FExpW .strict e t → Acc parseFExp Stop e t := by
  induction n with
  | zero =>
    intro v t hn h
    obtain ⟨c, r, rfl, _⟩ := h.solid
    simp at hn
  | succ n ih =>
    have el : ∀ e t, t.length ≤ n → FExpW .strict e t → Elem parseFExp e t :=
      fun e t hl h => ⟨ih e t hl h, h.solid⟩
    intro v t hn h r hr
    rw [parseFExp_eq, fExpBody]
    cases h with
    | number h => exact alt_hit (map_run (h.acc r hr))
    | function h =>
      obtain ⟨m1, m2, m3, m4⟩ := fhead_op_miss (self := parseFExp) h r
      rw [alt_miss (map_err m4), alt_miss (map_err m1), alt_miss (map_err m2), alt_miss (map_err m3)]
      exact alt_hit (map_run (h.acc r hr))
    | @negative g0 g e t g' hg0 hg he hg' =>
      cases (show g' = [] from hg')
      simp only [paren, List.length_append, List.length_cons] at hn
      have he := el e t (by omega) he
      simp only [paren_append, List.append_assoc, List.append_nil]
      rw [alt_miss (map_err (parseNumber_open _)), alt_miss (map_err (bin_miss_neg hg0 hg he)),
        alt_miss (map_err (mul_miss_neg hg0))]
      exact alt_hit (map_run (neg_run hg0 hg he))
    | @binaryOp g0 op g1 a t1 g2 b t2 g3 hg0 hg1 ha hg2 hb hg3 =>
      cases (show g3 = [] from hg3)
      simp only [paren, List.length_append, List.length_cons] at hn
      have ha := el a t1 (by omega) ha
      have hb := el b t2 (by omega) hb
      simp only [paren_append, List.append_assoc, List.append_nil]
      rw [alt_miss (map_err (parseNumber_open _))]
      exact alt_hit (map_run (a := (op, a, b)) (bin_run hg0 hg1 ha hg2 hb))
    | @multiOp g0 op g1 a t1 g2 bs t2 g3 hg0 hg1 ha hg2 hb hg3 hl =>
      cases (show g3 = [] from hg3)
      simp only [paren, List.length_append, List.length_cons] at hn
      have ha := el a t1 (by omega) ha
      have hb : Items (Elem parseFExp) bs t2 := hb.mono fun a t h hl => el a t (by omega) h
      simp only [paren_append, List.append_assoc, List.append_nil]
      rw [alt_miss (map_err (parseNumber_open _)),
        alt_miss (map_err (bin_miss_mul parseFExp_cw hg0 hg1 ha hg2 hb hl))]
      exact alt_hit (map_run (a := (op, a, bs)) (mul_run hg0 hg1 ha hg2 hb parseFExp_close))

theorem FExpW.acc {e : FExp} {t : List Char} (h : FExpW .strict e t) : Acc parseFExp Stop e t :=
  FExpW.acc_aux _ e t (Nat.le_refl _) h

theorem FExpW.elem {e : FExp} {t : List Char} (h : FExpW .strict e t) : Elem parseFExp e t :=
  ⟨h.acc, h.solid⟩

/-! ## `FExpDa` -/

theorem duration_miss {s : List Char} (h : ∀ r, s ≠ '?' :: r) : tag c!"?duration" s = .err := by
  refine tag_err ?_
  cases s with
  | nil => rfl
  | cons c r => exact stripPrefix_head fun hc => h r (by rw [hc])

theorem parseFExpDa_close (s : List Char) : parseFExpDa (')' :: s) = .err := by
  rw [parseFExpDa_eq, fExpDaBody,
    alt_miss (map_err (duration_miss fun r h => by cases h)),
    alt_miss (map_err (parens_head (by decide) (by decide))),
    alt_miss (map_err (parens_head (by decide) (by decide))),
    alt_miss (map_err (parens_head (by decide) (by decide))),
    alt_miss (map_err (parseFExp_close s)), alt_nil]

theorem parens_skipC {p : P α} (s : List Char) : parens p (skipC s) = parens p s := Ct.parens s

theorem parseFExp_var (s : List Char) : parseFExp ('?' :: s) = .err := by
  have h4 : parseFHead ('?' :: s) = .err := by
    have h4 : parseFunctionSymbol ('?' :: s) = .err :=
      parseName_err_cons (.cons (by decide) (by decide) s) (by decide)
    rw [parseFHead, alt_miss (map_err h4), alt_miss (map_err (parens_head (by decide) (by decide))),
      alt_miss (map_err (parens_head (by decide) (by decide))), alt_nil]
  rw [parseFExp_eq, fExpBody, alt_miss (map_err (parseNumber_err fun c r h => by cases h; decide)),
    alt_miss (map_err (parens_head (by decide) (by decide))),
    alt_miss (map_err (parens_head (by decide) (by decide))),
    alt_miss (map_err (parens_head (by decide) (by decide))),
    alt_miss (map_err h4), alt_nil]

theorem parseFExpDa_cw : Cw parseFExpDa := by
  refine .of_ne fun s v y hy h => ?_
  rw [parseFExpDa_eq, fExpDaBody] at h ⊢
  have h0 : tag c!"?duration" (';' :: s) = .err := duration_miss fun r h => by cases h
  rw [alt_miss (map_err h0)]
  simp only [alt, map] at h ⊢
  simp only [parens_skipC] at h
  have hw := parseFExp_cw (';' :: s)
  have hq : ∀ x, skipC (';' :: s) = '?' :: x → parens (pair parseBinaryOp
      (pair (preceded multispace1 parseFExpDa) (preceded multispace1 parseFExpDa))) (';' :: s) = .err ∧
      parens (pair parseMultiOp (pair (preceded multispace1 parseFExpDa)
        (preceded multispace1 (spaceSeparatedList1 parseFExpDa)))) (';' :: s) = .err ∧
      parens (preceded (pair (char '-') multispace0) parseFExpDa) (';' :: s) = .err := by
    intro x hx
    rw [← parens_skipC, ← parens_skipC (p := pair parseMultiOp _),
      ← parens_skipC (p := preceded _ parseFExpDa), hx]
    exact ⟨parens_head (by decide) (by decide), parens_head (by decide) (by decide),
      parens_head (by decide) (by decide)⟩
  revert h
  cases ht : tag c!"?duration" (skipC (';' :: s)) with
  | ok t r =>
    intro h
    have hx : ∃ x, skipC (';' :: s) = '?' :: x := by
      cases hs : skipC (';' :: s) with
      | nil => rw [hs] at ht; cases ht
      | cons c x =>
        by_cases hc : c = '?'
        · exact ⟨x, by rw [hc]⟩
        · rw [hs, duration_miss fun r h => by cases h; exact hc rfl] at ht
          cases ht
    obtain ⟨x, hx⟩ := hx
    obtain ⟨h1, h2, h3⟩ := hq x hx
    left
    rw [h1, h2, h3]
    simp only [Res.bind]
    have h4 : parseFExp (';' :: s) = .err := by
      rw [parseFExp_eq, fExpBody, alt_miss (map_err (parseNumber_semi s)),
        ← Ct.alt_cons (.map .parens) (.alt_cons (.map .parens) (.alt_cons (.map .parens)
        (.alt_one (.map parseFHead_ct)))), hx]
      have h5 := parseFExp_var x
      rw [parseFExp_eq, fExpBody,
        alt_miss (map_err (parseNumber_err fun c r h => by cases h; decide))] at h5
      exact h5
    rw [h4]
  | err =>
    simp only [Res.bind]
    generalize parens (pair parseBinaryOp _) (';' :: s) = e1
    generalize parens (pair parseMultiOp _) (';' :: s) = e2
    generalize parens (preceded _ parseFExpDa) (';' :: s) = e3
    cases e1 with
    | ok a r => intro h; right; exact ⟨v, h⟩
    | err =>
      cases e2 with
      | ok a r => intro h; right; exact ⟨v, h⟩
      | err =>
        cases e3 with
        | ok a r => intro h; right; exact ⟨v, h⟩
        | err =>
          cases hf : parseFExp (skipC (';' :: s)) with
          | ok a r =>
            intro h
            cases h
            rcases hw a y hy hf with h | ⟨v', h⟩
            · left; rw [h]
            · right; rw [h]; exact ⟨_, rfl⟩
          | _ => intro h; cases h
        | _ => intro h; cases h
      | _ => intro h; cases h
    | _ => intro h; cases h
  | fail => intro h; cases h
  | panic => intro h; cases h
  | oof => intro h; cases h

theorem FExpDaW.solid {m : Mode} {e : FExpDa} {t : List Char} (h : FExpDaW m e t) : Solid t := by
  cases h with
  | duration => exact .cons (by decide) (by decide) _
  | fExp h => exact h.solid
  | negative => exact solid_paren _
  | binaryOp => exact solid_paren _
  | multiOp => exact solid_paren _

theorem duration_open (s : List Char) : tag c!"?duration" ('(' :: s) = .err :=
  duration_miss fun r h => by cases h

theorem FExpDaW.acc_aux (n : Nat) :
    ∀ e t, t.length ≤ n → FExpDaW .strict e t → Acc parseFExpDa Stop e t := by
  induction n with
  | zero =>
    intro v t hn h
    obtain ⟨c, r, rfl, _⟩ := h.solid
    simp at hn
  | succ n ih =>
    have el : ∀ e t, t.length ≤ n → FExpDaW .strict e t → Elem parseFExpDa e t :=
      fun e t hl h => ⟨ih e t hl h, h.solid⟩
    intro v t hn h r hr
    rw [parseFExpDa_eq, fExpDaBody]
    cases h with
    | duration => exact alt_hit (map_run (tag_ok c!"?duration" r))
    | fExp he hs =>
      have hs := hs rfl
      cases he with
      | number h =>
        obtain ⟨m1, m2, m3⟩ := num_op_miss (self := parseFExpDa) h r
        have m0 : tag c!"?duration" (t ++ r) = .err := by
          obtain ⟨c, cs, rfl, hc⟩ := h.head
          refine duration_miss fun r h => ?_
          cases h
          exact absurd hc (by decide)
        rw [alt_miss (map_err m0), alt_miss (map_err m1), alt_miss (map_err m2), alt_miss (map_err m3)]
        exact alt_hit (map_run ((FExpW.number h).acc r hr))
      | function h =>
        obtain ⟨m1, m2, m3, _⟩ := fhead_op_miss (self := parseFExpDa) h r
        have m0 : tag c!"?duration" (t ++ r) = .err := by
          obtain ⟨c, cs, rfl, hc⟩ := h.head
          refine duration_miss fun r h => ?_
          cases h
          rcases hc with hc | hc
          · cases hc
          · exact absurd hc (by decide)
        rw [alt_miss (map_err m0), alt_miss (map_err m1), alt_miss (map_err m2), alt_miss (map_err m3)]
        exact alt_hit (map_run ((FExpW.function h).acc r hr))
      | negative => exact hs.elim
      | binaryOp => exact hs.elim
      | multiOp => exact hs.elim
    | @negative g0 g e t g' hg0 hg he hg' =>
      cases (show g' = [] from hg')
      simp only [paren, List.length_append, List.length_cons] at hn
      have he := el e t (by omega) he
      simp only [paren_append, List.append_assoc, List.append_nil]
      rw [alt_miss (map_err (duration_open _)), alt_miss (map_err (bin_miss_neg hg0 hg he)),
        alt_miss (map_err (mul_miss_neg hg0))]
      exact alt_hit (map_run (neg_run hg0 hg he))
    | @binaryOp g0 op g1 a t1 g2 b t2 g3 hg0 hg1 ha hg2 hb hg3 =>
      cases (show g3 = [] from hg3)
      simp only [paren, List.length_append, List.length_cons] at hn
      have ha := el a t1 (by omega) ha
      have hb := el b t2 (by omega) hb
      simp only [paren_append, List.append_assoc, List.append_nil]
      rw [alt_miss (map_err (duration_open _))]
      exact alt_hit (map_run (a := (op, a, b)) (bin_run hg0 hg1 ha hg2 hb))
    | @multiOp g0 op g1 a t1 g2 bs t2 g3 hg0 hg1 ha hg2 hb hg3 hl =>
      cases (show g3 = [] from hg3)
      simp only [paren, List.length_append, List.length_cons] at hn
      have ha := el a t1 (by omega) ha
      have hb : Items (Elem parseFExpDa) bs t2 := hb.mono fun a t h hl => el a t (by omega) h
      simp only [paren_append, List.append_assoc, List.append_nil]
      rw [alt_miss (map_err (duration_open _)),
        alt_miss (map_err (bin_miss_mul parseFExpDa_cw hg0 hg1 ha hg2 hb hl))]
      exact alt_hit (map_run (a := (op, a, bs)) (mul_run hg0 hg1 ha hg2 hb parseFExpDa_close))

theorem FExpDaW.acc {e : FExpDa} {t : List Char} (h : FExpDaW .strict e t) : Acc parseFExpDa Stop e t :=
  FExpDaW.acc_aux _ e t (Nat.le_refl _) h

theorem FExpDaW.elem {e : FExpDa} {t : List Char} (h : FExpDaW .strict e t) : Elem parseFExpDa e t :=
  ⟨h.acc, h.solid⟩

/-! ## Continuous change and comparisons -/

theorem FExpW.head {m : Mode} {e : FExp} {t : List Char} (H : FExpW m e t) :
    ∃ c y, t = c :: y ∧ (c = '(' ∨ isAlpha c = true ∨ isDigit c = true) := by
  cases H with
  | number h => obtain ⟨c, y, rfl, hc⟩ := h.head; exact ⟨c, y, rfl, .inr (.inr hc)⟩
  | function h =>
    obtain ⟨c, y, rfl, hc⟩ := h.head
    exact ⟨c, y, rfl, hc.imp_right .inl⟩
  | negative => exact ⟨_, _, rfl, .inl rfl⟩
  | binaryOp => exact ⟨_, _, rfl, .inl rfl⟩
  | multiOp => exact ⟨_, _, rfl, .inl rfl⟩

theorem FExpTW.solid {m : Mode} {e : FExpT} {t : List Char} (h : FExpTW m e t) : Solid t := by
  cases h with
  | now => exact .cons (by decide) (by decide) _
  | left => exact solid_paren _
  | right => exact solid_paren _

theorem FExpTW.acc {e : FExpT} {t : List Char} (h : FExpTW .strict e t) : Acc parseFExpT Any e t := by
  intro r _
  rw [parseFExpT]
  cases h with
  | now =>
    have h : prefixExpr c!"*" (alt [
        preceded (pair (tag c!"#t") multispace1) parseFExp,
        terminated parseFExp (pair multispace1 (tag c!"#t"))]) (c!"#t" ++ r) = .err :=
      prefixExpr_head (.cons (by decide) (by decide) _) (by decide)
    rw [alt_miss (map_err h)]
    exact alt_hit (map_run (tag_ok c!"#t" r))
  | @left g0 g1 e t g2 hg0 hg1 he hg2 =>
    simp only [paren_append, List.append_assoc]
    have hs : Solid (c!"#t" ++ (g1 ++ (t ++ (g2 ++ ')' :: r)))) := .cons (by decide) (by decide) _
    refine alt_hit (map_run (prefixExpr_run (y := g2 ++ ')' :: r) ?_ (hg2.skip_solid (solid_close r))))
    rw [hg0.skip_solid hs]
    obtain ⟨x, hx⟩ := ms1_sp (show Sp g1 from hg1) (he.solid.append (g2 ++ ')' :: r))
    refine alt_hit ((preceded_run (pair_run (tag_ok c!"#t" _) hx)).trans ?_)
    exact he.acc _ (.gap hg2 (.close r))
  | @right g0 g1 e t g2 hg0 he hg1 hg2 =>
    simp only [paren_append, List.append_assoc]
    have hs : Solid (c!"#t" ++ (g2 ++ ')' :: r)) := .cons (by decide) (by decide) _
    refine alt_hit (map_run (prefixExpr_run (y := g2 ++ ')' :: r) ?_ (hg2.skip_solid (solid_close r))))
    rw [hg0.skip_solid (he.solid.append _)]
    have hm : tag c!"#t" (t ++ (g1 ++ (c!"#t" ++ (g2 ++ ')' :: r)))) = .err := by
      obtain ⟨c, y, rfl, hc⟩ := he.head
      refine tag_err (stripPrefix_head ?_)
      rintro rfl
      rcases hc with hc | hc | hc
      · cases hc
      · exact absurd hc (by decide)
      · exact absurd hc (by decide)
    rw [alt_miss (preceded_err (pair_err hm))]
    obtain ⟨x, hx⟩ := ms1_sp hg1 hs
    exact alt_hit (terminated_run (he.acc _ (.sp hg1 _)) (pair_run hx (tag_ok c!"#t" _)))

theorem BinaryComp.spell_solid (op : BinaryComp) : Solid op.spell := by
  cases op <;> exact .cons (by decide) (by decide) _

theorem parseBinaryComp_spell (op : BinaryComp) {r : List Char} (hr : ∀ r', r ≠ '=' :: r') :
    parseBinaryComp (op.spell ++ r) = .ok op r := by
  have := C41_binaryComp.complete op r fun _ => hr
  cases op <;> exact this

theorem FCompW.solid {m : Mode} {c : FComp} {t : List Char} (h : FCompW m c t) : Solid t := by
  cases h; exact solid_paren _

theorem FCompW.acc {c : FComp} {t : List Char} (h : FCompW .strict c t) : Acc parseFComp Any c t := by
  intro r _
  cases h with
  | @mk g0 op g1 a t1 g2 b t2 g3 hg0 hg1 ha hg2 hb hg3 =>
    cases (show g3 = [] from hg3)
    simp only [paren_append, List.append_assoc, List.nil_append]
    refine map_run (a := (op, a, b)) (parens_run ?_)
    rw [hg0.skip_solid (op.spell_solid.append _)]
    refine pair_run (parseBinaryComp_spell op ?_) (pair_run (r := g2 ++ (t2 ++ ')' :: r)) ?_ ?_)
    · intro r' h
      obtain ⟨c, y, rfl, hc⟩ := sep_head (show Sp g1 from hg1).sep
      cases h
      exact absurd hc (by decide)
    · rw [pms1_sp hg1 (ha.solid.append _)]
      exact ha.acc _ (.sp hg2 _)
    · rw [pms1_sp hg2 (hb.solid.append _)]
      exact hb.acc _ (.close r)

/-! ## Numeric expressions as terms -/

theorem FHeadW.term {h : FHead} {t : List Char} (H : FHeadW .strict h t) :
    ∃ v, TermW .strict v t := by
  cases H with
  | bare h => exact ⟨_, .name h⟩
  | @simple g f t g' hg hf hg' =>
    cases (show g' = [] from hg')
    exact ⟨.fn f [], .fn hg hf (.nil .nil)⟩
  | @terms g f t ts u hg hf h _ => exact ⟨.fn f ts, .fn hg hf h⟩

theorem functionTermOf_open {p : P Term} {x : List Char} (h : parseName x = .err) :
    functionTermOf p ('(' :: x) = .err := by
  refine map_err ((preceded_run (tag_ok c!"(" x)).trans (terminated_err (pair_err ?_)))
  exact h

theorem parseTerm_open {x : List Char} (h : parseName x = .err) : parseTerm ('(' :: x) = .err := by
  rw [parseTerm_eq, termBody]
  refine (ifOk_miss (parseVariable_open _)).trans ((ifOk_miss (parseName_open _)).trans ?_)
  exact ifOk_miss (functionTermOf_open h)

/-- A text that begins, after layout, with something solid other than a letter is no name. -/
theorem parseName_gap_err {g x : List Char} {c : Char} (hg : Gap g) (hs : Solid (c :: x))
    (hc : isAlpha c = false) : parseName (g ++ c :: x) = .err :=
  parseName_err fun d r h => by
    rw [hg.skip_solid hs] at h
    cases h
    exact hc

theorem BinaryOp.spell_cons (op : BinaryOp) :
    ∃ c y, op.spell = c :: y ∧ isAlpha c = false ∧ isSpace c = false ∧ c ≠ ';' := by
  cases op <;> exact ⟨_, _, rfl, by decide, by decide, by decide⟩

theorem MultiOp.spell_cons (op : MultiOp) :
    ∃ c y, op.spell = c :: y ∧ isAlpha c = false ∧ isSpace c = false ∧ c ≠ ';' := by
  cases op <;> exact ⟨_, _, rfl, by decide, by decide, by decide⟩

/-- Operator forms and numbers are no terms. -/
theorem FExpW.no_term {m : Mode} {e : FExp} {t : List Char} (H : FExpW m e t) (he : ¬ e.isFunction)
    (r : List Char) : parseTerm (t ++ r) = .err := by
  cases H with
  | number h =>
    obtain ⟨c, y, rfl, hc⟩ := h.head
    have h1 := isDigit_solid hc
    refine parseTerm_err (.cons h1.1 h1.2 _) ?_ ?_ ?_
    · cases h : isAlpha c with
      | false => rfl
      | true =>
        simp only [isAlpha, isDigit, Bool.or_eq_true, Bool.and_eq_true, decide_eq_true_eq] at h hc
        omega
    · rintro rfl; exact absurd hc (by decide)
    · rintro rfl; exact absurd hc (by decide)
  | function => exact absurd trivial he
  | negative hg0 =>
    simp only [paren_append, List.append_assoc]
    exact parseTerm_open (parseName_gap_err hg0 (solid_dash _) (by decide))
  | @binaryOp g0 op _ _ _ _ _ _ _ hg0 =>
    obtain ⟨c, y, h, h1, h2, h3⟩ := op.spell_cons
    simp only [paren_append, List.append_assoc, h, List.cons_append]
    exact parseTerm_open (parseName_gap_err hg0 (.cons h2 h3 _) h1)
  | @multiOp g0 op _ _ _ _ _ _ _ hg0 =>
    obtain ⟨c, y, h, h1, h2, h3⟩ := op.spell_cons
    simp only [paren_append, List.append_assoc, h, List.cons_append]
    exact parseTerm_open (parseName_gap_err hg0 (.cons h2 h3 _) h1)

theorem BinaryComp.spell_cons (op : BinaryComp) :
    ∃ c y, op.spell = c :: y ∧ isAlpha c = false ∧ isSpace c = false ∧ c ≠ ';' ∧
      (op ≠ .eq → c ≠ '=') ∧ (op = .eq → y = []) := by
  cases op <;> exact ⟨_, _, rfl, by decide, by decide, by decide, by decide, by decide⟩

/-- A comparison is no atom, except an equation between fluents. -/
theorem FCompW.no_atom {c : FComp} {t : List Char} (h : FCompW .strict c t)
    (hq : c.comp = .eq → ¬ (c.first.isFunction ∧ c.second.isFunction)) (r : List Char) :
    atomicFormula parseTerm (t ++ r) = .err := by
  cases h with
  | @mk g0 op g1 a t1 g2 b t2 g3 hg0 hg1 ha hg2 hb hg3 =>
    cases (show g3 = [] from hg3)
    obtain ⟨k, y, hk, h1, h2, h3, h4, h5⟩ := op.spell_cons
    have e1 : parens (pair parsePredicate (ws (spaceSeparatedList0 parseTerm)))
        (paren (g0 ++ (op.spell ++ (g1 ++ (t1 ++ (g2 ++ (t2 ++ [])))))) ++ r) = .err := by
      simp only [paren_append, List.append_assoc]
      refine parens_err (pair_err ?_)
      rw [hg0.skip_solid (op.spell_solid.append _), hk, List.cons_append]
      exact parseName_err_cons (.cons h2 h3 _) h1
    have e2 : delimited (ws (tag c!"(=")) (pair (ws parseTerm) (ws parseTerm)) (ws (char ')'))
        (paren (g0 ++ (op.spell ++ (g1 ++ (t1 ++ (g2 ++ (t2 ++ [])))))) ++ r) = .err := by
      simp only [paren_append, List.append_assoc, List.nil_append]
      by_cases hx : ∃ z, g0 ++ (op.spell ++ (g1 ++ (t1 ++ (g2 ++ (t2 ++ ')' :: r))))) = '=' :: z
      · have hop : op = .eq := by
          refine Classical.byContradiction fun hop => ?_
          obtain ⟨z, hz⟩ := hx
          cases hg0 with
          | nil => rw [hk] at hz; cases hz; exact h4 hop rfl
          | space hc => cases hz; exact absurd hc (by decide)
          | comment => cases hz
        have hg : g0 = [] := by
          obtain ⟨z, hz⟩ := hx
          cases hg0 with
          | nil => rfl
          | space hc => cases hz; exact absurd hc (by decide)
          | comment => cases hz
        subst hop hg
        have hq := hq rfl
        have e0 : ws (tag c!"(=") ('(' :: '=' :: (g1 ++ (t1 ++ (g2 ++ (t2 ++ ')' :: r))))) =
            .ok c!"(=" (g1 ++ (t1 ++ (g2 ++ (t2 ++ ')' :: r)))) := by
          rw [ws_eq, (solid_open _).skip]
          exact tag_ok c!"(=" _
        refine (preceded_run e0).trans (terminated_err ?_)
        have hg1' := (show Sp g1 from hg1).sep.gap
        have hg2' := (show Sp g2 from hg2).sep.gap
        by_cases hfa : a.isFunction
        · have hfb : ¬ b.isFunction := fun h => hq ⟨hfa, h⟩
          cases ha with
          | function hh =>
            obtain ⟨v, hv⟩ := hh.term
            refine pair_err2 (a := v) (r := g2 ++ (t2 ++ ')' :: r)) ?_ ?_
            · rw [ws_eq, hg1'.skip_solid (hh.solid.append _)]
              exact hv.acc _ (.sp hg2 _)
            · rw [ws_eq, hg2'.skip_solid (hb.solid.append _)]
              exact hb.no_term hfb _
          | _ => exact hfa.elim
        · refine pair_err ?_
          rw [ws_eq, hg1'.skip_solid (ha.solid.append _)]
          exact ha.no_term hfa _
      · exact eq_miss fun z hz => hx ⟨z, hz⟩
    rw [atomicFormula, alt_miss (map_err e2), alt_miss (map_err e1), alt_nil]

/-- A comparison begins with no keyword. -/
theorem FCompW.kw_miss {m : Mode} {c : FComp} {t kw : List Char} {p : P α} (h : FCompW m c t)
    (hkw : IsWord kw) (r : List Char) : prefixExpr kw p (t ++ r) = .err := by
  cases h with
  | @mk g0 op g1 a t1 g2 b t2 g3 hg0 =>
    obtain ⟨k, y, hk, h1, h2, h3, _⟩ := op.spell_cons
    obtain ⟨w, ws, rfl, hw, _⟩ := hkw
    have hs := isAlpha_solid hw
    simp only [paren_append, List.append_assoc, hk]
    cases hg0 with
    | nil =>
      refine prefixExpr_kw (stripPrefix_head ?_)
      rintro rfl
      exact absurd (hw.symm.trans h1) (by decide)
    | space hc =>
      refine prefixExpr_kw (stripPrefix_head ?_)
      rintro rfl
      exact absurd (hs.1.symm.trans hc) (by decide)
    | comment => exact prefixExpr_kw (stripPrefix_head hs.2)

end Pddl
