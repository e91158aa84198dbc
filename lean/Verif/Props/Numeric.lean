import Verif.Meta.ArithX
import Verif.Props.Compose

/-!
# C77: the exact texts of numbers and numeric expressions

An equivalence for every text, value and remainder: a parser reads the value and leaves the remainder
if and only if the text before the remainder is one of those described here.
-/

namespace Pddl

/-! ## Numbers -/

/-- What may follow the text `t` of a number: no digit, and if `t` has no point, no point with a digit
after it. -/
def NumEnds (t r : List Char) : Prop :=
  (∀ c r', r = c :: r' → isDec c = false) ∧
    ('.' ∈ t ∨ ∀ d r', r = '.' :: d :: r' → isDec d = false)

theorem fracSplit_none {r : List Char} :
    fracSplit r = none ↔ ∀ d r', r = '.' :: d :: r' → isDec d = false := by
  constructor
  · rintro h d r' rfl
    have hd : ¬ isDec d = true := by
      intro hd
      simp [fracSplit, show isDigit d = true from hd] at h
    simpa using hd
  · intro h
    cases r with
    | nil => rfl
    | cons c r =>
      by_cases hc : c = '.'
      · subst hc
        cases r with
        | nil => rfl
        | cons d r =>
          have : isDigit d = false := h d r rfl
          simp [fracSplit, this]
      · simp [fracSplit, hc]

theorem numSplit_ends {s t r : List Char} (h : numSplit s = some (t, r)) : NumEnds t r := by
  unfold numSplit at h
  split at h
  · cases h
  · cases hf : fracSplit (s.dropWhile isDigit) with
    | none =>
      simp only [hf, Option.some.injEq, Prod.mk.injEq] at h
      rw [← h.1, ← h.2]
      exact ⟨head_dropWhile _ _, .inr (fracSplit_none.mp hf)⟩
    | some x =>
      obtain ⟨fs, r'⟩ := x
      simp only [hf, Option.some.injEq, Prod.mk.injEq] at h
      rw [← h.1, ← h.2]
      cases hx : s.dropWhile isDigit with
      | nil => rw [hx] at hf; cases hf
      | cons c y =>
        rw [hx] at hf
        by_cases hc : c = '.' ∧ y.takeWhile isDigit ≠ []
        · rw [fracSplit, if_pos hc] at hf
          obtain ⟨rfl, rfl⟩ := Prod.mk.inj (Option.some.inj hf)
          exact ⟨head_dropWhile _ _, .inl (by simp)⟩
        · rw [fracSplit, if_neg hc] at hf
          cases hf

theorem digits_no_point {ds : List Char} (h : ∀ c ∈ ds, isDec c = true) : '.' ∉ ds := by
  intro hc
  have := h _ hc
  revert this
  decide

theorem numSplit_ends_text (l : Literal10) {r : List Char} (hr : NumEnds l.text r) :
    numSplit (l.text ++ r) = some (l.text, r) := by
  unfold Literal10.text at hr ⊢
  split at hr <;> rename_i hfne
  · rw [if_pos hfne]
    have hs := takeWhile_digits l.int_digits hr.1
    have hf0 : fracSplit r = none :=
      fracSplit_none.mpr (hr.2.resolve_left (digits_no_point l.int_digits))
    simp only [numSplit, hs.1, hs.2, l.int_ne, if_false, hf0]
  · rw [if_neg hfne]
    have hs := takeWhile_digits (r := '.' :: l.frac ++ r) l.int_digits (by
      intro c r' h; simp at h; rw [← h.1]; decide)
    have hs2 := takeWhile_digits l.frac_digits hr.1
    have hf0 : fracSplit ('.' :: l.frac ++ r) = some ('.' :: l.frac, r) := by
      simp [fracSplit, hs2.1, hs2.2, hfne]
    rw [List.append_assoc]
    simp only [numSplit, hs.1, hs.2, l.int_ne, if_false, hf0]

/-- C77, numbers: digits with an optional fraction whose value is in range, taken as long as
possible. The value is the nearest representable one. No layout is skipped. -/
theorem C77_numbers (s : List Char) (n : Number) (r : List Char) :
    parseNumber s = .ok n r ↔ ∃ t, s = t ++ r ∧ NumW n t ∧ NumEnds t r := by
  constructor
  · intro h
    obtain ⟨g, t, h1, hg, ht⟩ := parseNumber_snd s n r h trivial
    obtain rfl := hg
    refine ⟨t, h1, ht, ?_⟩
    rw [parseNumber_eq] at h
    cases hx : numSplit s with
    | none => rw [hx] at h; cases h
    | some x =>
      obtain ⟨t', r'⟩ := x
      rw [hx] at h
      have hr : r' = r := by
        dsimp only at h
        cases hn : Number.new (floatOf t') with
        | none => rw [hn] at h; cases h
        | some m =>
          rw [hn] at h
          cases h
          rfl
      subst hr
      have ht' := (numSplit_spec hx).1
      rw [h1] at ht'
      have : t = t' := by simpa using ht'
      subst this
      exact numSplit_ends hx
  · rintro ⟨t, rfl, h, hr⟩
    obtain ⟨l, rfl, hv, hf⟩ := numW_iff.mp h
    rw [parseNumber_eq, numSplit_ends_text l hr]
    dsimp only
    have : Number.new (floatOf l.text) = some n := by
      rw [floatOf_text, ← hv, Number.new, if_pos hf]
    rw [this, numRes]

example : ∃ t, c!"1.5.2)" = t ++ c!".2)" ∧ NumW ⟨⟨0x3fc00000⟩⟩ t ∧ NumEnds t c!".2)" :=
  (C77_numbers _ _ _).mp (by decide +kernel)

example : ¬ NumEnds c!"1" c!".5)" := fun h => by
  rcases h.2 with h | h
  · exact absurd h (by decide)
  · exact absurd (h '5' c!")" rfl) (by decide)

theorem Stop.numEnds {t r : List Char} (h : Stop r) : NumEnds t r := by
  have := h.num
  refine ⟨fun c r' e => (this c r' e).1, .inr ?_⟩
  rintro d r' rfl
  exact absurd rfl (this _ _ rfl).2

/-! ## Function heads -/

/-- The texts of a function head: a name, or a name in parentheses, with layout allowed before it, or
a name with arguments in parentheses. At least one blank follows the name then, after which there may
be no arguments at all. -/
inductive FHeadX : FHead → List Char → Prop
  | name {n t} : NameW n t → FHeadX (.simple n) t
  | paren {g n t} : Gap g → NameW n t → FHeadX (.simple n) (Pddl.paren (g ++ t))
  | terms {g n t b ts u} : Gap g → NameW n t → Sp b → Sec Gap (· = []) (Items TermX) ts u →
      FHeadX (.withTerms n ts) (Pddl.paren (g ++ (t ++ (b ++ u))))

/-- Layout that is skipped before a name, or before a parenthesis. -/
def HeadLead (t g : List Char) : Prop := Gap g ∧ ((∃ x, t = '(' :: x) → GapC g)

/-- What may follow a name, or a parenthesis. -/
def HeadEnds (t r : List Char) : Prop := (∃ x, t = '(' :: x) ∨ NoWord r

theorem NameW.not_open {n : Name} {t : List Char} (h : NameW n t) : ¬ ∃ x, t = '(' :: x := by
  rintro ⟨x, rfl⟩
  obtain ⟨c, r, e, hc, _⟩ := h.1
  cases e
  exact absurd hc (by decide)

theorem FHeadX.solid {h : FHead} {t : List Char} (H : FHeadX h t) : Solid t := by
  cases H with
  | name h => exact h.1.solid
  | _ => exact solid_paren _

/-- A name with a list of arguments after a blank, up to the closing parenthesis. -/
theorem head_terms_inv {p : P α} {R : α → List Char → Prop} (h : Snd Any Gap p R) (hR : NonE R)
    {s : List Char} {n : Name} {as : List α} {r : List Char}
    (hs : pair parseName (preceded multispace1 (spaceSeparatedList0 p)) s = .ok (n, as) (')' :: r)) :
    ∃ g t b u, s = g ++ (t ++ (b ++ (u ++ ')' :: r))) ∧ Gap g ∧ NameW n t ∧ Sp b ∧
      Sec Gap (· = []) (Items R) as u := by
  obtain ⟨r1, h1, h2⟩ := pair_ok hs
  obtain ⟨g, t, h3, hg, ht, rfl, _⟩ := (C04_name_iff _ _ _).mp h1
  obtain ⟨b, y, rfl, hb, _, h4⟩ := pms1_inv h2
  obtain ⟨g', u, rfl, hg', hu⟩ := list0_exact h hR _ _ _ h4 (by simp [NE])
  cases hg'
  exact ⟨g, t, b, u, h3, hg, ⟨ht, rfl⟩, hb, hu⟩

theorem head_terms_run {p : P α} {R : α → List Char → Prop} {g t b u : List Char} {n : Name}
    {as : List α} (hg : Gap g) (hn : NameW n t) (hb : Sp b) (h : Sec Gap (· = []) (Items R) as u)
    (hE : ∀ a t', R a t' → Elem p a t') (hp : ∀ x, p (')' :: x) = .err) (r : List Char) :
    pair parseName (preceded multispace1 (spaceSeparatedList0 p)) (g ++ (t ++ (b ++ (u ++ ')' :: r)))) =
      .ok (n, as) (')' :: r) := by
  refine pair_run ((C04_name_iff _ _ _).mpr ⟨g, t, rfl, hg, hn.1, hn.2, (Stop.sp hb _).word⟩) ?_
  obtain ⟨y, h1, _, h3⟩ := list0_sec (p := p) (h.mono fun t h _ => h.mono fun a t' h _ => hE a t' h)
    (fun _ h => h) (fun _ h => by subst h; exact .nil) hp r
  cases h3 fun _ h => h
  have : ∃ g' z, u ++ ')' :: r = g' ++ z ∧ Gap g' ∧ Solid z := by
    cases h with
    | nil hg => exact ⟨u, _, rfl, hg, solid_close r⟩
    | @cons g' xs t' e hs hi he =>
      refine ⟨g', t' ++ (e ++ ')' :: r), by simp, hs, Solid.append ?_ _⟩
      cases hi with
      | one h => exact (hE _ _ h).2
      | cons h => exact (hE _ _ h).2.append _
  obtain ⟨g', z, e, hg', hz⟩ := this
  rw [e] at h1 ⊢
  rw [← List.append_assoc, pms1_sep Ct.spaceSeparatedList0 (hb.sep.append hg') hz]
  rwa [← list0_skip, hg'.skip_solid hz] at h1

theorem parens_headLead {p : P α} {g x : List Char} (h : HeadLead ('(' :: x) g) (r : List Char) :
    parens p (g ++ ('(' :: x ++ r)) = parens p ('(' :: x ++ r) := parens_gapC (h.2 ⟨x, rfl⟩) _

/-- C77, function heads. -/
theorem C77_function_heads (s : List Char) (h : FHead) (r : List Char) :
    parseFHead s = .ok h r ↔ ∃ g t, s = g ++ (t ++ r) ∧ HeadLead t g ∧ FHeadX h t ∧ HeadEnds t r := by
  constructor
  · intro hs
    unfold parseFHead at hs
    rcases alt_inv hs with hs | ⟨_, hs⟩
    · obtain ⟨n, h1, rfl⟩ := map_ok hs
      obtain ⟨g, t, h3, hg, ht, rfl, hr⟩ := (C04_name_iff _ _ _).mp h1
      have hn : NameW _ t := ⟨ht, rfl⟩
      exact ⟨g, t, h3, ⟨hg, fun h => absurd h hn.not_open⟩, .name hn, .inr hr⟩
    rcases alt_inv hs with hs | ⟨_, hs⟩
    · obtain ⟨n, h1, rfl⟩ := map_ok hs
      obtain ⟨g0, x, rfl, hg0, h2⟩ := parens_invC h1
      obtain ⟨g, t, h3, hg, ht, rfl, _⟩ := (C04_name_iff _ _ _).mp h2
      obtain ⟨g', h4, hg'⟩ := skip_gap (s := x) (by rw [h3]; simp [ht.solid.ne])
      rw [h3] at h4
      subst h4
      exact ⟨g0, paren ((g' ++ g) ++ t), by simp [paren], ⟨hg0.1, fun _ => hg0⟩,
        .paren (hg'.append hg) ⟨ht, rfl⟩, .inl ⟨_, rfl⟩⟩
    rcases alt_inv hs with hs | ⟨_, hs⟩
    · obtain ⟨⟨n, ts⟩, h1, rfl⟩ := map_ok hs
      obtain ⟨g0, x, rfl, hg0, h2⟩ := parens_invC h1
      obtain ⟨g, t, b, u, h3, hg, hn, hb, hu⟩ := head_terms_inv parseTerm_exact.snd parseTerm_exact.nonE h2
      obtain ⟨g', h4, hg'⟩ := skip_gap (s := x) (by rw [h3]; simp)
      rw [h3] at h4
      subst h4
      exact ⟨g0, paren ((g' ++ g) ++ (t ++ (b ++ u))), by simp [paren], ⟨hg0.1, fun _ => hg0⟩,
        .terms (hg'.append hg) hn hb hu, .inl ⟨_, rfl⟩⟩
    cases hs
  · rintro ⟨g0, t, rfl, hg0, h, hr⟩
    unfold parseFHead
    cases h with
    | name hn =>
      refine alt_hit (map_run ((C04_name_iff _ _ _).mpr ⟨g0, t, rfl, hg0.1, hn.1, hn.2, ?_⟩))
      exact hr.resolve_left hn.not_open
    | @paren g n t hg hn =>
      have e : g0 ++ (paren (g ++ t) ++ r) = g0 ++ '(' :: (g ++ (t ++ ')' :: r)) := by simp [paren]
      have hg0 := hg0.2 ⟨_, rfl⟩
      rw [e, alt_miss (map_err (f := FHead.simple) (p := parseFunctionSymbol)
        (parseName_gap_err hg0.1 (solid_open _) (by decide)))]
      refine alt_hit (map_run ?_)
      rw [parens_gapC hg0]
      refine parens_run ?_
      rw [hg.skip_solid (hn.solid.append _)]
      exact hn.acc _ (.close r)
    | @terms g n t b ts u hg hn hb hu =>
      have e : g0 ++ (paren (g ++ (t ++ (b ++ u))) ++ r) =
          g0 ++ '(' :: (g ++ (t ++ (b ++ (u ++ ')' :: r)))) := by simp [paren]
      have hg0 := hg0.2 ⟨_, rfl⟩
      rw [e, alt_miss (map_err (f := FHead.simple) (p := parseFunctionSymbol)
        (parseName_gap_err hg0.1 (solid_open _) (by decide))), alt_miss, alt_hit]
      · refine map_run (a := (n, ts)) ?_
        rw [parens_gapC hg0]
        refine parens_run ?_
        rw [hg.skip_solid (hn.solid.append _)]
        exact head_terms_run (g := []) .nil hn hb hu (fun _ _ h => parseTerm_exact.elem h)
          parseTerm_exact.close r
      · refine map_err ?_
        rw [parens_gapC hg0]
        refine parens_tail (v := n) (y := b ++ (u ++ ')' :: r)) ?_ ?_
        · rw [hg.skip_solid (hn.solid.append _)]
          exact hn.acc _ (.sp hb _)
        · intro x hx
          obtain ⟨c, y, rfl, hc⟩ := sep_head hb.sep
          cases hx
          exact absurd hc (by decide)

example : parseFHead c!"(f ?x y)z" = .ok (.withTerms (Name.new c!"f") [.var (Name.new c!"x"),
    .name (Name.new c!"y")]) c!"z" := rfl

/-- A blank behind the symbol makes a list of terms, and the list may be empty. -/
example : parseFHead c!"(f )" = .ok (.withTerms (Name.new c!"f") []) [] :=
  (C77_function_heads _ _ _).mpr ⟨[], c!"(f )", rfl, ⟨.nil, fun _ => gapC_nil⟩,
    .terms (g := []) (t := c!"f") (b := c!" ") .nil (.of_word ⟨'f', [], rfl, rfl, by simp⟩)
      ⟨by simp, by intro c hc; simp at hc; subst hc; rfl⟩ (.nil .nil), .inl ⟨_, rfl⟩⟩

/-- A blank before the closing parenthesis is not skipped. -/
example : ¬ ∃ v r, parseFHead c!"(f a )" = .ok v r := by
  have h : parseFHead c!"(f a )" = .err := rfl
  rw [h]; rintro ⟨_, _, h⟩; cases h

theorem FHeadX.shape {h : FHead} {t : List Char} (H : FHeadX h t) :
    IsWord t ∨ ∃ g w x, t = '(' :: (g ++ (w ++ x)) ∧ Gap g ∧ IsWord w := by
  cases H with
  | name h => exact .inl h.1
  | paren hg h => exact .inr ⟨_, _, _, by rw [Pddl.paren, List.append_assoc], hg, h.1⟩
  | terms hg h => exact .inr ⟨_, _, _, by rw [Pddl.paren, List.append_assoc, List.append_assoc], hg, h.1⟩

theorem parens_miss {p : P α} {g : List Char} {c : Char} {x : List Char} (hg : Gap g)
    (hs : Solid (c :: x)) (hc : c ≠ '(') : parens p (g ++ c :: x) = .err := by
  rcases gap_cases hg hs with h | h
  · unfold parens
    rw [eolp_eq, h]
    simp [delimited, preceded, char, hc, Res.bind]
  · exact h _ _

/-- The forms with an operator do not read what begins like a function head. -/
theorem head_op_miss {self : P α} {g t : List Char} (hg : Gap g)
    (ht : IsWord t ∨ ∃ g w x, t = '(' :: (g ++ (w ++ x)) ∧ Gap g ∧ IsWord w) (r : List Char) :
    binP self (g ++ (t ++ r)) = .err ∧ mulP self (g ++ (t ++ r)) = .err ∧
      negP self (g ++ (t ++ r)) = .err := by
  rcases ht with ht | ⟨g', w, x, rfl, hg', hw⟩
  · have hs := ht.solid.append r
    obtain ⟨c, cs, rfl, hc, _⟩ := ht
    have hc : c ≠ '(' := by rintro rfl; exact absurd hc (by decide)
    exact ⟨parens_miss hg hs hc, parens_miss hg hs hc, parens_miss hg hs hc⟩
  · have e : '(' :: (g' ++ (w ++ x)) ++ r = '(' :: (g' ++ (w ++ (x ++ r))) := by simp
    rw [e]
    rcases gap_cases hg (solid_open (g' ++ (w ++ (x ++ r)))) with h | h
    · have k {β : Type} (q : P β) : parens q (g ++ '(' :: (g' ++ (w ++ (x ++ r)))) =
          parens q ('(' :: (g' ++ (w ++ (x ++ r)))) := by rw [← parens_skipC, h]
      rw [binP, mulP, negP, k, k, k]
      exact ⟨bin_miss_word hg' hw, mul_miss_word hg' hw, neg_miss_word hg' hw⟩
    · exact ⟨h _ _, h _ _, h _ _⟩

theorem parseNumber_miss {s : List Char} (h : ∀ c x, s = c :: x → isDec c = false) :
    parseNumber s = .err := parseNumber_err h

theorem letter_not_dec {c : Char} (h : isLetter c = true) : isDec c = false := by
  cases hd : isDec c with
  | false => rfl
  | true =>
    simp only [isLetter, isDec, Bool.or_eq_true, Bool.and_eq_true, decide_eq_true_eq] at h hd
    omega

theorem blank_not_dec {c : Char} (h : isBlank c = true) : isDec c = false := by
  cases hd : isDec c with
  | false => rfl
  | true => rw [show isBlank c = false from (isDigit_solid hd).1] at h; cases h

theorem head_not_number {g t : List Char} (hg : Gap g)
    (ht : IsWord t ∨ ∃ g w x, t = '(' :: (g ++ (w ++ x)) ∧ Gap g ∧ IsWord w) (r : List Char) :
    parseNumber (g ++ (t ++ r)) = .err := by
  refine parseNumber_miss fun c x h => ?_
  cases hg with
  | nil =>
    rcases ht with ⟨d, cs, rfl, hd, _⟩ | ⟨g', w, x, rfl, _⟩
    · cases h
      exact letter_not_dec hd
    · cases h
      decide
  | space hc =>
    cases h
    exact blank_not_dec hc
  | comment => cases h; decide

theorem Stop.headEnds {t r : List Char} (h : Stop r) : HeadEnds t r := .inr h.word

/-! ## Numeric expressions -/

/-- A number without layout in front, or a function head. -/
inductive FExpLeaf : List Char → FExp → List Char → Prop
  | number {n t} : NumW n t → FExpLeaf [] (.number n) t
  | function {g h t} : HeadLead t g → FHeadX h t → FExpLeaf g (.function h) t

/-- The texts of a numeric expression, with the layout in front of them. -/
abbrev FExpX : List Char → FExp → List Char → Prop :=
  ArithX FExp.binaryOp FExp.multiOp FExp.negative isDec FExpLeaf

/-- What may follow a numeric expression. -/
def FExpEnds : FExp → List Char → List Char → Prop
  | .number _, t, r => NumEnds t r
  | .function _, t, r => HeadEnds t r
  | _, _, _ => True

theorem digit_gap_miss {g : List Char} {c : Char} {x : List Char} (hc : isDec c = true) (hg : GapC g)
    (hne : g ≠ []) : parseNumber (g ++ c :: x) = .err ∧ parseFHead (g ++ c :: x) = .err ∧
      ∀ {α : Type} (p : P α), parens p (g ++ c :: x) = .err := by
  have hs : Solid (c :: x) := .cons (isDigit_solid hc).1 (isDigit_solid hc).2 x
  have h1 : c ≠ '(' := by rintro rfl; exact absurd hc (by decide)
  have h2 : isAlpha c = false := by
    cases h : isAlpha c with
    | false => rfl
    | true => rw [letter_not_dec h] at hc; cases hc
  have hp : ∀ {α : Type} (p : P α), parens p (g ++ c :: x) = .err := fun p => parens_miss hg.1 hs h1
  refine ⟨parseNumber_miss fun d y h => ?_, ?_, hp⟩
  · cases g with
    | nil => exact absurd rfl hne
    | cons e g =>
      obtain ⟨rfl, -⟩ := List.cons.inj h
      rw [hg.2 _ _ rfl]
      decide
  · rw [parseFHead, alt_miss (map_err (f := FHead.simple) (p := parseFunctionSymbol)
      (parseName_gap_err hg.1 hs h2)), alt_miss (map_err (hp _)), alt_miss (map_err (hp _)), alt_nil]

theorem fExp_arithRun : ArithRun parseFExp (map FExp.number parseNumber) (map FExp.function parseFHead)
    FExp.binaryOp FExp.multiOp FExp.negative isDec FExpLeaf FExpEnds where
  eq := congrFun parseFExp_eq
  good L := parseFExp_good
  pre_err h := map_err (parseNumber_miss h)
  leaf_run {g v t r} h hr := by
    rw [parseFExp_eq]
    cases h with
    | number h => exact alt_hit (map_run ((C77_numbers _ _ _).mpr ⟨t, rfl, h, hr⟩))
    | @function _ h _ hg hh =>
      obtain ⟨h1, h2, h3⟩ := head_op_miss (self := parseFExp) hg.1 hh.shape r
      rw [fExpBody, alt_miss (map_err (head_not_number hg.1 hh.shape r)), alt_miss (map_err h1),
        alt_miss (map_err h2), alt_miss (map_err h3)]
      exact alt_hit (map_run ((C77_function_heads _ _ _).mpr ⟨g, t, rfl, hg, hh, hr⟩))
  leaf_gap h := by
    cases h with
    | number => exact .nil
    | function hg => exact hg.1
  leaf_solid h := by
    cases h with
    | number h => exact h.solid
    | function _ h => exact h.solid
  leaf_lead {g v t} h hg ht := by
    cases h with
    | number h =>
      obtain ⟨c, x, rfl, hc⟩ := h.head
      have := ht c x rfl
      rw [show isDec c = true from hc] at this
      cases this
    | function _ h => exact ⟨_, .function ⟨hg.1, fun _ => hg⟩ h⟩
  tight_err hc hg hne := by
    obtain ⟨h1, h2, h3⟩ := digit_gap_miss hc hg hne
    rw [parseFExp_eq, fExpBody, alt_miss (map_err h1), alt_miss (map_err (h3 _)),
      alt_miss (map_err (h3 _)), alt_miss (map_err (h3 _)), alt_miss (map_err h2), alt_nil]
  tight_open := by decide
  tight_semi := by decide
  close := parseFExp_close
  ends_stop {v t r} h := by
    cases v with
    | number => exact h.numEnds
    | function => exact h.headEnds
    | _ => trivial
  ends_bin := trivial
  ends_mul := trivial
  ends_neg := trivial

theorem fExp_arith : Arith parseFExp (map FExp.number parseNumber) (map FExp.function parseFHead)
    FExp.binaryOp FExp.multiOp FExp.negative isDec FExpLeaf FExpEnds where
  toArithRun := fExp_arithRun
  pre_ok h := by
    obtain ⟨n, h1, rfl⟩ := map_ok h
    obtain ⟨t, h2, h3, h4⟩ := (C77_numbers _ _ _).mp h1
    exact ⟨t, h2, .number h3, h4⟩
  post_ok h _ _ _ := by
    obtain ⟨n, h1, rfl⟩ := map_ok h
    obtain ⟨g, t, h2, h3, h4, h5⟩ := (C77_function_heads _ _ _).mp h1
    exact ⟨g, t, h2, .function h3 h4, h5⟩

/-- C77, numeric expressions. -/
theorem C77_numeric_expressions (s : List Char) (v : FExp) (r : List Char) :
    parseFExp s = .ok v r ↔ ∃ g t, s = g ++ (t ++ r) ∧ FExpX g v t ∧ FExpEnds v t r :=
  fExp_arith.iff s v r

/-- An operator with two operands is read as one with a list of one operand if a comment comes before
a number. -/
example : ∃ n, parseFExp c!"(+ x ;c\n2)" = .ok (.multiOp .add (.function (.simple (Name.new c!"x"))) [.number n]) [] :=
  ⟨Ex.num 2 0, rfl⟩

example : parseFExp c!"(+ x ;c\ny)" = .ok (.binaryOp .add (.function (.simple (Name.new c!"x")))
    (.function (.simple (Name.new c!"y")))) [] :=
  (C77_numeric_expressions _ _ _).mpr ⟨[], c!"(+ x ;c\ny)", rfl,
    .binary (g := []) (b1 := c!" ") (g1 := []) (t1 := c!"x") (b2 := c!" ") (g2 := c!";c\n") (t2 := c!"y")
      gapC_nil .nil ⟨by simp, by intro c hc; simp at hc; subst hc; rfl⟩ gapC_nil
      (.leaf (.function ⟨.nil, fun _ => gapC_nil⟩ (.name (.of_word ⟨'x', [], rfl, rfl, by simp⟩))))
      ⟨by simp, by intro c hc; simp at hc; subst hc; rfl⟩
      ⟨.comment (b := 'c') (body := []) (by decide) (by simp) rfl .nil, by intro c r h; cases h; rfl⟩
      (.leaf (.function ⟨.comment (b := 'c') (body := []) (by decide) (by simp) rfl .nil, by rintro ⟨x, h⟩; cases h⟩
        (.name (.of_word ⟨'y', [], rfl, rfl, by simp⟩)))), trivial⟩

/-! ## Numeric expressions of durative actions -/

/-- `?duration` without layout in front, or a leaf of numeric expressions. -/
inductive FExpDaLeaf : List Char → FExpDa → List Char → Prop
  | duration : FExpDaLeaf [] .duration c!"?duration"
  | fExp {g e t} : FExpLeaf g e t → FExpDaLeaf g (.fExp e) t

/-- The characters that are not found after a comment. -/
def durTight (c : Char) : Bool := isDec c || c == '?'

/-- The texts of a numeric expression of a durative action, with the layout in front of them. -/
abbrev FExpDaX : List Char → FExpDa → List Char → Prop :=
  ArithX FExpDa.binaryOp FExpDa.multiOp FExpDa.negative durTight FExpDaLeaf

/-- What may follow a numeric expression of a durative action. -/
def FExpDaEnds : FExpDa → List Char → List Char → Prop
  | .fExp e, t, r => FExpEnds e t r
  | _, _, _ => True

theorem FExpLeaf.op_miss {self : P α} {g e t} (h : FExpLeaf g e t) (r : List Char) :
    binP self (g ++ (t ++ r)) = .err ∧ mulP self (g ++ (t ++ r)) = .err ∧
      negP self (g ++ (t ++ r)) = .err := by
  cases h with
  | number h => exact num_op_miss h r
  | function hg h => exact head_op_miss hg.1 h.shape r

theorem FExpLeaf.no_duration {g e t} (h : FExpLeaf g e t) (r : List Char) :
    tag c!"?duration" (g ++ (t ++ r)) = .err := by
  refine duration_miss fun y e => ?_
  have hg := fExp_arithRun.leaf_gap h
  cases hg with
  | nil =>
    cases h with
    | number h =>
      obtain ⟨c, x, rfl, hc⟩ := h.head
      cases e
      exact absurd hc (by decide)
    | function _ h =>
      rcases h.shape with ⟨c, cs, rfl, hc, _⟩ | ⟨g, w, x, rfl, _⟩
      · cases e
        exact absurd hc (by decide)
      · cases e
  | space hc =>
    cases e
    exact absurd hc (by decide)
  | comment => cases e

theorem parseFHead_gap_var {g : List Char} (hg : Gap g) (x : List Char) :
    parseFHead (g ++ '?' :: x) = .err := by
  have hs : Solid ('?' :: x) := .cons (by decide) (by decide) x
  rw [parseFHead, alt_miss (map_err (f := FHead.simple) (p := parseFunctionSymbol)
    (parseName_gap_err hg hs (by decide))), alt_miss (map_err (parens_miss hg hs (by decide))),
    alt_miss (map_err (parens_miss hg hs (by decide))), alt_nil]

theorem fExpDa_arithRun : ArithRun parseFExpDa (map (fun _ => FExpDa.duration) (tag c!"?duration"))
    (map FExpDa.fExp parseFExp) FExpDa.binaryOp FExpDa.multiOp FExpDa.negative durTight FExpDaLeaf
    FExpDaEnds where
  eq := congrFun parseFExpDa_eq
  good L := parseFExpDa_good
  pre_err h := map_err (duration_miss fun r e => absurd (h _ _ e) (by decide))
  leaf_run {g v t r} h hr := by
    rw [parseFExpDa_eq, fExpDaBody]
    cases h with
    | duration => exact alt_hit (map_run (tag_ok c!"?duration" r))
    | @fExp _ e _ h =>
      obtain ⟨h1, h2, h3⟩ := h.op_miss (self := parseFExpDa) r
      rw [alt_miss (map_err (h.no_duration r)), alt_miss (map_err h1),
        alt_miss (map_err h2), alt_miss (map_err h3)]
      exact alt_hit (map_run (fExp_arithRun.leaf_run h hr))
  leaf_gap h := by
    cases h with
    | duration => exact .nil
    | fExp h => exact fExp_arithRun.leaf_gap h
  leaf_solid h := by
    cases h with
    | duration => exact .cons (by decide) (by decide) _
    | fExp h => exact fExp_arithRun.leaf_solid h
  leaf_lead {g v t} h hg ht := by
    cases h with
    | duration => exact absurd (ht _ _ rfl) (by decide)
    | fExp h =>
      obtain ⟨v', h⟩ := fExp_arithRun.leaf_lead h hg (fun c x e => by
        have := ht c x e
        simp only [durTight, Bool.or_eq_false_iff] at this
        exact this.1)
      exact ⟨_, .fExp h⟩
  tight_err {c g x} hc hg hne := by
    have key : parseNumber (g ++ c :: x) = .err ∧ parseFHead (g ++ c :: x) = .err ∧
        ∀ {α : Type} (p : P α), parens p (g ++ c :: x) = .err := by
      simp only [durTight, Bool.or_eq_true, beq_iff_eq] at hc
      rcases hc with hc | rfl
      · exact digit_gap_miss hc hg hne
      · refine ⟨parseNumber_miss fun d y h => ?_, parseFHead_gap_var hg.1 x,
          fun p => parens_miss hg.1 (.cons (by decide) (by decide) x) (by decide)⟩
        cases g with
        | nil => exact absurd rfl hne
        | cons e g =>
          obtain ⟨rfl, -⟩ := List.cons.inj h
          rw [hg.2 _ _ rfl]
          decide
    obtain ⟨h1, h2, h3⟩ := key
    have h4 : tag c!"?duration" (g ++ c :: x) = .err := by
      refine duration_miss fun y e => ?_
      cases g with
      | nil => exact absurd rfl hne
      | cons d g =>
        obtain ⟨rfl, -⟩ := List.cons.inj e
        exact absurd (hg.2 _ _ rfl) (by decide)
    have h5 : parseFExp (g ++ c :: x) = .err := by
      rw [parseFExp_eq, fExpBody, alt_miss (map_err h1), alt_miss (map_err (h3 _)),
        alt_miss (map_err (h3 _)), alt_miss (map_err (h3 _)), alt_miss (map_err h2), alt_nil]
    rw [parseFExpDa_eq, fExpDaBody, alt_miss (map_err h4), alt_miss (map_err (h3 _)),
      alt_miss (map_err (h3 _)), alt_miss (map_err (h3 _)), alt_miss (map_err h5), alt_nil]
  tight_open := by decide
  tight_semi := by decide
  close := parseFExpDa_close
  ends_stop {v t r} h := by
    cases v with
    | fExp e => exact fExp_arithRun.ends_stop h
    | _ => trivial
  ends_bin := trivial
  ends_mul := trivial
  ends_neg := trivial

theorem FExpX.toDa {g e t} (h : FExpX g e t) : ∃ e', FExpDaX g e' t :=
  ArithX.map_aux (fun _ _ _ h => ⟨_, .fExp h⟩) (fun c hc => by simp [durTight, hc]) _ g e t (Nat.le_refl _) h

theorem fExpDa_arith : Arith parseFExpDa (map (fun _ => FExpDa.duration) (tag c!"?duration"))
    (map FExpDa.fExp parseFExp) FExpDa.binaryOp FExpDa.multiOp FExpDa.negative durTight FExpDaLeaf
    FExpDaEnds where
  toArithRun := fExpDa_arithRun
  pre_ok h := by
    obtain ⟨n, h1, rfl⟩ := map_ok h
    obtain ⟨_, h2⟩ := tag_inv h1
    exact ⟨_, h2, .duration, trivial⟩
  post_ok h hb hm hn := by
    obtain ⟨e, he, rfl⟩ := map_ok h
    obtain ⟨g, t, rfl, h2, h3⟩ := (C77_numeric_expressions _ _ _).mp he
    cases h2 with
    | leaf h2 => exact ⟨g, t, rfl, .fExp h2, h3⟩
    | binary hg0 hg hb1 hg1 k1 hb2 hg2 k2 =>
      obtain ⟨_, h1⟩ := FExpX.toDa k1
      obtain ⟨_, h2⟩ := FExpX.toDa k2
      rw [fExpDa_arithRun.bin_run hg0 hg hb1 hg1 h1 hb2 hg2 h2] at hb
      cases hb
    | multi hg0 hg hb1 hg1 k1 hb2 hg2 k2 =>
      obtain ⟨_, h1⟩ := FExpX.toDa k1
      obtain ⟨_, h2, _⟩ := Items.map_ex (fun _ _ _ h => FExpX.toDa h) k2
      rw [fExpDa_arithRun.mul_run hg0 hg hb1 hg1 h1 hb2 hg2 h2] at hm
      cases hm
    | negative hg0 hg hb' hg1 k1 =>
      obtain ⟨_, h1⟩ := FExpX.toDa k1
      rw [fExpDa_arithRun.neg_run hg0 hg hb' hg1 h1] at hn
      cases hn

/-- C77, numeric expressions of durative actions. -/
theorem C77_durative_expressions (s : List Char) (v : FExpDa) (r : List Char) :
    parseFExpDa s = .ok v r ↔ ∃ g t, s = g ++ (t ++ r) ∧ FExpDaX g v t ∧ FExpDaEnds v t r :=
  fExpDa_arith.iff s v r

example : parseFExpDa c!"(- ?durationx)" = .err := rfl

example : parseFExpDa c!"(- ?duration) " = .ok (.negative .duration) c!" " :=
  (C77_durative_expressions _ _ _).mpr ⟨[], c!"(- ?duration)", rfl,
    .negative (g := []) (b := c!" ") (g1 := []) (t := c!"?duration") gapC_nil .nil
      (by intro c hc; simp at hc; subst hc; rfl) gapC_nil (.leaf .duration), trivial⟩

/-! ## Metrics -/

/-- The parenthesised applications read as `is-violated` and not as an application: `(is-violated p)`,
without layout before the name, also if no layout follows it. -/
def IsViolatedText (g t : List Char) (ns : List Name) : Prop :=
  g = [] ∧ (t = c!"is-violated" ∧ ns.length = 1 ∨ ns = [] ∧ ∃ w, IsWord w ∧ t = c!"is-violated" ++ w)

/-- A number without layout in front; `total-time` without layout in front, also as the beginning of a longer
word; `is-violated` with a name, with any layout around the name; the application of a name to
names; or a name. -/
inductive MetricLeaf : List Char → MetricFExp → List Char → Prop
  | number {n t} : NumW n t → MetricLeaf [] (.number n) t
  | totalTime : MetricLeaf [] .totalTime c!"total-time"
  | isViolated {g g1 p t g2} : Gap g → Gap g1 → NameW p t → Gap g2 →
      MetricLeaf g (.isViolated p) (paren (c!"is-violated" ++ (g1 ++ (t ++ g2))))
  | app {g0 g f t ns u} : GapC g0 → Gap g → NameW f t → Sec Gap (· = []) (Items NameW) ns u → NoWord u →
      ¬ IsViolatedText g t ns → MetricLeaf g0 (.function f ns) (paren (g ++ (t ++ u)))
  | symbol {g f t} : Gap g → NameW f t → (g = [] → ¬ ∃ x, t = c!"total-time" ++ x) →
      MetricLeaf g (.function f []) t

/-- The texts of a metric expression, with the layout in front of them. -/
abbrev MetricX : List Char → MetricFExp → List Char → Prop :=
  ArithX MetricFExp.binaryOp MetricFExp.multiOp MetricFExp.negative isDec MetricLeaf

/-- What may follow a metric expression. -/
def MetricEnds : MetricFExp → List Char → List Char → Prop
  | .number _, t, r => NumEnds t r
  | .function _ _, t, r => HeadEnds t r
  | _, _, _ => True

/-- `is-violated` with a name, in the order of the alternatives. -/
abbrev violatedP : P Name := prefixExpr c!"is-violated" parsePrefName

theorem violated_iff (s : List Char) (n : Name) (r : List Char) :
    violatedP s = .ok n r ↔ ∃ g g1 t g2, s = g ++ (paren (c!"is-violated" ++ (g1 ++ (t ++ g2))) ++ r) ∧
      Gap g ∧ Gap g1 ∧ NameW n t ∧ Gap g2 := by
  constructor
  · intro h
    obtain ⟨g, x, y, rfl, hg, h1, h2⟩ := prefixExpr_inv h
    obtain ⟨g1, t, h3, hg1, ht, rfl, _⟩ := (C04_name_iff _ _ _).mp h1
    obtain ⟨g', h4, hg'⟩ := skip_gap (s := x) (by rw [h3]; simp [ht.solid.ne])
    obtain ⟨g2, h5, hg2⟩ := skip_gap (s := y) (by rw [h2]; simp)
    rw [h3] at h4
    rw [h2] at h5
    subst h4 h5
    exact ⟨g, g' ++ g1, t, g2, by simp [paren], hg, hg'.append hg1, ⟨ht, rfl⟩, hg2⟩
  · rintro ⟨g, g1, t, g2, rfl, hg, hg1, ht, hg2⟩
    have e : g ++ (paren (c!"is-violated" ++ (g1 ++ (t ++ g2))) ++ r) =
        g ++ '(' :: (c!"is-violated" ++ (g1 ++ (t ++ (g2 ++ ')' :: r)))) := by simp [paren]
    rw [e, violatedP, prefix_lead hg]
    refine prefixExpr_run (y := g2 ++ ')' :: r) ?_ (hg2.skip_solid (solid_close r))
    rw [hg1.skip_solid (ht.solid.append _)]
    exact ht.acc _ (.gap hg2 (.close r))

theorem IsWord.chars {t : List Char} (h : IsWord t) : ∀ d ∈ t, isWordChar d = true := by
  obtain ⟨c, cs, rfl, hc, hcs⟩ := h
  intro d hd
  rcases List.mem_cons.mp hd with rfl | hd
  · simp [isWordChar, hc]
  · exact hcs d hd

/-- A keyword at the front of a text that begins with a word is at the front of the word. -/
theorem word_prefix {t kw x y : List Char} (ht : IsWord t) (hn : ¬ ∃ w, t = kw ++ w) (hkw : IsWord kw)
    (hy : NoWord y) (e : t ++ y = kw ++ x) : False := by
  rcases List.append_eq_append_iff.mp e with ⟨a, h1, h2⟩ | ⟨b, h1, _⟩
  · cases a with
    | nil => exact hn ⟨[], by simpa using h1.symm⟩
    | cons c a =>
      have := hkw.chars c (by rw [h1]; simp)
      rw [hy c _ h2] at this
      cases this
  · exact hn ⟨b, h1⟩

theorem wordChar_front {c : Char} (h : isWordChar c = true) : isBlank c = false ∧ c ≠ ';' := by
  constructor
  · cases hb : isBlank c with
    | false => rfl
    | true => rw [isWordChar_not (.inl hb)] at h; cases h
  · rintro rfl
    exact absurd h (by decide)

/-- What is read as an application and not as `is-violated`. -/
theorem app_violated {g0 g t u : List Char} {f : Name} {ns : List Name} (hg0 : Gap g0) (hg : Gap g)
    (hf : NameW f t) (h : Sec Gap (· = []) (Items NameW) ns u) (hu : NoWord u) (r : List Char) :
    (IsViolatedText g t ns ∧ ∃ n, violatedP (g0 ++ '(' :: (g ++ (t ++ (u ++ ')' :: r)))) = .ok n r) ∨
      (¬ IsViolatedText g t ns ∧ violatedP (g0 ++ '(' :: (g ++ (t ++ (u ++ ')' :: r)))) = .err) := by
  rw [violatedP, prefix_lead hg0]
  have miss (h : ∀ x, g ++ (t ++ (u ++ ')' :: r)) ≠ c!"is-violated" ++ x) :
      prefixExpr c!"is-violated" parsePrefName ('(' :: (g ++ (t ++ (u ++ ')' :: r)))) = .err := by
    refine prefixExpr_kw ?_
    cases hp : stripPrefix c!"is-violated" (g ++ (t ++ (u ++ ')' :: r))) with
    | none => rfl
    | some x => exact absurd (Good.stripPrefix_eq hp) (h x)
  have gne : g ≠ [] → ∀ x, g ++ (t ++ (u ++ ')' :: r)) ≠ c!"is-violated" ++ x := by
    intro hne x e
    cases hg with
    | nil => exact hne rfl
    | space hc => exact absurd (show isBlank 'i' = true from (List.cons.inj e).1 ▸ hc) (by decide)
    | comment => exact absurd (List.cons.inj e).1 (by decide)
  by_cases hne : g = []
  · subst hne
    rw [List.nil_append] at miss gne ⊢
    by_cases hp : ∃ w, t = c!"is-violated" ++ w
    · obtain ⟨w, rfl⟩ := hp
      rw [List.append_assoc]
      cases w with
      | nil =>
        rw [List.nil_append]
        cases h with
        | nil hg =>
          right
          refine ⟨?_, prefixExpr_body_err ?_⟩
          · rintro ⟨_, ⟨_, h⟩ | ⟨_, w, hw, e⟩⟩
            · simp at h
            · have : w = [] := by simpa using e
              exact hw.solid.ne this
          · rw [hg.skip_solid (solid_close r)]
            exact parseName_close r
        | @cons g' xs t' e hs hi he =>
          cases he
          cases hi with
          | @one n _ hn =>
            left
            refine ⟨⟨rfl, .inl ⟨by simp, rfl⟩⟩, n, prefixExpr_run (y := ')' :: r) ?_ (solid_close r).skip⟩
            simp only [List.append_nil, List.append_assoc]
            rw [hs.skip_solid (hn.solid.append _)]
            exact hn.acc _ (.close r)
          | @cons n t1 g1 ms t2 hn hg1 hi =>
            right
            have hs2 : Solid t2 := (hi.mono fun a t h _ => h.elem).solid
            refine ⟨?_, prefixExpr_tail (y := g1 ++ (t2 ++ ')' :: r)) (v := n) ?_ ?_⟩
            · rintro ⟨_, ⟨_, h⟩ | ⟨h, _⟩⟩
              · cases hi <;> simp at h
              · cases h
            · simp only [List.append_nil, List.append_assoc]
              rw [hs.skip_solid (hn.solid.append _)]
              exact hn.acc _ (.sep hg1 _)
            · intro x hx
              rw [hg1.gap.skip_solid (hs2.append _)] at hx
              cases hi with
              | one h =>
                obtain ⟨c, cs, rfl, hc, _⟩ := h.1
                cases hx
                exact absurd hc (by decide)
              | cons h =>
                obtain ⟨c, cs, rfl, hc, _⟩ := h.1
                cases hx
                exact absurd hc (by decide)
      | cons c w =>
        have hw := fun d (hd : d ∈ c :: w) => hf.1.chars d (List.mem_append_right _ hd)
        by_cases hc : isLetter c = true
        · have hw' : IsWord (c :: w) := ⟨c, w, rfl, hc, fun d hd => hw d (by simp [hd])⟩
          have hn : parseName (skip ((c :: w) ++ (u ++ ')' :: r))) =
              .ok (wordName (c :: w)) (u ++ ')' :: r) := by
            rw [(hw'.solid.append _).skip]
            exact (C04_name_iff _ _ _).mpr ⟨[], _, rfl, .nil, hw', rfl, (NoWord.close r).mpr hu⟩
          cases h with
          | nil hg =>
            left
            exact ⟨⟨rfl, .inr ⟨rfl, _, hw', rfl⟩⟩, _, prefixExpr_run hn (hg.skip_solid (solid_close r))⟩
          | @cons g' xs t' e hs hi he =>
            cases he
            right
            refine ⟨?_, prefixExpr_tail hn ?_⟩
            · rintro ⟨_, ⟨h, _⟩ | ⟨h, _⟩⟩
              · simp at h
              · subst h; cases hi
            · intro x hx
              have hs2 : Solid t' := (hi.mono fun a t h _ => h.elem).solid
              simp only [List.append_nil, List.append_assoc] at hx
              rw [hs.skip_solid (hs2.append _)] at hx
              cases hi with
              | one h =>
                obtain ⟨c, cs, rfl, hc, _⟩ := h.1
                cases hx
                exact absurd hc (by decide)
              | cons h =>
                obtain ⟨c, cs, rfl, hc, _⟩ := h.1
                cases hx
                exact absurd hc (by decide)
        · right
          have hc' : isAlpha c = false := by
            cases h : isAlpha c with
            | false => rfl
            | true => exact absurd h hc
          have hs := wordChar_front (hw c (by simp))
          refine ⟨?_, prefixExpr_body_err ?_⟩
          · rintro ⟨_, ⟨h, _⟩ | ⟨_, w', hw', e⟩⟩
            · simp at h
            · have : c :: w = w' := by simpa using e
              subst this
              obtain ⟨d, _, e, hd, _⟩ := hw'
              cases e
              exact hc hd
          · rw [List.cons_append, (Solid.cons hs.1 hs.2 _).skip]
            exact parseName_err_cons (.cons hs.1 hs.2 _) hc'
    · right
      refine ⟨?_, miss ?_⟩
      · rintro ⟨_, ⟨h, _⟩ | ⟨_, w, _, h⟩⟩
        · exact hp ⟨[], by simp [h]⟩
        · exact hp ⟨w, h⟩
      · intro x e
        exact word_prefix hf.1 hp isWord_isViolated ((NoWord.close r).mpr hu) e
  · exact .inr ⟨fun h => hne h.1, miss (gne hne)⟩

/-- The alternatives without an operator. -/
abbrev metricPost : P MetricFExp :=
  alt (map (fun _ => MetricFExp.totalTime) (tag c!"total-time") :: metricRest)

theorem mul_not_none (s : List Char) :
    mapExpect (fun x : MultiOp × MetricFExp × List MetricFExp => MetricFExp.newMultiOp x.1 x.2.1 x.2.2)
      (mulP parseMetricFExp) s =
    map (fun x => MetricFExp.multiOp x.1 x.2.1 x.2.2) (mulP parseMetricFExp) s := by
  unfold mapExpect map
  cases h : mulP parseMetricFExp s with
  | ok v r =>
    obtain ⟨op, a, es⟩ := v
    obtain ⟨_, _, _, _, h2⟩ := parens_invC h
    obtain ⟨_, _, h3⟩ := pair_ok h2
    obtain ⟨_, _, h4⟩ := pair_ok h3
    obtain ⟨_, _, _, h5⟩ := preceded_ok h4
    have := list1_ne_nil h5
    cases es with
    | nil => exact absurd rfl this
    | cons => rfl
  | _ => rfl

theorem alt_last (p : P α) (s : List Char) : alt [p] s = p s := by
  unfold alt
  cases h : p s <;> simp [alt]

theorem alt_congr {p p' : P α} {ps ps' : List (P α)} {s : List Char} (hp : p s = p' s)
    (h : alt ps s = alt ps' s) : alt (p :: ps) s = alt (p' :: ps') s := by
  simp only [alt, hp, h]

theorem metric_eq (s : List Char) : parseMetricFExp s = alt [map MetricFExp.number parseNumber,
    map (fun x => MetricFExp.binaryOp x.1 x.2.1 x.2.2) (binP parseMetricFExp),
    map (fun x => MetricFExp.multiOp x.1 x.2.1 x.2.2) (mulP parseMetricFExp),
    map MetricFExp.negative (negP parseMetricFExp), metricPost] s := by
  rw [congrFun parseMetricFExp_eq s, metricFExpBody]
  exact alt_congr rfl (alt_congr rfl (alt_congr (mul_not_none s) (alt_congr rfl (alt_last _ _).symm)))

theorem totalTime_miss {s : List Char} (h : ¬ ∃ x, s = c!"total-time" ++ x) :
    tag c!"total-time" s = .err := by
  refine tag_err ?_
  cases hp : stripPrefix c!"total-time" s with
  | none => rfl
  | some x => exact absurd ⟨x, Good.stripPrefix_eq hp⟩ h

theorem gap_not_word {g x y : List Char} {c : Char} (hg : Gap g) (hne : g ≠ []) (hc : isWordChar c = true) :
    g ++ x ≠ c :: y := by
  intro e
  cases hg with
  | nil => exact hne rfl
  | space h =>
    obtain ⟨rfl, -⟩ := List.cons.inj e
    rw [isWordChar_not (.inl h)] at hc
    cases hc
  | comment =>
    obtain ⟨rfl, -⟩ := List.cons.inj e
    exact absurd hc (by decide)

theorem metric_arithRun : ArithRun parseMetricFExp (map MetricFExp.number parseNumber) metricPost
    MetricFExp.binaryOp MetricFExp.multiOp MetricFExp.negative isDec MetricLeaf MetricEnds where
  eq := metric_eq
  good L := parseMetricFExp_good
  pre_err h := map_err (parseNumber_miss h)
  leaf_run {g v t r} h hr := by
    rw [metric_eq]
    cases h with
    | number h => exact alt_hit (map_run ((C77_numbers _ _ _).mpr ⟨t, rfl, h, hr⟩))
    | totalTime =>
      obtain ⟨h1, h2, h3⟩ := head_op_miss (self := parseMetricFExp) .nil (.inl isWord_totalTime) r
      rw [alt_miss (map_err (head_not_number .nil (.inl isWord_totalTime) r)), alt_miss (map_err h1),
        alt_miss (map_err h2), alt_miss (map_err h3), alt_last]
      exact alt_hit (map_run (tag_ok c!"total-time" r))
    | @isViolated _ g1 p t g2 hg hg1 hp hg2 =>
      have hs : IsWord (paren (c!"is-violated" ++ (g1 ++ (t ++ g2)))) ∨ ∃ g' w x,
          paren (c!"is-violated" ++ (g1 ++ (t ++ g2))) = '(' :: (g' ++ (w ++ x)) ∧ Gap g' ∧ IsWord w :=
        .inr ⟨[], c!"is-violated", g1 ++ (t ++ g2) ++ c!")", by simp [paren], .nil, isWord_isViolated⟩
      obtain ⟨h1, h2, h3⟩ := head_op_miss (self := parseMetricFExp) hg hs r
      rw [alt_miss (map_err (head_not_number hg hs r)), alt_miss (map_err h1),
        alt_miss (map_err h2), alt_miss (map_err h3), alt_last, metricPost, alt_miss]
      · exact alt_hit (map_run ((violated_iff _ _ _).mpr ⟨g, g1, t, g2, rfl, hg, hg1, hp, hg2⟩))
      · refine map_err (totalTime_miss ?_)
        rintro ⟨x, e⟩
        by_cases hne : g = []
        · subst hne; cases e
        · exact gap_not_word hg hne (by decide) e
    | @app _ g' f t ns u hg0 hg hf hu hnw hv =>
      have hs : IsWord (paren (g' ++ (t ++ u))) ∨ ∃ g'' w x,
          paren (g' ++ (t ++ u)) = '(' :: (g'' ++ (w ++ x)) ∧ Gap g'' ∧ IsWord w :=
        .inr ⟨g', t, u ++ c!")", by simp [paren], hg, hf.1⟩
      obtain ⟨h1, h2, h3⟩ := head_op_miss (self := parseMetricFExp) hg0.1 hs r
      have e : g ++ (paren (g' ++ (t ++ u)) ++ r) = g ++ '(' :: (g' ++ (t ++ (u ++ ')' :: r))) := by
        simp [paren]
      rw [alt_miss (map_err (head_not_number hg0.1 hs r)), alt_miss (map_err h1),
        alt_miss (map_err h2), alt_miss (map_err h3), alt_last, metricPost, e, alt_miss, alt_miss]
      · refine alt_hit (map_run (a := (f, ns)) ?_)
        rw [parens_gapC hg0]
        refine parens_run ?_
        rw [hg.skip_solid (hf.solid.append _), show ws (spaceSeparatedList0 parseName) =
          spaceSeparatedList0 parseName from ws_ws _]
        exact head_list_run (g := []) .nil hf hu (fun _ _ h _ => h.elem) hnw parseName_close r
      · exact map_err (((app_violated hg0.1 hg hf hu hnw r).resolve_left fun h => hv h.1).2)
      · refine map_err (totalTime_miss ?_)
        rintro ⟨x, e⟩
        by_cases hne : g = []
        · subst hne; cases e
        · exact gap_not_word hg0.1 hne (by decide) e
    | @symbol _ f t hg hf ht =>
      have hr : NoWord r := hr.resolve_left hf.not_open
      obtain ⟨h1, h2, h3⟩ := head_op_miss (self := parseMetricFExp) hg (.inl hf.1) r
      have hs := hf.solid.append r
      have hc : ∀ x, t ++ r ≠ '(' :: x := by
        intro x e
        obtain ⟨c, cs, rfl, hc, _⟩ := hf.1
        cases e
        exact absurd hc (by decide)
      rw [alt_miss (map_err (head_not_number hg (.inl hf.1) r)), alt_miss (map_err h1),
        alt_miss (map_err h2), alt_miss (map_err h3), alt_last, metricPost, alt_miss, metricRest, alt_miss,
        alt_miss]
      · exact alt_hit (map_run ((C04_name_iff _ _ _).mpr ⟨g, t, rfl, hg, hf.1, hf.2, hr⟩))
      · obtain ⟨c, x, e, _⟩ := id hs
        rw [e] at hs hc ⊢
        exact map_err (parens_miss hg hs fun h => hc x (by rw [h]))
      · obtain ⟨c, x, e, _⟩ := id hs
        refine map_err ?_
        rw [prefix_lead hg]
        rw [e] at hs hc ⊢
        exact prefixExpr_head hs fun h => hc x (by rw [h])
      · refine map_err (totalTime_miss ?_)
        rintro ⟨x, e⟩
        by_cases hne : g = []
        · subst hne
          exact word_prefix hf.1 (ht rfl) isWord_totalTime hr e
        · exact gap_not_word hg hne (by decide) e
  leaf_gap h := by
    cases h with
    | number => exact .nil
    | totalTime => exact .nil
    | isViolated hg => exact hg
    | app hg => exact hg.1
    | symbol hg => exact hg
  leaf_solid h := by
    cases h with
    | number h => exact h.solid
    | totalTime => exact isWord_totalTime.solid
    | isViolated => exact solid_paren _
    | app => exact solid_paren _
    | symbol _ h => exact h.solid
  leaf_lead {g v t} h hg ht := by
    by_cases hne : g = []
    · exact ⟨v, hne ▸ h⟩
    cases h with
    | number h =>
      obtain ⟨c, x, rfl, hc⟩ := h.head
      have := ht c x rfl
      rw [show isDec c = true from hc] at this
      cases this
    | totalTime => exact ⟨_, .symbol hg.1 (.of_word isWord_totalTime) fun h => absurd h hne⟩
    | isViolated _ h1 h2 h3 => exact ⟨_, .isViolated hg.1 h1 h2 h3⟩
    | app _ h1 h2 h3 h4 h5 => exact ⟨_, .app hg h1 h2 h3 h4 h5⟩
    | symbol _ h => exact ⟨_, .symbol hg.1 h fun h => absurd h hne⟩
  tight_err {c g x} hc hg hne := by
    obtain ⟨h1, h2, h3⟩ := digit_gap_miss (x := x) hc hg hne
    have hs : Solid (c :: x) := .cons (isDigit_solid hc).1 (isDigit_solid hc).2 x
    have h4 : c ≠ '(' := by rintro rfl; exact absurd hc (by decide)
    have h5 : parseFunctionSymbol (g ++ c :: x) = .err := parseName_gap_err hg.1 hs (by
      cases h : isAlpha c with
      | false => rfl
      | true => rw [letter_not_dec h] at hc; cases hc)
    have h6 : tag c!"total-time" (g ++ c :: x) = .err := totalTime_miss (by
      rintro ⟨x, e⟩
      exact gap_not_word hg.1 hne (by decide) e)
    rw [metric_eq, alt_miss (map_err h1), alt_miss (map_err (h3 _)),
      alt_miss (map_err (h3 _)), alt_miss (map_err (h3 _)), alt_last, metricPost, alt_miss (map_err h6), metricRest,
      alt_miss (map_err (by rw [prefix_lead hg.1]; exact prefixExpr_head hs h4)), alt_miss (map_err (h3 _)),
      alt_miss (map_err h5), alt_nil]
  tight_open := by decide
  tight_semi := by decide
  close := parseMetric_close
  ends_stop {v t r} h := by
    cases v with
    | number => exact h.numEnds
    | function => exact h.headEnds
    | _ => trivial
  ends_bin := trivial
  ends_mul := trivial
  ends_neg := trivial

theorem metric_arith : Arith parseMetricFExp (map MetricFExp.number parseNumber) metricPost
    MetricFExp.binaryOp MetricFExp.multiOp MetricFExp.negative isDec MetricLeaf MetricEnds where
  toArithRun := metric_arithRun
  pre_ok h := by
    obtain ⟨n, h1, rfl⟩ := map_ok h
    obtain ⟨t, h2, h3, h4⟩ := (C77_numbers _ _ _).mp h1
    exact ⟨t, h2, .number h3, h4⟩
  post_ok {s v r} h _ _ _ := by
    unfold metricPost at h
    have e {β : Type} {f : β → MetricFExp} {q : P β} {s} (h : map f q s = .err) : q s = .err := by
      unfold map Res.bind at h
      cases hq : q s <;> rw [hq] at h <;> first | rfl | cases h
    rcases alt_inv h with h | ⟨htt, h⟩
    · obtain ⟨n, h1, rfl⟩ := map_ok h
      obtain ⟨_, h2⟩ := tag_inv h1
      exact ⟨[], _, h2, .totalTime, trivial⟩
    rcases alt_inv h with h | ⟨hiv, h⟩
    · obtain ⟨n, h1, rfl⟩ := map_ok h
      obtain ⟨g, g1, t, g2, h2, hg, hg1, ht, hg2⟩ := (violated_iff _ _ _).mp h1
      exact ⟨g, _, h2, .isViolated hg hg1 ht hg2, trivial⟩
    rcases alt_inv h with h | ⟨_, h⟩
    · obtain ⟨⟨f, ns⟩, h1, rfl⟩ := map_ok h
      obtain ⟨g0, x, rfl, hg0, h2⟩ := parens_invC h1
      rw [show ws (spaceSeparatedList0 parseName) = spaceSeparatedList0 parseName from ws_ws _] at h2
      obtain ⟨g, t, u, h3, hg, hn, hu, hnw⟩ := head_list_inv parseName_exact.snd parseName_exact.nonE h2
      obtain ⟨g', h4, hg'⟩ := skip_gap (s := x) (by rw [h3]; simp)
      rw [h3] at h4
      subst h4
      have hv := e hiv
      rw [← List.append_assoc] at hv
      refine ⟨g0, paren ((g' ++ g) ++ (t ++ u)), by simp [paren],
        .app hg0 (hg'.append hg) hn hu hnw fun h => ?_, .inl ⟨_, rfl⟩⟩
      rcases app_violated hg0.1 (hg'.append hg) hn hu hnw r with ⟨_, n, h5⟩ | ⟨h5, _⟩
      · rw [violatedP] at h5
        rw [h5] at hv
        cases hv
      · exact h5 h
    rcases alt_inv h with h | ⟨_, h⟩
    · obtain ⟨f, h1, rfl⟩ := map_ok h
      obtain ⟨g, t, h3, hg, ht, rfl, hr⟩ := (C04_name_iff _ _ _).mp h1
      refine ⟨g, t, h3, .symbol hg ⟨ht, rfl⟩ ?_, .inr hr⟩
      rintro rfl ⟨x, rfl⟩
      have := e htt
      rw [h3, List.nil_append, List.append_assoc, tag_ok] at this
      cases this
    cases h

/-- C77, metric expressions. -/
theorem C77_metric_expressions (s : List Char) (v : MetricFExp) (r : List Char) :
    parseMetricFExp s = .ok v r ↔ ∃ g t, s = g ++ (t ++ r) ∧ MetricX g v t ∧ MetricEnds v t r :=
  metric_arith.iff s v r

/-- `total-time` is found at the front of a longer word. -/
example : parseMetricFExp c!"total-timer" = .ok .totalTime c!"r" :=
  (C77_metric_expressions _ _ _).mpr ⟨[], c!"total-time", rfl, .leaf .totalTime, trivial⟩

/-- No blank is needed behind `is-violated`. -/
example : parseMetricFExp c!"(is-violatedp )" = .ok (.isViolated (Name.new c!"p")) [] :=
  (C77_metric_expressions _ _ _).mpr ⟨[], c!"(is-violatedp )", rfl,
    .leaf (.isViolated (g1 := []) (t := c!"p") (g2 := c!" ") .nil .nil (.of_word ⟨'p', [], rfl, rfl, by simp⟩)
      (.space rfl .nil)), trivial⟩

/-- A comment in front makes `total-time` the name of a function. -/
example : parseMetricFExp c!";c\ntotal-time" = .ok (.function (Name.new c!"total-time") []) [] := rfl

end Pddl
