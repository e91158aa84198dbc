import Verif.Props.Exact
import Verif.Props.Definitions

/-!
# Meta-theory: the exact texts of arithmetic expressions

The three kinds of numeric expressions (in conditions and effects, in durative effects, and in
metrics) share the forms `(op a b)`, `(op a b c ..)` and `(- a)`. This file describes exactly what is
accepted for these forms, given what is accepted for the leaves.
-/

namespace Pddl

/-- Texts of arithmetic expressions over leaves. `ArithX .. g v t`: the layout `g` and the text `t` are
read as `v`. `tight` are the first characters of leaves before which no comment is skipped. An
expression with an operator may directly follow a comment. Its operands are separated by blanks
followed by layout that begins with a comment, if it is not empty. The form with a list of operands is
taken if there are three or more, or if a comment comes before the second one and the
second one is such a leaf. No layout may come before the closing parenthesis. -/
inductive ArithX {α : Type} (bin : BinaryOp → α → α → α) (mul : MultiOp → α → List α → α) (neg : α → α)
    (tight : Char → Bool) (Leaf : List Char → α → List Char → Prop) :
    List Char → α → List Char → Prop
  | leaf {g v t} : Leaf g v t → ArithX bin mul neg tight Leaf g v t
  | binary {g0 g b1 g1 t1 b2 g2 t2 : List Char} {op a b} : GapC g0 → Gap g →
      Sp b1 → GapC g1 → ArithX bin mul neg tight Leaf g1 a t1 →
      Sp b2 → GapC g2 → ArithX bin mul neg tight Leaf g2 b t2 →
      ArithX bin mul neg tight Leaf g0 (bin op a b)
        (paren (g ++ (op.spell ++ (b1 ++ (g1 ++ (t1 ++ (b2 ++ (g2 ++ t2))))))))
  | multi {g0 g b1 g1 t1 b2 g2 u : List Char} {op a es} : GapC g0 → Gap g →
      Sp b1 → GapC g1 → ArithX bin mul neg tight Leaf g1 a t1 →
      Sp b2 → GapC g2 → Items (ArithX bin mul neg tight Leaf []) es u →
      (2 ≤ es.length ∨ g2 ≠ [] ∧ ∃ c u', u = c :: u' ∧ tight c = true) →
      ArithX bin mul neg tight Leaf g0 (mul op a es)
        (paren (g ++ (op.spell ++ (b1 ++ (g1 ++ (t1 ++ (b2 ++ (g2 ++ u))))))))
  | negative {g0 g b g1 t : List Char} {a} : GapC g0 → Gap g → Sp0 b → GapC g1 →
      ArithX bin mul neg tight Leaf g1 a t →
      ArithX bin mul neg tight Leaf g0 (neg a) (paren (g ++ (c!"-" ++ (b ++ (g1 ++ t)))))

/-- A parser of arithmetic expressions that reads its leaves. `E` tells what may follow. -/
structure ArithRun {α : Type} (p pre post : P α) (bin : BinaryOp → α → α → α)
    (mul : MultiOp → α → List α → α) (neg : α → α) (tight : Char → Bool)
    (Leaf : List Char → α → List Char → Prop) (E : α → List Char → List Char → Prop) : Prop where
  eq : ∀ s, p s = alt [pre, map (fun x => bin x.1 x.2.1 x.2.2) (binP p),
    map (fun x => mul x.1 x.2.1 x.2.2) (mulP p), map neg (negP p), post] s
  good : ∀ L, Good 1 L p p
  pre_err : ∀ {s}, (∀ c x, s = c :: x → tight c = false) → pre s = .err
  leaf_run : ∀ {g v t r}, Leaf g v t → E v t r → p (g ++ (t ++ r)) = .ok v r
  leaf_gap : ∀ {g v t}, Leaf g v t → Gap g
  leaf_solid : ∀ {g v t}, Leaf g v t → Solid t
  leaf_lead : ∀ {g v t}, Leaf [] v t → GapC g → (∀ c x, t = c :: x → tight c = false) → ∃ v', Leaf g v' t
  tight_err : ∀ {c g x}, tight c = true → GapC g → g ≠ [] → p (g ++ c :: x) = .err
  tight_open : tight '(' = false
  tight_semi : tight ';' = false
  close : ∀ x, p (')' :: x) = .err
  ends_stop : ∀ {v t r}, Stop r → E v t r
  ends_bin : ∀ {op a b t r}, E (bin op a b) t r
  ends_mul : ∀ {op a es t r}, E (mul op a es) t r
  ends_neg : ∀ {a t r}, E (neg a) t r

/-- A parser of arithmetic expressions that reads its leaves and nothing else as such. -/
structure Arith {α : Type} (p pre post : P α) (bin : BinaryOp → α → α → α)
    (mul : MultiOp → α → List α → α) (neg : α → α) (tight : Char → Bool)
    (Leaf : List Char → α → List Char → Prop) (E : α → List Char → List Char → Prop) : Prop
    extends ArithRun p pre post bin mul neg tight Leaf E where
  pre_ok : ∀ {s v r}, pre s = .ok v r → ∃ t, s = t ++ r ∧ Leaf [] v t ∧ E v t r
  post_ok : ∀ {s v r}, post s = .ok v r → binP p s = .err → mulP p s = .err → negP p s = .err →
    ∃ g t, s = g ++ (t ++ r) ∧ Leaf g v t ∧ E v t r

/-! ## Layout -/

/-- Layout with a comment in front, or none: no blank in front. -/
theorem GapC.no_space {g t : List Char} (hg : GapC g) (ht : Solid t) :
    ∀ c r, g ++ t = c :: r → isSpace c = false := by
  intro c r h
  cases g with
  | nil => exact ht.no_space c r h
  | cons d g =>
    obtain ⟨rfl, -⟩ := List.cons.inj h
    rw [hg.2 _ _ rfl]
    decide

theorem GapC.of_no_space {g t : List Char} (hg : Gap g) (h : ∀ c r, g ++ t = c :: r → isSpace c = false) :
    GapC g := by
  refine ⟨hg, fun c g' e => ?_⟩
  subst e
  have := h c (g' ++ t) rfl
  cases hg with
  | space hc => rw [show isSpace c = true from hc] at this; cases this
  | comment => rfl

theorem Sp0.nil : Sp0 [] := by
  intro _ h
  cases h

theorem gapC_nil : GapC [] := ⟨.nil, fun _ _ h => by cases h⟩

theorem pms1_gapC {b g t : List Char} {p : P α} (hb : Sp b) (hg : GapC g) (ht : Solid t) :
    preceded multispace1 p (b ++ (g ++ t)) = p (g ++ t) := by
  obtain ⟨hne, hb⟩ := hb
  have h := takeWhile_all (f := isSpace) hb (hg.no_space ht)
  refine preceded_run (a := b) ?_
  unfold multispace1 takeWhile1
  rw [h.1, h.2, if_neg hne]

theorem pms1_inv {p : P α} {s : List Char} {a : α} {r : List Char}
    (h : preceded multispace1 p s = .ok a r) :
    ∃ b y, s = b ++ y ∧ Sp b ∧ (∀ c x, y = c :: x → isSpace c = false) ∧ p y = .ok a r := by
  obtain ⟨b, y, h1, h2⟩ := preceded_ok h
  obtain ⟨h3, h4⟩ := ms1_inv h1
  refine ⟨b, y, h3, h4, fun c x hy => ?_, h2⟩
  unfold multispace1 takeWhile1 at h1
  split at h1
  · cases h1
  · cases h1
    cases hc : isSpace c with
    | false => rfl
    | true =>
      have := List.head?_dropWhile_not isSpace s
      rw [hy] at this
      simp [hc] at this

theorem ms0_next {s b y : List Char} (h : multispace0 s = .ok b y) :
    ∀ c x, y = c :: x → isSpace c = false := by
  intro c x hy
  unfold multispace0 takeWhile0 at h
  cases h
  cases hc : isSpace c with
  | false => rfl
  | true =>
    have := List.head?_dropWhile_not isSpace s
    rw [hy] at this
    simp [hc] at this

/-- Layout that begins with a blank: blanks, then layout that does not. -/
theorem Sep.split {g : List Char} (h : Sep g) : ∃ b g', g = b ++ g' ∧ Sp b ∧ GapC g' := by
  have key : ∀ {g}, Gap g → ∃ b g', g = b ++ g' ∧ Sp0 b ∧ GapC g' := by
    intro g h
    induction h with
    | nil => exact ⟨[], [], rfl, Sp0.nil, gapC_nil⟩
    | @space c g hc _ ih =>
      obtain ⟨b, g', rfl, hb, hg⟩ := ih
      refine ⟨c :: b, g', rfl, ?_, hg⟩
      intro d hd
      rcases List.mem_cons.mp hd with rfl | hd
      · exact hc
      · exact hb d hd
    | comment h1 h2 h3 h4 => exact ⟨[], _, rfl, Sp0.nil, .comment h1 h2 h3 h4, fun _ _ h => by cases h; rfl⟩
  cases h with
  | @mk c g hc hg =>
    obtain ⟨b, g', rfl, hb, hg⟩ := key hg
    refine ⟨c :: b, g', rfl, ⟨by simp, ?_⟩, hg⟩
    intro d hd
    rcases List.mem_cons.mp hd with rfl | hd
    · exact hc
    · exact hb d hd

theorem parens_gapC {p : P α} {g : List Char} (hg : GapC g) (x : List Char) :
    parens p (g ++ '(' :: x) = parens p ('(' :: x) := by
  unfold parens
  rw [eolp_eq, eolp_eq, hg.skipC_solid (solid_open x), (solid_open x).skipC]

theorem Items.map_ex {α β : Type} {R : α → List Char → Prop} {S : β → List Char → Prop} {as u}
    (hR : ∀ a t, t.length ≤ u.length → R a t → ∃ b, S b t) (h : Items R as u) :
    ∃ bs, Items S bs u ∧ bs.length = as.length := by
  induction h with
  | one h =>
    obtain ⟨b, h⟩ := hR _ _ (Nat.le_refl _) h
    exact ⟨[b], .one h, rfl⟩
  | cons h hg _ ih =>
    obtain ⟨b, h⟩ := hR _ _ (by simp) h
    obtain ⟨bs, ih, e⟩ := ih fun a t hl h => hR a t (by simp; omega) h
    exact ⟨b :: bs, .cons h hg ih, by simp [e]⟩

section
variable {α : Type} {p pre post : P α} {bin : BinaryOp → α → α → α} {mul : MultiOp → α → List α → α}
  {neg : α → α} {tight : Char → Bool} {Leaf : List Char → α → List Char → Prop}
  {E : α → List Char → List Char → Prop}

theorem ArithX.gap (H : ArithRun p pre post bin mul neg tight Leaf E) {g v t}
    (h : ArithX bin mul neg tight Leaf g v t) : Gap g := by
  cases h with
  | leaf h => exact H.leaf_gap h
  | binary h => exact h.1
  | multi h => exact h.1
  | negative h => exact h.1

theorem ArithX.solid (H : ArithRun p pre post bin mul neg tight Leaf E) {g v t}
    (h : ArithX bin mul neg tight Leaf g v t) : Solid t := by
  cases h with
  | leaf h => exact H.leaf_solid h
  | _ => exact solid_paren _

theorem ArithX.lead (H : ArithRun p pre post bin mul neg tight Leaf E) {g v t}
    (h : ArithX bin mul neg tight Leaf [] v t) (hg : GapC g) (ht : ∀ c x, t = c :: x → tight c = false) :
    ∃ v', ArithX bin mul neg tight Leaf g v' t := by
  cases h with
  | leaf h =>
    obtain ⟨v', h⟩ := H.leaf_lead h hg ht
    exact ⟨v', .leaf h⟩
  | binary _ h1 h2 h3 h4 h5 h6 h7 => exact ⟨_, .binary hg h1 h2 h3 h4 h5 h6 h7⟩
  | multi _ h1 h2 h3 h4 h5 h6 h7 h8 => exact ⟨_, .multi hg h1 h2 h3 h4 h5 h6 h7 h8⟩
  | negative _ h1 h2 h3 h4 => exact ⟨_, .negative hg h1 h2 h3 h4⟩

theorem ArithRun.pre_miss (H : ArithRun p pre post bin mul neg tight Leaf E) {g : List Char} (hg : GapC g)
    (x : List Char) : pre (g ++ '(' :: x) = .err := by
  refine H.pre_err fun c y h => ?_
  cases g with
  | nil => cases h; exact H.tight_open
  | cons d g =>
    cases h
    rw [hg.2 _ _ rfl]
    exact H.tight_semi

/-- The second operand as the binary form sees it. -/
theorem ArithRun.second (H : ArithRun p pre post bin mul neg tight Leaf E) {n : Nat}
    (ih : ∀ g v t r, t.length ≤ n → ArithX bin mul neg tight Leaf g v t → E v t r →
      p (g ++ (t ++ r)) = .ok v r) {e t g} (hn : t.length ≤ n)
    (h : ArithX bin mul neg tight Leaf [] e t) (hg : GapC g) {r : List Char} (hr : Stop r) :
    (g ≠ [] ∧ (∃ c x, t = c :: x ∧ tight c = true) ∧ p (g ++ (t ++ r)) = .err) ∨
      ∃ v', p (g ++ (t ++ r)) = .ok v' r := by
  by_cases hgn : g = []
  · subst hgn
    exact .inr ⟨e, ih _ _ _ _ hn h (H.ends_stop hr)⟩
  · obtain ⟨c, x, rfl, _⟩ := h.solid H
    cases hc : tight c with
    | true => exact .inl ⟨hgn, ⟨c, x, rfl, hc⟩, H.tight_err hc hg hgn⟩
    | false =>
      obtain ⟨v', h'⟩ := h.lead H hg (fun d y e => by cases e; exact hc)
      exact .inr ⟨v', ih _ _ _ _ hn h' (H.ends_stop hr)⟩

theorem ArithRun.run_aux (H : ArithRun p pre post bin mul neg tight Leaf E) (n : Nat) : ∀ g v t r,
    t.length ≤ n → ArithX bin mul neg tight Leaf g v t → E v t r → p (g ++ (t ++ r)) = .ok v r := by
  induction n with
  | zero =>
    intro g v t r hn h
    obtain ⟨c, r, rfl, _⟩ := h.solid H
    simp at hn
  | succ n ih =>
    intro g0 v t r hn h hr
    cases h with
    | leaf h => exact H.leaf_run h hr
    | @binary _ g b1 g1 t1 b2 g2 t2 op a b hg0 hg hb1 hg1 h1 hb2 hg2 h2 =>
      simp only [paren, List.length_append, List.length_cons] at hn
      simp only [paren_append, List.append_assoc]
      rw [H.eq, alt_miss (H.pre_miss hg0 _)]
      refine alt_hit (map_run (a := (op, a, b)) ?_)
      rw [binP, parens_gapC hg0]
      refine parens_run ?_
      rw [hg.skip_solid (op.spell_solid.append _)]
      refine pair_run (parseBinaryOp_spell op _) (pair_run (r := b2 ++ (g2 ++ (t2 ++ ')' :: r))) ?_ ?_)
      · rw [pms1_gapC hb1 hg1 ((h1.solid H).append _)]
        exact ih _ _ _ _ (by omega) h1 (H.ends_stop (.sp hb2 _))
      · rw [pms1_gapC hb2 hg2 ((h2.solid H).append _)]
        exact ih _ _ _ _ (by omega) h2 (H.ends_stop (.close r))
    | @multi _ g b1 g1 t1 b2 g2 u op a es hg0 hg hb1 hg1 h1 hb2 hg2 h2 hl =>
      simp only [paren, List.length_append, List.length_cons] at hn
      simp only [paren_append, List.append_assoc]
      have hi : Items (Elem p) es u := h2.mono fun a t h hl =>
        ⟨fun r hr => ih [] a t r (by omega) h (H.ends_stop hr), h.solid H⟩
      have e1 : preceded multispace1 p (b1 ++ (g1 ++ (t1 ++ (b2 ++ (g2 ++ (u ++ ')' :: r)))))) =
          .ok a (b2 ++ (g2 ++ (u ++ ')' :: r))) := by
        rw [pms1_gapC hb1 hg1 ((h1.solid H).append _)]
        exact ih _ _ _ _ (by omega) h1 (H.ends_stop (.sp hb2 _))
      have hbin : binP p (g0 ++ '(' :: (g ++ (op.spell ++ (b1 ++ (g1 ++ (t1 ++ (b2 ++ (g2 ++
          (u ++ ')' :: r))))))))) = .err := by
        obtain ⟨o, ho⟩ := parseBinaryOp_multi op (b1 ++ (g1 ++ (t1 ++ (b2 ++ (g2 ++ (u ++ ')' :: r))))))
        rw [binP, parens_gapC hg0]
        have hk := hg.skip_solid (op.spell_solid.append
          (b1 ++ (g1 ++ (t1 ++ (b2 ++ (g2 ++ (u ++ ')' :: r)))))))
        cases h2 with
        | @one e t h =>
          rcases hl with hl | ⟨hne, c, u', rfl, hc⟩
          · simp at hl
          · refine parens_err ?_
            rw [hk]
            refine pair_err2 ho (pair_err2 e1 ?_)
            rw [pms1_gapC hb2 hg2 ((h.solid H).append _)]
            exact H.tight_err hc hg2 hne
        | @cons e t g' es u h hg' hu =>
          simp only [List.length_append] at hn
          have e' : (t ++ (g' ++ u)) ++ ')' :: r = t ++ (g' ++ (u ++ ')' :: r)) := by simp
          rw [e'] at ho e1 hk ⊢
          rcases H.second ih (t := t) (by omega) h hg2 (.sep hg' (u ++ ')' :: r)) with ⟨_, _, h3⟩ | ⟨v', h3⟩
          · refine parens_err ?_
            rw [hk]
            refine pair_err2 ho (pair_err2 e1 ?_)
            rw [pms1_gapC hb2 hg2 ((h.solid H).append _)]
            exact h3
          · refine parens_tail (v := (o, a, v')) (y := g' ++ (u ++ ')' :: r)) ?_ ?_
            · rw [hk]
              refine pair_run ho (pair_run e1 ?_)
              rw [pms1_gapC hb2 hg2 ((h.solid H).append _)]
              exact h3
            · intro x hx
              obtain ⟨c, y, rfl, hc⟩ := sep_head hg'
              cases hx
              exact absurd hc (by decide)
      rw [H.eq, alt_miss (H.pre_miss hg0 _), alt_miss (map_err hbin)]
      refine alt_hit (map_run (a := (op, a, es)) ?_)
      rw [mulP, parens_gapC hg0]
      refine parens_run ?_
      rw [hg.skip_solid (op.spell_solid.append _)]
      refine pair_run (parseMultiOp_spell op _) (pair_run e1 ?_)
      rw [pms1_gapC hb2 hg2 (hi.solid.append _)]
      exact list1_items hi hg2.1 (.close r) (by rw [(solid_close r).skip, H.close])
    | @negative _ g b g1 t a hg0 hg hb hg1 h1 =>
      simp only [paren, List.length_append, List.length_cons] at hn
      simp only [paren_append, List.append_assoc]
      have hk : skip (g ++ (c!"-" ++ (b ++ (g1 ++ (t ++ ')' :: r))))) = '-' :: (b ++ (g1 ++ (t ++ ')' :: r))) :=
        hg.skip_solid (solid_dash _)
      have e1 : p (g1 ++ (t ++ ')' :: r)) = .ok a (')' :: r) :=
        ih _ _ _ _ (by omega) h1 (H.ends_stop (.close r))
      have hbin : binP p (g0 ++ '(' :: (g ++ (c!"-" ++ (b ++ (g1 ++ (t ++ ')' :: r)))))) = .err := by
        rw [binP, parens_gapC hg0]
        refine parens_err ?_
        rw [hk]
        refine pair_err2 (parseBinaryOp_spell .sub _) ?_
        by_cases hbn : b = []
        · subst hbn
          refine pair_err (preceded_err (multispace1_err ?_))
          exact hg1.no_space ((h1.solid H).append _)
        · refine pair_err2 (a := a) (r := ')' :: r) ?_ (preceded_err (ms1_solid (solid_close r)))
          exact (pms1_gapC ⟨hbn, hb⟩ hg1 ((h1.solid H).append _)).trans e1
      have hmul : mulP p (g0 ++ '(' :: (g ++ (c!"-" ++ (b ++ (g1 ++ (t ++ ')' :: r)))))) = .err := by
        rw [mulP, parens_gapC hg0]
        exact mul_miss_neg hg
      rw [H.eq, alt_miss (H.pre_miss hg0 _), alt_miss (map_err hbin), alt_miss (map_err hmul)]
      refine alt_hit (map_run ?_)
      rw [negP, parens_gapC hg0]
      refine parens_run ?_
      rw [hk]
      have hx : multispace0 (b ++ (g1 ++ (t ++ ')' :: r))) = .ok b (g1 ++ (t ++ ')' :: r)) := by
        have := takeWhile_all (f := isSpace) hb (hg1.no_space ((h1.solid H).append (')' :: r)))
        rw [multispace0, takeWhile0, this.1, this.2]
      rw [preceded_run (pair_run (a := '-') (r := b ++ (g1 ++ (t ++ ')' :: r))) (by simp [char]) hx)]
      exact e1

/-- Every text described is read. -/
theorem ArithRun.run (H : ArithRun p pre post bin mul neg tight Leaf E) {g v t r}
    (h : ArithX bin mul neg tight Leaf g v t) (hr : E v t r) : p (g ++ (t ++ r)) = .ok v r :=
  H.run_aux _ g v t r (Nat.le_refl _) h hr

/-! ## The forms with an operator -/

theorem ArithRun.bin_run (H : ArithRun p pre post bin mul neg tight Leaf E)
    {g0 g b1 g1 t1 b2 g2 t2 r : List Char} {op a b} (hg0 : GapC g0) (hg : Gap g)
    (hb1 : Sp b1) (hg1 : GapC g1) (h1 : ArithX bin mul neg tight Leaf g1 a t1)
    (hb2 : Sp b2) (hg2 : GapC g2) (h2 : ArithX bin mul neg tight Leaf g2 b t2) :
    binP p (g0 ++ (paren (g ++ (op.spell ++ (b1 ++ (g1 ++ (t1 ++ (b2 ++ (g2 ++ t2))))))) ++ r)) =
      .ok (op, a, b) r := by
  simp only [paren_append, List.append_assoc]
  rw [binP, parens_gapC hg0]
  refine parens_run ?_
  rw [hg.skip_solid (op.spell_solid.append _)]
  refine pair_run (parseBinaryOp_spell op _) (pair_run (r := b2 ++ (g2 ++ (t2 ++ ')' :: r))) ?_ ?_)
  · rw [pms1_gapC hb1 hg1 ((h1.solid H).append _)]
    exact H.run h1 (H.ends_stop (.sp hb2 _))
  · rw [pms1_gapC hb2 hg2 ((h2.solid H).append _)]
    exact H.run h2 (H.ends_stop (.close r))

theorem ArithRun.mul_run (H : ArithRun p pre post bin mul neg tight Leaf E)
    {g0 g b1 g1 t1 b2 g2 u r : List Char} {op a es} (hg0 : GapC g0) (hg : Gap g)
    (hb1 : Sp b1) (hg1 : GapC g1) (h1 : ArithX bin mul neg tight Leaf g1 a t1)
    (hb2 : Sp b2) (hg2 : GapC g2) (h2 : Items (ArithX bin mul neg tight Leaf []) es u) :
    mulP p (g0 ++ (paren (g ++ (op.spell ++ (b1 ++ (g1 ++ (t1 ++ (b2 ++ (g2 ++ u))))))) ++ r)) =
      .ok (op, a, es) r := by
  have hi : Items (Elem p) es u := h2.mono fun a t h _ =>
    ⟨fun r hr => H.run (g := []) h (H.ends_stop hr), h.solid H⟩
  simp only [paren_append, List.append_assoc]
  rw [mulP, parens_gapC hg0]
  refine parens_run ?_
  rw [hg.skip_solid (op.spell_solid.append _)]
  refine pair_run (parseMultiOp_spell op _) (pair_run (r := b2 ++ (g2 ++ (u ++ ')' :: r))) ?_ ?_)
  · rw [pms1_gapC hb1 hg1 ((h1.solid H).append _)]
    exact H.run h1 (H.ends_stop (.sp hb2 _))
  · rw [pms1_gapC hb2 hg2 (hi.solid.append _)]
    exact list1_items hi hg2.1 (.close r) (by rw [(solid_close r).skip, H.close])

theorem ArithRun.neg_run (H : ArithRun p pre post bin mul neg tight Leaf E)
    {g0 g b g1 t r : List Char} {a} (hg0 : GapC g0) (hg : Gap g) (hb : Sp0 b) (hg1 : GapC g1)
    (h1 : ArithX bin mul neg tight Leaf g1 a t) :
    negP p (g0 ++ (paren (g ++ (c!"-" ++ (b ++ (g1 ++ t)))) ++ r)) = .ok a r := by
  simp only [paren_append, List.append_assoc]
  rw [negP, parens_gapC hg0]
  refine parens_run ?_
  have hk : skip (g ++ (c!"-" ++ (b ++ (g1 ++ (t ++ ')' :: r))))) = '-' :: (b ++ (g1 ++ (t ++ ')' :: r))) :=
    hg.skip_solid (solid_dash _)
  rw [hk]
  have hx : multispace0 (b ++ (g1 ++ (t ++ ')' :: r))) = .ok b (g1 ++ (t ++ ')' :: r)) := by
    have := takeWhile_all (f := isSpace) hb (hg1.no_space ((h1.solid H).append (')' :: r)))
    rw [multispace0, takeWhile0, this.1, this.2]
  rw [preceded_run (pair_run (a := '-') (r := b ++ (g1 ++ (t ++ ')' :: r))) (by simp [char]) hx)]
  exact H.run h1 (H.ends_stop (.close r))

/-- What a layout and text read as `v` look like. -/
abbrev Arith.Read (bin : BinaryOp → α → α → α) (mul : MultiOp → α → List α → α) (neg : α → α)
    (tight : Char → Bool) (Leaf : List Char → α → List Char → Prop)
    (E : α → List Char → List Char → Prop) (s : List Char) (v : α) (r : List Char) : Prop :=
  ∃ g t, s = g ++ (t ++ r) ∧ ArithX bin mul neg tight Leaf g v t ∧ E v t r

theorem Arith.operand (H : Arith p pre post bin mul neg tight Leaf E) {n : Nat}
    (ih : ∀ s v r, s.length < n → p s = .ok v r → Arith.Read bin mul neg tight Leaf E s v r)
    {x : List Char} {a : α} {r : List Char} (hn : x.length < n)
    (h : preceded multispace1 p x = .ok a r) :
    ∃ b g t, x = b ++ (g ++ (t ++ r)) ∧ Sp b ∧ GapC g ∧ ArithX bin mul neg tight Leaf g a t := by
  obtain ⟨b, y, rfl, hb, hy, h⟩ := pms1_inv h
  obtain ⟨g, t, rfl, h, _⟩ := ih y a r (by simp at hn; omega) h
  exact ⟨b, g, t, rfl, hb, .of_no_space (h.gap H.toArithRun) hy, h⟩

theorem Arith.operands (H : Arith p pre post bin mul neg tight Leaf E) {n : Nat}
    (ih : ∀ s v r, s.length < n → p s = .ok v r → Arith.Read bin mul neg tight Leaf E s v r)
    {x : List Char} {es : List α} {r : List Char} (hn : x.length < n)
    (h : preceded multispace1 (spaceSeparatedList1 p) x = .ok es r) :
    ∃ b g u, x = b ++ (g ++ (u ++ r)) ∧ Sp b ∧ GapC g ∧ Items (ArithX bin mul neg tight Leaf []) es u := by
  obtain ⟨b, y, rfl, hb, hy, h⟩ := pms1_inv h
  let q : P α := fun s => if s.length < n then p s else .err
  have hq : Good 1 n p q := fun s hs => by
    have := H.good n s hs
    simp only [q, if_pos hs]
    exact this
  rw [((hq.spaceSeparatedList1) y (by simp at hn; omega)).1, list1_ws] at h
  have hs : Snd Any Gap (ws q) (ArithX bin mul neg tight Leaf []) := by
    intro s v r hs _
    rw [ws_eq] at hs
    simp only [q] at hs
    split at hs
    · obtain ⟨g, t, e, ht, _⟩ := ih _ _ _ (by assumption) hs
      have e' := skip_skip s
      rw [e, (ht.gap H.toArithRun).skip_solid ((ht.solid H.toArithRun).append r)] at e'
      have hg : g = [] := by simpa using e'
      subst hg
      rw [List.nil_append] at e
      obtain ⟨g, h1, h2⟩ := skip_gap (s := s) (by rw [e]; exact ((ht.solid H.toArithRun).append r).ne)
      rw [e] at h1
      exact ⟨g, t, h1, h2, ht⟩
    · cases hs
  obtain ⟨g, u, rfl, hg, hu⟩ := hs.list1 (fun _ _ h => (h.solid H.toArithRun).ne) _ _ _ h trivial
  exact ⟨b, g, u, rfl, hb, .of_no_space hg hy, hu⟩

theorem parens_invC {p : P α} {s a r} (h : parens p s = .ok a r) :
    ∃ g x, s = g ++ '(' :: x ∧ GapC g ∧ p (skip x) = .ok a (')' :: r) := by
  obtain ⟨x, h1, h2⟩ := parens_inv_skip h
  obtain ⟨g, rfl, hg⟩ := skipC_open h1
  exact ⟨g, x, rfl, hg, h2⟩

theorem Arith.sound_aux (H : Arith p pre post bin mul neg tight Leaf E) (n : Nat) : ∀ s v r,
    s.length < n → p s = .ok v r → Arith.Read bin mul neg tight Leaf E s v r := by
  induction n with
  | zero => intro s v r h; simp at h
  | succ n ih =>
    intro s v r hn h
    rw [H.eq] at h
    rcases alt_inv h with h | ⟨hpre, h⟩
    · obtain ⟨t, rfl, h1, h2⟩ := H.pre_ok h
      exact ⟨[], t, rfl, .leaf h1, h2⟩
    rcases alt_inv h with h | ⟨hbin, h⟩
    · obtain ⟨⟨op, a, b⟩, h1, rfl⟩ := map_ok h
      obtain ⟨g0, x, rfl, hg0, h2⟩ := parens_invC h1
      obtain ⟨r1, h3, h4⟩ := pair_ok h2
      obtain ⟨o, h3, h6⟩ := C41_binaryOp.sound _ _ _ h3
      have h6 : o = op.spell := h6.resolve_right (by intro h; cases h)
      subst h6
      obtain ⟨g, hx, hg⟩ := skip_gap (s := x) (by rw [h3]; exact (op.spell_solid.append _).ne)
      rw [h3] at hx
      subst hx
      obtain ⟨r2, h4, h5⟩ := pair_ok h4
      simp only [List.length_append, List.length_cons] at hn
      obtain ⟨b1, g1, t1, rfl, hb1, hg1, k1⟩ := H.operand ih (by omega) h4
      simp only [List.length_append, List.length_cons] at hn
      obtain ⟨b2, g2, t2, rfl, hb2, hg2, k2⟩ := H.operand ih (by omega) h5
      exact ⟨g0, paren (g ++ (op.spell ++ (b1 ++ (g1 ++ (t1 ++ (b2 ++ (g2 ++ t2))))))), by simp [paren],
        .binary hg0 hg hb1 hg1 k1 hb2 hg2 k2, H.ends_bin⟩
    rcases alt_inv h with h | ⟨hmul, h⟩
    · obtain ⟨⟨op, a, es⟩, h1, rfl⟩ := map_ok h
      obtain ⟨g0, x, rfl, hg0, h2⟩ := parens_invC h1
      obtain ⟨r1, h3, h4⟩ := pair_ok h2
      obtain ⟨o, h3, h6⟩ := C41_multiOp.sound _ _ _ h3
      have h6 : o = op.spell := h6.resolve_right (by intro h; cases h)
      subst h6
      obtain ⟨g, hx, hg⟩ := skip_gap (s := x) (by rw [h3]; exact (op.spell_solid.append _).ne)
      rw [h3] at hx
      subst hx
      obtain ⟨r2, h4, h5⟩ := pair_ok h4
      simp only [List.length_append, List.length_cons] at hn
      obtain ⟨b1, g1, t1, rfl, hb1, hg1, k1⟩ := H.operand ih (by omega) h4
      simp only [List.length_append, List.length_cons] at hn
      obtain ⟨b2, g2, u, rfl, hb2, hg2, k2⟩ := H.operands ih (by omega) h5
      refine ⟨g0, paren (g ++ (op.spell ++ (b1 ++ (g1 ++ (t1 ++ (b2 ++ (g2 ++ u))))))), by simp [paren],
        .multi hg0 hg hb1 hg1 k1 hb2 hg2 k2 ?_, H.ends_mul⟩
      cases k2 with
      | @one e t k2 =>
        right
        rcases H.second (fun g v t r _ h => H.run h) (Nat.le_refl _) k2 hg2 (.close r) with
          ⟨hne, hc, _⟩ | ⟨v', hv⟩
        · exact ⟨hne, hc⟩
        · exfalso
          obtain ⟨o, ho⟩ := parseBinaryOp_multi op (b1 ++ (g1 ++ (t1 ++ (b2 ++ (g2 ++ (u ++ ')' :: r))))))
          have : binP p (g0 ++ '(' :: (g ++ (op.spell ++ (b1 ++ (g1 ++ (t1 ++ (b2 ++ (g2 ++
              (u ++ ')' :: r))))))))) = .ok (o, a, v') r := by
            rw [binP, parens_gapC hg0]
            refine parens_run ?_
            rw [hg.skip_solid (op.spell_solid.append _)]
            refine pair_run ho (pair_run h4 ?_)
            rw [pms1_gapC hb2 hg2 ((k2.solid H.toArithRun).append _)]
            exact hv
          rw [map_run this] at hbin
          cases hbin
      | cons _ _ k3 => left; cases k3 <;> simp
    rcases alt_inv h with h | ⟨hneg, h⟩
    · obtain ⟨a, h1, rfl⟩ := map_ok h
      obtain ⟨g0, x, rfl, hg0, h2⟩ := parens_invC h1
      obtain ⟨⟨c, b⟩, y, h3, h4⟩ := preceded_ok h2
      obtain ⟨z, h5, h6⟩ := pair_ok h3
      have h5 := char_inv h5
      obtain ⟨g, hx, hg⟩ := skip_gap (s := x) (by rw [h5]; simp)
      rw [h5] at hx
      subst hx
      obtain ⟨rfl, hb⟩ := ms0_inv h6
      simp only [List.length_append, List.length_cons] at hn
      obtain ⟨g1, t, rfl, h7, _⟩ := ih y a _ (by omega) h4
      refine ⟨g0, paren (g ++ (c!"-" ++ (b ++ (g1 ++ t)))), by simp [paren],
        .negative hg0 hg hb (.of_no_space (h7.gap H.toArithRun) (ms0_next h6)) h7, H.ends_neg⟩
    rcases alt_inv h with h | ⟨_, h⟩
    · have e {β : Type} {f : β → α} {q : P β} {s} (h : map f q s = .err) : q s = .err := by
        unfold map Res.bind at h
        cases hq : q s <;> rw [hq] at h <;> first | rfl | cases h
      obtain ⟨g, t, h1, h2, h3⟩ := H.post_ok h (e hbin) (e hmul) (e hneg)
      exact ⟨g, t, h1, .leaf h2, h3⟩
    cases h

/-- Exactly the texts described are read. -/
theorem Arith.iff (H : Arith p pre post bin mul neg tight Leaf E) (s v r) :
    p s = .ok v r ↔ ∃ g t, s = g ++ (t ++ r) ∧ ArithX bin mul neg tight Leaf g v t ∧ E v t r :=
  ⟨H.sound_aux _ s v r (Nat.lt_succ_self _), fun ⟨_, _, hs, h, hr⟩ => by rw [hs]; exact H.run h hr⟩

end

/-- A change of the leaves. -/
theorem ArithX.map_aux {α β : Type} {bin : BinaryOp → α → α → α} {mul : MultiOp → α → List α → α}
    {neg : α → α} {tight : Char → Bool} {Leaf : List Char → α → List Char → Prop}
    {bin' : BinaryOp → β → β → β} {mul' : MultiOp → β → List β → β}
    {neg' : β → β} {tight' : Char → Bool} {Leaf' : List Char → β → List Char → Prop}
    (hL : ∀ g v t, Leaf g v t → ∃ v', Leaf' g v' t) (ht : ∀ c, tight c = true → tight' c = true) (n : Nat) :
    ∀ g v t, t.length ≤ n → ArithX bin mul neg tight Leaf g v t →
      ∃ v', ArithX bin' mul' neg' tight' Leaf' g v' t := by
  induction n with
  | zero =>
    intro g v t hn h
    cases h with
    | leaf h =>
      obtain ⟨v', h⟩ := hL _ _ _ h
      exact ⟨v', .leaf h⟩
    | _ => simp [paren] at hn
  | succ n ih =>
    intro g v t hn h
    cases h with
    | leaf h =>
      obtain ⟨v', h⟩ := hL _ _ _ h
      exact ⟨v', .leaf h⟩
    | binary hg0 hg hb1 hg1 h1 hb2 hg2 h2 =>
      simp only [paren, List.length_append, List.length_cons] at hn
      obtain ⟨_, h1⟩ := ih _ _ _ (by omega) h1
      obtain ⟨_, h2⟩ := ih _ _ _ (by omega) h2
      exact ⟨_, .binary hg0 hg hb1 hg1 h1 hb2 hg2 h2⟩
    | multi hg0 hg hb1 hg1 h1 hb2 hg2 h2 hl =>
      simp only [paren, List.length_append, List.length_cons] at hn
      obtain ⟨_, h1⟩ := ih _ _ _ (by omega) h1
      obtain ⟨es', h2, e⟩ := Items.map_ex (fun a t hl h => ih [] a t (by omega) h) h2
      refine ⟨_, .multi hg0 hg hb1 hg1 h1 hb2 hg2 h2 ?_⟩
      rw [e]
      exact hl.imp id fun ⟨hne, c, u', hu, hc⟩ => ⟨hne, c, u', hu, ht c hc⟩
    | negative hg0 hg hb hg1 h1 =>
      simp only [paren, List.length_append, List.length_cons] at hn
      obtain ⟨_, h1⟩ := ih _ _ _ (by omega) h1
      exact ⟨_, .negative hg0 hg hb hg1 h1⟩

end Pddl
