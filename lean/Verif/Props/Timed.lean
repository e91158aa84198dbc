import Verif.Props.Shape

/-!
# C51: assignments in timed effects

`(at start E)` first tries to read `E` as a numeric assignment (`parse_timed_effect`,
`/repo/src/parsers/timed_effect.rs:54-89`), and a numeric expression may be a bare name, so an
assignment of an object constant, or of `undefined`, becomes a numeric assignment of a fluent with
that name. The claim is false (`C51_false`, `C51_false_undefined`, `C51_false_function`). What
holds: numeric assignments keep their operator, target and expression; assignments of variables and
everything inside `(and ..)` keep their meaning.
-/

namespace Pddl

/-- The function term with the same symbol and arguments. -/
def FHead.term : FHead → FunctionTerm
  | .simple f => ⟨f, []⟩
  | .withTerms f ts => ⟨f, ts⟩

theorem FHeadW.toTerm {h : FHead} {t : List Char} (H : FHeadW .strict h t) (ht : t.head? = some '(') :
    FnTermW .strict h.term t := by
  cases H with
  | bare h =>
    obtain ⟨c, cs, rfl, hc, _⟩ := h.1
    cases ht
    exact absurd hc (by decide)
  | @simple g f t g' hg hf hg' =>
    cases (show g' = [] from hg')
    exact .mk hg hf (.nil .nil)
  | @terms g f t ts u hg hf h _ => exact .mk hg hf h

/-- The text `(at <time> E)`. -/
def atText (g1 : List Char) (ts : TimeSpecifier) (g2 e g3 : List Char) : List Char :=
  paren (c!"at" ++ (g1 ++ (ts.spell ++ (g2 ++ (e ++ g3)))))

/-- The text `(assign <target> <value>)`. -/
def assignText (g1 t g2 u : List Char) : List Char := paren (c!"assign" ++ (g1 ++ (t ++ (g2 ++ u))))

/-! ## What is wrong -/

theorem timed_numeric {op : AssignOp} {h : FHead} {e : FExpDa} {s t u g0 k0 k1 k2 k3 : List Char} (hk0 : Sep k0)
    (hk1 : Sep k1) (hk2 : Gap k2) (ts : TimeSpecifier) (hg0 : Gap g0) (hs : AssignOpW op s) (hk : Sep k3) (hh : FHeadW .strict h t)
    {g2 : List Char} (hg2 : Sp g2) (he : FExpDaW .strict e u) (r : List Char) :
    parseTimedEffect (atText k0 ts k1 (paren (g0 ++ (s ++ (k3 ++ (t ++ (g2 ++ u)))))) k2 ++ r) =
      .ok (.numericFluent ts ⟨op, h, e⟩) r := by
  have hw := FAssignDaW.mk (m := .strict) (g3 := []) hg0 hs hk hh hg2 he rfl
  simp only [List.append_nil] at hw
  exact (TimedEffectW.numericFluent (m := .strict) hk0 hk1 hw hk2).acc r trivial

/-- For every target `(f ..)`, object constant `x` and time: outside a timed effect `(assign (f ..) x)`
assigns the object `x`; within one it is a numeric assignment of the value of the fluent `x`. -/
theorem C51_false {h : FHead} {x : Name} {t u g1 g2 : List Char} (hg1 : Sep g1) (hh : FHeadW .strict h t)
    (ht : t.head? = some '(') (hg2 : Sp g2) (hx : NameW x u) (hu : u ≠ c!"undefined") :
    (∀ r, parsePEffect (assignText g1 t g2 u ++ r) = .ok (.assignObject h.term (some (.name x))) r) ∧
      ∀ (ts : TimeSpecifier) {k0 k1 k2 : List Char}, Sep k0 → Sep k1 → Gap k2 → ∀ r,
        parseTimedEffect (atText k0 ts k1 (assignText g1 t g2 u) k2 ++ r) =
          .ok (.numericFluent ts ⟨.assign, h, .fExp (.function (.simple x))⟩) r := by
  constructor
  · intro r
    have := PEffectW.object (m := .strict) (g3 := []) hg1.gap (hh.toTerm ht) hg2 (.name hx) .nil fun _ => hu
    simp only [List.append_nil] at this
    exact this.acc r trivial
  · intro ts k0 k1 k2 hk0 hk1 hk2 r
    exact timed_numeric hk0 hk1 hk2 ts (g0 := []) .nil .assign hg1 hh hg2
      (.fExp (.function (.bare hx)) fun _ => trivial) r

/-- Likewise `(assign (f ..) undefined)` makes `f` undefined outside a timed effect, and assigns the
value of a fluent called `undefined` within one. -/
theorem C51_false_undefined {h : FHead} {t g1 g2 : List Char} (hg1 : Sep g1) (hh : FHeadW .strict h t)
    (ht : t.head? = some '(') (hg2 : Sp g2) :
    (∀ r, parsePEffect (assignText g1 t g2 c!"undefined" ++ r) = .ok (.assignObject h.term none) r) ∧
      ∀ (ts : TimeSpecifier) {k0 k1 k2 : List Char}, Sep k0 → Sep k1 → Gap k2 → ∀ r,
        parseTimedEffect (atText k0 ts k1 (assignText g1 t g2 c!"undefined") k2 ++ r) =
          .ok (.numericFluent ts ⟨.assign, h, .fExp (.function (.simple (.new c!"undefined")))⟩) r := by
  constructor
  · intro r
    have := PEffectW.undefined (m := .strict) (g3 := []) hg1.gap (hh.toTerm ht) hg2 .nil
    simp only [List.append_nil] at this
    exact this.acc r trivial
  · intro ts k0 k1 k2 hk0 hk1 hk2 r
    exact timed_numeric hk0 hk1 hk2 ts (g0 := []) .nil .assign hg1 hh hg2
      (.fExp (.function (.bare ⟨isWord_undefined, rfl⟩)) fun _ => trivial) r

/-- And `(assign (f ..) (g ..))` assigns the object `(g ..)` outside a timed effect, and the number
`(g ..)` within one. -/
theorem C51_false_function {h k : FHead} {t u g1 g2 : List Char} (hg1 : Sep g1) (hh : FHeadW .strict h t)
    (ht : t.head? = some '(') (hg2 : Sp g2) (hk : FHeadW .strict k u) (hu : u.head? = some '(') :
    (∀ r, parsePEffect (assignText g1 t g2 u ++ r) =
        .ok (.assignObject h.term (some (.fn k.term.symbol k.term.terms))) r) ∧
      ∀ (ts : TimeSpecifier) {k0 k1 k2 : List Char}, Sep k0 → Sep k1 → Gap k2 → ∀ r,
        parseTimedEffect (atText k0 ts k1 (assignText g1 t g2 u) k2 ++ r) =
          .ok (.numericFluent ts ⟨.assign, h, .fExp (.function k)⟩) r := by
  constructor
  · intro r
    have hT : TermW .strict (.fn k.term.symbol k.term.terms) u := by
      have hk := hk.toTerm hu
      generalize k.term = v at *
      cases hk with
      | mk a b c => exact .fn a b c
    have := PEffectW.object (m := .strict) (g3 := []) hg1.gap (hh.toTerm ht) hg2 hT .nil
      fun _ => by rintro rfl; exact absurd hu (by decide)
    simp only [List.append_nil] at this
    exact this.acc r trivial
  · intro ts k0 k1 k2 hk0 hk1 hk2 r
    exact timed_numeric hk0 hk1 hk2 ts (g0 := []) .nil .assign hg1 hh hg2
      (.fExp (.function hk) fun _ => trivial) r

private theorem head_f : FHeadW .strict (.simple (.new c!"f")) c!"(f)" :=
  .simple (g := []) (g' := []) .nil ⟨isWord_of 'f' [] rfl rfl, rfl⟩ rfl

example : parsePEffect c!"(assign (f) x)" = .ok (.assignObject ⟨.new c!"f", []⟩ (some (.name (.new c!"x")))) [] ∧
    parseTimedEffect c!"(at start (assign (f) x))" =
      .ok (.numericFluent .start ⟨.assign, .simple (.new c!"f"), .fExp (.function (.simple (.new c!"x")))⟩) [] := by
  have := C51_false (g1 := [' ']) (g2 := [' ']) sep_blank head_f rfl sp_blank
    (x := .new c!"x") (u := c!"x") ⟨isWord_of 'x' [] rfl rfl, rfl⟩ (by decide)
  exact ⟨this.1 [], this.2 .start (k0 := [' ']) (k1 := [' ']) (k2 := []) sep_blank sep_blank .nil []⟩

example : parseTimedEffect c!"(at start (assign (f) undefined))" =
      .ok (.numericFluent .start ⟨.assign, .simple (.new c!"f"), .fExp (.function (.simple (.new c!"undefined")))⟩) [] :=
  (C51_false_undefined (g1 := [' ']) (g2 := [' ']) sep_blank head_f rfl sp_blank).2 .start
    (k0 := [' ']) (k1 := [' ']) (k2 := []) sep_blank sep_blank .nil []

/-! ## What holds -/

mutual
/-- The same numeric expression in a durative effect: operators, order and operands are kept. -/
def FExp.lift : FExp → FExpDa
  | .number n => .fExp (.number n)
  | .function h => .fExp (.function h)
  | .negative e => .negative e.lift
  | .binaryOp op a b => .binaryOp op a.lift b.lift
  | .multiOp op a bs => .multiOp op a.lift (FExp.lifts bs)
/-- Likewise for lists. -/
def FExp.lifts : List FExp → List FExpDa
  | [] => []
  | e :: es => e.lift :: FExp.lifts es
end

theorem FExp.lifts_eq (es : List FExp) : FExp.lifts es = es.map FExp.lift := by
  induction es with
  | nil => rw [FExp.lifts]; rfl
  | cons e es ih => rw [FExp.lifts, ih]; rfl

theorem Items.mapTo {R : α → List Char → Prop} {Q : β → List Char → Prop} {f : α → β} {as : List α}
    {u : List Char} (h : Items R as u) (hR : ∀ a t, R a t → Q (f a) t) : Items Q (as.map f) u := by
  induction h with
  | one h => exact .one (hR _ _ h)
  | cons h hg _ ih => exact .cons (hR _ _ h) hg ih

theorem FExpW.lift_aux (n : Nat) : ∀ e t, t.length ≤ n → FExpW .strict e t → FExpDaW .strict e.lift t := by
  induction n with
  | zero =>
    intro v t hn h
    obtain ⟨c, r, rfl, _⟩ := h.solid
    simp at hn
  | succ n ih =>
    intro v t hn h
    cases h with
    | number h => rw [FExp.lift]; exact .fExp (.number h) fun _ => trivial
    | function h => rw [FExp.lift]; exact .fExp (.function h) fun _ => trivial
    | negative h0 hg h hg' =>
      rw [FExp.lift]
      simp only [paren, List.length_append, List.length_cons] at hn
      exact .negative h0 hg (ih _ _ (by omega) h) hg'
    | binaryOp h0 h1 ha h2 hb h3 =>
      rw [FExp.lift]
      simp only [paren, List.length_append, List.length_cons] at hn
      exact .binaryOp h0 h1 (ih _ _ (by omega) ha) h2 (ih _ _ (by omega) hb) h3
    | multiOp h0 h1 ha h2 hb h3 hl =>
      rw [FExp.lift, FExp.lifts_eq]
      simp only [paren, List.length_append, List.length_cons] at hn
      refine .multiOp h0 h1 (ih _ _ (by omega) ha) h2 ?_ h3 (by simpa [Mode.wide] using hl)
      exact (Items.mono hb fun a t h hl => (⟨h, hl⟩ : FExpW .strict a t ∧ t.length ≤ _)).mapTo
        fun a t h => ih a t (by have := h.2; omega) h.1

/-- A spelling of a numeric expression is a spelling of the same expression in a durative effect. -/
theorem FExpW.lift {e : FExp} {t : List Char} (h : FExpW .strict e t) : FExpDaW .strict e.lift t :=
  FExpW.lift_aux _ e t (Nat.le_refl _) h

/-- Numeric updates: every update read as numeric outside a timed effect is read within one as the
numeric update with the same operator, target and expression. -/
theorem C51_numeric_partial {op : AssignOp} {h : FHead} {e : FExp} {s t u g0 g1 g2 : List Char} (hg0 : Gap g0)
    (hs : AssignOpW op s) (hg1 : Sep g1) (hh : FHeadW .strict h t) (hg2 : Sp g2) (he : FExpW .strict e u)
    (hne : s = c!"assign" → t.head? = some '(' → ¬ e.isFunction) :
    (∀ r, parsePEffect (paren (g0 ++ (s ++ (g1 ++ (t ++ (g2 ++ u))))) ++ r) = .ok (.assignNumeric op h e) r) ∧
      ∀ (ts : TimeSpecifier) {k0 k1 k2 : List Char}, Sep k0 → Sep k1 → Gap k2 → ∀ r,
        parseTimedEffect (atText k0 ts k1 (paren (g0 ++ (s ++ (g1 ++ (t ++ (g2 ++ u)))))) k2 ++ r) =
          .ok (.numericFluent ts ⟨op, h, e.lift⟩) r := by
  constructor
  · intro r
    have := PEffectW.numeric (m := .strict) (g3 := []) hg0 hs hg1 hh hg2 he rfl fun _ => hne
    simp only [List.append_nil] at this
    exact this.acc r trivial
  · intro ts k0 k1 k2 hk0 hk1 hk2 r
    exact timed_numeric hk0 hk1 hk2 ts hg0 hs hg1 hh hg2 he.lift r

theorem parseFExpDa_var_err {x : Name} {u : List Char} (hx : VarW .strict x u) (hd : x.text ≠ c!"duration")
    (r : List Char) : parseFExpDa (u ++ ')' :: r) = .err ∨
      ∃ v y, parseFExpDa (u ++ ')' :: r) = .ok v y ∧ ∀ z, y ≠ ')' :: z := by
  obtain ⟨g, w, rfl, hg, hw⟩ := hx
  cases (show g = [] from hg)
  rw [parseFExpDa_eq, fExpDaBody, List.nil_append, List.cons_append]
  by_cases hp : ∃ y, w = c!"duration" ++ y
  · obtain ⟨y, rfl⟩ := hp
    refine .inr ⟨.duration, y ++ ')' :: r, alt_hit (map_run (a := c!"?duration") ?_), ?_⟩
    · exact tag_ok c!"?duration" (y ++ ')' :: r)
    · cases y with
      | nil => exact absurd hw.text (by simpa using hd)
      | cons c y =>
        have hc := hw.1.append_cons (by simp)
        intro z hz
        injection hz with hz
        subst hz
        exact absurd hc (by decide)
  · left
    have ht : tag c!"?duration" ('?' :: (w ++ ')' :: r)) = .err := by
      refine tag_err ?_
      have := stripPrefix_word (kw := c!"duration") (isWord_of _ _ rfl rfl) hw.1 (.close r) fun y hy => hp ⟨y, hy⟩
      simpa [stripPrefix] using this
    rw [alt_miss (map_err ht), alt_miss (map_err (parens_head (by decide) (by decide))),
      alt_miss (map_err (parens_head (by decide) (by decide))),
      alt_miss (map_err (parens_head (by decide) (by decide))), alt_miss (map_err (parseFExp_var _)), alt_nil]

/-- Assignment of a variable: the same object assignment as outside. The one exception is a variable
called `?duration`, which is the duration of the action there. -/
theorem C51_variable_partial {h : FHead} {x : Name} {t u g1 g2 : List Char} (hg1 : Sep g1) (hh : FHeadW .strict h t)
    (ht : t.head? = some '(') (hg2 : Sp g2) (hx : VarW .strict x u) (hd : x.text ≠ c!"duration")
    (ts : TimeSpecifier) {k0 k1 k2 : List Char} (hk0 : Sep k0) (hk1 : Sep k1) (hk2 : Gap k2) (r : List Char) :
    parseTimedEffect (atText k0 ts k1 (assignText g1 t g2 u) k2 ++ r) =
      .ok (.conditional ts (.single (.assignObject h.term (some (.var x))))) r := by
  have hu : Solid u := hx.solid
  have hE : CondEffectW .strict (.single (.assignObject h.term (some (.var x)))) (assignText g1 t g2 u) := by
    have := PEffectW.object (m := .strict) (g3 := []) hg1.gap (hh.toTerm ht) hg2 (.var hx) .nil fun _ => by
      rintro rfl
      obtain ⟨_, _, h, _⟩ := hx
      cases h
    simp only [List.append_nil] at this
    exact .single this
  have hA : ∀ y, parseFAssignDa (assignText g1 t g2 u ++ y) = .err := by
    intro y
    refine map_err ?_
    rw [assignText, paren_append]
    simp only [List.append_assoc]
    have hs : AssignOpW .assign c!"assign" := .assign
    have h1 := hs.acc (g1 ++ (t ++ (g2 ++ (u ++ ')' :: y)))) trivial
    have h2 : preceded multispace1 parseFHead (g1 ++ (t ++ (g2 ++ (u ++ ')' :: y)))) = .ok h (g2 ++ (u ++ ')' :: y)) := by
      rw [pms1_sep parseFHead_ct hg1 (hh.solid.append _)]
      exact hh.acc _ (.sp hg2 _)
    have h3 : preceded multispace1 parseFExpDa (g2 ++ (u ++ ')' :: y)) = parseFExpDa (u ++ ')' :: y) :=
      pms1_sp hg2 (hu.append _)
    rcases parseFExpDa_var_err hx hd y with he | ⟨v, z, he, hz⟩
    · refine parens_err ?_
      rw [(isWord_assign.solid.append _).skip]
      exact pair_err2 h1 (pair_err2 h2 (h3.trans he))
    · refine parens_tail (v := (.assign, h, v)) (y := z) ?_ hz
      rw [(isWord_assign.solid.append _).skip]
      exact pair_run h1 (pair_run h2 (h3.trans he))
  rw [parseTimedEffect, alt_miss (map_err ?_)]
  · exact alt_hit (map_run (a := (ts, _)) (prefix_two hk0.gap ts.elem.1 ts.spell_solid
      hk1 parseCondEffect_ct hE.elem.1 hE.solid hk2 r trivial))
  · simp only [atText, paren_append, List.append_assoc]
    refine prefixExpr_body_err ?_
    rw [hk0.gap.skip_solid (ts.spell_solid.append _)]
    refine pair_err2 (ts.acc _ trivial) ?_
    rw [pms1_sep parseFAssignDa_ct hk1 (hE.solid.append _)]
    exact hA _

/-- Inside `(and ..)` every effect is read as outside a timed effect. -/
theorem C51_and_partial {es : List PEffect} {u : List Char} (h : Sec Gap Gap (Items (PEffectW .strict)) es u)
    (ts : TimeSpecifier) {k0 k1 k2 : List Char} (hk0 : Sep k0) (hk1 : Sep k1) (hk2 : Gap k2) (r : List Char) :
    parseTimedEffect (atText k0 ts k1 (paren (c!"and" ++ u)) k2 ++ r) = .ok (.conditional ts (.all es)) r :=
  (TimedEffectW.conditional (m := .strict) hk0 hk1 (.all h) hk2 fun _ => trivial).acc r trivial

/-- An effect other than an assignment is read as outside a timed effect. -/
theorem C51_literal_partial {e : PEffect} {u : List Char} (h : PEffectW .strict e u)
    (hne : (CondEffect.single e).notAssignment)
    (ts : TimeSpecifier) {k0 k1 k2 : List Char} (hk0 : Sep k0) (hk1 : Sep k1) (hk2 : Gap k2) (r : List Char) :
    parseTimedEffect (atText k0 ts k1 u k2 ++ r) = .ok (.conditional ts (.single e)) r :=
  (TimedEffectW.conditional (m := .strict) hk0 hk1 (.single h) hk2 fun _ => hne).acc r trivial

example : parseTimedEffect c!"(at end (increase (f) (+ 1 (* 2 x))))" =
    .ok (.numericFluent .end_ ⟨.increase, .simple (.new c!"f"), .binaryOp .add (.fExp (.number (Ex.num 1 0)))
      (.binaryOp .mul (.fExp (.number (Ex.num 2 0))) (.fExp (.function (.simple (.new c!"x")))))⟩) [] := by
  have := (C51_numeric_partial (g0 := []) (g1 := [' ']) (g2 := [' ']) (u := c!"(+ 1 (* 2 x))")
    (e := .binaryOp .add (.number (Ex.num 1 0)) (.binaryOp .mul (.number (Ex.num 2 0)) (.function (.simple (.new c!"x")))))
    .nil .increase sep_blank head_f sp_blank ?_ nofun).2 .end_ (k0 := [' ']) (k1 := [' ']) (k2 := []) sep_blank sep_blank .nil []
  · exact this
  · have n : ∀ k d : Nat, NumW (Ex.num k 0) [Nat.digitChar d] → FExpW .strict (.number (Ex.num k 0)) [Nat.digitChar d] :=
      fun _ _ h => .number h
    refine .binaryOp (g0 := []) (g1 := [' ']) (g2 := [' ']) (g3 := []) (t1 := c!"1") (t2 := c!"(* 2 x)") .nil sp_blank
      (.number ?_) sp_blank (.binaryOp (op := .mul) (g0 := []) (g1 := [' ']) (g2 := [' ']) (g3 := []) (t1 := c!"2") (t2 := c!"x") .nil
        sp_blank (.number ?_) sp_blank (.function (.bare ⟨isWord_of 'x' [] rfl rfl, rfl⟩)) rfl) rfl
    · exact (by decide +kernel : (Ex.num 1 0).print = c!"1") ▸ Number.print_w (by decide +kernel)
    · exact (by decide +kernel : (Ex.num 2 0).print = c!"2") ▸ Number.print_w (by decide +kernel)

example : parseTimedEffect c!"(at start (assign (f) ?duration-x))" =
    .ok (.conditional .start (.single (.assignObject ⟨.new c!"f", []⟩ (some (.var (.new c!"duration-x")))))) [] :=
  C51_variable_partial (g1 := [' ']) (g2 := [' ']) (u := c!"?duration-x") sep_blank head_f rfl sp_blank
    ⟨[], _, rfl, rfl, isWord_of _ _ rfl rfl, rfl⟩ (by decide) .start (k0 := [' ']) (k1 := [' ']) (k2 := []) sep_blank sep_blank .nil []

/-- The same assignment, inside `(and ..)`. -/
example : parseTimedEffect c!"(at start (and (assign (f) undefined)))" =
    .ok (.conditional .start (.all [.assignObject ⟨.new c!"f", []⟩ none])) [] :=
  C51_and_partial (u := c!" (assign (f) undefined)")
    (Sec.cons (g := [' ']) (g' := []) gap_blank (Items.one (PEffectW.undefined (m := .strict) (g1 := [' ']) (g2 := [' ']) (g3 := []) gap_blank
      (head_f.toTerm rfl) sp_blank .nil)) Gap.nil)
    .start (k0 := [' ']) (k1 := [' ']) (k2 := []) sep_blank sep_blank .nil []

end Pddl
