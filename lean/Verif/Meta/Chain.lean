import Verif.Props.Sections
import Verif.Meta.ErrorAt

/-!
# Chains of sections with another end

A file consists of optional sections one after the other. `Fol y y' s s'`: `s'` is `s` with the
end `y` replaced by `y'`, and what comes before the end is a sequence of forms. `Swap y y' p`: the
outcome of `p` on the two texts is the same.
-/

namespace Pddl

/-- See the file comment. -/
inductive Fol (y y' : List Char) : List Char → List Char → Prop
  | here : Fol y y' y y'
  | step {g t r r'} : Gap g → Form t → Fol y y' r r' → Fol y y' (g ++ (t ++ r)) (g ++ (t ++ r'))

theorem Fol.split {y y' s s' : List Char} (h : Fol y y' s s') :
    ∃ c, s = c ++ y ∧ s' = c ++ y' := by
  induction h with
  | here => exact ⟨[], rfl, rfl⟩
  | @step g t r r' _ _ _ ih =>
    obtain ⟨c, rfl, rfl⟩ := ih
    exact ⟨g ++ (t ++ c), by simp, by simp⟩

/-- The parser skips layout and comments before it starts. -/
def Sk (p : P α) : Prop := ∀ s, p (skip s) = p s

theorem Sk.prefixExpr {kw : List Char} {p : P α} : Sk (prefixExpr kw p) := prefixExpr_skip kw p

theorem Sk.map {f : α → β} {p : P α} (h : Sk p) : Sk (Pddl.map f p) := fun s => by
  simp only [Pddl.map, h s]

theorem Sk.alt_nil : Sk (Pddl.alt ([] : List (P α))) := fun _ => rfl

theorem Sk.alt_cons {p : P α} {ps : List (P α)} (h : Sk p) (k : Sk (Pddl.alt ps)) :
    Sk (Pddl.alt (p :: ps)) := fun s => by simp only [Pddl.alt, h s, k s]

theorem Sk.gap {p : P α} (h : Sk p) {g : List Char} (hg : Gap g) (s : List Char) :
    p (g ++ s) = p s := by rw [← h, hg.skip, h]

theorem Sk.ct {p : P α} (h : Sk p) : Ct p := fun s => by rw [← h, skip_skipC, h]

theorem multispace1_rest {s u x : List Char} (h : multispace1 s = .ok u x) :
    x = s.dropWhile isSpace := by
  simp only [multispace1, takeWhile1] at h
  split at h <;> cases h
  rfl

/-- What is needed of the parser of a section. -/
structure SecP (p : P α) : Prop where
  ct : Ct p
  form : ∀ s v r, p s = .ok v r → ∃ g t, s = g ++ (t ++ r) ∧ Gap g ∧ Form t
  tail : TailBlind p
  out : OutcomeTailBlind p

theorem SecP.of {p : P α} {R : α → List Char → Prop} (ct : Ct p) (h : Snd Any Gap p R)
    (hf : ∀ v t, R v t → Form t) (hl : Loc p) : SecP p where
  ct := ct
  form := fun s v r hs => by
    obtain ⟨g, t, h1, h2, h3⟩ := h s v r hs trivial
    exact ⟨g, t, h1, h2, hf v t h3⟩
  tail := h.tail hf hl
  out := hl.outcome

theorem SecP.read {p : P α} (h : SecP p) {s r y y' r' : List Char} {v : α} (hs : p s = .ok v r)
    (hr : Fol y y' r r') : ∃ s', Fol y y' s s' ∧ p s' = .ok v r' := by
  obtain ⟨g, t, rfl, hg, ht⟩ := h.form s v r hs
  refine ⟨g ++ (t ++ r'), .step hg ht hr, ?_⟩
  rw [← List.append_assoc] at hs ⊢
  exact h.tail _ _ _ hs r'

theorem SecP.after {p : P α} (h : SecP p) {s r y y' r' : List Char} {v : α}
    (hs : preceded multispace1 p s = .ok v r) (hr : Fol y y' r r') :
    ∃ s', Fol y y' s s' ∧ preceded multispace1 p s' = .ok v r' := by
  cases s with
  | nil => cases hs
  | cons c s =>
    cases hc : isSpace c with
    | false =>
      rw [preceded_err (multispace1_err fun d r h => by cases h; exact hc)] at hs
      cases hs
    | true =>
      rw [preceded_run (multispace1_cons hc _)] at hs
      obtain ⟨g, t, he, hg, ht⟩ := h.form _ v r hs
      have hb : Gap (s.takeWhile isSpace) := .of_spaces (all_takeWhile _ _)
      have e : s = (s.takeWhile isSpace ++ g) ++ (t ++ r) := by
        rw [List.append_assoc, ← he, List.takeWhile_append_dropWhile]
      have hS : Sep (c :: (s.takeWhile isSpace ++ g)) := .mk hc (hb.append hg)
      refine ⟨(c :: (s.takeWhile isSpace ++ g)) ++ (t ++ r'), ?_, ?_⟩
      · have := Fol.step (y := y) (y' := y') hS.gap ht hr
        rw [List.cons_append, ← e] at this
        exact this
      · obtain ⟨u, rfl, hu⟩ := ht
        rw [pms1_sep h.ct hS ((solid_paren u).append _)]
        have hk : skip (g ++ (paren u ++ r)) = paren u ++ r :=
          hg.skip_solid ((solid_paren u).append _)
        have hd : skip (s.dropWhile isSpace) = skipC (s.dropWhile isSpace) := by
          rw [skip, dropWhile_idem]
        rw [← h.ct, ← hd, he, hk] at hs
        exact h.tail _ _ _ hs r'

/-- A section that is missing before a form is missing whatever comes behind the form. -/
theorem SecP.absent_form {p : P α} (h : SecP p) {g t r r' : List Char} (hg : Gap g) (ht : Form t)
    (hs : preceded multispace1 p (g ++ (t ++ r)) = .err) :
    preceded multispace1 p (g ++ (t ++ r')) = .err := by
  obtain ⟨u, rfl, hu⟩ := ht
  cases hg with
  | nil => exact preceded_err (multispace1_err fun d r h => by cases h; rfl)
  | space hc hg =>
    rw [pms1_sep h.ct (.mk hc hg) ((solid_paren u).append _)] at hs ⊢
    have := h.out [] u r r' .nil hu
    simp only [List.nil_append] at this
    rw [hs] at this
    cases hx : p (paren u ++ r') <;> rw [hx] at this <;> cases this
  | comment => exact preceded_err (multispace1_err fun d r h => by cases h; rfl)

theorem SecP.absent {p : P α} (h : SecP p) {y y' r r' : List Char}
    (hs : preceded multispace1 p r = .err) (hr : Fol y y' r r')
    (hy : preceded multispace1 p y = .err → preceded multispace1 p y' = .err) :
    preceded multispace1 p r' = .err := by
  cases hr with
  | here => exact hy hs
  | step hg ht hr => exact h.absent_form hg ht hs

/-- See the file comment. -/
def Swap (y y' : List Char) (p : P α) : Prop := ∀ s v r r', p s = .ok v r → Fol y y' r r' →
  ∃ s', Fol y y' s s' ∧ p s' = .ok v r'

theorem Swap.pair {y y' : List Char} {p : P α} {q : P β} (hp : Swap y y' p) (hq : Swap y y' q) :
    Swap y y' (Pddl.pair p q) := by
  rintro s ⟨v, w⟩ r r' hs hr
  obtain ⟨x, h1, h2⟩ := pair_ok hs
  obtain ⟨x', h3, h4⟩ := hq _ _ _ _ h2 hr
  obtain ⟨s', h5, h6⟩ := hp _ _ _ _ h1 h3
  exact ⟨s', h5, pair_run h6 h4⟩

theorem Swap.sec {y y' : List Char} {p : P α} (h : SecP p) : Swap y y' (preceded multispace1 p) :=
  fun _ _ _ _ hs hr => h.after hs hr

theorem Swap.first {y y' : List Char} {p : P α} (h : SecP p) : Swap y y' p :=
  fun _ _ _ _ hs hr => h.read hs hr

theorem Swap.opt {y y' : List Char} {p : P α} (h : SecP p)
    (hy : preceded multispace1 p y = .err → preceded multispace1 p y' = .err) :
    Swap y y' (Pddl.opt (preceded multispace1 p)) := by
  intro s v r r' hs hr
  cases hp : preceded multispace1 p s <;> simp only [Pddl.opt, hp] at hs <;> cases hs
  · obtain ⟨s', h1, h2⟩ := h.after hp hr
    exact ⟨s', h1, opt_run h2⟩
  · exact ⟨r', hr, opt_err (h.absent hp hr hy)⟩

/-! ## Lists of forms -/

theorem sepLoop_sec {p : P α} (n : Nat) (s : List Char) :
    sepLoop multispace1 p (n + 1) s = match preceded multispace1 p s with
      | .ok a r => (sepLoop multispace1 p n r).bind fun as r' => .ok (a :: as) r'
      | .err => .ok [] s
      | .fail => .fail
      | .panic => .panic
      | .oof => .oof := by
  rw [sepLoop]
  dsimp only
  cases s with
  | nil => rfl
  | cons c s =>
    cases hc : isSpace c with
    | false =>
      have := multispace1_err (s := c :: s) fun d r h => by cases h; exact hc
      rw [preceded_err this, this]
    | true =>
      rw [preceded_run (multispace1_cons hc _), multispace1_cons hc]
      have hl : ¬ (s.dropWhile isSpace).length = (c :: s).length := by
        have := (List.dropWhile_sublist isSpace (l := s)).length_le
        simp only [List.length_cons]
        omega
      simp only [if_neg hl]
      cases p (s.dropWhile isSpace) <;> rfl

theorem SecP.length {p : P α} (h : SecP p) {s r : List Char} {v : α}
    (hs : preceded multispace1 p s = .ok v r) : r.length < s.length := by
  cases s with
  | nil => cases hs
  | cons c s =>
    cases hc : isSpace c with
    | false =>
      rw [preceded_err (multispace1_err fun d r h => by cases h; exact hc)] at hs
      cases hs
    | true =>
      rw [preceded_run (multispace1_cons hc _)] at hs
      obtain ⟨g, t, he, hg, ht⟩ := h.form _ v _ hs
      have h2 := congrArg List.length he
      have := (List.dropWhile_sublist isSpace (l := s)).length_le
      simp only [List.length_append, List.length_cons] at h2 ⊢
      omega

theorem sepLoop_ne_err {p : P α} : ∀ (n : Nat) (s : List Char), sepLoop multispace1 p n s ≠ .err
  | 0, _ => by simp [sepLoop]
  | n + 1, s => by
    rw [sepLoop_sec]
    cases preceded multispace1 p s with
    | ok a r =>
      have := sepLoop_ne_err (p := p) n r
      dsimp only
      cases hq : sepLoop multispace1 p n r with
      | err => exact absurd hq this
      | _ => simp [Res.bind]
    | _ => simp

theorem SecP.loop {p : P α} (h : SecP p) {y y' : List Char}
    (hy : preceded multispace1 p y = .err → preceded multispace1 p y' = .err) :
    ∀ (n : Nat) (s : List Char) (v : List α) (r r' : List Char),
      sepLoop multispace1 p n s = .ok v r → Fol y y' r r' →
      ∃ s', Fol y y' s s' ∧ ∀ m, s'.length < m → sepLoop multispace1 p m s' = .ok v r' := by
  intro n
  induction n with
  | zero => intro s v r r' hs; cases hs
  | succ n ih =>
    intro s v r r' hs hr
    rw [sepLoop_sec] at hs
    cases hp : preceded multispace1 p s <;> rw [hp] at hs
    case ok a x =>
      dsimp only at hs
      cases hq : sepLoop multispace1 p n x <;> rw [hq] at hs <;> cases hs
      next as =>
      obtain ⟨x', h1, h2⟩ := ih x as r r' hq hr
      obtain ⟨s', h3, h4⟩ := h.after hp h1
      refine ⟨s', h3, fun m hm => ?_⟩
      cases m with
      | zero => omega
      | succ m =>
        have := h.length h4
        rw [sepLoop_sec, h4]
        dsimp only
        rw [h2 m (by omega)]
        rfl
    case err =>
      cases hs
      refine ⟨r', hr, fun m hm => ?_⟩
      cases m with
      | zero => omega
      | succ m => rw [sepLoop_sec, h.absent hp hr hy]
    all_goals cases hs

theorem SecP.list_eq {p : P α} (h : SecP p) (s : List Char) :
    preceded multispace1 (spaceSeparatedList1 p) s = (preceded multispace1 p s).bind fun a r =>
      (sepLoop multispace1 p (r.length + 1) r).bind fun as r' => .ok (a :: as) r' := by
  have hq : preceded ignoreEolComment p = p := funext fun x => by
    rw [preceded_run (eol_eq x), h.ct]
  cases hm : multispace1 s with
  | ok u x =>
    have hx : skip x = skipC x := by
      have := Pddl.multispace1_rest hm
      rw [this, skip, dropWhile_idem]
    rw [preceded_run hm, preceded_run hm, spaceSeparatedList1, ws_eq, hq, sepList1, hx, h.ct]
  | err => rw [preceded_err hm, preceded_err hm]; rfl
  | _ => simp only [preceded, hm, Res.bind]

theorem Swap.list {y y' : List Char} {p : P α} (h : SecP p)
    (hy : preceded multispace1 p y = .err → preceded multispace1 p y' = .err) :
    Swap y y' (Pddl.opt (preceded multispace1 (spaceSeparatedList1 p))) := by
  intro s v r r' hs hr
  cases hp : preceded multispace1 p s with
  | ok a x =>
    have e := h.list_eq s
    rw [hp] at e
    simp only [Res.bind] at e
    cases hq : sepLoop multispace1 p (x.length + 1) x <;> rw [hq] at e <;>
      simp only [Pddl.opt, e] at hs <;> cases hs
    · next as =>
      obtain ⟨x', h1, h2⟩ := h.loop hy _ x as r r' hq hr
      obtain ⟨s', h3, h4⟩ := h.after hp h1
      refine ⟨s', h3, opt_run ?_⟩
      rw [h.list_eq, h4]
      simp only [Res.bind]
      rw [h2 _ (Nat.lt_succ_self _)]
    · exact absurd hq (sepLoop_ne_err _ _)
  | err =>
    have e := h.list_eq s
    rw [hp] at e
    simp only [Pddl.opt, e, Res.bind] at hs
    cases hs
    refine ⟨r', hr, opt_err ?_⟩
    rw [h.list_eq, h.absent hp hr hy]
    rfl
  | _ =>
    have e := h.list_eq s
    rw [hp] at e
    simp only [Pddl.opt, e, Res.bind] at hs
    cases hs

end Pddl
