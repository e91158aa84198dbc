/-
C103: the value of an arithmetic expression is the one arithmetic gives to its operands.

The reader has three ways to keep an operator with operands: with two of them, with one and a list of
more, and with one alone. Which one is taken depends on the layout (C77). Here it is shown
that this makes no difference for the number a text stands for: `(+ x y z)` stands for the sum of what `x`,
`y` and `z` stand for, whatever their texts are and whatever is between them.
-/
import Verif.Props.Meaning
import Verif.Spec.Values

namespace Pddl

/-! ## What the texts of an operation are read as -/

/-- Texts one after the other, each after layout that `S` allows before it. -/
inductive Operands {α : Type} (S : List Char → List Char → Prop) (R : α → List Char → Prop) : List α → List Char → Prop
  | nil : Operands S R [] []
  | cons {a k x as u} : S k x → R a x → Operands S R as u → Operands S R (a :: as) (k ++ (x ++ u))

theorem Operands.stop {S : List Char → List Char → Prop} {R : α → List Char → Prop} (hS : ∀ k x, S k x → Sep k) {as u}
    (h : Operands S R as u) (r : List Char) : Stop (u ++ ')' :: r) := by
  cases h with
  | nil => exact .close r
  | cons hk _ _ => rw [List.append_assoc]; exact .sep (hS _ _ hk) _

section
variable {p pre post : P α} {bin : BinaryOp → α → α → α} {mul : MultiOp → α → List α → α} {neg : α → α}
  {tight : Char → Bool} {Leaf : List Char → α → List Char → Prop} {E : α → List Char → List Char → Prop}
  {S : List Char → List Char → Prop}

theorem Arith.texts (H : Arith p pre post bin mul neg tight Leaf E) {v : α} {t : List Char} (h : ReadsAs p v t) :
    ArithX bin mul neg tight Leaf [] v t := by
  obtain ⟨g, u, e, h1, -⟩ := (H.iff _ _ _).mp h.2
  rw [List.append_nil] at e
  obtain ⟨rfl, rfl⟩ := gap_solid_inj (g := []) .nil (h1.gap H.toArithRun) h.1 (h1.solid H.toArithRun) e
  exact h1

theorem Arith.reads (H : Arith p pre post bin mul neg tight Leaf E) {v : α} {t r : List Char} (h : ReadsAs p v t)
    (hr : Stop r) : p (t ++ r) = .ok v r := H.run (H.texts h) (H.ends_stop hr)

/-- The operands after the first. -/
theorem Arith.items (H : Arith p pre post bin mul neg tight Leaf E) (hS : ∀ k x, S k x → Sep k) {es u}
    (h : Items (ArithX bin mul neg tight Leaf []) es u) : ∀ {w x ws u'}, ReadsAs p w x →
    Operands S (ReadsAs p) ws u' → x ++ u' = u → es = w :: ws := by
  induction h with
  | @one a t h =>
    intro w x ws u' hw hu e
    have r1 := H.reads hw (hu.stop hS [])
    rw [← List.append_assoc, e] at r1
    have r2 : p (t ++ [')']) = .ok a [')'] := H.run h (H.ends_stop (.close []))
    rw [r2] at r1
    obtain ⟨rfl, h2⟩ := (Res.ok.injEq _ _ _ _).mp r1
    cases hu with
    | nil => rfl
    | cons hk hx hu =>
      have := congrArg List.length h2
      have h3 := List.length_pos_iff.mpr hx.1.ne
      simp at this
      omega
  | @cons a t g as u h hg hi ih =>
    intro w x ws u' hw hu e
    have r1 := H.reads hw (hu.stop hS [])
    rw [← List.append_assoc, e, List.append_assoc] at r1
    have r2 : p (t ++ ((g ++ u) ++ [')'])) = .ok a ((g ++ u) ++ [')']) :=
      H.run h (H.ends_stop (by rw [List.append_assoc]; exact .sep hg _))
    rw [r2] at r1
    obtain ⟨rfl, h2⟩ := (Res.ok.injEq _ _ _ _).mp r1
    have h2 := List.append_cancel_right h2
    have hsol : Solid u := by
      cases hi with
      | one h => exact h.solid H.toArithRun
      | cons h _ _ => exact (h.solid H.toArithRun).append _
    cases hu with
    | nil =>
      simp at h2
      exact absurd h2.2 hsol.ne
    | cons hk hx hu =>
      obtain ⟨-, h4⟩ := gap_solid_inj hg.gap (hS _ _ hk).gap hsol (hx.1.append _) h2
      rw [ih hx hu h4.symm]

/-- Blanks have no comment in them. -/
theorem ArithX.blanks {b g : List Char} {v : α} {t} (hg : GapC g) (hk : Sp0 (b ++ g))
    (h : ArithX bin mul neg tight Leaf g v t) : ArithX bin mul neg tight Leaf [] v t := by
  cases g with
  | nil => exact h
  | cons c g =>
    have := hk c (by simp)
    rw [hg.2 c g rfl] at this
    cases this

theorem spell_cons (op : BinaryOp) : ∃ c, op.spell = [c] ∧ isSpace c = false ∧ c ≠ ';' := by
  cases op <;> exact ⟨_, rfl, by decide, by decide⟩

/-- An operator and two or more operands. -/
theorem Arith.operation (H : Arith p pre post bin mul neg tight Leaf E) (hS : ∀ k x, S k x → Sep k)
    (hd : ∀ {b g v t x w R R'}, Sp b → GapC g → S (b ++ g) x → p (x ++ R) = .ok w R → x ++ R = t ++ R' →
      ArithX bin mul neg tight Leaf g v t →
      ArithX bin mul neg tight Leaf [] v t)
    (hl : ∀ {v g c x}, Gap g → Solid [c] → Leaf [] v (paren (g ++ c :: x)) → isAlpha c = true)
    {g : List Char} {op : BinaryOp} {w w' : α} {ws : List α} {U : List Char} {v : α} (hg : Gap g)
    (hu : Operands S (ReadsAs p) (w :: w' :: ws) U) (hv : ReadsAs p v (paren (g ++ (op.spell ++ U)))) :
    (ws = [] ∧ v = bin op w w') ∨ ∃ m : MultiOp, m.spell = op.spell ∧ v = mul m w (w' :: ws) := by
  cases hu with
  | @cons _ k x _ U' hk hx hu =>
  cases hu with
  | @cons _ k' x' _ U'' hk' hx' hu =>
  obtain ⟨c, hc, hc1, hc2⟩ := spell_cons op
  have hv := H.texts hv
  have inj {g' : List Char} {d : Char} {y z : List Char} (hg' : Gap g') (hd : isSpace d = false ∧ d ≠ ';')
      (e : paren (g ++ (op.spell ++ y)) = paren (g' ++ ([d] ++ z))) : op.spell = [d] ∧ y = z := by
    have e := (List.cons.inj e).2
    have e := List.append_cancel_right e
    rw [hc] at e
    obtain ⟨-, e⟩ := gap_solid_inj hg hg' (.cons hc1 hc2 _) (.cons hd.1 hd.2 _) e
    cases e
    exact ⟨hc, rfl⟩
  have first {b1 g1 t1 : List Char} {a : α} {y : List Char} (hb : Sp b1) (hg1 : GapC g1)
      (h1 : ArithX bin mul neg tight Leaf g1 a t1) (hy : Stop (y ++ [')']))
      (e : k ++ (x ++ (k' ++ (x' ++ U''))) = b1 ++ (g1 ++ (t1 ++ y))) : w = a ∧ k' ++ (x' ++ U'') = y := by
    rw [← List.append_assoc b1] at e
    obtain ⟨e0, e⟩ := gap_solid_inj (hS _ _ hk).gap (hb.sep.gap.append hg1.1) (hx.1.append _)
      ((h1.solid H.toArithRun).append _) e
    have r1 : p (x ++ ((k' ++ (x' ++ U'')) ++ [')'])) = .ok w ((k' ++ (x' ++ U'')) ++ [')']) :=
      H.reads hx (by rw [List.append_assoc]; exact .sep (hS _ _ hk') _)
    have r2 : p (t1 ++ (y ++ [')'])) = .ok a (y ++ [')']) := H.run (hd hb hg1 (e0 ▸ hk) r1
      (by rw [← List.append_assoc, e, List.append_assoc]) h1) (H.ends_stop hy)
    rw [← List.append_assoc, e, List.append_assoc, r2] at r1
    obtain ⟨h2, h3⟩ := (Res.ok.injEq _ _ _ _).mp r1
    exact ⟨h2.symm, (List.append_cancel_right h3).symm⟩
  generalize et : paren (g ++ (op.spell ++ (k ++ (x ++ (k' ++ (x' ++ U'')))))) = t at hv
  cases hv with
  | leaf h =>
    subst et
    rw [hc] at h
    have := hl hg (.cons hc1 hc2 _) h
    cases op <;> cases hc <;> cases this
  | @binary _ g' b1 g1 t1 b2 g2 t2 op' a b _ hg' hb1 hg1 h1 hb2 hg2 h2 =>
    left
    obtain ⟨d, hd', hd1, hd2⟩ := spell_cons op'
    rw [hd'] at et
    obtain ⟨e1, e2⟩ := inj hg' ⟨hd1, hd2⟩ et
    obtain rfl : op' = op := by
      rw [hc] at e1
      cases e1
      cases op <;> cases op' <;> first | rfl | (cases hc; cases hd')
    obtain ⟨rfl, e3⟩ := first hb1 hg1 h1 (by rw [List.append_assoc]; exact .sp hb2 _) e2
    rw [← List.append_assoc b2] at e3
    obtain ⟨e0, e4⟩ := gap_solid_inj (hS _ _ hk').gap (hb2.sep.gap.append hg2.1) (hx'.1.append _)
      (h2.solid H.toArithRun) e3
    have r1 := H.reads hx' (hu.stop hS [])
    have := H.items hS (.one (hd hb2 hg2 (e0 ▸ hk') r1 (by rw [← List.append_assoc, e4]) h2)) hx' hu e4
    cases this
    exact ⟨rfl, rfl⟩
  | @multi _ g' b1 g1 t1 b2 g2 u op' a es _ hg' hb1 hg1 h1 hb2 hg2 h2 =>
    right
    have hsol : Solid u := by
      cases h2 with
      | one h => exact h.solid H.toArithRun
      | cons h _ _ => exact (h.solid H.toArithRun).append _
    have ⟨d, hd', hd1, hd2⟩ : ∃ c, op'.spell = [c] ∧ isSpace c = false ∧ c ≠ ';' := by
      cases op' <;> exact ⟨_, rfl, by decide, by decide⟩
    rw [hd'] at et
    obtain ⟨e1, e2⟩ := inj hg' ⟨hd1, hd2⟩ et
    obtain ⟨rfl, e3⟩ := first hb1 hg1 h1 (by rw [List.append_assoc]; exact .sp hb2 _) e2
    rw [← List.append_assoc b2] at e3
    obtain ⟨e0, e4⟩ := gap_solid_inj (hS _ _ hk').gap (hb2.sep.gap.append hg2.1) (hx'.1.append _) hsol e3
    refine ⟨op', by rw [hd', e1], ?_⟩
    rw [H.items hS h2 hx' hu e4]
  | @negative _ g' b g1 t a _ hg' hb hg1 h1 =>
    obtain ⟨-, e2⟩ := inj (d := '-') hg' ⟨by decide, by decide⟩ et
    rw [← List.append_assoc b] at e2
    obtain ⟨e0, e⟩ := gap_solid_inj (hS _ _ hk).gap ((Gap.of_spaces hb).append hg1.1) (hx.1.append _)
      (h1.solid H.toArithRun) e2
    have hb : Sp b := by
      refine ⟨?_, hb⟩
      rintro rfl
      have hs := hS _ _ hk
      rw [e0] at hs
      generalize hz : [] ++ g1 = z at hs
      cases hs with
      | mk hq _ =>
        rw [hg1.2 _ _ hz] at hq
        cases hq
    have r1 := H.reads hx ((Operands.cons hk' hx' hu).stop hS [])
    have := H.items hS (.one (hd hb hg1 (e0 ▸ hk) r1 (by rw [← List.append_assoc, e]) h1)) hx (.cons hk' hx' hu) e
    cases this

/-- A minus and one operand. -/
theorem Arith.minus (H : Arith p pre post bin mul neg tight Leaf E)
    (hd : ∀ {b g v t x w R R'}, Sp0 b → GapC g → S (b ++ g) x → p (x ++ R) = .ok w R → x ++ R = t ++ R' →
      ArithX bin mul neg tight Leaf g v t →
      ArithX bin mul neg tight Leaf [] v t) (hS : ∀ k x, S k x → Gap k)
    (hl : ∀ {v g c x}, Gap g → Solid [c] → Leaf [] v (paren (g ++ c :: x)) → isAlpha c = true)
    {g k x : List Char} {w v : α} (hg : Gap g) (hk : S k x) (hx : ReadsAs p w x)
    (hv : ReadsAs p v (paren (g ++ (c!"-" ++ (k ++ x))))) : v = neg w := by
  have hv := H.texts hv
  have inj {g' : List Char} {d : Char} {y z : List Char} (hg' : Gap g') (hd : isSpace d = false ∧ d ≠ ';')
      (e : paren (g ++ (c!"-" ++ y)) = paren (g' ++ ([d] ++ z))) : y = z := by
    have e := (List.cons.inj e).2
    have e := List.append_cancel_right e
    obtain ⟨-, e⟩ := gap_solid_inj hg hg' (.cons (by decide) (by decide) _) (.cons hd.1 hd.2 _) e
    cases e
    rfl
  have two {b1 g1 t1 y : List Char} {a : α} (hb : Sp b1) (hg1 : GapC g1)
      (h1 : ArithX bin mul neg tight Leaf g1 a t1) (hy : Stop (y ++ [')'])) (hn : y ≠ [])
      (e : k ++ x = b1 ++ (g1 ++ (t1 ++ y))) : False := by
    rw [← List.append_assoc b1] at e
    obtain ⟨e0, e⟩ := gap_solid_inj (hS _ _ hk) (hb.sep.gap.append hg1.1) hx.1
      ((h1.solid H.toArithRun).append _) e
    have r1 : p (x ++ [')']) = .ok w [')'] := H.reads hx (.close [])
    have r2 : p (t1 ++ (y ++ [')'])) = .ok a (y ++ [')']) := H.run (hd hb.2 hg1 (e0 ▸ hk) r1
      (by rw [e, List.append_assoc]) h1) (H.ends_stop hy)
    rw [e, List.append_assoc, r2] at r1
    exact hn (List.append_cancel_right (as := y) (cs := []) ((Res.ok.injEq _ _ _ _).mp r1).2)
  have hne {b2 y : List Char} (hb2 : Sp b2) : b2 ++ y ≠ [] := by
    intro h
    exact hb2.1 (List.append_eq_nil_iff.mp h).1
  generalize et : paren (g ++ (c!"-" ++ (k ++ x))) = t at hv
  cases hv with
  | leaf h =>
    subst et
    cases hl hg (.cons (c := '-') (by decide) (by decide) _) h
  | @binary _ g' b1 g1 t1 b2 g2 t2 op' a b _ hg' hb1 hg1 h1 hb2 hg2 h2 =>
    obtain ⟨d, hd', hd1, hd2⟩ := spell_cons op'
    rw [hd'] at et
    exact (two hb1 hg1 h1 (by rw [List.append_assoc]; exact .sp hb2 _) (hne hb2) (inj hg' ⟨hd1, hd2⟩ et)).elim
  | @multi _ g' b1 g1 t1 b2 g2 u op' a es _ hg' hb1 hg1 h1 hb2 hg2 h2 =>
    have ⟨d, hd', hd1, hd2⟩ : ∃ c, op'.spell = [c] ∧ isSpace c = false ∧ c ≠ ';' := by
      cases op' <;> exact ⟨_, rfl, by decide, by decide⟩
    rw [hd'] at et
    exact (two hb1 hg1 h1 (by rw [List.append_assoc]; exact .sp hb2 _) (hne hb2) (inj hg' ⟨hd1, hd2⟩ et)).elim
  | @negative _ g' b g1 t a _ hg' hb hg1 h1 =>
    have e2 := inj (d := '-') hg' ⟨by decide, by decide⟩ et
    rw [← List.append_assoc b] at e2
    obtain ⟨e0, rfl⟩ := gap_solid_inj (hS _ _ hk) ((Gap.of_spaces hb).append hg1.1) hx.1
      (h1.solid H.toArithRun) e2
    have r1 : p (x ++ [')']) = .ok w [')'] := H.reads hx (.close [])
    have r2 : p (x ++ [')']) = .ok a [')'] := H.run (hd hb hg1 (e0 ▸ hk) r1 rfl h1) (H.ends_stop (.close []))
    rw [r2] at r1
    cases r1
    rfl

theorem Arith.of_operands (H : Arith p pre post bin mul neg tight Leaf E) {ws U}
    (hu : Operands (fun k _ => Sp k) (ReadsAs p) ws U) : ∀ {w}, ws ≠ [] → ws.head? = some w → ∃ k x U', U = k ++ (x ++ U') ∧ Sp k ∧
      ReadsAs p w x ∧ Items (ArithX bin mul neg tight Leaf []) ws (x ++ U') := by
  induction hu with
  | nil => intro _ h; exact absurd rfl h
  | @cons a k x as u hk hx hu ih =>
    intro w _ hw
    cases hw
    refine ⟨k, x, u, rfl, hk, hx, ?_⟩
    cases hu with
    | nil => rw [List.append_nil]; exact .one (H.texts hx)
    | @cons b k' x' bs u' hk' hx' hu' =>
      obtain ⟨k2, x2, u2, e, hk2, hx2, hi⟩ := ih (w := b) (by simp) rfl
      rw [e]
      exact .cons (H.texts hx) hk2.sep hi

/-- Operands with blanks between them are read if there are two, or if the operator takes more. -/
theorem Arith.readable_iff (H : Arith p pre post bin mul neg tight Leaf E)
    (hl : ∀ {v g c x}, Gap g → Solid [c] → Leaf [] v (paren (g ++ c :: x)) → isAlpha c = true)
    {g : List Char} {op : BinaryOp} {w w' : α} {ws : List α} {U : List Char} (hg : Gap g)
    (hu : Operands (fun k _ => Sp k) (ReadsAs p) (w :: w' :: ws) U) :
    (∃ v, ReadsAs p v (paren (g ++ (op.spell ++ U)))) ↔ ws = [] ∨ op = .add ∨ op = .mul := by
  constructor
  · rintro ⟨v, hv⟩
    rcases H.operation (fun _ _ h => h.sep) (fun _ hg hk _ _ h => h.blanks hg hk.2) hl hg hu hv with ⟨h, -⟩ | ⟨m, hm, -⟩
    · exact .inl h
    · right
      cases m <;> cases op <;> first | exact .inl rfl | exact .inr rfl | cases hm
  · intro h
    cases hu with
    | @cons _ k x _ U' hk hx hu =>
    cases ws with
    | nil =>
      cases hu with
      | @cons _ k' x' _ _ hk' hx' hu =>
      cases hu
      refine ⟨bin op w w', solid_paren _, ?_⟩
      have := H.run (.binary (op := op) gapC_nil hg hk gapC_nil (H.texts hx) hk' gapC_nil (H.texts hx'))
        (r := []) H.ends_bin
      simpa using this
    | cons w2 ws =>
      obtain ⟨k', x', u', rfl, hk', hx', hi⟩ := H.of_operands hu (w := w') (by simp) rfl
      have hm : ∃ m : MultiOp, m.spell = op.spell := by
        rcases h with h | rfl | rfl
        · cases h
        · exact ⟨.add, rfl⟩
        · exact ⟨.mul, rfl⟩
      obtain ⟨m, hm⟩ := hm
      refine ⟨mul m w (w' :: w2 :: ws), solid_paren _, ?_⟩
      have := H.run (.multi (op := m) gapC_nil hg hk gapC_nil (H.texts hx) hk' gapC_nil hi (.inl (by simp))) (r := []) H.ends_mul
      rw [hm] at this
      simpa using this

/-- Where a leaf means the same after layout, so does an expression. -/
theorem ArithX.drop (h0 : ∀ {g v t}, Leaf g v t → Leaf [] v t) {g v t} (h : ArithX bin mul neg tight Leaf g v t) :
    ArithX bin mul neg tight Leaf [] v t := by
  cases h with
  | leaf h => exact .leaf (h0 h)
  | binary _ hg hb1 hg1 h1 hb2 hg2 h2 => exact .binary gapC_nil hg hb1 hg1 h1 hb2 hg2 h2
  | multi _ hg hb1 hg1 h1 hb2 hg2 h2 h3 => exact .multi gapC_nil hg hb1 hg1 h1 hb2 hg2 h2 h3
  | negative _ hg hb hg1 h1 => exact .negative gapC_nil hg hb hg1 h1


end

/-! ## The three kinds of expressions -/

theorem NumW.not_open {n : Number} {t : List Char} (h : NumW n t) : ¬ ∃ x, t = '(' :: x := by
  rintro ⟨x, rfl⟩
  obtain ⟨c, r, e, hc⟩ := h.head
  cases e
  cases hc

theorem paren_name {g g' x y : List Char} {c : Char} {n : Name} {t : List Char} (hg : Gap g) (hg' : Gap g') (hc : Solid [c])
    (h : NameW n t) (e : paren (g ++ c :: x) = paren (g' ++ (t ++ y))) : isAlpha c = true := by
  have e := List.append_cancel_right (List.cons.inj e).2
  obtain ⟨d, z, rfl, hd, _⟩ := h.1
  have hd : isAlpha d = true := hd
  obtain ⟨_, _, e1, hc1, hc2⟩ := hc
  cases e1
  obtain ⟨-, e⟩ := gap_solid_inj hg hg' (.cons hc1 hc2 _) (.cons (isAlpha_solid hd).1 (isAlpha_solid hd).2 _) e
  cases e
  exact hd

theorem FExpLeaf.drop {g v t} (h : FExpLeaf g v t) : FExpLeaf [] v t := by
  cases h with
  | number h => exact .number h
  | function _ h => exact .function ⟨.nil, fun _ => gapC_nil⟩ h

theorem FExpX.drop {g v t} (h : FExpX g v t) : FExpX [] v t := ArithX.drop (Leaf := FExpLeaf) FExpLeaf.drop h

theorem FExpLeaf.alpha {g' v g c x} (hg : Gap g) (hc : Solid [c]) (h : FExpLeaf g' v (paren (g ++ c :: x))) :
    isAlpha c = true := by
  generalize e : paren (g ++ c :: x) = t at h
  cases h with
  | number h => exact absurd ⟨_, e.symm⟩ h.not_open
  | function _ h =>
    cases h with
    | name h => exact absurd ⟨_, e.symm⟩ h.not_open
    | paren hg' h => exact paren_name (y := []) hg hg' hc h (by rw [List.append_nil]; exact e)
    | terms hg' h => exact paren_name hg hg' hc h e

theorem FExpDaLeaf.drop {g v t} (h : FExpDaLeaf g v t) : FExpDaLeaf [] v t := by
  cases h with
  | duration => exact .duration
  | fExp h => exact .fExp h.drop

theorem FExpDaX.drop {g v t} (h : FExpDaX g v t) : FExpDaX [] v t :=
  ArithX.drop (Leaf := FExpDaLeaf) FExpDaLeaf.drop h

theorem FExpDaLeaf.alpha {g' v g c x} (hg : Gap g) (hc : Solid [c]) (h : FExpDaLeaf g' v (paren (g ++ c :: x))) :
    isAlpha c = true := by
  generalize e : paren (g ++ c :: x) = t at h
  cases h with
  | duration => cases e
  | fExp h => subst e; exact h.alpha hg hc

theorem MetricLeaf.alpha {g' v g c x} (hg : Gap g) (hc : Solid [c]) (h : MetricLeaf g' v (paren (g ++ c :: x))) :
    isAlpha c = true := by
  generalize e : paren (g ++ c :: x) = t at h
  cases h with
  | number h => exact absurd ⟨_, e.symm⟩ h.not_open
  | totalTime => cases e
  | isViolated =>
    have e := List.append_cancel_right (List.cons.inj e).2
    obtain ⟨_, _, e1, hc1, hc2⟩ := hc
    cases e1
    obtain ⟨-, e⟩ := gap_solid_inj hg .nil (.cons hc1 hc2 _) (.cons (c := 'i') (by decide) (by decide) _) e
    cases e
    rfl
  | app _ hg' h => exact paren_name hg hg' hc h e
  | symbol _ h => exact absurd ⟨_, e.symm⟩ h.not_open

/-- The text `total-time` is the only one that is read differently after a comment. -/
theorem MetricX.drop {b g v t x w R R'} (hg : GapC g) (hk : Sp0 (b ++ g) ∨ x ≠ c!"total-time")
    (h1 : parseMetricFExp (x ++ R) = .ok w R) (e : x ++ R = t ++ R') (h : MetricX g v t) : MetricX [] v t := by
  rcases hk with hk | hk
  · exact h.blanks hg hk
  cases h with
  | binary _ hg hb1 hg1 h1 hb2 hg2 h2 => exact .binary gapC_nil hg hb1 hg1 h1 hb2 hg2 h2
  | multi _ hg hb1 hg1 h1 hb2 hg2 h2 h3 => exact .multi gapC_nil hg hb1 hg1 h1 hb2 hg2 h2 h3
  | negative _ hg hb hg1 h1 => exact .negative gapC_nil hg hb hg1 h1
  | leaf h =>
    cases h with
    | number h => exact .leaf (.number h)
    | totalTime => exact .leaf .totalTime
    | isViolated _ h2 h3 h4 => exact .leaf (.isViolated .nil h2 h3 h4)
    | app _ h2 h3 h4 h5 h6 => exact .leaf (.app gapC_nil h2 h3 h4 h5 h6)
    | symbol _ h2 =>
      refine .leaf (.symbol .nil h2 ?_)
      rintro - ⟨z, rfl⟩
      rw [List.append_assoc] at e
      have r2 : parseMetricFExp (c!"total-time" ++ (z ++ R')) = .ok .totalTime (z ++ R') :=
        metric_arith.run (.leaf .totalTime) trivial
      rw [e, r2] at h1
      obtain ⟨-, rfl⟩ := (Res.ok.injEq _ _ _ _).mp h1
      exact hk (List.append_cancel_right e)

/-! ## Values -/

theorem FExp.denotes_map (M : Interp) (e : M.Env) (as : List FExp) :
    FExp.denotes M e as = as.map (FExp.denote M e) := by
  induction as with
  | nil => rfl
  | cons a as ih => simp [FExp.denotes, ih]

theorem FExpDa.denotes_map (M : Interp) (e : M.Env) (d : M.Num) (as : List FExpDa) :
    FExpDa.denotes M e d as = as.map (FExpDa.denote M e d) := by
  induction as with
  | nil => rfl
  | cons a as ih => simp [FExpDa.denotes, ih]

theorem MetricFExp.denotes_map (M : Interp) (d : M.Num) (k : List Char → M.Num) (as : List MetricFExp) :
    MetricFExp.denotes M d k as = as.map (MetricFExp.denote M d k) := by
  induction as with
  | nil => rfl
  | cons a as ih => simp [MetricFExp.denotes, ih]

/-- Sums and products of many are repeated sums and products of two. -/
def Interp.Lawful (M : Interp) : Prop :=
  (∀ a bs, M.multi .add a bs = bs.foldl (M.bin .add) a) ∧ (∀ a bs, M.multi .mul a bs = bs.foldl (M.bin .mul) a)

theorem Interp.Lawful.multi {M : Interp} (h : M.Lawful) {m : MultiOp} {op : BinaryOp} (e : m.spell = op.spell)
    (a : M.Num) (bs : List M.Num) : M.multi m a bs = bs.foldl (M.bin op) a := by
  cases m <;> cases op <;> first | exact h.1 a bs | exact h.2 a bs | cases e

/-- The whole numbers, for the examples. -/
def exWhole : Interp where
  Obj := Nat
  ofType _ _ := True
  const _ := 0
  fn _ _ := 1
  pred _ _ := False
  Num := Int
  lit _ := 7
  fluent n os := n.length + os.length
  bin op a b := match op with
    | .add => a + b
    | .mul => a * b
    | .sub => a - b
    | .div => a / b
  multi op a bs := match op with
    | .add => bs.foldl (· + ·) a
    | .mul => bs.foldl (· * ·) a
  neg a := -a
  comp _ a b := a = b

/-- C103. An operator and two or more operands: the value is that of applying the operator from left to right
to the values of the operands. The operands may be any texts that are read on their own, with any
layout between them. -/
theorem C103_operation (M : Interp) (hM : M.Lawful) (e : M.Env) {g U : List Char} {op : BinaryOp} {w w' : FExp}
    {ws : List FExp} {v : FExp} (hg : Gap g) (hu : Operands (fun k _ => Sep k) (ReadsAs parseFExp) (w :: w' :: ws) U)
    (hv : ReadsAs parseFExp v (paren (g ++ (op.spell ++ U)))) :
    v.denote M e = ((w' :: ws).map (FExp.denote M e)).foldl (M.bin op) (w.denote M e) := by
  rcases fExp_arith.operation (fun _ _ h => h) (fun _ _ _ _ _ h => FExpX.drop h) (fun hg hc h => h.alpha hg hc)
    hg hu hv with ⟨rfl, rfl⟩ | ⟨m, hm, rfl⟩
  · rfl
  · rw [FExp.denote, FExp.denotes_map, hM.multi hm]

/-- C103. A minus and one operand. -/
theorem C103_negative (M : Interp) (e : M.Env) {g k x : List Char} {w v : FExp} (hg : Gap g) (hk : Gap k)
    (hx : ReadsAs parseFExp w x) (hv : ReadsAs parseFExp v (paren (g ++ (c!"-" ++ (k ++ x))))) :
    v.denote M e = M.neg (w.denote M e) := by
  rw [fExp_arith.minus (S := fun k _ => Gap k) (fun _ _ _ _ _ h => FExpX.drop h) (fun _ _ h => h)
    (fun hg hc h => h.alpha hg hc) hg hk hx hv]
  rfl

/-- C103. Expressions of durative actions. -/
theorem C103_durative_operation (M : Interp) (hM : M.Lawful) (e : M.Env) (d : M.Num) {g U : List Char}
    {op : BinaryOp} {w w' : FExpDa} {ws : List FExpDa} {v : FExpDa} (hg : Gap g)
    (hu : Operands (fun k _ => Sep k) (ReadsAs parseFExpDa) (w :: w' :: ws) U)
    (hv : ReadsAs parseFExpDa v (paren (g ++ (op.spell ++ U)))) :
    v.denote M e d = ((w' :: ws).map (FExpDa.denote M e d)).foldl (M.bin op) (w.denote M e d) := by
  rcases fExpDa_arith.operation (fun _ _ h => h) (fun _ _ _ _ _ h => FExpDaX.drop h)
    (fun hg hc h => h.alpha hg hc) hg hu hv with ⟨rfl, rfl⟩ | ⟨m, hm, rfl⟩
  · rfl
  · rw [FExpDa.denote, FExpDa.denotes_map, hM.multi hm]

/-- C103. A minus and one operand, in a durative action. -/
theorem C103_durative_negative (M : Interp) (e : M.Env) (d : M.Num) {g k x : List Char} {w v : FExpDa} (hg : Gap g)
    (hk : Gap k) (hx : ReadsAs parseFExpDa w x) (hv : ReadsAs parseFExpDa v (paren (g ++ (c!"-" ++ (k ++ x))))) :
    v.denote M e d = M.neg (w.denote M e d) := by
  rw [fExpDa_arith.minus (S := fun k _ => Gap k) (fun _ _ _ _ _ h => FExpDaX.drop h) (fun _ _ h => h)
    (fun hg hc h => h.alpha hg hc) hg hk hx hv]
  rfl

/-- C103. Metrics, with any layout between the operands, except for a comment before an operand `total-time`. With
one it may be false: see `C103_false_metric`. -/
theorem C103_metric_operation_partial (M : Interp) (hM : M.Lawful) (d : M.Num) (n : List Char → M.Num)
    {g U : List Char} {op : BinaryOp} {w w' : MetricFExp} {ws : List MetricFExp} {v : MetricFExp} (hg : Gap g)
    (hu : Operands (fun k x => Sep k ∧ (x = c!"total-time" → Sp k)) (ReadsAs parseMetricFExp) (w :: w' :: ws) U)
    (hv : ReadsAs parseMetricFExp v (paren (g ++ (op.spell ++ U)))) :
    v.denote M d n = ((w' :: ws).map (MetricFExp.denote M d n)).foldl (M.bin op) (w.denote M d n) := by
  rcases metric_arith.operation (fun _ _ h => h.1)
    (fun _ hg hk h1 e h => MetricX.drop hg ((Classical.em _).imp (fun hx => (hk.2 hx).2) id) h1 e h)
    (fun hg hc h => h.alpha hg hc) hg hu hv with ⟨rfl, rfl⟩ | ⟨m, hm, rfl⟩
  · rfl
  · rw [MetricFExp.denote, MetricFExp.denotes_map, hM.multi hm]

/-- C103. A minus and one operand, in a metric. -/
theorem C103_metric_negative_partial (M : Interp) (d : M.Num) (n : List Char → M.Num) {g k x : List Char}
    {w v : MetricFExp} (hg : Gap g) (hk : Gap k) (ht : x = c!"total-time" → Sp0 k)
    (hx : ReadsAs parseMetricFExp w x)
    (hv : ReadsAs parseMetricFExp v (paren (g ++ (c!"-" ++ (k ++ x))))) :
    v.denote M d n = M.neg (w.denote M d n) := by
  rw [metric_arith.minus (S := fun k x => Gap k ∧ (x = c!"total-time" → Sp0 k))
    (fun _ hg hk h1 e h => MetricX.drop hg ((Classical.em _).imp hk.2 id) h1 e h) (fun _ _ h => h.1)
    (fun hg hc h => h.alpha hg hc) hg ⟨hk, ht⟩ hx hv]
  rfl

/-- C103. Which operations are read: those with two operands, and sums and products with more. -/
theorem C103_operation_read {g U : List Char} {op : BinaryOp} {w w' : FExp} {ws : List FExp} (hg : Gap g)
    (hu : Operands (fun k _ => Sp k) (ReadsAs parseFExp) (w :: w' :: ws) U) :
    (∃ v, ReadsAs parseFExp v (paren (g ++ (op.spell ++ U)))) ↔ ws = [] ∨ op = .add ∨ op = .mul :=
  fExp_arith.readable_iff (fun hg hc h => h.alpha hg hc) hg hu

/-- C103. The same in durative actions. -/
theorem C103_durative_operation_read {g U : List Char} {op : BinaryOp} {w w' : FExpDa} {ws : List FExpDa}
    (hg : Gap g) (hu : Operands (fun k _ => Sp k) (ReadsAs parseFExpDa) (w :: w' :: ws) U) :
    (∃ v, ReadsAs parseFExpDa v (paren (g ++ (op.spell ++ U)))) ↔ ws = [] ∨ op = .add ∨ op = .mul :=
  fExpDa_arith.readable_iff (fun hg hc h => h.alpha hg hc) hg hu

/-- C103. The same in metrics. -/
theorem C103_metric_operation_read {g U : List Char} {op : BinaryOp} {w w' : MetricFExp} {ws : List MetricFExp}
    (hg : Gap g) (hu : Operands (fun k _ => Sp k) (ReadsAs parseMetricFExp) (w :: w' :: ws) U) :
    (∃ v, ReadsAs parseMetricFExp v (paren (g ++ (op.spell ++ U)))) ↔ ws = [] ∨ op = .add ∨ op = .mul :=
  metric_arith.readable_iff (fun hg hc h => h.alpha hg hc) hg hu

theorem exWhole_lawful : exWhole.Lawful := ⟨fun _ _ => rfl, fun _ _ => rfl⟩

/-- `(+ (f a) ;c⏎ 2)`, `(- x (* 2 y))`, `(- (f a))` and `(* x y (+ 2 z))` have the values they should have. -/
example : ∀ v, ReadsAs parseFExp v c!"(+ (f a) ;c\n2)" → v.denote exWhole (fun _ => (0 : Nat)) = (9 : Int) := by
  intro v hv
  have hc : Sep c!" ;c\n" :=
    .mk (by decide) (.comment (b := 'c') (body := []) (by decide) (by simp) (by decide) .nil)
  obtain ⟨w', hw', hl⟩ : ∃ w, ReadsAs parseFExp w c!"2" ∧ w.denote exWhole (fun _ => (0 : Nat)) = (7 : Int) :=
    ⟨_, ⟨.cons (by decide) (by decide) _, rfl⟩, rfl⟩
  rw [C103_operation exWhole exWhole_lawful (fun _ => (0 : Nat)) (g := []) (op := .add)
    (U := c!" " ++ (c!"(f a)" ++ (c!" ;c\n" ++ (c!"2" ++ []))))
    (w := .function (.withTerms (Name.new c!"f") [.name (Name.new c!"a")])) (w' := w') (ws := []) .nil
    (.cons (.mk (by decide) .nil) ⟨solid_open _, rfl⟩ (.cons hc hw' .nil)) hv]
  show (fun a b : Int => a + b) _ _ = _
  rw [hl]
  rfl

example : (∃ v, ReadsAs parseFExp v c!"(* x y (+ 2 z))" ∧ v.denote exWhole (fun _ => (0 : Nat)) = (8 : Int)) ∧
    (∃ v, ReadsAs parseFExp v c!"(- (f a))" ∧ v.denote exWhole (fun _ => (0 : Nat)) = (-2 : Int)) ∧
    (∃ v, ReadsAs parseFExpDa v c!"(- ?duration (* 2 y))" ∧
      v.denote exWhole (fun _ => (0 : Nat)) (5 : Int) = (-2 : Int)) ∧
    (∃ v, ReadsAs parseMetricFExp v c!"(+ total-time (is-violated p) (f a))" ∧
      v.denote exWhole (5 : Int) (fun _ => (1 : Int)) = (8 : Int)) :=
  ⟨⟨_, ⟨solid_open _, rfl⟩, rfl⟩, ⟨_, ⟨solid_open _, rfl⟩, rfl⟩, ⟨_, ⟨solid_open _, rfl⟩, rfl⟩,
    ⟨_, ⟨solid_open _, rfl⟩, rfl⟩⟩

/-- Three operands are too many for a difference. -/
example : parseFExp c!"(- x y z)" = .err := rfl

/-- C103. What is missing above, exactly: after layout with a comment in it, `total-time` stands for the value of a
function of that name, whatever the layout is. -/
theorem C103_metric_total_time (M : Interp) (d : M.Num) (n : List Char → M.Num) {g k : List Char} (hg : Gap g)
    (hk : Gap k) (hc : ¬ Sp0 k) : ∃ v, ReadsAs parseMetricFExp v (paren (g ++ (c!"-" ++ (k ++ c!"total-time")))) ∧
      v.denote M d n = M.neg (M.fluent c!"total-time" []) := by
  obtain ⟨b, g', rfl, hb, hg'⟩ := hk.blanks
  have hne : g' ≠ [] := by
    rintro rfl
    rw [List.append_nil] at hc
    exact hc hb
  have h := metric_arith.run (r := []) (.negative gapC_nil hg hb hg'
    (.leaf (.symbol (f := Name.new c!"total-time") hg'.1 (.of_word ⟨'t', _, rfl, by decide, by decide⟩) (fun h => absurd h hne)))) trivial
  refine ⟨.negative (.function (Name.new c!"total-time") []), ⟨solid_paren _, ?_⟩, rfl⟩
  simpa using h

/-- Comments before other operands make no difference, and after one `total-time` is no time. -/
example : (∃ v, ReadsAs parseMetricFExp v c!"(- ;c\n(f a))" ∧
      v.denote exWhole (5 : Int) (fun _ => (1 : Int)) = (-2 : Int)) ∧
    (∃ v, ReadsAs parseMetricFExp v c!"(- ;c\ntotal-time)" ∧
      v.denote exWhole (5 : Int) (fun _ => (1 : Int)) = (-10 : Int)) :=
  ⟨⟨_, ⟨solid_open _, rfl⟩, rfl⟩, ⟨_, ⟨solid_open _, rfl⟩, rfl⟩⟩

/-- C103 is false of metrics with comments: after a comment, `total-time` is a function of that name. -/
theorem C103_false_metric : ∃ (k x : List Char) (w v : MetricFExp), Gap k ∧ ReadsAs parseMetricFExp w x ∧
    ReadsAs parseMetricFExp v (paren (c!"-" ++ (k ++ x))) ∧
    ∃ (M : Interp) (d : M.Num) (n : List Char → M.Num), v.denote M d n ≠ M.neg (w.denote M d n) := by
  refine ⟨c!";c\n", c!"total-time", .totalTime, .negative (.function (Name.new c!"total-time") []), ?_, ?_, ?_,
    exWhole, (5 : Int), fun _ => (0 : Int), ?_⟩
  · exact .comment (b := 'c') (body := []) (by decide) (by simp) (by decide) .nil
  · exact ⟨.cons (by decide) (by decide) _, rfl⟩
  · exact ⟨solid_paren _, rfl⟩
  · exact (by decide : (-10 : Int) ≠ -5)

end Pddl
