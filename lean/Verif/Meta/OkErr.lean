import Verif.Props.GoalsX

/-!
# Meta-theory: alternatives that do not stop the search

An alternative that ends in a failure or a panic would stop the search. On the texts of atoms the
keyword parsers end in success or in an error.
-/

namespace Pddl

/-- Success or a recoverable error. -/
def OkErr (x : Res α) : Prop := (∃ v r, x = .ok v r) ∨ x = .err

namespace OkErr

theorem bind {x : Res α} {f : α → List Char → Res β} (h : OkErr x) (hf : ∀ v r, x = .ok v r → OkErr (f v r)) :
    OkErr (x.bind f) := by
  rcases h with ⟨v, r, rfl⟩ | rfl
  · exact hf v r rfl
  · exact .inr rfl

theorem map {p : P α} {f : α → β} {s : List Char} (h : OkErr (p s)) : OkErr (Pddl.map f p s) := by
  rcases h with ⟨v, r, h⟩ | h
  · exact .inl ⟨_, _, map_run h⟩
  · exact .inr (map_err h)

theorem pair {p : P α} {q : P β} {s : List Char} (h : OkErr (p s)) (h' : ∀ v r, p s = .ok v r → OkErr (q r)) :
    OkErr (Pddl.pair p q s) := by
  rcases h with ⟨v, r, h⟩ | h
  · rcases h' v r h with ⟨w, r', h'⟩ | h'
    · exact .inl ⟨_, _, pair_run h h'⟩
    · exact .inr (pair_err2 h h')
  · exact .inr (pair_err h)

theorem prefixExpr {kw : List Char} {p : P α} {s : List Char} (h : ∀ x, s = kw ++ x → OkErr (p (skip x))) :
    OkErr (Pddl.prefixExpr kw p ('(' :: s)) := by
  by_cases hk : kw <+: s
  · obtain ⟨x, rfl⟩ := hk
    rcases h x rfl with ⟨v, y, e⟩ | e
    · by_cases hy : ∃ r, skip y = ')' :: r
      · obtain ⟨r, hy⟩ := hy
        exact .inl ⟨_, _, prefixExpr_run e hy⟩
      · exact .inr (prefixExpr_tail e fun r hr => hy ⟨r, hr⟩)
    · exact .inr (prefixExpr_body_err e)
  · exact .inr (prefixExpr_kw (stripPrefix_none.mpr hk))

theorem of_name (s : List Char) : OkErr (parseName s) := by
  have hm := parseName_mild s
  cases e : parseName s with
  | ok a r => exact .inl ⟨a, r, rfl⟩
  | err => exact .inr rfl
  | fail => exact absurd e hm.1
  | panic => exact absurd e hm.2
  | oof =>
    have := (parseName_good s (Nat.lt_succ_self _)).2
    rw [e] at this
    exact this.elim

theorem opt {p : P α} {s : List Char} (h : OkErr (p s)) : OkErr (Pddl.opt p s) := by
  rcases h with ⟨v, r, h⟩ | h
  · exact .inl ⟨some v, r, by simp [Pddl.opt, h]⟩
  · exact .inl ⟨none, s, by simp [Pddl.opt, h]⟩

theorem alt_cons {p : P α} {ps : List (P α)} {s : List Char} (h : OkErr (p s)) (h' : OkErr (alt ps s)) :
    OkErr (alt (p :: ps) s) := by
  rcases h with ⟨v, r, h⟩ | h
  · exact .inl ⟨v, r, alt_hit h⟩
  · rw [alt_miss h]
    exact h'

theorem alt_nil {s : List Char} : OkErr (alt ([] : List (P α)) s) := .inr rfl

theorem err_of {x : Res α} (h : OkErr x) (hn : ∀ v r, x ≠ .ok v r) : x = .err := by
  rcases h with ⟨v, r, h⟩ | h
  · exact absurd h (hn v r)
  · exact h

end OkErr

section
variable {α : Type} {q : P α} {n : Nat}

theorem FnRead.okErr (H : FnRead q n) {a : Term} {x : List Char} (h : TermX a x) (hx : x.length < n)
    (y : List Char) : OkErr (q (x ++ y)) := by
  by_cases ha : IsFn a
  · obtain ⟨v, hv⟩ := H.fn h hx ha
    exact .inl ⟨v, y, hv y⟩
  · exact .inr (H.other h ha y)

/-- What is left after some of the terms of a list and before the closing parenthesis. -/
inductive Rest (n : Nat) (r : List Char) : List Char → Prop
  | gap {g} : Gap g → Rest n r (g ++ ')' :: r)
  | more {g ts w} : Sep g → Items TermX ts w → w.length < n → Rest n r (g ++ (w ++ ')' :: r))

theorem Rest.after (H : FnRead q n) (hc : Ct q) {y r : List Char} (h : Rest n r y) :
    OkErr (preceded multispace1 q y) := by
  cases h with
  | @gap g hg =>
    cases hg with
    | nil => exact .inr (preceded_err (ms1_solid (solid_close r)))
    | @space c g hs hg =>
      rw [pms1_sep hc (.mk hs hg) (solid_close r)]
      exact .inr (H.par.close r)
    | comment => exact .inr (preceded_err (multispace1_err (by intro c x e; cases e; decide)))
  | @more g ts w hg hw hl =>
    rw [pms1_sep hc hg ((items_term_solid hw).append _)]
    obtain ⟨a, as, x, y, rfl, rfl, h⟩ := items_head hw
    rw [List.append_assoc]
    simp only [List.length_append] at hl
    exact H.okErr h (by omega) _

theorem Gap.noWord {g s : List Char} (hg : Gap g) (hs : NoWord s) : NoWord (g ++ s) := by
  cases hg with
  | nil => exact hs
  | space hc =>
    intro d x e
    obtain ⟨rfl, _⟩ := List.cons.inj e
    exact Classical.byContradiction fun hd =>
      absurd (wordChar_solid (Bool.not_eq_false _ |>.mp hd)).2.2.2 (by simp [isBlank_space hc])
  | comment =>
    intro d x e
    cases e
    rfl

theorem Rest.noWord {y r : List Char} (h : Rest n r y) : NoWord y := by
  cases h with
  | gap hg => exact hg.noWord (by intro c x e; cases e; rfl)
  | more hg =>
    cases hg with
    | mk hc hg =>
      intro d x e
      exact Gap.noWord (.space hc .nil) (s := []) (by intro c x e; cases e) d [] (by cases e; rfl)

theorem Rest.of_sec {ts : List Term} {u : List Char} (h : Sec Gap (· = []) (Items TermX) ts u)
    (hu : u.length < n) (r : List Char) :
    (∃ g, Gap g ∧ u = g) ∨ (∃ g a x y, Gap g ∧ u = g ++ (x ++ y) ∧ TermX a x ∧ x.length < n ∧
      Rest n r (y ++ ')' :: r)) := by
  cases h with
  | nil hg => exact .inl ⟨_, hg, rfl⟩
  | @cons g ts w g' hg h h0 =>
    cases h0
    right
    simp only [List.append_nil, List.length_append] at hu ⊢
    cases h with
    | one h => exact ⟨g, _, w, [], hg, by simp, h, by omega, .gap .nil⟩
    | @cons a x g2 as w h hg2 hw =>
      simp only [List.length_append] at hu
      refine ⟨g, a, x, g2 ++ w, hg, rfl, h, by omega, ?_⟩
      rw [List.append_assoc]
      exact .more hg2 hw (by omega)

/-- A part after blanks at the arguments of an atom. -/
theorem FnRead.sec_after (H : FnRead q n) (hc : Ct q) {ts : List Term} {u : List Char}
    (h : Sec Gap (· = []) (Items TermX) ts u) (hu : u.length < n) (r : List Char) :
    OkErr (preceded multispace1 q (u ++ ')' :: r)) := by
  cases h with
  | nil hg => exact Rest.after H hc (.gap hg)
  | @cons g ts w g' hg h h0 =>
    cases h0
    simp only [List.append_nil, List.length_append, List.append_assoc] at hu ⊢
    cases hg with
    | nil => exact .inr (preceded_err (ms1_solid ((items_term_solid h).append _)))
    | space hs hg => exact Rest.after H hc (.more (.mk hs hg) h (by omega))
    | comment => exact .inr (preceded_err (multispace1_err (by intro c x e; cases e; decide)))

/-- An optional name and a part after blanks, at the arguments of an atom. -/
theorem FnRead.named (H : FnRead q n) (hc : Ct q) {kw : List Char} (hkw : IsWord kw) {a : AtomicFormula Term}
    {t : List Char} (h : AtomX TermX TermEnds a t) (ht : t.length ≤ n) (r : List Char) :
    OkErr (prefixExpr kw (pair (opt parseName) (preceded multispace1 q)) (t ++ r)) := by
  cases h with
  | equality =>
    simp only [paren_append, List.append_assoc, List.cons_append, List.nil_append]
    exact .inr (kw_equality hkw _)
  | @predicate g p t vs u hg hp hs hu =>
    have hl : u.length < n := by
      simp only [paren, List.length_cons, List.length_append, List.length_nil] at ht
      omega
    simp only [paren_append, List.append_assoc]
    refine .prefixExpr fun x hx => .pair (.opt (.of_name _)) ?_
    obtain rfl := gap_word hg hkw hx
    rw [List.nil_append] at hx
    have hno : NoWord (u ++ ')' :: r) := (NoWord.close r).mpr hu
    obtain ⟨w, rfl⟩ := kw_prefix (IsWord.chars hkw) hno ⟨x, hx.symm⟩
    rw [List.append_assoc] at hx
    cases List.append_cancel_left hx
    intro v y e
    have hnone : ∀ s, Solid s → parseName s = .err → opt parseName s = .ok v y →
        OkErr (preceded multispace1 q y) := by
      intro s h1 h2 h3
      simp only [opt, h2] at h3
      cases h3
      exact .inr (preceded_err (ms1_solid h1))
    cases w with
    | nil =>
      rw [List.nil_append] at e
      rcases Rest.of_sec hs hl r with ⟨g, hg, rfl⟩ | ⟨g, a, x, z, hg, rfl, h, hx, hr⟩
      · rw [hg.skip_solid (solid_close r)] at e
        exact hnone _ (solid_close r) (parseName_err_cons (solid_close r) (by decide)) e
      · simp only [List.append_assoc] at e
        rw [hg.skip_solid ((termX_solid h).append _)] at e
        cases h with
        | name h =>
          simp only [opt, parseName_exact.run h hr.noWord] at e
          cases e
          exact hr.after H hc
        | var => exact hnone _ (.cons (by decide) (by decide) _) (parseName_err_cons (.cons (by decide) (by decide) _) (by decide)) e
        | fn => exact hnone _ (solid_open _) (parseName_err_cons (solid_open _) (by decide)) e
    | cons c w =>
      have hc' := hp.1.append_cons (by obtain ⟨c, cs, rfl, _⟩ := hkw; simp)
      obtain ⟨_, _, h2, h3⟩ := wordChar_solid hc'
      have hsd := Solid.cons h3 h2 (w ++ (u ++ ')' :: r))
      rw [List.cons_append, hsd.skip] at e
      cases ha : isAlpha c with
      | false => exact hnone _ hsd (parseName_err_cons hsd ha) e
      | true =>
        have hw : IsWord (c :: w) := ⟨c, w, rfl, ha, fun d hd => IsWord.chars hp.1 d (by simp [hd])⟩
        have := parseName_exact.run (r := u ++ ')' :: r) ⟨hw, rfl⟩ hno
        rw [List.cons_append] at this
        simp only [opt, this] at e
        cases e
        exact H.sec_after hc hs hl r

end

end Pddl
