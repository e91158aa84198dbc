import Verif.Meta.Top

/-!
# Meta-theory: soundness of the combinators

`Snd F G p R`: whenever `p` accepts with a remainder satisfying `F`, the consumed text is a lead in
`G` followed by a text that `R` relates to the value.
-/

namespace Pddl

/-- Not at the end of the text. -/
def NE (r : List Char) : Prop := r ≠ []

/-- No lead. -/
def Nil (g : List Char) : Prop := g = []

/-- See the file comment. -/
def Snd (F G : List Char → Prop) (p : P α) (R : α → List Char → Prop) : Prop :=
  ∀ s a r, p s = .ok a r → F r → ∃ g t, s = g ++ (t ++ r) ∧ G g ∧ R a t

/-- The relation has no empty spelling. -/
def NonE (R : α → List Char → Prop) : Prop := ∀ a t, R a t → t ≠ []

theorem Solid.ne {t : List Char} (h : Solid t) : t ≠ [] := by
  obtain ⟨c, r, rfl, _⟩ := h
  simp

/-- Two texts with a lead in between. -/
def Two (R1 : α → List Char → Prop) (G : List Char → Prop) (R2 : β → List Char → Prop)
    (x : α × β) (t : List Char) : Prop :=
  ∃ t1 g t2, t = t1 ++ (g ++ t2) ∧ R1 x.1 t1 ∧ G g ∧ R2 x.2 t2

/-- A fixed text, a lead and a text. -/
def After (kw : List Char) (G : List Char → Prop) (R : α → List Char → Prop) (x : α)
    (t : List Char) : Prop := ∃ g u, t = kw ++ (g ++ u) ∧ G g ∧ R x u

/-- The text of a form with keyword. -/
def Kw (kw : List Char) (R : α → List Char → Prop) (x : α) (t : List Char) : Prop :=
  ∃ g1 u g2, t = paren (kw ++ (g1 ++ (u ++ g2))) ∧ Gap g1 ∧ R x u ∧ Gap g2

/-- The text of a form without keyword. -/
def Pa (R : α → List Char → Prop) (x : α) (t : List Char) : Prop :=
  ∃ g u, t = paren (g ++ u) ∧ Gap g ∧ R x u

theorem Nil.gap : ∀ g, Nil g → Gap g := by rintro g rfl; exact .nil

theorem skipC_gap {s : List Char} (h : skipC s ≠ []) : ∃ g, s = g ++ skipC s ∧ Gap g := by
  obtain ⟨g, h1, _, h2, _⟩ := skipC_spec s
  exact ⟨g, h1, h2 h⟩

theorem skip_gap {s : List Char} (h : skip s ≠ []) : ∃ g, s = g ++ skip s ∧ Gap g := by
  obtain ⟨g, h1, _, h2⟩ := skip_spec s
  exact ⟨g, h1, h2 h⟩

theorem alt_inv {p : P α} {ps : List (P α)} {s a r} (h : alt (p :: ps) s = .ok a r) :
    p s = .ok a r ∨ (p s = .err ∧ alt ps s = .ok a r) := by
  unfold alt at h
  cases hp : p s with
  | ok a' r' => rw [hp] at h; exact .inl h
  | err => rw [hp] at h; exact .inr ⟨rfl, h⟩
  | _ => rw [hp] at h; cases h

theorem mapExpect_inv {f : α → Option β} {p : P α} {s b r} (h : mapExpect f p s = .ok b r) :
    ∃ a, p s = .ok a r ∧ f a = some b := by
  unfold mapExpect at h
  cases hp : p s with
  | ok a r' =>
    rw [hp] at h
    simp only [Res.bind] at h
    cases hf : f a with
    | none => rw [hf] at h; cases h
    | some b' => rw [hf] at h; cases h; exact ⟨a, rfl, hf⟩
  | _ => rw [hp] at h; cases h

theorem opt_inv {p : P α} {s o r} (h : opt p s = .ok o r) :
    (∃ a, p s = .ok a r ∧ o = some a) ∨ (p s = .err ∧ o = none ∧ r = s) := by
  unfold opt at h
  cases hp : p s with
  | ok a r' => rw [hp] at h; cases h; exact .inl ⟨a, rfl, rfl⟩
  | err => rw [hp] at h; cases h; exact .inr ⟨rfl, rfl, rfl⟩
  | _ => rw [hp] at h; cases h

theorem ifOk_inv {p : P α} {f : α → β} {k : P β} {s b r} (h : ifOk p f k s = .ok b r) :
    (∃ a, p s = .ok a r ∧ b = f a) ∨ k s = .ok b r := by
  unfold ifOk at h
  cases hp : p s with
  | ok a r' => rw [hp] at h; cases h; exact .inl ⟨a, rfl, rfl⟩
  | err => rw [hp] at h; exact .inr h
  | fail => rw [hp] at h; exact .inr h
  | _ => rw [hp] at h; cases h

theorem tag_inv {t s v r : List Char} (h : tag t s = .ok v r) : v = t ∧ s = t ++ r := by
  unfold tag at h
  cases hp : stripPrefix t s with
  | none => rw [hp] at h; cases h
  | some x => rw [hp] at h; cases h; exact ⟨rfl, Good.stripPrefix_eq hp⟩

theorem char_inv {c : Char} {s : List Char} {v r} (h : char c s = .ok v r) : s = c :: r := by
  cases s with
  | nil => cases h
  | cons d s =>
    simp only [char] at h
    split at h
    · rename_i hd; cases h; rw [hd]
    · cases h

theorem ms1_inv {s v r : List Char} (h : multispace1 s = .ok v r) : s = v ++ r ∧ Sp v := by
  unfold multispace1 takeWhile1 at h
  split at h
  · cases h
  · rename_i hne
    cases h
    exact ⟨List.takeWhile_append_dropWhile.symm, hne, all_takeWhile _ _⟩

theorem ms0_inv {s v r : List Char} (h : multispace0 s = .ok v r) : s = v ++ r ∧ Sp0 v := by
  unfold multispace0 takeWhile0 at h
  cases h
  exact ⟨List.takeWhile_append_dropWhile.symm, all_takeWhile _ _⟩

theorem Sep.append {g g' : List Char} (h : Sep g) (h' : Gap g') : Sep (g ++ g') := by
  cases h with
  | mk hc hg => exact .mk hc (hg.append h')

namespace Snd

theorem mono {F F' G G' : List Char → Prop} {p : P α} {R R' : α → List Char → Prop}
    (h : Snd F G p R) (hF : ∀ r, F' r → F r) (hG : ∀ g, G g → G' g) (hR : ∀ a t, R a t → R' a t) :
    Snd F' G' p R' := fun s a r hs hr => by
  obtain ⟨g, t, h1, h2, h3⟩ := h s a r hs (hF r hr)
  exact ⟨g, t, h1, hG g h2, hR a t h3⟩

theorem lead {F G G' : List Char → Prop} {p : P α} {R : α → List Char → Prop}
    (h : Snd F G p R) (hG : ∀ g, G g → G' g) : Snd F G' p R :=
  h.mono (fun _ => id) hG fun _ _ => id

theorem anyF {F G : List Char → Prop} {p : P α} {R : α → List Char → Prop}
    (h : Snd Any G p R) : Snd F G p R := h.mono (fun _ _ => trivial) (fun _ => id) fun _ _ => id

theorem gap {F : List Char → Prop} {p : P α} {R : α → List Char → Prop}
    (h : Snd F Nil p R) : Snd F Gap p R := h.lead Nil.gap

theorem map {F G : List Char → Prop} {f : α → β} {p : P α} {R : α → List Char → Prop}
    {R' : β → List Char → Prop} (h : Snd F G p R) (hR : ∀ a t, R a t → R' (f a) t) :
    Snd F G (map f p) R' := fun s b r hs hr => by
  obtain ⟨a, h1, rfl⟩ := map_ok hs
  obtain ⟨g, t, h1, h2, h3⟩ := h s a r h1 hr
  exact ⟨g, t, h1, h2, hR a t h3⟩

theorem mapExpect {F G : List Char → Prop} {f : α → Option β} {p : P α} {R : α → List Char → Prop}
    {R' : β → List Char → Prop} (h : Snd F G p R) (hR : ∀ a b t, f a = some b → R a t → R' b t) :
    Snd F G (mapExpect f p) R' := fun s b r hs hr => by
  obtain ⟨a, h1, hf⟩ := mapExpect_inv hs
  obtain ⟨g, t, h1, h2, h3⟩ := h s a r h1 hr
  exact ⟨g, t, h1, h2, hR a b t hf h3⟩

theorem alt_nil {F G : List Char → Prop} {R : α → List Char → Prop} : Snd F G (alt []) R :=
  fun _ _ _ hs => by cases hs

theorem alt_cons {F G : List Char → Prop} {p : P α} {ps : List (P α)} {R : α → List Char → Prop}
    (h : Snd F G p R) (h' : Snd F G (alt ps) R) : Snd F G (alt (p :: ps)) R := fun s a r hs hr => by
  rcases alt_inv hs with hs | ⟨_, hs⟩
  · exact h s a r hs hr
  · exact h' s a r hs hr

theorem ifOk {F G : List Char → Prop} {p : P α} {f : α → β} {k : P β} {R : α → List Char → Prop}
    {R' : β → List Char → Prop} (h : Snd F G p R) (hR : ∀ a t, R a t → R' (f a) t)
    (h' : Snd F G k R') : Snd F G (ifOk p f k) R' := fun s b r hs hr => by
  rcases ifOk_inv hs with ⟨a, h1, rfl⟩ | hs
  · obtain ⟨g, t, h1, h2, h3⟩ := h s a r h1 hr
    exact ⟨g, t, h1, h2, hR a t h3⟩
  · exact h' s b r hs hr

theorem fix {F G : List Char → Prop} {body : P α → P α} {R : α → List Char → Prop}
    (h : ∀ self, Snd F G self R → Snd F G (body self) R) : Snd F G (fix body) R := by
  have key : ∀ n, Snd F G (fixF body n) R := by
    intro n
    induction n with
    | zero => exact fun _ _ _ hs => by cases hs
    | succ n ih => exact h _ ih
  exact fun s a r hs hr => key _ s a r hs hr

theorem tag {t : List Char} : Snd Any Nil (tag t) (fun v u => v = t ∧ u = t) := fun s a r hs _ => by
  obtain ⟨h1, h2⟩ := tag_inv hs
  exact ⟨[], t, by rw [h2]; rfl, rfl, h1, rfl⟩

theorem char {c : Char} : Snd Any Nil (char c) (fun _ u => u = [c]) := fun s a r hs _ => by
  exact ⟨[], [c], by rw [char_inv hs]; rfl, rfl, rfl⟩

theorem ws {G : List Char → Prop} {F : List Char → Prop} {p : P α} {R : α → List Char → Prop}
    (h : Snd F G p R) (hG : ∀ g, G g → Gap g) (hR : NonE R) : Snd F Gap (ws p) R :=
  fun s a r hs hr => by
  rw [ws_eq] at hs
  obtain ⟨g, t, h1, h2, h3⟩ := h _ a r hs hr
  have ht := hR a t h3
  obtain ⟨g0, h4, h5⟩ := skip_gap (s := s) (by rw [h1]; simp [ht])
  exact ⟨g0 ++ g, t, by rw [h4, h1]; simp, h5.append (hG g h2), h3⟩

theorem ws_ne {G : List Char → Prop} {p : P α} {R : α → List Char → Prop}
    (h : Snd NE G p R) (hG : ∀ g, G g → Gap g) : Snd NE Gap (Pddl.ws p) R :=
  fun s a r hs hr => by
  rw [ws_eq] at hs
  obtain ⟨g, t, h1, h2, h3⟩ := h _ a r hs hr
  have hr' : r ≠ [] := hr
  obtain ⟨g0, h4, h5⟩ := skip_gap (s := s) (by rw [h1]; simp [hr'])
  exact ⟨g0 ++ g, t, by rw [h4, h1]; simp, h5.append (hG g h2), h3⟩

/-- Spaces, then an element that may skip layout itself. -/
theorem ms1 {F G : List Char → Prop} {p : P α} {R : α → List Char → Prop} (h : Snd F G p R)
    (hG : ∀ g, G g → Gap g) : Snd F Sep (preceded multispace1 p) R := fun s a r hs hr => by
  obtain ⟨v, r1, h1, h2⟩ := preceded_ok hs
  obtain ⟨rfl, hsp⟩ := ms1_inv h1
  obtain ⟨g, t, rfl, h3, h4⟩ := h _ a r h2 hr
  exact ⟨v ++ g, t, by simp, hsp.sep.append (hG g h3), h4⟩

/-- Spaces, then an element that skips no layout itself. -/
theorem ms1_sp {F : List Char → Prop} {p : P α} {R : α → List Char → Prop} (h : Snd F Nil p R) :
    Snd F Sp (preceded multispace1 p) R := fun s a r hs hr => by
  obtain ⟨v, r1, h1, h2⟩ := preceded_ok hs
  obtain ⟨rfl, hsp⟩ := ms1_inv h1
  obtain ⟨g, t, rfl, rfl, h4⟩ := h _ a r h2 hr
  exact ⟨v, t, by simp, hsp, h4⟩

theorem ms0 {F G : List Char → Prop} {p : P α} {R : α → List Char → Prop} (h : Snd F G p R)
    (hG : ∀ g, G g → Gap g) : Snd F Gap (preceded multispace0 p) R := fun s a r hs hr => by
  obtain ⟨v, r1, h1, h2⟩ := preceded_ok hs
  obtain ⟨rfl, hsp⟩ := ms0_inv h1
  obtain ⟨g, t, rfl, h3, h4⟩ := h _ a r h2 hr
  exact ⟨v ++ g, t, by simp, (Gap.of_spaces hsp).append (hG g h3), h4⟩

theorem pair {F G1 G2 : List Char → Prop} {p : P α} {q : P β} {R1 : α → List Char → Prop}
    {R2 : β → List Char → Prop} (h1 : Snd Any G1 p R1) (h2 : Snd F G2 q R2) :
    Snd F G1 (pair p q) (Two R1 G2 R2) := fun s x r hs hr => by
  obtain ⟨r1, h3, h4⟩ := pair_ok hs
  obtain ⟨g2, t2, rfl, hg2, hr2⟩ := h2 _ _ _ h4 hr
  obtain ⟨g1, t1, rfl, hg1, hr1⟩ := h1 _ _ _ h3 trivial
  exact ⟨g1, t1 ++ (g2 ++ t2), by simp, hg1, t1, g2, t2, rfl, hr1, hg2, hr2⟩

theorem preceded_tag {F G : List Char → Prop} {kw : List Char} {p : P α} {R : α → List Char → Prop}
    (h : Snd F G p R) : Snd F Nil (preceded (Pddl.tag kw) p) (After kw G R) := fun s a r hs hr => by
  obtain ⟨v, r1, h1, h2⟩ := preceded_ok hs
  obtain ⟨_, rfl⟩ := tag_inv h1
  obtain ⟨g, t, rfl, hg, ht⟩ := h _ a r h2 hr
  exact ⟨[], kw ++ (g ++ t), by simp, rfl, g, t, rfl, hg, ht⟩

theorem opt {F G : List Char → Prop} {p : P α} {R : α → List Char → Prop}
    (h : Snd F G p R) : Snd F Nil (opt p) (OptW G R) := fun s o r hs hr => by
  rcases opt_inv hs with ⟨a, h1, rfl⟩ | ⟨_, rfl, rfl⟩
  · obtain ⟨g, t, rfl, hg, ht⟩ := h _ a r h1 hr
    exact ⟨[], g ++ t, by simp, rfl, .present hg ht⟩
  · exact ⟨[], [], rfl, rfl, .absent⟩

end Snd

theorem prefixExpr_inv {kw : List Char} {p : P α} {s a r} (h : prefixExpr kw p s = .ok a r) :
    ∃ g x y, s = g ++ ('(' :: (kw ++ x)) ∧ Gap g ∧ p (skip x) = .ok a y ∧ skip y = ')' :: r := by
  unfold prefixExpr delimited at h
  obtain ⟨_, r1, h1, h2⟩ := preceded_ok h
  obtain ⟨_, y, h3, h4⟩ := terminated_ok h2
  obtain ⟨_, r2, h5, h6⟩ := preceded_ok h1
  rw [ws_eq] at h3 h4 h5
  obtain ⟨_, h5⟩ := tag_inv h5
  obtain ⟨_, h6⟩ := tag_inv h6
  obtain ⟨_, h4⟩ := tag_inv h4
  obtain ⟨g, hg1, hg2⟩ := skip_gap (s := s) (by rw [h5]; simp)
  exact ⟨g, r1, y, by rw [hg1, h5, h6]; simp, hg2, h3, h4⟩

theorem parens_inv {p : P α} {s a r} (h : parens p s = .ok a r) :
    ∃ g x, s = g ++ ('(' :: x) ∧ Gap g ∧ p (skip x) = .ok a (')' :: r) := by
  unfold parens delimited at h
  rw [eolp_eq] at h
  obtain ⟨_, r1, h1, h2⟩ := preceded_ok h
  obtain ⟨_, y, h3, h4⟩ := terminated_ok h2
  rw [ws_eq] at h3
  have h1 := char_inv h1
  have h4 := char_inv h4
  obtain ⟨g, hg1, hg2⟩ := skipC_gap (s := s) (by rw [h1]; simp)
  exact ⟨g, r1, by rw [hg1, h1], hg2, by rw [h3, h4]⟩

namespace Snd

theorem prefixExpr {F G : List Char → Prop} {kw : List Char} {p : P α} {R : α → List Char → Prop}
    (h : Snd NE G p R) (hG : ∀ g, G g → Gap g) : Snd F Gap (prefixExpr kw p) (Kw kw R) :=
  fun s a r hs _ => by
  obtain ⟨g, x, y, rfl, hg, h1, h2⟩ := prefixExpr_inv hs
  obtain ⟨g3, h3, hg3⟩ := skip_gap (s := y) (by rw [h2]; simp)
  rw [h2] at h3
  obtain ⟨g2, t, h4, hg2, ht⟩ := h _ a y h1 (by rw [NE, h3]; simp)
  obtain ⟨g1, h5, hg1⟩ := skip_gap (s := x) (by rw [h4, h3]; simp)
  refine ⟨g, paren (kw ++ ((g1 ++ g2) ++ (t ++ g3))), ?_, hg, g1 ++ g2, t, g3, rfl,
    hg1.append (hG _ hg2), ht, hg3⟩
  rw [h5, h4, h3]
  simp [paren]

theorem parens {F G : List Char → Prop} {p : P α} {R : α → List Char → Prop}
    (h : Snd NE G p R) (hG : ∀ g, G g → Gap g) : Snd F Gap (parens p) (Pa R) :=
  fun s a r hs _ => by
  obtain ⟨g, x, rfl, hg, h1⟩ := parens_inv hs
  obtain ⟨g2, t, h4, hg2, ht⟩ := h _ a _ h1 (by simp [NE])
  obtain ⟨g1, h5, hg1⟩ := skip_gap (s := x) (by rw [h4]; simp)
  refine ⟨g, paren ((g1 ++ g2) ++ t), ?_, hg, g1 ++ g2, t, rfl, hg1.append (hG _ hg2), ht⟩
  rw [h5, h4]
  simp [paren]

end Snd

/-! ## Lists -/

theorem sepLoop_inv {p : P α} {R : α → List Char → Prop} (h : Snd Any Gap p R) (hR : NonE R)
    (n : Nat) : ∀ s as r, sepLoop multispace1 (preceded ignoreEolComment p) n s = .ok as r →
      (as = [] ∧ r = s) ∨ ∃ g u, s = g ++ (u ++ r) ∧ Sep g ∧ Items R as u := by
  induction n with
  | zero => intro s as r hs; cases hs
  | succ n ih =>
    intro s as r hs
    rw [sepLoop] at hs
    dsimp only at hs
    split at hs
    · cases hs; exact .inl ⟨rfl, rfl⟩
    · rename_i v r1 h1
      split at hs
      · cases hs
      · split at hs
        · cases hs; exact .inl ⟨rfl, rfl⟩
        · rename_i a r2 h2
          right
          rw [eolp_eq] at h2
          obtain ⟨rfl, hsp⟩ := ms1_inv h1
          obtain ⟨g1, t, h3, hg1, ht⟩ := h _ _ _ h2 trivial
          obtain ⟨g0, h4, hg0⟩ := skipC_gap (s := r1) (by rw [h3]; simp [hR a t ht])
          rw [h3] at h4
          subst h4
          cases hl : sepLoop multispace1 (preceded ignoreEolComment p) n r2 with
          | ok as' r' =>
            rw [hl] at hs
            cases hs
            rcases ih _ _ _ hl with ⟨rfl, rfl⟩ | ⟨g, u, rfl, hg, hu⟩
            · exact ⟨v ++ (g0 ++ g1), t, by simp, hsp.sep.append (hg0.append hg1), .one ht⟩
            · exact ⟨v ++ (g0 ++ g1), t ++ (g ++ u), by simp, hsp.sep.append (hg0.append hg1),
                .cons ht hg hu⟩
          | _ => rw [hl] at hs; cases hs
        all_goals cases hs
    all_goals cases hs

theorem Items.nonE {R : α → List Char → Prop} (hR : NonE R) : NonE (Items R) := by
  intro as t h
  cases h with
  | one h => exact hR _ _ h
  | cons h => simp [hR _ _ h]

theorem list_tail {p : P α} {R : α → List Char → Prop} (h : Snd Any Gap p R) (hR : NonE R)
    {s a r as r'} (h1 : p (skipC s) = .ok a r)
    (h2 : sepLoop multispace1 (preceded ignoreEolComment p) (r.length + 1) r = .ok as r') :
    ∃ g t, s = g ++ (t ++ r') ∧ Gap g ∧ Items R (a :: as) t := by
  obtain ⟨g1, t, h3, hg1, ht⟩ := h _ _ _ h1 trivial
  obtain ⟨g0, h4, hg0⟩ := skipC_gap (s := s) (by rw [h3]; simp [hR a t ht])
  rw [h3] at h4
  rcases sepLoop_inv h hR _ _ _ _ h2 with ⟨rfl, rfl⟩ | ⟨g, u, rfl, hg, hu⟩
  · exact ⟨g0 ++ g1, t, by rw [h4]; simp, hg0.append hg1, .one ht⟩
  · exact ⟨g0 ++ g1, t ++ (g ++ u), by rw [h4]; simp, hg0.append hg1, .cons ht hg hu⟩

theorem Snd.list1 {p : P α} {R : α → List Char → Prop} (h : Snd Any Gap p R) (hR : NonE R) :
    Snd Any Gap (spaceSeparatedList1 p) (Items R) := by
  unfold spaceSeparatedList1
  refine Snd.ws ?_ (fun _ => id) (Items.nonE hR)
  intro s as r hs _
  unfold sepList1 at hs
  rw [eolp_eq] at hs
  cases hp : p (skipC s) with
  | ok a r1 =>
    rw [hp] at hs
    simp only [Res.bind] at hs
    cases hl : sepLoop multispace1 (preceded ignoreEolComment p) (r1.length + 1) r1 with
    | ok as' r' =>
      rw [hl] at hs
      cases hs
      exact list_tail h hR hp hl
    | _ => rw [hl] at hs; cases hs
  | _ => rw [hp] at hs; cases hs

theorem Snd.list0 {p : P α} {R : α → List Char → Prop} (h : Snd Any Gap p R) (hR : NonE R) :
    Snd NE Nil (spaceSeparatedList0 p) (Sec Gap Gap (Items R)) := by
  intro s as r hs hr
  unfold spaceSeparatedList0 at hs
  rw [ws_eq] at hs
  have hne : skip s ≠ [] → ∃ g, s = g ++ skip s ∧ Gap g := skip_gap
  unfold sepList0 at hs
  rw [eolp_eq] at hs
  cases hp : p (skipC (skip s)) with
  | ok a r1 =>
    rw [hp] at hs
    simp only [Res.bind] at hs
    cases hl : sepLoop multispace1 (preceded ignoreEolComment p) (r1.length + 1) r1 with
    | ok as' r' =>
      rw [hl] at hs
      cases hs
      obtain ⟨g, t, h1, hg, ht⟩ := list_tail h hR hp hl
      obtain ⟨g0, h2, hg0⟩ := hne (by rw [h1]; simp [Items.nonE hR _ _ ht])
      rw [h1] at h2
      exact ⟨[], (g0 ++ g) ++ (t ++ []), by rw [h2]; simp, rfl, .cons (hg0.append hg) ht .nil⟩
    | _ => rw [hl] at hs; cases hs
  | err =>
    rw [hp] at hs
    cases hs
    obtain ⟨g0, h2, hg0⟩ := hne hr
    exact ⟨[], g0, by rw [List.nil_append]; exact h2, rfl, .nil hg0⟩
  | _ => rw [hp] at hs; cases hs

theorem Sec.lead {B : List α → List Char → Prop} {xs u} {g : List Char} (hg : Gap g)
    (h : Sec Gap Gap B xs u) : Sec Gap Gap B xs (g ++ u) := by
  cases h with
  | nil h => exact .nil (hg.append h)
  | cons h1 h2 h3 => rw [← List.append_assoc]; exact .cons (hg.append h1) h2 h3

theorem Sec.trail {B : List α → List Char → Prop} {xs u} {g : List Char} (hg : Gap g)
    (h : Sec Gap Gap B xs u) : Sec Gap Gap B xs (u ++ g) := by
  cases h with
  | nil h => exact .nil (h.append hg)
  | @cons g1 _ t g2 h1 h2 h3 =>
    have : g1 ++ (t ++ g2) ++ g = g1 ++ (t ++ (g2 ++ g)) := by simp
    rw [this]
    exact .cons h1 h2 (h3.append hg)

theorem Sec.around {B : List α → List Char → Prop} {xs u} {g g' : List Char} (hg : Gap g)
    (h : Sec Gap Gap B xs u) (hg' : Gap g') : Sec Gap Gap B xs (g ++ (u ++ g')) :=
  (h.trail hg').lead hg

/-- A list that skips layout before itself. -/
theorem Snd.sec {p : P (List α)} {B : List α → List Char → Prop}
    (h : Snd NE Gap p (Sec Gap Gap B)) : Snd NE Nil p (Sec Gap Gap B) := fun s a r hs hr => by
  obtain ⟨g, t, h1, hg, ht⟩ := h s a r hs hr
  exact ⟨[], g ++ t, by rw [h1]; simp, rfl, ht.lead hg⟩

theorem Snd.sec_ws {p : P (List α)} {B : List α → List Char → Prop}
    (h : Snd NE Nil p (Sec Gap Gap B)) : Snd NE Nil (Pddl.ws p) (Sec Gap Gap B) :=
  (Snd.ws_ne h Nil.gap).sec

/-- The text of a form with keyword and a list. -/
theorem Snd.prefix_sec {F : List Char → Prop} {kw : List Char} {p : P (List α)}
    {B : List α → List Char → Prop} (h : Snd NE Nil p (Sec Gap Gap B)) :
    Snd F Gap (Pddl.prefixExpr kw p) (fun xs t => ∃ u, t = paren (kw ++ u) ∧ Sec Gap Gap B xs u) :=
  (Snd.prefixExpr h Nil.gap).mono (fun _ => id) (fun _ => id) (by
    rintro xs t ⟨g1, u, g2, rfl, h1, h2, h3⟩
    exact ⟨_, rfl, h2.around h1 h3⟩)

/-- The text of a form without keyword: a name and a list. -/
theorem Snd.parens_sec {F : List Char → Prop} {p : P α} {q : P (List β)}
    {R : α → List Char → Prop} {B : List β → List Char → Prop} (h1 : Snd Any Gap p R)
    (h2 : Snd NE Nil q (Sec Gap Gap B)) :
    Snd F Gap (Pddl.parens (Pddl.pair p q)) (fun x t => ∃ g t1 u, t = paren (g ++ (t1 ++ u)) ∧ Gap g ∧
      R x.1 t1 ∧ Sec Gap Gap B x.2 u) :=
  (Snd.parens (Snd.pair h1 h2) (fun _ => id)).mono (fun _ => id) (fun _ => id) (by
    rintro xs t ⟨g, u, rfl, hg, t1, g2, t2, rfl, h1, rfl, h2⟩
    exact ⟨g, t1, t2, rfl, hg, h1, h2⟩)

end Pddl
