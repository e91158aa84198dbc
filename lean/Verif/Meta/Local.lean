import Verif.Meta.SoundTop

/-!
# Meta-theory: locality

`Tl p`: on a balanced text followed by an unmatched `)`, the outcome of `p` does not depend on what
comes after that parenthesis, and a success leaves a balanced text before it.
`Loc p`: moreover, on one form (layout and a parenthesised text) the outcome of `p` does not depend
on what comes after the form.
-/

namespace Pddl

/-- Two outcomes that differ only in the text `k`, `k'` behind `u`. -/
inductive Rel (u k k' : List Char) : Res α → Res α → Prop
  | ok {a : α} {w : List Char} : Bal w → w.length ≤ u.length →
      Rel u k k' (.ok a (w ++ k)) (.ok a (w ++ k'))
  | err : Rel u k k' .err .err
  | fail : Rel u k k' .fail .fail
  | panic : Rel u k k' .panic .panic
  | oof : Rel u k k' .oof .oof

/-- See the file comment. -/
def Tl (p : P α) : Prop := ∀ u k k', Bal u →
  Rel u (')' :: k) (')' :: k') (p (u ++ ')' :: k)) (p (u ++ ')' :: k'))

/-- The outcome on one form. -/
def Fl (p : P α) : Prop := ∀ g a k k', Gap g → Bal a →
  Rel (g ++ paren a) k k' (p (g ++ (paren a ++ k))) (p (g ++ (paren a ++ k')))

/-- See the file comment. -/
structure Loc (p : P α) : Prop where
  tl : Tl p
  fl : Fl p

theorem Rel.mono {u u' k k' : List Char} {x y : Res α} (h : Rel u k k' x y) (hu : u.length ≤ u'.length) :
    Rel u' k k' x y := by
  cases h with
  | ok h1 h2 => exact .ok h1 (by omega)
  | err => exact .err
  | fail => exact .fail
  | panic => exact .panic
  | oof => exact .oof

theorem Rel.bind {u k k' : List Char} {x y : Res α} {f g : α → List Char → Res β}
    (h : Rel u k k' x y)
    (hf : ∀ a w, Bal w → w.length ≤ u.length → Rel u k k' (f a (w ++ k)) (g a (w ++ k'))) :
    Rel u k k' (x.bind f) (y.bind g) := by
  cases h with
  | ok h1 h2 => exact hf _ _ h1 h2
  | err => exact .err
  | fail => exact .fail
  | panic => exact .panic
  | oof => exact .oof

/-- The case distinction of `alt` and `opt`. -/
theorem Rel.elim {u k k' : List Char} {x y : Res α} {f g : α → List Char → Res β} {e e' : Res β}
    {fl fl' : Res β}
    (h : Rel u k k' x y)
    (hf : ∀ a w, Bal w → w.length ≤ u.length → Rel u k k' (f a (w ++ k)) (g a (w ++ k')))
    (he : Rel u k k' e e') (hfl : Rel u k k' fl fl') :
    Rel u k k' (match x with | .ok a r => f a r | .err => e | .fail => fl | .panic => .panic | .oof => .oof)
      (match y with | .ok a r => g a r | .err => e' | .fail => fl' | .panic => .panic | .oof => .oof) := by
  cases h with
  | ok h1 h2 => exact hf _ _ h1 h2
  | err => exact he
  | fail => exact hfl
  | panic => exact .panic
  | oof => exact .oof

/-! ## Layout and tags on balanced text -/

theorem skip_bal {u : List Char} (h : Bal u) :
    ∃ w, Bal w ∧ w.length ≤ u.length ∧ ∀ k, skip (u ++ ')' :: k) = w ++ ')' :: k := by
  induction h with
  | nil => exact ⟨[], .nil, Nat.le_refl _, fun k => (solid_close k).skip⟩
  | @plain c u h1 h2 h3 h ih =>
    by_cases hc : isSpace c = true
    · obtain ⟨w, hw, hl, hs⟩ := ih
      refine ⟨w, hw, by simp only [List.length_cons]; omega, fun k => ?_⟩
      rw [List.cons_append, skip_space hc, hs]
    · refine ⟨c :: u, .plain h1 h2 h3 h, Nat.le_refl _, fun k => ?_⟩
      exact Solid.skip ⟨c, _, rfl, (by simpa using hc : isSpace c = false), h3⟩
  | @comment b body n u hb hbody hn _ ih =>
    obtain ⟨w, hw, hl, hs⟩ := ih
    refine ⟨w, hw, ?_, fun k => ?_⟩
    · simp only [List.length_cons, List.length_append]; omega
    · have := (Gap.comment hb hbody hn .nil).skip (u ++ ')' :: k)
      simp only [List.cons_append, List.append_assoc, List.nil_append] at this ⊢
      rw [this, hs]
  | @nest u v hu hv =>
    exact ⟨_, .nest hu hv, Nat.le_refl _, fun k => (solid_open _).skip⟩

theorem skipC_bal {u : List Char} (h : Bal u) :
    ∃ w, Bal w ∧ w.length ≤ u.length ∧ ∀ k, skipC (u ++ ')' :: k) = w ++ ')' :: k := by
  by_cases hc : ∃ v, u = ';' :: v
  · obtain ⟨w, h1, h2, h3⟩ := skip_bal h
    obtain ⟨v, rfl⟩ := hc
    refine ⟨w, h1, h2, fun k => ?_⟩
    rw [← h3 k, List.cons_append, skip_semicolon]
  · refine ⟨u, h, Nat.le_refl _, fun k => ?_⟩
    cases u with
    | nil => exact (solid_close k).skipC
    | cons c u => exact skipC_of_ne (fun h => hc ⟨u, by rw [h]⟩) _

theorem strip_bal {kw : List Char} (hk : plainText kw = true) : ∀ {u : List Char}, Bal u →
    (∃ w, Bal w ∧ w.length ≤ u.length ∧ ∀ k, stripPrefix kw (u ++ ')' :: k) = some (w ++ ')' :: k)) ∨
      ∀ k, stripPrefix kw (u ++ ')' :: k) = none := by
  induction kw with
  | nil => exact fun {u} h => .inl ⟨u, h, Nat.le_refl _, fun k => rfl⟩
  | cons c kw ih =>
    have hk' : plainText kw = true := by
      simp only [plainText, List.all_cons, Bool.and_eq_true] at hk ⊢
      exact hk.2
    have hc : c ≠ '(' ∧ c ≠ ')' ∧ c ≠ ';' := by
      simp only [plainText, List.all_cons, Bool.and_eq_true, bne_iff_ne] at hk
      exact ⟨hk.1.1.1, hk.1.1.2, hk.1.2⟩
    intro u h
    have miss : ∀ {d : Char} {v : List Char}, c ≠ d →
        ∀ k, stripPrefix (c :: kw) (d :: (v ++ ')' :: k)) = none := fun hd k => by
      simp [stripPrefix, hd]
    cases h with
    | nil => exact .inr fun k => miss (v := []) hc.2.1 k |> fun _ => by simp [stripPrefix, hc.2.1]
    | @plain d u h1 h2 h3 h =>
      by_cases hd : c = d
      · subst hd
        rcases ih hk' h with ⟨w, hw, hl, hs⟩ | hs
        · refine .inl ⟨w, hw, by simp only [List.length_cons]; omega, fun k => ?_⟩
          simp [stripPrefix, hs k]
        · exact .inr fun k => by simp [stripPrefix, hs k]
      · exact .inr fun k => miss hd k
    | comment => exact .inr fun k => miss hc.2.2 k
    | nest => exact .inr fun k => miss hc.1 k

/-- A closing parenthesis after balanced text closes the form. -/
theorem close_bal {w b : List Char} (hw : Bal w) (v : α) :
    (w = [] ∧ ∀ k, closeRes v (w ++ ')' :: k) = .ok v k) ∨ ∀ k, closeRes v (w ++ ')' :: k) = .err := by
  cases hw with
  | nil => exact .inl ⟨rfl, fun k => closeRes_close v k⟩
  | plain h1 h2 => exact .inr fun k => by simp [closeRes, h2]
  | comment => exact .inr fun k => by simp [closeRes]
  | nest => exact .inr fun k => by simp [closeRes]

/-! ## Combinators, first kind -/

namespace Tl

theorem map {f : α → β} {p : P α} (h : Tl p) : Tl (map f p) := fun u k k' hu =>
  (h u k k' hu).bind fun _ _ h1 h2 => .ok h1 h2

theorem mapExpect {f : α → Option β} {p : P α} (h : Tl p) : Tl (mapExpect f p) := fun u k k' hu =>
  (h u k k' hu).bind fun a w h1 h2 => by
    cases f a with
    | some b => exact .ok h1 h2
    | none => exact .panic

theorem pair {p : P α} {q : P β} (hp : Tl p) (hq : Tl q) : Tl (pair p q) := fun u k k' hu =>
  (hp u k k' hu).bind fun _ w h1 h2 => ((hq w k k' h1).mono h2).bind fun _ _ h3 h4 => .ok h3 h4

theorem preceded {p : P α} {q : P β} (hp : Tl p) (hq : Tl q) : Tl (preceded p q) :=
  fun u k k' hu => (hp u k k' hu).bind fun _ w h1 h2 => (hq w k k' h1).mono h2

theorem terminated {p : P α} {q : P β} (hp : Tl p) (hq : Tl q) : Tl (terminated p q) :=
  fun u k k' hu => (hp u k k' hu).bind fun _ w h1 h2 =>
    ((hq w k k' h1).mono h2).bind fun _ _ h3 h4 => .ok h3 h4

theorem alt_nil : Tl (alt ([] : List (P α))) := fun _ _ _ _ => .err

theorem alt_cons {p : P α} {ps : List (P α)} (h : Tl p) (h' : Tl (alt ps)) : Tl (alt (p :: ps)) :=
  fun u k k' hu => by
  have h1 := h u k k' hu
  have h2 := h' u k k' hu
  unfold Pddl.alt
  revert h1
  generalize p (u ++ ')' :: k) = x
  generalize p (u ++ ')' :: k') = y
  intro h1
  cases h1 with
  | ok h3 h4 => exact .ok h3 h4
  | err => exact h2
  | fail => exact .fail
  | panic => exact .panic
  | oof => exact .oof

theorem alt_one {p : P α} (h : Tl p) : Tl (alt [p]) := alt_cons h alt_nil

theorem opt {p : P α} (h : Tl p) : Tl (opt p) := fun u k k' hu => by
  have h1 := h u k k' hu
  unfold Pddl.opt
  revert h1
  generalize p (u ++ ')' :: k) = x
  generalize p (u ++ ')' :: k') = y
  intro h1
  cases h1 with
  | ok h3 h4 => exact .ok h3 h4
  | err => exact .ok hu (Nat.le_refl _)
  | fail => exact .fail
  | panic => exact .panic
  | oof => exact .oof

theorem ifOk {p : P α} {f : α → β} {q : P β} (h : Tl p) (h' : Tl q) : Tl (ifOk p f q) :=
  fun u k k' hu => by
  have h1 := h u k k' hu
  have h2 := h' u k k' hu
  unfold Pddl.ifOk
  revert h1
  generalize p (u ++ ')' :: k) = x
  generalize p (u ++ ')' :: k') = y
  intro h1
  cases h1 with
  | ok h3 h4 => exact .ok h3 h4
  | err => exact h2
  | fail => exact h2
  | panic => exact .panic
  | oof => exact .oof

theorem recognize {p : P α} (h : Tl p) : Tl (recognize p) := fun u k k' hu => by
  refine (h u k k' hu).bind fun a w h1 h2 => ?_
  have key : ∀ k : List Char, (u ++ ')' :: k).take ((u ++ ')' :: k).length - (w ++ ')' :: k).length) =
      u.take (u.length - w.length) := by
    intro k
    simp only [List.length_append, List.length_cons]
    rw [List.take_append_of_le_length (by omega)]
    congr 1
    omega
  rw [key, key]
  exact .ok h1 h2

theorem ignoreEolComment : Tl ignoreEolComment := fun u k k' hu => by
  obtain ⟨w, h1, h2, h3⟩ := skipC_bal hu
  rw [eol_eq, eol_eq, h3, h3]
  exact .ok h1 h2

theorem ws {p : P α} (h : Tl p) : Tl (ws p) := fun u k k' hu => by
  obtain ⟨w, h1, h2, h3⟩ := skip_bal hu
  rw [ws_eq, ws_eq, h3, h3]
  exact (h w k k' h1).mono h2

theorem tag {kw : List Char} (hk : plainText kw = true := by decide) : Tl (tag kw) :=
  fun u k k' hu => by
  unfold Pddl.tag
  rcases strip_bal hk hu with ⟨w, h1, h2, h3⟩ | h3
  · rw [h3, h3]; exact .ok h1 h2
  · rw [h3, h3]; exact .err

theorem char {c : Char} (hk : plainText [c] = true := by decide) : Tl (char c) :=
  fun u k k' hu => by
  have : ∀ s, Pddl.char c s = Pddl.map (fun _ => c) (Pddl.tag [c]) s := by
    intro s
    cases s with
    | nil => rfl
    | cons d s =>
      by_cases h : c = d
      · subst h; simp [Pddl.char, Pddl.map, Pddl.tag, stripPrefix, Res.bind]
      · simp [Pddl.char, Pddl.map, Pddl.tag, stripPrefix, Res.bind, h, Ne.symm h]
  rw [this, this]
  exact Tl.map (Tl.tag hk) u k k' hu

theorem split_bal {f : Char → Bool} (h1 : f '(' = false) (h2 : f ')' = false) (h3 : f ';' = false)
    {u : List Char} (h : Bal u) : ∃ w, Bal w ∧ w.length ≤ u.length ∧
      ∀ k, (u ++ ')' :: k).takeWhile f = u.takeWhile f ∧ (u ++ ')' :: k).dropWhile f = w ++ ')' :: k := by
  induction h with
  | nil => exact ⟨[], .nil, Nat.le_refl _, fun k => by simp [h2]⟩
  | @plain c u hc1 hc2 hc3 h ih =>
    obtain ⟨w, hw, hl, hs⟩ := ih
    by_cases hc : f c = true
    · exact ⟨w, hw, by simp only [List.length_cons]; omega, fun k => by
        simp [hc, (hs k).1, (hs k).2]⟩
    · exact ⟨c :: u, .plain hc1 hc2 hc3 h, Nat.le_refl _, fun k => by simp [hc]⟩
  | comment hb hbody hn h => exact ⟨_, .comment hb hbody hn h, Nat.le_refl _, fun k => by simp [h3]⟩
  | nest ha hb => exact ⟨_, .nest ha hb, Nat.le_refl _, fun k => by simp [h1]⟩

theorem takeWhile0 {f : Char → Bool} (h1 : f '(' = false) (h2 : f ')' = false)
    (h3 : f ';' = false) : Tl (takeWhile0 f) := fun u k k' hu => by
  obtain ⟨w, hw, hl, hs⟩ := split_bal h1 h2 h3 hu
  unfold Pddl.takeWhile0
  rw [(hs k).1, (hs k).2, (hs k').1, (hs k').2]
  exact .ok hw hl

theorem takeWhile1 {f : Char → Bool} (h1 : f '(' = false) (h2 : f ')' = false)
    (h3 : f ';' = false) : Tl (takeWhile1 f) := fun u k k' hu => by
  obtain ⟨w, hw, hl, hs⟩ := split_bal h1 h2 h3 hu
  unfold Pddl.takeWhile1
  rw [(hs k).1, (hs k).2, (hs k').1, (hs k').2]
  split
  · exact .err
  · exact .ok hw hl

theorem multispace0 : Tl multispace0 := takeWhile0 (by decide) (by decide) (by decide)
theorem multispace1 : Tl multispace1 := takeWhile1 (by decide) (by decide) (by decide)
theorem digit1 : Tl digit1 := takeWhile1 (by decide) (by decide) (by decide)
theorem alpha1 : Tl alpha1 := takeWhile1 (by decide) (by decide) (by decide)

theorem many01 {p : P α} (h : Tl p) : Tl (many01 p) := fun u k k' hu => by
  have h1 := h u k k' hu
  unfold Pddl.many01
  revert h1
  generalize p (u ++ ')' :: k) = x
  generalize p (u ++ ')' :: k') = y
  intro h1
  cases h1 with
  | @ok a w h3 h4 =>
    dsimp only
    have e : ∀ k : List Char, ((w ++ ')' :: k).length = (u ++ ')' :: k).length) = (w.length = u.length) := by
      intro k
      simp only [List.length_append, List.length_cons, eq_iff_iff]
      omega
    simp only [e]
    split
    · exact .err
    · exact .ok h3 h4
  | err => exact .ok hu (Nat.le_refl _)
  | fail => exact .fail
  | panic => exact .panic
  | oof => exact .oof

theorem many0Loop {p : P α} (h : Tl p) (l : Nat) : ∀ u k k' n n', u.length ≤ l → Bal u →
    (u ++ ')' :: k).length < n → (u ++ ')' :: k').length < n' →
    Rel u (')' :: k) (')' :: k') (many0Loop p n (u ++ ')' :: k)) (many0Loop p n' (u ++ ')' :: k')) := by
  induction l with
  | zero =>
    intro u k k' n n' hl hu hn hn'
    cases n with
    | zero => omega
    | succ n =>
      cases n' with
      | zero => omega
      | succ n' =>
        have h1 := h u k k' hu
        rw [Pddl.many0Loop, Pddl.many0Loop]
        dsimp only
        revert h1
        generalize p (u ++ ')' :: k) = x
        generalize p (u ++ ')' :: k') = y
        intro h1
        cases h1 with
        | @ok a w h3 h4 =>
          have hw : w.length = u.length := by omega
          dsimp only
          rw [if_pos (by simp [hw]), if_pos (by simp [hw])]
          exact .err
        | err => exact .ok hu (Nat.le_refl _)
        | fail => exact .fail
        | panic => exact .panic
        | oof => exact .oof
  | succ l ih =>
    intro u k k' n n' hl hu hn hn'
    cases n with
    | zero => omega
    | succ n =>
      cases n' with
      | zero => omega
      | succ n' =>
        have h1 := h u k k' hu
        rw [Pddl.many0Loop, Pddl.many0Loop]
        dsimp only
        revert h1
        generalize p (u ++ ')' :: k) = x
        generalize p (u ++ ')' :: k') = y
        intro h1
        cases h1 with
        | @ok a w h3 h4 =>
          dsimp only
          by_cases hw : w.length = u.length
          · rw [if_pos (by simp [hw]), if_pos (by simp [hw])]
            exact .err
          · simp only [List.length_append, List.length_cons] at hn hn' ⊢
            rw [if_neg (by omega), if_neg (by omega)]
            have := ih w k k' n n' (by omega) h3 (by simp only [List.length_append, List.length_cons]; omega)
              (by simp only [List.length_append, List.length_cons]; omega)
            exact (this.mono (by omega)).bind fun _ _ h5 h6 => .ok h5 h6
        | err => exact .ok hu (Nat.le_refl _)
        | fail => exact .fail
        | panic => exact .panic
        | oof => exact .oof

theorem many0 {p : P α} (h : Tl p) : Tl (many0 p) := fun u k k' hu =>
  many0Loop h u.length u k k' _ _ (Nat.le_refl _) hu (Nat.lt_succ_self _) (Nat.lt_succ_self _)

theorem sepLoop {sep : P β} {p : P α} (hsep : Tl sep) (h : Tl p) (l : Nat) : ∀ u k k' n n',
    u.length ≤ l → Bal u → (u ++ ')' :: k).length < n → (u ++ ')' :: k').length < n' →
    Rel u (')' :: k) (')' :: k') (sepLoop sep p n (u ++ ')' :: k))
      (sepLoop sep p n' (u ++ ')' :: k')) := by
  induction l with
  | zero =>
    intro u k k' n n' hl hu hn hn'
    cases n with
    | zero => omega
    | succ n =>
      cases n' with
      | zero => omega
      | succ n' =>
        have h1 := hsep u k k' hu
        rw [Pddl.sepLoop, Pddl.sepLoop]
        dsimp only
        revert h1
        generalize sep (u ++ ')' :: k) = x
        generalize sep (u ++ ')' :: k') = y
        intro h1
        cases h1 with
        | @ok a w h3 h4 =>
          have hw : w.length = u.length := by omega
          dsimp only
          rw [if_pos (by simp [hw]), if_pos (by simp [hw])]
          exact .err
        | err => exact .ok hu (Nat.le_refl _)
        | fail => exact .fail
        | panic => exact .panic
        | oof => exact .oof
  | succ l ih =>
    intro u k k' n n' hl hu hn hn'
    cases n with
    | zero => omega
    | succ n =>
      cases n' with
      | zero => omega
      | succ n' =>
        have h1 := hsep u k k' hu
        rw [Pddl.sepLoop, Pddl.sepLoop]
        dsimp only
        revert h1
        generalize sep (u ++ ')' :: k) = x
        generalize sep (u ++ ')' :: k') = y
        intro h1
        cases h1 with
        | @ok a w h3 h4 =>
          dsimp only
          by_cases hw : w.length = u.length
          · rw [if_pos (by simp [hw]), if_pos (by simp [hw])]
            exact .err
          · simp only [List.length_append, List.length_cons] at hn hn' ⊢
            rw [if_neg (by omega), if_neg (by omega)]
            have h2 := h w k k' h3
            revert h2
            generalize p (w ++ ')' :: k) = x
            generalize p (w ++ ')' :: k') = y
            intro h2
            cases h2 with
            | @ok b v h5 h6 =>
              dsimp only
              have := ih v k k' n n' (by omega) h5
                (by simp only [List.length_append, List.length_cons]; omega)
                (by simp only [List.length_append, List.length_cons]; omega)
              exact (this.mono (by omega)).bind fun _ _ h5 h6 => .ok h5 h6
            | err => exact .ok hu (Nat.le_refl _)
            | fail => exact .fail
            | panic => exact .panic
            | oof => exact .oof
        | err => exact .ok hu (Nat.le_refl _)
        | fail => exact .fail
        | panic => exact .panic
        | oof => exact .oof

theorem sepList1 {sep : P β} {p : P α} (hsep : Tl sep) (h : Tl p) : Tl (sepList1 sep p) :=
  fun u k k' hu => (h u k k' hu).bind fun _ w h1 h2 =>
    ((sepLoop hsep h w.length w k k' _ _ (Nat.le_refl _) h1 (Nat.lt_succ_self _)
      (Nat.lt_succ_self _)).mono h2).bind fun _ _ h3 h4 => .ok h3 h4

theorem sepList0 {sep : P β} {p : P α} (hsep : Tl sep) (h : Tl p) : Tl (sepList0 sep p) :=
  fun u k k' hu => by
  have h1 := h u k k' hu
  unfold Pddl.sepList0
  revert h1
  generalize p (u ++ ')' :: k) = x
  generalize p (u ++ ')' :: k') = y
  intro h1
  cases h1 with
  | @ok a w h1 h2 =>
    exact ((sepLoop hsep h w.length w k k' _ _ (Nat.le_refl _) h1 (Nat.lt_succ_self _)
      (Nat.lt_succ_self _)).mono h2).bind fun _ _ h3 h4 => .ok h3 h4
  | err => exact .ok hu (Nat.le_refl _)
  | fail => exact .fail
  | panic => exact .panic
  | oof => exact .oof

theorem spaceSeparatedList0 {p : P α} (h : Tl p) : Tl (spaceSeparatedList0 p) :=
  ws (sepList0 multispace1 (preceded ignoreEolComment h))
theorem spaceSeparatedList1 {p : P α} (h : Tl p) : Tl (spaceSeparatedList1 p) :=
  ws (sepList1 multispace1 (preceded ignoreEolComment h))

end Tl

/-! ## Forms -/

/-- The outcome of a form parser on its own form. -/
theorem inner_rel {p : P α} (h : Tl p) {a b : List Char} (ha : Bal a) (hb : Bal b) (k k' : List Char)
    {post : List Char → List Char}
    (hpost : ∀ {w}, Bal w → ∃ w', Bal w' ∧ ∀ k, post (w ++ ')' :: k) = w' ++ ')' :: k) :
    Rel ('(' :: (a ++ ')' :: b)) k k'
      ((p (skip (a ++ ')' :: (b ++ k)))).bind fun v y => closeRes v (post y))
      ((p (skip (a ++ ')' :: (b ++ k')))).bind fun v y => closeRes v (post y)) := by
  obtain ⟨w, h1, h2, h3⟩ := skip_bal ha
  rw [h3, h3]
  have h4 := h w (b ++ k) (b ++ k') h1
  revert h4
  generalize p (w ++ ')' :: (b ++ k)) = x
  generalize p (w ++ ')' :: (b ++ k')) = y
  intro h4
  cases h4 with
  | @ok v w' h5 h6 =>
    obtain ⟨w2, h7, h8⟩ := hpost h5
    simp only [Res.bind, h8]
    rcases close_bal (b := b) h7 v with ⟨rfl, hc⟩ | hc
    · rw [hc, hc]
      exact .ok hb (by simp only [List.length_cons, List.length_append]; omega)
    · rw [hc, hc]; exact .err
  | err => exact .err
  | fail => exact .fail
  | panic => exact .panic
  | oof => exact .oof

theorem prefix_rel {kw : List Char} (hk : plainText kw = true) {p : P α} (h : Tl p) {a b : List Char}
    (ha : Bal a) (hb : Bal b) (k k' : List Char) :
    Rel ('(' :: (a ++ ')' :: b)) k k' (prefixExpr kw p ('(' :: (a ++ ')' :: (b ++ k))))
      (prefixExpr kw p ('(' :: (a ++ ')' :: (b ++ k')))) := by
  rw [prefixExpr_open, prefixExpr_open]
  rcases strip_bal hk ha with ⟨w, h1, h2, h3⟩ | h3
  · rw [h3, h3]
    exact (inner_rel h h1 hb k k' (post := skip) fun hw => by
      obtain ⟨w', h1, _, h2⟩ := skip_bal hw
      exact ⟨w', h1, h2⟩).mono (by simp only [List.length_cons, List.length_append]; omega)
  · rw [h3, h3]; exact .err

theorem parens_rel {p : P α} (h : Tl p) {a b : List Char} (ha : Bal a) (hb : Bal b)
    (k k' : List Char) :
    Rel ('(' :: (a ++ ')' :: b)) k k' (parens p ('(' :: (a ++ ')' :: (b ++ k))))
      (parens p ('(' :: (a ++ ')' :: (b ++ k')))) := by
  rw [parens_open, parens_open]
  exact inner_rel h ha hb k k' (post := id) fun hw => ⟨_, hw, fun _ => rfl⟩

/-- A balanced text is empty, a form with a rest, or begins with another character. -/
theorem Bal.front {w : List Char} (h : Bal w) : w = [] ∨
    (∃ a b, w = '(' :: (a ++ ')' :: b) ∧ Bal a ∧ Bal b) ∨ ∃ c v, w = c :: v ∧ c ≠ '(' := by
  cases h with
  | nil => exact .inl rfl
  | plain h1 => exact .inr (.inr ⟨_, _, rfl, h1⟩)
  | comment => exact .inr (.inr ⟨_, _, rfl, by decide⟩)
  | nest h1 h2 => exact .inr (.inl ⟨_, _, rfl, h1, h2⟩)

namespace Tl

/-- The pattern of `prefixExpr`, `parens` and similar forms. -/
theorem form {p : P α} (pre : List Char → List Char)
    (hpre : ∀ {u}, Bal u → ∃ w, Bal w ∧ w.length ≤ u.length ∧ ∀ k, pre (u ++ ')' :: k) = w ++ ')' :: k)
    (hp : ∀ s, p s = p (pre s))
    (hopen : ∀ {a b}, Bal a → Bal b → ∀ k k', Rel ('(' :: (a ++ ')' :: b)) k k'
      (p ('(' :: (a ++ ')' :: (b ++ k)))) (p ('(' :: (a ++ ')' :: (b ++ k')))))
    (herr : ∀ {c s x}, pre x = c :: s → c ≠ '(' → p x = .err) : Tl p := fun u k k' hu => by
  obtain ⟨w, h1, h2, h3⟩ := hpre hu
  rcases h1.front with rfl | ⟨a, b, rfl, ha, hb⟩ | ⟨c, v, rfl, hc⟩
  · rw [herr (h3 k) (by decide), herr (h3 k') (by decide)]; exact .err
  · rw [hp, hp (u ++ ')' :: k'), h3, h3]
    have := hopen ha hb (')' :: k) (')' :: k')
    simp only [List.cons_append, List.append_assoc]
    exact this.mono h2
  · rw [herr (h3 k) hc, herr (h3 k') hc]; exact .err

theorem prefixExpr {kw : List Char} {p : P α} (h : Tl p) (hk : plainText kw = true := by decide) :
    Tl (prefixExpr kw p) :=
  form skip skip_bal (fun s => (prefixExpr_skip kw p s).symm)
    (fun ha hb k k' => prefix_rel hk h ha hb k k') (by
      intro c s x hx hc
      simp only [Pddl.prefixExpr, delimited, Pddl.preceded, ws_eq, hx, Pddl.tag, stripPrefix,
        if_neg (Ne.symm hc), Res.bind])

theorem parens {p : P α} (h : Tl p) : Tl (parens p) :=
  form skipC skipC_bal (fun s => by
      unfold Pddl.parens
      rw [eolp_eq, eolp_eq, skipC_skipC])
    (fun ha hb k k' => parens_rel h ha hb k k') (by
      intro c s x hx hc
      unfold Pddl.parens
      rw [eolp_eq, hx]
      simp [delimited, Pddl.preceded, Pddl.char, hc, Res.bind])

end Tl

namespace Loc

theorem map {f : α → β} {p : P α} (h : Loc p) : Loc (map f p) :=
  ⟨h.1.map, fun g a k k' hg ha => (h.2 g a k k' hg ha).bind fun _ _ h1 h2 => .ok h1 h2⟩

theorem mapExpect {f : α → Option β} {p : P α} (h : Loc p) : Loc (mapExpect f p) :=
  ⟨h.1.mapExpect, fun g a k k' hg ha => (h.2 g a k k' hg ha).bind fun a w h1 h2 => by
    cases f a with
    | some b => exact .ok h1 h2
    | none => exact .panic⟩

theorem alt_nil : Loc (alt ([] : List (P α))) := ⟨.alt_nil, fun _ _ _ _ _ _ => .err⟩

theorem alt_cons {p : P α} {ps : List (P α)} (h : Loc p) (h' : Loc (alt ps)) :
    Loc (alt (p :: ps)) := ⟨h.1.alt_cons h'.1, fun g a k k' hg ha => by
  have h1 := h.2 g a k k' hg ha
  have h2 := h'.2 g a k k' hg ha
  unfold Pddl.alt
  revert h1
  generalize p (g ++ (paren a ++ k)) = x
  generalize p (g ++ (paren a ++ k')) = y
  intro h1
  cases h1 with
  | ok h3 h4 => exact .ok h3 h4
  | err => exact h2
  | fail => exact .fail
  | panic => exact .panic
  | oof => exact .oof⟩

theorem alt_one {p : P α} (h : Loc p) : Loc (alt [p]) := alt_cons h alt_nil

theorem ifOk {p : P α} {f : α → β} {q : P β} (h : Loc p) (h' : Loc q) : Loc (ifOk p f q) :=
  ⟨h.1.ifOk h'.1, fun g a k k' hg ha => by
  have h1 := h.2 g a k k' hg ha
  have h2 := h'.2 g a k k' hg ha
  unfold Pddl.ifOk
  revert h1
  generalize p (g ++ (paren a ++ k)) = x
  generalize p (g ++ (paren a ++ k')) = y
  intro h1
  cases h1 with
  | ok h3 h4 => exact .ok h3 h4
  | err => exact h2
  | fail => exact h2
  | panic => exact .panic
  | oof => exact .oof⟩

theorem ws {p : P α} (h : Loc p) : Loc (ws p) := ⟨h.1.ws, fun g a k k' hg ha => by
  rw [ws_eq, ws_eq, hg.skip_solid ((solid_paren a).append k), hg.skip_solid ((solid_paren a).append k')]
  exact (h.2 [] a k k' .nil ha).mono (by simp)⟩

/-- A parser that does not accept forms. -/
theorem of_rej {p : P α} (h : Tl p) (hr : ∀ g a k, Gap g → p (g ++ (paren a ++ k)) = .err) : Loc p :=
  ⟨h, fun g a k k' hg _ => by rw [hr g a k hg, hr g a k' hg]; exact .err⟩

theorem prefixExpr {kw : List Char} {p : P α} (h : Tl p) (hk : plainText kw = true := by decide) :
    Loc (prefixExpr kw p) := ⟨h.prefixExpr hk, fun g a k k' hg ha => by
  have e : ∀ k, Pddl.prefixExpr kw p (g ++ (paren a ++ k)) = Pddl.prefixExpr kw p ('(' :: (a ++ ')' :: k)) := by
    intro k
    rw [← prefixExpr_skip, hg.skip_solid ((solid_paren a).append k)]
    simp [paren]
  rw [e, e]
  exact (prefix_rel hk h ha .nil k k').mono (by
    simp only [List.length_append, List.length_cons, paren]; omega)⟩

theorem parens {p : P α} (h : Tl p) : Loc (parens p) := ⟨h.parens, fun g a k k' hg ha => by
  have e : ∀ k, Pddl.parens p (skipC (g ++ (paren a ++ k))) = Pddl.parens p (g ++ (paren a ++ k)) := by
    intro k
    unfold Pddl.parens
    rw [eolp_eq, eolp_eq, skipC_skipC]
  have ok : Rel (g ++ paren a) k k' (Pddl.parens p (paren a ++ k)) (Pddl.parens p (paren a ++ k')) := by
    have : ∀ k, paren a ++ k = '(' :: (a ++ ')' :: ([] ++ k)) := by simp [paren]
    rw [this, this]
    exact (parens_rel h ha .nil k k').mono (by
      simp only [List.length_append, List.length_cons, paren]; omega)
  cases hg with
  | nil => exact ok
  | @space c g hc hg =>
    have : ∀ k, Pddl.parens p (c :: (g ++ (paren a ++ k))) = .err := by
      intro k
      unfold Pddl.parens
      have h1 : c ≠ ';' := (isSpace_plain hc).2.2
      have h2 : c ≠ '(' := (isSpace_plain hc).1
      rw [eolp_eq, skipC_of_ne h1]
      simp [delimited, Pddl.preceded, Pddl.char, h2, Res.bind]
    simp only [List.cons_append, this]
    exact .err
  | @comment b body n g hb hbody hn hg =>
    have : ∀ k, skipC (';' :: b :: (body ++ n :: g) ++ (paren a ++ k)) = paren a ++ k := by
      intro k
      have := (Gap.comment hb hbody hn hg).skip_solid ((solid_paren a).append k)
      rw [List.cons_append, skip_semicolon] at this
      exact this
    rw [← e, ← e, this, this]
    exact ok⟩

theorem fixF {body : P α → P α} (h : ∀ self, Loc self → Loc (body self)) (n : Nat) :
    Loc (fixF body n) := by
  induction n with
  | zero => exact ⟨fun _ _ _ _ => .oof, fun _ _ _ _ _ _ => .oof⟩
  | succ n ih => exact h _ ih

theorem fix {body : P α → P α} {m : Nat}
    (hg : ∀ L p q, Good m L p q → Good m (L + 1) (body p) (body q))
    (h : ∀ self, Loc self → Loc (body self)) : Loc (fix body) := by
  have e : ∀ s n, s.length < n → Pddl.fix body s = Pddl.fixF body n s := fun s n hs =>
    (Good.fixF_fix hg n s hs).1.symm
  constructor
  · intro u k k' hu
    rw [e (u ++ ')' :: k) ((u ++ ')' :: k).length + (u ++ ')' :: k').length + 1) (by omega),
      e (u ++ ')' :: k') ((u ++ ')' :: k).length + (u ++ ')' :: k').length + 1) (by omega)]
    exact (fixF h _).1 u k k' hu
  · intro g a k k' hg ha
    rw [e (g ++ (paren a ++ k)) ((g ++ (paren a ++ k)).length + (g ++ (paren a ++ k')).length + 1) (by omega),
      e (g ++ (paren a ++ k')) ((g ++ (paren a ++ k)).length + (g ++ (paren a ++ k')).length + 1) (by omega)]
    exact (fixF h _).2 g a k k' hg ha

end Loc

end Pddl
