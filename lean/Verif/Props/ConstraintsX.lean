import Verif.Props.EffectsX

/-!
# C82: the exact texts of constraints
-/

namespace Pddl

mutual

/-- The accepted texts of a constraint. -/
inductive ConX : ConGD → List Char → Prop
  | and {vs u} : Sec Gap Gap (Items ConX) vs u → ConX (.and vs) (paren (c!"and" ++ u))
  | forall_ {g1 vs w g2 b y g3} : Gap g1 → TypedX VarX Apart objectTy vs w → Sep g2 → ConX b y → Gap g3 →
      ConX (.forall_ vs b) (paren (c!"forall" ++ (g1 ++ (paren w ++ (g2 ++ (y ++ g3))))))
  | atEnd {g1 v x g2} : Gap g1 → GDX v x → Gap g2 → ConX (.atEnd v) (paren (c!"at end" ++ (g1 ++ (x ++ g2))))
  | always {g1 v x g2} : Gap g1 → Con2X v x → Gap g2 → ConX (.always v) (paren (c!"always" ++ (g1 ++ (x ++ g2))))
  | sometime {g1 v x g2} : Gap g1 → Con2X v x → Gap g2 →
      ConX (.sometime v) (paren (c!"sometime" ++ (g1 ++ (x ++ g2))))
  | within {g1 n x g2 v y g3} : Gap g1 → NumW n x → Sep g2 → Con2X v y → Gap g3 →
      ConX (.within n v) (paren (c!"within" ++ (g1 ++ (x ++ (g2 ++ (y ++ g3))))))
  | atMostOnce {g1 v x g2} : Gap g1 → Con2X v x → Gap g2 →
      ConX (.atMostOnce v) (paren (c!"at-most-once" ++ (g1 ++ (x ++ g2))))
  | sometimeAfter {g1 a x g2 b y g3} : Gap g1 → Con2X a x → Sep g2 → Con2X b y → Gap g3 →
      ConX (.sometimeAfter a b) (paren (c!"sometime-after" ++ (g1 ++ (x ++ (g2 ++ (y ++ g3))))))
  | sometimeBefore {g1 a x g2 b y g3} : Gap g1 → Con2X a x → Sep g2 → Con2X b y → Gap g3 →
      ConX (.sometimeBefore a b) (paren (c!"sometime-before" ++ (g1 ++ (x ++ (g2 ++ (y ++ g3))))))
  | alwaysWithin {g1 n x g2 a y g3 b z g4} : Gap g1 → NumW n x → Sep g2 → Con2X a y → Sep g3 → Con2X b z → Gap g4 →
      ConX (.alwaysWithin n a b)
        (paren (c!"always-within" ++ (g1 ++ (x ++ (g2 ++ (y ++ (g3 ++ (z ++ g4))))))))
  | holdDuring {g1 n x g2 m y g3 v z g4} : Gap g1 → NumW n x → Sp g2 → NumW m y → Sep g3 → Con2X v z → Gap g4 →
      ConX (.holdDuring n m v)
        (paren (c!"hold-during" ++ (g1 ++ (x ++ (g2 ++ (y ++ (g3 ++ (z ++ g4))))))))
  | holdAfter {g1 n x g2 v y g3} : Gap g1 → NumW n x → Sep g2 → Con2X v y → Gap g3 →
      ConX (.holdAfter n v) (paren (c!"hold-after" ++ (g1 ++ (x ++ (g2 ++ (y ++ g3))))))

/-- The accepted texts of an argument of a constraint: a text that can be read as a goal is no nested
constraint. -/
inductive Con2X : Con2GD → List Char → Prop
  | goal {v t} : GDX v t → Con2X (.goal v) t
  | nested {c t} : ConX c t → (∀ v, ¬ GDX v t) → Con2X (.nested c) t

end

/-- The accepted texts of a constraint of a problem. Conjunctions are flattened, so the value of a text is
a list. -/
inductive PrefConX : List PrefConGD → List Char → Prop
  | and {vss u} : Sec Gap Gap (Items PrefConX) vss u → PrefConX vss.flatten (paren (c!"and" ++ u))
  | forall_ {g1 vs w g2 b y g3} : Gap g1 → TypedX VarX Apart objectTy vs w → Sep g2 → PrefConX b y → Gap g3 →
      PrefConX [.forall_ vs b] (paren (c!"forall" ++ (g1 ++ (paren w ++ (g2 ++ (y ++ g3))))))
  | named {n c t} : Paired c!"preference" NameW ConX n c t → PrefConX [.preference (some n) c] t
  | anonymous {c t} : Wrapped c!"preference" ConX c t → PrefConX [.preference none c] t
  | goal {c t} : ConX c t → (∀ vs, c ≠ .and vs) → (∀ vs b, c ≠ .forall_ vs b) → PrefConX [.goal c] t

/-! ## Lists of parts that end in success or an error -/

/-- Read up to the end of the text, or an error. -/
def ReadOut (p : P α) (t : List Char) : Prop := Solid t ∧ ∀ r, (∃ v, p (t ++ r) = .ok v r) ∨ p (t ++ r) = .err

theorem sepLoop_whole {p : P α} {as : List β} {u : List Char} (h : Items (fun _ t => ReadOut p t) as u)
    {g y : List Char} (hg : Sep g) (he : p (skip y) = .err) (n : Nat) (hn : (g ++ (u ++ y)).length < n) :
    OkErr (sepLoop multispace1 (preceded ignoreEolComment p) n (g ++ (u ++ y))) := by
  induction h generalizing g n with
  | @one a t h =>
    have hk := hg.gap.skip_solid (h.1.append y)
    cases hg with
    | @mk c g hc hg =>
      rw [List.cons_append] at hk hn ⊢
      match n with
      | 0 | 1 => simp at hn
      | n + 2 =>
      rw [sepLoop_step hc, hk]
      rcases h.2 y with ⟨v, e⟩ | e
      · rw [e]
        dsimp only
        rw [sepLoop_end he n]
        exact .inl ⟨_, _, rfl⟩
      · rw [e]
        exact .inl ⟨_, _, rfl⟩
  | @cons a t g' as u h hg' hu ih =>
    have e : t ++ (g' ++ u) ++ y = t ++ (g' ++ (u ++ y)) := by simp
    rw [e] at hn ⊢
    have hk := hg.gap.skip_solid (h.1.append (g' ++ (u ++ y)))
    cases hg with
    | @mk c g hc hg =>
      rw [List.cons_append] at hk hn ⊢
      match n with
      | 0 => simp at hn
      | n + 1 =>
      rw [sepLoop_step hc, hk]
      rcases h.2 (g' ++ (u ++ y)) with ⟨v, e⟩ | e
      · rw [e]
        exact .bind (ih hg' n (by simp only [List.length_append, List.length_cons] at hn ⊢; omega))
          fun _ _ _ => .inl ⟨_, _, rfl⟩
      · rw [e]
        exact .inl ⟨_, _, rfl⟩

theorem list_whole {p : P α} {as : List β} {u : List Char} (kw : List Char)
    (h : Sec Gap Gap (Items fun _ t => ReadOut p t) as u) (hp : ∀ x, p (')' :: x) = .err) (r : List Char) :
    OkErr (prefixExpr kw (spaceSeparatedList0 p) (paren (kw ++ u) ++ r)) := by
  simp only [paren_append, List.append_assoc]
  refine .prefixExpr fun x e => ?_
  obtain rfl := List.append_cancel_left e
  rw [list0_skip]
  cases h with
  | nil hg =>
    rw [list0_nil (by rw [hg.skip_solid (solid_close r), hp])]
    exact .inl ⟨_, _, rfl⟩
  | @cons g xs t g' hg h hg' =>
    have hy : p (skip (g' ++ ')' :: r)) = .err := by rw [hg'.skip_solid (solid_close r), hp]
    simp only [List.append_assoc]
    rw [spaceSeparatedList0, ws_eq]
    cases h with
    | one h =>
      rw [hg.skip_solid (h.1.append _), sepList0, eolp_eq, (h.1.append _).skipC]
      rcases h.2 (g' ++ ')' :: r) with ⟨v, e⟩ | e
      · rw [e]
        dsimp only
        rw [sepLoop_end hy]
        exact .inl ⟨_, _, rfl⟩
      · rw [e]
        exact .inl ⟨_, _, rfl⟩
    | @cons a t g2 as u h hg2 hu =>
      simp only [List.append_assoc]
      rw [hg.skip_solid (h.1.append _), sepList0, eolp_eq, (h.1.append _).skipC]
      rcases h.2 (g2 ++ (u ++ (g' ++ ')' :: r))) with ⟨v, e⟩ | e
      · rw [e]
        exact .bind (sepLoop_whole hu hg2 hy _ (Nat.lt_succ_self _)) fun _ _ _ => .inl ⟨_, _, rfl⟩
      · rw [e]
        exact .inl ⟨_, _, rfl⟩

/-! ## Goals on the texts of constraints -/

theorem atom_calm (s : List Char) : OkErr (atomicFormula parseTerm s) :=
  .of_mild (k := 0) (.atomicFormula parseTerm_mild) (.mono (by good) (Nat.zero_le _))

theorem literal_calm (s : List Char) : OkErr (literal parseTerm s) :=
  .of_mild (k := 0) (.literal parseTerm_mild) (.mono (by good) (Nat.zero_le _))

/-- The keyword does not begin with an operator, so the form is no comparison. -/
theorem fComp_kw {kw t : List Char} (h : Head kw t) (hs : ∀ x, skip (kw ++ x) = kw ++ x)
    (hb : ∀ x, parseBinaryComp (kw ++ x) = .err) (r : List Char) : OkErr (parseFComp (t ++ r)) := by
  obtain ⟨u, rfl⟩ := h
  simp only [paren_append, List.append_assoc]
  refine .map (.parens (.inr ?_))
  rw [hs]
  exact pair_err (hb _)

theorem goal_tail {kw t : List Char} (h : Head kw t) (hs : ∀ x, skip (kw ++ x) = kw ++ x)
    (hb : ∀ x, parseBinaryComp (kw ++ x) = .err) (r : List Char)
    (hk : OkErr (alt (kwGoals parseGd) (t ++ r))) : OkErr (parseGd (t ++ r)) := by
  rw [parseGd_eq, gdBody_kw]
  rcases hk with ⟨v, y, e⟩ | e
  · exact .inl ⟨_, _, alt_append_ok e⟩
  · rw [alt_append_err e]
    exact .alt_cons (.map (atom_calm _)) (.alt_cons (.map (literal_calm _))
      (.alt_cons (.map (fComp_kw h hs hb r)) .alt_nil))

/-- A keyword of a constraint is no keyword of a goal. -/
theorem goal_kw {kw t : List Char} (h : Head kw t) (hs : ∀ x, skip (kw ++ x) = kw ++ x)
    (hb : ∀ x, parseBinaryComp (kw ++ x) = .err)
    (hk : ∀ k ∈ [c!"and", c!"or", c!"not", c!"imply", c!"exists", c!"forall"], ∀ x, stripPrefix k (kw ++ x) = none)
    (r : List Char) : OkErr (parseGd (t ++ r)) := by
  refine goal_tail h hs hb r (.inr ?_)
  obtain ⟨u, rfl⟩ := h
  unfold kwGoals
  rw [alt_miss (map_err (kw_miss (hk _ (by simp)) _ _)), alt_miss (map_err (kw_miss (hk _ (by simp)) _ _)),
    alt_miss (map_err (kw_miss (hk _ (by simp)) _ _)), alt_miss (map_err (kw_miss (hk _ (by simp)) _ _)),
    alt_miss (map_err (kw_miss (hk _ (by simp)) _ _)), alt_miss (map_err (kw_miss (hk _ (by simp)) _ _))]
  rfl

theorem whole_goal {t : List Char} (ht : OneForm t) (h : ∀ r, OkErr (parseGd (t ++ r))) : ReadOut parseGd t :=
  ⟨ht.solid, fun r => (h r).elim
    (fun ⟨v, _, e⟩ => .inl ⟨v, (reads_of_ok parseGd_parts C27_goals ht e).2 ▸ e⟩) .inr⟩

/-- No keyword of a goal is a prefix. -/
local macro "no_goal" : tactic => `(tactic|
  (simp only [List.mem_cons, List.not_mem_nil, or_false]
   intro k hk x
   obtain e | e | e | e | e | e := hk <;> subst e <;> rfl))

theorem goal_calm (n : Nat) : ∀ v t, t.length ≤ n → ReadsAs parseConGd v t → ReadOut parseGd t := by
  induction n with
  | zero =>
    intro v t hl h
    exact absurd (List.length_eq_zero_iff.mp (Nat.le_zero.mp hl)) h.1.ne
  | succ n ih =>
    intro v t hl h
    refine whole_goal (oneForm_of C27_constraints h.1 h.2) fun r => ?_
    have hk : ∀ {kw : List Char}, Head kw t → (∀ x, skip (kw ++ x) = kw ++ x) →
      (∀ x, parseBinaryComp (kw ++ x) = .err) →
      (∀ k ∈ [c!"and", c!"or", c!"not", c!"imply", c!"exists", c!"forall"], ∀ x, stripPrefix k (kw ++ x) = none) →
      OkErr (parseGd (t ++ r)) := fun h hs hb hk => goal_kw h hs hb hk r
    cases v with
    | and vs =>
      have k := C73_constraint_and.mp h
      refine goal_tail k.head (fun _ => rfl) (fun _ => rfl) r ?_
      obtain ⟨u, rfl, k⟩ := k
      simp only [paren, List.length_cons, List.length_append, List.length_nil] at hl
      unfold kwGoals
      refine .alt_cons (.map (list_whole _ (k.mono fun w h hw => h.mono fun a x h hx => ih a x (by omega) h)
        parseGd_par.close r)) (.inr ?_)
      rw [alt_miss (map_err (kw_miss (fun _ => rfl) _ _)), alt_miss (map_err (kw_miss (fun _ => rfl) _ _)),
        alt_miss (map_err (kw_miss (fun _ => rfl) _ _)), alt_miss (map_err (kw_miss (fun _ => rfl) _ _)),
        alt_miss (map_err (kw_miss (fun _ => rfl) _ _))]
      rfl
    | forall_ vs b =>
      have h := C73_constraint_forall.mp h
      refine goal_tail h.head (fun _ => rfl) (fun _ => rfl) r ?_
      obtain ⟨g1, x, g2, y, g3, rfl, hg1, hx, hg2, hy, hg3⟩ := h
      simp only [paren, List.length_cons, List.length_append, List.length_nil] at hl
      unfold kwGoals
      rw [alt_miss (map_err (kw_miss (fun _ => rfl) _ _)), alt_miss (map_err (kw_miss (fun _ => rfl) _ _)),
        alt_miss (map_err (kw_miss (fun _ => rfl) _ _)), alt_miss (map_err (kw_miss (fun _ => rfl) _ _)),
        alt_miss (map_err (kw_miss (fun _ => rfl) _ _))]
      refine .alt_cons (.map ?_) .alt_nil
      simp only [paren_append, List.append_assoc]
      refine .prefixExpr fun z e => ?_
      obtain rfl := List.append_cancel_left e
      rw [hg1.skip_solid (hx.1.append _)]
      refine .pair (.inl ⟨_, _, hx.run C28_variable_lists _⟩) fun v z e => ?_
      rw [hx.run C28_variable_lists] at e
      cases e
      have hw := ih b y (by omega) hy
      rw [pms1_sep parseGd_ct hg2 (hw.1.append _)]
      exact (hw.2 _).imp (fun ⟨v, e⟩ => ⟨v, _, e⟩) id
    | atEnd => exact hk (C73_constraint_at_end.mp h).head (fun _ => rfl) (fun _ => rfl) (by no_goal)
    | always => exact hk (C73_constraint_always.mp h).head (fun _ => rfl) (fun _ => rfl) (by no_goal)
    | sometime => exact hk (C73_constraint_sometime.mp h).head (fun _ => rfl) (fun _ => rfl) (by no_goal)
    | within => exact hk (C73_constraint_within.mp h).head (fun _ => rfl) (fun _ => rfl) (by no_goal)
    | atMostOnce => exact hk (C73_constraint_at_most_once.mp h).head (fun _ => rfl) (fun _ => rfl) (by no_goal)
    | sometimeAfter => exact hk (C73_constraint_sometime_after.mp h).head (fun _ => rfl) (fun _ => rfl) (by no_goal)
    | sometimeBefore => exact hk (C73_constraint_sometime_before.mp h).head (fun _ => rfl) (fun _ => rfl) (by no_goal)
    | alwaysWithin => exact hk (C73_constraint_always_within.mp h).head (fun _ => rfl) (fun _ => rfl) (by no_goal)
    | holdDuring => exact hk (C73_constraint_hold_during.mp h).head (fun _ => rfl) (fun _ => rfl) (by no_goal)
    | holdAfter => exact hk (C73_constraint_hold_after.mp h).head (fun _ => rfl) (fun _ => rfl) (by no_goal)

/-! ## The arguments of constraints -/

theorem con2_goal {v : GD} {t : List Char} : ReadsAs parseCon2Gd (.goal v) t ↔ GDX v t := by
  rw [← gdx_reads]
  constructor
  · rintro ⟨ht, h⟩
    unfold parseCon2Gd con2Of at h
    rcases alt_inv h with h | ⟨_, h⟩
    · obtain ⟨x, h1, e⟩ := map_ok h
      cases e
      exact ⟨ht, h1⟩
    · rcases alt_inv h with h | ⟨_, h⟩
      · obtain ⟨_, _, e⟩ := map_ok h
        cases e
      · cases h
  · rintro ⟨ht, h⟩
    exact ⟨ht, alt_hit (map_run h)⟩

theorem con2_nested {c : ConGD} {t : List Char} :
    ReadsAs parseCon2Gd (.nested c) t ↔ ReadsAs parseConGd c t ∧ ∀ v, ¬ GDX v t := by
  constructor
  · rintro ⟨ht, h⟩
    unfold parseCon2Gd con2Of at h
    rcases alt_inv h with h | ⟨hn, h⟩
    · obtain ⟨_, _, e⟩ := map_ok h
      cases e
    · rcases alt_inv h with h | ⟨_, h⟩
      · obtain ⟨x, h1, e⟩ := map_ok h
        cases e
        refine ⟨⟨ht, h1⟩, fun v hv => ?_⟩
        rw [map_run (gdx_reads.mpr hv).2] at hn
        cases hn
      · cases h
  · rintro ⟨h, hn⟩
    refine ⟨h.1, ?_⟩
    unfold parseCon2Gd con2Of
    have hw := (goal_calm _ c t (Nat.le_refl _) h).2 []
    rw [List.append_nil] at hw
    rcases hw with ⟨v, e⟩ | e
    · exact absurd (gdx_reads.mp ⟨h.1, e⟩) (hn v)
    · rw [alt_miss (map_err e)]
      exact alt_hit (map_run h.2)

/-! ## Constraints -/

theorem ConX.solid {v : ConGD} {t : List Char} (h : ConX v t) : Solid t := by
  cases h <;> exact solid_paren _

theorem conX_aux (n : Nat) : ∀ v t, t.length ≤ n → (ReadsAs parseConGd v t ↔ ConX v t) := by
  induction n with
  | zero =>
    intro v t hl
    have : t = [] := List.length_eq_zero_iff.mp (Nat.le_zero.mp hl)
    exact ⟨fun h => absurd this h.1.ne, fun h => absurd this h.solid.ne⟩
  | succ n ih =>
    intro v t hl
    have ih2 : ∀ v t, t.length ≤ n → (ReadsAs parseCon2Gd v t ↔ Con2X v t) := by
      intro v t hl
      cases v with
      | goal v =>
        rw [con2_goal]
        exact ⟨.goal, fun h => by cases h; assumption⟩
      | nested c =>
        rw [con2_nested, ih c t hl]
        exact ⟨fun h => .nested h.1 h.2, fun h => by cases h with | nested h hn => exact ⟨h, hn⟩⟩
    cases v with
    | and vs =>
      rw [C73_constraint_and]
      constructor
      · rintro ⟨u, rfl, h⟩
        simp only [paren, List.length_cons, List.length_append, List.length_nil] at hl
        exact .and (h.mono fun w h hw => h.mono fun a x h hx => (ih a x (by omega)).mp h)
      · intro h
        cases h with
        | and h =>
          simp only [paren, List.length_cons, List.length_append, List.length_nil] at hl
          exact ⟨_, rfl, h.mono fun w h hw => h.mono fun a x h hx => (ih a x (by omega)).mpr h⟩
    | forall_ vs b =>
      rw [C73_constraint_forall]
      constructor
      · rintro ⟨g1, x, g2, y, g3, rfl, hg1, hx, hg2, hy, hg3⟩
        simp only [paren, List.length_cons, List.length_append, List.length_nil] at hl
        obtain ⟨w, rfl, hw⟩ := varList_reads.mp hx
        exact .forall_ hg1 hw hg2 ((ih b y (by omega)).mp hy) hg3
      · intro h
        cases h with
        | forall_ hg1 hw hg2 hy hg3 =>
          simp only [paren, List.length_cons, List.length_append, List.length_nil] at hl
          exact ⟨_, _, _, _, _, rfl, hg1, varList_reads.mpr ⟨_, rfl, hw⟩, hg2, (ih b _ (by omega)).mpr hy, hg3⟩
    | atEnd v =>
      rw [C73_constraint_at_end]
      constructor
      · rintro ⟨g1, x, g2, rfl, hg1, hx, hg2⟩
        simp only [paren, List.length_cons, List.length_append, List.length_nil] at hl
        exact .atEnd hg1 (gdx_reads.mp hx) hg2
      · intro h
        cases h with
        | atEnd hg1 hx hg2 =>
          simp only [paren, List.length_cons, List.length_append, List.length_nil] at hl
          exact ⟨_, _, _, rfl, hg1, gdx_reads.mpr hx, hg2⟩
    | always v =>
      rw [C73_constraint_always]
      constructor
      · rintro ⟨g1, x, g2, rfl, hg1, hx, hg2⟩
        simp only [paren, List.length_cons, List.length_append, List.length_nil] at hl
        exact .always hg1 ((ih2 v _ (by omega)).mp hx) hg2
      · intro h
        cases h with
        | always hg1 hx hg2 =>
          simp only [paren, List.length_cons, List.length_append, List.length_nil] at hl
          exact ⟨_, _, _, rfl, hg1, (ih2 v _ (by omega)).mpr hx, hg2⟩
    | sometime v =>
      rw [C73_constraint_sometime]
      constructor
      · rintro ⟨g1, x, g2, rfl, hg1, hx, hg2⟩
        simp only [paren, List.length_cons, List.length_append, List.length_nil] at hl
        exact .sometime hg1 ((ih2 v _ (by omega)).mp hx) hg2
      · intro h
        cases h with
        | sometime hg1 hx hg2 =>
          simp only [paren, List.length_cons, List.length_append, List.length_nil] at hl
          exact ⟨_, _, _, rfl, hg1, (ih2 v _ (by omega)).mpr hx, hg2⟩
    | atMostOnce v =>
      rw [C73_constraint_at_most_once]
      constructor
      · rintro ⟨g1, x, g2, rfl, hg1, hx, hg2⟩
        simp only [paren, List.length_cons, List.length_append, List.length_nil] at hl
        exact .atMostOnce hg1 ((ih2 v _ (by omega)).mp hx) hg2
      · intro h
        cases h with
        | atMostOnce hg1 hx hg2 =>
          simp only [paren, List.length_cons, List.length_append, List.length_nil] at hl
          exact ⟨_, _, _, rfl, hg1, (ih2 v _ (by omega)).mpr hx, hg2⟩
    | within m v =>
      rw [C73_constraint_within]
      constructor
      · rintro ⟨g1, x, g2, y, g3, rfl, hg1, hx, hg2, hy, hg3⟩
        simp only [paren, List.length_cons, List.length_append, List.length_nil] at hl
        exact .within hg1 hx hg2 ((ih2 v _ (by omega)).mp hy) hg3
      · intro h
        cases h with
        | within hg1 hx hg2 hy hg3 =>
          simp only [paren, List.length_cons, List.length_append, List.length_nil] at hl
          exact ⟨_, _, _, _, _, rfl, hg1, hx, hg2, (ih2 v _ (by omega)).mpr hy, hg3⟩
    | holdAfter m v =>
      rw [C73_constraint_hold_after]
      constructor
      · rintro ⟨g1, x, g2, y, g3, rfl, hg1, hx, hg2, hy, hg3⟩
        simp only [paren, List.length_cons, List.length_append, List.length_nil] at hl
        exact .holdAfter hg1 hx hg2 ((ih2 v _ (by omega)).mp hy) hg3
      · intro h
        cases h with
        | holdAfter hg1 hx hg2 hy hg3 =>
          simp only [paren, List.length_cons, List.length_append, List.length_nil] at hl
          exact ⟨_, _, _, _, _, rfl, hg1, hx, hg2, (ih2 v _ (by omega)).mpr hy, hg3⟩
    | sometimeAfter a v =>
      rw [C73_constraint_sometime_after]
      constructor
      · rintro ⟨g1, x, g2, y, g3, rfl, hg1, hx, hg2, hy, hg3⟩
        simp only [paren, List.length_cons, List.length_append, List.length_nil] at hl
        exact .sometimeAfter hg1 ((ih2 a _ (by omega)).mp hx) hg2 ((ih2 v _ (by omega)).mp hy) hg3
      · intro h
        cases h with
        | sometimeAfter hg1 hx hg2 hy hg3 =>
          simp only [paren, List.length_cons, List.length_append, List.length_nil] at hl
          exact ⟨_, _, _, _, _, rfl, hg1, (ih2 a _ (by omega)).mpr hx, hg2, (ih2 v _ (by omega)).mpr hy, hg3⟩
    | sometimeBefore a v =>
      rw [C73_constraint_sometime_before]
      constructor
      · rintro ⟨g1, x, g2, y, g3, rfl, hg1, hx, hg2, hy, hg3⟩
        simp only [paren, List.length_cons, List.length_append, List.length_nil] at hl
        exact .sometimeBefore hg1 ((ih2 a _ (by omega)).mp hx) hg2 ((ih2 v _ (by omega)).mp hy) hg3
      · intro h
        cases h with
        | sometimeBefore hg1 hx hg2 hy hg3 =>
          simp only [paren, List.length_cons, List.length_append, List.length_nil] at hl
          exact ⟨_, _, _, _, _, rfl, hg1, (ih2 a _ (by omega)).mpr hx, hg2, (ih2 v _ (by omega)).mpr hy, hg3⟩
    | alwaysWithin m a v =>
      rw [C73_constraint_always_within]
      constructor
      · rintro ⟨g1, x, g2, y, g3, z, g4, rfl, hg1, hx, hg2, hy, hg3, hz, hg4⟩
        simp only [paren, List.length_cons, List.length_append, List.length_nil] at hl
        exact .alwaysWithin hg1 hx hg2 ((ih2 a _ (by omega)).mp hy) hg3 ((ih2 v _ (by omega)).mp hz) hg4
      · intro h
        cases h with
        | alwaysWithin hg1 hx hg2 hy hg3 hz hg4 =>
          simp only [paren, List.length_cons, List.length_append, List.length_nil] at hl
          exact ⟨_, _, _, _, _, _, _, rfl, hg1, hx, hg2, (ih2 a _ (by omega)).mpr hy, hg3, (ih2 v _ (by omega)).mpr hz, hg4⟩
    | holdDuring m a v =>
      rw [C73_constraint_hold_during]
      constructor
      · rintro ⟨g1, x, g2, y, g3, z, g4, rfl, hg1, hx, hg2, hy, hg3, hz, hg4⟩
        simp only [paren, List.length_cons, List.length_append, List.length_nil] at hl
        exact .holdDuring hg1 hx hg2 hy hg3 ((ih2 v _ (by omega)).mp hz) hg4
      · intro h
        cases h with
        | holdDuring hg1 hx hg2 hy hg3 hz hg4 =>
          simp only [paren, List.length_cons, List.length_append, List.length_nil] at hl
          exact ⟨_, _, _, _, _, _, _, rfl, hg1, hx, hg2, hy, hg3, (ih2 v _ (by omega)).mpr hz, hg4⟩

theorem conX_reads {v : ConGD} {t : List Char} : ReadsAs parseConGd v t ↔ ConX v t := conX_aux _ v t (Nat.le_refl _)

theorem con2X_reads {v : Con2GD} {t : List Char} : ReadsAs parseCon2Gd v t ↔ Con2X v t := by
  cases v with
  | goal v =>
    rw [con2_goal]
    exact ⟨.goal, fun h => by cases h; assumption⟩
  | nested c =>
    rw [con2_nested, conX_reads]
    exact ⟨fun h => .nested h.1 h.2, fun h => by cases h with | nested h hn => exact ⟨h, hn⟩⟩

theorem Texts.of_reads {p : P α} {R X : α → List Char → Prop} (hs : Snd Any Gap p R) (hR : ∀ v t, R v t → Form t)
    (ht : TailBlind p) (hl : LeadBlind p) (h : ∀ v t, ReadsAs p v t ↔ X v t) :
    Texts p (fun g v t => Gap g ∧ X v t) :=
  (Texts.sem hs hR ht hl.shed).congr fun {g v t} => by
    rw [← h v t]
    constructor
    · rintro ⟨hg, hs, k⟩
      exact ⟨hg, hs, by rwa [hl g t hg] at k⟩
    · rintro ⟨hg, hs, k⟩
      exact ⟨hg, hs, by rwa [hl g t hg]⟩

theorem con_texts : Texts parseConGd (fun g v t => Gap g ∧ ConX v t) :=
  .of_reads parseConGd_snd (fun _ _ h => h.form) C28_constraints C29_constraints fun _ _ => conX_reads

/-- C82, constraints. -/
theorem C82_constraints (s : List Char) (v : ConGD) (r : List Char) :
    parseConGd s = .ok v r ↔ ∃ g t, s = g ++ (t ++ r) ∧ Gap g ∧ ConX v t := con_texts.iff s v r

theorem ConX.run {v : ConGD} {t : List Char} (h : ConX v t) (r : List Char) : parseConGd (t ++ r) = .ok v r :=
  con_texts.run0 (g := []) ⟨.nil, h⟩ r

/-- C82, the arguments of constraints, which are only read where no layout is in front. -/
theorem C82_arguments {s : List Char} (hs : Solid s) (v : Con2GD) (r : List Char) :
    parseCon2Gd s = .ok v r ↔ ∃ t, s = t ++ r ∧ Con2X v t := by
  constructor
  · intro h
    obtain ⟨g, t, rfl, hg, ht⟩ := C27_nested_constraints s v r h
    have e := hs.skip
    rw [hg.skip_solid (ht.solid.append r)] at e
    obtain rfl : g = [] := List.append_cancel_right (bs := t ++ r) e.symm
    rw [List.nil_append] at h
    refine ⟨t, rfl, con2X_reads.mp ⟨ht.solid, ?_⟩⟩
    have := C28_nested_constraints t r v h []
    rwa [List.append_nil] at this
  · rintro ⟨t, rfl, h⟩
    exact (con2X_reads.mpr h).run C28_nested_constraints r

/-! ## Constraints of a problem -/

theorem PrefConX.solid {v : List PrefConGD} {t : List Char} (h : PrefConX v t) : Solid t := by
  cases h with
  | named h => exact h.solid
  | anonymous h => exact h.solid
  | goal h => exact h.solid
  | _ => exact solid_paren _

/-- Every constraint is a constraint of a problem. -/
theorem conX_pref (n : Nat) : ∀ v t, t.length ≤ n → ConX v t → ∃ w, PrefConX w t := by
  induction n with
  | zero =>
    intro v t hl h
    exact absurd (List.length_eq_zero_iff.mp (Nat.le_zero.mp hl)) h.solid.ne
  | succ n ih =>
    intro v t hl h
    have h0 := h
    cases h with
    | and h =>
      simp only [paren, List.length_cons, List.length_append, List.length_nil] at hl
      obtain ⟨vss, h⟩ := h.choose (B' := Items PrefConX) fun w h hw => h.choose fun a x h hx => ih a x (by omega) h
      exact ⟨_, .and h⟩
    | forall_ hg1 hw hg2 hy hg3 =>
      simp only [paren, List.length_cons, List.length_append, List.length_nil] at hl
      obtain ⟨w, hy⟩ := ih _ _ (by omega) hy
      exact ⟨_, .forall_ hg1 hw hg2 hy hg3⟩
    | _ => exact ⟨_, .goal h0 nofun nofun⟩

theorem PrefConX.reads (n : Nat) : ∀ v t, t.length ≤ n → PrefConX v t → ReadsAs parsePrefConGd v t := by
  induction n with
  | zero =>
    intro v t hl h
    exact absurd (List.length_eq_zero_iff.mp (Nat.le_zero.mp hl)) h.solid.ne
  | succ n ih =>
    intro v t hl h
    cases h with
    | and h =>
      simp only [paren, List.length_cons, List.length_append, List.length_nil] at hl
      exact C73_pref_constraint_and ⟨_, rfl, h.mono fun w h hw => h.mono fun a x h hx => ih a x (by omega) h⟩
    | forall_ hg1 hw hg2 hy hg3 =>
      simp only [paren, List.length_cons, List.length_append, List.length_nil] at hl
      exact C73_pref_constraint_forall
        ⟨_, _, _, _, _, rfl, hg1, varList_reads.mpr ⟨_, rfl, hw⟩, hg2, ih _ _ (by omega) hy, hg3⟩
    | named h => exact C73_pref_constraint_named (h.imp (fun _ h => h) fun _ => conX_reads.mpr)
    | anonymous h => exact C73_pref_constraint_anonymous (h.imp fun _ => conX_reads.mpr)
    | @goal c _ h h1 h2 =>
      refine .of h.solid ?_
      rw [parsePrefConGd_eq, prefConGdBody]
      have hh : ∃ kw, Head kw t ∧ (∀ x, stripPrefix c!"and" (kw ++ x) = none) ∧
          (∀ x, stripPrefix c!"forall" (kw ++ x) = none) ∧ (∀ x, stripPrefix c!"preference" (kw ++ x) = none) := by
        cases h with
        | and => exact absurd rfl (h1 _)
        | forall_ => exact absurd rfl (h2 _ _)
        | _ => exact ⟨_, ⟨_, rfl⟩, fun _ => rfl, fun _ => rfl, fun _ => rfl⟩
      obtain ⟨kw, ⟨u, rfl⟩, k1, k2, k3⟩ := hh
      rw [alt_miss (map_err (kw_miss k1 _ _)), alt_miss (map_err (kw_miss k2 _ _)),
        alt_miss (map_err (kw_miss k3 _ _)), alt_miss (map_err (kw_miss k3 _ _))]
      exact alt_hit (map_run (h.run []))

theorem PrefConX.of_reads (n : Nat) : ∀ v t, t.length ≤ n → ReadsAs parsePrefConGd v t → PrefConX v t := by
  induction n with
  | zero =>
    intro v t hl h
    exact absurd (List.length_eq_zero_iff.mp (Nat.le_zero.mp hl)) h.1.ne
  | succ n ih =>
    intro v t hl h
    rcases C73_pref_constraint_cases h with ⟨vs, rfl, u, rfl, k⟩ |
      ⟨a, b, rfl, g1, x, g2, y, g3, rfl, hg1, hx, hg2, hy, hg3⟩ | ⟨m, c, rfl, k⟩ | ⟨c, rfl, k⟩ | ⟨c, rfl, k⟩
    · simp only [paren, List.length_cons, List.length_append, List.length_nil] at hl
      exact .and (k.mono fun w h hw => h.mono fun a x h hx => ih a x (by omega) h)
    · simp only [paren, List.length_cons, List.length_append, List.length_nil] at hl
      obtain ⟨w, rfl, hw⟩ := varList_reads.mp hx
      exact .forall_ hg1 hw hg2 (ih b y (by omega) hy) hg3
    · exact .named (k.imp (fun _ h => h) fun _ => conX_reads.mp)
    · exact .anonymous (k.imp fun _ => conX_reads.mp)
    · have h0 := conX_reads.mp k
      obtain ⟨w, hw⟩ := conX_pref _ _ _ (Nat.le_refl _) h0
      have := (PrefConX.reads _ _ _ (Nat.le_refl _) hw).det h
      exact this ▸ hw

theorem prefConX_reads {v : List PrefConGD} {t : List Char} : ReadsAs parsePrefConGd v t ↔ PrefConX v t :=
  ⟨.of_reads _ v t (Nat.le_refl _), PrefConX.reads _ v t (Nat.le_refl _)⟩

theorem prefCon_texts : Texts parsePrefConGd (fun g v t => Gap g ∧ PrefConX v t) :=
  .of_reads parsePrefConGd_snd (fun _ _ h => h.form) C28_pref_constraints C29_pref_constraints fun _ _ => prefConX_reads

/-- C82, constraints of a problem. -/
theorem C82_problem_constraints (s : List Char) (v : List PrefConGD) (r : List Char) :
    parsePrefConGd s = .ok v r ↔ ∃ g t, s = g ++ (t ++ r) ∧ Gap g ∧ PrefConX v t := prefCon_texts.iff s v r

/-- C82, the constraints section of a domain. -/
theorem C82_domain_section (s : List Char) (v : ConGD) (r : List Char) :
    parseDomainConstraintsDef s = .ok v r ↔
      ∃ g t, s = g ++ (t ++ r) ∧ Gap g ∧ Wrapped c!":constraints" ConX v t :=
  prefix_exact parseConGd_parts C28_constraints (fun _ _ => conX_reads) s v r

/-- C82, the constraints section of a problem. -/
theorem C82_problem_section (s : List Char) (v : List PrefConGD) (r : List Char) :
    parseProblemConstraintsDef s = .ok v r ↔
      ∃ g t, s = g ++ (t ++ r) ∧ Gap g ∧ Wrapped c!":constraints" PrefConX v t :=
  prefix_exact parsePrefConGd_parts C28_pref_constraints (fun _ _ => prefConX_reads) s v r

/-- Nested constraints: an argument that can be read as an atom is a goal. -/
example : ∃ a, parseConGd c!"(always (sometime (p)))" = .ok (.always (.goal (.atomic a))) [] := ⟨_, rfl⟩

/-- A nested constraint that is no goal. -/
example : ConX (.always (.nested (.sometime (.goal (.atomic (.equality (.name (Ex.nm c!"x")) (.name (Ex.nm c!"y"))))))))
    c!"(always(sometime(= x y)))" :=
  conX_reads.mp (.of (solid_open _) rfl)

/-- A preference and a nested conjunction, flattened to one list. -/
example : ∃ a b c, PrefConX [.preference (some (Ex.nm c!"n")) a, .goal b, .goal c]
    c!"(and(preference n (always(p)))\t(and (sometime (q)) (at end(r))))" :=
  ⟨_, _, _, prefConX_reads.mp (.of (solid_open _) rfl)⟩

end Pddl
