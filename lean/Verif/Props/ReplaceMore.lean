import Verif.Props.Replace

/-!
# C95: replacing a part of an effect, of a durative action or of a constraint

What C94 shows for the goals of preconditions holds for the other places where a domain has conditions: the
conditions of conditional effects, the conditions and the effects of durative actions, and the constraints.
-/

namespace Pddl

/-! ## Paths -/

/-- The part at the end of a path. -/
def subAt (child : F → Nat → Option F) : F → List Nat → Option F
  | f, [] => some f
  | f, i :: π => (child f i).bind fun c => subAt child c π

/-- Exchange the part at the end of a path. -/
def replaceAt (child : F → Nat → Option F) (put : F → Nat → F → F) : F → List Nat → F → F
  | _, [], w => w
  | f, i :: π, w => match child f i with
    | some c => put f i (replaceAt child put c π w)
    | none => f

/-- A place in the texts of a kind, at which any text of another kind may be written. -/
def Spot (X : List Char → F → List Char → Prop) (Y : α → List Char → Prop) (get : F → Option α) (set : F → α → F) :
    Prop :=
  ∀ g v t w, X g v t → get v = some w → ∃ x a y, t = x ++ (a ++ y) ∧ Y w a ∧
    ∀ g' b w', Gap g' → Y w' b → X g (set v w') (x ++ ((g' ++ b) ++ y))

theorem Texts.reader {p : P α} {X : List Char → α → List Char → Prop} (T : Texts p X) : Reader p (X []) where
  inv b v h := by
    obtain ⟨g, t, e, h⟩ := (T.iff _ _ _).mp h
    exact ⟨g, t, by rw [e, List.append_nil], T.gap h, T.base h⟩
  run v t h := (T.iff _ _ _).mpr ⟨[], t, by simp, h⟩

theorem Reader.congr {q : P α} {R R' : α → List Char → Prop} (H : Reader q R) (h : ∀ v t, R v t ↔ R' v t) :
    Reader q R' where
  inv b v hb := by
    obtain ⟨g, t, e, hg, k⟩ := H.inv b v hb
    exact ⟨g, t, e, hg, (h v t).mp k⟩
  run v t k := H.run v t ((h v t).mpr k)

theorem Local.of_spot {p : P F} {q : P α} {X : List Char → F → List Char → Prop} {Y : α → List Char → Prop}
    {get : F → Option α} {set : F → α → F} (T : Texts p X) (R : Reader q Y) (H : Spot X Y get set) :
    Local p q get set := by
  intro s f r w hs hw
  obtain ⟨g, t, rfl, h⟩ := (T.iff _ _ _).mp hs
  obtain ⟨x, a, y, rfl, h1, h2⟩ := H g f t w h hw
  refine ⟨g ++ x, a, y ++ r, by simp only [List.append_assoc], R.run _ _ h1, fun b v' hb => ?_⟩
  obtain ⟨g', t', rfl, hg', h'⟩ := R.inv _ _ hb
  exact (T.iff _ _ _).mpr ⟨g, _, by simp only [List.append_assoc], h2 g' t' v' hg' h'⟩

theorem Local.whole {p : P F} {X : List Char → F → List Char → Prop} (T : Texts p X) :
    Local p p some (fun _ v => v) := by
  intro s f r w hs hw
  cases hw
  obtain ⟨g, t, rfl, h⟩ := (T.iff _ _ _).mp hs
  refine ⟨[], g ++ t, r, by simp, (T.iff _ _ _).mpr ⟨g, t, by simp, h⟩, fun b v' hb => ?_⟩
  obtain ⟨g', t', rfl, h'⟩ := (T.iff _ _ _).mp hb
  exact (T.iff _ _ _).mpr ⟨g', t', by simp, h'⟩

theorem Local.path {p : P F} {X : List Char → F → List Char → Prop} (T : Texts p X) {child : F → Nat → Option F}
    {put : F → Nat → F → F} (H : ∀ i, Local p p (fun f => child f i) (fun f w => put f i w)) (π : List Nat) :
    Local p p (fun f => subAt child f π) (fun f w => replaceAt child put f π w) := by
  induction π with
  | nil => exact Local.whole T
  | cons i π ih =>
    have := (H i).comp ih
    have e : through (fun f => child f i) (fun f w => put f i w) (fun f w => replaceAt child put f π w) =
        fun f w => replaceAt child put f (i :: π) w := by
      funext f w
      simp only [through, replaceAt]
      cases child f i <;> rfl
    rw [e] at this
    exact this

/-- One member of a list in brackets. -/
theorem listed_spot {R : α → List Char → Prop} {kw : List Char} {vs : List α} {u : List Char}
    (h : Sec Gap Gap (Items R) vs u) {i : Nat} {w : α} (e : vs[i]? = some w) :
    ∃ x a y, paren (kw ++ u) = x ++ (a ++ y) ∧ R w a ∧ ∀ g' b w', Gap g' → R w' b →
      ∃ u', x ++ ((g' ++ b) ++ y) = paren (kw ++ u') ∧ Sec Gap Gap (Items R) (vs.set i w') u' := by
  obtain ⟨hi, rfl⟩ := List.getElem?_eq_some_iff.mp e
  obtain ⟨x, a, y, rfl, h1, h2, _⟩ := (Row.of_sec h).nth isLead_gap i hi
  refine ⟨'(' :: (kw ++ x), a, y ++ [')'], ?_, h1, fun g b w' hg hw => ⟨_, ?_, (h2 g b w' hg hw).to_sec⟩⟩
  · simp only [paren, List.append_assoc, List.cons_append]
  · simp only [paren, List.append_assoc, List.cons_append]

/-- The first of two parts. -/
theorem Paired.fst_at {R : α → List Char → Prop} {S : β → List Char → Prop} {kw : List Char} {v : α} {w : β}
    {t : List Char} (h : Paired kw R S v w t) : ∃ x a y, t = x ++ (a ++ y) ∧ R v a ∧
      ∀ g' b v', Gap g' → R v' b → Paired kw R S v' w (x ++ ((g' ++ b) ++ y)) := by
  obtain ⟨g1, x, g2, y, g3, rfl, h1, h2, h3, h4, h5⟩ := h
  refine ⟨'(' :: (kw ++ g1), x, g2 ++ (y ++ (g3 ++ [')'])), ?_, h2, fun g' b v' hg hb =>
    ⟨g1 ++ g', b, g2, y, g3, ?_, h1.append hg, hb, h3, h4, h5⟩⟩
  · simp only [paren, List.append_assoc, List.cons_append]
  · simp only [paren, List.append_assoc, List.cons_append]

/-- The second of two parts. -/
theorem Paired.snd_at {R : α → List Char → Prop} {S : β → List Char → Prop} {kw : List Char} {v : α} {w : β}
    {t : List Char} (h : Paired kw R S v w t) : ∃ x a y, t = x ++ (a ++ y) ∧ S w a ∧
      ∀ g' b w', Gap g' → S w' b → Paired kw R S v w' (x ++ ((g' ++ b) ++ y)) := by
  obtain ⟨g1, x, g2, y, g3, rfl, h1, h2, h3, h4, h5⟩ := h
  refine ⟨'(' :: (kw ++ (g1 ++ (x ++ g2))), y, g3 ++ [')'], ?_, h4, fun g' b v' hg hb =>
    ⟨g1, x, g2 ++ g', b, g3, ?_, h1, h2, h3.append hg, hb, h5⟩⟩
  · simp only [paren, List.append_assoc, List.cons_append]
  · simp only [paren, List.append_assoc, List.cons_append]

/-- The only part. -/
theorem Wrapped.at {R : α → List Char → Prop} {kw : List Char} {v : α} {t : List Char} (h : Wrapped kw R v t) :
    ∃ x a y, t = x ++ (a ++ y) ∧ R v a ∧
      ∀ g' b v', Gap g' → R v' b → Wrapped kw R v' (x ++ ((g' ++ b) ++ y)) := by
  obtain ⟨g1, x, g2, rfl, h1, h2, h3⟩ := h
  refine ⟨'(' :: (kw ++ g1), x, g2 ++ [')'], ?_, h2, fun g' b v' hg hb =>
    ⟨g1 ++ g', b, g2, ?_, h1.append hg, hb, h3⟩⟩
  · simp only [paren, List.append_assoc, List.cons_append]
  · simp only [paren, List.append_assoc, List.cons_append]

/-- The part under a quantifier. -/
theorem quantified_spot {R : α → List Char → Prop} {g1 w g2 y g3 : List Char} {v : α} (h3 : Sep g2) (h4 : R v y) :
    ∃ x a z, paren (c!"forall" ++ (g1 ++ (paren w ++ (g2 ++ (y ++ g3))))) = x ++ (a ++ z) ∧ R v a ∧
      ∀ g' b v', Gap g' → R v' b → ∃ g2', x ++ ((g' ++ b) ++ z) =
        paren (c!"forall" ++ (g1 ++ (paren w ++ (g2' ++ (b ++ g3))))) ∧ Sep g2' := by
  refine ⟨'(' :: (c!"forall" ++ (g1 ++ (paren w ++ g2))), y, g3 ++ [')'], ?_, h4, fun g' b v' hg _ =>
    ⟨g2 ++ g', ?_, h3.append hg⟩⟩
  · simp only [paren, List.append_assoc, List.cons_append]
  · simp only [paren, List.append_assoc, List.cons_append]

/-! ## Conditions of durative actions -/

/-- The conditions directly inside a condition. -/
def DaGD.child : DaGD → Nat → Option DaGD
  | .and gs, i => gs[i]?
  | .forall_ _ g, 0 => some g
  | _, _ => none

/-- Exchange one of them. -/
def DaGD.put : DaGD → Nat → DaGD → DaGD
  | .and gs, i, w => .and (gs.set i w)
  | .forall_ vs _, 0, w => .forall_ vs w
  | g, _, _ => g

/-- The goal of a timed goal. -/
def TimedGD.goal : TimedGD → GD
  | .at _ g => g
  | .over _ g => g

/-- Exchange it. -/
def TimedGD.setGoal : TimedGD → GD → TimedGD
  | .at ts _, w => .at ts w
  | .over i _, w => .over i w

/-- The goal of a condition that is no conjunction and not quantified. -/
def DaGD.goal : DaGD → Option GD
  | .timed (.required t) => some t.goal
  | .timed (.preference _ t) => some t.goal
  | _ => none

/-- Exchange it. -/
def DaGD.setGoal : DaGD → GD → DaGD
  | .timed (.required t), w => .timed (.required (t.setGoal w))
  | .timed (.preference n t), w => .timed (.preference n (t.setGoal w))
  | v, _ => v

theorem daGd_reader : Reader parseDaGd DaGDX := daGd_texts.reader.congr fun _ _ => ⟨(·.2), (⟨.nil, ·⟩)⟩

theorem daGd_child (i : Nat) : Local parseDaGd parseDaGd (fun f => f.child i) (fun f w => f.put i w) := by
  refine .of_spot daGd_texts daGd_reader ?_
  rintro g v t w ⟨hg, h⟩ e
  cases h with
  | and h =>
    obtain ⟨x, a, y, k1, k2, k3⟩ := listed_spot (kw := c!"and") h e
    refine ⟨x, a, y, k1, k2, fun g' b w' hg' hb => ⟨hg, ?_⟩⟩
    obtain ⟨u', e', k⟩ := k3 g' b w' hg' hb
    rw [e']
    exact .and k
  | @forall_ g1 vs w1 g2 b1 y1 g3 h1 h2 h3 h4 h5 =>
    match i, e with
    | 0, rfl =>
      obtain ⟨x, a, y, k1, k2, k3⟩ := quantified_spot (g1 := g1) (w := w1) (g3 := g3) h3 h4
      refine ⟨x, a, y, k1, k2, fun g' b w' hg' hb => ⟨hg, ?_⟩⟩
      obtain ⟨g2', e', k⟩ := k3 g' b w' hg' hb
      rw [e']
      exact .forall_ h1 h2 k hb h5
  | timed => cases e

/-- C95: any condition inside the condition of a durative action, at any depth. -/
theorem C95_durative_conditions (π : List Nat) : Local parseDaGd parseDaGd (fun v => subAt DaGD.child v π)
    (fun v w => replaceAt DaGD.child DaGD.put v π w) := .path daGd_texts daGd_child π

theorem TimedGDX.goal_at {v : TimedGD} {t : List Char} (h : TimedGDX v t) : ∃ x a y, t = x ++ (a ++ y) ∧
    GDX v.goal a ∧ ∀ g' b w', Gap g' → GDX w' b → TimedGDX (v.setGoal w') (x ++ ((g' ++ b) ++ y)) := by
  cases h with
  | «at» h =>
    obtain ⟨x, a, y, k1, k2, k3⟩ := h.snd_at
    exact ⟨x, a, y, k1, k2, fun g' b w' hg hb => .at (k3 g' b w' hg hb)⟩
  | over h =>
    obtain ⟨x, a, y, k1, k2, k3⟩ := h.snd_at
    exact ⟨x, a, y, k1, k2, fun g' b w' hg hb => .over (k3 g' b w' hg hb)⟩

/-- C95: the goal of a timed goal or of a preference of a durative action. -/
theorem C95_timed_goal : Local parseDaGd parseGd DaGD.goal DaGD.setGoal := by
  refine .of_spot daGd_texts goal_reader ?_
  rintro g v t w ⟨hg, h⟩ e
  cases h with
  | and => cases e
  | forall_ => cases e
  | timed h =>
    cases h with
    | required h =>
      cases e
      obtain ⟨x, a, y, k1, k2, k3⟩ := h.goal_at
      exact ⟨x, a, y, k1, k2, fun g' b w' hg' hb => ⟨hg, .timed (.required (k3 g' b w' hg' hb))⟩⟩
    | anonymous h =>
      cases e
      obtain ⟨x, a, y, rfl, k2, k3⟩ := h.at
      obtain ⟨x', a', y', rfl, m2, m3⟩ := k2.goal_at
      refine ⟨x ++ x', a', y' ++ y, by simp only [List.append_assoc], m2, fun g' b w' hg' hb =>
        ⟨hg, .timed (.anonymous ?_)⟩⟩
      simpa only [List.append_assoc, List.nil_append] using k3 [] _ _ .nil (m3 g' b w' hg' hb)
    | named h =>
      cases e
      obtain ⟨x, a, y, rfl, k2, k3⟩ := h.snd_at
      obtain ⟨x', a', y', rfl, m2, m3⟩ := k2.goal_at
      refine ⟨x ++ x', a', y' ++ y, by simp only [List.append_assoc], m2, fun g' b w' hg' hb =>
        ⟨hg, .timed (.named ?_)⟩⟩
      simpa only [List.append_assoc, List.nil_append] using k3 [] _ _ .nil (m3 g' b w' hg' hb)

/-! ## Effects of durative actions -/

/-- The effects directly inside an effect. -/
def DaEffect.child : DaEffect → Nat → Option DaEffect
  | .all es, i => es[i]?
  | .forall_ _ e, 0 => some e
  | _, _ => none

/-- Exchange one of them. -/
def DaEffect.put : DaEffect → Nat → DaEffect → DaEffect
  | .all es, i, w => .all (es.set i w)
  | .forall_ vs _, 0, w => .forall_ vs w
  | e, _, _ => e

/-- The condition of a conditional effect. -/
def DaEffect.cond : DaEffect → Option DaGD
  | .when c _ => some c
  | _ => none

/-- Exchange it. -/
def DaEffect.setCond : DaEffect → DaGD → DaEffect
  | .when _ e, c => .when c e
  | e, _ => e

/-- The timed effect of a conditional effect. -/
def DaEffect.consequence : DaEffect → Option TimedEffect
  | .when _ e => some e
  | _ => none

/-- Exchange it. -/
def DaEffect.setConsequence : DaEffect → TimedEffect → DaEffect
  | .when c _, e => .when c e
  | e, _ => e

theorem daEffect_child (i : Nat) : Local parseDaEffect parseDaEffect (fun f => f.child i) (fun f w => f.put i w) := by
  refine .of_spot daEffect_texts daEffect_texts.reader ?_
  rintro g v t w h e
  cases h with
  | all hg h =>
    obtain ⟨x, a, y, k1, k2, k3⟩ := listed_spot (kw := c!"and") h e
    refine ⟨x, a, y, k1, k2, fun g' b w' hg' hb => ?_⟩
    obtain ⟨u', e', k⟩ := k3 g' b w' hg' hb
    rw [e']
    exact .all hg k
  | @forall_ _ g1 vs w1 g2 b1 y1 g3 hg h1 h2 h3 h4 h5 =>
    match i, e with
    | 0, rfl =>
      obtain ⟨x, a, y, k1, k2, k3⟩ := quantified_spot (R := DaEffX []) (g1 := g1) (w := w1) (g3 := g3) h3 h4
      refine ⟨x, a, y, k1, k2, fun g' b w' hg' hb => ?_⟩
      obtain ⟨g2', e', k⟩ := k3 g' b w' hg' hb
      rw [e']
      exact .forall_ hg h1 h2 k hb h5
  | when => cases e
  | timed => cases e

/-- C95: any effect inside the effect of a durative action, at any depth. -/
theorem C95_durative_effects (π : List Nat) : Local parseDaEffect parseDaEffect (fun v => subAt DaEffect.child v π)
    (fun v w => replaceAt DaEffect.child DaEffect.put v π w) := .path daEffect_texts daEffect_child π

/-- C95: the condition and the consequence of a conditional effect of a durative action. -/
theorem C95_durative_when : Local parseDaEffect parseDaGd DaEffect.cond DaEffect.setCond ∧
    Local parseDaEffect parseTimedEffect DaEffect.consequence DaEffect.setConsequence := by
  refine ⟨.of_spot daEffect_texts daGd_reader ?_, .of_spot daEffect_texts timedEffect_texts.reader ?_⟩
  · rintro g v t w h e
    cases h with
    | all => cases e
    | forall_ => cases e
    | timed => cases e
    | when hg h =>
      cases e
      obtain ⟨x, a, y, k1, k2, k3⟩ := h.fst_at
      exact ⟨x, a, y, k1, k2, fun g' b w' hg' hb => .when hg (k3 g' b w' hg' hb)⟩
  · rintro g v t w h e
    cases h with
    | all => cases e
    | forall_ => cases e
    | timed => cases e
    | when hg h =>
      cases e
      obtain ⟨x, a, y, k1, k2, k3⟩ := h.snd_at
      exact ⟨x, a, y, k1, k2, fun g' b w' hg' hb => .when hg (k3 g' b w' hg' hb)⟩

/-! ## Effects of actions -/

/-- The effects under the quantifier of the `i`-th effect. -/
def CEffect.child (es : List CEffect) (i : Nat) : Option (List CEffect) :=
  match es[i]? with
  | some (.forall_ _ b) => some b
  | _ => none

/-- Exchange them. -/
def CEffect.put (es : List CEffect) (i : Nat) (b : List CEffect) : List CEffect :=
  match es[i]? with
  | some (.forall_ vs _) => es.set i (.forall_ vs b)
  | _ => es

/-- The condition of the `i`-th effect. -/
def CEffect.cond (i : Nat) (es : List CEffect) : Option GD :=
  match es[i]? with
  | some (.when c _) => some c
  | _ => none

/-- Exchange it. -/
def CEffect.setCond (i : Nat) (es : List CEffect) (c : GD) : List CEffect :=
  match es[i]? with
  | some (.when _ e) => es.set i (.when c e)
  | _ => es

/-- The consequence of the `i`-th effect. -/
def CEffect.consequence (i : Nat) (es : List CEffect) : Option CondEffect :=
  match es[i]? with
  | some (.when _ e) => some e
  | _ => none

/-- Exchange it. -/
def CEffect.setConsequence (i : Nat) (es : List CEffect) (e : CondEffect) : List CEffect :=
  match es[i]? with
  | some (.when c _) => es.set i (.when c e)
  | _ => es

/-- One effect of a list. What is put there must not look like a conjunction if there is no list in brackets. -/
theorem EffX.nth {g : List Char} {es : List CEffect} {t : List Char} (h : EffX g es t) {i : Nat} {e : CEffect}
    (hi : es[i]? = some e) : ∃ x a y, t = x ++ (a ++ y) ∧ CEffX [] e a ∧
      ((x = [] ∧ y = [] ∧ CEffX g e a ∧ (∀ e', es.set i e' = [e']) ∧ ∀ g' b e', CEffX g' e' b → (∀ es, ¬ Listed c!"and" (PEffX []) es b) →
          EffX g' (es.set i e') b) ∨
        ∀ g' b e', Gap g' → CEffX [] e' b → EffX g (es.set i e') (x ++ ((g' ++ b) ++ y))) := by
  cases h with
  | and hg h =>
    obtain ⟨x, a, y, k1, k2, k3⟩ := listed_spot (kw := c!"and") h hi
    refine ⟨x, a, y, k1, k2, .inr fun g' b e' hg' hb => ?_⟩
    obtain ⟨u', e', k⟩ := k3 g' b e' hg' hb
    rw [e']
    exact .and hg k
  | single h hn =>
    match i, hi with
    | 0, rfl => exact ⟨[], t, [], by simp, cEffect_texts.base h, .inl ⟨rfl, rfl, h, fun _ => rfl,
        fun g' b e' hb hn => .single hb hn⟩⟩

/-- The same for a part of an effect that begins with a keyword. -/
theorem EffX.inside {Y : α → List Char → Prop} {g : List Char} {es : List CEffect} {t : List Char} (h : EffX g es t)
    {i : Nat} {e : CEffect} (hi : es[i]? = some e) {w : α} {set : α → CEffect}
    (hs : ∀ g a, CEffX g e a → ∃ x a' y, a = x ++ (a' ++ y) ∧ Y w a' ∧ ∀ g' b w', Gap g' → Y w' b →
      CEffX g (set w') (x ++ ((g' ++ b) ++ y)) ∧ ∀ es, ¬ Listed c!"and" (PEffX []) es (x ++ ((g' ++ b) ++ y))) :
    ∃ x a y, t = x ++ (a ++ y) ∧ Y w a ∧
      ∀ g' b w', Gap g' → Y w' b → EffX g (es.set i (set w')) (x ++ ((g' ++ b) ++ y)) := by
  obtain ⟨x, a, y, rfl, h1, h2⟩ := h.nth hi
  rcases h2 with ⟨rfl, rfl, h2, _, h3⟩ | h2
  · obtain ⟨x, a', y, rfl, k1, k2⟩ := hs g a h2
    refine ⟨x, a', y, by simp, k1, fun g' b w' hg' hb => ?_⟩
    obtain ⟨k3, k4⟩ := k2 g' b w' hg' hb
    exact h3 g _ _ k3 k4
  · obtain ⟨x', a', y', rfl, k1, k2⟩ := hs [] a h1
    refine ⟨x ++ x', a', y' ++ y, by simp only [List.append_assoc], k1, fun g' b w' hg' hb => ?_⟩
    have := h2 [] _ _ .nil (k2 g' b w' hg' hb).1
    simpa only [List.append_assoc, List.nil_append] using this


theorem effect_child (i : Nat) :
    Local parseEffect parseEffect (fun es => CEffect.child es i) (fun es b => CEffect.put es i b) := by
  refine .of_spot effect_texts effect_texts.reader ?_
  intro g es t w h e
  simp only [CEffect.child] at e
  split at e
  · rename_i vs b hi
    cases e
    simp only [CEffect.put, hi]
    refine h.inside hi (set := fun w' => .forall_ vs w') fun g a ha => ?_
    cases ha with
    | @forall_ _ g1 vs w1 g2 b1 y1 g3 hg h1 h2 h3 h4 h5 =>
      obtain ⟨x, a, y, k1, k2, k3⟩ := quantified_spot (R := EffX []) (g1 := g1) (w := w1) (g3 := g3) h3 h4
      refine ⟨x, a, y, k1, k2, fun g' b w' hg' hb => ?_⟩
      obtain ⟨g2', e', k⟩ := k3 g' b w' hg' hb
      rw [e']
      exact ⟨.forall_ hg h1 h2 k hb h5, fun es ⟨u, e, _⟩ => by cases e⟩
  · cases e

/-- C95: the list of effects under any quantifiers. -/
theorem C95_quantified_effects (π : List Nat) : Local parseEffect parseEffect (fun es => subAt CEffect.child es π)
    (fun es b => replaceAt CEffect.child CEffect.put es π b) := .path effect_texts effect_child π

theorem condEffect_spots (i : Nat) : Local parseEffect parseGd (CEffect.cond i) (CEffect.setCond i) ∧
    Local parseEffect parseCondEffect (CEffect.consequence i) (CEffect.setConsequence i) := by
  refine ⟨.of_spot effect_texts goal_reader ?_, .of_spot effect_texts condEffect_texts.reader ?_⟩
  · intro g es t w h e
    simp only [CEffect.cond] at e
    split at e
    · rename_i c e1 hi
      cases e
      simp only [CEffect.setCond, hi]
      refine h.inside hi (set := fun w' => .when w' e1) fun g a ha => ?_
      cases ha with
      | when hg h =>
        obtain ⟨x, a, y, k1, k2, k3⟩ := h.fst_at
        refine ⟨x, a, y, k1, k2, fun g' b w' hg' hb => ?_⟩
        have k := k3 g' b w' hg' hb
        refine ⟨.when hg k, fun es ⟨u, e, _⟩ => ?_⟩
        obtain ⟨_, _, _, _, _, e', _⟩ := k
        rw [e'] at e
        cases e
    · cases e
  · intro g es t w h e
    simp only [CEffect.consequence] at e
    split at e
    · rename_i c e1 hi
      cases e
      simp only [CEffect.setConsequence, hi]
      refine h.inside hi (set := fun w' => .when c w') fun g a ha => ?_
      cases ha with
      | when hg h =>
        obtain ⟨x, a, y, k1, k2, k3⟩ := h.snd_at
        refine ⟨x, a, y, k1, k2, fun g' b w' hg' hb => ?_⟩
        have k := k3 g' b w' hg' hb
        refine ⟨.when hg k, fun es ⟨u, e, _⟩ => ?_⟩
        obtain ⟨_, _, _, _, _, e', _⟩ := k
        rw [e'] at e
        cases e
    · cases e

/-- C95: any goal inside the condition of any conditional effect, under any quantifiers. -/
theorem C95_effect_conditions (π : List Nat) (i : Nat) (ρ : List Nat) : Local parseEffect parseGd
    (fun es => ((subAt CEffect.child es π).bind (CEffect.cond i)).bind fun c => c.sub ρ)
    (through (fun es => (subAt CEffect.child es π).bind (CEffect.cond i))
      (through (fun es => subAt CEffect.child es π) (fun es b => replaceAt CEffect.child CEffect.put es π b)
        (CEffect.setCond i)) fun c w => c.replace ρ w) :=
  ((C95_quantified_effects π).comp (condEffect_spots i).1).comp (C94_goals ρ)

/-- C95: the consequence of any conditional effect, under any quantifiers. -/
theorem C95_effect_consequences (π : List Nat) (i : Nat) : Local parseEffect parseCondEffect
    (fun es => (subAt CEffect.child es π).bind (CEffect.consequence i))
    (through (fun es => subAt CEffect.child es π) (fun es b => replaceAt CEffect.child CEffect.put es π b)
      (CEffect.setConsequence i)) :=
  (C95_quantified_effects π).comp (condEffect_spots i).2

/-- C95: any single effect, under any quantifiers. The new text must be read as the same effect whether a single
effect or a list of effects is expected, as `(and (p))` is not. -/
theorem C95_effects (π : List Nat) (i : Nat) (s : List Char) (es : List CEffect) (r : List Char) (ws : List CEffect)
    (e : CEffect) (hs : parseEffect s = .ok es r) (hw : subAt CEffect.child es π = some ws) (he : ws[i]? = some e) :
    ∃ x a y, s = x ++ (a ++ y) ∧ parseCEffect a = .ok e [] ∧
      ∀ b e', parseCEffect b = .ok e' [] → parseEffect b = .ok [e'] [] →
        parseEffect (x ++ (b ++ y)) = .ok (replaceAt CEffect.child CEffect.put es π (ws.set i e')) r := by
  obtain ⟨x, a, y, rfl, h1, h2⟩ := C95_quantified_effects π s es r ws hs hw
  have leaf : ∃ x a' y, a = x ++ (a' ++ y) ∧ parseCEffect a' = .ok e [] ∧
      ∀ b e', parseCEffect b = .ok e' [] → parseEffect b = .ok [e'] [] →
        parseEffect (x ++ (b ++ y)) = .ok (ws.set i e') [] := by
    obtain ⟨g, t, rfl, h⟩ := (C81_effect_lists _ _ _).mp h1
    obtain ⟨x, a, y, rfl, k1, k2⟩ := h.nth he
    rcases k2 with ⟨rfl, rfl, k2, k3, _⟩ | k2
    · refine ⟨[], g ++ a, [], by simp, (C81_effects _ _ _).mpr ⟨g, a, by simp, k2⟩, fun b e' hb hb' => ?_⟩
      rw [k3]
      simpa using hb'
    · refine ⟨g ++ x, a, y, by simp, (C81_effects _ _ _).mpr ⟨[], a, by simp, k1⟩, fun b e' hb _ => ?_⟩
      obtain ⟨g', t', rfl, h'⟩ := (C81_effects _ _ _).mp hb
      exact (C81_effect_lists _ _ _).mpr ⟨g, _, by simp only [List.append_assoc, List.append_nil],
        k2 g' t' e' (cEffect_texts.gap h') (cEffect_texts.base h')⟩
  obtain ⟨x', a', y', rfl, k1, k2⟩ := leaf
  refine ⟨x ++ x', a', y' ++ y, by simp only [List.append_assoc], k1, fun b e' hb hb' => ?_⟩
  simpa only [List.append_assoc] using h2 _ _ (k2 b e' hb hb')

/-! ## Constraints -/

/-- The constraints directly inside a constraint. -/
def ConGD.child : ConGD → Nat → Option ConGD
  | .and gs, i => gs[i]?
  | .forall_ _ g, 0 => some g
  | _, _ => none

/-- Exchange one of them. -/
def ConGD.put : ConGD → Nat → ConGD → ConGD
  | .and gs, i, w => .and (gs.set i w)
  | .forall_ vs _, 0, w => .forall_ vs w
  | g, _, _ => g

/-- The arguments of a constraint. -/
def ConGD.arg : ConGD → Nat → Option Con2GD
  | .atEnd g, 0 => some (.goal g)
  | .always v, 0 => some v
  | .sometime v, 0 => some v
  | .within _ v, 0 => some v
  | .atMostOnce v, 0 => some v
  | .sometimeAfter a _, 0 => some a
  | .sometimeAfter _ b, 1 => some b
  | .sometimeBefore a _, 0 => some a
  | .sometimeBefore _ b, 1 => some b
  | .alwaysWithin _ a _, 0 => some a
  | .alwaysWithin _ _ b, 1 => some b
  | .holdDuring _ _ v, 0 => some v
  | .holdAfter _ v, 0 => some v
  | _, _ => none

/-- The arguments that are goals. -/
def ConGD.goal (c : ConGD) (k : Nat) : Option GD :=
  match c.arg k with
  | some (.goal g) => some g
  | _ => none

/-- Exchange one of them. -/
def ConGD.setGoal : ConGD → Nat → GD → ConGD
  | .atEnd _, 0, w => .atEnd w
  | .always _, 0, w => .always (.goal w)
  | .sometime _, 0, w => .sometime (.goal w)
  | .within n _, 0, w => .within n (.goal w)
  | .atMostOnce _, 0, w => .atMostOnce (.goal w)
  | .sometimeAfter _ b, 0, w => .sometimeAfter (.goal w) b
  | .sometimeAfter a _, 1, w => .sometimeAfter a (.goal w)
  | .sometimeBefore _ b, 0, w => .sometimeBefore (.goal w) b
  | .sometimeBefore a _, 1, w => .sometimeBefore a (.goal w)
  | .alwaysWithin n _ b, 0, w => .alwaysWithin n (.goal w) b
  | .alwaysWithin n a _, 1, w => .alwaysWithin n a (.goal w)
  | .holdDuring n m _, 0, w => .holdDuring n m (.goal w)
  | .holdAfter n _, 0, w => .holdAfter n (.goal w)
  | c, _, _ => c

theorem con_reader : Reader parseConGd ConX := con_texts.reader.congr fun _ _ => ⟨(·.2), (⟨.nil, ·⟩)⟩

theorem con_child (i : Nat) : Local parseConGd parseConGd (fun f => f.child i) (fun f w => f.put i w) := by
  refine .of_spot con_texts con_reader ?_
  rintro g v t w ⟨hg, h⟩ e
  cases h with
  | and h =>
    obtain ⟨x, a, y, k1, k2, k3⟩ := listed_spot (kw := c!"and") h e
    refine ⟨x, a, y, k1, k2, fun g' b w' hg' hb => ⟨hg, ?_⟩⟩
    obtain ⟨u', e', k⟩ := k3 g' b w' hg' hb
    rw [e']
    exact .and k
  | @forall_ g1 vs w1 g2 b1 y1 g3 h1 h2 h3 h4 h5 =>
    match i, e with
    | 0, rfl =>
      obtain ⟨x, a, y, k1, k2, k3⟩ := quantified_spot (g1 := g1) (w := w1) (g3 := g3) h3 h4
      refine ⟨x, a, y, k1, k2, fun g' b w' hg' hb => ⟨hg, ?_⟩⟩
      obtain ⟨g2', e', k⟩ := k3 g' b w' hg' hb
      rw [e']
      exact .forall_ h1 h2 k hb h5
  | _ => cases e

/-- C95: any constraint inside a constraint, below conjunctions and quantifiers. -/
theorem C95_constraints (π : List Nat) : Local parseConGd parseConGd (fun v => subAt ConGD.child v π)
    (fun v w => replaceAt ConGD.child ConGD.put v π w) := .path con_texts con_child π

theorem con_goal_spot (k : Nat) : Spot (fun g v t => Gap g ∧ ConX v t) GDX (fun v => v.goal k)
    (fun v w => v.setGoal k w) := by
  rintro g v t w ⟨hg, h⟩ e
  cases h with
  | and => cases e
  | forall_ => cases e
  | @atEnd g1 v x g2 h1 h2 h3 =>
    match k, e with
    | 0, rfl =>
      refine ⟨'(' :: (c!"at end" ++ g1), x, g2 ++ [')'], ?_, h2, fun g' b w' hg' hw => ⟨hg, ?_⟩⟩
      · simp only [paren, List.append_assoc, List.cons_append]
      · have := ConX.atEnd (h1.append hg') hw h3
        simpa only [ConGD.setGoal, paren, List.append_assoc, List.cons_append] using this
  | @always g1 v x g2 h1 h2 h3 =>
    match k, e with
    | 0, e =>
      cases h2 with
      | nested => cases e
      | goal h2 =>
        cases e
        refine ⟨'(' :: (c!"always" ++ g1), x, g2 ++ [')'], ?_, h2, fun g' b w' hg' hw => ⟨hg, ?_⟩⟩
        · simp only [paren, List.append_assoc, List.cons_append]
        · have := ConX.always (h1.append hg') (.goal hw) h3
          simpa only [ConGD.setGoal, paren, List.append_assoc, List.cons_append] using this
    | _ + 1, e => cases e
  | @sometime g1 v x g2 h1 h2 h3 =>
    match k, e with
    | 0, e =>
      cases h2 with
      | nested => cases e
      | goal h2 =>
        cases e
        refine ⟨'(' :: (c!"sometime" ++ g1), x, g2 ++ [')'], ?_, h2, fun g' b w' hg' hw => ⟨hg, ?_⟩⟩
        · simp only [paren, List.append_assoc, List.cons_append]
        · have := ConX.sometime (h1.append hg') (.goal hw) h3
          simpa only [ConGD.setGoal, paren, List.append_assoc, List.cons_append] using this
    | _ + 1, e => cases e
  | @within g1 n x g2 v y g3 h1 h2 h3 h4 h5 =>
    match k, e with
    | 0, e =>
      cases h4 with
      | nested => cases e
      | goal h4 =>
        cases e
        refine ⟨'(' :: (c!"within" ++ (g1 ++ (x ++ g2))), y, g3 ++ [')'], ?_, h4, fun g' b w' hg' hw => ⟨hg, ?_⟩⟩
        · simp only [paren, List.append_assoc, List.cons_append]
        · have := ConX.within h1 h2 (h3.append hg') (.goal hw) h5
          simpa only [ConGD.setGoal, paren, List.append_assoc, List.cons_append] using this
    | _ + 1, e => cases e
  | @atMostOnce g1 v x g2 h1 h2 h3 =>
    match k, e with
    | 0, e =>
      cases h2 with
      | nested => cases e
      | goal h2 =>
        cases e
        refine ⟨'(' :: (c!"at-most-once" ++ g1), x, g2 ++ [')'], ?_, h2, fun g' b w' hg' hw => ⟨hg, ?_⟩⟩
        · simp only [paren, List.append_assoc, List.cons_append]
        · have := ConX.atMostOnce (h1.append hg') (.goal hw) h3
          simpa only [ConGD.setGoal, paren, List.append_assoc, List.cons_append] using this
    | _ + 1, e => cases e
  | @sometimeAfter g1 a1 x g2 b1 y g3 h1 h2 h3 h4 h5 =>
    match k, e with
    | 0, e =>
      cases h2 with
      | nested => cases e
      | goal h2 =>
        cases e
        refine ⟨'(' :: (c!"sometime-after" ++ g1), x, g2 ++ (y ++ (g3 ++ [')'])), ?_, h2, fun g' b w' hg' hw => ⟨hg, ?_⟩⟩
        · simp only [paren, List.append_assoc, List.cons_append]
        · have := ConX.sometimeAfter (h1.append hg') (.goal hw) h3 h4 h5
          simpa only [ConGD.setGoal, paren, List.append_assoc, List.cons_append] using this
    | 1, e =>
      cases h4 with
      | nested => cases e
      | goal h4 =>
        cases e
        refine ⟨'(' :: (c!"sometime-after" ++ (g1 ++ (x ++ g2))), y, g3 ++ [')'], ?_, h4, fun g' b w' hg' hw => ⟨hg, ?_⟩⟩
        · simp only [paren, List.append_assoc, List.cons_append]
        · have := ConX.sometimeAfter h1 h2 (h3.append hg') (.goal hw) h5
          simpa only [ConGD.setGoal, paren, List.append_assoc, List.cons_append] using this
    | _ + 2, e => cases e
  | @sometimeBefore g1 a1 x g2 b1 y g3 h1 h2 h3 h4 h5 =>
    match k, e with
    | 0, e =>
      cases h2 with
      | nested => cases e
      | goal h2 =>
        cases e
        refine ⟨'(' :: (c!"sometime-before" ++ g1), x, g2 ++ (y ++ (g3 ++ [')'])), ?_, h2, fun g' b w' hg' hw => ⟨hg, ?_⟩⟩
        · simp only [paren, List.append_assoc, List.cons_append]
        · have := ConX.sometimeBefore (h1.append hg') (.goal hw) h3 h4 h5
          simpa only [ConGD.setGoal, paren, List.append_assoc, List.cons_append] using this
    | 1, e =>
      cases h4 with
      | nested => cases e
      | goal h4 =>
        cases e
        refine ⟨'(' :: (c!"sometime-before" ++ (g1 ++ (x ++ g2))), y, g3 ++ [')'], ?_, h4, fun g' b w' hg' hw => ⟨hg, ?_⟩⟩
        · simp only [paren, List.append_assoc, List.cons_append]
        · have := ConX.sometimeBefore h1 h2 (h3.append hg') (.goal hw) h5
          simpa only [ConGD.setGoal, paren, List.append_assoc, List.cons_append] using this
    | _ + 2, e => cases e
  | @alwaysWithin g1 n x g2 a1 y g3 b1 z g4 h1 h2 h3 h4 h5 h6 h7 =>
    match k, e with
    | 0, e =>
      cases h4 with
      | nested => cases e
      | goal h4 =>
        cases e
        refine ⟨'(' :: (c!"always-within" ++ (g1 ++ (x ++ g2))), y, g3 ++ (z ++ (g4 ++ [')'])), ?_, h4, fun g' b w' hg' hw => ⟨hg, ?_⟩⟩
        · simp only [paren, List.append_assoc, List.cons_append]
        · have := ConX.alwaysWithin h1 h2 (h3.append hg') (.goal hw) h5 h6 h7
          simpa only [ConGD.setGoal, paren, List.append_assoc, List.cons_append] using this
    | 1, e =>
      cases h6 with
      | nested => cases e
      | goal h6 =>
        cases e
        refine ⟨'(' :: (c!"always-within" ++ (g1 ++ (x ++ (g2 ++ (y ++ g3))))), z, g4 ++ [')'], ?_, h6, fun g' b w' hg' hw => ⟨hg, ?_⟩⟩
        · simp only [paren, List.append_assoc, List.cons_append]
        · have := ConX.alwaysWithin h1 h2 h3 h4 (h5.append hg') (.goal hw) h7
          simpa only [ConGD.setGoal, paren, List.append_assoc, List.cons_append] using this
    | _ + 2, e => cases e
  | @holdDuring g1 n x g2 m y g3 v z g4 h1 h2 h3 h4 h5 h6 h7 =>
    match k, e with
    | 0, e =>
      cases h6 with
      | nested => cases e
      | goal h6 =>
        cases e
        refine ⟨'(' :: (c!"hold-during" ++ (g1 ++ (x ++ (g2 ++ (y ++ g3))))), z, g4 ++ [')'], ?_, h6, fun g' b w' hg' hw => ⟨hg, ?_⟩⟩
        · simp only [paren, List.append_assoc, List.cons_append]
        · have := ConX.holdDuring h1 h2 h3 h4 (h5.append hg') (.goal hw) h7
          simpa only [ConGD.setGoal, paren, List.append_assoc, List.cons_append] using this
    | _ + 1, e => cases e
  | @holdAfter g1 n x g2 v y g3 h1 h2 h3 h4 h5 =>
    match k, e with
    | 0, e =>
      cases h4 with
      | nested => cases e
      | goal h4 =>
        cases e
        refine ⟨'(' :: (c!"hold-after" ++ (g1 ++ (x ++ g2))), y, g3 ++ [')'], ?_, h4, fun g' b w' hg' hw => ⟨hg, ?_⟩⟩
        · simp only [paren, List.append_assoc, List.cons_append]
        · have := ConX.holdAfter h1 h2 (h3.append hg') (.goal hw) h5
          simpa only [ConGD.setGoal, paren, List.append_assoc, List.cons_append] using this
    | _ + 1, e => cases e

theorem con_goal (k : Nat) : Local parseConGd parseGd (fun v => v.goal k) (fun v w => v.setGoal k w) :=
  .of_spot con_texts goal_reader (con_goal_spot k)

/-- A goal inside an argument of a constraint. -/
theorem ConX.goal_at {c : ConGD} {t : List Char} (h : ConX c t) {k : Nat} {d w : GD} {ρ : List Nat}
    (hd : c.goal k = some d) (hw : d.sub ρ = some w) : ∃ x a y, t = x ++ (a ++ y) ∧ GDX w a ∧
      ∀ g b w', Gap g → GDX w' b → ConX (c.setGoal k (d.replace ρ w')) (x ++ ((g ++ b) ++ y)) := by
  obtain ⟨x, a, y, rfl, h1, h2⟩ := con_goal_spot k [] c t d ⟨.nil, h⟩ hd
  cases ρ with
  | nil =>
    cases hw
    exact ⟨x, a, y, rfl, h1, fun g b w' hg hb => (h2 g b w' hg hb).2⟩
  | cons j ρ =>
    obtain ⟨x', a', y', rfl, k1, k2⟩ := h1.sub_at hw
    refine ⟨x ++ x', a', y' ++ y, by simp only [List.append_assoc], k1, fun g b w' hg hb => ?_⟩
    have := (h2 [] _ _ .nil (k2 g b w' hg hb)).2
    simpa only [List.append_assoc, List.nil_append] using this

theorem ConGD.setGoal_kind {c : ConGD} {k : Nat} {d w : GD} (h : c.goal k = some d) :
    (∀ vs, c.setGoal k w ≠ .and vs) ∧ ∀ vs b, c.setGoal k w ≠ .forall_ vs b := by
  cases c with
  | and => cases h
  | forall_ => cases h
  | _ =>
    unfold ConGD.setGoal
    split <;> exact ⟨(fun _ e => nomatch e), (fun _ _ e => nomatch e)⟩

/-- C95: any goal inside a goal that is an argument of a constraint, below conjunctions and quantifiers. -/
theorem C95_constraint_goals (π : List Nat) (k : Nat) (ρ : List Nat) : Local parseConGd parseGd
    (fun v => ((subAt ConGD.child v π).bind fun c => c.goal k).bind fun g => g.sub ρ)
    (through (fun v => (subAt ConGD.child v π).bind fun c => c.goal k)
      (through (fun v => subAt ConGD.child v π) (fun v w => replaceAt ConGD.child ConGD.put v π w)
        fun c w => c.setGoal k w) fun g w => g.replace ρ w) :=
  ((C95_constraints π).comp (con_goal k)).comp (C94_goals ρ)

/-! ## Constraints of a problem -/

/-- The constraint at a place: the `i`-th of a list, or, if that one is quantified, one further inside. -/
def PrefConGD.memberAt : List PrefConGD → Nat → List Nat → Option PrefConGD
  | vs, i, [] => vs[i]?
  | vs, i, j :: π => match vs[i]? with
    | some (.forall_ _ b) => memberAt b j π
    | _ => none

/-- Exchange the constraint at a place by any number of constraints. -/
def PrefConGD.splice : List PrefConGD → Nat → List Nat → List PrefConGD → List PrefConGD
  | vs, i, [], ws => vs.take i ++ (ws ++ vs.drop (i + 1))
  | vs, i, j :: π, ws => match vs[i]? with
    | some (.forall_ xs b) => vs.set i (.forall_ xs (splice b j π ws))
    | _ => vs

namespace PrefConGD

theorem memberAt_append {A us B : List PrefConGD} {k : Nat} (hk : k < us.length) (π : List Nat) :
    memberAt (A ++ (us ++ B)) (A.length + k) π = memberAt us k π := by
  cases π with
  | nil => exact PreGD.lookup hk
  | cons j π => rw [memberAt, memberAt, PreGD.lookup hk]

theorem splice_append {A us B : List PrefConGD} {k : Nat} (hk : k < us.length) (π : List Nat) (ws : List PrefConGD) :
    splice (A ++ (us ++ B)) (A.length + k) π ws = A ++ (splice us k π ws ++ B) := by
  cases π with
  | nil =>
    have h1 : (A ++ (us ++ B)).take (A.length + k) = A ++ us.take k := by
      rw [List.take_length_add_append, List.take_append_of_le_length (by omega)]
    have h2 : (A ++ (us ++ B)).drop (A.length + k + 1) = us.drop (k + 1) ++ B := by
      rw [Nat.add_assoc, List.drop_length_add_append, List.drop_append_of_le_length (by omega)]
    rw [splice, splice, h1, h2]
    simp only [List.append_assoc]
  | cons j π =>
    rw [splice, splice, PreGD.lookup hk]
    split
    · rw [List.set_append_right _ _ (by omega), Nat.add_sub_cancel_left, List.set_append_left _ _ hk]
    · rfl

theorem memberAt_lt {vs : List PrefConGD} {i : Nat} {π : List Nat} {v : PrefConGD} (h : memberAt vs i π = some v) :
    ∃ w, vs[i]? = some w ∧ memberAt [w] 0 π = some v := by
  cases π with
  | nil => exact ⟨v, h, rfl⟩
  | cons j π =>
    rw [memberAt] at h
    split at h
    · rename_i e
      exact ⟨_, e, h⟩
    · cases h

end PrefConGD

/-- The texts of a constraint that is no conjunction. -/
def PrefConGD.Bare (v : PrefConGD) (a : List Char) : Prop :=
  (∀ n c, v = .preference (some n) c → Paired c!"preference" NameW ConX n c a) ∧
  (∀ c, v = .preference none c → Wrapped c!"preference" ConX c a) ∧
  ∀ c, v = .goal c → ConX c a ∧ (∀ vs, c ≠ .and vs) ∧ ∀ vs b, c ≠ .forall_ vs b

theorem prefCon_reader : Reader parsePrefConGd PrefConX := prefCon_texts.reader.congr fun _ _ => ⟨(·.2), (⟨.nil, ·⟩)⟩

open PrefConGD in
/-- One constraint of a list, at any depth. -/
theorem PrefConX.member_at (n : Nat) : ∀ {vs : List PrefConGD} {t : List Char}, t.length ≤ n → PrefConX vs t →
    ∀ {i : Nat} {π : List Nat} {v : PrefConGD}, memberAt vs i π = some v →
    ∃ x a y, t = x ++ (a ++ y) ∧ PrefConX [v] a ∧ v.Bare a ∧
      ((x = [] ∧ y = [] ∧ vs = [v] ∧ ∀ ws, splice vs i π ws = ws) ∨
        ∀ g' b ws, Gap g' → PrefConX ws b → PrefConX (splice vs i π ws) (x ++ ((g' ++ b) ++ y))) := by
  induction n with
  | zero =>
    intro vs t hn h
    exact absurd h.solid.ne (by simpa using hn)
  | succ n ih =>
    intro vs t hn h i π v e
    have h0 := h
    cases h with
    | @forall_ g1 xs w g2 b y g3 h1 h2 h3 h4 h5 =>
      obtain ⟨u, hu, e'⟩ := memberAt_lt e
      match i, hu with
      | 0, hu =>
        cases hu
        cases π with
        | nil =>
          cases e'
          exact ⟨[], _, [], by simp, h0, ⟨(fun _ _ e => nomatch e), (fun _ e => nomatch e), (fun _ e => nomatch e)⟩,
            .inl ⟨rfl, rfl, rfl, fun ws => by simp [splice]⟩⟩
        | cons j π =>
          obtain ⟨x, a, z, rfl, k1, kb, k2⟩ := ih (by simp [paren] at hn; omega) h4 (i := j) (π := π) e
          refine ⟨'(' :: (c!"forall" ++ (g1 ++ (paren w ++ (g2 ++ x)))), a, z ++ (g3 ++ [')']), ?_, k1, kb,
            .inr fun g' c ws hg' hc => ?_⟩
          · simp only [paren, List.append_assoc, List.cons_append]
          · show PrefConX [PrefConGD.forall_ xs (splice b j π ws)] _
            rcases k2 with ⟨rfl, rfl, _, k2⟩ | k2
            · rw [k2]
              have := PrefConX.forall_ h1 h2 (h3.append hg') hc h5
              simpa only [paren, List.append_assoc, List.cons_append, List.nil_append] using this
            · have := PrefConX.forall_ h1 h2 h3 (k2 g' c ws hg' hc) h5
              simpa only [paren, List.append_assoc, List.cons_append] using this
    | @and vss u h1 =>
      obtain ⟨m, hm, e1⟩ := memberAt_lt e
      obtain ⟨j, hj, A, B, k, f1, rfl, f2, f3⟩ := flatten_at hm
      have hk : k < vss[j].length := (List.getElem?_eq_some_iff.mp f2).1
      rw [f1, memberAt_append hk] at e
      obtain ⟨x, a, y, rfl, k1, k2, _⟩ := (Row.of_sec h1).nth isLead_gap j hj
      obtain ⟨x', a', y', rfl, k3, kb, k4⟩ := ih (by simp [paren] at hn ⊢; omega) k1 e
      refine ⟨'(' :: (c!"and" ++ (x ++ x')), a', y' ++ (y ++ [')']), ?_, k3, kb, .inr fun g' b ws hg' hb => ?_⟩
      · simp only [paren, List.append_assoc, List.cons_append]
      · rw [f1, splice_append hk, ← f3]
        rcases k4 with ⟨rfl, rfl, _, k4⟩ | k4
        · have := PrefConX.and (k2 g' b ws hg' hb).to_sec
          rw [k4]
          simpa only [paren, List.append_assoc, List.cons_append, List.append_nil, List.nil_append] using this
        · have := PrefConX.and (k2 [] _ _ .nil (k4 g' b ws hg' hb)).to_sec
          simpa only [paren, List.append_assoc, List.cons_append, List.nil_append] using this
    | named h =>
      obtain ⟨u, hu, e'⟩ := memberAt_lt e
      match i, π, hu, e' with
      | 0, [], rfl, rfl =>
        exact ⟨[], t, [], by simp, h0, ⟨(fun _ _ e => by cases e; exact h), (fun _ e => nomatch e), (fun _ e => nomatch e)⟩,
          .inl ⟨rfl, rfl, rfl, fun ws => by simp [splice]⟩⟩
    | anonymous h =>
      obtain ⟨u, hu, e'⟩ := memberAt_lt e
      match i, π, hu, e' with
      | 0, [], rfl, rfl =>
        exact ⟨[], t, [], by simp, h0, ⟨(fun _ _ e => nomatch e), (fun _ e => by cases e; exact h), (fun _ e => nomatch e)⟩,
          .inl ⟨rfl, rfl, rfl, fun ws => by simp [splice]⟩⟩
    | goal h h2 h3 =>
      obtain ⟨u, hu, e'⟩ := memberAt_lt e
      match i, π, hu, e' with
      | 0, [], rfl, rfl =>
        exact ⟨[], t, [], by simp, h0, ⟨(fun _ _ e => nomatch e), (fun _ e => nomatch e),
          fun _ e => by cases e; exact ⟨h, h2, h3⟩⟩, .inl ⟨rfl, rfl, rfl, fun ws => by simp [splice]⟩⟩

/-- C95: any constraint of a problem; it may be replaced by any number of constraints. -/
theorem C95_problem_constraints (i : Nat) (π : List Nat) : Local parsePrefConGd parsePrefConGd
    (fun vs => (PrefConGD.memberAt vs i π).map fun v => [v]) (fun vs ws => PrefConGD.splice vs i π ws) := by
  intro s vs r w hs hw
  obtain ⟨v, hv, rfl⟩ := Option.map_eq_some_iff.mp hw
  obtain ⟨g, t, rfl, hg, h⟩ := (C82_problem_constraints _ _ _).mp hs
  obtain ⟨x, a, y, rfl, h1, _, h2⟩ := h.member_at _ (Nat.le_refl _) hv
  refine ⟨g ++ x, a, y ++ r, by simp only [List.append_assoc], prefCon_reader.run _ _ h1, fun b ws hb => ?_⟩
  obtain ⟨g', t', rfl, hg', h'⟩ := prefCon_reader.inv _ _ hb
  rcases h2 with ⟨rfl, rfl, _, h2⟩ | h2
  · show parsePrefConGd _ = .ok (PrefConGD.splice vs i π ws) r
    rw [h2]
    exact (C82_problem_constraints _ _ _).mpr ⟨g ++ g', t', by simp, hg.append hg', h'⟩
  · exact (C82_problem_constraints _ _ _).mpr ⟨g, _, by simp only [List.append_assoc], hg, h2 g' t' ws hg' h'⟩

/-- The goals that are arguments of a constraint or of a preference. -/
def PrefConGD.goalAt : PrefConGD → Nat → Option GD
  | .goal c, k => c.goal k
  | .preference _ c, k => c.goal k
  | _, _ => none

/-- Exchange one of them. -/
def PrefConGD.setGoalAt : PrefConGD → Nat → GD → PrefConGD
  | .goal c, k, w => .goal (c.setGoal k w)
  | .preference n c, k, w => .preference n (c.setGoal k w)
  | v, _, _ => v

/-- C95: any goal inside a goal that is an argument of a constraint or of a preference of a problem. -/
theorem C95_problem_constraint_goals (i : Nat) (π : List Nat) (k : Nat) (ρ : List Nat) : Local parsePrefConGd parseGd
    (fun vs => (PrefConGD.memberAt vs i π).bind fun v => (v.goalAt k).bind fun g => g.sub ρ)
    (fun vs w => match PrefConGD.memberAt vs i π with
      | some v => match v.goalAt k with
        | some g => PrefConGD.splice vs i π [v.setGoalAt k (g.replace ρ w)]
        | none => vs
      | none => vs) := by
  intro s vs r w hs hw
  simp only at hw ⊢
  obtain ⟨v, hv, hw⟩ := Option.bind_eq_some_iff.mp hw
  obtain ⟨d, hd, hsub⟩ := Option.bind_eq_some_iff.mp hw
  simp only [hv, hd]
  obtain ⟨g, t, rfl, hg, h⟩ := (C82_problem_constraints _ _ _).mp hs
  obtain ⟨x, a, y, rfl, h1, hb, h2⟩ := h.member_at _ (Nat.le_refl _) hv
  -- inside the constraint
  have inner : ∃ x' a' y', a = x' ++ (a' ++ y') ∧ GDX w a' ∧ ∀ g' b w', Gap g' → GDX w' b →
      PrefConX [v.setGoalAt k (d.replace ρ w')] (x' ++ ((g' ++ b) ++ y')) := by
    cases v with
    | forall_ => cases hd
    | goal c =>
      obtain ⟨q1, _, _⟩ := hb.2.2 c rfl
      obtain ⟨x', a', y', rfl, k1, k2⟩ := q1.goal_at hd hsub
      exact ⟨x', a', y', rfl, k1, fun g' b w' hg' hb' => .goal (k2 g' b w' hg' hb') (ConGD.setGoal_kind hd).1
        (ConGD.setGoal_kind hd).2⟩
    | preference n c =>
      cases n with
      | none =>
        obtain ⟨x, a, y, rfl, k1, k2⟩ := (hb.2.1 c rfl).at
        obtain ⟨x', a', y', rfl, k3, k4⟩ := k1.goal_at hd hsub
        refine ⟨x ++ x', a', y' ++ y, by simp only [List.append_assoc], k3, fun g' b w' hg' hb' => .anonymous ?_⟩
        simpa only [List.append_assoc, List.nil_append] using k2 [] _ _ .nil (k4 g' b w' hg' hb')
      | some n =>
        obtain ⟨x, a, y, rfl, k1, k2⟩ := (hb.1 n c rfl).snd_at
        obtain ⟨x', a', y', rfl, k3, k4⟩ := k1.goal_at hd hsub
        refine ⟨x ++ x', a', y' ++ y, by simp only [List.append_assoc], k3, fun g' b w' hg' hb' => .named ?_⟩
        simpa only [List.append_assoc, List.nil_append] using k2 [] _ _ .nil (k4 g' b w' hg' hb')
  obtain ⟨x', a', y', rfl, m1, m2⟩ := inner
  refine ⟨g ++ (x ++ x'), a', y' ++ (y ++ r), by simp only [List.append_assoc], goal_reader.run _ _ m1,
    fun b w' hb => ?_⟩
  obtain ⟨g', t', rfl, hg', h'⟩ := goal_reader.inv _ _ hb
  have m3 := m2 g' t' w' hg' h'
  rcases h2 with ⟨rfl, rfl, _, h2⟩ | h2
  · rw [h2]
    refine (C82_problem_constraints _ _ _).mpr ⟨g, _, ?_, hg, m3⟩
    simp only [List.append_assoc, List.nil_append]
  · refine (C82_problem_constraints _ _ _).mpr ⟨g, _, ?_, hg, h2 [] _ _ .nil m3⟩
    simp only [List.append_assoc, List.nil_append]

/-! ## Files -/

/-- The condition of a durative action that has one. -/
def StructureDef.daCondition : StructureDef → Option DaGD
  | .durative a => a.condition
  | _ => none

/-- Exchange it. -/
def StructureDef.setDaCondition : StructureDef → DaGD → StructureDef
  | .durative a, c => .durative { a with condition := some c }
  | s, _ => s

/-- The effect of a durative action that has one. -/
def StructureDef.daEffect : StructureDef → Option DaEffect
  | .durative a => a.effect
  | _ => none

/-- Exchange it. -/
def StructureDef.setDaEffect : StructureDef → DaEffect → StructureDef
  | .durative a, e => .durative { a with effect := some e }
  | s, _ => s

/-- C95: the condition and the effect of a durative action. -/
theorem C95_durative_action :
    Local parseStructureDef parseDaGd StructureDef.daCondition StructureDef.setDaCondition ∧
    Local parseStructureDef parseDaEffect StructureDef.daEffect StructureDef.setDaEffect := by
  constructor
  · intro s v r vs hs hv
    obtain ⟨g, t, rfl, hg, h⟩ := (C84_structures _ _ _).mp hs
    cases h with
    | derived => cases hv
    | action => cases hv
    | durative h =>
      cases h with
      | @mk g1 n tn g2 g3 xs w g4 b5 g5 d td g6 c uc g7 e ue g8 h1 h2 h3 h4 h5 h6 h7 h8 h9 h10 h11 h12 h13 h14 =>
        cases h11 with
        | empty => cases hv
        | @some k v1 t1 k1 k2 =>
          cases hv
          refine ⟨g ++ ('(' :: (c!":durative-action" ++ (g1 ++ (tn ++ (g2 ++ (c!":parameters" ++ (g3 ++ (paren w ++
            (g4 ++ (c!":duration" ++ (b5 ++ (g5 ++ (td ++ (g6 ++ (c!":condition" ++ k))))))))))))))), t1,
            g7 ++ (c!":effect" ++ (ue ++ (g8 ++ (')' :: r)))), ?_, daGd_reader.run _ _ k2, fun b v' hb => ?_⟩
          · simp only [paren, List.append_assoc, List.cons_append, List.nil_append]
          · obtain ⟨g', t', rfl, hg', h'⟩ := daGd_reader.inv _ _ hb
            have := structure_run (.durative (.mk h1 h2 h3 h4 h5 h6 h7 h8 h9 h10 (.some (k1.append hg') h') h12 h13 h14)) hg r
            simpa only [StructureDef.setDaCondition, paren, List.append_assoc, List.cons_append, List.nil_append]
              using this
  · intro s v r vs hs hv
    obtain ⟨g, t, rfl, hg, h⟩ := (C84_structures _ _ _).mp hs
    cases h with
    | derived => cases hv
    | action => cases hv
    | durative h =>
      cases h with
      | @mk g1 n tn g2 g3 xs w g4 b5 g5 d td g6 c uc g7 e ue g8 h1 h2 h3 h4 h5 h6 h7 h8 h9 h10 h11 h12 h13 h14 =>
        cases h13 with
        | empty => cases hv
        | @some k v1 t1 k1 k2 =>
          cases hv
          refine ⟨g ++ ('(' :: (c!":durative-action" ++ (g1 ++ (tn ++ (g2 ++ (c!":parameters" ++ (g3 ++ (paren w ++
            (g4 ++ (c!":duration" ++ (b5 ++ (g5 ++ (td ++ (g6 ++ (c!":condition" ++ (uc ++ (g7 ++
              (c!":effect" ++ k)))))))))))))))))), t1,
            g8 ++ (')' :: r), ?_, daEffect_texts.reader.run _ _ k2, fun b v' hb => ?_⟩
          · simp only [paren, List.append_assoc, List.cons_append, List.nil_append]
          · obtain ⟨g', t', rfl, hg', h'⟩ := daEffect_texts.reader.inv _ _ hb
            have := structure_run (.durative (.mk h1 h2 h3 h4 h5 h6 h7 h8 h9 h10 h11 h12 (.some (k1.append hg') h') h14)) hg r
            simpa only [StructureDef.setDaEffect, paren, List.append_assoc, List.cons_append, List.nil_append]
              using this

/-- What is inside a section that is there. -/
theorem HasSection.inner {p : P F} {X : F → List Char → Prop} {q : P α} {kw : List Char} {R : α → List Char → Prop}
    {get : F → α} {set : F → α → F} {dflt : α} (hp : FileTexts p X) (hq : Reader q R)
    (h : HasSection X (Wrapped kw R) id get set dflt) {get' : F → Option α}
    (hg : ∀ f v, get' f = some v → get f = v ∧ v ≠ dflt) : Local p q get' set := by
  intro s f r v hs hv
  obtain ⟨e1, e2⟩ := hg f v hv
  obtain ⟨g, t, z, rfl, hgg, hx, rfl⟩ := (hp _ _ _).mp hs
  obtain ⟨x, o, u, y, rfl, ho, he, hX⟩ := h f t hx
  cases ho with
  | absent => exact absurd (e1.symm.trans he) e2
  | @present g1 v1 t1 h1 h2 =>
    obtain rfl : v1 = v := he.symm.trans e1
    obtain ⟨x', a, y', rfl, k1, k2⟩ := h2.at
    refine ⟨g ++ (x ++ (g1 ++ x')), a, y' ++ (y ++ z), by simp only [List.append_assoc], hq.run _ _ k1,
      fun b w hb => ?_⟩
    obtain ⟨g', t', rfl, hg', hw⟩ := hq.inv _ _ hb
    refine (hp _ _ _).mpr ⟨g, _, z, ?_, hgg, hX (some w) _ (.present h1 (k2 g' t' w hg' hw)), rfl⟩
    simp only [List.append_assoc]

/-- The constraints of a domain, if there are any. -/
def Domain.stated (d : Domain) : Option ConGD :=
  match d.constraints with
  | .and [] => none
  | c => some c

/-- The constraints of a problem, if there are any. -/
def Problem.stated (p : Problem) : Option (List PrefConGD) :=
  match p.constraints with
  | [] => none
  | cs => some cs

/-- C95: the constraints of a domain and of a problem. -/
theorem C95_constraint_sections :
    Local parseDomain parseConGd Domain.stated (fun d v => { d with constraints := v }) ∧
    Local parseProblem parsePrefConGd Problem.stated (fun d v => { d with constraints := v }) := by
  refine ⟨domain_constraints.inner C85_domains con_reader fun d v h => ?_,
    problem_constraints.inner C85_problems prefCon_reader fun d v h => ?_⟩
  · unfold Domain.stated at h
    split at h
    · cases h
    · rename_i hne
      cases h
      exact ⟨rfl, hne⟩
  · unfold Problem.stated at h
    split at h
    · cases h
    · rename_i hne
      cases h
      exact ⟨rfl, hne⟩

/-- C95: any goal inside the condition of any conditional effect of any action of a domain. -/
theorem C95_domain_effect_goals (n : Nat) (π : List Nat) (i : Nat) (ρ : List Nat) : ∃ set : Domain → GD → Domain,
    Local parseDomain parseGd (fun d => (d.structure_[n]?.bind StructureDef.effect).bind fun es =>
      ((subAt CEffect.child es π).bind (CEffect.cond i)).bind fun c => c.sub ρ) set ∧
    ∀ d a es ws c e w, d.structure_[n]? = some (.action a) → a.effect = some es →
      subAt CEffect.child es π = some ws → ws[i]? = some (.when c e) →
      set d w = { d with structure_ := d.structure_.set n (.action { a with
        effect := some (replaceAt CEffect.child CEffect.put es π (ws.set i (.when (c.replace ρ w) e))) }) } := by
  refine ⟨_, ((C94_structures n).comp C94_action_effect).comp (C95_effect_conditions π i ρ), ?_⟩
  intro d a es ws c e w h1 h2 h3 h4
  simp [through, h1, h2, h3, h4, StructureDef.effect, StructureDef.setEffect, CEffect.cond, CEffect.setCond]

/-- C95: any goal inside the condition of any durative action of a domain. -/
theorem C95_domain_durative_goals (n : Nat) (π ρ : List Nat) : ∃ set : Domain → GD → Domain,
    Local parseDomain parseGd (fun d => (d.structure_[n]?.bind StructureDef.daCondition).bind fun c =>
      ((subAt DaGD.child c π).bind DaGD.goal).bind fun g => g.sub ρ) set ∧
    ∀ d a c v g w, d.structure_[n]? = some (.durative a) → a.condition = some c →
      subAt DaGD.child c π = some v → v.goal = some g →
      set d w = { d with structure_ := d.structure_.set n (.durative { a with
        condition := some (replaceAt DaGD.child DaGD.put c π (v.setGoal (g.replace ρ w))) }) } := by
  refine ⟨_, ((C94_structures n).comp C95_durative_action.1).comp
    (((C95_durative_conditions π).comp C95_timed_goal).comp (C94_goals ρ)), ?_⟩
  intro d a c v g w h1 h2 h3 h4
  simp [through, h1, h2, h3, h4, StructureDef.daCondition, StructureDef.setDaCondition]

/-- C95: any goal inside the condition of any conditional effect of any durative action of a domain. -/
theorem C95_domain_durative_effect_goals (n : Nat) (κ π ρ : List Nat) : ∃ set : Domain → GD → Domain,
    Local parseDomain parseGd (fun d => (d.structure_[n]?.bind StructureDef.daEffect).bind fun e =>
      ((subAt DaEffect.child e κ).bind DaEffect.cond).bind fun c =>
      ((subAt DaGD.child c π).bind DaGD.goal).bind fun g => g.sub ρ) set ∧
    ∀ d a e c e' v g w, d.structure_[n]? = some (.durative a) → a.effect = some e →
      subAt DaEffect.child e κ = some (.when c e') → subAt DaGD.child c π = some v → v.goal = some g →
      set d w = { d with structure_ := d.structure_.set n (.durative { a with
        effect := some (replaceAt DaEffect.child DaEffect.put e κ
          (.when (replaceAt DaGD.child DaGD.put c π (v.setGoal (g.replace ρ w))) e')) }) } := by
  refine ⟨_, ((C94_structures n).comp C95_durative_action.2).comp
    (((C95_durative_effects κ).comp C95_durative_when.1).comp
      (((C95_durative_conditions π).comp C95_timed_goal).comp (C94_goals ρ))), ?_⟩
  intro d a e c e' v g w h1 h2 h3 h4 h5
  simp [through, h1, h2, h3, h4, h5, StructureDef.daEffect, StructureDef.setDaEffect, DaEffect.cond, DaEffect.setCond]

/-- C95: any goal inside a constraint of a domain. -/
theorem C95_domain_constraint_goals (π : List Nat) (k : Nat) (ρ : List Nat) : ∃ set : Domain → GD → Domain,
    Local parseDomain parseGd (fun d => d.stated.bind fun v =>
      ((subAt ConGD.child v π).bind fun c => c.goal k).bind fun g => g.sub ρ) set ∧
    ∀ d v c g w, d.stated = some v → subAt ConGD.child v π = some c → c.goal k = some g →
      set d w = { d with constraints := replaceAt ConGD.child ConGD.put v π (c.setGoal k (g.replace ρ w)) } := by
  refine ⟨_, C95_constraint_sections.1.comp (C95_constraint_goals π k ρ), ?_⟩
  intro d v c g w h1 h2 h3
  simp [through, h1, h2, h3]

/-- C95: any goal inside a constraint of a problem. -/
theorem C95_problem_goals (i : Nat) (π : List Nat) (k : Nat) (ρ : List Nat) : ∃ set : Problem → GD → Problem,
    Local parseProblem parseGd (fun p => p.stated.bind fun vs =>
      (PrefConGD.memberAt vs i π).bind fun v => (v.goalAt k).bind fun g => g.sub ρ) set ∧
    ∀ p vs v g w, p.stated = some vs → PrefConGD.memberAt vs i π = some v → v.goalAt k = some g →
      set p w = { p with constraints := PrefConGD.splice vs i π [v.setGoalAt k (g.replace ρ w)] } := by
  refine ⟨_, C95_constraint_sections.2.comp (C95_problem_constraint_goals i π k ρ), ?_⟩
  intro p vs v g w h1 h2 h3
  simp [through, h1, h2, h3]

/-- The goal in the condition of the conditional effect under a quantifier, replaced by a disjunction. -/
example : ∃ es es', parseEffect c!"(and (p) (forall (?x) (when (q) (r))))" = .ok es [] ∧
    ((subAt CEffect.child es [1]).bind (CEffect.cond 0)) = some (.atomic (.predicate (.new c!"q") [])) ∧
    parseEffect c!"(and (p) (forall (?x) (when (or (s) (t)) (r))))" = .ok es' [] ∧
    ((subAt CEffect.child es' [1]).bind (CEffect.cond 0)).bind (fun c => c.sub [1]) =
      some (.atomic (.predicate (.new c!"t") [])) := ⟨_, _, rfl, rfl, rfl, rfl⟩

/-- A timed goal of a durative action. -/
example : ∃ c c', parseDaGd c!"(and (at start (p)) (forall (?x) (preference n (over all (q)))))" = .ok c [] ∧
    (subAt DaGD.child c [1, 0]).bind DaGD.goal = some (.atomic (.predicate (.new c!"q") [])) ∧
    parseDaGd c!"(and (at start (p)) (forall (?x) (preference n (over all (not (r))))))" = .ok c' [] ∧
    ((subAt DaGD.child c' [1, 0]).bind DaGD.goal).bind (fun g => g.sub [0]) =
      some (.atomic (.predicate (.new c!"r") [])) := ⟨_, _, rfl, rfl, rfl, rfl⟩

/-- An argument of a constraint. -/
example : ∃ c c', parseConGd c!"(and (always (p)) (sometime-before (q) (r)))" = .ok c [] ∧
    (subAt ConGD.child c [1]).bind (fun c => c.goal 1) = some (.atomic (.predicate (.new c!"r") [])) ∧
    parseConGd c!"(and (always (p)) (sometime-before (q) ; new
 (and)))" = .ok c' [] ∧
    (subAt ConGD.child c' [1]).bind (fun c => c.goal 1) = some (.and []) := ⟨_, _, rfl, rfl, rfl, rfl⟩

/-- `(and (p))` is a list of one effect where a list is expected, and a single atom where an effect is expected. So
it cannot replace an effect. -/
example : ∃ e e', parseCEffect c!"(and (p))" = .ok e [] ∧ parseEffect c!"(and (p))" = .ok [e'] [] ∧ e ≠ e' :=
  ⟨_, _, rfl, rfl, fun h => nomatch h⟩

end Pddl
