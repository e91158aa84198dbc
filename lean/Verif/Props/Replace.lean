import Verif.Props.Edit

/-!
# C94: replacing a subgoal at any depth

A goal anywhere in a file — in the precondition of an action, in a derived predicate, in the goal of a problem,
below any number of conjunctions, negations, implications and quantifiers — can be replaced by any other text
that is read as a goal. Exactly that subgoal changes.
-/

namespace Pddl

/-- In every text that `p` reads, the part shown by `get` has its place; `q` reads it there, and replacing it by
any other text that `q` reads changes the value as `set` says, and nothing else. -/
def Local (p : P F) (q : P α) (get : F → Option α) (set : F → α → F) : Prop :=
  ∀ s f r v, p s = .ok f r → get f = some v → ∃ x a y, s = x ++ (a ++ y) ∧ q a = .ok v [] ∧
    ∀ b v', q b = .ok v' [] → p (x ++ (b ++ y)) = .ok (set f v') r

/-- Exchange a part of a part. -/
def through (get : F → Option α) (set : F → α → F) (set' : α → β → α) (f : F) (w : β) : F :=
  match get f with
  | some v => set f (set' v w)
  | none => f

/-- Parts of parts. -/
theorem Local.comp {p : P F} {q : P α} {q' : P β} {get : F → Option α} {set : F → α → F} {get' : α → Option β}
    {set' : α → β → α} (h : Local p q get set) (h' : Local q q' get' set') :
    Local p q' (fun f => (get f).bind get') (through get set set') := by
  intro s f r w hs hw
  simp only [through] at hw ⊢
  cases e : get f with
  | none => rw [e] at hw; cases hw
  | some v =>
    rw [e] at hw
    obtain ⟨x, a, y, rfl, ha, hr⟩ := h s f r v hs e
    obtain ⟨x', a', y', rfl, ha', hr'⟩ := h' a v [] w ha hw
    refine ⟨x ++ x', a', y' ++ y, by simp only [List.append_assoc], ha', fun b v' hb => ?_⟩
    have := hr _ _ (hr' b v' hb)
    simpa only [List.append_assoc] using this

/-! ## Subgoals -/

/-- The goals directly inside a goal. -/
def GD.child : GD → Nat → Option GD
  | .and gs, i => gs[i]?
  | .or gs, i => gs[i]?
  | .not g, 0 => some g
  | .imply a _, 0 => some a
  | .imply _ b, 1 => some b
  | .exist _ g, 0 => some g
  | .forall_ _ g, 0 => some g
  | _, _ => none

/-- Exchange one of them. -/
def GD.put : GD → Nat → GD → GD
  | .and gs, i, w => .and (gs.set i w)
  | .or gs, i, w => .or (gs.set i w)
  | .not _, 0, w => .not w
  | .imply _ b, 0, w => .imply w b
  | .imply a _, 1, w => .imply a w
  | .exist vs _, 0, w => .exist vs w
  | .forall_ vs _, 0, w => .forall_ vs w
  | g, _, _ => g

/-- The goal at the end of a path into a goal. -/
def GD.sub : GD → List Nat → Option GD
  | g, [] => some g
  | g, i :: π => (g.child i).bind fun c => c.sub π

/-- Exchange the goal at the end of a path. -/
def GD.replace : GD → List Nat → GD → GD
  | _, [], w => w
  | g, i :: π, w => match g.child i with
    | some c => g.put i (c.replace π w)
    | none => g

theorem Row.of_sec {R : α → List Char → Prop} {xs : List α} {u : List Char} (h : Sec Gap Gap (Items R) xs u) :
    Row R Gap xs u := by
  cases h with
  | nil h => exact .nil h
  | cons h1 h2 h3 => exact .of_items h2 h1 h3

theorem Row.to_sec {R : α → List Char → Prop} {xs : List α} {u : List Char} (h : Row R Gap xs u) :
    Sec Gap Gap (Items R) xs u := by
  by_cases e : xs = []
  · subst e; exact .nil h.gap_of_nil
  · obtain ⟨g, u, g', rfl, h1, h2, h3⟩ := h.to_items e
    exact .cons h1 h2 h3

/-- One goal directly inside another. -/
theorem GDX.child_at {v : GD} {t : List Char} (h : GDX v t) {i : Nat} {w : GD} (e : v.child i = some w) :
    ∃ x a y, t = x ++ (a ++ y) ∧ GDX w a ∧
      ∀ g b w', Gap g → GDX w' b → GDX (v.put i w') (x ++ ((g ++ b) ++ y)) := by
  have list : ∀ {kw : List Char} {vs : List GD} {u : List Char} {c : List GD → GD},
      (∀ {vs u}, Sec Gap Gap (Items GDX) vs u → GDX (c vs) (paren (kw ++ u))) →
      Sec Gap Gap (Items GDX) vs u → vs[i]? = some w → ∃ x a y, paren (kw ++ u) = x ++ (a ++ y) ∧ GDX w a ∧
      ∀ g b w', Gap g → GDX w' b → GDX (c (vs.set i w')) (x ++ ((g ++ b) ++ y)) := by
    intro kw vs u c hc h e
    obtain ⟨hi, rfl⟩ := List.getElem?_eq_some_iff.mp e
    obtain ⟨x, a, y, rfl, h1, h2, _⟩ := (Row.of_sec h).nth isLead_gap i hi
    refine ⟨'(' :: (kw ++ x), a, y ++ [')'], ?_, h1, fun g b w' hg hw => ?_⟩
    · simp only [paren, List.append_assoc, List.cons_append]
    · have := hc (h2 g b w' hg hw).to_sec
      simpa only [paren, List.append_assoc, List.cons_append] using this
  cases h with
  | and h => exact list .and h e
  | or h => exact list .or h e
  | @not g1 v x g2 h1 h2 h3 =>
    match i, e with
    | 0, rfl =>
      refine ⟨'(' :: (c!"not" ++ g1), x, g2 ++ [')'], ?_, h2, fun g b w' hg hw => ?_⟩
      · simp only [paren, List.append_assoc, List.cons_append]
      · have := GDX.not (h1.append hg) hw h3
        simpa only [GD.put, paren, List.append_assoc, List.cons_append] using this
  | @imply g1 a x g2 c y g3 h1 h2 h3 h4 h5 =>
    match i, e with
    | 0, rfl =>
      refine ⟨'(' :: (c!"imply" ++ g1), x, g2 ++ (y ++ (g3 ++ [')'])), ?_, h2, fun g b w' hg hw => ?_⟩
      · simp only [paren, List.append_assoc, List.cons_append]
      · have := GDX.imply (h1.append hg) hw h3 h4 h5
        simpa only [GD.put, paren, List.append_assoc, List.cons_append] using this
    | 1, rfl =>
      refine ⟨'(' :: (c!"imply" ++ (g1 ++ (x ++ g2))), y, g3 ++ [')'], ?_, h4, fun g b w' hg hw => ?_⟩
      · simp only [paren, List.append_assoc, List.cons_append]
      · have := GDX.imply h1 h2 (h3.append hg) hw h5
        simpa only [GD.put, paren, List.append_assoc, List.cons_append] using this
  | @exist g1 vs z g2 c y g3 h1 h2 h3 h4 h5 =>
    match i, e with
    | 0, rfl =>
      refine ⟨'(' :: (c!"exists" ++ (g1 ++ (paren z ++ g2))), y, g3 ++ [')'], ?_, h4, fun g b w' hg hw => ?_⟩
      · simp only [paren, List.append_assoc, List.cons_append]
      · have := GDX.exist h1 h2 (h3.append hg) hw h5
        simpa only [GD.put, paren, List.append_assoc, List.cons_append] using this
  | @forall_ g1 vs z g2 c y g3 h1 h2 h3 h4 h5 =>
    match i, e with
    | 0, rfl =>
      refine ⟨'(' :: (c!"forall" ++ (g1 ++ (paren z ++ g2))), y, g3 ++ [')'], ?_, h4, fun g b w' hg hw => ?_⟩
      · simp only [paren, List.append_assoc, List.cons_append]
      · have := GDX.forall_ h1 h2 (h3.append hg) hw h5
        simpa only [GD.put, paren, List.append_assoc, List.cons_append] using this
  | atomic => cases e
  | fComp => cases e

/-- A goal inside another, at any depth. -/
theorem GDX.sub_at {π : List Nat} : ∀ {i : Nat} {v : GD} {t : List Char} {w : GD}, GDX v t → v.sub (i :: π) = some w →
    ∃ x a y, t = x ++ (a ++ y) ∧ GDX w a ∧
      ∀ g b w', Gap g → GDX w' b → GDX (v.replace (i :: π) w') (x ++ ((g ++ b) ++ y)) := by
  induction π with
  | nil =>
    intro i v t w h e
    rw [GD.sub] at e
    obtain ⟨c, hc, e⟩ := Option.bind_eq_some_iff.mp e
    cases e
    obtain ⟨x, a, y, rfl, h1, h2⟩ := h.child_at hc
    refine ⟨x, a, y, rfl, h1, fun g b w' hg hw => ?_⟩
    rw [GD.replace, hc]
    exact h2 g b w' hg hw
  | cons j π ih =>
    intro i v t w h e
    rw [GD.sub] at e
    obtain ⟨c, hc, e⟩ := Option.bind_eq_some_iff.mp e
    obtain ⟨x, a, y, rfl, h1, h2⟩ := h.child_at hc
    obtain ⟨x', a', y', rfl, h3, h4⟩ := ih h1 e
    refine ⟨x ++ x', a', y' ++ y, by simp only [List.append_assoc], h3, fun g b w' hg hw => ?_⟩
    have := h2 [] _ _ .nil (h4 g b w' hg hw)
    rw [GD.replace, hc]
    simpa only [List.append_assoc, List.nil_append] using this

/-- A goal with goals inside it begins with its keyword. -/
theorem GoalLead.of_child {v : GD} {i : Nat} {w w' : GD} {g : List Char} (e : v.child i = some w)
    (h : GoalLead v g) : GoalLead (v.put i w') g := by
  cases v with
  | atomic => cases e
  | fComp => cases e
  | literal => cases e
  | and => exact h
  | or => exact h
  | not => match i, e with | 0, _ => exact h
  | imply => match i, e with | 0, _ => exact h | 1, _ => exact h
  | exist => match i, e with | 0, _ => exact h
  | forall_ => match i, e with | 0, _ => exact h

/-- C94: any subgoal of a goal, at any depth. -/
theorem C94_goals (π : List Nat) : Local parseGd parseGd (fun v => v.sub π) (fun v w => v.replace π w) := by
  intro s v r w hs hw
  obtain ⟨g, t, rfl, hg, h⟩ := (C79_goals _ _ _).mp hs
  cases π with
  | nil =>
    cases hw
    refine ⟨[], g ++ t, r, by simp, (C79_goals _ _ _).mpr ⟨g, t, by simp, hg, h⟩, fun b v' hb => ?_⟩
    obtain ⟨g', t', rfl, hg', h'⟩ := (C79_goals _ _ _).mp hb
    exact (C79_goals _ _ _).mpr ⟨g', t', by simp, hg', h'⟩
  | cons i π =>
    obtain ⟨x, a, y, rfl, h1, h2⟩ := h.sub_at hw
    refine ⟨g ++ x, a, y ++ r, by simp only [List.append_assoc],
      (C79_goals _ _ _).mpr ⟨[], a, by simp, .nil _, h1⟩, fun b v' hb => ?_⟩
    obtain ⟨g', t', rfl, hg', h'⟩ := (C79_goals _ _ _).mp hb
    refine (C79_goals _ _ _).mpr ⟨g, _, ?_, ?_, h2 g' t' v' hg'.gap h'⟩
    · simp only [List.append_assoc, List.append_nil]
    · show GoalLead (GD.replace v (i :: π) v') g
      rw [GD.replace]
      obtain ⟨c, hc, _⟩ := Option.bind_eq_some_iff.mp (by rw [← hw]; rfl)
      simp only [hc]
      exact hg.of_child hc

/-! ## Members of preconditions -/

/-- The condition at a place: the `i`-th of a list, or, if that one is quantified, one further inside. -/
def PreGD.memberAt : List PreGD → Nat → List Nat → Option PreGD
  | vs, i, [] => vs[i]?
  | vs, i, j :: π => match vs[i]? with
    | some (.forall_ _ b) => memberAt b j π
    | _ => none

/-- Exchange the condition at a place by any number of conditions. -/
def PreGD.splice : List PreGD → Nat → List Nat → List PreGD → List PreGD
  | vs, i, [], ws => vs.take i ++ (ws ++ vs.drop (i + 1))
  | vs, i, j :: π, ws => match vs[i]? with
    | some (.forall_ xs b) => vs.set i (.forall_ xs (splice b j π ws))
    | _ => vs

theorem flatten_at {v : α} : ∀ {vss : List (List α)} {i : Nat}, vss.flatten[i]? = some v →
    ∃ j, ∃ hj : j < vss.length, ∃ A B k, vss.flatten = A ++ (vss[j] ++ B) ∧ i = A.length + k ∧
      vss[j][k]? = some v ∧ ∀ ws, (vss.set j ws).flatten = A ++ (ws ++ B)
  | [], i, h => by cases h
  | vs :: vss, i, h => by
    by_cases hi : i < vs.length
    · refine ⟨0, by simp, [], vss.flatten, i, by simp, by simp, ?_, by simp⟩
      rwa [List.flatten_cons, List.getElem?_append_left hi] at h
    · rw [List.flatten_cons, List.getElem?_append_right (by omega)] at h
      obtain ⟨j, hj, A, B, k, h1, h2, h3, h4⟩ := flatten_at h
      refine ⟨j + 1, by simpa using hj, vs ++ A, B, k, by simp [h1], ?_, h3, fun ws => by simp [h4]⟩
      rw [List.length_append]; omega

namespace PreGD

theorem lookup {A us B : List α} {k : Nat} (hk : k < us.length) : (A ++ (us ++ B))[A.length + k]? = us[k]? := by
  rw [List.getElem?_append_right (by omega), Nat.add_sub_cancel_left, List.getElem?_append_left hk]

theorem memberAt_append {A us B : List PreGD} {k : Nat} (hk : k < us.length) (π : List Nat) :
    memberAt (A ++ (us ++ B)) (A.length + k) π = memberAt us k π := by
  cases π with
  | nil => exact lookup hk
  | cons j π => rw [memberAt, memberAt, lookup hk]

theorem splice_append {A us B : List PreGD} {k : Nat} (hk : k < us.length) (π : List Nat) (ws : List PreGD) :
    splice (A ++ (us ++ B)) (A.length + k) π ws = A ++ (splice us k π ws ++ B) := by
  cases π with
  | nil =>
    have h1 : (A ++ (us ++ B)).take (A.length + k) = A ++ us.take k := by
      rw [List.take_length_add_append, List.take_append_of_le_length (by omega)]
    have h2 : (A ++ (us ++ B)).drop (A.length + k + 1) = us.drop (k + 1) ++ B := by
      rw [Nat.add_assoc, List.drop_length_add_append, List.drop_append_of_le_length (by omega)]
    rw [splice, splice, h1, h2]
    simp only [List.append_assoc]
  | cons j π =>
    rw [splice, splice, lookup hk]
    split
    · rw [List.set_append_right _ _ (by omega), Nat.add_sub_cancel_left, List.set_append_left _ _ hk]
    · rfl

theorem memberAt_lt {vs : List PreGD} {i : Nat} {π : List Nat} {v : PreGD} (h : memberAt vs i π = some v) :
    ∃ w, vs[i]? = some w ∧ memberAt [w] 0 π = some v := by
  cases π with
  | nil => exact ⟨v, h, rfl⟩
  | cons j π =>
    rw [memberAt] at h
    split at h
    · rename_i e
      exact ⟨_, e, h⟩
    · cases h

end PreGD

/-- The condition is written as such, and not as a conjunction of one. -/
def PreGD.Bare (v : PreGD) (a : List Char) : Prop :=
  ∀ p, v = .preference p → PrefGDX p a ∧ (∀ vs, p ≠ .goal (.and vs)) ∧ ∀ vs b, p ≠ .goal (.forall_ vs b)

open PreGD in
/-- One condition of a precondition, at any depth. -/
theorem PreX.member_at (n : Nat) : ∀ {g : List Char} {vs : List PreGD} {t : List Char}, t.length ≤ n → PreX g vs t →
    ∀ {i : Nat} {π : List Nat} {v : PreGD}, memberAt vs i π = some v →
    ∃ x a y, t = x ++ (a ++ y) ∧ PreX [] [v] a ∧ v.Bare a ∧
      ((x = [] ∧ y = [] ∧ (∀ ws, splice vs i π ws = ws) ∧ ∀ p, v = .preference p → PrefLead p g) ∨
        ∀ g' b ws, Gap g' → PreX [] ws b → PreX g (splice vs i π ws) (x ++ ((g' ++ b) ++ y))) := by
  induction n with
  | zero =>
    intro g vs t hn h
    exact absurd (pre_texts.form h).solid.ne (by simpa using hn)
  | succ n ih =>
    intro g vs t hn h i π v e
    have h0 := pre_texts.base h
    cases h with
    | @forall_ _ g1 xs w g2 b y g3 hg h1 h2 h3 h4 h5 =>
      obtain ⟨u, hu, e'⟩ := memberAt_lt e
      match i, hu with
      | 0, hu =>
        cases hu
        cases π with
        | nil => cases e'; exact ⟨[], _, [], by simp, h0, (fun _ e => nomatch e),
            .inl ⟨rfl, rfl, fun ws => by simp [splice], fun _ e => nomatch e⟩⟩
        | cons j π =>
          obtain ⟨x, a, z, rfl, k1, kb, k2⟩ := ih (by simp [paren] at hn; omega) h4 (i := j) (π := π) e
          refine ⟨'(' :: (c!"forall" ++ (g1 ++ (paren w ++ (g2 ++ x)))), a, z ++ (g3 ++ [')']), ?_, k1, kb,
            .inr fun g' c ws hg' hc => ?_⟩
          · simp only [paren, List.append_assoc, List.cons_append]
          · show PreX g [PreGD.forall_ xs (splice b j π ws)] _
            rcases k2 with ⟨rfl, rfl, k2, _⟩ | k2
            · rw [k2]
              have := PreX.forall_ hg h1 h2 (h3.append hg') hc h5
              simpa only [paren, List.append_assoc, List.cons_append, List.nil_append] using this
            · have := PreX.forall_ hg h1 h2 h3 (k2 g' c ws hg' hc) h5
              simpa only [paren, List.append_assoc, List.cons_append] using this
    | @and _ vss u hg h1 =>
      obtain ⟨m, hm, e1⟩ := memberAt_lt e
      obtain ⟨j, hj, A, B, k, f1, rfl, f2, f3⟩ := flatten_at hm
      have hk : k < vss[j].length := (List.getElem?_eq_some_iff.mp f2).1
      rw [f1, memberAt_append hk] at e
      obtain ⟨x, a, y, rfl, k1, k2, _⟩ := (Row.of_sec h1).nth isLead_gap j hj
      obtain ⟨x', a', y', rfl, k3, kb, k4⟩ := ih (by simp [paren] at hn ⊢; omega) k1 e
      refine ⟨'(' :: (c!"and" ++ (x ++ x')), a', y' ++ (y ++ [')']), ?_, k3, kb, .inr fun g' b ws hg' hb => ?_⟩
      · simp only [paren, List.append_assoc, List.cons_append]
      · rw [f1, splice_append hk, ← f3]
        rcases k4 with ⟨rfl, rfl, k4, _⟩ | k4
        · have := PreX.and hg (k2 g' b ws hg' hb).to_sec
          rw [k4]
          simpa only [paren, List.append_assoc, List.cons_append, List.append_nil, List.nil_append] using this
        · have := PreX.and hg (k2 [] _ _ .nil (k4 g' b ws hg' hb)).to_sec
          simpa only [paren, List.append_assoc, List.cons_append, List.nil_append] using this
    | @other _ p _ h1 h2 h3 h4 =>
      obtain ⟨u, hu, e'⟩ := memberAt_lt e
      match i, hu with
      | 0, hu =>
        cases hu
        cases π with
        | nil =>
          cases e'
          exact ⟨[], t, [], by simp, h0, fun _ e => by cases e; exact ⟨h2, h3, h4⟩,
            .inl ⟨rfl, rfl, fun ws => by simp [splice], fun _ e => by cases e; exact h1⟩⟩
        | cons j π => cases e'

/-- C94: any condition of a precondition; it may be replaced by any number of conditions. -/
theorem C94_preconditions (i : Nat) (π : List Nat) : Local parsePreGd parsePreGd
    (fun vs => (PreGD.memberAt vs i π).map fun v => [v]) (fun vs ws => PreGD.splice vs i π ws) := by
  intro s vs r w hs hw
  obtain ⟨v, hv, rfl⟩ := Option.map_eq_some_iff.mp hw
  obtain ⟨g, t, rfl, h⟩ := (C80_preconditions _ _ _).mp hs
  obtain ⟨x, a, y, rfl, h1, _, h2⟩ := h.member_at _ (Nat.le_refl _) hv
  rcases h2 with ⟨rfl, rfl, h2, _⟩ | h2
  · have e : vs = [v] := by
      have k1 := (C80_preconditions ([] ++ (a ++ [])) _ []).mpr ⟨[], _, by simp, pre_texts.base h⟩
      have k2 := (C80_preconditions ([] ++ (a ++ [])) _ []).mpr ⟨[], _, by simp, h1⟩
      rw [k1] at k2; cases k2; rfl
    subst e
    refine ⟨[], g ++ a, r, by simp, (C80_preconditions _ _ _).mpr ⟨g, a, by simp, ?_⟩, fun b ws hb => ?_⟩
    · simpa using h
    · obtain ⟨g', t', rfl, h'⟩ := (C80_preconditions _ _ _).mp hb
      refine (C80_preconditions _ _ _).mpr ⟨g', t', by simp, ?_⟩
      show PreX g' (PreGD.splice [v] i π ws) t'
      rw [h2]
      exact h'
  · refine ⟨g ++ x, a, y ++ r, by simp only [List.append_assoc],
      (C80_preconditions _ _ _).mpr ⟨[], a, by simp, h1⟩, fun b ws hb => ?_⟩
    obtain ⟨g', t', rfl, h'⟩ := (C80_preconditions _ _ _).mp hb
    refine (C80_preconditions _ _ _).mpr ⟨g, _, ?_, h2 g' t' ws h'.gap (pre_texts.base h')⟩
    simp only [List.append_assoc, List.append_nil]

/-! ## Goals inside preconditions -/

/-- The goal of a condition that is not quantified. -/
def PreGD.goal : PreGD → Option GD
  | .preference (.goal g) => some g
  | .preference (.preference _ g) => some g
  | _ => none

/-- Exchange it. -/
def PreGD.setGoal : PreGD → GD → PreGD
  | .preference (.goal _), w => .preference (.goal w)
  | .preference (.preference n _), w => .preference (.preference n w)
  | v, _ => v

/-- A goal with goals inside it is not written like a preference. -/
theorem GDX.not_preference {v : GD} {t : List Char} (h : GDX v t) {i : Nat} {w : GD} (e : v.child i = some w)
    {x : List Char} (ht : t = paren (c!"preference" ++ x)) : False := by
  cases h with
  | and => cases ht
  | or => cases ht
  | not => cases ht
  | imply => cases ht
  | exist => cases ht
  | forall_ => cases ht
  | atomic => cases e
  | fComp => cases e

theorem GD.put_kind {v : GD} {i : Nat} {w w' : GD} (e : v.child i = some w) :
    (∃ c, (v.put i w').child i = some c) ∧ ((∀ vs, v ≠ .and vs) → ∀ vs, v.put i w' ≠ .and vs) ∧
      ((∀ vs b, v ≠ .forall_ vs b) → ∀ vs b, v.put i w' ≠ .forall_ vs b) := by
  cases v with
  | atomic => cases e
  | fComp => cases e
  | literal => cases e
  | and gs =>
    refine ⟨⟨w', ?_⟩, fun h => absurd rfl (h gs), fun _ _ _ h => (by cases h)⟩
    obtain ⟨hi, _⟩ := List.getElem?_eq_some_iff.mp e
    simp [GD.put, GD.child, hi]
  | or gs =>
    refine ⟨⟨w', ?_⟩, fun _ _ h => (by cases h), fun _ _ _ h => (by cases h)⟩
    obtain ⟨hi, _⟩ := List.getElem?_eq_some_iff.mp e
    simp [GD.put, GD.child, hi]
  | not => match i, e with
    | 0, _ => exact ⟨⟨w', rfl⟩, fun _ _ h => (by cases h), fun _ _ _ h => (by cases h)⟩
  | imply => match i, e with
    | 0, _ => exact ⟨⟨w', rfl⟩, fun _ _ h => (by cases h), fun _ _ _ h => (by cases h)⟩
    | 1, _ => exact ⟨⟨w', rfl⟩, fun _ _ h => (by cases h), fun _ _ _ h => (by cases h)⟩
  | exist => match i, e with
    | 0, _ => exact ⟨⟨w', rfl⟩, fun _ _ h => (by cases h), fun _ _ _ h => (by cases h)⟩
  | forall_ vs b => match i, e with
    | 0, _ => exact ⟨⟨w', rfl⟩, fun _ _ h => (by cases h), fun h => absurd rfl (h vs b)⟩

/-- C94: any goal inside another that is a condition, or the goal of a preference, of a precondition. (A goal that
is itself a condition is covered by `C94_preconditions`.) -/
theorem C94_precondition_goals (i : Nat) (π : List Nat) (k : Nat) (ρ : List Nat) : Local parsePreGd parseGd
    (fun vs => (PreGD.memberAt vs i π).bind fun v => v.goal.bind fun g => g.sub (k :: ρ))
    (fun vs w => match PreGD.memberAt vs i π with
      | some v => match v.goal with
        | some g => PreGD.splice vs i π [v.setGoal (g.replace (k :: ρ) w)]
        | none => vs
      | none => vs) := by
  intro s vs r w hs hw
  simp only at hw ⊢
  obtain ⟨v, hv, hw⟩ := Option.bind_eq_some_iff.mp hw
  obtain ⟨d, hd, hw⟩ := Option.bind_eq_some_iff.mp hw
  simp only [hv, hd]
  obtain ⟨g, t, rfl, h⟩ := (C80_preconditions _ _ _).mp hs
  obtain ⟨x, a, y, rfl, h1, hb, h2⟩ := h.member_at _ (Nat.le_refl _) hv
  -- inside the condition
  have inner : ∃ x' a' y', a = x' ++ (a' ++ y') ∧ GDX w a' ∧ ∀ g' b w', Gap g' → GDX w' b →
      PreX [] [v.setGoal (d.replace (k :: ρ) w')] (x' ++ ((g' ++ b) ++ y')) ∧
        ((∀ p, v = .preference p → PrefLead p g) →
          PreX g [v.setGoal (d.replace (k :: ρ) w')] (x' ++ ((g' ++ b) ++ y'))) := by
    obtain ⟨c, hc, _⟩ := Option.bind_eq_some_iff.mp (show (d.child k).bind (fun c => c.sub ρ) = some w from hw)
    have hrep : ∀ w', d.replace (k :: ρ) w' = d.put k (c.replace ρ w') := fun w' => by rw [GD.replace, hc]
    cases v with
    | forall_ => cases hd
    | preference p =>
      obtain ⟨q1, q2, q3⟩ := hb p rfl
      cases q1 with
      | @named n d' _ q =>
        cases hd
        obtain ⟨g1, tn, g2, z, g3, rfl, e1, e2, e3, e4, e5⟩ := q
        obtain ⟨x', a', y', rfl, m1, m2⟩ := e4.sub_at hw
        refine ⟨'(' :: (c!"preference" ++ (g1 ++ (tn ++ (g2 ++ x')))), a', y' ++ (g3 ++ [')']), ?_, m1,
          fun g' b w' hg' hw' => ?_⟩
        · simp only [paren, List.append_assoc, List.cons_append]
        · have key : PrefGDX (.preference (some n) (d.replace (k :: ρ) w'))
              ('(' :: (c!"preference" ++ (g1 ++ (tn ++ (g2 ++ x')))) ++ ((g' ++ b) ++ (y' ++ (g3 ++ [')'])))) :=
            .named ⟨g1, tn, g2, _, g3, by simp only [paren, List.append_assoc, List.cons_append], e1, e2, e3,
              m2 g' b w' hg' hw', e5⟩
          exact ⟨.other Gap.nil key (fun _ h => by cases h) (fun _ _ h => by cases h),
            fun hl => .other (show Gap g from hl (.preference (some n) d) rfl) key (fun _ h => by cases h) (fun _ _ h => by cases h)⟩
      | @anonymous d' _ q =>
        cases hd
        obtain ⟨g1, z, g3, rfl, e1, e4, e5⟩ := q
        obtain ⟨x', a', y', rfl, m1, m2⟩ := e4.sub_at hw
        refine ⟨'(' :: (c!"preference" ++ (g1 ++ x')), a', y' ++ (g3 ++ [')']), ?_, m1,
          fun g' b w' hg' hw' => ?_⟩
        · simp only [paren, List.append_assoc, List.cons_append]
        · have key : PrefGDX (.preference none (d.replace (k :: ρ) w'))
              ('(' :: (c!"preference" ++ (g1 ++ x')) ++ ((g' ++ b) ++ (y' ++ (g3 ++ [')'])))) :=
            .anonymous ⟨g1, _, g3, by simp only [paren, List.append_assoc, List.cons_append], e1,
              m2 g' b w' hg' hw', e5⟩
          exact ⟨.other Gap.nil key (fun _ h => by cases h) (fun _ _ h => by cases h),
            fun hl => .other (show Gap g from hl (.preference none d) rfl) key (fun _ h => by cases h) (fun _ _ h => by cases h)⟩
      | @goal d' _ q =>
        cases hd
        obtain ⟨x', a', y', rfl, m1, m2⟩ := q.sub_at hw
        refine ⟨x', a', y', rfl, m1, fun g' b w' hg' hw' => ?_⟩
        have m3 := m2 g' b w' hg' hw'
        rw [hrep] at m3 ⊢
        obtain ⟨⟨c', hc'⟩, p2, p3⟩ := GD.put_kind (w' := c.replace ρ w') hc
        have key := PrefGDX.goal m3
          (fun n w ⟨g1, z, g2, z', g3, e, _⟩ => m3.not_preference hc' e)
          (fun w ⟨g1, z, g2, e, _⟩ => m3.not_preference hc' e)
        have n1 : ∀ vs, PrefGD.goal (d.put k (c.replace ρ w')) ≠ .goal (.and vs) := fun vs h =>
          p2 (fun vs h => q2 vs (by rw [h])) vs (PrefGD.goal.inj h)
        have n2 : ∀ vs b, PrefGD.goal (d.put k (c.replace ρ w')) ≠ .goal (.forall_ vs b) := fun vs b h =>
          p3 (fun vs b h => q3 vs b (by rw [h])) vs b (PrefGD.goal.inj h)
        exact ⟨.other (GoalLead.nil _) key n1 n2,
          fun hl => .other (GoalLead.of_child hc (hl _ rfl)) key n1 n2⟩
  obtain ⟨x', a', y', rfl, m1, m2⟩ := inner
  refine ⟨g ++ (x ++ x'), a', y' ++ (y ++ r), by simp only [List.append_assoc],
    (C79_goals _ _ _).mpr ⟨[], a', by simp, .nil _, m1⟩, fun b w' hb => ?_⟩
  obtain ⟨g', t', rfl, hg', h'⟩ := (C79_goals _ _ _).mp hb
  obtain ⟨m3, m4⟩ := m2 g' t' w' hg'.gap h'
  rcases h2 with ⟨rfl, rfl, h2, h3⟩ | h2
  · rw [h2]
    refine (C80_preconditions _ _ _).mpr ⟨g, _, ?_, m4 h3⟩
    simp only [List.append_assoc, List.append_nil, List.nil_append]
  · refine (C80_preconditions _ _ _).mpr ⟨g, _, ?_, h2 [] _ _ .nil m3⟩
    simp only [List.append_assoc, List.append_nil, List.nil_append]

/-! ## Files -/

/-- The precondition of an action that has one. -/
def StructureDef.condition : StructureDef → Option (List PreGD)
  | .action a => if a.precondition = [] then none else some a.precondition
  | _ => none

/-- Exchange it. -/
def StructureDef.setCondition : StructureDef → List PreGD → StructureDef
  | .action a, vs => .action { a with precondition := vs }
  | s, _ => s

/-- The effect of an action that has one. -/
def StructureDef.effect : StructureDef → Option (List CEffect)
  | .action a => a.effect
  | _ => none

/-- Exchange it. -/
def StructureDef.setEffect : StructureDef → List CEffect → StructureDef
  | .action a, es => .action { a with effect := some es }
  | s, _ => s

/-- The goal of a derived predicate. -/
def StructureDef.rule : StructureDef → Option GD
  | .derived d => some d.goal
  | _ => none

/-- Exchange it. -/
def StructureDef.setRule : StructureDef → GD → StructureDef
  | .derived d, g => .derived { d with goal := g }
  | s, _ => s

theorem structure_run {v : StructureDef} {t : List Char} (h : StructureX v t) {g : List Char} (hg : Gap g)
    (r : List Char) : parseStructureDef (g ++ (t ++ r)) = .ok v r :=
  (C84_structures _ _ _).mpr ⟨g, t, rfl, hg, h⟩

theorem pre_reader : Reader parsePreGd (PreX []) where
  inv b v h := by
    obtain ⟨g, t, e, h⟩ := (C80_preconditions _ _ _).mp h
    exact ⟨g, t, by rw [e, List.append_nil], h.gap, pre_texts.base h⟩
  run v t h := (C80_preconditions _ _ _).mpr ⟨[], t, by simp, h⟩

theorem goal_reader : Reader parseGd GDX where
  inv b v h := by
    obtain ⟨g, t, e, hg, h⟩ := (C79_goals _ _ _).mp h
    exact ⟨g, t, by rw [e, List.append_nil], hg.gap, h⟩
  run v t h := (C79_goals _ _ _).mpr ⟨[], t, by simp, .nil _, h⟩

theorem effect_reader : Reader parseEffect (EffX []) where
  inv b v h := by
    obtain ⟨g, t, e, h⟩ := (C81_effect_lists _ _ _).mp h
    exact ⟨g, t, by rw [e, List.append_nil], effect_texts.gap h, effect_texts.base h⟩
  run v t h := (C81_effect_lists _ _ _).mpr ⟨[], t, by simp, h⟩

/-- C94: the precondition of an action. -/
theorem C94_action_precondition :
    Local parseStructureDef parsePreGd StructureDef.condition StructureDef.setCondition := by
  intro s v r vs hs hv
  obtain ⟨g, t, rfl, hg, h⟩ := (C84_structures _ _ _).mp hs
  cases h with
  | derived => cases hv
  | durative => cases hv
  | @action a t h =>
    cases h with
    | @mk g1 n tn g2 g3 xs w pre u1 eff u2 g4 h1 h2 h3 h4 h5 h6 h7 h8 =>
      cases h6 with
      | absent => cases hv
      | @present g5 o u k1 k2 =>
        cases k2 with
        | empty => cases hv
        | @some g6 ws t6 k3 k4 =>
          have e : ws = vs := by
            simp only [StructureDef.condition, Option.join_some, Option.getD_some] at hv
            split at hv
            · cases hv
            · exact Option.some.inj hv
          subst e
          refine ⟨g ++ ('(' :: (c!":action" ++ (g1 ++ (tn ++ (g2 ++ (c!":parameters" ++ (g3 ++ (paren w ++
            (g5 ++ (c!":precondition" ++ g6)))))))))), t6, u2 ++ (g4 ++ (')' :: r)), ?_, pre_reader.run _ _ k4,
            fun b v' hb => ?_⟩
          · simp only [paren, List.append_assoc, List.cons_append, List.nil_append]
          · obtain ⟨g', t', rfl, hg', h'⟩ := pre_reader.inv _ _ hb
            have := structure_run (.action (.mk h1 h2 h3 h4 h5 (.present k1 (.some (k3.append hg') h')) h7 h8)) hg r
            simpa only [StructureDef.setCondition, Option.join_some, Option.getD_some, paren, List.append_assoc,
              List.cons_append, List.nil_append] using this

/-- C94: the effect of an action. -/
theorem C94_action_effect : Local parseStructureDef parseEffect StructureDef.effect StructureDef.setEffect := by
  intro s v r vs hs hv
  obtain ⟨g, t, rfl, hg, h⟩ := (C84_structures _ _ _).mp hs
  cases h with
  | derived => cases hv
  | durative => cases hv
  | @action a t h =>
    cases h with
    | @mk g1 n tn g2 g3 xs w pre u1 eff u2 g4 h1 h2 h3 h4 h5 h6 h7 h8 =>
      cases h7 with
      | absent => cases hv
      | @present g5 o u k1 k2 =>
        cases k2 with
        | empty => cases hv
        | @some g6 ws t6 k3 k4 =>
          cases hv
          refine ⟨g ++ ('(' :: (c!":action" ++ (g1 ++ (tn ++ (g2 ++ (c!":parameters" ++ (g3 ++ (paren w ++
            (u1 ++ (g5 ++ (c!":effect" ++ g6))))))))))), t6, g4 ++ (')' :: r), ?_, effect_reader.run _ _ k4,
            fun b v' hb => ?_⟩
          · simp only [paren, List.append_assoc, List.cons_append, List.nil_append]
          · obtain ⟨g', t', rfl, hg', h'⟩ := effect_reader.inv _ _ hb
            have := structure_run (.action (.mk h1 h2 h3 h4 h5 h6 (.present k1 (.some (k3.append hg') h')) h8)) hg r
            simpa only [StructureDef.setEffect, Option.join_some, paren, List.append_assoc,
              List.cons_append, List.nil_append] using this

/-- C94: the goal of a derived predicate. -/
theorem C94_derived_goal : Local parseStructureDef parseGd StructureDef.rule StructureDef.setRule := by
  intro s v r d hs hv
  obtain ⟨g, t, rfl, hg, h⟩ := (C84_structures _ _ _).mp hs
  cases h with
  | action => cases hv
  | durative => cases hv
  | derived h =>
    cases hv
    obtain ⟨g1, x, g2, y, g3, rfl, h1, h2, h3, h4, h5⟩ := h
    refine ⟨g ++ ('(' :: (c!":derived" ++ (g1 ++ (x ++ g2)))), y, g3 ++ (')' :: r), ?_, goal_reader.run _ _ h4,
      fun b v' hb => ?_⟩
    · simp only [paren, List.append_assoc, List.cons_append, List.nil_append]
    · obtain ⟨g', t', rfl, hg', h'⟩ := goal_reader.inv _ _ hb
      have := structure_run (.derived ⟨g1, x, _, _, g3, rfl, h1, h2, h3.append hg', h', h5⟩) hg r
      simpa only [StructureDef.setRule, paren, List.append_assoc, List.cons_append, List.nil_append] using this

/-- One member of a domain. -/
theorem C94_structures (n : Nat) : Local parseDomain parseStructureDef (fun d => d.structure_[n]?)
    (fun d v => { d with structure_ := d.structure_.set n v }) := by
  intro s d r v hs hv
  obtain ⟨hn, rfl⟩ := List.getElem?_eq_some_iff.mp hv
  obtain ⟨x, a, y, e, h1, h2, _⟩ := C93_structures.edit s d r hs n hn
  exact ⟨x, a, y, e, h1, h2⟩

/-- C94: the goal of a problem. -/
theorem C94_problem_goal : Local parseProblem parsePreGd (fun p => some p.goal) (fun p v => { p with goal := v }) := by
  intro s p r vs hs hv
  cases hv
  obtain ⟨x, u, y, rfl, h1, h2⟩ := C93_problem_sections.2.2.2.1.edit s p r hs
  obtain ⟨g, t, e, hg, g1, z, g2, rfl, k1, k2, k3⟩ := (C80_goal_section _ _ _).mp h1
  rw [List.append_nil] at e
  subst e
  refine ⟨x ++ (g ++ ('(' :: (c!":goal" ++ g1))), z, g2 ++ (')' :: y), ?_, pre_reader.run _ _ k2, fun b v' hb => ?_⟩
  · simp only [paren, List.append_assoc, List.cons_append, List.nil_append]
  · obtain ⟨g', t', rfl, hg', h'⟩ := pre_reader.inv _ _ hb
    have := h2 _ _ ((C80_goal_section _ _ _).mpr ⟨g, paren (c!":goal" ++ ((g1 ++ g') ++ (t' ++ g2))), by rw [List.append_nil],
      hg, _, _, _, rfl, k1.append hg', h', k3⟩)
    simpa only [paren, List.append_assoc, List.cons_append, List.nil_append] using this

/-- C94: any condition of the precondition of any action of a domain. -/
theorem C94_domain_conditions (n i : Nat) (π : List Nat) : Local parseDomain parsePreGd
    (fun d => (d.structure_[n]?.bind StructureDef.condition).bind fun vs => (PreGD.memberAt vs i π).map fun v => [v])
    (through (fun d => d.structure_[n]?.bind StructureDef.condition)
      (through (fun d => d.structure_[n]?) (fun d v => { d with structure_ := d.structure_.set n v })
        StructureDef.setCondition) fun vs ws => PreGD.splice vs i π ws) :=
  ((C94_structures n).comp C94_action_precondition).comp (C94_preconditions i π)

/-- C94: any goal at any depth inside the precondition of any action of a domain. -/
theorem C94_domain_goals (n i : Nat) (π : List Nat) (k : Nat) (ρ : List Nat) : ∃ set : Domain → GD → Domain,
    Local parseDomain parseGd (fun d => (d.structure_[n]?.bind StructureDef.condition).bind fun vs =>
      (PreGD.memberAt vs i π).bind fun v => v.goal.bind fun g => g.sub (k :: ρ)) set ∧
    ∀ d a v g w, d.structure_[n]? = some (.action a) → PreGD.memberAt a.precondition i π = some v → v.goal = some g →
      set d w = { d with structure_ := d.structure_.set n (.action { a with
        precondition := PreGD.splice a.precondition i π [v.setGoal (g.replace (k :: ρ) w)] }) } := by
  refine ⟨_, ((C94_structures n).comp C94_action_precondition).comp (C94_precondition_goals i π k ρ), ?_⟩
  intro d a v g w h1 h2 h3
  have hne : a.precondition ≠ [] := by
    obtain ⟨u, hu, _⟩ := PreGD.memberAt_lt h2
    rintro e
    rw [e] at hu
    cases hu
  simp [through, h1, h2, h3, hne, StructureDef.condition, StructureDef.setCondition]

/-- C94: any goal at any depth inside a derived predicate of a domain. -/
theorem C94_derived_goals (n : Nat) (ρ : List Nat) : ∃ set : Domain → GD → Domain,
    Local parseDomain parseGd (fun d => (d.structure_[n]?.bind StructureDef.rule).bind fun g => g.sub ρ) set ∧
    ∀ d e w, d.structure_[n]? = some (.derived e) →
      set d w = { d with structure_ := d.structure_.set n (.derived { e with goal := e.goal.replace ρ w }) } := by
  refine ⟨_, ((C94_structures n).comp C94_derived_goal).comp (C94_goals ρ), ?_⟩
  intro d e w h1
  simp [through, h1, StructureDef.rule, StructureDef.setRule]

/-- C94: any goal at any depth inside the goal of a problem. -/
theorem C94_problem_goals (i : Nat) (π : List Nat) (k : Nat) (ρ : List Nat) : ∃ set : Problem → GD → Problem,
    Local parseProblem parseGd (fun p => (PreGD.memberAt p.goal i π).bind fun v => v.goal.bind fun g => g.sub (k :: ρ))
      set ∧
    ∀ p v g w, PreGD.memberAt p.goal i π = some v → v.goal = some g →
      set p w = { p with goal := PreGD.splice p.goal i π [v.setGoal (g.replace (k :: ρ) w)] } := by
  refine ⟨_, C94_problem_goal.comp (C94_precondition_goals i π k ρ), ?_⟩
  intro p v g w h1 h2
  simp [through, h1, h2]

/-- The goal under the negation in the second condition of the first action, replaced by a disjunction. -/
example : ∃ d, parseDomain c!"(define (domain d) (:action a :parameters () :precondition (and (p) (not (q)))))" = .ok d [] ∧
    ((d.structure_[0]?.bind StructureDef.condition).bind fun vs =>
      (PreGD.memberAt vs 1 []).bind fun v => v.goal.bind fun g => g.sub [0]) =
        some (.atomic (.predicate (.new c!"q") [])) ∧
    ∃ d', parseDomain c!"(define (domain d) (:action a :parameters () :precondition (and (p) (not (or (q) (r))))))" = .ok d' [] ∧
    ((d'.structure_[0]?.bind StructureDef.condition).bind fun vs =>
      (PreGD.memberAt vs 1 []).bind fun v => v.goal.bind fun g => g.sub [0, 1]) =
        some (.atomic (.predicate (.new c!"r") [])) := ⟨_, rfl, rfl, _, rfl, rfl⟩

/-- A condition replaced by a conjunction becomes several conditions. -/
example : ∃ vs vs', parsePreGd c!"(and (p) (and (q) (r)))" = .ok vs [] ∧
    (PreGD.memberAt vs 1 []).map (fun v => [v]) = some [.preference (.goal (.atomic (.predicate (.new c!"q") [])))] ∧
    parsePreGd c!" (and (s) (t))" = .ok vs' [] ∧
    parsePreGd c!"(and (p) (and  (and (s) (t)) (r)))" = .ok (PreGD.splice vs 1 [] vs') [] ∧
    (PreGD.splice vs 1 [] vs').length = 4 := ⟨_, _, rfl, rfl, rfl, rfl, rfl⟩

/-- A goal that is the whole precondition cannot be replaced as a goal: a conjunction there is split. -/
example : ∃ g g', parseGd c!"(p)" = .ok g [] ∧ parsePreGd c!"(p)" = .ok [.preference (.goal g)] [] ∧
    parseGd c!"(and (p) (q))" = .ok g' [] ∧ ∃ vs, parsePreGd c!"(and (p) (q))" = .ok vs [] ∧
      vs ≠ [.preference (.goal g')] := ⟨_, _, rfl, rfl, rfl, _, rfl, fun h => nomatch h⟩

end Pddl
