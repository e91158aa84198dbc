import Verif.Props.Files
import Verif.Props.DurativeX
import Verif.Meta.ImageCons

/-!
# C67: keywords of constraints and durative actions in another case

Goals and effects in which a keyword is written in capitals silently become atoms
(`Verif/Props/Files.lean`). The parsers of constraints, of durative conditions and of durative effects
have no atoms of their own: they reject every such text.
-/

namespace Pddl

/-- The keywords of trajectory constraints. -/
def constraintWords : List (List Char) :=
  [c!"and", c!"forall", c!"at end", c!"always", c!"sometime", c!"within", c!"at-most-once", c!"sometime-after",
    c!"sometime-before", c!"always-within", c!"hold-during", c!"hold-after", c!"preference"]

/-- The keywords of durative conditions. -/
def daWords : List (List Char) := [c!"and", c!"forall", c!"preference", c!"at", c!"over"]

/-- The keywords of durative effects. -/
def daEffectWords : List (List Char) := [c!"and", c!"forall", c!"when", c!"at", c!"increase", c!"decrease"]

theorem lower_dash {c : Char} (h : c.toLower = '-') : c = '-' := by
  unfold Char.toLower at h
  split at h
  · rename_i hc
    have h1 : c.val + ('a'.val - 'A'.val) = '-'.val := congrArg Char.val h
    have h2 := congrArg UInt32.toNat h1
    have h3 : ('A'.val).toNat ≤ c.val.toNat := hc.1
    have h4 : c.val.toNat ≤ ('Z'.val).toNat := hc.2
    rw [UInt32.toNat_add] at h2
    have e1 : ('a'.val - 'A'.val).toNat = 32 := by decide
    have e2 : ('A'.val).toNat = 65 := by decide
    have e3 : ('Z'.val).toNat = 90 := by decide
    have e4 : ('-'.val).toNat = 45 := by decide
    rw [e1, e4] at h2
    omega
  · exact h

/-- The text begins with one of the keywords; what follows one that is part of another begins with a
parenthesis. -/
def Begins (ks : List (List Char)) (x : List Char) : Prop :=
  ∃ k ∈ ks, ∃ y, x = k ++ y ∧ (k = c!"always" ∨ k = c!"sometime" → ∃ g z, Gap g ∧ y = g ++ '(' :: z)

theorem Recased.not_begins {ks : List (List Char)} (hl : ∀ k ∈ ks, k.map Char.toLower = k)
    (hd : ∀ k ∈ ks, ∀ k' ∈ ks, k <+: k' → k ≠ k' → (k = c!"always" ∨ k = c!"sometime") ∧ (k ++ ['-']) <+: k')
    {kw w : List Char} (hkw : kw ∈ ks) (h : Recased kw w) (x : List Char) : ¬ Begins ks (w ++ x) := by
  rintro ⟨k, hk, y, e, hy⟩
  obtain ⟨hp, hne⟩ := h.prefix (hl k hk) ⟨y, e.symm⟩
  obtain ⟨hs, z, hz⟩ := hd k hk kw hkw hp hne
  obtain ⟨g, u, hg, rfl⟩ := hy hs
  have hlen : k.length < w.length := by
    have := congrArg List.length h.1
    rw [List.length_map, ← hz] at this
    simp at this
    omega
  rcases List.append_eq_append_iff.mp e with ⟨a, rfl, e2⟩ | ⟨a, rfl, e2⟩
  · simp at hlen
    omega
  · have h1 := h.1
    rw [List.map_append, hl k hk, ← hz, List.append_assoc] at h1
    have h1 := List.append_cancel_left h1
    cases a with
    | nil => cases h1
    | cons c a =>
      have hc := lower_dash (List.cons.inj h1).1
      subst hc
      have := hg.skip_solid (solid_open u)
      rw [e2] at this
      cases hg with
      | nil => exact absurd (List.cons.inj e2).1 (by decide)
      | space hc => rw [(List.cons.inj e2).1] at hc; revert hc; decide
      | comment => exact absurd (List.cons.inj e2).1 (by decide)

theorem Con2X.open {v : Con2GD} {t : List Char} (h : Con2X v t) : ∃ z, t = '(' :: z := by
  have hf : Form t := by
    cases h with
    | goal h => exact goal_texts.form (g := []) ⟨.nil _, h⟩
    | nested h => exact con_texts.form (g := []) ⟨.nil, h⟩
  obtain ⟨u, rfl, _⟩ := hf
  exact ⟨_, rfl⟩

theorem ConX.begins {v : ConGD} {t : List Char} (h : ConX v t) (r : List Char) :
    ∃ x, t ++ r = '(' :: x ∧ Begins constraintWords x := by
  have far : ∀ {k : List Char} (y : List Char), k ∈ constraintWords → k ≠ c!"always" → k ≠ c!"sometime" →
      ∃ x, paren (k ++ y) ++ r = '(' :: x ∧ Begins constraintWords x := fun {k} y hk h1 h2 =>
    ⟨(k ++ y) ++ [')'] ++ r, by simp [paren], k, hk, y ++ [')'] ++ r, by simp, fun h => by
      rcases h with h | h
      · exact absurd h h1
      · exact absurd h h2⟩
  have near : ∀ {k g1 x : List Char} {v : Con2GD} (y : List Char), k ∈ constraintWords → Gap g1 → Con2X v x →
      ∃ z, paren (k ++ (g1 ++ (x ++ y))) ++ r = '(' :: z ∧ Begins constraintWords z := fun {k g1 x v} y hk hg hx => by
    obtain ⟨z, rfl⟩ := hx.open
    exact ⟨(k ++ (g1 ++ ('(' :: z ++ y))) ++ [')'] ++ r, by simp [paren], k, hk, _, by
      simp only [List.append_assoc]; rfl, fun _ => ⟨g1, z ++ y ++ [')'] ++ r, hg, by simp⟩⟩
  cases h with
  | always h1 h2 => exact near _ (by decide) h1 h2
  | sometime h1 h2 => exact near _ (by decide) h1 h2
  | _ => exact far _ (by decide) (by decide) (by decide)

theorem constraint_words_lower : ∀ k ∈ constraintWords, k.map Char.toLower = k := by decide

theorem constraint_words_apart : ∀ k ∈ constraintWords, ∀ k' ∈ constraintWords, k <+: k' → k ≠ k' →
    (k = c!"always" ∨ k = c!"sometime") ∧ (k ++ ['-']) <+: k' := by decide

theorem lead_open {g g' x y : List Char} (hg : Gap g) (hg' : Gap g') (e : g ++ '(' :: x = g' ++ '(' :: y) : x = y := by
  have := congrArg skip e
  rw [hg.skip_solid (solid_open x), hg'.skip_solid (solid_open y)] at this
  exact (List.cons.inj this).2

/-- **C67**, constraints: a constraint whose keyword is written in another case is not read, whatever
follows. -/
theorem C67_constraints {g kw w : List Char} (hg : Gap g) (hk : kw ∈ constraintWords) (hw : Recased kw w) (x : List Char)
    (v : ConGD) (r : List Char) : parseConGd (g ++ '(' :: (w ++ x)) ≠ .ok v r := by
  intro h
  obtain ⟨g', t, e, hg', h⟩ := (con_texts.iff _ _ _).1 h
  obtain ⟨y, e1, hb⟩ := h.begins r
  rw [e1] at e
  rw [← lead_open hg hg' e] at hb
  exact hw.not_begins constraint_words_lower constraint_words_apart hk x hb

/-- **C67**, constraints of problems. -/
theorem C67_problem_constraints {g kw w : List Char} (hg : Gap g) (hk : kw ∈ constraintWords) (hw : Recased kw w)
    (x : List Char) (v : List PrefConGD) (r : List Char) : parsePrefConGd (g ++ '(' :: (w ++ x)) ≠ .ok v r := by
  intro h
  obtain ⟨g', t, e, hg', h⟩ := (prefCon_texts.iff _ _ _).1 h
  have : ∃ y, t ++ r = '(' :: y ∧ Begins constraintWords y := by
    have far : ∀ {k : List Char} (y : List Char), k ∈ constraintWords → k ≠ c!"always" → k ≠ c!"sometime" →
        ∃ x, paren (k ++ y) ++ r = '(' :: x ∧ Begins constraintWords x := fun {k} y hk h1 h2 =>
      ⟨(k ++ y) ++ [')'] ++ r, by simp [paren], k, hk, y ++ [')'] ++ r, by simp, fun h => by
        rcases h with h | h
        · exact absurd h h1
        · exact absurd h h2⟩
    cases h with
    | goal h => exact h.begins r
    | named h =>
      obtain ⟨_, _, _, _, _, rfl, _⟩ := h
      exact far _ (by decide) (by decide) (by decide)
    | anonymous h =>
      obtain ⟨_, _, _, rfl, _⟩ := h
      exact far _ (by decide) (by decide) (by decide)
    | _ => exact far _ (by decide) (by decide) (by decide)
  obtain ⟨y, e1, hb⟩ := this
  rw [e1] at e
  rw [← lead_open hg hg' e] at hb
  exact hw.not_begins constraint_words_lower constraint_words_apart hk x hb

example : c!"sometime-after" ∈ constraintWords ∧ Recased c!"sometime-after" c!"sometime-After" ∧
    parseConGd c!"(sometime-after (p) (q))" ≠ .err ∧ parseConGd c!"(sometime-After (p) (q))" = .err :=
  ⟨by decide, (by unfold Recased; decide), (by intro h; cases h), rfl⟩

/-! ## Durative actions -/

/-- The text is a form that begins with one of the keywords, possibly after layout. -/
def HasHead (ks : List (List Char)) (t : List Char) : Prop := ∃ g, Gap g ∧ ∃ k ∈ ks, ∃ y, t = paren (g ++ (k ++ y))

theorem Recased.no_head {ks : List (List Char)} (hl : ∀ k ∈ ks, k.map Char.toLower = k)
    (hd : ∀ k ∈ ks, ∀ k' ∈ ks, k <+: k' → k = k') {kw w : List Char} (hkw : kw ∈ ks) (hword : IsWord w)
    (h : Recased kw w) {g g' t x r : List Char} (hg : Gap g) (hg' : Gap g') (ht : HasHead ks t) :
    g ++ '(' :: (w ++ x) ≠ g' ++ (t ++ r) := by
  obtain ⟨b, hb, k, hk, y, rfl⟩ := ht
  intro e
  have e : w ++ x = b ++ (k ++ y) ++ (')' :: r) := lead_open hg hg' (e.trans (by simp [paren]))
  rw [List.append_assoc] at e
  obtain rfl := gap_word hb hword e.symm
  rw [List.nil_append, List.append_assoc] at e
  obtain ⟨h1, h2⟩ := h.prefix (hl k hk) ⟨_, e.symm⟩
  exact h2 (hd k hk kw hkw h1)

theorem hasHead {ks : List (List Char)} {k : List Char} (hk : k ∈ ks) (y : List Char) : HasHead ks (paren (k ++ y)) :=
  ⟨[], .nil, k, hk, y, rfl⟩

theorem TimedGDX.hasHead {v : TimedGD} {t : List Char} (h : TimedGDX v t) : HasHead daWords t := by
  cases h with
  | «at» h =>
    obtain ⟨_, _, _, _, _, rfl, _⟩ := h
    exact Pddl.hasHead (by decide) _
  | over h =>
    obtain ⟨_, _, _, _, _, rfl, _⟩ := h
    exact Pddl.hasHead (by decide) _

theorem DaGDX.hasHead {v : DaGD} {t : List Char} (h : DaGDX v t) : HasHead daWords t := by
  cases h with
  | timed h =>
    cases h with
    | named h =>
      obtain ⟨_, _, _, _, _, rfl, _⟩ := h
      exact Pddl.hasHead (by decide) _
    | anonymous h =>
      obtain ⟨_, _, _, rfl, _⟩ := h
      exact Pddl.hasHead (by decide) _
    | required h => exact h.hasHead
  | _ => exact Pddl.hasHead (by decide) _

/-- **C67**, durative conditions: one whose keyword is written in another case is not read. -/
theorem C67_durative_conditions {g kw w : List Char} (hg : Gap g) (hk : kw ∈ daWords) (hword : IsWord w)
    (hw : Recased kw w) (x : List Char) (v : DaGD) (r : List Char) : parseDaGd (g ++ '(' :: (w ++ x)) ≠ .ok v r := by
  intro h
  obtain ⟨g', t, e, hg', h⟩ := (daGd_texts.iff _ _ _).1 h
  exact hw.no_head (by decide) (by decide) hk hword hg hg' h.hasHead e

theorem TimedEffX.hasHead {g : List Char} {v : TimedEffect} {t : List Char} (h : TimedEffX g v t) :
    HasHead daEffectWords t := by
  cases h with
  | assign _ h =>
    obtain ⟨_, _, _, _, _, rfl, _⟩ := h
    exact Pddl.hasHead (by decide) _
  | conditional _ h =>
    obtain ⟨_, _, _, _, _, rfl, _⟩ := h
    exact Pddl.hasHead (by decide) _
  | @continuous op _ _ _ _ h =>
    cases h with
    | @mk g _ _ b1 g1 _ t1 b2 g2 _ t2 h1 h2 =>
      refine ⟨g, h1, op.spell, ?_, b1 ++ (g1 ++ (t1 ++ (b2 ++ (g2 ++ t2)))), by rw [h2]⟩
      cases op <;> decide

theorem DaEffX.hasHead {g : List Char} {v : DaEffect} {t : List Char} (h : DaEffX g v t) :
    HasHead daEffectWords t := by
  cases h with
  | timed h => exact h.hasHead
  | when _ h =>
    obtain ⟨_, _, _, _, _, rfl, _⟩ := h
    exact Pddl.hasHead (by decide) _
  | _ => exact Pddl.hasHead (by decide) _

/-- **C67**, durative effects: one whose keyword is written in another case is not read. -/
theorem C67_durative_effects {g kw w : List Char} (hg : Gap g) (hk : kw ∈ daEffectWords) (hword : IsWord w)
    (hw : Recased kw w) (x : List Char) (v : DaEffect) (r : List Char) :
    parseDaEffect (g ++ '(' :: (w ++ x)) ≠ .ok v r := by
  intro h
  obtain ⟨g', t, e, h⟩ := (daEffect_texts.iff _ _ _).1 h
  exact hw.no_head (by decide) (by decide) hk hword hg (daEffect_texts.gap h) h.hasHead e

example : c!"at" ∈ daEffectWords ∧ IsWord c!"At" ∧ Recased c!"at" c!"At" ∧
    parseDaEffect c!"(at end (p))" ≠ .err ∧ parseDaEffect c!"(At end (p))" = .err :=
  ⟨by decide, isWord_of _ _ (by decide) (by decide), (by unfold Recased; decide), (by intro h; cases h), rfl⟩

/-! ## Words that are no heads of forms -/

theorem Recased.alt_err {ks : List (List Char)} {kw w : List Char} (hl : ∀ k ∈ ks, k.map Char.toLower = k)
    (hd : ∀ k ∈ ks, ∀ k' ∈ ks, k <+: k' → k = k') (hk : kw ∈ ks) (h : Recased kw w) (x : List Char) :
    ∀ ts : List (List Char), (∀ k ∈ ts, k ∈ ks) → alt (ts.map tag) (w ++ x) = .err
  | [], _ => rfl
  | k :: ts, hts => by
    have hm := hts k (List.mem_cons_self ..)
    have h1 : tag k (w ++ x) = .err := by
      unfold tag
      cases hs : stripPrefix k (w ++ x) with
      | none => rfl
      | some y =>
        obtain ⟨h1, h2⟩ := h.prefix (hl k hm) ⟨y, (Good.stripPrefix_eq hs).symm⟩
        exact absurd (hd k hm kw hk h1) h2
    simp only [List.map_cons, alt, h1]
    exact h.alt_err hl hd hk x ts fun k hk => hts k (List.mem_cons_of_mem _ hk)

/-- **C67**: requirements, the directions of a metric, points in time, intervals and assignment operators
are not read in another case. -/
theorem C67_words {kw w : List Char} (hw : Recased kw w) (x : List Char) :
    (kw ∈ requireTags → parseRequireKey (w ++ x) = .err) ∧
    (kw ∈ [c!"minimize", c!"maximize"] → parseOptimization (w ++ x) = .err) ∧
    (kw ∈ [c!"start", c!"end"] → parseTimeSpecifier (w ++ x) = .err) ∧
    (kw = c!"all" → parseInterval (w ++ x) = .err) ∧
    (kw ∈ [c!"change", c!"assign", c!"scale-up", c!"scale-down", c!"increase", c!"decrease"] →
      parseAssignOp (w ++ x) = .err) ∧
    (kw ∈ [c!"increase", c!"decrease"] → parseAssignOpT (w ++ x) = .err) := by
  have key : ∀ {α : Type} (f : List Char → Option α) (ks : List (List Char)), (∀ k ∈ ks, k.map Char.toLower = k) →
      (∀ k ∈ ks, ∀ k' ∈ ks, k <+: k' → k = k') → kw ∈ ks → mapExpect f (alt (ks.map tag)) (w ++ x) = .err := by
    intro α f ks hl hd hk
    unfold mapExpect
    rw [hw.alt_err hl hd hk x ks fun _ h => h]
    rfl
  refine ⟨fun h => key _ requireTags (by decide) (by decide) h, fun h => key _ _ (by decide) (by decide) h,
    fun h => key _ _ (by decide) (by decide) h, fun h => ?_, fun h => key _ _ (by decide) (by decide) h,
    fun h => key _ _ (by decide) (by decide) h⟩
  subst h
  unfold parseInterval mapExpect tag
  rw [hw.strip (by decide) x]
  rfl

example : Recased c!":typing" c!":Typing" ∧ c!":typing" ∈ requireTags ∧
    Recased c!"minimize" c!"MINIMIZE" := by unfold Recased; decide

end Pddl
