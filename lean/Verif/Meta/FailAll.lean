import Verif.Meta.Fail

/-!
# Meta-theory: what every parser does with a malformed type
-/

namespace Pddl

/-- Alternatives that begin with another keyword. -/
local macro "missing " h:term : tactic =>
  `(tactic| repeat rw [alt_miss (map_err (Hd.miss $h fun _ => rfl))])

/-- The text begins with `(` and one of the keywords. -/
def Heads (kws : List (List Char)) (s : List Char) : Prop := ∃ kw ∈ kws, Hd kw s

theorem Heads.miss {kws : List (List Char)} {kw s : List Char} {p : P α} (h : Heads kws s)
    (hk : kws.all (differ kw) = true) : prefixExpr kw p s = .err := by
  obtain ⟨kw', hm, h⟩ := h
  exact h.miss (stripPrefix_differ (List.all_eq_true.mp hk _ hm))

theorem Heads.solid {kws : List (List Char)} {s : List Char} (h : Heads kws s) : Solid s := by
  obtain ⟨_, _, h⟩ := h
  exact h.solid

theorem Heads.open {kws : List (List Char)} {s : List Char} (h : Heads kws s) : ∃ y, s = '(' :: y := by
  obtain ⟨_, _, x, h⟩ := h
  exact ⟨_, h⟩

theorem Heads.pos {kws : List (List Char)} {s : List Char} (h : Heads kws s) : 0 < s.length := by
  obtain ⟨_, rfl⟩ := h.open
  simp

theorem NotHead.miss {kw s : List Char} {p : P α} (h : NotHead ('(' :: kw) s) (hs : ∃ y, s = '(' :: y) :
    prefixExpr kw p s = .err := by
  obtain ⟨y, rfl⟩ := hs
  refine prefixExpr_kw ?_
  cases hx : stripPrefix kw y with
  | none => rfl
  | some z =>
    rw [Good.stripPrefix_eq hx] at h
    exact absurd rfl (h z)

/-! ## Goals -/

theorem BadGD.heads {s : List Char} (h : BadGD s) :
    Heads [c!"and", c!"or", c!"not", c!"imply", c!"exists", c!"forall"] s := by
  cases h with
  | and h | or h | not h | implyLeft h | implyRight h | exist h | forall_ h =>
    exact ⟨_, by simp, h.hd⟩

/-- A malformed form in the place of an optional name and a form after spaces. -/
theorem anonymous_miss {kw s : List Char} {B : List Char → Prop} {p : P α} (h : In1 kw B s)
    (hB : ∀ s, B s → ∃ y, s = '(' :: y) :
    prefixExpr kw (pair (opt parsePrefName) (preceded multispace1 p)) s = .err ∧
      prefixExpr kw (pair parsePrefName (preceded multispace1 p)) s = .err := by
  cases h with
  | @mk g s hg h =>
    obtain ⟨y, rfl⟩ := hB _ h
    refine ⟨prefixExpr_body_err ?_, prefixExpr_body_err ?_⟩
    · rw [hg.skip_solid (solid_open _)]
      have : opt parsePrefName ('(' :: y) = .ok none ('(' :: y) := opt_err (parseName_open _)
      exact pair_err2 this (preceded_err (ms1_solid (solid_open _)))
    · rw [hg.skip_solid (solid_open _)]
      exact pair_err (parseName_open _)

theorem BadPrefGD.heads {s : List Char} (h : BadPrefGD s) :
    Heads [c!"and", c!"or", c!"not", c!"imply", c!"exists", c!"forall", c!"preference"] s := by
  cases h with
  | goal h =>
    obtain ⟨kw, hm, h⟩ := h.heads
    exact ⟨kw, List.mem_append_left [c!"preference"] hm, h⟩
  | named h | anonymous h => exact ⟨_, by simp, h.hd⟩

theorem BadPrefGD.fails {s : List Char} (h : BadPrefGD s) : Fails parsePrefGd s := by
  refine ⟨h.heads.solid, ?_⟩
  rw [parsePrefGd]
  cases h with
  | goal h =>
    rw [alt_miss (map_err (h.heads.miss (by decide))), alt_miss (map_err (h.heads.miss (by decide)))]
    exact alt_fail (map_fail h.fails.2)
  | named h =>
    exact alt_fail (map_fail (h.fail (p := opt parsePrefName) (fun _ h => h.gap)
      (fun _ _ h => ⟨_, opt_name h, h.solid⟩) parseGd_ct fun _ _ h => h.fails))
  | anonymous h =>
    rw [alt_miss (map_err (anonymous_miss h fun _ h => h.heads.open).1)]
    exact alt_fail (map_fail (h.fail fun _ _ h => h.fails))

theorem BadPreGD.heads {s : List Char} (h : BadPreGD s) :
    Heads [c!"and", c!"or", c!"not", c!"imply", c!"exists", c!"forall", c!"preference"] s := by
  cases h with
  | pref h => exact h.heads
  | and h | forall_ h => exact ⟨_, by simp, h.hd⟩

theorem parsePreGd_bad (n : Nat) : ∀ s, s.length ≤ n → BadPreGD s → Fails parsePreGd s := by
  induction n with
  | zero =>
    intro s hn h
    have := h.heads.pos
    omega
  | succ n ih =>
    intro s hn h
    have ih' : FailsIn BadPreGD parsePreGd s := fun s' hl => ih s' (by omega)
    refine ⟨h.heads.solid, ?_⟩
    rw [parsePreGd_eq, preGdBody]
    cases h with
    | forall_ h => exact alt_fail (map_fail (h.fail parsePreGd_ct ih'))
    | and h =>
      missing h.hd
      exact alt_fail (map_fail (h.fail (fun _ _ h => h.elem) ih').1)
    | pref h h1 h2 =>
      rw [alt_miss (map_err (h2.miss h.heads.open)), alt_miss (map_err (h1.miss h.heads.open))]
      exact alt_fail (map_fail h.fails.2)

theorem BadPreGD.fails {s : List Char} (h : BadPreGD s) : Fails parsePreGd s :=
  parsePreGd_bad _ s (Nat.le_refl _) h

/-! ## Trajectory constraints -/

theorem NoGoal.outcome {s : List Char} (h : NoGoal s) (hc : Calm s) :
    parseGd s = .err ∨ parseGd s = .fail := by
  have h3 := (parseGd_good (L := s.length + 1) s (by omega)).2
  cases hp : parseGd s with
  | ok v r =>
    obtain ⟨g, u, rfl, hg, hu⟩ := parseGd_snd _ _ _ hp trivial
    exact absurd rfl (h g v u r hg hu)
  | err => exact .inl rfl
  | fail => exact .inr rfl
  | panic => rw [hp] at h3; exact absurd hc h3
  | oof => rw [hp] at h3; exact h3.elim

theorem con2_bad {s : List Char} {self : P ConGD} (h : BadCon2 s)
    (hs : BadCon s → Fails self s) : Fails (con2Of self) s := by
  cases h with
  | goal h => exact ⟨h.fails.1, alt_fail (map_fail h.fails.2)⟩
  | nested h h1 h2 =>
    refine ⟨(hs h).1, ?_⟩
    rcases h1.outcome h2 with hg | hg
    · rw [con2Of, alt_miss (map_err hg)]
      exact alt_fail (map_fail (hs h).2)
    · exact alt_fail (map_fail hg)

/-- Words that begin a constraint. -/
abbrev conWords : List (List Char) :=
  [c!"and", c!"forall", c!"at end", c!"always", c!"sometime", c!"within", c!"at-most-once",
    c!"sometime-after", c!"sometime-before", c!"always-within", c!"hold-during", c!"hold-after"]

theorem BadCon.heads {s : List Char} (h : BadCon s) : Heads conWords s := by
  cases h with
  | and h | forall_ h | atEnd h | always h | sometime h | within h | atMostOnce h | afterLeft h
  | afterRight h | beforeLeft h | beforeRight h | alwaysWithinLeft h | alwaysWithinRight h
  | holdDuring h | holdAfter h => exact ⟨_, by simp, h.hd⟩

theorem parseConGd_bad (n : Nat) : ∀ s, s.length ≤ n → BadCon s → Fails parseConGd s := by
  induction n with
  | zero =>
    intro s hn h
    have := h.heads.pos
    omega
  | succ n ih =>
    intro s hn h
    have ih' : FailsIn BadCon parseConGd s := fun s' hl => ih s' (by omega)
    have ih2 : FailsIn BadCon2 (con2Of parseConGd) s := fun s' hl h => con2_bad h (ih s' (by omega))
    have c2 : Ct (con2Of parseConGd) := .con2Of parseConGd_ct
    have p2 : Par (con2Of parseConGd) := .con2Of parseConGd_par
    refine ⟨h.heads.solid, ?_⟩
    rw [parseConGd_eq, conGdBody]
    cases h with
    | and h => exact alt_fail (map_fail (h.fail (fun _ _ h => h.elem) ih').1)
    | forall_ h =>
      missing h.hd
      exact alt_fail (map_fail (h.fail parseConGd_ct ih'))
    | atEnd h =>
      missing h.hd
      exact alt_fail (map_fail (h.fail fun _ _ h => h.fails))
    | always h =>
      missing h.hd
      exact alt_fail (map_fail (h.fail ih2))
    | sometime h =>
      missing h.hd
      exact alt_fail (map_fail (h.fail ih2))
    | within h =>
      missing h.hd
      exact alt_fail (map_fail (h.fail (fun _ h => h.gap) (fun _ _ h => ⟨_, h.elem⟩) c2 ih2))
    | atMostOnce h =>
      missing h.hd
      exact alt_fail (map_fail (h.fail ih2))
    | afterLeft h =>
      missing h.hd
      rw [alt_miss (map_err (h.hd.longer p2 (fun _ => rfl) (by decide)))]
      missing h.hd
      exact alt_fail (map_fail (h.fail_pair ih2))
    | afterRight h =>
      missing h.hd
      rw [alt_miss (map_err (h.hd.longer p2 (fun _ => rfl) (by decide)))]
      missing h.hd
      exact alt_fail (map_fail (h.fail (fun _ h => h) (fun _ _ h => ⟨_, h.elem⟩) c2 ih2))
    | beforeLeft h =>
      missing h.hd
      rw [alt_miss (map_err (h.hd.longer p2 (fun _ => rfl) (by decide)))]
      missing h.hd
      exact alt_fail (map_fail (h.fail_pair ih2))
    | beforeRight h =>
      missing h.hd
      rw [alt_miss (map_err (h.hd.longer p2 (fun _ => rfl) (by decide)))]
      missing h.hd
      exact alt_fail (map_fail (h.fail (fun _ h => h) (fun _ _ h => ⟨_, h.elem⟩) c2 ih2))
    | alwaysWithinLeft h =>
      missing h.hd
      rw [alt_miss (map_err (h.hd.longer p2 (fun _ => rfl) (by decide)))]
      missing h.hd
      exact alt_fail (map_fail (h.fail_pair (fun _ h => h.gap) (fun _ _ h => h.elem) c2 ih2))
    | alwaysWithinRight h =>
      missing h.hd
      rw [alt_miss (map_err (h.hd.longer p2 (fun _ => rfl) (by decide)))]
      missing h.hd
      exact alt_fail (map_fail (h.fail (fun _ h => h) (fun _ _ h => h.elem) (fun _ _ h => h.elem)
        (fun _ _ => .inl c2) c2 ih2))
    | holdDuring h =>
      missing h.hd
      exact alt_fail (map_fail (h.fail (fun _ h => h.sep) (fun _ _ h => h.elem) (fun _ _ h => h.elem)
        (fun _ h => .inr h) c2 ih2))
    | holdAfter h =>
      missing h.hd
      exact alt_fail (map_fail (h.fail (fun _ h => h.gap) (fun _ _ h => ⟨_, h.elem⟩) c2 ih2))

theorem BadCon.fails {s : List Char} (h : BadCon s) : Fails parseConGd s :=
  parseConGd_bad _ s (Nat.le_refl _) h

theorem BadPrefCon.heads {s : List Char} (h : BadPrefCon s) : Heads (c!"preference" :: conWords) s := by
  cases h with
  | and h | forall_ h | named h | anonymous h => exact ⟨_, by simp, h.hd⟩
  | goal h =>
    obtain ⟨kw, hm, h⟩ := h.heads
    exact ⟨kw, List.mem_cons_of_mem _ hm, h⟩

theorem parsePrefConGd_bad (n : Nat) :
    ∀ s, s.length ≤ n → BadPrefCon s → Fails parsePrefConGd s := by
  induction n with
  | zero =>
    intro s hn h
    have := h.heads.pos
    omega
  | succ n ih =>
    intro s hn h
    have ih' : FailsIn BadPrefCon parsePrefConGd s := fun s' hl => ih s' (by omega)
    refine ⟨h.heads.solid, ?_⟩
    rw [parsePrefConGd_eq, prefConGdBody]
    cases h with
    | and h => exact alt_fail (map_fail (h.fail (fun _ _ h => h.elem) ih').1)
    | forall_ h =>
      missing h.hd
      exact alt_fail (map_fail (h.fail parsePrefConGd_ct ih'))
    | named h =>
      missing h.hd
      exact alt_fail (map_fail (h.fail (p := parsePrefName) (fun _ h => h.gap)
        (fun _ _ h => ⟨_, h.elem⟩) parseConGd_ct fun _ _ h => h.fails))
    | anonymous h =>
      missing h.hd
      rw [alt_miss (map_err (anonymous_miss h fun _ h => h.heads.open).2)]
      exact alt_fail (map_fail (h.fail fun _ _ h => h.fails))
    | goal h h1 h2 =>
      rw [alt_miss (map_err (h1.miss h.heads.open)), alt_miss (map_err (h2.miss h.heads.open)),
        alt_miss (map_err (h.heads.miss (by decide))), alt_miss (map_err (h.heads.miss (by decide)))]
      exact alt_fail (map_fail h.fails.2)

theorem BadPrefCon.fails {s : List Char} (h : BadPrefCon s) : Fails parsePrefConGd s :=
  parsePrefConGd_bad _ s (Nat.le_refl _) h

/-! ## Effects -/

theorem BadCEffect.heads {s : List Char} (h : BadCEffect s) : Heads [c!"forall", c!"when"] s := by
  cases h with
  | forall_ h | when h => exact ⟨_, by simp, h.hd⟩

theorem BadEffect.heads {s : List Char} (h : BadEffect s) :
    Heads [c!"and", c!"forall", c!"when"] s := by
  cases h with
  | single h =>
    obtain ⟨kw, hm, h⟩ := h.heads
    exact ⟨kw, List.mem_cons_of_mem _ hm, h⟩
  | all h => exact ⟨_, by simp, h.hd⟩

theorem effectOf_bad {s : List Char} {self : P CEffect} (h : BadEffect s)
    (hR : ∀ e t, CEffectW .strict e t → Elem self e t)
    (hs : ∀ s', s'.length ≤ s.length → BadCEffect s' → Fails self s') : Fails (effectOf self) s := by
  refine ⟨h.heads.solid, ?_⟩
  rw [effectOf]
  cases h with
  | single h =>
    rw [alt_miss (h.heads.miss (by decide))]
    exact alt_fail (map_fail (hs s (Nat.le_refl _) h).2)
  | all h => exact alt_fail (h.fail hR fun s' hl => hs s' (Nat.le_of_lt hl)).1

theorem parseCEffect_bad (n : Nat) : ∀ s, s.length ≤ n → BadCEffect s → Fails parseCEffect s := by
  induction n with
  | zero =>
    intro s hn h
    have := h.heads.pos
    omega
  | succ n ih =>
    intro s hn h
    refine ⟨h.heads.solid, ?_⟩
    rw [parseCEffect_eq, cEffectBody, forallCEffectOf]
    cases h with
    | forall_ h =>
      refine alt_fail (map_fail (h.fail (.effectOf parseCEffect_ct) fun s' hl hb =>
        effectOf_bad hb (fun _ _ h => h.elem) fun s'' hl' => ih s'' (by omega)))
    | when h =>
      rw [alt_miss (map_err (Hd.miss (kw := c!"forall") h.hd fun _ => rfl))]
      exact alt_fail (map_fail (h.fail_pair fun _ _ h => h.fails))

theorem BadCEffect.fails {s : List Char} (h : BadCEffect s) : Fails parseCEffect s :=
  parseCEffect_bad _ s (Nat.le_refl _) h

theorem BadEffect.fails {s : List Char} (h : BadEffect s) : Fails parseEffect s :=
  effectOf_bad h (fun _ _ h => h.elem) fun _ _ h => h.fails

/-! ## Durative conditions and effects -/

theorem BadTimedGD.heads {s : List Char} (h : BadTimedGD s) : Heads [c!"at", c!"over"] s := by
  cases h with
  | «at» h | over h => exact ⟨_, by simp, h.hd⟩

theorem BadTimedGD.fails {s : List Char} (h : BadTimedGD s) : Fails parseTimedGd s := by
  refine ⟨h.heads.solid, ?_⟩
  rw [parseTimedGd]
  cases h with
  | «at» h =>
    exact alt_fail (map_fail (h.fail (fun _ h => h.gap) (fun ts _ h => ⟨ts, h ▸ ts.elem⟩) parseGd_ct
      fun _ _ h => h.fails))
  | over h =>
    missing h.hd
    exact alt_fail (map_fail (h.fail (fun _ h => h.gap) (fun ts _ h => ⟨ts, h ▸ ts.elem⟩) parseGd_ct
      fun _ _ h => h.fails))

theorem BadPrefTimedGD.heads {s : List Char} (h : BadPrefTimedGD s) :
    Heads [c!"preference", c!"at", c!"over"] s := by
  cases h with
  | required h =>
    obtain ⟨kw, hm, h⟩ := h.heads
    exact ⟨kw, List.mem_cons_of_mem _ hm, h⟩
  | named h | anonymous h => exact ⟨_, by simp, h.hd⟩

theorem BadPrefTimedGD.fails {s : List Char} (h : BadPrefTimedGD s) : Fails parsePrefTimedGd s := by
  refine ⟨h.heads.solid, ?_⟩
  rw [parsePrefTimedGd]
  cases h with
  | required h =>
    rw [alt_miss (map_err (h.heads.miss (by decide)))]
    exact alt_fail (map_fail h.fails.2)
  | named h =>
    cases h with
    | @mk g1 n tn g2 s hg1 hn hg2 h =>
      refine alt_fail (map_fail (prefixExpr_fail ?_))
      rw [hg1.gap.skip_solid (hn.solid.append _)]
      have hk := hg2.gap.skip_solid h.fails.1
      obtain ⟨c, g2', rfl, hc⟩ := sep_head hg2
      refine pair_fail2 (a := some n) (r := (g2' ++ s).dropWhile isSpace) (opt_run ?_) ?_
      · exact terminated_run (hn.acc _ (.sep hg2 _)) (multispace1_cons hc _)
      · rw [List.cons_append, skip, List.dropWhile_cons, if_pos (isBlank_space hc)] at hk
        rw [← parseTimedGd_ct, hk]
        exact h.fails.2
  | anonymous h =>
    cases h with
    | @mk g s hg h =>
      refine alt_fail (map_fail (prefixExpr_fail ?_))
      rw [hg.skip_solid h.heads.solid]
      refine pair_fail2 (r := s) (opt_err ?_) h.fails.2
      obtain ⟨y, rfl⟩ := h.heads.open
      exact terminated_err (parseName_open _)

theorem BadDaGD.heads {s : List Char} (h : BadDaGD s) :
    Heads [c!"forall", c!"and", c!"preference", c!"at", c!"over"] s := by
  cases h with
  | timed h =>
    obtain ⟨kw, hm, h⟩ := h.heads
    exact ⟨kw, List.mem_cons_of_mem _ (List.mem_cons_of_mem _ hm), h⟩
  | forall_ h | and h => exact ⟨_, by simp, h.hd⟩

theorem parseDaGd_bad (n : Nat) : ∀ s, s.length ≤ n → BadDaGD s → Fails parseDaGd s := by
  induction n with
  | zero =>
    intro s hn h
    have := h.heads.pos
    omega
  | succ n ih =>
    intro s hn h
    have ih' : FailsIn BadDaGD parseDaGd s := fun s' hl => ih s' (by omega)
    refine ⟨h.heads.solid, ?_⟩
    rw [parseDaGd_eq, daGdBody]
    cases h with
    | forall_ h => exact alt_fail (map_fail (h.fail parseDaGd_ct ih'))
    | and h =>
      missing h.hd
      exact alt_fail (map_fail (h.fail (fun _ _ h => h.full.elem) ih').1)
    | timed h =>
      rw [alt_miss (map_err (h.heads.miss (by decide))), alt_miss (map_err (h.heads.miss (by decide)))]
      exact alt_fail (map_fail h.fails.2)

theorem BadDaGD.fails {s : List Char} (h : BadDaGD s) : Fails parseDaGd s :=
  parseDaGd_bad _ s (Nat.le_refl _) h

theorem BadDaEffect.heads {s : List Char} (h : BadDaEffect s) :
    Heads [c!"and", c!"forall", c!"when"] s := by
  cases h with
  | all h | forall_ h | when h => exact ⟨_, by simp, h.hd⟩

theorem parseDaEffect_bad (n : Nat) : ∀ s, s.length ≤ n → BadDaEffect s → Fails parseDaEffect s := by
  induction n with
  | zero =>
    intro s hn h
    have := h.heads.pos
    omega
  | succ n ih =>
    intro s hn h
    have ih' : FailsIn BadDaEffect parseDaEffect s := fun s' hl => ih s' (by omega)
    refine ⟨h.heads.solid, ?_⟩
    rw [parseDaEffect_eq, daEffectBody]
    cases h with
    | all h => exact alt_fail (map_fail (h.fail (fun _ _ h => h.full.elem) ih').1)
    | forall_ h =>
      missing h.hd
      exact alt_fail (map_fail (h.fail parseDaEffect_ct ih'))
    | when h =>
      missing h.hd
      exact alt_fail (map_fail (h.fail_pair fun _ _ h => h.fails))

theorem BadDaEffect.fails {s : List Char} (h : BadDaEffect s) : Fails parseDaEffect s :=
  parseDaEffect_bad _ s (Nat.le_refl _) h

/-! ## Actions, derived predicates -/

theorem BadDerived.hd {s : List Char} (h : BadDerived s) : Hd c!":derived" s := by
  cases h with
  | head h | body h => exact h.hd

theorem BadDerived.fails {s : List Char} (h : BadDerived s) : Fails parseDerivedPredicate s := by
  refine ⟨h.hd.solid, ?_⟩
  cases h with
  | head h => exact map_fail (h.fail_pair fun _ _ h => h.fails)
  | body h =>
    exact map_fail (h.fail (fun _ h => h) (fun _ _ h => ⟨_, h.elem⟩) parseGd_ct fun _ _ h => h.fails)

theorem parameters_fail {g1 g2 s : List Char} (hg1 : Sp g1) (hg2 : Sep g2) (h : BadVars s) :
    preceded multispace1 parseParameters (g1 ++ (c!":parameters" ++ (g2 ++ s))) = .fail := by
  rw [pms1_sp hg1 (solidK.append _), parseParameters,
    preceded_run (tag_ok c!":parameters" _), pms1_sep parseVarList_ct hg2 h.fails.1]
  exact h.fails.2

/-- After spaces, an alternative `()` in front does not matter for a text on which `p` fails. -/
theorem emptyOr_fail {p : P α} (hc : Ct p) (he : RejE p) {g s : List Char} (hg : Sep g)
    (h : Fails p s) : preceded multispace1 (emptyOr p) (g ++ s) = .fail := by
  have hk := hg.gap.skip_solid h.1
  obtain ⟨c, g', rfl, hcs⟩ := sep_head hg
  rw [List.cons_append] at hk ⊢
  rw [preceded_run (multispace1_cons hcs _)]
  rw [skip, List.dropWhile_cons, if_pos (isBlank_space hcs)] at hk
  generalize (g' ++ s).dropWhile isSpace = x at hk
  have h := h.2
  have ht : tag c!"()" x = .err := by
    rcases skipC_cases x with h1 | ⟨y, rfl⟩
    · rw [h1] at hk
      subst hk
      cases hx : stripPrefix c!"()" x with
      | none => exact tag_err hx
      | some y =>
        rw [Good.stripPrefix_eq hx] at h
        have := he y
        rw [show c!"()" ++ y = '(' :: ')' :: y from rfl, this] at h
        cases h
    · exact tag_err (stripPrefix_head (by decide))
  rw [emptyOr, alt_miss (map_err ht)]
  refine alt_fail (map_fail ?_)
  rw [← hc, hk, h]

theorem slot_fail {kw : List Char} {p : P α} (hc : Ct p) (he : RejE p) {g g' s : List Char} (hg : Gap g)
    (hkw : Solid kw) (hg' : Sep g') (h : Fails p s) : slotP kw p (g ++ (kw ++ (g' ++ s))) = .fail := by
  rw [slotP, ws_eq, hg.skip_solid (hkw.append _), preceded_run (tag_ok kw _)]
  exact emptyOr_fail hc he hg' h

theorem BadAction.hd {s : List Char} (h : BadAction s) : Hd c!":action" s := by
  cases h <;> exact ⟨_, rfl⟩

theorem BadAction.fails {s : List Char} (h : BadAction s) : Fails parseActionDef s := by
  refine ⟨h.hd.solid, ?_⟩
  cases h with
  | parameters hg1 hn hg2 hg3 h =>
    refine map_fail (prefixExpr_fail ?_)
    rw [hg1.gap.skip_solid (hn.solid.append _)]
    exact pair_fail2 (hn.acc _ (.sp hg2 _)) (pair_fail (parameters_fail hg2 hg3 h))
  | @precondition g1 n tn g2 g3 vs tv g4 g5 s hg1 hn hg2 hg3 hv hg4 hg5 h =>
    refine map_fail (prefixExpr_fail ?_)
    rw [hg1.gap.skip_solid (hn.solid.append _)]
    refine pair_fail2 (hn.acc _ (.sp hg2 _)) (pair_fail2 (parameters_run hg2 hg3 hv) ?_)
    rw [ws_eq]
    refine pair_fail (opt_fail ?_)
    refine (slotP_skip _).trans ?_
    exact slot_fail parsePreGd_ct parsePreGd_rejE hg4 solidK hg5 h.fails
  | @effect g1 n tn g2 g3 vs tv pre u g4 g5 s hg1 hn hg2 hg3 hv hpre hg4 hg5 h =>
    refine map_fail (prefixExpr_fail ?_)
    rw [hg1.gap.skip_solid (hn.solid.append _)]
    refine pair_fail2 (hn.acc _ (.sp hg2 _)) (pair_fail2 (parameters_run hg2 hg3 hv) ?_)
    rw [ws_eq]
    have hf := slot_fail (p := parseEffect) parseEffect_ct parseEffect_rejE hg4
      (solidK (k := c!"effect")) hg5 h.fails
    have hs := hg4.skip_solid ((solidK (k := c!"effect")).append (g5 ++ s))
    cases hpre with
    | absent =>
      refine pair_fail2 (a := none) (r := skip (g4 ++ (c!":effect" ++ (g5 ++ s)))) ?_ (opt_fail ?_)
      · refine slot_none ?_
        rw [List.nil_append, skip_skip, hs]
        rfl
      · exact (slotP_skip _).trans hf
    | @present g o u hg ho =>
      refine pair_fail2 (a := some o) (r := g4 ++ (c!":effect" ++ (g5 ++ s))) (opt_run ?_) (opt_fail hf)
      refine (slotP_skip _).trans ?_
      simp only [List.append_assoc]
      exact slot_run parsePreGd_ct parsePreGd_rejE (fun _ _ h => h.full) hg solidK ho _

theorem sec_kw_fail {kw g u : List Char} {p : P α} (hg : Sp g) (hkw : Solid kw)
    (h : p u = .fail) : preceded multispace1 (preceded (tag kw) p) (g ++ (kw ++ u)) = .fail := by
  rw [pms1_sp hg (hkw.append _), preceded_run (tag_ok kw _), h]

theorem BadDaDef.hd {s : List Char} (h : BadDaDef s) : Hd c!":durative-action" s := by
  cases h <;> exact ⟨_, rfl⟩

theorem BadDaDef.fails {s : List Char} (h : BadDaDef s) : Fails parseDaDef s := by
  refine ⟨h.hd.solid, ?_⟩
  cases h with
  | parameters hg1 hn hg2 hg3 h =>
    refine map_fail (prefixExpr_fail ?_)
    rw [hg1.gap.skip_solid (hn.solid.append _)]
    exact pair_fail2 (hn.acc _ (.sp hg2 _)) (pair_fail (parameters_fail hg2 hg3 h))
  | condition hg1 hn hg2 hg3 hv hg4 hd hg5 hg6 h =>
    refine map_fail (prefixExpr_fail ?_)
    rw [hg1.gap.skip_solid (hn.solid.append _)]
    exact pair_fail2 (hn.acc _ (.sp hg2 _)) (pair_fail2 (parameters_run hg2 hg3 hv)
      (pair_fail2 (sec_kw hg4 solidK (duration_run hd _)) (pair_fail
        (sec_kw_fail hg5 solidK (emptyOr_fail parseDaGd_ct parseDaGd_rejE hg6 h.fails)))))
  | effect hg1 hn hg2 hg3 hv hg4 hd hg5 hc hg6 hg7 h =>
    refine map_fail (prefixExpr_fail ?_)
    rw [hg1.gap.skip_solid (hn.solid.append _)]
    exact pair_fail2 (hn.acc _ (.sp hg2 _)) (pair_fail2 (parameters_run hg2 hg3 hv)
      (pair_fail2 (sec_kw hg4 solidK (duration_run hd _)) (pair_fail2
        (sec_kw hg5 solidK (emptyOr_run parseDaGd_ct parseDaGd_rejE (fun _ _ h => h.full) hc _))
        (sec_kw_fail hg6 solidK (emptyOr_fail parseDaEffect_ct parseDaEffect_rejE hg7 h.fails)))))

theorem BadStructure.heads {s : List Char} (h : BadStructure s) :
    Heads [c!":derived", c!":action", c!":durative-action"] s := by
  cases h with
  | derived h | action h | durative h => exact ⟨_, by simp, h.hd⟩

theorem BadStructure.fails {s : List Char} (h : BadStructure s) : Fails parseStructureDef s := by
  refine ⟨h.heads.solid, ?_⟩
  rw [parseStructureDef]
  cases h with
  | derived h => exact alt_fail (map_fail h.fails.2)
  | action h =>
    have h1 : parseDerivedPredicate s = .err := map_err (h.hd.miss fun _ => rfl)
    rw [alt_miss (map_err h1)]
    exact alt_fail (map_fail h.fails.2)
  | durative h =>
    have h1 : parseDerivedPredicate s = .err := map_err (h.hd.miss fun _ => rfl)
    have h2 : parseActionDef s = .err := map_err (h.hd.miss fun _ => rfl)
    rw [alt_miss (map_err h1), alt_miss (map_err h2)]
    exact alt_fail (map_fail h.fails.2)

/-! ## Sections -/

theorem typedNames_bad {s : List Char} (h : BadTyped NameW (fun _ => False) s) :
    Fails (typedList parseName) s := by
  have h' : BadTyped (Elem parseName) (fun _ => False) s := h.mono (fun _ _ h => h.elem) fun _ h => h
  refine ⟨h'.solid fun _ h => h.elim, ?_⟩
  have := typed_fail (B := fun _ => False) parseName_dash (fun _ h => h.elim) h' (g := []) .nil
    Ty.object
  exact this

theorem functions_bad {s : List Char} (h : BadTyped (SkeletonW .strict) BadSkeleton s) :
    Fails (functionTypedList parseAtomicFunctionSkeleton) s := by
  have h' : BadTyped (Elem parseAtomicFunctionSkeleton) BadSkeleton s :=
    h.mono (fun _ _ h => h.elem) fun _ h => h
  refine ⟨h'.solid fun _ h => h.fails.1, ?_⟩
  have := typed_fail (B := BadSkeleton) (fun _ => map_err (parens_head (by decide) (by decide)))
    (fun _ h => h.fails) h' (g := []) .nil Ty.number
  exact this

/-- A section that must be there or may be missing. -/
theorem section_fail {kw g s : List Char} {p : P α} (hg : Sep g) (hh : Hd kw s)
    (h : prefixExpr kw p s = .fail) : preceded multispace1 (prefixExpr kw p) (g ++ s) = .fail := by
  rw [pms1_sep .prefixExpr hg hh.solid, h]

theorem Lead.hd {kws : List (List Char)} {kw g s : List Char} (hg : Sep g) (h : Hd kw s) (hk : kw ∈ kws) :
    Lead kws (g ++ s) := by
  obtain ⟨x, rfl⟩ := h
  exact .sec hg hk

theorem Lead.heads {kws : List (List Char)} {g s : List Char} (hg : Sep g) (h : Heads kws s) :
    Lead kws (g ++ s) := by
  obtain ⟨kw, hk, h⟩ := h
  exact .hd hg h hk

theorem ws2_fail {p : P α} {g s : List Char} (hg : Gap g) (h : Fails p s) : ws2 p (g ++ s) = .fail := by
  have hx : ∀ s, preceded multispace0 ignoreEolComment s = .ok () (skip s) := by
    intro s
    simp only [preceded, multispace0, takeWhile0, Res.bind, eol_eq, skip]
  have h1 := hx (g ++ s)
  rw [hg.skip_solid h.1] at h1
  exact (preceded_run h1).trans (terminated_fail h.2)

/-! ## Domains and problems -/

theorem BadDomain.fails {s : List Char} (h : BadDomain s) : Fails (prefixExpr c!"define" domainParts) s := by
  have hw : ∀ {name tn}, WrapW c!"domain" Sep NameW name tn → Full (prefixExpr c!"domain" parseName) name tn :=
    fun h => h.full (p := parseName) (fun _ h => h.gap) fun _ _ h => h.elem
  cases h with
  | types hg1 hn h1 h2 hg h =>
    have hn := hw hn
    have l3 := Lead.hd (kws := [c!":types"]) hg h.hd (by simp)
    have l2 := Lead.opt h2 (fun _ _ h => h.head) l3
    refine ⟨solid_open _, prefixExpr_fail ?_⟩
    rw [hg1.skip_solid (hn.2.append _)]
    exact pair_fail2 (hn.1 _ trivial) (pair_fail2
        (opt_sec h1 (fun _ _ h => ExtendsW.full h) l2 (by decide)) (pair_fail2
        (opt_sec h2 (fun _ _ h => RequirementsW.full h) l3 (by decide)) (pair_fail
        (opt_fail (section_fail hg h.hd (h.fail fun _ _ h => typedNames_bad h))))))
  | constants hg1 hn h1 h2 h3 hg h =>
    have hn := hw hn
    have l4 := Lead.hd (kws := [c!":constants"]) hg h.hd (by simp)
    have l3 := Lead.opt h3 (fun _ _ h => h.head) l4
    have l2 := Lead.opt h2 (fun _ _ h => h.head) l3
    refine ⟨solid_open _, prefixExpr_fail ?_⟩
    rw [hg1.skip_solid (hn.2.append _)]
    exact pair_fail2 (hn.1 _ trivial) (pair_fail2
        (opt_sec h1 (fun _ _ h => ExtendsW.full h) l2 (by decide)) (pair_fail2
        (opt_sec h2 (fun _ _ h => RequirementsW.full h) l3 (by decide)) (pair_fail2
        (opt_sec h3 (fun _ _ h => TypedNamesW.full h) l4 (by decide)) (pair_fail
        (opt_fail (section_fail hg h.hd (h.fail fun _ _ h => typedNames_bad h)))))))
  | predicates hg1 hn h1 h2 h3 h4 hg h =>
    have hn := hw hn
    have l5 := Lead.hd (kws := [c!":predicates"]) hg h.hd (by simp)
    have l4 := Lead.opt h4 (fun _ _ h => h.head) l5
    have l3 := Lead.opt h3 (fun _ _ h => h.head) l4
    have l2 := Lead.opt h2 (fun _ _ h => h.head) l3
    refine ⟨solid_open _, prefixExpr_fail ?_⟩
    rw [hg1.skip_solid (hn.2.append _)]
    exact pair_fail2 (hn.1 _ trivial) (pair_fail2
        (opt_sec h1 (fun _ _ h => ExtendsW.full h) l2 (by decide)) (pair_fail2
        (opt_sec h2 (fun _ _ h => RequirementsW.full h) l3 (by decide)) (pair_fail2
        (opt_sec h3 (fun _ _ h => TypedNamesW.full h) l4 (by decide)) (pair_fail2
        (opt_sec h4 (fun _ _ h => TypedNamesW.full h) l5 (by decide)) (pair_fail
        (opt_fail (section_fail hg h.hd
          (h.fail (fun _ _ h => h.elem) fun _ _ h => h.fails).2)))))))
  | functions hg1 hn h1 h2 h3 h4 h5 hg h =>
    have hn := hw hn
    have l6 := Lead.hd (kws := [c!":functions"]) hg h.hd (by simp)
    have l5 := Lead.opt h5 (fun _ _ h => h.head) l6
    have l4 := Lead.opt h4 (fun _ _ h => h.head) l5
    have l3 := Lead.opt h3 (fun _ _ h => h.head) l4
    have l2 := Lead.opt h2 (fun _ _ h => h.head) l3
    refine ⟨solid_open _, prefixExpr_fail ?_⟩
    rw [hg1.skip_solid (hn.2.append _)]
    exact pair_fail2 (hn.1 _ trivial) (pair_fail2
        (opt_sec h1 (fun _ _ h => ExtendsW.full h) l2 (by decide)) (pair_fail2
        (opt_sec h2 (fun _ _ h => RequirementsW.full h) l3 (by decide)) (pair_fail2
        (opt_sec h3 (fun _ _ h => TypedNamesW.full h) l4 (by decide)) (pair_fail2
        (opt_sec h4 (fun _ _ h => TypedNamesW.full h) l5 (by decide)) (pair_fail2
        (opt_sec h5 (fun _ _ h => PredicatesW.full h) l6 (by decide)) (pair_fail
        (opt_fail (section_fail hg h.hd (h.fail fun _ _ h => functions_bad h)))))))))
  | constraints hg1 hn h1 h2 h3 h4 h5 h6 hg h =>
    have hn := hw hn
    have l7 := Lead.hd (kws := [c!":constraints"]) hg h.hd (by simp)
    have l6 := Lead.opt h6 (fun _ _ h => h.head) l7
    have l5 := Lead.opt h5 (fun _ _ h => h.head) l6
    have l4 := Lead.opt h4 (fun _ _ h => h.head) l5
    have l3 := Lead.opt h3 (fun _ _ h => h.head) l4
    have l2 := Lead.opt h2 (fun _ _ h => h.head) l3
    refine ⟨solid_open _, prefixExpr_fail ?_⟩
    rw [hg1.skip_solid (hn.2.append _)]
    exact pair_fail2 (hn.1 _ trivial) (pair_fail2
        (opt_sec h1 (fun _ _ h => ExtendsW.full h) l2 (by decide)) (pair_fail2
        (opt_sec h2 (fun _ _ h => RequirementsW.full h) l3 (by decide)) (pair_fail2
        (opt_sec h3 (fun _ _ h => TypedNamesW.full h) l4 (by decide)) (pair_fail2
        (opt_sec h4 (fun _ _ h => TypedNamesW.full h) l5 (by decide)) (pair_fail2
        (opt_sec h5 (fun _ _ h => PredicatesW.full h) l6 (by decide)) (pair_fail2
        (opt_sec h6 (fun _ _ h => FunctionsW.full h) l7 (by decide)) (pair_fail
        (opt_fail (section_fail hg h.hd (h.fail fun _ _ h => h.fails))))))))))
  | @structure_ g1 name tn ext u1 req u2 ty u3 con u4 pre u5 fn u6 cstr u7 g u s hg1 hn h1 h2 h3 h4 h5
      h6 h7 hg hu h =>
    have hn := hw hn
    have hu' : Before (Elem parseStructureDef) u := hu.mono fun _ _ h _ => h.elem
    have hs := hu'.solid h.fails.1
    have l8 : Lead [c!":derived", c!":action", c!":durative-action"] (g ++ (u ++ s)) := by
      refine .heads hg ?_
      cases hu with
      | nil => exact h.heads
      | items hi _ =>
        obtain ⟨kw, hm, x, rfl⟩ := structures_head hi
        refine ⟨kw, hm, ?_⟩
        simp only [List.append_assoc, List.cons_append]
        exact ⟨_, rfl⟩
    have l7 := Lead.opt h7 (fun _ _ h => h.head) l8
    have l6 := Lead.opt h6 (fun _ _ h => h.head) l7
    have l5 := Lead.opt h5 (fun _ _ h => h.head) l6
    have l4 := Lead.opt h4 (fun _ _ h => h.head) l5
    have l3 := Lead.opt h3 (fun _ _ h => h.head) l4
    have l2 := Lead.opt h2 (fun _ _ h => h.head) l3
    refine ⟨solid_open _, prefixExpr_fail ?_⟩
    rw [hg1.skip_solid (hn.2.append _)]
    refine pair_fail2 (hn.1 _ trivial) (pair_fail2
        (opt_sec h1 (fun _ _ h => ExtendsW.full h) l2 (by decide)) (pair_fail2
        (opt_sec h2 (fun _ _ h => RequirementsW.full h) l3 (by decide)) (pair_fail2
        (opt_sec h3 (fun _ _ h => TypedNamesW.full h) l4 (by decide)) (pair_fail2
        (opt_sec h4 (fun _ _ h => TypedNamesW.full h) l5 (by decide)) (pair_fail2
        (opt_sec h5 (fun _ _ h => PredicatesW.full h) l6 (by decide)) (pair_fail2
        (opt_sec h6 (fun _ _ h => FunctionsW.full h) l7 (by decide)) (pair_fail2
        (opt_sec h7 (fun _ _ h => h.full (fun _ h => h) fun _ _ h => h.elem) l8 (by decide))
        (opt_fail ?_))))))))
    rw [pms1_sep Ct.spaceSeparatedList1 hg hs]
    exact (list_fail (g := []) .nil hu' h.fails.1 h.fails.2).2

theorem BadProblem.fails {s : List Char} (h : BadProblem s) :
    Fails (prefixExpr c!"define" problemParts) s := by
  have hw : ∀ {kw name tn}, WrapW kw Sep NameW name tn → Full (prefixExpr kw parseName) name tn :=
    fun h => h.full (p := parseName) (fun _ h => h.gap) fun _ _ h => h.elem
  have hl : ∀ {g init ti r}, Sep g → InitW .strict init ti → Lead [c!":init"] (g ++ (ti ++ r)) := by
    intro g init ti r hg hi
    cases hi with
    | mk => simp only [paren_append, List.append_assoc]; exact .sec hg (by simp)
  cases h with
  | objects hg1 hn hg2 hd h1 hg h =>
    have hn := hw hn
    have l2 := Lead.hd (kws := [c!":objects"]) hg h.hd (by simp)
    refine ⟨solid_open _, prefixExpr_fail ?_⟩
    rw [hg1.skip_solid (hn.2.append _)]
    exact pair_fail2 (hn.1 _ trivial) (pair_fail2 (sec_run hg2 (hw hd)) (pair_fail2
        (opt_sec h1 (fun _ _ h => RequirementsW.full h) l2 (by decide)) (pair_fail
        (opt_fail (section_fail hg h.hd (h.fail fun _ _ h => typedNames_bad h))))))
  | goal hg1 hn hg2 hd h1 h2 hg3 hi hg h =>
    have hn := hw hn
    have l3 := fun r => hl (r := r) hg3 hi
    have l2 := fun r => Lead.opt h2 (fun _ _ h => h.head) (l3 r)
    refine ⟨solid_open _, prefixExpr_fail ?_⟩
    rw [hg1.skip_solid (hn.2.append _)]
    exact pair_fail2 (hn.1 _ trivial) (pair_fail2 (sec_run hg2 (hw hd)) (pair_fail2
        (opt_sec h1 (fun _ _ h => RequirementsW.full h) (l2 _) (by decide)) (pair_fail2
        (opt_sec h2 (fun _ _ h => TypedNamesW.full h) (l3 _) (by decide)) (pair_fail2
        (sec_run hg3 hi.full) (pair_fail
        (section_fail hg h.hd (h.fail fun _ _ h => h.fails)))))))
  | constraints hg1 hn hg2 hd h1 h2 hg3 hi hg4 hgoal hg h =>
    have hn := hw hn
    have hgoal := hgoal.full (p := parsePreGd) (fun _ h => h) fun _ _ h => h.elem
    have l3 := fun r => hl (r := r) hg3 hi
    have l2 := fun r => Lead.opt h2 (fun _ _ h => h.head) (l3 r)
    refine ⟨solid_open _, prefixExpr_fail ?_⟩
    rw [hg1.skip_solid (hn.2.append _)]
    exact pair_fail2 (hn.1 _ trivial) (pair_fail2 (sec_run hg2 (hw hd)) (pair_fail2
        (opt_sec h1 (fun _ _ h => RequirementsW.full h) (l2 _) (by decide)) (pair_fail2
        (opt_sec h2 (fun _ _ h => TypedNamesW.full h) (l3 _) (by decide)) (pair_fail2
        (sec_run hg3 hi.full) (pair_fail2 (sec_run hg4 hgoal) (pair_fail
        (opt_fail (section_fail hg h.hd (h.fail fun _ _ h => h.fails)))))))))

end Pddl
