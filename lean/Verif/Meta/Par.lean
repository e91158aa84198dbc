import Verif.Meta.Typed
import Verif.Meta.Tactic

/-!
# Meta-theory: which texts the parsers of parenthesised forms reject at once
-/

namespace Pddl

/-! ## Unfolding the recursive parsers once -/

theorem parseTerm_eq : parseTerm = termBody parseTerm := Good.fix_eq termBody_good
theorem parseFExp_eq : parseFExp = fExpBody parseFExp := Good.fix_eq fExpBody_good
theorem parseGd_eq : parseGd = gdBody parseGd := Good.fix_eq gdBody_good
theorem parsePreGd_eq : parsePreGd = preGdBody parsePreGd := Good.fix_eq preGdBody_good
theorem parseConGd_eq : parseConGd = conGdBody parseConGd := Good.fix_eq conGdBody_good
theorem parsePrefConGd_eq : parsePrefConGd = prefConGdBody parsePrefConGd :=
  Good.fix_eq prefConGdBody_good
theorem parseCEffect_eq : parseCEffect = cEffectBody parseCEffect := Good.fix_eq cEffectBody_good
theorem parseDaGd_eq : parseDaGd = daGdBody parseDaGd := Good.fix_eq daGdBody_good
theorem parseFExpDa_eq : parseFExpDa = fExpDaBody parseFExpDa := Good.fix_eq fExpDaBody_good
theorem parseDaEffect_eq : parseDaEffect = daEffectBody parseDaEffect := Good.fix_eq daEffectBody_good
theorem parseSimpleDuration_eq : parseSimpleDuration = simpleDurationBody parseSimpleDuration :=
  Good.fix_eq simpleDurationBody_good
theorem parseMetricFExp_eq : parseMetricFExp = metricFExpBody parseMetricFExp :=
  Good.fix_eq metricFExpBody_good

/-! ## Only an opening parenthesis starts the form -/

/-- The parser rejects every text that begins neither with layout nor with `(`. -/
def Par (p : P α) : Prop := ∀ c s, c ≠ '(' → c ≠ ';' → isSpace c = false → p (c :: s) = .err

namespace Par
theorem map {f : α → β} {p : P α} (h : Par p) : Par (map f p) := fun c s h1 h2 h3 =>
  map_err (h c s h1 h2 h3)
theorem mapExpect {f : α → Option β} {p : P α} (h : Par p) : Par (mapExpect f p) :=
  fun c s h1 h2 h3 => mapExpect_err (h c s h1 h2 h3)
theorem alt_one {p : P α} (h : Par p) : Par (alt [p]) := fun c s h1 h2 h3 => by
  rw [alt_miss (h c s h1 h2 h3), alt_nil]
theorem alt_cons {p q : P α} {ps : List (P α)} (h : Par p) (h' : Par (alt (q :: ps))) :
    Par (alt (p :: q :: ps)) := fun c s h1 h2 h3 => by
  rw [alt_miss (h c s h1 h2 h3), h' c s h1 h2 h3]
theorem pair {p : P α} {q : P β} (h : Par p) : Par (pair p q) := fun c s h1 h2 h3 =>
  pair_err (h c s h1 h2 h3)
theorem terminated {p : P α} {q : P β} (h : Par p) : Par (terminated p q) := fun c s h1 h2 h3 =>
  terminated_err (h c s h1 h2 h3)
theorem prefixExpr {kw : List Char} {p : P α} : Par (prefixExpr kw p) := fun _ s h1 h2 h3 =>
  prefixExpr_head (.cons h3 h2 s) h1
theorem parens {p : P α} : Par (parens p) := fun _ _ h1 h2 _ => parens_head h2 h1
theorem atomicFormula {p : P α} : Par (atomicFormula p) := by
  refine alt_cons (map fun c s h1 h2 h3 => preceded_err ?_) (alt_one (map parens))
  rw [ws_eq, (Solid.cons h3 h2 s).skip]
  exact tag_err (stripPrefix_head (Ne.symm h1))
theorem literal {p : P α} : Par (literal p) := alt_cons (map prefixExpr) (alt_one (map atomicFormula))
end Par

/-! ## `()` is rejected -/

/-- The parser rejects `()`. -/
def RejE (p : P α) : Prop := ∀ s, p ('(' :: ')' :: s) = .err

namespace RejE
theorem map {f : α → β} {p : P α} (h : RejE p) : RejE (map f p) := fun s => map_err (h s)
theorem mapExpect {f : α → Option β} {p : P α} (h : RejE p) : RejE (mapExpect f p) :=
  fun s => mapExpect_err (h s)
theorem alt_one {p : P α} (h : RejE p) : RejE (alt [p]) := fun s => by
  rw [alt_miss (h s), alt_nil]
theorem alt_cons {p q : P α} {ps : List (P α)} (h : RejE p) (h' : RejE (alt (q :: ps))) :
    RejE (alt (p :: q :: ps)) := fun s => by
  rw [alt_miss (h s), h' s]
theorem pair {p : P α} {q : P β} (h : RejE p) : RejE (pair p q) := fun s => pair_err (h s)
theorem terminated {p : P α} {q : P β} (h : RejE p) : RejE (terminated p q) :=
  fun s => terminated_err (h s)
theorem prefixExpr_cons {k : Char} {kw : List Char} {p : P α} (hk : k ≠ ')' := by decide) :
    RejE (prefixExpr (k :: kw) p) := fun _ => prefixExpr_kw (stripPrefix_head hk)
theorem parens_pair {p : P α} {q : P β} (h : ∀ s, p (')' :: s) = .err) :
    RejE (Pddl.parens (Pddl.pair p q)) :=
  fun s => parens_err (by rw [(solid_close s).skip]; exact pair_err (h s))
theorem atomicFormula {p : P α} : RejE (atomicFormula p) := by
  refine alt_cons (map fun s => preceded_err ?_) (alt_one (map (parens_pair parseName_close)))
  rw [ws_eq, (solid_open _).skip]
  exact tag_err (by rfl)
theorem literal {p : P α} : RejE (literal p) :=
  alt_cons (map prefixExpr_cons) (alt_one (map atomicFormula))
end RejE

/-! ## Longer words than the keyword -/

/-- On a text that begins with a word character, the parser fails or consumes nothing. -/
def Nw (p : P α) : Prop :=
  ∀ c s, isWordChar c = true → p (c :: s) = .err ∨ ∃ v, p (c :: s) = .ok v (c :: s)

theorem wordChar_solid {c : Char} (h : isWordChar c = true) :
    c ≠ '(' ∧ c ≠ ')' ∧ c ≠ ';' ∧ isSpace c = false := by
  refine ⟨?_, ?_, ?_, ?_⟩
  · rintro rfl; exact absurd h (by decide)
  · rintro rfl; exact absurd h (by decide)
  · rintro rfl; exact absurd h (by decide)
  · cases hs : isSpace c with
    | false => rfl
    | true => rw [isWordChar_not (.inl hs)] at h; cases h

theorem Par.nw {p : P α} (h : Par p) : Nw p := fun c s hc =>
  have := wordChar_solid hc
  .inl (h c s this.1 this.2.2.1 this.2.2.2)

theorem Nw.list0 {p : P α} (h : Par p) : Nw (spaceSeparatedList0 p) := fun c s hc => by
  obtain ⟨h1, _, h2, h3⟩ := wordChar_solid hc
  have hk := (Solid.cons h3 h2 s).skip
  refine .inr ⟨[], ?_⟩
  rw [list0_nil (by rw [hk, h c s h1 h2 h3]), hk]

theorem IsWord.append_cons {c : Char} {kw x : List Char} (h : IsWord (kw ++ c :: x)) (hkw : kw ≠ []) :
    isWordChar c = true := by
  obtain ⟨d, ds, hd, _, hds⟩ := h
  cases kw with
  | nil => exact absurd rfl hkw
  | cons k kw =>
    rw [List.cons_append] at hd
    cases hd
    exact hds c (by simp)

/-- A form whose head word is not the keyword. -/
theorem prefix_word {kw : List Char} {p : P α} (hkw : IsWord kw) (hp : Nw p) {g t x : List Char}
    (hg : Gap g) (ht : IsWord t) (hx : Stop x) (hne : t ≠ kw) :
    prefixExpr kw p ('(' :: (g ++ (t ++ x))) = .err := by
  have hnil : kw ≠ [] := by obtain ⟨c, cs, rfl, _⟩ := hkw; simp
  cases hg with
  | nil =>
    by_cases h : ∃ y, t = kw ++ y
    · obtain ⟨y, rfl⟩ := h
      cases y with
      | nil => simp at hne
      | cons c y =>
        have hc := ht.append_cons hnil
        obtain ⟨_, h1, h2, h3⟩ := wordChar_solid hc
        have hk := (Solid.cons h3 h2 (y ++ x)).skip
        simp only [List.nil_append, List.append_assoc, List.cons_append]
        rcases hp c (y ++ x) hc with h | ⟨v, h⟩
        · exact prefixExpr_body_err (by rw [hk, h])
        · refine prefixExpr_tail (by rw [hk, h]) ?_
          rw [hk]
          rintro r hr
          cases hr
          exact h1 rfl
    · rw [List.nil_append]
      exact prefixExpr_kw (stripPrefix_word hkw ht hx fun y hy => h ⟨y, hy⟩)
  | @space c g hc hg =>
    obtain ⟨k, ks, rfl, hk, _⟩ := hkw
    refine prefixExpr_kw (stripPrefix_head ?_)
    rintro rfl
    exact absurd (isAlpha_solid hk).1 (by simp [isBlank_space hc])
  | comment =>
    obtain ⟨k, ks, rfl, hk, _⟩ := hkw
    exact prefixExpr_kw (stripPrefix_head (isAlpha_solid hk).2)

/-- The character after the `(` of a form with a head word. -/
theorem gap_word_head {g t : List Char} (hg : Gap g) (ht : IsWord t) (x : List Char) :
    ∃ c y, g ++ (t ++ x) = c :: y ∧ (isSpace c = true ∨ c = ';' ∨ isAlpha c = true) := by
  cases hg with
  | nil => obtain ⟨c, cs, rfl, hc, _⟩ := ht; exact ⟨c, _, rfl, .inr (.inr hc)⟩
  | space hc => exact ⟨_, _, rfl, .inl hc⟩
  | comment => exact ⟨_, _, rfl, .inr (.inl rfl)⟩

theorem stripPrefix_gap_word {k : Char} {ks g t : List Char} (hg : Gap g) (ht : IsWord t)
    (x : List Char) (h1 : isSpace k = false) (h2 : k ≠ ';') (h3 : isAlpha k = false) :
    stripPrefix (k :: ks) (g ++ (t ++ x)) = none := by
  obtain ⟨c, y, h, hc⟩ := gap_word_head hg ht x
  rw [h]
  refine stripPrefix_head ?_
  rintro rfl
  rcases hc with hc | hc | hc
  · rw [h1] at hc; cases hc
  · exact h2 hc
  · rw [h3] at hc; cases hc

/-! ## The parsers of the crate -/

theorem parseAtomicFormulaSkeleton_par : Par parseAtomicFormulaSkeleton := .map .parens
theorem parseVarList_par : Par parseVarList := .parens
theorem parseFComp_par : Par parseFComp := by unfold parseFComp; comb
theorem parseGd_par : Par parseGd := by rw [parseGd_eq, gdBody]; comb
theorem parsePrefGd_par : Par parsePrefGd := by unfold parsePrefGd; comb
theorem parsePreGd_par : Par parsePreGd := by rw [parsePreGd_eq, preGdBody]; comb
theorem parseConGd_par : Par parseConGd := by rw [parseConGd_eq, conGdBody]; comb
theorem Par.con2Of {p : P ConGD} (h : Par p) : Par (con2Of p) := by unfold Pddl.con2Of; comb; exact h
theorem parseCon2Gd_par : Par parseCon2Gd := .con2Of parseConGd_par
theorem parsePrefConGd_par : Par parsePrefConGd := by rw [parsePrefConGd_eq, prefConGdBody]; comb
theorem parsePEffect_par : Par parsePEffect := by unfold parsePEffect; comb
theorem parseCondEffect_par : Par parseCondEffect := by unfold parseCondEffect; comb
theorem parseCEffect_par : Par parseCEffect := by
  rw [parseCEffect_eq, cEffectBody, forallCEffectOf, parseWhenCEffect]; comb
theorem Par.effectOf {p : P CEffect} (h : Par p) : Par (effectOf p) := by
  unfold Pddl.effectOf; comb; exact h
theorem parseEffect_par : Par parseEffect := .effectOf parseCEffect_par
theorem parseTimedGd_par : Par parseTimedGd := by unfold parseTimedGd; comb
theorem parsePrefTimedGd_par : Par parsePrefTimedGd := by unfold parsePrefTimedGd; comb
theorem parseDaGd_par : Par parseDaGd := by rw [parseDaGd_eq, daGdBody]; comb
theorem parseFAssignDa_par : Par parseFAssignDa := by unfold parseFAssignDa; comb
theorem parseTimedEffect_par : Par parseTimedEffect := by unfold parseTimedEffect; comb
theorem parseDaEffect_par : Par parseDaEffect := by rw [parseDaEffect_eq, daEffectBody]; comb
theorem parseSimpleDuration_par : Par parseSimpleDuration := by
  rw [parseSimpleDuration_eq, simpleDurationBody]; comb
theorem parseActionDef_par : Par parseActionDef := by unfold parseActionDef; comb
theorem parseDerivedPredicate_par : Par parseDerivedPredicate := by unfold parseDerivedPredicate; comb
theorem parseDaDef_par : Par parseDaDef := by unfold parseDaDef; comb
theorem parseStructureDef_par : Par parseStructureDef := by unfold parseStructureDef; comb
theorem parseInitEl_par : Par parseInitEl := by unfold parseInitEl; comb

theorem parseAtomicFormulaSkeleton_ct : Ct parseAtomicFormulaSkeleton := .map .parens
theorem parseVarList_ct : Ct parseVarList := .parens
theorem parseFComp_ct : Ct parseFComp := by unfold parseFComp; comb
theorem parseGd_ct : Ct parseGd := by rw [parseGd_eq, gdBody]; comb
theorem parsePrefGd_ct : Ct parsePrefGd := by unfold parsePrefGd; comb
theorem parsePreGd_ct : Ct parsePreGd := by rw [parsePreGd_eq, preGdBody]; comb
theorem parseConGd_ct : Ct parseConGd := by rw [parseConGd_eq, conGdBody]; comb
theorem Ct.con2Of {p : P ConGD} (h : Ct p) : Ct (con2Of p) := by unfold Pddl.con2Of; comb; exact h
theorem parseCon2Gd_ct : Ct parseCon2Gd := .con2Of parseConGd_ct
theorem parsePrefConGd_ct : Ct parsePrefConGd := by rw [parsePrefConGd_eq, prefConGdBody]; comb
theorem parsePEffect_ct : Ct parsePEffect := by unfold parsePEffect; comb
theorem parseCondEffect_ct : Ct parseCondEffect := by unfold parseCondEffect; comb
theorem parseCEffect_ct : Ct parseCEffect := by
  rw [parseCEffect_eq, cEffectBody, forallCEffectOf, parseWhenCEffect]; comb
theorem Ct.effectOf {p : P CEffect} (h : Ct p) : Ct (effectOf p) := by
  unfold Pddl.effectOf; comb; exact h
theorem parseEffect_ct : Ct parseEffect := .effectOf parseCEffect_ct
theorem parseTimedGd_ct : Ct parseTimedGd := by unfold parseTimedGd; comb
theorem parsePrefTimedGd_ct : Ct parsePrefTimedGd := by unfold parsePrefTimedGd; comb
theorem parseDaGd_ct : Ct parseDaGd := by rw [parseDaGd_eq, daGdBody]; comb
theorem parseFAssignDa_ct : Ct parseFAssignDa := by unfold parseFAssignDa; comb
theorem parseTimedEffect_ct : Ct parseTimedEffect := by unfold parseTimedEffect; comb
theorem parseDaEffect_ct : Ct parseDaEffect := by rw [parseDaEffect_eq, daEffectBody]; comb
theorem parseSimpleDuration_ct : Ct parseSimpleDuration := by
  rw [parseSimpleDuration_eq, simpleDurationBody]; comb
theorem parseActionDef_ct : Ct parseActionDef := by unfold parseActionDef; comb
theorem parseDerivedPredicate_ct : Ct parseDerivedPredicate := by unfold parseDerivedPredicate; comb
theorem parseDaDef_ct : Ct parseDaDef := by unfold parseDaDef; comb
theorem parseStructureDef_ct : Ct parseStructureDef := by unfold parseStructureDef; comb
theorem parseInitEl_ct : Ct parseInitEl := by unfold parseInitEl; comb
theorem parseFHead_ct : Ct parseFHead :=
  .alt_cons (.map parseName_ct) (.alt_cons (.map .parens) (.alt_one (.map .parens)))

end Pddl
