import Verif.Props.Layout
import Verif.Props.Accept
import Verif.Meta.SoundEffects
import Verif.Meta.Durative

/-!
# C73: a form is read by reading its parts

`C24` and `C27` describe the accepted texts from the outside, with the grammar of `Verif.Spec`. The
theorems here make no reference to it. What a keyword form is read as is determined by what its parts
are read as on their own, whatever those are. In particular a part may be replaced by any other
text with the same reading, and a reader may descend into a text and call the parser on the parts.
-/

namespace Pddl

/-- The parser, run on this text alone, consumes all of it and returns `v`. The text has no layout in
front. -/
def ReadsAs (p : P α) (v : α) (t : List Char) : Prop := Solid t ∧ p t = .ok v []

/-- `(kw x₁ … xₙ)` with every part read as the corresponding value. -/
def Listed (kw : List Char) (R : α → List Char → Prop) (vs : List α) (t : List Char) : Prop :=
  ∃ u, t = paren (kw ++ u) ∧ Sec Gap Gap (Items R) vs u

/-- `(kw x)`. -/
def Wrapped (kw : List Char) (R : α → List Char → Prop) (v : α) (t : List Char) : Prop :=
  ∃ g1 x g2, t = paren (kw ++ (g1 ++ (x ++ g2))) ∧ Gap g1 ∧ R v x ∧ Gap g2

/-- `(kw x y)`. -/
def Paired (kw : List Char) (R : α → List Char → Prop) (S : β → List Char → Prop) (a : α) (b : β)
    (t : List Char) : Prop :=
  ∃ g1 x g2 y g3, t = paren (kw ++ (g1 ++ (x ++ (g2 ++ (y ++ g3))))) ∧ Gap g1 ∧ R a x ∧ Sep g2 ∧
    S b y ∧ Gap g3

/-! ## Layout in front of a part -/

/-- What is read after some layout is read without it as well. The converse is false,
`C29_atom_false`. -/
def Shed (p : P α) : Prop :=
  ∀ g t v r, Gap g → Solid t → p (g ++ t) = .ok v r → p t = .ok v r

theorem LeadBlind.shed {p : P α} (h : LeadBlind p) : Shed p := fun g t v r hg _ e => by
  rwa [h g t hg] at e

/-- Either only a comment stands in front, or no parser of parenthesised forms gets anywhere. -/
theorem gap_cases {g t : List Char} (hg : Gap g) (ht : Solid t) :
    skipC (g ++ t) = t ∨ ∀ (α : Type) (p : P α), parens p (g ++ t) = .err := by
  by_cases h : ∃ x, skipC (g ++ t) = '(' :: x
  · obtain ⟨x, h⟩ := h
    left
    have h1 := skip_skipC (g ++ t)
    rw [hg.skip_solid ht, h, (solid_open x).skip] at h1
    rw [h, h1]
  · right
    intro α p
    unfold parens
    rw [eolp_eq]
    cases hx : skipC (g ++ t) with
    | nil => rfl
    | cons c x =>
      have : c ≠ '(' := fun e => h ⟨x, by rw [hx, e]⟩
      simp [delimited, preceded, char, this, Res.bind]

theorem Shed.parens {p : P α} : Shed (Pddl.parens p) := fun g t v r hg ht e => by
  rcases gap_cases hg ht with h | h
  · unfold Pddl.parens at e ⊢
    rw [eolp_eq] at e ⊢
    rw [h] at e
    rwa [ht.skipC]
  · rw [h] at e
    cases e

theorem Shed.map {f : α → β} {p : P α} (h : Shed p) : Shed (Pddl.map f p) := fun g t v r hg ht e => by
  obtain ⟨a, h1, rfl⟩ := map_ok e
  exact map_run (h g t a r hg ht h1)

theorem shed_step {p : P α} {ps : List (P α)} {g t : List Char} {v : α} {r} (hp : LeadBlind p)
    (hg : Gap g) (h : alt (p :: ps) (g ++ t) = .ok v r)
    (k : alt ps (g ++ t) = .ok v r → alt ps t = .ok v r) : alt (p :: ps) t = .ok v r := by
  rcases alt_inv h with e | ⟨e1, e⟩
  · exact alt_hit (by rw [← hp g t hg, e])
  · rw [alt_miss (by rw [← hp g t hg, e1])]
    exact k e

theorem Shed.alt_cons {p : P α} {ps : List (P α)} (hp : LeadBlind p) (h : Shed (alt ps)) :
    Shed (alt (p :: ps)) := fun g t v r hg ht e => shed_step hp hg e (h g t v r hg ht)

theorem Shed.alt_one {p : P α} (h : Shed p) : Shed (alt [p]) := fun g t v r hg ht e => by
  rcases alt_inv e with e | ⟨_, e⟩
  · exact alt_hit (h g t v r hg ht e)
  · cases e

/-- Equality atoms. -/
theorem eqAtom_lead {p q : P α} {f : α × α → β} :
    LeadBlind (Pddl.map f (delimited (ws (tag c!"(=")) (pair (ws p) (ws q)) (ws (char ')')))) :=
  .map fun g s hg => by
    simp only [delimited, preceded]
    rw [LeadBlind.ws g s hg]

theorem parseVarList_shed : Shed parseVarList := .parens

/-- If no parser of parenthesised forms gets anywhere, an atom is an equality. -/
theorem atom_case {g t : List Char} {v : AtomicFormula Term} {r} (hg : Gap g) (ht : Solid t)
    (hB : ∀ (α : Type) (p : P α), parens p (g ++ t) = .err)
    (h : atomicFormula parseTerm (g ++ t) = .ok v r) :
    atomicFormula parseTerm t = .ok v r ∧ ∃ x, t = '(' :: '=' :: x := by
  rw [atomicFormula] at h ⊢
  rcases alt_inv h with h | ⟨_, h⟩
  · rw [eqAtom_lead g t hg] at h
    refine ⟨alt_hit h, ?_⟩
    obtain ⟨a, h1, rfl⟩ := map_ok h
    unfold delimited at h1
    obtain ⟨_, y, h2, _⟩ := preceded_ok h1
    rw [ws_eq, ht.skip] at h2
    exact ⟨y, (tag_inv h2).2⟩
  · rcases alt_inv h with h | ⟨_, h⟩
    · obtain ⟨a, h1, rfl⟩ := map_ok h
      rw [hB] at h1
      cases h1
    · cases h

theorem parseGd_shed : Shed parseGd := fun g t v r hg ht h0 => by
  rcases gap_cases hg ht with hA | hB
  · rwa [← parseGd_ct, hA] at h0
  · have h := h0
    rw [parseGd_eq, gdBody] at h ⊢
    have lead : ∀ {α} {f : α → GD} {kw} {p : P α}, LeadBlind (Pddl.map f (prefixExpr kw p)) :=
      .map .prefixExpr
    refine shed_step lead hg h fun h => shed_step lead hg h fun h => shed_step lead hg h fun h =>
      shed_step lead hg h fun h => shed_step lead hg h fun h => shed_step lead hg h fun h => ?_
    rcases alt_inv h with h | ⟨_, h⟩
    · obtain ⟨a, h1, rfl⟩ := map_ok h
      exact alt_hit (map_run (atom_case hg ht hB h1).1)
    rcases alt_inv h with h | ⟨_, h⟩
    · obtain ⟨a, h1, rfl⟩ := map_ok h
      exact absurd rfl (C32_goals _ _ _ h0 (.goal (.literal a)) (by simp [GD.nodes]) a)
    rcases alt_inv h with h | ⟨_, h⟩
    · obtain ⟨a, h1, rfl⟩ := map_ok h
      obtain ⟨b, h2, rfl⟩ := map_ok h1
      rw [hB] at h2
      cases h2
    · cases h

theorem parsePrefGd_shed : Shed parsePrefGd :=
  .alt_cons (.map .prefixExpr) (.alt_cons (.map .prefixExpr) (.alt_one parseGd_shed.map))

theorem parsePreGd_shed : Shed parsePreGd := by
  rw [parsePreGd_eq]
  exact .alt_cons (.map .prefixExpr) (.alt_cons (.map .prefixExpr) (.alt_one parsePrefGd_shed.map))

theorem parsePEffect_shed : Shed parsePEffect := fun g t v r hg ht h => by
  rcases gap_cases hg ht with hA | hB
  · rwa [← parsePEffect_ct, hA] at h
  · rw [parsePEffect] at h ⊢
    have lead : ∀ {α} {f : α → PEffect} {kw} {p : P α}, LeadBlind (Pddl.map f (prefixExpr kw p)) :=
      .map .prefixExpr
    refine shed_step lead hg h fun h => shed_step lead hg h fun h => shed_step lead hg h fun h => ?_
    rcases alt_inv h with h | ⟨_, h⟩
    · obtain ⟨a, h1, rfl⟩ := map_ok h
      rw [hB] at h1
      cases h1
    rcases alt_inv h with h | ⟨_, h⟩
    · obtain ⟨a, h1, rfl⟩ := map_ok h
      obtain ⟨h2, x, rfl⟩ := atom_case hg ht hB h1
      rw [alt_miss (map_err (parens_err (pair_err ?_)))]
      · exact alt_hit (map_run h2)
      · rw [(Solid.cons (by decide) (by decide) x).skip]
        exact parseAssignOp_head (by decide)
    · cases h

theorem parseCondEffect_shed : Shed parseCondEffect :=
  .alt_cons (.map .prefixExpr) (.alt_one parsePEffect_shed.map)

theorem parseCEffect_shed : Shed parseCEffect := by
  rw [parseCEffect_eq]
  exact .alt_cons (.map .prefixExpr) (.alt_cons (.map .prefixExpr) (.alt_one parsePEffect_shed.map))

theorem parseEffect_shed : Shed parseEffect :=
  .alt_cons .prefixExpr (.alt_one parseCEffect_shed.map)

theorem parseTimedEffect_shed : Shed parseTimedEffect :=
  .alt_cons (.map .prefixExpr) (.alt_cons (.map .prefixExpr) (.alt_one Shed.parens.map))

theorem parseDaEffect_shed : Shed parseDaEffect := by
  rw [parseDaEffect_eq]
  exact .alt_cons (.map .prefixExpr) (.alt_cons (.map .prefixExpr) (.alt_cons (.map .prefixExpr)
    (.alt_one parseTimedEffect_shed.map)))

/-! ## Parts -/

theorem OneForm.solid {t : List Char} (h : OneForm t) : Solid t := by
  cases t with
  | nil => cases h.1
  | cons c t =>
    have : c = '(' := by simpa using h.1
    exact this ▸ solid_open t

theorem ReadsAs.acc {p : P α} (hp : TailBlind p) {v : α} {t : List Char} (h : ReadsAs p v t) :
    Acc p Stop v t := fun r _ => hp t [] v (by rw [List.append_nil]; exact h.2) r

theorem ReadsAs.elem {p : P α} (hp : TailBlind p) (v : α) (t : List Char) (h : ReadsAs p v t) :
    Elem p v t := ⟨h.acc hp, h.1⟩

theorem ReadsAs.of {p : P α} {v : α} {t : List Char} (ht : Solid t) (h : p (t ++ []) = .ok v []) :
    ReadsAs p v t := ⟨ht, by rwa [List.append_nil] at h⟩

theorem readsAs_nonE {p : P α} : NonE (ReadsAs p) := fun _ _ h => h.1.ne

theorem Shed.snd {p : P α} (h : Shed p) (h1 : OneFormOnly p) (h2 : TailBlind p) :
    Snd Any Gap p (ReadsAs p) := fun s v r hs _ => by
  obtain ⟨g, t, rfl, hg, ht⟩ := h1 s v r hs
  refine ⟨g, t, rfl, hg, ht.solid, ?_⟩
  have := h2 t r v (h g (t ++ r) v r hg (ht.solid.append r) hs) []
  rwa [List.append_nil] at this

theorem snd_inv {p : P α} {R : α → List Char → Prop} (h : Snd Any Gap p R) {v : α} {t : List Char}
    (ht : Solid t) (hp : p t = .ok v []) : R v t := by
  obtain ⟨g, u, e, hg, hr⟩ := h t v [] hp trivial
  rw [List.append_nil] at e
  cases hg with
  | nil => rw [e]; exact hr
  | space hc =>
    obtain ⟨c, x, rfl, h1, _⟩ := ht
    cases e
    exact absurd hc (by simp [h1])
  | comment =>
    obtain ⟨c, x, rfl, _, h1⟩ := ht
    cases e
    exact absurd rfl h1

theorem listed_inv {kw : List Char} {p : P α} {R : α → List Char → Prop} (h : Snd Any Gap p R)
    (hne : NonE R) {vs : List α} {t : List Char} (ht : Solid t)
    (hp : prefixExpr kw (spaceSeparatedList0 p) t = .ok vs []) : Listed kw R vs t :=
  snd_inv (Snd.prefix_sec (.list0 h hne)) ht hp

theorem wrapped_inv {kw : List Char} {p : P α} {R : α → List Char → Prop} (h : Snd Any Gap p R)
    {v : α} {t : List Char} (ht : Solid t) (hp : prefixExpr kw p t = .ok v []) : Wrapped kw R v t := by
  have := snd_inv (R := Wrapped kw R) (Snd.kw1 (kw := kw) (f := id) h
    fun h1 h2 h3 => ⟨_, _, _, rfl, h1, h2, h3⟩) ht (map_run hp)
  exact this

theorem paired_inv {kw : List Char} {p : P α} {q : P β} {R : α → List Char → Prop}
    {S : β → List Char → Prop} {G : List Char → Prop} (h : Snd Any G p R) (hG : ∀ g, G g → Gap g)
    (h' : Snd Any Gap q S) {a : α} {b : β} {t : List Char} (ht : Solid t)
    (hp : prefixExpr kw (pair p (preceded multispace1 q)) t = .ok (a, b) []) : Paired kw R S a b t := by
  have := snd_inv (R := fun x => Paired kw R S x.1 x.2) (Snd.kw2 (kw := kw) (f := id) h (.arg h') hG
    fun h1 h2 h3 h4 h5 => ⟨_, _, _, _, _, rfl, h1, h2, h3, h4, h5⟩) ht (map_run hp)
  exact this

theorem Listed.solid {kw : List Char} {R : α → List Char → Prop} {vs : List α} {t : List Char}
    (h : Listed kw R vs t) : Solid t := by
  obtain ⟨u, rfl, _⟩ := h
  exact solid_paren _

theorem Wrapped.solid {kw : List Char} {R : α → List Char → Prop} {v : α} {t : List Char}
    (h : Wrapped kw R v t) : Solid t := by
  obtain ⟨_, _, _, rfl, _⟩ := h
  exact solid_paren _

theorem Paired.solid {kw : List Char} {R : α → List Char → Prop} {S : β → List Char → Prop} {a : α}
    {b : β} {t : List Char} (h : Paired kw R S a b t) : Solid t := by
  obtain ⟨_, _, _, _, _, rfl, _⟩ := h
  exact solid_paren _

theorem Listed.run {kw : List Char} {p : P α} {vs : List α} {t : List Char}
    (h : Listed kw (ReadsAs p) vs t) (h1 : TailBlind p) (h2 : Par p) :
    prefixExpr kw (spaceSeparatedList0 p) (t ++ []) = .ok vs [] := by
  obtain ⟨u, rfl, h⟩ := h
  exact prefix_list0 (h.mono fun _ h _ => h.mono fun a t h _ => h.elem h1) (fun _ h => h) h2.close [] trivial

theorem Wrapped.run {kw : List Char} {p : P α} {R : α → List Char → Prop} {v : α} {t : List Char}
    (h : Wrapped kw R v t) (h1 : ∀ v t, R v t → Elem p v t) :
    prefixExpr kw p (t ++ []) = .ok v [] := by
  obtain ⟨g1, x, g2, rfl, hg1, h, hg2⟩ := h
  exact prefix_one hg1 (h1 _ _ h).1 (h1 _ _ h).2 hg2 [] trivial

theorem Paired.run {kw : List Char} {p : P α} {q : P β} {R : α → List Char → Prop}
    {S : β → List Char → Prop} {a : α} {b : β} {t : List Char}
    (h : Paired kw R S a b t) (h1 : ∀ v t, R v t → Elem p v t) (h2 : ∀ v t, S v t → Elem q v t)
    (hq : Ct q) : prefixExpr kw (pair p (preceded multispace1 q)) (t ++ []) = .ok (a, b) [] := by
  obtain ⟨g1, x, g2, y, g3, rfl, hg1, ha, hg2, hb, hg3⟩ := h
  exact prefix_two hg1 (h1 _ _ ha).1 (h1 _ _ ha).2 hg2 hq (h2 _ _ hb).1 (h2 _ _ hb).2 hg3 [] trivial

/-- The keyword of a form. -/
def Head (kw t : List Char) : Prop := ∃ u, t = paren (kw ++ u)

theorem Listed.head {kw : List Char} {R : α → List Char → Prop} {vs : List α} {t : List Char}
    (h : Listed kw R vs t) : Head kw t := ⟨_, h.choose_spec.1⟩
theorem Wrapped.head {kw : List Char} {R : α → List Char → Prop} {v : α} {t : List Char}
    (h : Wrapped kw R v t) : Head kw t := by
  obtain ⟨_, _, _, rfl, _⟩ := h
  exact ⟨_, rfl⟩
theorem Paired.head {kw : List Char} {R : α → List Char → Prop} {S : β → List Char → Prop} {a : α}
    {b : β} {t : List Char} (h : Paired kw R S a b t) : Head kw t := by
  obtain ⟨_, _, _, _, _, rfl, _⟩ := h
  exact ⟨_, rfl⟩

theorem Head.miss {kw kw' t : List Char} {p : P α} {f : α → β} (h : Head kw' t)
    (hk : ∀ x, stripPrefix kw (kw' ++ x) = none) : Pddl.map f (prefixExpr kw p) (t ++ []) = .err := by
  obtain ⟨u, rfl⟩ := h
  exact map_err (kw_miss hk u [])

theorem Head.longer {kw kw' tl t : List Char} {c : Char} {p : P α} {f : α → β} (h : Head kw' t)
    (hp : Par p) (hk : ∀ x, stripPrefix kw (kw' ++ x) = some (c :: (tl ++ x)))
    (hc : isWordChar c = true) : Pddl.map f (prefixExpr kw p) (t ++ []) = .err := by
  obtain ⟨u, rfl⟩ := h
  exact map_err (kw_longer hp hk hc u [])

/-- The next alternative builds another kind of value. -/
local macro "other" h:ident : tactic => `(tactic|
  (rcases alt_inv $h with e | ⟨_, $h⟩
   · (obtain ⟨_, _, e⟩ := map_ok e; cases e)))

/-- The next alternative expects another keyword. -/
local macro "miss" h:ident : tactic => `(tactic| rw [alt_miss (Head.miss ($h).head (fun _ => rfl))])

theorem parseVarList_parts : Snd Any Gap parseVarList (ReadsAs parseVarList) :=
  parseVarList_shed.snd C27_variable_lists C28_variable_lists
theorem parseGd_parts : Snd Any Gap parseGd (ReadsAs parseGd) := parseGd_shed.snd C27_goals C28_goals

/-! ## Goals -/

theorem C73_goal_and {vs : List GD} {t : List Char} :
    ReadsAs parseGd (.and vs) t ↔
      Listed c!"and" (ReadsAs parseGd) vs t := by
  constructor
  · rintro ⟨ht, h⟩
    rw [parseGd_eq, gdBody] at h
    rcases alt_inv h with h | ⟨_, h⟩
    · obtain ⟨x, h1, e⟩ := map_ok h
      cases e
      exact listed_inv parseGd_parts readsAs_nonE ht h1
    · other h
      other h
      other h
      other h
      other h
      other h
      other h
      other h
      cases h
  · intro h
    refine .of h.solid ?_
    rw [parseGd_eq, gdBody]
    exact alt_hit (map_run (h.run C28_goals parseGd_par))

theorem C73_goal_or {vs : List GD} {t : List Char} :
    ReadsAs parseGd (.or vs) t ↔
      Listed c!"or" (ReadsAs parseGd) vs t := by
  constructor
  · rintro ⟨ht, h⟩
    rw [parseGd_eq, gdBody] at h
    other h
    rcases alt_inv h with h | ⟨_, h⟩
    · obtain ⟨x, h1, e⟩ := map_ok h
      cases e
      exact listed_inv parseGd_parts readsAs_nonE ht h1
    · other h
      other h
      other h
      other h
      other h
      other h
      other h
      cases h
  · intro h
    refine .of h.solid ?_
    rw [parseGd_eq, gdBody]
    miss h
    exact alt_hit (map_run (h.run C28_goals parseGd_par))

theorem C73_goal_not {v : GD} {t : List Char} :
    ReadsAs parseGd (.not v) t ↔
      Wrapped c!"not" (ReadsAs parseGd) v t := by
  constructor
  · rintro ⟨ht, h⟩
    rw [parseGd_eq, gdBody] at h
    other h
    other h
    rcases alt_inv h with h | ⟨_, h⟩
    · obtain ⟨x, h1, e⟩ := map_ok h
      cases e
      exact wrapped_inv parseGd_parts ht h1
    · other h
      other h
      other h
      other h
      other h
      other h
      cases h
  · intro h
    refine .of h.solid ?_
    rw [parseGd_eq, gdBody]
    miss h
    miss h
    exact alt_hit (map_run (h.run (ReadsAs.elem C28_goals)))

theorem C73_goal_imply {a : GD} {b : GD} {t : List Char} :
    ReadsAs parseGd (.imply a b) t ↔
      Paired c!"imply" (ReadsAs parseGd) (ReadsAs parseGd) a b t := by
  constructor
  · rintro ⟨ht, h⟩
    rw [parseGd_eq, gdBody] at h
    other h
    other h
    other h
    rcases alt_inv h with h | ⟨_, h⟩
    · obtain ⟨x, h1, e⟩ := map_ok h
      cases e
      exact paired_inv parseGd_parts (fun _ => id) parseGd_parts ht h1
    · other h
      other h
      other h
      other h
      other h
      cases h
  · intro h
    refine .of h.solid ?_
    rw [parseGd_eq, gdBody]
    miss h
    miss h
    miss h
    exact alt_hit (map_run (a := (a, b)) (h.run (ReadsAs.elem C28_goals) (ReadsAs.elem C28_goals) parseGd_ct))

theorem C73_goal_exists {a : TypedList Name} {b : GD} {t : List Char} :
    ReadsAs parseGd (.exist a b) t ↔
      Paired c!"exists" (ReadsAs parseVarList) (ReadsAs parseGd) a b t := by
  constructor
  · rintro ⟨ht, h⟩
    rw [parseGd_eq, gdBody] at h
    other h
    other h
    other h
    other h
    rcases alt_inv h with h | ⟨_, h⟩
    · obtain ⟨x, h1, e⟩ := map_ok h
      cases e
      exact paired_inv parseVarList_parts (fun _ => id) parseGd_parts ht h1
    · other h
      other h
      other h
      other h
      cases h
  · intro h
    refine .of h.solid ?_
    rw [parseGd_eq, gdBody]
    miss h
    miss h
    miss h
    miss h
    exact alt_hit (map_run (a := (a, b)) (h.run (ReadsAs.elem C28_variable_lists) (ReadsAs.elem C28_goals) parseGd_ct))

theorem C73_goal_forall {a : TypedList Name} {b : GD} {t : List Char} :
    ReadsAs parseGd (.forall_ a b) t ↔
      Paired c!"forall" (ReadsAs parseVarList) (ReadsAs parseGd) a b t := by
  constructor
  · rintro ⟨ht, h⟩
    rw [parseGd_eq, gdBody] at h
    other h
    other h
    other h
    other h
    other h
    rcases alt_inv h with h | ⟨_, h⟩
    · obtain ⟨x, h1, e⟩ := map_ok h
      cases e
      exact paired_inv parseVarList_parts (fun _ => id) parseGd_parts ht h1
    · other h
      other h
      other h
      cases h
  · intro h
    refine .of h.solid ?_
    rw [parseGd_eq, gdBody]
    miss h
    miss h
    miss h
    miss h
    miss h
    exact alt_hit (map_run (a := (a, b)) (h.run (ReadsAs.elem C28_variable_lists) (ReadsAs.elem C28_goals) parseGd_ct))

/-! ## Conditional effects -/

theorem parsePEffect_parts : Snd Any Gap parsePEffect (ReadsAs parsePEffect) :=
  parsePEffect_shed.snd C27_p_effects C28_p_effects
theorem parseCondEffect_parts : Snd Any Gap parseCondEffect (ReadsAs parseCondEffect) :=
  parseCondEffect_shed.snd C27_cond_effects C28_cond_effects
theorem parseCEffect_parts : Snd Any Gap parseCEffect (ReadsAs parseCEffect) :=
  parseCEffect_shed.snd C27_c_effects C28_c_effects
theorem parseEffect_parts : Snd Any Gap parseEffect (ReadsAs parseEffect) :=
  parseEffect_shed.snd C27_effects C28_effects

theorem C73_cond_effect_and {vs : List PEffect} {t : List Char} :
    ReadsAs parseCondEffect (.all vs) t ↔
      Listed c!"and" (ReadsAs parsePEffect) vs t := by
  constructor
  · rintro ⟨ht, h⟩
    rw [parseCondEffect] at h
    rcases alt_inv h with h | ⟨_, h⟩
    · obtain ⟨x, h1, e⟩ := map_ok h
      cases e
      exact listed_inv parsePEffect_parts readsAs_nonE ht h1
    · other h
      cases h
  · intro h
    refine .of h.solid ?_
    rw [parseCondEffect]
    exact alt_hit (map_run (h.run C28_p_effects parsePEffect_par))

theorem C73_effect_forall {a : TypedList Name} {b : List CEffect} {t : List Char} :
    ReadsAs parseCEffect (.forall_ a b) t ↔
      Paired c!"forall" (ReadsAs parseVarList) (ReadsAs parseEffect) a b t := by
  constructor
  · rintro ⟨ht, h⟩
    rw [parseCEffect_eq, cEffectBody] at h
    rcases alt_inv h with h | ⟨_, h⟩
    · obtain ⟨x, h1, e⟩ := map_ok h
      cases e
      exact paired_inv parseVarList_parts (fun _ => id) parseEffect_parts ht h1
    · other h
      other h
      cases h
  · intro h
    refine .of h.solid ?_
    rw [parseCEffect_eq, cEffectBody]
    exact alt_hit (map_run (a := (a, b)) (h.run (ReadsAs.elem C28_variable_lists) (ReadsAs.elem C28_effects) parseEffect_ct))

theorem C73_effect_when {a : GD} {b : CondEffect} {t : List Char} :
    ReadsAs parseCEffect (.when a b) t ↔
      Paired c!"when" (ReadsAs parseGd) (ReadsAs parseCondEffect) a b t := by
  constructor
  · rintro ⟨ht, h⟩
    rw [parseCEffect_eq, cEffectBody, forallCEffectOf] at h
    other h
    rcases alt_inv h with h | ⟨_, h⟩
    · obtain ⟨x, h1, e⟩ := map_ok h
      cases e
      exact paired_inv parseGd_parts (fun _ => id) parseCondEffect_parts ht h1
    · other h
      cases h
  · intro h
    refine .of h.solid ?_
    rw [parseCEffect_eq, cEffectBody, forallCEffectOf]
    miss h
    exact alt_hit (map_run (a := (a, b)) (h.run (ReadsAs.elem C28_goals) (ReadsAs.elem C28_cond_effects) parseCondEffect_ct))

/-! ## Durative actions -/

theorem parseTimedGd_parts : Snd Any Gap parseTimedGd (ReadsAs parseTimedGd) :=
  C29_timed_goals.shed.snd C27_timed_goals C28_timed_goals
theorem parsePrefTimedGd_parts : Snd Any Gap parsePrefTimedGd (ReadsAs parsePrefTimedGd) :=
  C29_pref_timed_goals.shed.snd C27_pref_timed_goals C28_pref_timed_goals
theorem parseDaGd_parts : Snd Any Gap parseDaGd (ReadsAs parseDaGd) :=
  C29_da_conditions.shed.snd C27_da_conditions C28_da_conditions
theorem parseTimedEffect_parts : Snd Any Gap parseTimedEffect (ReadsAs parseTimedEffect) :=
  parseTimedEffect_shed.snd C27_timed_effects C28_timed_effects
theorem parseDaEffect_parts : Snd Any Gap parseDaEffect (ReadsAs parseDaEffect) :=
  parseDaEffect_shed.snd C27_da_effects C28_da_effects

theorem C73_da_condition_forall {a : TypedList Name} {b : DaGD} {t : List Char} :
    ReadsAs parseDaGd (.forall_ a b) t ↔
      Paired c!"forall" (ReadsAs parseVarList) (ReadsAs parseDaGd) a b t := by
  constructor
  · rintro ⟨ht, h⟩
    rw [parseDaGd_eq, daGdBody] at h
    rcases alt_inv h with h | ⟨_, h⟩
    · obtain ⟨x, h1, e⟩ := map_ok h
      cases e
      exact paired_inv parseVarList_parts (fun _ => id) parseDaGd_parts ht h1
    · other h
      other h
      cases h
  · intro h
    refine .of h.solid ?_
    rw [parseDaGd_eq, daGdBody]
    exact alt_hit (map_run (a := (a, b)) (h.run (ReadsAs.elem C28_variable_lists) (ReadsAs.elem C28_da_conditions) parseDaGd_ct))

theorem C73_da_condition_and {vs : List DaGD} {t : List Char} :
    ReadsAs parseDaGd (.and vs) t ↔
      Listed c!"and" (ReadsAs parseDaGd) vs t := by
  constructor
  · rintro ⟨ht, h⟩
    rw [parseDaGd_eq, daGdBody] at h
    other h
    rcases alt_inv h with h | ⟨_, h⟩
    · obtain ⟨x, h1, e⟩ := map_ok h
      cases e
      exact listed_inv parseDaGd_parts readsAs_nonE ht h1
    · other h
      cases h
  · intro h
    refine .of h.solid ?_
    rw [parseDaGd_eq, daGdBody]
    miss h
    exact alt_hit (map_run (h.run C28_da_conditions parseDaGd_par))

theorem C73_da_effect_and {vs : List DaEffect} {t : List Char} :
    ReadsAs parseDaEffect (.all vs) t ↔
      Listed c!"and" (ReadsAs parseDaEffect) vs t := by
  constructor
  · rintro ⟨ht, h⟩
    rw [parseDaEffect_eq, daEffectBody] at h
    rcases alt_inv h with h | ⟨_, h⟩
    · obtain ⟨x, h1, e⟩ := map_ok h
      cases e
      exact listed_inv parseDaEffect_parts readsAs_nonE ht h1
    · other h
      other h
      other h
      cases h
  · intro h
    refine .of h.solid ?_
    rw [parseDaEffect_eq, daEffectBody]
    exact alt_hit (map_run (h.run C28_da_effects parseDaEffect_par))

theorem C73_da_effect_forall {a : TypedList Name} {b : DaEffect} {t : List Char} :
    ReadsAs parseDaEffect (.forall_ a b) t ↔
      Paired c!"forall" (ReadsAs parseVarList) (ReadsAs parseDaEffect) a b t := by
  constructor
  · rintro ⟨ht, h⟩
    rw [parseDaEffect_eq, daEffectBody] at h
    other h
    rcases alt_inv h with h | ⟨_, h⟩
    · obtain ⟨x, h1, e⟩ := map_ok h
      cases e
      exact paired_inv parseVarList_parts (fun _ => id) parseDaEffect_parts ht h1
    · other h
      other h
      cases h
  · intro h
    refine .of h.solid ?_
    rw [parseDaEffect_eq, daEffectBody]
    miss h
    exact alt_hit (map_run (a := (a, b)) (h.run (ReadsAs.elem C28_variable_lists) (ReadsAs.elem C28_da_effects) parseDaEffect_ct))

theorem C73_da_effect_when {a : DaGD} {b : TimedEffect} {t : List Char} :
    ReadsAs parseDaEffect (.when a b) t ↔
      Paired c!"when" (ReadsAs parseDaGd) (ReadsAs parseTimedEffect) a b t := by
  constructor
  · rintro ⟨ht, h⟩
    rw [parseDaEffect_eq, daEffectBody] at h
    other h
    other h
    rcases alt_inv h with h | ⟨_, h⟩
    · obtain ⟨x, h1, e⟩ := map_ok h
      cases e
      exact paired_inv parseDaGd_parts (fun _ => id) parseTimedEffect_parts ht h1
    · other h
      cases h
  · intro h
    refine .of h.solid ?_
    rw [parseDaEffect_eq, daEffectBody]
    miss h
    miss h
    exact alt_hit (map_run (a := (a, b)) (h.run (ReadsAs.elem C28_da_conditions) (ReadsAs.elem C28_timed_effects) parseTimedEffect_ct))

theorem C73_timed_at {a : TimeSpecifier} {b : GD} {t : List Char} :
    ReadsAs parseTimedGd (.at a b) t ↔
      Paired c!"at" (fun o x => x = TimeSpecifier.spell o) (ReadsAs parseGd) a b t := by
  constructor
  · rintro ⟨ht, h⟩
    rw [parseTimedGd] at h
    rcases alt_inv h with h | ⟨_, h⟩
    · obtain ⟨x, h1, e⟩ := map_ok h
      cases e
      exact paired_inv parseTimeSpecifier_snd Nil.gap parseGd_parts ht h1
    · other h
      cases h
  · intro h
    refine .of h.solid ?_
    rw [parseTimedGd]
    exact alt_hit (map_run (a := (a, b)) (h.run (fun v _ e => e ▸ TimeSpecifier.elem v) (ReadsAs.elem C28_goals) parseGd_ct))

theorem C73_timed_over {a : Interval} {b : GD} {t : List Char} :
    ReadsAs parseTimedGd (.over a b) t ↔
      Paired c!"over" (fun o x => x = Interval.spell o) (ReadsAs parseGd) a b t := by
  constructor
  · rintro ⟨ht, h⟩
    rw [parseTimedGd] at h
    other h
    rcases alt_inv h with h | ⟨_, h⟩
    · obtain ⟨x, h1, e⟩ := map_ok h
      cases e
      exact paired_inv parseInterval_snd Nil.gap parseGd_parts ht h1
    · cases h
  · intro h
    refine .of h.solid ?_
    rw [parseTimedGd]
    miss h
    exact alt_hit (map_run (a := (a, b)) (h.run (fun v _ e => e ▸ Interval.elem v) (ReadsAs.elem C28_goals) parseGd_ct))

/-! ## Constraints -/

theorem parseConGd_parts : Snd Any Gap parseConGd (ReadsAs parseConGd) :=
  C29_constraints.shed.snd C27_constraints C28_constraints
theorem parsePrefConGd_parts : Snd Any Gap parsePrefConGd (ReadsAs parsePrefConGd) :=
  C29_pref_constraints.shed.snd C27_pref_constraints C28_pref_constraints

theorem C73_constraint_and {vs : List ConGD} {t : List Char} :
    ReadsAs parseConGd (.and vs) t ↔
      Listed c!"and" (ReadsAs parseConGd) vs t := by
  constructor
  · rintro ⟨ht, h⟩
    rw [parseConGd_eq, conGdBody] at h
    rcases alt_inv h with h | ⟨_, h⟩
    · obtain ⟨x, h1, e⟩ := map_ok h
      cases e
      exact listed_inv parseConGd_parts readsAs_nonE ht h1
    · other h
      other h
      other h
      other h
      other h
      other h
      other h
      other h
      other h
      other h
      other h
      cases h
  · intro h
    refine .of h.solid ?_
    rw [parseConGd_eq, conGdBody]
    exact alt_hit (map_run (h.run C28_constraints parseConGd_par))

theorem C73_constraint_forall {a : TypedList Name} {b : ConGD} {t : List Char} :
    ReadsAs parseConGd (.forall_ a b) t ↔
      Paired c!"forall" (ReadsAs parseVarList) (ReadsAs parseConGd) a b t := by
  constructor
  · rintro ⟨ht, h⟩
    rw [parseConGd_eq, conGdBody] at h
    other h
    rcases alt_inv h with h | ⟨_, h⟩
    · obtain ⟨x, h1, e⟩ := map_ok h
      cases e
      exact paired_inv parseVarList_parts (fun _ => id) parseConGd_parts ht h1
    · other h
      other h
      other h
      other h
      other h
      other h
      other h
      other h
      other h
      other h
      cases h
  · intro h
    refine .of h.solid ?_
    rw [parseConGd_eq, conGdBody]
    miss h
    exact alt_hit (map_run (a := (a, b)) (h.run (ReadsAs.elem C28_variable_lists) (ReadsAs.elem C28_constraints) parseConGd_ct))

theorem C73_constraint_at_end {v : GD} {t : List Char} :
    ReadsAs parseConGd (.atEnd v) t ↔
      Wrapped c!"at end" (ReadsAs parseGd) v t := by
  constructor
  · rintro ⟨ht, h⟩
    rw [parseConGd_eq, conGdBody] at h
    other h
    other h
    rcases alt_inv h with h | ⟨_, h⟩
    · obtain ⟨x, h1, e⟩ := map_ok h
      cases e
      exact wrapped_inv parseGd_parts ht h1
    · other h
      other h
      other h
      other h
      other h
      other h
      other h
      other h
      other h
      cases h
  · intro h
    refine .of h.solid ?_
    rw [parseConGd_eq, conGdBody]
    miss h
    miss h
    exact alt_hit (map_run (h.run (ReadsAs.elem C28_goals)))

/-! Constraints on goals or nested constraints. Whether an argument is one or the other depends on the
layout in front of it (`C29`), but the layout is gone when the argument is read. -/

/-- `(kw x y z)`. -/
def Tripled (kw : List Char) (R : α → List Char → Prop) (G : List Char → Prop)
    (S : β → List Char → Prop) (T : γ → List Char → Prop) (a : α) (b : β) (c : γ) (t : List Char) :
    Prop :=
  ∃ g1 x g2 y g3 z g4, t = paren (kw ++ (g1 ++ (x ++ (g2 ++ (y ++ (g3 ++ (z ++ g4))))))) ∧ Gap g1 ∧
    R a x ∧ G g2 ∧ S b y ∧ Sep g3 ∧ T c z ∧ Gap g4

theorem Gap.nil_of_solid {g t : List Char} (hg : Gap g) (h : Solid (g ++ t)) : g = [] := by
  cases hg with
  | nil => rfl
  | space hc =>
    obtain ⟨c, x, e, h1, _⟩ := h
    cases e
    exact absurd hc (by simp [h1])
  | comment =>
    obtain ⟨c, x, e, _, h1⟩ := h
    cases e
    exact absurd rfl h1

/-- Read at a place where there is no layout. -/
theorem stable_inv {p : P α} (h1 : OneFormOnly p) (h2 : TailBlind p) {s r : List Char} {v : α}
    (hs : skip s = s) (h : p s = .ok v r) : ∃ t, s = t ++ r ∧ ReadsAs p v t := by
  obtain ⟨g, t, rfl, hg, ht⟩ := h1 s v r h
  rw [hg.skip_solid (ht.solid.append r)] at hs
  have hg : g = [] := by
    have := congrArg List.length hs
    simp only [List.length_append] at this
    exact List.eq_nil_of_length_eq_zero (by omega)
  subst hg
  refine ⟨t, rfl, ht.solid, ?_⟩
  have := h2 t r v h []
  rwa [List.append_nil] at this

/-- An argument after spaces. -/
theorem ct_arg {F : List Char → Prop} {p : P α} (hc : Ct p) (h1 : OneFormOnly p) (h2 : TailBlind p) :
    Snd F Sep (preceded multispace1 p) (ReadsAs p) := fun s v r hs _ => by
  obtain ⟨w, r1, h3, h4⟩ := preceded_ok hs
  obtain ⟨rfl, hw, hsp⟩ := ms1_inv h3
  have hr1 : r1 = (w ++ r1).dropWhile isSpace := by
    unfold multispace1 takeWhile1 at h3
    split at h3
    · cases h3
    · exact (Res.ok.inj h3).2.symm
  have hk : skip (w ++ r1) = skipC r1 := by rw [skip, ← hr1]
  rw [← hc, ← hk] at h4
  obtain ⟨t, ht, hv⟩ := stable_inv h1 h2 (skip_skip _) h4
  obtain ⟨g, hg1, hg2⟩ := skip_gap (s := w ++ r1) (by rw [ht]; exact (hv.1.append r).ne)
  refine ⟨g, t, by rw [← ht]; exact hg1, ?_, hv⟩
  cases w with
  | nil => exact absurd rfl hw
  | cons c w =>
    have hc := hsp c (by simp)
    cases hg2 with
    | nil =>
      rw [List.nil_append, ht, List.cons_append] at hg1
      have hsol := hv.1.append r
      rw [← hg1] at hsol
      obtain ⟨d, x, e, h5, _⟩ := hsol
      cases e
      exact absurd hc (by simp [h5])
    | space h h' => exact .mk h h'
    | comment =>
      rw [List.cons_append] at hg1
      have := (List.cons.inj hg1).1
      subst this
      exact absurd hc (by decide)

theorem number_arg {F : List Char → Prop} : Snd F Sp (preceded multispace1 parseNumber) NumW :=
  fun s v r hs _ => by
  obtain ⟨w, r1, h3, h4⟩ := preceded_ok hs
  obtain ⟨rfl, hw⟩ := ms1_inv h3
  obtain ⟨g, t, rfl, rfl, hv⟩ := parseNumber_snd r1 v r h4 trivial
  exact ⟨w, t, rfl, hw, hv⟩

/-- What follows the keyword. -/
theorem form_inv {kw : List Char} {p : P α} {v : α} {t : List Char} (hp : ∀ v r, p [] ≠ .ok v r)
    (ht : Solid t)
    (h : prefixExpr kw p t = .ok v []) : ∃ g1 x g2, t = '(' :: (kw ++ (g1 ++ x)) ∧ Gap g1 ∧ Gap g2 ∧
      skip x = x ∧ p x = .ok v (g2 ++ [')']) := by
  obtain ⟨g, x, y, rfl, hg, h1, h2⟩ := prefixExpr_inv h
  obtain rfl := hg.nil_of_solid ht
  obtain ⟨g2, hy, hg2⟩ := skip_gap (s := y) (by rw [h2]; simp)
  rw [h2] at hy
  subst hy
  by_cases hx : skip x = []
  · rw [hx] at h1
    exact absurd h1 (hp _ _)
  · obtain ⟨g1, hx1, hg1⟩ := skip_gap hx
    exact ⟨g1, skip x, g2, by rw [← hx1]; rfl, hg1, hg2, skip_skip x, h1⟩

theorem OneFormOnly.nil {p : P α} (h : OneFormOnly p) (v : α) (r : List Char) : p [] ≠ .ok v r := fun e => by
  obtain ⟨g, t, e, _, ht⟩ := h _ _ _ e
  have : t = [] := by
    have := congrArg List.length e
    simp only [List.length_append, List.length_nil] at this
    exact List.eq_nil_of_length_eq_zero (by omega)
  exact ht.solid.ne this

theorem wrapped_stable {kw : List Char} {p : P α} (h1 : OneFormOnly p) (h2 : TailBlind p) {v : α}
    {t : List Char} (ht : Solid t) (h : prefixExpr kw p t = .ok v []) : Wrapped kw (ReadsAs p) v t := by
  obtain ⟨g1, x, g2, rfl, hg1, hg2, hx, h3⟩ := form_inv h1.nil ht h
  obtain ⟨u, rfl, hu⟩ := stable_inv h1 h2 hx h3
  exact ⟨g1, u, g2, by simp [paren], hg1, hu, hg2⟩

theorem paired_stable {kw : List Char} {p : P α} {q : P β} {S : β → List Char → Prop}
    (h1 : OneFormOnly p) (h2 : TailBlind p) (h' : Snd Any Sep (preceded multispace1 q) S)
    {a : α} {b : β} {t : List Char} (ht : Solid t)
    (h : prefixExpr kw (pair p (preceded multispace1 q)) t = .ok (a, b) []) :
    Paired kw (ReadsAs p) S a b t := by
  obtain ⟨g1, x, g2, rfl, hg1, hg2, hx, h3⟩ := form_inv (fun v r e => by
    obtain ⟨r1, h3, _⟩ := pair_ok e
    exact h1.nil _ _ h3) ht h
  obtain ⟨r1, h4, h5⟩ := pair_ok h3
  obtain ⟨u, rfl, hu⟩ := stable_inv h1 h2 hx h4
  obtain ⟨g, w, rfl, hg, hw⟩ := h' _ _ _ h5 trivial
  exact ⟨g1, u, g, w, g2, by simp [paren], hg1, hu, hg, hw, hg2⟩

theorem con2_arg : Snd Any Sep (preceded multispace1 (con2Of parseConGd)) (ReadsAs parseCon2Gd) :=
  ct_arg (p := parseCon2Gd) parseCon2Gd_ct C27_nested_constraints C28_nested_constraints

theorem paired_num {kw : List Char} {a : Number} {b : Con2GD} {t : List Char} (ht : Solid t)
    (h : prefixExpr kw (pair parseNumber (preceded multispace1 (con2Of parseConGd))) t = .ok (a, b) []) :
    Paired kw NumW (ReadsAs parseCon2Gd) a b t := by
  have := snd_inv (R := fun x : Number × Con2GD => Paired kw NumW (ReadsAs parseCon2Gd) x.1 x.2)
    (Snd.kw2 (kw := kw) (f := id) parseNumber_snd con2_arg.anyF Nil.gap
    fun h1 h2 h3 h4 h5 => ⟨_, _, _, _, _, rfl, h1, h2, h3, h4, h5⟩) ht (map_run h)
  exact this

theorem tripled_inv {kw : List Char} {q : P β} {r : P γ} {G : List Char → Prop}
    {S : β → List Char → Prop} {T : γ → List Char → Prop} (h1 : Snd Any G (preceded multispace1 q) S)
    (h2 : Snd Any Sep (preceded multispace1 r) T) {a : Number} {b : β} {c : γ} {t : List Char}
    (ht : Solid t)
    (h : prefixExpr kw (pair parseNumber (pair (preceded multispace1 q) (preceded multispace1 r))) t
      = .ok (a, b, c) []) : Tripled kw NumW G S T a b c t := by
  have := snd_inv (R := fun x : Number × β × γ => Tripled kw NumW G S T x.1 x.2.1 x.2.2)
    (Snd.kw2 (kw := kw) (f := id) parseNumber_snd (Snd.pair h1 h2.anyF) Nil.gap (by
      rintro g1 a t1 g2 ⟨b, c⟩ t2 g3 hg1 ha hg2 ⟨u, g, v, rfl, hb, hg, hc⟩ hg3
      exact ⟨g1, t1, g2, u, g, v, g3, by simp, hg1, ha, hg2, hb, hg, hc, hg3⟩)) ht (map_run h)
  exact this

theorem Tripled.head {kw : List Char} {R : α → List Char → Prop} {G : List Char → Prop}
    {S : β → List Char → Prop} {T : γ → List Char → Prop} {a : α} {b : β} {c : γ} {t : List Char}
    (h : Tripled kw R G S T a b c t) : Head kw t := by
  obtain ⟨_, _, _, _, _, _, _, rfl, _⟩ := h
  exact ⟨_, rfl⟩

theorem Tripled.solid {kw : List Char} {R : α → List Char → Prop} {G : List Char → Prop}
    {S : β → List Char → Prop} {T : γ → List Char → Prop} {a : α} {b : β} {c : γ} {t : List Char}
    (h : Tripled kw R G S T a b c t) : Solid t := by
  obtain ⟨_, rfl⟩ := h.head
  exact solid_paren _

/-- `parse_con2_gd` inside `parse_con_gd`. -/
theorem con2_elem : ∀ v t, ReadsAs parseCon2Gd v t → Elem (con2Of parseConGd) v t :=
  ReadsAs.elem (p := parseCon2Gd) C28_nested_constraints
theorem con2_ct : Ct (con2Of parseConGd) := parseCon2Gd_ct
theorem con2_par : Par (con2Of parseConGd) := parseCon2Gd_par
theorem num_elem (v : Number) (t : List Char) (h : NumW v t) : Elem parseNumber v t := h.elem

theorem C73_constraint_always {v : Con2GD} {t : List Char} :
    ReadsAs parseConGd (.always v) t ↔
      Wrapped c!"always" (ReadsAs parseCon2Gd) v t := by
  constructor
  · rintro ⟨ht, h⟩
    rw [parseConGd_eq, conGdBody] at h
    other h
    other h
    other h
    rcases alt_inv h with h | ⟨_, h⟩
    · obtain ⟨x, h1, e⟩ := map_ok h
      cases e
      exact wrapped_stable (p := parseCon2Gd) C27_nested_constraints C28_nested_constraints ht h1
    · other h
      other h
      other h
      other h
      other h
      other h
      other h
      other h
      cases h
  · intro h
    refine .of h.solid ?_
    rw [parseConGd_eq, conGdBody]
    miss h
    miss h
    miss h
    exact alt_hit (map_run (h.run con2_elem))

theorem C73_constraint_sometime {v : Con2GD} {t : List Char} :
    ReadsAs parseConGd (.sometime v) t ↔
      Wrapped c!"sometime" (ReadsAs parseCon2Gd) v t := by
  constructor
  · rintro ⟨ht, h⟩
    rw [parseConGd_eq, conGdBody] at h
    other h
    other h
    other h
    other h
    rcases alt_inv h with h | ⟨_, h⟩
    · obtain ⟨x, h1, e⟩ := map_ok h
      cases e
      exact wrapped_stable (p := parseCon2Gd) C27_nested_constraints C28_nested_constraints ht h1
    · other h
      other h
      other h
      other h
      other h
      other h
      other h
      cases h
  · intro h
    refine .of h.solid ?_
    rw [parseConGd_eq, conGdBody]
    miss h
    miss h
    miss h
    miss h
    exact alt_hit (map_run (h.run con2_elem))

theorem C73_constraint_at_most_once {v : Con2GD} {t : List Char} :
    ReadsAs parseConGd (.atMostOnce v) t ↔
      Wrapped c!"at-most-once" (ReadsAs parseCon2Gd) v t := by
  constructor
  · rintro ⟨ht, h⟩
    rw [parseConGd_eq, conGdBody] at h
    other h
    other h
    other h
    other h
    other h
    other h
    rcases alt_inv h with h | ⟨_, h⟩
    · obtain ⟨x, h1, e⟩ := map_ok h
      cases e
      exact wrapped_stable (p := parseCon2Gd) C27_nested_constraints C28_nested_constraints ht h1
    · other h
      other h
      other h
      other h
      other h
      cases h
  · intro h
    refine .of h.solid ?_
    rw [parseConGd_eq, conGdBody]
    miss h
    miss h
    miss h
    miss h
    miss h
    miss h
    exact alt_hit (map_run (h.run con2_elem))

theorem C73_constraint_within {a : Number} {b : Con2GD} {t : List Char} :
    ReadsAs parseConGd (.within a b) t ↔
      Paired c!"within" NumW (ReadsAs parseCon2Gd) a b t := by
  constructor
  · rintro ⟨ht, h⟩
    rw [parseConGd_eq, conGdBody] at h
    other h
    other h
    other h
    other h
    other h
    rcases alt_inv h with h | ⟨_, h⟩
    · obtain ⟨x, h1, e⟩ := map_ok h
      cases e
      exact paired_num ht h1
    · other h
      other h
      other h
      other h
      other h
      other h
      cases h
  · intro h
    refine .of h.solid ?_
    rw [parseConGd_eq, conGdBody]
    miss h
    miss h
    miss h
    miss h
    miss h
    exact alt_hit (map_run (a := (a, b)) (h.run num_elem con2_elem con2_ct))

theorem C73_constraint_hold_after {a : Number} {b : Con2GD} {t : List Char} :
    ReadsAs parseConGd (.holdAfter a b) t ↔
      Paired c!"hold-after" NumW (ReadsAs parseCon2Gd) a b t := by
  constructor
  · rintro ⟨ht, h⟩
    rw [parseConGd_eq, conGdBody] at h
    other h
    other h
    other h
    other h
    other h
    other h
    other h
    other h
    other h
    other h
    other h
    rcases alt_inv h with h | ⟨_, h⟩
    · obtain ⟨x, h1, e⟩ := map_ok h
      cases e
      exact paired_num ht h1
    · cases h
  · intro h
    refine .of h.solid ?_
    rw [parseConGd_eq, conGdBody]
    miss h
    miss h
    miss h
    miss h
    miss h
    miss h
    miss h
    miss h
    miss h
    miss h
    miss h
    exact alt_hit (map_run (a := (a, b)) (h.run num_elem con2_elem con2_ct))

theorem C73_constraint_sometime_after {a b : Con2GD} {t : List Char} :
    ReadsAs parseConGd (.sometimeAfter a b) t ↔
      Paired c!"sometime-after" (ReadsAs parseCon2Gd) (ReadsAs parseCon2Gd) a b t := by
  constructor
  · rintro ⟨ht, h⟩
    rw [parseConGd_eq, conGdBody] at h
    other h
    other h
    other h
    other h
    other h
    other h
    other h
    rcases alt_inv h with h | ⟨_, h⟩
    · obtain ⟨x, h1, e⟩ := map_ok h
      cases e
      exact paired_stable (p := parseCon2Gd) C27_nested_constraints C28_nested_constraints con2_arg ht h1
    · other h
      other h
      other h
      other h
      cases h
  · intro h
    refine .of h.solid ?_
    rw [parseConGd_eq, conGdBody]
    miss h
    miss h
    miss h
    miss h
    rw [alt_miss (Head.longer h.head con2_par (tl := c!"after") (fun _ => rfl) (by decide))]
    miss h
    miss h
    exact alt_hit (map_run (a := (a, b)) (h.run con2_elem con2_elem con2_ct))

theorem C73_constraint_sometime_before {a b : Con2GD} {t : List Char} :
    ReadsAs parseConGd (.sometimeBefore a b) t ↔
      Paired c!"sometime-before" (ReadsAs parseCon2Gd) (ReadsAs parseCon2Gd) a b t := by
  constructor
  · rintro ⟨ht, h⟩
    rw [parseConGd_eq, conGdBody] at h
    other h
    other h
    other h
    other h
    other h
    other h
    other h
    other h
    rcases alt_inv h with h | ⟨_, h⟩
    · obtain ⟨x, h1, e⟩ := map_ok h
      cases e
      exact paired_stable (p := parseCon2Gd) C27_nested_constraints C28_nested_constraints con2_arg ht h1
    · other h
      other h
      other h
      cases h
  · intro h
    refine .of h.solid ?_
    rw [parseConGd_eq, conGdBody]
    miss h
    miss h
    miss h
    miss h
    rw [alt_miss (Head.longer h.head con2_par (tl := c!"before") (fun _ => rfl) (by decide))]
    miss h
    miss h
    miss h
    exact alt_hit (map_run (a := (a, b)) (h.run con2_elem con2_elem con2_ct))

theorem Tripled.run {kw : List Char} {q : P β} {r : P γ} {G : List Char → Prop}
    {S : β → List Char → Prop} {T : γ → List Char → Prop} {a : Number} {b : β} {c : γ} {t : List Char}
    (h : Tripled kw NumW G S T a b c t) (h1 : ∀ g, G g → Sep g ∧ (Ct q ∨ Sp g))
    (h2 : ∀ v t, S v t → Elem q v t) (h3 : ∀ v t, T v t → Elem r v t) (hr : Ct r) :
    prefixExpr kw (pair parseNumber (pair (preceded multispace1 q) (preceded multispace1 r))) (t ++ []) =
      .ok (a, b, c) [] := by
  obtain ⟨g1, x, g2, y, g3, z, g4, rfl, hg1, ha, hg2, hb, hg3, hc, hg4⟩ := h
  exact prefix_three hg1 ha.elem (h1 _ hg2).1 (h1 _ hg2).2 (h2 _ _ hb) hg3 hr (h3 _ _ hc) hg4 [] trivial

theorem C73_constraint_always_within {a : Number} {b d : Con2GD} {t : List Char} :
    ReadsAs parseConGd (.alwaysWithin a b d) t ↔
      Tripled c!"always-within" NumW Sep (ReadsAs parseCon2Gd) (ReadsAs parseCon2Gd) a b d t := by
  constructor
  · rintro ⟨ht, h⟩
    rw [parseConGd_eq, conGdBody] at h
    other h
    other h
    other h
    other h
    other h
    other h
    other h
    other h
    other h
    rcases alt_inv h with h | ⟨_, h⟩
    · obtain ⟨x, h1, e⟩ := map_ok h
      cases e
      exact tripled_inv con2_arg con2_arg ht h1
    · other h
      other h
      cases h
  · intro h
    refine .of h.solid ?_
    rw [parseConGd_eq, conGdBody]
    miss h
    miss h
    miss h
    rw [alt_miss (Head.longer h.head con2_par (tl := c!"within") (fun _ => rfl) (by decide))]
    miss h
    miss h
    miss h
    miss h
    miss h
    exact alt_hit (map_run (a := (a, b, d)) (h.run (fun _ h => ⟨h, .inl con2_ct⟩) con2_elem con2_elem con2_ct))

theorem C73_constraint_hold_during {a b : Number} {d : Con2GD} {t : List Char} :
    ReadsAs parseConGd (.holdDuring a b d) t ↔
      Tripled c!"hold-during" NumW Sp NumW (ReadsAs parseCon2Gd) a b d t := by
  constructor
  · rintro ⟨ht, h⟩
    rw [parseConGd_eq, conGdBody] at h
    other h
    other h
    other h
    other h
    other h
    other h
    other h
    other h
    other h
    other h
    rcases alt_inv h with h | ⟨_, h⟩
    · obtain ⟨x, h1, e⟩ := map_ok h
      cases e
      exact tripled_inv number_arg con2_arg ht h1
    · other h
      cases h
  · intro h
    refine .of h.solid ?_
    rw [parseConGd_eq, conGdBody]
    miss h
    miss h
    miss h
    miss h
    miss h
    miss h
    miss h
    miss h
    miss h
    miss h
    exact alt_hit (map_run (a := (a, b, d)) (h.run (fun _ h => ⟨h.sep, .inr h⟩) num_elem con2_elem con2_ct))

/-! ## Preferences and the forms that are flattened

`parse_pre_gd`, `parse_pref_con_gd` and `parse_effect` return lists, from which the form of the text
cannot be told. -/

theorem parsePrefGd_parts : Snd Any Gap parsePrefGd (ReadsAs parsePrefGd) :=
  parsePrefGd_shed.snd C27_preferences C28_preferences
theorem parsePreGd_parts : Snd Any Gap parsePreGd (ReadsAs parsePreGd) :=
  parsePreGd_shed.snd C27_preconditions C28_preconditions

theorem name_elem (v : Name) (t : List Char) (h : NameW v t) : Elem parsePrefName v t := ⟨h.acc, h.solid⟩

/-- `(preference x)` and `(preference name x)` read through `opt`. -/
theorem pref_inv {o : Option Name} {g : GD} {t : List Char} (ht : Solid t)
    (h : prefixExpr c!"preference" (pair (opt parsePrefName) (preceded multispace1 parseGd)) t =
      .ok (o, g) []) :
    (∃ n, o = some n ∧ Paired c!"preference" NameW (ReadsAs parseGd) n g t) ∨
    (o = none ∧ Wrapped c!"preference" (ReadsAs parseGd) g t) := by
  have := snd_inv (R := fun (x : Option Name × GD) t =>
      (∃ n, x.1 = some n ∧ Paired c!"preference" NameW (ReadsAs parseGd) n x.2 t) ∨
      (x.1 = none ∧ Wrapped c!"preference" (ReadsAs parseGd) x.2 t))
    (Snd.kw2 (kw := c!"preference") (f := id) (Snd.opt parsePrefName_snd) (.arg parseGd_parts) Nil.gap (by
      intro g1 o t1 g2 b t2 g3 h1 h2 h3 h4 h5
      cases h2 with
      | absent => exact .inr ⟨rfl, g1 ++ g2, t2, g3, by simp, h1.append h3.gap, h4, h5⟩
      | @present g _ t hg hn => exact .inl ⟨_, rfl, g1 ++ g, t, g2, t2, g3, by simp, h1.append hg, hn, h3, h4, h5⟩))
    ht (map_run h)
  exact this

theorem OneFormOnly.open {p : P α} (h : OneFormOnly p) {v : α} {t : List Char} (ht : ReadsAs p v t) :
    ∃ y, t = '(' :: y := by
  obtain ⟨g, u, e, hg, hu⟩ := h _ _ _ ht.2
  rw [List.append_nil] at e
  have hs := ht.1
  rw [e] at hs
  obtain rfl := hg.nil_of_solid hs
  rw [List.nil_append] at e
  subst e
  obtain ⟨h1, _⟩ := hu
  cases t with
  | nil => cases h1
  | cons c t => exact ⟨t, by simpa using h1⟩

theorem C73_preference_named {n : Name} {g : GD} {t : List Char} :
    ReadsAs parsePrefGd (.preference (some n) g) t ↔
      Paired c!"preference" NameW (ReadsAs parseGd) n g t := by
  constructor
  · rintro ⟨ht, h⟩
    rw [parsePrefGd] at h
    rcases alt_inv h with h | ⟨_, h⟩
    · obtain ⟨⟨o, g'⟩, h1, e⟩ := map_ok h
      cases e
      rcases pref_inv ht h1 with ⟨n, e, h⟩ | ⟨e, _⟩
      · cases e
        exact h
      · cases e
    · other h
      other h
      cases h
  · intro h
    refine .of h.solid ?_
    rw [parsePrefGd]
    obtain ⟨g1, x, g2, y, g3, rfl, hg1, hn, hg2, hb, hg3⟩ := h
    exact alt_hit (map_run (a := (some n, g)) (prefix_two hg1 (opt_name hn) hn.solid hg2 parseGd_ct
      (hb.acc C28_goals) hb.1 hg3 [] trivial))

theorem C73_preference_anonymous {g : GD} {t : List Char} :
    ReadsAs parsePrefGd (.preference none g) t ↔ Wrapped c!"preference" (ReadsAs parseGd) g t := by
  constructor
  · rintro ⟨ht, h⟩
    rw [parsePrefGd] at h
    rcases alt_inv h with h | ⟨_, h⟩
    · obtain ⟨⟨o, g'⟩, h1, e⟩ := map_ok h
      cases e
      rcases pref_inv ht h1 with ⟨n, e, h⟩ | ⟨_, h⟩
      · cases e
      · exact h
    rcases alt_inv h with h | ⟨_, h⟩
    · obtain ⟨x, h1, e⟩ := map_ok h
      cases e
      exact wrapped_inv parseGd_parts ht h1
    · other h
      cases h
  · intro h
    refine .of h.solid ?_
    rw [parsePrefGd]
    have hm : prefixExpr c!"preference" (pair (opt parsePrefName) (preceded multispace1 parseGd)) (t ++ [])
        = .err := by
      obtain ⟨g1, x, g2, rfl, hg1, hx, hg2⟩ := h
      exact opt_name_miss hg1 (C27_goals.open hx) []
    rw [alt_miss (map_err hm)]
    exact alt_hit (map_run (h.run (ReadsAs.elem C28_goals)))

theorem C73_preference_goal {g : GD} {t : List Char} (h : ReadsAs parsePrefGd (.goal g) t) :
    ReadsAs parseGd g t := by
  obtain ⟨ht, h⟩ := h
  rw [parsePrefGd] at h
  other h
  other h
  rcases alt_inv h with h | ⟨_, h⟩
  · obtain ⟨x, h1, e⟩ := map_ok h
    cases e
    exact ⟨ht, h1⟩
  · cases h

theorem C73_precondition_forall {a : TypedList Name} {b : List PreGD} {t : List Char}
    (h : Paired c!"forall" (ReadsAs parseVarList) (ReadsAs parsePreGd) a b t) :
    ReadsAs parsePreGd [.forall_ a b] t := by
  refine .of h.solid ?_
  rw [parsePreGd_eq, preGdBody]
  exact alt_hit (map_run (a := (a, b)) (h.run (ReadsAs.elem C28_variable_lists)
    (ReadsAs.elem C28_preconditions) parsePreGd_ct))

theorem C73_precondition_and {vs : List (List PreGD)} {t : List Char}
    (h : Listed c!"and" (ReadsAs parsePreGd) vs t) : ReadsAs parsePreGd vs.flatten t := by
  refine .of h.solid ?_
  rw [parsePreGd_eq, preGdBody]
  miss h
  exact alt_hit (map_run (h.run C28_preconditions parsePreGd_par))

/-- There are no other preconditions. -/
theorem C73_precondition_cases {v : List PreGD} {t : List Char} (h : ReadsAs parsePreGd v t) :
    (∃ a b, v = [.forall_ a b] ∧ Paired c!"forall" (ReadsAs parseVarList) (ReadsAs parsePreGd) a b t) ∨
    (∃ vs, v = vs.flatten ∧ Listed c!"and" (ReadsAs parsePreGd) vs t) ∨
    (∃ g, v = [.preference g] ∧ ReadsAs parsePrefGd g t) := by
  obtain ⟨ht, h⟩ := h
  rw [parsePreGd_eq, preGdBody] at h
  rcases alt_inv h with h | ⟨_, h⟩
  · obtain ⟨⟨a, b⟩, h1, rfl⟩ := map_ok h
    exact .inl ⟨a, b, rfl, paired_inv parseVarList_parts (fun _ => id) parsePreGd_parts ht h1⟩
  rcases alt_inv h with h | ⟨_, h⟩
  · obtain ⟨x, h1, rfl⟩ := map_ok h
    exact .inr (.inl ⟨x, rfl, listed_inv parsePreGd_parts readsAs_nonE ht h1⟩)
  rcases alt_inv h with h | ⟨_, h⟩
  · obtain ⟨x, h1, rfl⟩ := map_ok h
    exact .inr (.inr ⟨x, rfl, ht, h1⟩)
  · cases h

theorem C73_pref_constraint_and {vs : List (List PrefConGD)} {t : List Char}
    (h : Listed c!"and" (ReadsAs parsePrefConGd) vs t) : ReadsAs parsePrefConGd vs.flatten t := by
  refine .of h.solid ?_
  rw [parsePrefConGd_eq, prefConGdBody]
  exact alt_hit (map_run (h.run C28_pref_constraints parsePrefConGd_par))

theorem C73_pref_constraint_forall {a : TypedList Name} {b : List PrefConGD} {t : List Char}
    (h : Paired c!"forall" (ReadsAs parseVarList) (ReadsAs parsePrefConGd) a b t) :
    ReadsAs parsePrefConGd [.forall_ a b] t := by
  refine .of h.solid ?_
  rw [parsePrefConGd_eq, prefConGdBody]
  miss h
  exact alt_hit (map_run (a := (a, b)) (h.run (ReadsAs.elem C28_variable_lists)
    (ReadsAs.elem C28_pref_constraints) parsePrefConGd_ct))

theorem C73_pref_constraint_named {n : Name} {c : ConGD} {t : List Char}
    (h : Paired c!"preference" NameW (ReadsAs parseConGd) n c t) :
    ReadsAs parsePrefConGd [.preference (some n) c] t := by
  refine .of h.solid ?_
  rw [parsePrefConGd_eq, prefConGdBody]
  miss h
  miss h
  exact alt_hit (map_run (a := (n, c)) (h.run name_elem (ReadsAs.elem C28_constraints) parseConGd_ct))

theorem C73_pref_constraint_anonymous {c : ConGD} {t : List Char}
    (h : Wrapped c!"preference" (ReadsAs parseConGd) c t) :
    ReadsAs parsePrefConGd [.preference none c] t := by
  refine .of h.solid ?_
  rw [parsePrefConGd_eq, prefConGdBody]
  miss h
  miss h
  have hm : prefixExpr c!"preference" (pair parsePrefName (preceded multispace1 parseConGd)) (t ++ [])
      = .err := by
    obtain ⟨g1, x, g2, rfl, hg1, hx, hg2⟩ := h
    obtain ⟨y, rfl⟩ := C27_constraints.open hx
    simp only [paren_append, List.append_assoc, List.cons_append]
    refine prefixExpr_body_err ?_
    rw [hg1.skip_solid (solid_open _)]
    exact pair_err (parseName_open _)
  rw [alt_miss (map_err hm)]
  exact alt_hit (map_run (h.run (ReadsAs.elem C28_constraints)))

/-- There are no other preferred constraints. -/
theorem C73_pref_constraint_cases {v : List PrefConGD} {t : List Char} (h : ReadsAs parsePrefConGd v t) :
    (∃ vs, v = vs.flatten ∧ Listed c!"and" (ReadsAs parsePrefConGd) vs t) ∨
    (∃ a b, v = [.forall_ a b] ∧
      Paired c!"forall" (ReadsAs parseVarList) (ReadsAs parsePrefConGd) a b t) ∨
    (∃ n c, v = [.preference (some n) c] ∧ Paired c!"preference" NameW (ReadsAs parseConGd) n c t) ∨
    (∃ c, v = [.preference none c] ∧ Wrapped c!"preference" (ReadsAs parseConGd) c t) ∨
    (∃ c, v = [.goal c] ∧ ReadsAs parseConGd c t) := by
  obtain ⟨ht, h⟩ := h
  rw [parsePrefConGd_eq, prefConGdBody] at h
  rcases alt_inv h with h | ⟨_, h⟩
  · obtain ⟨x, h1, rfl⟩ := map_ok h
    exact .inl ⟨x, rfl, listed_inv parsePrefConGd_parts readsAs_nonE ht h1⟩
  right
  rcases alt_inv h with h | ⟨_, h⟩
  · obtain ⟨⟨a, b⟩, h1, rfl⟩ := map_ok h
    exact .inl ⟨a, b, rfl, paired_inv parseVarList_parts (fun _ => id) parsePrefConGd_parts ht h1⟩
  right
  rcases alt_inv h with h | ⟨_, h⟩
  · obtain ⟨⟨a, b⟩, h1, rfl⟩ := map_ok h
    exact .inl ⟨a, b, rfl, paired_inv parsePrefName_snd (fun _ => id) parseConGd_parts ht h1⟩
  right
  rcases alt_inv h with h | ⟨_, h⟩
  · obtain ⟨x, h1, rfl⟩ := map_ok h
    exact .inl ⟨x, rfl, wrapped_inv parseConGd_parts ht h1⟩
  right
  rcases alt_inv h with h | ⟨_, h⟩
  · obtain ⟨x, h1, rfl⟩ := map_ok h
    exact ⟨x, rfl, ht, h1⟩
  · cases h

theorem C73_effect_and {vs : List CEffect} {t : List Char} (h : Listed c!"and" (ReadsAs parseCEffect) vs t) :
    ReadsAs parseEffect vs t := by
  refine .of h.solid ?_
  rw [parseEffect, effectOf]
  exact alt_hit (h.run C28_c_effects parseCEffect_par)

/-- There are no other effects. -/
theorem C73_effect_cases {v : List CEffect} {t : List Char} (h : ReadsAs parseEffect v t) :
    Listed c!"and" (ReadsAs parseCEffect) v t ∨ ∃ e, v = [e] ∧ ReadsAs parseCEffect e t := by
  obtain ⟨ht, h⟩ := h
  rw [parseEffect, effectOf] at h
  rcases alt_inv h with h | ⟨_, h⟩
  · exact .inl (listed_inv parseCEffect_parts readsAs_nonE ht h)
  rcases alt_inv h with h | ⟨_, h⟩
  · obtain ⟨x, h1, rfl⟩ := map_ok h
    exact .inr ⟨x, rfl, ht, h1⟩
  · cases h

/-- `(preference x)` and `(preference name x)` in the condition of a durative action. -/
theorem timed_pref_inv {o : Option Name} {g : TimedGD} {t : List Char} (ht : Solid t)
    (h : prefixExpr c!"preference" (pair (opt (terminated parsePrefName multispace1)) parseTimedGd) t =
      .ok (o, g) []) :
    (∃ n, o = some n ∧ Paired c!"preference" NameW (ReadsAs parseTimedGd) n g t) ∨
    (o = none ∧ Wrapped c!"preference" (ReadsAs parseTimedGd) g t) := by
  have hn : Snd Any Gap (terminated parsePrefName multispace1)
      (fun n t => ∃ t1 g, t = t1 ++ g ∧ NameW n t1 ∧ Sp g) := by
    intro s n r hs _
    obtain ⟨_, r1, h1, h2⟩ := terminated_ok hs
    obtain ⟨rfl, hsp⟩ := ms1_inv h2
    obtain ⟨g, t, rfl, hg, ht⟩ := parseName_snd _ _ _ h1 trivial
    exact ⟨g, _, by simp, hg, t, _, rfl, ht, hsp⟩
  have := snd_inv (R := fun (x : Option Name × TimedGD) t =>
      (∃ n, x.1 = some n ∧ Paired c!"preference" NameW (ReadsAs parseTimedGd) n x.2 t) ∨
      (x.1 = none ∧ Wrapped c!"preference" (ReadsAs parseTimedGd) x.2 t))
    (Snd.kw2 (kw := c!"preference") (f := id) (Snd.opt hn) parseTimedGd_parts.anyF Nil.gap (by
      intro g1 o t1 g2 b t2 g3 h1 h2 h3 h4 h5
      cases h2 with
      | absent => exact .inr ⟨rfl, g1 ++ g2, t2, g3, by simp, h1.append h3, h4, h5⟩
      | @present g _ t hg hn =>
        obtain ⟨tn, g', rfl, hn, hsp⟩ := hn
        exact .inl ⟨_, rfl, g1 ++ g, tn, g' ++ g2, t2, g3, by simp, h1.append hg, hn,
          hsp.sep.append h3, h4, h5⟩))
    ht (map_run h)
  exact this

theorem C73_timed_preference_named {n : Name} {g : TimedGD} {t : List Char} :
    ReadsAs parsePrefTimedGd (.preference (some n) g) t ↔
      Paired c!"preference" NameW (ReadsAs parseTimedGd) n g t := by
  constructor
  · rintro ⟨ht, h⟩
    rw [parsePrefTimedGd] at h
    rcases alt_inv h with h | ⟨_, h⟩
    · obtain ⟨⟨o, g'⟩, h1, e⟩ := map_ok h
      cases e
      rcases timed_pref_inv ht h1 with ⟨n, e, h⟩ | ⟨e, _⟩
      · cases e
        exact h
      · cases e
    · other h
      cases h
  · intro h
    refine .of h.solid ?_
    rw [parsePrefTimedGd]
    obtain ⟨g1, x, g2, y, g3, rfl, hg1, hn, hg2, hb, hg3⟩ := h
    simp only [paren_append, List.append_assoc]
    refine alt_hit (map_run (a := (some n, g)) (prefixExpr_run (y := g3 ++ ')' :: []) ?_
      (hg3.skip_solid (solid_close []))))
    rw [hg1.skip_solid (hn.solid.append _)]
    have hk := hg2.gap.skip_solid (hb.1.append (g3 ++ ')' :: []))
    obtain ⟨c, g2', rfl, hc⟩ := sep_head hg2
    refine pair_run (r := (g2' ++ (y ++ (g3 ++ ')' :: []))).dropWhile isSpace) (opt_run ?_) ?_
    · exact terminated_run (hn.acc _ (.sep hg2 _)) (multispace1_cons hc _)
    · rw [List.cons_append, skip, List.dropWhile_cons, if_pos (isBlank_space hc)] at hk
      rw [← parseTimedGd_ct, hk]
      exact hb.acc C28_timed_goals _ (.gap hg3 (.close []))

theorem C73_timed_preference_anonymous {g : TimedGD} {t : List Char} :
    ReadsAs parsePrefTimedGd (.preference none g) t ↔
      Wrapped c!"preference" (ReadsAs parseTimedGd) g t := by
  constructor
  · rintro ⟨ht, h⟩
    rw [parsePrefTimedGd] at h
    rcases alt_inv h with h | ⟨_, h⟩
    · obtain ⟨⟨o, g'⟩, h1, e⟩ := map_ok h
      cases e
      rcases timed_pref_inv ht h1 with ⟨n, e, h⟩ | ⟨_, h⟩
      · cases e
      · exact h
    · other h
      cases h
  · intro h
    refine .of h.solid ?_
    rw [parsePrefTimedGd]
    obtain ⟨g1, x, g2, rfl, hg1, hx, hg2⟩ := h
    simp only [paren_append, List.append_assoc]
    refine alt_hit (map_run (a := (none, g)) (prefixExpr_run (y := g2 ++ ')' :: []) ?_
      (hg2.skip_solid (solid_close []))))
    rw [hg1.skip_solid (hx.1.append _)]
    refine pair_run (r := x ++ (g2 ++ ')' :: [])) (opt_err ?_)
      (hx.acc C28_timed_goals _ (.gap hg2 (.close [])))
    obtain ⟨y, rfl⟩ := C27_timed_goals.open hx
    exact terminated_err (parseName_open _)

/-! ## The alternatives without a keyword -/

theorem C73_timed_required {g : TimedGD} {t : List Char} (h : ReadsAs parsePrefTimedGd (.required g) t) :
    ReadsAs parseTimedGd g t := by
  obtain ⟨ht, h⟩ := h
  rw [parsePrefTimedGd] at h
  other h
  rcases alt_inv h with h | ⟨_, h⟩
  · obtain ⟨x, h1, e⟩ := map_ok h
    cases e
    exact ⟨ht, h1⟩
  · cases h

theorem C73_cond_effect_single {e : PEffect} {t : List Char} (h : ReadsAs parseCondEffect (.single e) t) :
    ReadsAs parsePEffect e t := by
  obtain ⟨ht, h⟩ := h
  rw [parseCondEffect] at h
  other h
  rcases alt_inv h with h | ⟨_, h⟩
  · obtain ⟨x, h1, e⟩ := map_ok h
    cases e
    exact ⟨ht, h1⟩
  · cases h

theorem C73_effect_simple {e : PEffect} {t : List Char} (h : ReadsAs parseCEffect (.effect e) t) :
    ReadsAs parsePEffect e t := by
  obtain ⟨ht, h⟩ := h
  rw [parseCEffect_eq, cEffectBody] at h
  other h
  other h
  rcases alt_inv h with h | ⟨_, h⟩
  · obtain ⟨x, h1, e⟩ := map_ok h
    cases e
    exact ⟨ht, h1⟩
  · cases h

theorem C73_da_condition_timed {g : PrefTimedGD} {t : List Char} (h : ReadsAs parseDaGd (.timed g) t) :
    ReadsAs parsePrefTimedGd g t := by
  obtain ⟨ht, h⟩ := h
  rw [parseDaGd_eq, daGdBody] at h
  other h
  other h
  rcases alt_inv h with h | ⟨_, h⟩
  · obtain ⟨x, h1, e⟩ := map_ok h
    cases e
    exact ⟨ht, h1⟩
  · cases h

theorem C73_da_effect_timed {g : TimedEffect} {t : List Char} (h : ReadsAs parseDaEffect (.timed g) t) :
    ReadsAs parseTimedEffect g t := by
  obtain ⟨ht, h⟩ := h
  rw [parseDaEffect_eq, daEffectBody] at h
  other h
  other h
  other h
  rcases alt_inv h with h | ⟨_, h⟩
  · obtain ⟨x, h1, e⟩ := map_ok h
    cases e
    exact ⟨ht, h1⟩
  · cases h

/-! ## Exchanging parts -/

/-- Forms in front of a part, each followed by spaces. -/
inductive Ahead (p : P α) : List Char → Prop
  | nil : Ahead p []
  | cons {a t g u} : ReadsAs p a t → Sep g → Ahead p u → Ahead p (t ++ (g ++ u))

/-- Forms after a part, each after spaces. -/
inductive Behind (p : P α) : List Char → Prop
  | nil : Behind p []
  | cons {a t g u} : Sep g → ReadsAs p a t → Behind p u → Behind p (g ++ (t ++ u))

/-- A place inside a goal, at any depth, where a goal stands. The goals beside it are readable. -/
inductive GoalPlace : (List Char → List Char) → Prop
  | here : GoalPlace fun x => x
  | and {C g pre post g'} : GoalPlace C → Gap g → Ahead parseGd pre → Behind parseGd post → Gap g' →
      GoalPlace fun x => paren (c!"and" ++ (g ++ ((pre ++ (C x ++ post)) ++ g')))
  | or {C g pre post g'} : GoalPlace C → Gap g → Ahead parseGd pre → Behind parseGd post → Gap g' →
      GoalPlace fun x => paren (c!"or" ++ (g ++ ((pre ++ (C x ++ post)) ++ g')))
  | not {C g g'} : GoalPlace C → Gap g → Gap g' →
      GoalPlace fun x => paren (c!"not" ++ (g ++ (C x ++ g')))
  | implyLeft {C g1 g2 y b g3} : GoalPlace C → Gap g1 → Sep g2 → ReadsAs parseGd b y → Gap g3 →
      GoalPlace fun x => paren (c!"imply" ++ (g1 ++ (C x ++ (g2 ++ (y ++ g3)))))
  | implyRight {C g1 g2 y b g3} : GoalPlace C → Gap g1 → ReadsAs parseGd b y → Sep g2 → Gap g3 →
      GoalPlace fun x => paren (c!"imply" ++ (g1 ++ (y ++ (g2 ++ (C x ++ g3)))))
  | exists_ {C g1 g2 y b g3} : GoalPlace C → Gap g1 → ReadsAs parseVarList b y → Sep g2 → Gap g3 →
      GoalPlace fun x => paren (c!"exists" ++ (g1 ++ (y ++ (g2 ++ (C x ++ g3)))))
  | forall_ {C g1 g2 y b g3} : GoalPlace C → Gap g1 → ReadsAs parseVarList b y → Sep g2 → Gap g3 →
      GoalPlace fun x => paren (c!"forall" ++ (g1 ++ (y ++ (g2 ++ (C x ++ g3)))))

theorem Behind.items {p : P α} {u : List Char} (h : Behind p u) :
    ∃ bs, ∀ a t, ReadsAs p a t → Items (ReadsAs p) (a :: bs) (t ++ u) := by
  induction h with
  | nil => exact ⟨[], fun a t h => by rw [List.append_nil]; exact .one h⟩
  | @cons b t g u hg hb _ ih =>
    obtain ⟨bs, ih⟩ := ih
    exact ⟨b :: bs, fun a t' h => .cons h hg (ih b t hb)⟩

theorem Ahead.items {p : P α} {u post : List Char} (h : Ahead p u) (h' : Behind p post) :
    ∃ as bs, ∀ a t, ReadsAs p a t → Items (ReadsAs p) (as ++ a :: bs) (u ++ (t ++ post)) := by
  induction h with
  | nil =>
    obtain ⟨bs, h⟩ := h'.items
    exact ⟨[], bs, h⟩
  | @cons b t g u hb hg _ ih =>
    obtain ⟨as, bs, ih⟩ := ih
    refine ⟨b :: as, bs, fun a t' h => ?_⟩
    have := Items.cons hb hg (ih a t' h)
    simpa using this

/-- What a goal is read as depends on a part, wherever it stands, only through what the part is read
as: the place determines a function on goals. -/
theorem C73_exchange {C : List Char → List Char} (h : GoalPlace C) :
    ∃ f : GD → GD, ∀ v x, ReadsAs parseGd v x → ReadsAs parseGd (f v) (C x) := by
  induction h with
  | here => exact ⟨id, fun _ _ h => h⟩
  | and _ hg hb ha hg' ih =>
    obtain ⟨f, ih⟩ := ih
    obtain ⟨as, bs, h⟩ := hb.items ha
    exact ⟨fun v => .and (as ++ f v :: bs), fun v x hx =>
      C73_goal_and.mpr ⟨_, rfl, .cons hg (h _ _ (ih v x hx)) hg'⟩⟩
  | or _ hg hb ha hg' ih =>
    obtain ⟨f, ih⟩ := ih
    obtain ⟨as, bs, h⟩ := hb.items ha
    exact ⟨fun v => .or (as ++ f v :: bs), fun v x hx =>
      C73_goal_or.mpr ⟨_, rfl, .cons hg (h _ _ (ih v x hx)) hg'⟩⟩
  | not _ hg hg' ih =>
    obtain ⟨f, ih⟩ := ih
    exact ⟨fun v => .not (f v), fun v x hx => C73_goal_not.mpr ⟨_, _, _, rfl, hg, ih v x hx, hg'⟩⟩
  | @implyLeft _ _ _ _ b _ _ hg1 hg2 hb hg3 ih =>
    obtain ⟨f, ih⟩ := ih
    exact ⟨fun v => .imply (f v) b, fun v x hx =>
      C73_goal_imply.mpr ⟨_, _, _, _, _, rfl, hg1, ih v x hx, hg2, hb, hg3⟩⟩
  | @implyRight _ _ _ _ b _ _ hg1 hb hg2 hg3 ih =>
    obtain ⟨f, ih⟩ := ih
    exact ⟨fun v => .imply b (f v), fun v x hx =>
      C73_goal_imply.mpr ⟨_, _, _, _, _, rfl, hg1, hb, hg2, ih v x hx, hg3⟩⟩
  | @exists_ _ _ _ _ b _ _ hg1 hb hg2 hg3 ih =>
    obtain ⟨f, ih⟩ := ih
    exact ⟨fun v => .exist b (f v), fun v x hx =>
      C73_goal_exists.mpr ⟨_, _, _, _, _, rfl, hg1, hb, hg2, ih v x hx, hg3⟩⟩
  | @forall_ _ _ _ _ b _ _ hg1 hb hg2 hg3 ih =>
    obtain ⟨f, ih⟩ := ih
    exact ⟨fun v => .forall_ b (f v), fun v x hx =>
      C73_goal_forall.mpr ⟨_, _, _, _, _, rfl, hg1, hb, hg2, ih v x hx, hg3⟩⟩

/-- Two spellings of a part are interchangeable. -/
theorem C73_respell {C : List Char → List Char} (h : GoalPlace C) {v : GD} {x x' : List Char}
    (hx : ReadsAs parseGd v x) (hx' : ReadsAs parseGd v x') : parseGd (C x) = parseGd (C x') := by
  obtain ⟨f, hf⟩ := C73_exchange h
  rw [(hf v x hx).2, (hf v x' hx').2]

/-! ## Examples -/

example : ReadsAs parseGd (.imply (.atomic (Ex.atom c!"p" [])) (.not (.atomic (Ex.atom c!"q" []))))
    c!"(imply (p) ;c\n (not (q)))" := ⟨solid_open _, rfl⟩
/-- The same, from the parts. The first part is not in the grammar of `Verif.Spec` in strict mode. -/
example : ReadsAs parseGd (.imply (.atomic (Ex.atom c!"andy" [])) (.atomic (Ex.atom c!"q" [])))
    c!"(imply (andy) ;c\n (q))" :=
  C73_goal_imply.mpr ⟨c!" ", c!"(andy)", c!" ;c\n ", c!"(q)", [], rfl, .space rfl .nil,
    ⟨solid_open _, rfl⟩, .mk rfl (.comment (b := 'c') (body := []) rfl (by decide) rfl (.space rfl .nil)),
    ⟨solid_open _, rfl⟩, .nil⟩
example : GoalPlace fun x => paren (c!"and" ++ (c!" " ++ (([] ++
    (paren (c!"not" ++ (c!" " ++ (x ++ []))) ++ (c!" " ++ (c!"(q)" ++ [])))) ++ []))) :=
  .and (.not .here (.space rfl .nil) .nil) (.space rfl .nil) .nil
    (.cons (.mk rfl .nil) (a := .atomic (Ex.atom c!"q" [])) ⟨solid_open _, rfl⟩ .nil) .nil
example : ReadsAs parseConGd (.sometimeAfter (.goal (.atomic (Ex.atom c!"p" [])))
      (.nested (.within (Ex.num 5 0) (.goal (.atomic (Ex.atom c!"q" []))))))
    c!"(sometime-after (p) ; then\n (within 5 (q)))" := ⟨solid_open _, rfl⟩
example : ReadsAs parseConGd (.holdDuring (Ex.num 5 0) (Ex.num 7 0) (.goal (.atomic (Ex.atom c!"q" []))))
    c!"(hold-during 5 7 ;c\n(q))" := ⟨solid_open _, rfl⟩
example : ReadsAs parsePreGd [.preference (.goal (.atomic (Ex.atom c!"p" []))),
      .preference (.preference (some (.new c!"x")) (.atomic (Ex.atom c!"q" [])))]
    c!"(and (p) (and) (and (preference x (q))))" := ⟨solid_open _, rfl⟩
example : ReadsAs parsePrefConGd [.preference none (.always (.goal (.atomic (Ex.atom c!"p" []))))]
    c!"(and (preference (always (p))))" := ⟨solid_open _, rfl⟩
example : ReadsAs parseCEffect (.when (.atomic (Ex.atom c!"p" [])) (.all [.atomic (Ex.atom c!"q" [])]))
    c!"(when (p) (and (q)))" := ⟨solid_open _, rfl⟩
example : ReadsAs parseEffect [.forall_ [] [.effect (.atomic (Ex.atom c!"p" []))]]
    c!"(forall () (and (p)))" := ⟨solid_open _, rfl⟩
example : ReadsAs parseDaGd (.and [.timed (.preference (some (.new c!"x")) (.at .start (.atomic (Ex.atom c!"p" []))))])
    c!"(and (preference x (at start (p))))" := ⟨solid_open _, rfl⟩
example : ReadsAs parseDaEffect (.when (.timed (.required (.over .all (.atomic (Ex.atom c!"p" [])))))
      (.conditional .end_ (.single (.atomic (Ex.atom c!"q" [])))))
    c!"(when (over all (p)) (at end (q)))" := ⟨solid_open _, rfl⟩

end Pddl
