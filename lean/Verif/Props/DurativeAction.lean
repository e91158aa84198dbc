import Verif.Spec.Temporal
import Verif.Props.DurativeMeaning
import Verif.Props.PlanText

/-!
# C113: durations, durative actions and derived predicates mean what PDDL says
-/

namespace Pddl

/-- The text of one constraint on a duration. -/
def IsBound (t : List Char) : Prop := ∃ v, ReadsAs parseSimpleDuration v t

/-- A text is read as a constraint on the duration that is met, where values are those at `ts`. -/
def BoundMet (M : Interp) (r : Course M) (e : M.Env) (ts : TimeSpecifier) (t : List Char) : Prop :=
  ∃ v, ReadsAs parseSimpleDuration v t ∧ v.Allows M r e ts

theorem boundMet_iff {M : Interp} {r : Course M} {e : M.Env} {ts : TimeSpecifier} {t : List Char} {v : SimpleDuration}
    (h : ReadsAs parseSimpleDuration v t) : BoundMet M r e ts t ↔ v.Allows M r e ts :=
  ⟨fun ⟨_, h1, h2⟩ => h.det h1 ▸ h2, fun h2 => ⟨v, h, h2⟩⟩

/-- The text of what is said about a duration. -/
def IsDuration (t : List Char) : Prop := ∃ v, ReadsAs parseDurationConstraint v t

/-- A text is read as something that is true of the duration. -/
def DurationMet (M : Interp) (r : Course M) (e : M.Env) (t : List Char) : Prop :=
  ∃ v, ReadsAs parseDurationConstraint v t ∧ ∀ d, v = some d → d.Allows M r e

theorem durationMet_iff {M : Interp} {r : Course M} {e : M.Env} {t : List Char} {v : Option DurationConstraint}
    (h : ReadsAs parseDurationConstraint v t) : DurationMet M r e t ↔ ∀ d, v = some d → d.Allows M r e :=
  ⟨fun ⟨_, h1, h2⟩ => h.det h1 ▸ h2, fun h2 => ⟨v, h, h2⟩⟩

theorem bound_reads {v : SimpleDuration} {t : List Char} : ReadsAs parseSimpleDuration v t ↔ SimpleDurationX [] v t := by
  constructor
  · rintro ⟨hs, h⟩
    obtain ⟨g, u, e, h⟩ := (C77_duration_constraint _ _ _).mp h
    cases solid_whole hs e h.gap h.solid
    exact h.drop
  · intro h
    have := (C77_duration_constraint (t ++ []) v []).mpr ⟨[], t, rfl, h⟩
    rw [List.append_nil] at this
    exact ⟨h.solid, this⟩

theorem duration_of {v : Option DurationConstraint} {t : List Char} (hs : Solid t) (h : DurationX [] v t) :
    ReadsAs parseDurationConstraint v t := by
  have := (C77_durations (t ++ []) v []).mpr ⟨[], t, rfl, h⟩
  rw [List.append_nil] at this
  exact ⟨hs, this⟩

/-- What is read as a bound where a numeric expression is written. -/
theorem expression_bound {x : FExp} {w : List Char} (h : ReadsAs parseFExp x w) :
    ∃ v, DValueX [] v w ∧ ∀ (M : Interp) (e : M.Env), v.denote M e = x.denote M e := by
  obtain ⟨hs, h⟩ := h
  obtain ⟨g, t, e, h, -⟩ := (C77_numeric_expressions _ _ _).mp h
  have := solid_whole hs e (fExp_part.gap h) (fExp_part.solid h)
  subst this
  rw [List.append_nil] at e
  have hg : g = [] := by simpa using e
  subst hg
  by_cases hn : ∃ n, x = .number n
  · obtain ⟨n, rfl⟩ := hn
    cases h with
    | leaf h =>
      cases h with
      | number h => exact ⟨.number n, .number h, fun _ _ => rfl⟩
  · exact ⟨.fExp x, .fExp h fun n k => hn ⟨n, k⟩, fun _ _ => rfl⟩

variable {x y t : List Char} (M : Interp) (r : Course M) (e : M.Env)

/-- C113. `(op ?duration w)`: the duration compared with the value of `w`. Nothing may be between `w` and the
closing parenthesis. -/
theorem C113_compare {o : DOp} {v : FExp} {g b1 g2 w : List Char} (hg : Gap g) (h1 : Sp b1) (h2 : Sp g2)
    (hw : ReadsAs parseFExp v w) (ts : TimeSpecifier)
    (ht : t = paren (g ++ (DOp.spell o ++ (b1 ++ (c!"?duration" ++ (g2 ++ w)))))) :
    IsBound t ∧ (BoundMet M r e ts t ↔ M.comp o.comp r.duration (v.denote (M.now (r.state ts)) e)) := by
  obtain ⟨d, hd, hv⟩ := expression_bound hw
  have h4 : ReadsAs parseSimpleDuration (.op o d) t := bound_reads.mpr (by
    rw [ht]
    exact .op (g2 := []) gapC_nil hg h1 h2 gapC_nil hd)
  exact ⟨⟨_, h4⟩, by rw [boundMet_iff h4, SimpleDuration.Allows, hv (M.now (r.state ts)) e]⟩

/-- C113. `(at ts x)`: the values are those at `ts`. -/
theorem C113_at {ts : TimeSpecifier} {g1 b g2 : List Char} (hg1 : Gap g1) (hb : Sp b) (hx : IsBound x) (hg2 : Gap g2)
    (ts' : TimeSpecifier) (ht : t = paren (c!"at" ++ (g1 ++ (TimeSpecifier.spell ts ++ (b ++ (x ++ g2)))))) :
    IsBound t ∧ (BoundMet M r e ts' t ↔ BoundMet M r e ts x) := by
  obtain ⟨v, hv⟩ := hx
  have h4 : ReadsAs parseSimpleDuration (.at ts v) t := bound_reads.mpr (by
    rw [ht]
    exact .at (g := []) .nil hg1 hb gapC_nil (bound_reads.mp hv) hg2)
  exact ⟨⟨_, h4⟩, by rw [boundMet_iff h4, boundMet_iff hv, SimpleDuration.Allows]⟩

/-- C113. `()`: any duration. -/
theorem C113_any : IsDuration c!"()" ∧ DurationMet M r e c!"()" :=
  have h : ReadsAs parseDurationConstraint none c!"()" := ⟨solid_open _, rfl⟩
  ⟨⟨_, h⟩, (durationMet_iff h).mpr nofun⟩

/-- C113. One constraint, where the values are those at the start. -/
theorem C113_one (hx : IsBound x) : IsDuration x ∧ (DurationMet M r e x ↔ BoundMet M r e .start x) := by
  obtain ⟨v, hv⟩ := hx
  have h4 := duration_of hv.1 (.single (bound_reads.mp hv))
  refine ⟨⟨_, h4⟩, ?_⟩
  rw [durationMet_iff h4, boundMet_iff hv]
  exact ⟨fun h => h _ rfl, fun h d hd => by cases hd; exact h⟩

theorem bounds_of_texts {ts : List (List Char)} {u : List Char} (h : Items (fun x t => t = x ∧ IsBound x) ts u) :
    ∃ cs, Items (SimpleDurationX []) cs u ∧ ∀ (M : Interp) (r : Course M) (e : M.Env),
      (∀ c ∈ cs, SimpleDuration.Allows M r e .start c) ↔ ∀ x ∈ ts, BoundMet M r e .start x := by
  induction h with
  | one h =>
    obtain ⟨rfl, c, hc⟩ := h
    exact ⟨[c], .one (bound_reads.mp hc), fun M r e => by simp [boundMet_iff hc]⟩
  | cons h hs _ ih =>
    obtain ⟨rfl, c, hc⟩ := h
    obtain ⟨cs, h1, h2⟩ := ih
    exact ⟨c :: cs, .cons (bound_reads.mp hc) hs h1, fun M r e => by simp [boundMet_iff hc, h2 M r e]⟩

/-- C113. `(and x ..)` with at least one part: all of them. -/
theorem C113_and {ts : List (List Char)} (h : Listed c!"and" (fun x t => t = x ∧ IsBound x) ts t) (hn : ts ≠ []) :
    IsDuration t ∧ (DurationMet M r e t ↔ ∀ x ∈ ts, BoundMet M r e .start x) := by
  obtain ⟨u, rfl, hu⟩ := h
  cases hu with
  | nil => exact absurd rfl hn
  | cons h1 h2 h3 =>
    obtain ⟨cs, k1, k2⟩ := bounds_of_texts h2
    have h4 := duration_of (solid_paren _) (.all .nil h1 k1 h3)
    refine ⟨⟨_, h4⟩, ?_⟩
    rw [durationMet_iff h4, ← k2]
    exact ⟨fun h => h _ rfl, fun h d hd => by cases hd; exact h⟩

theorem emptyOr_reads {Q : List Char → Prop} {R : α → List Char → Prop}
    (hQ : ∀ x, Q x → ∃ v, R v x) {o : Option (List Char)} {u : List Char}
    (h : EmptyOrW (fun x t => t = x ∧ Q x) o u) : ∃ o' : Option α, EmptyOrW R o' u ∧
      ((o = none ∧ o' = none) ∨ ∃ x v, o = some x ∧ o' = some v ∧ R v x) := by
  cases h with
  | empty hs => exact ⟨none, .empty hs, .inl ⟨rfl, rfl⟩⟩
  | some hs h =>
    obtain ⟨rfl, hx⟩ := h
    obtain ⟨v, h1⟩ := hQ _ hx
    exact ⟨some v, .some hs h1, .inr ⟨_, v, rfl, rfl, h1⟩⟩

/-- C113, durative actions: an action written with the name `n`, the variables `vs`, the duration `td`, the
condition `c` and the effect `f`, the last two of which may be `()`, can be carried out if the arguments are of the
types of the variables, the duration is as said, and the condition is met; then it does what is said in the effect. -/
theorem C113_durative_action {n w td g1 g2 g3 g4 b g6 g7 g8 uc ue t : List Char} {vs : TypedList Name}
    {c f : Option (List Char)} (hg1 : Gap g1) (hn : IsWord n) (hg2 : Sp g2) (hg3 : Sep g3)
    (hw : ReadsAs parseVarList vs w) (hg4 : Sp g4) (hb : Sp b) (hd : IsDuration td) (hg6 : Sp g6)
    (hc : EmptyOrW (fun x t => t = x ∧ IsDurativeCondition x) c uc) (hg7 : Sp g7)
    (hf : EmptyOrW (fun x t => t = x ∧ IsDurativeEffect x) f ue) (hg8 : Gap g8)
    (ht : t = paren (c!":durative-action" ++ (g1 ++ (n ++ (g2 ++ (c!":parameters" ++ (g3 ++ (w ++
          (g4 ++ (c!":duration" ++ (b ++ (td ++ (g6 ++ (c!":condition" ++ (uc ++ (g7 ++
          (c!":effect" ++ (ue ++ g8)))))))))))))))))) :
    ∃ a, ReadsAs parseStructureDef (.durative a) t ∧ a.symbol.text = n ∧
      ∀ (M : Interp) (os : List M.Obj) (r : Course M) (C : Deed M → Prop),
        a.Runs M os r C ↔ ∃ e₀, Binds M vs os e₀ fun e => DurationMet M r e td ∧
          (∀ x, c = some x → IsMet M r e x) ∧ ∀ d, C d ↔ ∃ x, f = some x ∧ IsDone M r e d x := by
  obtain ⟨v, rfl, hv⟩ := varList_reads.mp hw
  obtain ⟨k, hk⟩ := hd
  obtain ⟨g5, u, e5, hu⟩ := (C77_durations _ _ _).mp hk.2
  rw [List.append_nil] at e5
  obtain ⟨c', hc', kc⟩ := emptyOr_reads (R := DaGDX) (fun x ⟨v, h⟩ => ⟨v, daGdx_reads.mp h⟩) hc
  obtain ⟨f', hf', kf⟩ := emptyOr_reads (R := DaEffX []) (fun x ⟨v, h⟩ => ⟨v, daEffect_texts.reads.mp h⟩) hf
  have h5 : g5 = [] := by
    cases hu with
    | none => rfl
    | single h =>
      have := solid_whole hk.1 (by rw [List.append_nil]; exact e5) h.gap h.solid
      subst this
      simpa using e5
    | all h =>
      have := solid_whole hk.1 (by rw [List.append_nil]; exact e5) h (solid_paren _)
      subst this
      simpa using e5
  subst h5
  rw [List.nil_append] at e5
  subst e5
  have ha := DaDefX.mk hg1 (n := wordName n) ⟨hn, rfl⟩ hg2 hg3 hv hg4 hb gapC_nil hu hg6 hc' hg7 hf' hg8
  rw [List.nil_append] at ha
  refine ⟨⟨wordName n, vs, k, c', f'⟩, ⟨by rw [ht]; exact solid_paren _, ?_⟩, wordName_text n, fun M os r C => ?_⟩
  · have := (C84_structures (t ++ []) _ []).mpr ⟨[], t, rfl, .nil, by rw [ht]; exact .durative ha⟩
    rwa [List.append_nil] at this
  · refine exists_congr fun e₀ => Binds.congr (fun e => and_congr (durationMet_iff hk).symm (and_congr ?_ ?_)) vs _ _
    · rcases kc with ⟨rfl, rfl⟩ | ⟨x, v, rfl, rfl, k1⟩
      · exact ⟨fun _ => nofun, fun _ => nofun⟩
      · have := isMet_iff (M := M) (r := r) (e := e) (daGdx_reads.mpr k1)
        exact ⟨fun h y hy => by cases hy; exact this.mpr (h _ rfl), fun h y hy => by cases hy; exact this.mp (h _ rfl)⟩
    · refine forall_congr' fun d => iff_congr Iff.rfl ?_
      rcases kf with ⟨rfl, rfl⟩ | ⟨x, v, rfl, rfl, k1⟩
      · exact ⟨nofun, nofun⟩
      · have := isDone_iff (M := M) (r := r) (e := e) (d := d) (daEffect_texts.reads.mpr k1)
        exact ⟨fun ⟨y, hy, h⟩ => by cases hy; exact ⟨_, rfl, this.mpr h⟩,
          fun ⟨y, hy, h⟩ => by cases hy; exact ⟨_, rfl, this.mp h⟩⟩

/-- C113, derived predicates: in `(:derived (p vs) x)` the predicate `p` is true of the objects for which `x` is. -/
theorem C113_derived {k : Skeleton}
    (h : Paired c!":derived" (ReadsAs parseAtomicFormulaSkeleton) (fun x t => t = x ∧ IsGoal x) k x t) :
    ∃ d, ReadsAs parseStructureDef (.derived d) t ∧ ∀ M : Interp, d.Rule M ↔
      ∀ os e₀, Binds M k.variables os e₀ (fun e => IsTrue M e x) → M.pred k.symbol.text os := by
  obtain ⟨g1, w, g2, u, g3, rfl, h1, hw, h2, ⟨hu, g, hg⟩, h3⟩ := h
  subst hu
  have ht : StructureX (.derived ⟨k, g⟩) (paren (c!":derived" ++ (g1 ++ (w ++ (g2 ++ (u ++ g3)))))) :=
    .derived ⟨g1, w, g2, u, g3, rfl, h1, (skeleton_texts.reads.mp hw).2, h2, gdx_reads.mp hg, h3⟩
  refine ⟨⟨k, g⟩, structure_texts.reads.mpr ⟨.nil, ht⟩, fun M => forall_congr' fun os => forall_congr' fun e₀ => ?_⟩
  exact imp_congr (Binds.congr (fun e => (isTrue_iff hg).symm) _ _ _) Iff.rfl

/-! ## Instances -/

/-- Two bounds, one with a value at the end. -/
example : ∃ n, ∀ (M : Interp) (r : Course M) (e : M.Env),
    DurationMet M r e c!"(and (<= ?duration 9) (at end (>= ?duration (+ (f) (f)))))" ↔
      M.comp .le r.duration (M.lit n) ∧
      M.comp .ge r.duration (M.bin .add (r.finish.fluent c!"f" []) (r.finish.fluent c!"f" [])) := by
  have two : ReadsAs parseFExp (.binaryOp .add (.function (.simple (.str c!"f"))) (.function (.simple (.str c!"f"))))
    c!"(+ (f) (f))" := ⟨solid_open _, rfl⟩
  obtain ⟨n, nine⟩ : ∃ n, ReadsAs parseFExp (.number n) c!"9" := ⟨_, .cons (by decide) (by decide) _, rfl⟩
  refine ⟨n, fun M r e => ?_⟩
  have a := C113_compare M r e (o := .le) (g := []) .nil sp_blank sp_blank nine .start rfl
  have b := C113_compare M r e (o := .ge) (g := []) .nil sp_blank sp_blank two .end_ rfl
  have c := C113_at M r e (g1 := c!" ") (g2 := []) (ts := .end_) (.space (by decide) .nil) sp_blank b.1 .nil .start rfl
  have it : Items (fun x t => t = x ∧ IsBound x) [c!"(<= ?duration 9)", c!"(at end (>= ?duration (+ (f) (f))))"]
      c!"(<= ?duration 9) (at end (>= ?duration (+ (f) (f))))" :=
    Items.cons (g := c!" ") (t := c!"(<= ?duration 9)") ⟨rfl, a.1⟩ sp_blank.sep (Items.one ⟨rfl, c.1⟩)
  have h := C113_and M r e (ts := [c!"(<= ?duration 9)", c!"(at end (>= ?duration (+ (f) (f))))"])
    ⟨_, rfl, Sec.cons (g := c!" ") (t := c!"(<= ?duration 9) (at end (>= ?duration (+ (f) (f))))") (g' := [])
      (.space (by decide) .nil) it .nil⟩ (by simp)
  refine h.2.trans ⟨fun k => ⟨a.2.mp (k _ (.head _)), b.2.mp (c.2.mp (k _ (.tail _ (.head _))))⟩, fun k x hx => ?_⟩
  rcases List.mem_cons.mp hx with rfl | hx
  · exact a.2.mpr k.1
  · cases List.mem_singleton.mp hx
    exact c.2.mpr (b.2.mpr k.2)

/-- An action that is to take as long as `(f)` is at the start. -/
example : ∃ a, ReadsAs parseStructureDef (.durative a)
      c!"(:durative-action go :parameters (?x) :duration (= ?duration (f)) :condition (at start (p)) :effect ())" ∧
    ∀ (M : Interp) (o : M.Obj) (r : Course M) (C : Deed M → Prop), a.Runs M [o] r C ↔
      M.ofType c!"object" o ∧ M.comp .eq r.duration (r.start.fluent c!"f" []) ∧ r.start.pred c!"p" [] ∧
        ∀ d, ¬ C d := by
  have b := fun (M : Interp) (r : Course M) e => C113_compare M r e (o := .eq) (g := []) (w := c!"(f)")
    (v := .function (.simple (.str c!"f"))) .nil sp_blank sp_blank ⟨solid_open _, rfl⟩ .start rfl
  have p : ReadsAs parseDaGd (.timed (.required (.at .start (exAtom c!"p")))) c!"(at start (p))" := ⟨solid_open _, rfl⟩
  obtain ⟨a, h1, -, h3⟩ := C113_durative_action (n := c!"go") (g1 := c!" ") (g2 := c!" ") (g3 := c!" ") (g4 := c!" ")
    (b := c!" ") (g6 := c!" ") (g7 := c!" ") (g8 := []) (w := c!"(?x)") (vs := [⟨.str c!"x", objectTy⟩])
    (c := some c!"(at start (p))") (f := none) (.space (by decide) .nil)
    (isWord_of _ _ (by decide) (by decide)) sp_blank sp_blank.sep ⟨solid_open _, rfl⟩ sp_blank sp_blank
    (C113_one exWhole exCourse (fun _ => (0 : Nat)) (b exWhole exCourse fun _ => (0 : Nat)).1).1 sp_blank
    (.some (g := c!" ") sp_blank.sep ⟨rfl, _, p⟩) sp_blank (.empty (g := c!" ") sp_blank) .nil rfl
  refine ⟨a, h1, fun M o r C => (h3 M [o] r C).trans ?_⟩
  constructor
  · rintro ⟨e₀, h, h1, h2, h3⟩
    refine ⟨h, ?_, ?_, fun d hd => ?_⟩
    · exact (b M r _).2.mp ((C113_one M r _ (b M r fun _ => o).1).2.mp h1)
    · exact (isMet_iff p).mp (h2 _ rfl)
    · obtain ⟨_, h, _⟩ := (h3 d).mp hd
      cases h
  · rintro ⟨h, h1, h2, h3⟩
    refine ⟨fun _ => o, h, ?_, ?_, fun d => ⟨fun h => absurd h (h3 d), nofun⟩⟩
    · exact (C113_one M r _ (b M r fun _ => o).1).2.mpr ((b M r _).2.mpr h1)
    · rintro _ ⟨⟩
      exact (isMet_iff p).mpr h2

/-- A derived predicate: what is on something is above it. -/
example : ∃ d, ReadsAs parseStructureDef (.derived d) c!"(:derived (above ?x ?y) (on ?x ?y))" ∧ ∀ M : Interp,
    (∀ o, M.ofType c!"object" o) → d.Rule M → ∀ a b, M.pred c!"on" [a, b] → M.pred c!"above" [a, b] := by
  have g : ReadsAs parseGd (.atomic (.predicate (.str c!"on") [.var (.str c!"x"), .var (.str c!"y")])) c!"(on ?x ?y)" :=
    ⟨solid_open _, rfl⟩
  obtain ⟨d, h1, h2⟩ := C113_derived (x := c!"(on ?x ?y)")
    (k := ⟨.str c!"above", [⟨.str c!"x", objectTy⟩, ⟨.str c!"y", objectTy⟩]⟩)
    ⟨c!" ", c!"(above ?x ?y)", c!" ", _, [], rfl, .space (by decide) .nil, ⟨solid_open _, rfl⟩, sp_blank.sep,
      ⟨rfl, _, g⟩, .nil⟩
  refine ⟨d, h1, fun M ho h a b hab => (h2 M).mp h [a, b] (fun _ => a) ⟨ho a, ho b, (isTrue_iff g).mpr ?_⟩⟩
  exact hab

end Pddl
