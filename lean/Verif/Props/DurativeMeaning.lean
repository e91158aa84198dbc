import Verif.Spec.Durative
import Verif.Props.DurativeNumeric
import Verif.Props.Trajectory
import Verif.Props.Edges

/-!
# C107: durative conditions and effects mean what PDDL says

In the theorem ending in `_partial` the effect `x` of `(at start x)` is not an assignment of an object that can be read
as one of a number. Missing, and false, is that it does there what it does elsewhere: see `C107_false_object`.
-/

namespace Pddl

/-- The text of a durative condition. -/
def IsDurativeCondition (t : List Char) : Prop := ∃ c, ReadsAs parseDaGd c t

/-- A text is read as a durative condition that is met. -/
def IsMet (M : Interp) (r : Course M) (e : M.Env) (t : List Char) : Prop := ∃ c, ReadsAs parseDaGd c t ∧ c.Met M r e

theorem isMet_iff {M : Interp} {r : Course M} {e : M.Env} {t : List Char} {c : DaGD} (h : ReadsAs parseDaGd c t) :
    IsMet M r e t ↔ c.Met M r e :=
  ⟨fun ⟨_, h1, h2⟩ => h.det h1 ▸ h2, fun h2 => ⟨c, h, h2⟩⟩

variable {x y t : List Char} (M : Interp) (r : Course M) (e : M.Env) (d : Deed M)

theorem timed_condition {v : TimedGD} (h : ReadsAs parseTimedGd v t) : ReadsAs parseDaGd (.timed (.required v)) t :=
  daGdx_reads.mpr (.timed (.required (timedGdx_reads.mp h)))

/-- `(at start x)`: in the state where the action begins. -/
theorem C107_at_start (h : Paired c!"at" (fun _ t => t = c!"start") (fun x t => t = x ∧ IsGoal x) () x t) :
    IsDurativeCondition t ∧ (IsMet M r e t ↔ IsTrue (M.now r.start) e x) := by
  obtain ⟨g1, _, g2, _, g3, rfl, h1, rfl, h2, ⟨rfl, g, hg⟩, h3⟩ := h
  have h4 := timed_condition (C73_timed_at.mpr ⟨g1, TimeSpecifier.start.spell, g2, _, g3, rfl, h1, rfl, h2, hg, h3⟩)
  exact ⟨⟨_, h4⟩, (isMet_iff h4).trans (isTrue_iff (M := M.now r.start) hg).symm⟩

/-- `(at end x)`: in the state where it ends. -/
theorem C107_at_end (h : Paired c!"at" (fun _ t => t = c!"end") (fun x t => t = x ∧ IsGoal x) () x t) :
    IsDurativeCondition t ∧ (IsMet M r e t ↔ IsTrue (M.now r.finish) e x) := by
  obtain ⟨g1, _, g2, _, g3, rfl, h1, rfl, h2, ⟨rfl, g, hg⟩, h3⟩ := h
  have h4 := timed_condition (C73_timed_at.mpr ⟨g1, TimeSpecifier.end_.spell, g2, _, g3, rfl, h1, rfl, h2, hg, h3⟩)
  exact ⟨⟨_, h4⟩, (isMet_iff h4).trans (isTrue_iff (M := M.now r.finish) hg).symm⟩

/-- `(over all x)`: in all states in between. -/
theorem C107_over_all (h : Paired c!"over" (fun _ t => t = c!"all") (fun x t => t = x ∧ IsGoal x) () x t) :
    IsDurativeCondition t ∧ (IsMet M r e t ↔ ∀ s, r.during s → IsTrue (M.now s) e x) := by
  obtain ⟨g1, _, g2, _, g3, rfl, h1, rfl, h2, ⟨rfl, g, hg⟩, h3⟩ := h
  have h4 := timed_condition (C73_timed_over.mpr ⟨g1, Interval.all.spell, g2, _, g3, rfl, h1, rfl, h2, hg, h3⟩)
  refine ⟨⟨_, h4⟩, (isMet_iff h4).trans ?_⟩
  exact forall_congr' fun s => imp_congr_right fun _ => (isTrue_iff (M := M.now s) hg).symm

/-- A preference, with a name or without, need not be met. -/
theorem C107_preference {v : TimedGD}
    (h : (∃ n, Paired c!"preference" NameW (ReadsAs parseTimedGd) n v t) ∨
      Wrapped c!"preference" (ReadsAs parseTimedGd) v t) : IsDurativeCondition t ∧ IsMet M r e t := by
  have : ∃ n, ReadsAs parsePrefTimedGd (.preference n v) t := by
    rcases h with ⟨n, h⟩ | h
    · exact ⟨_, C73_timed_preference_named.mpr h⟩
    · exact ⟨_, C73_timed_preference_anonymous.mpr h⟩
  obtain ⟨n, hn⟩ := this
  have h4 := daGdx_reads.mpr (.timed (prefTimedX_reads.mp hn))
  exact ⟨⟨_, h4⟩, by rw [isMet_iff h4]; trivial⟩

theorem daConditions_of_texts {ts : List (List Char)} {u : List Char}
    (h : Items (fun x t => t = x ∧ IsDurativeCondition x) ts u) :
    ∃ cs, Items (ReadsAs parseDaGd) cs u ∧ ∀ (M : Interp) (r : Course M) (e : M.Env),
      DaGD.AllMet M r cs e ↔ ∀ x ∈ ts, IsMet M r e x := by
  induction h with
  | one h =>
    obtain ⟨rfl, c, hc⟩ := h
    exact ⟨[c], .one hc, fun M r e => by simp [DaGD.AllMet, isMet_iff hc]⟩
  | cons h hs _ ih =>
    obtain ⟨rfl, c, hc⟩ := h
    obtain ⟨cs, h1, h2⟩ := ih
    exact ⟨c :: cs, .cons hc hs h1, fun M r e => by simp [DaGD.AllMet, isMet_iff hc, h2 M r e]⟩

/-- `(and x ..)`: all of them. -/
theorem C107_and {ts : List (List Char)} (h : Listed c!"and" (fun x t => t = x ∧ IsDurativeCondition x) ts t) :
    IsDurativeCondition t ∧ (IsMet M r e t ↔ ∀ x ∈ ts, IsMet M r e x) := by
  obtain ⟨u, rfl, hu⟩ := h
  cases hu with
  | nil hg =>
    have h3 := C73_da_condition_and.mpr ⟨u, rfl, .nil hg⟩
    exact ⟨⟨_, h3⟩, by rw [isMet_iff h3, DaGD.Met, DaGD.AllMet]; simp⟩
  | cons h1 h2 h3 =>
    obtain ⟨gs, k1, k2⟩ := daConditions_of_texts h2
    have h4 := C73_da_condition_and.mpr ⟨_, rfl, .cons h1 k1 h3⟩
    exact ⟨⟨_, h4⟩, by rw [isMet_iff h4, DaGD.Met, k2]⟩

/-- `(forall (v ..) x)`: for all objects of the types of the variables. -/
theorem C107_forall {vs : TypedList Name}
    (h : Paired c!"forall" (ReadsAs parseVarList) (fun x t => t = x ∧ IsDurativeCondition x) vs x t) :
    IsDurativeCondition t ∧ (IsMet M r e t ↔ ForEach M vs e fun e => IsMet M r e x) := by
  obtain ⟨g1, w, g2, _, g3, rfl, h1, hw, h2, ⟨rfl, b, hb⟩, h3⟩ := h
  have h4 := C73_da_condition_forall.mpr ⟨g1, w, g2, _, g3, rfl, h1, hw, h2, hb, h3⟩
  exact ⟨⟨_, h4⟩, by rw [isMet_iff h4, DaGD.Met]; exact ForEach.congr (fun e => (isMet_iff hb).symm) vs e⟩

/-! ## Effects -/

/-- The text of a timed effect. -/
def IsTimedEffect (t : List Char) : Prop := ∃ v, ReadsAs parseTimedEffect v t

/-- A text is read as a timed effect that does `d`. -/
def TimedDoes (M : Interp) (r : Course M) (e : M.Env) (d : Deed M) (t : List Char) : Prop :=
  ∃ v, ReadsAs parseTimedEffect v t ∧ v.Does M r e d

/-- The text of a durative effect. -/
def IsDurativeEffect (t : List Char) : Prop := ∃ v, ReadsAs parseDaEffect v t

/-- A text is read as a durative effect that does `d`. -/
def IsDone (M : Interp) (r : Course M) (e : M.Env) (d : Deed M) (t : List Char) : Prop :=
  ∃ v, ReadsAs parseDaEffect v t ∧ v.Does M r d e

theorem timedDoes_iff {M : Interp} {r : Course M} {e : M.Env} {d : Deed M} {t : List Char} {v : TimedEffect}
    (h : ReadsAs parseTimedEffect v t) : TimedDoes M r e d t ↔ v.Does M r e d :=
  ⟨fun ⟨_, h1, h2⟩ => h.det h1 ▸ h2, fun h2 => ⟨v, h, h2⟩⟩

theorem isDone_iff {M : Interp} {r : Course M} {e : M.Env} {d : Deed M} {t : List Char} {v : DaEffect}
    (h : ReadsAs parseDaEffect v t) : IsDone M r e d t ↔ v.Does M r d e :=
  ⟨fun ⟨_, h1, h2⟩ => h.det h1 ▸ h2, fun h2 => ⟨v, h, h2⟩⟩

/-- A timed effect is a durative effect that does the same. -/
theorem C107_timed_effect (h : IsTimedEffect t) :
    IsDurativeEffect t ∧ (IsDone M r e d t ↔ TimedDoes M r e d t) := by
  obtain ⟨v, hv⟩ := h
  have h4 : ReadsAs parseDaEffect (.timed v) t :=
    daEffect_texts.reads.mpr (.timed (timedEffect_texts.reads.mp hv))
  exact ⟨⟨_, h4⟩, by rw [isDone_iff h4, timedDoes_iff hv, DaEffect.Does]⟩

/-- `(at ts x)` where `x` is an assignment of a number, possibly with `?duration`: that assignment, with
the values of that time. -/
theorem C107_at_number {ts : TimeSpecifier} {a : FAssignDa}
    (h : Paired c!"at" (fun o x => x = TimeSpecifier.spell o) (ReadsAs parseFAssignDa) ts a t) :
    IsTimedEffect t ∧ (TimedDoes M r e d t ↔ d = .change ts (.number a.op (a.head.fluent (M.now (r.state ts)) e).1
      (a.head.fluent (M.now (r.state ts)) e).2 (a.exp.denote (M.now (r.state ts)) e r.duration))) := by
  have h4 : ReadsAs parseTimedEffect (.numericFluent ts a) t := timedEffect_texts.reads.mpr
    (.assign .nil (h.imp (fun _ h => h) fun _ h => (assignDa_texts.reads.mp h).2))
  exact ⟨⟨_, h4⟩, by rw [timedDoes_iff h4, TimedEffect.Does]⟩

/-- `(at ts x)` where `x` is an effect that an action can have: it makes at that time the changes that `x` makes
then. Assignments of objects that can be read as ones of numbers are left out, and those with `?duration`
are in `C107_at_number`. -/
theorem C107_at_partial {ts : TimeSpecifier} {v : CondEffect}
    (h : Paired c!"at" (fun o x => x = TimeSpecifier.spell o) (fun v x => ReadsAs parseCondEffect v x ∧
      ((∃ op h a, v = .single (.assignNumeric op h a)) ∨ ∀ a, ¬ ReadsAs parseFAssignDa a x)) ts v t) :
    IsTimedEffect t ∧
      (TimedDoes M r e d t ↔ ∃ c, v.Makes (M.now (r.state ts)) e c ∧ d = .change ts c.ofNow) := by
  obtain ⟨g1, _, g2, x, g3, rfl, h1, rfl, h2, ⟨hx, hn⟩, h3⟩ := h
  by_cases ha : ∃ a, ReadsAs parseFAssignDa a x
  · obtain ⟨a, ha⟩ := ha
    rcases hn with ⟨op, h, b, rfl⟩ | hn
    · have hb := C106_assignments (C73_cond_effect_single hx)
      obtain ⟨h4, h5⟩ := C107_at_number M r e d ⟨g1, ts.spell, g2, x, g3, rfl, h1, rfl, h2, hb, h3⟩
      refine ⟨h4, h5.trans ?_⟩
      have hd := FExp.lift_denote (M.now (r.state ts)) e r.duration b
      simp only [CondEffect.Makes]
      constructor
      · rintro rfl
        refine ⟨_, rfl, ?_⟩
        rw [hd]
        cases h <;> rfl
      · rintro ⟨_, rfl, rfl⟩
        rw [hd]
        cases h <;> rfl
    · exact absurd ha (hn a)
  · have h4 : ReadsAs parseTimedEffect (.conditional ts v) (paren (c!"at" ++ (g1 ++ (ts.spell ++ (g2 ++ (x ++ g3)))))) := by
      refine ⟨solid_paren _, ?_⟩
      have := (C51_iff ts hx.1 hx.2 h1 h2 h3 []).1.mpr fun a h => ha ⟨a, hx.1, h⟩
      rwa [List.append_nil] at this
    exact ⟨⟨_, h4⟩, by rw [timedDoes_iff h4, TimedEffect.Does]⟩

/-- `(increase h x)` and `(decrease h x)` without a time: a continuous change. -/
theorem C107_continuous {op : AssignOpT} {h : FHead} {a : FExpT}
    (ht : OpForm (fun o t => t = AssignOpT.spell o) (fun g h t => HeadLead t g ∧ FHeadX h t) FExpTX (op, h, a) t) :
    IsTimedEffect t ∧ (TimedDoes M r e d t ↔ d = .flow op (h.fluent (M.now r.start) e).1 (h.fluent (M.now r.start) e).2
      (match a with | .now => none | .scaled b => some (b.denote (M.now r.start) e))) := by
  have h4 : ReadsAs parseTimedEffect (.continuous op h a) t := timedEffect_texts.reads.mpr (.continuous gapC_nil ht)
  refine ⟨⟨_, h4⟩, (timedDoes_iff h4).trans ?_⟩
  cases a <;> exact Iff.rfl

theorem daEffects_of_texts {ts : List (List Char)} {u : List Char}
    (h : Items (fun x t => t = x ∧ IsDurativeEffect x) ts u) :
    ∃ cs, Items (ReadsAs parseDaEffect) cs u ∧ ∀ (M : Interp) (r : Course M) (e : M.Env) (d : Deed M),
      DaEffect.SomeDoes M r d cs e ↔ ∃ x ∈ ts, IsDone M r e d x := by
  induction h with
  | one h =>
    obtain ⟨rfl, c, hc⟩ := h
    exact ⟨[c], .one hc, fun M r e d => by simp [DaEffect.SomeDoes, isDone_iff hc]⟩
  | cons h hs _ ih =>
    obtain ⟨rfl, c, hc⟩ := h
    obtain ⟨cs, h1, h2⟩ := ih
    exact ⟨c :: cs, .cons hc hs h1, fun M r e d => by simp [DaEffect.SomeDoes, isDone_iff hc, h2 M r e d]⟩

/-- `(and x ..)`: what one of them does. -/
theorem C107_effect_and {ts : List (List Char)} (h : Listed c!"and" (fun x t => t = x ∧ IsDurativeEffect x) ts t) :
    IsDurativeEffect t ∧ (IsDone M r e d t ↔ ∃ x ∈ ts, IsDone M r e d x) := by
  obtain ⟨u, rfl, hu⟩ := h
  cases hu with
  | nil hg =>
    have h3 := C73_da_effect_and.mpr ⟨u, rfl, .nil hg⟩
    exact ⟨⟨_, h3⟩, by rw [isDone_iff h3, DaEffect.Does, DaEffect.SomeDoes]; simp⟩
  | cons h1 h2 h3 =>
    obtain ⟨gs, k1, k2⟩ := daEffects_of_texts h2
    have h4 := C73_da_effect_and.mpr ⟨_, rfl, .cons h1 k1 h3⟩
    exact ⟨⟨_, h4⟩, by rw [isDone_iff h4, DaEffect.Does, k2]⟩

/-- `(forall (v ..) x)`: what `x` does for some objects of the types of the variables. -/
theorem C107_effect_forall {vs : TypedList Name}
    (h : Paired c!"forall" (ReadsAs parseVarList) (fun x t => t = x ∧ IsDurativeEffect x) vs x t) :
    IsDurativeEffect t ∧ (IsDone M r e d t ↔ ForSome M vs e fun e => IsDone M r e d x) := by
  obtain ⟨g1, w, g2, _, g3, rfl, h1, hw, h2, ⟨rfl, b, hb⟩, h3⟩ := h
  have h4 := C73_da_effect_forall.mpr ⟨g1, w, g2, _, g3, rfl, h1, hw, h2, hb, h3⟩
  exact ⟨⟨_, h4⟩, by rw [isDone_iff h4, DaEffect.Does]; exact ForSome.congr (fun e => (isDone_iff hb).symm) vs e⟩

/-- `(when x y)`: what `y` does, if `x` is met. -/
theorem C107_when (h : Paired c!"when" (fun x t => t = x ∧ IsDurativeCondition x) (fun x t => t = x ∧ IsTimedEffect x)
    x y t) : IsDurativeEffect t ∧ (IsDone M r e d t ↔ IsMet M r e x ∧ TimedDoes M r e d y) := by
  obtain ⟨g1, _, g2, _, g3, rfl, h1, ⟨rfl, a, ha⟩, h2, ⟨rfl, b, hb⟩, h3⟩ := h
  have h4 := C73_da_effect_when.mpr ⟨g1, _, g2, _, g3, rfl, h1, ha, h2, hb, h3⟩
  exact ⟨⟨_, h4⟩, by rw [isDone_iff h4, isMet_iff ha, timedDoes_iff hb, DaEffect.Does]⟩

/-- `p` is true at the start, `q` after it and `p` again at the end; the action takes 5. -/
def exCourse : Course exWhole where
  start := ⟨(0 : Int), fun _ _ => (0 : Nat), fun n _ => n = c!"p", fun _ _ => (1 : Int)⟩
  finish := ⟨(5 : Int), fun _ _ => (0 : Nat), fun n _ => n = c!"p", fun _ _ => (2 : Int)⟩
  during s := s.pred = fun n _ => n = c!"q"
  duration := (5 : Int)

/-- An instance of the conditions, with a comment in one. -/
example (e : exWhole.Env) : IsMet exWhole exCourse e c!"(and (at start (p)) (over all ;c\n(q)))" ∧
    ¬ IsMet exWhole exCourse e c!"(and (at start (p)) (at end (q)))" ∧
    IsMet exWhole exCourse e c!"(preference (at end (q)))" := by
  refine ⟨(isMet_iff (c := .and [.timed (.required (.at .start (exAtom c!"p"))),
      .timed (.required (.over .all (exAtom c!"q")))]) ⟨solid_open _, rfl⟩).mpr ?_,
    mt (isMet_iff (c := .and [.timed (.required (.at .start (exAtom c!"p"))),
      .timed (.required (.at .end_ (exAtom c!"q")))]) ⟨solid_open _, rfl⟩).mp ?_,
    (isMet_iff (c := .timed (.preference none (.at .end_ (exAtom c!"q")))) ⟨solid_open _, rfl⟩).mpr ?_⟩
  · simp only [DaGD.Met, DaGD.AllMet, PrefTimedGD.Met, TimedGD.Met, and_true]
    exact ⟨rfl, fun s (hs : s.pred = _) => by show s.pred _ _; rw [hs]; rfl⟩
  · simp only [DaGD.Met, DaGD.AllMet, PrefTimedGD.Met, TimedGD.Met, and_true]
    rintro ⟨-, h⟩
    cases (h : c!"q" = c!"p")
  · simp only [DaGD.Met, PrefTimedGD.Met]

/-- An instance of the effects: one at the end that depends on the duration and on the value then, a literal
at the start, and a continuous one. -/
example (e : exWhole.Env) :
    IsDone exWhole exCourse e (.change .end_ (.number .increase c!"g" [] (7 : Int)))
      c!"(and (when (at start (p)) (at end (increase (g) (+ ?duration (f))))) (decrease (h) (* #t (f))))" ∧
    IsDone exWhole exCourse e (.flow .decrease c!"h" [] (some (1 : Int)))
      c!"(and (when (at start (p)) (at end (increase (g) (+ ?duration (f))))) (decrease (h) (* #t (f))))" ∧
    ¬ IsDone exWhole exCourse e (.change .start (.add c!"p" [])) c!"(when (at end (q)) (at start (p)))" := by
  let x : DaEffect := .all [.when (.timed (.required (.at .start (exAtom c!"p")))) (.numericFluent .end_
        ⟨.increase, .simple (.str c!"g"), .binaryOp .add .duration (.fExp (.function (.simple (.str c!"f"))))⟩),
      .timed (.continuous .decrease (.simple (.str c!"h")) (.scaled (.function (.simple (.str c!"f")))))]
  have hx : ReadsAs parseDaEffect x
      c!"(and (when (at start (p)) (at end (increase (g) (+ ?duration (f))))) (decrease (h) (* #t (f))))" :=
    ⟨solid_open _, rfl⟩
  refine ⟨(isDone_iff hx).mpr ?_, (isDone_iff hx).mpr ?_,
    mt (isDone_iff (v := .when (.timed (.required (.at .end_ (exAtom c!"q"))))
      (.conditional .start (.single (.atomic (.predicate (.str c!"p") []))))) ⟨solid_open _, rfl⟩).mp ?_⟩
  · exact .inl ⟨rfl, rfl⟩
  · exact .inr (.inl rfl)
  · rintro ⟨h, -⟩
    cases (h : c!"q" = c!"p")

/-- C107 is false of assignments of objects at a time: `(assign (f) a)` makes `f` the object `a`, but in
`(at start (assign (f) a))` it is given the number of a function `a` (C51). -/
theorem C107_false_object (e : exWhole.Env) : ∃ (x : List Char) (v : CondEffect) (c : Change (exWhole.now exCourse.start)),
    ReadsAs parseCondEffect v x ∧ IsTimedEffect (paren (c!"at start " ++ x)) ∧
    v.Makes (exWhole.now exCourse.start) e c ∧
    ¬ TimedDoes exWhole exCourse e (.change .start c.ofNow) (paren (c!"at start " ++ x)) := by
  have h : ReadsAs parseTimedEffect (.numericFluent .start
      ⟨.assign, .simple (.str c!"f"), .fExp (.function (.simple (.str c!"a")))⟩) c!"(at start (assign (f) a))" :=
    ⟨solid_open _, rfl⟩
  refine ⟨c!"(assign (f) a)", .single (.assignObject ⟨.str c!"f", []⟩ (some (.name (.str c!"a")))), _,
    ⟨solid_open _, rfl⟩, ⟨_, h⟩, rfl, mt (timedDoes_iff h).mp ?_⟩
  intro h
  cases h

end Pddl
