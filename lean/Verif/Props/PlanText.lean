import Verif.Props.EffectMeaning
import Verif.Props.PlanParts

/-!
# C111: the steps, the initial state and the goal of a problem are those of the texts
-/

namespace Pddl

/-- The text of a goal in which there are no preferences. -/
def IsHardGoal (t : List Char) : Prop := IsGoal t ∧ ∀ v, ReadsAs parsePreGd v t → PreGD.allHard v = true

/-- A change as one in the state `s`. -/
def Change.inside {M : Interp} (s : State M) : Change M → Change (M.within s)
  | .add p os => .add p os
  | .delete p os => .delete p os
  | .equal a b => .equal a b
  | .differ a b => .differ a b
  | .object f os o => .object f os o
  | .number op f os n => .number op f os n

theorem alters_iff {M : Interp} {s : State M} {xs : List CEffect} {e : M.Env} {c : Change M} :
    Alters M s xs e c ↔ CEffect.MakeSome (M.within s) (c.inside s) xs e := by
  cases c <;> exact Iff.rfl

/-- What is read as a precondition where a goal without preferences is written. -/
theorem hardGoal_reads {x : List Char} (h : IsHardGoal x) : ∃ v, ReadsAs parsePreGd v x ∧
    ∀ (M : Interp) (e : M.Env), PreGD.AllHold M v e ↔ IsTrue M e x := by
  obtain ⟨⟨g, hg⟩, hh⟩ := h
  obtain ⟨v, h1, h2⟩ := C102_goal_precondition x g [] hg.2
  have hv : ReadsAs parsePreGd v x := ⟨hg.1, h1⟩
  exact ⟨v, hv, fun M e => (h2 (hh v hv) M e).trans (isTrue_iff hg).symm⟩

/-- A section of an action whose content is read. -/
theorem slot_reads {kw : List Char} {Q : List Char → Prop} {R : α → List Char → Prop} {K : α → List Char → Prop}
    (hQ : ∀ x, Q x → ∃ v, R v x ∧ K v x) {o : Option (Option (List Char))} {u : List Char}
    (h : SlotW kw (fun x t => t = x ∧ Q x) o u) : ∃ o' : Option (Option α), SlotW kw R o' u ∧
      ((o.join = none ∧ o'.join = none) ∨ ∃ x v, o.join = some x ∧ o'.join = some v ∧ R v x ∧ K v x) := by
  cases h with
  | absent => exact ⟨none, .absent, .inl ⟨rfl, rfl⟩⟩
  | present hg h =>
    cases h with
    | empty hs => exact ⟨some none, .present hg (.empty hs), .inl ⟨rfl, rfl⟩⟩
    | @some _ x _ hs h =>
      obtain ⟨rfl, hx⟩ := h
      obtain ⟨v, h1, h2⟩ := hQ _ hx
      exact ⟨some (some v), .present hg (.some hs h1), .inr ⟨_, v, rfl, rfl, h1, h2⟩⟩

theorem Binds.congr {M : Interp} {p q : M.Env → Prop} (h : ∀ e, p e ↔ q e) (vs : TypedList Name) :
    ∀ os e, Binds M vs os e p ↔ Binds M vs os e q := by
  induction vs with
  | nil =>
    intro os e
    cases os with
    | nil => exact h e
    | cons => exact Iff.rfl
  | cons v vs ih =>
    intro os e
    cases os with
    | nil => exact Iff.rfl
    | cons o os => exact and_congr_right fun _ => ih os _

theorem State.Next.congr {M : Interp} {C C' : Change M → Prop} (h : ∀ c, C c ↔ C' c) {s s' : State M} :
    State.Next M C s s' ↔ State.Next M C' s s' := by
  rw [show C = C' from funext fun c => propext (h c)]

/-- C111, the steps: where a domain has the action that is written with the name `n`, the variables `vs`, the precondition
`pre` and the effect `eff`, both of which may be missing or `()`, a step with this name leads from `s` to `s'` if its
arguments are of the types of the variables, the precondition is true in `s` and `s'` is `s` with the changes by the
effect. -/
theorem C111_step {n w g1 g2 g3 g4 u1 u2 t : List Char} {vs : TypedList Name} {pre eff : Option (Option (List Char))}
    (hg1 : Gap g1) (hn : IsWord n) (hg2 : Sp g2) (hg3 : Sep g3) (hw : ReadsAs parseVarList vs w)
    (hpre : SlotW c!":precondition" (fun x t => t = x ∧ IsHardGoal x) pre u1)
    (heff : SlotW c!":effect" (fun x t => t = x ∧ IsEffect x) eff u2) (hg4 : Gap g4)
    (ht : t = paren (c!":action" ++ (g1 ++ (n ++ (g2 ++ (c!":parameters" ++ (g3 ++ (w ++ (u1 ++ (u2 ++ g4)))))))))) :
    ∃ a, ReadsAs parseStructureDef (.action a) t ∧ a.symbol.text = n ∧ ∀ D : Domain, .action a ∈ D.structure_ →
      (∀ b : ActionDef, .action b ∈ D.structure_ → b.symbol.text = n → b = a) →
      ∀ (M : Interp) (os : List (List Char)) (s s' : State M),
        PlanStep.Leads D M ⟨n, os⟩ s s' ↔ ∃ e₀, Binds M vs (os.map M.const) e₀ fun e =>
          (∀ x, pre.join = some x → IsTrue (M.within s) e x) ∧
          State.Next M (fun c => ∃ y, eff.join = some y ∧ MakesChange (M.within s) e (c.inside s) y) s s' := by
  obtain ⟨v, rfl, hv⟩ := varList_reads.mp hw
  obtain ⟨p, hp, kp⟩ := slot_reads (R := PreX []) (K := fun v x => ∀ (M : Interp) (e : M.Env),
    PreGD.AllHold M v e ↔ IsTrue M e x) (fun x hx => by
      obtain ⟨v, h1, h2⟩ := hardGoal_reads hx
      exact ⟨v, prex_reads.mp h1, h2⟩) hpre
  obtain ⟨f, hf, kf⟩ := slot_reads (R := EffX []) (K := fun v x => ReadsAs parseEffect v x) (fun x hx => by
      obtain ⟨v, h1⟩ := hx
      exact ⟨v, effect_texts.reads.mp h1, h1⟩) heff
  have ha := ActionX.mk hg1 (n := wordName n) ⟨hn, rfl⟩ hg2 hg3 hv hp hf hg4
  refine ⟨⟨wordName n, vs, p.join.getD [], f.join⟩, ⟨by rw [ht]; exact solid_paren _, ?_⟩, wordName_text n, fun D hD hu M os s s' => ?_⟩
  · have := (C84_structures (t ++ []) _ []).mpr ⟨[], t, rfl, .nil, by rw [ht]; exact .action ha⟩
    rwa [List.append_nil] at this
  · have hA : ∀ e : M.Env, (PreGD.AllHold (M.within s) (p.join.getD []) e ∧
          State.Next M (Alters M s (f.join.getD []) e) s s') ↔
        ((∀ x, pre.join = some x → IsTrue (M.within s) e x) ∧
          State.Next M (fun c => ∃ y, eff.join = some y ∧ MakesChange (M.within s) e (c.inside s) y) s s') := by
      intro e
      refine and_congr ?_ (State.Next.congr fun c => ?_)
      · rcases kp with ⟨k1, k2⟩ | ⟨x, v, k1, k2, _, k3⟩
        · rw [k1, k2]
          exact ⟨fun _ => nofun, fun _ => trivial⟩
        · rw [k1, k2]
          exact (k3 (M.within s) e).trans ⟨fun h y hy => by cases hy; exact h, fun h => h x rfl⟩
      · rw [alters_iff]
        rcases kf with ⟨k1, k2⟩ | ⟨x, v, k1, k2, _, k3⟩
        · rw [k1, k2]
          exact ⟨nofun, nofun⟩
        · rw [k1, k2]
          exact (makesChange_iff (M := M.within s) k3).symm.trans
            ⟨fun h => ⟨x, rfl, h⟩, fun ⟨y, hy, h⟩ => by cases hy; exact h⟩
    constructor
    · rintro ⟨b, hb, hbn, e₀, h⟩
      cases hu b hb hbn
      exact ⟨e₀, (Binds.congr hA vs _ _).mp h⟩
    · rintro ⟨e₀, h⟩
      exact ⟨_, hD, wordName_text n, e₀, (Binds.congr hA vs _ _).mpr h⟩

/-- C111, the goal: a plan for a problem with `(:goal x)` leads to states where `x` is true. -/
theorem C111_goal {P : Problem} {x t : List Char} (h : ReadsAs parseProblemGoalDef P.goal t)
    (hx : Wrapped c!":goal" (fun x t => t = x ∧ IsHardGoal x) x t) (D : Domain) (ts : List PlanStep) :
    Solves D P ts ↔ ∀ M : Interp, M.Fits D P → ∀ s, State.Initial D P M s →
      ∃ s', Reach D M ts s s' ∧ ∀ e : M.Env, IsTrue (M.within s') e x := by
  obtain ⟨g1, _, g2, rfl, h1, ⟨rfl, hx⟩, h2⟩ := hx
  obtain ⟨v, h3, h4⟩ := hardGoal_reads hx
  have h5 := (C80_goal_section (paren (c!":goal" ++ (g1 ++ (_ ++ g2))) ++ []) v []).mpr
    ⟨[], _, rfl, .nil, g1, _, g2, rfl, h1, prex_reads.mp h3, h2⟩
  rw [List.append_nil] at h5
  have := h.det ⟨solid_paren _, h5⟩
  refine forall_congr' fun M => imp_congr_right fun _ => forall_congr' fun s => imp_congr_right fun _ =>
    exists_congr fun s' => and_congr_right fun _ => forall_congr' fun e => ?_
  rw [this]
  exact h4 (M.within s') e

theorem init_reads {v : InitElement} {x : List Char} : ReadsAs parseInitEl v x ↔ InitX [] v x := by
  constructor
  · rintro ⟨hs, h⟩
    obtain ⟨g, t, e, h⟩ := (C77_initial_elements _ _ _).mp h
    have := solid_whole hs e h.gap h.solid
    subst this
    exact h.drop
  · intro h
    have := (C77_initial_elements (x ++ []) v []).mpr ⟨[], x, rfl, h⟩
    rw [List.append_nil] at this
    exact ⟨h.solid, this⟩

/-- What is in the initial state are the elements that are written. -/
theorem init_of_texts {vs : List InitElement} {t : List Char} {ts : List (List Char)}
    (h : ReadsAs parseProblemInitDef vs t) (hx : Listed c!":init" (fun x t => t = x ∧ ∃ v, ReadsAs parseInitEl v x) ts t)
    (v : InitElement) : v ∈ vs ↔ ∃ x ∈ ts, ReadsAs parseInitEl v x := by
  obtain ⟨u, rfl, hu⟩ := hx
  have key : ∀ {ws}, InitSectionX ws (paren (c!":init" ++ u)) → vs = ws := fun {ws} hw => by
    have := (C77_initial_states (paren (c!":init" ++ u) ++ []) ws []).mpr ⟨[], _, rfl, .nil, hw⟩
    rw [List.append_nil] at this
    exact h.det ⟨solid_paren _, this⟩
  cases hu with
  | nil hg =>
    cases key (.nil hg)
    simp
  | @cons _ _ u _ h1 h2 h3 =>
    have : ∃ ws, Items (InitX []) ws u ∧ ∀ v, v ∈ ws ↔ ∃ x ∈ ts, ReadsAs parseInitEl v x := by
      clear key h
      induction h2 with
      | one h =>
        obtain ⟨rfl, w, hw⟩ := h
        refine ⟨[w], .one (init_reads.mp hw), fun v => ?_⟩
        simp only [List.mem_singleton, exists_eq_left]
        exact ⟨fun h => h ▸ hw, fun h => h.det hw⟩
      | cons h hs _ ih =>
        obtain ⟨rfl, w, hw⟩ := h
        obtain ⟨ws, k1, k2⟩ := ih
        refine ⟨w :: ws, .cons (init_reads.mp hw) hs k1, fun v => ?_⟩
        simp only [List.mem_cons, exists_eq_or_imp, k2]
        exact or_congr_left ⟨fun h => h ▸ hw, fun h => h.det hw⟩
    obtain ⟨ws, k1, k2⟩ := this
    cases key (.cons h1 k1 h3)
    exact k2 v

theorem fact_reads {q : Name} {ns : List Name} {x : List Char} :
    ReadsAs parseInitEl (.literal (.pos (.predicate q ns))) x ↔
      ReadsAs (atomicFormula parseName) (.predicate q ns) x := by
  rw [init_reads]
  constructor
  · intro h
    cases h with
    | literal hl h =>
      cases h with
      | pos h =>
        have := (C68_ground_atoms (x ++ []) _ []).mpr ⟨[], x, rfl, .nil _, h⟩
        rw [List.append_nil] at this
        exact ⟨h.solid, this⟩
  · rintro ⟨hs, h⟩
    obtain ⟨g, t, e, hg, h⟩ := (C68_ground_atoms _ _ _).mp h
    have := solid_whole hs e hg.gap h.solid
    subst this
    exact .literal (AtomLead.nil (.predicate q ns)) (.pos h)

/-- C111, the initial state: what is true in the beginning are the facts that are written, and those of the domain; the
numbers and objects are those written. -/
theorem C111_facts {P : Problem} {t : List Char} {ts : List (List Char)} (h : ReadsAs parseProblemInitDef P.init t)
    (hx : Listed c!":init" (fun x t => t = x ∧ ∃ v, ReadsAs parseInitEl v x) ts t) {D : Domain}
    {M : Interp} {s : State M} : State.Initial D P M s ↔
      (∀ p os, s.pred p os ↔ ∃ (q : Name) (ns : List Name), p = q.text ∧ os = ns.map (fun n => M.const n.text) ∧
        (.pos (.predicate q ns) ∈ D.timeless ∨ ∃ x ∈ ts, ReadsAs (atomicFormula parseName) (.predicate q ns) x)) ∧
      (∀ x ∈ ts, ∀ f v, ReadsAs parseInitEl (.isValue f v) x →
        s.fluent f.symbol.text (f.names.map fun n => M.const n.text) = M.lit v) ∧
      (∀ x ∈ ts, ∀ f o, ReadsAs parseInitEl (.isObject f o) x →
        s.fn f.symbol.text (f.names.map fun n => M.const n.text) = M.const o.text) := by
  have k := init_of_texts h hx
  constructor
  · rintro ⟨h1, h2, h3⟩
    refine ⟨fun p os => (h1 p os).trans ?_, fun x hx f v hv => h2 f v ((k _).mpr ⟨x, hx, hv⟩),
      fun x hx f o hv => h3 f o ((k _).mpr ⟨x, hx, hv⟩)⟩
    simp only [k, fact_reads]
  · rintro ⟨h1, h2, h3⟩
    refine ⟨fun p os => (h1 p os).trans ?_, fun f v hv => ?_, fun f o hv => ?_⟩
    · simp only [k, fact_reads]
    · obtain ⟨x, hx, hv⟩ := (k _).mp hv
      exact h2 x hx f v hv
    · obtain ⟨x, hx, hv⟩ := (k _).mp hv
      exact h3 x hx f o hv

/-! ## Instances -/

theorem hardGoal_of {x : List Char} {g : GD} {v : List PreGD} (h : ReadsAs parseGd g x) (hv : ReadsAs parsePreGd v x)
    (hh : PreGD.allHard v = true) : IsHardGoal x := ⟨⟨g, h⟩, fun w hw => hv.det hw ▸ hh⟩

/-- The action `kick`: the ball lies and then it does not. -/
example (M : Interp) (o : List Char) (s s' : State M) : PlanStep.Leads planD M ⟨c!"kick", [o]⟩ s s' ↔
    ∃ e₀, M.ofType c!"ball" (M.const o) ∧ IsTrue (M.within s) (M.set e₀ c!"b" (M.const o)) c!"(lies ?b)" ∧
      State.Next M (fun c => MakesChange (M.within s) (M.set e₀ c!"b" (M.const o)) (c.inside s) c!"(not (lies ?b))")
        s s' := by
  have sp : Sp c!" " := ⟨by decide, by unfold Sp0; decide⟩
  have hp : SlotW c!":precondition" (fun x t => t = x ∧ IsHardGoal x) (some (some c!"(lies ?b)"))
      c!" :precondition (lies ?b)" :=
    .present (g := c!" ") (u := c!" (lies ?b)") (.space (by decide) .nil)
      (.some (g := c!" ") sp.sep ⟨rfl, hardGoal_of ⟨solid_open _, rfl⟩ ⟨solid_open _, rfl⟩ rfl⟩)
  have hf : SlotW c!":effect" (fun x t => t = x ∧ IsEffect x) (some (some c!"(not (lies ?b))"))
      c!" :effect (not (lies ?b))" :=
    .present (g := c!" ") (u := c!" (not (lies ?b))") (.space (by decide) .nil)
      (.some (g := c!" ") sp.sep ⟨rfl, _, solid_open _, rfl⟩)
  obtain ⟨a, h1, -, h3⟩ := C111_step (n := c!"kick") (g1 := c!" ") (g2 := c!" ") (g3 := c!" ") (g4 := [])
    (w := c!"(?b - ball)") (vs := [⟨.str c!"b", .exactly (.str c!"ball")⟩]) (.space (by decide) .nil)
    (isWord_of _ _ (by decide) (by decide)) sp sp.sep ⟨solid_open _, rfl⟩ hp hf .nil rfl
  have ha : StructureDef.action a = .action planA := h1.det ⟨solid_paren _, rfl⟩
  cases ha
  refine (h3 planD (by rw [planD_actions]; exact .head _) (fun b hb _ => ?_) M [o] s s').trans ?_
  · rw [planD_actions, List.mem_singleton] at hb
    cases hb
    rfl
  · refine exists_congr fun e₀ => and_congr_right fun _ => and_congr ?_ (State.Next.congr fun c => ?_)
    · exact ⟨fun h => h _ rfl, fun h x hx => by cases hx; exact h⟩
    · exact ⟨fun ⟨y, hy, h⟩ => by cases hy; exact h, fun h => ⟨_, rfl, h⟩⟩

/-- The goal of the problem. -/
example (ts : List PlanStep) : Solves planD planP ts ↔ ∀ M : Interp, M.Fits planD planP → ∀ s,
    State.Initial planD planP M s →
      ∃ s', Reach planD M ts s s' ∧ ∀ e : M.Env, IsTrue (M.within s') e c!"(not (lies red))" :=
  C111_goal (t := c!"(:goal (not (lies red)))") ⟨solid_open _, by rw [planP_goal]; rfl⟩
    ⟨c!" ", _, [], rfl, .space (by decide) .nil,
      ⟨rfl, hardGoal_of ⟨solid_open _, rfl⟩ ⟨solid_open _, rfl⟩ rfl⟩, .nil⟩ planD ts

/-- The initial state of the problem: only what is written is true. -/
example (M : Interp) (s : State M) (h : State.Initial planD planP M s) :
    s.pred c!"lies" [M.const c!"red"] ∧ ¬ s.pred c!"flies" [M.const c!"red"] := by
  have hx : ReadsAs (atomicFormula parseName) (.predicate (.str c!"lies") [.str c!"red"]) c!"(lies red)" :=
    ⟨solid_open _, rfl⟩
  have k := ((C111_facts (t := c!"(:init (lies red))") (ts := [c!"(lies red)"])
    ⟨solid_open _, by rw [planP_init]; rfl⟩
    ⟨c!" (lies red)", rfl, Sec.cons (g := c!" ") (t := c!"(lies red)") (g' := []) (.space (by decide) .nil)
      (Items.one ⟨rfl, _, fact_reads.mpr hx⟩) .nil⟩).mp h).1
  refine ⟨(k _ _).mpr ⟨_, _, rfl, rfl, .inr ⟨_, .head _, hx⟩⟩, mt (k _ _).mp ?_⟩
  rintro ⟨q, ns, hq, -, h | ⟨x, hm, h⟩⟩
  · rw [planD_timeless] at h
    cases h
  · cases List.mem_singleton.mp hm
    have := hx.det h
    cases this
    cases hq

end Pddl
