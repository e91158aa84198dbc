import Verif.Spec.Preference
import Verif.Props.PlanText
import Verif.Props.PlanParts
import Verif.Props.Trajectory

/-!
# C115: conditions, goals and constraints with preferences mean what PDDL says
-/

namespace Pddl

/-! ## Conditions and goals -/

/-- The text of a condition, possibly with preferences. -/
def IsCondition (t : List Char) : Prop := ∃ v, ReadsAs parsePreGd v t

/-- A text is read as a condition that is met. -/
def Demanded (M : Interp) (e : M.Env) (t : List Char) : Prop := ∃ v, ReadsAs parsePreGd v t ∧ PreGD.AllHold M v e

/-- A text is read as a condition with a preference `n` that is not met. -/
def Violated (M : Interp) (e : M.Env) (n : Option (List Char)) (t : List Char) : Prop :=
  ∃ v, ReadsAs parsePreGd v t ∧ PreGD.BreakSome M n v e

theorem demanded_iff {M : Interp} {e : M.Env} {t : List Char} {v : List PreGD} (h : ReadsAs parsePreGd v t) :
    Demanded M e t ↔ PreGD.AllHold M v e :=
  ⟨fun ⟨_, h1, h2⟩ => h.det h1 ▸ h2, fun h2 => ⟨v, h, h2⟩⟩

theorem brokenPre_iff {M : Interp} {e : M.Env} {n : Option (List Char)} {t : List Char} {v : List PreGD}
    (h : ReadsAs parsePreGd v t) : Violated M e n t ↔ PreGD.BreakSome M n v e :=
  ⟨fun ⟨_, h1, h2⟩ => h.det h1 ▸ h2, fun h2 => ⟨v, h, h2⟩⟩

theorem PreGD.breakSome_iff {M : Interp} {e : M.Env} {n : Option (List Char)} (gs : List PreGD) :
    PreGD.BreakSome M n gs e ↔ ∃ g ∈ gs, PreGD.Breaks M n g e := by
  induction gs with
  | nil => simp [PreGD.BreakSome]
  | cons g gs ih => simp [PreGD.BreakSome, ih]

theorem ForSome.none {M : Interp} {p : M.Env → Prop} (h : ∀ e, ¬ p e) (vs : TypedList Name) :
    ∀ e, ¬ ForSome M vs e p := by
  induction vs with
  | nil => exact h
  | cons v vs ih => exact fun e ⟨o, _, k⟩ => ih _ k

mutual
theorem PreGD.hard_breaks {M : Interp} {n : Option (List Char)} : (g : PreGD) → g.hard = true → ∀ e : M.Env,
    ¬ PreGD.Breaks M n g e
  | .preference (.goal _), _, _ => id
  | .preference (.preference _ _), h, _ => by cases h
  | .forall_ vs gs, h, e => ForSome.none (PreGD.allHard_breaks gs h) vs e
theorem PreGD.allHard_breaks {M : Interp} {n : Option (List Char)} : (gs : List PreGD) → PreGD.allHard gs = true →
    ∀ e : M.Env, ¬ PreGD.BreakSome M n gs e
  | [], _, _ => id
  | g :: gs, h, e => by
    simp only [PreGD.allHard, Bool.and_eq_true] at h
    rintro (k | k)
    · exact PreGD.hard_breaks g h.1 e k
    · exact PreGD.allHard_breaks gs h.2 e k
end

variable {x y t : List Char} (M : Interp) (e : M.Env) (m : Option (List Char))

/-- C115. A goal without preferences. -/
theorem C115_goal (h : IsHardGoal x) :
    IsCondition x ∧ (Demanded M e x ↔ IsTrue M e x) ∧ ¬ Violated M e m x := by
  obtain ⟨v, h1, h2⟩ := hardGoal_reads h
  exact ⟨⟨v, h1⟩, (demanded_iff h1).trans (h2 M e), mt (brokenPre_iff h1).mp (PreGD.allHard_breaks v (h.2 v h1) e)⟩

/-- C115. `(preference n x)` demands nothing, and is violated where `x` is not true. -/
theorem C115_named {n : Name} (h : Paired c!"preference" NameW (fun x t => t = x ∧ IsGoal x) n x t) :
    IsCondition t ∧ Demanded M e t ∧ (Violated M e m t ↔ m = some n.text ∧ ¬ IsTrue M e x) := by
  obtain ⟨g1, w, g2, u, g3, rfl, h1, hw, h2, ⟨hu, g, hg⟩, h3⟩ := h
  subst hu
  have h4 : ReadsAs parsePreGd [.preference (.preference (some n) g)] (paren (c!"preference" ++ (g1 ++ (w ++ (g2 ++
      (u ++ g3)))))) :=
    prex_reads.mpr (.other .nil (.named ⟨g1, w, g2, u, g3, rfl, h1, hw, h2, gdx_reads.mp hg, h3⟩) nofun nofun)
  refine ⟨⟨_, h4⟩, (demanded_iff h4).mpr (by simp [PreGD.AllHold, PreGD.Holds]), (brokenPre_iff h4).trans ?_⟩
  simp only [PreGD.BreakSome, PreGD.Breaks, or_false, Option.map_some, isTrue_iff hg, eq_comm (a := m)]

/-- C115. `(preference x)` is the same without a name. -/
theorem C115_anonymous (h : Wrapped c!"preference" (fun x t => t = x ∧ IsGoal x) x t) :
    IsCondition t ∧ Demanded M e t ∧ (Violated M e m t ↔ m = none ∧ ¬ IsTrue M e x) := by
  obtain ⟨g1, u, g3, rfl, h1, ⟨hu, g, hg⟩, h3⟩ := h
  subst hu
  have h4 : ReadsAs parsePreGd [.preference (.preference none g)] (paren (c!"preference" ++ (g1 ++ (u ++ g3)))) :=
    prex_reads.mpr (.other .nil (.anonymous ⟨g1, u, g3, rfl, h1, gdx_reads.mp hg, h3⟩) nofun nofun)
  refine ⟨⟨_, h4⟩, (demanded_iff h4).mpr (by simp [PreGD.AllHold, PreGD.Holds]), (brokenPre_iff h4).trans ?_⟩
  simp only [PreGD.BreakSome, PreGD.Breaks, or_false, Option.map_none, isTrue_iff hg, eq_comm (a := m)]

theorem conditions_of_texts {ts : List (List Char)} {u : List Char}
    (h : Items (fun x t => t = x ∧ IsCondition x) ts u) :
    ∃ vs, Items (ReadsAs parsePreGd) vs u ∧ ∀ (M : Interp) (e : M.Env) (m : Option (List Char)),
      (PreGD.AllHold M vs.flatten e ↔ ∀ x ∈ ts, Demanded M e x) ∧
      (PreGD.BreakSome M m vs.flatten e ↔ ∃ x ∈ ts, Violated M e m x) := by
  induction h with
  | one h =>
    obtain ⟨rfl, c, hc⟩ := h
    exact ⟨[c], .one hc, fun M e m => by simp [demanded_iff hc, brokenPre_iff hc]⟩
  | cons h hs _ ih =>
    obtain ⟨rfl, c, hc⟩ := h
    obtain ⟨cs, h1, h2⟩ := ih
    refine ⟨c :: cs, .cons hc hs h1, fun M e m => ?_⟩
    obtain ⟨k1, k2⟩ := h2 M e m
    simp only [List.flatten_cons, List.mem_cons, forall_eq_or_imp, exists_eq_or_imp, ← k1, ← k2, demanded_iff hc,
      brokenPre_iff hc]
    simp only [PreGD.allHold_iff, PreGD.breakSome_iff, List.mem_append, or_imp, forall_and, or_and_right, exists_or,
      and_self]

/-- C115. `(and x ..)` demands what its parts demand, and the preferences in its parts are violated where they are. -/
theorem C115_and {ts : List (List Char)} (h : Listed c!"and" (fun x t => t = x ∧ IsCondition x) ts t) :
    IsCondition t ∧ (Demanded M e t ↔ ∀ x ∈ ts, Demanded M e x) ∧ (Violated M e m t ↔ ∃ x ∈ ts, Violated M e m x) := by
  obtain ⟨u, rfl, hu⟩ := h
  cases hu with
  | nil hg =>
    have h3 := C73_precondition_and (vs := []) ⟨u, rfl, .nil hg⟩
    refine ⟨⟨_, h3⟩, (demanded_iff h3).trans ?_, (brokenPre_iff h3).trans ?_⟩
    · simp [PreGD.AllHold]
    · simp [PreGD.BreakSome]
  | cons h1 h2 h3 =>
    obtain ⟨vs, k1, k2⟩ := conditions_of_texts h2
    have h4 := C73_precondition_and ⟨_, rfl, .cons h1 k1 h3⟩
    exact ⟨⟨_, h4⟩, (demanded_iff h4).trans (k2 M e m).1, (brokenPre_iff h4).trans (k2 M e m).2⟩

/-- C115. `(forall (v ..) x)` demands `x` for all objects, and a preference in `x` is violated if it is for
some objects. -/
theorem C115_forall {vs : TypedList Name}
    (h : Paired c!"forall" (ReadsAs parseVarList) (fun x t => t = x ∧ IsCondition x) vs x t) :
    IsCondition t ∧ (Demanded M e t ↔ ForEach M vs e fun e => Demanded M e x) ∧
      (Violated M e m t ↔ ForSome M vs e fun e => Violated M e m x) := by
  obtain ⟨g1, w, g2, u, g3, rfl, h1, hw, h2, ⟨hu, b, hb⟩, h3⟩ := h
  subst hu
  have h4 := C73_precondition_forall ⟨g1, w, g2, u, g3, rfl, h1, hw, h2, hb, h3⟩
  refine ⟨⟨_, h4⟩, (demanded_iff h4).trans ?_, (brokenPre_iff h4).trans ?_⟩
  · simp only [PreGD.AllHold, PreGD.Holds, and_true]
    exact ForEach.congr (fun e => (demanded_iff hb).symm) vs e
  · simp only [PreGD.BreakSome, PreGD.Breaks, or_false]
    exact ForSome.congr (fun e => (brokenPre_iff hb).symm) vs e

/-- C115. The steps as in C111, also with preferences in the precondition: where a domain has the action that is written
with the name `n`, the variables `vs`, the precondition `pre` and the effect `eff`, a step with this name leads from `s`
to `s'` if its arguments are of the types of the variables, what the precondition demands is true in `s` and `s'` is `s`
with the changes by the effect. -/
theorem C115_step {n w g1 g2 g3 g4 u1 u2 t : List Char} {vs : TypedList Name} {pre eff : Option (Option (List Char))}
    (hg1 : Gap g1) (hn : IsWord n) (hg2 : Sp g2) (hg3 : Sep g3) (hw : ReadsAs parseVarList vs w)
    (hpre : SlotW c!":precondition" (fun x t => t = x ∧ IsCondition x) pre u1)
    (heff : SlotW c!":effect" (fun x t => t = x ∧ IsEffect x) eff u2) (hg4 : Gap g4)
    (ht : t = paren (c!":action" ++ (g1 ++ (n ++ (g2 ++ (c!":parameters" ++ (g3 ++ (w ++ (u1 ++ (u2 ++ g4)))))))))) :
    ∃ a, ReadsAs parseStructureDef (.action a) t ∧ a.symbol.text = n ∧ ∀ D : Domain, .action a ∈ D.structure_ →
      (∀ b : ActionDef, .action b ∈ D.structure_ → b.symbol.text = n → b = a) →
      ∀ (M : Interp) (os : List (List Char)) (s s' : State M),
        PlanStep.Leads D M ⟨n, os⟩ s s' ↔ ∃ e₀, Binds M vs (os.map M.const) e₀ fun e =>
          (∀ x, pre.join = some x → Demanded (M.within s) e x) ∧
          State.Next M (fun c => ∃ y, eff.join = some y ∧ MakesChange (M.within s) e (c.inside s) y) s s' := by
  obtain ⟨v, rfl, hv⟩ := varList_reads.mp hw
  obtain ⟨p, hp, kp⟩ := slot_reads (R := PreX []) (K := fun v x => ∀ (M : Interp) (e : M.Env),
    PreGD.AllHold M v e ↔ Demanded M e x) (fun x hx => by
      obtain ⟨v, h1⟩ := hx
      exact ⟨v, prex_reads.mp h1, fun M e => (demanded_iff h1).symm⟩) hpre
  obtain ⟨f, hf, kf⟩ := slot_reads (R := EffX []) (K := fun v x => ReadsAs parseEffect v x) (fun x hx => by
      obtain ⟨v, h1⟩ := hx
      exact ⟨v, effect_texts.reads.mp h1, h1⟩) heff
  have ha := ActionX.mk hg1 (n := wordName n) ⟨hn, rfl⟩ hg2 hg3 hv hp hf hg4
  refine ⟨⟨wordName n, vs, p.join.getD [], f.join⟩, ⟨by rw [ht]; exact solid_paren _, ?_⟩, wordName_text n, fun D hD hu M os s s' => ?_⟩
  · have := (C84_structures (t ++ []) _ []).mpr ⟨[], t, rfl, .nil, by rw [ht]; exact .action ha⟩
    rwa [List.append_nil] at this
  · have hA : ∀ e : M.Env, (PreGD.AllHold (M.within s) (p.join.getD []) e ∧
          State.Next M (Alters M s (f.join.getD []) e) s s') ↔
        ((∀ x, pre.join = some x → Demanded (M.within s) e x) ∧
          State.Next M (fun c => ∃ y, eff.join = some y ∧ MakesChange (M.within s) e (c.inside s) y) s s') := by
      intro e
      refine and_congr ?_ (State.Next.congr fun c => ?_)
      · rcases kp with ⟨k1, k2⟩ | ⟨x, v, k1, k2, _, k3⟩
        · rw [k1, k2]
          exact ⟨fun _ => nofun, fun _ => trivial⟩
        · rw [k1, k2]
          exact (k3 (M.within s) e).trans ⟨fun h y hy => by cases hy; exact h, fun h => h x rfl⟩
      · rw [alters_iff]
        rcases kf with ⟨k1, k2⟩ | ⟨x, v, k1, k2, _, k3⟩
        · rw [k1, k2]
          exact ⟨nofun, nofun⟩
        · rw [k1, k2]
          exact (makesChange_iff (M := M.within s) k3).symm.trans
            ⟨fun h => ⟨x, rfl, h⟩, fun ⟨y, hy, h⟩ => by cases hy; exact h⟩
    constructor
    · rintro ⟨b, hb, hbn, e₀, h⟩
      cases hu b hb hbn
      exact ⟨e₀, (Binds.congr hA vs _ _).mp h⟩
    · rintro ⟨e₀, h⟩
      exact ⟨_, hD, wordName_text n, e₀, (Binds.congr hA vs _ _).mpr h⟩

/-- C115. The goal of a problem: a plan for a problem with `(:goal x)` leads to states where what `x` demands is
true, whether or not the preferences in it are met. -/
theorem C115_plan {P : Problem} (h : ReadsAs parseProblemGoalDef P.goal t)
    (hx : Wrapped c!":goal" (fun x t => t = x ∧ IsCondition x) x t) (D : Domain) (ts : List PlanStep) :
    Solves D P ts ↔ ∀ M : Interp, M.Fits D P → ∀ s, State.Initial D P M s →
      ∃ s', Reach D M ts s s' ∧ ∀ e : M.Env, Demanded (M.within s') e x := by
  obtain ⟨g1, u, g2, rfl, h1, ⟨hu, v, hv⟩, h2⟩ := hx
  subst hu
  have h5 := (C80_goal_section (paren (c!":goal" ++ (g1 ++ (u ++ g2))) ++ []) v []).mpr
    ⟨[], _, rfl, .nil, g1, _, g2, rfl, h1, prex_reads.mp hv, h2⟩
  rw [List.append_nil] at h5
  have := h.det ⟨solid_paren _, h5⟩
  refine forall_congr' fun M => imp_congr_right fun _ => forall_congr' fun s => imp_congr_right fun _ =>
    exists_congr fun s' => and_congr_right fun _ => forall_congr' fun e => ?_
  rw [this]
  exact (demanded_iff (M := M.within s') hv).symm

/-! ## Constraints -/

/-- The text of constraints of a problem, possibly with preferences. -/
def IsConstraints (t : List Char) : Prop := ∃ v, ReadsAs parsePrefConGd v t

/-- A text is read as constraints that are met. -/
def DemandedOn (M : Interp) (tr : List (Snapshot M)) (e : M.Env) (t : List Char) : Prop :=
  ∃ v, ReadsAs parsePrefConGd v t ∧ PrefConGD.AllHold M (fun c e => c.On M tr e) v e

/-- A text is read as constraints with a preference `n` that is not met. -/
def ViolatedOn (M : Interp) (tr : List (Snapshot M)) (e : M.Env) (n : Option (List Char)) (t : List Char) : Prop :=
  ∃ v, ReadsAs parsePrefConGd v t ∧ PrefConGD.BreakSome M tr n v e

theorem demandedOn_iff {M : Interp} {tr : List (Snapshot M)} {e : M.Env} {t : List Char} {v : List PrefConGD}
    (h : ReadsAs parsePrefConGd v t) :
    DemandedOn M tr e t ↔ PrefConGD.AllHold M (fun c e => c.On M tr e) v e :=
  ⟨fun ⟨_, h1, h2⟩ => h.det h1 ▸ h2, fun h2 => ⟨v, h, h2⟩⟩

theorem violatedOn_iff {M : Interp} {tr : List (Snapshot M)} {e : M.Env} {n : Option (List Char)} {t : List Char}
    {v : List PrefConGD} (h : ReadsAs parsePrefConGd v t) : ViolatedOn M tr e n t ↔ PrefConGD.BreakSome M tr n v e :=
  ⟨fun ⟨_, h1, h2⟩ => h.det h1 ▸ h2, fun h2 => ⟨v, h, h2⟩⟩

mutual
theorem ConGD.holds_on {M : Interp} {tr : List (Snapshot M)} : (c : ConGD) → ∀ e : M.Env,
    c.Holds M (fun c e => c.On M tr e) e ↔ c.On M tr e
  | .and gs => fun e => by simp only [ConGD.Holds, ConGD.On]; exact ConGD.allHold_on gs e
  | .forall_ vs g => fun e => by simp only [ConGD.Holds, ConGD.On]; exact ForEach.congr (ConGD.holds_on g) vs e
  | .atEnd _ => fun _ => by simp only [ConGD.Holds]
  | .always _ => fun _ => by simp only [ConGD.Holds]
  | .sometime _ => fun _ => by simp only [ConGD.Holds]
  | .within _ _ => fun _ => by simp only [ConGD.Holds]
  | .atMostOnce _ => fun _ => by simp only [ConGD.Holds]
  | .sometimeAfter _ _ => fun _ => by simp only [ConGD.Holds]
  | .sometimeBefore _ _ => fun _ => by simp only [ConGD.Holds]
  | .alwaysWithin _ _ _ => fun _ => by simp only [ConGD.Holds]
  | .holdDuring _ _ _ => fun _ => by simp only [ConGD.Holds]
  | .holdAfter _ _ => fun _ => by simp only [ConGD.Holds]
theorem ConGD.allHold_on {M : Interp} {tr : List (Snapshot M)} : (gs : List ConGD) → ∀ e : M.Env,
    ConGD.AllHold M (fun c e => c.On M tr e) gs e ↔ ConGD.AllOn M gs tr e
  | [] => fun _ => Iff.rfl
  | g :: gs => fun e => by
    simp only [ConGD.AllHold, ConGD.AllOn]
    exact and_congr (ConGD.holds_on g e) (ConGD.allHold_on gs e)
end

theorem PrefConGD.allHold_iff {M : Interp} {C : ConGD → M.Env → Prop} {e : M.Env} (gs : List PrefConGD) :
    PrefConGD.AllHold M C gs e ↔ ∀ g ∈ gs, PrefConGD.Holds M C g e := by
  induction gs with
  | nil => simp [PrefConGD.AllHold]
  | cons g gs ih => simp [PrefConGD.AllHold, ih]

theorem PrefConGD.breakSome_iff {M : Interp} {tr : List (Snapshot M)} {e : M.Env} {n : Option (List Char)}
    (gs : List PrefConGD) : PrefConGD.BreakSome M tr n gs e ↔ ∃ g ∈ gs, PrefConGD.Breaks M tr n g e := by
  induction gs with
  | nil => simp [PrefConGD.BreakSome]
  | cons g gs ih => simp [PrefConGD.BreakSome, ih]

mutual
theorem PrefConGD.hard_breaks {M : Interp} {tr : List (Snapshot M)} {n : Option (List Char)} : (g : PrefConGD) →
    g.hard = true → ∀ e : M.Env, ¬ PrefConGD.Breaks M tr n g e
  | .goal _, _, _ => id
  | .preference _ _, h, _ => by cases h
  | .forall_ vs gs, h, e => ForSome.none (PrefConGD.allHard_breaks gs h) vs e
theorem PrefConGD.allHard_breaks {M : Interp} {tr : List (Snapshot M)} {n : Option (List Char)} :
    (gs : List PrefConGD) → PrefConGD.allHard gs = true → ∀ e : M.Env, ¬ PrefConGD.BreakSome M tr n gs e
  | [], _, _ => id
  | g :: gs, h, e => by
    simp only [PrefConGD.allHard, Bool.and_eq_true] at h
    rintro (k | k)
    · exact PrefConGD.hard_breaks g h.1 e k
    · exact PrefConGD.allHard_breaks gs h.2 e k
end

variable (tr : List (Snapshot M))

/-- C115. A constraint, as it may be in a domain. -/
theorem C115_constraint (h : IsConstraint x) :
    IsConstraints x ∧ (DemandedOn M tr e x ↔ TrueOn M tr e x) ∧ ¬ ViolatedOn M tr e m x := by
  obtain ⟨c, hc⟩ := h
  obtain ⟨v, h1, h2⟩ := C102_domain_constraint x c [] hc.2
  have hv : ReadsAs parsePrefConGd v x := ⟨hc.1, h1⟩
  exact ⟨⟨v, hv⟩, (demandedOn_iff hv).trans ((h2.2 M _ e).trans ((ConGD.holds_on c e).trans (trueOn_iff hc).symm)),
    mt (violatedOn_iff hv).mp (PrefConGD.allHard_breaks v h2.1 e)⟩

/-- C115. `(preference n x)` demands nothing, and is violated where `x` is not true. -/
theorem C115_constraint_named {n : Name}
    (h : Paired c!"preference" NameW (fun x t => t = x ∧ IsConstraint x) n x t) :
    IsConstraints t ∧ DemandedOn M tr e t ∧ (ViolatedOn M tr e m t ↔ m = some n.text ∧ ¬ TrueOn M tr e x) := by
  obtain ⟨g1, w, g2, u, g3, rfl, h1, hw, h2, ⟨hu, g, hg⟩, h3⟩ := h
  subst hu
  have h4 := C73_pref_constraint_named ⟨g1, w, g2, u, g3, rfl, h1, hw, h2, hg, h3⟩
  refine ⟨⟨_, h4⟩, (demandedOn_iff h4).mpr (by simp [PrefConGD.AllHold, PrefConGD.Holds]),
    (violatedOn_iff h4).trans ?_⟩
  simp only [PrefConGD.BreakSome, PrefConGD.Breaks, or_false, Option.map_some, trueOn_iff hg, eq_comm (a := m)]

/-- C115. `(preference x)` is the same without a name. -/
theorem C115_constraint_anonymous (h : Wrapped c!"preference" (fun x t => t = x ∧ IsConstraint x) x t) :
    IsConstraints t ∧ DemandedOn M tr e t ∧ (ViolatedOn M tr e m t ↔ m = none ∧ ¬ TrueOn M tr e x) := by
  obtain ⟨g1, u, g3, rfl, h1, ⟨hu, g, hg⟩, h3⟩ := h
  subst hu
  have h4 := C73_pref_constraint_anonymous ⟨g1, u, g3, rfl, h1, hg, h3⟩
  refine ⟨⟨_, h4⟩, (demandedOn_iff h4).mpr (by simp [PrefConGD.AllHold, PrefConGD.Holds]),
    (violatedOn_iff h4).trans ?_⟩
  simp only [PrefConGD.BreakSome, PrefConGD.Breaks, or_false, Option.map_none, trueOn_iff hg, eq_comm (a := m)]

theorem prefConstraints_of_texts {ts : List (List Char)} {u : List Char}
    (h : Items (fun x t => t = x ∧ IsConstraints x) ts u) :
    ∃ vs, Items (ReadsAs parsePrefConGd) vs u ∧ ∀ (M : Interp) (tr : List (Snapshot M)) (e : M.Env)
      (m : Option (List Char)),
      (PrefConGD.AllHold M (fun c e => c.On M tr e) vs.flatten e ↔ ∀ x ∈ ts, DemandedOn M tr e x) ∧
      (PrefConGD.BreakSome M tr m vs.flatten e ↔ ∃ x ∈ ts, ViolatedOn M tr e m x) := by
  induction h with
  | one h =>
    obtain ⟨rfl, c, hc⟩ := h
    exact ⟨[c], .one hc, fun M tr e m => by simp [demandedOn_iff hc, violatedOn_iff hc]⟩
  | cons h hs _ ih =>
    obtain ⟨rfl, c, hc⟩ := h
    obtain ⟨cs, h1, h2⟩ := ih
    refine ⟨c :: cs, .cons hc hs h1, fun M tr e m => ?_⟩
    obtain ⟨k1, k2⟩ := h2 M tr e m
    simp only [List.flatten_cons, List.mem_cons, forall_eq_or_imp, exists_eq_or_imp, ← k1, ← k2, demandedOn_iff hc,
      violatedOn_iff hc]
    simp only [PrefConGD.allHold_iff, PrefConGD.breakSome_iff, List.mem_append, or_imp, forall_and, or_and_right,
      exists_or, and_self]

/-- C115. `(and x ..)` demands what its parts demand, and the preferences in its parts are violated where they are. -/
theorem C115_constraint_and {ts : List (List Char)}
    (h : Listed c!"and" (fun x t => t = x ∧ IsConstraints x) ts t) :
    IsConstraints t ∧ (DemandedOn M tr e t ↔ ∀ x ∈ ts, DemandedOn M tr e x) ∧
      (ViolatedOn M tr e m t ↔ ∃ x ∈ ts, ViolatedOn M tr e m x) := by
  obtain ⟨u, rfl, hu⟩ := h
  cases hu with
  | nil hg =>
    have h3 := C73_pref_constraint_and (vs := []) ⟨u, rfl, .nil hg⟩
    refine ⟨⟨_, h3⟩, (demandedOn_iff h3).trans ?_, (violatedOn_iff h3).trans ?_⟩
    · simp [PrefConGD.AllHold]
    · simp [PrefConGD.BreakSome]
  | cons h1 h2 h3 =>
    obtain ⟨vs, k1, k2⟩ := prefConstraints_of_texts h2
    have h4 := C73_pref_constraint_and ⟨_, rfl, .cons h1 k1 h3⟩
    exact ⟨⟨_, h4⟩, (demandedOn_iff h4).trans (k2 M tr e m).1, (violatedOn_iff h4).trans (k2 M tr e m).2⟩

/-- C115. `(forall (v ..) x)` demands `x` for all objects, and a preference in `x` is violated if it is for
some objects. -/
theorem C115_constraint_forall {vs : TypedList Name}
    (h : Paired c!"forall" (ReadsAs parseVarList) (fun x t => t = x ∧ IsConstraints x) vs x t) :
    IsConstraints t ∧ (DemandedOn M tr e t ↔ ForEach M vs e fun e => DemandedOn M tr e x) ∧
      (ViolatedOn M tr e m t ↔ ForSome M vs e fun e => ViolatedOn M tr e m x) := by
  obtain ⟨g1, w, g2, u, g3, rfl, h1, hw, h2, ⟨hu, b, hb⟩, h3⟩ := h
  subst hu
  have h4 := C73_pref_constraint_forall ⟨g1, w, g2, u, g3, rfl, h1, hw, h2, hb, h3⟩
  refine ⟨⟨_, h4⟩, (demandedOn_iff h4).trans ?_, (violatedOn_iff h4).trans ?_⟩
  · simp only [PrefConGD.AllHold, PrefConGD.Holds, and_true]
    exact ForEach.congr (fun e => (demandedOn_iff hb).symm) vs e
  · simp only [PrefConGD.BreakSome, PrefConGD.Breaks, or_false]
    exact ForSome.congr (fun e => (violatedOn_iff hb).symm) vs e

/-! ## Instances -/

/-- A goal with a preference: only the other part is demanded. -/
example (M : Interp) (e : M.Env) (m : Option (List Char)) :
    (Demanded M e c!"(and (p) (preference a (q)))" ↔ IsTrue M e c!"(p)") ∧
    (Violated M e m c!"(and (p) (preference a (q)))" ↔ m = some c!"a" ∧ ¬ IsTrue M e c!"(q)") := by
  have hp := C115_goal M e m (x := c!"(p)") (hardGoal_of (g := exAtom c!"p") (v := [.preference (.goal (exAtom c!"p"))])
    ⟨solid_open _, rfl⟩ ⟨solid_open _, rfl⟩ rfl)
  have hq := C115_named M e m (x := c!"(q)") (t := c!"(preference a (q))") (n := wordName c!"a")
    ⟨c!" ", c!"a", c!" ", c!"(q)", [], rfl, .space (by decide) .nil, ⟨isWord_of _ _ (by decide) (by decide), rfl⟩,
      sp_blank.sep, ⟨rfl, exAtom c!"q", solid_open _, rfl⟩, .nil⟩
  have hi : Items (fun x t => t = x ∧ IsCondition x) [c!"(p)", c!"(preference a (q))"] c!"(p) (preference a (q))" :=
    Items.cons (t := c!"(p)") (g := c!" ") (u := c!"(preference a (q))") ⟨rfl, hp.1⟩ sp_blank.sep (.one ⟨rfl, hq.1⟩)
  have h := C115_and M e m (t := c!"(and (p) (preference a (q)))")
    ⟨_, rfl, Sec.cons (g := c!" ") (t := c!"(p) (preference a (q))") (g' := []) (.space (by decide) .nil) hi .nil⟩
  refine ⟨h.2.1.trans ?_, h.2.2.trans ?_⟩
  · simp [hp.2.1, hq.2.1]
  · have ht : (wordName c!"a").text = c!"a" := rfl
    simpa [hp.2.2, ht] using hq.2.2

/-- Goals quantified over preferences, one without a name and one over an empty list of variables. -/
example (M : Interp) (e : M.Env) (m : Option (List Char)) :
    Demanded M e c!"(forall (?x) (preference (q)))" ∧
    (Violated M e m c!"(forall (?x) (preference (q)))" ↔
      ∃ o, objectTy.Has M o ∧ m = none ∧ ¬ IsTrue M (M.set e c!"x" o) c!"(q)") := by
  have hq := fun e' : M.Env => C115_anonymous M e' m (x := c!"(q)") (t := c!"(preference (q))")
    ⟨c!" ", c!"(q)", [], rfl, .space (by decide) .nil, ⟨rfl, exAtom c!"q", solid_open _, rfl⟩, .nil⟩
  have h := C115_forall M e m (x := c!"(preference (q))") (t := c!"(forall (?x) (preference (q)))")
    (vs := [⟨.str c!"x", objectTy⟩])
    ⟨c!" ", c!"(?x)", c!" ", _, [], rfl, .space (by decide) .nil, ⟨solid_open _, rfl⟩, sp_blank.sep,
      ⟨rfl, (hq e).1⟩, .nil⟩
  refine ⟨h.2.1.mpr fun o _ => (hq _).2.1, h.2.2.trans (exists_congr fun o => and_congr_right fun _ => (hq _).2.2)⟩

/-- Constraints of a problem: on the trajectory where `q` comes after `p`, a preference for the other order is
violated, and the constraints are met all the same. -/
example (e : exWhole.Env) (m : Option (List Char)) :
    DemandedOn exWhole exTrajectory e c!"(and (at end (p)) (preference a (sometime-before (p) (q))))" ∧
    (ViolatedOn exWhole exTrajectory e m c!"(and (at end (p)) (preference a (sometime-before (p) (q))))" ↔
      m = some c!"a") := by
  have hc : ReadsAs parseConGd (.atEnd (exAtom c!"p")) c!"(at end (p))" := ⟨solid_open _, rfl⟩
  have hb : ReadsAs parseConGd (.sometimeBefore (.goal (exAtom c!"p")) (.goal (exAtom c!"q")))
    c!"(sometime-before (p) (q))" := ⟨solid_open _, rfl⟩
  have hp := C115_constraint exWhole e m exTrajectory (x := c!"(at end (p))") ⟨_, hc⟩
  have hq := C115_constraint_named exWhole e m exTrajectory (x := c!"(sometime-before (p) (q))")
    (t := c!"(preference a (sometime-before (p) (q)))") (n := wordName c!"a")
    ⟨c!" ", c!"a", c!" ", _, [], rfl, .space (by decide) .nil, ⟨isWord_of _ _ (by decide) (by decide), rfl⟩,
      sp_blank.sep, ⟨rfl, _, hb⟩, .nil⟩
  have hi : Items (fun x t => t = x ∧ IsConstraints x)
      [c!"(at end (p))", c!"(preference a (sometime-before (p) (q)))"]
      c!"(at end (p)) (preference a (sometime-before (p) (q)))" :=
    Items.cons (t := c!"(at end (p))") (g := c!" ") (u := c!"(preference a (sometime-before (p) (q)))") ⟨rfl, hp.1⟩ sp_blank.sep (.one ⟨rfl, hq.1⟩)
  have h := C115_constraint_and exWhole e m exTrajectory
    (t := c!"(and (at end (p)) (preference a (sometime-before (p) (q))))")
    ⟨_, rfl, Sec.cons (g := c!" ") (t := c!"(at end (p)) (preference a (sometime-before (p) (q)))") (g' := [])
      (.space (by decide) .nil) hi .nil⟩
  have k1 : TrueOn exWhole exTrajectory e c!"(at end (p))" := (trueOn_iff hc).mpr ⟨_, rfl, rfl⟩
  have k2 : ¬ TrueOn exWhole exTrajectory e c!"(sometime-before (p) (q))" := mt (trueOn_iff hb).mp (by
    simp only [ConGD.On, exAtom_at]
    simp [exTrajectory]
    exact ⟨0, by omega, by omega, by omega⟩)
  refine ⟨h.2.1.mpr ?_, h.2.2.trans ?_⟩
  · simp [hp.2.1, k1, hq.2.1]
  · have ht : (wordName c!"a").text = c!"a" := rfl
    simpa [hp.2.2, k2, ht] using hq.2.2

/-- And the forms of constraints without a name and with variables. -/
example (M : Interp) (e : M.Env) (m : Option (List Char)) (tr : List (Snapshot M)) :
    DemandedOn M tr e c!"(forall (?x) (preference (always (q))))" ∧
    (ViolatedOn M tr e m c!"(forall (?x) (preference (always (q))))" ↔
      ∃ o, objectTy.Has M o ∧ m = none ∧ ¬ TrueOn M tr (M.set e c!"x" o) c!"(always (q))") := by
  have hq := fun e' : M.Env => C115_constraint_anonymous M e' m tr (x := c!"(always (q))")
    (t := c!"(preference (always (q)))")
    ⟨c!" ", _, [], rfl, .space (by decide) .nil, ⟨rfl, .always (.goal (exAtom c!"q")), solid_open _, rfl⟩, .nil⟩
  have h := C115_constraint_forall M e m tr (x := c!"(preference (always (q)))")
    (t := c!"(forall (?x) (preference (always (q))))") (vs := [⟨.str c!"x", objectTy⟩])
    ⟨c!" ", c!"(?x)", c!" ", _, [], rfl, .space (by decide) .nil, ⟨solid_open _, rfl⟩, sp_blank.sep,
      ⟨rfl, (hq e).1⟩, .nil⟩
  refine ⟨h.2.1.mpr fun o _ => (hq _).2.1, h.2.2.trans (exists_congr fun o => and_congr_right fun _ => (hq _).2.2)⟩

/-- A step of the plan. -/
example (M : Interp) (o : List Char) (s s' : State M) : PlanStep.Leads planD M ⟨c!"kick", [o]⟩ s s' ↔
    ∃ e₀, M.ofType c!"ball" (M.const o) ∧ Demanded (M.within s) (M.set e₀ c!"b" (M.const o)) c!"(lies ?b)" ∧
      State.Next M (fun c => MakesChange (M.within s) (M.set e₀ c!"b" (M.const o)) (c.inside s) c!"(not (lies ?b))")
        s s' := by
  have sp : Sp c!" " := ⟨by decide, by unfold Sp0; decide⟩
  have hp : SlotW c!":precondition" (fun x t => t = x ∧ IsCondition x) (some (some c!"(lies ?b)"))
      c!" :precondition (lies ?b)" :=
    .present (g := c!" ") (u := c!" (lies ?b)") (.space (by decide) .nil)
      (.some (g := c!" ") sp.sep ⟨rfl, _, solid_open _, rfl⟩)
  have hf : SlotW c!":effect" (fun x t => t = x ∧ IsEffect x) (some (some c!"(not (lies ?b))"))
      c!" :effect (not (lies ?b))" :=
    .present (g := c!" ") (u := c!" (not (lies ?b))") (.space (by decide) .nil)
      (.some (g := c!" ") sp.sep ⟨rfl, _, solid_open _, rfl⟩)
  obtain ⟨a, h1, -, h3⟩ := C115_step (n := c!"kick") (g1 := c!" ") (g2 := c!" ") (g3 := c!" ") (g4 := [])
    (w := c!"(?b - ball)") (vs := [⟨.str c!"b", .exactly (.str c!"ball")⟩]) (.space (by decide) .nil)
    (isWord_of _ _ (by decide) (by decide)) sp sp.sep ⟨solid_open _, rfl⟩ hp hf .nil rfl
  have ha : StructureDef.action a = .action planA := h1.det ⟨solid_paren _, rfl⟩
  cases ha
  refine (h3 planD (by rw [planD_actions]; exact .head _) (fun b hb _ => ?_) M [o] s s').trans ?_
  · rw [planD_actions, List.mem_singleton] at hb
    cases hb
    rfl
  · refine exists_congr fun e₀ => and_congr_right fun _ => and_congr ?_ (State.Next.congr fun c => ?_)
    · exact ⟨fun h => h _ rfl, fun h x hx => by cases hx; exact h⟩
    · exact ⟨fun ⟨y, hy, h⟩ => by cases hy; exact h, fun h => ⟨_, rfl, h⟩⟩

/-- The goal of the problem of the plan. -/
example (ts : List PlanStep) : Solves planD planP ts ↔ ∀ M : Interp, M.Fits planD planP → ∀ s,
    State.Initial planD planP M s →
      ∃ s', Reach planD M ts s s' ∧ ∀ e : M.Env, Demanded (M.within s') e c!"(not (lies red))" :=
  C115_plan (t := c!"(:goal (not (lies red)))") ⟨solid_open _, by rw [planP_goal]; rfl⟩
    ⟨c!" ", _, [], rfl, .space (by decide) .nil, ⟨rfl, _, solid_open _, rfl⟩, .nil⟩ planD ts

end Pddl
