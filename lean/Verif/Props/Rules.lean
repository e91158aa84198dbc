import Verif.Spec.Rules
import Verif.Props.PlanRename
import Verif.Props.PlanParts
import Verif.Props.RenamePreference

/-!
# C117: plans that have to meet constraints
-/

namespace Pddl

/-! ## The states a plan leads through -/

theorem Route.reach {D : Domain} {M : Interp} : (ts : List PlanStep) → (s : State M) → (ss : List (State M)) →
    Route D M ts (s :: ss) → Reach D M ts s ((s :: ss).getLast (List.cons_ne_nil _ _))
  | [], s, [], _ => rfl
  | [], s, _ :: _, h => h.elim
  | _ :: _, s, [], h => h.elim
  | t :: ts, s, s' :: ss, h => ⟨s', h.1, by
    rw [List.getLast_cons (List.cons_ne_nil _ _)]
    exact Route.reach ts s' ss h.2⟩

theorem Reach.route {D : Domain} {M : Interp} (ts : List PlanStep) : ∀ s s' : State M, Reach D M ts s s' →
    ∃ ss, Route D M ts (s :: ss) ∧ (s :: ss).getLast (List.cons_ne_nil _ _) = s' := by
  induction ts with
  | nil => exact fun s s' h => ⟨[], trivial, h⟩
  | cons t ts ih =>
    rintro s s' ⟨s₁, h1, h2⟩
    obtain ⟨ss, h3, h4⟩ := ih s₁ s' h2
    exact ⟨s₁ :: ss, ⟨h1, h3⟩, by rwa [List.getLast_cons (List.cons_ne_nil _ _)]⟩

/-- C117. A plan that meets the constraints is a plan. -/
theorem C117_plan {D : Domain} {P : Problem} {ts : List PlanStep} {ns : List Number} (h : SolvesUnder D P ts ns) :
    Solves D P ts := fun M hM s hs => by
  obtain ⟨ss, h1, h2, -⟩ := h.2 M hM s hs
  exact ⟨_, h1.reach, h2⟩

/-- C117. Where no constraints are written, it is the same, whatever the times are. -/
theorem C117_none {D : Domain} {P : Problem} (hD : D.constraints = .and []) (hP : P.constraints = [])
    (ts : List PlanStep) {ns : List Number} (hn : ns.length = ts.length + 1) : SolvesUnder D P ts ns ↔ Solves D P ts := by
  refine ⟨C117_plan, fun h => ⟨hn, fun M hM s hs => ?_⟩⟩
  obtain ⟨s', h1, h2⟩ := h M hM s hs
  obtain ⟨ss, h3, rfl⟩ := h1.route
  exact ⟨ss, h3, h2, fun e => by rw [hD, hP]; exact ⟨trivial, trivial⟩⟩

/-! ## The texts -/

theorem goal_of_text {v : List PreGD} {x t : List Char} (h : ReadsAs parseProblemGoalDef v t)
    (hx : Wrapped c!":goal" (fun x t => t = x ∧ IsCondition x) x t) : ReadsAs parsePreGd v x := by
  obtain ⟨g1, u, g2, rfl, h1, ⟨hu, w, hw⟩, h2⟩ := hx
  subst hu
  have h5 := (C80_goal_section (paren (c!":goal" ++ (g1 ++ (u ++ g2))) ++ []) w []).mpr
    ⟨[], _, rfl, .nil, g1, _, g2, rfl, h1, prex_reads.mp hw, h2⟩
  rw [List.append_nil] at h5
  cases h.det ⟨solid_paren _, h5⟩
  exact hw

theorem domainConstraint_of_text {v : ConGD} {x t : List Char} (h : ReadsAs parseDomainConstraintsDef v t)
    (hx : Wrapped c!":constraints" (fun x t => t = x ∧ IsConstraint x) x t) : ReadsAs parseConGd v x := by
  obtain ⟨g1, u, g2, rfl, h1, ⟨hu, w, hw⟩, h2⟩ := hx
  subst hu
  have h5 := (C82_domain_section (paren (c!":constraints" ++ (g1 ++ (u ++ g2))) ++ []) w []).mpr
    ⟨[], _, rfl, .nil, g1, _, g2, rfl, h1, conX_reads.mp hw, h2⟩
  rw [List.append_nil] at h5
  cases h.det ⟨solid_paren _, h5⟩
  exact hw

theorem problemConstraints_of_text {v : List PrefConGD} {x t : List Char} (h : ReadsAs parseProblemConstraintsDef v t)
    (hx : Wrapped c!":constraints" (fun x t => t = x ∧ IsConstraints x) x t) : ReadsAs parsePrefConGd v x := by
  obtain ⟨g1, u, g2, rfl, h1, ⟨hu, w, hw⟩, h2⟩ := hx
  subst hu
  have h5 := (C82_problem_section (paren (c!":constraints" ++ (g1 ++ (u ++ g2))) ++ []) w []).mpr
    ⟨[], _, rfl, .nil, g1, _, g2, rfl, h1, prefConX_reads.mp hw, h2⟩
  rw [List.append_nil] at h5
  cases h.det ⟨solid_paren _, h5⟩
  exact hw

/-- C117. Where `(:constraints x)` is written in the domain, and `(:constraints y)` and `(:goal z)` in the problem: in all
initial states the plan leads to a state where what `z` demands is true, and on the way there `x` and what `y`
demands. -/
theorem C117_texts {D : Domain} {P : Problem} {x y z t1 t2 t3 : List Char}
    (h1 : ReadsAs parseDomainConstraintsDef D.constraints t1)
    (hx : Wrapped c!":constraints" (fun x t => t = x ∧ IsConstraint x) x t1)
    (h2 : ReadsAs parseProblemConstraintsDef P.constraints t2)
    (hy : Wrapped c!":constraints" (fun x t => t = x ∧ IsConstraints x) y t2)
    (h3 : ReadsAs parseProblemGoalDef P.goal t3)
    (hz : Wrapped c!":goal" (fun x t => t = x ∧ IsCondition x) z t3) (ts : List PlanStep) (ns : List Number) :
    SolvesUnder D P ts ns ↔ ns.length = ts.length + 1 ∧ ∀ M : Interp, M.Fits D P → ∀ s, State.Initial D P M s →
      ∃ ss, Route D M ts (s :: ss) ∧
        (∀ e : M.Env, Demanded (M.within ((s :: ss).getLast (List.cons_ne_nil _ _))) e z) ∧
        ∀ e : M.Env, TrueOn M (trajectory M ns (s :: ss)) e x ∧ DemandedOn M (trajectory M ns (s :: ss)) e y := by
  have k1 := domainConstraint_of_text h1 hx
  have k2 := problemConstraints_of_text h2 hy
  have k3 := goal_of_text h3 hz
  refine and_congr_right fun _ => forall_congr' fun M => imp_congr_right fun _ => forall_congr' fun s =>
    imp_congr_right fun _ => exists_congr fun ss => and_congr_right fun _ => and_congr ?_ ?_
  · exact forall_congr' fun e => (demanded_iff (M := M.within _) k3).symm
  · exact forall_congr' fun e => and_congr (trueOn_iff k1).symm (demandedOn_iff k2).symm

/-! ## Renaming -/

section
variable {ρ σ : List Char → List Char} (h₁ : ∀ x, σ (ρ x) = x) (h₂ : ∀ x, ρ (σ x) = x) {M : Interp}
local notation "φ" => Name.rename ρ

theorem trajectory_pull (ns : List Number) (ss : List (State M)) :
    (trajectory M ns ss).map (Snapshot.pull ρ) = trajectory (M.pull ρ) ns (ss.map (State.pull ρ)) := by
  unfold trajectory
  induction ss generalizing ns with
  | nil => simp
  | cons s ss ih =>
    cases ns with
    | nil => simp
    | cons n ns => exact congrArg _ (ih ns)

include h₁ h₂

theorem Route.rename (D : Domain) : (ts : List PlanStep) → (ss : List (State M)) →
    (Route (D.mapNames φ) M (ts.map (PlanStep.rename ρ)) ss ↔ Route D (M.pull ρ) ts (ss.map (State.pull ρ)))
  | [], [] => Iff.rfl
  | [], [_] => Iff.rfl
  | [], _ :: _ :: _ => Iff.rfl
  | _ :: _, [] => Iff.rfl
  | _ :: _, [_] => Iff.rfl
  | t :: ts, s :: s' :: ss => and_congr (PlanStep.Leads.rename h₁ h₂ D t s s') (Route.rename D ts (s' :: ss))

theorem SolvesUnderIn.rename (ho : ρ c!"object" = c!"object") (D : Domain) (P : Problem) (ts : List PlanStep)
    (ns : List Number) (M : Interp) :
    SolvesUnderIn (D.mapNames φ) (P.mapNames φ) (ts.map (PlanStep.rename ρ)) ns M ↔
      SolvesUnderIn D P ts ns (M.pull ρ) := by
  have hρ : ∀ x y, ρ x = ρ y → x = y := fun x y h => by rw [← h₁ x, h, h₁]
  have all {p : M.Env → Prop} {q : (M.pull ρ).Env → Prop} (key : ∀ e, p e ↔ q (M.pullEnv ρ e)) :
      (∀ e, p e) ↔ ∀ e, q e := by
    constructor
    · intro h e
      obtain ⟨e', rfl⟩ := Interp.pullEnv_surj h₁ e
      exact (key e').mp (h e')
    · exact fun h e => (key e).mpr (h _)
  have goal (s : State M) : (∀ e : M.Env, PreGD.AllHold (M.within s) (P.mapNames φ).goal e) ↔
      ∀ e : (M.pull ρ).Env, PreGD.AllHold ((M.pull ρ).within (s.pull ρ)) P.goal e := by
    refine all fun e => ?_
    show PreGD.AllHold (M.within s) (P.goal.map (PreGD.mapNames φ)) e ↔ _
    rw [← PreGD.mapNamesL_map]
    exact PreGD.rename_all (M.within s) hρ P.goal e
  have cons (ss : List (State M)) : (∀ e : M.Env, (D.mapNames φ).constraints.On M (trajectory M ns ss) e ∧
        PrefConGD.AllHold M (fun c e => c.On M (trajectory M ns ss) e) (P.mapNames φ).constraints e) ↔
      ∀ e : (M.pull ρ).Env, D.constraints.On (M.pull ρ) (trajectory (M.pull ρ) ns (ss.map (State.pull ρ))) e ∧
        PrefConGD.AllHold (M.pull ρ) (fun c e => c.On (M.pull ρ)
          (trajectory (M.pull ρ) ns (ss.map (State.pull ρ))) e) P.constraints e := by
    rw [← trajectory_pull]
    refine all fun e => and_congr (ConGD.rename_on M hρ D.constraints _ e) ?_
    show PrefConGD.AllHold M _ (P.constraints.map (PrefConGD.mapNames φ)) e ↔ _
    rw [← PrefConGD.mapNamesL_map]
    exact PrefConGD.rename_allHold M hρ _ P.constraints e
  have last (s : State M) (ss : List (State M)) :
      ((s.pull ρ) :: ss.map (State.pull ρ)).getLast (List.cons_ne_nil _ _) =
        ((s :: ss).getLast (List.cons_ne_nil _ _)).pull ρ := by
    rw [← List.getLast_map (f := State.pull ρ) (l := s :: ss) (by simp)]
    rfl
  have body (s : State M) (ss : List (State M)) :
      (Route (D.mapNames φ) M (ts.map (PlanStep.rename ρ)) (s :: ss) ∧
        (∀ e : M.Env, PreGD.AllHold (M.within ((s :: ss).getLast (List.cons_ne_nil _ _))) (P.mapNames φ).goal e) ∧
        ∀ e : M.Env, (D.mapNames φ).constraints.On M (trajectory M ns (s :: ss)) e ∧
          PrefConGD.AllHold M (fun c e => c.On M (trajectory M ns (s :: ss)) e) (P.mapNames φ).constraints e) ↔
      (Route D (M.pull ρ) ts (s.pull ρ :: ss.map (State.pull ρ)) ∧
        (∀ e : (M.pull ρ).Env, PreGD.AllHold ((M.pull ρ).within
          ((s.pull ρ :: ss.map (State.pull ρ)).getLast (List.cons_ne_nil _ _))) P.goal e) ∧
        ∀ e : (M.pull ρ).Env,
          D.constraints.On (M.pull ρ) (trajectory (M.pull ρ) ns (s.pull ρ :: ss.map (State.pull ρ))) e ∧
          PrefConGD.AllHold (M.pull ρ) (fun c e => c.On (M.pull ρ)
            (trajectory (M.pull ρ) ns (s.pull ρ :: ss.map (State.pull ρ))) e) P.constraints e) := by
    rw [last]
    exact and_congr (Route.rename h₁ h₂ D ts (s :: ss)) (and_congr (goal _) (cons (s :: ss)))
  have onto (ss : List (State (M.pull ρ))) : ∃ ss' : List (State M), ss = ss'.map (State.pull ρ) :=
    ⟨ss.map (State.push σ), by simp [Function.comp_def, State.pull_push h₁]⟩
  unfold SolvesUnderIn
  rw [Interp.Fits.rename h₁ h₂ ho]
  refine imp_congr Iff.rfl ?_
  constructor
  · intro h s hs
    obtain ⟨s, rfl⟩ : ∃ s' : State M, s = s'.pull ρ := ⟨s.push σ, (State.pull_push h₁ s).symm⟩
    obtain ⟨ss, h⟩ := h s ((State.Initial.rename h₁ h₂ D P _).mpr hs)
    exact ⟨ss.map (State.pull ρ), (body s ss).mp h⟩
  · intro h s hs
    obtain ⟨ss, h⟩ := h (s.pull ρ) ((State.Initial.rename h₁ h₂ D P _).mp hs)
    obtain ⟨ss, rfl⟩ := onto ss
    exact ⟨ss, (body s ss).mpr h⟩

theorem SolvesUnder.rename (ho : ρ c!"object" = c!"object") (D : Domain) (P : Problem) (ts : List PlanStep)
    (ns : List Number) :
    SolvesUnder (D.mapNames φ) (P.mapNames φ) (ts.map (PlanStep.rename ρ)) ns ↔ SolvesUnder D P ts ns := by
  unfold SolvesUnder
  rw [List.length_map]
  refine and_congr_right fun _ => ⟨?_, ?_⟩
  · intro h M
    have hM : (M.pull σ).pull ρ = M := by simp only [Interp.pull, h₁]
    have := (SolvesUnderIn.rename h₁ h₂ ho D P ts ns (M.pull σ)).mp (h _)
    rwa [hM] at this
  · exact fun h M => (SolvesUnderIn.rename h₁ h₂ ho D P ts ns M).mpr (h _)

end

/-- C117. The plans of renamed files that meet their constraints are the renamed plans that do, at the same times. -/
theorem C117_rename {ρ σ : List Char → List Char} (h₁ : ∀ x, σ (ρ x) = x) (h₂ : ∀ x, ρ (σ x) = x)
    (ho : ρ c!"object" = c!"object") (hn : ρ c!"number" = c!"number") {s s' t t' : List Char} (hs : Renames ρ s s')
    (ht : Renames ρ t t') {D : Domain} {P : Problem} (hD : fromStr parseDomain s = some D)
    (hP : fromStr parseProblem t = some P) :
    ∃ D' P', fromStr parseDomain s' = some D' ∧ fromStr parseProblem t' = some P' ∧
      ∀ ts ns, SolvesUnder D' P' (ts.map (PlanStep.rename ρ)) ns ↔ SolvesUnder D P ts ns :=
  ⟨_, _, by rw [C87_domain ho hn hs, hD]; rfl, by rw [C87_problem ho ht, hP]; rfl,
    fun ts ns => SolvesUnder.rename h₁ h₂ ho D P ts ns⟩

/-- C117. One word is replaced by one that does not occur, in the domain and in the problem. -/
theorem C117_one_word {a b : List Char} (ha : Unreserved a) (hb : IsWord b) (hb' : Unreserved b) {s t : List Char}
    (hs : ∀ x ∈ pieces s, x.Whole a) (hs' : ∀ x ∈ pieces s, x.Without b)
    (ht : ∀ x ∈ pieces t, x.Whole a) (ht' : ∀ x ∈ pieces t, x.Without b) {D : Domain} {P : Problem}
    (hD : fromStr parseDomain s = some D) (hP : fromStr parseProblem t = some P) :
    ∃ D' P', fromStr parseDomain (renameText (renameOne a b) s) = some D' ∧
      fromStr parseProblem (renameText (renameOne a b) t) = some P' ∧
      ∀ ts ns, SolvesUnder D' P' (ts.map (PlanStep.rename (swapWord a b))) ns ↔ SolvesUnder D P ts ns :=
  C117_rename (swapWord_twice a b) (swapWord_twice a b) (Solves.one_word ha hb' (by decide))
    (Solves.one_word ha hb' (by decide)) (renames_fresh ha hb hb' hs hs') (renames_fresh ha hb hb' ht ht') hD hP

/-! ## Instances -/

/-- The domain of C108 with a constraint: in the end the ball does not lie there. -/
def ruleDomain : List Char :=
  c!"(define (domain d) (:types ball) (:predicates (lies ?b - ball)) (:constraints (at end (not (lies red))))
 (:action kick :parameters (?b - ball) :precondition (lies ?b) :effect (not (lies ?b))))"

/-- The problem of C108 with a preference that cannot be met: the ball always lies there. -/
def ruleProblem : List Char :=
  c!"(define (problem p) (:domain d) (:objects red - ball) (:init (lies red)) (:goal (not (lies red)))
 (:constraints (preference a (always (lies red)))))"

/-- What is read of the domain. -/
def ruleD : Domain := ((fromStr parseDomain ruleDomain).getD (Domain.builder (.str []) []))
/-- What is read of the problem. -/
def ruleP : Problem := ((fromStr parseProblem ruleProblem).getD (Problem.builder (.str []) (.str []) [] []))

set_option maxRecDepth 10000 in
theorem ruleD_read : fromStr parseDomain ruleDomain = some ruleD := rfl
set_option maxRecDepth 10000 in
theorem ruleP_read : fromStr parseProblem ruleProblem = some ruleP := rfl

/-- The ball lies there. -/
def ruleLies : GD := .atomic (.predicate (.str c!"lies") [.name (.str c!"red")])

set_option maxRecDepth 10000 in
theorem ruleD_is : ruleD = { planD with constraints := .atEnd (.not ruleLies) } := rfl
set_option maxRecDepth 10000 in
theorem ruleP_is : ruleP = { planP with constraints := [.preference (some (.str c!"a")) (.always (.goal ruleLies))] } :=
  rfl

theorem Counterpart.constraints (D : Domain) (P : Problem) (c : ConGD) (cs : List PrefConGD) :
    Counterpart D P { D with constraints := c } { P with constraints := cs } :=
  ⟨.refl _, .refl _, .refl _, .refl _, .refl _, .refl _⟩
theorem Counterpart.constraints' (D : Domain) (P : Problem) (c : ConGD) (cs : List PrefConGD) :
    Counterpart { D with constraints := c } { P with constraints := cs } D P :=
  ⟨.refl _, .refl _, .refl _, .refl _, .refl _, .refl _⟩

theorem rule_texts (ts : List PlanStep) (ns : List Number) : SolvesUnder ruleD ruleP ts ns ↔
    ns.length = ts.length + 1 ∧ ∀ M : Interp, M.Fits ruleD ruleP → ∀ s, State.Initial ruleD ruleP M s →
      ∃ ss, Route ruleD M ts (s :: ss) ∧
        (∀ e : M.Env, Demanded (M.within ((s :: ss).getLast (List.cons_ne_nil _ _))) e c!"(not (lies red))") ∧
        ∀ e : M.Env, TrueOn M (trajectory M ns (s :: ss)) e c!"(at end (not (lies red)))" ∧
          DemandedOn M (trajectory M ns (s :: ss)) e c!"(preference a (always (lies red)))" :=
  C117_texts (t1 := c!"(:constraints (at end (not (lies red))))")
    (t2 := c!"(:constraints (preference a (always (lies red))))") (t3 := c!"(:goal (not (lies red)))")
    ⟨solid_open _, by rw [ruleD_is]; rfl⟩
    ⟨c!" ", _, [], rfl, .space (by decide) .nil, ⟨rfl, .atEnd (.not ruleLies), solid_open _, rfl⟩, .nil⟩
    ⟨solid_open _, by rw [ruleP_is]; rfl⟩
    ⟨c!" ", _, [], rfl, .space (by decide) .nil,
      ⟨rfl, [.preference (some (.str c!"a")) (.always (.goal ruleLies))], solid_open _, rfl⟩, .nil⟩
    ⟨solid_open _, by rw [ruleP_is]; exact planP_goal ▸ rfl⟩
    ⟨c!" ", _, [], rfl, .space (by decide) .nil, ⟨rfl, [.preference (.goal (.not ruleLies))], solid_open _, rfl⟩, .nil⟩
    ts ns

/-- Kicking the ball is a plan that meets the constraints, at any times. -/
theorem rule_solves (n m : Number) : SolvesUnder ruleD ruleP [⟨c!"kick", [c!"red"]⟩] [n, m] := by
  have h0 : Solves ruleD ruleP [⟨c!"kick", [c!"red"]⟩] := plan_solves.alike (by
    rw [ruleD_is, ruleP_is]
    exact .constraints _ _ _ _)
  refine (rule_texts _ _).mpr ⟨rfl, fun M hM s hs => ?_⟩
  obtain ⟨s', ⟨s₁, h1, h2⟩, h3⟩ := h0 M hM s hs
  subst h2
  rw [ruleP_is] at h3
  have h3' : ∀ e : M.Env, (GD.not ruleLies).Holds (M.within s₁) e := fun e => by
    have := h3 e
    rw [show ({ planP with constraints := [.preference (some (.str c!"a")) (.always (.goal ruleLies))] } : Problem).goal =
      planP.goal from rfl, planP_goal] at this
    exact this.1
  refine ⟨[s₁], ⟨h1, trivial⟩, fun e => ?_, fun e => ⟨?_, ?_⟩⟩
  · exact (demanded_iff (M := M.within s₁) (v := [.preference (.goal (.not ruleLies))]) ⟨solid_open _, rfl⟩).mpr
      ⟨h3' e, trivial⟩
  · exact (trueOn_iff (c := .atEnd (.not ruleLies)) ⟨solid_open _, rfl⟩).mpr ⟨s₁.snapshot (M.lit m), rfl, h3' e⟩
  · exact (demandedOn_iff (v := [.preference (some (.str c!"a")) (.always (.goal ruleLies))]) ⟨solid_open _, rfl⟩).mpr
      ⟨trivial, trivial⟩

/-- So is it with another name for the ball, and doing nothing is none. -/
example (n m : Number) :
    ∃ D' P', fromStr parseDomain (renameText (renameOne c!"red" c!"blue") ruleDomain) = some D' ∧
    fromStr parseProblem (renameText (renameOne c!"red" c!"blue") ruleProblem) = some P' ∧
    SolvesUnder D' P' [⟨c!"kick", [c!"blue"]⟩] [n, m] ∧ ¬ SolvesUnder D' P' [] [n] := by
  obtain ⟨D', P', h1, h2, h3⟩ := C117_one_word (a := c!"red") (b := c!"blue") (by decide)
    ⟨'b', c!"lue", rfl, by decide, by decide⟩
    (by decide) (by decide +kernel) (by decide +kernel) (by decide +kernel) (by decide +kernel) ruleD_read ruleP_read
  refine ⟨D', P', h1, h2, (h3 [⟨c!"kick", [c!"red"]⟩] _).mpr (rule_solves n m), fun h => plan_nothing ?_⟩
  refine (C117_plan ((h3 [] _).mp h)).alike ?_
  rw [ruleD_is, ruleP_is]
  exact .constraints' _ _ _ _

set_option maxRecDepth 10000 in
/-- Without constraints. -/
example (n m : Number) : SolvesUnder planD planP [⟨c!"kick", [c!"red"]⟩] [n, m] :=
  (C117_none rfl rfl _ rfl).mpr plan_solves

end Pddl
