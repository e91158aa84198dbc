import Verif.Spec.Metric
import Verif.Props.RuleParts
import Verif.Props.Violations

/-!
# C119: which plans are best
-/

namespace Pddl

/-- The property is about the numbers only. -/
def OfNumbers (C : Interp → Prop) : Prop := ∀ (M : Interp) (ρ : List Char → List Char), C (M.pull ρ) ↔ C M

section
variable {ρ σ : List Char → List Char} (h₁ : ∀ x, σ (ρ x) = x) (h₂ : ∀ x, ρ (σ x) = x) {M : Interp}
local notation "φ" => Name.rename ρ

theorem getLast_pull (s : State M) (ss : List (State M)) :
    ((s.pull ρ) :: ss.map (State.pull ρ)).getLast (List.cons_ne_nil _ _) =
      ((s :: ss).getLast (List.cons_ne_nil _ _)).pull ρ := by
  rw [← List.getLast_map (f := State.pull ρ) (l := s :: ss) (by simp)]
  rfl

include h₁ in
theorem Problem.violations_rename (P : Problem) (os : List M.Obj) (e : M.Env) (ns : List Number) (s : State M)
    (ss : List (State M)) (n : List Char) : (P.mapNames φ).violations os e ns s ss (ρ n) =
      P.violations (M := M.pull ρ) os (M.pullEnv ρ e) ns (s.pull ρ) (ss.map (State.pull ρ)) n := by
  have hρ : ∀ x y, ρ x = ρ y → x = y := fun x y h => by rw [← h₁ x, h, h₁]
  unfold Problem.violations
  rw [getLast_pull]
  refine congr (congrArg _ ?_) ?_
  · show PreGD.counts (M.within _) os _ (P.goal.map (PreGD.mapNames φ)) e = _
    rw [← PreGD.mapNamesL_map]
    exact PreGD.rename_counts (M := M.within _) hρ os (some n) P.goal e
  · show PrefConGD.counts M os _ _ (P.constraints.map (PrefConGD.mapNames φ)) e = _
    rw [← PrefConGD.mapNamesL_map, ← List.map_cons, ← trajectory_pull]
    exact PrefConGD.rename_counts hρ os _ (some n) P.constraints e

include h₁ in
theorem Problem.value_rename (P : Problem) (x : MetricFExp) (os : List M.Obj) (e : M.Env) (ns : List Number) (s : State M)
    (ss : List (State M)) (k : List Char → Nat) : (P.mapNames φ).value (x.mapNames φ) os e ns s ss k =
      P.value (M := M.pull ρ) x os (M.pullEnv ρ e) ns (s.pull ρ) (ss.map (State.pull ρ)) fun n => k (ρ n) := by
  unfold Problem.value
  rw [getLast_pull]
  refine (MetricFExp.rename_denote (M := M.within _) ρ _ _ x).trans ?_
  simp only [Problem.violations_rename h₁]
  rfl

theorem Binds.mono {p q : M.Env → Prop} (h : ∀ e, p e → q e) : ∀ (vs : TypedList Name) (os : List M.Obj) (e : M.Env),
    Binds M vs os e p → Binds M vs os e q
  | [], [], e, k => h e k
  | _ :: vs, _ :: os, _, k => ⟨k.1, Binds.mono h vs os _ k.2⟩

theorem Binds.some {p : M.Env → Prop} : ∀ (vs : TypedList Name) (os : List M.Obj) (e : M.Env),
    Binds M vs os e p → ∃ e', p e' ∧ ∀ q : M.Env → Prop, q e' → Binds M vs os e q
  | [], [], e, k => ⟨e, k, fun _ h => h⟩
  | _ :: vs, _ :: os, _, k => by
    obtain ⟨e', h1, h2⟩ := Binds.some vs os _ k.2
    exact ⟨e', h1, fun q h => ⟨k.1, h2 q h⟩⟩

/-- Violations can be counted wherever steps lead. -/
theorem PlanStep.leadsWith (D : Domain) (os : List M.Obj) (t : PlanStep) (s s' : State M) :
    (∃ k, t.LeadsWith D M os s s' k) ↔ t.Leads D M s s' := by
  constructor
  · rintro ⟨k, a, h1, h2, e, h3⟩
    exact ⟨a, h1, h2, e, Binds.mono (fun _ h => h.1) _ _ _ h3⟩
  · rintro ⟨a, h1, h2, e, h3⟩
    obtain ⟨e', h4, h5⟩ := Binds.some _ _ _ h3
    exact ⟨fun n => PreGD.counts (M.within s) os (some n) a.precondition e', a, h1, h2, e, h5 _ ⟨h4, fun _ => rfl⟩⟩

/-- The same for all steps of a plan. -/
theorem routeWith (D : Domain) (os : List M.Obj) : (ts : List PlanStep) → (ss : List (State M)) →
    ((∃ k, RouteWith D M os ts ss k) ↔ Route D M ts ss)
  | [], [] => ⟨fun ⟨_, h⟩ => h, nofun⟩
  | [], [_] => ⟨fun _ => trivial, fun _ => ⟨fun _ => 0, fun _ => rfl⟩⟩
  | [], _ :: _ :: _ => ⟨fun ⟨_, h⟩ => h, nofun⟩
  | _ :: _, [] => ⟨fun ⟨_, h⟩ => h, nofun⟩
  | _ :: _, [_] => ⟨fun ⟨_, h⟩ => h, nofun⟩
  | t :: ts, s :: s' :: ss => by
    constructor
    · rintro ⟨k, k₁, k₂, h1, h2, -⟩
      exact ⟨(t.leadsWith D os s s').mp ⟨k₁, h1⟩, (routeWith D os ts (s' :: ss)).mp ⟨k₂, h2⟩⟩
    · rintro ⟨h1, h2⟩
      obtain ⟨k₁, h1⟩ := (t.leadsWith D os s s').mpr h1
      obtain ⟨k₂, h2⟩ := (routeWith D os ts (s' :: ss)).mpr h2
      exact ⟨fun n => k₁ n + k₂ n, k₁, k₂, h1, h2, fun _ => rfl⟩

include h₁ h₂

theorem PlanStep.LeadsWith.rename (D : Domain) (os : List M.Obj) (t : PlanStep) (s s' : State M) (k : List Char → Nat) :
    (t.rename ρ).LeadsWith (D.mapNames φ) M os s s' k ↔
      t.LeadsWith D (M.pull ρ) os (s.pull ρ) (s'.pull ρ) fun n => k (ρ n) := by
  have hρ : ∀ x y, ρ x = ρ y → x = y := fun x y h => by rw [← h₁ x, h, h₁]
  have body (a : ActionDef) (e : M.Env) :
      ((PreGD.AllHold (M.within s) (a.mapNames φ).precondition e ∧
        State.Next M (Alters M s ((a.mapNames φ).effect.getD []) e) s s') ∧
        ∀ n, k n = PreGD.counts (M.within s) os (some n) (a.mapNames φ).precondition e) ↔
      ((PreGD.AllHold ((M.pull ρ).within (s.pull ρ)) a.precondition (M.pullEnv ρ e) ∧
        State.Next (M.pull ρ) (Alters (M.pull ρ) (s.pull ρ) (a.effect.getD []) (M.pullEnv ρ e)) (s.pull ρ) (s'.pull ρ)) ∧
        ∀ n, k (ρ n) = PreGD.counts ((M.pull ρ).within (s.pull ρ)) os (some n) a.precondition (M.pullEnv ρ e)) := by
    refine and_congr (and_congr ?_ (State.Next.rename h₂ (fun c => ?_) s s')) ?_
    · show PreGD.AllHold (M.within s) (a.precondition.map (PreGD.mapNames φ)) e ↔ _
      rw [← PreGD.mapNamesL_map]
      exact PreGD.rename_all (M.within s) hρ a.precondition e
    · have : (a.mapNames φ).effect.getD [] = (a.effect.getD []).map (CEffect.mapNames φ) := by
        unfold ActionDef.mapNames
        cases a.effect <;> rfl
      rw [this]
      exact Alters.rename h₁ s _ e c
    · have one (n : List Char) : PreGD.counts (M.within s) os (Option.some (ρ n)) (a.mapNames φ).precondition e =
          PreGD.counts ((M.pull ρ).within (s.pull ρ)) os (Option.some n) a.precondition (M.pullEnv ρ e) := by
        show PreGD.counts (M.within s) os _ (a.precondition.map (PreGD.mapNames φ)) e = _
        rw [← PreGD.mapNamesL_map]
        exact PreGD.rename_counts (M := M.within s) hρ os (Option.some n) a.precondition e
      refine ⟨fun h n => (h (ρ n)).trans (one n), fun h n => ?_⟩
      have := (h (σ n)).trans (one (σ n)).symm
      rwa [h₂] at this
  have args : (t.rename ρ).arguments.map M.const = t.arguments.map (M.pull ρ).const := by
    show (t.arguments.map ρ).map M.const = _
    rw [List.map_map]
    rfl
  unfold PlanStep.LeadsWith
  rw [args]
  constructor
  · rintro ⟨a', ha, hs, e, h⟩
    obtain ⟨x, hx, hx'⟩ := List.mem_map.mp (show StructureDef.action a' ∈ D.structure_.map (StructureDef.mapNames φ) from ha)
    cases x with
    | durative _ => cases hx'
    | derived _ => cases hx'
    | action a =>
      cases hx'
      refine ⟨a, hx, hρ _ _ ?_, M.pullEnv ρ e, (Binds.rename h₁ (body a) a.parameters _ e).mp h⟩
      have : (a.symbol.rename ρ).text = ρ t.action := hs
      rwa [Name.rename_text] at this
  · rintro ⟨a, ha, hs, e, h⟩
    obtain ⟨e', rfl⟩ := Interp.pullEnv_surj h₁ e
    refine ⟨a.mapNames φ, List.mem_map.mpr ⟨_, ha, rfl⟩, ?_, e', (Binds.rename h₁ (body a) a.parameters _ e').mpr h⟩
    show (a.symbol.rename ρ).text = ρ t.action
    rw [Name.rename_text, hs]

theorem RouteWith.rename (D : Domain) (os : List M.Obj) : (ts : List PlanStep) → (ss : List (State M)) →
    (k : List Char → Nat) → (RouteWith (D.mapNames φ) M os (ts.map (PlanStep.rename ρ)) ss k ↔
      RouteWith D (M.pull ρ) os ts (ss.map (State.pull ρ)) fun n => k (ρ n))
  | [], [], _ => Iff.rfl
  | [], [_], k => ⟨fun h n => h (ρ n), fun h n => (congrArg k (h₂ n)).symm.trans (h (σ n))⟩
  | [], _ :: _ :: _, _ => Iff.rfl
  | _ :: _, [], _ => Iff.rfl
  | _ :: _, [_], _ => Iff.rfl
  | t :: ts, s :: s' :: ss, k => by
    constructor
    · rintro ⟨k₁, k₂, a, b, c⟩
      exact ⟨_, _, (PlanStep.LeadsWith.rename h₁ h₂ D os t s s' k₁).mp a, (RouteWith.rename D os ts (s' :: ss) k₂).mp b,
        fun n => c (ρ n)⟩
    · rintro ⟨k₁, k₂, a, b, c⟩
      refine ⟨fun n => k₁ (σ n), fun n => k₂ (σ n), (PlanStep.LeadsWith.rename h₁ h₂ D os t s s' _).mpr ?_,
        (RouteWith.rename D os ts (s' :: ss) _).mpr ?_, fun n => ?_⟩
      · simpa only [h₁] using a
      · simp only [h₁]
        exact b
      · have : k (ρ (σ n)) = _ := c (σ n)
        rwa [h₂] at this

theorem BetterIn.rename (ho : ρ c!"object" = c!"object") (D : Domain) (P : Problem) (m : MetricSpec)
    (ts : List PlanStep) (ns : List Number) (us : List PlanStep) (ms : List Number) :
    BetterIn (D.mapNames φ) (P.mapNames φ) ⟨m.optimization, m.exp.mapNames φ⟩ (ts.map (PlanStep.rename ρ)) ns
      (us.map (PlanStep.rename ρ)) ms M ↔ BetterIn D P m ts ns us ms (M.pull ρ) := by
  have onto (ss : List (State (M.pull ρ))) : ∃ ss' : List (State M), ss = ss'.map (State.pull ρ) :=
    ⟨ss.map (State.push σ), by simp [Function.comp_def, State.pull_push h₁]⟩
  have pref (o : Optimization) (a b : M.Num) : o.Prefers M a b ↔ o.Prefers (M.pull ρ) a b := by cases o <;> exact Iff.rfl
  unfold BetterIn
  rw [Interp.Fits.rename h₁ h₂ ho]
  refine imp_congr Iff.rfl ⟨?_, ?_⟩
  · intro h (os : List M.Obj) h5 h6 e s hs ss rr j k h3 h4
    obtain ⟨s, rfl⟩ : ∃ s' : State M, s = s'.pull ρ := ⟨s.push σ, (State.pull_push h₁ s).symm⟩
    obtain ⟨e, rfl⟩ := Interp.pullEnv_surj h₁ e
    obtain ⟨ss, rfl⟩ := onto ss
    obtain ⟨rr, rfl⟩ := onto rr
    have := h os h5 h6 e s ((State.Initial.rename h₁ h₂ D P _).mpr hs) ss rr (fun n => j (σ n)) (fun n => k (σ n))
      ((RouteWith.rename h₁ h₂ D os ts (s :: ss) _).mpr (by simp only [h₁]; exact h3))
      ((RouteWith.rename h₁ h₂ D os us (s :: rr) _).mpr (by simp only [h₁]; exact h4))
    dsimp only at this
    rw [Problem.value_rename h₁, Problem.value_rename h₁] at this
    simp only [h₁] at this
    exact (pref _ _ _).mp this
  · intro h os h5 h6 e s hs ss rr j k h3 h4
    rw [Problem.value_rename h₁, Problem.value_rename h₁]
    exact (pref _ _ _).mpr (h os h5 h6 _ _ ((State.Initial.rename h₁ h₂ D P _).mp hs) _ _ _ _
      ((RouteWith.rename h₁ h₂ D os ts (s :: ss) j).mp h3) ((RouteWith.rename h₁ h₂ D os us (s :: rr) k).mp h4))

theorem Best.rename {C : Interp → Prop} (hC : OfNumbers C) (ho : ρ c!"object" = c!"object") (D : Domain) (P : Problem)
    (ts : List PlanStep) (ns : List Number) :
    Best C (D.mapNames φ) (P.mapNames φ) (ts.map (PlanStep.rename ρ)) ns ↔ Best C D P ts ns := by
  have steps (us : List PlanStep) : ∃ us' : List PlanStep, us = us'.map (PlanStep.rename ρ) :=
    ⟨us.map (PlanStep.rename σ), by
      rw [List.map_map]
      refine ((List.map_congr_left fun t _ => ?_).trans (List.map_id us)).symm
      show PlanStep.rename ρ (PlanStep.rename σ t) = t
      simp [PlanStep.rename, Function.comp_def, h₂]⟩
  have hm : (P.mapNames φ).metricSpec = P.metricSpec.map fun m => ⟨m.optimization, m.exp.mapNames φ⟩ := rfl
  unfold Best
  refine and_congr (SolvesUnder.rename h₁ h₂ ho D P ts ns) ⟨?_, ?_⟩
  · intro h us ms hu m hm' M hM
    have e : (M.pull σ).pull ρ = M := by simp only [Interp.pull, h₁]
    have := (BetterIn.rename (M := M.pull σ) h₁ h₂ ho D P m ts ns us ms).mp
      (h _ ms ((SolvesUnder.rename h₁ h₂ ho D P us ms).mpr hu) _ (by rw [hm, hm']; rfl) _ ((hC M σ).mpr hM))
    rwa [e] at this
  · intro h us ms hu m hm' M hM
    obtain ⟨us, rfl⟩ := steps us
    rw [hm, Option.map_eq_some_iff] at hm'
    obtain ⟨m, hm', rfl⟩ := hm'
    exact (BetterIn.rename h₁ h₂ ho D P m ts ns us ms).mpr
      (h us ms ((SolvesUnder.rename h₁ h₂ ho D P us ms).mp hu) m hm' _ ((hC M ρ).mpr hM))

end

/-- C119. The best plans of renamed files are the renamed best plans. -/
theorem C119_rename {C : Interp → Prop} (hC : OfNumbers C) {ρ σ : List Char → List Char} (h₁ : ∀ x, σ (ρ x) = x)
    (h₂ : ∀ x, ρ (σ x) = x) (ho : ρ c!"object" = c!"object") (hn : ρ c!"number" = c!"number") {s s' t t' : List Char}
    (hs : Renames ρ s s') (ht : Renames ρ t t') {D : Domain} {P : Problem} (hD : fromStr parseDomain s = some D)
    (hP : fromStr parseProblem t = some P) :
    ∃ D' P', fromStr parseDomain s' = some D' ∧ fromStr parseProblem t' = some P' ∧
      ∀ ts ns, Best C D' P' (ts.map (PlanStep.rename ρ)) ns ↔ Best C D P ts ns :=
  ⟨_, _, by rw [C87_domain ho hn hs, hD]; rfl, by rw [C87_problem ho ht, hP]; rfl,
    fun ts ns => Best.rename h₁ h₂ hC ho D P ts ns⟩

/-- C119. One word is replaced by one that does not occur, in the domain and in the problem. -/
theorem C119_one_word {C : Interp → Prop} (hC : OfNumbers C) {a b : List Char} (ha : Unreserved a) (hb : IsWord b)
    (hb' : Unreserved b) {s t : List Char}
    (hs : ∀ x ∈ pieces s, x.Whole a) (hs' : ∀ x ∈ pieces s, x.Without b)
    (ht : ∀ x ∈ pieces t, x.Whole a) (ht' : ∀ x ∈ pieces t, x.Without b) {D : Domain} {P : Problem}
    (hD : fromStr parseDomain s = some D) (hP : fromStr parseProblem t = some P) :
    ∃ D' P', fromStr parseDomain (renameText (renameOne a b) s) = some D' ∧
      fromStr parseProblem (renameText (renameOne a b) t) = some P' ∧
      ∀ ts ns, Best C D' P' (ts.map (PlanStep.rename (swapWord a b))) ns ↔ Best C D P ts ns :=
  C119_rename hC (swapWord_twice a b) (swapWord_twice a b) (Solves.one_word ha hb' (by decide))
    (Solves.one_word ha hb' (by decide)) (renames_fresh ha hb hb' hs hs') (renames_fresh ha hb hb' ht ht') hD hP

/-! ## Exchanging the metric -/

/-- The plans are compared in the same way. -/
theorem Best.alike {C : Interp → Prop} {D : Domain} {P : Problem} {m m' : MetricSpec} (hm : P.metricSpec = some m)
    (h : ∀ M : Interp, C M → ∀ (u v : State M) (d d' : M.Num) (k k' : List Char → M.Num),
      m.optimization.Prefers M (m.exp.denote (M.within u) d k) (m.exp.denote (M.within v) d' k') →
      m'.optimization.Prefers M (m'.exp.denote (M.within u) d k) (m'.exp.denote (M.within v) d' k'))
    {ts : List PlanStep} {ns : List Number} (hb : Best C D P ts ns) : Best C D { P with metricSpec := some m' } ts ns := by
  have same (ts : List PlanStep) (ns : List Number) :
      SolvesUnder D { P with metricSpec := some m' } ts ns → SolvesUnder D P ts ns := fun hs =>
    hs.alike ⟨.refl _, .refl _, .refl _, .refl _, .refl _, .refl _⟩ fun _ _ _ => Iff.rfl
  have same' (ts : List PlanStep) (ns : List Number) :
      SolvesUnder D P ts ns → SolvesUnder D { P with metricSpec := some m' } ts ns := fun hs =>
    hs.alike ⟨.refl _, .refl _, .refl _, .refl _, .refl _, .refl _⟩ fun _ _ _ => Iff.rfl
  refine ⟨same' _ _ hb.1, fun us ms hu n hn M hM hf os h3 h4 e s hi ss rr j k h1 h2 => ?_⟩
  cases hn
  exact h M hM _ _ _ _ _ _ (hb.2 us ms (same _ _ hu) m hm M hM
    ⟨hf.all, hf.different, fun n o => (hf.types n o).trans
      ⟨Counterpart.isOf (D := D) (D' := D) (P := { P with metricSpec := some m' }) (P' := P) (fun _ => Iff.rfl) (fun _ => Iff.rfl),
        Counterpart.isOf (D := D) (D' := D) (P := P) (P' := { P with metricSpec := some m' }) (fun _ => Iff.rfl) (fun _ => Iff.rfl)⟩⟩
    os h3 h4 e s ⟨hi.pred, hi.value, hi.object⟩ ss rr j k h1 h2)

/-- The metrics put plans in the same order. -/
def MetricSpec.Alike (C : Interp → Prop) (m m' : MetricSpec) : Prop :=
  ∀ M : Interp, C M → ∀ (u v : State M) (d d' : M.Num) (k k' : List Char → M.Num),
    m.optimization.Prefers M (m.exp.denote (M.within u) d k) (m.exp.denote (M.within v) d' k') ↔
    m'.optimization.Prefers M (m'.exp.denote (M.within u) d k) (m'.exp.denote (M.within v) d' k')

theorem Best.alike_iff {C : Interp → Prop} {D : Domain} {P : Problem} {m m' : MetricSpec} (hm : P.metricSpec = some m)
    (h : m.Alike C m') (ts : List PlanStep) (ns : List Number) :
    Best C D { P with metricSpec := some m' } ts ns ↔ Best C D P ts ns := by
  refine ⟨fun hb => ?_, fun hb => hb.alike hm fun M hM u v d d' k k' => (h M hM u v d d' k k').mp⟩
  have := hb.alike (m := m') (m' := m) rfl fun M hM u v d d' k k' => (h M hM u v d d' k k').mpr
  have e : ({ P with metricSpec := some m } : Problem) = P := by rw [← hm]
  exact e ▸ this

/-- C119. In every problem with a metric, the metric has its place, and any other that puts plans in the same order can be
written there. -/
theorem C119_metric {s : List Char} {P : Problem} {m : MetricSpec} (h : fromStr parseProblem s = some P)
    (hm : P.metricSpec = some m) :
    ∃ x a y, s = x ++ (a ++ y) ∧ parseProblemMetricSpec a = .ok m [] ∧
      ∀ C b m', parseProblemMetricSpec b = .ok m' [] → m.Alike C m' →
        ∃ P', fromStr parseProblem (x ++ (' ' :: (b ++ y))) = some P' ∧
          ∀ D ts ns, Best C D P' ts ns ↔ Best C D P ts ns := by
  obtain ⟨r, h⟩ := fromStr_iff.mp h
  obtain ⟨x, a, y, e, h1, h2, -⟩ := C93_problem_sections.2.2.2.2.2.1.edit s P r h
  obtain ⟨m₁, h3, h4⟩ := h1.resolve_left fun h => by rw [hm] at h; cases h.2
  rw [hm] at h4
  cases h4
  exact ⟨x, a, y, e, h3, fun C b m' hb ha => ⟨_, fromStr_iff.mpr ⟨r, h2 b m' hb⟩, fun D ts ns => Best.alike_iff hm ha ts ns⟩⟩

theorem metric_text {w : MetricFExp} {x : List Char} (h : ReadsAs parseMetricFExp w x) (o : Optimization) :
    parseProblemMetricSpec (paren (c!":metric " ++ (o.spell ++ (c!" " ++ x)))) = .ok ⟨o, w⟩ [] := by
  refine (C77_metrics _ _ _).mpr ⟨[], paren (c!":metric " ++ (o.spell ++ (c!" " ++ x))), by simp, .nil, ?_⟩
  have := MetricSpecX.mk (g1 := c!" ") (o := o) (b := c!" ") (.space (by decide) .nil)
    ⟨by simp, by unfold Sp0; decide⟩ gapC_nil
    (metric_arith.texts h) (g2 := []) .nil
  rw [List.append_nil] at this
  exact this

theorem metric_minus {w : MetricFExp} {x : List Char} (h : ReadsAs parseMetricFExp w x) :
    ReadsAs parseMetricFExp (.negative w) (paren (c!"- " ++ x)) := by
  have := metric_arith.run (r := []) (.negative gapC_nil .nil (b := c!" ") (by unfold Sp0; decide) gapC_nil (metric_arith.texts h)) trivial
  refine ⟨solid_paren _, ?_⟩
  simpa using this

/-- C119. Instead of minimizing `e`, one can write that `(- e)` is to be maximized, where negative values are ordered the
other way round. -/
theorem C119_opposite {C : Interp → Prop} (hC : ∀ M, C M → ∀ a b : M.Num, M.comp .le a b ↔ M.comp .ge (M.neg a) (M.neg b))
    {s : List Char} {P : Problem} {w : MetricFExp} {e : List Char} (h : fromStr parseProblem s = some P)
    (hm : P.metricSpec = some ⟨.minimize, w⟩) (he : ReadsAs parseMetricFExp w e) :
    ∃ x a y P', s = x ++ (a ++ y) ∧ parseProblemMetricSpec a = .ok ⟨.minimize, w⟩ [] ∧
      fromStr parseProblem (x ++ (c!" (:metric maximize (- " ++ (e ++ (c!"))" ++ y)))) = some P' ∧
      ∀ D ts ns, Best C D P' ts ns ↔ Best C D P ts ns := by
  obtain ⟨x, a, y, e1, h1, h2⟩ := C119_metric h hm
  obtain ⟨P', h3, h4⟩ := h2 C _ _ (metric_text (metric_minus he) .maximize)
    fun M hM u v d d' k k' => hC M hM _ _
  exact ⟨x, a, y, P', e1, h1, by simpa [paren, Optimization.spell] using h3, h4⟩

/-- C119. Without a metric, all plans that meet the constraints are best. -/
theorem C119_none {C : Interp → Prop} {D : Domain} {P : Problem} (h : P.metricSpec = none) (ts : List PlanStep)
    (ns : List Number) : Best C D P ts ns ↔ SolvesUnder D P ts ns :=
  ⟨And.left, fun hs => ⟨hs, fun _ _ _ m hm => by rw [h] at hm; cases hm⟩⟩

theorem exists_nodup {α : Type} (xs : List α) : ∃ ys : List α, ys.Nodup ∧ ∀ x ∈ xs, x ∈ ys := by
  induction xs with
  | nil => exact ⟨[], .nil, nofun⟩
  | cons x xs ih =>
    obtain ⟨ys, h1, h2⟩ := ih
    by_cases h : x ∈ ys
    · exact ⟨ys, h1, fun z hz => (List.mem_cons.mp hz).elim (fun e => e ▸ h) (h2 z)⟩
    · exact ⟨x :: ys, .cons (fun z hz e => h (e ▸ hz)) h1, fun z hz => (List.mem_cons.mp hz).elim (fun e => e ▸ .head _)
        fun hz => .tail _ (h2 z hz)⟩

/-- The objects of a problem can be listed. -/
theorem Interp.Fits.list {D : Domain} {P : Problem} {M : Interp} (h : M.Fits D P) :
    ∃ os : List M.Obj, os.Nodup ∧ ∀ o, o ∈ os := by
  obtain ⟨os, h1, h2⟩ := exists_nodup ((D.constants ++ P.objects).map fun x => M.const x.value.text)
  refine ⟨os, h1, fun o => ?_⟩
  obtain ⟨x, hx, rfl⟩ := h.all o
  exact h2 _ (List.mem_map.mpr ⟨x, hx, rfl⟩)

/-- C119. Where `(:metric minimize total-time)` is written, or to be maximized, plans are compared by the times of their
last states. -/
theorem C119_time {C : Interp → Prop} {D : Domain} {P : Problem} {m : MetricSpec} {o : Optimization}
    (h : P.metricSpec = some m)
    (hm : ReadsAs parseProblemMetricSpec m (paren (c!":metric " ++ (o.spell ++ c!" total-time")))) (ts : List PlanStep)
    (ns : List Number) :
    Best C D P ts ns ↔ SolvesUnder D P ts ns ∧ ∀ us ms, SolvesUnder D P us ms → ∀ n ∈ ns.getLast?, ∀ m ∈ ms.getLast?,
      ∀ M, C M → M.Fits D P → (∃ s, State.Initial D P M s) →
        match o with
        | .minimize => M.comp .le (M.lit n) (M.lit m)
        | .maximize => M.comp .ge (M.lit n) (M.lit m) := by
  have pref (M : Interp) (a b : M.Num) : o.Prefers M a b ↔
      (match o with | .minimize => M.comp .le a b | .maximize => M.comp .ge a b) := by cases o <;> exact Iff.rfl
  simp only [← pref]
  have e : m = ⟨o, .totalTime⟩ := hm.det ⟨solid_paren _,
    metric_text (w := .totalTime) (x := c!"total-time") ⟨.cons (by decide) (by decide) _, rfl⟩ o⟩
  subst e
  have last {ns : List Number} {n : Number} (hn : n ∈ ns.getLast?) (d : Number) : ns.getLastD d = n := by
    rw [List.getLastD_eq_getLast?, Option.mem_def.mp hn]
    rfl
  refine and_congr_right fun hs => ⟨?_, ?_⟩
  · rintro hb us ms hu n hn m hm M hM hf ⟨s, hi⟩
    obtain ⟨ss, h1, -⟩ := hs.2 M hf s hi
    obtain ⟨rr, h2, -⟩ := hu.2 M hf s hi
    obtain ⟨os, h3, h4⟩ := hf.list
    obtain ⟨j, h1⟩ := (routeWith D os _ _).mpr h1
    obtain ⟨k, h2⟩ := (routeWith D os _ _).mpr h2
    have := hb us ms hu _ h M hM hf os h3 h4 M.const s hi ss rr j k h1 h2
    simp only [Problem.value, MetricFExp.denote, last hn, last hm] at this
    exact this
  · intro hb us ms hu m hm M hM hf os _ _ e s hi ss rr j k h1 h2
    rw [h] at hm
    cases hm
    obtain ⟨n, hn⟩ : ∃ n, n ∈ ns.getLast? := ⟨_, List.getLast?_eq_some_getLast (l := ns) (by
      rintro rfl
      exact absurd hs.1 (by simp))⟩
    obtain ⟨m, hm⟩ : ∃ m, m ∈ ms.getLast? := ⟨_, List.getLast?_eq_some_getLast (l := ms) (by
      rintro rfl
      exact absurd hu.1 (by simp))⟩
    have := hb us ms hu n hn m hm M hM hf ⟨s, hi⟩
    simp only [Problem.value, MetricFExp.denote, last hn, last hm]
    exact this

/-- C119. `(is-violated n)` is the number of preferences with the name `n` that are violated, in the goal, in the
constraints and in the preconditions of the steps. -/
theorem C119_violated {n : List Char} (hn : IsWord n) :
    ∃ w, ReadsAs parseMetricFExp w (paren (c!"is-violated " ++ n)) ∧
      ∀ {P : Problem} {x y t1 t2 : List Char} (_ : ReadsAs parseProblemConstraintsDef P.constraints t1)
        (_ : Wrapped c!":constraints" (fun x t => t = x ∧ IsConstraints x) x t1)
        (_ : ReadsAs parseProblemGoalDef P.goal t2)
        (_ : Wrapped c!":goal" (fun x t => t = x ∧ IsCondition x) y t2)
        (M : Interp) (os : List M.Obj) (e : M.Env) (ns : List Number) (s : State M) (ss : List (State M))
        (i : List Char → Nat) (j k : Nat),
        ViolationsOn M os (trajectory M ns (s :: ss)) e (some n) x j →
        Violations (M.within ((s :: ss).getLast (List.cons_ne_nil _ _))) os e (some n) y k →
        P.value w os e ns s ss i = M.lit ⟨.ofDecimal (k + j + i n) 0⟩ := by
  refine ⟨.isViolated (wordName n), ⟨solid_paren _, ?_⟩, fun h1 hx h2 hy M os e ns s ss i j k hj hk => ?_⟩
  · have := metric_arith.run (r := []) (.leaf (.isViolated (g := []) (g1 := c!" ") (g2 := []) .nil (.space (by decide) .nil)
      (.of_word hn) .nil)) trivial
    rw [wordName_eq]
    simpa using this
  · have k1 := (violationsOn_iff (problemConstraints_of_text h1 hx) _).mp hj
    have k2 := (violations_iff (M := M.within _) (goal_of_text h2 hy) _).mp hk
    simp only [Problem.value, MetricFExp.denote, wordName_text, Problem.violations, k1, k2]

/-- C119. How many preferences of a precondition are violated when the action is used follows from the text of the
precondition, with the objects for the parameters. -/
theorem C119_step {D : Domain} {a : ActionDef} {y : List Char} (ha : .action a ∈ D.structure_)
    (hone : ∀ b, .action b ∈ D.structure_ → b.symbol.text = a.symbol.text → b = a)
    (hy : ReadsAs parsePreGd a.precondition y) (M : Interp) (os : List M.Obj) (xs : List (List Char)) (s s' : State M)
    (k : List Char → Nat) :
    PlanStep.LeadsWith D M os ⟨a.symbol.text, xs⟩ s s' k ↔
      ∃ e₀, Binds M a.parameters (xs.map M.const) e₀ fun e =>
        (Demanded (M.within s) e y ∧ State.Next M (Alters M s (a.effect.getD []) e) s s') ∧
        ∀ n, Violations (M.within s) os e (some n) y (k n) := by
  have body (e : M.Env) : ((PreGD.AllHold (M.within s) a.precondition e ∧
      State.Next M (Alters M s (a.effect.getD []) e) s s') ∧
      ∀ n, k n = PreGD.counts (M.within s) os (some n) a.precondition e) ↔
      (Demanded (M.within s) e y ∧ State.Next M (Alters M s (a.effect.getD []) e) s s') ∧
        ∀ n, Violations (M.within s) os e (some n) y (k n) :=
    and_congr (and_congr (demanded_iff (M := M.within s) hy).symm .rfl)
      (forall_congr' fun n => (violations_iff (M := M.within s) hy _).symm)
  constructor
  · rintro ⟨b, hb, hs, e, h⟩
    cases hone b hb hs
    exact ⟨e, Binds.mono (fun e => (body e).mp) _ _ _ h⟩
  · rintro ⟨e, h⟩
    exact ⟨a, ha, rfl, e, Binds.mono (fun e => (body e).mpr) _ _ _ h⟩

/-- C119. They are added where one plan goes on after another: each time a step uses the action they count. -/
theorem C119_append {D : Domain} {M : Interp} {os : List M.Obj} {us : List PlanStep} {s : State M} {rr : List (State M)} :
    ∀ {ts : List PlanStep} {ss : List (State M)} {k : List Char → Nat}, ts.length = ss.length →
      (RouteWith D M os (ts ++ us) (ss ++ s :: rr) k ↔
        ∃ k₁ k₂, RouteWith D M os ts (ss ++ [s]) k₁ ∧ RouteWith D M os us (s :: rr) k₂ ∧ ∀ n, k n = k₁ n + k₂ n)
  | [], [], k, _ => by
    constructor
    · exact fun h => ⟨fun _ => 0, k, fun _ => rfl, h, fun n => (Nat.zero_add _).symm⟩
    · rintro ⟨k₁, k₂, h1, h2, h3⟩
      have : k = k₂ := funext fun n => by rw [h3, h1 n, Nat.zero_add]
      exact this ▸ h2
  | t :: ts, s' :: ss, k, hl => by
    obtain ⟨x, xs, hx⟩ : ∃ x xs, ∀ rr, ss ++ s :: rr = x :: (xs ++ rr) := by
      cases ss with
      | nil => exact ⟨s, [], fun _ => rfl⟩
      | cons x xs => exact ⟨x, xs ++ [s], fun _ => by simp⟩
    have ih (k : List Char → Nat) := C119_append (D := D) (os := os) (us := us) (s := s) (rr := rr) (k := k)
      (Nat.succ.inj hl : ts.length = ss.length)
    simp only [List.cons_append]
    simp only [hx] at ih ⊢
    constructor
    · rintro ⟨k₁, k₂, h1, h2, h3⟩
      obtain ⟨k₃, k₄, h4, h5, h6⟩ := (ih k₂).mp h2
      exact ⟨fun n => k₁ n + k₃ n, k₄, ⟨k₁, k₃, h1, h4, fun _ => rfl⟩, h5, fun n => by rw [h3, h6, Nat.add_assoc]⟩
    · rintro ⟨k₁, k₂, ⟨k₃, k₄, h1, h2, h3⟩, h4, h5⟩
      exact ⟨k₃, fun n => k₄ n + k₂ n, h1, (ih _).mpr ⟨k₄, k₂, h2, h4, fun _ => rfl⟩,
        fun n => by rw [h5, h3, Nat.add_assoc]⟩

/-- C119. Where no precondition has a preference with this name, none are counted. -/
theorem C119_steps {D : Domain} {M : Interp} {os : List M.Obj} {n : List Char} (hos : ∀ o, o ∈ os)
    (h : ∀ a, .action a ∈ D.structure_ → ∀ (s : State M) e, ¬ PreGD.BreakSome (M.within s) (some n) a.precondition e) :
    ∀ {ts : List PlanStep} {ss : List (State M)} {k : List Char → Nat}, RouteWith D M os ts ss k → k n = 0
  | [], [_], _, hk => hk n
  | t :: ts, s :: s' :: ss, k, ⟨k₁, k₂, ⟨a, ha, _, e, hb⟩, h2, h3⟩ => by
    obtain ⟨e', hp, -⟩ := Binds.some _ _ _ hb
    rw [h3, C119_steps hos h h2, hp.2]
    exact Nat.eq_zero_of_not_pos fun hpos => h a ha s e' ((PreGD.counts_pos (M := M.within s) hos _ _).mp hpos)

/-! ## Instances -/

/-- The problem of C108 with a metric. -/
def bestProblem : List Char :=
  c!"(define (problem p) (:domain d) (:objects red - ball) (:init (lies red)) (:goal (not (lies red)))
 (:metric minimize total-time))"

/-- What is read of it. -/
def bestP : Problem := ((fromStr parseProblem bestProblem).getD (Problem.builder (.str []) (.str []) [] []))

set_option maxRecDepth 10000 in
theorem bestP_read : fromStr parseProblem bestProblem = some bestP := rfl
set_option maxRecDepth 10000 in
theorem bestP_is : bestP = { planP with metricSpec := some ⟨.minimize, .totalTime⟩ } := rfl

/-- Numbers where `n` is the least of all and negative ones are ordered the other way round. -/
def exOrdered (n : Number) (M : Interp) : Prop :=
  (∀ m, M.comp .le (M.lit n) (M.lit m)) ∧ ∀ a b : M.Num, M.comp .le a b ↔ M.comp .ge (M.neg a) (M.neg b)

theorem exOrdered_numbers (n : Number) : OfNumbers (exOrdered n) := fun _ _ => Iff.rfl

set_option maxRecDepth 10000 in
theorem best_solves (n m : Number) : SolvesUnder planD bestP [⟨c!"kick", [c!"red"]⟩] [n, m] := by
  have : SolvesUnder planD planP [⟨c!"kick", [c!"red"]⟩] [n, m] := (C117_none rfl rfl _ rfl).mpr plan_solves
  rw [bestP_is]
  exact this.alike ⟨.refl _, .refl _, .refl _, .refl _, .refl _, .refl _⟩ fun _ _ _ => .rfl

/-- If nothing ends before `n`, kicking the ball by then is best. -/
theorem best_kick (k n : Number) : Best (exOrdered n) planD bestP [⟨c!"kick", [c!"red"]⟩] [k, n] := by
  refine ⟨best_solves k n, fun us ms _ m hm M hM hf os _ _ e s hs ss rr _ _ _ _ => ?_⟩
  rw [bestP_is] at hm
  cases hm
  exact hM.1 _

/-- One object, and numbers of which `n` is the least. -/
def bestM (n : Number) : Interp :=
  { planM with Num := Number, lit := id, fluent := fun _ _ => n, bin := fun _ a _ => a, multi := fun _ a _ => a, neg := id,
               comp := fun _ a b => a = n ∨ a = b }

theorem bestP_objects : planD.constants ++ bestP.objects = [⟨.str c!"red", .exactly (.str c!"ball")⟩] := by
  rw [bestP_is]
  exact planP_objects

theorem bestM_fits (n : Number) : (bestM n).Fits planD bestP where
  all _ := ⟨_, by rw [bestP_objects]; exact .head _, rfl⟩
  different x hx y hy _ := by
    rw [bestP_objects, List.mem_singleton] at hx hy
    rw [hx, hy]
  types m o := by
    constructor
    · rintro (rfl | rfl)
      · exact IsOf.declared (M := bestM n) (x := ⟨.str c!"red", .exactly (.str c!"ball")⟩) (n := .str c!"ball")
          (by rw [bestP_objects]; exact .head _) (.head _)
      · exact IsOf.object (M := bestM n) (x := ⟨.str c!"red", .exactly (.str c!"ball")⟩)
          (by rw [bestP_objects]; exact .head _)
    · intro h
      cases h with
      | object _ => exact .inr rfl
      | declared hx hn =>
        rw [bestP_objects, List.mem_singleton] at hx
        subst hx
        cases List.mem_singleton.mp hn
        exact .inl rfl
      | above ht hn _ =>
        rw [planD_types, List.mem_singleton] at ht
        subst ht
        cases List.mem_singleton.mp hn
        exact .inr rfl

/-- To be done later is not. -/
theorem best_late (k n m : Number) (h : m ≠ n) : ¬ Best (exOrdered n) planD bestP [⟨c!"kick", [c!"red"]⟩] [k, m] := by
  intro hb
  let s : State (bestM n) := ⟨fun _ _ => (), fun p os => p = c!"lies" ∧ os = [()], fun _ _ => n⟩
  have hs : State.Initial planD bestP (bestM n) s :=
    { pred := fun p os => by
        rw [planD_timeless, show bestP.init = planP.init by rw [bestP_is], planP_init]
        constructor
        · rintro ⟨rfl, rfl⟩
          exact ⟨.str c!"lies", [.str c!"red"], rfl, rfl, .inr (.head _)⟩
        · rintro ⟨q, ns, rfl, rfl, h | h⟩
          · cases h
          · cases List.mem_singleton.mp h
            exact ⟨rfl, rfl⟩
      value := fun f v h => by
        rw [show bestP.init = planP.init by rw [bestP_is], planP_init] at h
        cases h with
        | tail _ h => cases h
      object := fun f o h => rfl }
  obtain ⟨ss, h1, -, -⟩ := (best_solves k n).2 (bestM n) (bestM_fits n) s hs
  obtain ⟨j, h1⟩ := (routeWith planD (show List (bestM n).Obj from [()]) _ _).mpr h1
  have := hb.2 _ _ (best_solves k n) ⟨.minimize, .totalTime⟩ (by rw [bestP_is]) (bestM n)
    ⟨fun _ => .inl rfl, fun _ _ => Iff.rfl⟩ (bestM_fits n) (show List (bestM n).Obj from [()])
    (.cons nofun .nil) (fun _ => .head _) (fun _ => ()) s hs ss ss j j h1 h1
  exact this.elim h h

/-- With another name for the ball the best plan is the one with this name. -/
example (k n m : Number) (h : m ≠ n) :
    ∃ D' P', fromStr parseDomain (renameText (renameOne c!"red" c!"blue") planDomain) = some D' ∧
    fromStr parseProblem (renameText (renameOne c!"red" c!"blue") bestProblem) = some P' ∧
    Best (exOrdered n) D' P' [⟨c!"kick", [c!"blue"]⟩] [k, n] ∧ ¬ Best (exOrdered n) D' P' [⟨c!"kick", [c!"blue"]⟩] [k, m] := by
  obtain ⟨D', P', h1, h2, h3⟩ := C119_one_word (exOrdered_numbers n) (a := c!"red") (b := c!"blue") (by decide)
    ⟨'b', c!"lue", rfl, by decide, by decide⟩
    (by decide) (by decide +kernel) (by decide +kernel) (by decide +kernel) (by decide +kernel) planD_read bestP_read
  exact ⟨D', P', h1, h2, (h3 [⟨c!"kick", [c!"red"]⟩] _).mpr (best_kick k n),
    fun hb => best_late k n m h ((h3 [⟨c!"kick", [c!"red"]⟩] _).mp hb)⟩

/-- The negative time can be maximized instead. -/
example (k n m : Number) (h : m ≠ n) : ∃ x a y P', bestProblem = x ++ (a ++ y) ∧
    fromStr parseProblem (x ++ (c!" (:metric maximize (- " ++ (c!"total-time" ++ (c!"))" ++ y)))) = some P' ∧
    Best (exOrdered n) planD P' [⟨c!"kick", [c!"red"]⟩] [k, n] ∧
    ¬ Best (exOrdered n) planD P' [⟨c!"kick", [c!"red"]⟩] [k, m] := by
  obtain ⟨x, a, y, P', e, -, h2, h3⟩ := C119_opposite (C := exOrdered n) (fun M hM => hM.2) bestP_read
    (by rw [bestP_is]) (w := .totalTime) (e := c!"total-time") ⟨.cons (by decide) (by decide) _, rfl⟩
  exact ⟨x, a, y, P', e, h2, (h3 _ _ _).mpr (best_kick k n), fun hb => best_late k n m h ((h3 _ _ _).mp hb)⟩

/-- The plans of the problem above are compared by their times. -/
example (C : Interp → Prop) (ts : List PlanStep) (ns : List Number) :
    Best C planD bestP ts ns ↔ SolvesUnder planD bestP ts ns ∧ ∀ us ms, SolvesUnder planD bestP us ms →
      ∀ n ∈ ns.getLast?, ∀ m ∈ ms.getLast?, ∀ M, C M → M.Fits planD bestP → (∃ s, State.Initial planD bestP M s) →
        M.comp .le (M.lit n) (M.lit m) :=
  C119_time (o := .minimize) (m := ⟨.minimize, .totalTime⟩) (by rw [bestP_is]) ⟨solid_paren _, rfl⟩ ts ns

/-- In the problem of C117 the preference `a` is violated if the ball does not lie there in the beginning. -/
example : ∃ w, ReadsAs parseMetricFExp w c!"(is-violated a)" ∧
    ∀ (M : Interp) (os : List M.Obj) (e : M.Env) (n : Number) (s : State M), ¬ s.pred c!"lies" [M.const c!"red"] →
      ruleP.value w os e [n] s [] (fun _ => 0) = M.lit ⟨.ofDecimal 1 0⟩ := by
  obtain ⟨w, h1, h2⟩ := C119_violated (n := c!"a") ⟨'a', [], rfl, by decide, by decide⟩
  refine ⟨w, h1, fun M os e n s h => ?_⟩
  refine h2 (P := ruleP) (x := c!"(preference a (always (lies red)))") (y := c!"(not (lies red))")
    (t1 := c!"(:constraints (preference a (always (lies red))))") (t2 := c!"(:goal (not (lies red)))")
    ⟨solid_open _, by rw [ruleP_is]; rfl⟩
    ⟨c!" ", _, [], rfl, .space (by decide) .nil,
      ⟨rfl, [.preference (some (.str c!"a")) (.always (.goal ruleLies))], solid_open _, rfl⟩, .nil⟩
    ⟨solid_open _, by rw [ruleP_is]; exact planP_goal ▸ rfl⟩
    ⟨c!" ", _, [], rfl, .space (by decide) .nil, ⟨rfl, [.preference (.goal (.not ruleLies))], solid_open _, rfl⟩, .nil⟩
    M os e [n] s [] (fun _ => 0) 1 0 ?_ ?_
  · refine (violationsOn_iff (v := [.preference (some (.str c!"a")) (.always (.goal ruleLies))]) ⟨solid_open _, rfl⟩ _).mpr ?_
    simp only [PrefConGD.counts, PrefConGD.count, Nat.add_zero]
    refine (oneIf_true ⟨rfl, fun hon => ?_⟩).symm
    obtain ⟨s', hs', hl⟩ := hon 0 (Nat.lt_succ_self 0)
    cases hs'
    exact h hl
  · exact (violations_iff (M := M.within s) (v := [.preference (.goal (.not ruleLies))]) ⟨solid_open _, rfl⟩ _).mpr
      (by simp [PreGD.counts, PreGD.count])

set_option maxRecDepth 10000 in
/-- Without a metric all plans are best. -/
example (C : Interp → Prop) (n m : Number) : Best C planD planP [⟨c!"kick", [c!"red"]⟩] [n, m] :=
  (C119_none rfl _ _).mpr ((C117_none rfl rfl _ rfl).mpr plan_solves)

/-- A domain where kicking should not be done to what is heavy. -/
def softDomain : List Char :=
  c!"(define (domain d) (:types ball) (:predicates (lies ?b - ball) (heavy ?b - ball))
 (:action kick :parameters (?b - ball) :precondition (and (lies ?b) (preference a (not (heavy ?b)))) :effect (not (lies ?b))))"

/-- The action. -/
def softKick : ActionDef where
  symbol := .str c!"kick"
  parameters := [⟨.str c!"b", .exactly (.str c!"ball")⟩]
  precondition := [.preference (.goal (.atomic (.predicate (.str c!"lies") [.var (.str c!"b")]))),
    .preference (.preference (some (.str c!"a")) (.not (.atomic (.predicate (.str c!"heavy") [.var (.str c!"b")]))))]
  effect := some [.effect (.notAtomic (.predicate (.str c!"lies") [.var (.str c!"b")]))]

/-- What is read of it. -/
def softD : Domain := ((fromStr parseDomain softDomain).getD (Domain.builder (.str []) []))

set_option maxRecDepth 10000 in
theorem softD_read : fromStr parseDomain softDomain = some softD := rfl
set_option maxRecDepth 10000 in
theorem softD_actions : softD.structure_ = [.action softKick] := rfl

/-- Kicking a heavy ball violates the preference once, and no preference with another name. -/
example (M : Interp) (os : List M.Obj) (hos : ∀ o, o ∈ os) (s s' : State M) (k : List Char → Nat)
    (hh : s.pred c!"heavy" [M.const c!"red"]) (h : RouteWith softD M os [⟨c!"kick", [c!"red"]⟩] [s, s'] k) :
    k c!"a" = 1 ∧ k c!"b" = 0 := by
  refine ⟨?_, C119_steps hos (fun a ha s e hb => ?_) h⟩
  · obtain ⟨k₁, k₂, h1, h2, h3⟩ := h
    have one (b : ActionDef) (hb : .action b ∈ softD.structure_) (_ : b.symbol.text = softKick.symbol.text) : b = softKick := by
      rw [softD_actions] at hb
      cases List.mem_singleton.mp hb
      rfl
    obtain ⟨e, hb⟩ := (C119_step (D := softD) (a := softKick) (y := c!"(and (lies ?b) (preference a (not (heavy ?b))))")
      (by rw [softD_actions]; exact .head _) one ⟨solid_open _, rfl⟩ M os [c!"red"] s s' k₁).mp h1
    have k1 := (violations_iff (M := M.within s) (v := softKick.precondition) ⟨solid_open _, rfl⟩ _).mp (hb.2.2 c!"a")
    rw [h3, h2 c!"a", k1]
    simp only [softKick, PreGD.counts, PreGD.count, Nat.add_zero, Nat.zero_add]
    refine oneIf_true ⟨rfl, fun hn => hn ?_⟩
    simpa [GD.Holds, AtomicFormula.Holds, Term.denote, Interp.set, Interp.within, Name.text] using hh
  · rw [softD_actions] at ha
    cases List.mem_singleton.mp ha
    rcases hb with hb | ⟨hb, -⟩ | hb
    · exact hb
    · cases hb
    · exact hb

/-- The violations of two steps are those of the first and those of the second. -/
example (M : Interp) (os : List M.Obj) (s s' s'' : State M) (k : List Char → Nat) (t u : PlanStep)
    (h : RouteWith softD M os [t, u] [s, s', s''] k) :
    ∃ k₁ k₂, t.LeadsWith softD M os s s' k₁ ∧ u.LeadsWith softD M os s' s'' k₂ ∧ ∀ n, k n = k₁ n + k₂ n := by
  obtain ⟨k₁, k₂, ⟨a, b, h1, h2, h3⟩, ⟨c, d, h4, h5, h6⟩, h7⟩ := (C119_append (ts := [t]) (ss := [s]) rfl).mp h
  exact ⟨a, c, h1, h4, fun n => by rw [h7, h3, h6, h2 n, h5 n]; rfl⟩

end Pddl
