import Verif.Props.Rules

/-!
# C118: constraints with the same meaning can be exchanged, and moved from the domain to the problem
-/

namespace Pddl

theorem Route.mono {D D' : Domain} (h : ActsLike D.structure_ D'.structure_) {M : Interp} : (ts : List PlanStep) →
    (ss : List (State M)) → Route D M ts ss → Route D' M ts ss
  | [], [], h => h
  | [], [_], h => h
  | [], _ :: _ :: _, h => h
  | _ :: _, [], h => h
  | _ :: _, [_], h => h
  | _ :: ts, _ :: s' :: ss, k => ⟨k.1.mono h, Route.mono h ts (s' :: ss) k.2⟩

/-- The constraints of a domain and a problem are true of the same trajectories. -/
def SameRules (D : Domain) (P : Problem) (D' : Domain) (P' : Problem) : Prop :=
  ∀ (M : Interp) (tr : List (Snapshot M)) (e : M.Env),
    (D.constraints.On M tr e ∧ PrefConGD.AllHold M (fun c e => c.On M tr e) P.constraints e) ↔
    (D'.constraints.On M tr e ∧ PrefConGD.AllHold M (fun c e => c.On M tr e) P'.constraints e)

theorem SolvesUnder.alike {D D' : Domain} {P P' : Problem} {ts : List PlanStep} {ns : List Number}
    (hs : SolvesUnder D P ts ns) (h : Counterpart D P D' P') (hr : SameRules D P D' P') : SolvesUnder D' P' ts ns := by
  refine ⟨hs.1, fun M hM s hi => ?_⟩
  obtain ⟨ss, h1, h2, h3⟩ := hs.2 M
    ⟨fun o => by
      obtain ⟨x, hx, hx'⟩ := hM.all o
      exact ⟨x, (h.objects x).mpr hx, hx'⟩,
     fun x hx y hy => hM.different x ((h.objects x).mp hx) y ((h.objects y).mp hy),
     fun n o => (hM.types n o).trans ⟨Counterpart.isOf (fun x => (h.objects x).symm) (fun x => (h.types x).symm),
      Counterpart.isOf h.objects h.types⟩⟩ s
    ⟨fun p os => by
      rw [hi.pred]
      simp only [h.timeless _, h.init _],
     fun f v hf => hi.value f v ((h.init _).mp hf), fun f o hf => hi.object f o ((h.init _).mp hf)⟩
  exact ⟨ss, Route.mono h.actions _ _ h1, fun e => (h.goal _ _).mp (h2 e), fun e => (hr M _ e).mp (h3 e)⟩

/-- C118. In every domain the constraints have their place, and any constraint that is true of the same trajectories
can be written there. -/
theorem C118_domain {s : List Char} {D : Domain} (h : fromStr parseDomain s = some D) :
    ∃ x a y, s = x ++ (a ++ y) ∧
      (a = [] ∧ D.constraints = .and [] ∨ parseDomainConstraintsDef a = .ok D.constraints []) ∧
      ∀ b c, parseDomainConstraintsDef b = .ok c [] →
        (∀ (M : Interp) (tr : List (Snapshot M)) (e : M.Env), D.constraints.On M tr e ↔ c.On M tr e) →
        ∃ D', fromStr parseDomain (x ++ (' ' :: (b ++ y))) = some D' ∧
          ∀ P ts ns, SolvesUnder D' P ts ns ↔ SolvesUnder D P ts ns := by
  obtain ⟨r, h⟩ := fromStr_iff.mp h
  obtain ⟨x, a, y, e, h1, h2, -⟩ := C93_domain_sections.2.2.2.2.2.2.edit s D r h
  refine ⟨x, a, y, e, h1.imp id fun ⟨v, hv, e⟩ => by rw [e]; exact hv,
    fun b c hb hc => ⟨_, fromStr_iff.mpr ⟨r, h2 b c hb⟩, fun P ts ns => ⟨?_, ?_⟩⟩⟩
  · exact fun hs => hs.alike (P' := P) ⟨.refl _, .refl _, .refl _, .refl _, .refl _, .refl _⟩
      fun M tr e => and_congr_left fun _ => (hc M tr e).symm
  · exact fun hs => hs.alike (P' := P) ⟨.refl _, .refl _, .refl _, .refl _, .refl _, .refl _⟩
      fun M tr e => and_congr_left fun _ => hc M tr e

/-- C118. The same in problems. Preferences can be exchanged for any others, or left out. -/
theorem C118_problem {s : List Char} {P : Problem} (h : fromStr parseProblem s = some P) :
    ∃ x a y, s = x ++ (a ++ y) ∧
      (a = [] ∧ P.constraints = [] ∨ parseProblemConstraintsDef a = .ok P.constraints []) ∧
      ∀ b cs, parseProblemConstraintsDef b = .ok cs [] →
        (∀ (M : Interp) (tr : List (Snapshot M)) (e : M.Env),
          PrefConGD.AllHold M (fun c e => c.On M tr e) P.constraints e ↔
          PrefConGD.AllHold M (fun c e => c.On M tr e) cs e) →
        ∃ P', fromStr parseProblem (x ++ (' ' :: (b ++ y))) = some P' ∧
          ∀ D ts ns, SolvesUnder D P' ts ns ↔ SolvesUnder D P ts ns := by
  obtain ⟨r, h⟩ := fromStr_iff.mp h
  obtain ⟨x, a, y, e, h1, h2, -⟩ := C93_problem_sections.2.2.2.2.1.edit s P r h
  refine ⟨x, a, y, e, h1.imp id fun ⟨v, hv, e⟩ => by rw [e]; exact hv,
    fun b c hb hc => ⟨_, fromStr_iff.mpr ⟨r, h2 b c hb⟩, fun D ts ns => ⟨?_, ?_⟩⟩⟩
  · exact fun hs => hs.alike (D' := D) ⟨.refl _, .refl _, .refl _, .refl _, .refl _, .refl _⟩
      fun M tr e => and_congr_right fun _ => (hc M tr e).symm
  · exact fun hs => hs.alike (D' := D) ⟨.refl _, .refl _, .refl _, .refl _, .refl _, .refl _⟩
      fun M tr e => and_congr_right fun _ => hc M tr e

/-- C118. A section with constraints of a domain is one with constraints of a problem that are true of the same
trajectories. -/
theorem C118_section {s : List Char} {c : ConGD} {r : List Char} (h : parseDomainConstraintsDef s = .ok c r) :
    ∃ cs, parseProblemConstraintsDef s = .ok cs r ∧ ∀ (M : Interp) (tr : List (Snapshot M)) (e : M.Env),
      PrefConGD.AllHold M (fun c e => c.On M tr e) cs e ↔ c.On M tr e := by
  obtain ⟨g, t, e, hg, g1, u, g2, rfl, h1, h2, h3⟩ := (C82_domain_section _ _ _).mp h
  obtain ⟨v, k1, k2⟩ := con_prefCon _ c u (Nat.le_refl _) h2
  exact ⟨v, (C82_problem_section _ _ _).mpr ⟨g, _, e, hg, g1, u, g2, rfl, h1, k1, h3⟩,
    fun M tr e => (k2.2 M _ e).trans (ConGD.holds_on c e)⟩

/-- C118. The text of the constraints can be taken out of the domain and put into a problem without constraints. -/
theorem C118_move {s t : List Char} {D : Domain} {P : Problem} (hD : fromStr parseDomain s = some D)
    (hP : fromStr parseProblem t = some P) (h0 : P.constraints = []) :
    ∃ x a y u b w, s = x ++ (a ++ y) ∧ t = u ++ (b ++ w) ∧
      (a = [] ∧ D.constraints = .and [] ∨ parseDomainConstraintsDef a = .ok D.constraints []) ∧
      (b = [] ∨ parseProblemConstraintsDef b = .ok [] []) ∧
      (a ≠ [] → ∃ D' P', fromStr parseDomain (x ++ y) = some D' ∧ fromStr parseProblem (u ++ (' ' :: (a ++ w))) = some P' ∧
        ∀ ts ns, SolvesUnder D' P' ts ns ↔ SolvesUnder D P ts ns) := by
  obtain ⟨r, hD⟩ := fromStr_iff.mp hD
  obtain ⟨r', hP⟩ := fromStr_iff.mp hP
  obtain ⟨x, a, y, e, h1, -, h3⟩ := C93_domain_sections.2.2.2.2.2.2.edit s D r hD
  obtain ⟨u, b, w, e', k1, k2, -⟩ := C93_problem_sections.2.2.2.2.1.edit t P r' hP
  refine ⟨x, a, y, u, b, w, e, e', h1.imp id fun ⟨v, hv, e⟩ => by rw [e]; exact hv,
    k1.imp And.left fun ⟨v, hv, e⟩ => by rw [hv, ← h0, e]; rfl, fun ha => ?_⟩
  obtain ⟨c, hc, he⟩ := h1.resolve_left fun h => ha h.1
  obtain ⟨cs, hs, hm⟩ := C118_section hc
  refine ⟨_, _, fromStr_iff.mpr ⟨r, h3⟩, fromStr_iff.mpr ⟨r', k2 a cs hs⟩, fun ts ns => ?_⟩
  have key : SameRules { D with constraints := .and [] } { P with constraints := cs } D P := fun M tr e => by
    rw [h0, he]
    exact ⟨fun h => ⟨(hm M tr e).mp h.2, trivial⟩, fun h => ⟨trivial, (hm M tr e).mpr h.1⟩⟩
  exact ⟨fun h => h.alike ⟨.refl _, .refl _, .refl _, .refl _, .refl _, .refl _⟩ key,
    fun h => h.alike ⟨.refl _, .refl _, .refl _, .refl _, .refl _, .refl _⟩ fun M tr e => (key M tr e).symm⟩

/-! ## Instances -/

/-- Written twice, the constraint is true of the same trajectories. -/
example (n m : Number) : ∃ x a y D', ruleDomain = x ++ (a ++ y) ∧ fromStr parseDomain (x ++ (' ' ::
      (c!"(:constraints (and (at end (not (lies red))) (at end (not (lies red)))))" ++ y))) = some D' ∧
    SolvesUnder D' ruleP [⟨c!"kick", [c!"red"]⟩] [n, m] := by
  obtain ⟨x, a, y, e, -, h⟩ := C118_domain ruleD_read
  obtain ⟨D', h1, h2⟩ := h c!"(:constraints (and (at end (not (lies red))) (at end (not (lies red)))))"
    (.and [.atEnd (.not ruleLies), .atEnd (.not ruleLies)]) rfl (fun M tr e => by
      rw [ruleD_is]
      exact ⟨fun h => ⟨h, h, trivial⟩, fun h => h.1⟩)
  exact ⟨x, a, y, D', e, h1, (h2 _ _ _).mpr (rule_solves n m)⟩

/-- The preference can be exchanged for another. -/
example (n m : Number) : ∃ x a y P', ruleProblem = x ++ (a ++ y) ∧ fromStr parseProblem (x ++ (' ' ::
      (c!"(:constraints (preference b (sometime (lies red))))" ++ y))) = some P' ∧
    SolvesUnder ruleD P' [⟨c!"kick", [c!"red"]⟩] [n, m] := by
  obtain ⟨x, a, y, e, -, h⟩ := C118_problem ruleP_read
  obtain ⟨P', h1, h2⟩ := h c!"(:constraints (preference b (sometime (lies red))))"
    [.preference (some (.str c!"b")) (.sometime (.goal ruleLies))] rfl (fun M tr e => by
      rw [ruleP_is]
      exact .rfl)
  exact ⟨x, a, y, P', e, h1, (h2 _ _ _).mpr (rule_solves n m)⟩

set_option maxRecDepth 10000 in
/-- The constraint of the domain can be moved to the problem of C108. -/
example (n m : Number) : ∃ x a y u b w, ruleDomain = x ++ (a ++ y) ∧ planProblem = u ++ (b ++ w) ∧
    ∃ D' P', fromStr parseDomain (x ++ y) = some D' ∧ fromStr parseProblem (u ++ (' ' :: (a ++ w))) = some P' ∧
      SolvesUnder D' P' [⟨c!"kick", [c!"red"]⟩] [n, m] := by
  obtain ⟨x, a, y, u, b, w, e, e', h1, -, h⟩ := C118_move ruleD_read planP_read rfl
  obtain ⟨D', P', k1, k2, k3⟩ := h (by
    rintro rfl
    rcases h1 with h1 | h1
    · have := h1.2
      rw [ruleD_is] at this
      cases this
    · cases h1)
  refine ⟨x, a, y, u, b, w, e, e', D', P', k1, k2, (k3 _ _).mpr ((rule_solves n m).alike ?_ ?_)⟩
  · rw [ruleP_is]
    exact ⟨.refl _, .refl _, .refl _, .refl _, .refl _, .refl _⟩
  · rw [ruleP_is]
    exact fun M tr e => and_congr_right fun _ => ⟨fun _ => trivial, fun _ => ⟨trivial, trivial⟩⟩

end Pddl
