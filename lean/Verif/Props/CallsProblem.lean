import Verif.Props.Calls

/-!
# C122 for whole problems

The number of calls of `Name::new` grows exponentially for accepted problem texts, too: the metric of
the problem is the expression of `Verif/Props/Calls.lean`.
-/

namespace Pddl

/-- A problem whose metric is `opX n`. -/
def problemOpX (n : Nat) : List Char :=
  c!"(define (problem p) (:domain d) (:init) (:goal (and)) (:metric minimize " ++ (opX n ++ c!"))")

/-- What `problemOpX n` means. -/
def problemOpXV (n : Nat) : Problem :=
  ⟨.new c!"p", .new c!"d", [], [], [], [], [], some ⟨.minimize, opXV n⟩, none⟩

theorem problemOpX_length (n : Nat) : (problemOpX n).length = 75 + 8 * n := by
  simp [problemOpX, opX_length]; omega

/-! The parts of the text. -/
section
variable (n : Nat)

theorem opXPart1 : prefixExpr c!"problem" parseName (c!"(problem p) (:domain d) (:init) (:goal (and)) (:metric minimize " ++ (opX n ++ c!"))")) = .ok (.new c!"p") (c!" (:domain d) (:init) (:goal (and)) (:metric minimize " ++ (opX n ++ c!"))")) := by
  have h := (NameW.of_word (t := c!"p") ⟨_, _, rfl, by decide, by simp⟩).acc (c!") (:domain d) (:init) (:goal (and)) (:metric minimize " ++ (opX n ++ c!"))")) (.close _)
  refine prefixExpr_run (kw := c!"problem") (x := (c!" p) (:domain d) (:init) (:goal (and)) (:metric minimize " ++ (opX n ++ c!"))"))) (y := (c!") (:domain d) (:init) (:goal (and)) (:metric minimize " ++ (opX n ++ c!"))"))) ?_ ?_
  · exact h
  · rfl

theorem opXPart2 : preceded multispace1 (prefixExpr c!":domain" parseName) (c!" (:domain d) (:init) (:goal (and)) (:metric minimize " ++ (opX n ++ c!"))")) = .ok (.new c!"d") (c!" (:init) (:goal (and)) (:metric minimize " ++ (opX n ++ c!"))")) := by
  have h := (NameW.of_word (t := c!"d") ⟨_, _, rfl, by decide, by simp⟩).acc (c!") (:init) (:goal (and)) (:metric minimize " ++ (opX n ++ c!"))")) (.close _)
  refine Eq.trans (preceded_run (p := multispace1) (by rfl)) ?_
  refine prefixExpr_run (kw := c!":domain") (x := (c!" d) (:init) (:goal (and)) (:metric minimize " ++ (opX n ++ c!"))"))) (y := (c!") (:init) (:goal (and)) (:metric minimize " ++ (opX n ++ c!"))"))) ?_ ?_
  · exact h
  · rfl

theorem opXPart3 : opt (preceded multispace1 parseRequireDef) (c!" (:init) (:goal (and)) (:metric minimize " ++ (opX n ++ c!"))")) = .ok none (c!" (:init) (:goal (and)) (:metric minimize " ++ (opX n ++ c!"))")) := by rfl

theorem opXPart4 : opt (preceded multispace1 parseProblemObjectsDeclaration) (c!" (:init) (:goal (and)) (:metric minimize " ++ (opX n ++ c!"))")) = .ok none (c!" (:init) (:goal (and)) (:metric minimize " ++ (opX n ++ c!"))")) := by rfl

theorem opXPart5 : preceded multispace1 parseProblemInitDef (c!" (:init) (:goal (and)) (:metric minimize " ++ (opX n ++ c!"))")) = .ok [] (c!" (:goal (and)) (:metric minimize " ++ (opX n ++ c!"))")) := by rfl

theorem opXPart6 : preceded multispace1 parseProblemGoalDef (c!" (:goal (and)) (:metric minimize " ++ (opX n ++ c!"))")) = .ok [] (c!" (:metric minimize " ++ (opX n ++ c!"))")) := by
  rfl

theorem opXPart7 : opt (preceded multispace1 parseProblemConstraintsDef) (c!" (:metric minimize " ++ (opX n ++ c!"))")) = .ok none (c!" (:metric minimize " ++ (opX n ++ c!"))")) := by rfl

theorem opXPart8 : opt (preceded multispace1 parseProblemMetricSpec) (c!" (:metric minimize " ++ (opX n ++ c!"))")) =
    .ok (some ⟨.minimize, opXV n⟩) c!")" := by
  obtain ⟨x, k2⟩ := ms1_sp (g := [' ']) sp_one ((opX_solid n).append (c!"))"))
  have e : (opX n ++ c!"))").length + 1 = n + (1 + 7 * n + 2) + 1 := by
    rw [List.length_append, opX_length]; simp; omega
  have h : parseMetricFExp (opX n ++ c!"))") = .ok (opXV n) c!"))" := by
    show fixF metricFExpBody ((opX n ++ c!"))").length + 1) _ = _
    rw [e]
    exact opX_run n _ (fun c r' h => by cases h; decide)
  refine opt_run (Eq.trans (preceded_run (p := multispace1) (by rfl)) ?_)
  refine map_run (f := fun x : Optimization × MetricFExp => MetricSpec.mk x.1 x.2)
    (a := (.minimize, opXV n)) (prefixExpr_run (kw := c!":metric")
    (x := (c!" minimize " ++ (opX n ++ c!"))"))) (y := c!"))") ?_ (by rfl))
  refine Eq.trans (congrArg _ ((skip_space (by decide) _).trans (Solid.skip (.cons (by decide) (by decide) _)))) ?_
  exact pair_run (p := parseOptimization) (a := .minimize) (r := c!" " ++ (opX n ++ c!"))")) (by rfl)
    ((preceded_run k2).trans h)

theorem opXPart9 : opt (preceded multispace1 parseProblemLengthSpec) c!")" = .ok none c!")" := by rfl

end

theorem problemOpX_run (n : Nat) : parseProblem (problemOpX n) = .ok (problemOpXV n) [] := by
  have h : prefixExpr c!"define" problemParts (problemOpX n) = .ok (.new c!"p", .new c!"d", none, none,
      [], [], none, some ⟨.minimize, opXV n⟩, none) [] := by
    refine prefixExpr_run (kw := c!"define") (x := c!" (problem p) (:domain d) (:init) (:goal (and)) (:metric minimize " ++ (opX n ++ c!"))")) (y := c!")") ?_ (by rfl)
    refine Eq.trans (congrArg _ ((skip_space (by decide) _).trans (Solid.skip (.cons (by decide) (by decide) _)))) ?_
    exact pair_run (opXPart1 n) (pair_run (opXPart2 n) (pair_run (opXPart3 n) (pair_run (opXPart4 n) (pair_run (opXPart5 n)
      (pair_run (opXPart6 n) (pair_run (opXPart7 n) (pair_run (opXPart8 n) opXPart9)))))))
  have hs : Solid (problemOpX n) := .cons (by decide) (by decide) _
  have := map_run (f := problemOf) (ws2_run (g := []) (t := problemOpX n) (r := []) .nil hs
    (by rw [List.append_nil]; exact h))
  rw [List.append_nil, List.nil_append] at this
  exact this

namespace N

theorem ws2_low {p : P α} (s : List Char) : p.count (skip s) ≤ (ws2 p).count s :=
  Nat.le_trans terminated_low (preceded_low (layoutN_run s))

theorem prefixExpr_low {p : P α} (kw x : List Char) :
    p.count (skip x) ≤ (prefixExpr kw p).count ('(' :: (kw ++ x)) := by
  refine Nat.le_trans (ws_low x) (Nat.le_trans terminated_low (preceded_low (a := kw) ?_))
  rw [N.preceded_run, ws_run, tag_run, tag_run, Pddl.preceded, ws_eq, (solid_open _).skip]
  show Pddl.tag kw (kw ++ x) = _
  rw [Pddl.tag, stripPrefix_append]

theorem opX_low (n : Nat) : 2 ^ n ≤ parseMetricFExp.count (opX n ++ c!"))") := by
  show _ ≤ (fixF metricFExpBody ((opX n ++ c!"))").length + 1)).count _
  have e : (opX n ++ c!"))").length + 1 = n + (1 + 7 * n + 2) + 1 := by
    rw [List.length_append, opX_length]; simp; omega
  rw [e]
  exact opX_count n _ (fun c r' h => by cases h; decide)

theorem problemOpX_count (n : Nat) : 2 ^ n ≤ parseProblem.count (problemOpX n) := by
  refine Nat.le_trans (opX_low n) ?_
  refine Nat.le_trans ?_ (ws2_low _)
  have e : skip (problemOpX n) = '(' :: (c!"define" ++ (c!" (problem p) (:domain d) (:init) (:goal (and)) (:metric minimize " ++ (opX n ++ c!"))"))) :=
    Solid.skip (.cons (by decide) (by decide) _)
  refine Nat.le_trans ?_ (Nat.le_of_eq (congrArg _ e.symm))
  refine Nat.le_trans ?_ (prefixExpr_low _ _)
  have e : skip (c!" (problem p) (:domain d) (:init) (:goal (and)) (:metric minimize " ++ (opX n ++ c!"))")) = (c!"(problem p) (:domain d) (:init) (:goal (and)) (:metric minimize " ++ (opX n ++ c!"))")) :=
    (skip_space (by decide) _).trans (Solid.skip (.cons (by decide) (by decide) _))
  refine Nat.le_trans ?_ (Nat.le_of_eq (congrArg _ e.symm))
  unfold problemParts
  refine Nat.le_trans ?_ (pair_low (by rw [N.prefixExpr_run, parseName_run]; exact opXPart1 n))
  refine Nat.le_trans ?_ (pair_low (by
    rw [N.preceded_run, N.prefixExpr_run, parseName_run]; exact opXPart2 n))
  refine Nat.le_trans ?_ (pair_low (by
    rw [N.opt_run, N.preceded_run, parseRequireDef_run]; exact opXPart3 n))
  refine Nat.le_trans ?_ (pair_low (by
    rw [N.opt_run, N.preceded_run, parseProblemObjectsDeclaration_run]; exact opXPart4 n))
  refine Nat.le_trans ?_ (pair_low (by
    rw [N.preceded_run, parseProblemInitDef_run]; exact opXPart5 n))
  refine Nat.le_trans ?_ (pair_low (by
    rw [N.preceded_run, parseProblemGoalDef_run]; exact opXPart6 n))
  refine Nat.le_trans ?_ (pair_low (by
    rw [N.opt_run, N.preceded_run, parseProblemConstraintsDef_run]; exact opXPart7 n))
  refine Nat.le_trans ?_ pair_low_left
  refine Nat.le_trans ?_ (preceded_low (a := [' ']) (r := (c!"(:metric minimize " ++ (opX n ++ c!"))"))) rfl)
  refine Nat.le_trans ?_ (prefixExpr_low c!":metric" (c!" minimize " ++ (opX n ++ c!"))")))
  refine Nat.le_trans ?_ (Nat.le_of_eq (congrArg _ ((skip_space (by decide) _).trans
    (Solid.skip (.cons (by decide) (by decide) _))).symm))
  refine Nat.le_trans ?_ (pair_low (a := .minimize) (r := c!" " ++ (opX n ++ c!"))")) (by rfl))
  obtain ⟨x, k2⟩ := ms1_sp (g := [' ']) sp_one ((opX_solid n).append (c!"))"))
  exact preceded_low k2

end N

/-- C122: an accepted problem of `8 n + 75` characters for which `Name::new` is called `2 ^ n` times or
more. -/
theorem C122_exponential_problem (n : Nat) : ∃ s v, s.length = 75 + 8 * n ∧ parseProblem s = .ok v [] ∧
    2 ^ n ≤ (Parsable.problem.entering.made s).length :=
  ⟨problemOpX n, problemOpXV n, problemOpX_length n, problemOpX_run n, N.problemOpX_count n⟩

example : problemOpX 1 = c!"(define (problem p) (:domain d) (:init) (:goal (and)) (:metric minimize (+ x 1 1)))" := rfl

example : Parsable.problem.entering.made (problemOpX 1) = [c!"p", c!"d", c!"x", c!"x"] := by decide +kernel

/-- C122 is false for problems with a polynomial in the length of the text alone. -/
theorem C122_false_problem (C k : Nat) : ∃ s v, parseProblem s = .ok v [] ∧
    C * (s.length + 1) ^ k < (Parsable.problem.entering.made s).length := by
  obtain ⟨n, hn⟩ := pow_outgrows C k 76 8
  obtain ⟨s, v, hl, hv, hc⟩ := C122_exponential_problem n
  refine ⟨s, v, hv, Nat.lt_of_lt_of_le ?_ hc⟩
  have : s.length + 1 = 76 + 8 * n := by omega
  rw [this]
  exact hn

end Pddl
