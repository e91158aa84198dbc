import Verif.Meta.DepthAlike
import Verif.Meta.DepthRules
import Verif.Meta.WorkLow

/-!
# Meta-theory: texts on which the recursion goes deep

The nested operations of `Verif/Meta/WorkLow.lean`, and comments in a row.
-/

namespace Pddl

namespace D

theorem preceded_low {p : P α} {q : P β} {s r : List Char} {a : α} (h : p.run s = .ok a r) :
    q.depth r ≤ (preceded p q).depth s := by
  simp only [preceded, h, Res.after]; exact Nat.le_max_right _ _

theorem terminated_low {p : P α} {q : P β} {s : List Char} : p.depth s ≤ (terminated p q).depth s :=
  Nat.le_max_left _ _

theorem terminated_low_right {p : P α} {q : P β} {s r : List Char} {a : α} (h : p.run s = .ok a r) :
    q.depth r ≤ (terminated p q).depth s := by
  simp only [terminated, h, Res.after]; exact Nat.le_max_right _ _

theorem preceded_low_left {p : P α} {q : P β} {s : List Char} : p.depth s ≤ (preceded p q).depth s :=
  Nat.le_max_left _ _

theorem pair_low {p : P α} {q : P β} {s r : List Char} {a : α} (h : p.run s = .ok a r) :
    q.depth r ≤ (pair p q).depth s := by
  simp only [pair, h, Res.after]; exact Nat.le_max_right _ _

theorem pair_low_left {p : P α} {q : P β} {s : List Char} : p.depth s ≤ (pair p q).depth s :=
  Nat.le_max_left _ _

theorem ws_low {p : P α} (s : List Char) : p.depth (skip s) ≤ (ws p).depth s :=
  preceded_low (a := ()) (by
    rw [D.preceded_run, ignoreEolComment_run]
    simp only [Pddl.preceded, multispace0_run, multispace0, takeWhile0, Res.bind, eol_eq, skip]; rfl)

theorem ws2_low {p : P α} (s : List Char) : p.depth (skip s) ≤ (ws2 p).depth s :=
  Nat.le_trans terminated_low (preceded_low (a := ()) (by
    rw [D.preceded_run, ignoreEolComment_run]
    simp only [Pddl.preceded, multispace0_run, multispace0, takeWhile0, Res.bind, eol_eq, skip]; rfl))

theorem parens_low {p : P α} (x : List Char) : p.depth (skip x) ≤ (parens p).depth ('(' :: x) := by
  have h : skipC ('(' :: x) = '(' :: x := skipC_of_ne (by decide) x
  refine Nat.le_trans ?_ (preceded_low (ignoreEolComment_ok _))
  rw [h]
  exact Nat.le_trans (ws_low x) (Nat.le_trans terminated_low (preceded_low (p := char '(') (by rfl)))

theorem prefixExpr_low {p : P α} (kw x : List Char) :
    p.depth (skip x) ≤ (prefixExpr kw p).depth ('(' :: (kw ++ x)) := by
  refine Nat.le_trans (ws_low x) (Nat.le_trans terminated_low (preceded_low (a := kw) ?_))
  rw [D.preceded_run, ws_run, tag_run, tag_run, Pddl.preceded, ws_eq, (solid_open _).skip]
  show Pddl.tag kw (kw ++ x) = _
  rw [Pddl.tag, stripPrefix_append]

theorem alt1_low {p q : P α} {ps : List (P α)} {s : List Char} (h0 : p.run s = .err) :
    q.depth s ≤ (alt (p :: q :: ps)).depth s := by
  simp only [alt, altDepth, h0, Res.onErr]
  exact Nat.le_trans (Nat.le_max_left _ _) (Nat.le_max_right _ _)

/-- Reading `op3 n` takes more than `n` levels. -/
theorem op3_depth (n m : Nat) (r : List Char) :
    n + 1 ≤ (fixF metricFExpBody (n + m + 1)).depth (op3 n ++ r) := by
  induction n generalizing m r with
  | zero => simp [fixF]
  | succ n ih =>
    have e : n + 1 + m + 1 = (n + m + 1) + 1 := by omega
    have t : op3 (n + 1) ++ r = c!"(+ " ++ (op3 n ++ (c!" 1 1)" ++ r)) := by simp [op3]
    have hi := ih m (c!" 1 1)" ++ r)
    have k1 : skip (c!"+ " ++ (op3 n ++ (c!" 1 1)" ++ r))) = (c!"+ " ++ (op3 n ++ (c!" 1 1)" ++ r))) :=
      Solid.skip (.cons (by decide) (by decide) _)
    obtain ⟨x, k2⟩ := ms1_sp (g := [' ']) sp_one ((op3_solid n).append (c!" 1 1)" ++ r))
    rw [e, fixF]
    show _ ≤ 1 + (metricFExpBody _).depth _
    rw [metricFExpBody, t, Nat.add_comm]
    refine Nat.add_le_add_left (Nat.le_trans ?_ (alt1_low ?_)) 1
    · refine Nat.le_trans hi (Nat.le_trans ?_ (parens_low _))
      refine Nat.le_trans ?_ (Nat.le_of_eq (congrArg _ k1.symm))
      exact Nat.le_trans (Nat.le_trans (preceded_low k2) pair_low_left)
        (pair_low (a := .add) (by rw [parseBinaryOp_run]; rfl))
    · rw [D.map_run, parseNumber_run]; rfl

theorem parseMetricFExp_low (n : Nat) (r : List Char) :
    n + 1 ≤ parseMetricFExp.depth (op3 n ++ r) := by
  show _ ≤ (fixF metricFExpBody ((op3 n ++ r).length + 1)).depth _
  have e : (op3 n ++ r).length + 1 = n + (1 + 7 * n + r.length) + 1 := by
    rw [List.length_append, op3_length]; omega
  rw [e]
  exact op3_depth n _ r

theorem problem3_depth (n : Nat) : n + 1 ≤ parseProblem.depth (problem3 n) := by
  refine Nat.le_trans (parseMetricFExp_low n c!"))") ?_
  refine Nat.le_trans ?_ (ws2_low _)
  have e : skip (problem3 n) = '(' :: (c!"define" ++ (c!" (problem p) (:domain d) (:init) (:goal (and)) (:metric minimize " ++ (op3 n ++ c!"))"))) :=
    Solid.skip (.cons (by decide) (by decide) _)
  refine Nat.le_trans ?_ (Nat.le_of_eq (congrArg _ e.symm))
  refine Nat.le_trans ?_ (prefixExpr_low _ _)
  have e : skip (c!" (problem p) (:domain d) (:init) (:goal (and)) (:metric minimize " ++ (op3 n ++ c!"))")) = (c!"(problem p) (:domain d) (:init) (:goal (and)) (:metric minimize " ++ (op3 n ++ c!"))")) :=
    (skip_space (by decide) _).trans (Solid.skip (.cons (by decide) (by decide) _))
  refine Nat.le_trans ?_ (Nat.le_of_eq (congrArg _ e.symm))
  unfold problemParts
  refine Nat.le_trans ?_ (pair_low (by rw [D.prefixExpr_run, parseName_run]; exact part1 n))
  refine Nat.le_trans ?_ (pair_low (by
    rw [D.preceded_run, D.prefixExpr_run, parseName_run]; exact part2 n))
  refine Nat.le_trans ?_ (pair_low (by
    rw [D.opt_run, D.preceded_run, parseRequireDef_run]; exact part3 n))
  refine Nat.le_trans ?_ (pair_low (by
    rw [D.opt_run, D.preceded_run, parseProblemObjectsDeclaration_run]; exact part4 n))
  refine Nat.le_trans ?_ (pair_low (by
    rw [D.preceded_run, parseProblemInitDef_run]; exact part5 n))
  refine Nat.le_trans ?_ (pair_low (by
    rw [D.preceded_run, parseProblemGoalDef_run]; exact part6 n))
  refine Nat.le_trans ?_ (pair_low (by
    rw [D.opt_run, D.preceded_run, parseProblemConstraintsDef_run]; exact part7 n))
  refine Nat.le_trans ?_ pair_low_left
  refine Nat.le_trans ?_ (preceded_low (a := [' ']) (r := (c!"(:metric minimize " ++ (op3 n ++ c!"))"))) rfl)
  refine Nat.le_trans ?_ (prefixExpr_low c!":metric" (c!" minimize " ++ (op3 n ++ c!"))")))
  refine Nat.le_trans ?_ (Nat.le_of_eq (congrArg _ ((skip_space (by decide) _).trans
    (Solid.skip (.cons (by decide) (by decide) _))).symm))
  refine Nat.le_trans ?_ (pair_low (a := .minimize) (r := c!" " ++ (op3 n ++ c!"))")) (by rfl))
  obtain ⟨x, k2⟩ := ms1_sp (g := [' ']) sp_one ((op3_solid n).append (c!"))"))
  exact preceded_low k2

end D

/-! ## Comments -/

/-- `n` lines `;c`. -/
def remarks : Nat → List Char
  | 0 => []
  | n + 1 => c!";c\n" ++ remarks n

theorem remarks_length (n : Nat) : (remarks n).length = 3 * n := by
  induction n with
  | zero => rfl
  | succ n ih => simp [remarks, ih]; omega

theorem remarks_skip (n : Nat) (s : List Char) : skip (remarks n ++ s) = skip s := by
  induction n with
  | zero => rfl
  | succ n ih =>
    rw [← ih]
    exact (skip_semicolon _).trans ((skip_comment_end (b := 'c') (body := [])
      (r := '\n' :: (remarks n ++ s)) rfl (by simp) (by intro c r' h; cases h; rfl)).trans
        (skip_space rfl _))

theorem remarks_nesting (n : Nat) (s : List Char) : nesting (remarks n ++ s) = nesting s := by
  induction n with
  | zero => rfl
  | succ n ih =>
    rw [← ih]
    rfl

theorem remarks_head (n : Nat) {s : List Char} (hs : Solid s) :
    (remarks n ++ s).dropWhile isSpace = remarks n ++ s := by
  cases n with
  | zero =>
    obtain ⟨c, r, rfl, h, _⟩ := hs
    exact List.dropWhile_cons_of_neg (by have h : isSpace c = false := h; simp [h])
  | succ n => rfl

theorem eol_depth (s : List Char) :
    D.ignoreEolComment.depth s = 1 + (D.ignoreEolCommentBody D.ignoreEolComment).depth s :=
  AlikeD.fix_depth ignoreEolCommentBody_alikeD s

/-- `n` comments in a row take more than `n` levels. -/
theorem remarks_depth (n : Nat) {s : List Char} (hs : Solid s) :
    n + 1 ≤ D.ignoreEolComment.depth (remarks n ++ s) := by
  induction n with
  | zero =>
    rw [eol_depth]
    omega
  | succ n ih =>
    rw [eol_depth, Nat.add_comm]
    refine Nat.add_le_add_left (Nat.le_trans ih ?_) 1
    unfold D.ignoreEolCommentBody
    refine Nat.le_trans ?_ (Nat.le_trans (D.pair_low (q := D.opt D.ignoreEolComment)
      (p := D.multispace0) (s := '\n' :: (remarks n ++ s)) (a := ['\n'] ++ (remarks n ++ s).takeWhile isSpace) (r := remarks n ++ s) ?_)
      (D.terminated_low_right (p := D.pair (D.char ';') (D.isNot ['\r', '\n'])) (a := (';', ['c'])) ?_))
    · exact Nat.le_refl _
    · show Res.ok _ ((remarks n ++ s).dropWhile isSpace) = _
      rw [remarks_head n hs]
      rfl
    · rfl

/-- A domain below `n` comments. -/
def remarked (n : Nat) : List Char := remarks n ++ c!"(define (domain d))"

theorem remarked_length (n : Nat) : (remarked n).length = 3 * n + 19 := by
  rw [remarked, List.length_append, remarks_length]
  rfl

theorem remarked_run (n : Nat) : parseDomain (remarked n) = parseDomain c!"(define (domain d))" := by
  have h : ∀ (p : P DomainParts) s s', skip s = skip s' → ws2 p s = ws2 p s' := fun p s s' h => by
    have e : ∀ s, ws2 p s = ws (terminated p (preceded multispace0 ignoreEolComment)) s :=
      fun _ => rfl
    rw [e, e, ws_eq, ws_eq, h]
  simp only [parseDomain, map, h _ _ _ (remarks_skip n c!"(define (domain d))"), remarked]

theorem remarked_depth (n : Nat) : n + 1 ≤ D.parseDomain.depth (remarked n) := by
  have hs : Solid c!"(define (domain d))" := .cons (by decide) (by decide) _
  refine Nat.le_trans (remarks_depth n hs) (Nat.le_trans ?_ (D.preceded_low_left (p := D.preceded D.multispace0 D.ignoreEolComment)))
  refine Nat.le_trans (Nat.le_of_eq (congrArg _ (remarks_head n hs).symm)) ?_
  exact D.preceded_low (p := D.multispace0) (s := remarked n) rfl

end Pddl
