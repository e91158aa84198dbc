import Verif.Meta.WorkRun
import Verif.Meta.Top

/-!
# Meta-theory: texts that take many steps

`op3 n` is an operation with three operands whose first operand is `op3 (n - 1)`. The parser of
operations with two operands reads the first operand, does not find the closing parenthesis after
the second one and gives up; the parser of longer operations then reads the first operand again.
-/

namespace Pddl

/-- `1`, `(+ 1 1 1)`, `(+ (+ 1 1 1) 1 1)`, … -/
def op3 : Nat → List Char
  | 0 => ['1']
  | n + 1 => c!"(+ " ++ (op3 n ++ c!" 1 1)")

theorem op3_length (n : Nat) : (op3 n).length = 1 + 8 * n := by
  induction n with
  | zero => rfl
  | succ n ih => simp [op3, ih]; omega

/-- The number `1`. -/
def num1 : Number := ⟨floatOf ['1']⟩

/-- The value of `op3 n`. -/
def op3V : Nat → MetricFExp
  | 0 => .number num1
  | n + 1 => .multiOp .add (op3V n) [.number num1, .number num1]

theorem op3_solid (n : Nat) : Solid (op3 n) := by
  cases n with
  | zero => exact ⟨_, _, rfl, by decide, by decide⟩
  | succ n => exact ⟨_, _, rfl, by decide, by decide⟩

theorem num1_written : NumW num1 ['1'] := by
  refine numW_iff.mpr ⟨⟨['1'], [], by simp, by decide, by simp⟩, ?_⟩
  decide +kernel

/-- Reading `1`. -/
theorem num1_run {r : List Char} (h : Stop r) : parseNumber ('1' :: r) = .ok num1 r :=
  num1_written.acc r h

theorem metric_num1 {r : List Char} (h : Stop r) (m : Nat) :
    fixF metricFExpBody (m + 1) ('1' :: r) = .ok (.number num1) r := by
  rw [fixF, metricFExpBody]
  exact alt_hit (map_run (num1_run h))

theorem sp_one : Sp [' '] := ⟨by simp, by intro c hc; cases List.mem_singleton.mp hc; decide⟩

theorem op3_step {self : P MetricFExp} {t r : List Char} {v : MetricFExp} (ht : Solid t)
    (h : self (t ++ (c!" 1 1)" ++ r)) = .ok v (c!" 1 1)" ++ r))
    (h1 : self (c!"1 1)" ++ r) = .ok (.number num1) (c!" 1)" ++ r))
    (h2 : self (c!"1)" ++ r) = .ok (.number num1) (c!")" ++ r)) :
    parens (pair parseBinaryOp (pair (preceded multispace1 self) (preceded multispace1 self)))
        (c!"(+ " ++ (t ++ (c!" 1 1)" ++ r))) = .err ∧
    parens (pair parseMultiOp
        (pair (preceded multispace1 self) (preceded multispace1 (spaceSeparatedList1 self))))
        (c!"(+ " ++ (t ++ (c!" 1 1)" ++ r))) = .ok (.add, v, [.number num1, .number num1]) r := by
  have hs : Solid (t ++ (c!" 1 1)" ++ r)) := ht.append _
  have e1 : preceded multispace1 self (c!" " ++ (t ++ (c!" 1 1)" ++ r))) = .ok v (c!" 1 1)" ++ r) := by
    rw [pms1_sp (sp_one) hs, h]
  have e2 : ∀ p : P (List MetricFExp), preceded multispace1 p (c!" 1 1)" ++ r) = p (c!"1 1)" ++ r) :=
    fun p => by rfl
  have e3 : preceded multispace1 self (c!" 1 1)" ++ r) = .ok (.number num1) (c!" 1)" ++ r) := by
    rw [← h1]; rfl
  have k1 : skip (c!"+ " ++ (t ++ (c!" 1 1)" ++ r))) = (c!"+ " ++ (t ++ (c!" 1 1)" ++ r))) :=
    Solid.skip (.cons (by decide) (by decide) _)
  constructor
  · refine parens_tail (v := (.add, v, .number num1)) (y := c!" 1)" ++ r) ?_ (by simp)
    refine Eq.trans (congrArg _ k1) (pair_run (p := parseBinaryOp) (by rfl) (pair_run e1 e3))
  · refine parens_run ?_
    refine Eq.trans (congrArg _ k1) (pair_run (p := parseMultiOp) (by rfl) (pair_run e1 ?_))
    have k2 : skip (c!"1 1)" ++ r) = c!"1 1)" ++ r := Solid.skip (.cons (by decide) (by decide) _)
    have k3 : skipC (c!"1 1)" ++ r) = c!"1 1)" ++ r := Solid.skipC (.cons (by decide) (by decide) _)
    have k4 : skip (' ' :: '1' :: ')' :: r) = c!"1)" ++ r := by
      rw [skip_space (by decide), Solid.skip (.cons (by decide) (by decide) _)]; rfl
    rw [e2, spaceSeparatedList1, ws_eq, k2, sepList1, eolp_eq, k3, h1]
    simp only [Res.bind, List.cons_append, List.nil_append, List.length_cons]
    rw [sepLoop_step (by decide), k4, h2]
    rfl

/-- `op3 n` is read, given enough depth, whatever follows. -/
theorem op3_run (n m : Nat) {r : List Char} (hr : Stop r) :
    fixF metricFExpBody (n + m + 1) (op3 n ++ r) = .ok (op3V n) r := by
  induction n generalizing m r with
  | zero => exact metric_num1 hr (0 + m)
  | succ n ih =>
    have e : n + 1 + m + 1 = (n + m + 1) + 1 := by omega
    have h := op3_step (r := r) (op3_solid n) (ih m (Stop.sp (g := [' ']) sp_one _))
      (metric_num1 (Stop.sp (g := [' ']) sp_one _) _)
      (metric_num1 (.close _) _)
    rw [e, fixF, metricFExpBody]
    have t : op3 (n + 1) ++ r = c!"(+ " ++ (op3 n ++ (c!" 1 1)" ++ r)) := by simp [op3]
    rw [t, alt_miss (map_err (by rfl)), alt_miss (map_err h.1),
      alt_hit (r := r) (a := op3V (n + 1)) (by rw [mapExpect, h.2]; rfl)]

/-! ## Steps -/
namespace K

theorem eol_ok (s : List Char) : ignoreEolComment.run s = .ok () (skipC s) := by
  rw [ignoreEolComment_run, eol_eq]

theorem preceded_low {p : P α} {q : P β} {s r : List Char} {a : α} (h : p.run s = .ok a r) :
    q.cost r ≤ (preceded p q).cost s := by
  simp only [preceded, h, Res.after]; omega

theorem terminated_low {p : P α} {q : P β} {s : List Char} : p.cost s ≤ (terminated p q).cost s :=
  Nat.le_add_right _ _

theorem pair_low {p : P α} {q : P β} {s r : List Char} {a : α} (h : p.run s = .ok a r) :
    q.cost r ≤ (pair p q).cost s := by
  simp only [pair, h, Res.after]; omega

theorem pair_low_left {p : P α} {q : P β} {s : List Char} : p.cost s ≤ (pair p q).cost s :=
  Nat.le_add_right _ _

theorem ws_low {p : P α} (s : List Char) : p.cost (skip s) ≤ (ws p).cost s :=
  preceded_low (a := ()) (by
    rw [K.preceded_run, ignoreEolComment_run]
    simp only [Pddl.preceded, multispace0_run, multispace0, takeWhile0, Res.bind, eol_eq, skip]; rfl)

theorem ws2_low {p : P α} (s : List Char) : p.cost (skip s) ≤ (ws2 p).cost s :=
  Nat.le_trans terminated_low (preceded_low (a := ()) (by
    rw [K.preceded_run, ignoreEolComment_run]
    simp only [Pddl.preceded, multispace0_run, multispace0, takeWhile0, Res.bind, eol_eq, skip]; rfl))

theorem parens_low {p : P α} (x : List Char) : p.cost (skip x) ≤ (parens p).cost ('(' :: x) := by
  have h : skipC ('(' :: x) = '(' :: x := skipC_of_ne (by decide) x
  refine Nat.le_trans ?_ (preceded_low (eol_ok _))
  rw [h]
  exact Nat.le_trans (ws_low x) (Nat.le_trans terminated_low (preceded_low (p := char '(') (by rfl)))

theorem prefixExpr_low {p : P α} (kw x : List Char) :
    p.cost (skip x) ≤ (prefixExpr kw p).cost ('(' :: (kw ++ x)) := by
  refine Nat.le_trans (ws_low x) (Nat.le_trans terminated_low (preceded_low (a := kw) ?_))
  rw [K.preceded_run, ws_run, tag_run, tag_run, Pddl.preceded, ws_eq, (solid_open _).skip]
  show Pddl.tag kw (kw ++ x) = _
  rw [Pddl.tag, stripPrefix_append]

theorem alt2_low {p q t : P α} {ps : List (P α)} {s : List Char} (h0 : p.run s = .err)
    (h1 : q.run s = .err) : q.cost s + t.cost s ≤ (alt (p :: q :: t :: ps)).cost s := by
  simp only [alt, altCost, h0, h1, Res.onErr]
  omega

/-- Reading `op3 n` takes `2 ^ n` steps. -/
theorem op3_cost (n m : Nat) {r : List Char} (hr : Stop r) :
    2 ^ n ≤ (fixF metricFExpBody (n + m + 1)).cost (op3 n ++ r) := by
  induction n generalizing m r with
  | zero => simp [fixF]
  | succ n ih =>
    have e : n + 1 + m + 1 = (n + m + 1) + 1 := by omega
    have h := op3_step (r := r) (op3_solid n) (op3_run n m (Stop.sp (g := [' ']) sp_one _))
      (metric_num1 (Stop.sp (g := [' ']) sp_one _) _)
      (metric_num1 (.close _) _)
    have t : op3 (n + 1) ++ r = c!"(+ " ++ (op3 n ++ (c!" 1 1)" ++ r)) := by simp [op3]
    have hi := ih m (r := c!" 1 1)" ++ r) (Stop.sp (g := [' ']) sp_one _)
    have hrun := fixF_run metricFExpBody_run (n + m + 1)
    have k1 : skip (c!"+ " ++ (op3 n ++ (c!" 1 1)" ++ r))) = (c!"+ " ++ (op3 n ++ (c!" 1 1)" ++ r))) :=
      Solid.skip (.cons (by decide) (by decide) _)
    obtain ⟨x, k2⟩ := ms1_sp (g := [' ']) sp_one ((op3_solid n).append (c!" 1 1)" ++ r))
    rw [e, fixF]
    show _ ≤ 1 + (metricFExpBody _).cost _
    rw [metricFExpBody, t]
    refine Nat.le_trans ?_ (Nat.le_trans (alt2_low ?_ ?_) (Nat.le_add_left _ 1))
    · rw [Nat.pow_succ, Nat.mul_two]
      refine Nat.add_le_add (Nat.le_trans hi ?_) (Nat.le_trans hi ?_)
      · refine Nat.le_trans ?_ (parens_low _)
        refine Nat.le_trans ?_ (Nat.le_of_eq (congrArg _ k1.symm))
        exact Nat.le_trans (Nat.le_trans (preceded_low k2) pair_low_left)
          (pair_low (a := .add) (by rw [parseBinaryOp_run]; rfl))
      · refine Nat.le_trans ?_ (parens_low _)
        refine Nat.le_trans ?_ (Nat.le_of_eq (congrArg _ k1.symm))
        exact Nat.le_trans (Nat.le_trans (preceded_low k2) pair_low_left)
          (pair_low (a := .add) (by rw [parseMultiOp_run]; rfl))
    · rw [K.map_run, parseNumber_run]; rfl
    · rw [K.map_run, parens_run, K.pair_run, K.pair_run, K.preceded_run, hrun, parseBinaryOp_run,
        multispace1_run]
      exact map_err h.1

theorem parseMetricFExp_low (n : Nat) {r : List Char} (hr : Stop r) :
    2 ^ n ≤ parseMetricFExp.cost (op3 n ++ r) := by
  show _ ≤ (fixF metricFExpBody ((op3 n ++ r).length + 1)).cost _
  have e : (op3 n ++ r).length + 1 = n + (1 + 7 * n + r.length) + 1 := by
    rw [List.length_append, op3_length]; omega
  rw [e]
  exact op3_cost n _ hr

end K

/-- A problem whose metric is `op3 n`. -/
def problem3 (n : Nat) : List Char :=
  c!"(define (problem p) (:domain d) (:init) (:goal (and)) (:metric minimize " ++ (op3 n ++ c!"))")

/-- What `problem3 n` means. -/
def problem3V (n : Nat) : Problem :=
  ⟨.new c!"p", .new c!"d", [], [], [], [], [], some ⟨.minimize, op3V n⟩, none⟩

theorem problem3_length (n : Nat) : (problem3 n).length = 75 + 8 * n := by
  simp [problem3, op3_length]; omega

/-! The parts of the text. -/
section
variable (n : Nat)

theorem part1 : prefixExpr c!"problem" parseName (c!"(problem p) (:domain d) (:init) (:goal (and)) (:metric minimize " ++ (op3 n ++ c!"))")) = .ok (.new c!"p") (c!" (:domain d) (:init) (:goal (and)) (:metric minimize " ++ (op3 n ++ c!"))")) := by
  have h := (NameW.of_word (t := c!"p") ⟨_, _, rfl, by decide, by simp⟩).acc (c!") (:domain d) (:init) (:goal (and)) (:metric minimize " ++ (op3 n ++ c!"))")) (.close _)
  refine prefixExpr_run (kw := c!"problem") (x := (c!" p) (:domain d) (:init) (:goal (and)) (:metric minimize " ++ (op3 n ++ c!"))"))) (y := (c!") (:domain d) (:init) (:goal (and)) (:metric minimize " ++ (op3 n ++ c!"))"))) ?_ ?_
  · exact h
  · rfl

theorem part2 : preceded multispace1 (prefixExpr c!":domain" parseName) (c!" (:domain d) (:init) (:goal (and)) (:metric minimize " ++ (op3 n ++ c!"))")) = .ok (.new c!"d") (c!" (:init) (:goal (and)) (:metric minimize " ++ (op3 n ++ c!"))")) := by
  have h := (NameW.of_word (t := c!"d") ⟨_, _, rfl, by decide, by simp⟩).acc (c!") (:init) (:goal (and)) (:metric minimize " ++ (op3 n ++ c!"))")) (.close _)
  refine Eq.trans (preceded_run (p := multispace1) (by rfl)) ?_
  refine prefixExpr_run (kw := c!":domain") (x := (c!" d) (:init) (:goal (and)) (:metric minimize " ++ (op3 n ++ c!"))"))) (y := (c!") (:init) (:goal (and)) (:metric minimize " ++ (op3 n ++ c!"))"))) ?_ ?_
  · exact h
  · rfl

theorem part3 : opt (preceded multispace1 parseRequireDef) (c!" (:init) (:goal (and)) (:metric minimize " ++ (op3 n ++ c!"))")) = .ok none (c!" (:init) (:goal (and)) (:metric minimize " ++ (op3 n ++ c!"))")) := by rfl

theorem part4 : opt (preceded multispace1 parseProblemObjectsDeclaration) (c!" (:init) (:goal (and)) (:metric minimize " ++ (op3 n ++ c!"))")) = .ok none (c!" (:init) (:goal (and)) (:metric minimize " ++ (op3 n ++ c!"))")) := by rfl

theorem part5 : preceded multispace1 parseProblemInitDef (c!" (:init) (:goal (and)) (:metric minimize " ++ (op3 n ++ c!"))")) = .ok [] (c!" (:goal (and)) (:metric minimize " ++ (op3 n ++ c!"))")) := by rfl

theorem part6 : preceded multispace1 parseProblemGoalDef (c!" (:goal (and)) (:metric minimize " ++ (op3 n ++ c!"))")) = .ok [] (c!" (:metric minimize " ++ (op3 n ++ c!"))")) := by
  rfl

theorem part7 : opt (preceded multispace1 parseProblemConstraintsDef) (c!" (:metric minimize " ++ (op3 n ++ c!"))")) = .ok none (c!" (:metric minimize " ++ (op3 n ++ c!"))")) := by rfl

theorem part8 : opt (preceded multispace1 parseProblemMetricSpec) (c!" (:metric minimize " ++ (op3 n ++ c!"))")) =
    .ok (some ⟨.minimize, op3V n⟩) c!")" := by
  obtain ⟨x, k2⟩ := ms1_sp (g := [' ']) sp_one ((op3_solid n).append (c!"))"))
  have e : (op3 n ++ c!"))").length + 1 = n + (1 + 7 * n + 2) + 1 := by
    rw [List.length_append, op3_length]; simp; omega
  have h : parseMetricFExp (op3 n ++ c!"))") = .ok (op3V n) c!"))" := by
    show fixF metricFExpBody ((op3 n ++ c!"))").length + 1) _ = _
    rw [e]
    exact op3_run n _ (.close _)
  refine opt_run (Eq.trans (preceded_run (p := multispace1) (by rfl)) ?_)
  refine map_run (f := fun x : Optimization × MetricFExp => MetricSpec.mk x.1 x.2)
    (a := (.minimize, op3V n)) (prefixExpr_run (kw := c!":metric")
    (x := (c!" minimize " ++ (op3 n ++ c!"))"))) (y := c!"))") ?_ (by rfl))
  refine Eq.trans (congrArg _ ((skip_space (by decide) _).trans (Solid.skip (.cons (by decide) (by decide) _)))) ?_
  exact pair_run (p := parseOptimization) (a := .minimize) (r := c!" " ++ (op3 n ++ c!"))")) (by rfl)
    ((preceded_run k2).trans h)

theorem part9 : opt (preceded multispace1 parseProblemLengthSpec) c!")" = .ok none c!")" := by rfl

end

theorem problem3_run (n : Nat) : parseProblem (problem3 n) = .ok (problem3V n) [] := by
  have h : prefixExpr c!"define" problemParts (problem3 n) = .ok (.new c!"p", .new c!"d", none, none,
      [], [], none, some ⟨.minimize, op3V n⟩, none) [] := by
    refine prefixExpr_run (kw := c!"define") (x := c!" (problem p) (:domain d) (:init) (:goal (and)) (:metric minimize " ++ (op3 n ++ c!"))")) (y := c!")") ?_ (by rfl)
    refine Eq.trans (congrArg _ ((skip_space (by decide) _).trans (Solid.skip (.cons (by decide) (by decide) _)))) ?_
    exact pair_run (part1 n) (pair_run (part2 n) (pair_run (part3 n) (pair_run (part4 n) (pair_run (part5 n)
      (pair_run (part6 n) (pair_run (part7 n) (pair_run (part8 n) part9)))))))
  have hs : Solid (problem3 n) := .cons (by decide) (by decide) _
  have := map_run (f := problemOf) (ws2_run (g := []) (t := problem3 n) (r := []) .nil hs
    (by rw [List.append_nil]; exact h))
  rw [List.append_nil, List.nil_append] at this
  exact this

namespace K

theorem problem3_cost (n : Nat) : 2 ^ n ≤ parseProblem.cost (problem3 n) := by
  refine Nat.le_trans (parseMetricFExp_low n (Stop.close c!")")) ?_
  refine Nat.le_trans ?_ (ws2_low _)
  have e : skip (problem3 n) = '(' :: (c!"define" ++ (c!" (problem p) (:domain d) (:init) (:goal (and)) (:metric minimize " ++ (op3 n ++ c!"))"))) :=
    Solid.skip (.cons (by decide) (by decide) _)
  refine Nat.le_trans ?_ (Nat.le_of_eq (congrArg _ e.symm))
  refine Nat.le_trans ?_ (prefixExpr_low _ _)
  have e : skip (c!" (problem p) (:domain d) (:init) (:goal (and)) (:metric minimize " ++ (op3 n ++ c!"))")) = (c!"(problem p) (:domain d) (:init) (:goal (and)) (:metric minimize " ++ (op3 n ++ c!"))")) :=
    (skip_space (by decide) _).trans (Solid.skip (.cons (by decide) (by decide) _))
  refine Nat.le_trans ?_ (Nat.le_of_eq (congrArg _ e.symm))
  unfold problemParts
  refine Nat.le_trans ?_ (pair_low (by rw [K.prefixExpr_run, parseName_run]; exact part1 n))
  refine Nat.le_trans ?_ (pair_low (by
    rw [K.preceded_run, K.prefixExpr_run, parseName_run]; exact part2 n))
  refine Nat.le_trans ?_ (pair_low (by
    rw [K.opt_run, K.preceded_run, parseRequireDef_run]; exact part3 n))
  refine Nat.le_trans ?_ (pair_low (by
    rw [K.opt_run, K.preceded_run, parseProblemObjectsDeclaration_run]; exact part4 n))
  refine Nat.le_trans ?_ (pair_low (by
    rw [K.preceded_run, parseProblemInitDef_run]; exact part5 n))
  refine Nat.le_trans ?_ (pair_low (by
    rw [K.preceded_run, parseProblemGoalDef_run]; exact part6 n))
  refine Nat.le_trans ?_ (pair_low (by
    rw [K.opt_run, K.preceded_run, parseProblemConstraintsDef_run]; exact part7 n))
  refine Nat.le_trans ?_ pair_low_left
  refine Nat.le_trans ?_ (preceded_low (a := [' ']) (r := (c!"(:metric minimize " ++ (op3 n ++ c!"))"))) rfl)
  refine Nat.le_trans ?_ (prefixExpr_low c!":metric" (c!" minimize " ++ (op3 n ++ c!"))")))
  refine Nat.le_trans ?_ (Nat.le_of_eq (congrArg _ ((skip_space (by decide) _).trans
    (Solid.skip (.cons (by decide) (by decide) _))).symm))
  refine Nat.le_trans ?_ (pair_low (a := .minimize) (r := c!" " ++ (op3 n ++ c!"))")) (by rfl))
  obtain ⟨x, k2⟩ := ms1_sp (g := [' ']) sp_one ((op3_solid n).append (c!"))"))
  exact preceded_low k2

end K

/-- Powers of two outgrow every polynomial. -/
theorem pow_outgrows (C k a b : Nat) : ∃ n, C * (a + b * n) ^ k < 2 ^ n := by
  let q := C * (a + b) ^ k
  let t := q + 2 * k
  refine ⟨2 ^ (2 * t), ?_⟩
  have h1 : C * (a + b * 2 ^ (2 * t)) ^ k ≤ q * 2 ^ (2 * t * k) := by
    show _ ≤ C * (a + b) ^ k * _
    rw [Nat.mul_assoc, Nat.pow_mul 2 (2 * t) k, ← Nat.mul_pow]
    refine Nat.mul_le_mul (Nat.le_refl _) (Nat.pow_le_pow_left ?_ k)
    rw [Nat.add_mul]
    exact Nat.add_le_add (Nat.le_mul_of_pos_right _ (Nat.two_pow_pos _)) (Nat.le_refl _)
  have h2 : q * 2 ^ (2 * t * k) ≤ 2 ^ (q + 2 * t * k) := by
    rw [Nat.pow_add]
    exact Nat.mul_le_mul (Nat.le_of_lt Nat.lt_two_pow_self) (Nat.le_refl _)
  refine Nat.lt_of_le_of_lt (Nat.le_trans h1 h2) (Nat.pow_lt_pow_right (by decide) ?_)
  have h3 : t + 1 ≤ 2 ^ t := Nat.lt_two_pow_self
  have h4 : (t + 1) * (t + 1) ≤ 2 ^ (2 * t) := by
    rw [Nat.two_mul, Nat.pow_add]; exact Nat.mul_le_mul h3 h3
  refine Nat.lt_of_lt_of_le ?_ h4
  have h5 : 2 * t * k ≤ t * t := by
    rw [Nat.mul_comm 2 t, Nat.mul_assoc]
    exact Nat.mul_le_mul (Nat.le_refl _) (Nat.le_add_left _ _)
  have h6 : q ≤ t := Nat.le_add_right _ _
  have : (t + 1) * (t + 1) = t * t + 2 * t + 1 := by
    rw [Nat.add_mul, Nat.mul_add]; omega
  omega

end Pddl
