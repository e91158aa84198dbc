import Verif.Meta.WorkAll
import Verif.Meta.WorkLowDomain
import Verif.Meta.WorkPays
import Verif.Meta.WorkAlike

/-!
# C60: how much work parsing takes

The steps of `Verif/Work/Nom.lean`: one for every call of a primitive parser and of a recursive
parser and one for every character that a primitive parser consumes. The claim would be that the
number of steps is bounded by a polynomial in the length of the text. It is false: nested operations
with more than two operands take exponentially many steps. What holds is that nothing else does.
-/

namespace Pddl

/-! ## The counting parsers are the parsers -/

/-- Counting does not change what is parsed. -/
theorem C60_same_domain (s : List Char) : K.parseDomain.run s = parseDomain s := by
  rw [K.parseDomain_run]

theorem C60_same_problem (s : List Char) : K.parseProblem.run s = parseProblem s := by
  rw [K.parseProblem_run]

/-! ## The count is honest -/

/-- Reading is counted: whatever is accepted took at least a step for every character. -/
theorem C60_reading_domain (s : List Char) (d : Domain) (r : List Char)
    (h : parseDomain s = .ok d r) : s.length ≤ r.length + K.parseDomain.cost s :=
  parseDomain_pays s d r (by rw [K.parseDomain_run]; exact h)

theorem C60_reading_problem (s : List Char) (d : Problem) (r : List Char)
    (h : parseProblem s = .ok d r) : s.length ≤ r.length + K.parseProblem.cost s :=
  parseProblem_pays s d r (by rw [K.parseProblem_run]; exact h)

/-- The budget that makes recursion terminate in the model is invisible in the count: a call of each
of the recursive parsers takes a step more than its body with calls of the parser itself inside. -/
theorem C60_recursion (s : List Char) :
    K.ignoreEolComment.cost s = 1 + (K.ignoreEolCommentBody K.ignoreEolComment).cost s ∧
    K.parseTerm.cost s = 1 + (K.termBody K.parseTerm).cost s ∧
    K.parseFExp.cost s = 1 + (K.fExpBody K.parseFExp).cost s ∧
    K.parseGd.cost s = 1 + (K.gdBody K.parseGd).cost s ∧
    K.parsePreGd.cost s = 1 + (K.preGdBody K.parsePreGd).cost s ∧
    K.parseConGd.cost s = 1 + (K.conGdBody K.parseConGd).cost s ∧
    K.parsePrefConGd.cost s = 1 + (K.prefConGdBody K.parsePrefConGd).cost s ∧
    K.parseCEffect.cost s = 1 + (K.cEffectBody K.parseCEffect).cost s ∧
    K.parseDaGd.cost s = 1 + (K.daGdBody K.parseDaGd).cost s ∧
    K.parseFExpDa.cost s = 1 + (K.fExpDaBody K.parseFExpDa).cost s ∧
    K.parseDaEffect.cost s = 1 + (K.daEffectBody K.parseDaEffect).cost s ∧
    K.parseSimpleDuration.cost s = 1 + (K.simpleDurationBody K.parseSimpleDuration).cost s ∧
    K.parseMetricFExp.cost s = 1 + (K.metricFExpBody K.parseMetricFExp).cost s :=
  ⟨Alike.fix_cost ignoreEolCommentBody_alike s, Alike.fix_cost termBody_alike s,
    Alike.fix_cost fExpBody_alike s, Alike.fix_cost gdBody_alike s, Alike.fix_cost preGdBody_alike s,
    Alike.fix_cost conGdBody_alike s, Alike.fix_cost prefConGdBody_alike s,
    Alike.fix_cost cEffectBody_alike s, Alike.fix_cost daGdBody_alike s,
    Alike.fix_cost fExpDaBody_alike s, Alike.fix_cost daEffectBody_alike s,
    Alike.fix_cost simpleDurationBody_alike s, Alike.fix_cost metricFExpBody_alike s⟩

example : K.parseTerm.cost c!"(f (g ?x) a)" = 101 := by decide +kernel

/-! ## The claim is false -/

/-- No polynomial bounds the work: there is an accepted problem text that takes more steps. -/
theorem C60_false_polynomial (C k : Nat) :
    ∃ s d, parseProblem s = .ok d [] ∧ C * (s.length + 1) ^ k < K.parseProblem.cost s := by
  obtain ⟨n, hn⟩ := pow_outgrows C k 76 8
  refine ⟨problem3 n, problem3V n, problem3_run n, Nat.lt_of_lt_of_le ?_ (K.problem3_cost n)⟩
  have : (problem3 n).length + 1 = 76 + 8 * n := by rw [problem3_length]; omega
  rw [this]; exact hn

/-- A text of `8 n + 75` characters that takes at least `2 ^ n` steps. -/
theorem C60_exponential (n : Nat) :
    ∃ s d, s.length = 75 + 8 * n ∧ parseProblem s = .ok d [] ∧ 2 ^ n ≤ K.parseProblem.cost s :=
  ⟨problem3 n, problem3V n, problem3_length n, problem3_run n, K.problem3_cost n⟩

/-- Domains as well: there is an accepted domain text that takes more steps. -/
theorem C60_false_polynomial_domain (C k : Nat) :
    ∃ s d, parseDomain s = .ok d [] ∧ C * (s.length + 1) ^ k < K.parseDomain.cost s := by
  obtain ⟨n, hn⟩ := pow_outgrows C k 43 8
  refine ⟨domain3 n, domain3V n, domain3_run n, Nat.lt_of_lt_of_le ?_ (K.domain3_cost n)⟩
  have : (domain3 n).length + 1 = 43 + 8 * n := by rw [domain3_length]; omega
  rw [this]; exact hn

/-- A domain of `8 n + 42` characters that takes at least `2 ^ n` steps. -/
theorem C60_exponential_domain (n : Nat) :
    ∃ s d, s.length = 42 + 8 * n ∧ parseDomain s = .ok d [] ∧ 2 ^ n ≤ K.parseDomain.cost s :=
  ⟨domain3 n, domain3V n, domain3_length n, domain3_run n, K.domain3_cost n⟩

example : domain3 1 = c!"(define (domain d) (:derived (p) (> (+ 1 1 1) 1)))" := rfl

/-! ## What holds -/

theorem B_length (j : Nat) (s : List Char) : B j s ≤ 2 ^ opDepth s * (s.length + 1) ^ j :=
  amt_mono (Nat.le_refl _) (Nat.sub_le _ _)

theorem Pol.length {j : Nat} {p : K.P α} (h : Pol j p) :
    ∃ C, ∀ s, p.cost s ≤ C * (2 ^ opDepth s * (s.length + 1) ^ j) := by
  obtain ⟨⟨c, h⟩, _⟩ := h
  refine ⟨c, fun s => Nat.le_trans (h s) ?_⟩
  rw [Nat.zero_mul, Nat.add_zero]
  exact Nat.mul_le_mul (Nat.le_refl c) (B_length j s)

/-- Besides nested operations the work is polynomial, for texts of all kinds, accepted or not: an
operation around others at most doubles it. -/
theorem C60_domain_partial :
    ∃ C, ∀ s : List Char, K.parseDomain.cost s ≤ C * (2 ^ opDepth s * (s.length + 1) ^ 7) :=
  (parseDomain_pol (Nat.le_refl 7)).length

theorem C60_problem_partial :
    ∃ C, ∀ s : List Char, K.parseProblem.cost s ≤ C * (2 ^ opDepth s * (s.length + 1) ^ 7) :=
  (parseProblem_pol (Nat.le_refl 7)).length

/-- In particular, where operations are nested at most `d` deep the work is polynomial. -/
theorem C60_domain_shallow_partial (d : Nat) :
    ∃ C, ∀ s : List Char, opDepth s ≤ d → K.parseDomain.cost s ≤ C * (s.length + 1) ^ 7 := by
  obtain ⟨C, h⟩ := C60_domain_partial
  refine ⟨C * 2 ^ d, fun s hs => Nat.le_trans (h s) ?_⟩
  rw [Nat.mul_assoc]
  exact Nat.mul_le_mul (Nat.le_refl _) (Nat.mul_le_mul (Nat.pow_le_pow_right (by decide) hs) (Nat.le_refl _))

theorem C60_problem_shallow_partial (d : Nat) :
    ∃ C, ∀ s : List Char, opDepth s ≤ d → K.parseProblem.cost s ≤ C * (s.length + 1) ^ 7 := by
  obtain ⟨C, h⟩ := C60_problem_partial
  refine ⟨C * 2 ^ d, fun s hs => Nat.le_trans (h s) ?_⟩
  rw [Nat.mul_assoc]
  exact Nat.mul_le_mul (Nat.le_refl _) (Nat.mul_le_mul (Nat.pow_le_pow_right (by decide) hs) (Nat.le_refl _))

/-! Examples: the depth of texts, and steps counted. -/
example : opDepth c!"(:effect (and (increase (f) (+ 1 (* 2 3))) (decrease (g) (- 1))))" = 2 := by
  decide +kernel
example : opDepth c!"(define (problem p) (:domain d) (:init (= (f) 1)) (:goal (a)))" = 0 := by
  decide +kernel
example : opDepth (problem3 3) = 3 := by decide +kernel
example : (List.range 5).map (fun n => K.parseMetricFExp.cost (op3 n)) = [5, 78, 224, 516, 1100] := by
  decide +kernel
example : (List.range 4).map (fun n => K.parseProblem.cost (problem3 n)) = [442, 515, 661, 953] := by
  decide +kernel

end Pddl
