import Verif.Meta.DepthAll
import Verif.Meta.DepthLow

/-!
# C61: how deep the recursion of the parsers goes

The depths of `Verif/Depth/Nom.lean`: the largest number of calls of recursive parsers that are open
at the same time. The stack of the program grows with it. The claim would be that only the nesting of
the text makes the recursion deep. It is false: the parser of comments calls itself for the comment
on the next line. What holds is that nothing else does.
-/

namespace Pddl

/-! ## The measured parsers are the parsers -/

/-- Measuring does not change what is parsed. -/
theorem C61_same_domain (s : List Char) : D.parseDomain.run s = parseDomain s := by
  rw [D.parseDomain_run]

theorem C61_same_problem (s : List Char) : D.parseProblem.run s = parseProblem s := by
  rw [D.parseProblem_run]

/-! ## The measure is honest -/

/-- The budget that makes recursion terminate in the model is invisible in the depth: a call of each
of the recursive parsers is one level above its body with calls of the parser itself inside. -/
theorem C61_recursion (s : List Char) :
    D.ignoreEolComment.depth s = 1 + (D.ignoreEolCommentBody D.ignoreEolComment).depth s ∧
    D.parseTerm.depth s = 1 + (D.termBody D.parseTerm).depth s ∧
    D.parseFExp.depth s = 1 + (D.fExpBody D.parseFExp).depth s ∧
    D.parseGd.depth s = 1 + (D.gdBody D.parseGd).depth s ∧
    D.parsePreGd.depth s = 1 + (D.preGdBody D.parsePreGd).depth s ∧
    D.parseConGd.depth s = 1 + (D.conGdBody D.parseConGd).depth s ∧
    D.parsePrefConGd.depth s = 1 + (D.prefConGdBody D.parsePrefConGd).depth s ∧
    D.parseCEffect.depth s = 1 + (D.cEffectBody D.parseCEffect).depth s ∧
    D.parseDaGd.depth s = 1 + (D.daGdBody D.parseDaGd).depth s ∧
    D.parseFExpDa.depth s = 1 + (D.fExpDaBody D.parseFExpDa).depth s ∧
    D.parseDaEffect.depth s = 1 + (D.daEffectBody D.parseDaEffect).depth s ∧
    D.parseSimpleDuration.depth s = 1 + (D.simpleDurationBody D.parseSimpleDuration).depth s ∧
    D.parseMetricFExp.depth s = 1 + (D.metricFExpBody D.parseMetricFExp).depth s :=
  ⟨AlikeD.fix_depth ignoreEolCommentBody_alikeD s, AlikeD.fix_depth termBody_alikeD s,
    AlikeD.fix_depth fExpBody_alikeD s, AlikeD.fix_depth gdBody_alikeD s,
    AlikeD.fix_depth preGdBody_alikeD s, AlikeD.fix_depth conGdBody_alikeD s,
    AlikeD.fix_depth prefConGdBody_alikeD s, AlikeD.fix_depth cEffectBody_alikeD s,
    AlikeD.fix_depth daGdBody_alikeD s, AlikeD.fix_depth fExpDaBody_alikeD s,
    AlikeD.fix_depth daEffectBody_alikeD s, AlikeD.fix_depth simpleDurationBody_alikeD s,
    AlikeD.fix_depth metricFExpBody_alikeD s⟩

example : D.parseTerm.depth c!"(f (g ?x) a)" = 4 := by decide +kernel

/-! ## The claim is false -/

/-- No bound in terms of the nesting alone: for every bound there is an accepted domain text in which
parentheses are nested twice and whose recursion is deeper. -/
theorem C61_false_nesting (f : Nat → Nat) :
    ∃ s d, parseDomain s = .ok d [] ∧ nesting s = 2 ∧ f (nesting s) < D.parseDomain.depth s := by
  have hn : nesting (remarked (f 2)) = 2 := remarks_nesting (f 2) c!"(define (domain d))"
  refine ⟨remarked (f 2), domainOf (.new c!"d", none, none, none, none, none, none, none, none),
    ?_, hn, ?_⟩
  · rw [remarked_run]
    rfl
  · rw [hn]
    exact remarked_depth (f 2)

/-- Three characters for each level: `n` comments in a row and a domain of 19 characters. -/
theorem C61_comments_deep (n : Nat) :
    ∃ s d, s.length = 3 * n + 19 ∧ parseDomain s = .ok d [] ∧ nesting s = 2 ∧
      n < D.parseDomain.depth s :=
  ⟨remarked n, domainOf (.new c!"d", none, none, none, none, none, none, none, none),
    remarked_length n, by rw [remarked_run]; rfl, remarks_nesting n c!"(define (domain d))",
    remarked_depth n⟩

/-- There is no bound at all, comments or not: nested operations. -/
theorem C61_nesting_deep (n : Nat) :
    ∃ s d, s.length = 75 + 8 * n ∧ ';' ∉ s ∧ parseProblem s = .ok d [] ∧
      n < D.parseProblem.depth s := by
  refine ⟨problem3 n, problem3V n, problem3_length n, ?_, problem3_run n, D.problem3_depth n⟩
  have h : ';' ∉ op3 n := by
    induction n with
    | zero => decide
    | succ n ih => simp [op3, ih]
  simp [problem3, h]

/-! ## What holds -/

/-- The recursion is at most as deep as parentheses are nested and comments follow each other. -/
theorem C61_domain_partial (s : List Char) :
    D.parseDomain.depth s ≤ nesting s + longestComments s + 4 := by
  have := (parseDomain_deep (L := nest s + 1) (M := longestComments s) (Nat.le_refl _)).2 s
    (Nat.lt_succ_self _) (Nat.le_refl _)
  have := nest_le s
  omega

theorem C61_problem_partial (s : List Char) :
    D.parseProblem.depth s ≤ nesting s + longestComments s + 4 := by
  have := (parseProblem_deep (L := nest s + 1) (M := longestComments s) (Nat.le_refl _)).2 s
    (Nat.lt_succ_self _) (Nat.le_refl _)
  have := nest_le s
  omega

theorem commentRun_none : ∀ {s : List Char}, ';' ∉ s → commentRun s = 0
  | [], _ => by rw [commentRun]
  | c :: s, h => by
    simp only [List.mem_cons, not_or] at h
    rw [commentRun]
    split
    · exact commentRun_none h.2
    · rw [if_neg (fun e => h.1 e.symm)]

theorem longestComments_none : ∀ {s : List Char}, ';' ∉ s → longestComments s = 0
  | [], _ => rfl
  | c :: s, h => by
    rw [longestComments, commentRun_none h,
      longestComments_none fun hm => h (List.mem_cons_of_mem _ hm)]
    rfl

/-- The claim holds for texts without comments. -/
theorem C61_domain_no_comments_partial (s : List Char) (h : ';' ∉ s) :
    D.parseDomain.depth s ≤ nesting s + 4 := by
  have := C61_domain_partial s
  rw [longestComments_none h] at this
  exact this

theorem C61_problem_no_comments_partial (s : List Char) (h : ';' ∉ s) :
    D.parseProblem.depth s ≤ nesting s + 4 := by
  have := C61_problem_partial s
  rw [longestComments_none h] at this
  exact this

-- The recursion, the nesting and the comments of a text.
example :
    let s := c!"(define (problem p) (:domain d) (:init) (:goal (and (or (not (= ?x ;a\n;b\n (f y)))))))"
    D.parseProblem.depth s = 8 ∧ nesting s = 7 ∧ longestComments s = 2 := by decide +kernel

-- Parentheses in comments and closed parentheses do not count.
example : nesting c!"(a (b) (c) ; ((((\n)" = 2 := by decide +kernel

example : longestComments c!"; one\n a ; two\n ; three\n b" = 2 := by decide +kernel

end Pddl
