import Verif.Props.EnteredAll

/-!
# C121: names of sections that are given up

A section of a domain that cannot be read to its end is an optional part that is not there. The
domain is rejected later on, and the names of the section stay in the table.
-/

namespace Pddl

theorem mem_pair1 {p : N.P α} {q : N.P β} {s t : List Char} (ht : t ∈ p.made s) :
    t ∈ (N.pair p q).made s := List.mem_append.2 (.inl ht)

theorem mem_pair2 {p : N.P α} {q : N.P β} {s r t : List Char} {a : α} (h : p.run s = .ok a r)
    (ht : t ∈ q.made r) : t ∈ (N.pair p q).made s := mem_preceded h ht

/-- A domain that ends within its first predicate. -/
def cutPredicate (w : List Char) : List Char := c!"(define (domain d) (:predicates (" ++ w

theorem word_run {w : List Char} (h : IsWord w) : parseName w = .ok (Name.new w) [] := by
  simpa using parseName_word (r := []) h fun _ _ h => nomatch h

theorem domainD_run (x : List Char) :
    prefixExpr c!"domain" parseName ('(' :: (c!"domain" ++ (c!" d)" ++ x))) =
      .ok (Name.new c!"d") x := by
  refine prefixExpr_run (y := ')' :: x) ?_ (solid_close x).skip
  rw [show skip (c!" d)" ++ x) = c!"d" ++ ')' :: x from rfl]
  exact parseName_word ⟨'d', [], rfl, by decide, by decide⟩ fun c r e => by
    cases e
    decide

theorem cutSkeleton_err {w : List Char} (h : IsWord w) :
    parseAtomicFormulaSkeleton ('(' :: w) = .err := by
  refine map_err ?_
  rw [parens_open, h.solid.skip]
  have hp : pair parsePredicate (ws (typedList parseVariable)) w = .ok (Name.new w, []) [] :=
    pair_run (show parsePredicate w = _ from word_run h) rfl
  rw [hp]
  rfl

theorem cutPredicates_err {w : List Char} (h : IsWord w) :
    parsePredicatesDef ('(' :: (c!":predicates" ++ (' ' :: '(' :: w))) = .err := by
  refine prefixExpr_body_err ?_
  rw [skip_space (by decide), (solid_open w).skip]
  show ws _ _ = _
  rw [ws_eq, (solid_open w).skip]
  show Res.bind _ _ = _
  rw [eolp_eq, skipC_of_ne (show '(' ≠ ';' by decide), cutSkeleton_err h]
  rfl

/-- C121: every word can be left in the table by a section of a domain that is given up. -/
theorem C121_rejected_section {w : List Char} (h : IsWord w) :
    parseDomain (cutPredicate w) = .err ∧ w ∈ N.parseDomain.made (cutPredicate w) := by
  have ho : ∀ x, skip ('(' :: x) = '(' :: x := fun x => (solid_open x).skip
  let u : List Char := c!" (:predicates (" ++ w
  constructor
  · show map domainOf (ws2 (prefixExpr c!"define" domainParts))
      ('(' :: (c!"define" ++ (' ' :: '(' :: (c!"domain" ++ (c!" d)" ++ u))))) = .err
    refine map_err ?_
    show ws _ _ = _
    rw [ws_eq, ho]
    refine terminated_err (prefixExpr_tail (y := u)
      (v := (Name.new c!"d", none, none, none, none, none, none, none, none)) ?_ ?_)
    · rw [skip_space (by decide), ho]
      have hp : opt (preceded multispace1 parsePredicatesDef) u = .ok none u :=
        opt_err (cutPredicates_err h)
      exact pair_run (domainD_run u) (pair_run (r := u) rfl (pair_run (r := u) rfl
        (pair_run (r := u) rfl (pair_run (r := u) rfl (pair_run hp (pair_run (r := u) rfl
        (pair_run (r := u) rfl rfl)))))))
    · intro r e
      rw [show skip u = '(' :: (c!":predicates (" ++ w) from rfl] at e
      cases e
  · show w ∈ (N.ws2 (N.prefixExpr c!"define" N.domainParts)).made
      ('(' :: (c!"define" ++ (' ' :: '(' :: (c!"domain" ++ (c!" d)" ++ u)))))
    refine mem_preceded (layoutN_run _) (mem_terminated ?_)
    rw [ho]
    refine mem_prefixExpr ?_
    rw [skip_space (by decide), ho]
    refine mem_pair2 (a := Name.new c!"d") (r := u) ?_ (mem_pair2 (a := none) (r := u) rfl
      (mem_pair2 (a := none) (r := u) rfl (mem_pair2 (a := none) (r := u) rfl
      (mem_pair2 (a := none) (r := u) rfl (mem_pair1 ?_)))))
    · rw [N.prefixExpr_run, N.parseName_run]
      exact domainD_run u
    · refine mem_preceded (p := N.multispace1) (a := c!" ")
        (r := '(' :: (c!":predicates" ++ (' ' :: '(' :: w))) rfl (mem_prefixExpr ?_)
      rw [skip_space (by decide), ho]
      refine mem_ws ?_
      rw [ho]
      refine List.mem_append.2 (.inl (mem_preceded (p := N.ignoreEolComment) (a := ())
        (r := '(' :: w) rfl ?_))
      refine mem_preceded (p := N.ignoreEolComment) (a := ()) (r := '(' :: w) rfl ?_
      refine mem_preceded (p := N.char '(') (a := '(') (r := w) rfl (mem_terminated (mem_ws ?_))
      rw [h.solid.skip]
      have := mem_parseName (word_run h)
      rw [Name.text_new] at this
      exact mem_pair1 this

example : parseDomain c!"(define (domain d) (:predicates (oops" = .err ∧
    c!"oops" ∈ N.parseDomain.made c!"(define (domain d) (:predicates (oops" :=
  C121_rejected_section (w := c!"oops") ⟨'o', c!"ops", rfl, by decide, by decide⟩

end Pddl
