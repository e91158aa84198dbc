import Verif.Meta.FailAll
import Verif.Meta.FailOnly
import Verif.Props.Robust

/-!
# C12: a malformed type is an unrecoverable error

`Stops p B`: the parser reports an unrecoverable failure (`nom::Err::Failure`) on every text
described by `B` (`Verif/Spec/Malformed.lean`): a text that is well written up to a `-` that no type
follows, with no condition on what comes afterwards.

The converse, `C12_only`, says that no other mistake is reported in this way.
-/

namespace Pddl

/-- Every text of the class is an unrecoverable failure. -/
def Stops (p : P α) (B : List Char → Prop) : Prop := ∀ s, B s → p s = .fail

/-! ## The type itself -/

/-- If no type is written, reading a type is an unrecoverable failure. -/
theorem C12_type : Stops parseType NoType := fun _ h => h.fail

/-- Reading a type is never a recoverable error (nor a panic): it succeeds or fails for good. -/
theorem C12_type_outcome (s : List Char) :
    (∃ ty r, parseType s = .ok ty r) ∨ parseType s = .fail := parseType_outcome s

/-! ## Typed lists -/

theorem C12_typed_variables : Stops (typedList parseVariable) (BadTyped (VarW .strict) fun _ => False) :=
  fun s h => by simpa using vars_fail .nil h
theorem C12_typed_names : Stops (typedList parseName) (BadTyped NameW fun _ => False) :=
  fun _ h => (typedNames_bad h).2
theorem C12_typed_functions :
    Stops (functionTypedList parseAtomicFunctionSkeleton) (BadTyped (SkeletonW .strict) BadSkeleton) :=
  fun _ h => (functions_bad h).2

/-! ## The constructs around them -/

theorem C12_skeleton : Stops parseAtomicFormulaSkeleton BadSkeleton := fun _ h => h.fails.2
theorem C12_goal : Stops parseGd BadGD := fun _ h => h.fails.2
theorem C12_preference : Stops parsePrefGd BadPrefGD := fun _ h => h.fails.2
theorem C12_precondition : Stops parsePreGd BadPreGD := fun _ h => h.fails.2
theorem C12_constraint : Stops parseConGd BadCon := fun _ h => h.fails.2
theorem C12_constraint_operand : Stops parseCon2Gd BadCon2 := fun s h =>
  (con2_bad h fun h' => h'.fails).2
theorem C12_preference_constraint : Stops parsePrefConGd BadPrefCon := fun _ h => h.fails.2
theorem C12_conditional_effect : Stops parseCEffect BadCEffect := fun _ h => h.fails.2
theorem C12_effect : Stops parseEffect BadEffect := fun _ h => h.fails.2
theorem C12_action : Stops parseActionDef BadAction := fun _ h => h.fails.2
theorem C12_derived : Stops parseDerivedPredicate BadDerived := fun _ h => h.fails.2
theorem C12_timed_goal : Stops parseTimedGd BadTimedGD := fun _ h => h.fails.2
theorem C12_timed_preference : Stops parsePrefTimedGd BadPrefTimedGD := fun _ h => h.fails.2
theorem C12_durative_condition : Stops parseDaGd BadDaGD := fun _ h => h.fails.2
theorem C12_durative_effect : Stops parseDaEffect BadDaEffect := fun _ h => h.fails.2
theorem C12_durative_action : Stops parseDaDef BadDaDef := fun _ h => h.fails.2
theorem C12_structure : Stops parseStructureDef BadStructure := fun _ h => h.fails.2

/-! ## Whole files -/

/-- A domain with a malformed type anywhere is rejected for good, and `from_str` returns an error. -/
theorem C12_domain {g s : List Char} (hg : Gap g) (h : BadDomain s) :
    parseDomain (g ++ s) = .fail ∧ fromStr parseDomain (g ++ s) = none := by
  have : parseDomain (g ++ s) = .fail := map_fail (ws2_fail hg h.fails)
  exact ⟨this, by simp [fromStr, this]⟩

/-- A problem with a malformed type anywhere is rejected for good, and `from_str` returns an error. -/
theorem C12_problem {g s : List Char} (hg : Gap g) (h : BadProblem s) :
    parseProblem (g ++ s) = .fail ∧ fromStr parseProblem (g ++ s) = none := by
  have : parseProblem (g ++ s) = .fail := map_fail (ws2_fail hg h.fails)
  exact ⟨this, by simp [fromStr, this]⟩

/-! ## The converse -/

theorem publicParsers_fo : ∀ p ∈ publicParsers, p = ⟨_, parseType⟩ ∨ p = ⟨_, parseFunctionType⟩ ∨ Fo p.2 := by
  intro p hp
  simp only [publicParsers, List.mem_cons, List.not_mem_nil, or_false] at hp
  repeat' (rcases hp with hp | hp)
  all_goals first
    | exact .inl rfl
    | exact .inr (.inl rfl)
    | refine .inr (.inr ?_)
  all_goals dsimp only
  all_goals first
    | exact .atomicFormula parseTerm_fo
    | exact .atomicFormula parseName_fo
    | exact .literal parseTerm_fo
    | exact .literal parseName_fo
    | comb_step

/-- No public parser other than the one for types itself fails for good unless the text contains a
`-` after which no type is written. -/
theorem C12_only : ∀ p ∈ publicParsers, p ≠ ⟨_, parseType⟩ → p ≠ ⟨_, parseFunctionType⟩ →
    ∀ s, p.2 s = .fail → DashNoType s := by
  intro p hp h1 h2 s hs
  rcases publicParsers_fo p hp with h | h | h
  · exact absurd h h1
  · exact absurd h h2
  · have := h s
    rw [hs] at this
    exact this

/-- In particular a text without `-` never fails for good. -/
theorem C12_without_dash : ∀ p ∈ publicParsers, p ≠ ⟨_, parseType⟩ → p ≠ ⟨_, parseFunctionType⟩ →
    ∀ s, '-' ∉ s → p.2 s ≠ .fail := by
  intro p hp h1 h2 s hd hs
  obtain ⟨u, v, rfl, _⟩ := C12_only p hp h1 h2 s hs
  simp at hd

/-! ## Cases that meet the hypotheses -/

/-- A text that begins with none of the characters a type can begin with. -/
theorem NoType.of_head {c : Char} {s : List Char} (h1 : isBlank c = false) (h2 : c ≠ ';')
    (h3 : isLetter c = false) (h4 : c ≠ '(') : NoType (c :: s) := by
  rintro g ty u r hg hu he
  cases hg with
  | space hc _ =>
    simp only [List.cons_append, List.cons.injEq] at he
    rw [← he.1, h1] at hc
    cases hc
  | comment =>
    simp only [List.cons_append, List.cons.injEq] at he
    exact h2 he.1
  | nil =>
    cases hu with
    | exactly hn =>
      obtain ⟨⟨d, cs, rfl, hd, _⟩, _⟩ := hn
      simp only [List.nil_append, List.cons_append, List.cons.injEq] at he
      rw [← he.1, h3] at hd
      cases hd
    | either =>
      simp only [List.nil_append, paren, List.cons_append, List.cons.injEq] at he
      exact h4 he.1

private theorem sp : Sep c!" " := .mk (by decide) .nil
private theorem spG : Gap c!" " := .space (by decide) .nil

/-- `5)` is no type. -/
private theorem noType5 (s : List Char) : NoType ('5' :: s) := .of_head (by decide) (by decide) (by decide) (by decide)

private theorem wx : VarW .strict (Name.new c!"x") c!"?x" :=
  ⟨[], c!"x", rfl, rfl, ⟨'x', [], rfl, by decide, by decide⟩, rfl⟩
private theorem wn : NameW (Name.new c!"d") c!"d" := ⟨⟨'d', [], rfl, by decide, by decide⟩, rfl⟩

/-- `?x -5 …`, whatever follows. -/
private theorem badX (s : List Char) : BadTyped (VarW .strict) (fun _ => False) (c!"?x -5" ++ s) :=
  .here (t := c!"?x") (g := c!" ") (.one wx) sp (noType5 s)

/-- `(exists (?x -5 …`: the failure does not depend on the rest; in particular the form is not read as
an atom with predicate `exists`. -/
private theorem badE (s : List Char) : BadGD (c!"(exists (?x -5" ++ s) :=
  .exist (.vars (kw := c!"exists") (g := c!" ") spG (.mk (g := []) .nil (badX s)))

example (s : List Char) : parseGd (c!"(exists (?x -5" ++ s) = .fail := C12_goal _ (badE s)
example : parseGd c!"(exists (?x) (p ?x))" ≠ .fail := by intro h; cases h
example (s : List Char) : parseConGd (c!"(always (exists (?x -5" ++ s) = .fail :=
  C12_constraint _ (.always (.mk (kw := c!"always") (g := c!" ") spG (.goal (badE s))))
example (s : List Char) : parseCEffect (c!"(when (exists (?x -5" ++ s) = .fail :=
  C12_conditional_effect _ (.when (.mk (kw := c!"when") (g := c!" ") spG (badE s)))
example (s : List Char) : parseDaGd (c!"(forall (?x -5" ++ s) = .fail :=
  C12_durative_condition _ (.forall_ (.vars (kw := c!"forall") (g := c!" ") spG
    (.mk (g := []) .nil (badX s))))
example (s : List Char) : parseActionDef (c!"(:action d :parameters (?x -5" ++ s) = .fail :=
  C12_action _ (.parameters (g1 := c!" ") (tn := c!"d") (g2 := c!" ") (g3 := c!" ") sp wn
    ⟨by decide, by unfold Sp0; decide⟩ sp (.mk (g := []) .nil (badX s)))
example (s : List Char) : parseDomain (c!" " ++ (c!"(define (domain d) (:types d -5" ++ s)) = .fail :=
  (C12_domain spG (.types (g1 := c!" ") (tn := c!"(domain d)") (u1 := []) (u2 := []) (g := c!" ")
    spG (.mk (kw := c!"domain") (g1 := c!" ") (t := c!"d") (g2 := []) sp wn .nil) .absent .absent sp
    (.mk (kw := c!":types") (g := c!" ") spG
      (.here (t := c!"d") (g := c!" ") (.one wn) sp (noType5 s))))).1
example (s : List Char) :
    parseProblem (c!" " ++ (c!"(define (problem d) (:domain d) (:objects d -5" ++ s)) = .fail :=
  (C12_problem spG (.objects (g1 := c!" ") (tn := c!"(problem d)") (g2 := c!" ") (td := c!"(:domain d)")
    (u1 := []) (g := c!" ") spG
    (.mk (kw := c!"problem") (g1 := c!" ") (t := c!"d") (g2 := []) sp wn .nil) sp
    (.mk (kw := c!":domain") (g1 := c!" ") (t := c!"d") (g2 := []) sp wn .nil) .absent sp
    (.mk (kw := c!":objects") (g := c!" ") spG
      (.here (t := c!"d") (g := c!" ") (.one wn) sp (noType5 s))))).1

/-- The class of `C12_only` is not everything: a well-written typed list is no `DashNoType`, and a
failure for another reason is an ordinary error. -/
example : parseTypesDef c!"(:types a - b" = .err := rfl
example : parseTypesDef c!"(:types a - 5)" = .fail := rfl
example : (⟨_, parseTypesDef⟩ : AnyParser) ∈ publicParsers := by simp [publicParsers]

end Pddl
