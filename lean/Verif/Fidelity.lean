import Verif.Parsers
import Verif.Types
import Verif.Convert
import Lean.Elab.Tactic

/-!
# Replay of the tests of the crate

The assertions of the documentation examples and unit tests in `/repo/src`, translated one by one.
They test the translation of the code into the model. They are not proofs of properties: those
are in `Verif/Props`. A comment before each example cites file and line of the test block.

`kernel_rfl` closes an equation by evaluation in the kernel (`Eq.refl`, no axiom).
-/

namespace Pddl.Fidelity
open Lean Elab Tactic Meta

elab "kernel_rfl" : tactic => do
  let g ← getMainGoal
  let t ← instantiateMVars (← g.getType)
  let some (_, a, _) := t.eq? | throwError "kernel_rfl: not an equation"
  g.assign (mkExpectedPropHint (← mkEqRefl a) t)

/-- `is_value` of `/repo/src/parsers/test_helpers.rs`: the value, whatever remains. -/
def value? : Res α → Option α
  | .ok a _ => some a
  | _ => none
/-- The remaining input. -/
def rest? : Res α → Option (List Char)
  | .ok _ r => some r
  | _ => none
def isOk : Res α → Bool
  | .ok _ _ => true
  | _ => false
/-- `is_err` of `test_helpers.rs`. -/
def isErr : Res α → Bool
  | .err => true
  | .fail => true
  | _ => false
/-- The Rust literal with these bits. -/
abbrev num (bits : Nat) : Number := ⟨⟨BitVec.ofNat 32 bits⟩⟩
abbrev typedObject (a : α) : Typed α := ⟨a, Ty.object⟩
abbrev typedNumber (a : α) : Typed α := ⟨a, Ty.number⟩
abbrev single (a : α) : List α := [a]
/-- The `From` conversions the tests use. -/
class Into (α β : Type) where
  into : α → β
export Into (into)
instance : Into Name (Typed Name) := ⟨typedObject⟩
instance : Into FExp FExpDa := ⟨.fExp⟩
instance : Into PreGD (List PreGD) := ⟨single⟩
instance : Into (AtomicFormula α) (Literal α) := ⟨.pos⟩
instance : Into α α := ⟨id⟩
abbrev termFn (f : FunctionTerm) : Term := .fn f.symbol f.terms
abbrev prefGd (p : Option Name × GD) : PrefGD := .preference p.1 p.2
abbrev lenSerial (n : Nat) : LengthSpec := ⟨some n, none⟩
abbrev lenParallel (n : Nat) : LengthSpec := ⟨none, some n⟩
abbrev preGdPref (p : PrefGD) : List PreGD := [.preference p]
abbrev preGdForall (vs : TypedList Name) (gs : List PreGD) : List PreGD := [.forall_ vs gs]
abbrev prefConGoals (g : ConGD) : List PrefConGD := [.goal g]
abbrev prefConForall (vs : TypedList Name) (gs : List PrefConGD) : List PrefConGD := [.forall_ vs gs]
abbrev prefCons (n : Option Name) (g : ConGD) : List PrefConGD := [.preference n g]

/-! ### `/repo/src/lib.rs` -/
-- lib.rs:15
example : (do let v1 ← value? (parseDomain c!"\n    (define (domain briefcase-world)\n        (:requirements :strips :equality :typing :conditional-effects)\n        (:types location physob)\n        (:constants B P D - physob)\n        (:predicates (at ?x - physob ?y - location)\n                     (in ?x ?y - physob))\n\n        (:action mov-B\n            :parameters (?m ?l - location)\n            :precondition (and (at B ?m) (not (= ?m ?l)))\n            :effect (and (at B ?l) (not (at B ?m))\n                         (forall (?z)\n                             (when (and (in ?z) (not (= ?z B)))\n                                   (and (at ?z ?l) (not (at ?z ?m)))))) )\n\n        (:action put-in\n            :parameters (?x - physob ?l - location)\n            :precondition (not (= ?x B))\n            :effect (when (and (at ?x ?l) (at B ?l))\n                    (in ?x)) )\n\n        (:action take-out\n            :parameters (?x - physob)\n            :precondition (not (= ?x B))\n            :effect (not (in ?x)) )\n    )\n    "); some ((v1).name)) = some (Name.new c!"briefcase-world") := by kernel_rfl
-- lib.rs:15
example : (do let v1 ← value? (parseDomain c!"\n    (define (domain briefcase-world)\n        (:requirements :strips :equality :typing :conditional-effects)\n        (:types location physob)\n        (:constants B P D - physob)\n        (:predicates (at ?x - physob ?y - location)\n                     (in ?x ?y - physob))\n\n        (:action mov-B\n            :parameters (?m ?l - location)\n            :precondition (and (at B ?m) (not (= ?m ?l)))\n            :effect (and (at B ?l) (not (at B ?m))\n                         (forall (?z)\n                             (when (and (in ?z) (not (= ?z B)))\n                                   (and (at ?z ?l) (not (at ?z ?m)))))) )\n\n        (:action put-in\n            :parameters (?x - physob ?l - location)\n            :precondition (not (= ?x B))\n            :effect (when (and (at ?x ?l) (at B ?l))\n                    (in ?x)) )\n\n        (:action take-out\n            :parameters (?x - physob)\n            :precondition (not (= ?x B))\n            :effect (not (in ?x)) )\n    )\n    "); some (((v1).requirements).length)) = some 4 := by kernel_rfl
-- lib.rs:15
example : (do let v1 ← value? (parseDomain c!"\n    (define (domain briefcase-world)\n        (:requirements :strips :equality :typing :conditional-effects)\n        (:types location physob)\n        (:constants B P D - physob)\n        (:predicates (at ?x - physob ?y - location)\n                     (in ?x ?y - physob))\n\n        (:action mov-B\n            :parameters (?m ?l - location)\n            :precondition (and (at B ?m) (not (= ?m ?l)))\n            :effect (and (at B ?l) (not (at B ?m))\n                         (forall (?z)\n                             (when (and (in ?z) (not (= ?z B)))\n                                   (and (at ?z ?l) (not (at ?z ?m)))))) )\n\n        (:action put-in\n            :parameters (?x - physob ?l - location)\n            :precondition (not (= ?x B))\n            :effect (when (and (at ?x ?l) (at B ?l))\n                    (in ?x)) )\n\n        (:action take-out\n            :parameters (?x - physob)\n            :precondition (not (= ?x B))\n            :effect (not (in ?x)) )\n    )\n    "); some (((v1).types).length)) = some 2 := by kernel_rfl
-- lib.rs:15
example : (do let v1 ← value? (parseDomain c!"\n    (define (domain briefcase-world)\n        (:requirements :strips :equality :typing :conditional-effects)\n        (:types location physob)\n        (:constants B P D - physob)\n        (:predicates (at ?x - physob ?y - location)\n                     (in ?x ?y - physob))\n\n        (:action mov-B\n            :parameters (?m ?l - location)\n            :precondition (and (at B ?m) (not (= ?m ?l)))\n            :effect (and (at B ?l) (not (at B ?m))\n                         (forall (?z)\n                             (when (and (in ?z) (not (= ?z B)))\n                                   (and (at ?z ?l) (not (at ?z ?m)))))) )\n\n        (:action put-in\n            :parameters (?x - physob ?l - location)\n            :precondition (not (= ?x B))\n            :effect (when (and (at ?x ?l) (at B ?l))\n                    (in ?x)) )\n\n        (:action take-out\n            :parameters (?x - physob)\n            :precondition (not (= ?x B))\n            :effect (not (in ?x)) )\n    )\n    "); some (((v1).constants).length)) = some 3 := by kernel_rfl
-- lib.rs:15
example : (do let v1 ← value? (parseDomain c!"\n    (define (domain briefcase-world)\n        (:requirements :strips :equality :typing :conditional-effects)\n        (:types location physob)\n        (:constants B P D - physob)\n        (:predicates (at ?x - physob ?y - location)\n                     (in ?x ?y - physob))\n\n        (:action mov-B\n            :parameters (?m ?l - location)\n            :precondition (and (at B ?m) (not (= ?m ?l)))\n            :effect (and (at B ?l) (not (at B ?m))\n                         (forall (?z)\n                             (when (and (in ?z) (not (= ?z B)))\n                                   (and (at ?z ?l) (not (at ?z ?m)))))) )\n\n        (:action put-in\n            :parameters (?x - physob ?l - location)\n            :precondition (not (= ?x B))\n            :effect (when (and (at ?x ?l) (at B ?l))\n                    (in ?x)) )\n\n        (:action take-out\n            :parameters (?x - physob)\n            :precondition (not (= ?x B))\n            :effect (not (in ?x)) )\n    )\n    "); some (((v1).predicates).length)) = some 2 := by kernel_rfl
-- lib.rs:15
example : (do let v1 ← value? (parseDomain c!"\n    (define (domain briefcase-world)\n        (:requirements :strips :equality :typing :conditional-effects)\n        (:types location physob)\n        (:constants B P D - physob)\n        (:predicates (at ?x - physob ?y - location)\n                     (in ?x ?y - physob))\n\n        (:action mov-B\n            :parameters (?m ?l - location)\n            :precondition (and (at B ?m) (not (= ?m ?l)))\n            :effect (and (at B ?l) (not (at B ?m))\n                         (forall (?z)\n                             (when (and (in ?z) (not (= ?z B)))\n                                   (and (at ?z ?l) (not (at ?z ?m)))))) )\n\n        (:action put-in\n            :parameters (?x - physob ?l - location)\n            :precondition (not (= ?x B))\n            :effect (when (and (at ?x ?l) (at B ?l))\n                    (in ?x)) )\n\n        (:action take-out\n            :parameters (?x - physob)\n            :precondition (not (= ?x B))\n            :effect (not (in ?x)) )\n    )\n    "); some (((v1).structure_).length)) = some 3 := by kernel_rfl
-- lib.rs:15
example : (do let v1 ← value? (parseProblem c!"\n    (define (problem get-paid)\n        (:domain briefcase-world)\n        (:init (place home) (place office)\n            (object p) (object d) (object b)\n            (at B home) (at P home) (at D home) (in P))\n        (:goal (and (at B office) (at D office) (at P home)))\n    )\n    "); some ((v1).name)) = some (Name.new c!"get-paid") := by kernel_rfl
-- lib.rs:15
example : (do let v1 ← value? (parseProblem c!"\n    (define (problem get-paid)\n        (:domain briefcase-world)\n        (:init (place home) (place office)\n            (object p) (object d) (object b)\n            (at B home) (at P home) (at D home) (in P))\n        (:goal (and (at B office) (at D office) (at P home)))\n    )\n    "); some ((v1).domain)) = some (Name.new c!"briefcase-world") := by kernel_rfl
-- lib.rs:15
example : (do let v1 ← value? (parseProblem c!"\n    (define (problem get-paid)\n        (:domain briefcase-world)\n        (:init (place home) (place office)\n            (object p) (object d) (object b)\n            (at B home) (at P home) (at D home) (in P))\n        (:goal (and (at B office) (at D office) (at P home)))\n    )\n    "); some (((v1).requires).isEmpty)) = some true := by kernel_rfl
-- lib.rs:15
example : (do let v1 ← value? (parseProblem c!"\n    (define (problem get-paid)\n        (:domain briefcase-world)\n        (:init (place home) (place office)\n            (object p) (object d) (object b)\n            (at B home) (at P home) (at D home) (in P))\n        (:goal (and (at B office) (at D office) (at P home)))\n    )\n    "); some (((v1).init).length)) = some 9 := by kernel_rfl
-- lib.rs:15
example : (do let v1 ← value? (parseProblem c!"\n    (define (problem get-paid)\n        (:domain briefcase-world)\n        (:init (place home) (place office)\n            (object p) (object d) (object b)\n            (at B home) (at P home) (at D home) (in P))\n        (:goal (and (at B office) (at D office) (at P home)))\n    )\n    "); some (((v1).goal).length)) = some 3 := by kernel_rfl

/-! ### `/repo/src/parsers/action_def.rs` -/
-- action_def.rs:15
example : value? (parseActionDef c!"(:action take-out\n                    :parameters (?x - physob)\n                    :precondition (not (= ?x B))\n                    :effect (not (in ?x))\n                )") = some ((ActionDef.mk (Name.new c!"take-out") [(Typed.mk (Name.new c!"x") (Ty.exactly (Name.new c!"physob")))] (into (PreGD.preference (PrefGD.goal (GD.not (GD.atomic (AtomicFormula.equality (Term.var (Name.new c!"x")) (Term.name (Name.new c!"B")))))))) (some (single (CEffect.effect (PEffect.notAtomic (AtomicFormula.predicate (Name.new c!"in") [(Term.var (Name.new c!"x"))]))))))) := by kernel_rfl
-- action_def.rs:94
example : isOk (parseActionDef c!"(:action take-out\n                    :parameters (?x - physob)\n                    :precondition (not (= ?x B))\n                    :effect (not (in ?x))\n                )") = true := by kernel_rfl
-- action_def.rs:94
example : value? (parseActionDef c!"(:action take-out\n                    :parameters (?x - physob)\n                    :precondition (not (= ?x B))\n                    :effect (not (in ?x))\n                )") = (do let v1 ← value? (parsePreGd c!"(not (= ?x B))"); let v2 ← value? (parseEffect c!"(not (in ?x))"); some ((ActionDef.mk (Name.new c!"take-out") [(Typed.mk (Name.new c!"x") (Ty.exactly (Name.new c!"physob")))] (into v1) (some v2)))) := by kernel_rfl
-- action_def.rs:131
example : isOk (parseActionDef c!"(:action take-out\n                            :parameters (?x - physob)\n                            :precondition (not (= ?x B))\n                            :effect (not (in ?x))\n                        )") = true := by kernel_rfl
-- action_def.rs:131
example : value? (parseActionDef c!"(:action take-out\n                            :parameters (?x - physob)\n                            :precondition (not (= ?x B))\n                            :effect (not (in ?x))\n                        )") = (do let v1 ← value? (parsePreGd c!"(not (= ?x B))"); let v2 ← value? (parseEffect c!"(not (in ?x))"); some ((ActionDef.mk (Name.new c!"take-out") [(Typed.mk (Name.new c!"x") (Ty.exactly (Name.new c!"physob")))] (into v1) (some v2)))) := by kernel_rfl

/-! ### `/repo/src/parsers/action_symbol.rs` -/
-- action_symbol.rs:11, action_symbol.rs:34, action_symbol.rs:51
example : value? (parseActionSymbol c!"abcde") = some ((Name.new c!"abcde")) := by kernel_rfl
-- action_symbol.rs:11
example : value? (parseActionSymbol c!"a-1_2") = some ((Name.new c!"a-1_2")) := by kernel_rfl
-- action_symbol.rs:11
example : value? (parseActionSymbol c!"Z01") = some ((Name.new c!"Z01")) := by kernel_rfl
-- action_symbol.rs:11
example : value? (parseActionSymbol c!"x-_-_") = some ((Name.new c!"x-_-_")) := by kernel_rfl
-- action_symbol.rs:11
example : isErr (parseActionSymbol c!"") = true := by kernel_rfl
-- action_symbol.rs:11
example : isErr (parseActionSymbol c!".") = true := by kernel_rfl
-- action_symbol.rs:11
example : isErr (parseActionSymbol c!"-abc") = true := by kernel_rfl
-- action_symbol.rs:11
example : isErr (parseActionSymbol c!"0124") = true := by kernel_rfl
-- action_symbol.rs:11
example : isErr (parseActionSymbol c!"-1") = true := by kernel_rfl
-- action_symbol.rs:34, action_symbol.rs:51
example : isOk (parseActionSymbol c!"abcde") = true := by kernel_rfl

/-! ### `/repo/src/parsers/assign_op.rs` -/
-- assign_op.rs:14, assign_op.rs:40, assign_op.rs:58
example : value? (parseAssignOp c!"assign") = some (AssignOp.assign) := by kernel_rfl
-- assign_op.rs:14, assign_op.rs:40, assign_op.rs:58
example : value? (parseAssignOp c!"scale-up") = some (AssignOp.scaleUp) := by kernel_rfl
-- assign_op.rs:40, assign_op.rs:58
example : isOk (parseAssignOp c!"assign") = true := by kernel_rfl
-- assign_op.rs:40, assign_op.rs:58
example : isOk (parseAssignOp c!"scale-up") = true := by kernel_rfl

/-! ### `/repo/src/parsers/assign_op_t.rs` -/
-- assign_op_t.rs:14, assign_op_t.rs:33, assign_op_t.rs:50
example : value? (parseAssignOpT c!"increase") = some (AssignOpT.increase) := by kernel_rfl
-- assign_op_t.rs:14
example : value? (parseAssignOpT c!"decrease") = some (AssignOpT.decrease) := by kernel_rfl
-- assign_op_t.rs:33, assign_op_t.rs:50
example : isOk (parseAssignOpT c!"increase") = true := by kernel_rfl

/-! ### `/repo/src/parsers/atomic_formula.rs` -/
-- atomic_formula.rs:15, atomic_formula.rs:61
example : value? ((atomicFormula parseName) c!"(= x y)") = some ((AtomicFormula.equality (Name.new c!"x") (Name.new c!"y"))) := by kernel_rfl
-- atomic_formula.rs:15, atomic_formula.rs:61
example : value? ((atomicFormula parseName) c!"(move a b)") = some ((AtomicFormula.predicate (Name.new c!"move") [(Name.new c!"a"), (Name.new c!"b")])) := by kernel_rfl
-- atomic_formula.rs:55
example : isOk ((atomicFormula parseTerm) c!"(can-move ?from-waypoint ?to-waypoint)") = true := by kernel_rfl

/-! ### `/repo/src/parsers/atomic_formula_skeleton.rs` -/
-- atomic_formula_skeleton.rs:12, atomic_formula_skeleton.rs:40, atomic_formula_skeleton.rs:68
example : value? (parseAtomicFormulaSkeleton c!"(at ?x - physob ?y - location)") = some ((Skeleton.mk (Name.new c!"at") [(Typed.mk (Name.new c!"x") (Ty.exactly (Name.new c!"physob"))), (Typed.mk (Name.new c!"y") (Ty.exactly (Name.new c!"location")))])) := by kernel_rfl
-- atomic_formula_skeleton.rs:40, atomic_formula_skeleton.rs:68
example : isOk (parseAtomicFormulaSkeleton c!"(at ?x - physob ?y - location)") = true := by kernel_rfl

/-! ### `/repo/src/parsers/atomic_function_skeleton.rs` -/
-- atomic_function_skeleton.rs:12, atomic_function_skeleton.rs:42, atomic_function_skeleton.rs:68
example : value? (parseAtomicFunctionSkeleton c!"(battery-amount ?r - rover)") = some ((Skeleton.mk (Name.new c!"battery-amount") [(Typed.mk (Name.new c!"r") (Ty.exactly (Name.new c!"rover")))])) := by kernel_rfl
-- atomic_function_skeleton.rs:42, atomic_function_skeleton.rs:68
example : isOk (parseAtomicFunctionSkeleton c!"(battery-amount ?r - rover)") = true := by kernel_rfl

/-! ### `/repo/src/parsers/basic_function_term.rs` -/
-- basic_function_term.rs:14, basic_function_term.rs:49, basic_function_term.rs:74, mod.rs:210, mod.rs:216
example : value? (parseBasicFunctionTerm c!"abcde") = some ((BasicFunctionTerm.mk (Name.new c!"abcde") [])) := by kernel_rfl
-- basic_function_term.rs:14, basic_function_term.rs:49, basic_function_term.rs:74
example : value? (parseBasicFunctionTerm c!"(abcde)") = some ((BasicFunctionTerm.mk (Name.new c!"abcde") [])) := by kernel_rfl
-- basic_function_term.rs:14, basic_function_term.rs:49, basic_function_term.rs:74
example : value? (parseBasicFunctionTerm c!"(abcde x y z)") = some ((BasicFunctionTerm.mk (Name.new c!"abcde") [(Name.new c!"x"), (Name.new c!"y"), (Name.new c!"z")])) := by kernel_rfl
-- basic_function_term.rs:49, basic_function_term.rs:74, mod.rs:210, mod.rs:216
example : isOk (parseBasicFunctionTerm c!"abcde") = true := by kernel_rfl
-- basic_function_term.rs:49, basic_function_term.rs:74
example : isOk (parseBasicFunctionTerm c!"(abcde)") = true := by kernel_rfl
-- basic_function_term.rs:49, basic_function_term.rs:74
example : isOk (parseBasicFunctionTerm c!"(abcde x y z)") = true := by kernel_rfl

/-! ### `/repo/src/parsers/binary_comp.rs` -/
-- binary_comp.rs:13, binary_comp.rs:58
example : value? (parseBinaryComp c!">") = some (BinaryComp.gt) := by kernel_rfl
-- binary_comp.rs:13, binary_comp.rs:58
example : value? (parseBinaryComp c!"<") = some (BinaryComp.lt) := by kernel_rfl
-- binary_comp.rs:13, binary_comp.rs:58
example : value? (parseBinaryComp c!"=") = some (BinaryComp.eq) := by kernel_rfl
-- binary_comp.rs:13, binary_comp.rs:41, binary_comp.rs:58
example : value? (parseBinaryComp c!">=") = some (BinaryComp.ge) := by kernel_rfl
-- binary_comp.rs:13, binary_comp.rs:58
example : value? (parseBinaryComp c!"<=") = some (BinaryComp.le) := by kernel_rfl
-- binary_comp.rs:41, binary_comp.rs:58
example : isOk (parseBinaryComp c!">=") = true := by kernel_rfl
-- binary_comp.rs:58
example : isOk (parseBinaryComp c!">") = true := by kernel_rfl
-- binary_comp.rs:58
example : isOk (parseBinaryComp c!"<=") = true := by kernel_rfl
-- binary_comp.rs:58
example : isOk (parseBinaryComp c!"<") = true := by kernel_rfl
-- binary_comp.rs:58
example : isOk (parseBinaryComp c!"=") = true := by kernel_rfl

/-! ### `/repo/src/parsers/binary_op.rs` -/
-- binary_op.rs:13, binary_op.rs:39, binary_op.rs:56
example : value? (parseBinaryOp c!"*") = some (BinaryOp.mul) := by kernel_rfl
-- binary_op.rs:13, binary_op.rs:56
example : value? (parseBinaryOp c!"+") = some (BinaryOp.add) := by kernel_rfl
-- binary_op.rs:13, binary_op.rs:56
example : value? (parseBinaryOp c!"-") = some (BinaryOp.sub) := by kernel_rfl
-- binary_op.rs:13, binary_op.rs:56
example : value? (parseBinaryOp c!"/") = some (BinaryOp.div) := by kernel_rfl
-- binary_op.rs:39, binary_op.rs:56
example : isOk (parseBinaryOp c!"*") = true := by kernel_rfl
-- binary_op.rs:56
example : isOk (parseBinaryOp c!"/") = true := by kernel_rfl
-- binary_op.rs:56
example : isOk (parseBinaryOp c!"+") = true := by kernel_rfl
-- binary_op.rs:56
example : isOk (parseBinaryOp c!"-") = true := by kernel_rfl

/-! ### `/repo/src/parsers/c_effect.rs` -/
-- c_effect.rs:16
example : value? (parseCEffect c!"(= x y)") = some ((CEffect.effect (PEffect.atomic (AtomicFormula.equality (Term.name (Name.new c!"x")) (Term.name (Name.new c!"y")))))) := by kernel_rfl
-- c_effect.rs:16
example : value? (parseCEffect c!"(not (= ?a B))") = some ((CEffect.effect (PEffect.notAtomic (AtomicFormula.equality (Term.var (Name.new c!"a")) (Term.name (Name.new c!"B")))))) := by kernel_rfl
-- c_effect.rs:16
example : value? (parseCEffect c!"(forall (?a ?b) (= ?a ?b))") = some ((CEffect.forall_ [(typedObject (Name.new c!"a")), (typedObject (Name.new c!"b"))] (single (CEffect.effect (PEffect.atomic (AtomicFormula.equality (Term.var (Name.new c!"a")) (Term.var (Name.new c!"b")))))))) := by kernel_rfl
-- c_effect.rs:16
example : value? (parseCEffect c!"(when\n    (and (has-hot-chocolate ?p ?c) (has-marshmallows ?c))\n    (and (person-is-happy ?p)))") = some ((CEffect.when (GD.and [(GD.atomic (AtomicFormula.predicate (Name.new c!"has-hot-chocolate") [(Term.var (Name.new c!"p")), (Term.var (Name.new c!"c"))])), (GD.atomic (AtomicFormula.predicate (Name.new c!"has-marshmallows") [(Term.var (Name.new c!"c"))]))]) (CondEffect.all [(PEffect.atomic (AtomicFormula.predicate (Name.new c!"person-is-happy") [(Term.var (Name.new c!"p"))]))]))) := by kernel_rfl
-- c_effect.rs:106
example : value? (parseForallCEffect c!"(forall (?a ?b) (= ?a ?b))") = some ((Prod.mk [(typedObject (Name.new c!"a")), (typedObject (Name.new c!"b"))] (single (CEffect.effect (PEffect.atomic (AtomicFormula.equality (Term.var (Name.new c!"a")) (Term.var (Name.new c!"b")))))))) := by kernel_rfl
-- c_effect.rs:143
example : value? (parseWhenCEffect c!"(when\n    (and (has-hot-chocolate ?p ?c) (has-marshmallows ?c))\n    (and (person-is-happy ?p)))") = some ((Prod.mk (GD.and [(GD.atomic (AtomicFormula.predicate (Name.new c!"has-hot-chocolate") [(Term.var (Name.new c!"p")), (Term.var (Name.new c!"c"))])), (GD.atomic (AtomicFormula.predicate (Name.new c!"has-marshmallows") [(Term.var (Name.new c!"c"))]))]) (CondEffect.all [(PEffect.atomic (AtomicFormula.predicate (Name.new c!"person-is-happy") [(Term.var (Name.new c!"p"))]))]))) := by kernel_rfl
-- c_effect.rs:201, c_effect.rs:309
example : isOk (parseCEffect c!"(= x y)") = true := by kernel_rfl
-- c_effect.rs:201, c_effect.rs:309
example : value? (parseCEffect c!"(= x y)") = (do let v1 ← value? (parsePEffect c!"(= x y)"); some ((CEffect.effect v1))) := by kernel_rfl
-- c_effect.rs:201, c_effect.rs:309
example : isOk (parseCEffect c!"(not (= ?a B))") = true := by kernel_rfl
-- c_effect.rs:201, c_effect.rs:309
example : value? (parseCEffect c!"(not (= ?a B))") = (do let v1 ← value? (parsePEffect c!"(not (= ?a B))"); some ((CEffect.effect v1))) := by kernel_rfl
-- c_effect.rs:201, c_effect.rs:309
example : isOk (parseCEffect c!"(forall (?a ?b) (= ?a ?b))") = true := by kernel_rfl
-- c_effect.rs:201, c_effect.rs:309
example : value? (parseCEffect c!"(forall (?a ?b) (= ?a ?b))") = (do let v1 ← value? (parseEffect c!"(= ?a ?b)"); some ((CEffect.forall_ [(typedObject (Name.new c!"a")), (typedObject (Name.new c!"b"))] v1))) := by kernel_rfl
-- c_effect.rs:201
example : isOk (parseCEffect c!"(when\n    (and (has-hot-chocolate ?p ?c) (has-marshmallows ?c))\n    (and (person-is-happy ?p)))") = true := by kernel_rfl
-- c_effect.rs:201
example : value? (parseCEffect c!"(when\n    (and (has-hot-chocolate ?p ?c) (has-marshmallows ?c))\n    (and (person-is-happy ?p)))") = (do let v1 ← value? (parseGd c!"(and (has-hot-chocolate ?p ?c) (has-marshmallows ?c))"); let v2 ← value? (parseCondEffect c!"(and (person-is-happy ?p))"); some ((CEffect.when v1 v2))) := by kernel_rfl
-- c_effect.rs:253, c_effect.rs:349
example : isOk (parseForallCEffect c!"(forall (?a ?b) (= ?a ?b))") = true := by kernel_rfl
-- c_effect.rs:253, c_effect.rs:349
example : value? (parseForallCEffect c!"(forall (?a ?b) (= ?a ?b))") = (do let v1 ← value? (parseEffect c!"(= ?a ?b)"); some ((Prod.mk [(typedObject (Name.new c!"a")), (typedObject (Name.new c!"b"))] v1))) := by kernel_rfl
-- c_effect.rs:280
example : isOk (parseWhenCEffect c!"(when\n    (and (has-hot-chocolate ?p ?c) (has-marshmallows ?c))\n    (and (person-is-happy ?p)))") = true := by kernel_rfl
-- c_effect.rs:280
example : value? (parseWhenCEffect c!"(when\n    (and (has-hot-chocolate ?p ?c) (has-marshmallows ?c))\n    (and (person-is-happy ?p)))") = (do let v1 ← value? (parseGd c!"(and (has-hot-chocolate ?p ?c) (has-marshmallows ?c))"); let v2 ← value? (parseCondEffect c!"(and (person-is-happy ?p))"); some ((Prod.mk v1 v2))) := by kernel_rfl
-- c_effect.rs:309
example : isOk (parseCEffect c!"(when\n            (and (has-hot-chocolate ?p ?c) (has-marshmallows ?c))\n            (and (person-is-happy ?p)))") = true := by kernel_rfl
-- c_effect.rs:309
example : value? (parseCEffect c!"(when\n            (and (has-hot-chocolate ?p ?c) (has-marshmallows ?c))\n            (and (person-is-happy ?p)))") = (do let v1 ← value? (parseGd c!"(and (has-hot-chocolate ?p ?c) (has-marshmallows ?c))"); let v2 ← value? (parseCondEffect c!"(and (person-is-happy ?p))"); some ((CEffect.when v1 v2))) := by kernel_rfl
-- c_effect.rs:364
example : isOk (parseWhenCEffect c!"(when\n            (and (has-hot-chocolate ?p ?c) (has-marshmallows ?c))\n            (and (person-is-happy ?p)))") = true := by kernel_rfl
-- c_effect.rs:364
example : value? (parseWhenCEffect c!"(when\n            (and (has-hot-chocolate ?p ?c) (has-marshmallows ?c))\n            (and (person-is-happy ?p)))") = (do let v1 ← value? (parseGd c!"(and (has-hot-chocolate ?p ?c) (has-marshmallows ?c))"); let v2 ← value? (parseCondEffect c!"(and (person-is-happy ?p))"); some ((Prod.mk v1 v2))) := by kernel_rfl

/-! ### `/repo/src/parsers/comments.rs` -/
-- comments.rs:13
example : isOk (ignoreEolComment c!"; nothing\n\t; and this line\n\tthen more") = true := by kernel_rfl
-- comments.rs:25
example : isOk (ignoreEolComment c!"then more") = true := by kernel_rfl
-- comments.rs:48
example : isOk (ignoreEolComment c!"; nothing") = true := by kernel_rfl
-- comments.rs:48
example : rest? (ignoreEolComment c!"; nothing") = some [] := by kernel_rfl
-- comments.rs:56
example : isOk (ignoreEolComment c!"; nothing\n\r\tlast line") = true := by kernel_rfl

/-! ### `/repo/src/parsers/con_gd.rs` -/
-- con_gd.rs:16
example : value? (parseConGd c!"(and)") = some ((ConGD.and [])) := by kernel_rfl
-- con_gd.rs:16
example : value? (parseConGd c!"(and (at end (= x y)) (at end (not (= x z))))") = some ((ConGD.and [(ConGD.atEnd (GD.atomic (AtomicFormula.equality (Term.name (Name.new c!"x")) (Term.name (Name.new c!"y"))))), (ConGD.atEnd (GD.not (GD.atomic (AtomicFormula.equality (Term.name (Name.new c!"x")) (Term.name (Name.new c!"z"))))))])) := by kernel_rfl
-- con_gd.rs:16
example : value? (parseConGd c!"(forall (?x ?z) (sometime (= ?x ?z)))") = some ((ConGD.forall_ [(Typed.mk (Name.new c!"x") Ty.object), (Typed.mk (Name.new c!"z") Ty.object)] (ConGD.sometime (Con2GD.goal (GD.atomic (AtomicFormula.equality (Term.var (Name.new c!"x")) (Term.var (Name.new c!"z")))))))) := by kernel_rfl
-- con_gd.rs:16
example : value? (parseConGd c!"(at end (= x y))") = some ((ConGD.atEnd (GD.atomic (AtomicFormula.equality (Term.name (Name.new c!"x")) (Term.name (Name.new c!"y")))))) := by kernel_rfl
-- con_gd.rs:16
example : value? (parseConGd c!"(always (= x y))") = some ((ConGD.always (Con2GD.goal (GD.atomic (AtomicFormula.equality (Term.name (Name.new c!"x")) (Term.name (Name.new c!"y"))))))) := by kernel_rfl
-- con_gd.rs:16
example : value? (parseConGd c!"(sometime (= x y))") = some ((ConGD.sometime (Con2GD.goal (GD.atomic (AtomicFormula.equality (Term.name (Name.new c!"x")) (Term.name (Name.new c!"y"))))))) := by kernel_rfl
-- con_gd.rs:16
example : value? (parseConGd c!"(within 10 (= x y))") = some ((ConGD.within (num 0x41200000) (Con2GD.goal (GD.atomic (AtomicFormula.equality (Term.name (Name.new c!"x")) (Term.name (Name.new c!"y"))))))) := by kernel_rfl
-- con_gd.rs:16
example : value? (parseConGd c!"(at-most-once (= x y))") = some ((ConGD.atMostOnce (Con2GD.goal (GD.atomic (AtomicFormula.equality (Term.name (Name.new c!"x")) (Term.name (Name.new c!"y"))))))) := by kernel_rfl
-- con_gd.rs:16
example : value? (parseConGd c!"(sometime-after (= x y) (not (= x z)))") = some ((ConGD.sometimeAfter (Con2GD.goal (GD.atomic (AtomicFormula.equality (Term.name (Name.new c!"x")) (Term.name (Name.new c!"y"))))) (Con2GD.goal (GD.not (GD.atomic (AtomicFormula.equality (Term.name (Name.new c!"x")) (Term.name (Name.new c!"z")))))))) := by kernel_rfl
-- con_gd.rs:16
example : value? (parseConGd c!"(sometime-before (= x y) (not (= x z)))") = some ((ConGD.sometimeBefore (Con2GD.goal (GD.atomic (AtomicFormula.equality (Term.name (Name.new c!"x")) (Term.name (Name.new c!"y"))))) (Con2GD.goal (GD.not (GD.atomic (AtomicFormula.equality (Term.name (Name.new c!"x")) (Term.name (Name.new c!"z")))))))) := by kernel_rfl
-- con_gd.rs:16
example : value? (parseConGd c!"(always-within 10 (= x y) (not (= x z)))") = some ((ConGD.alwaysWithin (num 0x41200000) (Con2GD.goal (GD.atomic (AtomicFormula.equality (Term.name (Name.new c!"x")) (Term.name (Name.new c!"y"))))) (Con2GD.goal (GD.not (GD.atomic (AtomicFormula.equality (Term.name (Name.new c!"x")) (Term.name (Name.new c!"z")))))))) := by kernel_rfl
-- con_gd.rs:16
example : value? (parseConGd c!"(hold-during 10 20 (= x y))") = some ((ConGD.holdDuring (num 0x41200000) (num 0x41a00000) (Con2GD.goal (GD.atomic (AtomicFormula.equality (Term.name (Name.new c!"x")) (Term.name (Name.new c!"y"))))))) := by kernel_rfl
-- con_gd.rs:16
example : value? (parseConGd c!"(hold-after 10 (= x y))") = some ((ConGD.holdAfter (num 0x41200000) (Con2GD.goal (GD.atomic (AtomicFormula.equality (Term.name (Name.new c!"x")) (Term.name (Name.new c!"y"))))))) := by kernel_rfl
-- con_gd.rs:133, con_gd.rs:291
example : value? (parseConGd c!"(within 10 (at-most-once (= x y)))") = some ((ConGD.within (num 0x41200000) (Con2GD.nested (ConGD.atMostOnce (Con2GD.goal (GD.atomic (AtomicFormula.equality (Term.name (Name.new c!"x")) (Term.name (Name.new c!"y"))))))))) := by kernel_rfl
-- con_gd.rs:291
example : value? (parseCon2Gd c!"(within 10 (at-most-once (= x y)))") = some ((Con2GD.nested (ConGD.within (num 0x41200000) (Con2GD.nested (ConGD.atMostOnce (Con2GD.goal (GD.atomic (AtomicFormula.equality (Term.name (Name.new c!"x")) (Term.name (Name.new c!"y")))))))))) := by kernel_rfl

/-! ### `/repo/src/parsers/cond_effect.rs` -/
-- cond_effect.rs:13, cond_effect.rs:68
example : value? (parseCondEffect c!"(= x y)") = some ((CondEffect.single (PEffect.atomic (AtomicFormula.equality (Term.name (Name.new c!"x")) (Term.name (Name.new c!"y")))))) := by kernel_rfl
-- cond_effect.rs:13, cond_effect.rs:68
example : value? (parseCondEffect c!"(and (= x y) (not (= ?a B)))") = some ((CondEffect.all [(PEffect.atomic (AtomicFormula.equality (Term.name (Name.new c!"x")) (Term.name (Name.new c!"y")))), (PEffect.notAtomic (AtomicFormula.equality (Term.var (Name.new c!"a")) (Term.name (Name.new c!"B"))))])) := by kernel_rfl

/-! ### `/repo/src/parsers/constants_def.rs` -/
-- constants_def.rs:11, constants_def.rs:43
example : value? (parseConstantsDef c!"(:constants B P D - physob)") = some ([(Typed.mk (Name.new c!"B") (Ty.exactly (Name.new c!"physob"))), (Typed.mk (Name.new c!"P") (Ty.exactly (Name.new c!"physob"))), (Typed.mk (Name.new c!"D") (Ty.exactly (Name.new c!"physob")))]) := by kernel_rfl

/-! ### `/repo/src/parsers/d_op.rs` -/
-- d_op.rs:13, d_op.rs:38, d_op.rs:59
example : value? (parseDOp c!"<=") = some (DOp.le) := by kernel_rfl
-- d_op.rs:13, d_op.rs:59
example : value? (parseDOp c!">=") = some (DOp.ge) := by kernel_rfl
-- d_op.rs:13, d_op.rs:59
example : value? (parseDOp c!"=") = some (DOp.eq) := by kernel_rfl
-- d_op.rs:38
example : isOk (parseDOp c!"<=") = true := by kernel_rfl

/-! ### `/repo/src/parsers/d_value.rs` -/
-- d_value.rs:13, d_value.rs:49
example : value? (parseDValue c!"1.23") = some ((DurationValue.number (num 0x3f9d70a4))) := by kernel_rfl
-- d_value.rs:13, d_value.rs:49
example : value? (parseDValue c!"fun-sym") = some ((DurationValue.fExp (FExp.function (FHead.simple (Name.new c!"fun-sym"))))) := by kernel_rfl

/-! ### `/repo/src/parsers/da_def.rs` -/
-- da_def.rs:16
example : isOk (parseDaDef c!"(:durative-action move\n        :parameters\n            (?r - rover\n             ?fromwp - waypoint\n             ?towp - waypoint)\n\n        :duration\n            (= ?duration 5)\n\n        :condition\n            (and\n                (at start (rover ?rover))\n                (at start (waypoint ?from-waypoint))\n                (at start (waypoint ?to-waypoint))\n                (over all (can-move ?from-waypoint ?to-waypoint))\n                (at start (at ?rover ?from-waypoint))\n                (at start (> (battery-amount ?rover) 8)))\n\n        :effect\n            (and\n                (decrease (fuel-level ?t) (* 2 #t))\n                (at end (at ?rover ?to-waypoint))\n                (at end (been-at ?rover ?to-waypoint))\n                (at start (not (at ?rover ?from-waypoint)))\n                (at start (decrease (battery-amount ?rover) 8))\n                (at end (increase (distance-travelled) 5))\n                )\n    )") = true := by kernel_rfl
-- da_def.rs:16
example : (do let v1 ← value? (parseDaDef c!"(:durative-action move\n        :parameters\n            (?r - rover\n             ?fromwp - waypoint\n             ?towp - waypoint)\n\n        :duration\n            (= ?duration 5)\n\n        :condition\n            (and\n                (at start (rover ?rover))\n                (at start (waypoint ?from-waypoint))\n                (at start (waypoint ?to-waypoint))\n                (over all (can-move ?from-waypoint ?to-waypoint))\n                (at start (at ?rover ?from-waypoint))\n                (at start (> (battery-amount ?rover) 8)))\n\n        :effect\n            (and\n                (decrease (fuel-level ?t) (* 2 #t))\n                (at end (at ?rover ?to-waypoint))\n                (at end (been-at ?rover ?to-waypoint))\n                (at start (not (at ?rover ?from-waypoint)))\n                (at start (decrease (battery-amount ?rover) 8))\n                (at end (increase (distance-travelled) 5))\n                )\n    )"); some ((v1).symbol)) = some (Name.new c!"move") := by kernel_rfl
-- da_def.rs:16
example : (do let v1 ← value? (parseDaDef c!"(:durative-action move\n        :parameters\n            (?r - rover\n             ?fromwp - waypoint\n             ?towp - waypoint)\n\n        :duration\n            (= ?duration 5)\n\n        :condition\n            (and\n                (at start (rover ?rover))\n                (at start (waypoint ?from-waypoint))\n                (at start (waypoint ?to-waypoint))\n                (over all (can-move ?from-waypoint ?to-waypoint))\n                (at start (at ?rover ?from-waypoint))\n                (at start (> (battery-amount ?rover) 8)))\n\n        :effect\n            (and\n                (decrease (fuel-level ?t) (* 2 #t))\n                (at end (at ?rover ?to-waypoint))\n                (at end (been-at ?rover ?to-waypoint))\n                (at start (not (at ?rover ?from-waypoint)))\n                (at start (decrease (battery-amount ?rover) 8))\n                (at end (increase (distance-travelled) 5))\n                )\n    )"); some (((v1).parameters).length)) = some 3 := by kernel_rfl
-- da_def.rs:16
example : (do let v1 ← value? (parseDaDef c!"(:durative-action move\n        :parameters\n            (?r - rover\n             ?fromwp - waypoint\n             ?towp - waypoint)\n\n        :duration\n            (= ?duration 5)\n\n        :condition\n            (and\n                (at start (rover ?rover))\n                (at start (waypoint ?from-waypoint))\n                (at start (waypoint ?to-waypoint))\n                (over all (can-move ?from-waypoint ?to-waypoint))\n                (at start (at ?rover ?from-waypoint))\n                (at start (> (battery-amount ?rover) 8)))\n\n        :effect\n            (and\n                (decrease (fuel-level ?t) (* 2 #t))\n                (at end (at ?rover ?to-waypoint))\n                (at end (been-at ?rover ?to-waypoint))\n                (at start (not (at ?rover ?from-waypoint)))\n                (at start (decrease (battery-amount ?rover) 8))\n                (at end (increase (distance-travelled) 5))\n                )\n    )"); some (((v1).duration).isSome)) = some true := by kernel_rfl
-- da_def.rs:16
example : (do let v1 ← value? (parseDaDef c!"(:durative-action move\n        :parameters\n            (?r - rover\n             ?fromwp - waypoint\n             ?towp - waypoint)\n\n        :duration\n            (= ?duration 5)\n\n        :condition\n            (and\n                (at start (rover ?rover))\n                (at start (waypoint ?from-waypoint))\n                (at start (waypoint ?to-waypoint))\n                (over all (can-move ?from-waypoint ?to-waypoint))\n                (at start (at ?rover ?from-waypoint))\n                (at start (> (battery-amount ?rover) 8)))\n\n        :effect\n            (and\n                (decrease (fuel-level ?t) (* 2 #t))\n                (at end (at ?rover ?to-waypoint))\n                (at end (been-at ?rover ?to-waypoint))\n                (at start (not (at ?rover ?from-waypoint)))\n                (at start (decrease (battery-amount ?rover) 8))\n                (at end (increase (distance-travelled) 5))\n                )\n    )"); some (((v1).condition).isSome)) = some true := by kernel_rfl
-- da_def.rs:16
example : (do let v1 ← value? (parseDaDef c!"(:durative-action move\n        :parameters\n            (?r - rover\n             ?fromwp - waypoint\n             ?towp - waypoint)\n\n        :duration\n            (= ?duration 5)\n\n        :condition\n            (and\n                (at start (rover ?rover))\n                (at start (waypoint ?from-waypoint))\n                (at start (waypoint ?to-waypoint))\n                (over all (can-move ?from-waypoint ?to-waypoint))\n                (at start (at ?rover ?from-waypoint))\n                (at start (> (battery-amount ?rover) 8)))\n\n        :effect\n            (and\n                (decrease (fuel-level ?t) (* 2 #t))\n                (at end (at ?rover ?to-waypoint))\n                (at end (been-at ?rover ?to-waypoint))\n                (at start (not (at ?rover ?from-waypoint)))\n                (at start (decrease (battery-amount ?rover) 8))\n                (at end (increase (distance-travelled) 5))\n                )\n    )"); some (((v1).effect).isSome)) = some true := by kernel_rfl
-- da_def.rs:108
example : isOk (parseDaDef c!"(:durative-action move\n                :parameters\n                    (?r - rover\n                     ?fromwp - waypoint\n                     ?towp - waypoint)\n\n                :duration\n                    (= ?duration 5)\n\n                :condition\n                    (and\n                        (at start (rover ?rover))\n                        (at start (waypoint ?from-waypoint))\n                        (at start (waypoint ?to-waypoint))\n                        (over all (can-move ?from-waypoint ?to-waypoint))\n                        (at start (at ?rover ?from-waypoint))\n                        (at start (> (battery-amount ?rover) 8)))\n\n                :effect\n                    (and\n                        (decrease (fuel-level ?t) (* 2 #t))\n                        (at end (at ?rover ?to-waypoint))\n                        (at end (been-at ?rover ?to-waypoint))\n                        (at start (not (at ?rover ?from-waypoint)))\n                        (at start (decrease (battery-amount ?rover) 8))\n                        (at end (increase (distance-travelled) 5))\n                        )\n            )") = true := by kernel_rfl

/-! ### `/repo/src/parsers/da_effect.rs` -/
-- da_effect.rs:14, da_effect.rs:157
example : value? (parseDaEffect c!"(at start (= x y))") = some ((DaEffect.timed (TimedEffect.conditional TimeSpecifier.start (CondEffect.single (PEffect.atomic (AtomicFormula.equality (Term.name (Name.new c!"x")) (Term.name (Name.new c!"y")))))))) := by kernel_rfl
-- da_effect.rs:14, da_effect.rs:169
example : value? (parseDaEffect c!"(and )") = some ((DaEffect.all [])) := by kernel_rfl
-- da_effect.rs:14, da_effect.rs:174
example : value? (parseDaEffect c!"(and (at start (= x y)) (and ))") = some ((DaEffect.all [(DaEffect.timed (TimedEffect.conditional TimeSpecifier.start (CondEffect.single (PEffect.atomic (AtomicFormula.equality (Term.name (Name.new c!"x")) (Term.name (Name.new c!"y"))))))), (DaEffect.all [])])) := by kernel_rfl
-- da_effect.rs:14, da_effect.rs:194
example : value? (parseDaEffect c!"(forall (?a ?b) (at start (= a b)))") = some ((DaEffect.forall_ [(typedObject (Name.new c!"a")), (typedObject (Name.new c!"b"))] (DaEffect.timed (TimedEffect.conditional TimeSpecifier.start (CondEffect.single (PEffect.atomic (AtomicFormula.equality (Term.name (Name.new c!"a")) (Term.name (Name.new c!"b"))))))))) := by kernel_rfl
-- da_effect.rs:129, da_effect.rs:143
example : isOk (parseDaEffect c!"(and\n                (decrease (fuel-level ?t) (* 2 #t))\n                (at end (at ?rover ?to-waypoint))\n                (at end (been-at ?rover ?to-waypoint))\n                (at start (not (at ?rover ?from-waypoint)))\n                (at start (decrease (battery-amount ?rover) 8))\n                (at end (increase (distance-travelled) 5))\n                )") = true := by kernel_rfl

/-! ### `/repo/src/parsers/da_gd.rs` -/
-- da_gd.rs:14, da_gd.rs:141
example : value? (parseDaGd c!"(at start (= x y))") = some ((DaGD.timed (PrefTimedGD.required (TimedGD.at TimeSpecifier.start (GD.atomic (AtomicFormula.equality (Term.name (Name.new c!"x")) (Term.name (Name.new c!"y")))))))) := by kernel_rfl
-- da_gd.rs:14, da_gd.rs:156
example : value? (parseDaGd c!"(and )") = some ((DaGD.and [])) := by kernel_rfl
-- da_gd.rs:14, da_gd.rs:162
example : value? (parseDaGd c!"(and (at start (= x y)) (over all (= a b)))") = some ((DaGD.and [(DaGD.timed (PrefTimedGD.required (TimedGD.at TimeSpecifier.start (GD.atomic (AtomicFormula.equality (Term.name (Name.new c!"x")) (Term.name (Name.new c!"y"))))))), (DaGD.timed (PrefTimedGD.required (TimedGD.over Interval.all (GD.atomic (AtomicFormula.equality (Term.name (Name.new c!"a")) (Term.name (Name.new c!"b")))))))])) := by kernel_rfl
-- da_gd.rs:14, da_gd.rs:185
example : value? (parseDaGd c!"(forall (?a ?b) (at start (= a b)))") = some ((DaGD.forall_ [(typedObject (Name.new c!"a")), (typedObject (Name.new c!"b"))] (DaGD.timed (PrefTimedGD.required (TimedGD.at TimeSpecifier.start (GD.atomic (AtomicFormula.equality (Term.name (Name.new c!"a")) (Term.name (Name.new c!"b"))))))))) := by kernel_rfl
-- da_gd.rs:129
example : isOk (parseDaGd c!"(and\n                (at start (rover ?rover))\n                (at start (waypoint ?from-waypoint))\n                (at start (waypoint ?to-waypoint))\n                (over all (can-move ?from-waypoint ?to-waypoint))\n                (at start (at ?rover ?from-waypoint))\n                (at start (> (battery-amount ?rover) 8)))") = true := by kernel_rfl

/-! ### `/repo/src/parsers/da_symbol.rs` -/
-- da_symbol.rs:10, da_symbol.rs:24, da_symbol.rs:41
example : value? (parseDaSymbol c!"abcde") = some ((Name.new c!"abcde")) := by kernel_rfl
-- da_symbol.rs:24, da_symbol.rs:41
example : isOk (parseDaSymbol c!"abcde") = true := by kernel_rfl

/-! ### `/repo/src/parsers/derived_predicate.rs` -/
-- derived_predicate.rs:14
example : isOk (parseDerivedPredicate c!"(:derived (train-usable ?t - train)\n                    (and\n                        (train-has-guard ?t)\n                        (train-has-driver ?t)\n                    )\n                )") = true := by kernel_rfl
-- derived_predicate.rs:14
example : (do let v1 ← value? (parseDerivedPredicate c!"(:derived (train-usable ?t - train)\n                    (and\n                        (train-has-guard ?t)\n                        (train-has-driver ?t)\n                    )\n                )"); some (((v1).predicate).symbol)) = some (Name.new c!"train-usable") := by kernel_rfl
-- derived_predicate.rs:56
example : isOk (parseDerivedPredicate c!"(:derived (train-usable ?t - train)\n                            (and\n                                (train-has-guard ?t)\n                                (train-has-driver ?t)\n                            )\n                        )") = true := by kernel_rfl
-- derived_predicate.rs:56
example : (do let v1 ← value? (parseDerivedPredicate c!"(:derived (train-usable ?t - train)\n                            (and\n                                (train-has-guard ?t)\n                                (train-has-driver ?t)\n                            )\n                        )"); some (((v1).predicate).symbol)) = some (Name.new c!"train-usable") := by kernel_rfl

/-! ### `/repo/src/parsers/domain.rs` -/
-- domain.rs:20
example : isOk (parseDomain c!"(define (domain briefcase-world)\n      (:requirements :strips :equality :typing :conditional-effects)\n      (:types location physob)\n      (:constants B P D - physob)\n      (:predicates (at ?x - physob ?y - location)\n                   (in ?x ?y - physob))\n      (:constraints (and))\n\n      (:action mov-B\n           :parameters (?m ?l - location)\n           :precondition (and (at B ?m) (not (= ?m ?l)))\n           :effect (and (at B ?l) (not (at B ?m))\n                        (forall (?z)\n                            (when (and (in ?z) (not (= ?z B)))\n                                  (and (at ?z ?l) (not (at ?z ?m)))))) )\n\n      (:action put-in\n           :parameters (?x - physob ?l - location)\n           :precondition (not (= ?x B))\n           :effect (when (and (at ?x ?l) (at B ?l))\n                 (in ?x)) )\n\n      (:action take-out\n           :parameters (?x - physob)\n           :precondition (not (= ?x B))\n           :effect (not (in ?x)) )\n    )") = true := by kernel_rfl
-- domain.rs:20
example : rest? (parseDomain c!"(define (domain briefcase-world)\n      (:requirements :strips :equality :typing :conditional-effects)\n      (:types location physob)\n      (:constants B P D - physob)\n      (:predicates (at ?x - physob ?y - location)\n                   (in ?x ?y - physob))\n      (:constraints (and))\n\n      (:action mov-B\n           :parameters (?m ?l - location)\n           :precondition (and (at B ?m) (not (= ?m ?l)))\n           :effect (and (at B ?l) (not (at B ?m))\n                        (forall (?z)\n                            (when (and (in ?z) (not (= ?z B)))\n                                  (and (at ?z ?l) (not (at ?z ?m)))))) )\n\n      (:action put-in\n           :parameters (?x - physob ?l - location)\n           :precondition (not (= ?x B))\n           :effect (when (and (at ?x ?l) (at B ?l))\n                 (in ?x)) )\n\n      (:action take-out\n           :parameters (?x - physob)\n           :precondition (not (= ?x B))\n           :effect (not (in ?x)) )\n    )") = some [] := by kernel_rfl
-- domain.rs:20
example : (do let v1 ← value? (parseDomain c!"(define (domain briefcase-world)\n      (:requirements :strips :equality :typing :conditional-effects)\n      (:types location physob)\n      (:constants B P D - physob)\n      (:predicates (at ?x - physob ?y - location)\n                   (in ?x ?y - physob))\n      (:constraints (and))\n\n      (:action mov-B\n           :parameters (?m ?l - location)\n           :precondition (and (at B ?m) (not (= ?m ?l)))\n           :effect (and (at B ?l) (not (at B ?m))\n                        (forall (?z)\n                            (when (and (in ?z) (not (= ?z B)))\n                                  (and (at ?z ?l) (not (at ?z ?m)))))) )\n\n      (:action put-in\n           :parameters (?x - physob ?l - location)\n           :precondition (not (= ?x B))\n           :effect (when (and (at ?x ?l) (at B ?l))\n                 (in ?x)) )\n\n      (:action take-out\n           :parameters (?x - physob)\n           :precondition (not (= ?x B))\n           :effect (not (in ?x)) )\n    )"); some ((v1).name)) = some (Name.new c!"briefcase-world") := by kernel_rfl
-- domain.rs:20
example : (do let v1 ← value? (parseDomain c!"(define (domain briefcase-world)\n      (:requirements :strips :equality :typing :conditional-effects)\n      (:types location physob)\n      (:constants B P D - physob)\n      (:predicates (at ?x - physob ?y - location)\n                   (in ?x ?y - physob))\n      (:constraints (and))\n\n      (:action mov-B\n           :parameters (?m ?l - location)\n           :precondition (and (at B ?m) (not (= ?m ?l)))\n           :effect (and (at B ?l) (not (at B ?m))\n                        (forall (?z)\n                            (when (and (in ?z) (not (= ?z B)))\n                                  (and (at ?z ?l) (not (at ?z ?m)))))) )\n\n      (:action put-in\n           :parameters (?x - physob ?l - location)\n           :precondition (not (= ?x B))\n           :effect (when (and (at ?x ?l) (at B ?l))\n                 (in ?x)) )\n\n      (:action take-out\n           :parameters (?x - physob)\n           :precondition (not (= ?x B))\n           :effect (not (in ?x)) )\n    )"); some (((v1).requirements).length)) = some 4 := by kernel_rfl
-- domain.rs:20
example : (do let v1 ← value? (parseDomain c!"(define (domain briefcase-world)\n      (:requirements :strips :equality :typing :conditional-effects)\n      (:types location physob)\n      (:constants B P D - physob)\n      (:predicates (at ?x - physob ?y - location)\n                   (in ?x ?y - physob))\n      (:constraints (and))\n\n      (:action mov-B\n           :parameters (?m ?l - location)\n           :precondition (and (at B ?m) (not (= ?m ?l)))\n           :effect (and (at B ?l) (not (at B ?m))\n                        (forall (?z)\n                            (when (and (in ?z) (not (= ?z B)))\n                                  (and (at ?z ?l) (not (at ?z ?m)))))) )\n\n      (:action put-in\n           :parameters (?x - physob ?l - location)\n           :precondition (not (= ?x B))\n           :effect (when (and (at ?x ?l) (at B ?l))\n                 (in ?x)) )\n\n      (:action take-out\n           :parameters (?x - physob)\n           :precondition (not (= ?x B))\n           :effect (not (in ?x)) )\n    )"); some (((v1).types).length)) = some 2 := by kernel_rfl
-- domain.rs:20
example : (do let v1 ← value? (parseDomain c!"(define (domain briefcase-world)\n      (:requirements :strips :equality :typing :conditional-effects)\n      (:types location physob)\n      (:constants B P D - physob)\n      (:predicates (at ?x - physob ?y - location)\n                   (in ?x ?y - physob))\n      (:constraints (and))\n\n      (:action mov-B\n           :parameters (?m ?l - location)\n           :precondition (and (at B ?m) (not (= ?m ?l)))\n           :effect (and (at B ?l) (not (at B ?m))\n                        (forall (?z)\n                            (when (and (in ?z) (not (= ?z B)))\n                                  (and (at ?z ?l) (not (at ?z ?m)))))) )\n\n      (:action put-in\n           :parameters (?x - physob ?l - location)\n           :precondition (not (= ?x B))\n           :effect (when (and (at ?x ?l) (at B ?l))\n                 (in ?x)) )\n\n      (:action take-out\n           :parameters (?x - physob)\n           :precondition (not (= ?x B))\n           :effect (not (in ?x)) )\n    )"); some (((v1).constants).length)) = some 3 := by kernel_rfl
-- domain.rs:20
example : (do let v1 ← value? (parseDomain c!"(define (domain briefcase-world)\n      (:requirements :strips :equality :typing :conditional-effects)\n      (:types location physob)\n      (:constants B P D - physob)\n      (:predicates (at ?x - physob ?y - location)\n                   (in ?x ?y - physob))\n      (:constraints (and))\n\n      (:action mov-B\n           :parameters (?m ?l - location)\n           :precondition (and (at B ?m) (not (= ?m ?l)))\n           :effect (and (at B ?l) (not (at B ?m))\n                        (forall (?z)\n                            (when (and (in ?z) (not (= ?z B)))\n                                  (and (at ?z ?l) (not (at ?z ?m)))))) )\n\n      (:action put-in\n           :parameters (?x - physob ?l - location)\n           :precondition (not (= ?x B))\n           :effect (when (and (at ?x ?l) (at B ?l))\n                 (in ?x)) )\n\n      (:action take-out\n           :parameters (?x - physob)\n           :precondition (not (= ?x B))\n           :effect (not (in ?x)) )\n    )"); some (((v1).predicates).length)) = some 2 := by kernel_rfl
-- domain.rs:20
example : (do let v1 ← value? (parseDomain c!"(define (domain briefcase-world)\n      (:requirements :strips :equality :typing :conditional-effects)\n      (:types location physob)\n      (:constants B P D - physob)\n      (:predicates (at ?x - physob ?y - location)\n                   (in ?x ?y - physob))\n      (:constraints (and))\n\n      (:action mov-B\n           :parameters (?m ?l - location)\n           :precondition (and (at B ?m) (not (= ?m ?l)))\n           :effect (and (at B ?l) (not (at B ?m))\n                        (forall (?z)\n                            (when (and (in ?z) (not (= ?z B)))\n                                  (and (at ?z ?l) (not (at ?z ?m)))))) )\n\n      (:action put-in\n           :parameters (?x - physob ?l - location)\n           :precondition (not (= ?x B))\n           :effect (when (and (at ?x ?l) (at B ?l))\n                 (in ?x)) )\n\n      (:action take-out\n           :parameters (?x - physob)\n           :precondition (not (= ?x B))\n           :effect (not (in ?x)) )\n    )"); some (((v1).constraints).isEmpty)) = some true := by kernel_rfl
-- domain.rs:20
example : (do let v1 ← value? (parseDomain c!"(define (domain briefcase-world)\n      (:requirements :strips :equality :typing :conditional-effects)\n      (:types location physob)\n      (:constants B P D - physob)\n      (:predicates (at ?x - physob ?y - location)\n                   (in ?x ?y - physob))\n      (:constraints (and))\n\n      (:action mov-B\n           :parameters (?m ?l - location)\n           :precondition (and (at B ?m) (not (= ?m ?l)))\n           :effect (and (at B ?l) (not (at B ?m))\n                        (forall (?z)\n                            (when (and (in ?z) (not (= ?z B)))\n                                  (and (at ?z ?l) (not (at ?z ?m)))))) )\n\n      (:action put-in\n           :parameters (?x - physob ?l - location)\n           :precondition (not (= ?x B))\n           :effect (when (and (at ?x ?l) (at B ?l))\n                 (in ?x)) )\n\n      (:action take-out\n           :parameters (?x - physob)\n           :precondition (not (= ?x B))\n           :effect (not (in ?x)) )\n    )"); some (((v1).structure_).length)) = some 3 := by kernel_rfl
-- domain.rs:119
example : isOk (parseDomain c!"\n ; A toy domain.\n (define (domain briefcase-world)\n      ; If no requirements are provided, :strips is implied.\n      (:requirements :strips :equality :typing :conditional-effects)\n      (:types location physob) ; type definitions could also be represented as predicates\n      (:constants B P D - physob)\n      (:predicates (at ?x - physob ?y - location)\n                   (in ?x ?y - physob))\n      (:constraints (and))\n\n      ; Move briefcase from one location to another.\n      (:action mov-B\n           :parameters (?m ?l - location)\n           :precondition (and (at B ?m) (not (= ?m ?l)))\n           :effect (and (at B ?l) (not (at B ?m))\n                        (forall (?z)\n                            (when (and (in ?z) (not (= ?z B)))\n                                  (and (at ?z ?l) (not (at ?z ?m)))))) )\n\n      ; Put the item in the briefcase if it is not already in there.\n      (:action put-in\n           :parameters (?x - physob ?l - location)\n           :precondition (not (= ?x B))\n           :effect (when (and (at ?x ?l) (at B ?l))\n                 (in ?x)) )\n\n      ; Take the item out of the briefcase if it is in there.\n      (:action take-out\n           :parameters (?x - physob)\n           :precondition (not (= ?x B))\n           :effect (not (in ?x)) )\n    )") = true := by kernel_rfl
-- domain.rs:119
example : (do let v1 ← value? (parseDomain c!"\n ; A toy domain.\n (define (domain briefcase-world)\n      ; If no requirements are provided, :strips is implied.\n      (:requirements :strips :equality :typing :conditional-effects)\n      (:types location physob) ; type definitions could also be represented as predicates\n      (:constants B P D - physob)\n      (:predicates (at ?x - physob ?y - location)\n                   (in ?x ?y - physob))\n      (:constraints (and))\n\n      ; Move briefcase from one location to another.\n      (:action mov-B\n           :parameters (?m ?l - location)\n           :precondition (and (at B ?m) (not (= ?m ?l)))\n           :effect (and (at B ?l) (not (at B ?m))\n                        (forall (?z)\n                            (when (and (in ?z) (not (= ?z B)))\n                                  (and (at ?z ?l) (not (at ?z ?m)))))) )\n\n      ; Put the item in the briefcase if it is not already in there.\n      (:action put-in\n           :parameters (?x - physob ?l - location)\n           :precondition (not (= ?x B))\n           :effect (when (and (at ?x ?l) (at B ?l))\n                 (in ?x)) )\n\n      ; Take the item out of the briefcase if it is in there.\n      (:action take-out\n           :parameters (?x - physob)\n           :precondition (not (= ?x B))\n           :effect (not (in ?x)) )\n    )"); some ((v1).name)) = some (Name.new c!"briefcase-world") := by kernel_rfl
-- domain.rs:119
example : (do let v1 ← value? (parseDomain c!"\n ; A toy domain.\n (define (domain briefcase-world)\n      ; If no requirements are provided, :strips is implied.\n      (:requirements :strips :equality :typing :conditional-effects)\n      (:types location physob) ; type definitions could also be represented as predicates\n      (:constants B P D - physob)\n      (:predicates (at ?x - physob ?y - location)\n                   (in ?x ?y - physob))\n      (:constraints (and))\n\n      ; Move briefcase from one location to another.\n      (:action mov-B\n           :parameters (?m ?l - location)\n           :precondition (and (at B ?m) (not (= ?m ?l)))\n           :effect (and (at B ?l) (not (at B ?m))\n                        (forall (?z)\n                            (when (and (in ?z) (not (= ?z B)))\n                                  (and (at ?z ?l) (not (at ?z ?m)))))) )\n\n      ; Put the item in the briefcase if it is not already in there.\n      (:action put-in\n           :parameters (?x - physob ?l - location)\n           :precondition (not (= ?x B))\n           :effect (when (and (at ?x ?l) (at B ?l))\n                 (in ?x)) )\n\n      ; Take the item out of the briefcase if it is in there.\n      (:action take-out\n           :parameters (?x - physob)\n           :precondition (not (= ?x B))\n           :effect (not (in ?x)) )\n    )"); some (((v1).requirements).length)) = some 4 := by kernel_rfl
-- domain.rs:119
example : (do let v1 ← value? (parseDomain c!"\n ; A toy domain.\n (define (domain briefcase-world)\n      ; If no requirements are provided, :strips is implied.\n      (:requirements :strips :equality :typing :conditional-effects)\n      (:types location physob) ; type definitions could also be represented as predicates\n      (:constants B P D - physob)\n      (:predicates (at ?x - physob ?y - location)\n                   (in ?x ?y - physob))\n      (:constraints (and))\n\n      ; Move briefcase from one location to another.\n      (:action mov-B\n           :parameters (?m ?l - location)\n           :precondition (and (at B ?m) (not (= ?m ?l)))\n           :effect (and (at B ?l) (not (at B ?m))\n                        (forall (?z)\n                            (when (and (in ?z) (not (= ?z B)))\n                                  (and (at ?z ?l) (not (at ?z ?m)))))) )\n\n      ; Put the item in the briefcase if it is not already in there.\n      (:action put-in\n           :parameters (?x - physob ?l - location)\n           :precondition (not (= ?x B))\n           :effect (when (and (at ?x ?l) (at B ?l))\n                 (in ?x)) )\n\n      ; Take the item out of the briefcase if it is in there.\n      (:action take-out\n           :parameters (?x - physob)\n           :precondition (not (= ?x B))\n           :effect (not (in ?x)) )\n    )"); some (((v1).types).length)) = some 2 := by kernel_rfl
-- domain.rs:119
example : (do let v1 ← value? (parseDomain c!"\n ; A toy domain.\n (define (domain briefcase-world)\n      ; If no requirements are provided, :strips is implied.\n      (:requirements :strips :equality :typing :conditional-effects)\n      (:types location physob) ; type definitions could also be represented as predicates\n      (:constants B P D - physob)\n      (:predicates (at ?x - physob ?y - location)\n                   (in ?x ?y - physob))\n      (:constraints (and))\n\n      ; Move briefcase from one location to another.\n      (:action mov-B\n           :parameters (?m ?l - location)\n           :precondition (and (at B ?m) (not (= ?m ?l)))\n           :effect (and (at B ?l) (not (at B ?m))\n                        (forall (?z)\n                            (when (and (in ?z) (not (= ?z B)))\n                                  (and (at ?z ?l) (not (at ?z ?m)))))) )\n\n      ; Put the item in the briefcase if it is not already in there.\n      (:action put-in\n           :parameters (?x - physob ?l - location)\n           :precondition (not (= ?x B))\n           :effect (when (and (at ?x ?l) (at B ?l))\n                 (in ?x)) )\n\n      ; Take the item out of the briefcase if it is in there.\n      (:action take-out\n           :parameters (?x - physob)\n           :precondition (not (= ?x B))\n           :effect (not (in ?x)) )\n    )"); some (((v1).constants).length)) = some 3 := by kernel_rfl
-- domain.rs:119
example : (do let v1 ← value? (parseDomain c!"\n ; A toy domain.\n (define (domain briefcase-world)\n      ; If no requirements are provided, :strips is implied.\n      (:requirements :strips :equality :typing :conditional-effects)\n      (:types location physob) ; type definitions could also be represented as predicates\n      (:constants B P D - physob)\n      (:predicates (at ?x - physob ?y - location)\n                   (in ?x ?y - physob))\n      (:constraints (and))\n\n      ; Move briefcase from one location to another.\n      (:action mov-B\n           :parameters (?m ?l - location)\n           :precondition (and (at B ?m) (not (= ?m ?l)))\n           :effect (and (at B ?l) (not (at B ?m))\n                        (forall (?z)\n                            (when (and (in ?z) (not (= ?z B)))\n                                  (and (at ?z ?l) (not (at ?z ?m)))))) )\n\n      ; Put the item in the briefcase if it is not already in there.\n      (:action put-in\n           :parameters (?x - physob ?l - location)\n           :precondition (not (= ?x B))\n           :effect (when (and (at ?x ?l) (at B ?l))\n                 (in ?x)) )\n\n      ; Take the item out of the briefcase if it is in there.\n      (:action take-out\n           :parameters (?x - physob)\n           :precondition (not (= ?x B))\n           :effect (not (in ?x)) )\n    )"); some (((v1).predicates).length)) = some 2 := by kernel_rfl
-- domain.rs:119
example : (do let v1 ← value? (parseDomain c!"\n ; A toy domain.\n (define (domain briefcase-world)\n      ; If no requirements are provided, :strips is implied.\n      (:requirements :strips :equality :typing :conditional-effects)\n      (:types location physob) ; type definitions could also be represented as predicates\n      (:constants B P D - physob)\n      (:predicates (at ?x - physob ?y - location)\n                   (in ?x ?y - physob))\n      (:constraints (and))\n\n      ; Move briefcase from one location to another.\n      (:action mov-B\n           :parameters (?m ?l - location)\n           :precondition (and (at B ?m) (not (= ?m ?l)))\n           :effect (and (at B ?l) (not (at B ?m))\n                        (forall (?z)\n                            (when (and (in ?z) (not (= ?z B)))\n                                  (and (at ?z ?l) (not (at ?z ?m)))))) )\n\n      ; Put the item in the briefcase if it is not already in there.\n      (:action put-in\n           :parameters (?x - physob ?l - location)\n           :precondition (not (= ?x B))\n           :effect (when (and (at ?x ?l) (at B ?l))\n                 (in ?x)) )\n\n      ; Take the item out of the briefcase if it is in there.\n      (:action take-out\n           :parameters (?x - physob)\n           :precondition (not (= ?x B))\n           :effect (not (in ?x)) )\n    )"); some (((v1).constraints).isEmpty)) = some true := by kernel_rfl
-- domain.rs:119
example : (do let v1 ← value? (parseDomain c!"\n ; A toy domain.\n (define (domain briefcase-world)\n      ; If no requirements are provided, :strips is implied.\n      (:requirements :strips :equality :typing :conditional-effects)\n      (:types location physob) ; type definitions could also be represented as predicates\n      (:constants B P D - physob)\n      (:predicates (at ?x - physob ?y - location)\n                   (in ?x ?y - physob))\n      (:constraints (and))\n\n      ; Move briefcase from one location to another.\n      (:action mov-B\n           :parameters (?m ?l - location)\n           :precondition (and (at B ?m) (not (= ?m ?l)))\n           :effect (and (at B ?l) (not (at B ?m))\n                        (forall (?z)\n                            (when (and (in ?z) (not (= ?z B)))\n                                  (and (at ?z ?l) (not (at ?z ?m)))))) )\n\n      ; Put the item in the briefcase if it is not already in there.\n      (:action put-in\n           :parameters (?x - physob ?l - location)\n           :precondition (not (= ?x B))\n           :effect (when (and (at ?x ?l) (at B ?l))\n                 (in ?x)) )\n\n      ; Take the item out of the briefcase if it is in there.\n      (:action take-out\n           :parameters (?x - physob)\n           :precondition (not (= ?x B))\n           :effect (not (in ?x)) )\n    )"); some (((v1).structure_).length)) = some 3 := by kernel_rfl
-- domain.rs:177
example : isOk (parseDomain c!"\n         ; A toy domain.\n         (define (domain briefcase-world)\n              ; If no requirements are provided, :strips is implied.\n              (:requirements :strips :equality :typing :conditional-effects)\n              (:types location physob) ; type definitions could also be represented as predicates\n              (:constants B P D - physob)\n              (:predicates (at ?x - physob ?y - location)\n                           (in ?x ?y - physob))\n              (:constraints (and))\n\n              ; Move briefcase from one location to another.\n              (:action mov-B\n                   :parameters (?m ?l - location)\n                   :precondition (and (at B ?m) (not (= ?m ?l)))\n                   :effect (and (at B ?l) (not (at B ?m))\n                                (forall (?z)\n                                    (when (and (in ?z) (not (= ?z B)))\n                                          (and (at ?z ?l) (not (at ?z ?m)))))) )\n\n              ; Put the item in the briefcase if it is not already in there.\n              (:action put-in\n                   :parameters (?x - physob ?l - location)\n                   :precondition (not (= ?x B))\n                   :effect (when (and (at ?x ?l) (at B ?l))\n                         (in ?x)) )\n\n              ; Take the item out of the briefcase if it is in there.\n              (:action take-out\n                   :parameters (?x - physob)\n                   :precondition (not (= ?x B))\n                   :effect (not (in ?x)) )\n            )") = true := by kernel_rfl
-- domain.rs:177
example : (do let v1 ← value? (parseDomain c!"\n         ; A toy domain.\n         (define (domain briefcase-world)\n              ; If no requirements are provided, :strips is implied.\n              (:requirements :strips :equality :typing :conditional-effects)\n              (:types location physob) ; type definitions could also be represented as predicates\n              (:constants B P D - physob)\n              (:predicates (at ?x - physob ?y - location)\n                           (in ?x ?y - physob))\n              (:constraints (and))\n\n              ; Move briefcase from one location to another.\n              (:action mov-B\n                   :parameters (?m ?l - location)\n                   :precondition (and (at B ?m) (not (= ?m ?l)))\n                   :effect (and (at B ?l) (not (at B ?m))\n                                (forall (?z)\n                                    (when (and (in ?z) (not (= ?z B)))\n                                          (and (at ?z ?l) (not (at ?z ?m)))))) )\n\n              ; Put the item in the briefcase if it is not already in there.\n              (:action put-in\n                   :parameters (?x - physob ?l - location)\n                   :precondition (not (= ?x B))\n                   :effect (when (and (at ?x ?l) (at B ?l))\n                         (in ?x)) )\n\n              ; Take the item out of the briefcase if it is in there.\n              (:action take-out\n                   :parameters (?x - physob)\n                   :precondition (not (= ?x B))\n                   :effect (not (in ?x)) )\n            )"); some ((v1).name)) = some (Name.new c!"briefcase-world") := by kernel_rfl
-- domain.rs:177
example : (do let v1 ← value? (parseDomain c!"\n         ; A toy domain.\n         (define (domain briefcase-world)\n              ; If no requirements are provided, :strips is implied.\n              (:requirements :strips :equality :typing :conditional-effects)\n              (:types location physob) ; type definitions could also be represented as predicates\n              (:constants B P D - physob)\n              (:predicates (at ?x - physob ?y - location)\n                           (in ?x ?y - physob))\n              (:constraints (and))\n\n              ; Move briefcase from one location to another.\n              (:action mov-B\n                   :parameters (?m ?l - location)\n                   :precondition (and (at B ?m) (not (= ?m ?l)))\n                   :effect (and (at B ?l) (not (at B ?m))\n                                (forall (?z)\n                                    (when (and (in ?z) (not (= ?z B)))\n                                          (and (at ?z ?l) (not (at ?z ?m)))))) )\n\n              ; Put the item in the briefcase if it is not already in there.\n              (:action put-in\n                   :parameters (?x - physob ?l - location)\n                   :precondition (not (= ?x B))\n                   :effect (when (and (at ?x ?l) (at B ?l))\n                         (in ?x)) )\n\n              ; Take the item out of the briefcase if it is in there.\n              (:action take-out\n                   :parameters (?x - physob)\n                   :precondition (not (= ?x B))\n                   :effect (not (in ?x)) )\n            )"); some (((v1).requirements).length)) = some 4 := by kernel_rfl
-- domain.rs:177
example : (do let v1 ← value? (parseDomain c!"\n         ; A toy domain.\n         (define (domain briefcase-world)\n              ; If no requirements are provided, :strips is implied.\n              (:requirements :strips :equality :typing :conditional-effects)\n              (:types location physob) ; type definitions could also be represented as predicates\n              (:constants B P D - physob)\n              (:predicates (at ?x - physob ?y - location)\n                           (in ?x ?y - physob))\n              (:constraints (and))\n\n              ; Move briefcase from one location to another.\n              (:action mov-B\n                   :parameters (?m ?l - location)\n                   :precondition (and (at B ?m) (not (= ?m ?l)))\n                   :effect (and (at B ?l) (not (at B ?m))\n                                (forall (?z)\n                                    (when (and (in ?z) (not (= ?z B)))\n                                          (and (at ?z ?l) (not (at ?z ?m)))))) )\n\n              ; Put the item in the briefcase if it is not already in there.\n              (:action put-in\n                   :parameters (?x - physob ?l - location)\n                   :precondition (not (= ?x B))\n                   :effect (when (and (at ?x ?l) (at B ?l))\n                         (in ?x)) )\n\n              ; Take the item out of the briefcase if it is in there.\n              (:action take-out\n                   :parameters (?x - physob)\n                   :precondition (not (= ?x B))\n                   :effect (not (in ?x)) )\n            )"); some (((v1).types).length)) = some 2 := by kernel_rfl
-- domain.rs:177
example : (do let v1 ← value? (parseDomain c!"\n         ; A toy domain.\n         (define (domain briefcase-world)\n              ; If no requirements are provided, :strips is implied.\n              (:requirements :strips :equality :typing :conditional-effects)\n              (:types location physob) ; type definitions could also be represented as predicates\n              (:constants B P D - physob)\n              (:predicates (at ?x - physob ?y - location)\n                           (in ?x ?y - physob))\n              (:constraints (and))\n\n              ; Move briefcase from one location to another.\n              (:action mov-B\n                   :parameters (?m ?l - location)\n                   :precondition (and (at B ?m) (not (= ?m ?l)))\n                   :effect (and (at B ?l) (not (at B ?m))\n                                (forall (?z)\n                                    (when (and (in ?z) (not (= ?z B)))\n                                          (and (at ?z ?l) (not (at ?z ?m)))))) )\n\n              ; Put the item in the briefcase if it is not already in there.\n              (:action put-in\n                   :parameters (?x - physob ?l - location)\n                   :precondition (not (= ?x B))\n                   :effect (when (and (at ?x ?l) (at B ?l))\n                         (in ?x)) )\n\n              ; Take the item out of the briefcase if it is in there.\n              (:action take-out\n                   :parameters (?x - physob)\n                   :precondition (not (= ?x B))\n                   :effect (not (in ?x)) )\n            )"); some (((v1).constants).length)) = some 3 := by kernel_rfl
-- domain.rs:177
example : (do let v1 ← value? (parseDomain c!"\n         ; A toy domain.\n         (define (domain briefcase-world)\n              ; If no requirements are provided, :strips is implied.\n              (:requirements :strips :equality :typing :conditional-effects)\n              (:types location physob) ; type definitions could also be represented as predicates\n              (:constants B P D - physob)\n              (:predicates (at ?x - physob ?y - location)\n                           (in ?x ?y - physob))\n              (:constraints (and))\n\n              ; Move briefcase from one location to another.\n              (:action mov-B\n                   :parameters (?m ?l - location)\n                   :precondition (and (at B ?m) (not (= ?m ?l)))\n                   :effect (and (at B ?l) (not (at B ?m))\n                                (forall (?z)\n                                    (when (and (in ?z) (not (= ?z B)))\n                                          (and (at ?z ?l) (not (at ?z ?m)))))) )\n\n              ; Put the item in the briefcase if it is not already in there.\n              (:action put-in\n                   :parameters (?x - physob ?l - location)\n                   :precondition (not (= ?x B))\n                   :effect (when (and (at ?x ?l) (at B ?l))\n                         (in ?x)) )\n\n              ; Take the item out of the briefcase if it is in there.\n              (:action take-out\n                   :parameters (?x - physob)\n                   :precondition (not (= ?x B))\n                   :effect (not (in ?x)) )\n            )"); some (((v1).predicates).length)) = some 2 := by kernel_rfl
-- domain.rs:177
example : (do let v1 ← value? (parseDomain c!"\n         ; A toy domain.\n         (define (domain briefcase-world)\n              ; If no requirements are provided, :strips is implied.\n              (:requirements :strips :equality :typing :conditional-effects)\n              (:types location physob) ; type definitions could also be represented as predicates\n              (:constants B P D - physob)\n              (:predicates (at ?x - physob ?y - location)\n                           (in ?x ?y - physob))\n              (:constraints (and))\n\n              ; Move briefcase from one location to another.\n              (:action mov-B\n                   :parameters (?m ?l - location)\n                   :precondition (and (at B ?m) (not (= ?m ?l)))\n                   :effect (and (at B ?l) (not (at B ?m))\n                                (forall (?z)\n                                    (when (and (in ?z) (not (= ?z B)))\n                                          (and (at ?z ?l) (not (at ?z ?m)))))) )\n\n              ; Put the item in the briefcase if it is not already in there.\n              (:action put-in\n                   :parameters (?x - physob ?l - location)\n                   :precondition (not (= ?x B))\n                   :effect (when (and (at ?x ?l) (at B ?l))\n                         (in ?x)) )\n\n              ; Take the item out of the briefcase if it is in there.\n              (:action take-out\n                   :parameters (?x - physob)\n                   :precondition (not (= ?x B))\n                   :effect (not (in ?x)) )\n            )"); some (((v1).constraints).isEmpty)) = some true := by kernel_rfl
-- domain.rs:177
example : (do let v1 ← value? (parseDomain c!"\n         ; A toy domain.\n         (define (domain briefcase-world)\n              ; If no requirements are provided, :strips is implied.\n              (:requirements :strips :equality :typing :conditional-effects)\n              (:types location physob) ; type definitions could also be represented as predicates\n              (:constants B P D - physob)\n              (:predicates (at ?x - physob ?y - location)\n                           (in ?x ?y - physob))\n              (:constraints (and))\n\n              ; Move briefcase from one location to another.\n              (:action mov-B\n                   :parameters (?m ?l - location)\n                   :precondition (and (at B ?m) (not (= ?m ?l)))\n                   :effect (and (at B ?l) (not (at B ?m))\n                                (forall (?z)\n                                    (when (and (in ?z) (not (= ?z B)))\n                                          (and (at ?z ?l) (not (at ?z ?m)))))) )\n\n              ; Put the item in the briefcase if it is not already in there.\n              (:action put-in\n                   :parameters (?x - physob ?l - location)\n                   :precondition (not (= ?x B))\n                   :effect (when (and (at ?x ?l) (at B ?l))\n                         (in ?x)) )\n\n              ; Take the item out of the briefcase if it is in there.\n              (:action take-out\n                   :parameters (?x - physob)\n                   :precondition (not (= ?x B))\n                   :effect (not (in ?x)) )\n            )"); some (((v1).structure_).length)) = some 3 := by kernel_rfl

/-! ### `/repo/src/parsers/domain_constraints_def.rs` -/
-- domain_constraints_def.rs:11, domain_constraints_def.rs:44
example : value? (parseDomainConstraintsDef c!"(:constraints (and))") = some ((ConGD.and [])) := by kernel_rfl

/-! ### `/repo/src/parsers/duration_constraint.rs` -/
-- duration_constraint.rs:14, duration_constraint.rs:96
example : value? (parseDurationConstraint c!"()") = some (none) := by kernel_rfl
-- duration_constraint.rs:14, duration_constraint.rs:96
example : value? (parseDurationConstraint c!"(= ?duration 5)") = some ((some (DurationConstraint.single (SimpleDuration.op DOp.eq (DurationValue.number (num 0x40a00000)))))) := by kernel_rfl
-- duration_constraint.rs:14, duration_constraint.rs:96
example : value? (parseDurationConstraint c!"(at end (<= ?duration 1.23))") = some ((some (DurationConstraint.single (SimpleDuration.at TimeSpecifier.end_ (SimpleDuration.op DOp.le (DurationValue.number (num 0x3f9d70a4))))))) := by kernel_rfl
-- duration_constraint.rs:14, duration_constraint.rs:96
example : value? (parseDurationConstraint c!"(and (at end (<= ?duration 1.23)) (>= ?duration 1.0))") = some ((some (DurationConstraint.all [(SimpleDuration.at TimeSpecifier.end_ (SimpleDuration.op DOp.le (DurationValue.number (num 0x3f9d70a4)))), (SimpleDuration.op DOp.ge (DurationValue.number (num 0x3f800000)))]))) := by kernel_rfl

/-! ### `/repo/src/parsers/effects.rs` -/
-- effects.rs:13, effects.rs:73
example : value? (parseEffect c!"(= x y)") = some ((single (CEffect.effect (PEffect.atomic (AtomicFormula.equality (Term.name (Name.new c!"x")) (Term.name (Name.new c!"y"))))))) := by kernel_rfl
-- effects.rs:13, effects.rs:73
example : value? (parseEffect c!"(and (= x y) (not (= ?a B)))") = some ([(CEffect.effect (PEffect.atomic (AtomicFormula.equality (Term.name (Name.new c!"x")) (Term.name (Name.new c!"y"))))), (CEffect.effect (PEffect.notAtomic (AtomicFormula.equality (Term.var (Name.new c!"a")) (Term.name (Name.new c!"B")))))]) := by kernel_rfl

/-! ### `/repo/src/parsers/empty_or.rs` -/
-- empty_or.rs:14
example : value? ((emptyOr parseVariable) c!"()") = some (none) := by kernel_rfl
-- empty_or.rs:14
example : value? ((emptyOr parseVariable) c!"?abc") = some ((some (Name.new c!"abc"))) := by kernel_rfl

/-! ### `/repo/src/parsers/f_assign_da.rs` -/
-- f_assign_da.rs:13
example : (value? (parseFAssignDa c!"(assign fun-sym ?duration)")).isSome = true := by kernel_rfl
-- f_assign_da.rs:42
example : isOk (parseFAssignDa c!"(increase (distance-travelled) 5)") = true := by kernel_rfl

/-! ### `/repo/src/parsers/f_comp.rs` -/
-- f_comp.rs:14, f_comp.rs:58
example : value? (parseFComp c!"(= (+ 1.23 2.34) (+ 1.23 2.34))") = some ((FComp.mk BinaryComp.eq (FExp.binaryOp BinaryOp.add (FExp.number (num 0x3f9d70a4)) (FExp.number (num 0x4015c28f))) (FExp.binaryOp BinaryOp.add (FExp.number (num 0x3f9d70a4)) (FExp.number (num 0x4015c28f))))) := by kernel_rfl

/-! ### `/repo/src/parsers/f_exp.rs` -/
-- f_exp.rs:15, f_exp.rs:98
example : value? (parseFExp c!"1.23") = some ((FExp.number (num 0x3f9d70a4))) := by kernel_rfl
-- f_exp.rs:15, f_exp.rs:98
example : value? (parseFExp c!"(+ 1.23 2.34)") = some ((FExp.binaryOp BinaryOp.add (FExp.number (num 0x3f9d70a4)) (FExp.number (num 0x4015c28f)))) := by kernel_rfl
-- f_exp.rs:15, f_exp.rs:98
example : value? (parseFExp c!"(+ 1.23 2.34 3.45)") = some ((FExp.multiOp MultiOp.add (FExp.number (num 0x3f9d70a4)) [(FExp.number (num 0x4015c28f)), (FExp.number (num 0x405ccccd))])) := by kernel_rfl
-- f_exp.rs:15, f_exp.rs:98
example : value? (parseFExp c!"(- 1.23)") = some ((FExp.negative (FExp.number (num 0x3f9d70a4)))) := by kernel_rfl
-- f_exp.rs:15, f_exp.rs:98
example : value? (parseFExp c!"fun-sym") = some ((FExp.function (FHead.simple (Name.new c!"fun-sym")))) := by kernel_rfl

/-! ### `/repo/src/parsers/f_exp_da.rs` -/
-- f_exp_da.rs:16, f_exp_da.rs:85
example : value? (parseFExpDa c!"?duration") = some (FExpDa.duration) := by kernel_rfl
-- f_exp_da.rs:16, f_exp_da.rs:85
example : value? (parseFExpDa c!"(+ 1.23 2.34)") = some ((FExpDa.binaryOp BinaryOp.add (FExpDa.fExp (FExp.number (num 0x3f9d70a4))) (FExpDa.fExp (FExp.number (num 0x4015c28f))))) := by kernel_rfl
-- f_exp_da.rs:16, f_exp_da.rs:85
example : value? (parseFExpDa c!"(+ 1.23 2.34 3.45)") = some ((FExpDa.multiOp MultiOp.add (FExpDa.fExp (FExp.number (num 0x3f9d70a4))) [(into (FExp.number (num 0x4015c28f))), (into (FExp.number (num 0x405ccccd)))])) := by kernel_rfl

/-! ### `/repo/src/parsers/f_exp_t.rs` -/
-- f_exp_t.rs:16, f_exp_t.rs:73
example : value? (parseFExpT c!"#t") = some (FExpT.now) := by kernel_rfl
-- f_exp_t.rs:16, f_exp_t.rs:73
example : value? (parseFExpT c!"(* (fuel ?tank) #t)") = some ((FExpT.scaled (FExp.function (FHead.withTerms (Name.new c!"fuel") [(Term.var (Name.new c!"tank"))])))) := by kernel_rfl
-- f_exp_t.rs:16, f_exp_t.rs:73
example : value? (parseFExpT c!"(* #t (fuel ?tank))") = some ((FExpT.scaled (FExp.function (FHead.withTerms (Name.new c!"fuel") [(Term.var (Name.new c!"tank"))])))) := by kernel_rfl

/-! ### `/repo/src/parsers/f_head.rs` -/
-- f_head.rs:15, f_head.rs:60
example : value? (parseFHead c!"fun-sym") = some ((FHead.simple (Name.new c!"fun-sym"))) := by kernel_rfl
-- f_head.rs:15, f_head.rs:60
example : value? (parseFHead c!"(fun-sym)") = some ((FHead.simple (Name.new c!"fun-sym"))) := by kernel_rfl
-- f_head.rs:15, f_head.rs:60
example : value? (parseFHead c!"(fun-sym term)") = some ((FHead.withTerms (Name.new c!"fun-sym") [(Term.name (Name.new c!"term"))])) := by kernel_rfl

/-! ### `/repo/src/parsers/function_symbol.rs` -/
-- function_symbol.rs:10, function_symbol.rs:33, function_symbol.rs:51
example : value? (parseFunctionSymbol c!"abcde") = some ((Name.new c!"abcde")) := by kernel_rfl
-- function_symbol.rs:10, function_symbol.rs:51
example : value? (parseFunctionSymbol c!"a-1_2") = some ((Name.new c!"a-1_2")) := by kernel_rfl
-- function_symbol.rs:10, function_symbol.rs:51
example : value? (parseFunctionSymbol c!"Z01") = some ((Name.new c!"Z01")) := by kernel_rfl
-- function_symbol.rs:10, function_symbol.rs:51
example : value? (parseFunctionSymbol c!"x-_-_") = some ((Name.new c!"x-_-_")) := by kernel_rfl
-- function_symbol.rs:10, function_symbol.rs:51
example : isErr (parseFunctionSymbol c!"") = true := by kernel_rfl
-- function_symbol.rs:10, function_symbol.rs:51
example : isErr (parseFunctionSymbol c!".") = true := by kernel_rfl
-- function_symbol.rs:10, function_symbol.rs:51
example : isErr (parseFunctionSymbol c!"-abc") = true := by kernel_rfl
-- function_symbol.rs:10, function_symbol.rs:51
example : isErr (parseFunctionSymbol c!"0124") = true := by kernel_rfl
-- function_symbol.rs:10, function_symbol.rs:51
example : isErr (parseFunctionSymbol c!"-1") = true := by kernel_rfl
-- function_symbol.rs:33
example : isOk (parseFunctionSymbol c!"abcde") = true := by kernel_rfl

/-! ### `/repo/src/parsers/function_term.rs` -/
-- function_term.rs:13, function_term.rs:56
example : value? (parseFunctionTerm c!"(fun-sym)") = some ((FunctionTerm.mk (Name.new c!"fun-sym") [])) := by kernel_rfl
-- function_term.rs:13, function_term.rs:56
example : value? (parseFunctionTerm c!"(fun-sym x)") = some ((FunctionTerm.mk (Name.new c!"fun-sym") [(Term.name (Name.new c!"x"))])) := by kernel_rfl
-- function_term.rs:13, function_term.rs:56
example : value? (parseFunctionTerm c!"(fun-sym ?y x)") = some ((FunctionTerm.mk (Name.new c!"fun-sym") [(Term.var (Name.new c!"y")), (Term.name (Name.new c!"x"))])) := by kernel_rfl
-- function_term.rs:13, function_term.rs:56
example : value? (parseFunctionTerm c!"(fun-sym ?y x (fn a))") = some ((FunctionTerm.mk (Name.new c!"fun-sym") [(Term.var (Name.new c!"y")), (Term.name (Name.new c!"x")), (termFn (FunctionTerm.mk (Name.new c!"fn") [(Term.name (Name.new c!"a"))]))])) := by kernel_rfl

/-! ### `/repo/src/parsers/function_type.rs` -/
-- function_type.rs:10, function_type.rs:35
example : value? (parseFunctionType c!"number") = some ((Ty.exactly (Name.new c!"number"))) := by kernel_rfl
-- function_type.rs:10, function_type.rs:35
example : value? (parseFunctionType c!"(either object number)") = some ((Ty.eitherOf [(Name.new c!"object"), (Name.new c!"number")])) := by kernel_rfl

/-! ### `/repo/src/parsers/function_typed_list.rs` -/
-- function_typed_list.rs:14, function_typed_list.rs:80
example : value? ((functionTypedList parseAtomicFunctionSkeleton) c!"(battery-amount ?r - rover)") = some ([(typedNumber (Skeleton.mk (Name.new c!"battery-amount") [(Typed.mk (Name.new c!"r") (Ty.exactly (Name.new c!"rover")))]))]) := by kernel_rfl
-- function_typed_list.rs:80
example : value? ((functionTypedList parseAtomicFunctionSkeleton) c!"(move ?from ?to - location)") = some ([(typedNumber (Skeleton.mk (Name.new c!"move") [(Typed.mk (Name.new c!"from") (Ty.exactly (Name.new c!"location"))), (Typed.mk (Name.new c!"to") (Ty.exactly (Name.new c!"location")))]))]) := by kernel_rfl

/-! ### `/repo/src/parsers/functions_def.rs` -/
-- functions_def.rs:12, functions_def.rs:57
example : value? (parseFunctionsDef c!"(:functions (battery-amount ?r - rover))") = some ([(typedNumber (Skeleton.mk (Name.new c!"battery-amount") [(Typed.mk (Name.new c!"r") (Ty.exactly (Name.new c!"rover")))]))]) := by kernel_rfl

/-! ### `/repo/src/parsers/gd.rs` -/
-- gd.rs:17, gd.rs:211
example : value? (parseGd c!"(= x y)") = some ((GD.atomic (AtomicFormula.equality (Term.name (Name.new c!"x")) (Term.name (Name.new c!"y"))))) := by kernel_rfl
-- gd.rs:17, gd.rs:211
example : value? (parseGd c!"(not (= x y))") = some ((GD.not (GD.atomic (AtomicFormula.equality (Term.name (Name.new c!"x")) (Term.name (Name.new c!"y")))))) := by kernel_rfl
-- gd.rs:17, gd.rs:211
example : value? (parseGd c!"(and (not (= x y)) (= x z))") = some ((GD.and [(GD.not (GD.atomic (AtomicFormula.equality (Term.name (Name.new c!"x")) (Term.name (Name.new c!"y"))))), (GD.atomic (AtomicFormula.equality (Term.name (Name.new c!"x")) (Term.name (Name.new c!"z"))))])) := by kernel_rfl
-- gd.rs:17, gd.rs:211
example : value? (parseGd c!"(or (not (= x y)) (= x z))") = some ((GD.or [(GD.not (GD.atomic (AtomicFormula.equality (Term.name (Name.new c!"x")) (Term.name (Name.new c!"y"))))), (GD.atomic (AtomicFormula.equality (Term.name (Name.new c!"x")) (Term.name (Name.new c!"z"))))])) := by kernel_rfl
-- gd.rs:17, gd.rs:211
example : value? (parseGd c!"(imply (not (= x y)) (= x z))") = some ((GD.imply (GD.not (GD.atomic (AtomicFormula.equality (Term.name (Name.new c!"x")) (Term.name (Name.new c!"y"))))) (GD.atomic (AtomicFormula.equality (Term.name (Name.new c!"x")) (Term.name (Name.new c!"z")))))) := by kernel_rfl
-- gd.rs:17, gd.rs:211
example : value? (parseGd c!"(exists (?x ?y) (not (= ?x ?y)))") = some ((GD.exist [(into (Name.new c!"x")), (into (Name.new c!"y"))] (GD.not (GD.atomic (AtomicFormula.equality (Term.var (Name.new c!"x")) (Term.var (Name.new c!"y"))))))) := by kernel_rfl
-- gd.rs:17, gd.rs:211
example : value? (parseGd c!"(forall (?x ?y) (not (= ?x ?y)))") = some ((GD.forall_ [(into (Name.new c!"x")), (into (Name.new c!"y"))] (GD.not (GD.atomic (AtomicFormula.equality (Term.var (Name.new c!"x")) (Term.var (Name.new c!"y"))))))) := by kernel_rfl
-- gd.rs:17, gd.rs:211
example : value? (parseGd c!"(= (+ 1.23 2.34) (+ 1.23 2.34))") = some ((GD.fComp (FComp.mk BinaryComp.eq (FExp.binaryOp BinaryOp.add (FExp.number (num 0x3f9d70a4)) (FExp.number (num 0x4015c28f))) (FExp.binaryOp BinaryOp.add (FExp.number (num 0x3f9d70a4)) (FExp.number (num 0x4015c28f)))))) := by kernel_rfl

/-! ### `/repo/src/parsers/goal_def.rs` -/
-- goal_def.rs:10, goal_def.rs:50
example : value? (parseProblemGoalDef c!"(:goal (= x y))") = some ([(PreGD.preference (PrefGD.goal (GD.atomic (AtomicFormula.equality (Term.name (Name.new c!"x")) (Term.name (Name.new c!"y"))))))]) := by kernel_rfl

/-! ### `/repo/src/parsers/init_def.rs` -/
-- init_def.rs:11, init_def.rs:57
example : value? (parseProblemInitDef c!"(:init (train-not-in-use train1) (at 10 (train-not-in-use train2)))") = some ([(InitElement.literal (Literal.pos (AtomicFormula.predicate (Name.new c!"train-not-in-use") [(Name.new c!"train1")]))), (InitElement.at (num 0x41200000) (Literal.pos (AtomicFormula.predicate (Name.new c!"train-not-in-use") [(Name.new c!"train2")])))]) := by kernel_rfl

/-! ### `/repo/src/parsers/init_el.rs` -/
-- init_el.rs:16, init_el.rs:106
example : value? (parseInitEl c!"(train-not-in-use train1)") = some ((InitElement.literal (Literal.pos (AtomicFormula.predicate (Name.new c!"train-not-in-use") [(Name.new c!"train1")])))) := by kernel_rfl
-- init_el.rs:16, init_el.rs:106
example : value? (parseInitEl c!"(at 10 (train-not-in-use train2))") = some ((InitElement.at (num 0x41200000) (Literal.pos (AtomicFormula.predicate (Name.new c!"train-not-in-use") [(Name.new c!"train2")])))) := by kernel_rfl
-- init_el.rs:16, init_el.rs:106
example : value? (parseInitEl c!"(= (battery rover) 100)") = some ((InitElement.isValue (BasicFunctionTerm.mk (Name.new c!"battery") [(Name.new c!"rover")]) (num 0x42c80000))) := by kernel_rfl
-- init_el.rs:16, init_el.rs:106
example : value? (parseInitEl c!"(= (location rover) base)") = some ((InitElement.isObject (BasicFunctionTerm.mk (Name.new c!"location") [(Name.new c!"rover")]) (Name.new c!"base"))) := by kernel_rfl

/-! ### `/repo/src/parsers/interval.rs` -/
-- interval.rs:13, interval.rs:38
example : value? (parseInterval c!"all") = some (Interval.all) := by kernel_rfl

/-! ### `/repo/src/parsers/length_spec.rs` -/
-- length_spec.rs:13, length_spec.rs:48
example : value? (parseProblemLengthSpec c!"(:length)") = some ((LengthSpec.mk none none)) := by kernel_rfl
-- length_spec.rs:13, length_spec.rs:48
example : value? (parseProblemLengthSpec c!"(:length (:serial 123))") = some ((lenSerial 123)) := by kernel_rfl
-- length_spec.rs:13, length_spec.rs:48
example : value? (parseProblemLengthSpec c!"(:length (:parallel 42))") = some ((lenParallel 42)) := by kernel_rfl
-- length_spec.rs:13, length_spec.rs:48
example : value? (parseProblemLengthSpec c!"(:length (:serial 123) (:parallel 42))") = some ((LengthSpec.mk (some 123) (some 42))) := by kernel_rfl

/-! ### `/repo/src/parsers/literal.rs` -/
-- literal.rs:13, literal.rs:55
example : value? ((literal parseName) c!"(= x y)") = some ((Literal.pos (AtomicFormula.equality (Name.new c!"x") (Name.new c!"y")))) := by kernel_rfl
-- literal.rs:13, literal.rs:55
example : value? ((literal parseName) c!"(not (= x y))") = some ((Literal.neg (AtomicFormula.equality (Name.new c!"x") (Name.new c!"y")))) := by kernel_rfl

/-! ### `/repo/src/parsers/metric_f_exp.rs` -/
-- metric_f_exp.rs:18, metric_f_exp.rs:152
example : value? (parseMetricFExp c!"1.23") = some ((MetricFExp.number (num 0x3f9d70a4))) := by kernel_rfl
-- metric_f_exp.rs:18, metric_f_exp.rs:152
example : value? (parseMetricFExp c!"(- total-time)") = some ((MetricFExp.negative MetricFExp.totalTime)) := by kernel_rfl
-- metric_f_exp.rs:18, metric_f_exp.rs:152
example : value? (parseMetricFExp c!"(+ 1.23 2.34)") = some ((MetricFExp.binaryOp BinaryOp.add (MetricFExp.number (num 0x3f9d70a4)) (MetricFExp.number (num 0x4015c28f)))) := by kernel_rfl
-- metric_f_exp.rs:18, metric_f_exp.rs:152
example : value? (parseMetricFExp c!"(+ 1.23 2.34 3.45)") = some ((MetricFExp.multiOp MultiOp.add (MetricFExp.number (num 0x3f9d70a4)) [(MetricFExp.number (num 0x4015c28f)), (MetricFExp.number (num 0x405ccccd))])) := by kernel_rfl
-- metric_f_exp.rs:18, metric_f_exp.rs:152
example : value? (parseMetricFExp c!"(is-violated preference)") = some ((MetricFExp.isViolated (Name.new c!"preference"))) := by kernel_rfl
-- metric_f_exp.rs:18, metric_f_exp.rs:152
example : value? (parseMetricFExp c!"fun-sym") = some ((MetricFExp.function (Name.new c!"fun-sym") [])) := by kernel_rfl
-- metric_f_exp.rs:18, metric_f_exp.rs:152
example : value? (parseMetricFExp c!"(fun-sym)") = some ((MetricFExp.function (Name.new c!"fun-sym") [])) := by kernel_rfl
-- metric_f_exp.rs:18, metric_f_exp.rs:152
example : value? (parseMetricFExp c!"(fun-sym a b c)") = some ((MetricFExp.function (Name.new c!"fun-sym") [(Name.new c!"a"), (Name.new c!"b"), (Name.new c!"c")])) := by kernel_rfl

/-! ### `/repo/src/parsers/metric_spec.rs` -/
-- metric_spec.rs:13, metric_spec.rs:51
example : value? (parseProblemMetricSpec c!"(:metric minimize total-time)") = some ((MetricSpec.mk Optimization.minimize MetricFExp.totalTime)) := by kernel_rfl

/-! ### `/repo/src/parsers/mod.rs` -/
-- mod.rs:222
example : (do let v1 ← value? (parseBasicFunctionTerm c!"abcde"); some (v1)) = some (BasicFunctionTerm.mk (Name.new c!"abcde") []) := by kernel_rfl

/-! ### `/repo/src/parsers/multi_op.rs` -/
-- multi_op.rs:13, multi_op.rs:40
example : value? (parseMultiOp c!"*") = some (MultiOp.mul) := by kernel_rfl
-- multi_op.rs:13, multi_op.rs:40
example : value? (parseMultiOp c!"+") = some (MultiOp.add) := by kernel_rfl

/-! ### `/repo/src/parsers/name.rs` -/
-- name.rs:15, test_helpers.rs:118
example : value? (parseName c!"abcde") = some ((Name.new c!"abcde")) := by kernel_rfl
-- name.rs:15
example : value? (parseName c!"a-1_2") = some ((Name.new c!"a-1_2")) := by kernel_rfl
-- name.rs:15
example : value? (parseName c!"Z01") = some ((Name.new c!"Z01")) := by kernel_rfl
-- name.rs:15
example : value? (parseName c!"x-_-_") = some ((Name.new c!"x-_-_")) := by kernel_rfl
-- name.rs:15
example : isErr (parseName c!"") = true := by kernel_rfl
-- name.rs:15
example : isErr (parseName c!".") = true := by kernel_rfl
-- name.rs:15
example : isErr (parseName c!"-abc") = true := by kernel_rfl
-- name.rs:15
example : isErr (parseName c!"0124") = true := by kernel_rfl
-- name.rs:15
example : isErr (parseName c!"-1") = true := by kernel_rfl
-- name.rs:55, test_helpers.rs:134
example : parseName c!"abcde" = .ok ((Name.new c!"abcde")) [] := by kernel_rfl
-- name.rs:60
example : parseAnyChar c!"abc" = .ok (c!"abc") [] := by kernel_rfl
-- name.rs:60
example : parseAnyChar c!"1" = .ok (c!"1") [] := by kernel_rfl
-- name.rs:60
example : parseAnyChar c!"-." = .ok (c!"-") c!"." := by kernel_rfl
-- name.rs:60
example : parseAnyChar c!"_" = .ok (c!"_") [] := by kernel_rfl
-- name.rs:60, test_helpers.rs:139
example : isErr (parseAnyChar c!".") = true := by kernel_rfl

/-! ### `/repo/src/parsers/number.rs` -/
-- number.rs:16
example : value? (parseNumber c!"0") = some ((num 0x00000000)) := by kernel_rfl
-- number.rs:16
example : value? (parseNumber c!"1000a") = some ((num 0x447a0000)) := by kernel_rfl
-- number.rs:16
example : value? (parseNumber c!"012") = some ((num 0x41400000)) := by kernel_rfl
-- number.rs:16
example : value? (parseNumber c!"1.234") = some ((num 0x3f9df3b6)) := by kernel_rfl
-- number.rs:16
example : isErr (parseNumber c!".0") = true := by kernel_rfl
-- number.rs:16
example : isErr (parseNumber c!".") = true := by kernel_rfl
-- number.rs:16
example : isErr (parseNumber c!"-1") = true := by kernel_rfl
-- number.rs:53
example : parseDecimal c!".0" = .ok (c!".0") [] := by kernel_rfl
-- number.rs:53
example : parseDecimal c!".012" = .ok (c!".012") [] := by kernel_rfl
-- number.rs:53
example : isErr (parseDecimal c!".") = true := by kernel_rfl
-- number.rs:53
example : isErr (parseDecimal c!"012") = true := by kernel_rfl
-- number.rs:61
example : isOk (parseNumber c!"1.20") = true := by kernel_rfl
-- number.rs:61
example : value? (parseNumber c!"1.20") = some ((num 0x3f99999a)) := by kernel_rfl

/-! ### `/repo/src/parsers/objects_def.rs` -/
-- objects_def.rs:11, objects_def.rs:47
example : value? (parseProblemObjectsDeclaration c!"(:objects train1 train2)") = some ([(Typed.mk (Name.new c!"train1") Ty.object), (Typed.mk (Name.new c!"train2") Ty.object)]) := by kernel_rfl

/-! ### `/repo/src/parsers/optimization.rs` -/
-- optimization.rs:12, optimization.rs:39
example : value? (parseOptimization c!"minimize") = some (Optimization.minimize) := by kernel_rfl
-- optimization.rs:12, optimization.rs:39
example : value? (parseOptimization c!"maximize") = some (Optimization.maximize) := by kernel_rfl

/-! ### `/repo/src/parsers/p_effect.rs` -/
-- p_effect.rs:18, p_effect.rs:139
example : value? (parsePEffect c!"(= x y)") = some ((PEffect.atomic (AtomicFormula.equality (Term.name (Name.new c!"x")) (Term.name (Name.new c!"y"))))) := by kernel_rfl
-- p_effect.rs:18, p_effect.rs:139
example : value? (parsePEffect c!"(not (= ?a B))") = some ((PEffect.notAtomic (AtomicFormula.equality (Term.var (Name.new c!"a")) (Term.name (Name.new c!"B"))))) := by kernel_rfl
-- p_effect.rs:18, p_effect.rs:139
example : value? (parsePEffect c!"(assign fun-sym 1.23)") = some ((PEffect.assignNumeric AssignOp.assign (FHead.simple (Name.new c!"fun-sym")) (FExp.number (num 0x3f9d70a4)))) := by kernel_rfl
-- p_effect.rs:18, p_effect.rs:139
example : value? (parsePEffect c!"(assign (fun-sym) undefined)") = some ((PEffect.assignObject (FunctionTerm.mk (Name.new c!"fun-sym") []) none)) := by kernel_rfl
-- p_effect.rs:18, p_effect.rs:139
example : value? (parsePEffect c!"(assign (fun-sym) something)") = some ((PEffect.assignObject (FunctionTerm.mk (Name.new c!"fun-sym") []) (some (Term.name (Name.new c!"something"))))) := by kernel_rfl
-- p_effect.rs:122
example : isOk (parsePEffect c!"(can-move ?from-waypoint ?to-waypoint)") = true := by kernel_rfl

/-! ### `/repo/src/parsers/pre_gd.rs` -/
-- pre_gd.rs:16, pre_gd.rs:115
example : value? (parsePreGd c!"(= x y)") = some ((preGdPref (PrefGD.goal (GD.atomic (AtomicFormula.equality (Term.name (Name.new c!"x")) (Term.name (Name.new c!"y"))))))) := by kernel_rfl
-- pre_gd.rs:16, pre_gd.rs:115
example : value? (parsePreGd c!"(and (= x y) (= a b))") = some ([(PreGD.preference (PrefGD.goal (GD.atomic (AtomicFormula.equality (Term.name (Name.new c!"x")) (Term.name (Name.new c!"y")))))), (PreGD.preference (PrefGD.goal (GD.atomic (AtomicFormula.equality (Term.name (Name.new c!"a")) (Term.name (Name.new c!"b"))))))]) := by kernel_rfl
-- pre_gd.rs:16, pre_gd.rs:115
example : value? (parsePreGd c!"(forall (?a ?b) (= a b))") = some ((into (PreGD.forall_ [(Typed.mk (Name.new c!"a") Ty.object), (Typed.mk (Name.new c!"b") Ty.object)] (into (PreGD.preference (PrefGD.goal (GD.atomic (AtomicFormula.equality (Term.name (Name.new c!"a")) (Term.name (Name.new c!"b")))))))))) := by kernel_rfl

/-! ### `/repo/src/parsers/predicate.rs` -/
-- predicate.rs:10, predicate.rs:33, predicate.rs:49
example : value? (parsePredicate c!"abcde") = some ((Name.new c!"abcde")) := by kernel_rfl
-- predicate.rs:10
example : value? (parsePredicate c!"a-1_2") = some ((Name.new c!"a-1_2")) := by kernel_rfl
-- predicate.rs:10
example : value? (parsePredicate c!"Z01") = some ((Name.new c!"Z01")) := by kernel_rfl
-- predicate.rs:10
example : value? (parsePredicate c!"x-_-_") = some ((Name.new c!"x-_-_")) := by kernel_rfl
-- predicate.rs:10
example : isErr (parsePredicate c!"") = true := by kernel_rfl
-- predicate.rs:10
example : isErr (parsePredicate c!".") = true := by kernel_rfl
-- predicate.rs:10
example : isErr (parsePredicate c!"-abc") = true := by kernel_rfl
-- predicate.rs:10
example : isErr (parsePredicate c!"0124") = true := by kernel_rfl
-- predicate.rs:10
example : isErr (parsePredicate c!"-1") = true := by kernel_rfl
-- predicate.rs:33, predicate.rs:49
example : isOk (parsePredicate c!"abcde") = true := by kernel_rfl

/-! ### `/repo/src/parsers/predicates_def.rs` -/
-- predicates_def.rs:12
example : value? (parsePredicatesDef c!"(:predicates\n                    (at ?x - physob ?y - location)\n                    (in ?x ?y - physob)\n               )") = some ([(Skeleton.mk (Name.new c!"at") [(Typed.mk (Name.new c!"x") (Ty.exactly (Name.new c!"physob"))), (Typed.mk (Name.new c!"y") (Ty.exactly (Name.new c!"location")))]), (Skeleton.mk (Name.new c!"in") [(Typed.mk (Name.new c!"x") (Ty.exactly (Name.new c!"physob"))), (Typed.mk (Name.new c!"y") (Ty.exactly (Name.new c!"physob")))])]) := by kernel_rfl
-- predicates_def.rs:66
example : value? (parsePredicatesDef c!"(:predicates\n                             (at ?x - physob ?y - location)\n                             (in ?x ?y - physob)\n                        )") = some ([(Skeleton.mk (Name.new c!"at") [(Typed.mk (Name.new c!"x") (Ty.exactly (Name.new c!"physob"))), (Typed.mk (Name.new c!"y") (Ty.exactly (Name.new c!"location")))]), (Skeleton.mk (Name.new c!"in") [(Typed.mk (Name.new c!"x") (Ty.exactly (Name.new c!"physob"))), (Typed.mk (Name.new c!"y") (Ty.exactly (Name.new c!"physob")))])]) := by kernel_rfl

/-! ### `/repo/src/parsers/pref_con_gd.rs` -/
-- pref_con_gd.rs:16, pref_con_gd.rs:137
example : value? (parsePrefConGd c!"(and)") = some ([]) := by kernel_rfl
-- pref_con_gd.rs:16, pref_con_gd.rs:137
example : value? (parsePrefConGd c!"(and (at end (= x y)) (at end (not (= x z))))") = some ([(PrefConGD.goal (ConGD.atEnd (GD.atomic (AtomicFormula.equality (Term.name (Name.new c!"x")) (Term.name (Name.new c!"y")))))), (PrefConGD.goal (ConGD.atEnd (GD.not (GD.atomic (AtomicFormula.equality (Term.name (Name.new c!"x")) (Term.name (Name.new c!"z")))))))]) := by kernel_rfl
-- pref_con_gd.rs:16, pref_con_gd.rs:137
example : value? (parsePrefConGd c!"(forall (?x ?z) (sometime (= ?x ?z)))") = some ((prefConForall [(Typed.mk (Name.new c!"x") Ty.object), (Typed.mk (Name.new c!"z") Ty.object)] (prefConGoals (ConGD.sometime (Con2GD.goal (GD.atomic (AtomicFormula.equality (Term.var (Name.new c!"x")) (Term.var (Name.new c!"z"))))))))) := by kernel_rfl
-- pref_con_gd.rs:16, pref_con_gd.rs:137
example : value? (parsePrefConGd c!"(at end (= x y))") = some ((prefConGoals (ConGD.atEnd (GD.atomic (AtomicFormula.equality (Term.name (Name.new c!"x")) (Term.name (Name.new c!"y"))))))) := by kernel_rfl
-- pref_con_gd.rs:16, pref_con_gd.rs:137
example : value? (parsePrefConGd c!"(preference (at end (= x y)))") = some ((prefCons none (ConGD.atEnd (GD.atomic (AtomicFormula.equality (Term.name (Name.new c!"x")) (Term.name (Name.new c!"y"))))))) := by kernel_rfl
-- pref_con_gd.rs:16, pref_con_gd.rs:137
example : value? (parsePrefConGd c!"(preference name (at end (= x y)))") = some ((prefCons (some (Name.new c!"name")) (ConGD.atEnd (GD.atomic (AtomicFormula.equality (Term.name (Name.new c!"x")) (Term.name (Name.new c!"y"))))))) := by kernel_rfl

/-! ### `/repo/src/parsers/pref_gd.rs` -/
-- pref_gd.rs:15, pref_gd.rs:93
example : value? (parsePrefGd c!"(= x y)") = some ((PrefGD.goal (GD.atomic (AtomicFormula.equality (Term.name (Name.new c!"x")) (Term.name (Name.new c!"y")))))) := by kernel_rfl
-- pref_gd.rs:15, pref_gd.rs:93
example : value? (parsePrefGd c!"(preference p (= x y))") = some ((prefGd (Prod.mk (some (Name.new c!"p")) (GD.atomic (AtomicFormula.equality (Term.name (Name.new c!"x")) (Term.name (Name.new c!"y"))))))) := by kernel_rfl
-- pref_gd.rs:15, pref_gd.rs:93
example : value? (parsePrefGd c!"(preference (= x y))") = some ((prefGd (Prod.mk none (GD.atomic (AtomicFormula.equality (Term.name (Name.new c!"x")) (Term.name (Name.new c!"y"))))))) := by kernel_rfl

/-! ### `/repo/src/parsers/pref_name.rs` -/
-- pref_name.rs:9, pref_name.rs:31
example : value? (parsePrefName c!"abcde") = some ((Name.new c!"abcde")) := by kernel_rfl

/-! ### `/repo/src/parsers/pref_timed_gd.rs` -/
-- pref_timed_gd.rs:15, pref_timed_gd.rs:97
example : value? (parsePrefTimedGd c!"(at start (= x y))") = some ((PrefTimedGD.required (TimedGD.at TimeSpecifier.start (GD.atomic (AtomicFormula.equality (Term.name (Name.new c!"x")) (Term.name (Name.new c!"y"))))))) := by kernel_rfl
-- pref_timed_gd.rs:15, pref_timed_gd.rs:97
example : value? (parsePrefTimedGd c!"(preference (over all (= x y)))") = some ((PrefTimedGD.preference none (TimedGD.over Interval.all (GD.atomic (AtomicFormula.equality (Term.name (Name.new c!"x")) (Term.name (Name.new c!"y"))))))) := by kernel_rfl
-- pref_timed_gd.rs:15, pref_timed_gd.rs:97
example : value? (parsePrefTimedGd c!"(preference pref-name (over all (= x y)))") = some ((PrefTimedGD.preference (some (Name.new c!"pref-name")) (TimedGD.over Interval.all (GD.atomic (AtomicFormula.equality (Term.name (Name.new c!"x")) (Term.name (Name.new c!"y"))))))) := by kernel_rfl

/-! ### `/repo/src/parsers/primitive_type.rs` -/
-- primitive_type.rs:13, primitive_type.rs:42
example : value? (parsePrimitiveType c!"object") = some ((Name.new c!"object")) := by kernel_rfl
-- primitive_type.rs:13, primitive_type.rs:42
example : value? (parsePrimitiveType c!"number") = some ((Name.new c!"number")) := by kernel_rfl
-- primitive_type.rs:13, primitive_type.rs:42
example : value? (parsePrimitiveType c!"a-1_2") = some ((Name.new c!"a-1_2")) := by kernel_rfl
-- primitive_type.rs:13, primitive_type.rs:42
example : value? (parsePrimitiveType c!"obj!ect") = some ((Name.new c!"obj")) := by kernel_rfl

/-! ### `/repo/src/parsers/problem.rs` -/
-- problem.rs:19, problem.rs:80
example : isOk (parseProblem c!"(define (problem get-paid)\n        (:domain briefcase-world)\n        (:init (place home) (place office)\n               (object p) (object d) (object b)\n               (at B home) (at P home) (at D home) (in P))\n        (:goal (and (at B office) (at D office) (at P home)))\n    )") = true := by kernel_rfl
-- problem.rs:19
example : rest? (parseProblem c!"(define (problem get-paid)\n        (:domain briefcase-world)\n        (:init (place home) (place office)\n               (object p) (object d) (object b)\n               (at B home) (at P home) (at D home) (in P))\n        (:goal (and (at B office) (at D office) (at P home)))\n    )") = some [] := by kernel_rfl
-- problem.rs:19, problem.rs:80, problem.rs:15
example : (do let v1 ← value? (parseProblem c!"(define (problem get-paid)\n        (:domain briefcase-world)\n        (:init (place home) (place office)\n               (object p) (object d) (object b)\n               (at B home) (at P home) (at D home) (in P))\n        (:goal (and (at B office) (at D office) (at P home)))\n    )"); some ((v1).name)) = some (Name.new c!"get-paid") := by kernel_rfl
-- problem.rs:19, problem.rs:80, problem.rs:15
example : (do let v1 ← value? (parseProblem c!"(define (problem get-paid)\n        (:domain briefcase-world)\n        (:init (place home) (place office)\n               (object p) (object d) (object b)\n               (at B home) (at P home) (at D home) (in P))\n        (:goal (and (at B office) (at D office) (at P home)))\n    )"); some ((v1).domain)) = some (Name.new c!"briefcase-world") := by kernel_rfl
-- problem.rs:19, problem.rs:80, problem.rs:15
example : (do let v1 ← value? (parseProblem c!"(define (problem get-paid)\n        (:domain briefcase-world)\n        (:init (place home) (place office)\n               (object p) (object d) (object b)\n               (at B home) (at P home) (at D home) (in P))\n        (:goal (and (at B office) (at D office) (at P home)))\n    )"); some (((v1).requires).isEmpty)) = some true := by kernel_rfl
-- problem.rs:19, problem.rs:80, problem.rs:15
example : (do let v1 ← value? (parseProblem c!"(define (problem get-paid)\n        (:domain briefcase-world)\n        (:init (place home) (place office)\n               (object p) (object d) (object b)\n               (at B home) (at P home) (at D home) (in P))\n        (:goal (and (at B office) (at D office) (at P home)))\n    )"); some (((v1).init).length)) = some 9 := by kernel_rfl
-- problem.rs:19, problem.rs:80, problem.rs:15
example : (do let v1 ← value? (parseProblem c!"(define (problem get-paid)\n        (:domain briefcase-world)\n        (:init (place home) (place office)\n               (object p) (object d) (object b)\n               (at B home) (at P home) (at D home) (in P))\n        (:goal (and (at B office) (at D office) (at P home)))\n    )"); some (((v1).goal).length)) = some 3 := by kernel_rfl
-- problem.rs:111
example : isOk (parseProblem c!"(define (problem get-paid)\n                 (:domain briefcase-world)\n                 (:init (place home) (place office)\n                        (object p) (object d) (object b)\n                        (at B home) (at P home) (at D home) (in P))\n                 (:goal (and (at B office) (at D office) (at P home)))\n             )") = true := by kernel_rfl
-- problem.rs:111
example : rest? (parseProblem c!"(define (problem get-paid)\n                 (:domain briefcase-world)\n                 (:init (place home) (place office)\n                        (object p) (object d) (object b)\n                        (at B home) (at P home) (at D home) (in P))\n                 (:goal (and (at B office) (at D office) (at P home)))\n             )") = some [] := by kernel_rfl
-- problem.rs:111
example : (do let v1 ← value? (parseProblem c!"(define (problem get-paid)\n                 (:domain briefcase-world)\n                 (:init (place home) (place office)\n                        (object p) (object d) (object b)\n                        (at B home) (at P home) (at D home) (in P))\n                 (:goal (and (at B office) (at D office) (at P home)))\n             )"); some ((v1).name)) = some (Name.new c!"get-paid") := by kernel_rfl
-- problem.rs:111
example : (do let v1 ← value? (parseProblem c!"(define (problem get-paid)\n                 (:domain briefcase-world)\n                 (:init (place home) (place office)\n                        (object p) (object d) (object b)\n                        (at B home) (at P home) (at D home) (in P))\n                 (:goal (and (at B office) (at D office) (at P home)))\n             )"); some ((v1).domain)) = some (Name.new c!"briefcase-world") := by kernel_rfl
-- problem.rs:111
example : (do let v1 ← value? (parseProblem c!"(define (problem get-paid)\n                 (:domain briefcase-world)\n                 (:init (place home) (place office)\n                        (object p) (object d) (object b)\n                        (at B home) (at P home) (at D home) (in P))\n                 (:goal (and (at B office) (at D office) (at P home)))\n             )"); some (((v1).requires).isEmpty)) = some true := by kernel_rfl
-- problem.rs:111
example : (do let v1 ← value? (parseProblem c!"(define (problem get-paid)\n                 (:domain briefcase-world)\n                 (:init (place home) (place office)\n                        (object p) (object d) (object b)\n                        (at B home) (at P home) (at D home) (in P))\n                 (:goal (and (at B office) (at D office) (at P home)))\n             )"); some (((v1).init).length)) = some 9 := by kernel_rfl
-- problem.rs:111
example : (do let v1 ← value? (parseProblem c!"(define (problem get-paid)\n                 (:domain briefcase-world)\n                 (:init (place home) (place office)\n                        (object p) (object d) (object b)\n                        (at B home) (at P home) (at D home) (in P))\n                 (:goal (and (at B office) (at D office) (at P home)))\n             )"); some (((v1).goal).length)) = some 3 := by kernel_rfl

/-! ### `/repo/src/parsers/problem_constraints_def.rs` -/
-- problem_constraints_def.rs:11, problem_constraints_def.rs:45
example : value? (parseProblemConstraintsDef c!"(:constraints (preference test (and)))") = some ((prefCons (some (Name.new c!"test")) (ConGD.and []))) := by kernel_rfl

/-! ### `/repo/src/parsers/requirements.rs` -/
-- requirements.rs:14, requirements.rs:145
example : value? (parseRequireDef c!"(:requirements :adl)") = some ([Requirement.adl]) := by kernel_rfl
-- requirements.rs:14, requirements.rs:145
example : value? (parseRequireDef c!"(:requirements :strips :typing)") = some ([Requirement.strips, Requirement.typing]) := by kernel_rfl
-- requirements.rs:14, requirements.rs:145
example : value? (parseRequireDef c!"(:requirements\n:strips   :typing  )") = some ([Requirement.strips, Requirement.typing]) := by kernel_rfl
-- requirements.rs:31, requirements.rs:109
example : value? (parseRequireKey c!":strips") = some (Requirement.strips) := by kernel_rfl
-- requirements.rs:31, requirements.rs:109
example : value? (parseRequireKey c!":typing") = some (Requirement.typing) := by kernel_rfl
-- requirements.rs:31, requirements.rs:109
example : value? (parseRequireKey c!":negative-preconditions") = some (Requirement.negativePreconditions) := by kernel_rfl
-- requirements.rs:31, requirements.rs:109
example : value? (parseRequireKey c!":disjunctive-preconditions") = some (Requirement.disjunctivePreconditions) := by kernel_rfl
-- requirements.rs:31, requirements.rs:109
example : value? (parseRequireKey c!":equality") = some (Requirement.equality) := by kernel_rfl
-- requirements.rs:31, requirements.rs:109
example : value? (parseRequireKey c!":existential-preconditions") = some (Requirement.existentialPreconditions) := by kernel_rfl
-- requirements.rs:31, requirements.rs:109
example : value? (parseRequireKey c!":universal-preconditions") = some (Requirement.universalPreconditions) := by kernel_rfl
-- requirements.rs:31, requirements.rs:109
example : value? (parseRequireKey c!":quantified-preconditions") = some (Requirement.quantifiedPreconditions) := by kernel_rfl
-- requirements.rs:31, requirements.rs:109
example : value? (parseRequireKey c!":conditional-effects") = some (Requirement.conditionalEffects) := by kernel_rfl
-- requirements.rs:31, requirements.rs:109
example : value? (parseRequireKey c!":fluents") = some (Requirement.fluents) := by kernel_rfl
-- requirements.rs:31, requirements.rs:109
example : value? (parseRequireKey c!":numeric-fluents") = some (Requirement.numericFluents) := by kernel_rfl
-- requirements.rs:31, requirements.rs:109
example : value? (parseRequireKey c!":adl") = some (Requirement.adl) := by kernel_rfl
-- requirements.rs:31, requirements.rs:109
example : value? (parseRequireKey c!":durative-actions") = some (Requirement.durativeActions) := by kernel_rfl
-- requirements.rs:31, requirements.rs:109
example : value? (parseRequireKey c!":duration-inequalities") = some (Requirement.durationInequalities) := by kernel_rfl
-- requirements.rs:31, requirements.rs:109
example : value? (parseRequireKey c!":continuous-effects") = some (Requirement.continuousEffects) := by kernel_rfl
-- requirements.rs:31, requirements.rs:109
example : value? (parseRequireKey c!":derived-predicates") = some (Requirement.derivedPredicates) := by kernel_rfl
-- requirements.rs:31, requirements.rs:109
example : value? (parseRequireKey c!":timed-initial-literals") = some (Requirement.timedInitialLiterals) := by kernel_rfl
-- requirements.rs:31, requirements.rs:109
example : value? (parseRequireKey c!":preferences") = some (Requirement.preferences) := by kernel_rfl
-- requirements.rs:31, requirements.rs:109
example : value? (parseRequireKey c!":constraints") = some (Requirement.constraints) := by kernel_rfl
-- requirements.rs:31, requirements.rs:109
example : value? (parseRequireKey c!":action-costs") = some (Requirement.actionCosts) := by kernel_rfl
-- requirements.rs:31, requirements.rs:109
example : isErr (parseRequireKey c!":unknown") = true := by kernel_rfl
-- requirements.rs:31, requirements.rs:109
example : isErr (parseRequireKey c!"invalid") = true := by kernel_rfl

/-! ### `/repo/src/parsers/simple_duration_constraint.rs` -/
-- simple_duration_constraint.rs:16, simple_duration_constraint.rs:80
example : value? (parseSimpleDuration c!"(>= ?duration 1.23)") = some ((SimpleDuration.op DOp.ge (DurationValue.number (num 0x3f9d70a4)))) := by kernel_rfl
-- simple_duration_constraint.rs:16, simple_duration_constraint.rs:80
example : value? (parseSimpleDuration c!"(at end (<= ?duration 1.23))") = some ((SimpleDuration.at TimeSpecifier.end_ (SimpleDuration.op DOp.le (DurationValue.number (num 0x3f9d70a4))))) := by kernel_rfl

/-! ### `/repo/src/parsers/structure_def.rs` -/
-- structure_def.rs:13
example : value? (parseStructureDef c!"(:action take-out\n                    :parameters (?x - physob)\n                    :precondition (not (= ?x B))\n                    :effect (not (in ?x))\n                )") = some ((StructureDef.action (ActionDef.mk (Name.new c!"take-out") [(Typed.mk (Name.new c!"x") (Ty.exactly (Name.new c!"physob")))] (into (preGdPref (PrefGD.goal (GD.not (GD.atomic (AtomicFormula.equality (Term.var (Name.new c!"x")) (Term.name (Name.new c!"B")))))))) (some (single (CEffect.effect (PEffect.notAtomic (AtomicFormula.predicate (Name.new c!"in") [(Term.var (Name.new c!"x"))])))))))) := by kernel_rfl
-- structure_def.rs:79
example : value? (parseStructureDef c!"(:action take-out\n                             :parameters (?x - physob)\n                             :precondition (not (= ?x B))\n                             :effect (not (in ?x))\n                         )") = some ((StructureDef.action (ActionDef.mk (Name.new c!"take-out") [(Typed.mk (Name.new c!"x") (Ty.exactly (Name.new c!"physob")))] (into (preGdPref (PrefGD.goal (GD.not (GD.atomic (AtomicFormula.equality (Term.var (Name.new c!"x")) (Term.name (Name.new c!"B")))))))) (some (single (CEffect.effect (PEffect.notAtomic (AtomicFormula.predicate (Name.new c!"in") [(Term.var (Name.new c!"x"))])))))))) := by kernel_rfl

/-! ### `/repo/src/parsers/term.rs` -/
-- term.rs:12
example : value? (parseTerm c!"abcde") = some ((Term.name (Name.new c!"abcde"))) := by kernel_rfl
-- term.rs:12
example : value? (parseTerm c!"?abcde") = some ((Term.var (Name.new c!"abcde"))) := by kernel_rfl
-- term.rs:42, term.rs:62
example : isOk (parseTerm c!"some-name") = true := by kernel_rfl
-- term.rs:42, term.rs:62
example : value? (parseTerm c!"some-name") = some ((Term.name (Name.new c!"some-name"))) := by kernel_rfl
-- term.rs:42, term.rs:62
example : isOk (parseTerm c!"?some-var") = true := by kernel_rfl
-- term.rs:42, term.rs:62
example : value? (parseTerm c!"?some-var") = some ((Term.var (Name.new c!"some-var"))) := by kernel_rfl

/-! ### `/repo/src/parsers/time_specifier.rs` -/
-- time_specifier.rs:14, time_specifier.rs:40
example : value? (parseTimeSpecifier c!"start") = some (TimeSpecifier.start) := by kernel_rfl
-- time_specifier.rs:14, time_specifier.rs:40
example : value? (parseTimeSpecifier c!"end") = some (TimeSpecifier.end_) := by kernel_rfl

/-! ### `/repo/src/parsers/timed_effect.rs` -/
-- timed_effect.rs:17, timed_effect.rs:115
example : value? (parseTimedEffect c!"(at start (= x y))") = some ((TimedEffect.conditional TimeSpecifier.start (CondEffect.single (PEffect.atomic (AtomicFormula.equality (Term.name (Name.new c!"x")) (Term.name (Name.new c!"y"))))))) := by kernel_rfl
-- timed_effect.rs:17, timed_effect.rs:115
example : value? (parseTimedEffect c!"(at end (assign fun-sym ?duration))") = some ((TimedEffect.numericFluent TimeSpecifier.end_ (FAssignDa.mk AssignOp.assign (FHead.simple (Name.new c!"fun-sym")) FExpDa.duration))) := by kernel_rfl
-- timed_effect.rs:17, timed_effect.rs:115
example : value? (parseTimedEffect c!"(increase fun-sym #t)") = some ((TimedEffect.continuous AssignOpT.increase (FHead.simple (Name.new c!"fun-sym")) FExpT.now)) := by kernel_rfl
-- timed_effect.rs:109
example : isOk (parseTimedEffect c!"(at end (increase (distance-travelled) 5))") = true := by kernel_rfl

/-! ### `/repo/src/parsers/timed_gd.rs` -/
-- timed_gd.rs:14, timed_gd.rs:82
example : value? (parseTimedGd c!"(at start (= x y))") = some ((TimedGD.at TimeSpecifier.start (GD.atomic (AtomicFormula.equality (Term.name (Name.new c!"x")) (Term.name (Name.new c!"y")))))) := by kernel_rfl
-- timed_gd.rs:14, timed_gd.rs:82
example : value? (parseTimedGd c!"(over all (= x y))") = some ((TimedGD.over Interval.all (GD.atomic (AtomicFormula.equality (Term.name (Name.new c!"x")) (Term.name (Name.new c!"y")))))) := by kernel_rfl
-- timed_gd.rs:76
example : isOk (parseTimedGd c!"(over all (can-move ?from-waypoint ?to-waypoint))") = true := by kernel_rfl

/-! ### `/repo/src/parsers/timeless_def.rs` -/
-- timeless_def.rs:11, timeless_def.rs:58
example : value? (parseTimelessDef c!"(:timeless (= x y) (= a b))") = some ([(Literal.pos (AtomicFormula.equality (Name.new c!"x") (Name.new c!"y"))), (Literal.pos (AtomicFormula.equality (Name.new c!"a") (Name.new c!"b")))]) := by kernel_rfl

/-! ### `/repo/src/parsers/type.rs` -/
-- type.rs:12
example : value? (parseType c!"object") = some ((Ty.exactly (Name.new c!"object"))) := by kernel_rfl
-- type.rs:12
example : value? (parseType c!"(either object number)") = some ((Ty.eitherOf [(Name.new c!"object"), (Name.new c!"number")])) := by kernel_rfl
-- type.rs:51
example : parseType c!"object" = .ok ((Ty.exactly (Name.new c!"object"))) [] := by kernel_rfl
-- type.rs:56
example : parseType c!"(either object number)" = .ok ((Ty.eitherOf [(Name.new c!"object"), (Name.new c!"number")])) [] := by kernel_rfl
-- type.rs:62
example : parseEitherType c!"(either object number)" = .ok ([(Name.new c!"object"), (Name.new c!"number")]) [] := by kernel_rfl
-- type.rs:72
example : isErr (parseType c!"()") = true := by kernel_rfl

/-! ### `/repo/src/parsers/typed_list.rs` -/
-- typed_list.rs:16, typed_list.rs:88
example : value? ((typedList parseName) c!"abc") = some ([(Typed.mk (Name.new c!"abc") Ty.object)]) := by kernel_rfl
-- typed_list.rs:16, typed_list.rs:88
example : value? ((typedList parseName) c!"abc def\nghi") = some ([(Typed.mk (Name.new c!"abc") Ty.object), (Typed.mk (Name.new c!"def") Ty.object), (Typed.mk (Name.new c!"ghi") Ty.object)]) := by kernel_rfl
-- typed_list.rs:16, typed_list.rs:88
example : value? ((typedList parseName) c!"abc def - word kitchen - room") = some ([(Typed.mk (Name.new c!"abc") (Ty.exactly (Name.new c!"word"))), (Typed.mk (Name.new c!"def") (Ty.exactly (Name.new c!"word"))), (Typed.mk (Name.new c!"kitchen") (Ty.exactly (Name.new c!"room")))]) := by kernel_rfl
-- typed_list.rs:16, typed_list.rs:88
example : value? ((typedList parseName) c!"abc def - word\ngeorgia - (either state country)\nuvw xyz") = some ([(Typed.mk (Name.new c!"abc") (Ty.exactly (Name.new c!"word"))), (Typed.mk (Name.new c!"def") (Ty.exactly (Name.new c!"word"))), (Typed.mk (Name.new c!"georgia") (Ty.eitherOf [(Name.new c!"state"), (Name.new c!"country")])), (Typed.mk (Name.new c!"uvw") Ty.object), (Typed.mk (Name.new c!"xyz") Ty.object)]) := by kernel_rfl

/-! ### `/repo/src/parsers/types_def.rs` -/
-- types_def.rs:11, types_def.rs:43
example : value? (parseTypesDef c!"(:types location physob)") = some ([(Typed.mk (Name.new c!"location") Ty.object), (Typed.mk (Name.new c!"physob") Ty.object)]) := by kernel_rfl

/-! ### `/repo/src/parsers/utilities.rs` -/
-- utilities.rs:89
example : (parens parseName) c!"(content)" = .ok ((Name.new c!"content")) [] := by kernel_rfl
-- utilities.rs:104
example : (spaceSeparatedList0 parseName) c!"x y" = .ok ([(Name.new c!"x"), (Name.new c!"y")]) [] := by kernel_rfl
-- utilities.rs:104
example : (spaceSeparatedList0 parseName) c!"x" = .ok ([(Name.new c!"x")]) [] := by kernel_rfl
-- utilities.rs:104
example : (spaceSeparatedList0 parseName) c!"" = .ok ([]) [] := by kernel_rfl
-- utilities.rs:112
example : (spaceSeparatedList1 parseName) c!"x y" = .ok ([(Name.new c!"x"), (Name.new c!"y")]) [] := by kernel_rfl
-- utilities.rs:112
example : (spaceSeparatedList1 parseName) c!"x" = .ok ([(Name.new c!"x")]) [] := by kernel_rfl
-- utilities.rs:112
example : isErr ((spaceSeparatedList1 parseName) c!"") = true := by kernel_rfl

/-! ### `/repo/src/parsers/variable.rs` -/
-- variable.rs:13, variable.rs:34, variable.rs:51
example : value? (parseVariable c!"?abcde") = some ((Name.new c!"abcde")) := by kernel_rfl
-- variable.rs:13
example : value? (parseVariable c!"?a-1_2") = some ((Name.new c!"a-1_2")) := by kernel_rfl
-- variable.rs:13
example : value? (parseVariable c!"?Z01") = some ((Name.new c!"Z01")) := by kernel_rfl
-- variable.rs:13
example : value? (parseVariable c!"?x-_-_") = some ((Name.new c!"x-_-_")) := by kernel_rfl
-- variable.rs:13
example : isErr (parseVariable c!"abcde") = true := by kernel_rfl
-- variable.rs:13
example : isErr (parseVariable c!"?-") = true := by kernel_rfl
-- variable.rs:13
example : isErr (parseVariable c!"?1") = true := by kernel_rfl
-- variable.rs:34, variable.rs:51
example : isOk (parseVariable c!"?abcde") = true := by kernel_rfl

/-! ### `/repo/src/types/assign_op.rs` -/
-- assign_op.rs:167
example : AssignOp.assign.str = c!"assign" := by kernel_rfl
-- assign_op.rs:167
example : AssignOp.scaleUp.str = c!"scale-up" := by kernel_rfl
-- assign_op.rs:167
example : AssignOp.scaleDown.str = c!"scale-down" := by kernel_rfl
-- assign_op.rs:167
example : AssignOp.increase.str = c!"increase" := by kernel_rfl
-- assign_op.rs:167
example : AssignOp.decrease.str = c!"decrease" := by kernel_rfl

/-! ### `/repo/src/types/conditional_effect.rs` -/
-- conditional_effect.rs:63, conditional_effect.rs:72
example : isOk (parsePEffect c!"(= x y)") = true := by kernel_rfl
-- conditional_effect.rs:72
example : isOk (parsePEffect c!"(assign fun-sym 1.23)") = true := by kernel_rfl

/-! ### `/repo/src/types/domain.rs` -/
-- domain.rs:15
example : (do let v1 ← value? (parseDomain c!"(define (domain briefcase-world)\n      (:requirements :strips :equality :typing :conditional-effects)\n      (:types location physob)\n      (:constants\n            B ; the briefcase\n            P ; the paycheck\n            D\n            - physob)\n      (:predicates (at ?x - physob ?y - location) ; an item is at a location\n                   (in ?x ?y - physob))           ; an item is in another item\n      (:constraints (and))\n\n      ; Move briefcase from one location to another.\n      (:action mov-B\n           :parameters (?m ?l - location)\n           :precondition (and (at B ?m) (not (= ?m ?l)))\n           :effect (and (at B ?l) (not (at B ?m))\n                        (forall (?z)\n                            (when (and (in ?z) (not (= ?z B)))\n                                  (and (at ?z ?l) (not (at ?z ?m)))))) )\n\n      ; Put the item in the briefcase.\n      (:action put-in\n           :parameters (?x - physob ?l - location)\n           :precondition (not (= ?x B))  ; the item must not be the briefcase itself\n           :effect (when (and (at ?x ?l) (at B ?l))\n                 (in ?x)) )\n\n      ; Take the item out of the briefcase.\n      (:action take-out\n           :parameters (?x - physob)\n           :precondition (not (= ?x B)) ; the item must be the briefcase itself\n           :effect (not (in ?x)) )\n    )"); some ((v1).name)) = some (Name.new c!"briefcase-world") := by kernel_rfl
-- domain.rs:15
example : (do let v1 ← value? (parseDomain c!"(define (domain briefcase-world)\n      (:requirements :strips :equality :typing :conditional-effects)\n      (:types location physob)\n      (:constants\n            B ; the briefcase\n            P ; the paycheck\n            D\n            - physob)\n      (:predicates (at ?x - physob ?y - location) ; an item is at a location\n                   (in ?x ?y - physob))           ; an item is in another item\n      (:constraints (and))\n\n      ; Move briefcase from one location to another.\n      (:action mov-B\n           :parameters (?m ?l - location)\n           :precondition (and (at B ?m) (not (= ?m ?l)))\n           :effect (and (at B ?l) (not (at B ?m))\n                        (forall (?z)\n                            (when (and (in ?z) (not (= ?z B)))\n                                  (and (at ?z ?l) (not (at ?z ?m)))))) )\n\n      ; Put the item in the briefcase.\n      (:action put-in\n           :parameters (?x - physob ?l - location)\n           :precondition (not (= ?x B))  ; the item must not be the briefcase itself\n           :effect (when (and (at ?x ?l) (at B ?l))\n                 (in ?x)) )\n\n      ; Take the item out of the briefcase.\n      (:action take-out\n           :parameters (?x - physob)\n           :precondition (not (= ?x B)) ; the item must be the briefcase itself\n           :effect (not (in ?x)) )\n    )"); some (((v1).requirements).length)) = some 4 := by kernel_rfl
-- domain.rs:15
example : (do let v1 ← value? (parseDomain c!"(define (domain briefcase-world)\n      (:requirements :strips :equality :typing :conditional-effects)\n      (:types location physob)\n      (:constants\n            B ; the briefcase\n            P ; the paycheck\n            D\n            - physob)\n      (:predicates (at ?x - physob ?y - location) ; an item is at a location\n                   (in ?x ?y - physob))           ; an item is in another item\n      (:constraints (and))\n\n      ; Move briefcase from one location to another.\n      (:action mov-B\n           :parameters (?m ?l - location)\n           :precondition (and (at B ?m) (not (= ?m ?l)))\n           :effect (and (at B ?l) (not (at B ?m))\n                        (forall (?z)\n                            (when (and (in ?z) (not (= ?z B)))\n                                  (and (at ?z ?l) (not (at ?z ?m)))))) )\n\n      ; Put the item in the briefcase.\n      (:action put-in\n           :parameters (?x - physob ?l - location)\n           :precondition (not (= ?x B))  ; the item must not be the briefcase itself\n           :effect (when (and (at ?x ?l) (at B ?l))\n                 (in ?x)) )\n\n      ; Take the item out of the briefcase.\n      (:action take-out\n           :parameters (?x - physob)\n           :precondition (not (= ?x B)) ; the item must be the briefcase itself\n           :effect (not (in ?x)) )\n    )"); some (((v1).types).length)) = some 2 := by kernel_rfl
-- domain.rs:15
example : (do let v1 ← value? (parseDomain c!"(define (domain briefcase-world)\n      (:requirements :strips :equality :typing :conditional-effects)\n      (:types location physob)\n      (:constants\n            B ; the briefcase\n            P ; the paycheck\n            D\n            - physob)\n      (:predicates (at ?x - physob ?y - location) ; an item is at a location\n                   (in ?x ?y - physob))           ; an item is in another item\n      (:constraints (and))\n\n      ; Move briefcase from one location to another.\n      (:action mov-B\n           :parameters (?m ?l - location)\n           :precondition (and (at B ?m) (not (= ?m ?l)))\n           :effect (and (at B ?l) (not (at B ?m))\n                        (forall (?z)\n                            (when (and (in ?z) (not (= ?z B)))\n                                  (and (at ?z ?l) (not (at ?z ?m)))))) )\n\n      ; Put the item in the briefcase.\n      (:action put-in\n           :parameters (?x - physob ?l - location)\n           :precondition (not (= ?x B))  ; the item must not be the briefcase itself\n           :effect (when (and (at ?x ?l) (at B ?l))\n                 (in ?x)) )\n\n      ; Take the item out of the briefcase.\n      (:action take-out\n           :parameters (?x - physob)\n           :precondition (not (= ?x B)) ; the item must be the briefcase itself\n           :effect (not (in ?x)) )\n    )"); some (((v1).constants).length)) = some 3 := by kernel_rfl
-- domain.rs:15
example : (do let v1 ← value? (parseDomain c!"(define (domain briefcase-world)\n      (:requirements :strips :equality :typing :conditional-effects)\n      (:types location physob)\n      (:constants\n            B ; the briefcase\n            P ; the paycheck\n            D\n            - physob)\n      (:predicates (at ?x - physob ?y - location) ; an item is at a location\n                   (in ?x ?y - physob))           ; an item is in another item\n      (:constraints (and))\n\n      ; Move briefcase from one location to another.\n      (:action mov-B\n           :parameters (?m ?l - location)\n           :precondition (and (at B ?m) (not (= ?m ?l)))\n           :effect (and (at B ?l) (not (at B ?m))\n                        (forall (?z)\n                            (when (and (in ?z) (not (= ?z B)))\n                                  (and (at ?z ?l) (not (at ?z ?m)))))) )\n\n      ; Put the item in the briefcase.\n      (:action put-in\n           :parameters (?x - physob ?l - location)\n           :precondition (not (= ?x B))  ; the item must not be the briefcase itself\n           :effect (when (and (at ?x ?l) (at B ?l))\n                 (in ?x)) )\n\n      ; Take the item out of the briefcase.\n      (:action take-out\n           :parameters (?x - physob)\n           :precondition (not (= ?x B)) ; the item must be the briefcase itself\n           :effect (not (in ?x)) )\n    )"); some (((v1).predicates).length)) = some 2 := by kernel_rfl
-- domain.rs:15
example : (do let v1 ← value? (parseDomain c!"(define (domain briefcase-world)\n      (:requirements :strips :equality :typing :conditional-effects)\n      (:types location physob)\n      (:constants\n            B ; the briefcase\n            P ; the paycheck\n            D\n            - physob)\n      (:predicates (at ?x - physob ?y - location) ; an item is at a location\n                   (in ?x ?y - physob))           ; an item is in another item\n      (:constraints (and))\n\n      ; Move briefcase from one location to another.\n      (:action mov-B\n           :parameters (?m ?l - location)\n           :precondition (and (at B ?m) (not (= ?m ?l)))\n           :effect (and (at B ?l) (not (at B ?m))\n                        (forall (?z)\n                            (when (and (in ?z) (not (= ?z B)))\n                                  (and (at ?z ?l) (not (at ?z ?m)))))) )\n\n      ; Put the item in the briefcase.\n      (:action put-in\n           :parameters (?x - physob ?l - location)\n           :precondition (not (= ?x B))  ; the item must not be the briefcase itself\n           :effect (when (and (at ?x ?l) (at B ?l))\n                 (in ?x)) )\n\n      ; Take the item out of the briefcase.\n      (:action take-out\n           :parameters (?x - physob)\n           :precondition (not (= ?x B)) ; the item must be the briefcase itself\n           :effect (not (in ?x)) )\n    )"); some (((v1).constraints).isEmpty)) = some true := by kernel_rfl
-- domain.rs:15
example : (do let v1 ← value? (parseDomain c!"(define (domain briefcase-world)\n      (:requirements :strips :equality :typing :conditional-effects)\n      (:types location physob)\n      (:constants\n            B ; the briefcase\n            P ; the paycheck\n            D\n            - physob)\n      (:predicates (at ?x - physob ?y - location) ; an item is at a location\n                   (in ?x ?y - physob))           ; an item is in another item\n      (:constraints (and))\n\n      ; Move briefcase from one location to another.\n      (:action mov-B\n           :parameters (?m ?l - location)\n           :precondition (and (at B ?m) (not (= ?m ?l)))\n           :effect (and (at B ?l) (not (at B ?m))\n                        (forall (?z)\n                            (when (and (in ?z) (not (= ?z B)))\n                                  (and (at ?z ?l) (not (at ?z ?m)))))) )\n\n      ; Put the item in the briefcase.\n      (:action put-in\n           :parameters (?x - physob ?l - location)\n           :precondition (not (= ?x B))  ; the item must not be the briefcase itself\n           :effect (when (and (at ?x ?l) (at B ?l))\n                 (in ?x)) )\n\n      ; Take the item out of the briefcase.\n      (:action take-out\n           :parameters (?x - physob)\n           :precondition (not (= ?x B)) ; the item must be the briefcase itself\n           :effect (not (in ?x)) )\n    )"); some (((v1).structure_).length)) = some 3 := by kernel_rfl

/-! ### `/repo/src/types/duration_constraint.rs` -/
-- duration_constraint.rs:72, duration_constraint.rs:81
example : isOk (parseSimpleDuration c!"(>= ?duration 1.23)") = true := by kernel_rfl
-- duration_constraint.rs:81
example : isOk (parseSimpleDuration c!"(at end (<= ?duration 1.23))") = true := by kernel_rfl

/-! ### `/repo/src/types/function_typed_list.rs` -/
-- function_typed_list.rs:9
example : some (([(Typed.mk (Name.new c!"location") Ty.number), (Typed.mk (Name.new c!"physob") Ty.number)]).length) = some 2 := by kernel_rfl

/-! ### `/repo/src/types/literal.rs` -/
-- literal.rs:41
example : isOk ((atomicFormula parseTerm) c!"(= x y)") = true := by kernel_rfl
-- literal.rs:41
example : (do let v1 ← value? ((atomicFormula parseTerm) c!"(= x y)"); some ((into v1))) = some (Literal.pos (AtomicFormula.equality (Term.name (Name.new c!"x")) (Term.name (Name.new c!"y")))) := by kernel_rfl

/-! ### `/repo/src/types/name.rs` -/
-- name.rs:77
example : some ((Name.new c!"name")) = some (Name.new c!"name") := by kernel_rfl

/-! ### `/repo/src/types/number.rs` -/
-- number.rs:16
example : some ((num 0x42280000)) = some (num 0x42280000) := by kernel_rfl

/-! ### `/repo/src/types/requirement.rs` -/
-- requirement.rs:301
example : Requirement.strips.str = c!":strips" := by kernel_rfl
-- requirement.rs:301
example : Requirement.typing.str = c!":typing" := by kernel_rfl
-- requirement.rs:301
example : Requirement.negativePreconditions.str = c!":negative-preconditions" := by kernel_rfl
-- requirement.rs:301
example : Requirement.disjunctivePreconditions.str = c!":disjunctive-preconditions" := by kernel_rfl
-- requirement.rs:301
example : Requirement.equality.str = c!":equality" := by kernel_rfl
-- requirement.rs:301
example : Requirement.existentialPreconditions.str = c!":existential-preconditions" := by kernel_rfl
-- requirement.rs:301
example : Requirement.universalPreconditions.str = c!":universal-preconditions" := by kernel_rfl
-- requirement.rs:301
example : Requirement.quantifiedPreconditions.str = c!":quantified-preconditions" := by kernel_rfl
-- requirement.rs:301
example : Requirement.conditionalEffects.str = c!":conditional-effects" := by kernel_rfl
-- requirement.rs:301
example : Requirement.fluents.str = c!":fluents" := by kernel_rfl
-- requirement.rs:301
example : Requirement.numericFluents.str = c!":numeric-fluents" := by kernel_rfl
-- requirement.rs:301
example : Requirement.adl.str = c!":adl" := by kernel_rfl
-- requirement.rs:301
example : Requirement.durativeActions.str = c!":durative-actions" := by kernel_rfl
-- requirement.rs:301
example : Requirement.durationInequalities.str = c!":duration-inequalities" := by kernel_rfl
-- requirement.rs:301
example : Requirement.continuousEffects.str = c!":continuous-effects" := by kernel_rfl
-- requirement.rs:301
example : Requirement.derivedPredicates.str = c!":derived-predicates" := by kernel_rfl
-- requirement.rs:301
example : Requirement.timedInitialLiterals.str = c!":timed-initial-literals" := by kernel_rfl
-- requirement.rs:301
example : Requirement.preferences.str = c!":preferences" := by kernel_rfl
-- requirement.rs:301
example : Requirement.constraints.str = c!":constraints" := by kernel_rfl
-- requirement.rs:301
example : Requirement.actionCosts.str = c!":action-costs" := by kernel_rfl

/-! ### `/repo/src/types/requirements.rs` -/
-- requirements.rs:13
example : some (([Requirement.adl, Requirement.strips, Requirement.constraints]).length) = some 3 := by kernel_rfl

/-! ### `/repo/src/types/type.rs` -/
-- type.rs:142
example : isOk (parseType c!"object") = true := by kernel_rfl
-- type.rs:151
example : isOk (parseType c!"(either object number)") = true := by kernel_rfl

/-! ### `/repo/src/types/typed.rs` -/
-- typed.rs:37
example : some ((Typed.mk (Name.new c!"kitchen") (Ty.exactly (Name.new c!"room")))) = some (Typed.mk (Name.new c!"kitchen") (Ty.exactly (Name.new c!"room"))) := by kernel_rfl
-- typed.rs:49
example : some ((Typed.mk (Name.new c!"georgia") (Ty.eitherOf [(Name.new c!"country"), (Name.new c!"state")]))) = some (Typed.mk (Name.new c!"georgia") (Ty.eitherOf [(Name.new c!"country"), (Name.new c!"state")])) := by kernel_rfl

/-! ### `/repo/src/types/typed_list.rs` -/
-- typed_list.rs:7
example : some (([(Typed.mk (Name.new c!"location") Ty.object), (Typed.mk (Name.new c!"physob") Ty.object)]).length) = some 2 := by kernel_rfl

/-! ### Assertions written in other forms -/

-- requirement.rs:340, 358, 371
example : [Requirement.strips, .typing, .negativePreconditions, .disjunctivePreconditions, .equality,
    .quantifiedPreconditions, .continuousEffects, .adl].all Requirement.adl.contains = true := by kernel_rfl
example : [Requirement.existentialPreconditions, .universalPreconditions,
    .quantifiedPreconditions].all Requirement.quantifiedPreconditions.contains = true := by kernel_rfl
example : [Requirement.numericFluents, .objectFluents, .fluents].all Requirement.fluents.contains = true := by
  kernel_rfl
-- requirements.rs:13, 42
example : (Requirement.toEffective [.adl, .strips, .constraints]).eraseDups.length = 9 := by kernel_rfl
example : [Requirement.strips, .typing, .negativePreconditions, .disjunctivePreconditions, .equality,
    .existentialPreconditions, .universalPreconditions, .conditionalEffects, .constraints].all
    (fun r => (Requirement.toEffective [.adl, .strips, .constraints]).contains r) = true := by kernel_rfl
example : Requirement.toEffective [] = [.strips] := by kernel_rfl
-- comments.rs:13, 25, 48, 56
example : ignoreEolComment c!"; nothing\n\t; and this line\n\tthen more" = .ok () c!"then more" := by kernel_rfl
example : ignoreEolComment c!"then more" = .ok () c!"then more" := by kernel_rfl
example : ignoreEolComment c!"; nothing" = .ok () [] := by kernel_rfl
example : ignoreEolComment c!"; nothing\n\r\tlast line" = .ok () c!"last line" := by kernel_rfl
-- empty_or.rs:43
example : emptyOr alpha1 c!"()" = .ok none [] := by kernel_rfl
example : emptyOr alpha1 c!"abc" = .ok (some c!"abc") [] := by kernel_rfl
-- utilities.rs:96
example : prefixExpr c!"either" (sepList1 (tag c!" ") parseName) c!"(either x y)"
    = .ok [Name.new c!"x", Name.new c!"y"] [] := by kernel_rfl
-- p_effect.rs:128
example : isOk (map PEffect.notAtomic (prefixExpr c!"not" (atomicFormula parseTerm)) c!"(not (at B ?m))")
    = true := by kernel_rfl
-- name.rs:263
example : Name.mapToStatic c!"object" = some c!"object" := by kernel_rfl
example : Name.mapToStatic c!"number" = some c!"number" := by kernel_rfl
-- number.rs:16
example : (Number.fromInt 42).bind (Number.eqInt · 42) = some true := by kernel_rfl
example : (Number.fromInt 42).map (Number.eq (num 0x42280000)) = some true := by kernel_rfl
example : Number.tryNew ⟨BitVec.ofNat 32 0x7fc00000⟩ = none := by kernel_rfl
example : Number.fromF32 ⟨BitVec.ofNat 32 0x7fc00000⟩ = none := by kernel_rfl
/-- The items an iterator yields in three calls of `next`. -/
def three (i : FlatIter α) : List Bool :=
  [i.next.1.isSome, i.next.2.next.1.isSome, i.next.2.next.2.next.1.isSome]
-- type.rs:142, 151
example : (value? (parseType c!"object")).map (three ·.intoIter) = some [true, false, false] := by kernel_rfl
example : (value? (parseType c!"(either object number)")).map (three ·.intoIter)
    = some [true, true, false] := by kernel_rfl
-- conditional_effect.rs:63, 72
example : (value? (parsePEffect c!"(= x y)")).map (fun a => three (CondEffect.single a).intoIter)
    = some [true, false, false] := by kernel_rfl
example : (do
    let a ← value? (parsePEffect c!"(= x y)")
    let b ← value? (parsePEffect c!"(assign fun-sym 1.23)")
    some (three (CondEffect.all [a, b]).intoIter)) = some [true, true, false] := by kernel_rfl
-- duration_constraint.rs:72, 81
example : (value? (parseSimpleDuration c!"(>= ?duration 1.23)")).map
    (fun a => three (DurationConstraint.single a).intoIter) = some [true, false, false] := by kernel_rfl
example : (do
    let a ← value? (parseSimpleDuration c!"(>= ?duration 1.23)")
    let b ← value? (parseSimpleDuration c!"(at end (<= ?duration 1.23))")
    some (three (DurationConstraint.all [a, b]).intoIter)) = some [true, true, false] := by kernel_rfl

/-! ### `/repo/tests/briefcase_world.rs` -/

-- lines 6-39 and 54-71
def briefcaseWorld : List Char := c!"\n    (define (domain briefcase-world)\n      (:requirements :strips :equality :typing :conditional-effects)\n      (:types location physob)\n      (:constants\n            B ; the briefcase\n            P ; the paycheck\n            D\n            - physob)\n      (:predicates (at ?x - physob ?y - location)\n                   (in ?x ?y - physob))\n\n      ; Move briefcase from one location to another.\n      (:action mov-B\n           :parameters (?m ?l - location)\n           :precondition (and (at B ?m) (not (= ?m ?l)))\n           :effect (and (at B ?l) (not (at B ?m))\n                        (forall (?z)\n                            (when (and (in ?z) (not (= ?z B)))\n                                  (and (at ?z ?l) (not (at ?z ?m)))))) )\n\n      ; Put the item in the briefcase.\n      (:action put-in\n           :parameters (?x - physob ?l - location)\n           :precondition (not (= ?x B))     ; the item must not be the briefcase itself\n           :effect (when\n                 (and (at ?x ?l) (at B ?l)) ; briefcase and item are at the same location\n                 (in ?x)) )                 ; ... then the item is in the briefcase.\n\n      ; Take the item out of the briefcase.\n      (:action take-out\n           :parameters (?x - physob)\n           :precondition (not (= ?x B))     ; the item must be the briefcase itself\n           :effect (not (in ?x)) )          ; the item is not in the briefcase anymore.\n    )\n    "
example : (match parseDomain briefcaseWorld with
  | .ok d r => (d.name == Name.new c!"briefcase-world" && d.requirements.length == 4 && d.types.length == 2
      && d.constants.length == 3 && d.predicates.length == 2 && d.structure_.length == 3 && r.isEmpty)
  | _ => false) = true := by kernel_rfl
-- lines 41-52 and 73-125
def briefcaseWorldProblem : List Char := c!"\n    (define (problem get-paid)\n        (:domain briefcase-world)\n        (:init\n               ; types: locations\n               (place home) (place office)\n               ; types: objects\n               (object p) (object d) (object b)\n               ; setup\n               (at B home) (at P home) (at D home) (in P))\n        (:goal (and (at B office) (at D office) (at P home)))\n    )\n    "
example : (match parseProblem briefcaseWorldProblem with
  | .ok p r => (p.name == Name.new c!"get-paid" && p.domain == Name.new c!"briefcase-world"
      && p.requires.isEmpty && p.init.length == 9 && p.goal.length == 3
      && (p.goal.filter fun g => match g with
        | .preference (.goal (.atomic (.predicate _ _))) => true
        | _ => false).length == 3 && r.isEmpty)
  | _ => false) = true := by kernel_rfl

end Pddl.Fidelity
