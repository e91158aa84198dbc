import Verif.Spec.Rename

/-!
# Keeping every name keeps every value
-/

namespace Pddl

theorem Name.rename_id : Name.rename id = id := funext fun n => by simp [Name.rename]

theorem Ty.mapNames_id : Ty.mapNames id = id := funext fun t => by cases t <;> simp [Ty.mapNames]

theorem Typed.mapNames_id : (Typed.mapNames id id : Typed α → Typed α) = id := funext fun t => by
  simp [Typed.mapNames, Ty.mapNames_id]

theorem varsMapNames_id : varsMapNames id = id := funext fun t => by simp [varsMapNames, Typed.mapNames_id]

mutual
theorem Term.mapNames_id1 : ∀ x : Term, x.mapNames id = x
  | .name x0 => by simp [Term.mapNames, Prod.map, List.map_id_fun, Option.map_id_fun, Ty.mapNames_id, Typed.mapNames_id, varsMapNames_id]
  | .var x0 => by simp [Term.mapNames, Prod.map, List.map_id_fun, Option.map_id_fun, Ty.mapNames_id, Typed.mapNames_id, varsMapNames_id]
  | .fn x0 x1 => by simp [Term.mapNames, Term.mapNamesL_id x1, Prod.map, List.map_id_fun, Option.map_id_fun, Ty.mapNames_id, Typed.mapNames_id, varsMapNames_id]
theorem Term.mapNamesL_id : ∀ xs : List Term, Term.mapNamesL id xs = xs
  | [] => by simp [Term.mapNamesL]
  | x :: xs => by simp [Term.mapNamesL, Term.mapNames_id1 x, Term.mapNamesL_id xs]
end

theorem Term.mapNames_id : Term.mapNames id = id := funext Term.mapNames_id1

theorem FunctionTerm.mapNames_id : FunctionTerm.mapNames id = id := funext fun x => by
  cases x <;> simp [FunctionTerm.mapNames, Term.mapNames_id, Prod.map, List.map_id_fun, Option.map_id_fun, Ty.mapNames_id, Typed.mapNames_id, varsMapNames_id]

theorem AtomicFormula.mapNames_id : (AtomicFormula.mapNames id id : AtomicFormula α → AtomicFormula α) = id := funext fun x => by
  cases x <;> simp [AtomicFormula.mapNames, Term.mapNames_id, FunctionTerm.mapNames_id, Prod.map, List.map_id_fun, Option.map_id_fun, Ty.mapNames_id, Typed.mapNames_id, varsMapNames_id]

theorem Literal.mapNames_id : (Literal.mapNames id id : Literal α → Literal α) = id := funext fun x => by
  cases x <;> simp [Literal.mapNames, Term.mapNames_id, FunctionTerm.mapNames_id, AtomicFormula.mapNames_id, Prod.map, List.map_id_fun, Option.map_id_fun, Ty.mapNames_id, Typed.mapNames_id, varsMapNames_id]

theorem Skeleton.mapNames_id : Skeleton.mapNames id = id := funext fun x => by
  cases x <;> simp [Skeleton.mapNames, Term.mapNames_id, FunctionTerm.mapNames_id, AtomicFormula.mapNames_id, Literal.mapNames_id, Prod.map, List.map_id_fun, Option.map_id_fun, Ty.mapNames_id, Typed.mapNames_id, varsMapNames_id]

theorem BasicFunctionTerm.mapNames_id : BasicFunctionTerm.mapNames id = id := funext fun x => by
  cases x <;> simp [BasicFunctionTerm.mapNames, Term.mapNames_id, FunctionTerm.mapNames_id, AtomicFormula.mapNames_id, Literal.mapNames_id, Skeleton.mapNames_id, Prod.map, List.map_id_fun, Option.map_id_fun, Ty.mapNames_id, Typed.mapNames_id, varsMapNames_id]

theorem FHead.mapNames_id : FHead.mapNames id = id := funext fun x => by
  cases x <;> simp [FHead.mapNames, Term.mapNames_id, FunctionTerm.mapNames_id, AtomicFormula.mapNames_id, Literal.mapNames_id, Skeleton.mapNames_id, BasicFunctionTerm.mapNames_id, Prod.map, List.map_id_fun, Option.map_id_fun, Ty.mapNames_id, Typed.mapNames_id, varsMapNames_id]

mutual
theorem FExp.mapNames_id1 : ∀ x : FExp, x.mapNames id = x
  | .number x0 => by simp [FExp.mapNames, Term.mapNames_id, FunctionTerm.mapNames_id, AtomicFormula.mapNames_id, Literal.mapNames_id, Skeleton.mapNames_id, BasicFunctionTerm.mapNames_id, FHead.mapNames_id, Prod.map, List.map_id_fun, Option.map_id_fun, Ty.mapNames_id, Typed.mapNames_id, varsMapNames_id]
  | .function x0 => by simp [FExp.mapNames, Term.mapNames_id, FunctionTerm.mapNames_id, AtomicFormula.mapNames_id, Literal.mapNames_id, Skeleton.mapNames_id, BasicFunctionTerm.mapNames_id, FHead.mapNames_id, Prod.map, List.map_id_fun, Option.map_id_fun, Ty.mapNames_id, Typed.mapNames_id, varsMapNames_id]
  | .negative x0 => by simp [FExp.mapNames, FExp.mapNames_id1 x0, Term.mapNames_id, FunctionTerm.mapNames_id, AtomicFormula.mapNames_id, Literal.mapNames_id, Skeleton.mapNames_id, BasicFunctionTerm.mapNames_id, FHead.mapNames_id, Prod.map, List.map_id_fun, Option.map_id_fun, Ty.mapNames_id, Typed.mapNames_id, varsMapNames_id]
  | .binaryOp x0 x1 x2 => by simp [FExp.mapNames, FExp.mapNames_id1 x1, FExp.mapNames_id1 x2, Term.mapNames_id, FunctionTerm.mapNames_id, AtomicFormula.mapNames_id, Literal.mapNames_id, Skeleton.mapNames_id, BasicFunctionTerm.mapNames_id, FHead.mapNames_id, Prod.map, List.map_id_fun, Option.map_id_fun, Ty.mapNames_id, Typed.mapNames_id, varsMapNames_id]
  | .multiOp x0 x1 x2 => by simp [FExp.mapNames, FExp.mapNames_id1 x1, FExp.mapNamesL_id x2, Term.mapNames_id, FunctionTerm.mapNames_id, AtomicFormula.mapNames_id, Literal.mapNames_id, Skeleton.mapNames_id, BasicFunctionTerm.mapNames_id, FHead.mapNames_id, Prod.map, List.map_id_fun, Option.map_id_fun, Ty.mapNames_id, Typed.mapNames_id, varsMapNames_id]
theorem FExp.mapNamesL_id : ∀ xs : List FExp, FExp.mapNamesL id xs = xs
  | [] => by simp [FExp.mapNamesL]
  | x :: xs => by simp [FExp.mapNamesL, FExp.mapNames_id1 x, FExp.mapNamesL_id xs]
end

theorem FExp.mapNames_id : FExp.mapNames id = id := funext FExp.mapNames_id1

mutual
theorem FExpDa.mapNames_id1 : ∀ x : FExpDa, x.mapNames id = x
  | .assign x0 x1 x2 => by simp [FExpDa.mapNames, FExpDa.mapNames_id1 x2, Term.mapNames_id, FunctionTerm.mapNames_id, AtomicFormula.mapNames_id, Literal.mapNames_id, Skeleton.mapNames_id, BasicFunctionTerm.mapNames_id, FHead.mapNames_id, FExp.mapNames_id, Prod.map, List.map_id_fun, Option.map_id_fun, Ty.mapNames_id, Typed.mapNames_id, varsMapNames_id]
  | .binaryOp x0 x1 x2 => by simp [FExpDa.mapNames, FExpDa.mapNames_id1 x1, FExpDa.mapNames_id1 x2, Term.mapNames_id, FunctionTerm.mapNames_id, AtomicFormula.mapNames_id, Literal.mapNames_id, Skeleton.mapNames_id, BasicFunctionTerm.mapNames_id, FHead.mapNames_id, FExp.mapNames_id, Prod.map, List.map_id_fun, Option.map_id_fun, Ty.mapNames_id, Typed.mapNames_id, varsMapNames_id]
  | .multiOp x0 x1 x2 => by simp [FExpDa.mapNames, FExpDa.mapNames_id1 x1, FExpDa.mapNamesL_id x2, Term.mapNames_id, FunctionTerm.mapNames_id, AtomicFormula.mapNames_id, Literal.mapNames_id, Skeleton.mapNames_id, BasicFunctionTerm.mapNames_id, FHead.mapNames_id, FExp.mapNames_id, Prod.map, List.map_id_fun, Option.map_id_fun, Ty.mapNames_id, Typed.mapNames_id, varsMapNames_id]
  | .negative x0 => by simp [FExpDa.mapNames, FExpDa.mapNames_id1 x0, Term.mapNames_id, FunctionTerm.mapNames_id, AtomicFormula.mapNames_id, Literal.mapNames_id, Skeleton.mapNames_id, BasicFunctionTerm.mapNames_id, FHead.mapNames_id, FExp.mapNames_id, Prod.map, List.map_id_fun, Option.map_id_fun, Ty.mapNames_id, Typed.mapNames_id, varsMapNames_id]
  | .duration  => by simp [FExpDa.mapNames, Term.mapNames_id, FunctionTerm.mapNames_id, AtomicFormula.mapNames_id, Literal.mapNames_id, Skeleton.mapNames_id, BasicFunctionTerm.mapNames_id, FHead.mapNames_id, FExp.mapNames_id, Prod.map, List.map_id_fun, Option.map_id_fun, Ty.mapNames_id, Typed.mapNames_id, varsMapNames_id]
  | .fExp x0 => by simp [FExpDa.mapNames, Term.mapNames_id, FunctionTerm.mapNames_id, AtomicFormula.mapNames_id, Literal.mapNames_id, Skeleton.mapNames_id, BasicFunctionTerm.mapNames_id, FHead.mapNames_id, FExp.mapNames_id, Prod.map, List.map_id_fun, Option.map_id_fun, Ty.mapNames_id, Typed.mapNames_id, varsMapNames_id]
theorem FExpDa.mapNamesL_id : ∀ xs : List FExpDa, FExpDa.mapNamesL id xs = xs
  | [] => by simp [FExpDa.mapNamesL]
  | x :: xs => by simp [FExpDa.mapNamesL, FExpDa.mapNames_id1 x, FExpDa.mapNamesL_id xs]
end

theorem FExpDa.mapNames_id : FExpDa.mapNames id = id := funext FExpDa.mapNames_id1

theorem FExpT.mapNames_id : FExpT.mapNames id = id := funext fun x => by
  cases x <;> simp [FExpT.mapNames, Term.mapNames_id, FunctionTerm.mapNames_id, AtomicFormula.mapNames_id, Literal.mapNames_id, Skeleton.mapNames_id, BasicFunctionTerm.mapNames_id, FHead.mapNames_id, FExp.mapNames_id, FExpDa.mapNames_id, Prod.map, List.map_id_fun, Option.map_id_fun, Ty.mapNames_id, Typed.mapNames_id, varsMapNames_id]

theorem FComp.mapNames_id : FComp.mapNames id = id := funext fun x => by
  cases x <;> simp [FComp.mapNames, Term.mapNames_id, FunctionTerm.mapNames_id, AtomicFormula.mapNames_id, Literal.mapNames_id, Skeleton.mapNames_id, BasicFunctionTerm.mapNames_id, FHead.mapNames_id, FExp.mapNames_id, FExpDa.mapNames_id, FExpT.mapNames_id, Prod.map, List.map_id_fun, Option.map_id_fun, Ty.mapNames_id, Typed.mapNames_id, varsMapNames_id]

theorem FAssignDa.mapNames_id : FAssignDa.mapNames id = id := funext fun x => by
  cases x <;> simp [FAssignDa.mapNames, Term.mapNames_id, FunctionTerm.mapNames_id, AtomicFormula.mapNames_id, Literal.mapNames_id, Skeleton.mapNames_id, BasicFunctionTerm.mapNames_id, FHead.mapNames_id, FExp.mapNames_id, FExpDa.mapNames_id, FExpT.mapNames_id, FComp.mapNames_id, Prod.map, List.map_id_fun, Option.map_id_fun, Ty.mapNames_id, Typed.mapNames_id, varsMapNames_id]

mutual
theorem MetricFExp.mapNames_id1 : ∀ x : MetricFExp, x.mapNames id = x
  | .binaryOp x0 x1 x2 => by simp [MetricFExp.mapNames, MetricFExp.mapNames_id1 x1, MetricFExp.mapNames_id1 x2, Term.mapNames_id, FunctionTerm.mapNames_id, AtomicFormula.mapNames_id, Literal.mapNames_id, Skeleton.mapNames_id, BasicFunctionTerm.mapNames_id, FHead.mapNames_id, FExp.mapNames_id, FExpDa.mapNames_id, FExpT.mapNames_id, FComp.mapNames_id, FAssignDa.mapNames_id, Prod.map, List.map_id_fun, Option.map_id_fun, Ty.mapNames_id, Typed.mapNames_id, varsMapNames_id]
  | .multiOp x0 x1 x2 => by simp [MetricFExp.mapNames, MetricFExp.mapNames_id1 x1, MetricFExp.mapNamesL_id x2, Term.mapNames_id, FunctionTerm.mapNames_id, AtomicFormula.mapNames_id, Literal.mapNames_id, Skeleton.mapNames_id, BasicFunctionTerm.mapNames_id, FHead.mapNames_id, FExp.mapNames_id, FExpDa.mapNames_id, FExpT.mapNames_id, FComp.mapNames_id, FAssignDa.mapNames_id, Prod.map, List.map_id_fun, Option.map_id_fun, Ty.mapNames_id, Typed.mapNames_id, varsMapNames_id]
  | .negative x0 => by simp [MetricFExp.mapNames, MetricFExp.mapNames_id1 x0, Term.mapNames_id, FunctionTerm.mapNames_id, AtomicFormula.mapNames_id, Literal.mapNames_id, Skeleton.mapNames_id, BasicFunctionTerm.mapNames_id, FHead.mapNames_id, FExp.mapNames_id, FExpDa.mapNames_id, FExpT.mapNames_id, FComp.mapNames_id, FAssignDa.mapNames_id, Prod.map, List.map_id_fun, Option.map_id_fun, Ty.mapNames_id, Typed.mapNames_id, varsMapNames_id]
  | .number x0 => by simp [MetricFExp.mapNames, Term.mapNames_id, FunctionTerm.mapNames_id, AtomicFormula.mapNames_id, Literal.mapNames_id, Skeleton.mapNames_id, BasicFunctionTerm.mapNames_id, FHead.mapNames_id, FExp.mapNames_id, FExpDa.mapNames_id, FExpT.mapNames_id, FComp.mapNames_id, FAssignDa.mapNames_id, Prod.map, List.map_id_fun, Option.map_id_fun, Ty.mapNames_id, Typed.mapNames_id, varsMapNames_id]
  | .function x0 x1 => by simp [MetricFExp.mapNames, Term.mapNames_id, FunctionTerm.mapNames_id, AtomicFormula.mapNames_id, Literal.mapNames_id, Skeleton.mapNames_id, BasicFunctionTerm.mapNames_id, FHead.mapNames_id, FExp.mapNames_id, FExpDa.mapNames_id, FExpT.mapNames_id, FComp.mapNames_id, FAssignDa.mapNames_id, Prod.map, List.map_id_fun, Option.map_id_fun, Ty.mapNames_id, Typed.mapNames_id, varsMapNames_id]
  | .totalTime  => by simp [MetricFExp.mapNames, Term.mapNames_id, FunctionTerm.mapNames_id, AtomicFormula.mapNames_id, Literal.mapNames_id, Skeleton.mapNames_id, BasicFunctionTerm.mapNames_id, FHead.mapNames_id, FExp.mapNames_id, FExpDa.mapNames_id, FExpT.mapNames_id, FComp.mapNames_id, FAssignDa.mapNames_id, Prod.map, List.map_id_fun, Option.map_id_fun, Ty.mapNames_id, Typed.mapNames_id, varsMapNames_id]
  | .isViolated x0 => by simp [MetricFExp.mapNames, Term.mapNames_id, FunctionTerm.mapNames_id, AtomicFormula.mapNames_id, Literal.mapNames_id, Skeleton.mapNames_id, BasicFunctionTerm.mapNames_id, FHead.mapNames_id, FExp.mapNames_id, FExpDa.mapNames_id, FExpT.mapNames_id, FComp.mapNames_id, FAssignDa.mapNames_id, Prod.map, List.map_id_fun, Option.map_id_fun, Ty.mapNames_id, Typed.mapNames_id, varsMapNames_id]
theorem MetricFExp.mapNamesL_id : ∀ xs : List MetricFExp, MetricFExp.mapNamesL id xs = xs
  | [] => by simp [MetricFExp.mapNamesL]
  | x :: xs => by simp [MetricFExp.mapNamesL, MetricFExp.mapNames_id1 x, MetricFExp.mapNamesL_id xs]
end

theorem MetricFExp.mapNames_id : MetricFExp.mapNames id = id := funext MetricFExp.mapNames_id1

mutual
theorem GD.mapNames_id1 : ∀ x : GD, x.mapNames id = x
  | .atomic x0 => by simp [GD.mapNames, Term.mapNames_id, FunctionTerm.mapNames_id, AtomicFormula.mapNames_id, Literal.mapNames_id, Skeleton.mapNames_id, BasicFunctionTerm.mapNames_id, FHead.mapNames_id, FExp.mapNames_id, FExpDa.mapNames_id, FExpT.mapNames_id, FComp.mapNames_id, FAssignDa.mapNames_id, MetricFExp.mapNames_id, Prod.map, List.map_id_fun, Option.map_id_fun, Ty.mapNames_id, Typed.mapNames_id, varsMapNames_id]
  | .literal x0 => by simp [GD.mapNames, Term.mapNames_id, FunctionTerm.mapNames_id, AtomicFormula.mapNames_id, Literal.mapNames_id, Skeleton.mapNames_id, BasicFunctionTerm.mapNames_id, FHead.mapNames_id, FExp.mapNames_id, FExpDa.mapNames_id, FExpT.mapNames_id, FComp.mapNames_id, FAssignDa.mapNames_id, MetricFExp.mapNames_id, Prod.map, List.map_id_fun, Option.map_id_fun, Ty.mapNames_id, Typed.mapNames_id, varsMapNames_id]
  | .and x0 => by simp [GD.mapNames, GD.mapNamesL_id x0, Term.mapNames_id, FunctionTerm.mapNames_id, AtomicFormula.mapNames_id, Literal.mapNames_id, Skeleton.mapNames_id, BasicFunctionTerm.mapNames_id, FHead.mapNames_id, FExp.mapNames_id, FExpDa.mapNames_id, FExpT.mapNames_id, FComp.mapNames_id, FAssignDa.mapNames_id, MetricFExp.mapNames_id, Prod.map, List.map_id_fun, Option.map_id_fun, Ty.mapNames_id, Typed.mapNames_id, varsMapNames_id]
  | .or x0 => by simp [GD.mapNames, GD.mapNamesL_id x0, Term.mapNames_id, FunctionTerm.mapNames_id, AtomicFormula.mapNames_id, Literal.mapNames_id, Skeleton.mapNames_id, BasicFunctionTerm.mapNames_id, FHead.mapNames_id, FExp.mapNames_id, FExpDa.mapNames_id, FExpT.mapNames_id, FComp.mapNames_id, FAssignDa.mapNames_id, MetricFExp.mapNames_id, Prod.map, List.map_id_fun, Option.map_id_fun, Ty.mapNames_id, Typed.mapNames_id, varsMapNames_id]
  | .not x0 => by simp [GD.mapNames, GD.mapNames_id1 x0, Term.mapNames_id, FunctionTerm.mapNames_id, AtomicFormula.mapNames_id, Literal.mapNames_id, Skeleton.mapNames_id, BasicFunctionTerm.mapNames_id, FHead.mapNames_id, FExp.mapNames_id, FExpDa.mapNames_id, FExpT.mapNames_id, FComp.mapNames_id, FAssignDa.mapNames_id, MetricFExp.mapNames_id, Prod.map, List.map_id_fun, Option.map_id_fun, Ty.mapNames_id, Typed.mapNames_id, varsMapNames_id]
  | .imply x0 x1 => by simp [GD.mapNames, GD.mapNames_id1 x0, GD.mapNames_id1 x1, Term.mapNames_id, FunctionTerm.mapNames_id, AtomicFormula.mapNames_id, Literal.mapNames_id, Skeleton.mapNames_id, BasicFunctionTerm.mapNames_id, FHead.mapNames_id, FExp.mapNames_id, FExpDa.mapNames_id, FExpT.mapNames_id, FComp.mapNames_id, FAssignDa.mapNames_id, MetricFExp.mapNames_id, Prod.map, List.map_id_fun, Option.map_id_fun, Ty.mapNames_id, Typed.mapNames_id, varsMapNames_id]
  | .exist x0 x1 => by simp [GD.mapNames, GD.mapNames_id1 x1, Term.mapNames_id, FunctionTerm.mapNames_id, AtomicFormula.mapNames_id, Literal.mapNames_id, Skeleton.mapNames_id, BasicFunctionTerm.mapNames_id, FHead.mapNames_id, FExp.mapNames_id, FExpDa.mapNames_id, FExpT.mapNames_id, FComp.mapNames_id, FAssignDa.mapNames_id, MetricFExp.mapNames_id, Prod.map, List.map_id_fun, Option.map_id_fun, Ty.mapNames_id, Typed.mapNames_id, varsMapNames_id]
  | .forall_ x0 x1 => by simp [GD.mapNames, GD.mapNames_id1 x1, Term.mapNames_id, FunctionTerm.mapNames_id, AtomicFormula.mapNames_id, Literal.mapNames_id, Skeleton.mapNames_id, BasicFunctionTerm.mapNames_id, FHead.mapNames_id, FExp.mapNames_id, FExpDa.mapNames_id, FExpT.mapNames_id, FComp.mapNames_id, FAssignDa.mapNames_id, MetricFExp.mapNames_id, Prod.map, List.map_id_fun, Option.map_id_fun, Ty.mapNames_id, Typed.mapNames_id, varsMapNames_id]
  | .fComp x0 => by simp [GD.mapNames, Term.mapNames_id, FunctionTerm.mapNames_id, AtomicFormula.mapNames_id, Literal.mapNames_id, Skeleton.mapNames_id, BasicFunctionTerm.mapNames_id, FHead.mapNames_id, FExp.mapNames_id, FExpDa.mapNames_id, FExpT.mapNames_id, FComp.mapNames_id, FAssignDa.mapNames_id, MetricFExp.mapNames_id, Prod.map, List.map_id_fun, Option.map_id_fun, Ty.mapNames_id, Typed.mapNames_id, varsMapNames_id]
theorem GD.mapNamesL_id : ∀ xs : List GD, GD.mapNamesL id xs = xs
  | [] => by simp [GD.mapNamesL]
  | x :: xs => by simp [GD.mapNamesL, GD.mapNames_id1 x, GD.mapNamesL_id xs]
end

theorem GD.mapNames_id : GD.mapNames id = id := funext GD.mapNames_id1

theorem PrefGD.mapNames_id : PrefGD.mapNames id = id := funext fun x => by
  cases x <;> simp [PrefGD.mapNames, Term.mapNames_id, FunctionTerm.mapNames_id, AtomicFormula.mapNames_id, Literal.mapNames_id, Skeleton.mapNames_id, BasicFunctionTerm.mapNames_id, FHead.mapNames_id, FExp.mapNames_id, FExpDa.mapNames_id, FExpT.mapNames_id, FComp.mapNames_id, FAssignDa.mapNames_id, MetricFExp.mapNames_id, GD.mapNames_id, Prod.map, List.map_id_fun, Option.map_id_fun, Ty.mapNames_id, Typed.mapNames_id, varsMapNames_id]

mutual
theorem PreGD.mapNames_id1 : ∀ x : PreGD, x.mapNames id = x
  | .preference x0 => by simp [PreGD.mapNames, Term.mapNames_id, FunctionTerm.mapNames_id, AtomicFormula.mapNames_id, Literal.mapNames_id, Skeleton.mapNames_id, BasicFunctionTerm.mapNames_id, FHead.mapNames_id, FExp.mapNames_id, FExpDa.mapNames_id, FExpT.mapNames_id, FComp.mapNames_id, FAssignDa.mapNames_id, MetricFExp.mapNames_id, GD.mapNames_id, PrefGD.mapNames_id, Prod.map, List.map_id_fun, Option.map_id_fun, Ty.mapNames_id, Typed.mapNames_id, varsMapNames_id]
  | .forall_ x0 x1 => by simp [PreGD.mapNames, PreGD.mapNamesL_id x1, Term.mapNames_id, FunctionTerm.mapNames_id, AtomicFormula.mapNames_id, Literal.mapNames_id, Skeleton.mapNames_id, BasicFunctionTerm.mapNames_id, FHead.mapNames_id, FExp.mapNames_id, FExpDa.mapNames_id, FExpT.mapNames_id, FComp.mapNames_id, FAssignDa.mapNames_id, MetricFExp.mapNames_id, GD.mapNames_id, PrefGD.mapNames_id, Prod.map, List.map_id_fun, Option.map_id_fun, Ty.mapNames_id, Typed.mapNames_id, varsMapNames_id]
theorem PreGD.mapNamesL_id : ∀ xs : List PreGD, PreGD.mapNamesL id xs = xs
  | [] => by simp [PreGD.mapNamesL]
  | x :: xs => by simp [PreGD.mapNamesL, PreGD.mapNames_id1 x, PreGD.mapNamesL_id xs]
end

theorem PreGD.mapNames_id : PreGD.mapNames id = id := funext PreGD.mapNames_id1

mutual
theorem ConGD.mapNames_id1 : ∀ x : ConGD, x.mapNames id = x
  | .and x0 => by simp [ConGD.mapNames, ConGD.mapNamesL_id x0, Term.mapNames_id, FunctionTerm.mapNames_id, AtomicFormula.mapNames_id, Literal.mapNames_id, Skeleton.mapNames_id, BasicFunctionTerm.mapNames_id, FHead.mapNames_id, FExp.mapNames_id, FExpDa.mapNames_id, FExpT.mapNames_id, FComp.mapNames_id, FAssignDa.mapNames_id, MetricFExp.mapNames_id, GD.mapNames_id, PrefGD.mapNames_id, PreGD.mapNames_id, Prod.map, List.map_id_fun, Option.map_id_fun, Ty.mapNames_id, Typed.mapNames_id, varsMapNames_id]
  | .forall_ x0 x1 => by simp [ConGD.mapNames, ConGD.mapNames_id1 x1, Term.mapNames_id, FunctionTerm.mapNames_id, AtomicFormula.mapNames_id, Literal.mapNames_id, Skeleton.mapNames_id, BasicFunctionTerm.mapNames_id, FHead.mapNames_id, FExp.mapNames_id, FExpDa.mapNames_id, FExpT.mapNames_id, FComp.mapNames_id, FAssignDa.mapNames_id, MetricFExp.mapNames_id, GD.mapNames_id, PrefGD.mapNames_id, PreGD.mapNames_id, Prod.map, List.map_id_fun, Option.map_id_fun, Ty.mapNames_id, Typed.mapNames_id, varsMapNames_id]
  | .atEnd x0 => by simp [ConGD.mapNames, Term.mapNames_id, FunctionTerm.mapNames_id, AtomicFormula.mapNames_id, Literal.mapNames_id, Skeleton.mapNames_id, BasicFunctionTerm.mapNames_id, FHead.mapNames_id, FExp.mapNames_id, FExpDa.mapNames_id, FExpT.mapNames_id, FComp.mapNames_id, FAssignDa.mapNames_id, MetricFExp.mapNames_id, GD.mapNames_id, PrefGD.mapNames_id, PreGD.mapNames_id, Prod.map, List.map_id_fun, Option.map_id_fun, Ty.mapNames_id, Typed.mapNames_id, varsMapNames_id]
  | .always x0 => by simp [ConGD.mapNames, Con2GD.mapNames_id1 x0, Term.mapNames_id, FunctionTerm.mapNames_id, AtomicFormula.mapNames_id, Literal.mapNames_id, Skeleton.mapNames_id, BasicFunctionTerm.mapNames_id, FHead.mapNames_id, FExp.mapNames_id, FExpDa.mapNames_id, FExpT.mapNames_id, FComp.mapNames_id, FAssignDa.mapNames_id, MetricFExp.mapNames_id, GD.mapNames_id, PrefGD.mapNames_id, PreGD.mapNames_id, Prod.map, List.map_id_fun, Option.map_id_fun, Ty.mapNames_id, Typed.mapNames_id, varsMapNames_id]
  | .sometime x0 => by simp [ConGD.mapNames, Con2GD.mapNames_id1 x0, Term.mapNames_id, FunctionTerm.mapNames_id, AtomicFormula.mapNames_id, Literal.mapNames_id, Skeleton.mapNames_id, BasicFunctionTerm.mapNames_id, FHead.mapNames_id, FExp.mapNames_id, FExpDa.mapNames_id, FExpT.mapNames_id, FComp.mapNames_id, FAssignDa.mapNames_id, MetricFExp.mapNames_id, GD.mapNames_id, PrefGD.mapNames_id, PreGD.mapNames_id, Prod.map, List.map_id_fun, Option.map_id_fun, Ty.mapNames_id, Typed.mapNames_id, varsMapNames_id]
  | .within x0 x1 => by simp [ConGD.mapNames, Con2GD.mapNames_id1 x1, Term.mapNames_id, FunctionTerm.mapNames_id, AtomicFormula.mapNames_id, Literal.mapNames_id, Skeleton.mapNames_id, BasicFunctionTerm.mapNames_id, FHead.mapNames_id, FExp.mapNames_id, FExpDa.mapNames_id, FExpT.mapNames_id, FComp.mapNames_id, FAssignDa.mapNames_id, MetricFExp.mapNames_id, GD.mapNames_id, PrefGD.mapNames_id, PreGD.mapNames_id, Prod.map, List.map_id_fun, Option.map_id_fun, Ty.mapNames_id, Typed.mapNames_id, varsMapNames_id]
  | .atMostOnce x0 => by simp [ConGD.mapNames, Con2GD.mapNames_id1 x0, Term.mapNames_id, FunctionTerm.mapNames_id, AtomicFormula.mapNames_id, Literal.mapNames_id, Skeleton.mapNames_id, BasicFunctionTerm.mapNames_id, FHead.mapNames_id, FExp.mapNames_id, FExpDa.mapNames_id, FExpT.mapNames_id, FComp.mapNames_id, FAssignDa.mapNames_id, MetricFExp.mapNames_id, GD.mapNames_id, PrefGD.mapNames_id, PreGD.mapNames_id, Prod.map, List.map_id_fun, Option.map_id_fun, Ty.mapNames_id, Typed.mapNames_id, varsMapNames_id]
  | .sometimeAfter x0 x1 => by simp [ConGD.mapNames, Con2GD.mapNames_id1 x0, Con2GD.mapNames_id1 x1, Term.mapNames_id, FunctionTerm.mapNames_id, AtomicFormula.mapNames_id, Literal.mapNames_id, Skeleton.mapNames_id, BasicFunctionTerm.mapNames_id, FHead.mapNames_id, FExp.mapNames_id, FExpDa.mapNames_id, FExpT.mapNames_id, FComp.mapNames_id, FAssignDa.mapNames_id, MetricFExp.mapNames_id, GD.mapNames_id, PrefGD.mapNames_id, PreGD.mapNames_id, Prod.map, List.map_id_fun, Option.map_id_fun, Ty.mapNames_id, Typed.mapNames_id, varsMapNames_id]
  | .sometimeBefore x0 x1 => by simp [ConGD.mapNames, Con2GD.mapNames_id1 x0, Con2GD.mapNames_id1 x1, Term.mapNames_id, FunctionTerm.mapNames_id, AtomicFormula.mapNames_id, Literal.mapNames_id, Skeleton.mapNames_id, BasicFunctionTerm.mapNames_id, FHead.mapNames_id, FExp.mapNames_id, FExpDa.mapNames_id, FExpT.mapNames_id, FComp.mapNames_id, FAssignDa.mapNames_id, MetricFExp.mapNames_id, GD.mapNames_id, PrefGD.mapNames_id, PreGD.mapNames_id, Prod.map, List.map_id_fun, Option.map_id_fun, Ty.mapNames_id, Typed.mapNames_id, varsMapNames_id]
  | .alwaysWithin x0 x1 x2 => by simp [ConGD.mapNames, Con2GD.mapNames_id1 x1, Con2GD.mapNames_id1 x2, Term.mapNames_id, FunctionTerm.mapNames_id, AtomicFormula.mapNames_id, Literal.mapNames_id, Skeleton.mapNames_id, BasicFunctionTerm.mapNames_id, FHead.mapNames_id, FExp.mapNames_id, FExpDa.mapNames_id, FExpT.mapNames_id, FComp.mapNames_id, FAssignDa.mapNames_id, MetricFExp.mapNames_id, GD.mapNames_id, PrefGD.mapNames_id, PreGD.mapNames_id, Prod.map, List.map_id_fun, Option.map_id_fun, Ty.mapNames_id, Typed.mapNames_id, varsMapNames_id]
  | .holdDuring x0 x1 x2 => by simp [ConGD.mapNames, Con2GD.mapNames_id1 x2, Term.mapNames_id, FunctionTerm.mapNames_id, AtomicFormula.mapNames_id, Literal.mapNames_id, Skeleton.mapNames_id, BasicFunctionTerm.mapNames_id, FHead.mapNames_id, FExp.mapNames_id, FExpDa.mapNames_id, FExpT.mapNames_id, FComp.mapNames_id, FAssignDa.mapNames_id, MetricFExp.mapNames_id, GD.mapNames_id, PrefGD.mapNames_id, PreGD.mapNames_id, Prod.map, List.map_id_fun, Option.map_id_fun, Ty.mapNames_id, Typed.mapNames_id, varsMapNames_id]
  | .holdAfter x0 x1 => by simp [ConGD.mapNames, Con2GD.mapNames_id1 x1, Term.mapNames_id, FunctionTerm.mapNames_id, AtomicFormula.mapNames_id, Literal.mapNames_id, Skeleton.mapNames_id, BasicFunctionTerm.mapNames_id, FHead.mapNames_id, FExp.mapNames_id, FExpDa.mapNames_id, FExpT.mapNames_id, FComp.mapNames_id, FAssignDa.mapNames_id, MetricFExp.mapNames_id, GD.mapNames_id, PrefGD.mapNames_id, PreGD.mapNames_id, Prod.map, List.map_id_fun, Option.map_id_fun, Ty.mapNames_id, Typed.mapNames_id, varsMapNames_id]
theorem Con2GD.mapNames_id1 : ∀ x : Con2GD, x.mapNames id = x
  | .goal g => by simp [Con2GD.mapNames, GD.mapNames_id]
  | .nested g => by simp [Con2GD.mapNames, ConGD.mapNames_id1 g]
theorem ConGD.mapNamesL_id : ∀ xs : List ConGD, ConGD.mapNamesL id xs = xs
  | [] => by simp [ConGD.mapNamesL]
  | x :: xs => by simp [ConGD.mapNamesL, ConGD.mapNames_id1 x, ConGD.mapNamesL_id xs]
end

theorem ConGD.mapNames_id : ConGD.mapNames id = id := funext ConGD.mapNames_id1

theorem Con2GD.mapNames_id : Con2GD.mapNames id = id := funext Con2GD.mapNames_id1

mutual
theorem PrefConGD.mapNames_id1 : ∀ x : PrefConGD, x.mapNames id = x
  | .goal x0 => by simp [PrefConGD.mapNames, Term.mapNames_id, FunctionTerm.mapNames_id, AtomicFormula.mapNames_id, Literal.mapNames_id, Skeleton.mapNames_id, BasicFunctionTerm.mapNames_id, FHead.mapNames_id, FExp.mapNames_id, FExpDa.mapNames_id, FExpT.mapNames_id, FComp.mapNames_id, FAssignDa.mapNames_id, MetricFExp.mapNames_id, GD.mapNames_id, PrefGD.mapNames_id, PreGD.mapNames_id, ConGD.mapNames_id, Con2GD.mapNames_id, Prod.map, List.map_id_fun, Option.map_id_fun, Ty.mapNames_id, Typed.mapNames_id, varsMapNames_id]
  | .forall_ x0 x1 => by simp [PrefConGD.mapNames, PrefConGD.mapNamesL_id x1, Term.mapNames_id, FunctionTerm.mapNames_id, AtomicFormula.mapNames_id, Literal.mapNames_id, Skeleton.mapNames_id, BasicFunctionTerm.mapNames_id, FHead.mapNames_id, FExp.mapNames_id, FExpDa.mapNames_id, FExpT.mapNames_id, FComp.mapNames_id, FAssignDa.mapNames_id, MetricFExp.mapNames_id, GD.mapNames_id, PrefGD.mapNames_id, PreGD.mapNames_id, ConGD.mapNames_id, Con2GD.mapNames_id, Prod.map, List.map_id_fun, Option.map_id_fun, Ty.mapNames_id, Typed.mapNames_id, varsMapNames_id]
  | .preference x0 x1 => by simp [PrefConGD.mapNames, Term.mapNames_id, FunctionTerm.mapNames_id, AtomicFormula.mapNames_id, Literal.mapNames_id, Skeleton.mapNames_id, BasicFunctionTerm.mapNames_id, FHead.mapNames_id, FExp.mapNames_id, FExpDa.mapNames_id, FExpT.mapNames_id, FComp.mapNames_id, FAssignDa.mapNames_id, MetricFExp.mapNames_id, GD.mapNames_id, PrefGD.mapNames_id, PreGD.mapNames_id, ConGD.mapNames_id, Con2GD.mapNames_id, Prod.map, List.map_id_fun, Option.map_id_fun, Ty.mapNames_id, Typed.mapNames_id, varsMapNames_id]
theorem PrefConGD.mapNamesL_id : ∀ xs : List PrefConGD, PrefConGD.mapNamesL id xs = xs
  | [] => by simp [PrefConGD.mapNamesL]
  | x :: xs => by simp [PrefConGD.mapNamesL, PrefConGD.mapNames_id1 x, PrefConGD.mapNamesL_id xs]
end

theorem PrefConGD.mapNames_id : PrefConGD.mapNames id = id := funext PrefConGD.mapNames_id1

theorem PEffect.mapNames_id : PEffect.mapNames id = id := funext fun x => by
  cases x <;> simp [PEffect.mapNames, Term.mapNames_id, FunctionTerm.mapNames_id, AtomicFormula.mapNames_id, Literal.mapNames_id, Skeleton.mapNames_id, BasicFunctionTerm.mapNames_id, FHead.mapNames_id, FExp.mapNames_id, FExpDa.mapNames_id, FExpT.mapNames_id, FComp.mapNames_id, FAssignDa.mapNames_id, MetricFExp.mapNames_id, GD.mapNames_id, PrefGD.mapNames_id, PreGD.mapNames_id, ConGD.mapNames_id, Con2GD.mapNames_id, PrefConGD.mapNames_id, Prod.map, List.map_id_fun, Option.map_id_fun, Ty.mapNames_id, Typed.mapNames_id, varsMapNames_id]

theorem CondEffect.mapNames_id : CondEffect.mapNames id = id := funext fun x => by
  cases x <;> simp [CondEffect.mapNames, Term.mapNames_id, FunctionTerm.mapNames_id, AtomicFormula.mapNames_id, Literal.mapNames_id, Skeleton.mapNames_id, BasicFunctionTerm.mapNames_id, FHead.mapNames_id, FExp.mapNames_id, FExpDa.mapNames_id, FExpT.mapNames_id, FComp.mapNames_id, FAssignDa.mapNames_id, MetricFExp.mapNames_id, GD.mapNames_id, PrefGD.mapNames_id, PreGD.mapNames_id, ConGD.mapNames_id, Con2GD.mapNames_id, PrefConGD.mapNames_id, PEffect.mapNames_id, Prod.map, List.map_id_fun, Option.map_id_fun, Ty.mapNames_id, Typed.mapNames_id, varsMapNames_id]

mutual
theorem CEffect.mapNames_id1 : ∀ x : CEffect, x.mapNames id = x
  | .effect x0 => by simp [CEffect.mapNames, Term.mapNames_id, FunctionTerm.mapNames_id, AtomicFormula.mapNames_id, Literal.mapNames_id, Skeleton.mapNames_id, BasicFunctionTerm.mapNames_id, FHead.mapNames_id, FExp.mapNames_id, FExpDa.mapNames_id, FExpT.mapNames_id, FComp.mapNames_id, FAssignDa.mapNames_id, MetricFExp.mapNames_id, GD.mapNames_id, PrefGD.mapNames_id, PreGD.mapNames_id, ConGD.mapNames_id, Con2GD.mapNames_id, PrefConGD.mapNames_id, PEffect.mapNames_id, CondEffect.mapNames_id, Prod.map, List.map_id_fun, Option.map_id_fun, Ty.mapNames_id, Typed.mapNames_id, varsMapNames_id]
  | .forall_ x0 x1 => by simp [CEffect.mapNames, CEffect.mapNamesL_id x1, Term.mapNames_id, FunctionTerm.mapNames_id, AtomicFormula.mapNames_id, Literal.mapNames_id, Skeleton.mapNames_id, BasicFunctionTerm.mapNames_id, FHead.mapNames_id, FExp.mapNames_id, FExpDa.mapNames_id, FExpT.mapNames_id, FComp.mapNames_id, FAssignDa.mapNames_id, MetricFExp.mapNames_id, GD.mapNames_id, PrefGD.mapNames_id, PreGD.mapNames_id, ConGD.mapNames_id, Con2GD.mapNames_id, PrefConGD.mapNames_id, PEffect.mapNames_id, CondEffect.mapNames_id, Prod.map, List.map_id_fun, Option.map_id_fun, Ty.mapNames_id, Typed.mapNames_id, varsMapNames_id]
  | .when x0 x1 => by simp [CEffect.mapNames, Term.mapNames_id, FunctionTerm.mapNames_id, AtomicFormula.mapNames_id, Literal.mapNames_id, Skeleton.mapNames_id, BasicFunctionTerm.mapNames_id, FHead.mapNames_id, FExp.mapNames_id, FExpDa.mapNames_id, FExpT.mapNames_id, FComp.mapNames_id, FAssignDa.mapNames_id, MetricFExp.mapNames_id, GD.mapNames_id, PrefGD.mapNames_id, PreGD.mapNames_id, ConGD.mapNames_id, Con2GD.mapNames_id, PrefConGD.mapNames_id, PEffect.mapNames_id, CondEffect.mapNames_id, Prod.map, List.map_id_fun, Option.map_id_fun, Ty.mapNames_id, Typed.mapNames_id, varsMapNames_id]
theorem CEffect.mapNamesL_id : ∀ xs : List CEffect, CEffect.mapNamesL id xs = xs
  | [] => by simp [CEffect.mapNamesL]
  | x :: xs => by simp [CEffect.mapNamesL, CEffect.mapNames_id1 x, CEffect.mapNamesL_id xs]
end

theorem CEffect.mapNames_id : CEffect.mapNames id = id := funext CEffect.mapNames_id1

theorem ActionDef.mapNames_id : ActionDef.mapNames id = id := funext fun x => by
  cases x <;> simp [ActionDef.mapNames, Term.mapNames_id, FunctionTerm.mapNames_id, AtomicFormula.mapNames_id, Literal.mapNames_id, Skeleton.mapNames_id, BasicFunctionTerm.mapNames_id, FHead.mapNames_id, FExp.mapNames_id, FExpDa.mapNames_id, FExpT.mapNames_id, FComp.mapNames_id, FAssignDa.mapNames_id, MetricFExp.mapNames_id, GD.mapNames_id, PrefGD.mapNames_id, PreGD.mapNames_id, ConGD.mapNames_id, Con2GD.mapNames_id, PrefConGD.mapNames_id, PEffect.mapNames_id, CondEffect.mapNames_id, CEffect.mapNames_id, Prod.map, List.map_id_fun, Option.map_id_fun, Ty.mapNames_id, Typed.mapNames_id, varsMapNames_id]

theorem DerivedPredicate.mapNames_id : DerivedPredicate.mapNames id = id := funext fun x => by
  cases x <;> simp [DerivedPredicate.mapNames, Term.mapNames_id, FunctionTerm.mapNames_id, AtomicFormula.mapNames_id, Literal.mapNames_id, Skeleton.mapNames_id, BasicFunctionTerm.mapNames_id, FHead.mapNames_id, FExp.mapNames_id, FExpDa.mapNames_id, FExpT.mapNames_id, FComp.mapNames_id, FAssignDa.mapNames_id, MetricFExp.mapNames_id, GD.mapNames_id, PrefGD.mapNames_id, PreGD.mapNames_id, ConGD.mapNames_id, Con2GD.mapNames_id, PrefConGD.mapNames_id, PEffect.mapNames_id, CondEffect.mapNames_id, CEffect.mapNames_id, ActionDef.mapNames_id, Prod.map, List.map_id_fun, Option.map_id_fun, Ty.mapNames_id, Typed.mapNames_id, varsMapNames_id]

theorem TimedGD.mapNames_id : TimedGD.mapNames id = id := funext fun x => by
  cases x <;> simp [TimedGD.mapNames, Term.mapNames_id, FunctionTerm.mapNames_id, AtomicFormula.mapNames_id, Literal.mapNames_id, Skeleton.mapNames_id, BasicFunctionTerm.mapNames_id, FHead.mapNames_id, FExp.mapNames_id, FExpDa.mapNames_id, FExpT.mapNames_id, FComp.mapNames_id, FAssignDa.mapNames_id, MetricFExp.mapNames_id, GD.mapNames_id, PrefGD.mapNames_id, PreGD.mapNames_id, ConGD.mapNames_id, Con2GD.mapNames_id, PrefConGD.mapNames_id, PEffect.mapNames_id, CondEffect.mapNames_id, CEffect.mapNames_id, ActionDef.mapNames_id, DerivedPredicate.mapNames_id, Prod.map, List.map_id_fun, Option.map_id_fun, Ty.mapNames_id, Typed.mapNames_id, varsMapNames_id]

theorem PrefTimedGD.mapNames_id : PrefTimedGD.mapNames id = id := funext fun x => by
  cases x <;> simp [PrefTimedGD.mapNames, Term.mapNames_id, FunctionTerm.mapNames_id, AtomicFormula.mapNames_id, Literal.mapNames_id, Skeleton.mapNames_id, BasicFunctionTerm.mapNames_id, FHead.mapNames_id, FExp.mapNames_id, FExpDa.mapNames_id, FExpT.mapNames_id, FComp.mapNames_id, FAssignDa.mapNames_id, MetricFExp.mapNames_id, GD.mapNames_id, PrefGD.mapNames_id, PreGD.mapNames_id, ConGD.mapNames_id, Con2GD.mapNames_id, PrefConGD.mapNames_id, PEffect.mapNames_id, CondEffect.mapNames_id, CEffect.mapNames_id, ActionDef.mapNames_id, DerivedPredicate.mapNames_id, TimedGD.mapNames_id, Prod.map, List.map_id_fun, Option.map_id_fun, Ty.mapNames_id, Typed.mapNames_id, varsMapNames_id]

mutual
theorem DaGD.mapNames_id1 : ∀ x : DaGD, x.mapNames id = x
  | .timed x0 => by simp [DaGD.mapNames, Term.mapNames_id, FunctionTerm.mapNames_id, AtomicFormula.mapNames_id, Literal.mapNames_id, Skeleton.mapNames_id, BasicFunctionTerm.mapNames_id, FHead.mapNames_id, FExp.mapNames_id, FExpDa.mapNames_id, FExpT.mapNames_id, FComp.mapNames_id, FAssignDa.mapNames_id, MetricFExp.mapNames_id, GD.mapNames_id, PrefGD.mapNames_id, PreGD.mapNames_id, ConGD.mapNames_id, Con2GD.mapNames_id, PrefConGD.mapNames_id, PEffect.mapNames_id, CondEffect.mapNames_id, CEffect.mapNames_id, ActionDef.mapNames_id, DerivedPredicate.mapNames_id, TimedGD.mapNames_id, PrefTimedGD.mapNames_id, Prod.map, List.map_id_fun, Option.map_id_fun, Ty.mapNames_id, Typed.mapNames_id, varsMapNames_id]
  | .and x0 => by simp [DaGD.mapNames, DaGD.mapNamesL_id x0, Term.mapNames_id, FunctionTerm.mapNames_id, AtomicFormula.mapNames_id, Literal.mapNames_id, Skeleton.mapNames_id, BasicFunctionTerm.mapNames_id, FHead.mapNames_id, FExp.mapNames_id, FExpDa.mapNames_id, FExpT.mapNames_id, FComp.mapNames_id, FAssignDa.mapNames_id, MetricFExp.mapNames_id, GD.mapNames_id, PrefGD.mapNames_id, PreGD.mapNames_id, ConGD.mapNames_id, Con2GD.mapNames_id, PrefConGD.mapNames_id, PEffect.mapNames_id, CondEffect.mapNames_id, CEffect.mapNames_id, ActionDef.mapNames_id, DerivedPredicate.mapNames_id, TimedGD.mapNames_id, PrefTimedGD.mapNames_id, Prod.map, List.map_id_fun, Option.map_id_fun, Ty.mapNames_id, Typed.mapNames_id, varsMapNames_id]
  | .forall_ x0 x1 => by simp [DaGD.mapNames, DaGD.mapNames_id1 x1, Term.mapNames_id, FunctionTerm.mapNames_id, AtomicFormula.mapNames_id, Literal.mapNames_id, Skeleton.mapNames_id, BasicFunctionTerm.mapNames_id, FHead.mapNames_id, FExp.mapNames_id, FExpDa.mapNames_id, FExpT.mapNames_id, FComp.mapNames_id, FAssignDa.mapNames_id, MetricFExp.mapNames_id, GD.mapNames_id, PrefGD.mapNames_id, PreGD.mapNames_id, ConGD.mapNames_id, Con2GD.mapNames_id, PrefConGD.mapNames_id, PEffect.mapNames_id, CondEffect.mapNames_id, CEffect.mapNames_id, ActionDef.mapNames_id, DerivedPredicate.mapNames_id, TimedGD.mapNames_id, PrefTimedGD.mapNames_id, Prod.map, List.map_id_fun, Option.map_id_fun, Ty.mapNames_id, Typed.mapNames_id, varsMapNames_id]
theorem DaGD.mapNamesL_id : ∀ xs : List DaGD, DaGD.mapNamesL id xs = xs
  | [] => by simp [DaGD.mapNamesL]
  | x :: xs => by simp [DaGD.mapNamesL, DaGD.mapNames_id1 x, DaGD.mapNamesL_id xs]
end

theorem DaGD.mapNames_id : DaGD.mapNames id = id := funext DaGD.mapNames_id1

theorem TimedEffect.mapNames_id : TimedEffect.mapNames id = id := funext fun x => by
  cases x <;> simp [TimedEffect.mapNames, Term.mapNames_id, FunctionTerm.mapNames_id, AtomicFormula.mapNames_id, Literal.mapNames_id, Skeleton.mapNames_id, BasicFunctionTerm.mapNames_id, FHead.mapNames_id, FExp.mapNames_id, FExpDa.mapNames_id, FExpT.mapNames_id, FComp.mapNames_id, FAssignDa.mapNames_id, MetricFExp.mapNames_id, GD.mapNames_id, PrefGD.mapNames_id, PreGD.mapNames_id, ConGD.mapNames_id, Con2GD.mapNames_id, PrefConGD.mapNames_id, PEffect.mapNames_id, CondEffect.mapNames_id, CEffect.mapNames_id, ActionDef.mapNames_id, DerivedPredicate.mapNames_id, TimedGD.mapNames_id, PrefTimedGD.mapNames_id, DaGD.mapNames_id, Prod.map, List.map_id_fun, Option.map_id_fun, Ty.mapNames_id, Typed.mapNames_id, varsMapNames_id]

mutual
theorem DaEffect.mapNames_id1 : ∀ x : DaEffect, x.mapNames id = x
  | .timed x0 => by simp [DaEffect.mapNames, Term.mapNames_id, FunctionTerm.mapNames_id, AtomicFormula.mapNames_id, Literal.mapNames_id, Skeleton.mapNames_id, BasicFunctionTerm.mapNames_id, FHead.mapNames_id, FExp.mapNames_id, FExpDa.mapNames_id, FExpT.mapNames_id, FComp.mapNames_id, FAssignDa.mapNames_id, MetricFExp.mapNames_id, GD.mapNames_id, PrefGD.mapNames_id, PreGD.mapNames_id, ConGD.mapNames_id, Con2GD.mapNames_id, PrefConGD.mapNames_id, PEffect.mapNames_id, CondEffect.mapNames_id, CEffect.mapNames_id, ActionDef.mapNames_id, DerivedPredicate.mapNames_id, TimedGD.mapNames_id, PrefTimedGD.mapNames_id, DaGD.mapNames_id, TimedEffect.mapNames_id, Prod.map, List.map_id_fun, Option.map_id_fun, Ty.mapNames_id, Typed.mapNames_id, varsMapNames_id]
  | .all x0 => by simp [DaEffect.mapNames, DaEffect.mapNamesL_id x0, Term.mapNames_id, FunctionTerm.mapNames_id, AtomicFormula.mapNames_id, Literal.mapNames_id, Skeleton.mapNames_id, BasicFunctionTerm.mapNames_id, FHead.mapNames_id, FExp.mapNames_id, FExpDa.mapNames_id, FExpT.mapNames_id, FComp.mapNames_id, FAssignDa.mapNames_id, MetricFExp.mapNames_id, GD.mapNames_id, PrefGD.mapNames_id, PreGD.mapNames_id, ConGD.mapNames_id, Con2GD.mapNames_id, PrefConGD.mapNames_id, PEffect.mapNames_id, CondEffect.mapNames_id, CEffect.mapNames_id, ActionDef.mapNames_id, DerivedPredicate.mapNames_id, TimedGD.mapNames_id, PrefTimedGD.mapNames_id, DaGD.mapNames_id, TimedEffect.mapNames_id, Prod.map, List.map_id_fun, Option.map_id_fun, Ty.mapNames_id, Typed.mapNames_id, varsMapNames_id]
  | .forall_ x0 x1 => by simp [DaEffect.mapNames, DaEffect.mapNames_id1 x1, Term.mapNames_id, FunctionTerm.mapNames_id, AtomicFormula.mapNames_id, Literal.mapNames_id, Skeleton.mapNames_id, BasicFunctionTerm.mapNames_id, FHead.mapNames_id, FExp.mapNames_id, FExpDa.mapNames_id, FExpT.mapNames_id, FComp.mapNames_id, FAssignDa.mapNames_id, MetricFExp.mapNames_id, GD.mapNames_id, PrefGD.mapNames_id, PreGD.mapNames_id, ConGD.mapNames_id, Con2GD.mapNames_id, PrefConGD.mapNames_id, PEffect.mapNames_id, CondEffect.mapNames_id, CEffect.mapNames_id, ActionDef.mapNames_id, DerivedPredicate.mapNames_id, TimedGD.mapNames_id, PrefTimedGD.mapNames_id, DaGD.mapNames_id, TimedEffect.mapNames_id, Prod.map, List.map_id_fun, Option.map_id_fun, Ty.mapNames_id, Typed.mapNames_id, varsMapNames_id]
  | .when x0 x1 => by simp [DaEffect.mapNames, Term.mapNames_id, FunctionTerm.mapNames_id, AtomicFormula.mapNames_id, Literal.mapNames_id, Skeleton.mapNames_id, BasicFunctionTerm.mapNames_id, FHead.mapNames_id, FExp.mapNames_id, FExpDa.mapNames_id, FExpT.mapNames_id, FComp.mapNames_id, FAssignDa.mapNames_id, MetricFExp.mapNames_id, GD.mapNames_id, PrefGD.mapNames_id, PreGD.mapNames_id, ConGD.mapNames_id, Con2GD.mapNames_id, PrefConGD.mapNames_id, PEffect.mapNames_id, CondEffect.mapNames_id, CEffect.mapNames_id, ActionDef.mapNames_id, DerivedPredicate.mapNames_id, TimedGD.mapNames_id, PrefTimedGD.mapNames_id, DaGD.mapNames_id, TimedEffect.mapNames_id, Prod.map, List.map_id_fun, Option.map_id_fun, Ty.mapNames_id, Typed.mapNames_id, varsMapNames_id]
theorem DaEffect.mapNamesL_id : ∀ xs : List DaEffect, DaEffect.mapNamesL id xs = xs
  | [] => by simp [DaEffect.mapNamesL]
  | x :: xs => by simp [DaEffect.mapNamesL, DaEffect.mapNames_id1 x, DaEffect.mapNamesL_id xs]
end

theorem DaEffect.mapNames_id : DaEffect.mapNames id = id := funext DaEffect.mapNames_id1

theorem DurationValue.mapNames_id : DurationValue.mapNames id = id := funext fun x => by
  cases x <;> simp [DurationValue.mapNames, Term.mapNames_id, FunctionTerm.mapNames_id, AtomicFormula.mapNames_id, Literal.mapNames_id, Skeleton.mapNames_id, BasicFunctionTerm.mapNames_id, FHead.mapNames_id, FExp.mapNames_id, FExpDa.mapNames_id, FExpT.mapNames_id, FComp.mapNames_id, FAssignDa.mapNames_id, MetricFExp.mapNames_id, GD.mapNames_id, PrefGD.mapNames_id, PreGD.mapNames_id, ConGD.mapNames_id, Con2GD.mapNames_id, PrefConGD.mapNames_id, PEffect.mapNames_id, CondEffect.mapNames_id, CEffect.mapNames_id, ActionDef.mapNames_id, DerivedPredicate.mapNames_id, TimedGD.mapNames_id, PrefTimedGD.mapNames_id, DaGD.mapNames_id, TimedEffect.mapNames_id, DaEffect.mapNames_id, Prod.map, List.map_id_fun, Option.map_id_fun, Ty.mapNames_id, Typed.mapNames_id, varsMapNames_id]

theorem SimpleDuration.mapNames_id1 : ∀ x : SimpleDuration, x.mapNames id = x
  | .op o v => by simp [SimpleDuration.mapNames, DurationValue.mapNames_id]
  | .at t c => by simp [SimpleDuration.mapNames, mapNames_id1 c]

theorem SimpleDuration.mapNames_id : SimpleDuration.mapNames id = id := funext SimpleDuration.mapNames_id1

theorem DurationConstraint.mapNames_id : DurationConstraint.mapNames id = id := funext fun x => by
  cases x <;> simp [DurationConstraint.mapNames, Term.mapNames_id, FunctionTerm.mapNames_id, AtomicFormula.mapNames_id, Literal.mapNames_id, Skeleton.mapNames_id, BasicFunctionTerm.mapNames_id, FHead.mapNames_id, FExp.mapNames_id, FExpDa.mapNames_id, FExpT.mapNames_id, FComp.mapNames_id, FAssignDa.mapNames_id, MetricFExp.mapNames_id, GD.mapNames_id, PrefGD.mapNames_id, PreGD.mapNames_id, ConGD.mapNames_id, Con2GD.mapNames_id, PrefConGD.mapNames_id, PEffect.mapNames_id, CondEffect.mapNames_id, CEffect.mapNames_id, ActionDef.mapNames_id, DerivedPredicate.mapNames_id, TimedGD.mapNames_id, PrefTimedGD.mapNames_id, DaGD.mapNames_id, TimedEffect.mapNames_id, DaEffect.mapNames_id, DurationValue.mapNames_id, SimpleDuration.mapNames_id, Prod.map, List.map_id_fun, Option.map_id_fun, Ty.mapNames_id, Typed.mapNames_id, varsMapNames_id]

theorem DaDef.mapNames_id : DaDef.mapNames id = id := funext fun x => by
  cases x <;> simp [DaDef.mapNames, Term.mapNames_id, FunctionTerm.mapNames_id, AtomicFormula.mapNames_id, Literal.mapNames_id, Skeleton.mapNames_id, BasicFunctionTerm.mapNames_id, FHead.mapNames_id, FExp.mapNames_id, FExpDa.mapNames_id, FExpT.mapNames_id, FComp.mapNames_id, FAssignDa.mapNames_id, MetricFExp.mapNames_id, GD.mapNames_id, PrefGD.mapNames_id, PreGD.mapNames_id, ConGD.mapNames_id, Con2GD.mapNames_id, PrefConGD.mapNames_id, PEffect.mapNames_id, CondEffect.mapNames_id, CEffect.mapNames_id, ActionDef.mapNames_id, DerivedPredicate.mapNames_id, TimedGD.mapNames_id, PrefTimedGD.mapNames_id, DaGD.mapNames_id, TimedEffect.mapNames_id, DaEffect.mapNames_id, DurationValue.mapNames_id, SimpleDuration.mapNames_id, DurationConstraint.mapNames_id, Prod.map, List.map_id_fun, Option.map_id_fun, Ty.mapNames_id, Typed.mapNames_id, varsMapNames_id]

theorem StructureDef.mapNames_id : StructureDef.mapNames id = id := funext fun x => by
  cases x <;> simp [StructureDef.mapNames, Term.mapNames_id, FunctionTerm.mapNames_id, AtomicFormula.mapNames_id, Literal.mapNames_id, Skeleton.mapNames_id, BasicFunctionTerm.mapNames_id, FHead.mapNames_id, FExp.mapNames_id, FExpDa.mapNames_id, FExpT.mapNames_id, FComp.mapNames_id, FAssignDa.mapNames_id, MetricFExp.mapNames_id, GD.mapNames_id, PrefGD.mapNames_id, PreGD.mapNames_id, ConGD.mapNames_id, Con2GD.mapNames_id, PrefConGD.mapNames_id, PEffect.mapNames_id, CondEffect.mapNames_id, CEffect.mapNames_id, ActionDef.mapNames_id, DerivedPredicate.mapNames_id, TimedGD.mapNames_id, PrefTimedGD.mapNames_id, DaGD.mapNames_id, TimedEffect.mapNames_id, DaEffect.mapNames_id, DurationValue.mapNames_id, SimpleDuration.mapNames_id, DurationConstraint.mapNames_id, DaDef.mapNames_id, Prod.map, List.map_id_fun, Option.map_id_fun, Ty.mapNames_id, Typed.mapNames_id, varsMapNames_id]

theorem InitElement.mapNames_id : InitElement.mapNames id = id := funext fun x => by
  cases x <;> simp [InitElement.mapNames, Term.mapNames_id, FunctionTerm.mapNames_id, AtomicFormula.mapNames_id, Literal.mapNames_id, Skeleton.mapNames_id, BasicFunctionTerm.mapNames_id, FHead.mapNames_id, FExp.mapNames_id, FExpDa.mapNames_id, FExpT.mapNames_id, FComp.mapNames_id, FAssignDa.mapNames_id, MetricFExp.mapNames_id, GD.mapNames_id, PrefGD.mapNames_id, PreGD.mapNames_id, ConGD.mapNames_id, Con2GD.mapNames_id, PrefConGD.mapNames_id, PEffect.mapNames_id, CondEffect.mapNames_id, CEffect.mapNames_id, ActionDef.mapNames_id, DerivedPredicate.mapNames_id, TimedGD.mapNames_id, PrefTimedGD.mapNames_id, DaGD.mapNames_id, TimedEffect.mapNames_id, DaEffect.mapNames_id, DurationValue.mapNames_id, SimpleDuration.mapNames_id, DurationConstraint.mapNames_id, DaDef.mapNames_id, StructureDef.mapNames_id, Prod.map, List.map_id_fun, Option.map_id_fun, Ty.mapNames_id, Typed.mapNames_id, varsMapNames_id]

theorem MetricSpec.mapNames_id : MetricSpec.mapNames id = id := funext fun x => by
  cases x <;> simp [MetricSpec.mapNames, Term.mapNames_id, FunctionTerm.mapNames_id, AtomicFormula.mapNames_id, Literal.mapNames_id, Skeleton.mapNames_id, BasicFunctionTerm.mapNames_id, FHead.mapNames_id, FExp.mapNames_id, FExpDa.mapNames_id, FExpT.mapNames_id, FComp.mapNames_id, FAssignDa.mapNames_id, MetricFExp.mapNames_id, GD.mapNames_id, PrefGD.mapNames_id, PreGD.mapNames_id, ConGD.mapNames_id, Con2GD.mapNames_id, PrefConGD.mapNames_id, PEffect.mapNames_id, CondEffect.mapNames_id, CEffect.mapNames_id, ActionDef.mapNames_id, DerivedPredicate.mapNames_id, TimedGD.mapNames_id, PrefTimedGD.mapNames_id, DaGD.mapNames_id, TimedEffect.mapNames_id, DaEffect.mapNames_id, DurationValue.mapNames_id, SimpleDuration.mapNames_id, DurationConstraint.mapNames_id, DaDef.mapNames_id, StructureDef.mapNames_id, InitElement.mapNames_id, Prod.map, List.map_id_fun, Option.map_id_fun, Ty.mapNames_id, Typed.mapNames_id, varsMapNames_id]

theorem Domain.mapNames_id : Domain.mapNames id = id := funext fun x => by
  cases x <;> simp [Domain.mapNames, Term.mapNames_id, FunctionTerm.mapNames_id, AtomicFormula.mapNames_id, Literal.mapNames_id, Skeleton.mapNames_id, BasicFunctionTerm.mapNames_id, FHead.mapNames_id, FExp.mapNames_id, FExpDa.mapNames_id, FExpT.mapNames_id, FComp.mapNames_id, FAssignDa.mapNames_id, MetricFExp.mapNames_id, GD.mapNames_id, PrefGD.mapNames_id, PreGD.mapNames_id, ConGD.mapNames_id, Con2GD.mapNames_id, PrefConGD.mapNames_id, PEffect.mapNames_id, CondEffect.mapNames_id, CEffect.mapNames_id, ActionDef.mapNames_id, DerivedPredicate.mapNames_id, TimedGD.mapNames_id, PrefTimedGD.mapNames_id, DaGD.mapNames_id, TimedEffect.mapNames_id, DaEffect.mapNames_id, DurationValue.mapNames_id, SimpleDuration.mapNames_id, DurationConstraint.mapNames_id, DaDef.mapNames_id, StructureDef.mapNames_id, InitElement.mapNames_id, MetricSpec.mapNames_id, Prod.map, List.map_id_fun, Option.map_id_fun, Ty.mapNames_id, Typed.mapNames_id, varsMapNames_id]

theorem Problem.mapNames_id : Problem.mapNames id = id := funext fun x => by
  cases x <;> simp [Problem.mapNames, Term.mapNames_id, FunctionTerm.mapNames_id, AtomicFormula.mapNames_id, Literal.mapNames_id, Skeleton.mapNames_id, BasicFunctionTerm.mapNames_id, FHead.mapNames_id, FExp.mapNames_id, FExpDa.mapNames_id, FExpT.mapNames_id, FComp.mapNames_id, FAssignDa.mapNames_id, MetricFExp.mapNames_id, GD.mapNames_id, PrefGD.mapNames_id, PreGD.mapNames_id, ConGD.mapNames_id, Con2GD.mapNames_id, PrefConGD.mapNames_id, PEffect.mapNames_id, CondEffect.mapNames_id, CEffect.mapNames_id, ActionDef.mapNames_id, DerivedPredicate.mapNames_id, TimedGD.mapNames_id, PrefTimedGD.mapNames_id, DaGD.mapNames_id, TimedEffect.mapNames_id, DaEffect.mapNames_id, DurationValue.mapNames_id, SimpleDuration.mapNames_id, DurationConstraint.mapNames_id, DaDef.mapNames_id, StructureDef.mapNames_id, InitElement.mapNames_id, MetricSpec.mapNames_id, Domain.mapNames_id, Prod.map, List.map_id_fun, Option.map_id_fun, Ty.mapNames_id, Typed.mapNames_id, varsMapNames_id]

end Pddl
