import Verif.Spec.Meaning

/-!
# Specification: the values of expressions of durative actions and of metrics
-/

namespace Pddl

mutual
/-- The number an expression of a durative action has, where `d` is the duration. The form `assign` is not
an expression with a value and is never read (C77); it is given the value of its right-hand side. -/
def FExpDa.denote (M : Interp) (e : M.Env) (d : M.Num) : FExpDa → M.Num
  | .assign _ _ a => FExpDa.denote M e d a
  | .binaryOp op a b => M.bin op (FExpDa.denote M e d a) (FExpDa.denote M e d b)
  | .multiOp op a bs => M.multi op (FExpDa.denote M e d a) (FExpDa.denotes M e d bs)
  | .negative a => M.neg (FExpDa.denote M e d a)
  | .duration => d
  | .fExp a => a.denote M e
/-- The numbers expressions of a durative action have. -/
def FExpDa.denotes (M : Interp) (e : M.Env) (d : M.Num) : List FExpDa → List M.Num
  | [] => []
  | a :: as => FExpDa.denote M e d a :: FExpDa.denotes M e d as
end

mutual
/-- The number a metric has, where `d` is the total time of the plan and `k` tells how often a preference is
violated. -/
def MetricFExp.denote (M : Interp) (d : M.Num) (k : List Char → M.Num) : MetricFExp → M.Num
  | .binaryOp op a b => M.bin op (MetricFExp.denote M d k a) (MetricFExp.denote M d k b)
  | .multiOp op a bs => M.multi op (MetricFExp.denote M d k a) (MetricFExp.denotes M d k bs)
  | .negative a => M.neg (MetricFExp.denote M d k a)
  | .number n => M.lit n
  | .function f ns => M.fluent f.text (ns.map fun n => M.const n.text)
  | .totalTime => d
  | .isViolated p => k p.text
/-- The numbers metrics have. -/
def MetricFExp.denotes (M : Interp) (d : M.Num) (k : List Char → M.Num) : List MetricFExp → List M.Num
  | [] => []
  | a :: as => MetricFExp.denote M d k a :: MetricFExp.denotes M d k as
end

end Pddl
