import Verif.Spec.Rules
import Verif.Spec.Values
import Verif.Spec.Violations

/-!
# Which plans are best

The metric of a problem compares plans by the values of fluents in the end, by the time of the last state and by the
preferences that are violated: in the goal, in the constraints and in the preconditions of actions, there each time the
action is used. `os` lists the objects. Nothing of this is in the code, which only reads the files.
-/

namespace Pddl

/-- The step leads from `s` to `s'`, and so many preferences of each name in the precondition are violated. -/
def PlanStep.LeadsWith (D : Domain) (M : Interp) (os : List M.Obj) (t : PlanStep) (s s' : State M)
    (k : List Char → Nat) : Prop :=
  ∃ a : ActionDef, .action a ∈ D.structure_ ∧ a.symbol.text = t.action ∧
    ∃ e₀, Binds M a.parameters (t.arguments.map M.const) e₀ fun e =>
      (PreGD.AllHold (M.within s) a.precondition e ∧ State.Next M (Alters M s (a.effect.getD []) e) s s') ∧
      ∀ n, k n = PreGD.counts (M.within s) os (some n) a.precondition e

/-- The states the steps lead through, and how many preferences of each name are violated in the preconditions. -/
def RouteWith (D : Domain) (M : Interp) (os : List M.Obj) : List PlanStep → List (State M) → (List Char → Nat) → Prop
  | [], [_], k => ∀ n, k n = 0
  | t :: ts, s :: s' :: ss, k => ∃ k₁ k₂, t.LeadsWith D M os s s' k₁ ∧ RouteWith D M os ts (s' :: ss) k₂ ∧
      ∀ n, k n = k₁ n + k₂ n
  | _, _, _ => False

/-- How many preferences with the name `n` in the goal and in the constraints are violated by the states `s` and `ss`. -/
noncomputable def Problem.violations (P : Problem) {M : Interp} (os : List M.Obj) (e : M.Env) (ns : List Number) (s : State M)
    (ss : List (State M)) (n : List Char) : Nat :=
  PreGD.counts (M.within ((s :: ss).getLast (List.cons_ne_nil _ _))) os (some n) P.goal e +
    PrefConGD.counts M os (trajectory M ns (s :: ss)) (some n) P.constraints e

/-- The value of an expression of a metric after a plan that leads through `s` and `ss` at the times `ns` and violates
the preferences `k` in preconditions. -/
noncomputable def Problem.value (P : Problem) (x : MetricFExp) {M : Interp} (os : List M.Obj) (e : M.Env) (ns : List Number)
    (s : State M) (ss : List (State M)) (k : List Char → Nat) : M.Num :=
  x.denote (M.within ((s :: ss).getLast (List.cons_ne_nil _ _))) (M.lit (ns.getLastD ⟨.ofDecimal 0 0⟩))
    fun n => M.lit ⟨.ofDecimal (P.violations os e ns s ss n + k n) 0⟩

/-- The first value is at least as good. -/
def Optimization.Prefers (M : Interp) : Optimization → M.Num → M.Num → Prop
  | .minimize, a, b => M.comp .le a b
  | .maximize, a, b => M.comp .ge a b

/-- The plan `ts` at the times `ns` is at least as good as `us` at `ms`, with the objects of `M`. -/
def BetterIn (D : Domain) (P : Problem) (m : MetricSpec) (ts : List PlanStep) (ns : List Number) (us : List PlanStep)
    (ms : List Number) (M : Interp) : Prop :=
  M.Fits D P → ∀ os : List M.Obj, os.Nodup → (∀ o, o ∈ os) → ∀ e s, State.Initial D P M s → ∀ ss rr j k,
    RouteWith D M os ts (s :: ss) j → RouteWith D M os us (s :: rr) k →
    m.optimization.Prefers M (P.value m.exp os e ns s ss j) (P.value m.exp os e ms s rr k)

/-- The plan `ts` at the times `ns` meets the constraints, and is at least as good as all plans that do. `C` says how
one calculates. -/
def Best (C : Interp → Prop) (D : Domain) (P : Problem) (ts : List PlanStep) (ns : List Number) : Prop :=
  SolvesUnder D P ts ns ∧ ∀ us ms, SolvesUnder D P us ms → ∀ m, P.metricSpec = some m → ∀ M, C M →
    BetterIn D P m ts ns us ms M

end Pddl
