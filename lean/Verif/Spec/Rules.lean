import Verif.Spec.Plan
import Verif.Spec.Preference

/-!
# What plans do where there are constraints

A plan has to meet the constraints of the domain and of the problem, which are about all states it leads through and the
times at which they are reached. Nothing of this is in the code, which only reads the files.
-/

namespace Pddl

/-- The states the steps lead through. -/
def Route (D : Domain) (M : Interp) : List PlanStep → List (State M) → Prop
  | [], [_] => True
  | t :: ts, s :: s' :: ss => t.Leads D M s s' ∧ Route D M ts (s' :: ss)
  | _, _ => False

/-- A state that is reached at a time. -/
def State.snapshot {M : Interp} (s : State M) (n : M.Num) : Snapshot M := ⟨n, s.fn, s.pred, s.fluent⟩

/-- The states with their times. -/
def trajectory (M : Interp) (ns : List Number) (ss : List (State M)) : List (Snapshot M) :=
  List.zipWith (fun s n => s.snapshot (M.lit n)) ss ns

/-- With the objects of `M`, the steps lead from any initial state to a state where the goal holds, and the states
they lead through, reached at the times `ns`, meet the constraints. -/
def SolvesUnderIn (D : Domain) (P : Problem) (ts : List PlanStep) (ns : List Number) (M : Interp) : Prop :=
  M.Fits D P → ∀ s, State.Initial D P M s → ∃ ss, Route D M ts (s :: ss) ∧
    (∀ e : M.Env, PreGD.AllHold (M.within ((s :: ss).getLast (List.cons_ne_nil _ _))) P.goal e) ∧
    ∀ e : M.Env, D.constraints.On M (trajectory M ns (s :: ss)) e ∧
      PrefConGD.AllHold M (fun c e => c.On M (trajectory M ns (s :: ss)) e) P.constraints e

/-- The steps, with a time for every state, are a plan that meets the constraints. -/
def SolvesUnder (D : Domain) (P : Problem) (ts : List PlanStep) (ns : List Number) : Prop :=
  ns.length = ts.length + 1 ∧ ∀ M, SolvesUnderIn D P ts ns M

end Pddl
