import Verif.Spec.Meaning

/-!
# What plans do

Which sequences of actions solve a problem, as the PDDL definition has it. Nothing of this is in the code, which
only reads the files; it is what domains and problems are read for. Plans are sequences of the actions of the
domain; durative actions, derived predicates, timed initial literals, constraints and preferences have no part in it.
-/

namespace Pddl

/-- What actions can change. -/
structure State (M : Interp) where
  fn : List Char → List M.Obj → M.Obj
  pred : List Char → List M.Obj → Prop
  fluent : List Char → List M.Obj → M.Num

/-- The objects in a state. -/
def Interp.within (M : Interp) (s : State M) : Interp := { M with fn := s.fn, pred := s.pred, fluent := s.fluent }

/-- The new value of a fluent with the value `a`. -/
def AssignOp.apply (M : Interp) (a b : M.Num) : AssignOp → M.Num
  | .assign => b
  | .scaleUp => M.bin .mul a b
  | .scaleDown => M.bin .div a b
  | .increase => M.bin .add a b
  | .decrease => M.bin .sub a b

/-- The changes by effects in a state, for the variables `e`. -/
def Alters (M : Interp) (s : State M) (xs : List CEffect) (e : M.Env) (c : Change M) : Prop :=
  match c with
  | .add p os => CEffect.MakeSome (M.within s) (.add p os) xs e
  | .delete p os => CEffect.MakeSome (M.within s) (.delete p os) xs e
  | .equal a b => CEffect.MakeSome (M.within s) (.equal a b) xs e
  | .differ a b => CEffect.MakeSome (M.within s) (.differ a b) xs e
  | .object f os o => CEffect.MakeSome (M.within s) (.object f os o) xs e
  | .number op f os n => CEffect.MakeSome (M.within s) (.number op f os n) xs e

/-- `s'` is `s` with the changes `C`. What is both deleted and added is true; what is not changed stays as it is. -/
structure State.Next (M : Interp) (C : Change M → Prop) (s s' : State M) : Prop where
  pred : ∀ p os, s'.pred p os ↔ C (.add p os) ∨ s.pred p os ∧ ¬ C (.delete p os)
  fn : ∀ f os o, C (.object f os (some o)) → s'.fn f os = o
  fnKept : ∀ f os, (∀ o, ¬ C (.object f os o)) → s'.fn f os = s.fn f os
  fluent : ∀ op f os n, C (.number op f os n) → s'.fluent f os = op.apply M (s.fluent f os) n
  fluentKept : ∀ f os, (∀ op n, ¬ C (.number op f os n)) → s'.fluent f os = s.fluent f os

/-- Parameters get the objects, which have to be of their types. -/
def Binds (M : Interp) : TypedList Name → List M.Obj → M.Env → (M.Env → Prop) → Prop
  | [], [], e, p => p e
  | v :: vs, o :: os, e, p => v.ty.Has M o ∧ Binds M vs os (M.set e v.value.text o) p
  | _, _, _, _ => False

/-- The name of an action and the names of its arguments. -/
structure PlanStep where
  action : List Char
  arguments : List (List Char)
  deriving DecidableEq

/-- The step leads from `s` to `s'`. -/
def PlanStep.Leads (D : Domain) (M : Interp) (t : PlanStep) (s s' : State M) : Prop :=
  ∃ a : ActionDef, .action a ∈ D.structure_ ∧ a.symbol.text = t.action ∧
    ∃ e₀, Binds M a.parameters (t.arguments.map M.const) e₀ fun e =>
      PreGD.AllHold (M.within s) a.precondition e ∧ State.Next M (Alters M s (a.effect.getD []) e) s s'

/-- The steps lead from `s` to `s'`. -/
def Reach (D : Domain) (M : Interp) : List PlanStep → State M → State M → Prop
  | [], s, s' => s = s'
  | t :: ts, s, s' => ∃ s₁, t.Leads D M s s₁ ∧ Reach D M ts s₁ s'

/-- The names of a type. -/
def Ty.names : Ty → List Name
  | .exactly n => [n]
  | .eitherOf ns => ns

/-- The objects with a type: those declared with it or with a type below it; all of them are of the type `object`. -/
inductive IsOf (D : Domain) (P : Problem) (M : Interp) : List Char → M.Obj → Prop where
  | object {x : Typed Name} : x ∈ D.constants ++ P.objects → IsOf D P M c!"object" (M.const x.value.text)
  | declared {x : Typed Name} {n : Name} : x ∈ D.constants ++ P.objects → n ∈ x.ty.names →
      IsOf D P M n.text (M.const x.value.text)
  | above {t : Typed Name} {n : Name} {o : M.Obj} : t ∈ D.types → n ∈ t.ty.names → IsOf D P M t.value.text o →
      IsOf D P M n.text o

/-- The objects of `M` are the declared ones, all different, with the declared types. -/
structure Interp.Fits (D : Domain) (P : Problem) (M : Interp) : Prop where
  all : ∀ o, ∃ x ∈ D.constants ++ P.objects, o = M.const x.value.text
  different : ∀ x ∈ D.constants ++ P.objects, ∀ y ∈ D.constants ++ P.objects,
    M.const x.value.text = M.const y.value.text → x.value.text = y.value.text
  types : ∀ n o, M.ofType n o ↔ IsOf D P M n o

/-- What is true in the beginning is what is said to be true; values are as given. -/
structure State.Initial (D : Domain) (P : Problem) (M : Interp) (s : State M) : Prop where
  pred : ∀ p os, s.pred p os ↔ ∃ (q : Name) (ns : List Name), p = q.text ∧ os = ns.map (fun n => M.const n.text) ∧
    (.pos (.predicate q ns) ∈ D.timeless ∨ .literal (.pos (.predicate q ns)) ∈ P.init)
  value : ∀ f v, .isValue f v ∈ P.init → s.fluent f.symbol.text (f.names.map fun n => M.const n.text) = M.lit v
  object : ∀ f o, .isObject f o ∈ P.init →
    s.fn f.symbol.text (f.names.map fun n => M.const n.text) = M.const o.text

/-- With the objects of `M`, the steps lead from any initial state to a state where the goal holds. -/
def SolvesIn (D : Domain) (P : Problem) (ts : List PlanStep) (M : Interp) : Prop :=
  M.Fits D P → ∀ s, State.Initial D P M s → ∃ s', Reach D M ts s s' ∧
    ∀ e : M.Env, PreGD.AllHold (M.within s') P.goal e

/-- The steps are a plan for the problem. -/
def Solves (D : Domain) (P : Problem) (ts : List PlanStep) : Prop := ∀ M, SolvesIn D P ts M

end Pddl
