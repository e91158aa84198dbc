import Verif.Spec.Trajectory
import Verif.Spec.Values

/-!
# Specification: what durative conditions and effects mean

After "PDDL2.1: an extension to PDDL for expressing temporal planning domains": conditions at the start and at
the end are about the states there, and conditions over all about all states in between. Effects change the
state at the start or at the end, or continuously.
-/

namespace Pddl

/-- The carrying out of a durative action: the states in which it begins and ends, those in between, and how long it
takes. -/
structure Course (M : Interp) where
  start : Snapshot M
  finish : Snapshot M
  during : Snapshot M → Prop
  duration : M.Num

/-- The state at a time. -/
def Course.state {M : Interp} (r : Course M) : TimeSpecifier → Snapshot M
  | .start => r.start
  | .end_ => r.finish

/-- The truth of a timed goal. -/
def TimedGD.Met (M : Interp) (r : Course M) (e : M.Env) : TimedGD → Prop
  | .at ts g => g.Holds (M.now (r.state ts)) e
  | .over .all g => ∀ s, r.during s → g.Holds (M.now s) e

/-- The truth of a timed goal with an optional preference. Preferences need not be met. -/
def PrefTimedGD.Met (M : Interp) (r : Course M) (e : M.Env) : PrefTimedGD → Prop
  | .required g => g.Met M r e
  | .preference _ _ => True

mutual
/-- The truth of a durative condition. -/
def DaGD.Met (M : Interp) (r : Course M) : DaGD → M.Env → Prop
  | .timed g, e => g.Met M r e
  | .and gs, e => DaGD.AllMet M r gs e
  | .forall_ vs g, e => ForEach M vs e (DaGD.Met M r g)
/-- All of them are true. -/
def DaGD.AllMet (M : Interp) (r : Course M) : List DaGD → M.Env → Prop
  | [], _ => True
  | g :: gs, e => DaGD.Met M r g e ∧ DaGD.AllMet M r gs e
end

/-- The same change, seen apart from the state. -/
def Change.ofNow {M : Interp} {s : Snapshot M} : Change (M.now s) → Change M
  | .add p os => .add p os
  | .delete p os => .delete p os
  | .equal a b => .equal a b
  | .differ a b => .differ a b
  | .object f os o => .object f os o
  | .number op f os n => .number op f os n

/-- What an action does: a change at the start or the end, or a number that changes with time: by `rate` per
unit of time. Without a rate it changes by the time that has passed. -/
inductive Deed (M : Interp) where
  | change (ts : TimeSpecifier) (c : Change M)
  | flow (op : AssignOpT) (f : List Char) (os : List M.Obj) (rate : Option M.Num)

/-- The fluent a function head stands for. -/
def FHead.fluent (M : Interp) (e : M.Env) : FHead → List Char × List M.Obj
  | .simple f => (f.text, [])
  | .withTerms f ts => (f.text, ts.map (Term.denote M e))

/-- What a timed effect does. Terms and expressions have the values of the time of the change, and those of a
continuous effect the values at the start. -/
def TimedEffect.Does (M : Interp) (r : Course M) (e : M.Env) (d : Deed M) : TimedEffect → Prop
  | .conditional ts x => ∃ c, x.Makes (M.now (r.state ts)) e c ∧ d = .change ts c.ofNow
  | .numericFluent ts a => d = .change ts (.number a.op (a.head.fluent (M.now (r.state ts)) e).1
      (a.head.fluent (M.now (r.state ts)) e).2 (a.exp.denote (M.now (r.state ts)) e r.duration))
  | .continuous op h x => d = .flow op (h.fluent (M.now r.start) e).1 (h.fluent (M.now r.start) e).2
      (match x with | .now => none | .scaled a => some (a.denote (M.now r.start) e))

mutual
/-- What a durative effect does. -/
def DaEffect.Does (M : Interp) (r : Course M) (d : Deed M) : DaEffect → M.Env → Prop
  | .timed x, e => x.Does M r e d
  | .all xs, e => DaEffect.SomeDoes M r d xs e
  | .forall_ vs x, e => ForSome M vs e (DaEffect.Does M r d x)
  | .when g x, e => g.Met M r e ∧ x.Does M r e d
/-- What durative effects do. -/
def DaEffect.SomeDoes (M : Interp) (r : Course M) (d : Deed M) : List DaEffect → M.Env → Prop
  | [], _ => False
  | x :: xs, e => DaEffect.Does M r d x e ∨ DaEffect.SomeDoes M r d xs e
end

end Pddl
