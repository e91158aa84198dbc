import Verif.Ast

/-!
# What conditions mean

The truth of a condition in a state, as the PDDL definition has it. Nothing of this is in the code, which
only reads text; it is what the values that were read are used for. Objects, numbers, the declared types,
functions and predicates of the state are arbitrary.
-/

namespace Pddl

/-- The objects and a state: which objects are of which type, what the constants, functions, fluents and
predicates are, and how to calculate with numbers. -/
structure Interp where
  Obj : Type
  ofType : List Char → Obj → Prop
  const : List Char → Obj
  fn : List Char → List Obj → Obj
  pred : List Char → List Obj → Prop
  Num : Type
  lit : Number → Num
  fluent : List Char → List Obj → Num
  bin : BinaryOp → Num → Num → Num
  multi : MultiOp → Num → List Num → Num
  neg : Num → Num
  comp : BinaryComp → Num → Num → Prop

/-- The values of the variables. -/
abbrev Interp.Env (M : Interp) := List Char → M.Obj

/-- The object `o` for the variable `x`. -/
def Interp.set (M : Interp) (e : M.Env) (x : List Char) (o : M.Obj) : M.Env := fun y => if y = x then o else e y

/-- The objects of a type. -/
def Ty.Has (M : Interp) : Ty → M.Obj → Prop
  | .exactly n, o => M.ofType n.text o
  | .eitherOf ns, o => ∃ n ∈ ns, M.ofType n.text o

/-- For all objects of the types of the variables. -/
def ForEach (M : Interp) : TypedList Name → M.Env → (M.Env → Prop) → Prop
  | [], e, p => p e
  | v :: vs, e, p => ∀ o, v.ty.Has M o → ForEach M vs (M.set e v.value.text o) p

/-- For some objects of the types of the variables. -/
def ForSome (M : Interp) : TypedList Name → M.Env → (M.Env → Prop) → Prop
  | [], e, p => p e
  | v :: vs, e, p => ∃ o, v.ty.Has M o ∧ ForSome M vs (M.set e v.value.text o) p

mutual
/-- The object a term denotes. -/
def Term.denote (M : Interp) (e : M.Env) : Term → M.Obj
  | .name n => M.const n.text
  | .var v => e v.text
  | .fn f ts => M.fn f.text (Term.denotes M e ts)
/-- The objects terms denote. -/
def Term.denotes (M : Interp) (e : M.Env) : List Term → List M.Obj
  | [] => []
  | t :: ts => Term.denote M e t :: Term.denotes M e ts
end

/-- The number a fluent has. -/
def FHead.denote (M : Interp) (e : M.Env) : FHead → M.Num
  | .simple f => M.fluent f.text []
  | .withTerms f ts => M.fluent f.text (ts.map (Term.denote M e))

mutual
/-- The number an expression has. -/
def FExp.denote (M : Interp) (e : M.Env) : FExp → M.Num
  | .number n => M.lit n
  | .function h => h.denote M e
  | .negative a => M.neg (FExp.denote M e a)
  | .binaryOp op a b => M.bin op (FExp.denote M e a) (FExp.denote M e b)
  | .multiOp op a bs => M.multi op (FExp.denote M e a) (FExp.denotes M e bs)
/-- The numbers expressions have. -/
def FExp.denotes (M : Interp) (e : M.Env) : List FExp → List M.Num
  | [] => []
  | a :: as => FExp.denote M e a :: FExp.denotes M e as
end

/-- The truth of an atom. -/
def AtomicFormula.Holds (M : Interp) (e : M.Env) : AtomicFormula Term → Prop
  | .equality a b => a.denote M e = b.denote M e
  | .predicate p ts => M.pred p.text (ts.map (Term.denote M e))

mutual
/-- The truth of a goal. -/
def GD.Holds (M : Interp) : GD → M.Env → Prop
  | .atomic a, e => a.Holds M e
  | .literal (.pos a), e => a.Holds M e
  | .literal (.neg a), e => ¬ a.Holds M e
  | .and gs, e => GD.AllHold M gs e
  | .or gs, e => GD.SomeHolds M gs e
  | .not g, e => ¬ GD.Holds M g e
  | .imply a b, e => GD.Holds M a e → GD.Holds M b e
  | .exist vs g, e => ForSome M vs e (GD.Holds M g)
  | .forall_ vs g, e => ForEach M vs e (GD.Holds M g)
  | .fComp c, e => M.comp c.comp (c.first.denote M e) (c.second.denote M e)
/-- All of them are true. -/
def GD.AllHold (M : Interp) : List GD → M.Env → Prop
  | [], _ => True
  | g :: gs, e => GD.Holds M g e ∧ GD.AllHold M gs e
/-- One of them is true. -/
def GD.SomeHolds (M : Interp) : List GD → M.Env → Prop
  | [], _ => False
  | g :: gs, e => GD.Holds M g e ∨ GD.SomeHolds M gs e
end

mutual
/-- The truth of a part of a precondition. Preferences need not be met. -/
def PreGD.Holds (M : Interp) : PreGD → M.Env → Prop
  | .preference (.goal g), e => g.Holds M e
  | .preference (.preference _ _), _ => True
  | .forall_ vs gs, e => ForEach M vs e (PreGD.AllHold M gs)
/-- The truth of a precondition. -/
def PreGD.AllHold (M : Interp) : List PreGD → M.Env → Prop
  | [], _ => True
  | g :: gs, e => PreGD.Holds M g e ∧ PreGD.AllHold M gs e
end

mutual
/-- No preference in this part of a precondition. -/
def PreGD.hard : PreGD → Bool
  | .preference (.goal _) => true
  | .preference (.preference _ _) => false
  | .forall_ _ gs => PreGD.allHard gs
/-- No preference in a precondition. -/
def PreGD.allHard : List PreGD → Bool
  | [] => true
  | g :: gs => PreGD.hard g && PreGD.allHard gs
end

/-! ## Constraints

What the operators over trajectories mean is left open: `C c e` is the truth of a constraint that is
neither a conjunction nor quantified. -/

mutual
/-- The truth of a constraint. -/
def ConGD.Holds (M : Interp) (C : ConGD → M.Env → Prop) : ConGD → M.Env → Prop
  | .and gs, e => ConGD.AllHold M C gs e
  | .forall_ vs g, e => ForEach M vs e (ConGD.Holds M C g)
  | c, e => C c e
/-- All of them are true. -/
def ConGD.AllHold (M : Interp) (C : ConGD → M.Env → Prop) : List ConGD → M.Env → Prop
  | [], _ => True
  | g :: gs, e => ConGD.Holds M C g e ∧ ConGD.AllHold M C gs e
end

mutual
/-- The truth of a constraint of a problem. Preferences need not be met. -/
def PrefConGD.Holds (M : Interp) (C : ConGD → M.Env → Prop) : PrefConGD → M.Env → Prop
  | .goal g, e => g.Holds M C e
  | .preference _ _, _ => True
  | .forall_ vs gs, e => ForEach M vs e (PrefConGD.AllHold M C gs)
/-- The truth of the constraints of a problem. -/
def PrefConGD.AllHold (M : Interp) (C : ConGD → M.Env → Prop) : List PrefConGD → M.Env → Prop
  | [], _ => True
  | g :: gs, e => PrefConGD.Holds M C g e ∧ PrefConGD.AllHold M C gs e
end

mutual
/-- No preference in this constraint. -/
def PrefConGD.hard : PrefConGD → Bool
  | .goal _ => true
  | .preference _ _ => false
  | .forall_ _ gs => PrefConGD.allHard gs
/-- No preference in these constraints. -/
def PrefConGD.allHard : List PrefConGD → Bool
  | [] => true
  | g :: gs => PrefConGD.hard g && PrefConGD.allHard gs
end

/-! ## Effects -/

/-- A change of the state: a fact becomes true or false, a function or a fluent gets a new value. -/
inductive Change (M : Interp) where
  | add (p : List Char) (os : List M.Obj)
  | delete (p : List Char) (os : List M.Obj)
  /-- `(= a b)` as an effect. -/
  | equal (a b : M.Obj)
  | differ (a b : M.Obj)
  | object (f : List Char) (os : List M.Obj) (o : Option M.Obj)
  | number (op : AssignOp) (f : List Char) (os : List M.Obj) (n : M.Num)

/-- The change by a simple effect. -/
def PEffect.change (M : Interp) (e : M.Env) : PEffect → Change M
  | .atomic (.predicate p ts) => .add p.text (ts.map (Term.denote M e))
  | .atomic (.equality a b) => .equal (a.denote M e) (b.denote M e)
  | .notAtomic (.predicate p ts) => .delete p.text (ts.map (Term.denote M e))
  | .notAtomic (.equality a b) => .differ (a.denote M e) (b.denote M e)
  | .assignObject f o => .object f.symbol.text (f.terms.map (Term.denote M e)) (o.map (Term.denote M e))
  | .assignNumeric op (.simple f) x => .number op f.text [] (x.denote M e)
  | .assignNumeric op (.withTerms f ts) x => .number op f.text (ts.map (Term.denote M e)) (x.denote M e)

/-- The changes by the effects of a `when`. -/
def CondEffect.Makes (M : Interp) : CondEffect → M.Env → Change M → Prop
  | .single p, e, c => c = p.change M e
  | .all ps, e, c => ∃ p ∈ ps, c = p.change M e

mutual
/-- The changes by an effect in a state. -/
def CEffect.Makes (M : Interp) (c : Change M) : CEffect → M.Env → Prop
  | .effect p, e => c = p.change M e
  | .forall_ vs es, e => ForSome M vs e (CEffect.MakeSome M c es)
  | .when g x, e => g.Holds M e ∧ x.Makes M e c
/-- The changes by effects in a state. -/
def CEffect.MakeSome (M : Interp) (c : Change M) : List CEffect → M.Env → Prop
  | [], _ => False
  | x :: xs, e => CEffect.Makes M c x e ∨ CEffect.MakeSome M c xs e
end

end Pddl
