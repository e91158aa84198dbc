import Verif.Ast
import Verif.Spec.Layout
import Verif.Spec.Literal
import Verif.Spec.Bits

/-!
# Specification: how PDDL values are written

For every syntactic category a relation `XW m v t`: "the value `v` is written as the text `t`".
The relations are independent of the parsers. They are relations and not printing functions because
a value has many spellings (layout, `f` or `(f)`, `0.5` or `0.50`, grouped or ungrouped typed lists).

A mode says how much freedom a spelling has.
* `strict` is what the parsers must read back (completeness). Words are separated by at least one
  space, there is no layout before the `)` of forms without keyword, and a few overlaps
  of the PDDL grammar are resolved by side conditions (`Mode.req`), each explained where it occurs.
* `loose` is what an accepted text must at least look like (soundness). Side conditions are
  dropped and layout between tokens may be missing where the parsers do not insist on it.
-/

namespace Pddl

/-- See the file comment. -/
inductive Mode
  | strict
  | loose
  deriving DecidableEq

namespace Mode
/-- Layout between a word and the next token. -/
def word : Mode → List Char → Prop
  | strict => Sep
  | loose => Gap
/-- Layout before an operand that may be a number or a variable: the parsers do not skip comments
there. -/
def num : Mode → List Char → Prop
  | strict => Sp
  | loose => Sep
/-- Layout before the `)` of a form without keyword and after the `?` of a variable. -/
def tight : Mode → List Char → Prop
  | strict => fun g => g = []
  | loose => Gap
/-- Layout after a unary minus. -/
def neg : Mode → List Char → Prop
  | strict => Sp0
  | loose => Gap
/-- How many operands an n-ary operator has after its first: with a single one it is the binary
operator.  The parsers read the n-ary operator nevertheless if a comment hides that operand from the
binary reading. -/
def wide : Mode → List Char → Nat → Prop
  | strict => fun _ n => 2 ≤ n
  | loose => fun g n => 2 ≤ n ∨ ';' ∈ g
/-- A side condition of the strict mode. -/
def req (m : Mode) (q : Prop) : Prop := m = strict → q
end Mode

/-- `( body )` -/
def paren (body : List Char) : List Char := '(' :: (body ++ [')'])

/-- One or more elements separated by spaces and layout. -/
inductive Items {α : Type} (R : α → List Char → Prop) : List α → List Char → Prop
  | one {a t} : R a t → Items R [a] t
  | cons {a t g as u} : R a t → Sep g → Items R as u → Items R (a :: as) (t ++ (g ++ u))

/-- The rest of a form: either nothing but layout, or layout, a non-empty list and layout. -/
inductive Sec {α : Type} (lead trail : List Char → Prop) (B : List α → List Char → Prop) :
    List α → List Char → Prop
  | nil {g} : Gap g → Sec lead trail B [] g
  | cons {g xs t g'} : lead g → B xs t → trail g' → Sec lead trail B xs (g ++ (t ++ g'))

/-! ## Names, numbers, types, typed lists -/

/-- The name spelled by a word. The two names the crate knows, `object` and `number`, are
represented by the static variant, all others by the string variant. -/
def wordName (t : List Char) : Name := if t = c!"object" ∨ t = c!"number" then .static t else .str t

/-- The type `object`, which is also the type of names without one. -/
def objectTy : Ty := .exactly (.static c!"object")
/-- The type `number`, which is also the type of functions without one. -/
def numberTy : Ty := .exactly (.static c!"number")

/-- A name. -/
def NameW (n : Name) (t : List Char) : Prop := IsWord t ∧ n = wordName t

/-- A number: a decimal below the overflow bound, and the non-negative binary32 value nearest to it. -/
def NumW (n : Number) (t : List Char) : Prop :=
  ∃ l : Literal10, t = l.text ∧ l.num < overflowBound * l.den ∧ n.val.bits.msb = false ∧
    NearestTo n.val.bits (l.num * 2 ^ 149 : Nat) l.den

/-- A variable `?x`. -/
def VarW (m : Mode) (v : Name) (t : List Char) : Prop :=
  ∃ g w, t = '?' :: (g ++ w) ∧ m.tight g ∧ NameW v w

/-- A member of an `either` type. Strict: not a word that merely begins with `object` (C11). -/
def EitherMemberW (m : Mode) (n : Name) (t : List Char) : Prop :=
  NameW n t ∧ m.req (∀ r, t = c!"object" ++ r → r = [])

/-- A type. -/
inductive TypeW (m : Mode) : Ty → List Char → Prop
  | exactly {n t} : NameW n t → TypeW m (.exactly n) t
  | either {g ns t g'} : m.word g → Items (EitherMemberW m) ns t → Gap g' →
      TypeW m (.eitherOf ns) (paren (c!"either" ++ (g ++ (t ++ g'))))

/-- A non-empty typed list: groups `x1 .. xk - t`, the last group possibly without type; then
its elements have the default type `d`. -/
inductive TypedW {α : Type} (m : Mode) (R : α → List Char → Prop) (d : Ty) :
    TypedList α → List Char → Prop
  | tail {xs t} : Items R xs t → TypedW m R d (xs.map fun x => ⟨x, d⟩) t
  | last {xs t g1 g2 ty u} : Items R xs t → m.word g1 → m.word g2 → TypeW m ty u →
      TypedW m R d (xs.map fun x => ⟨x, ty⟩) (t ++ (g1 ++ (c!"-" ++ (g2 ++ u))))
  | more {xs t g1 g2 ty u g3 ys v} : Items R xs t → m.word g1 → m.word g2 → TypeW m ty u →
      m.word g3 → TypedW m R d ys v →
      TypedW m R d ((xs.map fun x => ⟨x, ty⟩) ++ ys)
        (t ++ (g1 ++ (c!"-" ++ (g2 ++ (u ++ (g3 ++ v))))))

/-- A parenthesised list of typed variables. -/
def VarsW (m : Mode) (vs : TypedList Name) (t : List Char) : Prop :=
  ∃ u, t = paren u ∧ Sec Gap m.tight (TypedW m (VarW m) objectTy) vs u

/-! ## Terms and atoms -/

/-- A term. -/
inductive TermW (m : Mode) : Term → List Char → Prop
  | name {n t} : NameW n t → TermW m (.name n) t
  | var {v t} : VarW m v t → TermW m (.var v) t
  | fn {g f t ts u} : Gap g → NameW f t → Sec m.word m.tight (Items (TermW m)) ts u →
      TermW m (.fn f ts) (paren (g ++ (t ++ u)))

/-- A function term `(f t1 .. tn)`. -/
inductive FnTermW (m : Mode) : FunctionTerm → List Char → Prop
  | mk {g f t ts u} : Gap g → NameW f t → Sec m.word m.tight (Items (TermW m)) ts u →
      FnTermW m ⟨f, ts⟩ (paren (g ++ (t ++ u)))

/-- An atomic formula over terms written by `R`. -/
inductive AtomW {α : Type} (m : Mode) (R : α → List Char → Prop) :
    AtomicFormula α → List Char → Prop
  | equality {g1 a t1 g2 b t2 g3} : Gap g1 → R a t1 → m.word g2 → R b t2 → Gap g3 →
      AtomW m R (.equality a b) (paren (c!"=" ++ (g1 ++ (t1 ++ (g2 ++ (t2 ++ g3))))))
  | predicate {g p t vs u} : Gap g → NameW p t → Sec m.word m.tight (Items R) vs u →
      AtomW m R (.predicate p vs) (paren (g ++ (t ++ u)))

/-- The predicate of the atom is not one of the given words. -/
def AtomicFormula.headNot {α : Type} (ws : List (List Char)) : AtomicFormula α → Prop
  | .equality _ _ => True
  | .predicate p _ => p.text ∉ ws

/-- A ground literal. -/
inductive LiteralW (m : Mode) : Literal Name → List Char → Prop
  | neg {g a t g'} : Gap g → AtomW m NameW a t → Gap g' →
      LiteralW m (.neg a) (paren (c!"not" ++ (g ++ (t ++ g'))))
  | pos {a t} : AtomW m NameW a t → LiteralW m (.pos a) t

/-- The declaration of a predicate or function with its typed parameters. -/
inductive SkeletonW (m : Mode) : Skeleton → List Char → Prop
  | mk {g p t vs u} : Gap g → NameW p t →
      Sec m.word m.tight (TypedW m (VarW m) objectTy) vs u →
      SkeletonW m ⟨p, vs⟩ (paren (g ++ (t ++ u)))

/-- A ground function term, in `:init`. -/
inductive BasicW (m : Mode) : BasicFunctionTerm → List Char → Prop
  | bare {f t} : NameW f t → BasicW m ⟨f, []⟩ t
  | app {g f t ns u} : Gap g → NameW f t → Sec m.word m.tight (Items NameW) ns u →
      BasicW m ⟨f, ns⟩ (paren (g ++ (t ++ u)))

/-- The head of a numeric fluent: `f`, `(f)` or `(f t1 .. tn)`. -/
inductive FHeadW (m : Mode) : FHead → List Char → Prop
  | bare {f t} : NameW f t → FHeadW m (.simple f) t
  | simple {g f t g'} : Gap g → NameW f t → m.tight g' →
      FHeadW m (.simple f) (paren (g ++ (t ++ g')))
  | terms {g f t ts u} : Gap g → NameW f t → Sec m.word m.tight (Items (TermW m)) ts u →
      m.req (ts ≠ []) → FHeadW m (.withTerms f ts) (paren (g ++ (t ++ u)))

/-! ## Operators -/

def BinaryOp.spell : BinaryOp → List Char
  | mul => c!"*" | add => c!"+" | sub => c!"-" | div => c!"/"

def MultiOp.spell : MultiOp → List Char
  | mul => c!"*" | add => c!"+"

def BinaryComp.spell : BinaryComp → List Char
  | gt => c!">" | lt => c!"<" | eq => c!"=" | ge => c!">=" | le => c!"<="

/-- `change` is an older spelling of `assign`. -/
inductive AssignOpW : AssignOp → List Char → Prop
  | assign : AssignOpW .assign c!"assign"
  | change : AssignOpW .assign c!"change"
  | scaleUp : AssignOpW .scaleUp c!"scale-up"
  | scaleDown : AssignOpW .scaleDown c!"scale-down"
  | increase : AssignOpW .increase c!"increase"
  | decrease : AssignOpW .decrease c!"decrease"

def AssignOpT.spell : AssignOpT → List Char
  | increase => c!"increase" | decrease => c!"decrease"

def DOp.spell : DOp → List Char
  | eq => c!"=" | ge => c!">=" | le => c!"<="

def Optimization.spell : Optimization → List Char
  | minimize => c!"minimize" | maximize => c!"maximize"

def TimeSpecifier.spell : TimeSpecifier → List Char
  | start => c!"start" | end_ => c!"end"

def Interval.spell : Interval → List Char
  | all => c!"all"

def Requirement.spell : Requirement → List Char
  | strips => c!":strips" | typing => c!":typing"
  | negativePreconditions => c!":negative-preconditions"
  | disjunctivePreconditions => c!":disjunctive-preconditions" | equality => c!":equality"
  | existentialPreconditions => c!":existential-preconditions"
  | universalPreconditions => c!":universal-preconditions"
  | quantifiedPreconditions => c!":quantified-preconditions"
  | conditionalEffects => c!":conditional-effects" | fluents => c!":fluents"
  | numericFluents => c!":numeric-fluents" | objectFluents => c!":object-fluents" | adl => c!":adl"
  | durativeActions => c!":durative-actions" | durationInequalities => c!":duration-inequalities"
  | continuousEffects => c!":continuous-effects" | derivedPredicates => c!":derived-predicates"
  | timedInitialLiterals => c!":timed-initial-literals" | preferences => c!":preferences"
  | constraints => c!":constraints" | actionCosts => c!":action-costs"

/-! ## Numeric expressions -/

/-- A numeric expression. Strict: an n-ary operator has at least three operands (with two it is the
binary operator). -/
inductive FExpW (m : Mode) : FExp → List Char → Prop
  | number {n t} : NumW n t → FExpW m (.number n) t
  | function {h t} : FHeadW m h t → FExpW m (.function h) t
  | negative {g0 g e t g'} : Gap g0 → m.neg g → FExpW m e t → m.tight g' →
      FExpW m (.negative e) (paren (g0 ++ (c!"-" ++ (g ++ (t ++ g')))))
  | binaryOp {g0 op g1 a t1 g2 b t2 g3} : Gap g0 → m.num g1 → FExpW m a t1 → m.num g2 →
      FExpW m b t2 → m.tight g3 →
      FExpW m (.binaryOp op a b)
        (paren (g0 ++ (op.spell ++ (g1 ++ (t1 ++ (g2 ++ (t2 ++ g3)))))))
  | multiOp {g0 op g1 a t1 g2 bs t2 g3} : Gap g0 → m.num g1 → FExpW m a t1 → Sep g2 →
      Items (FExpW m) bs t2 → m.tight g3 → m.wide g2 bs.length →
      FExpW m (.multiOp op a bs)
        (paren (g0 ++ (op.spell ++ (g1 ++ (t1 ++ (g2 ++ (t2 ++ g3)))))))

/-- The expression is a fluent. -/
def FExp.isFunction : FExp → Prop
  | .function _ => True
  | _ => False

/-- The expression is a number or a fluent. -/
def FExp.isSimple : FExp → Prop
  | .function _ => True
  | .number _ => True
  | _ => False

/-- The expression is a number. -/
def FExp.isNumber : FExp → Prop
  | .number _ => True
  | _ => False

/-- A numeric expression in a durative effect. Strict: operators belong to this level, only numbers
and fluents to `FExp`. -/
inductive FExpDaW (m : Mode) : FExpDa → List Char → Prop
  | duration : FExpDaW m .duration c!"?duration"
  | fExp {e t} : FExpW m e t → m.req e.isSimple → FExpDaW m (.fExp e) t
  | negative {g0 g e t g'} : Gap g0 → m.neg g → FExpDaW m e t → m.tight g' →
      FExpDaW m (.negative e) (paren (g0 ++ (c!"-" ++ (g ++ (t ++ g')))))
  | binaryOp {g0 op g1 a t1 g2 b t2 g3} : Gap g0 → m.num g1 → FExpDaW m a t1 → m.num g2 →
      FExpDaW m b t2 → m.tight g3 →
      FExpDaW m (.binaryOp op a b)
        (paren (g0 ++ (op.spell ++ (g1 ++ (t1 ++ (g2 ++ (t2 ++ g3)))))))
  | multiOp {g0 op g1 a t1 g2 bs t2 g3} : Gap g0 → m.num g1 → FExpDaW m a t1 → Sep g2 →
      Items (FExpDaW m) bs t2 → m.tight g3 → m.wide g2 bs.length →
      FExpDaW m (.multiOp op a bs)
        (paren (g0 ++ (op.spell ++ (g1 ++ (t1 ++ (g2 ++ (t2 ++ g3)))))))

/-- A continuous change `#t`, `(* #t e)` or `(* e #t)`. -/
inductive FExpTW (m : Mode) : FExpT → List Char → Prop
  | now : FExpTW m .now c!"#t"
  | left {g0 g1 e t g2} : Gap g0 → m.num g1 → FExpW m e t → Gap g2 →
      FExpTW m (.scaled e) (paren (c!"*" ++ (g0 ++ (c!"#t" ++ (g1 ++ (t ++ g2))))))
  | right {g0 g1 e t g2} : Gap g0 → FExpW m e t → Sp g1 → Gap g2 →
      FExpTW m (.scaled e) (paren (c!"*" ++ (g0 ++ (t ++ (g1 ++ (c!"#t" ++ g2))))))

/-- A numeric comparison. -/
inductive FCompW (m : Mode) : FComp → List Char → Prop
  | mk {g0 op g1 a t1 g2 b t2 g3} : Gap g0 → m.num g1 → FExpW m a t1 → m.num g2 →
      FExpW m b t2 → m.tight g3 →
      FCompW m ⟨op, a, b⟩ (paren (g0 ++ (op.spell ++ (g1 ++ (t1 ++ (g2 ++ (t2 ++ g3)))))))

/-! ## Goals -/

/-- Words with a meaning of their own at the head of a goal. -/
def goalWords : List (List Char) :=
  [c!"and", c!"or", c!"not", c!"imply", c!"exists", c!"forall"]

/-- A goal description. There is no spelling for `GD.literal`: a positive literal is an atom, a
negated one a negation. Strict: predicates are not goal words, and an equation between two fluents
is an atom. -/
inductive GDW (m : Mode) : GD → List Char → Prop
  | and {gs u} : Sec Gap Gap (Items (GDW m)) gs u → GDW m (.and gs) (paren (c!"and" ++ u))
  | or {gs u} : Sec Gap Gap (Items (GDW m)) gs u → GDW m (.or gs) (paren (c!"or" ++ u))
  | not {g1 g t g2} : Gap g1 → GDW m g t → Gap g2 →
      GDW m (.not g) (paren (c!"not" ++ (g1 ++ (t ++ g2))))
  | imply {g1 a t1 g2 b t2 g3} : Gap g1 → GDW m a t1 → Sep g2 → GDW m b t2 → Gap g3 →
      GDW m (.imply a b) (paren (c!"imply" ++ (g1 ++ (t1 ++ (g2 ++ (t2 ++ g3))))))
  | exist {g1 vs t1 g2 g t2 g3} : Gap g1 → VarsW m vs t1 → Sep g2 → GDW m g t2 → Gap g3 →
      GDW m (.exist vs g) (paren (c!"exists" ++ (g1 ++ (t1 ++ (g2 ++ (t2 ++ g3))))))
  | forall_ {g1 vs t1 g2 g t2 g3} : Gap g1 → VarsW m vs t1 → Sep g2 → GDW m g t2 → Gap g3 →
      GDW m (.forall_ vs g) (paren (c!"forall" ++ (g1 ++ (t1 ++ (g2 ++ (t2 ++ g3))))))
  | atomic {a t} : AtomW m (TermW m) a t → m.req (a.headNot goalWords) → GDW m (.atomic a) t
  | fComp {c t} : FCompW m c t →
      m.req (c.comp = .eq → ¬ (c.first.isFunction ∧ c.second.isFunction)) → GDW m (.fComp c) t

/-- The goal is not an atom whose predicate begins with `preference`. -/
def GD.notPreference : GD → Prop
  | .atomic (.predicate p _) => ∀ r, p.text ≠ c!"preference" ++ r
  | _ => True

/-- A goal or preference. -/
inductive PrefGDW (m : Mode) : PrefGD → List Char → Prop
  | goal {g t} : GDW m g t → m.req g.notPreference → PrefGDW m (.goal g) t
  | named {g1 n tn g2 g t g3} : m.word g1 → NameW n tn → Sep g2 → GDW m g t → Gap g3 →
      PrefGDW m (.preference (some n) g)
        (paren (c!"preference" ++ (g1 ++ (tn ++ (g2 ++ (t ++ g3))))))
  | anonymous {g1 g t g2} : Gap g1 → GDW m g t → Gap g2 →
      PrefGDW m (.preference none g) (paren (c!"preference" ++ (g1 ++ (t ++ g2))))

/-- Not a conjunction or universal quantification, which belong to the level of `PreGD`. -/
def PrefGD.notPre : PrefGD → Prop
  | .goal (.and _) => False
  | .goal (.forall_ _ _) => False
  | _ => True

/-- A precondition or problem goal: the list of its conjuncts. -/
inductive PreGDW (m : Mode) : List PreGD → List Char → Prop
  | forall_ {g1 vs t1 g2 gs t2 g3} : Gap g1 → VarsW m vs t1 → Sep g2 → PreGDW m gs t2 → Gap g3 →
      PreGDW m [.forall_ vs gs] (paren (c!"forall" ++ (g1 ++ (t1 ++ (g2 ++ (t2 ++ g3))))))
  | and {gss u} : Sec Gap Gap (Items (PreGDW m)) gss u →
      PreGDW m gss.flatten (paren (c!"and" ++ u))
  | pref {p t} : PrefGDW m p t → m.req p.notPre → PreGDW m [.preference p] t

/-! ## Trajectory constraints -/

/-- The constraint carries a number. -/
def ConGD.isTimed : ConGD → Prop
  | .within _ _ => True
  | .alwaysWithin _ _ _ => True
  | .holdDuring _ _ _ => True
  | .holdAfter _ _ => True
  | _ => False

/-- The operand of a trajectory constraint. Strict: a nested constraint carries a number; the
others can be mistaken for atoms (C21). -/
inductive Con2W (m : Mode) (R : ConGD → List Char → Prop) : Con2GD → List Char → Prop
  | goal {g t} : GDW m g t → Con2W m R (.goal g) t
  | nested {c t} : R c t → m.req c.isTimed → Con2W m R (.nested c) t

/-- A trajectory constraint. -/
inductive ConGDW (m : Mode) : ConGD → List Char → Prop
  | and {gs u} : Sec Gap Gap (Items (ConGDW m)) gs u → ConGDW m (.and gs) (paren (c!"and" ++ u))
  | forall_ {g1 vs t1 g2 g t2 g3} : Gap g1 → VarsW m vs t1 → Sep g2 → ConGDW m g t2 → Gap g3 →
      ConGDW m (.forall_ vs g) (paren (c!"forall" ++ (g1 ++ (t1 ++ (g2 ++ (t2 ++ g3))))))
  | atEnd {g1 g t g2} : Gap g1 → GDW m g t → Gap g2 →
      ConGDW m (.atEnd g) (paren (c!"at end" ++ (g1 ++ (t ++ g2))))
  | always {g1 g t g2} : Gap g1 → Con2W m (ConGDW m) g t → Gap g2 →
      ConGDW m (.always g) (paren (c!"always" ++ (g1 ++ (t ++ g2))))
  | sometime {g1 g t g2} : Gap g1 → Con2W m (ConGDW m) g t → Gap g2 →
      ConGDW m (.sometime g) (paren (c!"sometime" ++ (g1 ++ (t ++ g2))))
  | within {g1 n tn g2 g t g3} : m.word g1 → NumW n tn → Sep g2 → Con2W m (ConGDW m) g t → Gap g3 →
      ConGDW m (.within n g) (paren (c!"within" ++ (g1 ++ (tn ++ (g2 ++ (t ++ g3))))))
  | atMostOnce {g1 g t g2} : Gap g1 → Con2W m (ConGDW m) g t → Gap g2 →
      ConGDW m (.atMostOnce g) (paren (c!"at-most-once" ++ (g1 ++ (t ++ g2))))
  | sometimeAfter {g1 a t1 g2 b t2 g3} : Gap g1 → Con2W m (ConGDW m) a t1 → Sep g2 →
      Con2W m (ConGDW m) b t2 → Gap g3 →
      ConGDW m (.sometimeAfter a b)
        (paren (c!"sometime-after" ++ (g1 ++ (t1 ++ (g2 ++ (t2 ++ g3))))))
  | sometimeBefore {g1 a t1 g2 b t2 g3} : Gap g1 → Con2W m (ConGDW m) a t1 → Sep g2 →
      Con2W m (ConGDW m) b t2 → Gap g3 →
      ConGDW m (.sometimeBefore a b)
        (paren (c!"sometime-before" ++ (g1 ++ (t1 ++ (g2 ++ (t2 ++ g3))))))
  | alwaysWithin {g1 n tn g2 a t1 g3 b t2 g4} : m.word g1 → NumW n tn → Sep g2 →
      Con2W m (ConGDW m) a t1 → Sep g3 → Con2W m (ConGDW m) b t2 → Gap g4 →
      ConGDW m (.alwaysWithin n a b)
        (paren (c!"always-within" ++ (g1 ++ (tn ++ (g2 ++ (t1 ++ (g3 ++ (t2 ++ g4))))))))
  | holdDuring {g1 n tn g2 k tk g3 g t g4} : m.word g1 → NumW n tn → m.num g2 → NumW k tk → Sep g3 →
      Con2W m (ConGDW m) g t → Gap g4 →
      ConGDW m (.holdDuring n k g)
        (paren (c!"hold-during" ++ (g1 ++ (tn ++ (g2 ++ (tk ++ (g3 ++ (t ++ g4))))))))
  | holdAfter {g1 n tn g2 g t g3} : m.word g1 → NumW n tn → Sep g2 → Con2W m (ConGDW m) g t →
      Gap g3 → ConGDW m (.holdAfter n g) (paren (c!"hold-after" ++ (g1 ++ (tn ++ (g2 ++ (t ++ g3))))))

/-- Not a conjunction or universal quantification, which belong to the level of `PrefConGD`. -/
def ConGD.notPre : ConGD → Prop
  | .and _ => False
  | .forall_ _ _ => False
  | _ => True

/-- A problem constraint: the list of its conjuncts. -/
inductive PrefConGDW (m : Mode) : List PrefConGD → List Char → Prop
  | and {gss u} : Sec Gap Gap (Items (PrefConGDW m)) gss u →
      PrefConGDW m gss.flatten (paren (c!"and" ++ u))
  | forall_ {g1 vs t1 g2 gs t2 g3} : Gap g1 → VarsW m vs t1 → Sep g2 → PrefConGDW m gs t2 →
      Gap g3 →
      PrefConGDW m [.forall_ vs gs] (paren (c!"forall" ++ (g1 ++ (t1 ++ (g2 ++ (t2 ++ g3))))))
  | named {g1 n tn g2 g t g3} : m.word g1 → NameW n tn → Sep g2 → ConGDW m g t → Gap g3 →
      PrefConGDW m [.preference (some n) g]
        (paren (c!"preference" ++ (g1 ++ (tn ++ (g2 ++ (t ++ g3))))))
  | anonymous {g1 g t g2} : Gap g1 → ConGDW m g t → Gap g2 →
      PrefConGDW m [.preference none g] (paren (c!"preference" ++ (g1 ++ (t ++ g2))))
  | goal {g t} : ConGDW m g t → m.req g.notPre → PrefConGDW m [.goal g] t

/-! ## Effects -/

/-- Words with a meaning of their own at the head of an effect. -/
def effectWords : List (List Char) :=
  [c!"and", c!"not", c!"forall", c!"when", c!"change", c!"assign", c!"scale-up", c!"scale-down",
    c!"increase", c!"decrease"]

/-- A primitive effect. Strict: `(assign (f ..) (g ..))` is the assignment of an object, as the
crate decides it, and `undefined` is not an object. -/
inductive PEffectW (m : Mode) : PEffect → List Char → Prop
  | notAtomic {g1 a t g2} : Gap g1 → AtomW m (TermW m) a t → Gap g2 →
      PEffectW m (.notAtomic a) (paren (c!"not" ++ (g1 ++ (t ++ g2))))
  | undefined {g1 f t g2 g3} : Gap g1 → FnTermW m f t → Sp g2 → Gap g3 →
      PEffectW m (.assignObject f none)
        (paren (c!"assign" ++ (g1 ++ (t ++ (g2 ++ (c!"undefined" ++ g3))))))
  | object {g1 f t1 g2 o t2 g3} : Gap g1 → FnTermW m f t1 → m.num g2 → TermW m o t2 → Gap g3 →
      m.req (t2 ≠ c!"undefined") →
      PEffectW m (.assignObject f (some o))
        (paren (c!"assign" ++ (g1 ++ (t1 ++ (g2 ++ (t2 ++ g3))))))
  | numeric {g0 op s g1 h t1 g2 e t2 g3} : Gap g0 → AssignOpW op s → Sep g1 → FHeadW m h t1 →
      m.num g2 → FExpW m e t2 → m.tight g3 →
      m.req (s = c!"assign" → t1.head? = some '(' → ¬ e.isFunction) →
      PEffectW m (.assignNumeric op h e)
        (paren (g0 ++ (s ++ (g1 ++ (t1 ++ (g2 ++ (t2 ++ g3)))))))
  | atomic {a t} : AtomW m (TermW m) a t → m.req (a.headNot effectWords) → PEffectW m (.atomic a) t

/-- The effect of a `when` or of a timed effect. -/
inductive CondEffectW (m : Mode) : CondEffect → List Char → Prop
  | single {p t} : PEffectW m p t → CondEffectW m (.single p) t
  | all {ps u} : Sec Gap Gap (Items (PEffectW m)) ps u →
      CondEffectW m (.all ps) (paren (c!"and" ++ u))

/-- A list of effects: one effect, or `(and ..)`. -/
inductive EffectW (R : CEffect → List Char → Prop) : List CEffect → List Char → Prop
  | single {e t} : R e t → EffectW R [e] t
  | all {es u} : Sec Gap Gap (Items R) es u → EffectW R es (paren (c!"and" ++ u))

/-- An effect. -/
inductive CEffectW (m : Mode) : CEffect → List Char → Prop
  | effect {p t} : PEffectW m p t → CEffectW m (.effect p) t
  | forall_ {g1 vs t1 g2 es t2 g3} : Gap g1 → VarsW m vs t1 → Sep g2 → EffectW (CEffectW m) es t2 →
      Gap g3 →
      CEffectW m (.forall_ vs es) (paren (c!"forall" ++ (g1 ++ (t1 ++ (g2 ++ (t2 ++ g3))))))
  | when {g1 c t1 g2 e t2 g3} : Gap g1 → GDW m c t1 → Sep g2 → CondEffectW m e t2 → Gap g3 →
      CEffectW m (.when c e) (paren (c!"when" ++ (g1 ++ (t1 ++ (g2 ++ (t2 ++ g3))))))

/-! ## Actions -/

/-- The content of a section that may be empty: `()` or a value. -/
inductive EmptyOrW {α : Type} (R : α → List Char → Prop) : Option α → List Char → Prop
  | empty {g} : Sp g → EmptyOrW R none (g ++ c!"()")
  | some {g v t} : Sep g → R v t → EmptyOrW R (some v) (g ++ t)

/-- A section of an action that may be missing. -/
inductive SlotW {α : Type} (kw : List Char) (R : α → List Char → Prop) :
    Option (Option α) → List Char → Prop
  | absent : SlotW kw R none []
  | present {g o u} : Gap g → EmptyOrW R o u → SlotW kw R (some o) (g ++ (kw ++ u))

/-- An action. A missing precondition and `()` are the empty precondition; a missing effect and
`()` are no effect. -/
inductive ActionW (m : Mode) : ActionDef → List Char → Prop
  | mk {g1 n tn g2 g3 vs tv pre u1 eff u2 g4} : m.word g1 → NameW n tn → Sp g2 → Sep g3 →
      VarsW m vs tv → SlotW c!":precondition" (PreGDW m) pre u1 →
      SlotW c!":effect" (EffectW (CEffectW m)) eff u2 → Gap g4 →
      ActionW m ⟨n, vs, pre.join.getD [], eff.join⟩
        (paren (c!":action" ++ (g1 ++ (tn ++ (g2 ++ (c!":parameters" ++ (g3 ++ (tv ++
          (u1 ++ (u2 ++ g4))))))))))

/-- A derived predicate. -/
inductive DerivedW (m : Mode) : DerivedPredicate → List Char → Prop
  | mk {g1 p t1 g2 g t2 g3} : Gap g1 → SkeletonW m p t1 → Sep g2 → GDW m g t2 → Gap g3 →
      DerivedW m ⟨p, g⟩ (paren (c!":derived" ++ (g1 ++ (t1 ++ (g2 ++ (t2 ++ g3))))))

/-! ## Durative actions -/

/-- A timed condition. -/
inductive TimedGDW (m : Mode) : TimedGD → List Char → Prop
  | at {g1 ts g2 g t g3} : m.word g1 → Sep g2 → GDW m g t → Gap g3 →
      TimedGDW m (.at ts g) (paren (c!"at" ++ (g1 ++ (ts.spell ++ (g2 ++ (t ++ g3))))))
  | over {g1 i g2 g t g3} : m.word g1 → Sep g2 → GDW m g t → Gap g3 →
      TimedGDW m (.over i g) (paren (c!"over" ++ (g1 ++ (i.spell ++ (g2 ++ (t ++ g3))))))

/-- A timed condition or preference. -/
inductive PrefTimedGDW (m : Mode) : PrefTimedGD → List Char → Prop
  | required {g t} : TimedGDW m g t → PrefTimedGDW m (.required g) t
  | named {g1 n tn g2 g t g3} : m.word g1 → NameW n tn → Sep g2 → TimedGDW m g t → Gap g3 →
      PrefTimedGDW m (.preference (some n) g)
        (paren (c!"preference" ++ (g1 ++ (tn ++ (g2 ++ (t ++ g3))))))
  | anonymous {g1 g t g2} : Gap g1 → TimedGDW m g t → Gap g2 →
      PrefTimedGDW m (.preference none g) (paren (c!"preference" ++ (g1 ++ (t ++ g2))))

/-- The condition of a durative action. -/
inductive DaGDW (m : Mode) : DaGD → List Char → Prop
  | forall_ {g1 vs t1 g2 g t2 g3} : Gap g1 → VarsW m vs t1 → Sep g2 → DaGDW m g t2 → Gap g3 →
      DaGDW m (.forall_ vs g) (paren (c!"forall" ++ (g1 ++ (t1 ++ (g2 ++ (t2 ++ g3))))))
  | and {gs u} : Sec Gap Gap (Items (DaGDW m)) gs u → DaGDW m (.and gs) (paren (c!"and" ++ u))
  | timed {g t} : PrefTimedGDW m g t → DaGDW m (.timed g) t

/-- A numeric update in a durative effect. -/
inductive FAssignDaW (m : Mode) : FAssignDa → List Char → Prop
  | mk {g0 op s g1 h t1 g2 e t2 g3} : Gap g0 → AssignOpW op s → Sep g1 → FHeadW m h t1 →
      m.num g2 → FExpDaW m e t2 → m.tight g3 →
      FAssignDaW m ⟨op, h, e⟩ (paren (g0 ++ (s ++ (g1 ++ (t1 ++ (g2 ++ (t2 ++ g3)))))))

/-- The effect is not a single assignment, which is read as a numeric update. -/
def CondEffect.notAssignment : CondEffect → Prop
  | .single (.assignNumeric _ _ _) => False
  | .single (.assignObject _ _) => False
  | _ => True

/-- A timed effect. -/
inductive TimedEffectW (m : Mode) : TimedEffect → List Char → Prop
  | conditional {g1 ts g2 e t g3} : m.word g1 → Sep g2 → CondEffectW m e t → Gap g3 →
      m.req e.notAssignment →
      TimedEffectW m (.conditional ts e)
        (paren (c!"at" ++ (g1 ++ (ts.spell ++ (g2 ++ (t ++ g3))))))
  | numericFluent {g1 ts g2 e t g3} : m.word g1 → Sep g2 → FAssignDaW m e t → Gap g3 →
      TimedEffectW m (.numericFluent ts e)
        (paren (c!"at" ++ (g1 ++ (ts.spell ++ (g2 ++ (t ++ g3))))))
  | continuous {g0 op g1 h t1 g2 e t2 g3} : Gap g0 → Sep g1 → FHeadW m h t1 → m.num g2 →
      FExpTW m e t2 → m.tight g3 →
      TimedEffectW m (.continuous op h e)
        (paren (g0 ++ (op.spell ++ (g1 ++ (t1 ++ (g2 ++ (t2 ++ g3)))))))

/-- The effect of a durative action. -/
inductive DaEffectW (m : Mode) : DaEffect → List Char → Prop
  | all {es u} : Sec Gap Gap (Items (DaEffectW m)) es u →
      DaEffectW m (.all es) (paren (c!"and" ++ u))
  | forall_ {g1 vs t1 g2 e t2 g3} : Gap g1 → VarsW m vs t1 → Sep g2 → DaEffectW m e t2 → Gap g3 →
      DaEffectW m (.forall_ vs e) (paren (c!"forall" ++ (g1 ++ (t1 ++ (g2 ++ (t2 ++ g3))))))
  | when {g1 c t1 g2 e t2 g3} : Gap g1 → DaGDW m c t1 → Sep g2 → TimedEffectW m e t2 → Gap g3 →
      DaEffectW m (.when c e) (paren (c!"when" ++ (g1 ++ (t1 ++ (g2 ++ (t2 ++ g3))))))
  | timed {e t} : TimedEffectW m e t → DaEffectW m (.timed e) t

/-- The value of a duration. Strict: a plain number is a number, not an expression. -/
inductive DValueW (m : Mode) : DurationValue → List Char → Prop
  | number {n t} : NumW n t → DValueW m (.number n) t
  | fExp {e t} : FExpW m e t → m.req (¬ e.isNumber) → DValueW m (.fExp e) t

/-- A simple duration constraint. -/
inductive SimpleDurationW (m : Mode) : SimpleDuration → List Char → Prop
  | op {g0 o g1 g2 v t g3} : Gap g0 → Sp g1 → m.num g2 → DValueW m v t → m.tight g3 →
      SimpleDurationW m (.op o v)
        (paren (g0 ++ (o.spell ++ (g1 ++ (c!"?duration" ++ (g2 ++ (t ++ g3)))))))
  | at {g1 ts g2 c t g3} : m.word g1 → Sep g2 → SimpleDurationW m c t → Gap g3 →
      SimpleDurationW m (.at ts c) (paren (c!"at" ++ (g1 ++ (ts.spell ++ (g2 ++ (t ++ g3))))))

/-- A non-empty duration constraint. -/
inductive DurationW (m : Mode) : DurationConstraint → List Char → Prop
  | single {c t} : SimpleDurationW m c t → DurationW m (.single c) t
  | all {g1 cs t g2} : Gap g1 → Items (SimpleDurationW m) cs t → Gap g2 →
      DurationW m (.all cs) (paren (c!"and" ++ (g1 ++ (t ++ g2))))

/-- A durative action. -/
inductive DaDefW (m : Mode) : DaDef → List Char → Prop
  | mk {g1 n tn g2 g3 vs tv g4 d ud g5 c uc g6 e ue g7} : m.word g1 → NameW n tn → Sp g2 → Sep g3 →
      VarsW m vs tv → Sp g4 → EmptyOrW (DurationW m) d ud → Sp g5 → EmptyOrW (DaGDW m) c uc →
      Sp g6 → EmptyOrW (DaEffectW m) e ue → Gap g7 →
      DaDefW m ⟨n, vs, d, c, e⟩
        (paren (c!":durative-action" ++ (g1 ++ (tn ++ (g2 ++ (c!":parameters" ++ (g3 ++ (tv ++
          (g4 ++ (c!":duration" ++ (ud ++ (g5 ++ (c!":condition" ++ (uc ++ (g6 ++
          (c!":effect" ++ (ue ++ g7)))))))))))))))))

/-- An action, durative action or derived predicate. -/
inductive StructureW (m : Mode) : StructureDef → List Char → Prop
  | derived {d t} : DerivedW m d t → StructureW m (.derived d) t
  | action {a t} : ActionW m a t → StructureW m (.action a) t
  | durative {a t} : DaDefW m a t → StructureW m (.durative a) t

/-! ## Sections -/

/-- `(kw x1 .. xn)` with at least one element. -/
inductive NonEmptyW {α : Type} (kw : List Char) (lead : List Char → Prop)
    (R : α → List Char → Prop) : List α → List Char → Prop
  | mk {g1 xs t g2} : lead g1 → Items R xs t → Gap g2 →
      NonEmptyW kw lead R xs (paren (kw ++ (g1 ++ (t ++ g2))))

/-- The text of a requirement. -/
def KeyW (k : Requirement) (t : List Char) : Prop := t = k.spell

/-- `(:requirements k1 .. kn)` -/
abbrev RequirementsW (m : Mode) := NonEmptyW c!":requirements" m.word KeyW
/-- `(:extends d1 .. dn)` -/
abbrev ExtendsW (m : Mode) := NonEmptyW c!":extends" m.word NameW
/-- `(:predicates p1 .. pn)` -/
abbrev PredicatesW (m : Mode) := NonEmptyW c!":predicates" Gap (SkeletonW m)
/-- `(:timeless l1 .. ln)` -/
abbrev TimelessW (m : Mode) := NonEmptyW c!":timeless" Gap (LiteralW m)

/-- `(:types ..)`, `(:constants ..)`, `(:objects ..)`: a typed list of names. -/
inductive TypedNamesW (m : Mode) (kw : List Char) : TypedList Name → List Char → Prop
  | mk {xs u} : Sec m.word Gap (TypedW m NameW objectTy) xs u →
      TypedNamesW m kw xs (paren (kw ++ u))

/-- `(:functions ..)`: a typed list of skeletons with default type `number`. -/
inductive FunctionsW (m : Mode) : TypedList Skeleton → List Char → Prop
  | mk {xs u} : Sec Gap Gap (TypedW m (SkeletonW m) numberTy) xs u →
      FunctionsW m xs (paren (c!":functions" ++ u))

/-- An element of the initial state. Strict: `(= f o)` with a bare `f` is an equality of two names,
so that the value of an object fluent is written with a parenthesised fluent. -/
inductive InitElW (m : Mode) : InitElement → List Char → Prop
  | literal {l t} : LiteralW m l t → InitElW m (.literal l) t
  | at {g1 n tn g2 l t g3} : m.word g1 → NumW n tn → Sep g2 → LiteralW m l t → Gap g3 →
      InitElW m (.at n l) (paren (c!"at" ++ (g1 ++ (tn ++ (g2 ++ (t ++ g3))))))
  | isValue {g1 f t1 g2 n t2 g3} : Gap g1 → BasicW m f t1 → m.num g2 → NumW n t2 → Gap g3 →
      InitElW m (.isValue f n) (paren (c!"=" ++ (g1 ++ (t1 ++ (g2 ++ (t2 ++ g3))))))
  | isObject {g1 f t1 g2 o t2 g3} : Gap g1 → BasicW m f t1 → Sep g2 → NameW o t2 → Gap g3 →
      m.req (t1.head? = some '(') →
      InitElW m (.isObject f o) (paren (c!"=" ++ (g1 ++ (t1 ++ (g2 ++ (t2 ++ g3))))))

/-- `(:init e1 .. en)` -/
inductive InitW (m : Mode) : List InitElement → List Char → Prop
  | mk {es u} : Sec Gap Gap (Items (InitElW m)) es u → InitW m es (paren (c!":init" ++ u))

/-- `(kw g)` -/
inductive WrapW {α : Type} (kw : List Char) (lead : List Char → Prop) (R : α → List Char → Prop) :
    α → List Char → Prop
  | mk {g1 x t g2} : lead g1 → R x t → Gap g2 → WrapW kw lead R x (paren (kw ++ (g1 ++ (t ++ g2))))

/-- A decimal numeral below `2 ^ 64`. -/
def U64W (n : Nat) (t : List Char) : Prop :=
  t ≠ [] ∧ (∀ c ∈ t, isDec c = true) ∧ n = decVal t ∧ n < 2 ^ 64

/-- An optional part: absent, or preceded by layout. -/
inductive OptW {α : Type} (lead : List Char → Prop) (R : α → List Char → Prop) :
    Option α → List Char → Prop
  | absent : OptW lead R none []
  | present {g v t} : lead g → R v t → OptW lead R (some v) (g ++ t)

/-- `(:length (:serial n) (:parallel m))`, both parts optional. -/
inductive LengthW (m : Mode) : LengthSpec → List Char → Prop
  | mk {s u1 p u2 g} : OptW Gap (WrapW c!":serial" m.word U64W) s u1 →
      OptW Gap (WrapW c!":parallel" m.word U64W) p u2 → Gap g →
      LengthW m ⟨s, p⟩ (paren (c!":length" ++ (u1 ++ (u2 ++ g))))

/-- A metric expression. Strict: a bare function does not begin with `total-time` (C47), a
parenthesised function does not begin with `is-violated`, and an n-ary operator has at least three
operands. -/
inductive MetricW (m : Mode) : MetricFExp → List Char → Prop
  | number {n t} : NumW n t → MetricW m (.number n) t
  | negative {g0 g e t g'} : Gap g0 → m.neg g → MetricW m e t → m.tight g' →
      MetricW m (.negative e) (paren (g0 ++ (c!"-" ++ (g ++ (t ++ g')))))
  | binaryOp {g0 op g1 a t1 g2 b t2 g3} : Gap g0 → m.num g1 → MetricW m a t1 → m.num g2 →
      MetricW m b t2 → m.tight g3 →
      MetricW m (.binaryOp op a b)
        (paren (g0 ++ (op.spell ++ (g1 ++ (t1 ++ (g2 ++ (t2 ++ g3)))))))
  | multiOp {g0 op g1 a t1 g2 bs t2 g3} : Gap g0 → m.num g1 → MetricW m a t1 → Sep g2 →
      Items (MetricW m) bs t2 → m.tight g3 → m.wide g2 bs.length →
      MetricW m (.multiOp op a bs)
        (paren (g0 ++ (op.spell ++ (g1 ++ (t1 ++ (g2 ++ (t2 ++ g3)))))))
  | totalTime : MetricW m .totalTime c!"total-time"
  | isViolated {g1 n t g2} : m.word g1 → NameW n t → Gap g2 →
      MetricW m (.isViolated n) (paren (c!"is-violated" ++ (g1 ++ (t ++ g2))))
  | function {g f t ns u} : Gap g → NameW f t → Sec m.word m.tight (Items NameW) ns u →
      m.req (∀ r, t ≠ c!"is-violated" ++ r) → MetricW m (.function f ns) (paren (g ++ (t ++ u)))
  | bare {f t} : NameW f t → m.req (∀ r, t ≠ c!"total-time" ++ r) → MetricW m (.function f []) t

/-- `(:metric minimize e)` -/
inductive MetricSpecW (m : Mode) : MetricSpec → List Char → Prop
  | mk {g1 o g2 e t g3} : m.word g1 → m.num g2 → MetricW m e t → Gap g3 →
      MetricSpecW m ⟨o, e⟩ (paren (c!":metric" ++ (g1 ++ (o.spell ++ (g2 ++ (t ++ g3))))))

/-! ## Domain and problem -/

/-- `(define (domain name) sections..)`. Sections come in this order; missing sections are empty. -/
inductive DomainW (m : Mode) : Domain → List Char → Prop
  | mk {g1 name tn ext u1 req u2 ty u3 con u4 pre u5 fn u6 cstr u7 st u8 g2} :
      Gap g1 → WrapW c!"domain" m.word NameW name tn →
      OptW Sep (ExtendsW m) ext u1 →
      OptW Sep (RequirementsW m) req u2 →
      OptW Sep (TypedNamesW m c!":types") ty u3 →
      OptW Sep (TypedNamesW m c!":constants") con u4 →
      OptW Sep (PredicatesW m) pre u5 →
      OptW Sep (FunctionsW m) fn u6 →
      OptW Sep (WrapW c!":constraints" Gap (ConGDW m)) cstr u7 →
      OptW Sep (Items (StructureW m)) st u8 → Gap g2 →
      DomainW m
        { name, extends_ := ext.getD [], requirements := req.getD [], types := ty.getD [],
          constants := con.getD [], predicates := pre.getD [], functions := fn.getD [],
          constraints := cstr.getD (.and []), timeless := [], structure_ := st.getD [] }
        (paren (c!"define" ++ (g1 ++ (tn ++ (u1 ++ (u2 ++ (u3 ++ (u4 ++ (u5 ++ (u6 ++ (u7 ++
          (u8 ++ g2))))))))))))

/-- `(define (problem name) (:domain d) sections..)`. -/
inductive ProblemW (m : Mode) : Problem → List Char → Prop
  | mk {g1 name tn g2 domain td req u1 obj u2 g3 init ti g4 goal tg cstr u3 met u4 len u5 g5} :
      Gap g1 → WrapW c!"problem" m.word NameW name tn →
      Sep g2 → WrapW c!":domain" m.word NameW domain td →
      OptW Sep (RequirementsW m) req u1 →
      OptW Sep (TypedNamesW m c!":objects") obj u2 →
      Sep g3 → InitW m init ti →
      Sep g4 → WrapW c!":goal" Gap (PreGDW m) goal tg →
      OptW Sep (WrapW c!":constraints" Gap (PrefConGDW m)) cstr u3 →
      OptW Sep (MetricSpecW m) met u4 →
      OptW Sep (LengthW m) len u5 → Gap g5 →
      ProblemW m
        { name, domain, requires := req.getD [], objects := obj.getD [], init, goal,
          constraints := cstr.getD [], metricSpec := met, lengthSpec := len }
        (paren (c!"define" ++ (g1 ++ (tn ++ (g2 ++ (td ++ (u1 ++ (u2 ++ (g3 ++ (ti ++ (g4 ++ (tg ++
          (u3 ++ (u4 ++ (u5 ++ g5)))))))))))))))

end Pddl
