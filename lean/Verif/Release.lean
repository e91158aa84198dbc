import Verif.Parsers
import Verif.Intern

/-!
# Other builds of the crate

`Verif/Parsers.lean` models builds with debug assertions and `Verif/Intern.lean` the default feature
`interning`. This file models the code that differs in the other builds:

* without debug assertions (`cargo build --release`) the `debug_assert!`s are gone. They stand in
  `MetricFExp::new_multi_op`, `DurationConstraint::new_all`, `Number::cmp` and `Number::hash`. The
  parsers that reach the first two are written out again here;
* without `interning`, `Name::new_string_interned` stores the string it is given.
-/

namespace Pddl
namespace Release

/-! ## Without debug assertions -/

/-- `DurationConstraint::new_all` without its `debug_assert!`,
`/repo/src/types/duration_constraint.rs:33-37`. -/
def newAll (cs : List SimpleDuration) : DurationConstraint := .all cs

/-- `parse_duration_constraint`, `/repo/src/parsers/duration_constraint.rs:60-78`. -/
def parseDurationConstraint : P (Option DurationConstraint) :=
  alt [
    map (fun _ => none) (tag c!"()"),
    map (fun c => some (DurationConstraint.single c)) parseSimpleDuration,
    map (fun cs => some (newAll cs)) (prefixExpr c!"and" (spaceSeparatedList1 parseSimpleDuration))]

/-- `parse_da_def`, `/repo/src/parsers/da_def.rs:55-92`. -/
def parseDaDef : P DaDef :=
  map (fun x : Name × TypedList Name × Option DurationConstraint × Option DaGD × Option DaEffect =>
      DaDef.mk x.1 x.2.1 x.2.2.1 x.2.2.2.1 x.2.2.2.2)
    (prefixExpr c!":durative-action"
      (pair parseDaSymbol (pair (preceded multispace1 parseParameters)
        (pair
          (preceded multispace1
            (preceded (tag c!":duration") (preceded multispace1 parseDurationConstraint)))
          (pair
            (preceded multispace1
              (preceded (tag c!":condition") (preceded multispace1 (emptyOr parseDaGd))))
            (preceded multispace1
              (preceded (tag c!":effect") (preceded multispace1 (emptyOr parseDaEffect)))))))))

/-- `parse_structure_def`, `/repo/src/parsers/structure_def.rs:52-59`. -/
def parseStructureDef : P StructureDef :=
  alt [
    map StructureDef.derived parseDerivedPredicate,
    map StructureDef.action parseActionDef,
    map StructureDef.durative parseDaDef]

/-- The tuple parser of `/repo/src/parsers/domain.rs:66-88`. -/
def domainParts : P DomainParts :=
  pair (prefixExpr c!"domain" parseName)
    (pair (opt (preceded multispace1 (prefixExpr c!":extends" (spaceSeparatedList1 parseName))))
    (pair (opt (preceded multispace1 parseRequireDef))
    (pair (opt (preceded multispace1 parseTypesDef))
    (pair (opt (preceded multispace1 parseConstantsDef))
    (pair (opt (preceded multispace1 parsePredicatesDef))
    (pair (opt (preceded multispace1 parseFunctionsDef))
    (pair (opt (preceded multispace1 parseDomainConstraintsDef))
      (opt (preceded multispace1 (spaceSeparatedList1 parseStructureDef))))))))))

/-- `parse_domain`, `/repo/src/parsers/domain.rs:62-111`. -/
def parseDomain : P Domain := map domainOf (ws2 (prefixExpr c!"define" domainParts))

/-- `MetricFExp::new_multi_op` without its `debug_assert!`, `/repo/src/types/metric_f_exp.rs:30-37`. -/
def newMultiOp (op : MultiOp) (a : MetricFExp) (bs : List MetricFExp) : MetricFExp :=
  .multiOp op a bs

/-- Body of `parse_metric_f_exp`, `/repo/src/parsers/metric_f_exp.rs:78-136`. -/
def metricFExpBody (self : P MetricFExp) : P MetricFExp :=
  alt [
    map MetricFExp.number parseNumber,
    map (fun x : BinaryOp × MetricFExp × MetricFExp => MetricFExp.binaryOp x.1 x.2.1 x.2.2)
      (parens (pair parseBinaryOp (pair (preceded multispace1 self) (preceded multispace1 self)))),
    map (fun x : MultiOp × MetricFExp × List MetricFExp => newMultiOp x.1 x.2.1 x.2.2)
      (parens (pair parseMultiOp
        (pair (preceded multispace1 self) (preceded multispace1 (spaceSeparatedList1 self))))),
    map MetricFExp.negative (parens (preceded (pair (char '-') multispace0) self)),
    map (fun _ => MetricFExp.totalTime) (tag c!"total-time"),
    map MetricFExp.isViolated (prefixExpr c!"is-violated" parsePrefName),
    map (fun x : Name × List Name => MetricFExp.function x.1 x.2)
      (parens (pair parseFunctionSymbol (ws (spaceSeparatedList0 parseName)))),
    map (fun f => MetricFExp.function f []) parseFunctionSymbol]

/-- `parse_metric_f_exp`, `/repo/src/parsers/metric_f_exp.rs:78-136`. -/
def parseMetricFExp : P MetricFExp := fix metricFExpBody

/-- `parse_problem_metric_spec`, `/repo/src/parsers/metric_spec.rs:23-35`. -/
def parseProblemMetricSpec : P MetricSpec :=
  map (fun x : Optimization × MetricFExp => MetricSpec.mk x.1 x.2)
    (prefixExpr c!":metric" (pair parseOptimization (preceded multispace1 parseMetricFExp)))

/-- The tuple parser of `/repo/src/parsers/problem.rs:43-56`. -/
def problemParts : P ProblemParts :=
  pair (prefixExpr c!"problem" parseName)
    (pair (preceded multispace1 (prefixExpr c!":domain" parseName))
    (pair (opt (preceded multispace1 parseRequireDef))
    (pair (opt (preceded multispace1 parseProblemObjectsDeclaration))
    (pair (preceded multispace1 parseProblemInitDef)
    (pair (preceded multispace1 parseProblemGoalDef)
    (pair (opt (preceded multispace1 parseProblemConstraintsDef))
    (pair (opt (preceded multispace1 parseProblemMetricSpec))
      (opt (preceded multispace1 parseProblemLengthSpec)))))))))

/-- `parse_problem`, `/repo/src/parsers/problem.rs:39-72`. -/
def parseProblem : P Problem := map problemOf (ws2 (prefixExpr c!"define" problemParts))

end Release

/-! ### With debug assertions: comparing numbers -/

/-- `Ord::cmp` with its `debug_assert!`s, `/repo/src/types/number.rs:105-131`. `Number.cmp` is the code
after them. -/
def Number.cmpDebug (a b : Number) : Option Ordering :=
  if !a.val.isFinite then none else if !b.val.isFinite then none else Number.cmp a b

/-- `Hash::hash` with its `debug_assert!`, `/repo/src/types/number.rs:139-148`. -/
def Number.hashWordDebug (a : Number) : Option Nat :=
  if !a.val.isFinite then none else some a.hashWord

/-! ## With and without interning

What a program can see of a `Name`, for both representations of `NameVariant`. -/

/-- What a hasher is fed: the discriminant of the variant, then the text. -/
abbrev HashInput := Nat × List Char

/-- Derived `PartialEq` of `NameVariant` over `Arc<String>`, `/repo/src/types/name.rs:28-35`. `Arc<T>`
with `T: Eq` first compares the allocations and then the contents. -/
def NameRef.eq : NameRef → NameRef → Bool
  | .str a, .str b => a.id == b.id || a.text == b.text
  | .static s, .static t => s == t
  | _, _ => false

/-- Derived `Hash` over `Arc<String>`, which hashes its content. -/
def NameRef.hashInput : NameRef → HashInput
  | .str a => (0, a.text)
  | .static s => (1, s)

/-- `PartialEq<str>`, `/repo/src/types/name.rs:165-184,225-241`. -/
def NameRef.eqStr (n : NameRef) (s : List Char) : Bool :=
  match n with
  | .str a => a.text == s
  | .static t => t == s

/-- `Name::len`, `/repo/src/types/name.rs:118-122,198-206`. -/
def NameRef.len : NameRef → Nat
  | .str a => a.text.length
  | .static s => s.length

/-- `Name::is_empty`, `/repo/src/types/name.rs:114-116`. -/
def NameRef.isEmpty (n : NameRef) : Bool := n.text.isEmpty

/-- Derived `PartialEq` of `NameVariant` over `String`, `/repo/src/types/name.rs:28-38`. -/
def Name.eq : Name → Name → Bool
  | .str s, .str t => s == t
  | .static s, .static t => s == t
  | _, _ => false

/-- Derived `Hash` over `String`. -/
def Name.hashInput : Name → HashInput
  | .str s => (0, s)
  | .static s => (1, s)

/-- `Name::new_string_interned` without the feature `interning`, `/repo/src/types/name.rs:108-111`. -/
def plainString (s : List Char) : Name := .str s

/-- `Name::new` without the feature `interning`, `/repo/src/types/name.rs:53-59`. -/
def plainName (s : List Char) : Name :=
  match Name.mapToStatic s with
  | some t => .static t
  | none => plainString s

/-! ## Conversions by the caller

`Name::new` is generic: it takes any `S: Into<String> + AsRef<str>`. The search uses `as_ref`, the
insertion calls `into` while the mutex is held (`/repo/src/types/name.rs:94-103`). Nothing forces the
two to give the same text, and `into` is code of the caller that may panic. A panic while the guard is
alive poisons the mutex, and every later `lock()` returns an error, on which `expect` panics. -/

/-- An argument of `Name::new`. -/
structure Arg where
  /-- the text given by `as_ref` -/
  ref : List Char
  /-- the text given by `into`; `none` if it panics -/
  own : Option (List Char)
  deriving DecidableEq, Repr

/-- Strings and string slices. -/
def Arg.text (s : List Char) : Arg := ⟨s, some s⟩

/-- The state of the process: the table, and whether the mutex is poisoned. -/
structure Shared where
  st : Interner
  poisoned : Bool

/-- At the start of the program. -/
def Shared.init : Shared := ⟨Interner.init, false⟩

/-- `Name::new_string_interned`, `/repo/src/types/name.rs:91-112`, for any argument. `none` is a panic
of the call. -/
def internArg (search : Searcher) (sh : Shared) (x : Arg) : Option Arc × Shared :=
  if sh.poisoned then (none, sh)
  else match search (fun a => strCmp x.ref a.text) sh.st.table with
    | .found i => match sh.st.table[i]? with
      | some a => (some a, sh)
      | none => (none, { sh with poisoned := true })
    | .missing i => match x.own with
      | none => (none, { sh with poisoned := true })
      | some o =>
        if i ≤ sh.st.table.length then
          let st' : Interner := ⟨sh.st.table.insertIdx i ⟨sh.st.next, o⟩, sh.st.next + 1⟩
          match st'.table[i]? with
          | some a => (some a, { sh with st := st' })
          | none => (none, ⟨st', true⟩)
        else (none, { sh with poisoned := true })
    | .oob => (none, { sh with poisoned := true })

/-- `Name::new`, `/repo/src/types/name.rs:53-59`, for any argument. -/
def newArg (search : Searcher) (sh : Shared) (x : Arg) : Option NameRef × Shared :=
  match Name.mapToStatic x.ref with
  | some t => (some (.static t), sh)
  | none => ((internArg search sh x).1.map .str, (internArg search sh x).2)

/-- A sequence of calls; a panic is caught (or happens in another thread) and the program goes on. -/
def runArgs (search : Searcher) : Shared → List Arg → List (Option NameRef) × Shared
  | sh, [] => ([], sh)
  | sh, x :: xs =>
    ((newArg search sh x).1 :: (runArgs search (newArg search sh x).2 xs).1,
      (runArgs search (newArg search sh x).2 xs).2)

end Pddl
