import Verif.Ast

/-!
# Textual forms of the operator enums

`as_str`/`Display` and `TryFrom<&str>` of the small enums in `/repo/src/types`. `none` is the
error of `TryFrom`.
-/

namespace Pddl

namespace BinaryOp
/-- `Display`, `/repo/src/types/binary_op.rs:18-34`. -/
def str : BinaryOp → List Char
  | mul => c!"*" | add => c!"+" | sub => c!"-" | div => c!"/"
/-- `TryFrom<&str>`, `/repo/src/types/binary_op.rs:36-48`. -/
def tryFrom (s : List Char) : Option BinaryOp :=
  if s = c!"*" then some mul else if s = c!"+" then some add
  else if s = c!"-" then some sub else if s = c!"/" then some div else none
/-- `From<MultiOp>`, `/repo/src/types/binary_op.rs:50-57`. -/
def ofMulti : MultiOp → BinaryOp
  | .mul => mul | .add => add
/-- `TryFrom<BinaryOp> for MultiOp`, `/repo/src/types/binary_op.rs:59-69`. -/
def toMulti : BinaryOp → Option MultiOp
  | mul => some .mul | add => some .add | _ => none
end BinaryOp

namespace MultiOp
/-- `Display`, `/repo/src/types/multi_op.rs:16-28`. -/
def str : MultiOp → List Char
  | mul => c!"*" | add => c!"+"
/-- `TryFrom<&str>`, `/repo/src/types/multi_op.rs:30-40`. -/
def tryFrom (s : List Char) : Option MultiOp :=
  if s = c!"*" then some mul else if s = c!"+" then some add else none
end MultiOp

namespace BinaryComp
/-- `Display`, `/repo/src/types/binary_comp.rs:18-36`. -/
def str : BinaryComp → List Char
  | gt => c!">" | lt => c!"<" | eq => c!"=" | ge => c!">=" | le => c!"<="
/-- `TryFrom<&str>`, `/repo/src/types/binary_comp.rs:38-51`. -/
def tryFrom (s : List Char) : Option BinaryComp :=
  if s = c!">" then some gt else if s = c!"<" then some lt else if s = c!"=" then some eq
  else if s = c!">=" then some ge else if s = c!"<=" then some le else none
end BinaryComp

namespace AssignOp
/-- `as_str`, `/repo/src/types/assign_op.rs:83-93`. -/
def str : AssignOp → List Char
  | assign => c!"assign" | scaleUp => c!"scale-up" | scaleDown => c!"scale-down"
  | increase => c!"increase" | decrease => c!"decrease"
/-- `TryFrom<&str>`, `/repo/src/types/assign_op.rs:95-109`; `change` is the deprecated name of
`assign`. -/
def tryFrom (s : List Char) : Option AssignOp :=
  if s = c!"change" then some assign else if s = c!"assign" then some assign
  else if s = c!"scale-up" then some scaleUp else if s = c!"scale-down" then some scaleDown
  else if s = c!"increase" then some increase else if s = c!"decrease" then some decrease
  else none
end AssignOp

namespace AssignOpT
/-- `Display`, `/repo/src/types/assign_op_t.rs:15-27`. -/
def str : AssignOpT → List Char
  | increase => c!"increase" | decrease => c!"decrease"
/-- `TryFrom<&str>`, `/repo/src/types/assign_op_t.rs:29-39`. -/
def tryFrom (s : List Char) : Option AssignOpT :=
  if s = c!"increase" then some increase else if s = c!"decrease" then some decrease else none
end AssignOpT

namespace DOp
/-- `Display`, `/repo/src/types/d_op.rs:18-32`. -/
def str : DOp → List Char
  | eq => c!"=" | ge => c!">=" | le => c!"<="
/-- `TryFrom<&str>`, `/repo/src/types/d_op.rs:34-45`. -/
def tryFrom (s : List Char) : Option DOp :=
  if s = c!"=" then some eq else if s = c!">=" then some ge else if s = c!"<=" then some le
  else none
end DOp

namespace Optimization
/-- `Display`, `/repo/src/types/optimization.rs:20-32`. -/
def str : Optimization → List Char
  | minimize => c!"minimize" | maximize => c!"maximize"
/-- `TryFrom<&str>`, `/repo/src/types/optimization.rs:34-44`. -/
def tryFrom (s : List Char) : Option Optimization :=
  if s = c!"minimize" then some minimize else if s = c!"maximize" then some maximize else none
end Optimization

namespace TimeSpecifier
/-- `Display`, `/repo/src/types/time_specifier.rs:17-29`. -/
def str : TimeSpecifier → List Char
  | start => c!"start" | end_ => c!"end"
/-- `TryFrom<&str>`, `/repo/src/types/time_specifier.rs:31-41`. -/
def tryFrom (s : List Char) : Option TimeSpecifier :=
  if s = c!"start" then some start else if s = c!"end" then some end_ else none
end TimeSpecifier

namespace Interval
/-- `Display`, `/repo/src/types/interval.rs:15-25`. -/
def str : Interval → List Char
  | all => c!"all"
/-- `TryFrom<&str>`, `/repo/src/types/interval.rs:27-36`. -/
def tryFrom (s : List Char) : Option Interval :=
  if s = c!"all" then some all else none
end Interval

namespace Requirement
/-- `as_str`, `/repo/src/types/requirement.rs:107-129,163-187`. -/
def str : Requirement → List Char
  | strips => c!":strips"
  | typing => c!":typing"
  | negativePreconditions => c!":negative-preconditions"
  | disjunctivePreconditions => c!":disjunctive-preconditions"
  | equality => c!":equality"
  | existentialPreconditions => c!":existential-preconditions"
  | universalPreconditions => c!":universal-preconditions"
  | quantifiedPreconditions => c!":quantified-preconditions"
  | conditionalEffects => c!":conditional-effects"
  | fluents => c!":fluents"
  | numericFluents => c!":numeric-fluents"
  | objectFluents => c!":object-fluents"
  | adl => c!":adl"
  | durativeActions => c!":durative-actions"
  | durationInequalities => c!":duration-inequalities"
  | continuousEffects => c!":continuous-effects"
  | derivedPredicates => c!":derived-predicates"
  | timedInitialLiterals => c!":timed-initial-literals"
  | preferences => c!":preferences"
  | constraints => c!":constraints"
  | actionCosts => c!":action-costs"

/-- `TryFrom<&str>`, `/repo/src/types/requirement.rs:214-243`. -/
def tryFrom (s : List Char) : Option Requirement :=
  if s = c!":strips" then some strips
  else if s = c!":typing" then some typing
  else if s = c!":negative-preconditions" then some negativePreconditions
  else if s = c!":disjunctive-preconditions" then some disjunctivePreconditions
  else if s = c!":equality" then some equality
  else if s = c!":existential-preconditions" then some existentialPreconditions
  else if s = c!":universal-preconditions" then some universalPreconditions
  else if s = c!":quantified-preconditions" then some quantifiedPreconditions
  else if s = c!":conditional-effects" then some conditionalEffects
  else if s = c!":fluents" then some fluents
  else if s = c!":numeric-fluents" then some numericFluents
  else if s = c!":object-fluents" then some objectFluents
  else if s = c!":adl" then some adl
  else if s = c!":durative-actions" then some durativeActions
  else if s = c!":duration-inequalities" then some durationInequalities
  else if s = c!":continuous-effects" then some continuousEffects
  else if s = c!":derived-predicates" then some derivedPredicates
  else if s = c!":timed-initial-literals" then some timedInitialLiterals
  else if s = c!":preferences" then some preferences
  else if s = c!":constraints" then some constraints
  else if s = c!":action-costs" then some actionCosts
  else none

/-- `Requirement::contains`, `/repo/src/types/requirement.rs:132-161`. -/
def contains (self other : Requirement) : Bool :=
  match self with
  | quantifiedPreconditions =>
    other == quantifiedPreconditions || other == existentialPreconditions
      || other == universalPreconditions
  | adl =>
    other == adl || other == strips || other == typing || other == negativePreconditions
      || other == disjunctivePreconditions || other == equality
      || other == quantifiedPreconditions || other == continuousEffects
  | fluents => other == fluents || other == numericFluents || other == objectFluents
  | x => other == x

/-- `Requirement::expand`, `/repo/src/types/requirement.rs:192-211`. -/
def expand : Requirement → List Requirement
  | quantifiedPreconditions => [existentialPreconditions, universalPreconditions]
  | fluents => [numericFluents, objectFluents]
  | adl => [strips, typing, negativePreconditions, disjunctivePreconditions, equality,
      existentialPreconditions, universalPreconditions, conditionalEffects]
  | r => [r]

/-- `Requirements::to_effective`, `/repo/src/types/requirements.rs:68-77`. A `HashSet` is modelled
by a list used only through membership. -/
def toEffective (rs : List Requirement) : List Requirement :=
  let set := rs.flatMap expand
  if set.isEmpty then [strips] else set

end Requirement
end Pddl
