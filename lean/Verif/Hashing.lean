import Verif.Ops
import Verif.Name

/-!
# Names and requirements as elements of sets

What `#[derive(Hash)]`, `#[derive(Ord)]` and `impl Borrow<str>` of `/repo/src/types` mean for the
sets of the standard library. `Requirements::to_effective` returns such a set
(`/repo/src/types/requirements.rs:68-77`).
-/

namespace Pddl

/-- A call of `Hasher`, the interface through which a value is hashed. -/
inductive HashCall where
  /-- `write_isize`, by which a derived `Hash` writes the number of the variant. -/
  | isize (n : Nat)
  /-- `write_str`, by which `str` and `String` write themselves. -/
  | str (s : List Char)
  deriving DecidableEq, Repr

/-- The calls made by `str::hash`, standard library. -/
def hashText (s : List Char) : List HashCall := [.str s]

/-- The calls made by the derived `Hash` of `Name` and `NameVariant`, `/repo/src/types/name.rs:25-32`:
the number of the variant, then the text (`Arc<String>` passes the call on). -/
def Name.hash : Name → List HashCall
  | .str s => .isize 0 :: hashText s
  | .static s => .isize 1 :: hashText s

namespace Requirement

/-- The number of the variant, `/repo/src/types/requirement.rs:19-105`: the place of the variant in
the declaration. -/
def discr : Requirement → Nat
  | strips => 0
  | typing => 1
  | negativePreconditions => 2
  | disjunctivePreconditions => 3
  | equality => 4
  | existentialPreconditions => 5
  | universalPreconditions => 6
  | quantifiedPreconditions => 7
  | conditionalEffects => 8
  | fluents => 9
  | numericFluents => 10
  | objectFluents => 11
  | adl => 12
  | durativeActions => 13
  | durationInequalities => 14
  | continuousEffects => 15
  | derivedPredicates => 16
  | timedInitialLiterals => 17
  | preferences => 18
  | constraints => 19
  | actionCosts => 20

/-- The calls made by the derived `Hash`, `/repo/src/types/requirement.rs:18`. -/
def hash (r : Requirement) : List HashCall := [.isize r.discr]

/-- The derived `Ord`, `/repo/src/types/requirement.rs:18`: by the number of the variant. -/
def cmp (a b : Requirement) : Ordering := compare a.discr b.discr

/-- `Borrow<str>` and `AsRef<str>`, `/repo/src/types/requirement.rs:251-261`. -/
def borrow (r : Requirement) : List Char := r.str

/-- `Display`, `/repo/src/types/requirement.rs:263-267`. -/
def display (r : Requirement) : List Char := r.borrow

/-- `PartialEq<&str>` and `PartialEq<String>`, `/repo/src/types/requirement.rs:283-295`. -/
def eqStr (r : Requirement) (s : List Char) : Bool := s == r.borrow

end Requirement

namespace AssignOp

/-- `Borrow<str>` and `AsRef<str>`, `/repo/src/types/assign_op.rs:117-127`. -/
def borrow (o : AssignOp) : List Char := o.str

/-- `PartialEq<&str>` and `PartialEq<String>`, `/repo/src/types/assign_op.rs:149-161`. -/
def eqStr (o : AssignOp) (s : List Char) : Bool := s == o.borrow

end AssignOp

/-- The order of `str`: by code points, which for UTF-8 is the order by bytes. -/
def textCmp : List Char → List Char → Ordering
  | [], [] => .eq
  | [], _ :: _ => .lt
  | _ :: _, [] => .gt
  | a :: s, b :: t => (compare a.val.toNat b.val.toNat).then (textCmp s t)

/-! ## `HashSet` and `BTreeSet`, standard library -/

/-- A `HashSet`: the elements in each bucket. Which bucket a value belongs to is decided by the
hasher, the state of its random number generator and the size of the table. All of that is the
parameter `loc` of the operations, of which nothing is assumed. That the table moves its elements
when it grows is not modelled. -/
abbrev HashSet (α : Type) := Nat → List α

namespace HashSet
variable {α β : Type}

/-- `HashSet::new`. -/
def empty : HashSet α := fun _ => []

/-- `HashSet::contains` for a key `q` of a type `β` that the elements can be borrowed as
(`K: Borrow<Q>, Q: Hash + Eq`): only the bucket of the key is looked through, and with `==` of
the borrowed values. -/
def contains [DecidableEq β] (loc : List HashCall → Nat) (hash : β → List HashCall)
    (borrow : α → β) (set : HashSet α) (q : β) : Bool :=
  (set (loc (hash q))).any (fun k => decide (borrow k = q))

/-- `HashSet::insert`. -/
def insert [DecidableEq α] (loc : List HashCall → Nat) (hash : α → List HashCall)
    (set : HashSet α) (x : α) : HashSet α :=
  if contains loc hash id set x then set
  else fun b => if b = loc (hash x) then x :: set b else set b

/-- `HashSet::from_iter`. -/
def ofList [DecidableEq α] (loc : List HashCall → Nat) (hash : α → List HashCall)
    (xs : List α) : HashSet α :=
  xs.foldl (insert loc hash) empty

end HashSet

/-- `Requirements::to_effective`, `/repo/src/types/requirements.rs:68-77`, with the set that is
returned (`Requirement.toEffective` gives its elements only). The set is empty exactly if nothing
was put into it. -/
def Requirement.toEffectiveSet (loc : List HashCall → Nat) (rs : List Requirement) :
    HashSet Requirement :=
  let elements := rs.flatMap Requirement.expand
  let set := HashSet.ofList loc Requirement.hash elements
  if elements.isEmpty then HashSet.insert loc Requirement.hash set .strips else set

/-- A `BTreeSet` of at most eleven elements, which is one node: the elements from first to last. -/
abbrev BTreeSet (α : Type) := List α

namespace BTreeSet
variable {α β : Type}

/-- `BTreeSet::contains`: the node is searched from the front, up to the first element that is not
less than the key, by the order of the borrowed values. -/
def contains (cmp : β → β → Ordering) (borrow : α → β) (q : β) : BTreeSet α → Bool
  | [] => false
  | k :: ks =>
    match cmp q (borrow k) with
    | .gt => contains cmp borrow q ks
    | .eq => true
    | .lt => false

/-- `BTreeSet::insert`. -/
def insert (cmp : α → α → Ordering) (x : α) : BTreeSet α → BTreeSet α
  | [] => [x]
  | k :: ks =>
    match cmp x k with
    | .gt => k :: insert cmp x ks
    | .eq => k :: ks
    | .lt => x :: k :: ks

/-- `BTreeSet::from_iter`, one element after the other. -/
def ofList (cmp : α → α → Ordering) (xs : List α) : BTreeSet α :=
  xs.foldl (fun s x => insert cmp x s) []

end BTreeSet
end Pddl
