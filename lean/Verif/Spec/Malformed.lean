import Verif.Spec.Grammar

/-!
# Specification: texts with a malformed type

`NoType s`: whatever layout is skipped, no type is written at the beginning of `s`.  The relations
`BadX s` describe the texts that begin like an `X`, are well written (in the strict mode of
`Verif/Spec/Grammar.lean`) up to a `-` in a typed list, and go on with a text that begins with
no type.  Nothing is said about what comes after that place: the form need not even be closed.
-/

namespace Pddl

/-- No type is written here, not even in the loose mode. -/
def NoType (s : List Char) : Prop :=
  ∀ g ty u r, Gap g → TypeW .loose ty u → s ≠ g ++ (u ++ r)

/-- Somewhere in the text there is a `-` after which no type is written as it should be. -/
def DashNoType (s : List Char) : Prop :=
  ∃ u v, s = u ++ '-' :: v ∧
    ∀ g ty t r, Sep g → TypeW .strict ty t → Stop r → v ≠ g ++ (t ++ r)

/-- No goal is written here, not even in the loose mode. -/
def NoGoal (s : List Char) : Prop :=
  ∀ g gd u r, Gap g → GDW .loose gd u → s ≠ g ++ (u ++ r)

/-- The elements of a list before the place in question: none, or some and a separator. -/
inductive Before {α : Type} (R : α → List Char → Prop) : List Char → Prop
  | nil : Before R []
  | items {xs t g} : Items R xs t → Sep g → Before R (t ++ g)

/-- A typed list with a `-` that no type follows. `B` describes the elements that are
themselves malformed. -/
inductive BadTyped {α : Type} (R : α → List Char → Prop) (B : List Char → Prop) : List Char → Prop
  | here {xs t g s} : Items R xs t → Sep g → NoType s → BadTyped R B (t ++ (g ++ '-' :: s))
  | elem {u s} : Before R u → B s → BadTyped R B (u ++ s)
  | more {xs t g1 g2 ty u g3 s} : Items R xs t → Sep g1 → Sep g2 → TypeW .strict ty u → Sep g3 →
      BadTyped R B s → BadTyped R B (t ++ (g1 ++ (c!"-" ++ (g2 ++ (u ++ (g3 ++ s))))))

/-- `(x y - ` … -/
inductive BadVars : List Char → Prop
  | mk {g s} : Gap g → BadTyped (VarW .strict) (fun _ => False) s → BadVars ('(' :: (g ++ s))

/-- `(p ?x - ` … -/
inductive BadSkeleton : List Char → Prop
  | mk {g n t g' s} : Gap g → NameW n t → Sep g' → BadTyped (VarW .strict) (fun _ => False) s →
      BadSkeleton ('(' :: (g ++ (t ++ (g' ++ s))))

/-! ## The place is inside the first, second or third part, a list, a quantified form -/

/-- `(kw <bad>` -/
inductive In1 (kw : List Char) (B : List Char → Prop) : List Char → Prop
  | mk {g s} : Gap g → B s → In1 kw B ('(' :: (kw ++ (g ++ s)))

/-- `(kw x <bad>` -/
inductive In2 {α : Type} (kw : List Char) (lead : List Char → Prop) (R : α → List Char → Prop)
    (B : List Char → Prop) : List Char → Prop
  | mk {g1 v t g2 s} : lead g1 → R v t → Sep g2 → B s →
      In2 kw lead R B ('(' :: (kw ++ (g1 ++ (t ++ (g2 ++ s)))))

/-- `(kw x y <bad>` -/
inductive In3 {α β : Type} (kw : List Char) (R : α → List Char → Prop) (lead : List Char → Prop)
    (R' : β → List Char → Prop) (B : List Char → Prop) : List Char → Prop
  | mk {g1 v t g2 v' t' g3 s} : Sep g1 → R v t → lead g2 → R' v' t' → Sep g3 → B s →
      In3 kw R lead R' B ('(' :: (kw ++ (g1 ++ (t ++ (g2 ++ (t' ++ (g3 ++ s)))))))

/-- `(kw x1 .. xn <bad>` -/
inductive InList {α : Type} (kw : List Char) (R : α → List Char → Prop) (B : List Char → Prop) :
    List Char → Prop
  | mk {g u s} : Gap g → Before R u → B s → InList kw R B ('(' :: (kw ++ (g ++ (u ++ s))))

/-- `(kw <bad variables>` or `(kw (variables) <bad>` -/
inductive InQuant (kw : List Char) (B : List Char → Prop) : List Char → Prop
  | vars {g s} : Gap g → BadVars s → InQuant kw B ('(' :: (kw ++ (g ++ s)))
  | body {g1 vs t g2 s} : Gap g1 → VarsW .strict vs t → Sep g2 → B s →
      InQuant kw B ('(' :: (kw ++ (g1 ++ (t ++ (g2 ++ s)))))

/-- The text does not begin with the given one. -/
def NotHead (h s : List Char) : Prop := ∀ r, s ≠ h ++ r

/-! ## Goals -/

inductive BadGD : List Char → Prop
  | and {s} : InList c!"and" (GDW .strict) BadGD s → BadGD s
  | or {s} : InList c!"or" (GDW .strict) BadGD s → BadGD s
  | not {s} : In1 c!"not" BadGD s → BadGD s
  | implyLeft {s} : In1 c!"imply" BadGD s → BadGD s
  | implyRight {s} : In2 c!"imply" Gap (GDW .strict) BadGD s → BadGD s
  | exist {s} : InQuant c!"exists" BadGD s → BadGD s
  | forall_ {s} : InQuant c!"forall" BadGD s → BadGD s

inductive BadPrefGD : List Char → Prop
  | goal {s} : BadGD s → BadPrefGD s
  | named {s} : In2 c!"preference" Sep NameW BadGD s → BadPrefGD s
  | anonymous {s} : In1 c!"preference" BadGD s → BadPrefGD s

/-- Conjunctions and universal quantifications belong to this level. -/
inductive BadPreGD : List Char → Prop
  | forall_ {s} : InQuant c!"forall" BadPreGD s → BadPreGD s
  | and {s} : InList c!"and" (PreGDW .strict) BadPreGD s → BadPreGD s
  | pref {s} : BadPrefGD s → NotHead c!"(and" s → NotHead c!"(forall" s → BadPreGD s

/-! ## Trajectory constraints -/

/-- An operand that comes before the place. -/
abbrev OpW := Con2W .strict (ConGDW .strict)

/- A nested constraint is only reached if the text is no goal, because goals are tried first (C21).
No huge number must occur in it: reading the goal must not panic (C03). -/
mutual
inductive BadCon2 : List Char → Prop
  | goal {s} : BadGD s → BadCon2 s
  | nested {s} : BadCon s → NoGoal s → Calm s → BadCon2 s

inductive BadCon : List Char → Prop
  | and {s} : InList c!"and" (ConGDW .strict) BadCon s → BadCon s
  | forall_ {s} : InQuant c!"forall" BadCon s → BadCon s
  | atEnd {s} : In1 c!"at end" BadGD s → BadCon s
  | always {s} : In1 c!"always" BadCon2 s → BadCon s
  | sometime {s} : In1 c!"sometime" BadCon2 s → BadCon s
  | within {s} : In2 c!"within" Sep NumW BadCon2 s → BadCon s
  | atMostOnce {s} : In1 c!"at-most-once" BadCon2 s → BadCon s
  | afterLeft {s} : In1 c!"sometime-after" BadCon2 s → BadCon s
  | afterRight {s} : In2 c!"sometime-after" Gap OpW BadCon2 s → BadCon s
  | beforeLeft {s} : In1 c!"sometime-before" BadCon2 s → BadCon s
  | beforeRight {s} : In2 c!"sometime-before" Gap OpW BadCon2 s → BadCon s
  | alwaysWithinLeft {s} : In2 c!"always-within" Sep NumW BadCon2 s → BadCon s
  | alwaysWithinRight {s} : In3 c!"always-within" NumW Sep OpW BadCon2 s → BadCon s
  | holdDuring {s} : In3 c!"hold-during" NumW Sp NumW BadCon2 s → BadCon s
  | holdAfter {s} : In2 c!"hold-after" Sep NumW BadCon2 s → BadCon s
end

inductive BadPrefCon : List Char → Prop
  | and {s} : InList c!"and" (PrefConGDW .strict) BadPrefCon s → BadPrefCon s
  | forall_ {s} : InQuant c!"forall" BadPrefCon s → BadPrefCon s
  | named {s} : In2 c!"preference" Sep NameW BadCon s → BadPrefCon s
  | anonymous {s} : In1 c!"preference" BadCon s → BadPrefCon s
  | goal {s} : BadCon s → NotHead c!"(and" s → NotHead c!"(forall" s → BadPrefCon s

/-! ## Effects -/

mutual
inductive BadEffect : List Char → Prop
  | single {s} : BadCEffect s → BadEffect s
  | all {s} : InList c!"and" (CEffectW .strict) BadCEffect s → BadEffect s

inductive BadCEffect : List Char → Prop
  | forall_ {s} : InQuant c!"forall" BadEffect s → BadCEffect s
  | when {s} : In1 c!"when" BadGD s → BadCEffect s
end

/-! ## Actions and derived predicates -/

inductive BadAction : List Char → Prop
  | parameters {g1 n tn g2 g3 s} : Sep g1 → NameW n tn → Sp g2 → Sep g3 → BadVars s →
      BadAction ('(' :: (c!":action" ++ (g1 ++ (tn ++ (g2 ++ (c!":parameters" ++ (g3 ++ s)))))))
  | precondition {g1 n tn g2 g3 vs tv g4 g5 s} : Sep g1 → NameW n tn → Sp g2 → Sep g3 →
      VarsW .strict vs tv → Gap g4 → Sep g5 → BadPreGD s →
      BadAction ('(' :: (c!":action" ++ (g1 ++ (tn ++ (g2 ++ (c!":parameters" ++ (g3 ++ (tv ++
        (g4 ++ (c!":precondition" ++ (g5 ++ s)))))))))))
  | effect {g1 n tn g2 g3 vs tv pre u g4 g5 s} : Sep g1 → NameW n tn → Sp g2 → Sep g3 →
      VarsW .strict vs tv → SlotW c!":precondition" (PreGDW .strict) pre u → Gap g4 → Sep g5 →
      BadEffect s →
      BadAction ('(' :: (c!":action" ++ (g1 ++ (tn ++ (g2 ++ (c!":parameters" ++ (g3 ++ (tv ++
        (u ++ (g4 ++ (c!":effect" ++ (g5 ++ s))))))))))))

inductive BadDerived : List Char → Prop
  | head {s} : In1 c!":derived" BadSkeleton s → BadDerived s
  | body {s} : In2 c!":derived" Gap (SkeletonW .strict) BadGD s → BadDerived s

/-! ## Durative actions -/

inductive BadTimedGD : List Char → Prop
  | at {s} : In2 c!"at" Sep (fun (ts : TimeSpecifier) t => t = ts.spell) BadGD s → BadTimedGD s
  | over {s} : In2 c!"over" Sep (fun (i : Interval) t => t = i.spell) BadGD s → BadTimedGD s

inductive BadPrefTimedGD : List Char → Prop
  | required {s} : BadTimedGD s → BadPrefTimedGD s
  | named {s} : In2 c!"preference" Sep NameW BadTimedGD s → BadPrefTimedGD s
  | anonymous {s} : In1 c!"preference" BadTimedGD s → BadPrefTimedGD s

inductive BadDaGD : List Char → Prop
  | forall_ {s} : InQuant c!"forall" BadDaGD s → BadDaGD s
  | and {s} : InList c!"and" (DaGDW .strict) BadDaGD s → BadDaGD s
  | timed {s} : BadPrefTimedGD s → BadDaGD s

inductive BadDaEffect : List Char → Prop
  | all {s} : InList c!"and" (DaEffectW .strict) BadDaEffect s → BadDaEffect s
  | forall_ {s} : InQuant c!"forall" BadDaEffect s → BadDaEffect s
  | when {s} : In1 c!"when" BadDaGD s → BadDaEffect s

inductive BadDaDef : List Char → Prop
  | parameters {g1 n tn g2 g3 s} : Sep g1 → NameW n tn → Sp g2 → Sep g3 → BadVars s →
      BadDaDef ('(' :: (c!":durative-action" ++ (g1 ++ (tn ++ (g2 ++ (c!":parameters" ++
        (g3 ++ s)))))))
  | condition {g1 n tn g2 g3 vs tv g4 d ud g5 g6 s} : Sep g1 → NameW n tn → Sp g2 → Sep g3 →
      VarsW .strict vs tv → Sp g4 → EmptyOrW (DurationW .strict) d ud → Sp g5 → Sep g6 →
      BadDaGD s →
      BadDaDef ('(' :: (c!":durative-action" ++ (g1 ++ (tn ++ (g2 ++ (c!":parameters" ++
        (g3 ++ (tv ++ (g4 ++ (c!":duration" ++ (ud ++ (g5 ++ (c!":condition" ++
        (g6 ++ s))))))))))))))
  | effect {g1 n tn g2 g3 vs tv g4 d ud g5 c uc g6 g7 s} : Sep g1 → NameW n tn → Sp g2 → Sep g3 →
      VarsW .strict vs tv → Sp g4 → EmptyOrW (DurationW .strict) d ud → Sp g5 →
      EmptyOrW (DaGDW .strict) c uc → Sp g6 → Sep g7 → BadDaEffect s →
      BadDaDef ('(' :: (c!":durative-action" ++ (g1 ++ (tn ++ (g2 ++ (c!":parameters" ++
        (g3 ++ (tv ++ (g4 ++ (c!":duration" ++ (ud ++ (g5 ++ (c!":condition" ++ (uc ++
        (g6 ++ (c!":effect" ++ (g7 ++ s)))))))))))))))))

inductive BadStructure : List Char → Prop
  | derived {s} : BadDerived s → BadStructure s
  | action {s} : BadAction s → BadStructure s
  | durative {s} : BadDaDef s → BadStructure s

/-! ## Sections, domains, problems -/

/-- `(:types ..`, `(:constants ..`, `(:objects ..` -/
abbrev BadTypedNames (kw : List Char) := In1 kw (BadTyped NameW fun _ => False)
/-- `(:predicates ..` -/
abbrev BadPredicates := InList c!":predicates" (SkeletonW .strict) BadSkeleton
/-- `(:functions ..` -/
abbrev BadFunctions := In1 c!":functions" (BadTyped (SkeletonW .strict) BadSkeleton)

/-- The text from the section with the place on. -/
inductive BadDomain : List Char → Prop
  | types {g1 name tn ext u1 req u2 g s} : Gap g1 → WrapW c!"domain" Sep NameW name tn →
      OptW Sep (ExtendsW .strict) ext u1 → OptW Sep (RequirementsW .strict) req u2 →
      Sep g → BadTypedNames c!":types" s →
      BadDomain ('(' :: (c!"define" ++ (g1 ++ (tn ++ (u1 ++ (u2 ++ (g ++ s)))))))
  | constants {g1 name tn ext u1 req u2 ty u3 g s} : Gap g1 → WrapW c!"domain" Sep NameW name tn →
      OptW Sep (ExtendsW .strict) ext u1 → OptW Sep (RequirementsW .strict) req u2 →
      OptW Sep (TypedNamesW .strict c!":types") ty u3 →
      Sep g → BadTypedNames c!":constants" s →
      BadDomain ('(' :: (c!"define" ++ (g1 ++ (tn ++ (u1 ++ (u2 ++ (u3 ++ (g ++ s))))))))
  | predicates {g1 name tn ext u1 req u2 ty u3 con u4 g s} : Gap g1 →
      WrapW c!"domain" Sep NameW name tn →
      OptW Sep (ExtendsW .strict) ext u1 → OptW Sep (RequirementsW .strict) req u2 →
      OptW Sep (TypedNamesW .strict c!":types") ty u3 →
      OptW Sep (TypedNamesW .strict c!":constants") con u4 →
      Sep g → BadPredicates s →
      BadDomain ('(' :: (c!"define" ++ (g1 ++ (tn ++ (u1 ++ (u2 ++ (u3 ++ (u4 ++ (g ++ s)))))))))
  | functions {g1 name tn ext u1 req u2 ty u3 con u4 pre u5 g s} : Gap g1 →
      WrapW c!"domain" Sep NameW name tn →
      OptW Sep (ExtendsW .strict) ext u1 → OptW Sep (RequirementsW .strict) req u2 →
      OptW Sep (TypedNamesW .strict c!":types") ty u3 →
      OptW Sep (TypedNamesW .strict c!":constants") con u4 →
      OptW Sep (PredicatesW .strict) pre u5 →
      Sep g → BadFunctions s →
      BadDomain ('(' :: (c!"define" ++ (g1 ++ (tn ++ (u1 ++ (u2 ++ (u3 ++ (u4 ++ (u5 ++
        (g ++ s))))))))))
  | constraints {g1 name tn ext u1 req u2 ty u3 con u4 pre u5 fn u6 g s} : Gap g1 →
      WrapW c!"domain" Sep NameW name tn →
      OptW Sep (ExtendsW .strict) ext u1 → OptW Sep (RequirementsW .strict) req u2 →
      OptW Sep (TypedNamesW .strict c!":types") ty u3 →
      OptW Sep (TypedNamesW .strict c!":constants") con u4 →
      OptW Sep (PredicatesW .strict) pre u5 → OptW Sep (FunctionsW .strict) fn u6 →
      Sep g → In1 c!":constraints" BadCon s →
      BadDomain ('(' :: (c!"define" ++ (g1 ++ (tn ++ (u1 ++ (u2 ++ (u3 ++ (u4 ++ (u5 ++ (u6 ++
        (g ++ s)))))))))))
  | structure_ {g1 name tn ext u1 req u2 ty u3 con u4 pre u5 fn u6 cstr u7 g u s} : Gap g1 →
      WrapW c!"domain" Sep NameW name tn →
      OptW Sep (ExtendsW .strict) ext u1 → OptW Sep (RequirementsW .strict) req u2 →
      OptW Sep (TypedNamesW .strict c!":types") ty u3 →
      OptW Sep (TypedNamesW .strict c!":constants") con u4 →
      OptW Sep (PredicatesW .strict) pre u5 → OptW Sep (FunctionsW .strict) fn u6 →
      OptW Sep (WrapW c!":constraints" Gap (ConGDW .strict)) cstr u7 →
      Sep g → Before (StructureW .strict) u → BadStructure s →
      BadDomain ('(' :: (c!"define" ++ (g1 ++ (tn ++ (u1 ++ (u2 ++ (u3 ++ (u4 ++ (u5 ++ (u6 ++
        (u7 ++ (g ++ (u ++ s)))))))))))))

inductive BadProblem : List Char → Prop
  | objects {g1 name tn g2 domain td req u1 g s} : Gap g1 → WrapW c!"problem" Sep NameW name tn →
      Sep g2 → WrapW c!":domain" Sep NameW domain td →
      OptW Sep (RequirementsW .strict) req u1 →
      Sep g → BadTypedNames c!":objects" s →
      BadProblem ('(' :: (c!"define" ++ (g1 ++ (tn ++ (g2 ++ (td ++ (u1 ++ (g ++ s))))))))
  | goal {g1 name tn g2 domain td req u1 obj u2 g3 init ti g s} : Gap g1 →
      WrapW c!"problem" Sep NameW name tn →
      Sep g2 → WrapW c!":domain" Sep NameW domain td →
      OptW Sep (RequirementsW .strict) req u1 →
      OptW Sep (TypedNamesW .strict c!":objects") obj u2 →
      Sep g3 → InitW .strict init ti → Sep g → In1 c!":goal" BadPreGD s →
      BadProblem ('(' :: (c!"define" ++ (g1 ++ (tn ++ (g2 ++ (td ++ (u1 ++ (u2 ++ (g3 ++ (ti ++
        (g ++ s)))))))))))
  | constraints {g1 name tn g2 domain td req u1 obj u2 g3 init ti g4 goal tg g s} : Gap g1 →
      WrapW c!"problem" Sep NameW name tn →
      Sep g2 → WrapW c!":domain" Sep NameW domain td →
      OptW Sep (RequirementsW .strict) req u1 →
      OptW Sep (TypedNamesW .strict c!":objects") obj u2 →
      Sep g3 → InitW .strict init ti → Sep g4 → WrapW c!":goal" Gap (PreGDW .strict) goal tg →
      Sep g → In1 c!":constraints" BadPrefCon s →
      BadProblem ('(' :: (c!"define" ++ (g1 ++ (tn ++ (g2 ++ (td ++ (u1 ++ (u2 ++ (g3 ++ (ti ++
        (g4 ++ (tg ++ (g ++ s)))))))))))))

end Pddl
