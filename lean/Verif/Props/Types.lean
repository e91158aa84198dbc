import Verif.Types

/-!
# C42, C43: iterators, singletons, emptiness
-/

namespace Pddl

/-! ## C42 -/

/-- The iterator after `n` calls of `next`. -/
def FlatIter.after {α : Type} (it : FlatIter α) : Nat → FlatIter α
  | 0 => it
  | n + 1 => it.next.2.after n

/-- `Yields it xs`: repeatedly calling `next` gives exactly `xs`, then `None` for ever. -/
inductive Yields {α : Type} : FlatIter α → List α → Prop
  | done {it} : (∀ n, (it.after n).next.1 = none) → Yields it []
  | item {it x xs} : it.next.1 = some x → Yields it.next.2 xs → Yields it (x :: xs)

theorem yields_nil {α : Type} {it : FlatIter α} (h1 : it.next.1 = none) (h2 : it.next.2 = it) :
    Yields it [] := by
  refine .done fun n => ?_
  have : ∀ n, it.after n = it := by
    intro n
    induction n with
    | zero => rfl
    | succ n ih => rw [FlatIter.after, h2, ih]
  rw [this]; exact h1

theorem yields_vec {α : Type} : ∀ xs : List α, Yields (.vec xs) xs
  | [] => yields_nil rfl rfl
  | x :: xs => .item rfl (yields_vec xs)

theorem yields_new {α : Type} (x : α) : Yields (FlatIter.new x) [x] :=
  .item rfl (yields_nil rfl rfl)

theorem yields_newVec {α : Type} (xs : List α) : Yields (FlatIter.newVec xs) xs := by
  unfold FlatIter.newVec
  cases xs with
  | nil => exact yields_nil rfl rfl
  | cons x xs => exact yields_vec (x :: xs)

/-- What an iterator yields is unique. -/
theorem Yields.unique {α : Type} {it : FlatIter α} {xs ys : List α} (h : Yields it xs)
    (h' : Yields it ys) : xs = ys := by
  induction h generalizing ys with
  | done h =>
    cases h' with
    | done _ => rfl
    | item hx _ => have := h 0; rw [FlatIter.after] at this; rw [this] at hx; cases hx
  | item hx _ ih =>
    cases h' with
    | done h => have := h 0; rw [FlatIter.after] at this; rw [this] at hx; cases hx
    | item hy h' => rw [hx] at hy; cases hy; rw [ih h']

/-- The members of a type, conditional effect and duration constraint. -/
inductive Ty.Members : Ty → List Name → Prop
  | exactly (t) : Ty.Members (.exactly t) [t]
  | eitherOf (ts) : Ty.Members (.eitherOf ts) ts
inductive CondEffect.Members : CondEffect → List PEffect → Prop
  | single (e) : CondEffect.Members (.single e) [e]
  | all (es) : CondEffect.Members (.all es) es
inductive DurationConstraint.Members : DurationConstraint → List SimpleDuration → Prop
  | single (c) : DurationConstraint.Members (.single c) [c]
  | all (cs) : DurationConstraint.Members (.all cs) cs

/-- C42 for types: iteration yields exactly the members, and `len` counts them. -/
theorem C42_type (t : Ty) (xs : List Name) (h : t.Members xs) :
    Yields t.intoIter xs ∧ t.len = xs.length := by
  cases h with
  | exactly => exact ⟨yields_new _, rfl⟩
  | eitherOf => exact ⟨yields_newVec _, rfl⟩

/-- C42 for conditional effects. -/
theorem C42_conditional_effect (e : CondEffect) (xs : List PEffect) (h : e.Members xs) :
    Yields e.intoIter xs := by
  cases h with
  | single => exact yields_new _
  | all => exact yields_newVec _

/-- C42 for duration constraints: also `is_empty` agrees with `len = 0`. -/
theorem C42_duration_constraint (c : DurationConstraint) (xs : List SimpleDuration)
    (h : c.Members xs) :
    Yields c.intoIter xs ∧ c.len = xs.length ∧ (c.isEmpty = true ↔ c.len = 0) := by
  cases h with
  | single => exact ⟨yields_new _, rfl, by simp [DurationConstraint.isEmpty, DurationConstraint.len]⟩
  | all =>
    exact ⟨yields_newVec _, rfl, by simp [DurationConstraint.isEmpty, DurationConstraint.len]⟩

/-- C42: `try_get_single` returns the element exactly when there is exactly one. -/
theorem C42_try_get_single {α : Type} (xs : List α) (x : α) :
    tryGetSingle xs = some x ↔ xs = [x] := by
  unfold tryGetSingle
  match xs with
  | [] => simp
  | [y] => simp
  | y :: z :: ys => simp

/-- C42: it fails exactly when there is not exactly one. -/
theorem C42_try_get_single_none {α : Type} (xs : List α) :
    tryGetSingle xs = none ↔ ∀ x, xs ≠ [x] := by
  constructor
  · intro h x hx
    rw [(C42_try_get_single xs x).mpr hx] at h; cases h
  · intro h
    cases hx : tryGetSingle xs with
    | none => rfl
    | some x => exact absurd ((C42_try_get_single xs x).mp hx) (h x)

example : Ty.Members (.eitherOf [Name.new c!"a", Name.new c!"b"]) [Name.new c!"a", Name.new c!"b"] :=
  .eitherOf _

/-! ## C43 -/

/-- The goal mentions the state: it has an atom, literal or comparison at some depth. -/
inductive GD.Mentions : GD → Prop
  | atomic (a) : Mentions (.atomic a)
  | literal (l) : Mentions (.literal l)
  | fComp (c) : Mentions (.fComp c)
  | and {g gs} : g ∈ gs → Mentions g → Mentions (.and gs)
  | or {g gs} : g ∈ gs → Mentions g → Mentions (.or gs)
  | not {g} : Mentions g → Mentions (.not g)
  | implyL {a b} : Mentions a → Mentions (.imply a b)
  | implyR {a b} : Mentions b → Mentions (.imply a b)
  | exist {vs g} : Mentions g → Mentions (.exist vs g)
  | forall_ {vs g} : Mentions g → Mentions (.forall_ vs g)

mutual
theorem GD.isEmpty_iff : ∀ g : GD, g.isEmpty = true ↔ ¬ g.Mentions
  | .atomic a => by simp [GD.isEmpty, GD.Mentions.atomic]
  | .literal l => by simp [GD.isEmpty, GD.Mentions.literal]
  | .fComp c => by simp [GD.isEmpty, GD.Mentions.fComp]
  | .and gs => by
    rw [GD.isEmpty, GD.allEmpty_iff gs]
    exact ⟨fun h hm => by cases hm with | and hg hm => exact h _ hg hm,
      fun h g hg hm => h (.and hg hm)⟩
  | .or gs => by
    rw [GD.isEmpty, GD.allEmpty_iff gs]
    exact ⟨fun h hm => by cases hm with | or hg hm => exact h _ hg hm,
      fun h g hg hm => h (.or hg hm)⟩
  | .not g => by
    rw [GD.isEmpty, GD.isEmpty_iff g]
    exact ⟨fun h hm => by cases hm with | not hm => exact h hm, fun h hm => h (.not hm)⟩
  | .imply a b => by
    rw [GD.isEmpty, Bool.and_eq_true, GD.isEmpty_iff a, GD.isEmpty_iff b]
    exact ⟨fun h hm => by cases hm with | implyL hm => exact h.1 hm | implyR hm => exact h.2 hm,
      fun h => ⟨fun hm => h (.implyL hm), fun hm => h (.implyR hm)⟩⟩
  | .exist vs g => by
    rw [GD.isEmpty, GD.isEmpty_iff g]
    exact ⟨fun h hm => by cases hm with | exist hm => exact h hm, fun h hm => h (.exist hm)⟩
  | .forall_ vs g => by
    rw [GD.isEmpty, GD.isEmpty_iff g]
    exact ⟨fun h hm => by cases hm with | forall_ hm => exact h hm, fun h hm => h (.forall_ hm)⟩
theorem GD.allEmpty_iff : ∀ gs : List GD, GD.allEmpty gs = true ↔ ∀ g ∈ gs, ¬ g.Mentions
  | [] => by simp [GD.allEmpty]
  | g :: gs => by
    rw [GD.allEmpty, Bool.and_eq_true, GD.isEmpty_iff g, GD.allEmpty_iff gs]
    simp
end

mutual
/-- The constraint mentions the state. -/
inductive ConGD.Mentions : ConGD → Prop
  | and {g gs} : g ∈ gs → ConGD.Mentions g → ConGD.Mentions (.and gs)
  | forall_ {vs g} : ConGD.Mentions g → ConGD.Mentions (.forall_ vs g)
  | atEnd {g} : GD.Mentions g → ConGD.Mentions (.atEnd g)
  | always {g} : Con2GD.Mentions g → ConGD.Mentions (.always g)
  | sometime {g} : Con2GD.Mentions g → ConGD.Mentions (.sometime g)
  | within {n g} : Con2GD.Mentions g → ConGD.Mentions (.within n g)
  | atMostOnce {g} : Con2GD.Mentions g → ConGD.Mentions (.atMostOnce g)
  | sometimeAfterL {a b} : Con2GD.Mentions a → ConGD.Mentions (.sometimeAfter a b)
  | sometimeAfterR {a b} : Con2GD.Mentions b → ConGD.Mentions (.sometimeAfter a b)
  | sometimeBeforeL {a b} : Con2GD.Mentions a → ConGD.Mentions (.sometimeBefore a b)
  | sometimeBeforeR {a b} : Con2GD.Mentions b → ConGD.Mentions (.sometimeBefore a b)
  | alwaysWithinL {n a b} : Con2GD.Mentions a → ConGD.Mentions (.alwaysWithin n a b)
  | alwaysWithinR {n a b} : Con2GD.Mentions b → ConGD.Mentions (.alwaysWithin n a b)
  | holdDuring {n m g} : Con2GD.Mentions g → ConGD.Mentions (.holdDuring n m g)
  | holdAfter {n g} : Con2GD.Mentions g → ConGD.Mentions (.holdAfter n g)
inductive Con2GD.Mentions : Con2GD → Prop
  | goal {g} : GD.Mentions g → Con2GD.Mentions (.goal g)
  | nested {g} : ConGD.Mentions g → Con2GD.Mentions (.nested g)
end

mutual
theorem ConGD.isEmpty_iff : ∀ g : ConGD, g.isEmpty = true ↔ ¬ g.Mentions
  | .and gs => by
    rw [ConGD.isEmpty, ConGD.allEmpty_iff gs]
    exact ⟨fun h hm => by cases hm with | and hg hm => exact h _ hg hm,
      fun h g hg hm => h (.and hg hm)⟩
  | .forall_ vs g => by
    rw [ConGD.isEmpty, ConGD.isEmpty_iff g]
    exact ⟨fun h hm => by cases hm with | forall_ hm => exact h hm, fun h hm => h (.forall_ hm)⟩
  | .atEnd g => by
    rw [ConGD.isEmpty, GD.isEmpty_iff g]
    exact ⟨fun h hm => by cases hm with | atEnd hm => exact h hm, fun h hm => h (.atEnd hm)⟩
  | .always g => by
    rw [ConGD.isEmpty, Con2GD.isEmpty_iff g]
    exact ⟨fun h hm => by cases hm with | always hm => exact h hm, fun h hm => h (.always hm)⟩
  | .sometime g => by
    rw [ConGD.isEmpty, Con2GD.isEmpty_iff g]
    exact ⟨fun h hm => by cases hm with | sometime hm => exact h hm, fun h hm => h (.sometime hm)⟩
  | .within n g => by
    rw [ConGD.isEmpty, Con2GD.isEmpty_iff g]
    exact ⟨fun h hm => by cases hm with | within hm => exact h hm, fun h hm => h (.within hm)⟩
  | .atMostOnce g => by
    rw [ConGD.isEmpty, Con2GD.isEmpty_iff g]
    exact ⟨fun h hm => by cases hm with | atMostOnce hm => exact h hm,
      fun h hm => h (.atMostOnce hm)⟩
  | .sometimeAfter a b => by
    rw [ConGD.isEmpty, Bool.and_eq_true, Con2GD.isEmpty_iff a, Con2GD.isEmpty_iff b]
    exact ⟨fun h hm => by
        cases hm with | sometimeAfterL hm => exact h.1 hm | sometimeAfterR hm => exact h.2 hm,
      fun h => ⟨fun hm => h (.sometimeAfterL hm), fun hm => h (.sometimeAfterR hm)⟩⟩
  | .sometimeBefore a b => by
    rw [ConGD.isEmpty, Bool.and_eq_true, Con2GD.isEmpty_iff a, Con2GD.isEmpty_iff b]
    exact ⟨fun h hm => by
        cases hm with | sometimeBeforeL hm => exact h.1 hm | sometimeBeforeR hm => exact h.2 hm,
      fun h => ⟨fun hm => h (.sometimeBeforeL hm), fun hm => h (.sometimeBeforeR hm)⟩⟩
  | .alwaysWithin n a b => by
    rw [ConGD.isEmpty, Bool.and_eq_true, Con2GD.isEmpty_iff a, Con2GD.isEmpty_iff b]
    exact ⟨fun h hm => by
        cases hm with | alwaysWithinL hm => exact h.1 hm | alwaysWithinR hm => exact h.2 hm,
      fun h => ⟨fun hm => h (.alwaysWithinL hm), fun hm => h (.alwaysWithinR hm)⟩⟩
  | .holdDuring n m g => by
    rw [ConGD.isEmpty, Con2GD.isEmpty_iff g]
    exact ⟨fun h hm => by cases hm with | holdDuring hm => exact h hm,
      fun h hm => h (.holdDuring hm)⟩
  | .holdAfter n g => by
    rw [ConGD.isEmpty, Con2GD.isEmpty_iff g]
    exact ⟨fun h hm => by cases hm with | holdAfter hm => exact h hm, fun h hm => h (.holdAfter hm)⟩
theorem ConGD.allEmpty_iff : ∀ gs : List ConGD, ConGD.allEmpty gs = true ↔ ∀ g ∈ gs, ¬ g.Mentions
  | [] => by simp [ConGD.allEmpty]
  | g :: gs => by
    rw [ConGD.allEmpty, Bool.and_eq_true, ConGD.isEmpty_iff g, ConGD.allEmpty_iff gs]
    simp
theorem Con2GD.isEmpty_iff : ∀ g : Con2GD, g.isEmpty = true ↔ ¬ g.Mentions
  | .goal g => by
    rw [Con2GD.isEmpty, GD.isEmpty_iff g]
    exact ⟨fun h hm => by cases hm with | goal hm => exact h hm, fun h hm => h (.goal hm)⟩
  | .nested g => by
    rw [Con2GD.isEmpty, ConGD.isEmpty_iff g]
    exact ⟨fun h hm => by cases hm with | nested hm => exact h hm, fun h hm => h (.nested hm)⟩
end

/-- C43 for goals. -/
theorem C43_goal (g : GD) : g.isEmpty = true ↔ ¬ g.Mentions := GD.isEmpty_iff g

/-- C43 for trajectory constraints. -/
theorem C43_constraint (g : ConGD) : g.isEmpty = true ↔ ¬ g.Mentions := ConGD.isEmpty_iff g

/-- C43 for operands of trajectory constraints. -/
theorem C43_constraint_operand (g : Con2GD) : g.isEmpty = true ↔ ¬ g.Mentions :=
  Con2GD.isEmpty_iff g

/-- The preference constraint mentions the state. -/
inductive PrefConGD.Mentions : PrefConGD → Prop
  | goal {g} : ConGD.Mentions g → Mentions (.goal g)
  | preference {n g} : ConGD.Mentions g → Mentions (.preference n g)
  | forall_ {vs g gs} : g ∈ gs → Mentions g → Mentions (.forall_ vs gs)

/-- For preference constraints only this holds: an empty one mentions no state, and a non-empty one
that is not a quantification does. Missing for C43: `forall` over constraints that are all empty. -/
theorem C43_preference_constraint_partial (g : PrefConGD) :
    (g.isEmpty = true → ¬ g.Mentions) ∧
    ((∀ vs gs, g ≠ .forall_ vs gs) → ¬ g.Mentions → g.isEmpty = true) := by
  cases g with
  | goal g =>
    refine ⟨fun h hm => ?_, fun _ h => ?_⟩
    · cases hm with | goal hm => exact (ConGD.isEmpty_iff g).mp h hm
    · exact (ConGD.isEmpty_iff g).mpr fun hm => h (.goal hm)
  | preference n g =>
    refine ⟨fun h hm => ?_, fun _ h => ?_⟩
    · cases hm with | preference hm => exact (ConGD.isEmpty_iff g).mp h hm
    · exact (ConGD.isEmpty_iff g).mpr fun hm => h (.preference hm)
  | forall_ vs gs =>
    refine ⟨fun h hm => ?_, fun h => absurd rfl (h vs gs)⟩
    cases hm with
    | forall_ hg _ =>
      simp only [PrefConGD.isEmpty, List.isEmpty_iff] at h
      rw [h] at hg; cases hg

/-- C43 is false for preference constraints: `(forall () (always (and)))` is not empty although it
has no atom. -/
theorem C43_preference_constraint_false :
    ∃ g : PrefConGD, g.isEmpty = false ∧ ¬ g.Mentions := by
  refine ⟨.forall_ [] [.goal (.always (.goal (.and [])))], rfl, ?_⟩
  intro h
  cases h with
  | forall_ hg hm =>
    simp only [List.mem_singleton] at hg
    subst hg
    exact ((C43_preference_constraint_partial _).1 (by rfl)) hm

example : (GD.and [.or [], .not (.and [])]).isEmpty = true := by rfl
example : (GD.not (.atomic (.predicate (Name.new c!"p") []))).Mentions := .not (.atomic _)

end Pddl
