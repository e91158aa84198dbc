import Verif.Spec.Trajectory
import Verif.Props.Arithmetic

/-!
# C105: constraints over trajectories mean what PDDL says

In the theorems ending in `_partial` an argument that is a constraint and can also be read as a goal is taken as
a goal. Missing, and false, is that it is taken as a constraint: see `C105_false_nested`.
-/

namespace Pddl

/-- The text of a constraint. -/
def IsConstraint (t : List Char) : Prop := ∃ c, ReadsAs parseConGd c t

/-- A text is read as a constraint that is true of a trajectory. -/
def TrueOn (M : Interp) (tr : List (Snapshot M)) (e : M.Env) (t : List Char) : Prop :=
  ∃ c, ReadsAs parseConGd c t ∧ c.On M tr e

/-- A text is read as a goal that is true in the state number `i`. -/
def TrueAt (M : Interp) (tr : List (Snapshot M)) (i : Nat) (e : M.Env) (t : List Char) : Prop :=
  ∃ s, tr[i]? = some s ∧ IsTrue (M.now s) e t

theorem trueOn_iff {M : Interp} {tr : List (Snapshot M)} {e : M.Env} {t : List Char} {c : ConGD}
    (h : ReadsAs parseConGd c t) : TrueOn M tr e t ↔ c.On M tr e :=
  ⟨fun ⟨_, h1, h2⟩ => h.det h1 ▸ h2, fun h2 => ⟨c, h, h2⟩⟩

theorem trueAt_iff {M : Interp} {tr : List (Snapshot M)} {e : M.Env} {x : List Char} {g : GD}
    (h : ReadsAs parseGd g x) (i : Nat) : TrueAt M tr i e x ↔ (Con2GD.goal g).From M tr i e := by
  simp only [TrueAt, Con2GD.From, GD.HoldsAt]
  constructor
  · rintro ⟨s, h1, h2⟩; exact ⟨s, h1, (isTrue_iff h).mp h2⟩
  · rintro ⟨s, h1, h2⟩; exact ⟨s, h1, (isTrue_iff h).mpr h2⟩

/-- The text of an argument of an operator. -/
def IsArgument (x : List Char) : Prop := IsGoal x ∨ IsConstraint x

/-- A text is read as an argument of an operator that is true from the state number `i` on. What can be read as a goal
is one; other constraints are about the rest of the trajectory. -/
def TrueFrom (M : Interp) (tr : List (Snapshot M)) (i : Nat) (e : M.Env) (x : List Char) : Prop :=
  TrueAt M tr i e x ∨ ¬ IsGoal x ∧ TrueOn M (tr.drop i) e x

theorem trueFrom_goal {M : Interp} {tr : List (Snapshot M)} {i : Nat} {e : M.Env} {x : List Char} (h : IsGoal x) :
    TrueFrom M tr i e x ↔ TrueAt M tr i e x := by simp [TrueFrom, h]

theorem trueFrom_nested {M : Interp} {tr : List (Snapshot M)} {i : Nat} {e : M.Env} {x : List Char}
    (h : ¬ IsGoal x) : TrueFrom M tr i e x ↔ TrueOn M (tr.drop i) e x := by
  have : ¬ TrueAt M tr i e x := fun ⟨_, _, g, hg, _⟩ => h ⟨g, hg⟩
  simp [TrueFrom, h, this]

theorem argument_reads {x : List Char} (h : IsArgument x) :
    ∃ v, ReadsAs parseCon2Gd v x ∧ ∀ (M : Interp) (tr : List (Snapshot M)) (i : Nat) (e : M.Env),
      TrueFrom M tr i e x ↔ v.From M tr i e := by
  by_cases hx : IsGoal x
  · obtain ⟨g, hg⟩ := hx
    exact ⟨.goal g, con2_goal.mpr (gdx_reads.mp hg), fun M tr i e => (trueFrom_goal ⟨g, hg⟩).trans (trueAt_iff hg i)⟩
  · obtain ⟨c, hc⟩ := h.resolve_left hx
    exact ⟨.nested c, con2X_reads.mpr (.nested (conX_reads.mp hc) fun v hv => hx ⟨v, gdx_reads.mpr hv⟩),
      fun M tr i e => (trueFrom_nested hx).trans (by rw [Con2GD.From]; exact trueOn_iff hc)⟩

variable {x y t : List Char} (M : Interp) (tr : List (Snapshot M)) (e : M.Env)

/-- One argument. -/
abbrev Arg1 (kw x t : List Char) : Prop := Wrapped kw (fun x t => t = x ∧ IsArgument x) x t

/-- Two arguments. -/
abbrev Arg2 (kw x y t : List Char) : Prop :=
  Paired kw (fun x t => t = x ∧ IsArgument x) (fun x t => t = x ∧ IsArgument x) x y t

/-- A number and an argument. -/
abbrev NumArg1 (kw : List Char) (n : Number) (x t : List Char) : Prop :=
  Paired kw NumW (fun x t => t = x ∧ IsArgument x) n x t

/-- `(at end x)`: in the last state. -/
theorem C105_at_end (h : Wrapped c!"at end" (fun x t => t = x ∧ IsGoal x) x t) :
    IsConstraint t ∧ (TrueOn M tr e t ↔ TrueAt M tr (tr.length - 1) e x) := by
  obtain ⟨g1, _, g2, rfl, h1, ⟨rfl, g, hg⟩, h2⟩ := h
  have h3 := C73_constraint_at_end.mpr ⟨g1, _, g2, rfl, h1, hg, h2⟩
  exact ⟨⟨_, h3⟩, by rw [trueOn_iff h3, trueAt_iff hg, ConGD.On, Con2GD.From]⟩

/-- `(always x)`: in all states. -/
theorem C105_always_partial (h : Arg1 c!"always" x t) :
    IsConstraint t ∧ (TrueOn M tr e t ↔ ∀ i < tr.length, TrueFrom M tr i e x) := by
  obtain ⟨g1, _, g2, rfl, h1, ⟨rfl, hx⟩, h2⟩ := h
  obtain ⟨g, hg, kg⟩ := argument_reads hx
  have h3 := C73_constraint_always.mpr ⟨g1, _, g2, rfl, h1, hg, h2⟩
  exact ⟨⟨_, h3⟩, by rw [trueOn_iff h3, ConGD.On]; simp only [kg]⟩

/-- `(sometime x)`: in a state. -/
theorem C105_sometime_partial (h : Arg1 c!"sometime" x t) :
    IsConstraint t ∧ (TrueOn M tr e t ↔ ∃ i < tr.length, TrueFrom M tr i e x) := by
  obtain ⟨g1, _, g2, rfl, h1, ⟨rfl, hx⟩, h2⟩ := h
  obtain ⟨g, hg, kg⟩ := argument_reads hx
  have h3 := C73_constraint_sometime.mpr ⟨g1, _, g2, rfl, h1, hg, h2⟩
  exact ⟨⟨_, h3⟩, by rw [trueOn_iff h3, ConGD.On]; simp only [kg]⟩

/-- `(at-most-once x)`: not again after it has become false. -/
theorem C105_at_most_once_partial (h : Arg1 c!"at-most-once" x t) :
    IsConstraint t ∧ (TrueOn M tr e t ↔ ∀ i j k, i < j → j < k → k < tr.length →
      TrueFrom M tr i e x → TrueFrom M tr k e x → TrueFrom M tr j e x) := by
  obtain ⟨g1, _, g2, rfl, h1, ⟨rfl, hx⟩, h2⟩ := h
  obtain ⟨g, hg, kg⟩ := argument_reads hx
  have h3 := C73_constraint_at_most_once.mpr ⟨g1, _, g2, rfl, h1, hg, h2⟩
  exact ⟨⟨_, h3⟩, by rw [trueOn_iff h3, ConGD.On]; simp only [kg]⟩

/-- `(within n x)`: in a state not later than `n`. -/
theorem C105_within_partial {n : Number} (h : NumArg1 c!"within" n x t) :
    IsConstraint t ∧ (TrueOn M tr e t ↔ ∃ i s, tr[i]? = some s ∧ M.comp .le s.time (M.lit n) ∧ TrueFrom M tr i e x) := by
  obtain ⟨g1, w, g2, _, g3, rfl, h1, hw, h2, ⟨rfl, hx⟩, h3⟩ := h
  obtain ⟨g, hg, kg⟩ := argument_reads hx
  have h4 := C73_constraint_within.mpr ⟨g1, w, g2, _, g3, rfl, h1, hw, h2, hg, h3⟩
  exact ⟨⟨_, h4⟩, by rw [trueOn_iff h4, ConGD.On]; simp only [kg, Interp.le]⟩

/-- `(hold-after n x)`: in all states later than `n`. -/
theorem C105_hold_after_partial {n : Number} (h : NumArg1 c!"hold-after" n x t) :
    IsConstraint t ∧
      (TrueOn M tr e t ↔ ∀ i s, tr[i]? = some s → ¬ M.comp .le s.time (M.lit n) → TrueFrom M tr i e x) := by
  obtain ⟨g1, w, g2, _, g3, rfl, h1, hw, h2, ⟨rfl, hx⟩, h3⟩ := h
  obtain ⟨g, hg, kg⟩ := argument_reads hx
  have h4 := C73_constraint_hold_after.mpr ⟨g1, w, g2, _, g3, rfl, h1, hw, h2, hg, h3⟩
  exact ⟨⟨_, h4⟩, by rw [trueOn_iff h4, ConGD.On]; simp only [kg, Interp.le]⟩

/-- `(sometime-after x y)`: from a state with `x` on, `y` is true in one. -/
theorem C105_sometime_after_partial (h : Arg2 c!"sometime-after" x y t) :
    IsConstraint t ∧ (TrueOn M tr e t ↔ ∀ i < tr.length, TrueFrom M tr i e x →
      ∃ j, i ≤ j ∧ j < tr.length ∧ TrueFrom M tr j e y) := by
  obtain ⟨g1, _, g2, _, g3, rfl, h1, ⟨rfl, hx⟩, h2, ⟨rfl, hy⟩, h3⟩ := h
  obtain ⟨a, ha, ka⟩ := argument_reads hx
  obtain ⟨b, hb, kb⟩ := argument_reads hy
  have h4 := C73_constraint_sometime_after.mpr ⟨g1, _, g2, _, g3, rfl, h1, ha, h2, hb, h3⟩
  exact ⟨⟨_, h4⟩, by rw [trueOn_iff h4, ConGD.On]; simp only [ka, kb]⟩

/-- `(sometime-before x y)`: before a state with `x`, `y` is true in one. -/
theorem C105_sometime_before_partial (h : Arg2 c!"sometime-before" x y t) :
    IsConstraint t ∧ (TrueOn M tr e t ↔ ∀ i < tr.length, TrueFrom M tr i e x → ∃ j < i, TrueFrom M tr j e y) := by
  obtain ⟨g1, _, g2, _, g3, rfl, h1, ⟨rfl, hx⟩, h2, ⟨rfl, hy⟩, h3⟩ := h
  obtain ⟨a, ha, ka⟩ := argument_reads hx
  obtain ⟨b, hb, kb⟩ := argument_reads hy
  have h4 := C73_constraint_sometime_before.mpr ⟨g1, _, g2, _, g3, rfl, h1, ha, h2, hb, h3⟩
  exact ⟨⟨_, h4⟩, by rw [trueOn_iff h4, ConGD.On]; simp only [ka, kb]⟩

/-- `(always-within n x y)`: whenever `x` is true, `y` is at most `n` later. -/
theorem C105_always_within_partial {n : Number} (h : Tripled c!"always-within" NumW Sep (fun x t => t = x ∧ IsArgument x)
      (fun x t => t = x ∧ IsArgument x) n x y t) :
    IsConstraint t ∧ (TrueOn M tr e t ↔ ∀ i s, tr[i]? = some s → TrueFrom M tr i e x →
      ∃ j s', i ≤ j ∧ tr[j]? = some s' ∧ M.comp .le (M.bin .sub s'.time s.time) (M.lit n) ∧ TrueFrom M tr j e y) := by
  obtain ⟨g1, w, g2, _, g3, _, g4, rfl, h1, hw, h2, ⟨rfl, hx⟩, h3, ⟨rfl, hy⟩, h4⟩ := h
  obtain ⟨a, ha, ka⟩ := argument_reads hx
  obtain ⟨b, hb, kb⟩ := argument_reads hy
  have h5 := C73_constraint_always_within.mpr
    ⟨g1, w, g2, _, g3, _, g4, rfl, h1, hw, h2, ha, h3, hb, h4⟩
  exact ⟨⟨_, h5⟩, by rw [trueOn_iff h5, ConGD.On]; simp only [ka, kb, Interp.le]⟩

/-- `(hold-during n m x)`: in all states from `n` on and before `m`. -/
theorem C105_hold_during_partial {n m : Number} (h : Tripled c!"hold-during" NumW Sp NumW (fun x t => t = x ∧ IsArgument x) n m x t) :
    IsConstraint t ∧ (TrueOn M tr e t ↔ ∀ i s, tr[i]? = some s → M.comp .le (M.lit n) s.time →
      ¬ M.comp .le (M.lit m) s.time → TrueFrom M tr i e x) := by
  obtain ⟨g1, w, g2, w', g3, _, g4, rfl, h1, hw, h2, hw', h3, ⟨rfl, hy⟩, h4⟩ := h
  obtain ⟨b, hb, kb⟩ := argument_reads hy
  have h5 := C73_constraint_hold_during.mpr ⟨g1, w, g2, w', g3, _, g4, rfl, h1, hw, h2, hw', h3, hb, h4⟩
  exact ⟨⟨_, h5⟩, by rw [trueOn_iff h5, ConGD.On]; simp only [kb, Interp.le]⟩

theorem constraints_of_texts {ts : List (List Char)} {u : List Char}
    (h : Items (fun x t => t = x ∧ IsConstraint x) ts u) :
    ∃ cs, Items (ReadsAs parseConGd) cs u ∧ ∀ (M : Interp) (tr : List (Snapshot M)) (e : M.Env),
      ConGD.AllOn M cs tr e ↔ ∀ x ∈ ts, TrueOn M tr e x := by
  induction h with
  | one h =>
    obtain ⟨rfl, c, hc⟩ := h
    exact ⟨[c], .one hc, fun M tr e => by simp [ConGD.AllOn, trueOn_iff hc]⟩
  | cons h hs _ ih =>
    obtain ⟨rfl, c, hc⟩ := h
    obtain ⟨cs, h1, h2⟩ := ih
    exact ⟨c :: cs, .cons hc hs h1, fun M tr e => by simp [ConGD.AllOn, trueOn_iff hc, h2 M tr e]⟩

/-- `(and x ..)`: all of them. -/
theorem C105_and {ts : List (List Char)} (h : Listed c!"and" (fun x t => t = x ∧ IsConstraint x) ts t) :
    IsConstraint t ∧ (TrueOn M tr e t ↔ ∀ x ∈ ts, TrueOn M tr e x) := by
  obtain ⟨u, rfl, hu⟩ := h
  cases hu with
  | nil hg =>
    have h3 := C73_constraint_and.mpr ⟨u, rfl, .nil hg⟩
    exact ⟨⟨_, h3⟩, by rw [trueOn_iff h3, ConGD.On, ConGD.AllOn]; simp⟩
  | cons h1 h2 h3 =>
    obtain ⟨gs, k1, k2⟩ := constraints_of_texts h2
    have h4 := C73_constraint_and.mpr ⟨_, rfl, .cons h1 k1 h3⟩
    exact ⟨⟨_, h4⟩, by rw [trueOn_iff h4, ConGD.On, k2]⟩

/-- `(forall (v ..) x)`: for all objects of the types of the variables. -/
theorem C105_forall {vs : TypedList Name}
    (h : Paired c!"forall" (ReadsAs parseVarList) (fun x t => t = x ∧ IsConstraint x) vs x t) :
    IsConstraint t ∧ (TrueOn M tr e t ↔ ForEach M vs e fun e => TrueOn M tr e x) := by
  obtain ⟨g1, w, g2, _, g3, rfl, h1, hw, h2, ⟨rfl, b, hb⟩, h3⟩ := h
  have h4 := C73_constraint_forall.mpr ⟨g1, w, g2, _, g3, rfl, h1, hw, h2, hb, h3⟩
  exact ⟨⟨_, h4⟩, by rw [trueOn_iff h4, ConGD.On]; exact ForEach.congr (fun e => (trueOn_iff hb).symm) vs e⟩

/-- Three states at the times 0, 1 and 2: `p` is true in the first and the last, `q` in the second. -/
def exTrajectory : List (Snapshot exWhole) :=
  [⟨(0 : Int), fun _ _ => (0 : Nat), fun n _ => n = c!"p", fun _ _ => (0 : Int)⟩,
    ⟨(1 : Int), fun _ _ => (0 : Nat), fun n _ => n = c!"q", fun _ _ => (0 : Int)⟩,
    ⟨(2 : Int), fun _ _ => (0 : Nat), fun n _ => n = c!"p", fun _ _ => (0 : Int)⟩]

/-- An atom without arguments. -/
def exAtom (n : List Char) : GD := .atomic (.predicate (.str n) [])

theorem exAtom_at (n : List Char) (i : Nat) (e : exWhole.Env) :
    (Con2GD.goal (exAtom n)).From exWhole exTrajectory i e ↔ (i = 0 ∨ i = 2) ∧ n = c!"p" ∨ i = 1 ∧ n = c!"q" := by
  simp only [Con2GD.From, GD.HoldsAt, exAtom, GD.Holds, AtomicFormula.Holds]
  match i with
  | 0 => exact ⟨fun ⟨s, h1, h2⟩ => by cases h1; exact .inl ⟨.inl rfl, h2⟩,
      fun h => ⟨_, rfl, h.elim (fun h => h.2) fun h => absurd h.1 (by decide)⟩⟩
  | 1 => exact ⟨fun ⟨s, h1, h2⟩ => by cases h1; exact .inr ⟨rfl, h2⟩,
      fun h => ⟨_, rfl, h.elim (fun h => absurd h.1 (by decide)) fun h => h.2⟩⟩
  | 2 => exact ⟨fun ⟨s, h1, h2⟩ => by cases h1; exact .inl ⟨.inr rfl, h2⟩,
      fun h => ⟨_, rfl, h.elim (fun h => h.2) fun h => absurd h.1 (by decide)⟩⟩
  | i + 3 =>
    constructor
    · rintro ⟨s, h1, -⟩; simp [exTrajectory] at h1
    · intro h; omega

/-- `p` comes before and after `q`, so it is not true at most once. -/
example (e : exWhole.Env) : TrueOn exWhole exTrajectory e c!"(sometime-before (q) (p))" ∧
    TrueOn exWhole exTrajectory e c!"(sometime-after ;c\n(q) (p) )" ∧
    ¬ TrueOn exWhole exTrajectory e c!"(sometime-before (p) (q))" ∧
    ¬ TrueOn exWhole exTrajectory e c!"(at-most-once (p))" ∧ TrueOn exWhole exTrajectory e c!"(at-most-once (q))" ∧
    TrueOn exWhole exTrajectory e c!"(at end (p))" := by
  refine ⟨(trueOn_iff (c := .sometimeBefore (.goal (exAtom c!"q")) (.goal (exAtom c!"p"))) ⟨solid_open _, rfl⟩).mpr ?_,
    (trueOn_iff (c := .sometimeAfter (.goal (exAtom c!"q")) (.goal (exAtom c!"p"))) ⟨solid_open _, rfl⟩).mpr ?_,
    mt (trueOn_iff (c := .sometimeBefore (.goal (exAtom c!"p")) (.goal (exAtom c!"q"))) ⟨solid_open _, rfl⟩).mp ?_,
    mt (trueOn_iff (c := .atMostOnce (.goal (exAtom c!"p"))) ⟨solid_open _, rfl⟩).mp ?_,
    (trueOn_iff (c := .atMostOnce (.goal (exAtom c!"q"))) ⟨solid_open _, rfl⟩).mpr ?_,
    (trueOn_iff (c := .atEnd (exAtom c!"p")) ⟨solid_open _, rfl⟩).mpr ⟨_, rfl, rfl⟩⟩ <;>
    simp only [ConGD.On, exAtom_at] <;> simp [exTrajectory]
  · intro i _ h; exact ⟨0, by omega, .inl rfl⟩
  · intro i _ h; exact ⟨2, by omega, by omega, .inr rfl⟩
  · exact ⟨0, by omega, by omega, by omega⟩
  · exact ⟨0, 1, by omega, 2, by omega, by omega, by omega, by omega, by omega⟩
  · intros; omega

/-- C105 is false of nested constraints: `(sometime (p))` is a constraint and true from every state on, but
`(always (sometime (p)))` is not true, because there `sometime` is a predicate (C21). -/
theorem C105_false_nested (e : exWhole.Env) : IsConstraint c!"(sometime (p))" ∧
    (∀ i < exTrajectory.length, TrueOn exWhole (exTrajectory.drop i) e c!"(sometime (p))") ∧
    IsConstraint c!"(always (sometime (p)))" ∧ ¬ TrueOn exWhole exTrajectory e c!"(always (sometime (p)))" := by
  have h1 : ReadsAs parseConGd (.sometime (.goal (exAtom c!"p"))) c!"(sometime (p))" := ⟨solid_open _, rfl⟩
  have h2 : ReadsAs parseConGd (.always (.goal (.atomic (.predicate (.str c!"sometime") [.fn (.str c!"p") []]))))
    c!"(always (sometime (p)))" := ⟨solid_open _, rfl⟩
  refine ⟨⟨_, h1⟩, fun i hi => (trueOn_iff h1).mpr ?_, ⟨_, h2⟩, mt (trueOn_iff h2).mp ?_⟩
  · refine ⟨2 - i, ?_, ?_⟩
    · have : i < 3 := hi
      simp [exTrajectory]
      omega
    · have hi : i < 3 := hi
      rw [Con2GD.From]
      refine ⟨⟨(2 : Int), fun _ _ => (0 : Nat), fun n _ => n = c!"p", fun _ _ => (0 : Int)⟩, ?_, rfl⟩
      rw [List.getElem?_drop, show i + (2 - i) = 2 by omega]
      rfl
  · intro h
    have h := h 0 (by decide)
    rw [Con2GD.From] at h
    obtain ⟨s, h3, h4⟩ := h
    cases h3
    cases (h4 : c!"sometime" = c!"p")

end Pddl
