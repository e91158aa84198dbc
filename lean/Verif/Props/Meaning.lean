import Verif.Spec.Meaning
import Verif.Props.Fluents
import Verif.Props.ConstraintsX
import Verif.Props.Conversions

/-!
# C101: goals are true when the PDDL definition says so. C102: a condition or an effect means the same
wherever it may be written
-/

namespace Pddl

/-- The text of a goal. -/
def IsGoal (t : List Char) : Prop := ∃ g, ReadsAs parseGd g t

/-- A text is read as a goal that is true. -/
def IsTrue (M : Interp) (e : M.Env) (t : List Char) : Prop := ∃ g, ReadsAs parseGd g t ∧ g.Holds M e

theorem isTrue_iff {M : Interp} {e : M.Env} {t : List Char} {g : GD} (h : ReadsAs parseGd g t) :
    IsTrue M e t ↔ g.Holds M e :=
  ⟨fun ⟨_, h1, h2⟩ => h.det h1 ▸ h2, fun h2 => ⟨g, h, h2⟩⟩

theorem goals_of_texts {ts : List (List Char)} {u : List Char}
    (h : Items (fun x t => t = x ∧ IsGoal x) ts u) :
    ∃ gs, Items (ReadsAs parseGd) gs u ∧ ∀ (M : Interp) (e : M.Env),
      (GD.AllHold M gs e ↔ ∀ x ∈ ts, IsTrue M e x) ∧ (GD.SomeHolds M gs e ↔ ∃ x ∈ ts, IsTrue M e x) := by
  induction h with
  | one h =>
    obtain ⟨rfl, g, hg⟩ := h
    refine ⟨[g], .one hg, fun M e => ?_⟩
    simp [GD.AllHold, GD.SomeHolds, isTrue_iff hg]
  | cons h hs _ ih =>
    obtain ⟨rfl, g, hg⟩ := h
    obtain ⟨gs, h1, h2⟩ := ih
    refine ⟨g :: gs, .cons hg hs h1, fun M e => ?_⟩
    simp [GD.AllHold, GD.SomeHolds, isTrue_iff hg, (h2 M e).1, (h2 M e).2]

theorem goals_of_listed {kw : List Char} {ts : List (List Char)} {t : List Char}
    (h : Listed kw (fun x t => t = x ∧ IsGoal x) ts t) :
    ∃ gs, Listed kw (ReadsAs parseGd) gs t ∧ ∀ (M : Interp) (e : M.Env),
      (GD.AllHold M gs e ↔ ∀ x ∈ ts, IsTrue M e x) ∧ (GD.SomeHolds M gs e ↔ ∃ x ∈ ts, IsTrue M e x) := by
  obtain ⟨u, rfl, hu⟩ := h
  cases hu with
  | nil hg => exact ⟨[], ⟨u, rfl, .nil hg⟩, fun M e => by simp [GD.AllHold, GD.SomeHolds]⟩
  | cons h1 h2 h3 =>
    obtain ⟨gs, k1, k2⟩ := goals_of_texts h2
    exact ⟨gs, ⟨_, rfl, .cons h1 k1 h3⟩, k2⟩

/-! ## C101 -/

/-- `(and x ..)` is true if all parts are, with any layout. -/
theorem C101_and {ts : List (List Char)} {t : List Char} (h : Listed c!"and" (fun x t => t = x ∧ IsGoal x) ts t)
    (M : Interp) (e : M.Env) : IsGoal t ∧ (IsTrue M e t ↔ ∀ x ∈ ts, IsTrue M e x) := by
  obtain ⟨gs, h1, h2⟩ := goals_of_listed h
  have h3 := C73_goal_and.mpr h1
  exact ⟨⟨_, h3⟩, (isTrue_iff h3).trans (by rw [GD.Holds]; exact (h2 M e).1)⟩

/-- `(or x ..)` is true if one part is. -/
theorem C101_or {ts : List (List Char)} {t : List Char} (h : Listed c!"or" (fun x t => t = x ∧ IsGoal x) ts t)
    (M : Interp) (e : M.Env) : IsGoal t ∧ (IsTrue M e t ↔ ∃ x ∈ ts, IsTrue M e x) := by
  obtain ⟨gs, h1, h2⟩ := goals_of_listed h
  have h3 := C73_goal_or.mpr h1
  exact ⟨⟨_, h3⟩, (isTrue_iff h3).trans (by rw [GD.Holds]; exact (h2 M e).2)⟩

/-- `(not x)` is true if `x` is not. -/
theorem C101_not {x t : List Char} (h : Wrapped c!"not" (fun x t => t = x ∧ IsGoal x) x t)
    (M : Interp) (e : M.Env) : IsGoal t ∧ (IsTrue M e t ↔ ¬ IsTrue M e x) := by
  obtain ⟨g1, _, g2, rfl, h1, ⟨rfl, g, hg⟩, h2⟩ := h
  have h3 := C73_goal_not.mpr ⟨g1, _, g2, rfl, h1, hg, h2⟩
  exact ⟨⟨_, h3⟩, by rw [isTrue_iff h3, isTrue_iff hg, GD.Holds]⟩

/-- `(imply x y)` is true if `y` is or `x` is not. -/
theorem C101_imply {x y t : List Char}
    (h : Paired c!"imply" (fun x t => t = x ∧ IsGoal x) (fun y t => t = y ∧ IsGoal y) x y t)
    (M : Interp) (e : M.Env) : IsGoal t ∧ (IsTrue M e t ↔ (IsTrue M e x → IsTrue M e y)) := by
  obtain ⟨g1, _, g2, _, g3, rfl, h1, ⟨rfl, a, ha⟩, h2, ⟨rfl, b, hb⟩, h3⟩ := h
  have h4 := C73_goal_imply.mpr ⟨g1, _, g2, _, g3, rfl, h1, ha, h2, hb, h3⟩
  exact ⟨⟨_, h4⟩, by rw [isTrue_iff h4, isTrue_iff ha, isTrue_iff hb, GD.Holds]⟩

theorem ForEach.congr {M : Interp} {p q : M.Env → Prop} (h : ∀ e, p e ↔ q e) (vs : TypedList Name) :
    ∀ e, ForEach M vs e p ↔ ForEach M vs e q := by
  induction vs with
  | nil => exact h
  | cons v vs ih => exact fun e => forall_congr' fun o => imp_congr Iff.rfl (ih _)

theorem ForSome.congr {M : Interp} {p q : M.Env → Prop} (h : ∀ e, p e ↔ q e) (vs : TypedList Name) :
    ∀ e, ForSome M vs e p ↔ ForSome M vs e q := by
  induction vs with
  | nil => exact h
  | cons v vs ih => exact fun e => exists_congr fun o => and_congr Iff.rfl (ih _)

/-- `(forall (v ..) x)` is true if `x` is for all objects of the types of the variables. -/
theorem C101_forall {vs : TypedList Name} {x t : List Char}
    (h : Paired c!"forall" (ReadsAs parseVarList) (fun x t => t = x ∧ IsGoal x) vs x t)
    (M : Interp) (e : M.Env) : IsGoal t ∧ (IsTrue M e t ↔ ForEach M vs e fun e => IsTrue M e x) := by
  obtain ⟨g1, w, g2, _, g3, rfl, h1, hw, h2, ⟨rfl, b, hb⟩, h3⟩ := h
  have h4 := C73_goal_forall.mpr ⟨g1, w, g2, _, g3, rfl, h1, hw, h2, hb, h3⟩
  exact ⟨⟨_, h4⟩, by rw [isTrue_iff h4, GD.Holds]; exact ForEach.congr (fun e => (isTrue_iff hb).symm) vs e⟩

/-- `(exists (v ..) x)` is true if `x` is for some objects of the types of the variables. -/
theorem C101_exists {vs : TypedList Name} {x t : List Char}
    (h : Paired c!"exists" (ReadsAs parseVarList) (fun x t => t = x ∧ IsGoal x) vs x t)
    (M : Interp) (e : M.Env) : IsGoal t ∧ (IsTrue M e t ↔ ForSome M vs e fun e => IsTrue M e x) := by
  obtain ⟨g1, w, g2, _, g3, rfl, h1, hw, h2, ⟨rfl, b, hb⟩, h3⟩ := h
  have h4 := C73_goal_exists.mpr ⟨g1, w, g2, _, g3, rfl, h1, hw, h2, hb, h3⟩
  exact ⟨⟨_, h4⟩, by rw [isTrue_iff h4, GD.Holds]; exact ForSome.congr (fun e => (isTrue_iff hb).symm) vs e⟩

theorem atom_goal {a : AtomicFormula Term} {t : List Char} (h : ReadsAs (atomicFormula parseTerm) a t)
    (hn : ¬ Shadowed a t) : ReadsAs parseGd (.atomic a) t := by
  obtain ⟨g, u, e, hg, hu⟩ := (C68_atoms _ _ _).mp h.2
  have hs : Solid u := by cases hu <;> exact solid_paren _
  have e1 := solid_whole h.1 e hg.gap hs
  subst e1
  exact gdx_reads.mpr (.atomic hu hn)

/-- An atom whose predicate is not a keyword is true if the predicate is true of the objects. -/
theorem C101_predicate {p : Name} {ts : List Term} {t : List Char}
    (h : ReadsAs (atomicFormula parseTerm) (.predicate p ts) t)
    (hp : p.text ∉ [c!"and", c!"or", c!"not", c!"imply"])
    (M : Interp) (e : M.Env) : IsGoal t ∧ (IsTrue M e t ↔ M.pred p.text (ts.map (Term.denote M e))) := by
  have h1 := atom_goal h (by
    intro hs
    simp only [List.mem_cons, List.not_mem_nil, or_false, not_or] at hp
    cases hs with
    | and k => exact hp.1 k
    | or k => exact hp.2.1 k
    | not k => exact hp.2.2.1 k
    | imply k => exact hp.2.2.2 k)
  exact ⟨⟨_, h1⟩, by rw [isTrue_iff h1, GD.Holds, AtomicFormula.Holds]⟩

/-- An equality is true if both terms denote the same object. -/
theorem C101_equality {a b : Term} {t : List Char} (h : ReadsAs (atomicFormula parseTerm) (.equality a b) t)
    (M : Interp) (e : M.Env) : IsGoal t ∧ (IsTrue M e t ↔ a.denote M e = b.denote M e) := by
  have h1 := atom_goal h (by rintro ⟨⟩)
  exact ⟨⟨_, h1⟩, by rw [isTrue_iff h1, GD.Holds, AtomicFormula.Holds]⟩

/-- A comparison is true if the numbers are so related, except for the equality of two functions (C100). -/
theorem C101_comparison {op : BinaryComp} {a b : FExp} {t : List Char} (h : ReadsAs parseFComp ⟨op, a, b⟩ t)
    (hn : op ≠ .eq ∨ (∀ f, a ≠ .function f) ∨ ∀ f, b ≠ .function f)
    (M : Interp) (e : M.Env) : IsGoal t ∧ (IsTrue M e t ↔ M.comp op (a.denote M e) (b.denote M e)) := by
  have h1 : ReadsAs parseGd _ t := ⟨h.1, C100_comparison_partial _ _ _ _ _ h.2 hn⟩
  exact ⟨⟨_, h1⟩, by rw [isTrue_iff h1, GD.Holds]⟩

/-- A state over the numbers below 3 where `p` is true of 0 only and `q` of nothing, and where there is one
fluent, 2. -/
def exInterp : Interp where
  Obj := Nat
  ofType _ o := o < 3
  const _ := 0
  fn _ _ := 1
  pred n os := n = c!"p" ∧ os = [0]
  Num := Nat
  lit _ := 1
  fluent _ _ := 2
  bin _ a b := a + b
  multi _ a bs := a + bs.sum
  neg _ := 0
  comp op a b := match op with
    | .lt => a < b
    | .gt => b < a
    | .eq => a = b
    | .le => a ≤ b
    | .ge => b ≤ a

/-- A goal that is true and one that is not. -/
example : IsTrue exInterp (fun _ => (0 : Nat)) c!"(and (p ?x) (not (q ?x)) (>= (f) 1))" ∧
    ¬ IsTrue exInterp (fun _ => (0 : Nat)) c!"(forall (?x) (p ?x))" := by
  constructor
  · refine ⟨_, ⟨solid_open _, rfl⟩, ⟨rfl, rfl⟩, fun h => absurd h.1 (by decide), ?_, trivial⟩
    exact (by decide : 1 ≤ 2)
  · rintro ⟨g, h1, h2⟩
    cases (ReadsAs.det h1 ⟨solid_open _, rfl⟩ :)
    have := (h2 (1 : Nat) (show (1 : Nat) < 3 by decide)).2
    cases this

/-! ## C75: a conjunction of one part means that part

The values differ (C75_false_goal, C75_false_constraint, C75_false_cond_effect), their meaning does not. -/

theorem C75_goal_meaning {x t : List Char} (h : Alone x t) (hx : IsGoal x) (M : Interp) (e : M.Env) :
    IsTrue M e t ↔ IsTrue M e x := by
  refine (C101_and (ts := [x]) (h.listed ⟨rfl, hx⟩) M e).2.trans ?_
  simp

theorem C75_constraint_meaning {v : ConGD} {x t : List Char} (h : Alone x t) (hx : ReadsAs parseConGd v x) :
    ∃ w, ReadsAs parseConGd w t ∧ ∀ (M : Interp) (C : ConGD → M.Env → Prop) (e : M.Env), w.Holds M C e ↔ v.Holds M C e :=
  ⟨.and [v], C73_constraint_and.mpr (h.listed hx), fun M C e => by simp [ConGD.Holds, ConGD.AllHold]⟩

theorem C75_cond_effect_meaning {p : PEffect} {x t : List Char} (h : Alone x t) (hx : ReadsAs parsePEffect p x) :
    ∃ w, ReadsAs parseCondEffect w t ∧
      ∀ (M : Interp) (e : M.Env) (c : Change M), w.Makes M e c ↔ (CondEffect.ofPEffect p).Makes M e c :=
  ⟨.all [p], C73_cond_effect_and.mpr (h.listed hx), fun M e c => by
    simp [CondEffect.Makes, CondEffect.ofPEffect]⟩

theorem C75_either_meaning (n : Name) (M : Interp) (o : M.Obj) :
    (Ty.ofIter [n]).Has M o ↔ (Ty.ofPrimitive n).Has M o := by
  simp [Ty.ofIter, Ty.ofPrimitive, Ty.Has]

/-! ## C102: preconditions and goals -/

theorem PreGD.allHold_append {M : Interp} (a b : List PreGD) (e : M.Env) :
    PreGD.AllHold M (a ++ b) e ↔ PreGD.AllHold M a e ∧ PreGD.AllHold M b e := by
  induction a with
  | nil => simp [PreGD.AllHold]
  | cons x a ih => simp [PreGD.AllHold, ih, and_assoc]

theorem PreGD.allHard_append (a b : List PreGD) :
    PreGD.allHard (a ++ b) = (PreGD.allHard a && PreGD.allHard b) := by
  induction a with
  | nil => simp [PreGD.allHard]
  | cons x a ih => simp [PreGD.allHard, ih, Bool.and_assoc]

theorem Items.reread {R : α → List Char → Prop} {S : β → List Char → Prop} {n : Nat} {as : List α} {u : List Char}
    (h : Items R as u) (hu : u.length ≤ n) (f : ∀ a t, t.length ≤ n → R a t → ∃ b, S b t) : ∃ bs, Items S bs u := by
  induction h with
  | one h =>
    obtain ⟨b, hb⟩ := f _ _ hu h
    exact ⟨[b], .one hb⟩
  | cons h hs _ ih =>
    simp only [List.length_append] at hu
    obtain ⟨b, hb⟩ := f _ _ (by omega) h
    obtain ⟨bs, hbs⟩ := ih (by omega)
    exact ⟨b :: bs, .cons hb hs hbs⟩

/-- Every goal is also the text of a precondition. -/
theorem goal_pre (n : Nat) : ∀ g t, t.length ≤ n → GDX g t → ∃ v, PreX [] v t := by
  induction n with
  | zero =>
    intro g t hl h
    exact absurd (List.length_eq_zero_iff.mp (Nat.le_zero.mp hl)) h.solid.ne
  | succ n ih =>
    intro g t hl h
    have other : (∀ vs, g ≠ .and vs) → (∀ vs b, g ≠ .forall_ vs b) → ∃ v, PreX [] v t := fun h1 h2 => by
      by_cases hp : ∃ n w, Paired c!"preference" NameW GDX n w t
      · obtain ⟨m, w, hp⟩ := hp
        exact ⟨_, .other (p := .preference (some m) w) Gap.nil (.named hp) (by simp) (by simp)⟩
      by_cases hq : ∃ w, Wrapped c!"preference" GDX w t
      · obtain ⟨w, hq⟩ := hq
        exact ⟨_, .other (p := .preference none w) Gap.nil (.anonymous hq) (by simp) (by simp)⟩
      exact ⟨_, .other (p := .goal g) (GoalLead.nil g)
        (.goal h (fun n w k => hp ⟨n, w, k⟩) (fun w k => hq ⟨w, k⟩))
        (fun vs e => h1 vs (by cases e; rfl)) (fun vs b e => h2 vs b (by cases e; rfl))⟩
    cases h with
    | and hs =>
      simp only [paren, List.length_cons, List.length_append] at hl
      cases hs with
      | nil hg => exact ⟨_, .and .nil (.nil hg)⟩
      | cons h1 h2 h3 =>
        simp only [List.length_append] at hl
        obtain ⟨vss, hv⟩ := h2.reread (n := n) (by omega) ih
        exact ⟨_, .and .nil (.cons h1 hv h3)⟩
    | forall_ h1 h2 h3 h4 h5 =>
      simp only [paren, List.length_cons, List.length_append] at hl
      obtain ⟨v, hv⟩ := ih _ _ (by omega) h4
      exact ⟨_, .forall_ .nil h1 h2 h3 hv h5⟩
    | _ => exact other (by simp) (by simp)

theorem items_goal {n : Nat} {vss : List (List PreGD)} {u : List Char} (h : Items (PreX []) vss u)
    (hu : u.length ≤ n) (hv : PreGD.allHard vss.flatten = true)
    (f : ∀ v t, t.length ≤ n → PreX [] v t → PreGD.allHard v = true →
      ∃ w, GDX w t ∧ ∀ (M : Interp) (e : M.Env), PreGD.AllHold M v e ↔ w.Holds M e) :
    ∃ ws, Items GDX ws u ∧ ∀ (M : Interp) (e : M.Env), PreGD.AllHold M vss.flatten e ↔ GD.AllHold M ws e := by
  induction h with
  | @one v t h =>
    obtain ⟨w, h1, h2⟩ := f _ _ hu h (by simpa using hv)
    exact ⟨[w], .one h1, fun M e => by simp [GD.AllHold, h2]⟩
  | @cons v t g vs u h hs _ ih =>
    simp only [List.length_append] at hu
    simp only [List.flatten_cons, PreGD.allHard_append, Bool.and_eq_true] at hv
    obtain ⟨w, h1, h2⟩ := f _ _ (by omega) h hv.1
    obtain ⟨ws, h3, h4⟩ := ih (by omega) hv.2
    exact ⟨w :: ws, .cons h1 hs h3, fun M e => by simp [GD.AllHold, PreGD.allHold_append, h2, h4]⟩

/-- A precondition without preferences is the text of a goal with the same meaning. -/
theorem pre_goal (n : Nat) : ∀ g v t, t.length ≤ n → PreX g v t → PreGD.allHard v = true →
    ∃ w, GoalLead w g ∧ GDX w t ∧ ∀ (M : Interp) (e : M.Env), PreGD.AllHold M v e ↔ w.Holds M e := by
  induction n with
  | zero =>
    intro g v t hl h
    exact absurd (List.length_eq_zero_iff.mp (Nat.le_zero.mp hl)) h.solid.ne
  | succ n ih =>
    intro g v t hl h hv
    cases h with
    | @forall_ _ _ vs _ _ b _ _ h0 h1 h2 h3 h4 h5 =>
      simp only [paren, List.length_cons, List.length_append] at hl
      simp only [PreGD.allHard, PreGD.hard, Bool.and_true] at hv
      obtain ⟨w, _, hw1, hw2⟩ := ih [] b _ (by omega) h4 hv
      refine ⟨.forall_ vs w, h0, .forall_ h1 h2 h3 hw1 h5, fun M e => ?_⟩
      simp only [PreGD.AllHold, PreGD.Holds, GD.Holds, and_true]
      exact ForEach.congr (hw2 M) vs e
    | and h0 hs =>
      simp only [paren, List.length_cons, List.length_append] at hl
      cases hs with
      | nil hg => exact ⟨.and [], h0, .and (.nil hg), fun M e => by simp [PreGD.AllHold, GD.Holds, GD.AllHold]⟩
      | cons h1 h2 h3 =>
        simp only [List.length_append] at hl
        obtain ⟨ws, k1, k2⟩ := items_goal (n := n) h2 (by omega) hv (fun v t hl h hv => by
          obtain ⟨w, _, h⟩ := ih [] v t hl h hv
          exact ⟨w, h⟩)
        exact ⟨.and ws, h0, .and (.cons h1 k1 h3), fun M e => by rw [GD.Holds]; exact k2 M e⟩
    | @other _ p _ h0 h1 h2 h3 =>
      cases h1 with
      | named => cases hv
      | anonymous => cases hv
      | @goal w _ h1 => exact ⟨w, h0, h1, fun M e => by simp [PreGD.AllHold, PreGD.Holds]⟩

/-- C102: what is read as a precondition without preferences is read as a goal that is true in the same
states. -/
theorem C102_precondition_goal (s : List Char) (v : List PreGD) (r : List Char) (h : parsePreGd s = .ok v r)
    (hv : PreGD.allHard v = true) :
    ∃ g, parseGd s = .ok g r ∧ ∀ (M : Interp) (e : M.Env), PreGD.AllHold M v e ↔ g.Holds M e := by
  obtain ⟨g, t, rfl, ht⟩ := (C80_preconditions _ _ _).mp h
  obtain ⟨w, h1, h2, h3⟩ := pre_goal _ g v t (Nat.le_refl _) ht hv
  exact ⟨w, (C79_goals _ _ _).mpr ⟨g, t, rfl, h1, h2⟩, h3⟩

/-- C102: what is read as a goal is also read as a precondition, which is true in the same states if there are
no preferences in it. -/
theorem C102_goal_precondition (s : List Char) (g : GD) (r : List Char) (h : parseGd s = .ok g r) :
    ∃ v, parsePreGd s = .ok v r ∧
      (PreGD.allHard v = true → ∀ (M : Interp) (e : M.Env), PreGD.AllHold M v e ↔ g.Holds M e) := by
  obtain ⟨k, t, rfl, hk, ht⟩ := (C79_goals _ _ _).mp h
  obtain ⟨v, hv⟩ := goal_pre _ g t (Nat.le_refl _) ht
  have hv' : PreX k v t := by
    cases hv with
    | forall_ _ h1 h2 h3 h4 h5 => exact .forall_ hk.gap h1 h2 h3 h4 h5
    | and _ hs => exact .and hk.gap hs
    | other _ h1 h2 h3 =>
      refine .other ?_ h1 h2 h3
      cases h1 with
      | goal h1 => exact C79_one_reading ht h1 ▸ hk
      | _ => exact hk.gap
  refine ⟨v, (C80_preconditions _ _ _).mpr ⟨k, t, rfl, hv'⟩, fun hh => ?_⟩
  obtain ⟨w, _, h1, h2⟩ := pre_goal _ [] v t (Nat.le_refl _) hv hh
  exact C79_one_reading ht h1 ▸ h2

/-- `(and (p) (forall (?x) (and (q ?x))))`, flattened in a precondition, nested in a goal. -/
example : ∃ v g, parsePreGd c!"(and (p) (forall (?x) (and (q ?x))))" = .ok v [] ∧ PreGD.allHard v = true ∧
    parseGd c!"(and (p) (forall (?x) (and (q ?x))))" = .ok g [] ∧ v.length = 2 ∧ g ≠ .and [] :=
  ⟨_, _, rfl, rfl, rfl, rfl, by simp⟩

/-! ## C102: the constraints of problems and of domains -/

theorem PrefConGD.allHold_append {M : Interp} {C : ConGD → M.Env → Prop} (a b : List PrefConGD) (e : M.Env) :
    PrefConGD.AllHold M C (a ++ b) e ↔ PrefConGD.AllHold M C a e ∧ PrefConGD.AllHold M C b e := by
  induction a with
  | nil => simp [PrefConGD.AllHold]
  | cons x a ih => simp [PrefConGD.AllHold, ih, and_assoc]

theorem PrefConGD.allHard_append (a b : List PrefConGD) :
    PrefConGD.allHard (a ++ b) = (PrefConGD.allHard a && PrefConGD.allHard b) := by
  induction a with
  | nil => simp [PrefConGD.allHard]
  | cons x a ih => simp [PrefConGD.allHard, ih, Bool.and_assoc]

/-- The texts of `v` and `c` mean the same. -/
def SameCon (v : List PrefConGD) (c : ConGD) : Prop :=
  PrefConGD.allHard v = true ∧
    ∀ (M : Interp) (C : ConGD → M.Env → Prop) (e : M.Env), PrefConGD.AllHold M C v e ↔ c.Holds M C e

theorem items_prefCon {n : Nat} {cs : List ConGD} {u : List Char} (h : Items ConX cs u) (hu : u.length ≤ n)
    (f : ∀ c t, t.length ≤ n → ConX c t → ∃ v, PrefConX v t ∧ SameCon v c) :
    ∃ vss, Items PrefConX vss u ∧ PrefConGD.allHard vss.flatten = true ∧
      ∀ (M : Interp) (C : ConGD → M.Env → Prop) (e : M.Env),
        PrefConGD.AllHold M C vss.flatten e ↔ ConGD.AllHold M C cs e := by
  induction h with
  | one h =>
    obtain ⟨v, h1, h2, h3⟩ := f _ _ hu h
    exact ⟨[v], .one h1, by simpa using h2, fun M C e => by simp [ConGD.AllHold, h3]⟩
  | cons h hs _ ih =>
    simp only [List.length_append] at hu
    obtain ⟨v, h1, h2, h3⟩ := f _ _ (by omega) h
    obtain ⟨vs, k1, k2, k3⟩ := ih (by omega)
    exact ⟨v :: vs, .cons h1 hs k1, by simp [PrefConGD.allHard_append, h2, k2],
      fun M C e => by simp [ConGD.AllHold, PrefConGD.allHold_append, h3, k3]⟩

theorem con_prefCon (n : Nat) : ∀ c t, t.length ≤ n → ConX c t → ∃ v, PrefConX v t ∧ SameCon v c := by
  induction n with
  | zero =>
    intro c t hl h
    exact absurd (List.length_eq_zero_iff.mp (Nat.le_zero.mp hl)) (by cases h <;> exact (solid_paren _).ne)
  | succ n ih =>
    intro c t hl h
    have other : (∀ vs, c ≠ .and vs) → (∀ vs b, c ≠ .forall_ vs b) → ∃ v, PrefConX v t ∧ SameCon v c :=
      fun h1 h2 => ⟨_, .goal h h1 h2, rfl, fun M C e => by simp [PrefConGD.AllHold, PrefConGD.Holds]⟩
    cases h with
    | and hs =>
      simp only [paren, List.length_cons, List.length_append] at hl
      cases hs with
      | nil hg => exact ⟨_, .and (.nil hg), rfl, fun M C e => by simp [PrefConGD.AllHold, ConGD.Holds, ConGD.AllHold]⟩
      | cons h1 h2 h3 =>
        simp only [List.length_append] at hl
        obtain ⟨vss, k1, k2, k3⟩ := items_prefCon (n := n) h2 (by omega) ih
        exact ⟨_, .and (.cons h1 k1 h3), k2, fun M C e => by rw [ConGD.Holds]; exact k3 M C e⟩
    | @forall_ _ vs _ _ _ _ _ h1 h2 h3 h4 h5 =>
      simp only [paren, List.length_cons, List.length_append] at hl
      obtain ⟨v, k1, k2, k3⟩ := ih _ _ (by omega) h4
      refine ⟨_, .forall_ h1 h2 h3 k1 h5, by simp [PrefConGD.allHard, PrefConGD.hard, k2], fun M C e => ?_⟩
      simp only [PrefConGD.AllHold, PrefConGD.Holds, ConGD.Holds, and_true]
      exact ForEach.congr (k3 M C) vs e
    | _ => exact other (by simp) (by simp)

theorem items_con {n : Nat} {vss : List (List PrefConGD)} {u : List Char} (h : Items PrefConX vss u)
    (hu : u.length ≤ n) (hv : PrefConGD.allHard vss.flatten = true)
    (f : ∀ v t, t.length ≤ n → PrefConX v t → PrefConGD.allHard v = true → ∃ c, ConX c t) :
    ∃ cs, Items ConX cs u := by
  induction h with
  | one h =>
    obtain ⟨w, h1⟩ := f _ _ hu h (by simpa using hv)
    exact ⟨[w], .one h1⟩
  | cons h hs _ ih =>
    simp only [List.length_append] at hu
    simp only [List.flatten_cons, PrefConGD.allHard_append, Bool.and_eq_true] at hv
    obtain ⟨w, h1⟩ := f _ _ (by omega) h hv.1
    obtain ⟨ws, h3⟩ := ih (by omega) hv.2
    exact ⟨w :: ws, .cons h1 hs h3⟩

theorem prefCon_con (n : Nat) : ∀ v t, t.length ≤ n → PrefConX v t → PrefConGD.allHard v = true → ∃ c, ConX c t := by
  induction n with
  | zero =>
    intro v t hl h
    exact absurd (List.length_eq_zero_iff.mp (Nat.le_zero.mp hl)) (prefConX_reads.mpr h).1.ne
  | succ n ih =>
    intro v t hl h hv
    cases h with
    | and hs =>
      simp only [paren, List.length_cons, List.length_append] at hl
      cases hs with
      | nil hg => exact ⟨_, .and (.nil hg)⟩
      | cons h1 h2 h3 =>
        simp only [List.length_append] at hl
        obtain ⟨ws, k1⟩ := items_con (n := n) h2 (by omega) hv ih
        exact ⟨_, .and (.cons h1 k1 h3)⟩
    | forall_ h1 h2 h3 h4 h5 =>
      simp only [paren, List.length_cons, List.length_append] at hl
      simp only [PrefConGD.allHard, PrefConGD.hard, Bool.and_true] at hv
      obtain ⟨c, k⟩ := ih _ _ (by omega) h4 hv
      exact ⟨_, .forall_ h1 h2 h3 k h5⟩
    | named => cases hv
    | anonymous => cases hv
    | goal h => exact ⟨_, h⟩

/-- C102: what is read as a constraint of a domain is read as constraints of a problem without preferences
that mean the same. -/
theorem C102_domain_constraint (s : List Char) (c : ConGD) (r : List Char) (h : parseConGd s = .ok c r) :
    ∃ v, parsePrefConGd s = .ok v r ∧ SameCon v c := by
  obtain ⟨g, t, rfl, hg, ht⟩ := (C82_constraints _ _ _).mp h
  obtain ⟨v, h1, h2⟩ := con_prefCon _ c t (Nat.le_refl _) ht
  exact ⟨v, (C82_problem_constraints _ _ _).mpr ⟨g, t, rfl, hg, h1⟩, h2⟩

/-- C102: and the other way round. -/
theorem C102_problem_constraint (s : List Char) (v : List PrefConGD) (r : List Char)
    (h : parsePrefConGd s = .ok v r) (hv : PrefConGD.allHard v = true) :
    ∃ c, parseConGd s = .ok c r ∧ SameCon v c := by
  obtain ⟨g, t, rfl, hg, ht⟩ := (C82_problem_constraints _ _ _).mp h
  obtain ⟨c, hc⟩ := prefCon_con _ v t (Nat.le_refl _) ht hv
  have h1 := (C82_constraints (g ++ (t ++ r)) c r).mpr ⟨g, t, rfl, hg, hc⟩
  obtain ⟨v', h2, h3⟩ := C102_domain_constraint _ c r h1
  rw [h] at h2
  cases h2
  exact ⟨c, h1, h3⟩

example : ∃ v c, parsePrefConGd c!"(and (and (always (p))) (sometime (q)))" = .ok v [] ∧
    PrefConGD.allHard v = true ∧ v.length = 2 ∧
    parseConGd c!"(and (and (always (p))) (sometime (q)))" = .ok c [] :=
  ⟨_, _, rfl, rfl, rfl, rfl⟩

/-! ## C102: effects inside and outside of `when` -/

/-- Neither quantified nor conditional. -/
def AllSimple (es : List CEffect) : Prop := ∀ x ∈ es, ∃ p, x = .effect p

theorem PEffX.gap {g : List Char} {p : PEffect} {t : List Char} (h : PEffX g p t) : Gap g := by
  cases h with
  | numeric h => exact h.1
  | atomic h => exact h.gap
  | _ => assumption

theorem simple_effect {g : List Char} {p : PEffect} {t : List Char} (h : PEffX g p t) : ∃ x, CEffX g x t := by
  by_cases hw : ∃ c e, Paired c!"when" GDX (CondX []) c e t
  · obtain ⟨c, e, hw⟩ := hw
    exact ⟨_, .when h.gap hw⟩
  · exact ⟨_, .effect h fun c e k => hw ⟨c, e, k⟩⟩

theorem items_plain {es : List CEffect} {u : List Char} (h : Items (CEffX []) es u) (hp : AllSimple es) :
    ∃ ps, es = ps.map .effect ∧ Items (PEffX []) ps u := by
  induction h with
  | one h =>
    obtain ⟨p, rfl⟩ := hp _ List.mem_cons_self
    cases h with
    | effect h => exact ⟨[p], rfl, .one h⟩
  | cons h hs _ ih =>
    obtain ⟨p, rfl⟩ := hp _ List.mem_cons_self
    obtain ⟨ps, rfl, k⟩ := ih fun x hx => hp x (by simp [hx])
    cases h with
    | effect h => exact ⟨p :: ps, rfl, .cons h hs k⟩

theorem makeSome_plain {M : Interp} {c : Change M} {e : M.Env} (ps : List PEffect) :
    CEffect.MakeSome M c (ps.map .effect) e ↔ ∃ p ∈ ps, c = p.change M e := by
  induction ps with
  | nil => simp [CEffect.MakeSome]
  | cons p ps ih => simp [CEffect.MakeSome, CEffect.Makes, ih]

/-- C102: what is read as effects that are neither quantified nor conditional is read after `when` as effects
that make the same changes. -/
theorem C102_effect_conditional (s : List Char) (es : List CEffect) (r : List Char) (h : parseEffect s = .ok es r)
    (hp : AllSimple es) :
    ∃ x, parseCondEffect s = .ok x r ∧
      ∀ (M : Interp) (e : M.Env) (c : Change M), CEffect.MakeSome M c es e ↔ x.Makes M e c := by
  obtain ⟨g, t, rfl, ht⟩ := (C81_effect_lists _ _ _).mp h
  cases ht with
  | @and _ _ u hg hs =>
    cases hs with
    | nil hn =>
      exact ⟨.all [], (C81_conditional_effects _ _ _).mpr ⟨g, _, rfl, .all hg ⟨u, rfl, .nil hn⟩⟩,
        fun M e c => by simp [CEffect.MakeSome, CondEffect.Makes]⟩
    | cons h1 h2 h3 =>
      obtain ⟨ps, rfl, k⟩ := items_plain h2 hp
      exact ⟨.all ps, (C81_conditional_effects _ _ _).mpr ⟨g, _, rfl, .all hg ⟨_, rfl, .cons h1 k h3⟩⟩,
        fun M e c => makeSome_plain ps⟩
  | single h1 h2 =>
    obtain ⟨p, rfl⟩ := hp _ List.mem_cons_self
    cases h1 with
    | effect h1 =>
      exact ⟨.single p, (C81_conditional_effects _ _ _).mpr ⟨g, t, rfl, .single h1 h2⟩,
        fun M e c => by simp [CEffect.MakeSome, CEffect.Makes, CondEffect.Makes]⟩

/-- C102: what is read after `when` is also read as effects, which make the same changes if they are neither
quantified nor conditional. -/
theorem C102_conditional_effect (s : List Char) (x : CondEffect) (r : List Char) (h : parseCondEffect s = .ok x r) :
    ∃ es, parseEffect s = .ok es r ∧ (AllSimple es →
      ∀ (M : Interp) (e : M.Env) (c : Change M), CEffect.MakeSome M c es e ↔ x.Makes M e c) := by
  have key : ∃ es, parseEffect s = .ok es r := by
    obtain ⟨g, t, rfl, ht⟩ := (C81_conditional_effects _ _ _).mp h
    cases ht with
    | all hg hl =>
      obtain ⟨u, rfl, hs⟩ := hl
      cases hs with
      | nil hn => exact ⟨_, (C81_effect_lists _ _ _).mpr ⟨g, _, rfl, .and hg (.nil hn)⟩⟩
      | cons h1 h2 h3 =>
        obtain ⟨es, k⟩ := h2.reread (S := CEffX []) (Nat.le_refl _) fun p t _ h => simple_effect h
        exact ⟨_, (C81_effect_lists _ _ _).mpr ⟨g, _, rfl, .and hg (.cons h1 k h3)⟩⟩
    | single h1 h2 =>
      obtain ⟨e, k⟩ := simple_effect h1
      exact ⟨_, (C81_effect_lists _ _ _).mpr ⟨g, t, rfl, .single k h2⟩⟩
  obtain ⟨es, hes⟩ := key
  refine ⟨es, hes, fun hp => ?_⟩
  obtain ⟨x', h1, h2⟩ := C102_effect_conditional s es r hes hp
  rw [h] at h1
  cases h1
  exact h2

example : ∃ es x, parseEffect c!"(and (p) (not (q)))" = .ok es [] ∧ AllSimple es ∧ es.length = 2 ∧
    parseCondEffect c!"(and (p) (not (q)))" = .ok x [] := by
  refine ⟨_, _, rfl, ?_, rfl, rfl⟩
  intro x hx
  simp only [List.mem_cons, List.not_mem_nil, or_false] at hx
  rcases hx with rfl | rfl <;> exact ⟨_, rfl⟩

/-- `(when (p) (q))` is an effect and a simple effect, but not the same. -/
example : (∃ g x, parseEffect c!"(when (p) (q))" = .ok [.when g x] []) ∧
    ∃ a, parseCondEffect c!"(when (p) (q))" = .ok (.single (.atomic a)) [] :=
  ⟨⟨_, _, rfl⟩, _, rfl⟩

end Pddl
