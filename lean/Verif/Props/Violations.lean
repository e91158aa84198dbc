import Verif.Spec.Violations
import Verif.Props.RenamePreference

/-!
# C120: how often preferences are violated
-/

namespace Pddl

theorem oneIf_true {p : Prop} (h : p) : oneIf p = 1 := if_pos h
theorem oneIf_false {p : Prop} (h : ¬ p) : oneIf p = 0 := if_neg h
theorem oneIf_pos {p : Prop} : 0 < oneIf p ↔ p := by
  by_cases h : p
  · exact ⟨fun _ => h, fun _ => by rw [oneIf_true h]; exact Nat.one_pos⟩
  · exact ⟨fun k => by rw [oneIf_false h] at k; exact absurd k (Nat.lt_irrefl _), fun k => absurd k h⟩
theorem oneIf_congr {p q : Prop} (h : p ↔ q) : oneIf p = oneIf q := by rw [propext h]

/-! ## Sums -/

theorem list_sum_pos (xs : List Nat) : 0 < xs.sum ↔ ∃ x ∈ xs, 0 < x := by
  induction xs with
  | nil => simp
  | cons x xs ih => simp [← ih, Nat.add_pos_iff_pos_or_pos]

theorem list_sum_zero {α : Type} {f : α → Nat} (xs : List α) (h : ∀ x, f x = 0) : (xs.map f).sum = 0 := by
  induction xs with
  | nil => rfl
  | cons x xs ih => rw [List.map_cons, List.sum_cons, ih, h]

theorem SumOver.congr {M : Interp} {os : List M.Obj} {f g : M.Env → Nat} (h : ∀ e, f e = g e) (vs : TypedList Name)
    (e : M.Env) : SumOver M os vs e f = SumOver M os vs e g := by rw [funext h]

theorem SumOver.pos {M : Interp} {os : List M.Obj} (hos : ∀ o, o ∈ os) {f : M.Env → Nat} (vs : TypedList Name) :
    ∀ e, 0 < SumOver M os vs e f ↔ ForSome M vs e fun e => 0 < f e := by
  induction vs with
  | nil => exact fun e => Iff.rfl
  | cons v vs ih =>
    intro e
    simp only [SumOver, ForSome, list_sum_pos, List.mem_map]
    constructor
    · rintro ⟨_, ⟨o, -, rfl⟩, h⟩
      by_cases ho : v.ty.Has M o
      · rw [if_pos ho] at h
        exact ⟨o, ho, (ih _).mp h⟩
      · rw [if_neg ho] at h
        exact absurd h (Nat.lt_irrefl _)
    · rintro ⟨o, ho, h⟩
      exact ⟨_, ⟨o, hos o, rfl⟩, by rw [if_pos ho]; exact (ih _).mpr h⟩

/-- Sums over one variable: over the objects of its type. -/
theorem SumOver.single {M : Interp} {os : List M.Obj} {f : M.Env → Nat} (v : Typed Name) (e : M.Env)
    [DecidablePred fun o => v.ty.Has M o] :
    SumOver M os [v] e f = ((os.filter fun o => v.ty.Has M o).map fun o => f (M.set e v.value.text o)).sum := by
  simp only [SumOver]
  induction os with
  | nil => rfl
  | cons o os ih =>
    by_cases h : v.ty.Has M o
    · simp only [List.map_cons, List.sum_cons, if_pos h, ih, List.filter_cons, h, decide_true, if_true]
    · simp only [List.map_cons, List.sum_cons, if_neg h, ih, List.filter_cons, h, decide_false, Bool.false_eq_true,
        if_false, Nat.zero_add]

/-- Sums of ones over one variable: the number of objects of its type for which it is so. -/
theorem SumOver.length {M : Interp} {os : List M.Obj} {p : M.Env → Prop} (v : Typed Name) (e : M.Env)
    [DecidablePred fun o => v.ty.Has M o ∧ p (M.set e v.value.text o)] :
    SumOver M os [v] e (fun e => oneIf (p e)) = (os.filter fun o => v.ty.Has M o ∧ p (M.set e v.value.text o)).length := by
  simp only [SumOver]
  induction os with
  | nil => rfl
  | cons o os ih =>
    rw [List.map_cons, List.sum_cons, ih, List.filter_cons]
    by_cases h : v.ty.Has M o
    · by_cases h' : p (M.set e v.value.text o)
      · rw [if_pos h, oneIf_true h', if_pos (decide_eq_true ⟨h, h'⟩), List.length_cons, Nat.add_comm]
      · rw [if_pos h, oneIf_false h', if_neg (fun k => h' (of_decide_eq_true k).2), Nat.zero_add]
    · rw [if_neg h, if_neg (fun k => h (of_decide_eq_true k).1), Nat.zero_add]

/-! ## Counting and being violated -/

section
variable {M : Interp} {os : List M.Obj} (hos : ∀ o, o ∈ os) {n : Option (List Char)}
include hos

mutual
theorem PreGD.count_pos : (g : PreGD) → ∀ e : M.Env, 0 < PreGD.count M os n g e ↔ PreGD.Breaks M n g e
  | .preference (.goal _) => fun e => by simp [PreGD.count, PreGD.Breaks]
  | .preference (.preference m g) => fun e => by simp only [PreGD.count, PreGD.Breaks, oneIf_pos]
  | .forall_ vs gs => fun e => by
    simp only [PreGD.count, PreGD.Breaks, SumOver.pos hos]
    exact ForSome.congr (PreGD.counts_pos gs) vs e
theorem PreGD.counts_pos : (gs : List PreGD) → ∀ e : M.Env, 0 < PreGD.counts M os n gs e ↔ PreGD.BreakSome M n gs e
  | [] => fun e => by simp [PreGD.counts, PreGD.BreakSome]
  | g :: gs => fun e => by
    simp only [PreGD.counts, PreGD.BreakSome, Nat.add_pos_iff_pos_or_pos]
    exact or_congr (PreGD.count_pos g e) (PreGD.counts_pos gs e)
end

variable {tr : List (Snapshot M)}

mutual
theorem PrefConGD.count_pos : (g : PrefConGD) → ∀ e : M.Env,
    0 < PrefConGD.count M os tr n g e ↔ PrefConGD.Breaks M tr n g e
  | .goal _ => fun e => by simp [PrefConGD.count, PrefConGD.Breaks]
  | .preference m g => fun e => by simp only [PrefConGD.count, PrefConGD.Breaks, oneIf_pos]
  | .forall_ vs gs => fun e => by
    simp only [PrefConGD.count, PrefConGD.Breaks, SumOver.pos hos]
    exact ForSome.congr (PrefConGD.counts_pos gs) vs e
theorem PrefConGD.counts_pos : (gs : List PrefConGD) → ∀ e : M.Env,
    0 < PrefConGD.counts M os tr n gs e ↔ PrefConGD.BreakSome M tr n gs e
  | [] => fun e => by simp [PrefConGD.counts, PrefConGD.BreakSome]
  | g :: gs => fun e => by
    simp only [PrefConGD.counts, PrefConGD.BreakSome, Nat.add_pos_iff_pos_or_pos]
    exact or_congr (PrefConGD.count_pos g e) (PrefConGD.counts_pos gs e)
end

end

theorem PreGD.counts_append {M : Interp} {os : List M.Obj} {n : Option (List Char)} (gs hs : List PreGD) (e : M.Env) :
    PreGD.counts M os n (gs ++ hs) e = PreGD.counts M os n gs e + PreGD.counts M os n hs e := by
  induction gs with
  | nil => simp [PreGD.counts]
  | cons g gs ih => simp only [List.cons_append, PreGD.counts, ih, Nat.add_assoc]

theorem PrefConGD.counts_append {M : Interp} {os : List M.Obj} {tr : List (Snapshot M)} {n : Option (List Char)}
    (gs hs : List PrefConGD) (e : M.Env) :
    PrefConGD.counts M os tr n (gs ++ hs) e = PrefConGD.counts M os tr n gs e + PrefConGD.counts M os tr n hs e := by
  induction gs with
  | nil => simp [PrefConGD.counts]
  | cons g gs ih => simp only [List.cons_append, PrefConGD.counts, ih, Nat.add_assoc]

/-! ## The texts -/

/-- A text is read as a condition where `k` preferences with the name `n` are not met. -/
def Violations (M : Interp) (os : List M.Obj) (e : M.Env) (n : Option (List Char)) (t : List Char) (k : Nat) : Prop :=
  ∃ v, ReadsAs parsePreGd v t ∧ PreGD.counts M os n v e = k

/-- A text is read as constraints where `k` preferences with the name `n` are not met. -/
def ViolationsOn (M : Interp) (os : List M.Obj) (tr : List (Snapshot M)) (e : M.Env) (n : Option (List Char))
    (t : List Char) (k : Nat) : Prop :=
  ∃ v, ReadsAs parsePrefConGd v t ∧ PrefConGD.counts M os tr n v e = k

theorem violations_iff {M : Interp} {os : List M.Obj} {e : M.Env} {n : Option (List Char)} {t : List Char} {v : List PreGD}
    (h : ReadsAs parsePreGd v t) (k : Nat) : Violations M os e n t k ↔ k = PreGD.counts M os n v e :=
  ⟨fun ⟨_, h1, h2⟩ => by rw [h.det h1, h2], fun h2 => ⟨v, h, h2.symm⟩⟩

theorem violationsOn_iff {M : Interp} {os : List M.Obj} {tr : List (Snapshot M)} {e : M.Env} {n : Option (List Char)}
    {t : List Char} {v : List PrefConGD} (h : ReadsAs parsePrefConGd v t) (k : Nat) :
    ViolationsOn M os tr e n t k ↔ k = PrefConGD.counts M os tr n v e :=
  ⟨fun ⟨_, h1, h2⟩ => by rw [h.det h1, h2], fun h2 => ⟨v, h, h2.symm⟩⟩

/-- C120. Every condition has one number of violations, and a preference is violated if it is not zero. -/
theorem C120_violated {M : Interp} {os : List M.Obj} (hos : ∀ o, o ∈ os) (e : M.Env) (n : Option (List Char))
    {t : List Char} (h : IsCondition t) :
    ∃ k, (∀ j, Violations M os e n t j ↔ j = k) ∧ (0 < k ↔ Violated M e n t) := by
  obtain ⟨v, hv⟩ := h
  exact ⟨_, violations_iff hv, (PreGD.counts_pos hos v e).trans (brokenPre_iff hv).symm⟩

theorem C120_constraint_violated {M : Interp} {os : List M.Obj} (hos : ∀ o, o ∈ os) (tr : List (Snapshot M)) (e : M.Env)
    (n : Option (List Char)) {t : List Char} (h : IsConstraints t) :
    ∃ k, (∀ j, ViolationsOn M os tr e n t j ↔ j = k) ∧ (0 < k ↔ ViolatedOn M tr e n t) := by
  obtain ⟨v, hv⟩ := h
  exact ⟨_, violationsOn_iff hv, (PrefConGD.counts_pos hos v e).trans (violatedOn_iff hv).symm⟩

section
variable (M : Interp) (os : List M.Obj) (tr : List (Snapshot M)) (e : M.Env) (m : Option (List Char)) {x t : List Char}

/-- C120. `(preference n x)` counts once where `x` is not true. -/
theorem C120_named {n : Name} (h : Paired c!"preference" NameW (fun x t => t = x ∧ IsGoal x) n x t) :
    (m = some n.text ∧ ¬ IsTrue M e x → Violations M os e m t 1) ∧
    (¬ (m = some n.text ∧ ¬ IsTrue M e x) → Violations M os e m t 0) := by
  obtain ⟨g1, w, g2, u, g3, rfl, h1, hw, h2, ⟨hu, g, hg⟩, h3⟩ := h
  subst hu
  have h4 : ReadsAs parsePreGd [.preference (.preference (some n) g)] (paren (c!"preference" ++ (g1 ++ (w ++ (g2 ++
      (u ++ g3)))))) :=
    prex_reads.mpr (.other .nil (.named ⟨g1, w, g2, u, g3, rfl, h1, hw, h2, gdx_reads.mp hg, h3⟩) nofun nofun)
  simp only [violations_iff h4, PreGD.counts, PreGD.count, Option.map_some, isTrue_iff hg, eq_comm (a := m), Nat.add_zero]
  exact ⟨fun h => (oneIf_true h).symm, fun h => (oneIf_false h).symm⟩

/-- C120. The same in constraints. -/
theorem C120_constraint_named {n : Name} (h : Paired c!"preference" NameW (fun x t => t = x ∧ IsConstraint x) n x t) :
    (m = some n.text ∧ ¬ TrueOn M tr e x → ViolationsOn M os tr e m t 1) ∧
    (¬ (m = some n.text ∧ ¬ TrueOn M tr e x) → ViolationsOn M os tr e m t 0) := by
  obtain ⟨g1, w, g2, u, g3, rfl, h1, hw, h2, ⟨hu, g, hg⟩, h3⟩ := h
  subst hu
  have h4 := C73_pref_constraint_named ⟨g1, w, g2, u, g3, rfl, h1, hw, h2, hg, h3⟩
  simp only [violationsOn_iff h4, PrefConGD.counts, PrefConGD.count, Option.map_some, trueOn_iff hg, eq_comm (a := m),
    Nat.add_zero]
  exact ⟨fun h => (oneIf_true h).symm, fun h => (oneIf_false h).symm⟩

/-- C120. What is demanded counts nothing. -/
theorem C120_goal (hos : ∀ o, o ∈ os) (h : IsHardGoal x) : Violations M os e m x 0 := by
  obtain ⟨v, h1, -⟩ := hardGoal_reads h
  refine (violations_iff h1 _).mpr (Nat.eq_zero_of_not_pos fun hp => ?_).symm
  exact PreGD.allHard_breaks v (h.2 v h1) e ((PreGD.counts_pos hos v e).mp hp)

theorem violations_of_texts {ts : List (List Char)} {u : List Char}
    (h : Items (fun x t => t = x ∧ IsCondition x) ts u) {k : List Char → Nat} (hk : ∀ x ∈ ts, Violations M os e m x (k x)) :
    ∃ vs, Items (ReadsAs parsePreGd) vs u ∧ PreGD.counts M os m vs.flatten e = (ts.map k).sum := by
  induction h with
  | one h =>
    obtain ⟨rfl, c, hc⟩ := h
    exact ⟨[c], .one hc, by simpa using ((violations_iff hc _).mp (hk _ (.head _))).symm⟩
  | cons h hs _ ih =>
    obtain ⟨rfl, c, hc⟩ := h
    obtain ⟨cs, h1, h2⟩ := ih fun x hx => hk x (.tail _ hx)
    refine ⟨c :: cs, .cons hc hs h1, ?_⟩
    rw [List.flatten_cons, PreGD.counts_append, h2, ← (violations_iff hc _).mp (hk _ (.head _))]
    rfl

theorem violationsOn_of_texts {ts : List (List Char)} {u : List Char}
    (h : Items (fun x t => t = x ∧ IsConstraints x) ts u) {k : List Char → Nat}
    (hk : ∀ x ∈ ts, ViolationsOn M os tr e m x (k x)) :
    ∃ vs, Items (ReadsAs parsePrefConGd) vs u ∧ PrefConGD.counts M os tr m vs.flatten e = (ts.map k).sum := by
  induction h with
  | one h =>
    obtain ⟨rfl, c, hc⟩ := h
    exact ⟨[c], .one hc, by simpa using ((violationsOn_iff hc _).mp (hk _ (.head _))).symm⟩
  | cons h hs _ ih =>
    obtain ⟨rfl, c, hc⟩ := h
    obtain ⟨cs, h1, h2⟩ := ih fun x hx => hk x (.tail _ hx)
    refine ⟨c :: cs, .cons hc hs h1, ?_⟩
    rw [List.flatten_cons, PrefConGD.counts_append, h2, ← (violationsOn_iff hc _).mp (hk _ (.head _))]
    rfl

/-- C120. In `(and x ..)` the violations are added. -/
theorem C120_and {ts : List (List Char)} (h : Listed c!"and" (fun x t => t = x ∧ IsCondition x) ts t)
    {k : List Char → Nat} (hk : ∀ x ∈ ts, Violations M os e m x (k x)) : Violations M os e m t (ts.map k).sum := by
  obtain ⟨u, rfl, hu⟩ := h
  cases hu with
  | nil hg => exact (violations_iff (C73_precondition_and (vs := []) ⟨u, rfl, .nil hg⟩) _).mpr rfl
  | cons h1 h2 h3 =>
    obtain ⟨vs, k1, k2⟩ := violations_of_texts M os e m h2 hk
    exact (violations_iff (C73_precondition_and ⟨_, rfl, .cons h1 k1 h3⟩) _).mpr k2.symm

/-- C120. The same in constraints. -/
theorem C120_constraint_and {ts : List (List Char)} (h : Listed c!"and" (fun x t => t = x ∧ IsConstraints x) ts t)
    {k : List Char → Nat} (hk : ∀ x ∈ ts, ViolationsOn M os tr e m x (k x)) :
    ViolationsOn M os tr e m t (ts.map k).sum := by
  obtain ⟨u, rfl, hu⟩ := h
  cases hu with
  | nil hg => exact (violationsOn_iff (C73_pref_constraint_and (vs := []) ⟨u, rfl, .nil hg⟩) _).mpr rfl
  | cons h1 h2 h3 =>
    obtain ⟨vs, k1, k2⟩ := violationsOn_of_texts M os tr e m h2 hk
    exact (violationsOn_iff (C73_pref_constraint_and ⟨_, rfl, .cons h1 k1 h3⟩) _).mpr k2.symm

/-- C120. `(forall (v ..) x)` counts the violations of `x` for all objects. -/
theorem C120_forall {vs : TypedList Name} {f : M.Env → Nat}
    (h : Paired c!"forall" (ReadsAs parseVarList) (fun x t => t = x ∧ IsCondition x) vs x t)
    (hf : ∀ e, Violations M os e m x (f e)) : Violations M os e m t (SumOver M os vs e f) := by
  obtain ⟨g1, w, g2, u, g3, rfl, h1, hw, h2, ⟨hu, b, hb⟩, h3⟩ := h
  subst hu
  have h4 := C73_precondition_forall ⟨g1, w, g2, u, g3, rfl, h1, hw, h2, hb, h3⟩
  refine (violations_iff h4 _).mpr ?_
  simp only [PreGD.counts, PreGD.count, Nat.add_zero]
  exact SumOver.congr (fun e => (violations_iff hb _).mp (hf e)) vs e

theorem C120_constraint_forall {vs : TypedList Name} {f : M.Env → Nat}
    (h : Paired c!"forall" (ReadsAs parseVarList) (fun x t => t = x ∧ IsConstraints x) vs x t)
    (hf : ∀ e, ViolationsOn M os tr e m x (f e)) : ViolationsOn M os tr e m t (SumOver M os vs e f) := by
  obtain ⟨g1, w, g2, u, g3, rfl, h1, hw, h2, ⟨hu, b, hb⟩, h3⟩ := h
  subst hu
  have h4 := C73_pref_constraint_forall ⟨g1, w, g2, u, g3, rfl, h1, hw, h2, hb, h3⟩
  refine (violationsOn_iff h4 _).mpr ?_
  simp only [PrefConGD.counts, PrefConGD.count, Nat.add_zero]
  exact SumOver.congr (fun e => (violationsOn_iff hb _).mp (hf e)) vs e

/-- C120. `(forall (?v - t) (preference n x))` is violated as often as there are objects of the type for which `x` is not
true. -/
theorem C120_each {v : Typed Name} {n : Name} {y : List Char}
    (h : Paired c!"forall" (ReadsAs parseVarList) (fun x t => t = x ∧ IsCondition x) [v] y t)
    (h' : Paired c!"preference" NameW (fun x t => t = x ∧ IsGoal x) n x y)
    [DecidablePred fun o => v.ty.Has M o ∧ ¬ IsTrue M (M.set e v.value.text o) x] :
    Violations M os e (some n.text) t
      (os.filter fun o => v.ty.Has M o ∧ ¬ IsTrue M (M.set e v.value.text o) x).length := by
  have := C120_forall M os e (some n.text) (f := fun e => oneIf (¬ IsTrue M e x)) h fun e => by
    by_cases hx : IsTrue M e x
    · rw [oneIf_false (not_not_intro hx)]
      exact (C120_named M os e _ h').2 fun k => k.2 hx
    · rw [oneIf_true hx]
      exact (C120_named M os e _ h').1 ⟨rfl, hx⟩
  rwa [SumOver.length (p := fun e => ¬ IsTrue M e x)] at this

/-- C120. The same in constraints. -/
theorem C120_constraint_each {v : Typed Name} {n : Name} {y : List Char}
    (h : Paired c!"forall" (ReadsAs parseVarList) (fun x t => t = x ∧ IsConstraints x) [v] y t)
    (h' : Paired c!"preference" NameW (fun x t => t = x ∧ IsConstraint x) n x y)
    [DecidablePred fun o => v.ty.Has M o ∧ ¬ TrueOn M tr (M.set e v.value.text o) x] :
    ViolationsOn M os tr e (some n.text) t
      (os.filter fun o => v.ty.Has M o ∧ ¬ TrueOn M tr (M.set e v.value.text o) x).length := by
  have := C120_constraint_forall M os tr e (some n.text) (f := fun e => oneIf (¬ TrueOn M tr e x)) h fun e => by
    by_cases hx : TrueOn M tr e x
    · rw [oneIf_false (not_not_intro hx)]
      exact (C120_constraint_named M os tr e _ h').2 fun k => k.2 hx
    · rw [oneIf_true hx]
      exact (C120_constraint_named M os tr e _ h').1 ⟨rfl, hx⟩
  rwa [SumOver.length (p := fun e => ¬ TrueOn M tr e x)] at this

end

/-! ## Renaming -/

section
variable {M : Interp} {ρ : List Char → List Char} (hρ : ∀ x y, ρ x = ρ y → x = y) (os : List M.Obj)
local notation "φ" => Name.rename ρ
include hρ

open Classical in
theorem SumOver.rename {p : M.Env → Nat} {q : (M.pull ρ).Env → Nat} (h : ∀ e, p e = q (M.pullEnv ρ e))
    (vs : TypedList Name) :
    ∀ e, SumOver M os (varsMapNames φ vs) e p = SumOver (M.pull ρ) os vs (M.pullEnv ρ e) q := by
  induction vs with
  | nil => exact h
  | cons v vs ih =>
    intro e
    show (os.map fun o => if (v.ty.mapNames φ).Has M o then
      SumOver M os (varsMapNames φ vs) (M.set e (v.value.rename ρ).text o) p else 0).sum = _
    simp only [Ty.rename_has, Name.rename_text, ih, pull_set M ρ hρ]
    rfl

mutual
theorem PreGD.rename_count (n : Option (List Char)) : (g : PreGD) → ∀ e : M.Env,
    PreGD.count M os (n.map ρ) (g.mapNames φ) e = PreGD.count (M.pull ρ) os n g (M.pullEnv ρ e)
  | .preference (.goal g) => fun e => by
    simp only [PreGD.mapNames, PrefGD.mapNames, PreGD.count]
  | .preference (.preference m g) => fun e => by
    simp only [PreGD.mapNames, PrefGD.mapNames, PreGD.count]
    exact oneIf_congr (and_congr (rename_name_eq hρ _ m n rfl) (not_congr (GD.rename_holds M hρ g e)))
  | .forall_ vs gs => fun e => by
    simp only [PreGD.mapNames, PreGD.count]; exact SumOver.rename hρ os (PreGD.rename_counts n gs) vs e
theorem PreGD.rename_counts (n : Option (List Char)) : (gs : List PreGD) → ∀ e : M.Env,
    PreGD.counts M os (n.map ρ) (PreGD.mapNamesL φ gs) e = PreGD.counts (M.pull ρ) os n gs (M.pullEnv ρ e)
  | [] => fun _ => rfl
  | g :: gs => fun e => by
    simp only [PreGD.mapNamesL, PreGD.counts]
    exact congr (congrArg _ (PreGD.rename_count n g e)) (PreGD.rename_counts n gs e)
end

variable (tr : List (Snapshot M))

mutual
theorem PrefConGD.rename_count (n : Option (List Char)) : (g : PrefConGD) → ∀ e : M.Env,
    PrefConGD.count M os tr (n.map ρ) (g.mapNames φ) e =
      PrefConGD.count (M.pull ρ) os (tr.map (Snapshot.pull ρ)) n g (M.pullEnv ρ e)
  | .goal g => fun e => by
    simp only [PrefConGD.mapNames, PrefConGD.count]
  | .preference m g => fun e => by
    simp only [PrefConGD.mapNames, PrefConGD.count]
    exact oneIf_congr (and_congr (rename_name_eq hρ _ m n rfl) (not_congr (ConGD.rename_on M hρ g tr e)))
  | .forall_ vs gs => fun e => by
    simp only [PrefConGD.mapNames, PrefConGD.count]; exact SumOver.rename hρ os (PrefConGD.rename_counts n gs) vs e
theorem PrefConGD.rename_counts (n : Option (List Char)) : (gs : List PrefConGD) → ∀ e : M.Env,
    PrefConGD.counts M os tr (n.map ρ) (PrefConGD.mapNamesL φ gs) e =
      PrefConGD.counts (M.pull ρ) os (tr.map (Snapshot.pull ρ)) n gs (M.pullEnv ρ e)
  | [] => fun _ => rfl
  | g :: gs => fun e => by
    simp only [PrefConGD.mapNamesL, PrefConGD.counts]
    exact congr (congrArg _ (PrefConGD.rename_count n g e)) (PrefConGD.rename_counts n gs e)
end

/-- C120. With new words, preferences are violated as often as before, under their new names. -/
theorem C120_rename (ho : ρ c!"object" = c!"object") {s s' r : List Char} {g : List PreGD} (hs : Renames ρ s s')
    (hg : parsePreGd s = .ok g r) :
    ∃ g' r', parsePreGd s' = .ok g' r' ∧ Renames ρ r r' ∧
      ∀ (M : Interp) (os : List M.Obj) (n : Option (List Char)) (e : M.Env),
        PreGD.counts M os (n.map ρ) g' e = PreGD.counts (M.pull ρ) os n g (M.pullEnv ρ e) := by
  obtain ⟨r', h1, h2⟩ := (parsePreGd_equi ho).meaning hs hg
  rw [← PreGD.mapNamesL_map] at h1
  exact ⟨_, r', h1, h2, fun M os n e => PreGD.rename_counts (M := M) hρ os n g e⟩

/-- C120. The same in constraints of a problem. -/
theorem C120_constraint_rename (ho : ρ c!"object" = c!"object") {s s' r : List Char} {g : List PrefConGD}
    (hs : Renames ρ s s') (hg : parsePrefConGd s = .ok g r) :
    ∃ g' r', parsePrefConGd s' = .ok g' r' ∧ Renames ρ r r' ∧
      ∀ (M : Interp) (os : List M.Obj) (tr : List (Snapshot M)) (n : Option (List Char)) (e : M.Env),
        PrefConGD.counts M os tr (n.map ρ) g' e =
          PrefConGD.counts (M.pull ρ) os (tr.map (Snapshot.pull ρ)) n g (M.pullEnv ρ e) := by
  obtain ⟨r', h1, h2⟩ := (parsePrefConGd_equi ho).meaning hs hg
  rw [← PrefConGD.mapNamesL_map] at h1
  exact ⟨_, r', h1, h2, fun M os tr n e => PrefConGD.rename_counts (M := M) hρ os tr n g e⟩

end

/-! ## Instances -/

/-- All balls are to lie there: a preference for each of them. -/
def countText : List Char := c!"(forall (?b - ball) (preference a (lies ?b)))"

/-- The number of balls that do not lie there. -/
theorem count_balls (M : Interp) [DecidablePred fun o => Ty.Has M (.exactly (.str c!"ball")) o] (os : List M.Obj)
    (e : M.Env) : Violations M os e (some c!"a") countText
      ((os.filter fun o => Ty.Has M (.exactly (.str c!"ball")) o).map fun o => oneIf (¬ M.pred c!"lies" [o])).sum := by
  have key := SumOver.single (M := M) (os := os) (f := fun e => oneIf (¬ M.pred c!"lies" [e c!"b"]))
    ⟨.str c!"b", .exactly (.str c!"ball")⟩ e
  have hset (o : M.Obj) : M.set e c!"b" o c!"b" = o := if_pos rfl
  rw [show (fun o => oneIf (¬ M.pred c!"lies" [o])) =
    fun o => oneIf (¬ M.pred c!"lies" [M.set e (Name.str c!"b").text o c!"b"]) from funext fun o => by
      rw [show (Name.str c!"b").text = c!"b" from rfl, hset]]
  rw [← key]
  refine C120_forall M os e (some c!"a") (x := c!"(preference a (lies ?b))")
    ⟨c!" ", c!"(?b - ball)", c!" ", _, [], rfl, .space (by decide) .nil, ⟨solid_open _, rfl⟩, .space,
      ⟨rfl, _, solid_open _, rfl⟩, .nil⟩ fun e => ?_
  refine (violations_iff (v := [.preference (.preference (some (.str c!"a"))
    (.atomic (.predicate (.str c!"lies") [.var (.str c!"b")])))]) ⟨solid_open _, rfl⟩ _).mpr ?_
  simp only [PreGD.counts, PreGD.count, Nat.add_zero]
  exact oneIf_congr ⟨fun h => ⟨rfl, h⟩, fun h => h.2⟩

/-- Two preferences with the same name are counted twice, in a goal and in constraints. -/
example (M : Interp) (os : List M.Obj) (e : M.Env) (h : ¬ M.pred c!"p" []) :
    Violations M os e (some c!"a") c!"(and (preference a (p)) (preference a (p)))" 2 ∧
    ∀ s : Snapshot M, ¬ s.pred c!"p" [] →
      ViolationsOn M os [s] e (some c!"a") c!"(and (preference a (sometime (p))) (preference a (sometime (p))))" 2 := by
  have hn : NameW (wordName c!"a") c!"a" := ⟨isWord_of _ _ (by decide) (by decide), rfl⟩
  have hk : Violations M os e (some c!"a") c!"(preference a (p))" 1 := (C120_named M os e (some c!"a") (n := wordName c!"a")
    (x := c!"(p)") ⟨c!" ", c!"a", c!" ", c!"(p)", [], rfl, .space (by decide) .nil, hn, .space,
      ⟨rfl, exAtom c!"p", solid_open _, rfl⟩, .nil⟩).1
    ⟨rfl, mt (isTrue_iff (g := exAtom c!"p") ⟨solid_open _, rfl⟩).mp h⟩
  refine ⟨?_, fun s hs => ?_⟩
  · have HI : Items (fun x t => t = x ∧ IsCondition x) [c!"(preference a (p))", c!"(preference a (p))"]
        c!"(preference a (p)) (preference a (p))" :=
      Items.cons (t := c!"(preference a (p))") (g := c!" ") ⟨rfl, _, solid_open _, rfl⟩ sp_blank.sep
        (.one ⟨rfl, _, solid_open _, rfl⟩)
    exact C120_and M os e (some c!"a") (ts := [c!"(preference a (p))", c!"(preference a (p))"]) (k := fun _ => 1)
      ⟨c!" (preference a (p)) (preference a (p))", rfl,
        .cons (g := c!" ") (t := c!"(preference a (p)) (preference a (p))") (g' := []) (.space (by decide) .nil)
          HI .nil⟩
      fun x hx => by
        simp only [List.mem_cons, List.not_mem_nil, or_false, or_self] at hx
        subst hx
        exact hk
  · have hk : ViolationsOn M os [s] e (some c!"a") c!"(preference a (sometime (p)))" 1 :=
      (C120_constraint_named M os [s] e (some c!"a") (n := wordName c!"a")
        (x := c!"(sometime (p))") ⟨c!" ", c!"a", c!" ", c!"(sometime (p))", [], rfl, .space (by decide) .nil, hn, .space,
          ⟨rfl, .sometime (.goal (exAtom c!"p")), solid_open _, rfl⟩, .nil⟩).1
        ⟨rfl, mt (trueOn_iff (c := .sometime (.goal (exAtom c!"p"))) ⟨solid_open _, rfl⟩).mp (by
          rintro ⟨i, hi, s', hs', k⟩
          cases i with
          | zero => cases hs'; exact hs k
          | succ i => cases hs')⟩
    have HI : Items (fun x t => t = x ∧ IsConstraints x)
        [c!"(preference a (sometime (p)))", c!"(preference a (sometime (p)))"]
        c!"(preference a (sometime (p))) (preference a (sometime (p)))" :=
      Items.cons (t := c!"(preference a (sometime (p)))") (g := c!" ") ⟨rfl, _, solid_open _, rfl⟩
        sp_blank.sep (.one ⟨rfl, _, solid_open _, rfl⟩)
    exact C120_constraint_and M os [s] e (some c!"a")
      (ts := [c!"(preference a (sometime (p)))", c!"(preference a (sometime (p)))"]) (k := fun _ => 1)
      ⟨c!" (preference a (sometime (p))) (preference a (sometime (p)))", rfl,
        .cons (g := c!" ") (t := c!"(preference a (sometime (p))) (preference a (sometime (p)))") (g' := [])
          (.space (by decide) .nil)
          HI .nil⟩
      fun x hx => by
        simp only [List.mem_cons, List.not_mem_nil, or_false, or_self] at hx
        subst hx
        exact hk

/-- With the preference renamed. -/
example : ∃ g' r', parsePreGd (renameText (renameOne c!"a" c!"z") countText) = .ok g' r' ∧
    ∀ (M : Interp) (os : List M.Obj) (e : M.Env), (∀ o, ¬ M.ofType c!"ball" o) →
      PreGD.counts M os (some c!"z") g' e = 0 := by
  obtain ⟨g', r', h1, -, h3⟩ := C120_rename (swapWord_inj c!"a" c!"z") (swapWord_object (by decide) (by decide))
    (renames_fresh (a := c!"a") (b := c!"z") (s := countText) (by decide)
      ⟨'z', [], rfl, by decide, by decide⟩ (by decide) (by decide +kernel) (by decide +kernel))
    (g := [.forall_ [⟨.str c!"b", .exactly (.str c!"ball")⟩] [.preference (.preference (some (.str c!"a"))
      (.atomic (.predicate (.str c!"lies") [.var (.str c!"b")])))]]) (r := []) rfl
  refine ⟨g', r', h1, fun M os e ho => (h3 M os (some c!"a") e).trans ?_⟩
  simp only [PreGD.counts, PreGD.count, SumOver, Nat.add_zero]
  exact list_sum_zero os fun o => if_neg fun h => ho o h

/-- What is demanded counts nothing, and the preference of the balls is violated where the number is not zero. -/
example (M : Interp) (os : List M.Obj) (hos : ∀ o, o ∈ os) (e : M.Env) :
    Violations M os e (some c!"a") c!"(p)" 0 ∧
    ∃ k, (∀ j, Violations M os e (some c!"a") countText j ↔ j = k) ∧ (0 < k ↔ Violated M e (some c!"a") countText) :=
  ⟨C120_goal M os e _ hos (hardGoal_of (g := exAtom c!"p") (v := [.preference (.goal (exAtom c!"p"))])
      ⟨solid_open _, rfl⟩ ⟨solid_open _, rfl⟩ rfl),
    C120_violated hos e _ ⟨_, solid_open _, rfl⟩⟩

/-- A constraint for each of the balls: it should lie there in the end. -/
def countConstraint : List Char := c!"(forall (?b - ball) (preference a (at end (lies ?b))))"

/-- What is read of it. -/
def countConstraintV : List PrefConGD := [.forall_ [⟨.str c!"b", .exactly (.str c!"ball")⟩]
  [.preference (some (.str c!"a")) (.atEnd (.atomic (.predicate (.str c!"lies") [.var (.str c!"b")])))]]

theorem countConstraint_read : ReadsAs parsePrefConGd countConstraintV countConstraint := ⟨solid_open _, rfl⟩

example (M : Interp) (os : List M.Obj) (hos : ∀ o, o ∈ os) (s : Snapshot M) (e : M.Env) (h : ∀ o, ¬ s.pred c!"lies" [o]) :
    ViolationsOn M os [s] e (some c!"a") countConstraint (SumOver M os [⟨.str c!"b", .exactly (.str c!"ball")⟩] e fun _ => 1) ∧
    ∃ k, (∀ j, ViolationsOn M os [s] e (some c!"a") countConstraint j ↔ j = k) ∧
      (0 < k ↔ ViolatedOn M [s] e (some c!"a") countConstraint) := by
  refine ⟨?_, C120_constraint_violated hos [s] e _ ⟨_, countConstraint_read⟩⟩
  refine C120_constraint_forall M os [s] e (some c!"a") (x := c!"(preference a (at end (lies ?b)))")
    ⟨c!" ", c!"(?b - ball)", c!" ", _, [], rfl, .space (by decide) .nil, ⟨solid_open _, rfl⟩, .space,
      ⟨rfl, _, solid_open _, rfl⟩, .nil⟩ fun e => ?_
  refine (violationsOn_iff (v := [.preference (some (.str c!"a"))
    (.atEnd (.atomic (.predicate (.str c!"lies") [.var (.str c!"b")])))]) ⟨solid_open _, rfl⟩ _).mpr ?_
  simp only [PrefConGD.counts, PrefConGD.count, Nat.add_zero]
  refine (oneIf_true ⟨rfl, ?_⟩).symm
  rintro ⟨s', hs', k⟩
  cases hs'
  exact h _ k

example : ∃ g' r', parsePrefConGd (renameText (renameOne c!"a" c!"z") countConstraint) = .ok g' r' ∧
    ∀ (M : Interp) (os : List M.Obj) (tr : List (Snapshot M)) (e : M.Env), (∀ o, ¬ M.ofType c!"ball" o) →
      PrefConGD.counts M os tr (some c!"z") g' e = 0 := by
  obtain ⟨g', r', h1, -, h3⟩ := C120_constraint_rename (swapWord_inj c!"a" c!"z") (swapWord_object (by decide) (by decide))
    (renames_fresh (a := c!"a") (b := c!"z") (s := countConstraint) (by decide)
      ⟨'z', [], rfl, by decide, by decide⟩ (by decide) (by decide +kernel) (by decide +kernel))
    countConstraint_read.2
  refine ⟨g', r', h1, fun M os tr e ho => (h3 M os tr (some c!"a") e).trans ?_⟩
  simp only [countConstraintV, PrefConGD.counts, PrefConGD.count, SumOver, Nat.add_zero]
  exact list_sum_zero os fun o => if_neg fun h => ho o h

open Classical in
/-- As many violations as there are balls that do not lie there, in a state and in the end of a trajectory. -/
example (M : Interp) (os : List M.Obj) (e : M.Env) (s : Snapshot M) :
    Violations M os e (some c!"a") countText (os.filter fun o => M.ofType c!"ball" o ∧ ¬ M.pred c!"lies" [o]).length ∧
    ViolationsOn M os [s] e (some c!"a") countConstraint
      (os.filter fun o => M.ofType c!"ball" o ∧ ¬ s.pred c!"lies" [o]).length := by
  have hn : NameW (wordName c!"a") c!"a" := ⟨isWord_of _ _ (by decide) (by decide), rfl⟩
  constructor
  · have := C120_each M os e (t := countText) (v := ⟨.str c!"b", .exactly (.str c!"ball")⟩) (n := wordName c!"a")
      (x := c!"(lies ?b)") (y := c!"(preference a (lies ?b))")
      ⟨c!" ", c!"(?b - ball)", c!" ", _, [], rfl, .space (by decide) .nil, ⟨solid_open _, rfl⟩, .space,
        ⟨rfl, _, solid_open _, rfl⟩, .nil⟩
      ⟨c!" ", c!"a", c!" ", c!"(lies ?b)", [], rfl, .space (by decide) .nil, hn, .space, ⟨rfl, _, solid_open _, rfl⟩, .nil⟩
    simp only [isTrue_iff (t := c!"(lies ?b)") (g := .atomic (.predicate (.str c!"lies") [.var (.str c!"b")])) ⟨solid_open _, rfl⟩] at this
    simpa [GD.Holds, AtomicFormula.Holds, Term.denote, Interp.set, Name.text, Ty.Has, wordName] using this
  · have := C120_constraint_each M os [s] e (t := countConstraint) (v := ⟨.str c!"b", .exactly (.str c!"ball")⟩)
      (n := wordName c!"a") (x := c!"(at end (lies ?b))") (y := c!"(preference a (at end (lies ?b)))")
      ⟨c!" ", c!"(?b - ball)", c!" ", _, [], rfl, .space (by decide) .nil, ⟨solid_open _, rfl⟩, .space,
        ⟨rfl, _, solid_open _, rfl⟩, .nil⟩
      ⟨c!" ", c!"a", c!" ", c!"(at end (lies ?b))", [], rfl, .space (by decide) .nil, hn, .space,
        ⟨rfl, _, solid_open _, rfl⟩, .nil⟩
    simp only [trueOn_iff (t := c!"(at end (lies ?b))") (c := .atEnd (.atomic (.predicate (.str c!"lies")
      [.var (.str c!"b")]))) ⟨solid_open _, rfl⟩] at this
    simpa [ConGD.On, GD.HoldsAt, GD.Holds, AtomicFormula.Holds, Term.denote, Interp.set, Interp.now, Name.text, Ty.Has,
      wordName] using this

end Pddl
