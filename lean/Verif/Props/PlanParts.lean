/-
C109: parts of files with the same meaning can be exchanged.

The plans of a domain and a problem stay the same if the text of a goal, precondition or effect is replaced by
another one that means the same, in particular by one with its parts in another order or repeated; if the facts, objects,
constants or types are put in another order or repeated; and if an action is repeated.
-/
import Verif.Props.PlanRename
import Verif.Props.Replace

namespace Pddl

/-- Preconditions that are true in the same states. -/
def SameCondition (xs ys : List PreGD) : Prop := ∀ (M : Interp) (e : M.Env), PreGD.AllHold M xs e ↔ PreGD.AllHold M ys e

/-- Effects that make the same changes. -/
def SameEffect (xs ys : List CEffect) : Prop :=
  ∀ (M : Interp) (c : Change M) (e : M.Env), CEffect.MakeSome M c xs e ↔ CEffect.MakeSome M c ys e

/-- Lists with the same members, in any order, any number of times. -/
def SameMembers {α : Type} (xs ys : List α) : Prop := ∀ x, x ∈ xs ↔ x ∈ ys

theorem PreGD.allHold_iff (M : Interp) (e : M.Env) (xs : List PreGD) :
    PreGD.AllHold M xs e ↔ ∀ x ∈ xs, x.Holds M e := by
  induction xs with
  | nil => simp [PreGD.AllHold]
  | cons x xs ih => simp [PreGD.AllHold, ih]

theorem CEffect.makeSome_iff (M : Interp) (c : Change M) (e : M.Env) (xs : List CEffect) :
    CEffect.MakeSome M c xs e ↔ ∃ x ∈ xs, CEffect.Makes M c x e := by
  induction xs with
  | nil => simp [CEffect.MakeSome]
  | cons x xs ih => simp [CEffect.MakeSome, ih]

theorem SameMembers.condition {xs ys : List PreGD} (h : SameMembers xs ys) : SameCondition xs ys := fun M e => by
  simp only [PreGD.allHold_iff, h _]

theorem SameMembers.effect {xs ys : List CEffect} (h : SameMembers xs ys) : SameEffect xs ys := fun M c e => by
  simp only [CEffect.makeSome_iff, h _]

/-- Actions that do the same. -/
structure SameAction (a b : ActionDef) : Prop where
  symbol : a.symbol.text = b.symbol.text
  parameters : a.parameters = b.parameters
  condition : SameCondition a.precondition b.precondition
  effect : SameEffect (a.effect.getD []) (b.effect.getD [])

theorem SameAction.refl (a : ActionDef) : SameAction a a := ⟨rfl, rfl, fun _ _ => Iff.rfl, fun _ _ _ => Iff.rfl⟩

/-- Every action has its like. -/
def ActsLike (xs ys : List StructureDef) : Prop := ∀ a, .action a ∈ xs → ∃ b, .action b ∈ ys ∧ SameAction a b

theorem PlanStep.Leads.mono {D D' : Domain} (h : ActsLike D.structure_ D'.structure_) {M : Interp} {t : PlanStep}
    {s s' : State M} : t.Leads D M s s' → t.Leads D' M s s' := by
  rintro ⟨a, ha, hs, e, hb⟩
  obtain ⟨b, hb', hab⟩ := h a ha
  refine ⟨b, hb', hab.symbol.symm.trans hs, e, ?_⟩
  rw [← hab.parameters]
  have key : ∀ (vs : TypedList Name) (os : List M.Obj) (e : M.Env) {p q : M.Env → Prop}, (∀ e, p e → q e) →
      Binds M vs os e p → Binds M vs os e q := by
    intro vs
    induction vs with
    | nil => intro os e p q hpq h; cases os with
      | nil => exact hpq _ h
      | cons => exact h
    | cons v vs ih => intro os e p q hpq h; cases os with
      | nil => exact h
      | cons o os => exact ⟨h.1, ih _ _ hpq h.2⟩
  refine key _ _ _ (fun e h => ⟨(hab.condition _ _).mp h.1, ?_⟩) hb
  have alt : Alters M s (a.effect.getD []) e = Alters M s (b.effect.getD []) e := by
    funext c
    cases c <;> exact propext (hab.effect _ _ _)
  rw [← alt]
  exact h.2

theorem Reach.mono {D D' : Domain} (h : ActsLike D.structure_ D'.structure_) {M : Interp} (ts : List PlanStep) :
    ∀ {s s' : State M}, Reach D M ts s s' → Reach D' M ts s s' := by
  induction ts with
  | nil => exact fun h => h
  | cons t ts ih => exact fun ⟨s₁, h1, h2⟩ => ⟨s₁, h1.mono h, ih h2⟩

/-- Domains and problems with the same plans. -/
structure Counterpart (D : Domain) (P : Problem) (D' : Domain) (P' : Problem) : Prop where
  objects : SameMembers (D.constants ++ P.objects) (D'.constants ++ P'.objects)
  types : SameMembers D.types D'.types
  timeless : SameMembers D.timeless D'.timeless
  init : SameMembers P.init P'.init
  actions : ActsLike D.structure_ D'.structure_
  goal : SameCondition P.goal P'.goal

theorem Counterpart.isOf {D D' : Domain} {P P' : Problem} (ho : SameMembers (D.constants ++ P.objects) (D'.constants ++ P'.objects))
    (ht : SameMembers D.types D'.types) {M : Interp} {n : List Char} {o : M.Obj} (h : IsOf D P M n o) : IsOf D' P' M n o := by
  induction h with
  | object hx => exact .object ((ho _).mp hx)
  | declared hx hn => exact .declared ((ho _).mp hx) hn
  | above h hn _ ih => exact .above ((ht _).mp h) hn ih

theorem Solves.alike {D D' : Domain} {P P' : Problem} {ts : List PlanStep} (hs : Solves D P ts) (h : Counterpart D P D' P') :
    Solves D' P' ts := by
  intro M hM s hi
  obtain ⟨s', h1, h2⟩ := hs M
    ⟨fun o => by
      obtain ⟨x, hx, hx'⟩ := hM.all o
      exact ⟨x, (h.objects x).mpr hx, hx'⟩,
     fun x hx y hy => hM.different x ((h.objects x).mp hx) y ((h.objects y).mp hy),
     fun n o => (hM.types n o).trans ⟨Counterpart.isOf (fun x => (h.objects x).symm) (fun x => (h.types x).symm),
      Counterpart.isOf h.objects h.types⟩⟩ s
    ⟨fun p os => by
      rw [hi.pred]
      simp only [h.timeless _, h.init _],
     fun f v hf => hi.value f v ((h.init _).mp hf), fun f o hf => hi.object f o ((h.init _).mp hf)⟩
  exact ⟨s', h1.mono h.actions, fun e => (h.goal _ _).mp (h2 e)⟩

theorem ActsLike.refl (xs : List StructureDef) : ActsLike xs xs := fun a h => ⟨a, h, .refl a⟩

theorem ActsLike.of_members {xs ys : List StructureDef} (h : ∀ x ∈ xs, x ∈ ys) : ActsLike xs ys :=
  fun a ha => ⟨a, h _ ha, .refl a⟩

theorem ActsLike.set {xs : List StructureDef} {i : Nat} {a b : ActionDef} (hi : xs[i]? = some (.action a))
    (h : SameAction a b) : ActsLike xs (xs.set i (.action b)) := by
  intro c hc
  obtain ⟨j, hj⟩ := List.mem_iff_getElem?.mp hc
  by_cases e : j = i
  · subst e
    rw [hi] at hj
    cases hj
    refine ⟨b, List.mem_iff_getElem?.mpr ⟨j, ?_⟩, h⟩
    rw [List.getElem?_set_self (List.getElem?_eq_some_iff.mp hi).1]
  · exact ⟨c, List.mem_iff_getElem?.mpr ⟨j, by rw [List.getElem?_set_ne (Ne.symm e), hj]⟩, .refl c⟩

theorem ActsLike.unset {xs : List StructureDef} {i : Nat} {a b : ActionDef} (hi : xs[i]? = some (.action a))
    (h : SameAction b a) : ActsLike (xs.set i (.action b)) xs := by
  intro c hc
  obtain ⟨j, hj⟩ := List.mem_iff_getElem?.mp hc
  by_cases e : j = i
  · subst e
    rw [List.getElem?_set_self (List.getElem?_eq_some_iff.mp hi).1] at hj
    cases hj
    exact ⟨a, List.mem_iff_getElem?.mpr ⟨j, hi⟩, h⟩
  · rw [List.getElem?_set_ne (Ne.symm e)] at hj
    exact ⟨c, List.mem_iff_getElem?.mpr ⟨j, hj⟩, .refl c⟩

/-- The plans with any problem. -/
def SamePlansD (D D' : Domain) : Prop := ∀ P ts, Solves D' P ts ↔ Solves D P ts

/-- The plans with any domain. -/
def SamePlansP (P P' : Problem) : Prop := ∀ D ts, Solves D P' ts ↔ Solves D P ts

theorem SameMembers.refl {α : Type} (xs : List α) : SameMembers xs xs := fun _ => Iff.rfl
theorem SameMembers.symm {α : Type} {xs ys : List α} (h : SameMembers xs ys) : SameMembers ys xs := fun x => (h x).symm
theorem SameMembers.append {α : Type} {xs ys xs' ys' : List α} (h : SameMembers xs ys) (h' : SameMembers xs' ys') :
    SameMembers (xs ++ xs') (ys ++ ys') := fun x => by simp [h x, h' x]
theorem SameCondition.refl (xs : List PreGD) : SameCondition xs xs := fun _ _ => Iff.rfl
theorem SameCondition.symm {xs ys : List PreGD} (h : SameCondition xs ys) : SameCondition ys xs := fun M e => (h M e).symm
theorem SameEffect.symm {xs ys : List CEffect} (h : SameEffect xs ys) : SameEffect ys xs := fun M c e => (h M c e).symm

/-! ## C109 -/

/-- C109. In every problem the goal has its place, and any goal that is true in the same states can be written there. -/
theorem C109_goal {s : List Char} {P : Problem} (h : fromStr parseProblem s = some P) :
    ∃ x a y, s = x ++ (a ++ y) ∧ parsePreGd a = .ok P.goal [] ∧ ∀ b v, parsePreGd b = .ok v [] → SameCondition P.goal v →
      ∃ P', fromStr parseProblem (x ++ (b ++ y)) = some P' ∧ SamePlansP P P' := by
  obtain ⟨r, h⟩ := fromStr_iff.mp h
  obtain ⟨x, a, y, e, h1, h2⟩ := C94_problem_goal s P r _ h rfl
  refine ⟨x, a, y, e, h1, fun b v hb hv => ⟨_, fromStr_iff.mpr ⟨r, h2 b v hb⟩, fun D ts => ⟨?_, ?_⟩⟩⟩
  · exact fun hs => hs.alike ⟨.refl _, .refl _, .refl _, .refl _, .refl _, hv.symm⟩
  · exact fun hs => hs.alike ⟨.refl _, .refl _, .refl _, .refl _, .refl _, hv⟩

/-- C109. The facts and values of the initial state can be written in any order, any number of times. -/
theorem C109_facts {s : List Char} {P : Problem} (h : fromStr parseProblem s = some P) :
    ∃ x a y, s = x ++ (a ++ y) ∧ parseProblemInitDef a = .ok P.init [] ∧ ∀ b v, parseProblemInitDef b = .ok v [] →
      SameMembers P.init v → ∃ P', fromStr parseProblem (x ++ (b ++ y)) = some P' ∧ SamePlansP P P' := by
  obtain ⟨r, h⟩ := fromStr_iff.mp h
  obtain ⟨x, a, y, e, h1, h2⟩ := C93_problem_sections.2.2.1.edit s P r h
  refine ⟨x, a, y, e, h1, fun b v hb hv => ⟨_, fromStr_iff.mpr ⟨r, h2 b v hb⟩, fun D ts => ⟨?_, ?_⟩⟩⟩
  · exact fun hs => hs.alike ⟨.refl _, .refl _, .refl _, hv.symm, .refl _, .refl _⟩
  · exact fun hs => hs.alike ⟨.refl _, .refl _, .refl _, hv, .refl _, .refl _⟩

/-- C109. The objects of a problem can be declared in any order, any number of times. -/
theorem C109_objects {s : List Char} {P : Problem} (h : fromStr parseProblem s = some P) :
    ∃ x a y, s = x ++ (a ++ y) ∧ (a = [] ∧ P.objects = [] ∨ parseProblemObjectsDeclaration a = .ok P.objects []) ∧
      ∀ b v, parseProblemObjectsDeclaration b = .ok v [] → SameMembers P.objects v →
        ∃ P', fromStr parseProblem (x ++ (' ' :: (b ++ y))) = some P' ∧ SamePlansP P P' := by
  obtain ⟨r, h⟩ := fromStr_iff.mp h
  obtain ⟨x, a, y, e, h1, h2, -⟩ := C93_problem_sections.2.1.edit s P r h
  refine ⟨x, a, y, e, h1.imp id fun ⟨v, hv, e⟩ => by rw [e]; exact hv,
    fun b v hb hv => ⟨_, fromStr_iff.mpr ⟨r, h2 b v hb⟩, fun D ts => ⟨?_, ?_⟩⟩⟩
  · exact fun hs => hs.alike ⟨(SameMembers.refl _).append hv.symm, .refl _, .refl _, .refl _, .refl _, .refl _⟩
  · exact fun hs => hs.alike ⟨(SameMembers.refl _).append hv, .refl _, .refl _, .refl _, .refl _, .refl _⟩

/-- C109. The constants and the types of a domain can be declared in any order, any number of times. -/
theorem C109_constants {s : List Char} {D : Domain} (h : fromStr parseDomain s = some D) :
    (∃ x a y, s = x ++ (a ++ y) ∧ (a = [] ∧ D.constants = [] ∨ parseConstantsDef a = .ok D.constants []) ∧
      ∀ b v, parseConstantsDef b = .ok v [] → SameMembers D.constants v →
        ∃ D', fromStr parseDomain (x ++ (' ' :: (b ++ y))) = some D' ∧ SamePlansD D D') ∧
    ∃ x a y, s = x ++ (a ++ y) ∧ (a = [] ∧ D.types = [] ∨ parseTypesDef a = .ok D.types []) ∧
      ∀ b v, parseTypesDef b = .ok v [] → SameMembers D.types v →
        ∃ D', fromStr parseDomain (x ++ (' ' :: (b ++ y))) = some D' ∧ SamePlansD D D' := by
  obtain ⟨r, h⟩ := fromStr_iff.mp h
  constructor
  · obtain ⟨x, a, y, e, h1, h2, -⟩ := C93_domain_sections.2.2.2.1.edit s D r h
    refine ⟨x, a, y, e, h1.imp id fun ⟨v, hv, e⟩ => by rw [e]; exact hv,
      fun b v hb hv => ⟨_, fromStr_iff.mpr ⟨r, h2 b v hb⟩, fun P ts => ⟨?_, ?_⟩⟩⟩
    · exact fun hs => hs.alike ⟨hv.symm.append (.refl _), .refl _, .refl _, .refl _, .refl _, .refl _⟩
    · exact fun hs => hs.alike ⟨hv.append (.refl _), .refl _, .refl _, .refl _, .refl _, .refl _⟩
  · obtain ⟨x, a, y, e, h1, h2, -⟩ := C93_domain_sections.2.2.1.edit s D r h
    refine ⟨x, a, y, e, h1.imp id fun ⟨v, hv, e⟩ => by rw [e]; exact hv,
      fun b v hb hv => ⟨_, fromStr_iff.mpr ⟨r, h2 b v hb⟩, fun P ts => ⟨?_, ?_⟩⟩⟩
    · exact fun hs => hs.alike ⟨.refl _, hv.symm, .refl _, .refl _, .refl _, .refl _⟩
    · exact fun hs => hs.alike ⟨.refl _, hv, .refl _, .refl _, .refl _, .refl _⟩

/-- C109. The precondition of every action of a domain has its place, if it has one, and any precondition that is true
in the same states can be written there. -/
theorem C109_precondition {s : List Char} {D : Domain} (h : fromStr parseDomain s = some D) {i : Nat} {a : ActionDef}
    (hi : D.structure_[i]? = some (.action a)) (ha : a.precondition ≠ []) :
    ∃ x t y, s = x ++ (t ++ y) ∧ parsePreGd t = .ok a.precondition [] ∧ ∀ b v, parsePreGd b = .ok v [] →
      SameCondition a.precondition v → ∃ D', fromStr parseDomain (x ++ (b ++ y)) = some D' ∧ SamePlansD D D' := by
  obtain ⟨r, h⟩ := fromStr_iff.mp h
  obtain ⟨x, t, y, e, h1, h2⟩ := (C94_structures i).comp C94_action_precondition s D r a.precondition h
    (by simp [hi, StructureDef.condition, ha])
  refine ⟨x, t, y, e, h1, fun b v hb hv => ⟨_, fromStr_iff.mpr ⟨r, h2 b v hb⟩, fun P ts => ?_⟩⟩
  simp only [through, hi, StructureDef.setCondition]
  constructor
  · exact fun hs => hs.alike ⟨.refl _, .refl _, .refl _, .refl _,
      .unset (b := { a with precondition := v }) hi ⟨rfl, rfl, hv.symm, fun _ _ _ => Iff.rfl⟩, .refl _⟩
  · exact fun hs => hs.alike ⟨.refl _, .refl _, .refl _, .refl _,
      .set (b := { a with precondition := v }) hi ⟨rfl, rfl, hv, fun _ _ _ => Iff.rfl⟩, .refl _⟩

/-- C109. The same for the effect of an action. -/
theorem C109_effect {s : List Char} {D : Domain} (h : fromStr parseDomain s = some D) {i : Nat} {a : ActionDef}
    (hi : D.structure_[i]? = some (.action a)) {es : List CEffect} (ha : a.effect = some es) :
    ∃ x t y, s = x ++ (t ++ y) ∧ parseEffect t = .ok es [] ∧ ∀ b v, parseEffect b = .ok v [] →
      SameEffect es v → ∃ D', fromStr parseDomain (x ++ (b ++ y)) = some D' ∧ SamePlansD D D' := by
  obtain ⟨r, h⟩ := fromStr_iff.mp h
  obtain ⟨x, t, y, e, h1, h2⟩ := (C94_structures i).comp C94_action_effect s D r es h
    (by simp [hi, StructureDef.effect, ha])
  refine ⟨x, t, y, e, h1, fun b v hb hv => ⟨_, fromStr_iff.mpr ⟨r, h2 b v hb⟩, fun P ts => ?_⟩⟩
  simp only [through, hi, StructureDef.setEffect]
  constructor
  · exact fun hs => hs.alike ⟨.refl _, .refl _, .refl _, .refl _,
      .unset (b := { a with effect := some v }) hi ⟨rfl, rfl, .refl _, by rw [ha]; exact hv.symm⟩, .refl _⟩
  · exact fun hs => hs.alike ⟨.refl _, .refl _, .refl _, .refl _,
      .set (b := { a with effect := some v }) hi ⟨rfl, rfl, .refl _, by rw [ha]; exact hv⟩, .refl _⟩

/-- C109. An action that is already there can be repeated anywhere among the actions. -/
theorem C109_repeat {s : List Char} {D : Domain} (h : fromStr parseDomain s = some D) {i : Nat}
    (hi : i ≤ D.structure_.length) : ∃ x y, s = x ++ y ∧ ∀ b a, parseStructureDef b = .ok (.action a) [] →
      .action a ∈ D.structure_ → ∃ D', fromStr parseDomain (x ++ (' ' :: (b ++ (' ' :: y)))) = some D' ∧ SamePlansD D D' := by
  obtain ⟨r, h⟩ := fromStr_iff.mp h
  obtain ⟨x, y, e, h1⟩ := C93_structures.add s D r h (Nat.zero_le _) i hi
  refine ⟨x, y, e, fun b a hb ha => ⟨_, fromStr_iff.mpr ⟨r, h1 b _ hb⟩, fun P ts => ?_⟩⟩
  constructor
  · refine fun hs => hs.alike ⟨.refl _, .refl _, .refl _, .refl _, .of_members fun x hx => ?_, .refl _⟩
    rcases (List.mem_insertIdx hi).mp hx with rfl | hx
    · exact ha
    · exact hx
  · exact fun hs => hs.alike ⟨.refl _, .refl _, .refl _, .refl _, .of_members fun x hx =>
      (List.mem_insertIdx hi).mpr (.inr hx), .refl _⟩

/-- C109. The conditions of a goal or of an action, and the effects of an action, can be written in any order, any number
of times. -/
theorem C109_order {s t : List Char} {D : Domain} {P : Problem} (hD : fromStr parseDomain s = some D)
    (hP : fromStr parseProblem t = some P) :
    (∃ x a y, t = x ++ (a ++ y) ∧ parsePreGd a = .ok P.goal [] ∧ ∀ b v, parsePreGd b = .ok v [] → SameMembers P.goal v →
      ∃ P', fromStr parseProblem (x ++ (b ++ y)) = some P' ∧ SamePlansP P P') ∧
    ∀ (i : Nat) (a : ActionDef), D.structure_[i]? = some (.action a) →
      (a.precondition ≠ [] → ∃ x u y, s = x ++ (u ++ y) ∧ parsePreGd u = .ok a.precondition [] ∧
        ∀ b v, parsePreGd b = .ok v [] → SameMembers a.precondition v →
          ∃ D', fromStr parseDomain (x ++ (b ++ y)) = some D' ∧ SamePlansD D D') ∧
      ∀ es, a.effect = some es → ∃ x u y, s = x ++ (u ++ y) ∧ parseEffect u = .ok es [] ∧
        ∀ b v, parseEffect b = .ok v [] → SameMembers es v →
          ∃ D', fromStr parseDomain (x ++ (b ++ y)) = some D' ∧ SamePlansD D D' := by
  refine ⟨?_, fun i a hi => ⟨fun ha => ?_, fun es ha => ?_⟩⟩
  · obtain ⟨x, a, y, h1, h2, h3⟩ := C109_goal hP
    exact ⟨x, a, y, h1, h2, fun b v hb hv => h3 b v hb hv.condition⟩
  · obtain ⟨x, u, y, h1, h2, h3⟩ := C109_precondition hD hi ha
    exact ⟨x, u, y, h1, h2, fun b v hb hv => h3 b v hb hv.condition⟩
  · obtain ⟨x, u, y, h1, h2, h3⟩ := C109_effect hD hi ha
    exact ⟨x, u, y, h1, h2, fun b v hb hv => h3 b v hb hv.effect⟩

/-! ## Examples -/

/-- The fact written twice. -/
example : ∃ x a y P', planProblem = x ++ (a ++ y) ∧ parseProblemInitDef a = .ok planP.init [] ∧
    fromStr parseProblem (x ++ (c!"(:init (lies red) (lies red))" ++ y)) = some P' ∧
    Solves planD P' [⟨c!"kick", [c!"red"]⟩] ∧ ¬ Solves planD P' [] := by
  obtain ⟨x, a, y, h1, h2, h3⟩ := C109_facts planP_read
  obtain ⟨P', h4, h5⟩ := h3 c!"(:init (lies red) (lies red))"
    [.literal (.pos (.predicate (.str c!"lies") [.str c!"red"])),
      .literal (.pos (.predicate (.str c!"lies") [.str c!"red"]))] rfl (fun f => by rw [planP_init]; simp)
  exact ⟨x, a, y, P', h1, h2, h4, (h5 _ _).mpr plan_solves, fun h => plan_nothing ((h5 _ _).mp h)⟩

/-- A double negation in the goal. -/
example : ∃ x a y P', planProblem = x ++ (a ++ y) ∧ parsePreGd a = .ok planP.goal [] ∧
    fromStr parseProblem (x ++ (c!"(not (not (not (lies red))))" ++ y)) = some P' ∧
    Solves planD P' [⟨c!"kick", [c!"red"]⟩] ∧ ¬ Solves planD P' [] := by
  obtain ⟨x, a, y, h1, h2, h3⟩ := C109_goal planP_read
  obtain ⟨P', h4, h5⟩ := h3 c!"(not (not (not (lies red))))" _ rfl (fun M e => by
    rw [planP_goal]
    exact and_congr_left fun _ => Classical.not_not.symm)
  exact ⟨x, a, y, P', h1, h2, h4, (h5 _ _).mpr plan_solves, fun h => plan_nothing ((h5 _ _).mp h)⟩

/-- The precondition and the effect of the action written twice. -/
example : (∃ x u y D', planDomain = x ++ (u ++ y) ∧ parsePreGd u = .ok planA.precondition [] ∧
      fromStr parseDomain (x ++ (c!"(and (lies ?b) (lies ?b))" ++ y)) = some D' ∧
      Solves D' planP [⟨c!"kick", [c!"red"]⟩] ∧ ¬ Solves D' planP []) ∧
    ∃ x u y D', planDomain = x ++ (u ++ y) ∧ parseEffect u = .ok (planA.effect.getD []) [] ∧
      fromStr parseDomain (x ++ (c!"(and (not (lies ?b)) (not (lies ?b)))" ++ y)) = some D' ∧
      Solves D' planP [⟨c!"kick", [c!"red"]⟩] ∧ ¬ Solves D' planP [] := by
  obtain ⟨h1, h2⟩ := (C109_order planD_read planP_read).2 0 planA (by rw [planD_actions]; rfl)
  obtain ⟨x, u, y, e, k1, k2⟩ := h1 (by simp [planA])
  obtain ⟨D', k3, k4⟩ := k2 c!"(and (lies ?b) (lies ?b))"
    [.preference (.goal (.atomic (.predicate (.str c!"lies") [.var (.str c!"b")]))),
      .preference (.goal (.atomic (.predicate (.str c!"lies") [.var (.str c!"b")])))] rfl (fun f => by simp [planA])
  obtain ⟨x', u', y', e', l1, l2⟩ := h2 _ rfl
  obtain ⟨D'', l3, l4⟩ := l2 c!"(and (not (lies ?b)) (not (lies ?b)))"
    [.effect (.notAtomic (.predicate (.str c!"lies") [.var (.str c!"b")])),
      .effect (.notAtomic (.predicate (.str c!"lies") [.var (.str c!"b")]))] rfl (fun f => by simp)
  exact ⟨⟨x, u, y, D', e, k1, k3, (k4 _ _).mpr plan_solves, fun h => plan_nothing ((k4 _ _).mp h)⟩,
    x', u', y', D'', e', l1, l3, (l4 _ _).mpr plan_solves, fun h => plan_nothing ((l4 _ _).mp h)⟩

set_option maxRecDepth 8000 in
/-- The object, the type and the action declared twice. -/
example : (∃ x a y P', planProblem = x ++ (a ++ y) ∧
      fromStr parseProblem (x ++ (' ' :: (c!"(:objects red red - ball)" ++ y))) = some P' ∧
      Solves planD P' [⟨c!"kick", [c!"red"]⟩] ∧ ¬ Solves planD P' []) ∧
    (∃ x a y D', planDomain = x ++ (a ++ y) ∧ fromStr parseDomain (x ++ (' ' :: (c!"(:types ball ball)" ++ y))) = some D' ∧
      Solves D' planP [⟨c!"kick", [c!"red"]⟩] ∧ ¬ Solves D' planP []) ∧
    ∃ x y D', planDomain = x ++ y ∧ fromStr parseDomain (x ++ (' ' ::
        (c!"(:action kick :parameters (?b - ball) :precondition (lies ?b) :effect (not (lies ?b)))" ++ (' ' :: y)))) = some D' ∧
      Solves D' planP [⟨c!"kick", [c!"red"]⟩] ∧ ¬ Solves D' planP [] := by
  have objs : planP.objects = [⟨.str c!"red", .exactly (.str c!"ball")⟩] := by
    have := planP_objects
    rwa [show planD.constants = [] from rfl, List.nil_append] at this
  obtain ⟨x, a, y, h1, -, h3⟩ := C109_objects planP_read
  obtain ⟨P', h4, h5⟩ := h3 c!"(:objects red red - ball)" [⟨.str c!"red", .exactly (.str c!"ball")⟩,
    ⟨.str c!"red", .exactly (.str c!"ball")⟩] rfl (fun f => by rw [objs]; simp)
  obtain ⟨x', a', y', k1, -, k3⟩ := (C109_constants planD_read).2
  obtain ⟨D', k4, k5⟩ := k3 c!"(:types ball ball)" [⟨.str c!"ball", .exactly (.static c!"object")⟩,
    ⟨.str c!"ball", .exactly (.static c!"object")⟩] rfl (fun f => by rw [planD_types]; simp)
  obtain ⟨x'', y'', l1, l2⟩ := C109_repeat planD_read (i := 1) (by rw [planD_actions]; exact Nat.le_refl 1)
  obtain ⟨D'', l3, l4⟩ := l2 c!"(:action kick :parameters (?b - ball) :precondition (lies ?b) :effect (not (lies ?b)))"
    planA rfl (by rw [planD_actions]; exact .head _)
  exact ⟨⟨x, a, y, P', h1, h4, (h5 _ _).mpr plan_solves, fun h => plan_nothing ((h5 _ _).mp h)⟩,
    ⟨x', a', y', D', k1, k4, (k5 _ _).mpr plan_solves, fun h => plan_nothing ((k5 _ _).mp h)⟩,
    x'', y'', D'', l1, l3, (l4 _ _).mpr plan_solves, fun h => plan_nothing ((l4 _ _).mp h)⟩

end Pddl
