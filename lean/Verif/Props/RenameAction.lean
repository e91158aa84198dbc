import Verif.Spec.Temporal
import Verif.Props.RenameTime
import Verif.Props.PlanRename

/-!
# C114: renaming keeps the meaning of durative actions and derived predicates
-/

namespace Pddl

section
variable {ρ σ : List Char → List Char} (h₁ : ∀ x, σ (ρ x) = x) (h₂ : ∀ x, ρ (σ x) = x) {M : Interp}

local notation "φ" => Name.rename ρ

theorem SimpleDuration.rename_allows (r : Course M) (e : M.Env) : (c : SimpleDuration) → ∀ ts,
    (c.mapNames φ).Allows M r e ts ↔ c.Allows (M.pull ρ) (r.pull ρ) (M.pullEnv ρ e) ts
  | .op o v => fun ts => by
    have hv : ∀ s : Snapshot M, (v.mapNames φ).denote (M.now s) e =
        v.denote ((M.pull ρ).now (s.pull ρ)) (M.pullEnv ρ e) := fun s => by
      cases v with
      | number n => rfl
      | fExp x => exact FExp.rename_denote (M.now s) ρ e x
    simp only [SimpleDuration.mapNames, SimpleDuration.Allows]
    cases ts <;> simp only [Course.state]
    · rw [hv r.start]; exact Iff.rfl
    · rw [hv r.finish]; exact Iff.rfl
  | .at ts c => fun _ => by
    simp only [SimpleDuration.mapNames, SimpleDuration.Allows]
    exact SimpleDuration.rename_allows r e c ts

theorem DurationConstraint.rename_allows (r : Course M) (e : M.Env) (c : DurationConstraint) :
    (c.mapNames φ).Allows M r e ↔ c.Allows (M.pull ρ) (r.pull ρ) (M.pullEnv ρ e) := by
  cases c with
  | single c => exact SimpleDuration.rename_allows r e c .start
  | all cs =>
    simp only [DurationConstraint.mapNames, DurationConstraint.Allows, List.forall_mem_map]
    exact forall_congr' fun c => imp_congr_right fun _ => SimpleDuration.rename_allows r e c .start

theorem Deed.rename_inj (hρ : ∀ x y, ρ x = ρ y → x = y) {d d' : Deed (M.pull ρ)} (h : d.rename ρ = d'.rename ρ) :
    d = d' := by
  cases d <;> cases d'
  · injection h with a b; cases a; cases Change.rename_inj hρ b; rfl
  · exact Deed.noConfusion rfl (heq_of_eq h)
  · exact Deed.noConfusion rfl (heq_of_eq h)
  · injection h with a b c d; cases a; cases hρ _ _ b; cases c; cases d; rfl

include h₂ in
theorem Deed.rename_surj (d : Deed M) : ∃ d' : Deed (M.pull ρ), d = d'.rename ρ := by
  cases d with
  | change ts c =>
    cases c with
    | add p os => exact ⟨.change ts (.add (σ p) os), by simp only [Deed.rename, Change.rename, h₂]⟩
    | delete p os => exact ⟨.change ts (.delete (σ p) os), by simp only [Deed.rename, Change.rename, h₂]⟩
    | equal a b => exact ⟨.change ts (.equal a b), rfl⟩
    | differ a b => exact ⟨.change ts (.differ a b), rfl⟩
    | object f os o => exact ⟨.change ts (.object (σ f) os o), by simp only [Deed.rename, Change.rename, h₂]⟩
    | number op f os n => exact ⟨.change ts (.number op (σ f) os n), by simp only [Deed.rename, Change.rename, h₂]⟩
  | flow op f os n => exact ⟨.flow op (σ f) os n, by simp only [Deed.rename, h₂]⟩

include h₁ h₂

theorem DaDef.Runs.rename (a : DaDef) (os : List M.Obj) (r : Course M) (C : Deed M → Prop) :
    (a.mapNames φ).Runs M os r C ↔ a.Runs (M.pull ρ) os (r.pull ρ) fun d => C (d.rename ρ) := by
  have hρ : ∀ x y, ρ x = ρ y → x = y := fun x y h => by rw [← h₁ x, h, h₁]
  have body (e : M.Env) :
      ((∀ d, (a.mapNames φ).duration = some d → d.Allows M r e) ∧
        (∀ c, (a.mapNames φ).condition = some c → DaGD.Met M r c e) ∧
        ∀ d, C d ↔ ∃ x, (a.mapNames φ).effect = some x ∧ DaEffect.Does M r d x e) ↔
      ((∀ d, a.duration = some d → d.Allows (M.pull ρ) (r.pull ρ) (M.pullEnv ρ e)) ∧
        (∀ c, a.condition = some c → DaGD.Met (M.pull ρ) (r.pull ρ) c (M.pullEnv ρ e)) ∧
        ∀ d, C (d.rename ρ) ↔ ∃ x, a.effect = some x ∧ DaEffect.Does (M.pull ρ) (r.pull ρ) d x (M.pullEnv ρ e)) := by
    obtain ⟨n, vs, d, c, x⟩ := a
    simp only [DaDef.mapNames]
    refine and_congr ?_ (and_congr ?_ ?_)
    · cases d with
      | none => simp
      | some d => simpa using DurationConstraint.rename_allows r e d
    · cases c with
      | none => simp
      | some c => simpa using DaGD.rename_met M hρ r c e
    · have key (d : Deed (M.pull ρ)) :
          (∃ y, x.map (DaEffect.mapNames φ) = some y ∧ DaEffect.Does M r (d.rename ρ) y e) ↔
            ∃ y, x = some y ∧ DaEffect.Does (M.pull ρ) (r.pull ρ) d y (M.pullEnv ρ e) := by
        cases x with
        | none => simp
        | some x =>
          simp only [Option.map_some, Option.some.injEq, exists_eq_left']
          rw [DaEffect.rename_does M hρ r (d.rename ρ) x e]
          exact ⟨fun ⟨d', h, k⟩ => Deed.rename_inj hρ h ▸ k, fun h => ⟨d, rfl, h⟩⟩
      constructor
      · exact fun h d => (h (d.rename ρ)).trans (key d)
      · intro h d
        obtain ⟨d', rfl⟩ := Deed.rename_surj h₂ d
        exact (h d').trans (key d').symm
  constructor
  · rintro ⟨e, h⟩
    exact ⟨M.pullEnv ρ e, (Binds.rename h₁ body a.parameters os e).mp h⟩
  · rintro ⟨e, h⟩
    obtain ⟨e', rfl⟩ := Interp.pullEnv_surj h₁ e
    exact ⟨e', (Binds.rename h₁ body a.parameters os e').mpr h⟩

omit h₂ in
theorem DerivedPredicate.Rule.rename (d : DerivedPredicate) : (d.mapNames φ).Rule M ↔ d.Rule (M.pull ρ) := by
  have hρ : ∀ x y, ρ x = ρ y → x = y := fun x y h => by rw [← h₁ x, h, h₁]
  have body (os : List M.Obj) (e : M.Env) := Binds.rename h₁ (M := M) (GD.rename_holds M hρ d.goal) d.predicate.variables os e
  have head : (d.mapNames φ).predicate.symbol.text = ρ d.predicate.symbol.text := Name.rename_text ρ _
  constructor
  · intro h os e k
    obtain ⟨e', rfl⟩ := Interp.pullEnv_surj h₁ e
    have := h os e' ((body os e').mpr k)
    rw [head] at this
    exact this
  · intro h os e k
    rw [head]
    exact h os _ ((body os e).mp k)

/-- C114, durative actions: after renaming, the action is carried out as before, and does the same, in the new
words. -/
theorem C114_durative_action (ho : ρ c!"object" = c!"object") {s s' r : List Char} {a : DaDef} (hs : Renames ρ s s')
    (ha : parseStructureDef s = .ok (.durative a) r) :
    ∃ a' r', parseStructureDef s' = .ok (.durative a') r' ∧ Renames ρ r r' ∧ a'.symbol.text = ρ a.symbol.text ∧
      ∀ (M : Interp) (os : List M.Obj) (k : Course M) (C : Deed M → Prop),
        a'.Runs M os k C ↔ a.Runs (M.pull ρ) os (k.pull ρ) fun d => C (d.rename ρ) := by
  obtain ⟨r', h1, h2⟩ := (parseStructureDef_equi ho).meaning hs ha
  exact ⟨_, r', h1, h2, Name.rename_text ρ _, fun M os k C => DaDef.Runs.rename h₁ h₂ a os k C⟩

omit h₂ in
/-- C114, derived predicates. -/
theorem C114_derived (ho : ρ c!"object" = c!"object") {s s' r : List Char} {d : DerivedPredicate} (hs : Renames ρ s s')
    (hd : parseStructureDef s = .ok (.derived d) r) :
    ∃ d' r', parseStructureDef s' = .ok (.derived d') r' ∧ Renames ρ r r' ∧
      ∀ M : Interp, d'.Rule M ↔ d.Rule (M.pull ρ) := by
  obtain ⟨r', h1, h2⟩ := (parseStructureDef_equi ho).meaning hs hd
  exact ⟨_, r', h1, h2, fun M => DerivedPredicate.Rule.rename h₁ d⟩

end

/-! ## Instances -/

/-- The function `f` is renamed in a durative action. -/
example : ∃ a a' r', parseStructureDef
      c!"(:durative-action go :parameters (?x) :duration (= ?duration (f ?x)) :condition () :effect (at end (p ?x)))"
        = .ok (.durative a) [] ∧
    parseStructureDef (renameText (renameOne c!"f" c!"z")
      c!"(:durative-action go :parameters (?x) :duration (= ?duration (f ?x)) :condition () :effect (at end (p ?x)))")
        = .ok (.durative a') r' ∧
    ∀ (M : Interp) (os : List M.Obj) (k : Course M) (C : Deed M → Prop), a'.Runs M os k C ↔
      a.Runs (M.pull (swapWord c!"f" c!"z")) os (k.pull (swapWord c!"f" c!"z"))
        fun d => C (d.rename (swapWord c!"f" c!"z")) := by
  obtain ⟨a, ha⟩ : ∃ a, parseStructureDef
      c!"(:durative-action go :parameters (?x) :duration (= ?duration (f ?x)) :condition () :effect (at end (p ?x)))"
        = .ok (.durative a) [] := ⟨_, rfl⟩
  obtain ⟨a', r', h1, -, -, h3⟩ := C114_durative_action (swapWord_twice c!"f" c!"z") (swapWord_twice c!"f" c!"z")
    (swapWord_object (by decide) (by decide))
    (renames_fresh (a := c!"f") (b := c!"z") (by decide) ⟨'z', [], rfl, by decide, by decide⟩ (by decide)
      (by decide +kernel) (by decide +kernel)) ha
  exact ⟨a, a', r', ha, h1, h3⟩

/-- The predicate `on` is renamed in the rule of a derived predicate. -/
example : ∃ d' r', parseStructureDef (renameText (renameOne c!"on" c!"upon") c!"(:derived (above ?x ?y) (on ?x ?y))")
      = .ok (.derived d') r' ∧ ∀ M : Interp, (∀ o, M.ofType c!"object" o) → d'.Rule M → ∀ a b,
        M.pred c!"upon" [a, b] → M.pred c!"above" [a, b] := by
  obtain ⟨d', r', h1, -, h3⟩ := C114_derived (swapWord_twice c!"on" c!"upon")
    (swapWord_object (by decide) (by decide))
    (renames_fresh (a := c!"on") (b := c!"upon") (s := c!"(:derived (above ?x ?y) (on ?x ?y))") (by decide)
      (isWord_of _ _ (by decide) (by decide)) (by decide) (by decide +kernel) (by decide +kernel))
    (d := ⟨⟨.str c!"above", [⟨.str c!"x", objectTy⟩, ⟨.str c!"y", objectTy⟩]⟩,
      .atomic (.predicate (.str c!"on") [.var (.str c!"x"), .var (.str c!"y")])⟩) (r := []) rfl
  exact ⟨d', r', h1, fun M ho h a b hab => (h3 M).mp h [a, b] (fun _ => a) ⟨ho a, ho b, hab⟩⟩

end Pddl
