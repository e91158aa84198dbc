/-
C108: renaming keeps the plans.

If the words of a domain and of a problem are consistently renamed, and their layout is changed, then the plans of
what is read are the plans of what was read before, with their words renamed.
-/
import Verif.Props.RenameMeaning
import Verif.Spec.Plan

namespace Pddl

/-- A step with its words renamed. -/
def PlanStep.rename (ρ : List Char → List Char) (t : PlanStep) : PlanStep := ⟨ρ t.action, t.arguments.map ρ⟩

/-- The state in which the old words mean what the new ones do. -/
def State.pull {M : Interp} (ρ : List Char → List Char) (s : State M) : State (M.pull ρ) where
  fn f := s.fn (ρ f)
  pred p := s.pred (ρ p)
  fluent f := s.fluent (ρ f)

/-- And back. -/
def State.push {M : Interp} {ρ : List Char → List Char} (σ : List Char → List Char) (s : State (M.pull ρ)) : State M where
  fn f := s.fn (σ f)
  pred p := s.pred (σ p)
  fluent f := s.fluent (σ f)

theorem State.pull_push {M : Interp} {ρ σ : List Char → List Char} (hσ : ∀ x, σ (ρ x) = x) (s : State (M.pull ρ)) :
    (s.push σ).pull ρ = s := by
  obtain ⟨f, p, n⟩ := s
  simp only [State.push, State.pull, hσ]

theorem State.pull_inj {M : Interp} {ρ σ : List Char → List Char} (hσ : ∀ x, ρ (σ x) = x) {s s' : State M}
    (h : s.pull ρ = s'.pull ρ) : s = s' := by
  have e1 : (s.pull ρ).fn = (s'.pull ρ).fn := by rw [h]
  have e2 : (s.pull ρ).pred = (s'.pull ρ).pred := by rw [h]
  have e3 : (s.pull ρ).fluent = (s'.pull ρ).fluent := by rw [h]
  have e (x) : s.fn x = s'.fn x := by rw [← hσ x]; exact congrFun e1 (σ x)
  have e' (x) : s.pred x = s'.pred x := by rw [← hσ x]; exact congrFun e2 (σ x)
  have e'' (x) : s.fluent x = s'.fluent x := by rw [← hσ x]; exact congrFun e3 (σ x)
  obtain ⟨f, p, n⟩ := s
  obtain ⟨f', p', n'⟩ := s'
  cases (show f = f' from funext e)
  cases (show p = p' from funext e')
  cases (show n = n' from funext e'')
  rfl

theorem Change.rename_inj {M : Interp} {ρ : List Char → List Char} (hρ : ∀ x y, ρ x = ρ y → x = y)
    {c c' : Change (M.pull ρ)} (h : c.rename ρ = c'.rename ρ) : c = c' := by
  cases c <;> cases c' <;> try (exact Change.noConfusion rfl (heq_of_eq h))
  · injection h with a b; cases hρ _ _ a; cases b; rfl
  · injection h with a b; cases hρ _ _ a; cases b; rfl
  · injection h with a b; cases a; cases b; rfl
  · injection h with a b; cases a; cases b; rfl
  · injection h with a b c; cases hρ _ _ a; cases b; cases c; rfl
  · injection h with a b c d; cases a; cases hρ _ _ b; cases c; cases d; rfl

theorem Interp.pullEnv_surj {M : Interp} {ρ σ : List Char → List Char} (hσ : ∀ x, σ (ρ x) = x) (e : (M.pull ρ).Env) :
    ∃ e', M.pullEnv ρ e' = e := by
  refine ⟨fun x => e (σ x), funext fun x => ?_⟩
  show e (σ (ρ x)) = e x
  rw [hσ]

section
variable {ρ σ : List Char → List Char} (h₁ : ∀ x, σ (ρ x) = x) (h₂ : ∀ x, ρ (σ x) = x) {M : Interp}

local notation "φ" => Name.rename ρ

theorem pull_names (ns : List Name) :
    (ns.map φ).map (fun n => M.const n.text) = ns.map fun n => (M.pull ρ).const n.text := by
  rw [List.map_map]
  exact List.map_congr_left fun n _ => by simp only [Function.comp, Name.rename_text]; rfl

include h₁ in
theorem Alters.rename (s : State M) (xs : List CEffect) (e : M.Env) (c : Change (M.pull ρ)) :
    Alters M s (xs.map (CEffect.mapNames φ)) e (c.rename ρ) ↔
      Alters (M.pull ρ) (s.pull ρ) xs (M.pullEnv ρ e) c := by
  have hρ : ∀ x y, ρ x = ρ y → x = y := fun x y h => by rw [← h₁ x, h, h₁]
  rw [← CEffect.mapNamesL_map]
  have key (c : Change (M.within s)) := CEffect.rename_some (M.within s) hρ c xs e
  have one (c : Change ((M.within s).pull ρ)) : CEffect.MakeSome (M.within s) (c.rename ρ) (CEffect.mapNamesL φ xs) e ↔
      CEffect.MakeSome ((M.within s).pull ρ) c xs ((M.within s).pullEnv ρ e) := by
    refine (key _).trans ⟨?_, fun h => ⟨_, rfl, h⟩⟩
    rintro ⟨c', h, h'⟩
    cases Change.rename_inj hρ h
    exact h'
  cases c with
  | add p os => exact one (.add p os)
  | delete p os => exact one (.delete p os)
  | equal a b => exact one (.equal a b)
  | differ a b => exact one (.differ a b)
  | object f os o => exact one (.object f os o)
  | number op f os n => exact one (.number op f os n)

include h₂ in
theorem State.Next.rename {C : Change M → Prop} {C' : Change (M.pull ρ) → Prop} (hC : ∀ c, C (c.rename ρ) ↔ C' c)
    (s s' : State M) : State.Next M C s s' ↔ State.Next (M.pull ρ) C' (s.pull ρ) (s'.pull ρ) := by
  have back {q : List Char → Prop} (h : ∀ x, q (ρ x)) (x) : q x := h₂ x ▸ h (σ x)
  constructor
  · rintro ⟨a, b, c, d, e⟩
    refine ⟨fun p os => ?_, fun f os o h => b _ _ _ ((hC (.object f os (some o))).mpr h), fun f os h => c _ _ fun o k => ?_,
      fun op f os n h => ?_, fun f os h => e _ _ fun op n k => ?_⟩
    · rw [← hC (.add p os), ← hC (.delete p os)]; exact a _ _
    · exact h o ((hC (.object f os o)).mp k)
    · exact (d _ _ _ _ ((hC (.number op f os n)).mpr h)).trans (by cases op <;> rfl)
    · exact h op n ((hC (.number op f os n)).mp k)
  · rintro ⟨a, b, c, d, e⟩
    refine ⟨back fun p os => ?_, back fun f os o h => b f os o ((hC (.object f os (some o))).mp h),
      back fun f os h => c f os fun o k => h o ((hC (.object f os o)).mpr k),
      fun op => back fun f os n h => ?_, back fun f os h => e f os fun op n k => h op n ((hC (.number op f os n)).mpr k)⟩
    · have := a p os
      rw [← hC (.add p os), ← hC (.delete p os)] at this
      exact this
    · exact (d op f os n ((hC (.number op f os n)).mp h)).trans (by cases op <;> rfl)

include h₁ in
theorem Binds.rename {p : M.Env → Prop} {q : (M.pull ρ).Env → Prop} (h : ∀ e, p e ↔ q (M.pullEnv ρ e)) :
    ∀ (vs : TypedList Name) (os : List M.Obj) (e : M.Env),
      Binds M (varsMapNames φ vs) os e p ↔ Binds (M.pull ρ) vs os (M.pullEnv ρ e) q
  | [], [], e => h e
  | [], _ :: _, _ => Iff.rfl
  | _ :: _, [], _ => Iff.rfl
  | v :: vs, o :: os, e => by
    have hρ : ∀ x y, ρ x = ρ y → x = y := fun x y h => by rw [← h₁ x, h, h₁]
    show (v.ty.mapNames φ).Has M o ∧ Binds M (varsMapNames φ vs) os (M.set e (v.value.rename ρ).text o) p ↔ _
    rw [Ty.rename_has, Binds.rename h vs os, Name.rename_text, pull_set M ρ hρ]
    exact Iff.rfl

include h₁ h₂

theorem PlanStep.Leads.rename (D : Domain) (t : PlanStep) (s s' : State M) :
    (t.rename ρ).Leads (D.mapNames φ) M s s' ↔ t.Leads D (M.pull ρ) (s.pull ρ) (s'.pull ρ) := by
  have hρ : ∀ x y, ρ x = ρ y → x = y := fun x y h => by rw [← h₁ x, h, h₁]
  have body (a : ActionDef) (e : M.Env) :
      (PreGD.AllHold (M.within s) (a.mapNames φ).precondition e ∧
        State.Next M (Alters M s ((a.mapNames φ).effect.getD []) e) s s') ↔
      (PreGD.AllHold ((M.pull ρ).within (s.pull ρ)) a.precondition (M.pullEnv ρ e) ∧
        State.Next (M.pull ρ) (Alters (M.pull ρ) (s.pull ρ) (a.effect.getD []) (M.pullEnv ρ e)) (s.pull ρ) (s'.pull ρ)) := by
    refine and_congr ?_ (State.Next.rename h₂ (fun c => ?_) s s')
    · show PreGD.AllHold (M.within s) (a.precondition.map (PreGD.mapNames φ)) e ↔ _
      rw [← PreGD.mapNamesL_map]
      exact PreGD.rename_all (M.within s) hρ a.precondition e
    · have : (a.mapNames φ).effect.getD [] = (a.effect.getD []).map (CEffect.mapNames φ) := by
        unfold ActionDef.mapNames
        cases a.effect <;> rfl
      rw [this]
      exact Alters.rename h₁ s _ e c
  have args : (t.rename ρ).arguments.map M.const = t.arguments.map (M.pull ρ).const := by
    show (t.arguments.map ρ).map M.const = _
    rw [List.map_map]
    rfl
  unfold PlanStep.Leads
  rw [args]
  constructor
  · rintro ⟨a', ha, hs, e, h⟩
    obtain ⟨x, hx, hx'⟩ := List.mem_map.mp (show StructureDef.action a' ∈ D.structure_.map (StructureDef.mapNames φ) from ha)
    cases x with
    | durative _ => cases hx'
    | derived _ => cases hx'
    | action a =>
      cases hx'
      refine ⟨a, hx, hρ _ _ ?_, M.pullEnv ρ e, (Binds.rename h₁ (body a) a.parameters _ e).mp h⟩
      have : (a.symbol.rename ρ).text = ρ t.action := hs
      rwa [Name.rename_text] at this
  · rintro ⟨a, ha, hs, e, h⟩
    obtain ⟨e', rfl⟩ := Interp.pullEnv_surj h₁ e
    refine ⟨a.mapNames φ, List.mem_map.mpr ⟨_, ha, rfl⟩, ?_, e', (Binds.rename h₁ (body a) a.parameters _ e').mpr h⟩
    show (a.symbol.rename ρ).text = ρ t.action
    rw [Name.rename_text, hs]

theorem Reach.rename (D : Domain) (ts : List PlanStep) : ∀ s s' : State M,
    Reach (D.mapNames φ) M (ts.map (PlanStep.rename ρ)) s s' ↔ Reach D (M.pull ρ) ts (s.pull ρ) (s'.pull ρ) := by
  induction ts with
  | nil => exact fun s s' => ⟨fun h => congrArg _ h, State.pull_inj h₂⟩
  | cons t ts ih =>
    intro s s'
    constructor
    · rintro ⟨s₁, h, h'⟩
      exact ⟨s₁.pull ρ, (PlanStep.Leads.rename h₁ h₂ D t s s₁).mp h, (ih _ _).mp h'⟩
    · rintro ⟨s₁, h, h'⟩
      rw [← State.pull_push h₁ s₁] at h h'
      exact ⟨s₁.push σ, (PlanStep.Leads.rename h₁ h₂ D t s _).mpr h, (ih _ _).mpr h'⟩

omit h₁ h₂ in
theorem mem_renamed {D : Domain} {P : Problem} {x : Typed Name} :
    x ∈ (D.mapNames φ).constants ++ (P.mapNames φ).objects ↔
      ∃ y ∈ D.constants ++ P.objects, Typed.mapNames φ φ y = x := by
  show x ∈ D.constants.map _ ++ P.objects.map _ ↔ _
  rw [← List.map_append, List.mem_map]

omit h₁ h₂ in
theorem Ty.names_rename (t : Ty) : (t.mapNames φ).names = t.names.map φ := by cases t <;> rfl

omit h₂ in
theorem IsOf.rename (ho : ρ c!"object" = c!"object") (D : Domain) (P : Problem) (n : List Char) (o : M.Obj) :
    IsOf (D.mapNames φ) (P.mapNames φ) M (ρ n) o ↔ IsOf D P (M.pull ρ) n o := by
  have hρ : ∀ x y, ρ x = ρ y → x = y := fun x y h => by rw [← h₁ x, h, h₁]
  constructor
  · have key : ∀ m, IsOf (D.mapNames φ) (P.mapNames φ) M m o → ∀ n, m = ρ n → IsOf D P (M.pull ρ) n o := by
      intro m h
      induction h with
      | @object x hx =>
        intro n hn
        obtain ⟨y, hy, rfl⟩ := mem_renamed.mp hx
        have : n = c!"object" := hρ _ _ (hn.symm.trans ho.symm)
        subst this
        have := IsOf.object (M := M.pull ρ) hy
        show IsOf D P (M.pull ρ) _ (M.const (y.value.rename ρ).text)
        rw [Name.rename_text]
        exact this
      | @declared x k hx hk =>
        intro n hn
        obtain ⟨y, hy, rfl⟩ := mem_renamed.mp hx
        have hk' : k ∈ (y.ty.mapNames φ).names := hk
        rw [Ty.names_rename, List.mem_map] at hk'
        obtain ⟨k, hk', rfl⟩ := hk'
        rw [Name.rename_text] at hn
        cases hρ _ _ hn
        have := IsOf.declared (M := M.pull ρ) hy hk'
        show IsOf D P (M.pull ρ) _ (M.const (y.value.rename ρ).text)
        rw [Name.rename_text]
        exact this
      | @above t k o ht hk _ ih =>
        intro n hn
        obtain ⟨t', ht', rfl⟩ := List.mem_map.mp (show t ∈ D.types.map (Typed.mapNames φ φ) from ht)
        have hk' : k ∈ (t'.ty.mapNames φ).names := hk
        rw [Ty.names_rename, List.mem_map] at hk'
        obtain ⟨k, hk', rfl⟩ := hk'
        rw [Name.rename_text] at hn
        cases hρ _ _ hn
        exact .above ht' hk' (ih _ (Name.rename_text ρ _))
    exact fun h => key _ h n rfl
  · have key : ∀ n (o : (M.pull ρ).Obj), IsOf D P (M.pull ρ) n o → IsOf (D.mapNames φ) (P.mapNames φ) M (ρ n) o := by
      intro n o h
      induction h with
      | object hx =>
        have := IsOf.object (M := M) (mem_renamed (ρ := ρ).mpr ⟨_, hx, rfl⟩)
        simp only [Typed.mapNames, Name.rename_text] at this
        rw [ho]
        exact this
      | declared hx hn =>
        have := IsOf.declared (M := M) (mem_renamed (ρ := ρ).mpr ⟨_, hx, rfl⟩)
          (by rw [Typed.mapNames, Ty.names_rename]; exact List.mem_map_of_mem hn)
        simp only [Typed.mapNames, Name.rename_text] at this
        exact this
      | @above t n o ht hn _ ih =>
        have := IsOf.above (D := D.mapNames φ) (P := P.mapNames φ) (M := M) (t := Typed.mapNames φ φ t) (n := φ n) (o := o)
          (List.mem_map_of_mem ht) (by rw [Typed.mapNames, Ty.names_rename]; exact List.mem_map_of_mem hn)
          (by rw [Typed.mapNames, Name.rename_text]; exact ih)
        rw [Name.rename_text] at this
        exact this
    exact key n o

theorem Interp.Fits.rename (ho : ρ c!"object" = c!"object") (D : Domain) (P : Problem) :
    M.Fits (D.mapNames φ) (P.mapNames φ) ↔ (M.pull ρ).Fits D P := by
  have hρ : ∀ x y, ρ x = ρ y → x = y := fun x y h => by rw [← h₁ x, h, h₁]
  have hc (y : Typed Name) : M.const (Typed.mapNames φ φ y).value.text = (M.pull ρ).const y.value.text := by
    simp only [Typed.mapNames, Name.rename_text]; rfl
  constructor
  · rintro ⟨a, b, c⟩
    refine ⟨fun o => ?_, fun x hx y hy h => ?_, fun n o => (c (ρ n) o).trans (IsOf.rename (M := M) h₁ ho D P n o)⟩
    · obtain ⟨x, hx, hx'⟩ := a o
      obtain ⟨y, hy, rfl⟩ := mem_renamed.mp hx
      exact ⟨y, hy, hx'.trans (hc y)⟩
    · have := b _ (mem_renamed.mpr ⟨x, hx, rfl⟩) _ (mem_renamed.mpr ⟨y, hy, rfl⟩) (by rw [hc, hc]; exact h)
      simp only [Typed.mapNames, Name.rename_text] at this
      exact hρ _ _ this
  · rintro ⟨a, b, c⟩
    refine ⟨fun o => ?_, fun x hx y hy h => ?_, fun n o => ?_⟩
    · obtain ⟨x, hx, hx'⟩ := a o
      exact ⟨_, mem_renamed.mpr ⟨x, hx, rfl⟩, hx'.trans (hc x).symm⟩
    · obtain ⟨x, hx', rfl⟩ := mem_renamed.mp hx
      obtain ⟨y, hy', rfl⟩ := mem_renamed.mp hy
      rw [hc, hc] at h
      simp only [Typed.mapNames, Name.rename_text, b x hx' y hy' h]
    · have := (c (σ n) o).trans (IsOf.rename (M := M) h₁ ho D P (σ n) o).symm
      rw [h₂] at this
      rw [← this]
      show M.ofType n o ↔ M.ofType (ρ (σ n)) o
      rw [h₂]

omit h₁ h₂ in
theorem literal_renamed {l : Literal Name} {q : Name} {ns : List Name} :
    l.mapNames φ φ = .pos (.predicate q ns) ↔ ∃ q' ns', l = .pos (.predicate q' ns') ∧ q = φ q' ∧ ns = ns'.map φ := by
  rcases l with (⟨_, _⟩ | ⟨p, vs⟩) | a <;>
    simp only [Literal.mapNames, AtomicFormula.mapNames, Literal.pos.injEq, AtomicFormula.predicate.injEq, reduceCtorEq,
      false_and, exists_false]
  constructor
  · rintro ⟨rfl, rfl⟩; exact ⟨p, vs, ⟨rfl, rfl⟩, rfl, rfl⟩
  · rintro ⟨_, _, ⟨rfl, rfl⟩, rfl, rfl⟩; exact ⟨rfl, rfl⟩

omit h₁ h₂ in
theorem facts_renamed {D : Domain} {P : Problem} {q : Name} {ns : List Name} :
    (.pos (.predicate q ns) ∈ (D.mapNames φ).timeless ∨ .literal (.pos (.predicate q ns)) ∈ (P.mapNames φ).init) ↔
    ∃ q' ns', q = φ q' ∧ ns = ns'.map φ ∧
      (.pos (.predicate q' ns') ∈ D.timeless ∨ .literal (.pos (.predicate q' ns')) ∈ P.init) := by
  have e1 : (D.mapNames φ).timeless = D.timeless.map (Literal.mapNames φ φ) := rfl
  have e2 : (P.mapNames φ).init = P.init.map (InitElement.mapNames φ) := rfl
  rw [e1, e2, List.mem_map, List.mem_map]
  constructor
  · rintro (⟨l, hl, h⟩ | ⟨x, hx, h⟩)
    · obtain ⟨q', ns', rfl, h1, h2⟩ := literal_renamed.mp h
      exact ⟨q', ns', h1, h2, .inl hl⟩
    · cases x <;> simp only [InitElement.mapNames, InitElement.literal.injEq, reduceCtorEq] at h
      obtain ⟨q', ns', rfl, h1, h2⟩ := literal_renamed.mp h
      exact ⟨q', ns', h1, h2, .inr hx⟩
  · rintro ⟨q', ns', rfl, rfl, h | h⟩
    · exact .inl ⟨_, h, rfl⟩
    · exact .inr ⟨_, h, rfl⟩

theorem State.Initial.rename (D : Domain) (P : Problem) (s : State M) :
    State.Initial (D.mapNames φ) (P.mapNames φ) M s ↔ State.Initial D P (M.pull ρ) (s.pull ρ) := by
  have hρ : ∀ x y, ρ x = ρ y → x = y := fun x y h => by rw [← h₁ x, h, h₁]
  have hn (ns : List Name) := pull_names (ρ := ρ) (M := M) ns
  have facts (p : List Char) (os : List M.Obj) :
      (∃ (q : Name) (ns : List Name), ρ p = q.text ∧ os = ns.map (fun n => M.const n.text) ∧
        (.pos (.predicate q ns) ∈ (D.mapNames φ).timeless ∨ .literal (.pos (.predicate q ns)) ∈ (P.mapNames φ).init)) ↔
      ∃ (q : Name) (ns : List Name), p = q.text ∧ os = ns.map (fun n => (M.pull ρ).const n.text) ∧
        (.pos (.predicate q ns) ∈ D.timeless ∨ .literal (.pos (.predicate q ns)) ∈ P.init) := by
    constructor
    · rintro ⟨_, _, h1, h2, h3⟩
      obtain ⟨q, ns, rfl, rfl, h⟩ := facts_renamed.mp h3
      rw [Name.rename_text] at h1
      rw [hn] at h2
      exact ⟨q, ns, hρ _ _ h1, h2, h⟩
    · rintro ⟨q, ns, h1, h2, h⟩
      refine ⟨φ q, ns.map φ, by rw [Name.rename_text, h1], by rw [hn]; exact h2, facts_renamed.mpr ⟨q, ns, rfl, rfl, h⟩⟩
  constructor
  · rintro ⟨a, b, c⟩
    refine ⟨fun p os => (a (ρ p) os).trans (facts p os), fun f v h => ?_, fun f o h => ?_⟩
    · have := b (f.mapNames φ) v (List.mem_map.mpr ⟨_, h, rfl⟩)
      simp only [BasicFunctionTerm.mapNames, Name.rename_text, hn] at this
      exact this
    · have := c (f.mapNames φ) (φ o) (List.mem_map.mpr ⟨_, h, rfl⟩)
      simp only [BasicFunctionTerm.mapNames, Name.rename_text, hn] at this
      exact this
  · rintro ⟨a, b, c⟩
    refine ⟨fun p os => ?_, fun f v h => ?_, fun f o h => ?_⟩
    · have := (a (σ p) os).trans (facts (σ p) os).symm
      rw [h₂] at this
      rw [← this]
      show s.pred p os ↔ s.pred (ρ (σ p)) os
      rw [h₂]
    · obtain ⟨x, hx, hx'⟩ := List.mem_map.mp (show InitElement.isValue f v ∈ P.init.map (InitElement.mapNames φ) from h)
      cases x <;> simp only [InitElement.mapNames, InitElement.isValue.injEq, reduceCtorEq] at hx'
      obtain ⟨rfl, rfl⟩ := hx'
      simp only [BasicFunctionTerm.mapNames, Name.rename_text, hn]
      exact b _ _ hx
    · obtain ⟨x, hx, hx'⟩ := List.mem_map.mp (show InitElement.isObject f o ∈ P.init.map (InitElement.mapNames φ) from h)
      cases x <;> simp only [InitElement.mapNames, InitElement.isObject.injEq, reduceCtorEq] at hx'
      obtain ⟨rfl, rfl⟩ := hx'
      simp only [BasicFunctionTerm.mapNames, Name.rename_text, hn]
      exact c _ _ hx

theorem SolvesIn.rename (ho : ρ c!"object" = c!"object") (D : Domain) (P : Problem) (ts : List PlanStep) (M : Interp) :
    SolvesIn (D.mapNames φ) (P.mapNames φ) (ts.map (PlanStep.rename ρ)) M ↔ SolvesIn D P ts (M.pull ρ) := by
  have hρ : ∀ x y, ρ x = ρ y → x = y := fun x y h => by rw [← h₁ x, h, h₁]
  have goal (s : State M) : (∀ e : M.Env, PreGD.AllHold (M.within s) (P.mapNames φ).goal e) ↔
      ∀ e : (M.pull ρ).Env, PreGD.AllHold ((M.pull ρ).within (s.pull ρ)) P.goal e := by
    have key (e : M.Env) : PreGD.AllHold (M.within s) (P.mapNames φ).goal e ↔
        PreGD.AllHold ((M.pull ρ).within (s.pull ρ)) P.goal (M.pullEnv ρ e) := by
      show PreGD.AllHold (M.within s) (P.goal.map (PreGD.mapNames φ)) e ↔ _
      rw [← PreGD.mapNamesL_map]
      exact PreGD.rename_all (M.within s) hρ P.goal e
    constructor
    · intro h e
      obtain ⟨e', rfl⟩ := Interp.pullEnv_surj h₁ e
      exact (key e').mp (h e')
    · exact fun h e => (key e).mpr (h _)
  unfold SolvesIn
  rw [Interp.Fits.rename h₁ h₂ ho]
  refine imp_congr Iff.rfl ?_
  constructor
  · intro h s hs
    rw [← State.pull_push h₁ s] at hs
    obtain ⟨s', h1, h2⟩ := h (s.push σ) ((State.Initial.rename h₁ h₂ D P _).mpr hs)
    have h1 := (Reach.rename h₁ h₂ D ts _ _).mp h1
    rw [State.pull_push h₁ s] at h1
    exact ⟨s'.pull ρ, h1, (goal s').mp h2⟩
  · intro h s hs
    obtain ⟨s', h1, h2⟩ := h (s.pull ρ) ((State.Initial.rename h₁ h₂ D P _).mp hs)
    rw [← State.pull_push h₁ s'] at h1 h2
    exact ⟨s'.push σ, (Reach.rename h₁ h₂ D ts _ _).mpr h1, (goal _).mpr h2⟩

theorem Solves.rename (ho : ρ c!"object" = c!"object") (D : Domain) (P : Problem) (ts : List PlanStep) :
    Solves (D.mapNames φ) (P.mapNames φ) (ts.map (PlanStep.rename ρ)) ↔ Solves D P ts := by
  constructor
  · intro h M
    have hM : (M.pull σ).pull ρ = M := by simp only [Interp.pull, h₁]
    have := (SolvesIn.rename h₁ h₂ ho D P ts (M.pull σ)).mp (h _)
    rwa [hM] at this
  · exact fun h M => (SolvesIn.rename h₁ h₂ ho D P ts M).mpr (h _)

end

/-! ## C108 -/

/-- C108. The plans of renamed files are the renamed plans. -/
theorem C108_rename {ρ σ : List Char → List Char} (h₁ : ∀ x, σ (ρ x) = x) (h₂ : ∀ x, ρ (σ x) = x)
    (ho : ρ c!"object" = c!"object") (hn : ρ c!"number" = c!"number") {s s' t t' : List Char} (hs : Renames ρ s s')
    (ht : Renames ρ t t') {D : Domain} {P : Problem} (hD : fromStr parseDomain s = some D)
    (hP : fromStr parseProblem t = some P) :
    ∃ D' P', fromStr parseDomain s' = some D' ∧ fromStr parseProblem t' = some P' ∧
      ∀ ts, Solves D' P' (ts.map (PlanStep.rename ρ)) ↔ Solves D P ts :=
  ⟨_, _, by rw [C87_domain ho hn hs, hD]; rfl, by rw [C87_problem ho ht, hP]; rfl, fun ts => Solves.rename h₁ h₂ ho D P ts⟩

theorem swapWord_twice (a b x : List Char) : swapWord a b (swapWord a b x) = x := by
  unfold swapWord
  by_cases h1 : x = a <;> by_cases h2 : x = b <;> by_cases h3 : b = a <;> simp_all

theorem Solves.one_word {a b : List Char} (ha : Unreserved a) (hb' : Unreserved b) :
    (∀ {w}, w ∈ reserved → swapWord a b w = w) := fun {w} h => by
  unfold swapWord
  split
  · rename_i e
    exact absurd (List.prefix_refl _) (e ▸ ha w h)
  · split
    · rename_i e
      exact absurd (List.prefix_refl _) (e ▸ hb' w h)
    · rfl

/-- C108. One word is replaced by one that does not occur, in the domain and in the problem: the plans are the same,
with the new word for the old one. -/
theorem C108_one_word {a b : List Char} (ha : Unreserved a) (hb : IsWord b) (hb' : Unreserved b) {s t : List Char}
    (hs : ∀ x ∈ pieces s, x.Whole a) (hs' : ∀ x ∈ pieces s, x.Without b)
    (ht : ∀ x ∈ pieces t, x.Whole a) (ht' : ∀ x ∈ pieces t, x.Without b) {D : Domain} {P : Problem}
    (hD : fromStr parseDomain s = some D) (hP : fromStr parseProblem t = some P) :
    ∃ D' P', fromStr parseDomain (renameText (renameOne a b) s) = some D' ∧
      fromStr parseProblem (renameText (renameOne a b) t) = some P' ∧
      ∀ ts, Solves D' P' (ts.map (PlanStep.rename (swapWord a b))) ↔ Solves D P ts :=
  C108_rename (swapWord_twice a b) (swapWord_twice a b) (Solves.one_word ha hb' (by decide))
    (Solves.one_word ha hb' (by decide)) (renames_fresh ha hb hb' hs hs') (renames_fresh ha hb hb' ht ht') hD hP

/-- C108. Files of the same shape, that is, with the same text but for layout and comments, have the same plans. -/
theorem C108_layout {s s' t t' : List Char} (hs : Renames id s s') (ht : Renames id t t') {D : Domain} {P : Problem}
    (hD : fromStr parseDomain s = some D) (hP : fromStr parseProblem t = some P) :
    ∃ D' P', fromStr parseDomain s' = some D' ∧ fromStr parseProblem t' = some P' ∧
      ∀ ts, Solves D' P' ts ↔ Solves D P ts := by
  obtain ⟨D', P', h1, h2, h3⟩ := C108_rename (σ := id) (fun _ => rfl) (fun _ => rfl) rfl rfl hs ht hD hP
  refine ⟨D', P', h1, h2, fun ts => ?_⟩
  have e : ts.map (PlanStep.rename fun x => x) = ts := by
    conv => rhs; rw [← List.map_id ts]
    exact List.map_congr_left fun t _ => by simp [PlanStep.rename]
  have := h3 ts
  rwa [e] at this

/-! ## Example -/

/-- A domain with one action. -/
def planDomain : List Char :=
  c!"(define (domain d) (:types ball) (:predicates (lies ?b - ball))
 (:action kick :parameters (?b - ball) :precondition (lies ?b) :effect (not (lies ?b))))"

/-- A problem with one ball. -/
def planProblem : List Char :=
  c!"(define (problem p) (:domain d) (:objects red - ball) (:init (lies red)) (:goal (not (lies red))))"

/-- What is read of the domain. -/
def planD : Domain := ((fromStr parseDomain planDomain).getD (Domain.builder (.str []) []))
/-- What is read of the problem. -/
def planP : Problem := ((fromStr parseProblem planProblem).getD (Problem.builder (.str []) (.str []) [] []))

set_option maxRecDepth 8000 in
theorem planD_read : fromStr parseDomain planDomain = some planD := rfl
set_option maxRecDepth 8000 in
theorem planP_read : fromStr parseProblem planProblem = some planP := rfl

/-- The one action. -/
def planA : ActionDef := ⟨.str c!"kick", [⟨.str c!"b", .exactly (.str c!"ball")⟩],
  [.preference (.goal (.atomic (.predicate (.str c!"lies") [.var (.str c!"b")])))],
  some [.effect (.notAtomic (.predicate (.str c!"lies") [.var (.str c!"b")]))]⟩

set_option maxRecDepth 8000 in
theorem planD_actions : planD.structure_ = [.action planA] := rfl
set_option maxRecDepth 8000 in
theorem planP_objects : planD.constants ++ planP.objects = [⟨.str c!"red", .exactly (.str c!"ball")⟩] := rfl
set_option maxRecDepth 8000 in
theorem planP_init : planP.init = [.literal (.pos (.predicate (.str c!"lies") [.str c!"red"]))] := rfl
set_option maxRecDepth 8000 in
theorem planP_goal : planP.goal =
    [.preference (.goal (.not (.atomic (.predicate (.str c!"lies") [.name (.str c!"red")]))))] := rfl
set_option maxRecDepth 8000 in
theorem planD_types : planD.types = [⟨.str c!"ball", .exactly (.static c!"object")⟩] := rfl
set_option maxRecDepth 8000 in
theorem planD_timeless : planD.timeless = [] := rfl

/-- Kicking the ball is a plan. -/
theorem plan_solves : Solves planD planP [⟨c!"kick", [c!"red"]⟩] := by
  intro M hM s hs
  let s' : State M := { s with pred := fun p os => s.pred p os ∧ ¬ (p = c!"lies" ∧ os = [M.const c!"red"]) }
  have hp : s.pred c!"lies" [M.const c!"red"] :=
    (hs.pred _ _).mpr ⟨.str c!"lies", [.str c!"red"], rfl, rfl, .inr (by rw [planP_init]; exact .head _)⟩
  refine ⟨s', ⟨s', ⟨planA, by rw [planD_actions]; exact .head _, rfl, fun _ => M.const c!"red", ?_, ⟨hp, trivial⟩, ?_⟩, rfl⟩,
    fun e => ?_⟩
  · refine (hM.types _ _).mpr ?_
    exact IsOf.declared (x := ⟨.str c!"red", .exactly (.str c!"ball")⟩) (n := .str c!"ball")
      (by rw [planP_objects]; exact .head _) (.head _)
  · have del : ∀ p os, Alters M s (planA.effect.getD []) (M.set (fun _ => M.const c!"red") c!"b" (M.const c!"red"))
        (.delete p os) ↔ p = c!"lies" ∧ os = [M.const c!"red"] := by
      intro p os
      show (@Change.delete (M.within s) p os = @Change.delete (M.within s) c!"lies" [M.const c!"red"]) ∨ False ↔ _
      constructor
      · rintro (h | h)
        · injection h with h h'; exact ⟨h, h'⟩
        · exact h.elim
      · rintro ⟨rfl, rfl⟩; exact .inl rfl
    refine ⟨fun p os => ?_, ?_, fun _ _ _ => rfl, ?_, fun _ _ _ => rfl⟩
    · refine Iff.trans ?_ (or_congr Iff.rfl (and_congr_right fun _ => (not_congr (del p os)).symm))
      exact ⟨.inr, fun h => h.resolve_left fun h => by 
        rcases h with h | h
        · cases h
        · exact h⟩
    · rintro f os o (h | h)
      · cases h
      · exact h.elim
    · rintro op f os n (h | h)
      · cases h
      · exact h.elim
  · rw [planP_goal]
    exact ⟨fun h => h.2 ⟨rfl, rfl⟩, trivial⟩

/-- One object. -/
def planM : Interp where
  Obj := Unit
  ofType n _ := n = c!"ball" ∨ n = c!"object"
  const _ := ()
  fn _ _ := ()
  pred _ _ := True
  Num := Unit
  lit _ := ()
  fluent _ _ := ()
  bin _ _ _ := ()
  multi _ _ _ := ()
  neg _ := ()
  comp _ _ _ := True

theorem planM_fits : planM.Fits planD planP where
  all _ := ⟨_, by rw [planP_objects]; exact .head _, rfl⟩
  different x hx y hy _ := by
    rw [planP_objects, List.mem_singleton] at hx hy
    rw [hx, hy]
  types n o := by
    constructor
    · rintro (rfl | rfl)
      · exact IsOf.declared (M := planM) (x := ⟨.str c!"red", .exactly (.str c!"ball")⟩) (n := .str c!"ball")
          (by rw [planP_objects]; exact .head _) (.head _)
      · exact IsOf.object (M := planM) (x := ⟨.str c!"red", .exactly (.str c!"ball")⟩)
          (by rw [planP_objects]; exact .head _)
    · intro h
      cases h with
      | object _ => exact .inr rfl
      | declared hx hn =>
        rw [planP_objects, List.mem_singleton] at hx
        subst hx
        cases List.mem_singleton.mp hn
        exact .inl rfl
      | above ht hn _ =>
        rw [planD_types, List.mem_singleton] at ht
        subst ht
        cases List.mem_singleton.mp hn
        exact .inr rfl

/-- Doing nothing is not. -/
theorem plan_nothing : ¬ Solves planD planP [] := by
  intro h
  let s : State planM := ⟨fun _ _ => (), fun p os => p = c!"lies" ∧ os = [()], fun _ _ => ()⟩
  obtain ⟨s', rfl, h⟩ := h planM planM_fits s
    { pred := fun p os => by
        rw [planD_timeless, planP_init]
        constructor
        · rintro ⟨rfl, rfl⟩
          exact ⟨.str c!"lies", [.str c!"red"], rfl, rfl, .inr (.head _)⟩
        · rintro ⟨q, ns, rfl, rfl, h | h⟩
          · cases h
          · cases List.mem_singleton.mp h
            exact ⟨rfl, rfl⟩
      value := fun f v h => rfl
      object := fun f o h => rfl }
  have := h (fun _ => ())
  rw [planP_goal] at this
  exact this.1 ⟨rfl, rfl⟩

/-- With another name for the ball, kicking the ball of that name is a plan, and doing nothing is not. -/
example : ∃ D' P', fromStr parseDomain (renameText (renameOne c!"red" c!"blue") planDomain) = some D' ∧
    fromStr parseProblem (renameText (renameOne c!"red" c!"blue") planProblem) = some P' ∧
    Solves D' P' [⟨c!"kick", [c!"blue"]⟩] ∧ ¬ Solves D' P' [] := by
  obtain ⟨D', P', h1, h2, h3⟩ := C108_one_word (a := c!"red") (b := c!"blue") (by decide) ⟨'b', c!"lue", rfl, by decide, by decide⟩
    (by decide) (by decide +kernel) (by decide +kernel) (by decide +kernel) (by decide +kernel) planD_read planP_read
  exact ⟨D', P', h1, h2, (h3 [⟨c!"kick", [c!"red"]⟩]).mpr plan_solves, fun h => plan_nothing ((h3 []).mp h)⟩

end Pddl
