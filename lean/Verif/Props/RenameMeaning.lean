/-
C104: renaming keeps the meaning.

If the words of a text are consistently renamed, and its layout is changed, then what is read is true in a
state exactly if what was read before is true in the state in which the old words have the meaning of the new ones.
No variable gets confused with another one, no keyword with a name, and no type with another type.
-/
import Verif.Props.Rename
import Verif.Props.Arithmetic

namespace Pddl

/-- The state in which every word means what its new name means in `M`. -/
def Interp.pull (M : Interp) (ρ : List Char → List Char) : Interp where
  Obj := M.Obj
  ofType n := M.ofType (ρ n)
  const n := M.const (ρ n)
  fn f := M.fn (ρ f)
  pred p := M.pred (ρ p)
  Num := M.Num
  lit := M.lit
  fluent f := M.fluent (ρ f)
  bin := M.bin
  multi := M.multi
  neg := M.neg
  comp := M.comp

/-- Every variable has the value of its new name. -/
def Interp.pullEnv (M : Interp) (ρ : List Char → List Char) (e : M.Env) : (M.pull ρ).Env := fun x => e (ρ x)

/-- A change, in the new words. -/
def Change.rename {M : Interp} (ρ : List Char → List Char) : Change (M.pull ρ) → Change M
  | .add p os => .add (ρ p) os
  | .delete p os => .delete (ρ p) os
  | .equal a b => .equal a b
  | .differ a b => .differ a b
  | .object f os o => .object (ρ f) os o
  | .number op f os n => .number op (ρ f) os n

theorem Name.rename_text (ρ : List Char → List Char) (n : Name) : (n.rename ρ).text = ρ n.text := by
  unfold Name.rename
  split
  · rename_i h; exact h.symm
  · exact wordName_text _

section
variable (M : Interp) (ρ : List Char → List Char)

local notation "φ" => Name.rename ρ

theorem Ty.rename_has (t : Ty) (o : M.Obj) : (t.mapNames φ).Has M o ↔ t.Has (M.pull ρ) o := by
  cases t with
  | exactly n => simp only [Ty.mapNames, Ty.Has, Name.rename_text]; exact Iff.rfl
  | eitherOf ns =>
    simp only [Ty.mapNames, Ty.Has, List.mem_map]
    constructor
    · rintro ⟨_, ⟨n, hn, rfl⟩, h⟩; rw [Name.rename_text] at h; exact ⟨n, hn, h⟩
    · rintro ⟨n, hn, h⟩; exact ⟨_, ⟨n, hn, rfl⟩, by rw [Name.rename_text]; exact h⟩

theorem pull_set (hρ : ∀ x y, ρ x = ρ y → x = y) (e : M.Env) (x : List Char) (o : M.Obj) :
    M.pullEnv ρ (M.set e (ρ x) o) = (M.pull ρ).set (M.pullEnv ρ e) x o := by
  funext y
  unfold Interp.pullEnv Interp.set
  by_cases h : y = x
  · simp [h]; rfl
  · simp [h, mt (hρ y x) h]; rfl

variable {M ρ}

theorem ForEach.rename (hρ : ∀ x y, ρ x = ρ y → x = y) {p : M.Env → Prop} {q : (M.pull ρ).Env → Prop}
    (h : ∀ e, p e ↔ q (M.pullEnv ρ e)) (vs : TypedList Name) :
    ∀ e, ForEach M (varsMapNames φ vs) e p ↔ ForEach (M.pull ρ) vs (M.pullEnv ρ e) q := by
  induction vs with
  | nil => exact h
  | cons v vs ih =>
    intro e
    show (∀ o, (v.ty.mapNames φ).Has M o → ForEach M (varsMapNames φ vs) (M.set e (v.value.rename ρ).text o) p) ↔ _
    simp only [Ty.rename_has, Name.rename_text, ih, pull_set M ρ hρ]
    exact Iff.rfl

theorem ForSome.rename (hρ : ∀ x y, ρ x = ρ y → x = y) {p : M.Env → Prop} {q : (M.pull ρ).Env → Prop}
    (h : ∀ e, p e ↔ q (M.pullEnv ρ e)) (vs : TypedList Name) :
    ∀ e, ForSome M (varsMapNames φ vs) e p ↔ ForSome (M.pull ρ) vs (M.pullEnv ρ e) q := by
  induction vs with
  | nil => exact h
  | cons v vs ih =>
    intro e
    show (∃ o, (v.ty.mapNames φ).Has M o ∧ ForSome M (varsMapNames φ vs) (M.set e (v.value.rename ρ).text o) p) ↔ _
    simp only [Ty.rename_has, Name.rename_text, ih, pull_set M ρ hρ]
    exact Iff.rfl

variable (M ρ)

mutual
theorem Term.rename_denote (e : M.Env) : (t : Term) →
    (t.mapNames φ).denote M e = t.denote (M.pull ρ) (M.pullEnv ρ e)
  | .name n => by simp only [Term.mapNames, Term.denote, Name.rename_text]; rfl
  | .var v => by simp only [Term.mapNames, Term.denote, Name.rename_text]; rfl
  | .fn f ts => by
    simp only [Term.mapNames, Term.denote, Name.rename_text, Term.rename_denotes e ts]; rfl
theorem Term.rename_denotes (e : M.Env) : (ts : List Term) →
    Term.denotes M e (Term.mapNamesL φ ts) = Term.denotes (M.pull ρ) (M.pullEnv ρ e) ts
  | [] => rfl
  | t :: ts => by
    simp only [Term.mapNamesL, Term.denotes, Term.rename_denote e t, Term.rename_denotes e ts]; rfl
end

theorem Term.rename_map (e : M.Env) (ts : List Term) :
    (ts.map (Term.mapNames φ)).map (Term.denote M e) = ts.map (Term.denote (M.pull ρ) (M.pullEnv ρ e)) := by
  rw [List.map_map]
  exact List.map_congr_left fun t _ => Term.rename_denote M ρ e t

theorem FHead.rename_denote (e : M.Env) (h : FHead) :
    (h.mapNames φ).denote M e = h.denote (M.pull ρ) (M.pullEnv ρ e) := by
  cases h with
  | simple f => simp only [FHead.mapNames, FHead.denote, Name.rename_text]; rfl
  | withTerms f ts =>
    simp only [FHead.mapNames, FHead.denote, Name.rename_text, Term.rename_map]; rfl

mutual
theorem FExp.rename_denote (e : M.Env) : (t : FExp) →
    (t.mapNames φ).denote M e = t.denote (M.pull ρ) (M.pullEnv ρ e)
  | .number n => rfl
  | .function h => by simp only [FExp.mapNames, FExp.denote, FHead.rename_denote]; rfl
  | .negative a => by simp only [FExp.mapNames, FExp.denote, FExp.rename_denote e a]; rfl
  | .binaryOp op a b => by
    simp only [FExp.mapNames, FExp.denote, FExp.rename_denote e a, FExp.rename_denote e b]; rfl
  | .multiOp op a bs => by
    simp only [FExp.mapNames, FExp.denote, FExp.rename_denote e a, FExp.rename_denotes e bs]; rfl
theorem FExp.rename_denotes (e : M.Env) : (ts : List FExp) →
    FExp.denotes M e (FExp.mapNamesL φ ts) = FExp.denotes (M.pull ρ) (M.pullEnv ρ e) ts
  | [] => rfl
  | t :: ts => by
    simp only [FExp.mapNamesL, FExp.denotes, FExp.rename_denote e t, FExp.rename_denotes e ts]; rfl
end

theorem AtomicFormula.rename_holds (e : M.Env) (a : AtomicFormula Term) :
    (a.mapNames φ (Term.mapNames φ)).Holds M e ↔ a.Holds (M.pull ρ) (M.pullEnv ρ e) := by
  cases a with
  | equality a b => simp only [AtomicFormula.mapNames, AtomicFormula.Holds, Term.rename_denote]; exact Iff.rfl
  | predicate p ts =>
    simp only [AtomicFormula.mapNames, AtomicFormula.Holds, Term.rename_map, Name.rename_text]; exact Iff.rfl

variable {ρ}

mutual
theorem GD.rename_holds (hρ : ∀ x y, ρ x = ρ y → x = y) : (g : GD) → ∀ e : M.Env,
    (g.mapNames φ).Holds M e ↔ g.Holds (M.pull ρ) (M.pullEnv ρ e)
  | .atomic a => fun e => by
    simp only [GD.mapNames, GD.Holds, AtomicFormula.rename_holds]
  | .literal (.pos a) => fun e => by
    simp only [GD.mapNames, Literal.mapNames, GD.Holds, AtomicFormula.rename_holds]
  | .literal (.neg a) => fun e => by
    simp only [GD.mapNames, Literal.mapNames, GD.Holds, AtomicFormula.rename_holds]
  | .and gs => fun e => by simp only [GD.mapNames, GD.Holds]; exact (GD.rename_all hρ gs e).1
  | .or gs => fun e => by simp only [GD.mapNames, GD.Holds]; exact (GD.rename_all hρ gs e).2
  | .not g => fun e => by simp only [GD.mapNames, GD.Holds, GD.rename_holds hρ g e]
  | .imply a b => fun e => by
    simp only [GD.mapNames, GD.Holds, GD.rename_holds hρ a e, GD.rename_holds hρ b e]
  | .exist vs g => fun e => by
    simp only [GD.mapNames, GD.Holds]; exact ForSome.rename hρ (GD.rename_holds hρ g) vs e
  | .forall_ vs g => fun e => by
    simp only [GD.mapNames, GD.Holds]; exact ForEach.rename hρ (GD.rename_holds hρ g) vs e
  | .fComp c => fun e => by
    simp only [GD.mapNames, FComp.mapNames, GD.Holds, FExp.rename_denote]; exact Iff.rfl
theorem GD.rename_all (hρ : ∀ x y, ρ x = ρ y → x = y) : (gs : List GD) → ∀ e : M.Env,
    (GD.AllHold M (GD.mapNamesL φ gs) e ↔ GD.AllHold (M.pull ρ) gs (M.pullEnv ρ e)) ∧
    (GD.SomeHolds M (GD.mapNamesL φ gs) e ↔ GD.SomeHolds (M.pull ρ) gs (M.pullEnv ρ e))
  | [] => fun _ => ⟨Iff.rfl, Iff.rfl⟩
  | g :: gs => fun e => by
    simp only [GD.mapNamesL, GD.AllHold, GD.SomeHolds, GD.rename_holds hρ g e, (GD.rename_all hρ gs e).1,
      (GD.rename_all hρ gs e).2, and_self]
end

mutual
theorem PreGD.rename_holds (hρ : ∀ x y, ρ x = ρ y → x = y) : (g : PreGD) → ∀ e : M.Env,
    (g.mapNames φ).Holds M e ↔ g.Holds (M.pull ρ) (M.pullEnv ρ e)
  | .preference (.goal g) => fun e => by
    simp only [PreGD.mapNames, PrefGD.mapNames, PreGD.Holds, GD.rename_holds M hρ g e]
  | .preference (.preference _ _) => fun _ => by
    simp only [PreGD.mapNames, PrefGD.mapNames, PreGD.Holds]
  | .forall_ vs gs => fun e => by
    simp only [PreGD.mapNames, PreGD.Holds]; exact ForEach.rename hρ (PreGD.rename_all hρ gs) vs e
theorem PreGD.rename_all (hρ : ∀ x y, ρ x = ρ y → x = y) : (gs : List PreGD) → ∀ e : M.Env,
    PreGD.AllHold M (PreGD.mapNamesL φ gs) e ↔ PreGD.AllHold (M.pull ρ) gs (M.pullEnv ρ e)
  | [] => fun _ => Iff.rfl
  | g :: gs => fun e => by
    simp only [PreGD.mapNamesL, PreGD.AllHold, PreGD.rename_holds hρ g e, PreGD.rename_all hρ gs e]
end

theorem PEffect.rename_change (e : M.Env) (p : PEffect) :
    (p.mapNames φ).change M e = (p.change (M.pull ρ) (M.pullEnv ρ e)).rename ρ := by
  cases p with
  | atomic a =>
    cases a <;> simp only [PEffect.mapNames, AtomicFormula.mapNames, PEffect.change, Term.rename_map,
      Term.rename_denote, Name.rename_text] <;> rfl
  | notAtomic a =>
    cases a <;> simp only [PEffect.mapNames, AtomicFormula.mapNames, PEffect.change, Term.rename_map,
      Term.rename_denote, Name.rename_text] <;> rfl
  | assignNumeric op h x =>
    cases h <;> simp only [PEffect.mapNames, FHead.mapNames, PEffect.change, Term.rename_map,
      FExp.rename_denote, Name.rename_text] <;> rfl
  | assignObject f o =>
    cases o <;> simp only [PEffect.mapNames, FunctionTerm.mapNames, PEffect.change, Term.rename_map,
      Option.map, Term.rename_denote, Name.rename_text] <;> rfl

theorem CondEffect.rename_makes (x : CondEffect) (e : M.Env) (c : Change M) :
    (x.mapNames φ).Makes M e c ↔ ∃ c', c = c'.rename ρ ∧ x.Makes (M.pull ρ) (M.pullEnv ρ e) c' := by
  cases x with
  | single p =>
    simp only [CondEffect.mapNames, CondEffect.Makes, PEffect.rename_change]
    exact ⟨fun h => ⟨_, h, rfl⟩, fun ⟨_, h, h'⟩ => h' ▸ h⟩
  | all ps =>
    simp only [CondEffect.mapNames, CondEffect.Makes, List.mem_map]
    constructor
    · rintro ⟨_, ⟨p, hp, rfl⟩, rfl⟩; exact ⟨_, PEffect.rename_change M e p, p, hp, rfl⟩
    · rintro ⟨_, rfl, p, hp, rfl⟩; exact ⟨_, ⟨p, hp, rfl⟩, (PEffect.rename_change M e p).symm⟩

theorem ForSome.ex {M : Interp} {β : Type} {p : β → M.Env → Prop} (vs : TypedList Name) :
    ∀ e, ForSome M vs e (fun e => ∃ b, p b e) ↔ ∃ b, ForSome M vs e (p b) := by
  induction vs with
  | nil => exact fun _ => Iff.rfl
  | cons v vs ih =>
    intro e
    simp only [ForSome, ih]
    exact ⟨fun ⟨o, h, b, k⟩ => ⟨b, o, h, k⟩, fun ⟨b, o, h, k⟩ => ⟨o, h, b, k⟩⟩

theorem ForSome.and_left {M : Interp} {q : Prop} {p : M.Env → Prop} (vs : TypedList Name) :
    ∀ e, ForSome M vs e (fun e => q ∧ p e) → q ∧ ForSome M vs e p := by
  induction vs with
  | nil => exact fun _ h => h
  | cons v vs ih =>
    rintro e ⟨o, h, k⟩
    exact ⟨(ih _ k).1, o, h, (ih _ k).2⟩

mutual
theorem CEffect.rename_makes (hρ : ∀ x y, ρ x = ρ y → x = y) (c : Change M) : (x : CEffect) → ∀ e : M.Env,
    CEffect.Makes M c (x.mapNames φ) e ↔
      ∃ c', c = c'.rename ρ ∧ CEffect.Makes (M.pull ρ) c' x (M.pullEnv ρ e)
  | .effect p => fun e => by
    simp only [CEffect.mapNames, CEffect.Makes, PEffect.rename_change]
    exact ⟨fun h => ⟨_, h, rfl⟩, fun ⟨_, h, h'⟩ => h' ▸ h⟩
  | .forall_ vs xs => fun e => by
    simp only [CEffect.mapNames, CEffect.Makes]
    rw [ForSome.rename hρ (q := fun e => ∃ c', c = c'.rename ρ ∧ CEffect.MakeSome (M.pull ρ) c' xs e)
      (CEffect.rename_some hρ c xs) vs e, ForSome.ex]
    constructor
    · rintro ⟨c', h⟩
      obtain ⟨h1, h2⟩ := ForSome.and_left vs _ h
      exact ⟨c', h1, h2⟩
    · rintro ⟨c', rfl, h⟩
      exact ⟨c', (ForSome.congr (fun _ => by simp) vs _).mp h⟩
  | .when g x => fun e => by
    simp only [CEffect.mapNames, CEffect.Makes, GD.rename_holds M hρ g e, CondEffect.rename_makes M x e c]
    exact ⟨fun ⟨h, c', h1, h2⟩ => ⟨c', h1, h, h2⟩, fun ⟨c', h1, h, h2⟩ => ⟨h, c', h1, h2⟩⟩
theorem CEffect.rename_some (hρ : ∀ x y, ρ x = ρ y → x = y) (c : Change M) : (xs : List CEffect) → ∀ e : M.Env,
    CEffect.MakeSome M c (CEffect.mapNamesL φ xs) e ↔
      ∃ c', c = c'.rename ρ ∧ CEffect.MakeSome (M.pull ρ) c' xs (M.pullEnv ρ e)
  | [] => fun _ => by simp [CEffect.mapNamesL, CEffect.MakeSome]
  | x :: xs => fun e => by
    simp only [CEffect.mapNamesL, CEffect.MakeSome, CEffect.rename_makes hρ c x e, CEffect.rename_some hρ c xs e,
      and_or_left, exists_or]
end

end

theorem PreGD.mapNamesL_map (f : Name → Name) (gs : List PreGD) : PreGD.mapNamesL f gs = gs.map (PreGD.mapNames f) := by
  induction gs with
  | nil => rfl
  | cons g gs ih => simp [PreGD.mapNamesL, ih]

theorem CEffect.mapNamesL_map (f : Name → Name) (gs : List CEffect) :
    CEffect.mapNamesL f gs = gs.map (CEffect.mapNames f) := by
  induction gs with
  | nil => rfl
  | cons g gs ih => simp [CEffect.mapNamesL, ih]

/-! ## C104 -/

theorem Equi.meaning {p : P α} {f : α → α} {ρ : List Char → List Char} (h : Equi ρ p f) {s s' r : List Char} {v : α}
    (hs : Renames ρ s s') (hv : p s = .ok v r) : ∃ r', p s' = .ok (f v) r' ∧ Renames ρ r r' := by
  rcases h.cases hs with ⟨a, t, t', e1, e2, h1, _⟩ | ⟨e1, _⟩ | ⟨e1, _⟩ | ⟨e1, _⟩ | ⟨e1, _⟩ <;> rw [e1] at hv <;>
    cases hv
  exact ⟨t', e2, h1⟩

section
variable {ρ : List Char → List Char} (hρ : ∀ x y, ρ x = ρ y → x = y) (ho : ρ c!"object" = c!"object")
include hρ ho

/-- C104, goals. -/
theorem C104_goal {s s' r : List Char} {g : GD} (hs : Renames ρ s s') (hg : parseGd s = .ok g r) :
    ∃ g' r', parseGd s' = .ok g' r' ∧ Renames ρ r r' ∧
      ∀ (M : Interp) (e : M.Env), g'.Holds M e ↔ g.Holds (M.pull ρ) (M.pullEnv ρ e) := by
  obtain ⟨r', h1, h2⟩ := (parseGd_equi ho).meaning hs hg
  exact ⟨_, r', h1, h2, fun M e => GD.rename_holds M hρ g e⟩

/-- C104, preconditions. -/
theorem C104_precondition {s s' r : List Char} {g : List PreGD} (hs : Renames ρ s s') (hg : parsePreGd s = .ok g r) :
    ∃ g' r', parsePreGd s' = .ok g' r' ∧ Renames ρ r r' ∧
      ∀ (M : Interp) (e : M.Env), PreGD.AllHold M g' e ↔ PreGD.AllHold (M.pull ρ) g (M.pullEnv ρ e) := by
  obtain ⟨r', h1, h2⟩ := (parsePreGd_equi ho).meaning hs hg
  rw [← PreGD.mapNamesL_map] at h1
  exact ⟨_, r', h1, h2, fun M e => PreGD.rename_all M hρ g e⟩

/-- C104, effects: the changes are those in the state with the old words, with their names exchanged. -/
theorem C104_effect {s s' r : List Char} {x : List CEffect} (hs : Renames ρ s s') (hx : parseEffect s = .ok x r) :
    ∃ x' r', parseEffect s' = .ok x' r' ∧ Renames ρ r r' ∧
      ∀ (M : Interp) (e : M.Env) (c : Change M), CEffect.MakeSome M c x' e ↔
        ∃ c', c = c'.rename ρ ∧ CEffect.MakeSome (M.pull ρ) c' x (M.pullEnv ρ e) := by
  obtain ⟨r', h1, h2⟩ := (parseEffect_equi ho).meaning hs hx
  rw [← CEffect.mapNamesL_map] at h1
  exact ⟨_, r', h1, h2, fun M e c => CEffect.rename_some M hρ c x e⟩

/-- C104. A goal that is always true stays so, and one that is not does too. -/
theorem C104_always {s s' r : List Char} {g : GD} (hs : Renames ρ s s') (hg : parseGd s = .ok g r) :
    ∃ g' r', parseGd s' = .ok g' r' ∧
      ((∀ (M : Interp) (e : M.Env), g'.Holds M e) ↔ ∀ (M : Interp) (e : M.Env), g.Holds M e) := by
  obtain ⟨g', r', h1, -, h3⟩ := C104_goal hρ ho hs hg
  refine ⟨g', r', h1, fun h M e => ?_, fun h M e => (h3 M e).mpr (h _ _)⟩
  classical
  let σ : List Char → List Char := fun y => if h : ∃ x, ρ x = y then h.choose else []
  have hσ : ∀ x, σ (ρ x) = x := fun x => by
    have hx : ∃ z, ρ z = ρ x := ⟨x, rfl⟩
    show (if h : ∃ z, ρ z = ρ x then h.choose else []) = x
    rw [dif_pos hx]
    exact hρ _ _ hx.choose_spec
  have hM : (M.pull σ).pull ρ = M := by
    simp only [Interp.pull, hσ]
  have := (h3 (M.pull σ) (M.pullEnv σ e)).mp (h _ _)
  have key : ∀ (N : Interp) (a : N.Env) (hN : N = M), (∀ x, HEq (a x) (e x)) → g.Holds N a → g.Holds M e := by
    rintro N a rfl ha h
    have : a = e := funext fun x => eq_of_heq (ha x)
    exact this ▸ h
  refine key _ _ hM (fun x => ?_) this
  show HEq (e (σ (ρ x))) (e x)
  rw [hσ]

end

/-- C104. Numeric expressions have the same value. -/
theorem C104_number {ρ : List Char → List Char} {s s' r : List Char} {x : FExp} (hs : Renames ρ s s')
    (hx : parseFExp s = .ok x r) : ∃ x' r', parseFExp s' = .ok x' r' ∧ Renames ρ r r' ∧
      ∀ (M : Interp) (e : M.Env), x'.denote M e = x.denote (M.pull ρ) (M.pullEnv ρ e) := by
  obtain ⟨r', h1, h2⟩ := parseFExp_equi.meaning hs hx
  exact ⟨_, r', h1, h2, fun M e => FExp.rename_denote M ρ e x⟩

/-! ## A new name for one word -/

/-- The words `a` and `b` exchanged. -/
def swapWord (a b w : List Char) : List Char := if w = a then b else if w = b then a else w

theorem swapWord_inj (a b x y : List Char) (h : swapWord a b x = swapWord a b y) : x = y := by
  unfold swapWord at h
  by_cases h1 : x = a <;> by_cases h2 : y = a <;> by_cases h3 : x = b <;> by_cases h4 : y = b <;> simp_all

/-- The word `b` is not the end of the piece. -/
def Piece.Without (b : List Char) : Piece → Prop
  | .word w => ¬ b <:+ w
  | .sigil _ w => ¬ b <:+ w
  | _ => True

instance (a : List Char) : (t : Piece) → Decidable (t.Without a)
  | .word w => inferInstanceAs (Decidable (¬ a <:+ w))
  | .sigil _ w => inferInstanceAs (Decidable (¬ a <:+ w))
  | .char _ => .isTrue trivial
  | .comment _ => .isTrue trivial

theorem renames_fresh {a b : List Char} (ha : Unreserved a) (hb : IsWord b) (hb' : Unreserved b) {s : List Char}
    (hs : ∀ t ∈ pieces s, t.Whole a) (hf : ∀ t ∈ pieces s, t.Without b) :
    Renames (swapWord a b) s (renameText (renameOne a b) s) := by
  have e : renameText (renameOne a b) s = renameText (swapWord a b) s := by
    unfold renameText
    rw [List.flatMap_def, List.flatMap_def]
    congr 1
    refine List.map_congr_left fun t ht => ?_
    cases t with
    | word w =>
      have hw : w ≠ b := by
        rintro rfl
        exact hf _ ht (List.suffix_refl _)
      simp [Piece.renamed, renameOne, swapWord, hw]
    | _ => rfl
  rw [e]
  have keep {x : List Char} (h1 : x ≠ a) (h2 : x ≠ b) : swapWord a b x = x := by simp [swapWord, h1, h2]
  refine renames_renameText ?_ ?_
  · intro w hm
    by_cases e : w = a
    · subst e
      exact .inl ⟨by simpa [swapWord] using hb, ha, by simpa [swapWord] using hb'⟩
    · have hw : w ≠ b := by
        rintro rfl
        exact hf _ hm (List.suffix_refl _)
      refine .inr ⟨keep e hw, ?_⟩
      rintro k hk u rfl x hx
      refine keep ?_ ?_ <;> rintro rfl
      · exact e (hs _ hm (hx.trans (List.suffix_append _ _)))
      · exact hf _ hm (hx.trans (List.suffix_append _ _))
  · rintro c w hm k hk u rfl x hx
    refine keep ?_ ?_ <;> rintro rfl
    · exact hs _ hm (hx.trans (List.suffix_append _ _))
    · exact hf _ hm (hx.trans (List.suffix_append _ _))

/-- C104. One word is replaced by one that does not occur: the goal means what it meant, where the new word
means what the old one did. -/
theorem C104_one_word {a b : List Char} (ha : Unreserved a) (hb : IsWord b) (hb' : Unreserved b) {s r : List Char}
    (hs : ∀ t ∈ pieces s, t.Whole a) (hf : ∀ t ∈ pieces s, t.Without b) {g : GD} (hg : parseGd s = .ok g r) :
    ∃ g' r', parseGd (renameText (renameOne a b) s) = .ok g' r' ∧
      ∀ (M : Interp) (e : M.Env), g'.Holds M e ↔ g.Holds (M.pull (swapWord a b)) (M.pullEnv (swapWord a b) e) := by
  have other : ∀ {w}, w ∈ reserved → swapWord a b w = w := fun {w} h => by
    unfold swapWord
    split
    · rename_i e
      exact absurd (List.prefix_refl _) (e ▸ ha w h)
    · split
      · rename_i e
        exact absurd (List.prefix_refl _) (e ▸ hb' w h)
      · rfl
  obtain ⟨g', r', h1, -, h3⟩ := C104_goal (swapWord_inj a b) (other (by decide)) (renames_fresh ha hb hb' hs hf) hg
  exact ⟨g', r', h1, h3⟩

/-- Not so for a word that does occur: the variable `?x` is caught if `?y` is renamed to `?x`. -/
theorem C104_capture : ∃ (g g' : GD), parseGd c!"(exists (?x) (p ?x ?y))" = .ok g [] ∧
    parseGd (renameText (renameOne c!"y" c!"x") c!"(exists (?x) (p ?x ?y))") = .ok g' [] ∧
    ∃ (M : Interp) (e : M.Env), ¬ (g'.Holds M e ↔
      g.Holds (M.pull (renameOne c!"y" c!"x")) (M.pullEnv (renameOne c!"y" c!"x") e)) := by
  let M : Interp := { exWhole with pred := fun _ os => os = [(1 : Nat), (0 : Nat)] }
  refine ⟨.exist [⟨.str c!"x", objectTy⟩] (.atomic (.predicate (.str c!"p") [.var (.str c!"x"), .var (.str c!"y")])),
    .exist [⟨.str c!"x", objectTy⟩] (.atomic (.predicate (.str c!"p") [.var (.str c!"x"), .var (.str c!"x")])),
    rfl, rfl, M, fun _ => (0 : Nat), fun h => ?_⟩
  obtain ⟨o, -, h⟩ := h.mpr ⟨(1 : Nat), trivial, (rfl : [(1 : Nat), (0 : Nat)] = [1, 0])⟩
  have h : @Eq (List Nat) [o, o] [1, 0] := h
  cases h

/-- A variable gets another name. -/
example : renameText (renameOne c!"y" c!"z") c!"(exists (?x) (p ?x ?y))" = c!"(exists (?x) (p ?x ?z))" ∧
    ∃ g' r', parseGd (renameText (renameOne c!"y" c!"z") c!"(exists (?x) (p ?x ?y))") = .ok g' r' ∧
      ∀ (M : Interp) (e : M.Env), g'.Holds M e ↔
        (GD.exist [⟨.str c!"x", objectTy⟩] (.atomic (.predicate (.str c!"p") [.var (.str c!"x"),
          .var (.str c!"y")]))).Holds (M.pull (swapWord c!"y" c!"z")) (M.pullEnv (swapWord c!"y" c!"z") e) :=
  ⟨by decide +kernel, C104_one_word (by decide) ⟨'z', [], rfl, by decide, by decide⟩ (by decide) (by decide +kernel)
    (by decide +kernel) (r := []) rfl⟩

end Pddl
