import Verif.Props.RenameMeaning
import Verif.Props.DurativeMeaning

/-!
# C112: renaming keeps the meaning of constraints over trajectories and of durative conditions and effects
-/

namespace Pddl

/-- The state in which every word means what its new name means in `s`. -/
def Snapshot.pull {M : Interp} (ρ : List Char → List Char) (s : Snapshot M) : Snapshot (M.pull ρ) where
  time := s.time
  fn f := s.fn (ρ f)
  pred p := s.pred (ρ p)
  fluent f := s.fluent (ρ f)

/-- The same course, in the old words. -/
def Course.pull {M : Interp} (ρ : List Char → List Char) (r : Course M) : Course (M.pull ρ) where
  start := r.start.pull ρ
  finish := r.finish.pull ρ
  during s := ∃ s', r.during s' ∧ s = s'.pull ρ
  duration := r.duration

/-- What an action does, in the new words. -/
def Deed.rename {M : Interp} (ρ : List Char → List Char) : Deed (M.pull ρ) → Deed M
  | .change ts c => .change ts (c.rename ρ)
  | .flow op f os n => .flow op (ρ f) os n

section
variable (M : Interp) {ρ : List Char → List Char} (hρ : ∀ x y, ρ x = ρ y → x = y)

local notation "φ" => Name.rename ρ

theorem getElem_pull (tr : List (Snapshot M)) (i : Nat) {p : Snapshot M → Prop} {q : Snapshot (M.pull ρ) → Prop}
    (h : ∀ s, p s ↔ q (s.pull ρ)) :
    (∃ s, tr[i]? = some s ∧ p s) ↔ ∃ s, (tr.map (Snapshot.pull ρ))[i]? = some s ∧ q s := by
  rw [List.getElem?_map]
  cases tr[i]? with
  | none => simp
  | some s => simp [h]

theorem getElem_pull_all (tr : List (Snapshot M)) (i : Nat) {p : Snapshot M → Prop} {q : Snapshot (M.pull ρ) → Prop}
    (h : ∀ s, p s ↔ q (s.pull ρ)) :
    (∀ s, tr[i]? = some s → p s) ↔ ∀ s, (tr.map (Snapshot.pull ρ))[i]? = some s → q s := by
  rw [List.getElem?_map]
  cases tr[i]? with
  | none => simp
  | some s => simp [h]

include hρ

theorem GD.rename_now (g : GD) (s : Snapshot M) (e : M.Env) :
    (g.mapNames φ).Holds (M.now s) e ↔ g.Holds ((M.pull ρ).now (s.pull ρ)) (M.pullEnv ρ e) :=
  GD.rename_holds (M.now s) hρ g e

theorem GD.rename_holdsAt (g : GD) (tr : List (Snapshot M)) (i : Nat) (e : M.Env) :
    (g.mapNames φ).HoldsAt M tr i e ↔ g.HoldsAt (M.pull ρ) (tr.map (Snapshot.pull ρ)) i (M.pullEnv ρ e) :=
  getElem_pull M tr i fun s => GD.rename_now M hρ g s e

mutual
theorem ConGD.rename_on : (g : ConGD) → ∀ (tr : List (Snapshot M)) (e : M.Env),
    ConGD.On M (g.mapNames φ) tr e ↔ ConGD.On (M.pull ρ) g (tr.map (Snapshot.pull ρ)) (M.pullEnv ρ e)
  | .and gs => fun tr e => by
    simp only [ConGD.mapNames, ConGD.On]; exact ConGD.rename_allOn gs tr e
  | .forall_ vs g => fun tr e => by
    simp only [ConGD.mapNames, ConGD.On]
    exact ForEach.rename hρ (fun e => ConGD.rename_on g tr e) vs e
  | .atEnd g => fun tr e => by
    simp only [ConGD.mapNames, ConGD.On, List.length_map]; exact GD.rename_holdsAt M hρ g tr _ e
  | .always g => fun tr e => by
    simp only [ConGD.mapNames, ConGD.On, List.length_map, Con2GD.rename_from g tr _ e]
  | .sometime g => fun tr e => by
    simp only [ConGD.mapNames, ConGD.On, List.length_map, Con2GD.rename_from g tr _ e]
  | .within n g => fun tr e => by
    simp only [ConGD.mapNames, ConGD.On]
    refine exists_congr fun i => getElem_pull M tr i fun s => ?_
    exact and_congr Iff.rfl (Con2GD.rename_from g tr i e)
  | .atMostOnce g => fun tr e => by
    simp only [ConGD.mapNames, ConGD.On, List.length_map, Con2GD.rename_from g tr _ e]
  | .sometimeAfter a b => fun tr e => by
    simp only [ConGD.mapNames, ConGD.On, List.length_map, Con2GD.rename_from a tr _ e, Con2GD.rename_from b tr _ e]
  | .sometimeBefore a b => fun tr e => by
    simp only [ConGD.mapNames, ConGD.On, List.length_map, Con2GD.rename_from a tr _ e, Con2GD.rename_from b tr _ e]
  | .alwaysWithin n a b => fun tr e => by
    simp only [ConGD.mapNames, ConGD.On]
    refine forall_congr' fun i => getElem_pull_all M tr i fun s => imp_congr (Con2GD.rename_from a tr i e) ?_
    refine exists_congr fun j => ?_
    have := getElem_pull M tr j (ρ := ρ) (p := fun s' => i ≤ j ∧ M.le (M.bin .sub s'.time s.time) (M.lit n) ∧
        Con2GD.From M (b.mapNames φ) tr j e)
      (q := fun s' => i ≤ j ∧ (M.pull ρ).le ((M.pull ρ).bin .sub s'.time (s.pull ρ).time) ((M.pull ρ).lit n) ∧
        Con2GD.From (M.pull ρ) b (tr.map (Snapshot.pull ρ)) j (M.pullEnv ρ e))
      fun s' => and_congr Iff.rfl (and_congr Iff.rfl (Con2GD.rename_from b tr j e))
    simpa only [and_left_comm] using this
  | .holdDuring n m g => fun tr e => by
    simp only [ConGD.mapNames, ConGD.On]
    refine forall_congr' fun i => getElem_pull_all M tr i fun s => ?_
    exact imp_congr Iff.rfl (imp_congr Iff.rfl (Con2GD.rename_from g tr i e))
  | .holdAfter n g => fun tr e => by
    simp only [ConGD.mapNames, ConGD.On]
    refine forall_congr' fun i => getElem_pull_all M tr i fun s => ?_
    exact imp_congr Iff.rfl (Con2GD.rename_from g tr i e)
theorem Con2GD.rename_from : (g : Con2GD) → ∀ (tr : List (Snapshot M)) (i : Nat) (e : M.Env),
    Con2GD.From M (g.mapNames φ) tr i e ↔ Con2GD.From (M.pull ρ) g (tr.map (Snapshot.pull ρ)) i (M.pullEnv ρ e)
  | .goal g => fun tr i e => by
    simp only [Con2GD.mapNames, Con2GD.From]; exact GD.rename_holdsAt M hρ g tr i e
  | .nested g => fun tr i e => by
    simp only [Con2GD.mapNames, Con2GD.From, ← List.map_drop]; exact ConGD.rename_on g (tr.drop i) e
theorem ConGD.rename_allOn : (gs : List ConGD) → ∀ (tr : List (Snapshot M)) (e : M.Env),
    ConGD.AllOn M (ConGD.mapNamesL φ gs) tr e ↔ ConGD.AllOn (M.pull ρ) gs (tr.map (Snapshot.pull ρ)) (M.pullEnv ρ e)
  | [] => fun _ _ => Iff.rfl
  | g :: gs => fun tr e => by
    simp only [ConGD.mapNamesL, ConGD.AllOn]
    exact and_congr (ConGD.rename_on g tr e) (ConGD.rename_allOn gs tr e)
end

theorem TimedGD.rename_met (g : TimedGD) (r : Course M) (e : M.Env) :
    (g.mapNames φ).Met M r e ↔ g.Met (M.pull ρ) (r.pull ρ) (M.pullEnv ρ e) := by
  cases g with
  | «at» ts g => cases ts <;> exact GD.rename_now M hρ g _ e
  | over i g =>
    cases i
    constructor
    · rintro h _ ⟨s, hs, rfl⟩
      exact (GD.rename_now M hρ g s e).mp (h s hs)
    · exact fun h s hs => (GD.rename_now M hρ g s e).mpr (h _ ⟨s, hs, rfl⟩)

theorem PrefTimedGD.rename_met (g : PrefTimedGD) (r : Course M) (e : M.Env) :
    (g.mapNames φ).Met M r e ↔ g.Met (M.pull ρ) (r.pull ρ) (M.pullEnv ρ e) := by
  cases g with
  | required g => exact TimedGD.rename_met M hρ g r e
  | preference => exact Iff.rfl

mutual
theorem DaGD.rename_met (r : Course M) : (g : DaGD) → ∀ e : M.Env,
    DaGD.Met M r (g.mapNames φ) e ↔ DaGD.Met (M.pull ρ) (r.pull ρ) g (M.pullEnv ρ e)
  | .timed g => fun e => by simp only [DaGD.mapNames, DaGD.Met]; exact PrefTimedGD.rename_met M hρ g r e
  | .and gs => fun e => by simp only [DaGD.mapNames, DaGD.Met]; exact DaGD.rename_allMet r gs e
  | .forall_ vs g => fun e => by
    simp only [DaGD.mapNames, DaGD.Met]
    exact ForEach.rename hρ (fun e => DaGD.rename_met r g e) vs e
theorem DaGD.rename_allMet (r : Course M) : (gs : List DaGD) → ∀ e : M.Env,
    DaGD.AllMet M r (DaGD.mapNamesL φ gs) e ↔ DaGD.AllMet (M.pull ρ) (r.pull ρ) gs (M.pullEnv ρ e)
  | [] => fun _ => Iff.rfl
  | g :: gs => fun e => by
    simp only [DaGD.mapNamesL, DaGD.AllMet]
    exact and_congr (DaGD.rename_met r g e) (DaGD.rename_allMet r gs e)
end

omit hρ

theorem FHead.rename_fluent (h : FHead) (e : M.Env) :
    (h.mapNames φ).fluent M e = (ρ (h.fluent (M.pull ρ) (M.pullEnv ρ e)).1, (h.fluent (M.pull ρ) (M.pullEnv ρ e)).2) := by
  cases h with
  | simple f => simp only [FHead.mapNames, FHead.fluent, Name.rename_text]; rfl
  | withTerms f ts => simp only [FHead.mapNames, FHead.fluent, Name.rename_text, Term.rename_map]; rfl

variable (ρ)

mutual
theorem FExpDa.rename_denote (e : M.Env) (d : M.Num) : (t : FExpDa) →
    FExpDa.denote M e d (t.mapNames φ) = FExpDa.denote (M.pull ρ) (M.pullEnv ρ e) d t
  | .assign _ _ a => by simp only [FExpDa.mapNames, FExpDa.denote, FExpDa.rename_denote e d a]; rfl
  | .binaryOp op a b => by
    simp only [FExpDa.mapNames, FExpDa.denote, FExpDa.rename_denote e d a, FExpDa.rename_denote e d b]; rfl
  | .multiOp op a bs => by
    simp only [FExpDa.mapNames, FExpDa.denote, FExpDa.rename_denote e d a, FExpDa.rename_denotes e d bs]; rfl
  | .negative a => by simp only [FExpDa.mapNames, FExpDa.denote, FExpDa.rename_denote e d a]; rfl
  | .duration => rfl
  | .fExp a => by simp only [FExpDa.mapNames, FExpDa.denote, FExp.rename_denote]; rfl
theorem FExpDa.rename_denotes (e : M.Env) (d : M.Num) : (ts : List FExpDa) →
    FExpDa.denotes M e d (FExpDa.mapNamesL φ ts) = FExpDa.denotes (M.pull ρ) (M.pullEnv ρ e) d ts
  | [] => rfl
  | t :: ts => by
    simp only [FExpDa.mapNamesL, FExpDa.denotes, FExpDa.rename_denote e d t, FExpDa.rename_denotes e d ts]; rfl
end

variable {ρ}

theorem Change.ofNow_rename {s : Snapshot M} (c : Change ((M.now s).pull ρ)) :
    (Change.rename ρ c).ofNow = Change.rename (M := M) ρ (Change.ofNow (M := M.pull ρ) (s := s.pull ρ) c) := by
  cases c <;> rfl

theorem CondEffect.rename_at (x : CondEffect) (ts : TimeSpecifier) (s : Snapshot M) (e : M.Env) (d : Deed M) :
    (∃ c, (x.mapNames φ).Makes (M.now s) e c ∧ d = .change ts c.ofNow) ↔ ∃ d' : Deed (M.pull ρ), d = d'.rename ρ ∧
      ∃ c, x.Makes ((M.pull ρ).now (s.pull ρ)) (M.pullEnv ρ e) c ∧ d' = .change ts c.ofNow := by
  constructor
  · rintro ⟨c, h, rfl⟩
    obtain ⟨c', rfl, h'⟩ := (CondEffect.rename_makes (M.now s) x e c).mp h
    exact ⟨.change ts (Change.ofNow (M := M.pull ρ) (s := s.pull ρ) c'),
      congrArg (Deed.change ts) (Change.ofNow_rename M c'), c', h', rfl⟩
  · rintro ⟨_, rfl, c, h, rfl⟩
    exact ⟨Change.rename (M := M.now s) ρ c, (CondEffect.rename_makes (M.now s) x e _).mpr ⟨c, rfl, h⟩,
      (congrArg (Deed.change ts) (Change.ofNow_rename M c)).symm⟩

theorem FAssignDa.rename_at (a : FAssignDa) (s : Snapshot M) (e : M.Env) (n : M.Num) :
    Change.number (M := M) a.op ((a.head.mapNames φ).fluent (M.now s) e).1 ((a.head.mapNames φ).fluent (M.now s) e).2
      ((a.exp.mapNames φ).denote (M.now s) e n) =
    Change.rename ρ (Change.number (M := M.pull ρ) a.op
      (a.head.fluent ((M.pull ρ).now (s.pull ρ)) (M.pullEnv ρ e)).1
      (a.head.fluent ((M.pull ρ).now (s.pull ρ)) (M.pullEnv ρ e)).2
      (a.exp.denote ((M.pull ρ).now (s.pull ρ)) (M.pullEnv ρ e) n)) := by
  rw [FHead.rename_fluent (M.now s) a.head e, FExpDa.rename_denote (M.now s) ρ e n a.exp]
  rfl

theorem eq_rename_iff {α β : Type} {f : α → β} {a : α} {b d : β} (h : b = f a) :
    d = b ↔ ∃ d', d = f d' ∧ d' = a :=
  ⟨fun k => ⟨a, k.trans h, rfl⟩, fun ⟨_, k, k'⟩ => k.trans ((congrArg f k').trans h.symm)⟩

theorem TimedEffect.rename_does (x : TimedEffect) (r : Course M) (e : M.Env) (d : Deed M) :
    (x.mapNames φ).Does M r e d ↔ ∃ d', d = d'.rename ρ ∧ x.Does (M.pull ρ) (r.pull ρ) (M.pullEnv ρ e) d' := by
  cases x with
  | conditional ts x => cases ts <;> exact CondEffect.rename_at M x _ _ e d
  | numericFluent ts a =>
    cases ts <;> exact eq_rename_iff (congrArg (Deed.change _) (FAssignDa.rename_at M a _ e r.duration))
  | continuous op h x =>
    refine eq_rename_iff ?_
    cases x with
    | now => rw [FHead.rename_fluent (M.now r.start) h e]; rfl
    | scaled a =>
      simp only [FExpT.mapNames]
      rw [FHead.rename_fluent (M.now r.start) h e, FExp.rename_denote (M.now r.start) ρ e a]; rfl

include hρ

mutual
theorem DaEffect.rename_does (r : Course M) (d : Deed M) : (x : DaEffect) → ∀ e : M.Env,
    DaEffect.Does M r d (x.mapNames φ) e ↔
      ∃ d', d = d'.rename ρ ∧ DaEffect.Does (M.pull ρ) (r.pull ρ) d' x (M.pullEnv ρ e)
  | .timed x => fun e => by simp only [DaEffect.mapNames, DaEffect.Does]; exact TimedEffect.rename_does M x r e d
  | .all xs => fun e => by simp only [DaEffect.mapNames, DaEffect.Does]; exact DaEffect.rename_someDoes r d xs e
  | .forall_ vs x => fun e => by
    simp only [DaEffect.mapNames, DaEffect.Does]
    rw [ForSome.rename hρ (q := fun e => ∃ d', d = d'.rename ρ ∧ DaEffect.Does (M.pull ρ) (r.pull ρ) d' x e)
      (DaEffect.rename_does r d x) vs e, ForSome.ex]
    constructor
    · rintro ⟨d', h⟩
      obtain ⟨h1, h2⟩ := ForSome.and_left vs _ h
      exact ⟨d', h1, h2⟩
    · rintro ⟨d', rfl, h⟩
      exact ⟨d', (ForSome.congr (fun _ => by simp) vs _).mp h⟩
  | .when g x => fun e => by
    simp only [DaEffect.mapNames, DaEffect.Does, DaGD.rename_met M hρ r g e, TimedEffect.rename_does M x r e d]
    exact ⟨fun ⟨h, d', h1, h2⟩ => ⟨d', h1, h, h2⟩, fun ⟨d', h1, h, h2⟩ => ⟨h, d', h1, h2⟩⟩
theorem DaEffect.rename_someDoes (r : Course M) (d : Deed M) : (xs : List DaEffect) → ∀ e : M.Env,
    DaEffect.SomeDoes M r d (DaEffect.mapNamesL φ xs) e ↔
      ∃ d', d = d'.rename ρ ∧ DaEffect.SomeDoes (M.pull ρ) (r.pull ρ) d' xs (M.pullEnv ρ e)
  | [] => fun _ => by simp [DaEffect.mapNamesL, DaEffect.SomeDoes]
  | x :: xs => fun e => by
    simp only [DaEffect.mapNamesL, DaEffect.SomeDoes, DaEffect.rename_does r d x e, DaEffect.rename_someDoes r d xs e,
      and_or_left, exists_or]
end

end

/-! ## C112 -/

section
variable {ρ : List Char → List Char} (hρ : ∀ x y, ρ x = ρ y → x = y) (ho : ρ c!"object" = c!"object")
include hρ ho

/-- C112, constraints over trajectories. -/
theorem C112_constraint {s s' r : List Char} {g : ConGD} (hs : Renames ρ s s') (hg : parseConGd s = .ok g r) :
    ∃ g' r', parseConGd s' = .ok g' r' ∧ Renames ρ r r' ∧
      ∀ (M : Interp) (tr : List (Snapshot M)) (e : M.Env), ConGD.On M g' tr e ↔
        ConGD.On (M.pull ρ) g (tr.map (Snapshot.pull ρ)) (M.pullEnv ρ e) := by
  obtain ⟨r', h1, h2⟩ := (parseConGd_equi ho).meaning hs hg
  exact ⟨_, r', h1, h2, fun M tr e => ConGD.rename_on M hρ g tr e⟩

/-- C112, durative conditions. -/
theorem C112_durative_condition {s s' r : List Char} {g : DaGD} (hs : Renames ρ s s') (hg : parseDaGd s = .ok g r) :
    ∃ g' r', parseDaGd s' = .ok g' r' ∧ Renames ρ r r' ∧
      ∀ (M : Interp) (k : Course M) (e : M.Env), DaGD.Met M k g' e ↔
        DaGD.Met (M.pull ρ) (k.pull ρ) g (M.pullEnv ρ e) := by
  obtain ⟨r', h1, h2⟩ := (parseDaGd_equi ho).meaning hs hg
  exact ⟨_, r', h1, h2, fun M k e => DaGD.rename_met M hρ k g e⟩

/-- C112, durative effects: what is done is what was done in the old words, with the names exchanged. -/
theorem C112_durative_effect {s s' r : List Char} {x : DaEffect} (hs : Renames ρ s s') (hx : parseDaEffect s = .ok x r) :
    ∃ x' r', parseDaEffect s' = .ok x' r' ∧ Renames ρ r r' ∧
      ∀ (M : Interp) (k : Course M) (e : M.Env) (d : Deed M), DaEffect.Does M k d x' e ↔
        ∃ d', d = d'.rename ρ ∧ DaEffect.Does (M.pull ρ) (k.pull ρ) d' x (M.pullEnv ρ e) := by
  obtain ⟨r', h1, h2⟩ := (parseDaEffect_equi ho).meaning hs hx
  exact ⟨_, r', h1, h2, fun M k e d => DaEffect.rename_does M hρ k d x e⟩

end

theorem swapWord_object {a b : List Char} (ha : Unreserved a) (hb : Unreserved b) :
    swapWord a b c!"object" = c!"object" := by
  have other : ∀ {w}, w ∈ reserved → swapWord a b w = w := fun {w} h => by
    unfold swapWord
    split
    · rename_i e
      exact absurd (List.prefix_refl _) (e ▸ ha w h)
    · split
      · rename_i e
        exact absurd (List.prefix_refl _) (e ▸ hb w h)
      · rfl
  exact other (by decide)

/-- Instances: the predicate `p` is renamed to `z` in a constraint, and the function `f` in a durative effect. -/
example :
    (∃ g' r', parseConGd (renameText (renameOne c!"p" c!"z") c!"(forall (?x) (sometime-after (p ?x) (q ?x)))") = .ok g' r' ∧
      ∀ (M : Interp) (tr : List (Snapshot M)) (e : M.Env), ConGD.On M g' tr e ↔
        ConGD.On (M.pull (swapWord c!"p" c!"z")) (.forall_ [⟨.str c!"x", objectTy⟩] (.sometimeAfter
          (.goal (.atomic (.predicate (.str c!"p") [.var (.str c!"x")])))
          (.goal (.atomic (.predicate (.str c!"q") [.var (.str c!"x")])))))
          (tr.map (Snapshot.pull (swapWord c!"p" c!"z"))) (M.pullEnv (swapWord c!"p" c!"z") e)) ∧
    renameText (renameOne c!"p" c!"z") c!"(forall (?x) (sometime-after (p ?x) (q ?x)))" =
      c!"(forall (?x) (sometime-after (z ?x) (q ?x)))" := by
  refine ⟨?_, by decide +kernel⟩
  obtain ⟨g', r', h1, -, h3⟩ := C112_constraint (swapWord_inj c!"p" c!"z")
    (swapWord_object (by decide) (by decide))
    (renames_fresh (a := c!"p") (b := c!"z") (s := c!"(forall (?x) (sometime-after (p ?x) (q ?x)))") (by decide)
      ⟨'z', [], rfl, by decide, by decide⟩ (by decide) (by decide +kernel) (by decide +kernel))
    (g := .forall_ [⟨.str c!"x", objectTy⟩] (.sometimeAfter
          (.goal (.atomic (.predicate (.str c!"p") [.var (.str c!"x")])))
          (.goal (.atomic (.predicate (.str c!"q") [.var (.str c!"x")]))))) (r := []) rfl
  exact ⟨g', r', h1, h3⟩

example : ∃ x' r', parseDaEffect (renameText (renameOne c!"f" c!"z") c!"(when (at start (p)) (at end (increase (f) (+ ?duration (f)))))")
      = .ok x' r' ∧ ∀ (M : Interp) (k : Course M) (e : M.Env),
      DaEffect.Does M k (.change .end_ (.number .increase c!"z" []
        (M.bin .add k.duration (k.finish.fluent c!"z" [])))) x' e ↔ k.start.pred c!"p" [] := by
  obtain ⟨x', r', h1, -, h3⟩ := C112_durative_effect (swapWord_inj c!"f" c!"z")
    (swapWord_object (by decide) (by decide))
    (renames_fresh (a := c!"f") (b := c!"z") (s := c!"(when (at start (p)) (at end (increase (f) (+ ?duration (f)))))")
      (by decide) ⟨'z', [], rfl, by decide, by decide⟩ (by decide) (by decide +kernel) (by decide +kernel))
    (x := .when (.timed (.required (.at .start (exAtom c!"p")))) (.numericFluent .end_
        ⟨.increase, .simple (.str c!"f"), .binaryOp .add .duration (.fExp (.function (.simple (.str c!"f"))))⟩))
    (r := []) rfl
  refine ⟨x', r', h1, fun M k e => (h3 M k e _).trans ⟨fun ⟨d', _, h, _⟩ => h, fun h => ⟨_, ?_, h, rfl⟩⟩⟩
  rfl

/-- Not so for a word that does occur: the variable `?y` is caught if it is renamed to `?x`. -/
theorem C112_capture : ∃ (g g' : DaGD), parseDaGd c!"(forall (?x) (at start (p ?x ?y)))" = .ok g [] ∧
    parseDaGd (renameText (renameOne c!"y" c!"x") c!"(forall (?x) (at start (p ?x ?y)))") = .ok g' [] ∧
    ∃ (M : Interp) (k : Course M) (e : M.Env), ¬ (DaGD.Met M k g' e ↔
      DaGD.Met (M.pull (renameOne c!"y" c!"x")) (k.pull (renameOne c!"y" c!"x")) g
        (M.pullEnv (renameOne c!"y" c!"x") e)) := by
  let s : Snapshot exWhole := { exCourse.start with pred := fun _ os => ∃ a : Nat, os = [a, a] }
  refine ⟨.forall_ [⟨.str c!"x", objectTy⟩] (.timed (.required (.at .start (.atomic
      (.predicate (.str c!"p") [.var (.str c!"x"), .var (.str c!"y")]))))),
    .forall_ [⟨.str c!"x", objectTy⟩] (.timed (.required (.at .start (.atomic
      (.predicate (.str c!"p") [.var (.str c!"x"), .var (.str c!"x")]))))),
    rfl, rfl, exWhole, { exCourse with start := s }, fun _ => (0 : Nat), fun h => ?_⟩
  obtain ⟨a, h⟩ := h.mp (fun (o : Nat) _ => ⟨o, rfl⟩) (1 : Nat) trivial
  have h : @Eq (List Nat) [1, 0] [a, a] := h
  injection h with h1 h2
  injection h2 with h2
  omega

end Pddl
