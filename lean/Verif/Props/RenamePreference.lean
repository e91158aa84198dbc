import Verif.Props.PreferenceMeaning
import Verif.Props.RenameTime

/-!
# C116: renaming keeps which preferences are violated, and the values of metrics
-/

namespace Pddl

section
variable (M : Interp) {ρ : List Char → List Char} (hρ : ∀ x y, ρ x = ρ y → x = y)

local notation "φ" => Name.rename ρ

include hρ

theorem rename_name_eq (m n : Option Name) (k : Option (List Char)) (hk : m = n.map φ) :
    m.map Name.text = k.map ρ ↔ n.map Name.text = k := by
  subst hk
  cases n <;> cases k <;> simp [Name.rename_text]
  exact ⟨hρ _ _, congrArg ρ⟩

mutual
theorem PreGD.rename_breaks (n : Option (List Char)) : (g : PreGD) → ∀ e : M.Env,
    PreGD.Breaks M (n.map ρ) (g.mapNames φ) e ↔ PreGD.Breaks (M.pull ρ) n g (M.pullEnv ρ e)
  | .preference (.goal g) => fun e => by
    simp only [PreGD.mapNames, PrefGD.mapNames, PreGD.Breaks]
  | .preference (.preference m g) => fun e => by
    simp only [PreGD.mapNames, PrefGD.mapNames, PreGD.Breaks]
    exact and_congr (rename_name_eq hρ _ m n rfl) (not_congr (GD.rename_holds M hρ g e))
  | .forall_ vs gs => fun e => by
    simp only [PreGD.mapNames, PreGD.Breaks]; exact ForSome.rename hρ (PreGD.rename_breakSome n gs) vs e
theorem PreGD.rename_breakSome (n : Option (List Char)) : (gs : List PreGD) → ∀ e : M.Env,
    PreGD.BreakSome M (n.map ρ) (PreGD.mapNamesL φ gs) e ↔ PreGD.BreakSome (M.pull ρ) n gs (M.pullEnv ρ e)
  | [] => fun _ => Iff.rfl
  | g :: gs => fun e => by
    simp only [PreGD.mapNamesL, PreGD.BreakSome]
    exact or_congr (PreGD.rename_breaks n g e) (PreGD.rename_breakSome n gs e)
end

variable (tr : List (Snapshot M))

mutual
theorem PrefConGD.rename_holds : (g : PrefConGD) → ∀ e : M.Env,
    PrefConGD.Holds M (fun c e => c.On M tr e) (g.mapNames φ) e ↔
      PrefConGD.Holds (M.pull ρ) (fun c e => c.On (M.pull ρ) (tr.map (Snapshot.pull ρ)) e) g (M.pullEnv ρ e)
  | .goal g => fun e => by
    simp only [PrefConGD.mapNames, PrefConGD.Holds]
    exact (ConGD.holds_on _ e).trans ((ConGD.rename_on M hρ g tr e).trans (ConGD.holds_on g _).symm)
  | .preference _ _ => fun e => by simp only [PrefConGD.mapNames, PrefConGD.Holds]
  | .forall_ vs gs => fun e => by
    simp only [PrefConGD.mapNames, PrefConGD.Holds]; exact ForEach.rename hρ (PrefConGD.rename_allHold gs) vs e
theorem PrefConGD.rename_allHold : (gs : List PrefConGD) → ∀ e : M.Env,
    PrefConGD.AllHold M (fun c e => c.On M tr e) (PrefConGD.mapNamesL φ gs) e ↔
      PrefConGD.AllHold (M.pull ρ) (fun c e => c.On (M.pull ρ) (tr.map (Snapshot.pull ρ)) e) gs (M.pullEnv ρ e)
  | [] => fun _ => Iff.rfl
  | g :: gs => fun e => by
    simp only [PrefConGD.mapNamesL, PrefConGD.AllHold]
    exact and_congr (PrefConGD.rename_holds g e) (PrefConGD.rename_allHold gs e)
end

mutual
theorem PrefConGD.rename_breaks (n : Option (List Char)) : (g : PrefConGD) → ∀ e : M.Env,
    PrefConGD.Breaks M tr (n.map ρ) (g.mapNames φ) e ↔
      PrefConGD.Breaks (M.pull ρ) (tr.map (Snapshot.pull ρ)) n g (M.pullEnv ρ e)
  | .goal g => fun e => by
    simp only [PrefConGD.mapNames, PrefConGD.Breaks]
  | .preference m g => fun e => by
    simp only [PrefConGD.mapNames, PrefConGD.Breaks]
    exact and_congr (rename_name_eq hρ _ m n rfl) (not_congr (ConGD.rename_on M hρ g tr e))
  | .forall_ vs gs => fun e => by
    simp only [PrefConGD.mapNames, PrefConGD.Breaks]; exact ForSome.rename hρ (PrefConGD.rename_breakSome n gs) vs e
theorem PrefConGD.rename_breakSome (n : Option (List Char)) : (gs : List PrefConGD) → ∀ e : M.Env,
    PrefConGD.BreakSome M tr (n.map ρ) (PrefConGD.mapNamesL φ gs) e ↔
      PrefConGD.BreakSome (M.pull ρ) (tr.map (Snapshot.pull ρ)) n gs (M.pullEnv ρ e)
  | [] => fun _ => Iff.rfl
  | g :: gs => fun e => by
    simp only [PrefConGD.mapNamesL, PrefConGD.BreakSome]
    exact or_congr (PrefConGD.rename_breaks n g e) (PrefConGD.rename_breakSome n gs e)
end

omit hρ

variable (ρ)

mutual
theorem MetricFExp.rename_denote (d : M.Num) (k : List Char → M.Num) : (x : MetricFExp) →
    (x.mapNames φ).denote M d k = x.denote (M.pull ρ) d (fun n => k (ρ n))
  | .binaryOp op a b => by
    simp only [MetricFExp.mapNames, MetricFExp.denote, MetricFExp.rename_denote d k a, MetricFExp.rename_denote d k b]
    rfl
  | .multiOp op a bs => by
    simp only [MetricFExp.mapNames, MetricFExp.denote, MetricFExp.rename_denote d k a, MetricFExp.rename_denotes d k bs]
    rfl
  | .negative a => by
    simp only [MetricFExp.mapNames, MetricFExp.denote, MetricFExp.rename_denote d k a]
    rfl
  | .number _ => rfl
  | .function f ns => by
    simp only [MetricFExp.mapNames, MetricFExp.denote, Name.rename_text, List.map_map]
    show M.fluent (ρ f.text) _ = M.fluent (ρ f.text) _
    congr 1
    refine List.map_congr_left fun n _ => ?_
    show M.const (n.rename ρ).text = M.const (ρ n.text)
    rw [Name.rename_text]
  | .totalTime => rfl
  | .isViolated p => by simp only [MetricFExp.mapNames, MetricFExp.denote, Name.rename_text]
theorem MetricFExp.rename_denotes (d : M.Num) (k : List Char → M.Num) : (xs : List MetricFExp) →
    MetricFExp.denotes M d k (MetricFExp.mapNamesL φ xs) =
      MetricFExp.denotes (M.pull ρ) d (fun n => k (ρ n)) xs
  | [] => rfl
  | x :: xs => by
    simp only [MetricFExp.mapNamesL, MetricFExp.denotes, MetricFExp.rename_denote d k x,
      MetricFExp.rename_denotes d k xs]
    rfl
end

end

theorem PrefConGD.mapNamesL_map (f : Name → Name) (gs : List PrefConGD) :
    PrefConGD.mapNamesL f gs = gs.map (PrefConGD.mapNames f) := by
  induction gs with
  | nil => rfl
  | cons g gs ih => simp [PrefConGD.mapNamesL, ih]

section
variable {ρ : List Char → List Char} (hρ : ∀ x y, ρ x = ρ y → x = y) (ho : ρ c!"object" = c!"object")
include hρ ho

/-- C116. A preference in a condition is violated just where it was with the old words, under its new name. -/
theorem C116_precondition {s s' r : List Char} {g : List PreGD} (hs : Renames ρ s s') (hg : parsePreGd s = .ok g r) :
    ∃ g' r', parsePreGd s' = .ok g' r' ∧ Renames ρ r r' ∧
      ∀ (M : Interp) (n : Option (List Char)) (e : M.Env),
        PreGD.BreakSome M (n.map ρ) g' e ↔ PreGD.BreakSome (M.pull ρ) n g (M.pullEnv ρ e) := by
  obtain ⟨r', h1, h2⟩ := (parsePreGd_equi ho).meaning hs hg
  rw [← PreGD.mapNamesL_map] at h1
  exact ⟨_, r', h1, h2, fun M n e => PreGD.rename_breakSome M hρ n g e⟩

/-- C116, constraints of a problem: also what they demand is the same. -/
theorem C116_constraints {s s' r : List Char} {g : List PrefConGD} (hs : Renames ρ s s')
    (hg : parsePrefConGd s = .ok g r) :
    ∃ g' r', parsePrefConGd s' = .ok g' r' ∧ Renames ρ r r' ∧
      ∀ (M : Interp) (tr : List (Snapshot M)) (e : M.Env),
        (PrefConGD.AllHold M (fun c e => c.On M tr e) g' e ↔ PrefConGD.AllHold (M.pull ρ)
          (fun c e => c.On (M.pull ρ) (tr.map (Snapshot.pull ρ)) e) g (M.pullEnv ρ e)) ∧
        ∀ n : Option (List Char), PrefConGD.BreakSome M tr (n.map ρ) g' e ↔
          PrefConGD.BreakSome (M.pull ρ) (tr.map (Snapshot.pull ρ)) n g (M.pullEnv ρ e) := by
  obtain ⟨r', h1, h2⟩ := (parsePrefConGd_equi ho).meaning hs hg
  rw [← PrefConGD.mapNamesL_map] at h1
  exact ⟨_, r', h1, h2, fun M tr e =>
    ⟨PrefConGD.rename_allHold M hρ tr g e, fun n => PrefConGD.rename_breakSome M hρ tr n g e⟩⟩

end

/-- C116, metrics: the same number, and as before the least or the greatest is best, if the violations of the
preferences are counted under their new names. Here the new names need not differ. -/
theorem C116_metric {ρ : List Char → List Char} {s s' r : List Char} {x : MetricSpec} (hs : Renames ρ s s')
    (hx : parseProblemMetricSpec s = .ok x r) :
    ∃ x' r', parseProblemMetricSpec s' = .ok x' r' ∧ Renames ρ r r' ∧ x'.optimization = x.optimization ∧
      ∀ (M : Interp) (d : M.Num) (k : List Char → M.Num),
        x'.exp.denote M d k = x.exp.denote (M.pull ρ) d (fun n => k (ρ n)) := by
  obtain ⟨r', h1, h2⟩ := parseProblemMetricSpec_equi.meaning hs hx
  exact ⟨_, r', h1, h2, rfl, fun M d k => MetricFExp.rename_denote M ρ d k x.exp⟩

/-- Instances: the preference `a` is renamed to `z`, in a goal, a constraint and a metric. -/
example :
    (∃ g' r', parsePreGd (renameText (renameOne c!"a" c!"z") c!"(and (p) (preference a (q)))") = .ok g' r' ∧
      ∀ (M : Interp) (e : M.Env), PreGD.BreakSome M (some c!"z") g' e ↔ ¬ M.pred c!"q" []) ∧
    renameText (renameOne c!"a" c!"z") c!"(and (p) (preference a (q)))" = c!"(and (p) (preference z (q)))" := by
  refine ⟨?_, by decide +kernel⟩
  obtain ⟨g', r', h1, -, h3⟩ := C116_precondition (swapWord_inj c!"a" c!"z")
    (swapWord_object (by decide) (by decide))
    (renames_fresh (a := c!"a") (b := c!"z") (s := c!"(and (p) (preference a (q)))") (by decide)
      ⟨'z', [], rfl, by decide, by decide⟩ (by decide) (by decide +kernel) (by decide +kernel))
    (g := [.preference (.goal (exAtom c!"p")), .preference (.preference (some (.str c!"a")) (exAtom c!"q"))])
    (r := []) rfl
  refine ⟨g', r', h1, fun M e => (h3 M (some c!"a") e).trans ?_⟩
  refine ⟨fun h => ?_, fun h => .inr (.inl ⟨rfl, h⟩)⟩
  rcases h with h | h | h
  · cases h
  · exact h.2
  · cases h

example : ∃ g' r', parsePrefConGd (renameText (renameOne c!"a" c!"z") c!"(preference a (at end (q)))") = .ok g' r' ∧
    ∀ (M : Interp) (tr : List (Snapshot M)) (e : M.Env), PrefConGD.AllHold M (fun c e => c.On M tr e) g' e ∧
      (PrefConGD.BreakSome M tr (some c!"z") g' e ↔ PrefConGD.BreakSome (M.pull (swapWord c!"a" c!"z"))
        (tr.map (Snapshot.pull (swapWord c!"a" c!"z"))) (some c!"a")
        [.preference (some (.str c!"a")) (.atEnd (exAtom c!"q"))] (M.pullEnv (swapWord c!"a" c!"z") e)) := by
  obtain ⟨g', r', h1, -, h3⟩ := C116_constraints (swapWord_inj c!"a" c!"z")
    (swapWord_object (by decide) (by decide))
    (renames_fresh (a := c!"a") (b := c!"z") (s := c!"(preference a (at end (q)))") (by decide)
      ⟨'z', [], rfl, by decide, by decide⟩ (by decide) (by decide +kernel) (by decide +kernel))
    (g := [.preference (some (.str c!"a")) (.atEnd (exAtom c!"q"))]) (r := []) rfl
  exact ⟨g', r', h1, fun M tr e => ⟨(h3 M tr e).1.mpr ⟨trivial, trivial⟩, (h3 M tr e).2 (some c!"a")⟩⟩

example : ∃ x' r', parseProblemMetricSpec (renameText (renameOne c!"a" c!"z") c!"(:metric minimize (is-violated a))") =
      .ok x' r' ∧ x'.optimization = .minimize ∧
    ∀ (M : Interp) (d : M.Num) (k : List Char → M.Num), x'.exp.denote M d k = k c!"z" := by
  obtain ⟨x', r', h1, -, h2, h3⟩ := C116_metric
    (renames_fresh (a := c!"a") (b := c!"z") (s := c!"(:metric minimize (is-violated a))") (by decide)
      ⟨'z', [], rfl, by decide, by decide⟩ (by decide) (by decide +kernel) (by decide +kernel))
    (x := ⟨.minimize, .isViolated (.str c!"a")⟩) (r := []) rfl
  exact ⟨x', r', h1, h2, fun M d k => (h3 M d k).trans rfl⟩

end Pddl
