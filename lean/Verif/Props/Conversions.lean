import Verif.Conversions
import Verif.Props.Compose
import Verif.Props.Types
import Verif.Props.Quirks

/-!
# C74, C75: values built by hand are the values read from text; conjunctions of one part

`Listed`, `Wrapped`, `Paired` and `Tripled` (`Verif/Props/Compose.lean`) describe the texts
`(kw x₁ … xₙ)`, `(kw x)`, `(kw x y)` and `(kw x y z)` whose parts are read as the given values.
-/

namespace Pddl

/-! ## Every constructor gives the value of the form it is named after -/

theorem C74_goals {vs : List GD} {vars : TypedList Name} {a b : GD} {t : List Char} :
    (ReadsAs parseGd (GD.newAnd vs) t ↔ Listed c!"and" (ReadsAs parseGd) vs t) ∧
    (ReadsAs parseGd (GD.newOr vs) t ↔ Listed c!"or" (ReadsAs parseGd) vs t) ∧
    (ReadsAs parseGd (GD.newNot a) t ↔ Wrapped c!"not" (ReadsAs parseGd) a t) ∧
    (ReadsAs parseGd (GD.newImply a b) t ↔
      Paired c!"imply" (ReadsAs parseGd) (ReadsAs parseGd) a b t) ∧
    (ReadsAs parseGd (GD.newExists vars a) t ↔
      Paired c!"exists" (ReadsAs parseVarList) (ReadsAs parseGd) vars a t) ∧
    (ReadsAs parseGd (GD.newForall vars a) t ↔
      Paired c!"forall" (ReadsAs parseVarList) (ReadsAs parseGd) vars a t) ∧
    (ReadsAs parseGd (GD.newImplyTuple (a, b)) t ↔
      Paired c!"imply" (ReadsAs parseGd) (ReadsAs parseGd) a b t) ∧
    (ReadsAs parseGd (GD.newExistsTuple (vars, a)) t ↔
      Paired c!"exists" (ReadsAs parseVarList) (ReadsAs parseGd) vars a t) ∧
    (ReadsAs parseGd (GD.newForallTuple (vars, a)) t ↔
      Paired c!"forall" (ReadsAs parseVarList) (ReadsAs parseGd) vars a t) :=
  ⟨C73_goal_and, C73_goal_or, C73_goal_not, C73_goal_imply, C73_goal_exists, C73_goal_forall,
    C73_goal_imply, C73_goal_exists, C73_goal_forall⟩

theorem C74_preferences {n : Name} {g : GD} {t : List Char} :
    (ReadsAs parsePrefGd (PrefGD.ofNamed (n, g)) t ↔
      Paired c!"preference" NameW (ReadsAs parseGd) n g t) ∧
    (ReadsAs parsePrefGd (PrefGD.ofTuple (some n, g)) t ↔
      Paired c!"preference" NameW (ReadsAs parseGd) n g t) ∧
    (ReadsAs parsePrefGd (PrefGD.ofTuple (none, g)) t ↔
      Wrapped c!"preference" (ReadsAs parseGd) g t) ∧
    (ReadsAs parsePrefGd (PrefGD.anonymous g) t ↔ Wrapped c!"preference" (ReadsAs parseGd) g t) ∧
    (ReadsAs parsePrefGd (PrefGD.ofGoal g) t → ReadsAs parseGd g t) :=
  ⟨C73_preference_named, C73_preference_named, C73_preference_anonymous, C73_preference_anonymous,
    C73_preference_goal⟩

theorem C74_constraints {vs : List ConGD} {vars : TypedList Name} {c : ConGD} {g : GD}
    {a b : Con2GD} {n m : Number} {t : List Char} :
    (ReadsAs parseConGd (ConGD.newAnd vs) t ↔ Listed c!"and" (ReadsAs parseConGd) vs t) ∧
    (ReadsAs parseConGd (ConGD.newForall vars c) t ↔
      Paired c!"forall" (ReadsAs parseVarList) (ReadsAs parseConGd) vars c t) ∧
    (ReadsAs parseConGd (ConGD.newAtEnd g) t ↔ Wrapped c!"at end" (ReadsAs parseGd) g t) ∧
    (ReadsAs parseConGd (ConGD.newAlways a) t ↔ Wrapped c!"always" (ReadsAs parseCon2Gd) a t) ∧
    (ReadsAs parseConGd (ConGD.newSometime a) t ↔ Wrapped c!"sometime" (ReadsAs parseCon2Gd) a t) ∧
    (ReadsAs parseConGd (ConGD.newAtMostOnce a) t ↔
      Wrapped c!"at-most-once" (ReadsAs parseCon2Gd) a t) ∧
    (ReadsAs parseConGd (ConGD.newWithin n a) t ↔
      Paired c!"within" NumW (ReadsAs parseCon2Gd) n a t) ∧
    (ReadsAs parseConGd (ConGD.newHoldAfter n a) t ↔
      Paired c!"hold-after" NumW (ReadsAs parseCon2Gd) n a t) ∧
    (ReadsAs parseConGd (ConGD.newSometimeAfter a b) t ↔
      Paired c!"sometime-after" (ReadsAs parseCon2Gd) (ReadsAs parseCon2Gd) a b t) ∧
    (ReadsAs parseConGd (ConGD.newSometimeBefore a b) t ↔
      Paired c!"sometime-before" (ReadsAs parseCon2Gd) (ReadsAs parseCon2Gd) a b t) ∧
    (ReadsAs parseConGd (ConGD.newAlwaysWithin n a b) t ↔
      Tripled c!"always-within" NumW Sep (ReadsAs parseCon2Gd) (ReadsAs parseCon2Gd) n a b t) ∧
    (ReadsAs parseConGd (ConGD.newHoldDuring n m a) t ↔
      Tripled c!"hold-during" NumW Sp NumW (ReadsAs parseCon2Gd) n m a t) :=
  ⟨C73_constraint_and, C73_constraint_forall, C73_constraint_at_end, C73_constraint_always,
    C73_constraint_sometime, C73_constraint_at_most_once, C73_constraint_within,
    C73_constraint_hold_after, C73_constraint_sometime_after, C73_constraint_sometime_before,
    C73_constraint_always_within, C73_constraint_hold_during⟩

theorem C74_effects {ps : List PEffect} {vars : TypedList Name} {es : List CEffect} {g : GD}
    {e : CondEffect} {p : PEffect} {t : List Char} :
    (ReadsAs parseCondEffect (CondEffect.ofIter ps) t ↔ Listed c!"and" (ReadsAs parsePEffect) ps t) ∧
    (ReadsAs parseCondEffect (CondEffect.ofPEffect p) t → ReadsAs parsePEffect p t) ∧
    (ReadsAs parseCEffect (CEffect.ofForall (vars, es)) t ↔
      Paired c!"forall" (ReadsAs parseVarList) (ReadsAs parseEffect) vars es t) ∧
    (ReadsAs parseCEffect (CEffect.ofWhen (g, e)) t ↔
      Paired c!"when" (ReadsAs parseGd) (ReadsAs parseCondEffect) g e t) ∧
    (ReadsAs parseCEffect (CEffect.ofPEffect p) t → ReadsAs parsePEffect p t) ∧
    (Listed c!"and" (ReadsAs parseCEffect) es t → ReadsAs parseEffect (CEffect.newAnd es) t) :=
  ⟨C73_cond_effect_and, C73_cond_effect_single, C73_effect_forall, C73_effect_when,
    C73_effect_simple, C73_effect_and⟩

theorem C74_durative {o : TimeSpecifier} {i : Interval} {g : GD} {d : TimedGD} {n : Name}
    {ds : List DaGD} {vars : TypedList Name} {c : DaGD} {es : List DaEffect} {e : DaEffect}
    {te : TimedEffect} {t : List Char} :
    (ReadsAs parseTimedGd (TimedGD.ofAt (o, g)) t ↔
      Paired c!"at" (fun o x => x = TimeSpecifier.spell o) (ReadsAs parseGd) o g t) ∧
    (ReadsAs parseTimedGd (TimedGD.ofOver (i, g)) t ↔
      Paired c!"over" (fun o x => x = Interval.spell o) (ReadsAs parseGd) i g t) ∧
    (ReadsAs parsePrefTimedGd (PrefTimedGD.ofTuple (some n, d)) t ↔
      Paired c!"preference" NameW (ReadsAs parseTimedGd) n d t) ∧
    (ReadsAs parsePrefTimedGd (PrefTimedGD.ofTuple (none, d)) t ↔
      Wrapped c!"preference" (ReadsAs parseTimedGd) d t) ∧
    (ReadsAs parsePrefTimedGd (PrefTimedGD.ofTimed d) t → ReadsAs parseTimedGd d t) ∧
    (ReadsAs parseDaGd (DaGD.newAnd ds) t ↔ Listed c!"and" (ReadsAs parseDaGd) ds t) ∧
    (ReadsAs parseDaGd (DaGD.newForall vars c) t ↔
      Paired c!"forall" (ReadsAs parseVarList) (ReadsAs parseDaGd) vars c t) ∧
    (ReadsAs parseDaGd (DaGD.newTimed (PrefTimedGD.ofTimed d)) t → ReadsAs parseTimedGd d t) ∧
    (ReadsAs parseDaEffect (DaEffect.ofIter es) t ↔ Listed c!"and" (ReadsAs parseDaEffect) es t) ∧
    (ReadsAs parseDaEffect (DaEffect.newForall vars e) t ↔
      Paired c!"forall" (ReadsAs parseVarList) (ReadsAs parseDaEffect) vars e t) ∧
    (ReadsAs parseDaEffect (DaEffect.newWhen c te) t ↔
      Paired c!"when" (ReadsAs parseDaGd) (ReadsAs parseTimedEffect) c te t) ∧
    (ReadsAs parseDaEffect (DaEffect.ofTimed te) t → ReadsAs parseTimedEffect te t) :=
  ⟨C73_timed_at, C73_timed_over, C73_timed_preference_named, C73_timed_preference_anonymous,
    C73_timed_required, C73_da_condition_and, C73_da_condition_forall,
    fun h => C73_timed_required (C73_da_condition_timed h), C73_da_effect_and, C73_da_effect_forall,
    C73_da_effect_when, C73_da_effect_timed⟩

theorem Items.singles {R : List α → List Char → Prop} {vs : List α} {u : List Char}
    (h : Items (fun v t => R [v] t) vs u) : Items R (vs.map fun v => [v]) u := by
  induction h with
  | one h => exact .one h
  | cons h hg _ ih => exact .cons h hg ih

theorem Listed.singles {kw : List Char} {R : List α → List Char → Prop} {vs : List α} {t : List Char}
    (h : Listed kw (fun v t => R [v] t) vs t) : Listed kw R (vs.map fun v => [v]) t := by
  obtain ⟨u, rfl, h⟩ := h
  refine ⟨u, rfl, ?_⟩
  cases h with
  | nil h => exact .nil h
  | cons h1 h h2 => exact .cons h1 h.singles h2

/-- Preconditions: conjunctions of single conditions, quantified conditions and preferences. -/
theorem C74_preconditions {vs : List PreGD} {vars : TypedList Name} {gs : List PreGD} {t : List Char} :
    (Listed c!"and" (fun v => ReadsAs parsePreGd (PreGD.list v)) vs t →
      ReadsAs parsePreGd (PreGD.newAnd vs) t) ∧
    (Paired c!"forall" (ReadsAs parseVarList) (ReadsAs parsePreGd) vars gs t →
      ReadsAs parsePreGd (PreGD.listForall vars gs) t) := by
  refine ⟨fun h => ?_, C73_precondition_forall⟩
  have := C73_precondition_and (Listed.singles h)
  rwa [flatten_singles] at this

/-- Constraints of problems. -/
theorem C74_pref_constraints {vs : List PrefConGD} {vars : TypedList Name} {gs : List PrefConGD}
    {n : Name} {c : ConGD} {t : List Char} :
    (Listed c!"and" (fun v => ReadsAs parsePrefConGd (PrefConGD.list v)) vs t →
      ReadsAs parsePrefConGd vs t) ∧
    (Paired c!"forall" (ReadsAs parseVarList) (ReadsAs parsePrefConGd) vars gs t →
      ReadsAs parsePrefConGd (PrefConGD.newForall vars gs) t) ∧
    (Paired c!"preference" NameW (ReadsAs parseConGd) n c t →
      ReadsAs parsePrefConGd (PrefConGD.newPreference (some n) c) t) ∧
    (Wrapped c!"preference" (ReadsAs parseConGd) c t →
      ReadsAs parsePrefConGd (PrefConGD.newPreference none c) t) := by
  refine ⟨fun h => ?_, C73_pref_constraint_forall, C73_pref_constraint_named,
    C73_pref_constraint_anonymous⟩
  have := C73_pref_constraint_and (Listed.singles h)
  rwa [flatten_singles] at this

/-! ## C75: conjunctions of one part -/

/-- `(and x)` with any layout. -/
def Alone (x t : List Char) : Prop := ∃ g g', t = paren (c!"and" ++ (g ++ (x ++ g'))) ∧ Gap g ∧ Gap g'

theorem Alone.listed {R : α → List Char → Prop} {v : α} {x t : List Char} (h : Alone x t) (hx : R v x) :
    Listed c!"and" R [v] t := by
  obtain ⟨g, g', rfl, hg, hg'⟩ := h
  exact ⟨_, rfl, .cons hg (.one hx) hg'⟩

/-- Preconditions: `(and x)` means `x`. -/
theorem C75_precondition_partial {v : List PreGD} {x t : List Char} (h : Alone x t)
    (hx : ReadsAs parsePreGd v x) : ReadsAs parsePreGd v t := by
  have := C73_precondition_and (h.listed hx)
  rwa [List.flatten_singleton] at this

/-- Constraints of problems: `(and x)` means `x`. -/
theorem C75_pref_constraint_partial {v : List PrefConGD} {x t : List Char} (h : Alone x t)
    (hx : ReadsAs parsePrefConGd v x) : ReadsAs parsePrefConGd v t := by
  have := C73_pref_constraint_and (h.listed hx)
  rwa [List.flatten_singleton] at this

/-- Effects: `x` and `(and x)` are both read as `Effects::from(e)`, from which `try_into` gets the
effect back. -/
theorem C75_effect_partial {e : CEffect} {x t : List Char} (h : Alone x t)
    (hx : ReadsAs parseCEffect e x) (hand : ¬ ∃ u, x = '(' :: (c!"and" ++ u)) :
    ReadsAs parseEffect (CEffect.list e) x ∧ ReadsAs parseEffect (CEffect.list e) t ∧
      CEffect.trySingle (CEffect.list e) = some e := by
  refine ⟨⟨hx.1, ?_⟩, C73_effect_and (h.listed hx), rfl⟩
  have hm : prefixExpr c!"and" (spaceSeparatedList0 parseCEffect) x = .err := by
    obtain ⟨s, rfl⟩ := C27_c_effects.open hx
    refine prefixExpr_kw ?_
    cases hs : stripPrefix c!"and" s with
    | none => rfl
    | some u => exact absurd ⟨u, congrArg ('(' :: ·) (tag_inv (t := c!"and") (v := c!"and") (by rw [tag, hs])).2⟩ hand
  rw [parseEffect, effectOf, alt_miss hm]
  exact alt_hit (map_run hx.2)

/-- Goals: `(and x)` is read as a conjunction, which is another value than that of `x`. -/
theorem C75_false_goal {v : GD} {x t : List Char} (h : Alone x t) (hx : ReadsAs parseGd v x) :
    ReadsAs parseGd (GD.newAnd [v]) t ∧ GD.newAnd [v] ≠ v := by
  refine ⟨C73_goal_and.mpr (h.listed hx), fun e => ?_⟩
  have := congrArg sizeOf e
  simp [GD.newAnd] at this
  omega

theorem C75_false_constraint {v : ConGD} {x t : List Char} (h : Alone x t) (hx : ReadsAs parseConGd v x) :
    ReadsAs parseConGd (ConGD.newAnd [v]) t ∧ ConGD.newAnd [v] ≠ v := by
  refine ⟨C73_constraint_and.mpr (h.listed hx), fun e => ?_⟩
  have := congrArg sizeOf e
  simp [ConGD.newAnd] at this
  omega

theorem C75_false_da_condition {v : DaGD} {x t : List Char} (h : Alone x t) (hx : ReadsAs parseDaGd v x) :
    ReadsAs parseDaGd (DaGD.newAnd [v]) t ∧ DaGD.newAnd [v] ≠ v := by
  refine ⟨C73_da_condition_and.mpr (h.listed hx), fun e => ?_⟩
  have := congrArg sizeOf e
  simp [DaGD.newAnd] at this
  omega

theorem C75_false_da_effect {v : DaEffect} {x t : List Char} (h : Alone x t)
    (hx : ReadsAs parseDaEffect v x) :
    ReadsAs parseDaEffect (DaEffect.ofIter [v]) t ∧ DaEffect.ofIter [v] ≠ v := by
  refine ⟨C73_da_effect_and.mpr (h.listed hx), fun e => ?_⟩
  have := congrArg sizeOf e
  simp [DaEffect.ofIter] at this
  omega

/-- Conditional effects: the two values differ, but iteration gives the same effect. -/
theorem C75_false_cond_effect {p : PEffect} {x t : List Char} (h : Alone x t)
    (hx : ReadsAs parsePEffect p x) :
    ReadsAs parseCondEffect (CondEffect.ofIter [p]) t ∧ CondEffect.ofIter [p] ≠ CondEffect.ofPEffect p ∧
      (CondEffect.ofIter [p]).Members [p] ∧ (CondEffect.ofPEffect p).Members [p] :=
  ⟨C73_cond_effect_and.mpr (h.listed hx), (by simp [CondEffect.ofIter, CondEffect.ofPEffect]), .all _,
    .single _⟩

/-! ## Taking effects apart -/

/-- `TryInto` of an effect undoes exactly the corresponding `From`, and exactly one of the three
succeeds. -/
theorem C74_effect_kinds (e : CEffect) :
    (∀ p, e.tryPEffect = some p ↔ e = CEffect.ofPEffect p) ∧
    (∀ x, e.tryForall = some x ↔ e = CEffect.ofForall x) ∧
    (∀ x, e.tryWhen = some x ↔ e = CEffect.ofWhen x) ∧
    ((e.tryPEffect.isSome ∧ e.tryForall = none ∧ e.tryWhen = none) ∨
      (e.tryPEffect = none ∧ e.tryForall.isSome ∧ e.tryWhen = none) ∨
      (e.tryPEffect = none ∧ e.tryForall = none ∧ e.tryWhen.isSome)) := by
  cases e <;>
    simp [CEffect.tryPEffect, CEffect.tryForall, CEffect.tryWhen, CEffect.ofPEffect, CEffect.ofForall,
      CEffect.ofWhen, Prod.ext_iff, eq_comm]

/-- `TryInto` of a list of effects undoes exactly `From`. -/
theorem C74_effect_single (es : List CEffect) (e : CEffect) :
    CEffect.trySingle es = some e ↔ es = CEffect.list e := C42_try_get_single es e

/-- An optional condition survives: nothing becomes the empty list. -/
theorem C74_options (o : Option PreGD) (l : Option (List PreGD)) (c : Option (List PrefConGD)) :
    tryGetSingle (PreGD.ofOption o) = o ∧ (PreGD.ofOption o = [] ↔ o = none) ∧
    (PreGD.ofOptionList l = [] ↔ l = none ∨ l = some []) ∧
    (PrefConGD.ofOptionList c = [] ↔ c = none ∨ c = some []) ∧
    (∀ gs, l = some gs → PreGD.ofOptionList l = gs) ∧ (∀ gs, c = some gs → PrefConGD.ofOptionList c = gs) := by
  refine ⟨?_, ?_, ?_, ?_, ?_, ?_⟩
  · cases o <;> simp [PreGD.ofOption, tryGetSingle]
  · cases o <;> simp [PreGD.ofOption]
  · cases l <;> simp [PreGD.ofOptionList]
  · cases c <;> simp [PrefConGD.ofOptionList]
  · rintro gs rfl; rfl
  · rintro gs rfl; rfl

/-! ## Types -/

/-- Names and variables typed by hand are the ones read from a section of typed names; an element
without type is `Typed::from`. -/
theorem C74_typed_names {gs : Groups Name} {kw g g' t : List Char} (hg : Sep g)
    (h : GroupsW NameW gs t) (hg' : Gap g') (r : List Char) :
    prefixExpr kw (typedList parseName) (paren (kw ++ (g ++ (t ++ g'))) ++ r) =
      .ok (gs.groups.flatMap (fun x => x.1.map fun n => Typed.toTyped n x.2) ++
        gs.untyped.map Typed.ofValue) r := C09_typed_names hg h hg' r

theorem C74_typed_variables {gs : Groups Name} {g t : List Char} (hg : Gap g)
    (h : GroupsW (VarW .strict) gs t) (r : List Char) :
    parseVarList (paren (g ++ t) ++ r) =
      .ok (gs.groups.flatMap (fun x => x.1.map fun n => Typed.toTyped n x.2) ++
        gs.untyped.map Typed.ofValue) r := C09_variables hg h r

theorem C74_functions {gs : Groups Skeleton} {g g' t : List Char} (hg : Gap g)
    (h : GroupsW (SkeletonW .strict) gs t) (hg' : Gap g') (r : List Char) :
    parseFunctionsDef (paren (c!":functions" ++ (g ++ (t ++ g'))) ++ r) =
      .ok (gs.groups.flatMap (fun x => x.1.map fun f => Typed.toTyped f x.2) ++
        gs.untyped.map Typed.ofFunction) r := C10_functions hg h hg' r

/-- `x - object` and `x` are the same, in any section of typed names. -/
theorem C74_object_default {gs : List (List Name × Ty)} {xs : List Name} {kw g g' h h' t t' : List Char}
    (hg : Sep g) (ht : GroupsW NameW ⟨gs, xs⟩ t) (hg' : Gap g') (hh : Sep h)
    (ht' : GroupsW NameW ⟨gs ++ [(xs, Ty.ofStr c!"object")], []⟩ t') (hh' : Gap h') (r : List Char) :
    prefixExpr kw (typedList parseName) (paren (kw ++ (g ++ (t ++ g'))) ++ r) =
      prefixExpr kw (typedList parseName) (paren (kw ++ (h ++ (t' ++ h'))) ++ r) := by
  rw [C09_typed_names hg ht hg', C09_typed_names hh ht' hh']
  simp [Groups.flat]
  exact fun _ _ => rfl

/-- `(f) - number` and `(f)` are the same. -/
theorem C74_number_default {gs : List (List Skeleton × Ty)} {xs : List Skeleton}
    {g g' h h' t t' : List Char} (hg : Gap g) (ht : GroupsW (SkeletonW .strict) ⟨gs, xs⟩ t)
    (hg' : Gap g') (hh : Gap h)
    (ht' : GroupsW (SkeletonW .strict) ⟨gs ++ [(xs, Ty.ofStr c!"number")], []⟩ t') (hh' : Gap h')
    (r : List Char) :
    parseFunctionsDef (paren (c!":functions" ++ (g ++ (t ++ g'))) ++ r) =
      parseFunctionsDef (paren (c!":functions" ++ (h ++ (t' ++ h'))) ++ r) := by
  rw [C10_functions hg ht hg', C10_functions hh ht' hh']
  simp [Groups.flat]
  exact fun _ _ => rfl

/-- The types read from a word and from `(either …)`. -/
theorem C74_types {g w r : List Char} (hg : Sep g) (hw : IsWord w) (hr : Stop r) :
    parseType (g ++ (w ++ r)) = .ok (Ty.ofStr w) r :=
  C11_partial hg.gap hw (by
    intro c r' e; subst e
    rcases hr c r' rfl with h | rfl | rfl | rfl
    · exact isWordChar_not (.inl h)
    all_goals rfl) (.inl (by rintro rfl; cases hg))

/-- Not for words that merely begin with `object` (C11). -/
theorem C74_either {g g0 g' u r : List Char} {ws : List (List Char)} (hg : Sep g) (h0 : Sep g0)
    (hw : Items (fun w t => t = w ∧ IsWord w ∧ ∀ x, w = c!"object" ++ x → x = []) ws u) (hg' : Gap g')
    (hr : Stop r) :
    parseType (g ++ (paren (c!"either" ++ (g0 ++ (u ++ g'))) ++ r)) = .ok (Ty.ofStrs ws) r := by
  have h : Items (EitherMemberW .strict) (ws.map Name.new) u := by
    induction hw with
    | one h =>
      obtain ⟨rfl, h, ho⟩ := h
      exact .one ⟨⟨h, (wordName_eq _).symm⟩, fun _ => ho⟩
    | cons h hs _ ih =>
      obtain ⟨rfl, h, ho⟩ := h
      exact .cons ⟨⟨h, (wordName_eq _).symm⟩, fun _ => ho⟩ hs ih
  exact C11_types_partial hg (.either h0 h hg') hr

/-- The defaults are the types of elements and of functions without type. -/
theorem C74_defaults (x : Name) (f : Skeleton) :
    Typed.ofValue x = Typed.toTyped x Ty.default ∧ Ty.default = Ty.ofStr c!"object" ∧
    Typed.ofFunction f = Typed.toTyped f Ty.defaultFunction ∧ Ty.defaultFunction = Ty.ofStr c!"number" ∧
    ConGD.default.isEmpty = true := ⟨rfl, rfl, rfl, rfl, rfl⟩

/-- One alternative is not the same as the type itself, although both have the one member. -/
theorem C75_false_either (n : Name) :
    Ty.ofIter [n] ≠ Ty.ofPrimitive n ∧ (Ty.ofIter [n]).len = (Ty.ofPrimitive n).len ∧
      (Ty.ofIter [n]).Members [n] ∧ (Ty.ofPrimitive n).Members [n] :=
  ⟨by simp [Ty.ofIter, Ty.ofPrimitive], rfl, .eitherOf _, .exactly _⟩

/-- The default of the primitive type is not the default type: it is no type that can be written. -/
theorem C74_primitive_default : Ty.ofPrimitive Ty.defaultPrimitive ≠ Ty.default ∧
    ∀ s r, parseType s ≠ .ok (Ty.ofPrimitive Ty.defaultPrimitive) r := by
  refine ⟨by decide, fun s r h => ?_⟩
  obtain ⟨g, t, _, _, ht⟩ := parseType_snd _ _ _ h trivial
  generalize e : Ty.ofPrimitive Ty.defaultPrimitive = v at ht
  cases ht with
  | exactly hn =>
    cases e
    have : (wordName t).text = t := by rw [wordName_eq]; exact name_text t
    rw [← hn.2] at this
    obtain ⟨c, cs, rfl, _⟩ := hn.1
    cases this
  | either => cases e

/-- Collecting no duration constraint stops a debug build, but not a release build; the value it would
give is never read. -/
theorem C74_durations (cs : List SimpleDuration) :
    (DurationConstraint.ofIter cs = none ↔ cs = []) ∧
    (cs ≠ [] → DurationConstraint.ofIter cs = some (DurationConstraint.ofIterRelease cs)) := by
  cases cs <;> simp [DurationConstraint.ofIter, DurationConstraint.newAll, DurationConstraint.ofIterRelease]

/-! ## Examples -/

example : ReadsAs parseGd (GD.newImply (.atomic (Ex.atom c!"p" [])) (.atomic (Ex.atom c!"q" [])))
    c!"(imply (p) (q))" := ⟨solid_open _, rfl⟩
example : Listed c!"and" (fun v => ReadsAs parsePreGd (PreGD.list v))
    [.preference (.goal (.atomic (Ex.atom c!"p" []))), .preference (.goal (.atomic (Ex.atom c!"q" [])))]
    c!"(and (p) (q))" :=
  ⟨c!" (p) (q)", rfl, Sec.cons (g := c!" ") (t := c!"(p) (q)") (g' := []) (Gap.space rfl .nil)
    (Items.cons (t := c!"(p)") (g := c!" ") ⟨solid_open _, rfl⟩ (.mk rfl .nil)
      (.one ⟨solid_open _, rfl⟩)) Gap.nil⟩
example : Alone c!"(p)" c!"(and ;c\n (p))" :=
  ⟨c!" ;c\n ", [], rfl, .space rfl (.comment (b := 'c') (body := []) rfl (by decide) rfl (.space rfl .nil)), .nil⟩
example : ReadsAs parseCEffect (.effect (.atomic (Ex.atom c!"p" []))) c!"(p)" := ⟨solid_open _, rfl⟩
example : ¬ ∃ u, c!"(p)" = '(' :: (c!"and" ++ u) := by rintro ⟨u, h⟩; cases h
example : (CEffect.forall_ Ex.vars []).tryForall = some (Ex.vars, []) := rfl
example : GroupsW NameW ⟨[([.new c!"a"], .exactly (.new c!"t"))], [.new c!"b"]⟩ c!"a - t b" :=
  .cons (t := c!"a") (g1 := c!" ") (g2 := c!" ") (u := c!"t") (g3 := c!" ")
    (.one ⟨⟨'a', [], rfl, by decide, by decide⟩, rfl⟩) (.mk rfl .nil) (.mk rfl .nil)
    (.exactly ⟨⟨'t', [], rfl, by decide, by decide⟩, rfl⟩) (.mk rfl .nil)
    (.untyped (.one ⟨⟨'b', [], rfl, by decide, by decide⟩, rfl⟩))
example : GroupsW NameW ⟨[([.new c!"a"], .exactly (.new c!"t")), ([.new c!"b"], Ty.ofStr c!"object")], []⟩
    c!"a - t b - object" :=
  .cons (t := c!"a") (g1 := c!" ") (g2 := c!" ") (u := c!"t") (g3 := c!" ")
    (.one ⟨⟨'a', [], rfl, by decide, by decide⟩, rfl⟩) (.mk rfl .nil) (.mk rfl .nil)
    (.exactly ⟨⟨'t', [], rfl, by decide, by decide⟩, rfl⟩) (.mk rfl .nil)
    (.typed (t := c!"b") (g1 := c!" ") (g2 := c!" ") (u := c!"object")
      (.one ⟨⟨'b', [], rfl, by decide, by decide⟩, rfl⟩) (.mk rfl .nil) (.mk rfl .nil)
      (.exactly ⟨⟨'o', c!"bject", rfl, by decide, by decide⟩, rfl⟩))
example : parseType c!" (either a number) " = .ok (Ty.ofStrs [c!"a", c!"number"]) c!" " := by decide +kernel

end Pddl
