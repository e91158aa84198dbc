import Verif.Meta.TypedX

/-!
# C78: exactly which texts are read as types, typed lists, skeletons and their sections

The texts are given by grammars that do not mention the parsers: `TyX` for types, `TypedX` for the
content of a typed list (both in `Verif/Meta/TypedX.lean`), `VarX` for variables and `SkeletonX` for
predicate and function skeletons. Every theorem is an equivalence: the parser returns `v` and the
rest `r` if and only if the input is such a text for `v` followed by `r`.
-/

namespace Pddl

/-- A variable: a question mark, layout, a name. -/
def VarX (v : Name) (t : List Char) : Prop := ∃ g w, t = '?' :: (g ++ w) ∧ Gap g ∧ NameW v w

/-- What may stand between a name or a variable and `-`: at least one character, since `-` may be
part of a name. -/
def Apart (g : List Char) : Prop := g ≠ []

/-- The skeleton of a predicate or function: a name and typed variables in parentheses. -/
inductive SkeletonX : Skeleton → List Char → Prop
  | mk {g p t vs w} : Gap g → NameW p t → TypedX VarX Apart objectTy vs w → NoWord w →
      SkeletonX ⟨p, vs⟩ (paren (g ++ (t ++ w)))

theorem noWord_dash {g : List Char} (hg : Gap g) (x : List Char) : NoWord (g ++ '-' :: x) ↔ Apart g := by
  constructor
  · rintro h rfl
    exact absurd (h '-' x rfl) (by decide)
  · intro h
    cases hg with
    | nil => exact absurd rfl h
    | space hc hg => exact (Stop.word (fun c r' h => by cases h; exact .inl hc))
    | comment => exact (Stop.word (fun c r' h => by cases h; simp))

theorem name_inner : Inner parseName (fun _ => Gap) NameW (fun _ => NoWord) Apart where
  toExact := parseName_exact
  dash := parseName_dash
  join _ _ x hg := noWord_dash hg x

theorem variable_iff (s : List Char) (v : Name) (r : List Char) :
    parseVariable s = .ok v r ↔ ∃ t, s = t ++ r ∧ VarX v t ∧ NoWord r := by
  constructor
  · intro h
    obtain ⟨_, r1, h1, h2⟩ := preceded_ok h
    obtain ⟨rfl, rfl⟩ := tag_inv h1
    obtain ⟨g, t, rfl, hg, ht, hr⟩ := (parseName_exact.iff _ _ _).mp h2
    exact ⟨'?' :: (g ++ t), by simp, ⟨g, t, rfl, hg, ht⟩, hr⟩
  · rintro ⟨_, rfl, ⟨g, t, rfl, hg, ht⟩, hr⟩
    have h1 : tag c!"?" ('?' :: (g ++ t) ++ r) = .ok c!"?" (g ++ (t ++ r)) := by
      simp [tag, stripPrefix]
    rw [parseVariable, preceded_run h1]
    exact (parseName_exact.iff _ _ _).mpr ⟨g, t, rfl, hg, ht, hr⟩

theorem variable_inner : Inner parseVariable (fun _ g => g = []) VarX (fun _ => NoWord) Apart where
  iff s v r := by
    rw [variable_iff]
    constructor
    · rintro ⟨t, rfl, h⟩; exact ⟨[], t, rfl, rfl, h⟩
    · rintro ⟨_, t, rfl, rfl, h⟩; exact ⟨t, rfl, h⟩
  lead _ _ h := by subst h; exact .nil
  none _ := rfl
  solid := by
    rintro v t ⟨g, w, rfl, _⟩
    exact .cons (by decide) (by decide) _
  stop _ _ h := h.word
  head _ _ y hx := NoWord.head hx y
  close := parseVariable_close
  dash := parseVariable_dash
  join _ _ x hg := noWord_dash hg x

/-- Exactly which texts are read as a type, in the place where one is read: directly after `-`. -/
theorem C78_types (s : List Char) (ty : Ty) (r : List Char) :
    parseType s = .ok ty r ↔ ∃ x, s = x ++ r ∧ TyX ty x r := type_iff s ty r

/-- `(either object box)`, and `object` cut off the front of a longer word. -/
example : TyX (.eitherOf [Ex.nm c!"object", Ex.nm c!"box"]) c!" (either object box)" c!")" :=
  .either (g := c!" ") (g1 := c!" ") (u := c!"object box") (g2 := []) (.space rfl .nil) (.space rfl .nil)
    (.cons (t := c!"object") (g := c!" ") (u := c!"box") ⟨⟨isWord_of _ _ (by decide) (by decide), rfl⟩, fun _ => rfl⟩ (.mk rfl .nil)
      (.one ⟨⟨isWord_of _ _ (by decide) (by decide), rfl⟩, fun h => absurd h (by decide)⟩)) .nil

example : parseType c!"objects)" = .ok objectTy c!"s)" ∧
    parseType c!" objects)" = .ok (.exactly (Ex.nm c!"objects")) c!")" := ⟨rfl, rfl⟩

/-- Exactly which texts are read as the parameters of an action or the variables of a quantifier. -/
theorem C78_variable_lists (s : List Char) (vs : TypedList Name) (r : List Char) :
    parseVarList s = .ok vs r ↔
      ∃ g w, s = g ++ (paren w ++ r) ∧ GapC g ∧ TypedX VarX Apart objectTy vs w :=
  parens_typedX variable_inner s vs r

/-- Two typed variables and one of the default type, with a comment before the second group. -/
example : TypedX VarX Apart objectTy
    [⟨Ex.nm c!"a", .exactly (Ex.nm c!"t")⟩, ⟨Ex.nm c!"b", .exactly (Ex.nm c!"t")⟩, ⟨Ex.nm c!"c", objectTy⟩]
    c!"?a ?b - t; c\n?c" :=
  .group (g := []) (xs := [Ex.nm c!"a", Ex.nm c!"b"]) (u := c!"?a ?b") (g2 := c!" ") (x := c!" t") (w := c!"; c\n?c")
    (vs := [⟨Ex.nm c!"c", objectTy⟩]) .nil
    (.cons (t := c!"?a") (g := c!" ") (u := c!"?b") ⟨[], c!"a", rfl, .nil, isWord_of _ _ (by decide) (by decide), rfl⟩ (.mk rfl .nil)
      (.one ⟨[], c!"b", rfl, .nil, isWord_of _ _ (by decide) (by decide), rfl⟩)) (.space rfl .nil) (fun h => nomatch h)
    (.word (g := c!" ") (t := c!"t") (.space rfl .nil) ⟨isWord_of _ _ (by decide) (by decide), rfl⟩ (fun h => nomatch h)
      (by intro c r' h; cases h; decide))
    (.rest (xs := [Ex.nm c!"c"]) (.cons (g := c!"; c\n") (t := c!"?c") (g' := [])
      (.comment (b := ' ') (body := c!"c") rfl (by decide) rfl .nil)
      (.one ⟨[], c!"c", rfl, .nil, isWord_of _ _ (by decide) (by decide), rfl⟩) rfl))

example : parseVarList c!"(?a ?b - t; c\n?c)" = .ok
    [⟨Ex.nm c!"a", .exactly (Ex.nm c!"t")⟩, ⟨Ex.nm c!"b", .exactly (Ex.nm c!"t")⟩, ⟨Ex.nm c!"c", objectTy⟩]
    [] ∧ parseVarList c!"(?a ?b - t ?c )" = .err := ⟨rfl, rfl⟩

theorem skeleton_iff (s : List Char) (k : Skeleton) (r : List Char) :
    parseAtomicFormulaSkeleton s = .ok k r ↔
      ∃ g t, s = g ++ (t ++ r) ∧ GapC g ∧ SkeletonX k t := by
  constructor
  · intro h
    obtain ⟨⟨p, vs⟩, h1, rfl⟩ := map_ok h
    obtain ⟨g, x, rfl, hg, h2⟩ := parens_invC h1
    obtain ⟨r1, h3, h4⟩ := pair_ok h2
    obtain ⟨g1, t, h5, hg1, ht, hr⟩ := (parseName_exact.iff _ _ _).mp h3
    rw [ws_eq] at h4
    obtain ⟨w, rfl, hw⟩ := typedX_skip_inv (d := objectTy) variable_inner h4 (by simp)
    obtain ⟨g0, h6, hg0⟩ := skip_gap (s := x) (by rw [h5]; simp)
    rw [h5] at h6
    refine ⟨g, paren ((g0 ++ g1) ++ (t ++ w)), ?_, hg, .mk (hg0.append hg1) ht hw ?_⟩
    · rw [h6]
      simp [paren]
    · cases w with
      | nil => intro c r' h; cases h
      | cons c w => exact (NoWord.head (by simp) _).mp hr
  · rintro ⟨g, _, rfl, hg, h⟩
    cases h with
    | @mk g1 p t vs w hg1 ht hw hr =>
      refine map_run (f := fun x : Name × TypedList Name => Skeleton.mk x.1 x.2) (a := (p, vs)) ?_
      rw [paren_append, parens_gapC hg]
      refine parens_run ?_
      rw [List.append_assoc, hg1.skip_solid ((ht.solid.append _).append _), List.append_assoc]
      obtain ⟨y, h1, _, h2⟩ := typedX_skip_run variable_inner hw .nil r
      rw [h2 rfl] at h1
      refine pair_run (r := w ++ ')' :: r) ?_ (by rw [ws_eq]; exact h1)
      refine (parseName_exact.iff _ _ _).mpr ⟨[], t, rfl, .nil, ht, ?_⟩
      cases w with
      | nil => exact Stop.word (.close r)
      | cons c w => exact (NoWord.head (by simp) _).mpr hr

/-- Exactly which texts are read as the skeleton of a predicate or of a function. -/
theorem C78_skeletons (s : List Char) (k : Skeleton) (r : List Char) :
    (parseAtomicFormulaSkeleton s = .ok k r ↔
      ∃ g t, s = g ++ (t ++ r) ∧ GapC g ∧ SkeletonX k t) ∧
    (parseAtomicFunctionSkeleton s = .ok k r ↔
      ∃ g t, s = g ++ (t ++ r) ∧ GapC g ∧ SkeletonX k t) :=
  ⟨skeleton_iff s k r, skeleton_iff s k r⟩

/-- `(at?x)`: no blank is needed before a variable. -/
example : SkeletonX ⟨Ex.nm c!"at", [⟨Ex.nm c!"x", objectTy⟩]⟩ c!"(at?x)" :=
  .mk (g := []) (t := c!"at") (w := c!"?x") .nil ⟨isWord_of _ _ (by decide) (by decide), rfl⟩
    (.rest (xs := [Ex.nm c!"x"]) (.cons (g := []) (t := c!"?x") (g' := []) .nil
      (.one ⟨[], c!"x", rfl, .nil, isWord_of _ _ (by decide) (by decide), rfl⟩) rfl))
    (by intro c r' h; cases h; decide)

example : parseAtomicFormulaSkeleton c!"(at?x)" =
    .ok ⟨Ex.nm c!"at", [⟨Ex.nm c!"x", objectTy⟩]⟩ [] := rfl

theorem skeleton_inner :
    Inner parseAtomicFunctionSkeleton (fun _ => GapC) SkeletonX (fun _ _ => True) (fun _ => True) where
  iff s k r := by
    rw [skeleton_eq, skeleton_iff]
    simp
  lead _ _ h := h.1
  none _ := gapC_nil
  solid := by
    rintro k t ⟨⟩
    exact solid_paren _
  stop _ _ _ := trivial
  head _ _ _ _ := Iff.rfl
  close x := parseSkeleton_err x (by decide) (by decide)
  dash x := parseSkeleton_err x (by decide) (by decide)
  join _ _ _ _ := Iff.rfl

/-- Exactly which texts are read as the types of a domain, its constants and the objects of a problem. -/
theorem C78_name_sections (s : List Char) (xs : TypedList Name) (r : List Char) :
    (parseTypesDef s = .ok xs r ↔ ∃ g w g', s = g ++ (paren (c!":types" ++ (w ++ g')) ++ r) ∧
      Gap g ∧ TypedX NameW Apart objectTy xs w ∧ Gap g') ∧
    (parseConstantsDef s = .ok xs r ↔ ∃ g w g', s = g ++ (paren (c!":constants" ++ (w ++ g')) ++ r) ∧
      Gap g ∧ TypedX NameW Apart objectTy xs w ∧ Gap g') ∧
    (parseProblemObjectsDeclaration s = .ok xs r ↔ ∃ g w g', s = g ++ (paren (c!":objects" ++ (w ++ g')) ++ r) ∧
      Gap g ∧ TypedX NameW Apart objectTy xs w ∧ Gap g') :=
  ⟨prefix_typedX name_inner _ s xs r, prefix_typedX name_inner _ s xs r,
    prefix_typedX name_inner _ s xs r⟩

/-- `a-t` is a name, `a -t` a typed name. -/
example : parseTypesDef c!"(:types a-t)" = .ok [⟨Ex.nm c!"a-t", objectTy⟩] [] ∧
    parseConstantsDef c!"(:constants a -t)" = .ok [⟨Ex.nm c!"a", .exactly (Ex.nm c!"t")⟩] [] ∧
    parseProblemObjectsDeclaration c!"(:objectsa -objectb -c )" =
      .ok [⟨Ex.nm c!"a", objectTy⟩, ⟨Ex.nm c!"b", .exactly (Ex.nm c!"c")⟩] [] := ⟨rfl, rfl, rfl⟩

example : TypedX NameW Apart objectTy [⟨Ex.nm c!"a", objectTy⟩, ⟨Ex.nm c!"b", .exactly (Ex.nm c!"c")⟩]
    c!"a -objectb -c" :=
  .group (g := []) (xs := [Ex.nm c!"a"]) (u := c!"a") (g2 := c!" ") (x := c!"object") (w := c!"b -c")
    (vs := [⟨Ex.nm c!"b", .exactly (Ex.nm c!"c")⟩]) .nil (.one ⟨isWord_of _ _ (by decide) (by decide), rfl⟩) (.space rfl .nil)
    (fun h => nomatch h) .object
    (.group (g := []) (xs := [Ex.nm c!"b"]) (u := c!"b") (g2 := c!" ") (x := c!"c") (w := []) (vs := [])
      .nil (.one ⟨isWord_of _ _ (by decide) (by decide), rfl⟩) (.space rfl .nil) (fun h => nomatch h)
      (.word (g := []) (t := c!"c") .nil ⟨isWord_of _ _ (by decide) (by decide), rfl⟩ (fun _ => by decide) (fun _ _ h => nomatch h))
      (.rest (xs := []) (.nil .nil)))

/-- Exactly which texts are read as the predicates of a domain. -/
theorem C78_predicates (s : List Char) (ks : List Skeleton) (r : List Char) :
    parsePredicatesDef s = .ok ks r ↔ ∃ g g1 u g2,
      s = g ++ (paren (c!":predicates" ++ (g1 ++ (u ++ g2))) ++ r) ∧ Gap g ∧ Gap g1 ∧
        Items SkeletonX ks u ∧ Gap g2 := by
  constructor
  · intro h
    obtain ⟨g, x, y, rfl, hg, h1, h2⟩ := prefixExpr_inv h
    obtain ⟨g2, h3, hg2⟩ := skip_gap (s := y) (by rw [h2]; simp)
    rw [h2] at h3
    subst h3
    rw [list1_skip] at h1
    obtain ⟨g1, u, rfl, hg1, hu⟩ := Snd.list1 (skeleton_eq ▸ skeleton_inner.snd)
      skeleton_inner.nonE _ _ _ h1 trivial
    exact ⟨g, g1, u, g2, by simp [paren], hg, hg1, hu, hg2⟩
  · rintro ⟨g, g1, u, g2, rfl, hg, hg1, hu, hg2⟩
    have hk := hg2.skip_solid (solid_close r)
    rw [parsePredicatesDef, paren_append, prefix_lead hg]
    simp only [List.append_assoc]
    refine prefixExpr_run (y := g2 ++ ')' :: r) ?_ hk
    rw [list1_skip, ← skeleton_eq]
    refine list1_items (hu.mono fun a t h _ => skeleton_inner.elem h) hg1 (.gap hg2 (.close r)) ?_
    rw [hk]
    exact skeleton_inner.close r

example : parsePredicatesDef c!"(:predicates(p) ; c\n(q ?x))" =
      .ok [⟨Ex.nm c!"p", []⟩, ⟨Ex.nm c!"q", [⟨Ex.nm c!"x", objectTy⟩]⟩] [] ∧
    parsePredicatesDef c!"(:predicates (p)(q))" = .err := ⟨rfl, rfl⟩

/-- Exactly which texts are read as the functions of a domain; without a type a function is a number. -/
theorem C78_functions (s : List Char) (xs : TypedList Skeleton) (r : List Char) :
    parseFunctionsDef s = .ok xs r ↔ ∃ g w g', s = g ++ (paren (c!":functions" ++ (w ++ g')) ++ r) ∧
      Gap g ∧ TypedX SkeletonX (fun _ => True) numberTy xs w ∧ Gap g' :=
  prefix_typedX skeleton_inner _ s xs r

/-- After a parenthesis `-` needs no blank. -/
example : parseFunctionsDef c!"(:functions (f)-object(g))" =
    .ok [⟨⟨Ex.nm c!"f", []⟩, objectTy⟩, ⟨⟨Ex.nm c!"g", []⟩, numberTy⟩] [] := rfl

end Pddl
