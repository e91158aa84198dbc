import Verif.Props.EnteredCut
import Verif.Props.Calls

/-!
# C121: names in lists

Names of an item that ends a list are looked up although the item is given up. In lists without types
this happens to all names: the list is first read as one with a type at its end (`typed_list.rs:57-67`)
and, as no type follows, once more without.
-/

namespace Pddl

/-! ## The texts exactly -/

theorem layout_silent : Silent (N.preceded N.multispace0 N.ignoreEolComment) :=
  .preceded .multispace0 ignoreEolComment_silent

theorem ws_made (p : N.P α) (s : List Char) : (N.ws p).made s = p.made (skip s) := by
  show _ ++ Res.thenMade _ _ = _
  rw [layout_silent s, layoutN_run]
  rfl

theorem eolN_made (p : N.P α) (s : List Char) :
    (N.preceded N.ignoreEolComment p).made s = p.made (skipC s) := by
  show _ ++ Res.thenMade _ _ = _
  rw [ignoreEolComment_silent s, N.eol_ok]
  rfl

theorem eolN_run (p : N.P α) (s : List Char) :
    (N.preceded N.ignoreEolComment p).run s = p.run (skipC s) := by
  rw [N.preceded_run, N.ignoreEolComment_run, eolp_eq]

theorem parseName_made {s r : List Char} {n : Name} (h : parseName s = .ok n r) :
    N.parseName.made s = [n.text] := by
  rw [← N.parseName_run] at h
  have h : Pddl.map Name.new _ s = _ := h
  obtain ⟨t, h1, rfl⟩ := map_ok h
  have hs : Silent (N.ws (N.recognize (N.pair N.alpha1 (N.many0 N.parseAnyChar)))) := by
    unfold N.ws
    made
  show _ ++ _ = _
  rw [hs s, h1, Name.text_new]
  rfl

theorem sepMade_step {p : N.P α} {c : Char} (hc : isSpace c = true) (s : List Char) (n : Nat) :
    N.sepMade N.multispace1 (N.preceded N.ignoreEolComment p) (n + 1) (c :: s) =
      p.made (skip (c :: s)) ++ (p.run (skip (c :: s))).thenMade
        (N.sepMade N.multispace1 (N.preceded N.ignoreEolComment p) n) := by
  have h1 := length_dropWhile_le isSpace s
  have h2 : skipC (s.dropWhile isSpace) = skip (c :: s) := by
    rw [skip, List.dropWhile_cons, if_pos (isBlank_space hc)]
  rw [N.sepMade, show N.multispace1.run (c :: s) = _ from multispace1_cons hc s]
  simp only [Res.thenMade]
  rw [if_neg (by simp only [List.length_cons]; omega), eolN_made, eolN_run, h2]
  rfl

theorem sepMade_close (p : N.P α) (n : Nat) (r : List Char) :
    N.sepMade N.multispace1 p n (')' :: r) = [] := by
  cases n <;> rfl

theorem thenMade_map (f : α → β) (p : N.P α) (s : List Char) (g : List Char → List (List Char)) :
    ((N.map f p).run s).thenMade g = (p.run s).thenMade g := by
  show (Pddl.map f p.run s).thenMade g = _
  rw [Pddl.map]
  cases p.run s <;> rfl

theorem sepMade_map (f : α → β) (p : N.P α) (n : Nat) (s : List Char) :
    N.sepMade N.multispace1 (N.preceded N.ignoreEolComment (N.map f p)) n s =
      N.sepMade N.multispace1 (N.preceded N.ignoreEolComment p) n s := by
  induction n generalizing s with
  | zero => rfl
  | succ n ih =>
    simp only [N.sepMade, eolN_made, eolN_run, thenMade_map]
    rw [show N.sepMade N.multispace1 (N.preceded N.ignoreEolComment (N.map f p)) n =
      N.sepMade N.multispace1 (N.preceded N.ignoreEolComment p) n from funext ih]
    rfl

/-- What follows the first of the names of a list. -/
theorem sepMade_names {ns : List Name} {u : List Char} (h : Items NameW ns u) {g : List Char}
    (hg : Sep g) (r : List Char) (n : Nat) (hn : (g ++ (u ++ ')' :: r)).length < n) :
    N.sepMade N.multispace1 (N.preceded N.ignoreEolComment N.parseName) n (g ++ (u ++ ')' :: r)) =
      ns.map Name.text := by
  induction h generalizing g n with
  | @one a t h =>
    have hk := hg.gap.skip_solid (h.solid.append (')' :: r))
    have hr := h.acc (')' :: r) (.close r)
    cases hg with
    | @mk c g hc hg =>
      rw [List.cons_append] at hk hn ⊢
      match n with
      | 0 => simp at hn
      | n + 1 =>
      rw [sepMade_step hc, hk, parseName_made hr, N.parseName_run, hr]
      simp only [Res.thenMade, sepMade_close]
      rfl
  | @cons a t g' as u h hg' hu ih =>
    have e : t ++ (g' ++ u) ++ ')' :: r = t ++ (g' ++ (u ++ ')' :: r)) := by simp
    rw [e] at hn ⊢
    have hk := hg.gap.skip_solid (h.solid.append (g' ++ (u ++ ')' :: r)))
    have hr := h.acc (g' ++ (u ++ ')' :: r)) (.sep hg' _)
    cases hg with
    | @mk c g hc hg =>
      rw [List.cons_append] at hk hn ⊢
      match n with
      | 0 => simp at hn
      | n + 1 =>
      rw [sepMade_step hc, hk, parseName_made hr, N.parseName_run, hr]
      simp only [Res.thenMade]
      rw [ih hg' n (by simp only [List.length_append, List.length_cons] at hn ⊢; omega)]
      rfl

/-- A list of names. -/
theorem names_made {ns : List Name} {u : List Char} (h : Items NameW ns u) (r : List Char) :
    N.parseName.made (u ++ ')' :: r) ++ (N.parseName.run (u ++ ')' :: r)).thenMade (fun r =>
      N.sepMade N.multispace1 (N.preceded N.ignoreEolComment N.parseName) (r.length + 1) r) =
      ns.map Name.text := by
  cases h with
  | @one a t h =>
    have hr := h.acc (')' :: r) (.close r)
    rw [parseName_made hr, N.parseName_run, hr]
    simp only [Res.thenMade, sepMade_close]
    rfl
  | @cons a t g' as u h hg' hu =>
    have e : t ++ (g' ++ u) ++ ')' :: r = t ++ (g' ++ (u ++ ')' :: r)) := by simp
    have hr := h.acc (g' ++ (u ++ ')' :: r)) (.sep hg' _)
    rw [e, parseName_made hr, N.parseName_run, hr]
    simp only [Res.thenMade]
    rw [sepMade_names hu hg' r _ (Nat.lt_succ_self _)]
    rfl

theorem Items.name_solid {ns : List Name} {u : List Char} (h : Items NameW ns u) : Solid u := by
  cases h with
  | one h => exact h.solid
  | cons h => exact h.solid.append _

theorem list1_made {ns : List Name} {u : List Char} (h : Items NameW ns u) (r : List Char) :
    (N.spaceSeparatedList1 N.parseName).made (u ++ ')' :: r) = ns.map Name.text := by
  have hs := h.name_solid.append (')' :: r)
  rw [N.spaceSeparatedList1, ws_made, hs.skip]
  show (N.preceded N.ignoreEolComment N.parseName).made _ ++
    ((N.preceded N.ignoreEolComment N.parseName).run _).thenMade _ = _
  rw [eolN_made, eolN_run, hs.skipC]
  exact names_made h r

theorem explicit_err {ns : List Name} {u : List Char} (h : Items NameW ns u) (r : List Char) :
    explicitlyTyped parseName (u ++ ')' :: r) = .err := by
  have hl := list1_items (g := []) (h.mono fun a t h _ => (⟨h.acc, h.solid⟩ : Elem parseName a t)) .nil
    (.close r) (show parseName (skip (')' :: r)) = .err by rw [(solid_close r).skip]; rfl)
  refine map_err ?_
  show Res.bind _ _ = _
  rw [List.nil_append] at hl
  rw [hl]
  have hw : ws (char '-') (')' :: r) = .err := by
    rw [ws_eq, (solid_close r).skip]
    rfl
  simp only [Res.bind, preceded, hw]

theorem explicit_made {ns : List Name} {u : List Char} (h : Items NameW ns u) (r : List Char) :
    (N.explicitlyTyped N.parseName).made (u ++ ')' :: r) = ns.map Name.text := by
  have hl := list1_items (g := []) (h.mono fun a t h _ => (⟨h.acc, h.solid⟩ : Elem parseName a t)) .nil
    (.close r) (show parseName (skip (')' :: r)) = .err by rw [(solid_close r).skip]; rfl)
  rw [List.nil_append] at hl
  show (N.spaceSeparatedList1 N.parseName).made _ ++
    ((N.spaceSeparatedList1 N.parseName).run _).thenMade _ = _
  rw [list1_made h, N.spaceSeparatedList1_run, N.parseName_run, hl]
  show _ ++ ((N.ws (N.char '-')).made _ ++ ((N.ws (N.char '-')).run _).thenMade _) = _
  rw [ws_made, N.ws_run, ws_eq, (solid_close r).skip]
  exact List.append_nil _

theorem typedNames_made {ns : List Name} {u : List Char} (h : Items NameW ns u) (r : List Char) :
    (N.typedList N.parseName).made (u ++ ')' :: r) = ns.map Name.text ++ ns.map Name.text := by
  have hs := h.name_solid.append (')' :: r)
  have he : (N.explicitlyTyped N.parseName).run (u ++ ')' :: r) = .err := by
    rw [N.explicitlyTyped_run, N.parseName_run]
    exact explicit_err h r
  have hm : (N.many0 (N.explicitlyTyped N.parseName)).run (u ++ ')' :: r) = .ok [] (u ++ ')' :: r) := by
    show many0Loop _ (_ + 1) _ = _
    simp only [many0Loop, he]
  show (N.many0 (N.explicitlyTyped N.parseName)).made _ ++
    ((N.map List.flatten (N.many0 (N.explicitlyTyped N.parseName))).run _).thenMade _ = _
  rw [show (N.map List.flatten (N.many0 (N.explicitlyTyped N.parseName))).run (u ++ ')' :: r) =
    .ok [] (u ++ ')' :: r) from map_run (f := List.flatten) hm]
  congr 1
  · show (N.explicitlyTyped N.parseName).made _ ++
      ((N.explicitlyTyped N.parseName).run _).thenMade _ = _
    rw [he, explicit_made h]
    exact List.append_nil _
  · show (N.ws _).made _ = _
    rw [ws_made, hs.skip]
    show (N.preceded N.ignoreEolComment (N.map _ N.parseName)).made _ ++
      ((N.preceded N.ignoreEolComment (N.map _ N.parseName)).run _).thenMade _ = _
    rw [eolN_made, eolN_run, hs.skipC, thenMade_map]
    simp only [sepMade_map]
    exact names_made h r

theorem prefixExpr_made {kw : List Char} {p : N.P α} {x y r : List Char} {v : α}
    (h : p.run (skip x) = .ok v y) (hy : skip y = ')' :: r) :
    (N.prefixExpr kw p).made ('(' :: (kw ++ x)) = p.made (skip x) := by
  have h0 : (N.preceded (N.ws (N.tag c!"(")) (N.tag kw)).run ('(' :: (kw ++ x)) = .ok kw x := by
    rw [N.preceded_run, N.ws_run]
    refine (preceded_run (a := c!"(") (r := kw ++ x) ?_).trans (tag_ok kw x)
    rw [ws_eq, (Solid.cons (by decide) (by decide) _).skip]
    exact tag_ok c!"(" (kw ++ x)
  have hs : Silent (N.preceded (N.ws (N.tag c!"(")) (N.tag kw)) :=
    .preceded (.preceded layout_silent .tag) .tag
  show _ ++ Res.thenMade _ _ = _
  rw [hs, h0]
  show _ ++ ((N.ws p).made x ++ ((N.ws p).run x).thenMade _) = _
  rw [ws_made, N.ws_run, ws_eq, h]
  show [] ++ (_ ++ (N.ws (N.tag c!")")).made y) = _
  rw [ws_made]
  exact List.append_nil _

theorem untyped_run {ns : List Name} {u : List Char} (h : Items NameW ns u) (r : List Char) :
    typedList parseName (u ++ ')' :: r) = .ok (ns.map fun n => ⟨n, Ty.object⟩) (')' :: r) := by
  have hm : many0 (explicitlyTyped parseName) (u ++ ')' :: r) = .ok [] (u ++ ')' :: r) := by
    show many0Loop _ (_ + 1) _ = _
    simp only [many0Loop, explicit_err h]
  have hi : Items (Elem (map (fun o => Typed.mk o Ty.object) parseName))
      (ns.map fun n => Typed.mk n Ty.object) u := by
    induction h with
    | one h => exact .one ⟨fun r hr => map_run (h.acc r hr), h.solid⟩
    | cons h hg hu ih =>
      exact .cons ⟨fun r hr => map_run (h.acc r hr), h.solid⟩ hg (ih (by
        show many0Loop _ (_ + 1) _ = _
        simp only [many0Loop, explicit_err hu]))
  have hl := list0_items (g := []) hi .nil (.close r) (show map _ parseName (skip (')' :: r)) = .err by
    rw [(solid_close r).skip]; rfl)
  exact map_run (f := fun x : TypedList Name × TypedList Name => x.1 ++ x.2)
    (pair_run (map_run (f := List.flatten) hm) hl)

/-- C121: the names of a list of objects without types are looked up twice, first all of them and then
all of them once more. -/
theorem C121_untyped_twice {ns : List Name} {u : List Char} (h : Items NameW ns u) :
    parseProblemObjectsDeclaration (c!"(:objects " ++ (u ++ c!")")) =
      .ok (ns.map fun n => ⟨n, objectTy⟩) [] ∧
    N.parseProblemObjectsDeclaration.made (c!"(:objects " ++ (u ++ c!")")) =
      ns.map Name.text ++ ns.map Name.text := by
  have hk : skip (' ' :: (u ++ c!")")) = u ++ c!")" := by
    rw [skip_space (by decide), (h.name_solid.append _).skip]
  constructor
  · refine prefixExpr_run (kw := c!":objects") (x := ' ' :: (u ++ c!")")) (y := c!")") ?_ (by rfl)
    rw [hk]
    exact untyped_run h []
  · refine (prefixExpr_made (kw := c!":objects") (x := ' ' :: (u ++ c!")")) (y := c!")") (r := [])
      (v := ns.map fun n => ⟨n, Ty.object⟩) ?_ (by rfl)).trans ?_
    · rw [hk, N.typedList_run, N.parseName_run]
      exact untyped_run h []
    · rw [hk]
      exact typedNames_made h []

example : N.parseProblemObjectsDeclaration.made c!"(:objects a b c)" =
    [c!"a", c!"b", c!"c", c!"a", c!"b", c!"c"] := by
  have hw : ∀ c : Char, isAlpha c = true → NameW (Name.new [c]) [c] := fun c h =>
    .of_word ⟨c, [], rfl, h, by simp⟩
  exact (C121_untyped_twice (.cons (hw 'a' (by decide)) sp_one.sep
    (.cons (hw 'b' (by decide)) sp_one.sep (.one (hw 'c' (by decide)))))).2

/-! ## Items that are given up -/

/-- C121: every word can be left in the table by an item that ends a list. -/
theorem C121_rejected_item {w : List Char} (h : IsWord w) :
    parsePredicatesDef (c!"(:predicates (p) (" ++ w) = .err ∧
    w ∈ N.parsePredicatesDef.made (c!"(:predicates (p) (" ++ w) := by
  have ho : ∀ x, skip ('(' :: x) = '(' :: x := fun x => (solid_open x).skip
  have hp : parseAtomicFormulaSkeleton (c!"(p)" ++ (' ' :: '(' :: w)) = .ok ⟨.new c!"p", []⟩ (' ' :: '(' :: w) := by
    have hsk : SkeletonW .strict ⟨.new c!"p", []⟩ (paren ([] ++ (c!"p" ++ []))) :=
      .mk .nil (.of_word ⟨_, _, rfl, by decide, by simp⟩) (.nil .nil)
    exact hsk.elem.1 _ (Stop.sp (g := [' ']) sp_one _)
  have hk : skip (' ' :: '(' :: w) = '(' :: w := by rw [skip_space (by decide), ho]
  have hs : Solid (c!"(p)" ++ (' ' :: '(' :: w)) := .cons (by decide) (by decide) _
  constructor
  · refine prefixExpr_tail (kw := c!":predicates") (x := ' ' :: (c!"(p)" ++ (' ' :: '(' :: w)))
      (y := ' ' :: '(' :: w) (v := [⟨.new c!"p", []⟩]) ?_ ?_
    · rw [skip_space (by decide), hs.skip, spaceSeparatedList1, ws_eq, hs.skip]
      simp only [sepList1, eolp_eq, hs.skipC, hp, Res.bind]
      rw [sepLoop_end (by rw [hk]; exact cutSkeleton_err h)]
    · rw [hk]
      exact fun r e => nomatch e
  · refine mem_prefixExpr (kw := c!":predicates") (x := ' ' :: (c!"(p)" ++ (' ' :: '(' :: w))) ?_
    rw [skip_space (by decide), hs.skip]
    refine mem_ws ?_
    rw [hs.skip]
    refine List.mem_append.2 (.inr ?_)
    rw [eolN_run, hs.skipC, N.parseAtomicFormulaSkeleton_run, hp]
    show w ∈ N.sepMade _ _ (_ + 1) _
    rw [sepMade_step (by decide), hk]
    refine List.mem_append.2 (.inl ?_)
    refine mem_preceded (p := N.ignoreEolComment) (a := ()) (r := '(' :: w) rfl ?_
    refine mem_preceded (p := N.char '(') (a := '(') (r := w) rfl (mem_terminated (mem_ws ?_))
    rw [h.solid.skip]
    have := mem_parseName (word_run h)
    rw [Name.text_new] at this
    exact mem_pair1 this

example : parsePredicatesDef c!"(:predicates (p) (oops" = .err ∧
    c!"oops" ∈ N.parsePredicatesDef.made c!"(:predicates (p) (oops" :=
  C121_rejected_item (w := c!"oops") ⟨'o', c!"ops", rfl, by decide, by decide⟩

/-! ## Alternatives that are not tried -/

/-- C121: a type that starts with `object` is looked up once, by these six letters, whatever follows: the
alternative for other names is not tried. -/
theorem C121_object_once (r : List Char) :
    parsePrimitiveType (c!"object" ++ r) = .ok (Name.new c!"object") r ∧
    N.parsePrimitiveType.made (c!"object" ++ r) = [c!"object"] := by
  have hr : N.parseObject.run (c!"object" ++ r) = .ok (Name.new c!"object") r := by
    rw [N.parseObject_run]
    exact map_run (tag_ok c!"object" r)
  constructor
  · rw [N.parseObject_run] at hr
    exact alt_hit hr
  · show N.parseObject.made _ ++ (N.parseObject.run _).elseMade _ = _
    rw [hr]
    show ([] ++ _) ++ [] = _
    rw [show (N.tag c!"object").run (c!"object" ++ r) = _ from tag_ok c!"object" r]
    rfl

example : N.parsePrimitiveType.made c!"objects" = [c!"object"] ∧
    N.parsePrimitiveType.made c!"obj" = [c!"obj"] := by decide +kernel

end Pddl
