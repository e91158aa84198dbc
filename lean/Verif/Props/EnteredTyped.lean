import Verif.Props.EnteredItems

/-!
# C121: names in lists with types

Other than in lists without types (`Verif/Props/EnteredItems.lean`), the names of a list whose type is
given are looked up once, in the order of the text, and the type after them.
-/

namespace Pddl

theorem parseName_made_err {s : List Char} (h : parseName s = .err) : N.parseName.made s = [] := by
  rw [← N.parseName_run] at h
  have hs : Silent (N.ws (N.recognize (N.pair N.alpha1 (N.many0 N.parseAnyChar)))) := by
    unfold N.ws
    made
  have h : Pddl.map Name.new _ s = _ := h
  rw [Pddl.map] at h
  show _ ++ _ = _
  rw [hs s]
  generalize hx : N.P.run _ s = x at h ⊢
  cases x with
  | ok a r => cases h
  | _ => rfl

/-- A list ends where no name follows. -/
theorem sepMade_stop {y : List Char} (h : parseName (skip y) = .err) (n : Nat) :
    N.sepMade N.multispace1 (N.preceded N.ignoreEolComment N.parseName) n y = [] := by
  cases n with
  | zero => rfl
  | succ n =>
    cases y with
    | nil => rfl
    | cons c y =>
      cases hc : isSpace c with
      | true =>
        rw [sepMade_step hc, parseName_made_err h, N.parseName_run, h]
        rfl
      | false =>
        have := multispace1_err (s := c :: y) (by intro c' r h; cases h; exact hc)
        rw [N.sepMade, show N.multispace1.run (c :: y) = _ from this]
        rfl

theorem sepMade_names_stop {ns : List Name} {u : List Char} (h : Items NameW ns u) {g y : List Char}
    (hg : Sep g) (hy : Stop y) (he : parseName (skip y) = .err) (n : Nat)
    (hn : (g ++ (u ++ y)).length < n) :
    N.sepMade N.multispace1 (N.preceded N.ignoreEolComment N.parseName) n (g ++ (u ++ y)) =
      ns.map Name.text := by
  induction h generalizing g n with
  | @one a t h =>
    have hk := hg.gap.skip_solid (h.solid.append y)
    have hr := h.acc y hy
    cases hg with
    | @mk c g hc hg =>
      rw [List.cons_append] at hk hn ⊢
      match n with
      | 0 => simp at hn
      | n + 1 =>
      rw [sepMade_step hc, hk, parseName_made hr, N.parseName_run, hr]
      simp only [Res.thenMade, sepMade_stop he]
      rfl
  | @cons a t g' as u h hg' hu ih =>
    have e : t ++ (g' ++ u) ++ y = t ++ (g' ++ (u ++ y)) := by simp
    rw [e] at hn ⊢
    have hk := hg.gap.skip_solid (h.solid.append (g' ++ (u ++ y)))
    have hr := h.acc (g' ++ (u ++ y)) (.sep hg' _)
    cases hg with
    | @mk c g hc hg =>
      rw [List.cons_append] at hk hn ⊢
      match n with
      | 0 => simp at hn
      | n + 1 =>
      rw [sepMade_step hc, hk, parseName_made hr, N.parseName_run, hr]
      simp only [Res.thenMade]
      rw [ih hg' n (by simp only [List.length_append, List.length_cons] at hn ⊢; omega)]
      rfl

theorem list1_made_stop {ns : List Name} {u : List Char} (h : Items NameW ns u) {y : List Char}
    (hy : Stop y) (he : parseName (skip y) = .err) :
    (N.spaceSeparatedList1 N.parseName).made (u ++ y) = ns.map Name.text := by
  have hs := h.name_solid.append y
  rw [N.spaceSeparatedList1, ws_made, hs.skip]
  show (N.preceded N.ignoreEolComment N.parseName).made _ ++
    ((N.preceded N.ignoreEolComment N.parseName).run _).thenMade _ = _
  rw [eolN_made, eolN_run, hs.skipC]
  cases h with
  | @one a t h =>
    have hr := h.acc y hy
    rw [parseName_made hr, N.parseName_run, hr]
    simp only [Res.thenMade, sepMade_stop he]
    rfl
  | @cons a t g' as u h hg' hu =>
    have e : t ++ (g' ++ u) ++ y = t ++ (g' ++ (u ++ y)) := by simp
    have hr := h.acc (g' ++ (u ++ y)) (.sep hg' _)
    rw [e, parseName_made hr, N.parseName_run, hr]
    simp only [Res.thenMade]
    rw [sepMade_names_stop hu hg' hy he _ (Nat.lt_succ_self _)]
    rfl

/-- A type after layout is read as a word. -/
theorem type_made {t g r : List Char} (ht : IsWord t) (hg : Sep g) (hr : Stop r) :
    N.parseType.made (g ++ (t ++ r)) = [t] := by
  have hn : parseName (g ++ (t ++ r)) = .ok (Name.new t) r := by
    rw [parseName_eq, hg.gap.skip_solid (ht.solid.append r), ← (ht.solid.append r).skip, ← parseName_eq]
    exact (NameW.of_word ht).acc r hr
  have hp : parsePrimitiveType (g ++ (t ++ r)) = .ok (Name.new t) r := by
    rw [parsePrimitive_gap hg]
    exact (NameW.of_word ht).acc r hr
  obtain ⟨c, g', rfl, hc⟩ := sep_head hg
  have h0 : stripPrefix c!"object" (c :: g' ++ (t ++ r)) = none := stripPrefix_head (not_space hc 'o' rfl)
  have h1 : N.parseObject.run (c :: g' ++ (t ++ r)) = .err := by
    rw [N.parseObject_run]
    exact parseObject_err h0
  have h2 : N.parseObject.made (c :: g' ++ (t ++ r)) = [] := by
    show [] ++ _ = _
    rw [show (N.tag c!"object").run (c :: g' ++ (t ++ r)) = .err from by
      show Pddl.tag _ _ = _
      rw [Pddl.tag, h0]]
    rfl
  show N.parsePrimitiveType.made _ ++ (N.parsePrimitiveType.run _).errorMade _ = _
  rw [N.parsePrimitiveType_run, hp]
  show (N.parseObject.made _ ++ (N.parseObject.run _).elseMade
    (N.parseName.made _ ++ (N.parseName.run _).elseMade [])) ++ [] = _
  rw [h1, h2, parseName_made hn, N.parseName_run, hn, Name.text_new]
  rfl

theorem name_dash (s : List Char) : parseName ('-' :: s) = .err := by rfl

theorem group_made {ns : List Name} {u t g1 g2 : List Char} (h : Items NameW ns u) (ht : IsWord t)
    (h1 : Sep g1) (h2 : Sep g2) (r : List Char) :
    (N.explicitlyTyped N.parseName).made (u ++ (g1 ++ (c!"-" ++ (g2 ++ (t ++ ')' :: r))))) =
      ns.map Name.text ++ [t] := by
  have hk : skip (g1 ++ (c!"-" ++ (g2 ++ (t ++ ')' :: r)))) = '-' :: (g2 ++ (t ++ ')' :: r)) :=
    h1.gap.skip_solid (solid_dash _)
  have he : parseName (skip (g1 ++ (c!"-" ++ (g2 ++ (t ++ ')' :: r))))) = .err := by
    rw [hk]
    exact name_dash _
  have hl := list1_items (g := []) (h.mono fun a t h _ => (⟨h.acc, h.solid⟩ : Elem parseName a t)) .nil
    (.sep h1 _) he
  rw [List.nil_append] at hl
  show (N.spaceSeparatedList1 N.parseName).made _ ++
    ((N.spaceSeparatedList1 N.parseName).run _).thenMade _ = _
  rw [list1_made_stop h (.sep h1 _) he, N.spaceSeparatedList1_run, N.parseName_run, hl]
  congr 1
  show (N.ws (N.char '-')).made _ ++ ((N.ws (N.char '-')).run _).thenMade _ = _
  rw [ws_made, N.ws_run, ws_eq, hk]
  exact type_made ht h2 (.close r)

theorem group_run {ns : List Name} {u t g1 g2 : List Char} (h : Items NameW ns u) (ht : IsWord t)
    (h1 : Sep g1) (h2 : Sep g2) (r : List Char) :
    explicitlyTyped parseName (u ++ (g1 ++ (c!"-" ++ (g2 ++ (t ++ ')' :: r))))) =
      .ok (ns.map fun n => ⟨n, .exactly (wordName t)⟩) (')' :: r) := by
  have := explicit_run (g := []) (inner := parseName) name_dash .nil
    (h.mono fun a t h _ => (⟨h.acc, h.solid⟩ : Elem parseName a t)) h1 h2
    (.exactly ⟨ht, rfl⟩ : TypeW .strict (.exactly (wordName t)) t) (.close r)
  simpa using this

theorem name_close (r : List Char) : parseName (skip (')' :: r)) = .err := by
  rw [(solid_close r).skip]
  rfl

theorem group_close_made (r : List Char) : (N.explicitlyTyped N.parseName).made (')' :: r) = [] := by
  show (N.spaceSeparatedList1 N.parseName).made _ ++
    ((N.spaceSeparatedList1 N.parseName).run _).thenMade _ = _
  rw [N.spaceSeparatedList1_run, N.parseName_run, list1_nil (name_close r)]
  show (N.ws _).made _ ++ [] = _
  rw [ws_made, (solid_close r).skip]
  show ((N.preceded N.ignoreEolComment N.parseName).made _ ++
    ((N.preceded N.ignoreEolComment N.parseName).run _).thenMade _) ++ [] = _
  rw [eolN_made, eolN_run, (solid_close r).skipC, parseName_made_err (by rfl), N.parseName_run,
    show parseName (')' :: r) = .err by rfl]
  rfl

theorem many0_close_made (n : Nat) (r : List Char) :
    N.many0Made (N.explicitlyTyped N.parseName) n (')' :: r) = [] := by
  cases n with
  | zero => rfl
  | succ n =>
    rw [N.many0Made, group_close_made, N.explicitlyTyped_run, N.parseName_run, explicit_nil (name_close r)]
    rfl

/-- C121: the names of a list of objects whose type is given are looked up once, in order, then the type;
a type that starts with `object` is looked up as it stands. -/
theorem C121_typed_once {ns : List Name} {u t g1 g2 : List Char} (h : Items NameW ns u) (ht : IsWord t)
    (h1 : Sep g1) (h2 : Sep g2) :
    parseProblemObjectsDeclaration (c!"(:objects " ++ (u ++ (g1 ++ (c!"-" ++ (g2 ++ (t ++ c!")")))))) =
      .ok (ns.map fun n => ⟨n, .exactly (wordName t)⟩) [] ∧
    N.parseProblemObjectsDeclaration.made
        (c!"(:objects " ++ (u ++ (g1 ++ (c!"-" ++ (g2 ++ (t ++ c!")")))))) = ns.map Name.text ++ [t] := by
  let x := u ++ (g1 ++ (c!"-" ++ (g2 ++ (t ++ c!")"))))
  have hk : skip (' ' :: x) = x := by
    rw [skip_space (by decide), (h.name_solid.append _).skip]
  have hlen : c!")".length ≠ x.length := by
    obtain ⟨c, u', rfl, _⟩ := h.name_solid
    simp [x]
  have hg : explicitlyTyped parseName x = .ok (ns.map fun n => ⟨n, .exactly (wordName t)⟩) c!")" :=
    group_run h ht h1 h2 []
  have hm : many0 (explicitlyTyped parseName) x = .ok [ns.map fun n => ⟨n, .exactly (wordName t)⟩] c!")" := by
    have hx : ∃ k, x.length = k + 1 := by
      obtain ⟨c, u', e, _⟩ := h.name_solid.append (g1 ++ (c!"-" ++ (g2 ++ (t ++ c!")"))))
      exact ⟨u'.length, by simp [x, e]⟩
    obtain ⟨k, hx⟩ := hx
    show many0Loop _ (x.length + 1) _ = _
    simp only [many0Loop, hg, if_neg hlen]
    rw [hx]
    simp only [many0Loop, show explicitlyTyped parseName c!")" = .err from explicit_nil (name_close [])]
    rfl
  have hr : typedList parseName x = .ok (ns.map fun n => ⟨n, .exactly (wordName t)⟩) c!")" := by
    have := map_run (f := fun x : TypedList Name × TypedList Name => x.1 ++ x.2)
      (pair_run (map_run (f := List.flatten) hm) (show spaceSeparatedList0
        (map (fun o => Typed.mk o Ty.object) parseName) c!")" = .ok [] c!")" by rfl))
    simpa [typedList] using this
  constructor
  · refine prefixExpr_run (kw := c!":objects") (x := ' ' :: x) (y := c!")") ?_ (by rfl)
    rw [hk]
    exact hr
  · refine (prefixExpr_made (kw := c!":objects") (x := ' ' :: x) (y := c!")") (r := [])
      (v := ns.map fun n => ⟨n, .exactly (wordName t)⟩) ?_ (by rfl)).trans ?_
    · rw [hk, N.typedList_run, N.parseName_run]
      exact hr
    · rw [hk]
      show (N.many0 (N.explicitlyTyped N.parseName)).made x ++
        ((N.map List.flatten (N.many0 (N.explicitlyTyped N.parseName))).run x).thenMade _ = _
      have hm' : (N.map List.flatten (N.many0 (N.explicitlyTyped N.parseName))).run x =
          .ok (ns.map fun n => ⟨n, .exactly (wordName t)⟩) c!")" := by
        rw [N.map_run, N.many0_run, N.explicitlyTyped_run, N.parseName_run]
        simpa using map_run (f := List.flatten) hm
      rw [hm']
      show N.many0Made _ (_ + 1) x ++ (N.ws _).made c!")" = _
      rw [N.many0Made, N.explicitlyTyped_run, N.parseName_run, hg]
      simp only [Res.thenMade, if_neg hlen, many0_close_made]
      rw [show (N.explicitlyTyped N.parseName).made x = _ from group_made h ht h1 h2 [], ws_made]
      simp only [List.append_nil]
      exact List.append_nil _

example : N.parseProblemObjectsDeclaration.made c!"(:objects a b - objects)" =
    [c!"a", c!"b", c!"objects"] := by
  have hw : ∀ c : Char, isAlpha c = true → NameW (Name.new [c]) [c] := fun c h =>
    .of_word ⟨c, [], rfl, h, by simp⟩
  exact (C121_typed_once (t := c!"objects") (.cons (hw 'a' (by decide)) sp_one.sep
    (.one (hw 'b' (by decide)))) ⟨'o', c!"bjects", rfl, by decide, by decide⟩ sp_one.sep sp_one.sep).2

end Pddl
