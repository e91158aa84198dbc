import Verif.Meta.Eval

/-!
# Meta-theory: running the typed-list parsers on written text
-/

namespace Pddl

theorem parseObject_err {s : List Char} (h : stripPrefix c!"object" s = none) : parseObject s = .err :=
  map_err (tag_err h)

theorem stripPrefix_head {c d : Char} {t s : List Char} (h : c ≠ d) :
    stripPrefix (c :: t) (d :: s) = none := by
  simp [stripPrefix, h]

theorem sep_head {g : List Char} (h : Sep g) : ∃ c r, g = c :: r ∧ isSpace c = true := by
  cases h with
  | mk hc _ => exact ⟨_, _, rfl, hc⟩

theorem not_space {c : Char} (h : isSpace c = true) (d : Char) (hd : isSpace d = false) : d ≠ c := by
  rintro rfl; rw [h] at hd; cases hd

theorem parsePrimitive_gap {g s : List Char} (hg : Sep g) :
    parsePrimitiveType (g ++ s) = parseName s := by
  obtain ⟨c, r, rfl, hc⟩ := sep_head hg
  have h1 : parseObject (c :: r ++ s) = .err :=
    parseObject_err (stripPrefix_head (not_space hc 'o' rfl))
  have h2 : parseName (c :: r ++ s) = parseName s := by
    rw [parseName_eq, parseName_eq, hg.gap.skip]
  simp only [parsePrimitiveType, alt, h1, h2]
  cases parseName s <;> rfl

/-- A word and the text `object`. -/
theorem stripPrefix_word {kw t r : List Char} (hkw : IsWord kw) (ht : IsWord t) (hr : Stop r)
    (h : ∀ x, t ≠ kw ++ x) : stripPrefix kw (t ++ r) = none := by
  obtain ⟨c, cs, rfl, hc, hcs⟩ := hkw
  obtain ⟨d, ds, rfl, hd, hds⟩ := ht
  by_cases hcd : c = d
  · subst hcd
    simp only [List.cons_append, stripPrefix, if_true]
    have h' : ∀ x, ds ≠ cs ++ x := fun x hx => h x (by rw [hx]; rfl)
    clear h hc hd
    induction cs generalizing ds with
    | nil => exact absurd rfl (h' ds)
    | cons e cs ih =>
      cases ds with
      | nil =>
        cases r with
        | nil => rfl
        | cons a r =>
          simp only [List.nil_append, stripPrefix]
          rw [if_neg]
          rintro rfl
          have h1 := hr.word e r rfl
          rw [hcs e (by simp)] at h1
          cases h1
      | cons f ds =>
        simp only [List.cons_append, stripPrefix]
        split
        · rename_i hef
          subst hef
          exact ih (fun a ha => hcs a (by simp [ha])) ds (fun a ha => hds a (by simp [ha]))
            fun x hx => h' x (by rw [hx]; rfl)
        · rfl
  · exact stripPrefix_head hcd

theorem isWord_object : IsWord c!"object" :=
  ⟨'o', c!"bject", rfl, by decide, by decide⟩

theorem EitherMemberW.elem {n : Name} {t : List Char} (h : EitherMemberW .strict n t) :
    Elem parsePrimitiveType n t := by
  refine ⟨fun r hr => ?_, h.1.solid⟩
  by_cases hx : ∃ x, t = c!"object" ++ x
  · obtain ⟨x, rfl⟩ := hx
    cases h.2 rfl x rfl
    obtain ⟨_, rfl⟩ := h.1
    exact alt_hit (map_run (tag_ok _ _))
  · have := stripPrefix_word isWord_object h.1.1 hr fun x hx' => hx ⟨x, hx'⟩
    rw [parsePrimitiveType, alt_miss (parseObject_err this), alt_hit (h.1.acc r hr)]

theorem parsePrimitive_err {c : Char} {s : List Char} (h : Solid (c :: s)) (hc : isAlpha c = false) :
    parsePrimitiveType (c :: s) = .err := by
  have ho : 'o' ≠ c := by rintro rfl; exact absurd hc (by decide)
  rw [parsePrimitiveType, alt_miss (parseObject_err (stripPrefix_head ho)),
    alt_miss (parseName_err_cons h hc), alt_nil]

theorem either_acc {g g' t : List Char} {ns : List Name} (hg : Gap g)
    (h : Items (EitherMemberW .strict) ns t) (hg' : Gap g') :
    Acc parseEitherType Any ns (paren (c!"either" ++ (g ++ (t ++ g')))) :=
  prefix_list1 hg (h.mono fun _ _ h _ => h.elem) hg'
    fun x => parsePrimitive_err (solid_close x) (by decide)

/-- A type after `-` and at least one space. -/
theorem TypeW.acc {ty : Ty} {u g : List Char} (h : TypeW .strict ty u) (hg : Sep g) :
    Acc parseType Stop ty (g ++ u) := by
  intro r hr
  rw [List.append_assoc]
  cases h with
  | exactly h =>
    refine ifOk_hit ?_
    rw [parsePrimitive_gap hg, h.acc r hr]
  | either h1 h2 h3 =>
    refine (ifOk_miss ?_).trans (ifOk_hit ?_)
    · rw [parsePrimitive_gap hg, paren_append]
      exact parseName_err_cons (solid_open _) (by decide)
    · have := either_acc (Mode.word.gap h1) h2 h3 r trivial
      rw [parseEitherType] at this ⊢
      rw [← prefixExpr_skip, hg.gap.skip_solid ((solid_paren _).append _), this]

theorem TypeW.solid {m : Mode} {ty : Ty} {u : List Char} (h : TypeW m ty u) : Solid u := by
  cases h with
  | exactly h => exact h.solid
  | either => exact solid_paren _

theorem solid_dash (x : List Char) : Solid ('-' :: x) := .cons (by decide) (by decide) _

/-- One explicitly typed group. -/
theorem explicit_run {inner : P α} {xs : List α} {t g g1 g2 u r : List Char} {ty : Ty}
    (hd : ∀ s, inner ('-' :: s) = .err) (hg : Gap g) (ht : Items (Elem inner) xs t) (h1 : Sep g1)
    (h2 : Sep g2) (hu : TypeW .strict ty u) (hr : Stop r) :
    explicitlyTyped inner (g ++ (t ++ (g1 ++ (c!"-" ++ (g2 ++ (u ++ r)))))) =
      .ok (xs.map fun x => ⟨x, ty⟩) r := by
  have hk : skip (g1 ++ (c!"-" ++ (g2 ++ (u ++ r)))) = '-' :: (g2 ++ (u ++ r)) :=
    h1.gap.skip_solid (solid_dash _)
  refine map_run (pair_run (list1_items ht hg (.sep h1 _) ?_) ?_)
  · rw [hk]
    exact hd _
  · have : ws (char '-') (g1 ++ (c!"-" ++ (g2 ++ (u ++ r)))) = .ok '-' (g2 ++ (u ++ r)) := by
      rw [ws_eq, hk]
      simp [char]
    rw [preceded_run this, ← List.append_assoc]
    exact hu.acc h2 r hr

/-- No group without elements. -/
theorem explicit_nil {inner : P α} {s : List Char} (h : inner (skip s) = .err) :
    explicitlyTyped inner s = .err :=
  map_err (pair_err (list1_nil h))

/-- An untyped tail is not a group. -/
theorem explicit_tail {inner : P α} {xs : List α} {t g y : List Char}
    (hg : Gap g) (ht : Items (Elem inner) xs t) (hy : Stop y)
    (he : inner (skip y) = .err) (hy' : ∀ z, skip y ≠ '-' :: z) :
    explicitlyTyped inner (g ++ (t ++ y)) = .err := by
  refine map_err (pair_err2 (list1_items ht hg hy he) (preceded_err ?_))
  rw [ws_eq]
  revert hy'
  generalize skip y = z
  intro hz
  cases z with
  | nil => rfl
  | cons c z =>
    have : c ≠ '-' := fun h => hz z (by rw [h])
    simp [char, this]

theorem Items.map {p : P α} {xs : List α} {t : List Char} (f : α → β) (h : Items (Elem p) xs t) :
    Items (Elem (map f p)) (xs.map f) t := by
  induction h with
  | one h => exact .one ⟨fun r hr => map_run (h.1 r hr), h.2⟩
  | cons h hg _ ih => exact .cons ⟨fun r hr => map_run (h.1 r hr), h.2⟩ hg ih

/-- `typed_list` and `function_typed_list` with the default type as a parameter. -/
def typedListD (d : Ty) (inner : P α) : P (TypedList α) :=
  Pddl.map (fun x : TypedList α × TypedList α => x.1 ++ x.2)
    (pair (Pddl.map List.flatten (many0 (explicitlyTyped inner)))
      (spaceSeparatedList0 (Pddl.map (fun o => Typed.mk o d) inner)))

theorem typedList_eq (inner : P α) : typedList inner = typedListD Ty.object inner := rfl
theorem functionTypedList_eq (inner : P α) : functionTypedList inner = typedListD Ty.number inner := rfl

theorem Items.pos {p : P α} {xs : List α} {t : List Char} (h : Items (Elem p) xs t) :
    0 < t.length := by
  obtain ⟨c, r, rfl, _⟩ := h.solid
  simp

/-- The typed list proper, as the two loops see it. -/
theorem typed_loops {inner : P α} {d : Ty} (hd : ∀ s, inner ('-' :: s) = .err)
    {xs : TypedList α} {u : List Char} (h : TypedW .strict (Elem inner) d xs u)
    {y : List Char} (hy : Stop y) (he : inner (skip y) = .err) (hy' : ∀ z, skip y ≠ '-' :: z)
    {g : List Char} (hg : Gap g) (n : Nat) (hn : (g ++ (u ++ y)).length < n) :
    ∃ as s bs y', many0Loop (explicitlyTyped inner) n (g ++ (u ++ y)) = .ok as s ∧
      spaceSeparatedList0 (map (fun o => Typed.mk o d) inner) s = .ok bs y' ∧
      as.flatten ++ bs = xs ∧ (y' = y ∨ y' = skip y) := by
  have hend : map (fun o => Typed.mk o d) inner (skip y) = .err := map_err he
  induction h generalizing g n with
  | @tail xs t h =>
    match n with
    | 0 => simp at hn
    | n + 1 =>
    refine ⟨[], g ++ (t ++ y), xs.map fun x => ⟨x, d⟩, y, ?_, ?_, rfl, .inl rfl⟩
    · simp only [many0Loop]
      rw [explicit_tail hg h hy he hy']
    · exact list0_items (h.map _) hg hy hend
  | @last xs t g1 g2 ty u h h1 h2 hu =>
    simp only [List.append_assoc] at hn ⊢
    match n with
    | 0 | 1 =>
      have := h.pos
      simp only [List.length_append, List.length_cons] at hn
      omega
    | n + 2 =>
    refine ⟨[xs.map fun x => ⟨x, ty⟩], y, [], skip y, ?_, list0_nil hend, by simp, .inr rfl⟩
    rw [many0Loop]
    dsimp only
    rw [explicit_run hd hg h h1 h2 hu hy]
    dsimp only
    rw [if_neg, many0Loop]
    · dsimp only
      rw [explicit_nil he]
      rfl
    · have := h.pos
      simp only [List.length_append]
      omega
  | @more xs t g1 g2 ty u g3 ys v h h1 h2 hu h3 hv ih =>
    simp only [List.append_assoc] at hn ⊢
    match n with
    | 0 => simp at hn
    | n + 1 =>
    have hpos := h.pos
    obtain ⟨as, s, bs, y', e1, e2, e3, e4⟩ := ih (Mode.word.gap h3) n (by
      simp only [List.length_append, List.length_cons] at hn ⊢; omega)
    refine ⟨(xs.map fun x => ⟨x, ty⟩) :: as, s, bs, y', ?_, e2, by simp [e3], e4⟩
    rw [many0Loop]
    dsimp only
    rw [explicit_run hd hg h h1 h2 hu (.sep h3 _)]
    dsimp only
    rw [if_neg, e1]
    · rfl
    · simp only [List.length_append]
      omega

theorem TypedW.mono {m : Mode} {R R' : α → List Char → Prop} {d xs u} (h : TypedW m R d xs u)
    (hR : ∀ a t, R a t → t.length ≤ u.length → R' a t) : TypedW m R' d xs u := by
  induction h with
  | tail h => exact .tail (h.mono hR)
  | last h h1 h2 hu =>
    exact .last (h.mono fun a t h hl => hR a t h (by simp only [List.length_append]; omega)) h1 h2 hu
  | more h h1 h2 hu h3 _ ih =>
    exact .more (h.mono fun a t h hl => hR a t h (by simp only [List.length_append]; omega)) h1 h2 hu h3
      (ih fun a t h hl => hR a t h (by simp only [List.length_append]; omega))

theorem typed_run {inner : P α} {d : Ty} (hd : ∀ s, inner ('-' :: s) = .err)
    {xs : TypedList α} {u : List Char} (h : TypedW .strict (Elem inner) d xs u)
    {y : List Char} (hy : Stop y) (he : inner (skip y) = .err) (hy' : ∀ z, skip y ≠ '-' :: z)
    {g : List Char} (hg : Gap g) :
    ∃ y', typedListD d inner (g ++ (u ++ y)) = .ok xs y' ∧ (y' = y ∨ y' = skip y) := by
  obtain ⟨as, s, bs, y', e1, e2, e3, e4⟩ := typed_loops hd h hy he hy' hg _ (Nat.lt_succ_self _)
  refine ⟨y', ?_, e4⟩
  rw [← e3]
  exact map_run (pair_run (map_run e1) e2)

/-- An empty typed list. -/
theorem typed_nil {inner : P α} {d : Ty} {y : List Char} (he : inner (skip y) = .err) :
    typedListD d inner y = .ok [] (skip y) := by
  have h0 : many0 (explicitlyTyped inner) y = .ok [] y := by
    rw [many0, many0Loop]
    dsimp only
    rw [explicit_nil he]
  exact map_run (f := fun x : TypedList α × TypedList α => x.1 ++ x.2) (a := ([], []))
    (pair_run (map_run (f := List.flatten) h0) (list0_nil (map_err he)))

/-- A typed list up to the closing parenthesis. -/
theorem typed_sec {inner : P α} {d : Ty} {lead trail : List Char → Prop} {xs : TypedList α}
    {u : List Char} (hd : ∀ s, inner ('-' :: s) = .err) (hc : ∀ s, inner (')' :: s) = .err)
    (h : Sec lead trail (TypedW .strict (Elem inner) d) xs u) (hl : ∀ g, lead g → Gap g)
    (ht : ∀ g, trail g → Gap g) (x : List Char) :
    ∃ y, typedListD d inner (u ++ ')' :: x) = .ok xs y ∧ skip y = ')' :: x ∧
      ((∀ g, trail g → g = []) → y = ')' :: x) := by
  cases h with
  | nil hg =>
    have hk := hg.skip_solid (solid_close x)
    refine ⟨')' :: x, ?_, (solid_close x).skip, fun _ => rfl⟩
    rw [typed_nil (by rw [hk, hc]), hk]
  | @cons g xs t g' hg h hg' =>
    have hk := (ht _ hg').skip_solid (solid_close x)
    obtain ⟨y', h1, h2⟩ := typed_run (y := g' ++ ')' :: x) hd h (.gap (ht _ hg') (.close x))
      (by rw [hk, hc]) (by rw [hk]; intro z hz; cases hz) (hl _ hg)
    refine ⟨y', by simpa using h1, ?_, ?_⟩
    · rcases h2 with rfl | rfl
      · exact hk
      · rw [skip_skip, hk]
    · intro hg0
      have := hg0 _ hg'
      subst this
      rcases h2 with rfl | rfl
      · rfl
      · exact hk

theorem typed_skip {inner : P α} {d : Ty} {xs : TypedList α} {trail lead : List Char → Prop} {u : List Char}
    (hd : ∀ s, inner ('-' :: s) = .err) (hc : ∀ s, inner (')' :: s) = .err)
    (h : Sec lead trail (TypedW .strict (Elem inner) d) xs u) (hl : ∀ g, lead g → Gap g)
    (ht : ∀ g, trail g → Gap g) (x : List Char) :
    ∃ y, typedListD d inner (skip (u ++ ')' :: x)) = .ok xs y ∧ skip y = ')' :: x ∧
      ((∀ g, trail g → g = []) → y = ')' :: x) := by
  cases h with
  | nil hg =>
    rw [hg.skip_solid (solid_close x)]
    exact typed_sec hd hc (u := []) (lead := lead) (trail := trail) (.nil .nil) hl ht x
  | @cons g xs t g' hg h hg' =>
    have ht0 : Solid t := by
      cases h with
      | tail h => exact h.solid
      | last h => exact h.solid.append _
      | more h => exact h.solid.append _
    simp only [List.append_assoc]
    rw [(hl _ hg).skip_solid (ht0.append _)]
    have := typed_sec hd hc (u := [] ++ (t ++ g')) (lead := Gap) (trail := trail)
      (.cons .nil h hg') (fun _ h => h) ht x
    simpa using this

theorem parseVariable_dash (s : List Char) : parseVariable ('-' :: s) = .err :=
  parseVariable_err (by intro r h; cases h)

theorem parseVariable_close (s : List Char) : parseVariable (')' :: s) = .err :=
  parseVariable_err (by intro r h; cases h)

theorem parseName_dash (s : List Char) : parseName ('-' :: s) = .err :=
  parseName_err_cons (solid_dash s) (by decide)

theorem parseName_close (s : List Char) : parseName (')' :: s) = .err :=
  parseName_err_cons (solid_close s) (by decide)

theorem parseName_open (s : List Char) : parseName ('(' :: s) = .err :=
  parseName_err_cons (solid_open s) (by decide)

theorem VarW.elem {v : Name} {t : List Char} (h : VarW .strict v t) : Elem parseVariable v t :=
  ⟨h.acc, h.solid⟩

theorem NameW.elem {n : Name} {t : List Char} (h : NameW n t) : Elem parseName n t :=
  ⟨h.acc, h.solid⟩

theorem VarsW.acc {vs : TypedList Name} {t : List Char} (h : VarsW .strict vs t) :
    Acc parseVarList Any vs t := by
  intro r _
  obtain ⟨u, rfl, h⟩ := h
  obtain ⟨y, h1, _, h3⟩ := typed_skip (d := Ty.object) parseVariable_dash
    parseVariable_close (h.mono fun t h _ => h.mono fun _ _ h _ => h.elem) (fun _ h => h)
    (fun _ h => Mode.tight.gap h) r
  cases h3 fun _ h => h
  rw [paren_append]
  exact parens_run h1

theorem VarsW.solid {m : Mode} {vs : TypedList Name} {t : List Char} (h : VarsW m vs t) : Solid t := by
  obtain ⟨u, rfl, h⟩ := h
  exact solid_paren _

/-- A name followed by a typed list of variables, in parentheses. -/
theorem SkeletonW.acc {p : Skeleton} {t : List Char} (h : SkeletonW .strict p t) :
    Acc parseAtomicFormulaSkeleton Any p t := by
  intro r _
  cases h with
  | @mk g p t vs u hg hp h =>
    obtain ⟨y, h1, _, h3⟩ := typed_skip (d := Ty.object) parseVariable_dash
      parseVariable_close (h.mono fun t h _ => h.mono fun _ _ h _ => h.elem)
      (fun _ h => Mode.word.gap h) (fun _ h => Mode.tight.gap h) r
    cases h3 fun _ h => h
    rw [paren_append]
    simp only [List.append_assoc]
    refine map_run (a := (p, vs)) (parens_run ?_)
    rw [hg.skip_solid (hp.solid.append _)]
    refine pair_run (hp.acc _ ?_) (by rw [ws_eq]; exact h1)
    cases h with
    | nil hg => exact .gap hg (.close r)
    | cons hg _ _ => simp only [List.append_assoc]; exact .sep hg _

theorem SkeletonW.solid {m : Mode} {p : Skeleton} {t : List Char} (h : SkeletonW m p t) : Solid t := by
  cases h; exact solid_paren _

theorem skeleton_eq : parseAtomicFunctionSkeleton = parseAtomicFormulaSkeleton := rfl

theorem SkeletonW.elem {p : Skeleton} {t : List Char} (h : SkeletonW .strict p t) :
    Elem parseAtomicFormulaSkeleton p t := ⟨h.acc.mono fun _ _ => trivial, h.solid⟩

theorem parseSkeleton_err {c : Char} (s : List Char) (h : c ≠ '(') (h' : c ≠ ';') :
    parseAtomicFormulaSkeleton (c :: s) = .err :=
  map_err (parens_head h' h)

/-- `(kw typed-list)` -/
theorem prefix_typed {inner : P α} {d : Ty} {lead : List Char → Prop} {xs : TypedList α}
    {u kw : List Char} (hd : ∀ s, inner ('-' :: s) = .err) (hc : ∀ s, inner (')' :: s) = .err)
    (h : Sec lead Gap (TypedW .strict (Elem inner) d) xs u) (hl : ∀ g, lead g → Gap g) :
    Acc (prefixExpr kw (typedListD d inner)) Any xs (paren (kw ++ u)) := by
  intro r _
  obtain ⟨y, h1, h2, _⟩ := typed_skip hd hc h hl (fun _ h => h) r
  simp only [paren_append, List.append_assoc]
  exact prefixExpr_run h1 h2

theorem TypedNamesW.acc {kw : List Char} {xs : TypedList Name} {t : List Char}
    (h : TypedNamesW .strict kw xs t) : Acc (prefixExpr kw (typedList parseName)) Any xs t := by
  cases h with
  | mk h =>
    exact prefix_typed parseName_dash parseName_close
      (h.mono fun t h _ => h.mono fun _ _ h _ => h.elem) (fun _ h => Mode.word.gap h)

theorem FunctionsW.acc {xs : TypedList Skeleton} {t : List Char} (h : FunctionsW .strict xs t) :
    Acc parseFunctionsDef Any xs t := by
  cases h with
  | mk h =>
    exact prefix_typed (fun s => parseSkeleton_err s (by decide) (by decide))
      (fun s => parseSkeleton_err s (by decide) (by decide))
      (h.mono fun t h _ => h.mono fun _ _ h _ => h.elem) (fun _ h => h)

end Pddl
