import Verif.Props.Exact
import Verif.Meta.ArithX

/-!
# Meta-theory: exactly which texts the typed-list parsers accept
-/

namespace Pddl

/-! ## Types -/

/-- A member of an `either` type: a word, other than one that merely begins with `object`. -/
def EitherX (n : Name) (t : List Char) : Prop := NameW n t ∧ (c!"object" <+: t → t = c!"object")

/-- `TyX ty x r`: the text `x`, followed by `r`, is a type. Directly after `-` the six letters
`object` are the type `object` whatever follows them. -/
inductive TyX : Ty → List Char → List Char → Prop
  | object {r} : TyX objectTy c!"object" r
  | word {g n t r} : Gap g → NameW n t → (g = [] → ¬ c!"object" <+: t) → NoWord r →
      TyX (.exactly n) (g ++ t) r
  | either {g g1 ns u g2 r} : Gap g → Gap g1 → Items EitherX ns u → Gap g2 →
      TyX (.eitherOf ns) (g ++ paren (c!"either" ++ (g1 ++ (u ++ g2)))) r

/-- The content of a typed list up to the closing parenthesis: groups `x1 .. xk - t`, then elements
of the default type `d`. `J g` says that `g` may stand between an element and `-`. -/
inductive TypedX {α : Type} (R : α → List Char → Prop) (J : List Char → Prop) (d : Ty) :
    TypedList α → List Char → Prop
  | rest {xs u} : Sec Gap (· = []) (Items R) xs u → TypedX R J d (xs.map fun x => ⟨x, d⟩) u
  | group {g xs u g2 ty x vs w} : Gap g → Items R xs u → Gap g2 → J g2 → TyX ty x w →
      TypedX R J d vs w →
      TypedX R J d ((xs.map fun y => ⟨y, ty⟩) ++ vs) (g ++ (u ++ (g2 ++ ('-' :: (x ++ w)))))

theorem EitherX.elem {n : Name} {t : List Char} (h : EitherX n t) : Elem parsePrimitiveType n t := by
  refine EitherMemberW.elem ⟨h.1, fun _ r hr => ?_⟩
  have := h.2 (by rw [hr]; exact ⟨r, rfl⟩)
  rw [hr] at this
  exact List.append_right_eq_self.mp this

theorem stripPrefix_none {w s : List Char} : stripPrefix w s = none ↔ ¬ w <+: s := by
  induction w generalizing s with
  | nil => simp [stripPrefix]
  | cons c w ih =>
    cases s with
    | nil => simp [stripPrefix]
    | cons e s =>
      rw [stripPrefix]
      split
      · rename_i h
        subst h
        rw [ih, List.cons_prefix_cons]
        simp
      · rename_i h
        simp [List.cons_prefix_cons, h]

/-- A keyword made of word characters that begins a word and what follows it begins the word. -/
theorem kw_prefix {w t r : List Char} (hw : ∀ c ∈ w, isWordChar c = true) (hr : NoWord r)
    (h : w <+: t ++ r) : w <+: t := by
  induction t generalizing w with
  | nil =>
    cases w with
    | nil => exact List.nil_prefix
    | cons c w =>
      obtain ⟨z, hz⟩ := h
      have h1 := hr c (w ++ z) (by simpa using hz.symm)
      rw [hw c (by simp)] at h1
      cases h1
  | cons c t ih =>
    cases w with
    | nil => exact List.nil_prefix
    | cons e w =>
      rw [List.cons_append, List.cons_prefix_cons] at h
      rw [List.cons_prefix_cons]
      exact ⟨h.1, ih (fun c hc => hw c (by simp [hc])) h.2⟩

theorem object_word : ∀ c ∈ c!"object", isWordChar c = true := by decide

theorem Gap.not_object {g t : List Char} (hg : Gap g) (hn : g ≠ []) : ¬ c!"object" <+: g ++ t := by
  rintro ⟨z, hz⟩
  cases hg with
  | nil => exact hn rfl
  | space hc _ =>
    have := (List.cons.inj hz).1
    subst this
    exact absurd hc (by decide)
  | comment => exact absurd (List.cons.inj hz).1 (by decide)

/-- A primitive type: `object`, or a word after layout. -/
theorem primitive_iff (s : List Char) (n : Name) (r : List Char) :
    parsePrimitiveType s = .ok n r ↔
      (n = Name.new c!"object" ∧ s = c!"object" ++ r) ∨
      ∃ g t, s = g ++ (t ++ r) ∧ Gap g ∧ NameW n t ∧ NoWord r ∧ (g = [] → ¬ c!"object" <+: t) := by
  constructor
  · intro h
    rcases alt_inv h with h | ⟨h0, h⟩
    · obtain ⟨_, h1, rfl⟩ := map_ok h
      obtain ⟨rfl, h2⟩ := tag_inv h1
      exact .inl ⟨rfl, h2⟩
    · rcases alt_inv h with h | ⟨_, h⟩
      · obtain ⟨g, t, rfl, hg, ht, hr⟩ := (parseName_exact.iff _ _ _).mp h
        refine .inr ⟨g, t, rfl, hg, ht, hr, ?_⟩
        rintro rfl ⟨z, rfl⟩
        cases h0
      · cases h
  · rintro (⟨rfl, rfl⟩ | ⟨g, t, rfl, hg, ht, hr, hn⟩)
    · rfl
    · have h1 : parseName (g ++ (t ++ r)) = .ok n r :=
        (parseName_exact.iff _ _ _).mpr ⟨g, t, rfl, hg, ht, hr⟩
      rw [parsePrimitiveType, alt_miss, alt_hit h1]
      refine parseObject_err (stripPrefix_none.mpr ?_)
      by_cases hg0 : g = []
      · subst hg0
        exact fun h => hn rfl (kw_prefix object_word hr h)
      · exact hg.not_object hg0

theorem primitive_ws (s : List Char) (n : Name) (r : List Char) (h : ws parsePrimitiveType s = .ok n r) :
    ∃ g t, s = g ++ (t ++ r) ∧ Gap g ∧ EitherX n t := by
  rw [ws_eq] at h
  have hs : skip s ≠ [] := by
    intro h0
    rw [h0] at h
    cases h
  obtain ⟨g0, h0, hg0⟩ := skip_gap hs
  rcases (primitive_iff _ _ _).mp h with ⟨rfl, h1⟩ | ⟨g, t, h1, hg, ht, hr, hn⟩
  · exact ⟨g0, c!"object", by rw [← h1]; exact h0, hg0, ⟨isWord_object, rfl⟩, fun _ => rfl⟩
  · have h2 := congrArg skip h1
    rw [skip_skip, hg.skip_solid (ht.solid.append _), h1] at h2
    have hg1 : g = [] := List.append_left_eq_self.mp h2
    subst hg1
    refine ⟨g0, t, by rw [← List.nil_append (t ++ r), ← h1]; exact h0, hg0, ht, fun h => absurd h (hn rfl)⟩

theorem either_members : Snd Any Gap (spaceSeparatedList1 parsePrimitiveType) (Items EitherX) := by
  intro s ns r hs hr
  rw [list1_ws] at hs
  exact Snd.list1 (p := ws parsePrimitiveType) (fun s n r h _ => primitive_ws s n r h)
    (fun n t h => h.1.solid.ne) s ns r hs hr

/-- Exactly which texts are read as a type. -/
theorem type_iff (s : List Char) (ty : Ty) (r : List Char) :
    parseType s = .ok ty r ↔ ∃ x, s = x ++ r ∧ TyX ty x r := by
  constructor
  · intro h
    rcases ifOk_inv h with ⟨n, h1, rfl⟩ | h1
    · rcases (primitive_iff _ _ _).mp h1 with ⟨rfl, rfl⟩ | ⟨g, t, rfl, hg, ht, hr, hn⟩
      · exact ⟨_, rfl, .object⟩
      · exact ⟨g ++ t, by simp, .word hg ht hn hr⟩
    · rcases ifOk_inv h1 with ⟨ns, h2, rfl⟩ | h2
      · obtain ⟨g, x, y, rfl, hg, h3, h4⟩ := prefixExpr_inv h2
        obtain ⟨g1, u, h5, hg1, hu⟩ := either_members _ _ _ h3 trivial
        obtain ⟨g0, h6, hg0⟩ := skip_gap (s := x) (by
          rw [h5]
          have : u ≠ [] := Items.nonE (fun n t h => h.1.solid.ne) _ _ hu
          simp [this])
        obtain ⟨g2, h7, hg2⟩ := skip_gap (s := y) (by rw [h4]; simp)
        rw [h4] at h7
        rw [h5, h7] at h6
        refine ⟨g ++ paren (c!"either" ++ ((g0 ++ g1) ++ (u ++ g2))), ?_,
          .either hg (hg0.append hg1) hu hg2⟩
        rw [h6]
        simp [paren]
      · cases h2
  · rintro ⟨x, rfl, h⟩
    cases h with
    | object => rfl
    | @word g n t r hg ht hn hr =>
      refine ifOk_hit ((primitive_iff _ _ _).mpr (.inr ⟨g, t, by simp, hg, ht, hr, hn⟩))
    | @either g g1 ns u g2 r hg hg1 hu hg2 =>
      have hu' : Items (Elem parsePrimitiveType) ns u := hu.mono fun _ _ h _ => h.elem
      refine (ifOk_miss ?_).trans (ifOk_hit ?_)
      · rw [List.append_assoc, paren_append]
        rw [parsePrimitiveType, alt_miss]
        · have := parseName_gap_err (g := g) hg (solid_open (c!"either" ++ (g1 ++ (u ++ g2)) ++ ')' :: r))
            (by decide)
          rw [alt_miss this, alt_nil]
        · refine parseObject_err (stripPrefix_none.mpr ?_)
          rintro ⟨z, hz⟩
          have h2 := congrArg skip hz
          rw [hg.skip_solid (solid_open _)] at h2
          cases h2
      · rw [parseEitherType, List.append_assoc, prefix_lead hg, paren_append, List.append_assoc]
        refine prefixExpr_run (y := g2 ++ ')' :: r) ?_ (hg2.skip_solid (solid_close r))
        rw [list1_skip, List.append_assoc, List.append_assoc]
        refine list1_items hu' hg1 (.gap hg2 (.close r)) ?_
        rw [hg2.skip_solid (solid_close r)]
        exact parsePrimitive_err (solid_close r) (by decide)

theorem TyX.ext {ty : Ty} {x w y : List Char} (h : TyX ty x w) (hy : Stop y) : TyX ty x (w ++ y) := by
  cases h with
  | object => exact .object
  | word hg ht hn hr =>
    refine .word hg ht hn ?_
    cases w with
    | nil => exact hy.word
    | cons c w => exact (NoWord.head (by simp) y).mpr hr
  | either h1 h2 h3 h4 => exact .either h1 h2 h3 h4

theorem TyX.cut {ty : Ty} {x w y : List Char} (h : TyX ty x (w ++ y)) : TyX ty x w := by
  cases h with
  | object => exact .object
  | word hg ht hn hr =>
    refine .word hg ht hn ?_
    cases w with
    | nil => intro c r' h; cases h
    | cons c w => exact (NoWord.head (by simp) y).mp hr
  | either h1 h2 h3 h4 => exact .either h1 h2 h3 h4

/-! ## Typed lists -/

/-- What is needed of the elements of a typed list. -/
structure Inner (p : P α) (L R F : α → List Char → Prop) (J : List Char → Prop) : Prop
    extends Exact p L R F where
  dash : ∀ s, p ('-' :: s) = .err
  join : ∀ a g x, Gap g → (F a (g ++ '-' :: x) ↔ J g)

section
variable {α : Type} {p : P α} {L R F : α → List Char → Prop} {J : List Char → Prop} {d : Ty}

/-- The last element of a list is read up to the end of the list. -/
theorem sepLoop_last (n : Nat) : ∀ s as r a s', p s' = .ok a s →
    sepLoop multispace1 (preceded ignoreEolComment p) n s = .ok as r → ∃ a s', p s' = .ok a r := by
  induction n with
  | zero => intro s as r a s' _ h; cases h
  | succ n ih =>
    intro s as r a s' h0 h
    cases s with
    | nil => cases h; exact ⟨a, s', h0⟩
    | cons c s =>
      cases hc : isSpace c with
      | false =>
        have := multispace1_err (s := c :: s) (by intro c' r h; cases h; exact hc)
        simp only [sepLoop, this] at h
        cases h
        exact ⟨a, s', h0⟩
      | true =>
        rw [sepLoop_step hc] at h
        cases hp : p (skip (c :: s)) with
        | err => rw [hp] at h; cases h; exact ⟨a, s', h0⟩
        | ok b r' =>
          rw [hp] at h
          dsimp only at h
          cases hl : sepLoop multispace1 (preceded ignoreEolComment p) n r' with
          | ok bs r'' =>
            rw [hl] at h
            cases h
            exact ih _ _ _ _ _ hp hl
          | _ => rw [hl] at h; cases h
        | _ => rw [hp] at h; cases h

theorem list1_last {s : List Char} {as : List α} {r : List Char}
    (h : spaceSeparatedList1 p s = .ok as r) : ∃ a s', p s' = .ok a r := by
  rw [spaceSeparatedList1, ws_eq, sepList1, eolp_eq, skipC_skip] at h
  cases hp : p (skip s) with
  | ok b r' =>
    rw [hp] at h
    simp only [Res.bind] at h
    cases hl : sepLoop multispace1 (preceded ignoreEolComment p) (r'.length + 1) r' with
    | ok bs r'' =>
      rw [hl] at h
      cases h
      exact sepLoop_last _ _ _ _ _ _ hp hl
    | _ => rw [hl] at h; cases h
  | _ => rw [hp] at h; cases h

theorem sepLoop_items_at {as : List α} {u y : List Char} (h : Items R as u)
    (hE : ∀ a t, R a t → Elem p a t) (hy : ∀ a t, R a t → p (t ++ y) = .ok a y)
    (he : p (skip y) = .err) {g : List Char} (hg : Sep g) (n : Nat)
    (hn : (g ++ (u ++ y)).length < n) :
    sepLoop multispace1 (preceded ignoreEolComment p) n (g ++ (u ++ y)) = .ok as y := by
  induction h generalizing g n with
  | @one a t h =>
    have hk := hg.gap.skip_solid ((hE a t h).2.append y)
    cases hg with
    | @mk c g hc hg =>
      rw [List.cons_append] at hk hn ⊢
      match n with
      | 0 | 1 => simp at hn
      | n + 2 =>
      rw [sepLoop_step hc, hk, hy a t h]
      dsimp only
      rw [sepLoop_end he n]; rfl
  | @cons a t g' as u h hg' hu ih =>
    have e : t ++ (g' ++ u) ++ y = t ++ (g' ++ (u ++ y)) := by simp
    rw [e] at hn ⊢
    have hk := hg.gap.skip_solid ((hE a t h).2.append (g' ++ (u ++ y)))
    cases hg with
    | @mk c g hc hg =>
      rw [List.cons_append] at hk hn ⊢
      match n with
      | 0 => simp at hn
      | n + 1 =>
      rw [sepLoop_step hc, hk, (hE a t h).1 _ (.sep hg' _)]
      dsimp only
      rw [ih hg' n (by simp only [List.length_append, List.length_cons] at hn ⊢; omega)]
      rfl

theorem list1_items_at {as : List α} {u y : List Char} (h : Items R as u)
    (hE : ∀ a t, R a t → Elem p a t) (hy : ∀ a t, R a t → p (t ++ y) = .ok a y)
    (he : p (skip y) = .err) {g : List Char} (hg : Gap g) :
    spaceSeparatedList1 p (g ++ (u ++ y)) = .ok as y := by
  have hs : Items (Elem p) as u := h.mono fun a t h _ => hE a t h
  rw [spaceSeparatedList1, ws_eq, hg.skip_solid (hs.solid.append y), sepList1, eolp_eq,
    (hs.solid.append y).skipC]
  cases h with
  | one h => rw [hy _ _ h]; simp only [Res.bind, sepLoop_end he]
  | @cons a t g' as u h hg' hu =>
    rw [List.append_assoc, (hE a t h).1 _ (by rw [List.append_assoc]; exact .sep hg' _)]
    simp only [Res.bind, List.append_assoc]
    rw [sepLoop_items_at hu hE hy he hg' _ (Nat.lt_succ_self _)]

/-- Exactly which texts are read as an explicitly typed group. -/
theorem explicit_iff (H : Inner p L R F J) (s : List Char) (vs : TypedList α) (r : List Char) :
    explicitlyTyped p s = .ok vs r ↔
      ∃ g xs u g2 ty x, s = g ++ (u ++ (g2 ++ ('-' :: (x ++ r)))) ∧ vs = (xs.map fun y => ⟨y, ty⟩) ∧
        Gap g ∧ Items R xs u ∧ Gap g2 ∧ J g2 ∧ TyX ty x r := by
  constructor
  · intro h
    obtain ⟨⟨xs, ty⟩, h1, rfl⟩ := map_ok h
    obtain ⟨r1, h2, h3⟩ := pair_ok h1
    obtain ⟨_, r2, h4, h5⟩ := preceded_ok h3
    rw [ws_eq] at h4
    have h4 := char_inv h4
    obtain ⟨x, rfl, hx⟩ := (type_iff _ _ _).mp h5
    obtain ⟨g2, h6, hg2⟩ := skip_gap (s := r1) (by rw [h4]; simp)
    rw [h4] at h6
    subst h6
    obtain ⟨a, s', ha⟩ := list1_last h2
    obtain ⟨_, _, _, _, _, ha⟩ := (H.iff _ _ _).mp ha
    obtain ⟨g, u, rfl, hg, hu⟩ := Snd.list1 H.snd H.nonE _ _ _ h2 trivial
    exact ⟨g, xs, u, g2, ty, x, rfl, rfl, hg, hu, hg2, (H.join a g2 _ hg2).mp ha, hx⟩
  · rintro ⟨g, xs, u, g2, ty, x, rfl, rfl, hg, hu, hg2, hJ, hx⟩
    have hk : skip (g2 ++ '-' :: (x ++ r)) = '-' :: (x ++ r) := hg2.skip_solid (solid_dash _)
    refine map_run (f := fun x : List α × Ty => x.1.map fun o => Typed.mk o x.2) (a := (xs, ty))
      (pair_run (list1_items_at hu (fun a t h => H.elem h) (fun a t h => ?_) ?_ hg) ?_)
    · exact (H.iff _ _ _).mpr ⟨[], t, rfl, H.none a, h, (H.join a g2 _ hg2).mpr hJ⟩
    · rw [hk]
      exact H.dash _
    · have : ws (char '-') (g2 ++ '-' :: (x ++ r)) = .ok '-' (x ++ r) := by
        rw [ws_eq, hk]
        simp [char]
      rw [preceded_run this]
      exact (type_iff _ _ _).mpr ⟨x, rfl, hx⟩

theorem TypedX.lead {vs : TypedList α} {w g : List Char} (hg : Gap g) (h : TypedX R J d vs w) :
    TypedX R J d vs (g ++ w) := by
  cases h with
  | rest h =>
    refine .rest ?_
    cases h with
    | nil h => exact .nil (hg.append h)
    | @cons g1 xs u g2 h1 h2 h3 =>
      rw [← List.append_assoc]
      exact .cons (hg.append h1) h2 h3
  | group h1 h2 h3 h4 h5 h6 =>
    rw [← List.append_assoc]
    exact .group (hg.append h1) h2 h3 h4 h5 h6

/-- What a typed list is read from. -/
theorem typedX_inv (H : Inner p L R F J) {s : List Char} {vs : TypedList α} {r : List Char}
    (hs : typedListD d p s = .ok vs r) (hr : r ≠ []) : ∃ w, s = w ++ r ∧ TypedX R J d vs w := by
  obtain ⟨⟨as, bs⟩, h1, rfl⟩ := map_ok hs
  obtain ⟨r1, h0, h3⟩ := pair_ok h1
  obtain ⟨ass, h2, h0'⟩ := map_ok h0
  dsimp only at h0' h3 ⊢
  subst h0'
  clear h0
  unfold many0 at h2
  revert h2
  generalize s.length + 1 = n
  intro h2
  clear h1 hs
  induction n generalizing s ass with
  | zero => cases h2
  | succ n ih =>
    rw [many0Loop] at h2
    dsimp only at h2
    split at h2
    · cases h2
      have hl := list0_exact (p := map (fun o => Typed.mk o d) p)
        (R := fun y t => ∃ x, R x t ∧ y = Typed.mk x d) (H.snd.map fun a t ha => ⟨a, ha, rfl⟩)
        (by rintro a t ⟨x, hx, _⟩; exact H.nonE _ _ hx)
      obtain ⟨g, t, h4, hg, h5⟩ := hl _ _ _ h3 hr
      cases hg
      refine ⟨t, h4, ?_⟩
      cases h5 with
      | nil hg => exact .rest (xs := []) (.nil hg)
      | cons h6 h7 h8 =>
        obtain ⟨xs, hxs, h7'⟩ := h7.unmap
        subst hxs
        exact .rest (.cons h6 h7' h8)
    · rename_i a r2 h4
      split at h2
      · cases h2
      · cases hl : many0Loop (explicitlyTyped p) n r2 with
        | ok as' r' =>
          rw [hl] at h2
          cases h2
          obtain ⟨w, rfl, h5⟩ := ih _ hl
          obtain ⟨g, xs, u, g2, ty, x, rfl, rfl, hg, hu, hg2, hJ, hx⟩ := (explicit_iff H _ _ _).mp h4
          refine ⟨g ++ (u ++ (g2 ++ ('-' :: (x ++ w)))), by simp, ?_⟩
          rw [List.flatten_cons, List.append_assoc]
          exact .group hg hu hg2 hJ hx.cut h5
        | _ => rw [hl] at h2; cases h2
    all_goals cases h2

theorem typedX_loops (H : Inner p L R F J) {vs : TypedList α} {w : List Char} (h : TypedX R J d vs w)
    {g' x : List Char} (hg' : Gap g') (n : Nat) (hn : (w ++ (g' ++ ')' :: x)).length < n) :
    ∃ as s bs y, many0Loop (explicitlyTyped p) n (w ++ (g' ++ ')' :: x)) = .ok as s ∧
      spaceSeparatedList0 (map (fun o => Typed.mk o d) p) s = .ok bs y ∧
      as.flatten ++ bs = vs ∧ skip y = ')' :: x ∧ (g' = [] → y = ')' :: x) := by
  have hk := hg'.skip_solid (solid_close x)
  have hst : Stop (g' ++ ')' :: x) := .gap hg' (.close x)
  induction h generalizing n with
  | @rest xs u h =>
    match n with
    | 0 => simp at hn
    | n + 1 =>
    cases h with
    | nil hg =>
      have hk' : skip (u ++ (g' ++ ')' :: x)) = ')' :: x := by rw [hg.skip, hk]
      refine ⟨[], u ++ (g' ++ ')' :: x), [], ')' :: x, ?_, ?_, rfl, (solid_close x).skip, fun _ => rfl⟩
      · simp only [many0Loop]
        rw [explicit_nil (by rw [hk', H.close])]
      · rw [list0_nil (map_err (by rw [hk', H.close])), hk']
    | @cons g xs t g2 hg ht h0 =>
      cases h0
      have hE : Items (Elem p) xs t := ht.mono fun a t h _ => H.elem h
      refine ⟨[], g ++ (t ++ []) ++ (g' ++ ')' :: x), xs.map fun y => ⟨y, d⟩, g' ++ ')' :: x, ?_, ?_, rfl,
        hk, fun h => by rw [h]; rfl⟩
      · simp only [many0Loop]
        rw [List.append_nil, List.append_assoc, explicit_tail hg hE hst (by rw [hk, H.close])
          (by rw [hk]; intro z hz; cases hz)]
      · rw [List.append_nil, List.append_assoc]
        exact list0_items (hE.map _) hg hst (map_err (by rw [hk, H.close]))
  | @group g xs u g2 ty x' vs w hg hu hg2 hJ hx _ ih =>
    simp only [List.append_assoc, List.cons_append] at hn ⊢
    match n with
    | 0 => simp at hn
    | n + 1 =>
    obtain ⟨as, s, bs, y, e1, e2, e3, e4⟩ := ih n (by
      simp only [List.length_append, List.length_cons] at hn ⊢; omega)
    refine ⟨(xs.map fun x => ⟨x, ty⟩) :: as, s, bs, y, ?_, e2, by simp [e3], e4⟩
    have he : explicitlyTyped p (g ++ (u ++ (g2 ++ '-' :: (x' ++ (w ++ (g' ++ ')' :: x)))))) =
        .ok (xs.map fun x => ⟨x, ty⟩) (w ++ (g' ++ ')' :: x)) :=
      (explicit_iff H _ _ _).mpr ⟨g, xs, u, g2, ty, x', rfl, rfl, hg, hu, hg2, hJ, hx.ext hst⟩
    rw [many0Loop]
    dsimp only
    rw [he]
    dsimp only
    rw [if_neg, e1]
    · rfl
    · simp only [List.length_append, List.length_cons]
      omega

theorem typedX_run (H : Inner p L R F J) {vs : TypedList α} {w : List Char} (h : TypedX R J d vs w)
    {g' : List Char} (hg' : Gap g') (x : List Char) :
    ∃ y, typedListD d p (w ++ (g' ++ ')' :: x)) = .ok vs y ∧ skip y = ')' :: x ∧
      (g' = [] → y = ')' :: x) := by
  obtain ⟨as, s, bs, y, e1, e2, e3, e4⟩ := typedX_loops H h hg' (x := x) _ (Nat.lt_succ_self _)
  refine ⟨y, ?_, e4⟩
  rw [← e3]
  exact map_run (pair_run (map_run e1) e2)

/-- The content without its leading layout. -/
theorem TypedX.skipped (H : Inner p L R F J) {vs : TypedList α} {w : List Char}
    (h : TypedX R J d vs w) {g' : List Char} (hg' : Gap g') (x : List Char) :
    ∃ w' g'', skip (w ++ (g' ++ ')' :: x)) = w' ++ (g'' ++ ')' :: x) ∧ TypedX R J d vs w' ∧ Gap g'' ∧
      (g' = [] → g'' = []) := by
  have hk := hg'.skip_solid (solid_close x)
  cases h with
  | rest h =>
    cases h with
    | @nil g hg =>
      refine ⟨[], [], ?_, .rest (xs := []) (.nil .nil), .nil, fun _ => rfl⟩
      rw [hg.skip, hk]
      rfl
    | @cons g xs t g2 hg ht h0 =>
      cases h0
      refine ⟨t, g', ?_, .rest (by
        have := Sec.cons (lead := Gap) (trail := (· = [])) (g := []) (g' := []) .nil ht rfl
        simpa using this), hg', id⟩
      have hs : Solid t := (Items.mono ht fun a t h _ => H.elem h).solid
      rw [List.append_nil, List.append_assoc, hg.skip_solid (hs.append _)]
  | @group g xs u g2 ty x' vs w hg hu hg2 hJ hx hw =>
    have hs : Solid u := (Items.mono hu fun a t h _ => H.elem h).solid
    refine ⟨u ++ (g2 ++ ('-' :: (x' ++ w))), g', ?_, ?_, hg', id⟩
    · rw [List.append_assoc, hg.skip_solid]
      exact (hs.append _).append _
    · exact .group (g := []) .nil hu hg2 hJ hx hw

theorem typedX_skip_run (H : Inner p L R F J) {vs : TypedList α} {w : List Char}
    (h : TypedX R J d vs w) {g' : List Char} (hg' : Gap g') (x : List Char) :
    ∃ y, typedListD d p (skip (w ++ (g' ++ ')' :: x))) = .ok vs y ∧ skip y = ')' :: x ∧
      (g' = [] → y = ')' :: x) := by
  obtain ⟨w', g'', h1, h2, h3, h4⟩ := h.skipped H hg' x
  rw [h1]
  obtain ⟨y, h5, h6, h7⟩ := typedX_run H h2 h3 x
  exact ⟨y, h5, h6, fun h => h7 (h4 h)⟩

theorem typedX_skip_inv (H : Inner p L R F J) {s : List Char} {vs : TypedList α} {r : List Char}
    (hs : typedListD d p (skip s) = .ok vs r) (hr : r ≠ []) : ∃ w, s = w ++ r ∧ TypedX R J d vs w := by
  obtain ⟨w, h1, h2⟩ := typedX_inv H hs hr
  obtain ⟨g, h3, hg⟩ := skip_gap (s := s) (by rw [h1]; simp [hr])
  rw [h1] at h3
  exact ⟨g ++ w, by rw [h3]; simp, h2.lead hg⟩

/-- A parenthesised typed list: nothing may stand between the last element and the parenthesis. -/
theorem parens_typedX (H : Inner p L R F J) (s : List Char) (vs : TypedList α) (r : List Char) :
    parens (typedListD d p) s = .ok vs r ↔
      ∃ g w, s = g ++ (paren w ++ r) ∧ GapC g ∧ TypedX R J d vs w := by
  constructor
  · intro h
    obtain ⟨g, x, rfl, hg, h1⟩ := parens_invC h
    obtain ⟨w, rfl, hw⟩ := typedX_skip_inv H h1 (by simp)
    exact ⟨g, w, by simp [paren], hg, hw⟩
  · rintro ⟨g, w, rfl, hg, hw⟩
    rw [paren_append, parens_gapC hg]
    obtain ⟨y, h1, _, h2⟩ := typedX_skip_run H hw .nil r
    rw [h2 rfl] at h1
    exact parens_run h1

/-- A section holding a typed list. -/
theorem prefix_typedX (H : Inner p L R F J) (kw s : List Char) (vs : TypedList α) (r : List Char) :
    prefixExpr kw (typedListD d p) s = .ok vs r ↔
      ∃ g w g', s = g ++ (paren (kw ++ (w ++ g')) ++ r) ∧ Gap g ∧ TypedX R J d vs w ∧ Gap g' := by
  constructor
  · intro h
    obtain ⟨g, x, y, rfl, hg, h1, h2⟩ := prefixExpr_inv h
    obtain ⟨g', h3, hg'⟩ := skip_gap (s := y) (by rw [h2]; simp)
    rw [h2] at h3
    subst h3
    obtain ⟨w, rfl, hw⟩ := typedX_skip_inv H h1 (by simp)
    exact ⟨g, w, g', by simp [paren], hg, hw, hg'⟩
  · rintro ⟨g, w, g', rfl, hg, hw, hg'⟩
    rw [paren_append, prefix_lead hg]
    simp only [List.append_assoc]
    obtain ⟨y, h1, h2, _⟩ := typedX_skip_run H hw hg' r
    exact prefixExpr_run h1 h2

end

end Pddl
