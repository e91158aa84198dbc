import Verif.Props.TypedLists
import Verif.Props.NumericForms

/-!
# Meta-theory: atoms that are also keyword forms

The arguments of an atom may be function terms, and a function term has the same texts as an atom. So
`(and (p) (q))` is both an atom with two arguments and a conjunction. The lemmas here say what
the keyword parsers do on the texts of atoms.
-/

namespace Pddl

/-- A function term. -/
def IsFn : Term → Prop
  | .fn _ _ => True
  | _ => False

instance (x : Term) : Decidable (IsFn x) := by
  cases x <;> unfold IsFn <;> infer_instance

theorem NameW.par {α : Type} {q : P α} (hq : Par q) {n : Name} {x : List Char} (h : NameW n x) (y : List Char) :
    q (x ++ y) = .err := by
  obtain ⟨⟨c, w, rfl, hc, _⟩, _⟩ := h
  obtain ⟨h1, h2⟩ := isAlpha_solid hc
  refine hq c _ ?_ h2 (by simpa [isBlank_space] using h1)
  rintro rfl
  cases hc

/-- What is needed of a parser of parts: it reads every function term shorter than `n`. -/
structure FnRead (q : P α) (n : Nat) : Prop where
  read : ∀ f ts x, x.length < n → TermX (.fn f ts) x → ∃ v, ∀ r, q (x ++ r) = .ok v r
  par : Par q

section
variable {α β : Type} {q : P α} {q' : P β} {n : Nat}

theorem FnRead.fn (H : FnRead q n) {a : Term} {x : List Char} (h : TermX a x) (hx : x.length < n)
    (ha : IsFn a) : ∃ v, ∀ r, q (x ++ r) = .ok v r := by
  cases a with
  | fn f ts => exact H.read f ts x hx h
  | _ => cases ha

theorem FnRead.other (H : FnRead q n) {a : Term} {x : List Char} (h : TermX a x)
    (ha : ¬ IsFn a) (y : List Char) : q (x ++ y) = .err := by
  cases h with
  | name h => exact h.par H.par y
  | var => exact H.par _ _ (by decide) (by decide) (by decide)
  | fn => exact absurd trivial ha

/-- A term does not begin with a closing parenthesis. -/
theorem termX_not_close {a : Term} {x : List Char} (h : TermX a x) (y r : List Char) :
    x ++ y ≠ ')' :: r := by
  cases h with
  | name h =>
    obtain ⟨⟨c, w, rfl, hc, _⟩, _⟩ := h
    rintro e
    cases e
    cases hc
  | var => intro e; cases e
  | fn => intro e; cases e

theorem items_head {ts : List Term} {u : List Char} (h : Items TermX ts u) :
    ∃ a as x y, ts = a :: as ∧ u = x ++ y ∧ TermX a x := by
  cases h with
  | one h => exact ⟨_, _, _, [], rfl, (List.append_nil _).symm, h⟩
  | cons h _ _ => exact ⟨_, _, _, _, rfl, rfl, h⟩

theorem items_term_solid {ts : List Term} {u : List Char} (h : Items TermX ts u) : Solid u := by
  obtain ⟨_, _, x, y, rfl, rfl, h'⟩ := items_head h
  exact (termX_solid h').append y

theorem items_not_close {ts : List Term} {u : List Char} (h : Items TermX ts u) (y r : List Char) :
    u ++ y ≠ ')' :: r := by
  obtain ⟨_, _, x, z, rfl, rfl, h'⟩ := items_head h
  rw [List.append_assoc]
  exact termX_not_close h' _ _

/-- The loop of a list of parts over terms. -/
theorem FnRead.loop (H : FnRead q n) {ts : List Term} {u : List Char} (h : Items TermX ts u)
    {r : List Char} (hu : u.length < n) :
    ∀ {g : List Char}, Sep g → ∀ m, (g ++ (u ++ ')' :: r)).length < m →
      ((∀ x ∈ ts, IsFn x) → ∃ vs, sepLoop multispace1 (preceded ignoreEolComment q) m (g ++ (u ++ ')' :: r)) =
        .ok vs (')' :: r)) ∧
      ((¬ ∀ x ∈ ts, IsFn x) → ∃ vs y, sepLoop multispace1 (preceded ignoreEolComment q) m
        (g ++ (u ++ ')' :: r)) = .ok vs y ∧ ∀ z, skip y ≠ ')' :: z) := by
  induction h with
  | @one a x h =>
    intro g hg m hm
    have hk := hg.gap.skip_solid ((termX_solid h).append (')' :: r))
    cases hg with
    | @mk c g hc hg =>
      rw [List.cons_append] at hk hm ⊢
      match m with
      | 0 | 1 => simp at hm
      | m + 2 =>
      rw [sepLoop_step hc, hk]
      refine ⟨fun ha => ?_, fun ha => ?_⟩
      · obtain ⟨v, hv⟩ := H.fn h hu (ha a (by simp))
        rw [hv]
        dsimp only
        rw [sepLoop_end (by rw [(solid_close r).skip]; exact H.par.close r)]
        exact ⟨_, rfl⟩
      · rw [H.other h (by simpa using ha)]
        refine ⟨_, _, rfl, fun z => ?_⟩
        rw [hk]
        exact termX_not_close h _ _
  | @cons a x g' as u h hg' hu' ih =>
    intro g hg m hm
    have e : x ++ (g' ++ u) ++ ')' :: r = x ++ (g' ++ (u ++ ')' :: r)) := by simp
    rw [e] at hm ⊢
    have hk := hg.gap.skip_solid ((termX_solid h).append (g' ++ (u ++ ')' :: r)))
    cases hg with
    | @mk c g hc hg =>
      rw [List.cons_append] at hk hm ⊢
      match m with
      | 0 => simp at hm
      | m + 1 =>
      simp only [List.length_append] at hu
      have ih := ih (by omega) hg' m (by simp only [List.length_append, List.length_cons] at hm ⊢; omega)
      rw [sepLoop_step hc, hk]
      by_cases ha : IsFn a
      · obtain ⟨v, hv⟩ := H.fn h (by omega) ha
        rw [hv]
        dsimp only
        refine ⟨fun hf => ?_, fun hf => ?_⟩
        · obtain ⟨vs, hvs⟩ := ih.1 fun x hx => hf x (by simp [hx])
          rw [hvs]
          exact ⟨_, rfl⟩
        · obtain ⟨vs, y, hvs, hy⟩ := ih.2 fun h' => hf fun x hx => by
            rcases List.mem_cons.mp hx with rfl | hx
            · exact ha
            · exact h' x hx
          rw [hvs]
          exact ⟨_, _, rfl, hy⟩
      · rw [H.other h ha]
        refine ⟨fun hf => absurd (hf a (by simp)) ha, fun _ => ⟨_, _, rfl, fun z => ?_⟩⟩
        rw [hk]
        exact termX_not_close h _ _

/-- `(kw x₁ … xₙ)` with terms for the parts. -/
theorem FnRead.all (H : FnRead q n) (kw : List Char) {ts : List Term} {u : List Char}
    (h : Sec Gap (· = []) (Items TermX) ts u) (hu : u.length < n) (r : List Char) :
    ((∀ x ∈ ts, IsFn x) → ∃ vs, prefixExpr kw (spaceSeparatedList0 q) ('(' :: (kw ++ (u ++ ')' :: r))) = .ok vs r) ∧
    ((¬ ∀ x ∈ ts, IsFn x) → prefixExpr kw (spaceSeparatedList0 q) ('(' :: (kw ++ (u ++ ')' :: r))) = .err) := by
  cases h with
  | nil hg =>
    have hk := hg.skip_solid (solid_close r)
    refine ⟨fun _ => ⟨[], prefixExpr_run (y := ')' :: r) ?_ (solid_close r).skip⟩, fun h => absurd (by simp) h⟩
    rw [list0_skip, list0_nil (by rw [hk]; exact H.par.close r), hk]
  | @cons g ts w g' hg hw h0 =>
    cases h0
    rw [List.append_nil] at hu ⊢
    have hb : ∀ x y, Solid x → spaceSeparatedList0 q (skip (g ++ (x ++ y))) =
        sepList0 multispace1 (preceded ignoreEolComment q) (x ++ y) := by
      intro x y hx
      rw [list0_skip, spaceSeparatedList0, ws_eq, hg.skip_solid (hx.append y)]
    simp only [List.append_assoc]
    simp only [List.length_append] at hu
    cases hw with
    | @one a x h =>
      have hs := termX_solid h
      by_cases ha : IsFn a
      · refine ⟨fun _ => ?_, fun hf => absurd (by simpa using ha) hf⟩
        obtain ⟨v, hv⟩ := H.fn h (by omega) ha
        refine ⟨[v], prefixExpr_run (y := ')' :: r) ?_ (solid_close r).skip⟩
        rw [hb _ _ hs, sepList0, eolp_eq, (hs.append _).skipC, hv]
        dsimp only
        rw [sepLoop_end (by rw [(solid_close r).skip]; exact H.par.close r)]
        rfl
      · refine ⟨fun hf => absurd (by simpa using hf) ha, fun _ => ?_⟩
        refine prefixExpr_tail (v := []) (y := w ++ ')' :: r) ?_ ?_
        · rw [hb _ _ hs, sepList0, eolp_eq, (hs.append _).skipC, H.other h ha]
        · rw [(hs.append _).skip]
          exact termX_not_close h _
    | @cons a x g' as w h hg' hw =>
      have hs := termX_solid h
      simp only [List.append_assoc, List.length_append] at hu ⊢
      by_cases ha : IsFn a
      · obtain ⟨v, hv⟩ := H.fn h (by omega) ha
        have hl := H.loop hw (r := r) (by omega) hg' _ (Nat.lt_succ_self _)
        refine ⟨fun hf => ?_, fun hf => ?_⟩
        · obtain ⟨vs, hvs⟩ := hl.1 fun x hx => hf x (by simp [hx])
          refine ⟨v :: vs, prefixExpr_run (y := ')' :: r) ?_ (solid_close r).skip⟩
          rw [hb _ _ hs, sepList0, eolp_eq, (hs.append _).skipC, hv]
          dsimp only
          rw [hvs]
          rfl
        · obtain ⟨vs, y, hvs, hy⟩ := hl.2 fun h' => hf fun x hx => by
            rcases List.mem_cons.mp hx with rfl | hx
            · exact ha
            · exact h' x hx
          refine prefixExpr_tail (v := v :: vs) (y := y) ?_ hy
          rw [hb _ _ hs, sepList0, eolp_eq, (hs.append _).skipC, hv]
          dsimp only
          rw [hvs]
          rfl
      · refine ⟨fun hf => absurd (hf a (by simp)) ha, fun _ => ?_⟩
        refine prefixExpr_tail (v := []) (y := x ++ (g' ++ (w ++ ')' :: r))) ?_ ?_
        · rw [hb _ _ hs, sepList0, eolp_eq, (hs.append _).skipC, H.other h ha]
        · rw [(hs.append _).skip]
          exact termX_not_close h _

/-- `(kw x)` with terms for the part. -/
theorem FnRead.one (H : FnRead q n) (kw : List Char) {ts : List Term} {u : List Char}
    (h : Sec Gap (· = []) (Items TermX) ts u) (hu : u.length < n) (r : List Char) :
    ((∃ x, ts = [x] ∧ IsFn x) → ∃ v, prefixExpr kw q ('(' :: (kw ++ (u ++ ')' :: r))) = .ok v r) ∧
    ((¬ ∃ x, ts = [x] ∧ IsFn x) → prefixExpr kw q ('(' :: (kw ++ (u ++ ')' :: r))) = .err) := by
  cases h with
  | nil hg =>
    have hk := hg.skip_solid (solid_close r)
    refine ⟨fun ⟨x, hx, _⟩ => (nomatch hx), fun _ => prefixExpr_body_err ?_⟩
    rw [hk]
    exact H.par.close r
  | @cons g ts w g' hg hw h0 =>
    cases h0
    rw [List.append_nil] at hu ⊢
    simp only [List.append_assoc]
    simp only [List.length_append] at hu
    cases hw with
    | @one a x h =>
      have hk := hg.skip_solid ((termX_solid h).append (')' :: r))
      refine ⟨?_, fun hf => ?_⟩
      · rintro ⟨_, e, ha⟩
        cases e
        obtain ⟨v, hv⟩ := H.fn h (by omega) ha
        exact ⟨v, prefixExpr_run (y := ')' :: r) (by rw [hk, hv]) (solid_close r).skip⟩
      · refine prefixExpr_body_err ?_
        rw [hk]
        exact H.other h (fun ha => hf ⟨a, rfl, ha⟩) _
    | @cons a x g' as w h hg' hw =>
      simp only [List.append_assoc, List.length_append] at hu ⊢
      have hk := hg.skip_solid ((termX_solid h).append (g' ++ (w ++ ')' :: r)))
      refine ⟨?_, fun _ => ?_⟩
      · rintro ⟨_, e, _⟩
        cases e
        cases hw
      · by_cases ha : IsFn a
        · obtain ⟨v, hv⟩ := H.fn h (by omega) ha
          refine prefixExpr_tail (by rw [hk, hv]) ?_
          rw [hg'.gap.skip_solid ((items_term_solid hw).append _)]
          exact items_not_close hw _
        · refine prefixExpr_body_err ?_
          rw [hk]
          exact H.other h ha _

/-- `(kw x y)` with terms for the parts. -/
theorem FnRead.two (H : FnRead q n) (H' : FnRead q' n) (hc : Ct q') (kw : List Char) {ts : List Term}
    {u : List Char} (h : Sec Gap (· = []) (Items TermX) ts u) (hu : u.length < n) (r : List Char) :
    ((∃ x y, ts = [x, y] ∧ IsFn x ∧ IsFn y) → ∃ v, prefixExpr kw (pair q (preceded multispace1 q'))
      ('(' :: (kw ++ (u ++ ')' :: r))) = .ok v r) ∧
    ((¬ ∃ x y, ts = [x, y] ∧ IsFn x ∧ IsFn y) → prefixExpr kw (pair q (preceded multispace1 q'))
      ('(' :: (kw ++ (u ++ ')' :: r))) = .err) := by
  cases h with
  | nil hg =>
    have hk := hg.skip_solid (solid_close r)
    refine ⟨fun ⟨x, y, hx, _⟩ => (nomatch hx), fun _ => prefixExpr_body_err (pair_err ?_)⟩
    rw [hk]
    exact H.par.close r
  | @cons g ts w g' hg hw h0 =>
    cases h0
    rw [List.append_nil] at hu ⊢
    simp only [List.append_assoc]
    simp only [List.length_append] at hu
    cases hw with
    | @one a x h =>
      have hk := hg.skip_solid ((termX_solid h).append (')' :: r))
      refine ⟨?_, fun hf => prefixExpr_body_err ?_⟩
      · rintro ⟨_, _, e, _⟩
        cases e
      · rw [hk]
        by_cases ha : IsFn a
        · obtain ⟨v, hv⟩ := H.fn h (by omega) ha
          exact pair_err2 (hv _) (preceded_err rfl)
        · exact pair_err (H.other h ha _)
    | @cons a x g' as w h hg' hw =>
      simp only [List.append_assoc, List.length_append] at hu ⊢
      have hk := hg.skip_solid ((termX_solid h).append (g' ++ (w ++ ')' :: r)))
      by_cases ha : IsFn a
      · obtain ⟨v, hv⟩ := H.fn h (by omega) ha
        have hm : ∀ z, preceded multispace1 q' (g' ++ (w ++ z)) = q' (w ++ z) := fun z =>
          pms1_sep hc hg' ((items_term_solid hw).append z)
        cases hw with
        | @one b y h' =>
          refine ⟨?_, fun hf => prefixExpr_body_err ?_⟩
          · rintro ⟨_, _, e, _, hb⟩
            cases e
            obtain ⟨v', hv'⟩ := H'.fn h' (by omega) hb
            refine ⟨(v, v'), prefixExpr_run (y := ')' :: r) ?_ (solid_close r).skip⟩
            rw [hk]
            exact pair_run (hv _) (by rw [hm, hv'])
          · rw [hk]
            refine pair_err2 (hv _) ?_
            rw [hm]
            exact H'.other h' (fun hb => hf ⟨a, b, rfl, ha, hb⟩) _
        | @cons b y g2 as w h' hg2 hw =>
          simp only [List.append_assoc, List.length_append] at hu hm hk ⊢
          refine ⟨?_, fun _ => ?_⟩
          · rintro ⟨_, _, e, _⟩
            cases e
            cases hw
          · by_cases hb : IsFn b
            · obtain ⟨v', hv'⟩ := H'.fn h' (by omega) hb
              refine prefixExpr_tail (v := (v, v')) (y := g2 ++ (w ++ ')' :: r)) ?_ ?_
              · rw [hk]
                exact pair_run (hv _) (by rw [hm, hv'])
              · rw [hg2.gap.skip_solid ((items_term_solid hw).append _)]
                exact items_not_close hw _
            · refine prefixExpr_body_err ?_
              rw [hk]
              refine pair_err2 (hv _) ?_
              rw [hm]
              exact H'.other h' hb _
      · refine ⟨?_, fun _ => prefixExpr_body_err ?_⟩
        · rintro ⟨_, _, e, h1, _⟩
          cases e
          exact absurd h1 ha
        · rw [hk]
          exact pair_err (H.other h ha _)

/-- A list of typed variables is not a term. -/
theorem varList_term {a : Term} {x : List Char} (h : TermX a x) (y : List Char) :
    parseVarList (x ++ y) = .err := by
  cases h with
  | name h => exact h.par parseVarList_par y
  | var => exact parseVarList_par _ _ (by decide) (by decide) (by decide)
  | @fn g f t ts u hg hf _ _ =>
    rw [paren_append]
    have hne : ∀ s, parseVariable (t ++ s) = .err := fun s => by
      obtain ⟨⟨c, w, rfl, hc, _⟩, _⟩ := hf
      refine preceded_err (tag_err (stripPrefix_head ?_))
      rintro rfl
      cases hc
    have hk := (hf.solid.append (u ++ ')' :: y)).skip
    refine parens_tail (v := []) (y := t ++ (u ++ ')' :: y)) ?_ ?_
    · simp only [List.append_assoc]
      rw [hg.skip_solid (hf.solid.append _)]
      exact (typed_nil (d := objectTy) (by rw [hk]; exact hne _)).trans (by rw [hk])
    · intro r e
      obtain ⟨⟨c, w, rfl, hc, _⟩, _⟩ := hf
      cases e
      cases hc

/-- `(kw (vars) ..)` with terms for the parts. -/
theorem varList_miss {p : P β} (kw : List Char) {ts : List Term} {u : List Char}
    (h : Sec Gap (· = []) (Items TermX) ts u) (r : List Char) :
    prefixExpr kw (pair parseVarList p) ('(' :: (kw ++ (u ++ ')' :: r))) = .err := by
  refine prefixExpr_body_err (pair_err ?_)
  cases h with
  | nil hg =>
    rw [hg.skip_solid (solid_close r)]
    exact parseVarList_par.close r
  | @cons g ts w g' hg hw h0 =>
    simp only [List.append_assoc]
    rw [hg.skip_solid ((items_term_solid hw).append _)]
    obtain ⟨_, _, x, y, rfl, rfl, h⟩ := items_head hw
    rw [List.append_assoc]
    exact varList_term h _

/-- A form whose head word is not the keyword. -/
theorem kw_other {kw : List Char} {p : P α} (hkw : IsWord kw) (hp : Nw p) {g t x : List Char}
    (hg : Gap g) (ht : IsWord t) (hx : NoWord x) (hne : g = [] → t ≠ kw) :
    prefixExpr kw p ('(' :: (g ++ (t ++ x))) = .err := by
  have hnil : kw ≠ [] := by obtain ⟨c, cs, rfl, _⟩ := hkw; simp
  cases hg with
  | nil =>
    rw [List.nil_append]
    by_cases h : kw <+: t ++ x
    · obtain ⟨y, rfl⟩ := kw_prefix (IsWord.chars hkw) hx h
      cases y with
      | nil => exact absurd (by simp) (hne rfl)
      | cons c y =>
        have hc := ht.append_cons hnil
        obtain ⟨_, h1, h2, h3⟩ := wordChar_solid hc
        have hk := (Solid.cons h3 h2 (y ++ x)).skip
        simp only [List.append_assoc, List.cons_append]
        rcases hp c (y ++ x) hc with h | ⟨v, h⟩
        · exact prefixExpr_body_err (by rw [hk, h])
        · refine prefixExpr_tail (by rw [hk, h]) ?_
          rw [hk]
          rintro r hr
          cases hr
          exact h1 rfl
    · exact prefixExpr_kw (stripPrefix_none.mpr h)
  | @space c g hc hg =>
    obtain ⟨k, ks, rfl, hk, _⟩ := hkw
    refine prefixExpr_kw (stripPrefix_head ?_)
    rintro rfl
    exact absurd (isAlpha_solid hk).1 (by simp [isBlank_space hc])
  | comment =>
    obtain ⟨k, ks, rfl, hk, _⟩ := hkw
    exact prefixExpr_kw (stripPrefix_head (isAlpha_solid hk).2)

/-- An equality is no keyword form. -/
theorem kw_equality {kw : List Char} {p : P α} (hkw : IsWord kw) (x : List Char) :
    prefixExpr kw p ('(' :: ('=' :: x)) = .err := by
  obtain ⟨k, ks, rfl, hk, _⟩ := hkw
  refine prefixExpr_kw (stripPrefix_head ?_)
  rintro rfl
  cases hk

end

theorem alt_append_err {ps qs : List (P α)} {s : List Char} (h : alt ps s = .err) :
    alt (ps ++ qs) s = alt qs s := by
  induction ps with
  | nil => rfl
  | cons p ps ih =>
    obtain ⟨h1, h2⟩ : p s = .err ∧ alt ps s = .err := by
      unfold alt at h
      cases hp : p s <;> simp [hp] at h
      exact ⟨rfl, h⟩
    rw [List.cons_append]
    exact (alt_miss h1).trans (ih h2)

theorem alt_append_ok {ps qs : List (P α)} {s r : List Char} {v : α} (h : alt ps s = .ok v r) :
    alt (ps ++ qs) s = .ok v r := by
  induction ps with
  | nil => cases h
  | cons p ps ih =>
    rw [List.cons_append]
    unfold alt at h ⊢
    cases hp : p s <;> simp [hp] at h ⊢
    · exact h
    · exact ih h

theorem alt_append_inv {ps qs : List (P α)} {s r : List Char} {v : α} (h : alt (ps ++ qs) s = .ok v r) :
    alt ps s = .ok v r ∨ alt qs s = .ok v r := by
  induction ps with
  | nil => exact .inr h
  | cons p ps ih =>
    rw [List.cons_append] at h
    rcases alt_inv h with h | ⟨h1, h⟩
    · exact .inl (alt_hit h)
    · rw [alt_miss h1]
      exact ih h

theorem alt_append_inv' {ps qs : List (P α)} {s r : List Char} {v : α} (h : alt (ps ++ qs) s = .ok v r) :
    alt ps s = .ok v r ∨ alt ps s = .err ∧ alt qs s = .ok v r := by
  induction ps with
  | nil => exact .inr ⟨rfl, h⟩
  | cons p ps ih =>
    rw [List.cons_append] at h
    rcases alt_inv h with h | ⟨h1, h⟩
    · exact .inl (alt_hit h)
    · rw [alt_miss h1]
      exact ih h

end Pddl
