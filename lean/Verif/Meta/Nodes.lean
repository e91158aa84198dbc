import Verif.Meta.Form
import Verif.Spec.Nodes

/-!
# Meta-theory: the parts of written values
-/

namespace Pddl

theorem infix_left {u t t' : List Char} (h : u <:+: t) : u <:+: t ++ t' :=
  h.trans (List.prefix_append _ _).isInfix
theorem infix_right {u t t' : List Char} (h : u <:+: t') : u <:+: t ++ t' :=
  h.trans (List.suffix_append _ _).isInfix
theorem infix_paren {u t : List Char} (h : u <:+: t) : u <:+: paren t :=
  (infix_left h).trans (List.suffix_cons _ _).isInfix

/-- Finds a text in a longer one. -/
syntax "sub" : tactic
macro_rules
  | `(tactic| sub) => `(tactic| first
    | exact List.infix_rfl
    | assumption
    | (refine infix_paren ?_; sub)
    | (refine infix_left ?_; sub)
    | (refine infix_right ?_; sub))

theorem Node.Ok.up {n : Node} {u t : List Char} (h : n.Ok u) (hi : u <:+: t) : n.Ok t := by
  unfold Node.Ok at h ⊢
  split at h
  · exact ⟨h.1, h.2.trans hi⟩
  · exact ⟨h.1, h.2.imp_left fun h => h.trans hi⟩
  · obtain ⟨h1, h2, v, h3, h4⟩ := h
    exact ⟨h1, h2, v, h3.trans hi, h4⟩
  all_goals first | exact h | exact ⟨h.1, fun hn => h.2 fun hm => hn (hi.subset hm)⟩

/-- Every part is allowed in a value read from the text. -/
def AllOk (t : List Char) (l : List Node) : Prop := ∀ n ∈ l, n.Ok t

theorem AllOk.up {u t : List Char} {l : List Node} (h : AllOk u l) (hi : u <:+: t) : AllOk t l :=
  fun n hn => (h n hn).up hi

theorem AllOk.nil {t : List Char} : AllOk t [] := fun _ h => nomatch h
theorem AllOk.cons {t : List Char} {n : Node} {l : List Node} (h : n.Ok t) (h' : AllOk t l) :
    AllOk t (n :: l) := List.forall_mem_cons.mpr ⟨h, h'⟩
theorem AllOk.append {t : List Char} {l l' : List Node} (h : AllOk t l) (h' : AllOk t l') :
    AllOk t (l ++ l') := fun n hn => (List.mem_append.mp hn).elim (h n) (h' n)
theorem AllOk.flatMap {t : List Char} {f : α → List Node} {l : List α}
    (h : ∀ a ∈ l, AllOk t (f a)) : AllOk t (l.flatMap f) := fun n hn => by
  obtain ⟨a, ha, hn⟩ := List.mem_flatMap.mp hn
  exact h a ha n hn
theorem AllOk.names {t : List Char} {l : List Name} (h : ∀ a ∈ l, Node.Ok t (.name a)) :
    AllOk t (l.map .name) := fun n hn => by
  obtain ⟨a, ha, rfl⟩ := List.mem_map.mp hn
  exact h a ha

theorem Items.ex {R : α → List Char → Prop} {as u} (h : Items R as u) :
    ∀ a ∈ as, ∃ t, R a t ∧ t <:+: u := by
  induction h with
  | one h =>
    intro a ha
    rw [List.mem_singleton] at ha
    subst ha
    exact ⟨_, h, List.infix_rfl⟩
  | cons h _ _ ih =>
    intro a ha
    rcases List.mem_cons.mp ha with rfl | ha
    · exact ⟨_, h, by sub⟩
    · obtain ⟨t, h1, h2⟩ := ih a ha
      exact ⟨t, h1, by sub⟩

theorem Sec.ex {R : α → List Char → Prop} {lead trail : List Char → Prop} {as u}
    (h : Sec lead trail (Items R) as u) : ∀ a ∈ as, ∃ t, R a t ∧ t <:+: u := by
  cases h with
  | nil => simp
  | cons _ h _ =>
    intro a ha
    obtain ⟨t, h1, h2⟩ := h.ex a ha
    exact ⟨t, h1, by sub⟩

/-! ## Leaves -/

theorem NameW.ok {n : Name} {t : List Char} (h : NameW n t) : Node.Ok t (.name n) := by
  have e : n.text = t := by rw [h.2, wordName_eq, Name.text_new]
  exact ⟨by rw [e]; exact h.1, by rw [e]; exact List.infix_rfl⟩

theorem NumW.ok {n : Number} {t : List Char} (h : NumW n t) : Node.Ok t (.num n) := by
  have h' := h
  obtain ⟨l, _, _, h1, h2⟩ := h
  exact ⟨h2.1, h1, t, List.infix_rfl, h'⟩

theorem VarW.ok {m : Mode} {n : Name} {t : List Char} (h : VarW m n t) : Node.Ok t (.name n) := by
  obtain ⟨g, u, rfl, _, h⟩ := h
  exact h.ok.up ((infix_right List.infix_rfl).trans (List.suffix_cons _ _).isInfix)

theorem object_ok (t : List Char) : AllOk t Ty.object.nodes :=
  .cons ⟨⟨'o', c!"bject", rfl, by decide, by decide⟩, .inr (.inl rfl)⟩ .nil
theorem number_ok (t : List Char) : AllOk t Ty.number.nodes :=
  .cons ⟨⟨'n', c!"umber", rfl, by decide, by decide⟩, .inr (.inr rfl)⟩ .nil

theorem TypeW.ok {m : Mode} {v : Ty} {t : List Char} (h : TypeW m v t) : AllOk t v.nodes := by
  cases h with
  | exactly h => exact .cons ⟨h.ok.1, .inl h.ok.2⟩ .nil
  | either _ h _ =>
    refine .cons h.ne_nil (.names fun a ha => ?_)
    obtain ⟨t, ht, hl⟩ := h.ex a ha
    exact ht.1.ok.up (by sub)

theorem typed_ok {t : List Char} {f : α → List Node} {xs : List α} {ty : Ty}
    (h : ∀ x ∈ xs, AllOk t (f x)) (h' : AllOk t ty.nodes) :
    AllOk t (typedNodes f (xs.map fun x => ⟨x, ty⟩)) :=
  .flatMap fun y hy => by
    obtain ⟨x, hx, rfl⟩ := List.mem_map.mp hy
    exact (h x hx).append h'

theorem typed_append_ok {t : List Char} {f : α → List Node} {xs ys : TypedList α}
    (h : AllOk t (typedNodes f xs)) (h' : AllOk t (typedNodes f ys)) :
    AllOk t (typedNodes f (xs ++ ys)) := by
  unfold typedNodes at *
  rw [List.flatMap_append]
  exact h.append h'

theorem TypedW.ok {m : Mode} {R : α → List Char → Prop} {d : Ty} {f : α → List Node}
    {xs : TypedList α} {t : List Char} (h : TypedW m R d xs t) (hd : ∀ t, AllOk t d.nodes)
    (hf : ∀ a t, R a t → AllOk t (f a)) : AllOk t (typedNodes f xs) := by
  have hi : ∀ {xs t t'}, Items R xs t → t <:+: t' → ∀ x ∈ xs, AllOk t' (f x) := fun h hs x hx => by
    obtain ⟨t, ht, hl⟩ := h.ex x hx
    exact (hf _ _ ht).up (hl.trans hs)
  induction h with
  | tail h => exact typed_ok (hi h (by sub)) (hd _)
  | last h _ _ h' => exact typed_ok (hi h (by sub)) (h'.ok.up (by sub))
  | more h _ _ h' _ _ ih =>
    exact typed_append_ok (typed_ok (hi h (by sub)) (h'.ok.up (by sub))) (ih.up (by sub))

theorem sec_typed_ok {m : Mode} {R : α → List Char → Prop} {d : Ty} {f : α → List Node}
    {lead trail : List Char → Prop} {xs : TypedList α} {t : List Char}
    (h : Sec lead trail (TypedW m R d) xs t) (hd : ∀ t, AllOk t d.nodes)
    (hf : ∀ a t, R a t → AllOk t (f a)) : AllOk t (typedNodes f xs) := by
  cases h with
  | nil => exact .nil
  | cons _ h _ => exact (h.ok hd hf).up (by sub)

theorem NameW.nodes {n : Name} {t : List Char} (h : NameW n t) : AllOk t n.nodes := .cons h.ok .nil
theorem VarW.nodes {m : Mode} {n : Name} {t : List Char} (h : VarW m n t) : AllOk t n.nodes :=
  .cons h.ok .nil

theorem VarsW.ok {m : Mode} {v : TypedList Name} {t : List Char} (h : VarsW m v t) :
    AllOk t (varNodes v) := by
  obtain ⟨u, rfl, h⟩ := h
  exact (sec_typed_ok h object_ok fun _ _ h => h.nodes).up (by sub)

/-- The list version of a node function. -/
theorem allOk_list {t : List Char} {f : α → List Node} {fL : List α → List Node} (h0 : fL [] = [])
    (h1 : ∀ a as, fL (a :: as) = f a ++ fL as) {as : List α} (h : ∀ a ∈ as, AllOk t (f a)) :
    AllOk t (fL as) := by
  induction as with
  | nil => rw [h0]; exact .nil
  | cons a as ih =>
    rw [h1]
    exact (h a (by simp)).append (ih fun b hb => h b (by simp [hb]))

/-! ## Terms, atoms -/

theorem TermW.ok_aux {m : Mode} (n : Nat) : ∀ v t, t.length ≤ n → TermW m v t → AllOk t v.nodes := by
  induction n with
  | zero =>
    intro v t hn h
    obtain ⟨c, r, rfl, _⟩ := h.solid
    simp at hn
  | succ n ih =>
    intro v t hn h
    cases h with
    | name h => rw [Term.nodes]; exact .cons h.ok .nil
    | var h => rw [Term.nodes]; exact .cons h.ok .nil
    | fn _ h1 h2 =>
      simp only [paren, List.length_append, List.length_cons] at hn
      rw [Term.nodes]
      refine .cons (h1.ok.up (by sub)) (allOk_list rfl (fun _ _ => by rw [Term.nodesL]) fun a ha => ?_)
      obtain ⟨t, ht, hl⟩ := h2.ex a ha
      exact (ih a t (by have := hl.length_le; omega) ht).up (by sub)

theorem TermW.ok {m : Mode} {v : Term} {t : List Char} (h : TermW m v t) : AllOk t v.nodes :=
  TermW.ok_aux _ v t (Nat.le_refl _) h

theorem FnTermW.ok {m : Mode} {v : FunctionTerm} {t : List Char} (h : FnTermW m v t) :
    AllOk t v.nodes := by
  cases h with
  | mk _ h1 h2 =>
    refine .cons (h1.ok.up (by sub)) (.flatMap fun a ha => ?_)
    obtain ⟨t, ht, hl⟩ := h2.ex a ha
    exact (ht.ok.up (by sub))

theorem AtomW.ok {m : Mode} {R : α → List Char → Prop} {f : α → List Node} {v : AtomicFormula α}
    {t : List Char} (h : AtomW m R v t) (hf : ∀ a t, R a t → AllOk t (f a)) : AllOk t (v.nodes f) := by
  cases h with
  | equality _ h1 _ h2 => exact ((hf _ _ h1).up (by sub)).append ((hf _ _ h2).up (by sub))
  | predicate _ h1 h2 =>
    refine .cons (h1.ok.up (by sub)) (.flatMap fun a ha => ?_)
    obtain ⟨t, ht, hl⟩ := h2.ex a ha
    exact (hf _ _ ht).up (by sub)

theorem LiteralW.ok {m : Mode} {v : Literal Name} {t : List Char} (h : LiteralW m v t) :
    AllOk t (v.nodes Name.nodes) := by
  cases h with
  | neg _ h => exact (h.ok fun _ _ h => h.nodes).up (by sub)
  | pos h => exact (h.ok fun _ _ h => h.nodes).up (by sub)

theorem SkeletonW.ok {m : Mode} {v : Skeleton} {t : List Char} (h : SkeletonW m v t) :
    AllOk t v.nodes := by
  cases h with
  | mk _ h1 h2 => exact .cons (h1.ok.up (by sub)) ((sec_typed_ok h2 object_ok fun _ _ h => h.nodes).up (by sub))

theorem BasicW.ok {m : Mode} {v : BasicFunctionTerm} {t : List Char} (h : BasicW m v t) :
    AllOk t v.nodes := by
  cases h with
  | bare h => exact .cons h.ok .nil
  | app _ h1 h2 =>
    refine .cons (h1.ok.up (by sub)) (.names fun a ha => ?_)
    obtain ⟨t, ht, hl⟩ := h2.ex a ha
    exact (ht.ok.up (by sub))

theorem FHeadW.ok {m : Mode} {v : FHead} {t : List Char} (h : FHeadW m v t) : AllOk t v.nodes := by
  cases h with
  | bare h => exact .cons h.ok .nil
  | simple _ h => exact .cons (h.ok.up (by sub)) .nil
  | terms _ h1 h2 =>
    refine .cons (h1.ok.up (by sub)) (.flatMap fun a ha => ?_)
    obtain ⟨t, ht, hl⟩ := h2.ex a ha
    exact (ht.ok.up (by sub))

/-! ## Numeric expressions -/

theorem wide_ok {m : Mode} {g0 o g1 t1 g t2 g3 : List Char} {n : Nat} (h : m.wide g n) :
    ';' ∉ paren (g0 ++ (o ++ (g1 ++ (t1 ++ (g ++ (t2 ++ g3)))))) → 2 ≤ n := by
  intro hn
  cases m with
  | strict => exact h
  | loose => exact h.resolve_right fun hm => hn (by simp [paren, hm])

theorem FExpW.ok_aux {m : Mode} (n : Nat) : ∀ v t, t.length ≤ n → FExpW m v t → AllOk t v.nodes := by
  induction n with
  | zero =>
    intro v t hn h
    obtain ⟨c, r, rfl, _⟩ := h.solid
    simp at hn
  | succ n ih =>
    intro v t hn h
    rw [FExp.nodes.eq_def]
    cases h with
    | number h => exact .cons trivial (.cons h.ok .nil)
    | function h => exact .cons trivial (h.ok.up (by sub))
    | negative _ _ h =>
      simp only [paren, List.length_append, List.length_cons] at hn
      exact .cons trivial ((ih _ _ (by omega) h).up (by sub))
    | binaryOp _ _ h1 _ h2 =>
      simp only [paren, List.length_append, List.length_cons] at hn
      exact .cons trivial (((ih _ _ (by omega) h1).up (by sub)).append ((ih _ _ (by omega) h2).up (by sub)))
    | multiOp _ _ h1 _ h2 _ hw =>
      simp only [paren, List.length_append, List.length_cons] at hn
      refine .cons ⟨h2.ne_nil, wide_ok hw⟩ (((ih _ _ (by omega) h1).up (by sub)).append
        (allOk_list rfl (fun _ _ => by rw [FExp.nodesL]) fun a ha => ?_))
      obtain ⟨t, ht, hl⟩ := h2.ex a ha
      exact (ih a t (by have := hl.length_le; omega) ht).up (by sub)

theorem FExpW.ok {m : Mode} {v : FExp} {t : List Char} (h : FExpW m v t) : AllOk t v.nodes :=
  FExpW.ok_aux _ v t (Nat.le_refl _) h

theorem FExpDaW.ok_aux {m : Mode} (n : Nat) :
    ∀ v t, t.length ≤ n → FExpDaW m v t → AllOk t v.nodes := by
  induction n with
  | zero =>
    intro v t hn h
    obtain ⟨c, r, rfl, _⟩ := h.solid
    simp at hn
  | succ n ih =>
    intro v t hn h
    rw [FExpDa.nodes.eq_def]
    cases h with
    | duration => exact .cons trivial .nil
    | fExp h => exact .cons trivial (h.ok.up (by sub))
    | negative _ _ h =>
      simp only [paren, List.length_append, List.length_cons] at hn
      exact .cons trivial ((ih _ _ (by omega) h).up (by sub))
    | binaryOp _ _ h1 _ h2 =>
      simp only [paren, List.length_append, List.length_cons] at hn
      exact .cons trivial (((ih _ _ (by omega) h1).up (by sub)).append ((ih _ _ (by omega) h2).up (by sub)))
    | multiOp _ _ h1 _ h2 _ hw =>
      simp only [paren, List.length_append, List.length_cons] at hn
      refine .cons ⟨h2.ne_nil, wide_ok hw⟩ (((ih _ _ (by omega) h1).up (by sub)).append
        (allOk_list rfl (fun _ _ => by rw [FExpDa.nodesL]) fun a ha => ?_))
      obtain ⟨t, ht, hl⟩ := h2.ex a ha
      exact (ih a t (by have := hl.length_le; omega) ht).up (by sub)

theorem FExpDaW.ok {m : Mode} {v : FExpDa} {t : List Char} (h : FExpDaW m v t) : AllOk t v.nodes :=
  FExpDaW.ok_aux _ v t (Nat.le_refl _) h

theorem MetricW.ok_aux {m : Mode} (n : Nat) :
    ∀ v t, t.length ≤ n → MetricW m v t → AllOk t v.nodes := by
  have leaf : ∀ v t, MetricW m v t → (∀ u, t ≠ paren u) → AllOk t v.nodes := by
    intro v t h hp
    rw [MetricFExp.nodes.eq_def]
    cases h with
    | number h => exact .cons trivial (.cons h.ok .nil)
    | totalTime => exact .cons trivial .nil
    | bare h => exact .cons trivial (.cons h.ok .nil)
    | _ => exact absurd rfl (hp _)
  induction n with
  | zero =>
    intro v t hn h
    refine leaf v t h fun u hu => ?_
    subst hu
    simp [paren] at hn
  | succ n ih =>
    intro v t hn h
    rw [MetricFExp.nodes.eq_def]
    cases h with
    | number h => exact .cons trivial (.cons h.ok .nil)
    | negative _ _ h =>
      simp only [paren, List.length_append, List.length_cons] at hn
      exact .cons trivial ((ih _ _ (by omega) h).up (by sub))
    | binaryOp _ _ h1 _ h2 =>
      simp only [paren, List.length_append, List.length_cons] at hn
      exact .cons trivial (((ih _ _ (by omega) h1).up (by sub)).append ((ih _ _ (by omega) h2).up (by sub)))
    | multiOp _ _ h1 _ h2 _ hw =>
      simp only [paren, List.length_append, List.length_cons] at hn
      refine .cons ⟨h2.ne_nil, wide_ok hw⟩ (((ih _ _ (by omega) h1).up (by sub)).append
        (allOk_list rfl (fun _ _ => by rw [MetricFExp.nodesL]) fun a ha => ?_))
      obtain ⟨t, ht, hl⟩ := h2.ex a ha
      exact (ih a t (by have := hl.length_le; omega) ht).up (by sub)
    | totalTime => exact .cons trivial .nil
    | isViolated _ h => exact .cons trivial (.cons (h.ok.up (by sub)) .nil)
    | function _ h1 h2 =>
      refine .cons trivial (.cons (h1.ok.up (by sub)) (.names fun a ha => ?_))
      obtain ⟨t, ht, hl⟩ := h2.ex a ha
      exact (ht.ok.up (by sub))
    | bare h => exact .cons trivial (.cons h.ok .nil)

theorem MetricW.ok {m : Mode} {v : MetricFExp} {t : List Char} (h : MetricW m v t) :
    AllOk t v.nodes := MetricW.ok_aux _ v t (Nat.le_refl _) h

theorem FExpTW.ok {m : Mode} {v : FExpT} {t : List Char} (h : FExpTW m v t) : AllOk t v.nodes := by
  cases h with
  | now => exact .nil
  | left _ _ h => exact (h.ok.up (by sub))
  | right _ h => exact (h.ok.up (by sub))

theorem FCompW.ok {m : Mode} {v : FComp} {t : List Char} (h : FCompW m v t) : AllOk t v.nodes := by
  cases h with
  | mk _ _ h1 _ h2 => exact (h1.ok.up (by sub)).append (h2.ok.up (by sub))

theorem FAssignDaW.ok {m : Mode} {v : FAssignDa} {t : List Char} (h : FAssignDaW m v t) :
    AllOk t v.nodes := by
  cases h with
  | mk _ _ _ h1 _ h2 => exact (h1.ok.up (by sub)).append (h2.ok.up (by sub))

/-! ## Goals, constraints -/

theorem GDW.ok_aux {m : Mode} (n : Nat) : ∀ v t, t.length ≤ n → GDW m v t → AllOk t v.nodes := by
  induction n with
  | zero =>
    intro v t hn h
    obtain ⟨c, r, rfl, _⟩ := h.solid
    simp at hn
  | succ n ih =>
    intro v t hn h
    rw [GD.nodes.eq_def]
    cases h with
    | and h | or h =>
      simp only [paren, List.length_append, List.length_cons] at hn
      refine .cons trivial (allOk_list rfl (fun _ _ => by rw [GD.nodesL]) fun a ha => ?_)
      obtain ⟨t, ht, hl⟩ := h.ex a ha
      exact (ih a t (by have := hl.length_le; omega) ht).up (by sub)
    | not _ h =>
      simp only [paren, List.length_append, List.length_cons] at hn
      exact .cons trivial ((ih _ _ (by omega) h).up (by sub))
    | imply _ h1 _ h2 =>
      simp only [paren, List.length_append, List.length_cons] at hn
      exact .cons trivial (((ih _ _ (by omega) h1).up (by sub)).append ((ih _ _ (by omega) h2).up (by sub)))
    | exist _ h1 _ h2 | forall_ _ h1 _ h2 =>
      simp only [paren, List.length_append, List.length_cons] at hn
      exact .cons trivial ((h1.ok.up (by sub)).append ((ih _ _ (by omega) h2).up (by sub)))
    | atomic h => exact .cons trivial ((h.ok fun _ _ h => h.ok).up (by sub))
    | fComp h => exact .cons trivial (h.ok.up (by sub))

theorem GDW.ok {m : Mode} {v : GD} {t : List Char} (h : GDW m v t) : AllOk t v.nodes :=
  GDW.ok_aux _ v t (Nat.le_refl _) h

theorem PrefGDW.ok {m : Mode} {v : PrefGD} {t : List Char} (h : PrefGDW m v t) : AllOk t v.nodes := by
  cases h with
  | goal h => exact (h.ok.up (by sub))
  | named _ h1 _ h2 => exact AllOk.append (.cons (h1.ok.up (by sub)) .nil) (h2.ok.up (by sub))
  | anonymous _ h => exact (h.ok.up (by sub))

theorem PreGD.nodesL_append (a b : List PreGD) :
    PreGD.nodesL (a ++ b) = PreGD.nodesL a ++ PreGD.nodesL b := by
  induction a with
  | nil => rfl
  | cons x a ih => rw [List.cons_append, PreGD.nodesL, PreGD.nodesL, ih, List.append_assoc]

theorem PrefConGD.nodesL_append (a b : List PrefConGD) :
    PrefConGD.nodesL (a ++ b) = PrefConGD.nodesL a ++ PrefConGD.nodesL b := by
  induction a with
  | nil => rfl
  | cons x a ih => rw [List.cons_append, PrefConGD.nodesL, PrefConGD.nodesL, ih, List.append_assoc]

theorem PreGDW.ok_aux {m : Mode} (n : Nat) :
    ∀ v t, t.length ≤ n → PreGDW m v t → AllOk t (PreGD.nodesL v) := by
  induction n with
  | zero =>
    intro v t hn h
    obtain ⟨u, rfl, _⟩ := h.form
    simp [paren] at hn
  | succ n ih =>
    intro v t hn h
    cases h with
    | forall_ _ h1 _ h2 =>
      simp only [paren, List.length_append, List.length_cons] at hn
      rw [PreGD.nodesL, PreGD.nodes, PreGD.nodesL, List.append_nil]
      exact (h1.ok.up (by sub)).append ((ih _ _ (by omega) h2).up (by sub))
    | @and gss u h =>
      simp only [paren, List.length_append, List.length_cons] at hn
      have h1 : ∀ gs ∈ gss, AllOk (paren (c!"and" ++ u)) (PreGD.nodesL gs) := fun gs hgs => by
        obtain ⟨t, ht, hl⟩ := h.ex gs hgs
        exact (ih gs t (by have := hl.length_le; omega) ht).up (by sub)
      clear h
      induction gss with
      | nil => exact .nil
      | cons a as ih =>
        rw [List.flatten_cons, PreGD.nodesL_append]
        exact (h1 a (by simp)).append (ih fun b hb => h1 b (by simp [hb]))
    | pref h =>
      rw [PreGD.nodesL, PreGD.nodes, PreGD.nodesL, List.append_nil]
      exact (h.ok.up (by sub))

theorem PreGDW.ok {m : Mode} {v : List PreGD} {t : List Char} (h : PreGDW m v t) :
    AllOk t (PreGD.nodesL v) := PreGDW.ok_aux _ v t (Nat.le_refl _) h

theorem ConGDW.ok_aux {m : Mode} (n : Nat) :
    ∀ v t, t.length ≤ n → ConGDW m v t → AllOk t v.nodes := by
  induction n with
  | zero =>
    intro v t hn h
    obtain ⟨u, rfl, _⟩ := h.form
    simp [paren] at hn
  | succ n ih =>
    intro v t hn h
    have ih2 : ∀ g t, t.length ≤ n → Con2W m (ConGDW m) g t → AllOk t g.nodes := by
      intro g t hn h
      cases h with
      | goal h => rw [Con2GD.nodes]; exact (h.ok.up (by sub))
      | nested h => rw [Con2GD.nodes]; exact ih _ _ hn h
    rw [ConGD.nodes.eq_def]
    cases h with
    | and h =>
      simp only [paren, List.length_append, List.length_cons] at hn
      refine allOk_list (f := ConGD.nodes) (by rw [ConGD.nodesL]) (fun _ _ => by rw [ConGD.nodesL]) fun a ha => ?_
      obtain ⟨t, ht, hl⟩ := h.ex a ha
      exact (ih a t (by have := hl.length_le; omega) ht).up (by sub)
    | forall_ _ h1 _ h2 =>
      simp only [paren, List.length_append, List.length_cons] at hn
      exact (h1.ok.up (by sub)).append ((ih _ _ (by omega) h2).up (by sub))
    | atEnd _ h => exact (h.ok.up (by sub))
    | always _ h | sometime _ h | atMostOnce _ h =>
      simp only [paren, List.length_append, List.length_cons] at hn
      exact (ih2 _ _ (by omega) h).up (by sub)
    | within _ h1 _ h | holdAfter _ h1 _ h =>
      simp only [paren, List.length_append, List.length_cons] at hn
      exact .cons (h1.ok.up (by sub)) ((ih2 _ _ (by omega) h).up (by sub))
    | sometimeAfter _ h1 _ h2 | sometimeBefore _ h1 _ h2 =>
      simp only [paren, List.length_append, List.length_cons] at hn
      exact ((ih2 _ _ (by omega) h1).up (by sub)).append ((ih2 _ _ (by omega) h2).up (by sub))
    | alwaysWithin _ h0 _ h1 _ h2 =>
      simp only [paren, List.length_append, List.length_cons] at hn
      exact .cons (h0.ok.up (by sub)) (((ih2 _ _ (by omega) h1).up (by sub)).append ((ih2 _ _ (by omega) h2).up (by sub)))
    | holdDuring _ h1 _ h2 _ h =>
      simp only [paren, List.length_append, List.length_cons] at hn
      exact .cons (h1.ok.up (by sub)) (.cons (h2.ok.up (by sub)) ((ih2 _ _ (by omega) h).up (by sub)))

theorem ConGDW.ok {m : Mode} {v : ConGD} {t : List Char} (h : ConGDW m v t) : AllOk t v.nodes :=
  ConGDW.ok_aux _ v t (Nat.le_refl _) h

theorem Con2W.ok {m : Mode} {v : Con2GD} {t : List Char} (h : Con2W m (ConGDW m) v t) :
    AllOk t v.nodes := by
  cases h with
  | goal h => rw [Con2GD.nodes]; exact (h.ok.up (by sub))
  | nested h => rw [Con2GD.nodes]; exact (h.ok.up (by sub))

theorem PrefConGDW.ok_aux {m : Mode} (n : Nat) :
    ∀ v t, t.length ≤ n → PrefConGDW m v t → AllOk t (PrefConGD.nodesL v) := by
  induction n with
  | zero =>
    intro v t hn h
    obtain ⟨u, rfl, _⟩ := h.form
    simp [paren] at hn
  | succ n ih =>
    intro v t hn h
    cases h with
    | @and gss u h =>
      simp only [paren, List.length_append, List.length_cons] at hn
      have h1 : ∀ gs ∈ gss, AllOk (paren (c!"and" ++ u)) (PrefConGD.nodesL gs) := fun gs hgs => by
        obtain ⟨t, ht, hl⟩ := h.ex gs hgs
        exact (ih gs t (by have := hl.length_le; omega) ht).up (by sub)
      clear h
      induction gss with
      | nil => exact .nil
      | cons a as ih =>
        rw [List.flatten_cons, PrefConGD.nodesL_append]
        exact (h1 a (by simp)).append (ih fun b hb => h1 b (by simp [hb]))
    | forall_ _ h1 _ h2 =>
      simp only [paren, List.length_append, List.length_cons] at hn
      rw [PrefConGD.nodesL, PrefConGD.nodes, PrefConGD.nodesL, List.append_nil]
      exact (h1.ok.up (by sub)).append ((ih _ _ (by omega) h2).up (by sub))
    | named _ h1 _ h2 =>
      rw [PrefConGD.nodesL, PrefConGD.nodes, PrefConGD.nodesL, List.append_nil]
      exact AllOk.append (.cons (h1.ok.up (by sub)) .nil) (h2.ok.up (by sub))
    | anonymous _ h =>
      rw [PrefConGD.nodesL, PrefConGD.nodes, PrefConGD.nodesL, List.append_nil]
      exact AllOk.append .nil (h.ok.up (by sub))
    | goal h =>
      rw [PrefConGD.nodesL, PrefConGD.nodes, PrefConGD.nodesL, List.append_nil]
      exact (h.ok.up (by sub))

theorem PrefConGDW.ok {m : Mode} {v : List PrefConGD} {t : List Char} (h : PrefConGDW m v t) :
    AllOk t (PrefConGD.nodesL v) := PrefConGDW.ok_aux _ v t (Nat.le_refl _) h

/-! ## Effects, actions -/

theorem PEffectW.ok {m : Mode} {v : PEffect} {t : List Char} (h : PEffectW m v t) : AllOk t v.nodes := by
  cases h with
  | notAtomic _ h => exact (h.ok fun _ _ h => h.ok).up (by sub)
  | undefined _ h => exact (h.ok.up (by sub)).append .nil
  | object _ h1 _ h2 => exact (h1.ok.up (by sub)).append (.flatMap fun a ha => by
      simp only [Option.toList, List.mem_singleton] at ha
      subst ha
      exact (h2.ok.up (by sub)))
  | numeric _ _ _ h1 _ h2 => exact (h1.ok.up (by sub)).append (h2.ok.up (by sub))
  | atomic h => exact (h.ok fun _ _ h => h.ok).up (by sub)

theorem CondEffectW.ok {m : Mode} {v : CondEffect} {t : List Char} (h : CondEffectW m v t) :
    AllOk t v.nodes := by
  cases h with
  | single h => exact (h.ok.up (by sub))
  | all h =>
    refine .flatMap fun a ha => ?_
    obtain ⟨t, ht, hl⟩ := h.ex a ha
    exact (ht.ok.up (by sub))

theorem CEffectW.ok_aux {m : Mode} (n : Nat) :
    ∀ v t, t.length ≤ n → CEffectW m v t → AllOk t v.nodes := by
  induction n with
  | zero =>
    intro v t hn h
    obtain ⟨u, rfl, _⟩ := h.form
    simp [paren] at hn
  | succ n ih =>
    intro v t hn h
    cases h with
    | effect h => rw [CEffect.nodes]; exact (h.ok.up (by sub))
    | forall_ _ h1 _ h2 =>
      simp only [paren, List.length_append, List.length_cons] at hn
      rw [CEffect.nodes]
      refine (h1.ok.up (by sub)).append (allOk_list rfl (fun _ _ => by rw [CEffect.nodesL]) fun a ha => ?_)
      cases h2 with
      | single h2 =>
        rw [List.mem_singleton] at ha
        subst ha
        exact (ih _ _ (by omega) h2).up (by sub)
      | all h2 =>
        simp only [paren, List.length_append, List.length_cons] at hn
        obtain ⟨t, ht, hl⟩ := h2.ex a ha
        exact (ih a t (by have := hl.length_le; omega) ht).up (by sub)
    | when _ h1 _ h2 => rw [CEffect.nodes]; exact (h1.ok.up (by sub)).append (h2.ok.up (by sub))

theorem CEffectW.ok {m : Mode} {v : CEffect} {t : List Char} (h : CEffectW m v t) : AllOk t v.nodes :=
  CEffectW.ok_aux _ v t (Nat.le_refl _) h

theorem EffectW.ok {m : Mode} {v : List CEffect} {t : List Char} (h : EffectW (CEffectW m) v t) :
    AllOk t (CEffect.nodesL v) := by
  refine allOk_list rfl (fun _ _ => by rw [CEffect.nodesL]) fun a ha => ?_
  cases h with
  | single h =>
    rw [List.mem_singleton] at ha
    subst ha
    exact (h.ok.up (by sub))
  | all h =>
    obtain ⟨t, ht, hl⟩ := h.ex a ha
    exact (ht.ok.up (by sub))

theorem EmptyOrW.ok {R : α → List Char → Prop} {f : α → List Node} {v : Option α} {t : List Char}
    (h : EmptyOrW R v t) (hf : ∀ a t, R a t → AllOk t (f a)) : AllOk t (v.toList.flatMap f) := by
  cases h with
  | empty => exact .nil
  | some _ h =>
    refine .flatMap fun a ha => ?_
    simp only [Option.toList, List.mem_singleton] at ha
    subst ha
    exact (hf _ _ h).up (by sub)

theorem SlotW.ok {kw : List Char} {R : α → List Char → Prop} {f : α → List Node}
    {v : Option (Option α)} {t : List Char} (h : SlotW kw R v t) (hf : ∀ a t, R a t → AllOk t (f a)) :
    AllOk t (v.join.toList.flatMap f) := by
  cases h with
  | absent => exact .nil
  | present _ h => exact (h.ok hf).up (by sub)

theorem ActionW.ok {m : Mode} {v : ActionDef} {t : List Char} (h : ActionW m v t) : AllOk t v.nodes := by
  cases h with
  | @mk _ _ _ _ _ _ _ pre _ _ _ _ _ h1 _ _ h2 h3 h4 =>
    refine .cons (h1.ok.up (by sub)) ((h2.ok.up (by sub)).append (AllOk.append ?_ ((h4.ok fun _ _ h => h.ok).up (by sub))))
    cases hp : pre.join with
    | none => exact .nil
    | some x =>
      have := h3.ok (f := PreGD.nodesL) fun _ _ h => h.ok
      rw [hp] at this
      simp only [Option.toList, List.flatMap_cons, List.flatMap_nil, List.append_nil] at this
      exact AllOk.up this (by sub)

theorem DerivedW.ok {m : Mode} {v : DerivedPredicate} {t : List Char} (h : DerivedW m v t) :
    AllOk t v.nodes := by
  cases h with
  | mk _ h1 _ h2 => exact (h1.ok.up (by sub)).append (h2.ok.up (by sub))

/-! ## Durative actions -/

theorem TimedGDW.ok {m : Mode} {v : TimedGD} {t : List Char} (h : TimedGDW m v t) : AllOk t v.nodes := by
  cases h with
  | «at» _ _ h => exact (h.ok.up (by sub))
  | over _ _ h => exact (h.ok.up (by sub))

theorem PrefTimedGDW.ok {m : Mode} {v : PrefTimedGD} {t : List Char} (h : PrefTimedGDW m v t) :
    AllOk t v.nodes := by
  cases h with
  | required h => exact (h.ok.up (by sub))
  | named _ h1 _ h => exact AllOk.append (.cons (h1.ok.up (by sub)) .nil) (h.ok.up (by sub))
  | anonymous _ h => exact AllOk.append .nil (h.ok.up (by sub))

theorem DaGDW.ok_aux {m : Mode} (n : Nat) : ∀ v t, t.length ≤ n → DaGDW m v t → AllOk t v.nodes := by
  induction n with
  | zero =>
    intro v t hn h
    obtain ⟨u, rfl, _⟩ := h.form
    simp [paren] at hn
  | succ n ih =>
    intro v t hn h
    cases h with
    | forall_ _ h1 _ h2 =>
      simp only [paren, List.length_append, List.length_cons] at hn
      rw [DaGD.nodes]
      exact (h1.ok.up (by sub)).append ((ih _ _ (by omega) h2).up (by sub))
    | and h =>
      simp only [paren, List.length_append, List.length_cons] at hn
      rw [DaGD.nodes]
      refine allOk_list rfl (fun _ _ => by rw [DaGD.nodesL]) fun a ha => ?_
      obtain ⟨t, ht, hl⟩ := h.ex a ha
      exact (ih a t (by have := hl.length_le; omega) ht).up (by sub)
    | timed h => rw [DaGD.nodes]; exact (h.ok.up (by sub))

theorem DaGDW.ok {m : Mode} {v : DaGD} {t : List Char} (h : DaGDW m v t) : AllOk t v.nodes :=
  DaGDW.ok_aux _ v t (Nat.le_refl _) h

theorem TimedEffectW.ok {m : Mode} {v : TimedEffect} {t : List Char} (h : TimedEffectW m v t) :
    AllOk t v.nodes := by
  cases h with
  | conditional _ _ h => exact (h.ok.up (by sub))
  | numericFluent _ _ h => exact (h.ok.up (by sub))
  | continuous _ _ h1 _ h2 => exact (h1.ok.up (by sub)).append (h2.ok.up (by sub))

theorem DaEffectW.ok_aux {m : Mode} (n : Nat) :
    ∀ v t, t.length ≤ n → DaEffectW m v t → AllOk t v.nodes := by
  induction n with
  | zero =>
    intro v t hn h
    obtain ⟨u, rfl, _⟩ := h.form
    simp [paren] at hn
  | succ n ih =>
    intro v t hn h
    cases h with
    | all h =>
      simp only [paren, List.length_append, List.length_cons] at hn
      rw [DaEffect.nodes]
      refine allOk_list rfl (fun _ _ => by rw [DaEffect.nodesL]) fun a ha => ?_
      obtain ⟨t, ht, hl⟩ := h.ex a ha
      exact (ih a t (by have := hl.length_le; omega) ht).up (by sub)
    | forall_ _ h1 _ h2 =>
      simp only [paren, List.length_append, List.length_cons] at hn
      rw [DaEffect.nodes]
      exact (h1.ok.up (by sub)).append ((ih _ _ (by omega) h2).up (by sub))
    | when _ h1 _ h2 => rw [DaEffect.nodes]; exact (h1.ok.up (by sub)).append (h2.ok.up (by sub))
    | timed h => rw [DaEffect.nodes]; exact (h.ok.up (by sub))

theorem DaEffectW.ok {m : Mode} {v : DaEffect} {t : List Char} (h : DaEffectW m v t) :
    AllOk t v.nodes := DaEffectW.ok_aux _ v t (Nat.le_refl _) h

theorem DValueW.ok {m : Mode} {v : DurationValue} {t : List Char} (h : DValueW m v t) :
    AllOk t v.nodes := by
  cases h with
  | number h => exact .cons h.ok .nil
  | fExp h => exact (h.ok.up (by sub))

theorem SimpleDurationW.ok {m : Mode} : ∀ {v : SimpleDuration} {t : List Char},
    SimpleDurationW m v t → AllOk t v.nodes
  | .op _ _, _, .op _ _ _ h _ => (h.ok.up (by sub))
  | .at _ _, _, .at _ _ h _ => by rw [SimpleDuration.nodes]; exact (h.ok.up (by sub))

theorem DurationW.ok {m : Mode} {v : DurationConstraint} {t : List Char} (h : DurationW m v t) :
    AllOk t v.nodes := by
  cases h with
  | single h => exact .cons trivial (h.ok.up (by sub))
  | all _ h =>
    refine .cons h.ne_nil (.flatMap fun a ha => ?_)
    obtain ⟨t, ht, hl⟩ := h.ex a ha
    exact (ht.ok.up (by sub))

theorem DaDefW.ok {m : Mode} {v : DaDef} {t : List Char} (h : DaDefW m v t) : AllOk t v.nodes := by
  cases h with
  | mk _ h1 _ _ h2 _ h3 _ h4 _ h5 =>
    exact .cons (h1.ok.up (by sub)) ((h2.ok.up (by sub)).append (((h3.ok fun _ _ h => h.ok).up (by sub)).append
      (((h4.ok fun _ _ h => h.ok).up (by sub)).append ((h5.ok fun _ _ h => h.ok).up (by sub)))))

theorem StructureW.ok {m : Mode} {v : StructureDef} {t : List Char} (h : StructureW m v t) :
    AllOk t v.nodes := by
  cases h with
  | derived h => exact (h.ok.up (by sub))
  | action h => exact (h.ok.up (by sub))
  | durative h => exact (h.ok.up (by sub))

/-! ## Sections, domains, problems -/

theorem InitElW.ok {m : Mode} {v : InitElement} {t : List Char} (h : InitElW m v t) :
    AllOk t v.nodes := by
  cases h with
  | literal h => exact (h.ok.up (by sub))
  | «at» _ h1 _ h => exact .cons (h1.ok.up (by sub)) (h.ok.up (by sub))
  | isValue _ h1 _ h2 => exact .cons (h2.ok.up (by sub)) (h1.ok.up (by sub))
  | isObject _ h1 _ h2 => exact .cons (h2.ok.up (by sub)) (h1.ok.up (by sub))

theorem TypedNamesW.ok {m : Mode} {kw : List Char} {v : TypedList Name} {t : List Char}
    (h : TypedNamesW m kw v t) : AllOk t (varNodes v) := by
  cases h with
  | mk h => exact (sec_typed_ok h object_ok fun _ _ h => h.nodes).up (by sub)

theorem FunctionsW.ok {m : Mode} {v : TypedList Skeleton} {t : List Char} (h : FunctionsW m v t) :
    AllOk t (typedNodes Skeleton.nodes v) := by
  cases h with
  | mk h => exact (sec_typed_ok h number_ok fun _ _ h => h.ok).up (by sub)

theorem WrapW.ok {kw : List Char} {lead : List Char → Prop} {R : α → List Char → Prop}
    {f : α → List Node} {v : α} {t : List Char} (h : WrapW kw lead R v t)
    (hf : ∀ a t, R a t → AllOk t (f a)) : AllOk t (f v) := by
  cases h with
  | mk _ h _ => exact (hf _ _ h).up (by sub)

theorem NonEmptyW.ok {kw : List Char} {lead : List Char → Prop} {R : α → List Char → Prop}
    {f : α → List Node} {v : List α} {t : List Char} (h : NonEmptyW kw lead R v t)
    (hf : ∀ a t, R a t → AllOk t (f a)) : AllOk t (v.flatMap f) := by
  cases h with
  | mk _ h _ =>
    refine .flatMap fun a ha => ?_
    obtain ⟨t, ht, hl⟩ := h.ex a ha
    exact (hf _ _ ht).up (by sub)

theorem OptW.ok {lead : List Char → Prop} {R : α → List Char → Prop} {f : α → List Node}
    {v : Option α} {t : List Char} (h : OptW lead R v t) {d : α} (hd : AllOk t (f d))
    (hf : ∀ a t, R a t → AllOk t (f a)) : AllOk t (f (v.getD d)) := by
  cases h with
  | absent => exact hd
  | present _ h => exact (hf _ _ h).up (by sub)

theorem MetricSpecW.ok {m : Mode} {v : MetricSpec} {t : List Char} (h : MetricSpecW m v t) :
    AllOk t v.nodes := by
  cases h with
  | mk _ _ h => exact (h.ok.up (by sub))

theorem InitW.ok {m : Mode} {v : List InitElement} {t : List Char} (h : InitW m v t) :
    AllOk t (v.flatMap InitElement.nodes) := by
  cases h with
  | mk h =>
    refine .flatMap fun a ha => ?_
    obtain ⟨t, ht, hl⟩ := h.ex a ha
    exact (ht.ok.up (by sub))

theorem DomainW.ok {m : Mode} {v : Domain} {t : List Char} (h : DomainW m v t) : AllOk t v.nodes := by
  cases h with
  | mk _ h0 h1 h2 h3 h4 h5 h6 h7 h8 =>
    refine .cons ?_ (AllOk.append ?_ (AllOk.append ?_ (AllOk.append ?_ (AllOk.append ?_
      (AllOk.append ?_ (AllOk.append ?_ (AllOk.append .nil ?_)))))))
    · cases h0 with
      | mk _ h _ => exact (h.ok.up (by sub))
    · refine AllOk.up (h1.ok (f := fun l : List Name => l.map Node.name) .nil fun a t h => ?_) (by sub)
      have := NonEmptyW.ok h (f := Name.nodes) fun _ _ h => h.nodes
      rw [List.map_eq_flatMap]; exact this
    · exact AllOk.up (h3.ok .nil fun _ _ h => h.ok) (by sub)
    · exact AllOk.up (h4.ok .nil fun _ _ h => h.ok) (by sub)
    · exact AllOk.up (h5.ok (f := fun l : List Skeleton => l.flatMap Skeleton.nodes) .nil fun _ _ h =>
        NonEmptyW.ok h fun _ _ h => h.ok) (by sub)
    · exact AllOk.up (h6.ok .nil fun _ _ h => h.ok) (by sub)
    · exact AllOk.up (h7.ok (f := ConGD.nodes) (by rw [ConGD.nodes, ConGD.nodesL]; exact .nil) fun _ _ h =>
        h.ok fun _ _ h => h.ok) (by sub)
    · refine AllOk.up (h8.ok (f := fun l : List StructureDef => l.flatMap StructureDef.nodes) .nil fun _ _ h =>
        .flatMap fun a ha => ?_) (by sub)
      obtain ⟨t, ht, hl⟩ := h.ex a ha
      exact ht.ok.up hl

theorem ProblemW.ok {m : Mode} {v : Problem} {t : List Char} (h : ProblemW m v t) :
    AllOk t v.nodes := by
  cases h with
  | mk _ h0 _ h1 h2 h3 _ h4 _ h5 h6 h7 h8 =>
    refine .cons ?_ (.cons ?_ (AllOk.append ?_ (AllOk.append ?_ (AllOk.append ?_ (AllOk.append ?_ ?_)))))
    · cases h0 with
      | mk _ h _ => exact (h.ok.up (by sub))
    · cases h1 with
      | mk _ h _ => exact (h.ok.up (by sub))
    · exact AllOk.up (h3.ok .nil fun _ _ h => h.ok) (by sub)
    · exact (h4.ok.up (by sub))
    · exact (h5.ok fun _ _ h => h.ok).up (by sub)
    · exact AllOk.up (h6.ok (f := PrefConGD.nodesL) .nil fun _ _ h => h.ok fun _ _ h => h.ok) (by sub)
    · cases h7 with
      | absent => exact .nil
      | present _ h => 
        refine .flatMap fun a ha => ?_
        simp only [Option.toList, List.mem_singleton] at ha
        subst ha
        exact h.ok.up (by sub)

end Pddl
