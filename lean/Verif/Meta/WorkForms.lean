import Verif.Meta.WorkRules

/-!
# Meta-theory: bounds for the work of parsers, forms and recursion
-/

namespace Pddl

theorem parens_cost {p : K.P α} {s t : List Char} (ho : Opens s t) :
    (K.parens p).cost s ≤ 20 * (ext s t + 1) + p.cost (skip t) := by
  have h1 := eolp_cost (K.delimited (K.char '(') (K.ws p) (K.char ')')) s
  have h2 : (K.delimited (K.char '(') (K.ws p) (K.char ')')).cost (skipC s) ≤
      2 + (4 * (t.length - (skip t).length) + 5 + p.cost (skip t) + 2) := by
    show 2 + (Pddl.char '(' (skipC s)).after
      (fun u => (K.ws p).cost u + ((K.ws p).run u).after fun _ => 2) ≤ _
    refine Nat.add_le_add_left (after_le fun v u hu => ?_) _
    have h3 := char_inv hu
    have h4 : t = u := by
      refine ho.skipC.unique ?_
      rw [h3]
      exact open_opens u
    subst h4
    have h5 := ws_cost p t
    have h6 : ((K.ws p).run t).after (fun _ => 2) ≤ 2 := after_le fun _ _ _ => Nat.le_refl _
    omega
  have h3 := lay_ext ho (.refl t)
  have h4 := ho.skipC.later (.skipC s)
  have h5 : (K.parens p).cost s =
    (K.preceded K.ignoreEolComment (K.delimited (K.char '(') (K.ws p) (K.char ')'))).cost s := rfl
  omega

theorem bare_cost {p : K.P α} {s t : List Char} (ho : Opens s t) :
    (K.delimited (K.tag c!"(") p (K.tag c!")")).cost s ≤ 20 * (ext s t + 1) + p.cost t := by
  show 2 + (Pddl.tag c!"(" s).after (fun u => p.cost u + (p.run u).after fun _ => 2) ≤ _
  have h : (Pddl.tag c!"(" s).after (fun u => p.cost u + (p.run u).after fun _ => 2) ≤ p.cost t + 2 :=
    after_le fun v u hu => by
      obtain ⟨_, hu⟩ := tag_inv hu
      subst hu
      have h4 : t = u := ho.unique (open_opens u)
      subst h4
      have h6 : (p.run t).after (fun _ => 2) ≤ 2 := after_le fun _ _ _ => Nat.le_refl _
      omega
  omega

theorem equality_cost {p : K.P α} (he : Eats p) {s t : List Char} (ho : Opens s t) :
    (K.delimited (K.ws (K.tag c!"(=")) p (K.ws (K.char ')'))).cost s ≤
      20 * (ext s t + 1) + (Pddl.tag c!"=" t).after p.cost := by
  show (K.ws (K.tag c!"(=")).cost s + ((K.ws (K.tag c!"(=")).run s).after
    (fun u => p.cost u + (p.run u).after (K.ws (K.char ')')).cost) ≤ _
  have h0 := ws_tag_cost c!"(=" s
  have e6 : s.length - (skip s).length ≤ ext s t := lay_ext' ho
  have e7 : c!"(=".length = 2 := rfl
  have h : ((K.ws (K.tag c!"(=")).run s).after
      (fun u => p.cost u + (p.run u).after (K.ws (K.char ')')).cost) ≤
      (Pddl.tag c!"=" t).after p.cost + (4 * ext s t + 7) :=
    after_le fun v u hu => by
      rw [ws_tag_run, ho] at hu
      obtain ⟨_, hu⟩ := tag_inv hu
      have hu : t = '=' :: u := by simpa using hu
      have e1 : (Pddl.tag c!"=" t).after p.cost = p.cost u := by rw [hu]; rfl
      have hl : Lvl t u := by rw [hu]; exact .plain (by decide) u
      have h6 : (p.run u).after (K.ws (K.char ')')).cost ≤ 4 * ext s t + 7 :=
        after_le fun _ r hr => by
          have h7 := ws_cost (K.char ')') r
          have h8 := lay_ext ho (hl.trans (he _ _ _ hr))
          have h9 : (K.char ')').cost (skip r) = 2 := rfl
          omega
      omega
  omega

theorem tag_after_le {k t : List Char} (hk : plainText k = true) {f : List Char → Nat} {n : Nat}
    (h : ∀ u, Lvl t u → f u ≤ n) : (Pddl.tag k t).after f ≤ n := after_le fun v u hu => by
  obtain ⟨_, hu⟩ := tag_inv hu
  exact h u (by rw [hu]; exact Lvl.append (plainText_mem hk) u)

theorem form_le {c a j k x : Nat} {s t : List Char} (hj : 1 ≤ j) (ho : Opens s t)
    (h : x ≤ k * (ext s t + 1) + (c * BE j s t + a * B (j + 1) t)) :
    x ≤ (c + k) * BE j s t + a * BE (j + 1) s t := by
  have h1 := Nat.mul_le_mul_left k (BE_lin hj s t)
  have h2 := Nat.mul_le_mul_left a (B_BE (j := j + 1) ho)
  rw [Nat.add_mul]
  omega

namespace Ext

theorem prefixExpr {c a j : Nat} {k : List Char} {p : K.P α} (hj : 1 ≤ j)
    (hk : plainText k = true) (h : Bd c a j p) (he : Eats p) :
    Ext (c + (30 + k.length)) a j (K.prefixExpr k p) where
  form s t ho := form_le hj ho (Nat.le_trans (prefixExpr_cost hk he ho)
    (Nat.add_le_add_left (tag_after_le hk fun u hu => inside_le h ho (hu.trans (.skip u))) _))
  leaf := Leaf.prefixExpr.mono (by omega)
  whole := .prefixExpr hk he

theorem parens {c a j : Nat} {p : K.P α} (hj : 1 ≤ j) (h : Bd c a j p) (he : Eats p) :
    Ext (c + 20) a j (K.parens p) where
  form s t ho := form_le hj ho (Nat.le_trans (parens_cost ho)
    (Nat.add_le_add_left (inside_le h ho (.skip t)) _))
  leaf := Leaf.parens.mono (by omega)
  whole := .parens he

theorem bare {c a j : Nat} {p : K.P α} (hj : 1 ≤ j) (h : Bd c a j p) (he : Eats p) :
    Ext (c + 20) a j (K.delimited (K.tag c!"(") p (K.tag c!")")) where
  form s t ho := form_le hj ho (Nat.le_trans (bare_cost ho)
    (Nat.add_le_add_left (inside_le h ho (.refl t)) _))
  leaf := Leaf.bare.mono (by omega)
  whole := (Formal.bare he).whole

theorem equality {c a j : Nat} {p : K.P α} (hj : 1 ≤ j) (h : Bd c a j p) (he : Eats p) :
    Ext (c + 20) a j (K.delimited (K.ws (K.tag c!"(=")) p (K.ws (K.char ')'))) where
  form s t ho := form_le hj ho (Nat.le_trans (equality_cost he ho)
    (Nat.add_le_add_left (tag_after_le rfl fun u hu => inside_le h ho hu) _))
  leaf := Leaf.equality.mono (by omega)
  whole := (Formal.equality he).whole

theorem map {c a j : Nat} {f : α → β} {p : K.P α} (h : Ext c a j p) : Ext c a j (K.map f p) :=
  ⟨h.form, h.leaf, h.whole.map⟩

theorem mapExpect {c a j : Nat} {f : α → Option β} {p : K.P α} (h : Ext c a j p) :
    Ext c a j (K.mapExpect f p) := ⟨h.form, h.leaf, h.whole.mapExpect⟩

theorem alt_nil {a j : Nat} : Ext 0 a j (K.alt ([] : List (K.P α))) :=
  ⟨fun _ _ _ => Nat.zero_le _, .alt_nil, .alt_nil⟩

theorem alt_cons {c c' a j : Nat} {p : K.P α} {ps : List (K.P α)} (h : Ext c 0 j p)
    (h' : Ext c' a j (K.alt ps)) : Ext (c + c') a j (K.alt (p :: ps)) where
  form s t ho := by
    have h1 := h.form s t ho
    have h2 : K.altCost ps s ≤ _ := h'.form s t ho
    have h3 := onErr_le (p.run s) (K.altCost ps s)
    show p.cost s + (p.run s).onErr (K.altCost ps s) ≤ _
    rw [Nat.add_mul]
    omega
  leaf := h.leaf.alt_cons h'.leaf
  whole := h.whole.alt_cons h'.whole

theorem alt_one {c a j : Nat} {p : K.P α} (h : Ext c a j p) : Ext c a j (K.alt [p]) where
  form s t ho := by
    have h1 := h.form s t ho
    have h3 := onErr_le (p.run s) 0
    show p.cost s + (p.run s).onErr 0 ≤ _
    omega
  leaf s hs := by
    have h1 := h.leaf s hs
    have h3 := onErr_le (p.run s) 0
    show p.cost s + (p.run s).onErr 0 ≤ _
    omega
  whole := h.whole.alt_one

theorem ifOk {c c' a j : Nat} {f : α → β} {p : K.P α} {k : K.P β} (h : Ext c 0 j p)
    (h' : Ext c' a j k) : Ext (c + c') a j (K.ifOk p f k) where
  form s t ho := by
    have h1 := h.form s t ho
    have h2 := h'.form s t ho
    have h3 := onError_le (p.run s) (k.cost s)
    show p.cost s + (p.run s).onError (k.cost s) ≤ _
    rw [Nat.add_mul]
    omega
  leaf := h.leaf.ifOk h'.leaf
  whole := h.whole.ifOk h'.whole

/-- Parsers that stop at once where a form begins. -/
theorem of_shut {c a j : Nat} {p : K.P α} (hj : 1 ≤ j)
    (h : ∀ s t, Opens s t → p.cost s ≤ c * (ext s t + 1)) (hl : Leaf c p)
    (hn : ∀ s t v r, Opens s t → p.run s ≠ .ok v r) : Ext c a j p where
  form s t ho := by
    have h1 := h s t ho
    have h2 := Nat.mul_le_mul_left c (BE_lin hj s t)
    omega
  leaf := hl
  whole := .of_not hn

/-- The position after spaces. -/
theorem ms1 {c a j : Nat} {p : K.P α} (hj : 1 ≤ j) (h : Ext c a j p) :
    Ext (c + 5) a j (K.preceded K.multispace1 p) := by
  have hd : ∀ s : List Char, skip (s.dropWhile isSpace) = skip s := fun s => by
    rw [skip, skip]
    congr 1
    exact dropWhile_idem _ _
  refine ext_later (k := 1) hj h (fun s => s.dropWhile isSpace)
    (fun s => .dropWhile (fun _ => isSpace_plain) s) (fun s t ho => (hd s).trans ho)
    (fun s hs t ht => hs t ((hd s).symm.trans ht)) (fun s v r hs => ?_) (fun s => ?_)
  · obtain ⟨_, r1, h1, h2⟩ := preceded_ok hs
    rw [takeWhile1_rest h1] at h2
    exact h2
  · show 1 + (s.takeWhile isSpace).length + (Pddl.multispace1 s).after p.cost ≤ _
    have h1 : (Pddl.multispace1 s).after p.cost ≤ p.cost (s.dropWhile isSpace) :=
      after_le fun v r hr => by rw [takeWhile1_rest hr]; exact Nat.le_refl _
    have ht := congrArg List.length (List.takeWhile_append_dropWhile (p := isSpace) (l := s))
    rw [List.length_append] at ht
    omega

end Ext

/-! ## Indicators -/

/-- 1 if the keyword begins the text; with `b`, only if no dash follows it. -/
def ind (b : Bool) (k t : List Char) : Nat :=
  if (k.isPrefixOf t && !(b && (k ++ ['-']).isPrefixOf t)) = true then 1 else 0

/-- 1 if the first character after layout satisfies `f`. -/
def opI (f : Char → Bool) (t : List Char) : Nat := match skip t with
  | [] => 0
  | c :: _ => if f c = true then 1 else 0

namespace Opn

theorem of_ext {c a j : Nat} {p : K.P α} (h : Ext c 0 j p) : Opn c a j p (fun _ => 0) :=
  fun s t ho => by
  have := h.form s t ho
  omega

theorem map {c a j : Nat} {f : α → β} {g} {p : K.P α} (h : Opn c a j p g) :
    Opn c a j (K.map f p) g := h

theorem mapExpect {c a j : Nat} {f : α → Option β} {g} {p : K.P α} (h : Opn c a j p g) :
    Opn c a j (K.mapExpect f p) g := h

theorem alt_one {c a j : Nat} {p : K.P α} {g} (h : Opn c a j p g) : Opn c a j (K.alt [p]) g :=
  fun s t ho => by
  have h1 := h s t ho
  have h3 := onErr_le (p.run s) 0
  show p.cost s + (p.run s).onErr 0 ≤ _
  omega

theorem alt_cons {c c' a j : Nat} {p : K.P α} {ps : List (K.P α)} {f g} (h : Opn c a j p f)
    (h' : Opn c' a j (K.alt ps) g) : Opn (c + c') a j (K.alt (p :: ps)) (fun t => f t + g t) :=
  fun s t ho => by
  have h1 := h s t ho
  have h2 : K.altCost ps s ≤ _ := h' s t ho
  have h3 := onErr_le (p.run s) (K.altCost ps s)
  show p.cost s + (p.run s).onErr (K.altCost ps s) ≤ _
  rw [Nat.add_mul, Nat.add_mul]
  omega

theorem ifOk {c c' a j : Nat} {f : α → β} {p : K.P α} {k : K.P β} {g g'} (h : Opn c a j p g)
    (h' : Opn c' a j k g') : Opn (c + c') a j (K.ifOk p f k) (fun t => g t + g' t) :=
  fun s t ho => by
  have h1 := h s t ho
  have h2 := h' s t ho
  have h3 := onError_le (p.run s) (k.cost s)
  show p.cost s + (p.run s).onError (k.cost s) ≤ _
  rw [Nat.add_mul, Nat.add_mul]
  omega

theorem form_le {c a j k x n : Nat} {s t : List Char} (hj : 1 ≤ j)
    (h : x ≤ k * (ext s t + 1) + (c * BE j s t + n * (a * B (j + 1) t))) :
    x ≤ (c + k) * BE j s t + n * (a * B (j + 1) t) := by
  have h1 := Nat.mul_le_mul_left k (BE_lin hj s t)
  rw [Nat.add_mul]
  omega

theorem prefixExpr {c a j : Nat} {k : List Char} {p : K.P α} (hj : 1 ≤ j)
    (hk : plainText k = true) (h : Bd c a j p) (he : Eats p) :
    Opn (c + (30 + k.length)) a j (K.prefixExpr k p) (ind false k) := fun s t ho => by
  refine form_le hj (Nat.le_trans (prefixExpr_cost hk he ho) (Nat.add_le_add_left ?_ _))
  refine after_le fun v u hu => ?_
  obtain ⟨_, hu⟩ := tag_inv hu
  have hl : Lvl t u := by rw [hu]; exact Lvl.append (plainText_mem hk) u
  have h1 : ind false k t = 1 := by
    unfold ind
    rw [if_pos]
    simp [hu]
  rw [h1, Nat.one_mul]
  exact inside_le h ho (hl.trans (.skip u))

theorem flat_of_dash {u r : List Char} (h : u = '-' :: r) : Flat u := fun t ht => by
  subst h
  rw [Opens, skip_of_head (by intro c r h; cases h; rfl), skipC_of_ne (by decide)] at ht
  exact absurd ht (by simp)

/-- A keyword that may be the beginning of another one. -/
theorem prefixExpr_dash {c a j : Nat} {k : List Char} {p : K.P α} (hj : 1 ≤ j)
    (hk : plainText k = true) (h : Ext c a j p) (he : Eats p) :
    Opn (c + (30 + k.length)) a j (K.prefixExpr k p) (ind true k) := fun s t ho => by
  refine form_le hj (Nat.le_trans (prefixExpr_cost hk he ho) (Nat.add_le_add_left ?_ _))
  refine after_le fun v u hu => ?_
  obtain ⟨_, hu⟩ := tag_inv hu
  have hl : Lvl t u := by rw [hu]; exact Lvl.append (plainText_mem hk) u
  by_cases hf : Flat u
  · have h1 := h.leaf _ hf.skip
    have h2 := (hl.trans (.skip u)).vis_le
    have h3 := ho.ext
    have h4 := BE_lin hj s t
    have h5 := Nat.mul_le_mul_left c (show vis (skip u) + 1 ≤ BE j s t by omega)
    omega
  · have h1 : ind true k t = 1 := by
      unfold ind
      rw [if_pos]
      simp only [Bool.true_and, Bool.and_eq_true, Bool.not_eq_true']
      refine ⟨by simp [hu], ?_⟩
      cases hb : (k ++ ['-']).isPrefixOf t with
      | false => rfl
      | true =>
        rw [List.isPrefixOf_iff_prefix] at hb
        obtain ⟨w, hw⟩ := hb
        rw [hu, List.append_assoc] at hw
        exact absurd (flat_of_dash (List.append_cancel_left hw).symm) hf
    rw [h1, Nat.one_mul]
    exact inside_le (h.bd hj) ho (hl.trans (.skip u))

/-- Forms that begin with an operator. -/
theorem parens_op {c c' a j : Nat} {f : Char → Bool} {op : K.P α} {q : K.P β} {p : K.P γ}
    (hj : 1 ≤ j) (hp : p.cost = seqCost op q) (ho : Bd c 0 j op) (he : Eats op)
    (hr : ∀ s v r, op.run s = .ok v r → ∃ x y, s = x :: y ∧ f x = true) (h : Bd c' a j q) :
    Opn (c + c' + 20) a j (K.parens p) (opI f) := fun s t hs => by
  refine form_le hj (Nat.le_trans (parens_cost hs) (Nat.add_le_add_left ?_ _))
  rw [hp, seqCost, Nat.add_mul]
  have h1 := inside_le ho hs (.skip t)
  have h2 : (op.run (skip t)).after q.cost ≤ c' * BE j s t + opI f t * (a * B (j + 1) t) :=
    after_le fun v r hv => by
      obtain ⟨x, y, hx, hy⟩ := hr _ _ _ hv
      have h3 : opI f t = 1 := by unfold opI; rw [hx]; simp [hy]
      rw [h3, Nat.one_mul]
      exact inside_le h hs ((Lvl.skip t).trans (he _ _ _ hv))
  omega

/-- Forms without a keyword. -/
theorem bare {c a j : Nat} {p : K.P α} (hj : 1 ≤ j) (h : Bd c a j p) :
    Opn (c + 20) a j (K.delimited (K.tag c!"(") p (K.tag c!")")) (fun _ => 1) := fun s t ho => by
  refine form_le hj (Nat.le_trans (bare_cost ho) (Nat.add_le_add_left ?_ _))
  rw [Nat.one_mul]
  exact inside_le h ho (.refl t)

end Opn

/-! ## Recursion -/

theorem fixF_ext {j b c : Nat} {body : K.P α → K.P α} {f : List Char → Nat} (I : K.P α → Prop)
    (hI : ∀ n, I (K.fixF body n)) (hE : ∀ p, Eats p → Eats (body p))
    (hW : ∀ p, Eats p → Whole p → Whole (body p)) (hL : ∀ p, Leaf b (body p))
    (hf : ∀ t, f t ≤ 2 ^ opw t)
    (hO : ∀ a p, Eats p → I p → Ext (b + 1) a j p → Opn c a j (body p) f) (n : Nat) :
    Whole (K.fixF body n) ∧ Leaf (b + 1) (K.fixF body n) ∧
      ∀ s t, Opens s t → (K.fixF body n).cost s ≤ (c + 1) * BE (j + 1) s t := by
  induction n with
  | zero =>
    exact ⟨fun _ _ _ _ _ hs => (by cases hs), fun _ _ => Nat.zero_le _, fun _ _ _ => Nat.zero_le _⟩
  | succ n ih =>
    have he := Eats.fixF hE n
    have hx : Ext (b + 1) (c + 1) j (K.fixF body n) :=
      ⟨fun s t ho => Nat.le_trans (ih.2.2 s t ho) (Nat.le_add_left _ _), ih.2.1, ih.1⟩
    refine ⟨hW _ he ih.1, fun s hs => ?_, fun s t ho => ?_⟩
    · have h1 := hL (K.fixF body n) s hs
      show 1 + (body (K.fixF body n)).cost s ≤ _
      rw [Nat.add_mul]
      omega
    · have h1 := hO _ _ he (hI n) hx s t ho
      have h2 := B_fix (j := j) ho
      have h3 := Nat.mul_le_mul_left (c + 1) h2
      have h4 := Nat.mul_le_mul_right ((c + 1) * B (j + 1) t) (hf t)
      have h5 : 2 ^ opw t * ((c + 1) * B (j + 1) t) = (c + 1) * (2 ^ opw t * B (j + 1) t) := by
        rw [Nat.mul_left_comm]
      have h6 : 1 ≤ BE j s t := Nat.mul_pos (two_pow_pos' _) (Nat.pow_pos (by omega))
      show 1 + (body (K.fixF body n)).cost s ≤ _
      rw [Nat.mul_add, Nat.add_mul c 1 (BE j s t)] at h3
      omega

theorem fix_frm {j b c : Nat} {body : K.P α → K.P α} {f : List Char → Nat} (I : K.P α → Prop)
    (hI : ∀ n, I (K.fixF body n)) (hE : ∀ p, Eats p → Eats (body p))
    (hW : ∀ p, Eats p → Whole p → Whole (body p)) (hL : ∀ p, Leaf b (body p))
    (hf : ∀ t, f t ≤ 2 ^ opw t)
    (hO : ∀ a p, Eats p → I p → Ext (b + 1) a j p → Opn c a j (body p) f) :
    Frm (j + 1) (K.fix body) := by
  have h := fun n => fixF_ext I hI hE hW hL hf hO n
  refine ⟨⟨c + 1 + (b + 1), fun s t ho => ?_, fun s hs => ?_, fun s t v r ho hs => ?_⟩, .fix hE⟩
  · have h1 := (h (s.length + 1)).2.2 s t ho
    show (K.fixF body (s.length + 1)).cost s ≤ _
    rw [Nat.add_mul]
    omega
  · have h1 := (h (s.length + 1)).2.1 s hs
    show (K.fixF body (s.length + 1)).cost s ≤ _
    rw [Nat.add_mul]
    omega
  · exact (h (s.length + 1)).1 s t v r ho hs

/-! ## Without constants -/

open Classical in
/-- A constant for a form. -/
noncomputable def coef (j : Nat) (p : K.P α) : Nat := if h : ∃ c, Ext c 0 j p then h.choose else 0

open Classical in
/-- A constant for a part of a form. -/
noncomputable def coefB (j : Nat) (p : K.P α) : Nat := if h : ∃ c, Bd c 0 j p then h.choose else 0

theorem Frm.ext {j : Nat} {p : K.P α} (h : Frm j p) : Ext (coef j p) 0 j p := by
  unfold coef
  rw [dif_pos h.1]
  exact h.1.choose_spec

theorem Pol.bd {j : Nat} {p : K.P α} (h : Pol j p) : Bd (coefB j p) 0 j p := by
  unfold coefB
  rw [dif_pos h.1]
  exact h.1.choose_spec

theorem Opn.own {a j : Nat} {p : K.P α} (h : Frm j p) : Opn (coef j p) a j p (fun _ => 0) :=
  .of_ext h.ext

theorem Bd.own {a j : Nat} {p : K.P α} (h : Pol j p) : Bd (coefB j p) a j p :=
  h.bd.mono (Nat.le_refl _) (Nat.le_refl _)

theorem Leaf.own {j : Nat} {p : K.P α} (h : Frm j p) : Leaf (coef j p) p := h.ext.leaf

theorem Bd.own_pair {c a j : Nat} {p : K.P α} {q : K.P β} (h : Pol j p) (h' : Bd c a j q) :
    Bd (coefB j p + c) a j (K.pair p q) := .pair h.bd h.2 h'

theorem Bd.own_preceded {c a j : Nat} {p : K.P α} {q : K.P β} (h : Pol j p) (h' : Bd c a j q) :
    Bd (coefB j p + c) a j (K.preceded p q) := .preceded h.bd h.2 h'

namespace Frm

theorem map {j : Nat} {f : α → β} {p : K.P α} (h : Frm j p) : Frm j (K.map f p) :=
  ⟨h.1.imp fun _ hc => hc.map, h.2.map⟩

theorem mapExpect {j : Nat} {f : α → Option β} {p : K.P α} (h : Frm j p) :
    Frm j (K.mapExpect f p) := ⟨h.1.imp fun _ hc => hc.mapExpect, h.2.mapExpect⟩

theorem alt_one {j : Nat} {p : K.P α} (h : Frm j p) : Frm j (K.alt [p]) :=
  ⟨h.1.imp fun _ hc => hc.alt_one, h.2.alt_one⟩

theorem alt_cons {j : Nat} {p : K.P α} {ps : List (K.P α)} (h : Frm j p) (h' : Frm j (K.alt ps)) :
    Frm j (K.alt (p :: ps)) :=
  ⟨h.1.elim fun _ hc => h'.1.imp' _ fun _ hd => hc.alt_cons hd, h.2.alt_cons h'.2⟩

theorem ifOk {j : Nat} {f : α → β} {p : K.P α} {k : K.P β} (h : Frm j p) (h' : Frm j k) :
    Frm j (K.ifOk p f k) :=
  ⟨h.1.elim fun _ hc => h'.1.imp' _ fun _ hd => hc.ifOk hd, h.2.ifOk h'.2⟩

theorem failure {j : Nat} (hj : 1 ≤ j) : Frm j (K.failure : K.P α) :=
  ⟨⟨1, .of_shut hj (fun _ _ _ => by show 1 ≤ _; omega) (fun _ _ => by show 1 ≤ _; omega)
    fun _ _ _ _ _ h => by cases h⟩, .failure⟩

theorem error {j : Nat} (hj : 1 ≤ j) : Frm j (K.error : K.P α) :=
  ⟨⟨1, .of_shut hj (fun _ _ _ => by show 1 ≤ _; omega) (fun _ _ => by show 1 ≤ _; omega)
    fun _ _ _ _ _ h => by cases h⟩, .error⟩

theorem ws {j : Nat} {p : K.P α} (hj : 1 ≤ j) (h : Frm j p) : Frm j (K.ws p) :=
  ⟨h.1.elim fun _ hc => ⟨_, hc.ws hj⟩, h.2.ws⟩

theorem prefixExpr {j : Nat} {k : List Char} {p : K.P α} (hj : 1 ≤ j) (hk : plainText k = true)
    (h : Pol j p) : Frm j (K.prefixExpr k p) :=
  ⟨h.1.elim fun _ hc => ⟨_, .prefixExpr hj hk hc h.2⟩, h.2.prefixExpr hk⟩

theorem parens {j : Nat} {p : K.P α} (hj : 1 ≤ j) (h : Pol j p) : Frm j (K.parens p) :=
  ⟨h.1.elim fun _ hc => ⟨_, .parens hj hc h.2⟩, h.2.parens⟩

theorem delimited {j : Nat} {p : K.P α} (hj : 1 ≤ j) (h : Pol j p) :
    Frm j (K.delimited (K.tag c!"(") p (K.tag c!")")) :=
  ⟨h.1.elim fun _ hc => ⟨_, .bare hj hc h.2⟩, (Formal.bare h.2).eats⟩

theorem delimited_one {j : Nat} {p : K.P α} (hj : 1 ≤ j) (h : Pol j p) :
    Frm j (K.delimited (K.ws (K.tag c!"(=")) p (K.ws (K.char ')'))) :=
  ⟨h.1.elim fun _ hc => ⟨_, .equality hj hc h.2⟩, (Formal.equality h.2).eats⟩

end Frm

namespace Pol

theorem map {j : Nat} {f : α → β} {p : K.P α} (h : Pol j p) : Pol j (K.map f p) :=
  ⟨h.1.imp fun _ hc => hc.map, h.2.map⟩

theorem mapExpect {j : Nat} {f : α → Option β} {p : K.P α} (h : Pol j p) :
    Pol j (K.mapExpect f p) := ⟨h.1.imp fun _ hc => hc.mapExpect, h.2.mapExpect⟩

theorem opt {j : Nat} {p : K.P α} (h : Pol j p) : Pol j (K.opt p) :=
  ⟨h.1.imp fun _ hc => hc.opt, h.2.opt⟩

theorem recognize {j : Nat} {p : K.P α} (h : Pol j p) : Pol j (K.recognize p) :=
  ⟨h.1.imp fun _ hc => hc, h.2.recognize⟩

theorem pair {j : Nat} {p : K.P α} {q : K.P β} (h : Pol j p) (h' : Pol j q) : Pol j (K.pair p q) :=
  ⟨h.1.elim fun _ hc => h'.1.imp' _ fun _ hd => hc.pair h.2 hd, h.2.pair h'.2⟩

theorem preceded {j : Nat} {p : K.P α} {q : K.P β} (h : Pol j p) (h' : Pol j q) :
    Pol j (K.preceded p q) :=
  ⟨h.1.elim fun _ hc => h'.1.imp' _ fun _ hd => hc.preceded h.2 hd, h.2.preceded h'.2⟩

theorem terminated {j : Nat} {p : K.P α} {q : K.P β} (h : Pol j p) (h' : Pol j q) :
    Pol j (K.terminated p q) :=
  ⟨h.1.elim fun _ hc => h'.1.imp' _ fun _ hd => hc.terminated h.2 hd, h.2.terminated h'.2⟩

theorem alt_nil {j : Nat} : Pol j (K.alt ([] : List (K.P α))) := ⟨⟨0, Bd.alt_nil⟩, .alt_nil⟩

theorem alt_cons {j : Nat} {p : K.P α} {ps : List (K.P α)} (h : Pol j p) (h' : Pol j (K.alt ps)) :
    Pol j (K.alt (p :: ps)) :=
  ⟨h.1.elim fun _ hc => h'.1.imp' _ fun _ hd => hc.alt_cons hd, h.2.alt_cons h'.2⟩

theorem alt_one {j : Nat} {p : K.P α} (h : Pol j p) : Pol j (K.alt [p]) := alt_cons h alt_nil

theorem ws {j : Nat} {p : K.P α} (hj : 1 ≤ j) (h : Pol j p) : Pol j (K.ws p) :=
  ⟨h.1.elim fun _ hc => ⟨_, hc.ws hj⟩, h.2.ws⟩

theorem lay {j : Nat} (hj : 1 ≤ j) : Pol j (K.preceded K.multispace0 K.ignoreEolComment) :=
  ⟨⟨5, fun s => by
    have h1 := lay_cost s
    have h2 := (Lvl.skip s).vis
    have h3 := B_lin hj s
    omega⟩, .preceded .multispace0 .ignoreEolComment⟩

theorem ws2 {j : Nat} {p : K.P α} (hj : 1 ≤ j) (h : Pol j p) : Pol j (K.ws2 p) :=
  preceded (lay hj) (terminated h (lay hj))

theorem spaceSeparatedList0 {j : Nat} {p : K.P α} (hj : 2 ≤ j) (h : Frm j p) :
    Pol j (K.spaceSeparatedList0 p) :=
  ⟨h.1.elim fun _ hc => ⟨_, .spaceSeparatedList0 hj hc h.2⟩, h.2.spaceSeparatedList0⟩

theorem spaceSeparatedList1 {j : Nat} {p : K.P α} (hj : 2 ≤ j) (h : Frm j p) :
    Pol j (K.spaceSeparatedList1 p) :=
  ⟨h.1.elim fun _ hc => ⟨_, .spaceSeparatedList1 hj hc h.2⟩, h.2.spaceSeparatedList1⟩

theorem many0 {j : Nat} {p : K.P α} (h : Pol j p) : Pol (j + 1) (K.many0 p) :=
  ⟨h.1.imp fun _ hc => hc.many0 h.2, h.2.many0⟩

theorem prefixExpr {j : Nat} {k : List Char} {p : K.P α} (hj : 1 ≤ j) (hk : plainText k = true)
    (h : Pol j p) : Pol j (K.prefixExpr k p) := (Frm.prefixExpr hj hk h).pol hj

theorem parens {j : Nat} {p : K.P α} (hj : 1 ≤ j) (h : Pol j p) : Pol j (K.parens p) :=
  (Frm.parens hj h).pol hj

theorem of_const {j k : Nat} {p : K.P α} (hj : 1 ≤ j) (h : ∀ s, p.cost s ≤ k) (he : Eats p) :
    Pol j p := ⟨⟨k, fun s => by
    have h1 := h s
    have h2 := Nat.mul_le_mul_left k (show 1 ≤ B j s by have := B_lin hj s; omega)
    omega⟩, he⟩

theorem tag {j : Nat} {t : List Char} (hj : 1 ≤ j) (h : plainText t = true) : Pol j (K.tag t) :=
  of_const hj (fun _ => Nat.le_refl _) (.tag h)

theorem char {j : Nat} {c : Char} (hj : 1 ≤ j) (h : plainText [c] = true) : Pol j (K.char c) :=
  of_const hj (fun _ => Nat.le_refl _) (.char h)

theorem takeWhile_le {f : Char → Bool} (hf : ∀ c, f c = true → c ≠ '(' ∧ c ≠ ')' ∧ c ≠ ';')
    (s : List Char) : (s.takeWhile f).length ≤ vis s := by
  have h1 := (Lvl.dropWhile hf s).vis
  have ht := congrArg List.length (List.takeWhile_append_dropWhile (p := f) (l := s))
  rw [List.length_append] at ht
  omega

theorem of_takeWhile {j : Nat} {p : K.P α} {f : Char → Bool} (hj : 1 ≤ j)
    (hf : ∀ c, f c = true → c ≠ '(' ∧ c ≠ ')' ∧ c ≠ ';')
    (hc : ∀ s, p.cost s = 1 + (s.takeWhile f).length) (he : Eats p) : Pol j p :=
  ⟨⟨1, fun s => by
    have h1 := takeWhile_le hf s
    have h2 := B_lin hj s
    rw [hc s]
    omega⟩, he⟩

theorem multispace0 {j : Nat} (hj : 1 ≤ j) : Pol j K.multispace0 :=
  of_takeWhile hj (fun _ => isSpace_plain) (fun _ => rfl) .multispace0

theorem multispace1 {j : Nat} (hj : 1 ≤ j) : Pol j K.multispace1 :=
  of_takeWhile hj (fun _ => isSpace_plain) (fun _ => rfl) .multispace1

theorem alpha1 {j : Nat} (hj : 1 ≤ j) : Pol j K.alpha1 :=
  of_takeWhile hj (fun _ => isAlpha_plain) (fun _ => rfl) .alpha1

theorem digit1 {j : Nat} (hj : 1 ≤ j) : Pol j K.digit1 :=
  of_takeWhile hj (fun _ => isDigit_plain) (fun _ => rfl) .digit1

theorem u64 {j : Nat} (hj : 1 ≤ j) : Pol j K.u64 :=
  of_takeWhile hj (fun _ => isDigit_plain) (fun _ => rfl) .u64

end Pol

end Pddl
