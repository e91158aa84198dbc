import Verif.Meta.WorkEats

/-!
# Meta-theory: bounds for the work of parsers, rules for the combinators
-/

namespace Pddl

/-! ## Quantities -/

/-- `2^d * (v+1)^j`: `d` is a depth of operations, `v` a length. -/
def amt (j d v : Nat) : Nat := 2 ^ d * (v + 1) ^ j

theorem amt_mono {j d d' v v' : Nat} (hd : d ≤ d') (hv : v ≤ v') : amt j d v ≤ amt j d' v' :=
  Nat.mul_le_mul (Nat.pow_le_pow_right (by decide) hd) (Nat.pow_le_pow_left (by omega) j)

theorem amt_deg {i j d v : Nat} (h : i ≤ j) : amt i d v ≤ amt j d v :=
  Nat.mul_le_mul_left _ (Nat.pow_le_pow_right (by omega) h)

theorem two_pow_pos' (d : Nat) : 1 ≤ 2 ^ d := Nat.one_le_two_pow

theorem le_two_pow_mul (d n : Nat) : n ≤ 2 ^ d * n := Nat.le_mul_of_pos_left n (two_pow_pos' d)

theorem amt_lin {j d v : Nat} (h : 1 ≤ j) : v + 1 ≤ amt j d v := by
  refine Nat.le_trans ?_ (amt_deg h)
  rw [amt, Nat.pow_one]
  exact le_two_pow_mul d (v + 1)

theorem pow_gap (v j : Nat) : (v + 1) ^ j + v ^ (j + 1) ≤ (v + 1) ^ (j + 1) := by
  have h : v ^ j ≤ (v + 1) ^ j := Nat.pow_le_pow_left (by omega) j
  rw [Nat.pow_succ, Nat.pow_succ]
  have := Nat.mul_le_mul_right v h
  rw [Nat.mul_add, Nat.mul_one]
  omega

/-- A step on the way costs less than the length it saves. -/
theorem amt_gap {j d v w : Nat} (h : w + 1 ≤ v) : amt j d v + amt (j + 1) d w ≤ amt (j + 1) d v := by
  unfold amt
  rw [← Nat.mul_add]
  refine Nat.mul_le_mul_left _ (Nat.le_trans ?_ (pow_gap v j))
  exact Nat.add_le_add_left (Nat.pow_le_pow_left h _) _

theorem amt_gap_lin {j d v w : Nat} (hj : 2 ≤ j) (h : w + 1 ≤ v) :
    v + 1 + amt j d w ≤ amt j d v := by
  obtain ⟨i, rfl⟩ : ∃ i, j = i + 1 := ⟨j - 1, by omega⟩
  exact Nat.le_trans (Nat.add_le_add_right (amt_lin (by omega)) _) (amt_gap h)

theorem pow_super (a b j : Nat) : a ^ (j + 1) + b ^ (j + 1) ≤ (a + b) ^ (j + 1) := by
  have h1 : a ^ j ≤ (a + b) ^ j := Nat.pow_le_pow_left (by omega) j
  have h2 : b ^ j ≤ (a + b) ^ j := Nat.pow_le_pow_left (by omega) j
  rw [Nat.pow_succ, Nat.pow_succ, Nat.pow_succ, Nat.mul_add]
  exact Nat.add_le_add (Nat.mul_le_mul_right _ h1) (Nat.mul_le_mul_right _ h2)

/-- Parts next to each other. -/
theorem amt_super {j d v w x : Nat} (hj : 1 ≤ j) (h : v + w + 1 ≤ x) :
    amt j d v + amt j d w ≤ amt j d x := by
  obtain ⟨i, rfl⟩ : ∃ i, j = i + 1 := ⟨j - 1, by omega⟩
  unfold amt
  rw [← Nat.mul_add]
  refine Nat.mul_le_mul_left _ (Nat.le_trans (pow_super _ _ _) ?_)
  exact Nat.pow_le_pow_left (by omega) _

/-- The bound at a position. -/
def B (j : Nat) (s : List Char) : Nat := amt j (opDepth s) (vis s)

/-- The bound for the form that begins at a position. -/
def BE (j : Nat) (s t : List Char) : Nat := amt j (opDepth s) (ext s t)

theorem B_lvl {j : Nat} {s r : List Char} (h : Lvl s r) : B j r ≤ B j s := amt_mono h.ops h.vis_le

theorem B_lin {j : Nat} (hj : 1 ≤ j) (s : List Char) : vis s + 1 ≤ B j s := amt_lin hj

theorem BE_lin {j : Nat} (hj : 1 ≤ j) (s t : List Char) : ext s t + 1 ≤ BE j s t := amt_lin hj

theorem B_deg {i j : Nat} (h : i ≤ j) (s : List Char) : B i s ≤ B j s := amt_deg h

theorem BE_deg {i j : Nat} (h : i ≤ j) (s t : List Char) : BE i s t ≤ BE j s t := amt_deg h

theorem BE_B {j : Nat} {s t : List Char} (h : Opens s t) : BE j s t ≤ B j s :=
  amt_mono (Nat.le_refl _) h.ext_vis

theorem B_BE {j : Nat} {s t : List Char} (h : Opens s t) : B j t ≤ BE j s t :=
  amt_mono (Nat.le_trans (Nat.le_add_left _ _) h.ops) (by have := h.ext; omega)

/-- The inside of a form, with the operation that it is, and the form itself. -/
theorem B_fix {j : Nat} {s t : List Char} (h : Opens s t) :
    BE j s t + 2 ^ opw t * B (j + 1) t ≤ BE (j + 1) s t := by
  have h1 : 2 ^ opw t * B (j + 1) t ≤ amt (j + 1) (opDepth s) (vis t) := by
    unfold B amt
    rw [← Nat.mul_assoc, ← Nat.pow_add]
    exact Nat.mul_le_mul_right _ (Nat.pow_le_pow_right (by decide) h.ops)
  exact Nat.le_trans (Nat.add_le_add_left h1 _) (amt_gap h.ext)

/-! ## Predicates -/

/-- No form begins here. -/
def Flat (s : List Char) : Prop := ∀ t, ¬ Opens s t

theorem opens_or (s : List Char) : (∃ t, Opens s t) ∨ Flat s := by
  by_cases h : ∃ t, Opens s t
  · exact .inl h
  · exact .inr fun t ht => h ⟨t, ht⟩

/-- Bound by what follows in the enclosing form. -/
def Bd (c a j : Nat) (p : K.P α) : Prop := ∀ s, p.cost s ≤ c * B j s + a * B (j + 1) s

/-- Linear where no form begins. -/
def Leaf (c : Nat) (p : K.P α) : Prop := ∀ s, Flat s → p.cost s ≤ c * (vis s + 1)

/-- Bound by the form that begins here. -/
structure Ext (c a j : Nat) (p : K.P α) : Prop where
  form : ∀ s t, Opens s t → p.cost s ≤ c * BE j s t + a * BE (j + 1) s t
  leaf : Leaf c p
  whole : Whole p

/-- Bound by the form that begins here, where recursive calls on the inside of the form are counted
separately. -/
def Opn (c a j : Nat) (p : K.P α) (f : List Char → Nat) : Prop :=
  ∀ s t, Opens s t → p.cost s ≤ c * BE j s t + f t * (a * B (j + 1) t)

/-- Bounded by the form that begins at the position. -/
def Frm (j : Nat) (p : K.P α) : Prop := (∃ c, Ext c 0 j p) ∧ Eats p

/-- Bounded by the enclosing form. -/
def Pol (j : Nat) (p : K.P α) : Prop := (∃ c, Bd c 0 j p) ∧ Eats p

theorem Ext.mono {c c' a i j : Nat} {p : K.P α} (h : Ext c 0 i p) (hc : c ≤ c') (hi : i ≤ j) :
    Ext c' a j p where
  form s t ho := by
    have h1 := h.form s t ho
    have h2 := Nat.mul_le_mul hc (BE_deg hi s t)
    omega
  leaf s hs := Nat.le_trans (h.leaf s hs) (Nat.mul_le_mul_right _ hc)
  whole := h.whole

theorem Frm.mono {i j : Nat} {p : K.P α} (h : Frm i p) (hi : i ≤ j) : Frm j p :=
  ⟨h.1.elim fun c hc => ⟨c, hc.mono (Nat.le_refl _) hi⟩, h.2⟩

theorem Ext.bd {c a j : Nat} {p : K.P α} (h : Ext c a j p) (hj : 1 ≤ j) : Bd c a j p := fun s => by
  rcases opens_or s with ⟨t, ht⟩ | hs
  · have h1 := h.form s t ht
    have h2 := Nat.mul_le_mul_left c (BE_B (j := j) ht)
    have h3 := Nat.mul_le_mul_left a (BE_B (j := j + 1) ht)
    omega
  · have h1 := h.leaf s hs
    have h2 := Nat.mul_le_mul_left c (B_lin hj s)
    omega

theorem Bd.mono {c c' a i j : Nat} {p : K.P α} (h : Bd c 0 i p) (hc : c ≤ c') (hi : i ≤ j) :
    Bd c' a j p := fun s => by
  have h1 := h s
  have h2 := Nat.mul_le_mul hc (B_deg hi s)
  omega

theorem Pol.mono {i j : Nat} {p : K.P α} (h : Pol i p) (hi : i ≤ j) : Pol j p :=
  ⟨h.1.elim fun c hc => ⟨c, hc.mono (Nat.le_refl _) hi⟩, h.2⟩

theorem Frm.pol {j : Nat} {p : K.P α} (h : Frm j p) (hj : 1 ≤ j) : Pol j p :=
  ⟨h.1.elim fun c hc => ⟨c, hc.bd hj⟩, h.2⟩

/-! ## Sequences -/

theorem after_le {x : Res α} {f : List Char → Nat} {n : Nat} (h : ∀ a r, x = .ok a r → f r ≤ n) :
    x.after f ≤ n := by
  cases x with
  | ok a r => exact h a r rfl
  | _ => exact Nat.zero_le _

theorem onErr_le (x : Res α) (n : Nat) : x.onErr n ≤ n := by
  cases x <;> simp [Res.onErr]

theorem onError_le (x : Res α) (n : Nat) : x.onError n ≤ n := by
  cases x <;> simp [Res.onError]

/-- The cost of one parser and then another. -/
def seqCost (p : K.P α) (q : K.P β) (s : List Char) : Nat := p.cost s + (p.run s).after q.cost

theorem seq_own {c c' a j : Nat} {p : K.P α} {q : K.P β} (h : Bd c 0 j p) (he : Eats p)
    (h' : Bd c' a j q) (s : List Char) : seqCost p q s ≤ (c + c') * B j s + a * B (j + 1) s := by
  have h1 := h s
  have h2 : (p.run s).after q.cost ≤ c' * B j s + a * B (j + 1) s := after_le fun v r hr => by
    have h3 := h' r
    have h4 := Nat.mul_le_mul_left c' (B_lvl (j := j) (he _ _ _ hr))
    have h5 := Nat.mul_le_mul_left a (B_lvl (j := j + 1) (he _ _ _ hr))
    omega
  rw [seqCost, Nat.add_mul]
  omega

theorem seq_ext {c c' a j : Nat} {p : K.P α} {q : K.P β} (hj : 1 ≤ j) (h : Ext c a j p) (he : Eats p)
    (h' : Bd c' a j q) (s : List Char) : seqCost p q s ≤ (c + c') * B j s + a * B (j + 1) s := by
  rw [seqCost, Nat.add_mul]
  rcases opens_or s with ⟨t, ht⟩ | hs
  · have h1 := h.form s t ht
    cases hp : p.run s with
    | ok v r =>
      have h2 := h' r
      have h3 := h.whole s t v r ht hp
      have h4 := (he _ _ _ hp).ops
      have h5 : BE j s t + B j r ≤ B j s :=
        Nat.le_trans (Nat.add_le_add_left (amt_mono h4 (Nat.le_refl _)) _) (amt_super hj (by omega))
      have h6 : BE (j + 1) s t + B (j + 1) r ≤ B (j + 1) s :=
        Nat.le_trans (Nat.add_le_add_left (amt_mono h4 (Nat.le_refl _)) _)
          (amt_super (by omega) (by omega))
      have h7 := Nat.mul_le_mul_left a h6
      have h8 := Nat.mul_le_mul_left c (show BE j s t ≤ B j s by omega)
      have h9 := Nat.mul_le_mul_left c' (show B j r ≤ B j s by omega)
      rw [Nat.mul_add] at h7
      simp only [Res.after]
      omega
    | _ =>
      have h2 := Nat.mul_le_mul_left c (BE_B (j := j) ht)
      have h3 := Nat.mul_le_mul_left a (BE_B (j := j + 1) ht)
      simp only [Res.after]
      omega
  · have h1 := h.leaf s hs
    have h2 := Nat.mul_le_mul_left c (B_lin hj s)
    have h3 : (p.run s).after q.cost ≤ c' * B j s + a * B (j + 1) s := after_le fun v r hr => by
      have h3 := h' r
      have h4 := Nat.mul_le_mul_left c' (B_lvl (j := j) (he _ _ _ hr))
      have h5 := Nat.mul_le_mul_left a (B_lvl (j := j + 1) (he _ _ _ hr))
      omega
    omega

namespace Bd

theorem pair {c c' a j : Nat} {p : K.P α} {q : K.P β} (h : Bd c 0 j p) (he : Eats p)
    (h' : Bd c' a j q) : Bd (c + c') a j (K.pair p q) := seq_own h he h'

theorem preceded {c c' a j : Nat} {p : K.P α} {q : K.P β} (h : Bd c 0 j p) (he : Eats p)
    (h' : Bd c' a j q) : Bd (c + c') a j (K.preceded p q) := seq_own h he h'

theorem terminated {c c' a j : Nat} {p : K.P α} {q : K.P β} (h : Bd c 0 j p) (he : Eats p)
    (h' : Bd c' a j q) : Bd (c + c') a j (K.terminated p q) := seq_own h he h'

theorem pair_ext {c c' a j : Nat} {p : K.P α} {q : K.P β} (hj : 1 ≤ j) (h : Ext c a j p)
    (he : Eats p) (h' : Bd c' a j q) : Bd (c + c') a j (K.pair p q) := seq_ext hj h he h'

theorem map {c a j : Nat} {f : α → β} {p : K.P α} (h : Bd c a j p) : Bd c a j (K.map f p) := h

theorem mapExpect {c a j : Nat} {f : α → Option β} {p : K.P α} (h : Bd c a j p) :
    Bd c a j (K.mapExpect f p) := h

theorem opt {c a j : Nat} {p : K.P α} (h : Bd c a j p) : Bd c a j (K.opt p) := h

theorem alt_nil {a j : Nat} : Bd 0 a j (K.alt ([] : List (K.P α))) := fun _ => Nat.zero_le _

theorem alt_cons {c c' a j : Nat} {p : K.P α} {ps : List (K.P α)} (h : Bd c 0 j p)
    (h' : Bd c' a j (K.alt ps)) : Bd (c + c') a j (K.alt (p :: ps)) := fun s => by
  have h1 := h s
  have h2 : K.altCost ps s ≤ _ := h' s
  have h3 := onErr_le (p.run s) (K.altCost ps s)
  show p.cost s + (p.run s).onErr (K.altCost ps s) ≤ _
  rw [Nat.add_mul]
  omega

end Bd

/-! ## Layout -/

theorem takeWhile_newline (s : List Char) :
    (s.takeWhile fun c => !['\r', '\n'].contains c) = s.takeWhile fun c => !isNewline c := by
  rw [isNot_newline]

theorem eol_cost (n : Nat) : ∀ s, (K.fixF K.ignoreEolCommentBody n).cost s ≤
    4 * (s.length - (skipC s).length) + 4 := by
  induction n with
  | zero => intro s; exact Nat.zero_le _
  | succ n ih =>
    intro s
    show 1 + ((2 + (Pddl.char ';' s).after fun r =>
        1 + (r.takeWhile fun c => !['\r', '\n'].contains c).length) +
      ((Pddl.pair (Pddl.char ';') (Pddl.isNot ['\r', '\n'])) s).after fun r =>
        1 + (r.takeWhile isSpace).length +
          (Pddl.multispace0 r).after fun r => (K.fixF K.ignoreEolCommentBody n).cost r) ≤ _
    match s with
    | [] => simp [Pddl.char, Pddl.pair, Res.after, Res.bind]
    | c :: s =>
      by_cases hc : c = ';'
      · subst hc
        have e1 := takeWhile_newline s
        have e2 := List.takeWhile_append_dropWhile (p := fun c => !isNewline c) (l := s)
        have e3 : (s.dropWhile fun c => !['\r', '\n'].contains c) =
            s.dropWhile fun c => !isNewline c := by
          have := List.takeWhile_append_dropWhile (p := fun c => !['\r', '\n'].contains c) (l := s)
          rw [e1] at this
          exact List.append_cancel_left (this.trans e2.symm)
        by_cases h : s.takeWhile (fun c => !isNewline c) = []
        · have e7 : (Pddl.isNot ['\r', '\n'] s) = .err := by
            unfold Pddl.isNot Pddl.takeWhile1
            rw [e1, if_pos h]
          have e8 : Pddl.char ';' (';' :: s) = .ok ';' s := by simp [Pddl.char]
          simp only [Pddl.pair, e8, Res.bind, e7, Res.after, e1, h, List.length_nil]
          omega
        · have e4 : (s.takeWhile fun c => !isNewline c).isEmpty = false := by
            cases hh : s.takeWhile fun c => !isNewline c with
            | nil => exact absurd hh h
            | cons _ _ => rfl
          have e5 := congrArg List.length e2
          have e6 : 1 ≤ (s.takeWhile fun c => !isNewline c).length := List.length_pos_iff.2 h
          have e7 : (Pddl.isNot ['\r', '\n'] s) = .ok (s.takeWhile fun c => !isNewline c)
              (s.dropWhile fun c => !isNewline c) := by
            unfold Pddl.isNot Pddl.takeWhile1
            rw [e1, e3]
            cases hh : s.takeWhile fun c => !isNewline c with
            | nil => exact absurd hh h
            | cons _ _ => rfl
          have e8 : Pddl.char ';' (';' :: s) = .ok ';' s := by simp [Pddl.char]
          simp only [Pddl.pair, e8, Res.bind, e7, Res.after, e1, Pddl.multispace0, Pddl.takeWhile0]
          rw [skipC_comment h]
          generalize s.dropWhile (fun c => !isNewline c) = u at *
          have e9 := ih (u.dropWhile isSpace)
          have e10 := congrArg List.length (List.takeWhile_append_dropWhile (p := isSpace) (l := u))
          have e11 : skipC (u.dropWhile isSpace) = skip u := rfl
          have e12 := skip_length u
          have e13 := (Lvl.skipC (u.dropWhile isSpace)).len
          simp only [List.length_append, List.length_cons] at *
          rw [e11] at e9 e13
          omega
      · simp [Pddl.char, Pddl.pair, Res.after, Res.bind, hc]

theorem ignoreEolComment_cost (s : List Char) :
    K.ignoreEolComment.cost s ≤ 4 * (s.length - (skipC s).length) + 4 :=
  eol_cost (s.length + 1) s

theorem eolp_cost (p : K.P α) (s : List Char) :
    (K.preceded K.ignoreEolComment p).cost s ≤
      4 * (s.length - (skipC s).length) + 4 + p.cost (skipC s) := by
  have h1 := ignoreEolComment_cost s
  show K.ignoreEolComment.cost s + (K.ignoreEolComment.run s).after p.cost ≤ _
  rw [K.ignoreEolComment_run, eol_eq]
  simp only [Res.after]
  omega

theorem lay_cost (s : List Char) :
    (K.preceded K.multispace0 K.ignoreEolComment).cost s ≤ 4 * (s.length - (skip s).length) + 5 := by
  have h1 := ignoreEolComment_cost (s.dropWhile isSpace)
  have h2 := congrArg List.length (List.takeWhile_append_dropWhile (p := isSpace) (l := s))
  have h3 : skipC (s.dropWhile isSpace) = skip s := rfl
  have h4 := (Lvl.skipC (s.dropWhile isSpace)).len
  show 1 + (s.takeWhile isSpace).length + K.ignoreEolComment.cost (s.dropWhile isSpace) ≤ _
  rw [h3] at h1 h4
  simp only [List.length_append] at h2
  omega

theorem lay_run (s : List Char) :
    (K.preceded K.multispace0 K.ignoreEolComment).run s = .ok () (skip s) := by
  show Pddl.preceded Pddl.multispace0 K.ignoreEolComment.run s = _
  rw [K.ignoreEolComment_run]
  simp only [Pddl.preceded, Pddl.multispace0, Pddl.takeWhile0, Res.bind, eol_eq, skip]

theorem ws_cost (p : K.P α) (s : List Char) :
    (K.ws p).cost s ≤ 4 * (s.length - (skip s).length) + 5 + p.cost (skip s) := by
  have h1 := lay_cost s
  show (K.preceded K.multispace0 K.ignoreEolComment).cost s +
    ((K.preceded K.multispace0 K.ignoreEolComment).run s).after p.cost ≤ _
  rw [lay_run]
  simp only [Res.after]
  omega

theorem ws_run' (p : K.P α) (s : List Char) : (K.ws p).run s = p.run (skip s) := by
  rw [K.ws_run, ws_eq]

theorem eolp_run' (p : K.P α) (s : List Char) :
    (K.preceded K.ignoreEolComment p).run s = p.run (skipC s) := by
  show Pddl.preceded K.ignoreEolComment.run p.run s = _
  rw [K.ignoreEolComment_run, eolp_eq]

theorem Opens.skip {s t : List Char} (h : Opens s t) : Opens (skip s) t := by
  rw [Opens, skip_skip]; exact h

theorem Opens.skipC {s t : List Char} (h : Opens s t) : Opens (skipC s) t := by
  rw [Opens, skip_skipC]; exact h

theorem Flat.skip {s : List Char} (h : Flat s) : Flat (skip s) := fun t ht =>
  h t (by rw [Opens, skip_skip] at ht; exact ht)

theorem Flat.skipC {s : List Char} (h : Flat s) : Flat (skipC s) := fun t ht =>
  h t (by rw [Opens, skip_skipC] at ht; exact ht)

/-- The extent of the same form from a later position. -/
theorem Opens.later {s r t : List Char} (hl : Lvl s r) (hr : Opens r t) :
    Pddl.ext r t + (s.length - r.length) = Pddl.ext s t := by
  have h1 := hl.len
  have h2 := hr.len
  unfold Pddl.ext
  omega

theorem ext_later {c k a j : Nat} {p q : K.P α} (hj : 1 ≤ j) (h : Ext c a j p)
    (g : List Char → List Char) (hl : ∀ s, Lvl s (g s)) (ho : ∀ s t, Opens s t → Opens (g s) t)
    (hf : ∀ s, Flat s → Flat (g s)) (hr : ∀ s v r, q.run s = .ok v r → p.run (g s) = .ok v r)
    (hc : ∀ s, q.cost s ≤ 4 * (s.length - (g s).length) + k + p.cost (g s)) :
    Ext (c + (k + 4)) a j q where
  form s t hs := by
    have h1 := hc s
    have h2 := h.form _ _ (ho s t hs)
    have h3 := (ho s t hs).later (hl s)
    have h4 : BE j (g s) t ≤ BE j s t := amt_mono (hl s).ops (by omega)
    have h5 : BE (j + 1) (g s) t ≤ BE (j + 1) s t := amt_mono (hl s).ops (by omega)
    have h6 := Nat.mul_le_mul_left c h4
    have h7 := Nat.mul_le_mul_left a h5
    have h8 := Nat.mul_le_mul_left (k + 4) (BE_lin hj s t)
    rw [Nat.mul_add, Nat.mul_one, Nat.add_mul] at h8
    rw [Nat.add_mul]
    have h9 : k * 1 ≤ k * (ext s t + 1) := Nat.mul_le_mul_left k (by omega)
    rw [Nat.mul_add] at h9
    omega
  leaf s hs := by
    have h1 := hc s
    have h2 := h.leaf _ (hf s hs)
    have h3 := (hl s).vis
    have h4 := Nat.mul_le_mul_left c (show vis (g s) + 1 ≤ vis s + 1 by omega)
    rw [Nat.add_mul, Nat.add_mul k 4, Nat.mul_add k]
    omega
  whole s t v r hs hp := by
    have h1 := h.whole _ _ v r (ho s t hs) (hr s v r hp)
    have h2 := (ho s t hs).later (hl s)
    have h3 := (hl s).vis
    omega

theorem Ext.ws {c a j : Nat} {p : K.P α} (hj : 1 ≤ j) (h : Ext c a j p) :
    Ext (c + 9) a j (K.ws p) :=
  ext_later hj h _ .skip (fun _ _ => .skip) (fun _ => .skip)
    (fun s _ _ h => ws_run' p s ▸ h) (ws_cost p)

theorem Ext.eolp {c a j : Nat} {p : K.P α} (hj : 1 ≤ j) (h : Ext c a j p) :
    Ext (c + 8) a j (K.preceded K.ignoreEolComment p) :=
  ext_later hj h _ .skipC (fun _ _ => .skipC) (fun _ => .skipC)
    (fun s _ _ h => eolp_run' p s ▸ h) (eolp_cost p)

theorem Bd.ws {c a j : Nat} {p : K.P α} (hj : 1 ≤ j) (h : Bd c a j p) : Bd (c + 9) a j (K.ws p) :=
  fun s => by
  have h1 := ws_cost p s
  have h2 := h (skip s)
  have h3 := (Lvl.skip s).vis
  have h4 := Nat.mul_le_mul_left c (B_lvl (j := j) (Lvl.skip s))
  have h5 := Nat.mul_le_mul_left a (B_lvl (j := j + 1) (Lvl.skip s))
  have h6 := B_lin hj s
  rw [Nat.add_mul]
  omega

/-! ## Lists -/

theorem sepCost_le {c a j : Nat} {p : K.P α} (hj : 2 ≤ j) (h : Ext c a j p) (he : Eats p)
    (n : Nat) : ∀ s, K.sepCost K.multispace1 p n s ≤ (c + 2) * B j s + a * B (j + 1) s := by
  induction n with
  | zero => intro s; exact Nat.zero_le _
  | succ n ih =>
    intro s
    show 1 + (s.takeWhile isSpace).length + (K.multispace1.run s).after _ ≤ _
    have hb := B_lin (j := j) (by omega) s
    cases hm : K.multispace1.run s with
    | ok v r =>
      have hl := Eats.multispace1 _ _ _ hm
      have hr := takeWhile1_rest hm
      have ht := congrArg List.length (List.takeWhile_append_dropWhile (p := isSpace) (l := s))
      rw [← hr, List.length_append] at ht
      have hv := hl.vis
      simp only [Res.after]
      split
      · rw [Nat.add_mul]; omega
      · rename_i hne
        have hlt : vis r + 1 ≤ vis s := by omega
        generalize hk : (s.takeWhile isSpace).length = k at *
        have hkv : k + vis r = vis s := by omega
        have rest : ∀ r', Lvl r r' →
            K.sepCost K.multispace1 p n r' ≤ (c + 2) * amt j (opDepth s) (vis r') +
              a * amt (j + 1) (opDepth s) (vis r') := fun r' hr' => by
          have h1 := ih r'
          have h2 := Nat.mul_le_mul_left (c + 2)
            (amt_mono (j := j) (hl.trans hr').ops (Nat.le_refl (vis r')))
          have h3 := Nat.mul_le_mul_left a
            (amt_mono (j := j + 1) (hl.trans hr').ops (Nat.le_refl (vis r')))
          unfold B at h1
          omega
        rcases opens_or r with ⟨t, ho⟩ | hf
        · have h1 := h.form r t ho
          have h2 := ho.ext_vis
          have h3 := Nat.mul_le_mul_left c (amt_mono (j := j) hl.ops (Nat.le_refl (ext r t)))
          have h4 := Nat.mul_le_mul_left a (amt_mono (j := j + 1) hl.ops (Nat.le_refl (ext r t)))
          unfold BE at h1
          cases hp : p.run r with
          | ok w r' =>
            have h5 := h.whole r t w r' ho hp
            have h6 := rest r' (he _ _ _ hp)
            have h7 := amt_super (j := j) (d := opDepth s) (v := ext r t) (w := vis r') (x := vis r)
              (by omega) (by omega)
            have h8 := amt_super (j := j + 1) (d := opDepth s) (v := ext r t) (w := vis r')
              (x := vis s) (by omega) (by omega)
            have h9 := amt_gap_lin (d := opDepth s) hj hlt
            have h10 := Nat.mul_le_mul_left (c + 2) h9
            have h11 := Nat.mul_le_mul_left (c + 2) h7
            have h12 := Nat.mul_le_mul_left a h8
            simp only [Nat.mul_add, Nat.add_mul] at h6 h10 h11 h12
            simp only [B, Nat.add_mul]
            omega
          | _ =>
            have h9 := amt_gap_lin (d := opDepth s) hj hlt
            have h7 := amt_mono (j := j) (Nat.le_refl (opDepth s)) (show ext r t ≤ vis r by omega)
            have h8 := amt_mono (j := j + 1) (Nat.le_refl (opDepth s)) (show ext r t ≤ vis s by omega)
            have h10 := Nat.mul_le_mul_left (c + 2) h9
            have h11 := Nat.mul_le_mul_left c h7
            have h12 := Nat.mul_le_mul_left a h8
            simp only [Nat.mul_add, Nat.add_mul] at h10
            simp only [B, Nat.add_mul]
            omega
        · have h1 := h.leaf r hf
          have h2 : (p.run r).after (K.sepCost K.multispace1 p n) ≤
              (c + 2) * amt j (opDepth s) (vis r) + a * amt (j + 1) (opDepth s) (vis s) :=
            after_le fun w r' hp => by
              have h3 := rest r' (he _ _ _ hp)
              have h4 := (he _ _ _ hp).vis_le
              have h5 := Nat.mul_le_mul_left (c + 2)
                (amt_mono (j := j) (Nat.le_refl (opDepth s)) h4)
              have h6 := Nat.mul_le_mul_left a
                (amt_mono (j := j + 1) (Nat.le_refl (opDepth s)) (show vis r' ≤ vis s by omega))
              omega
          have h9 := amt_gap_lin (d := opDepth s) hj hlt
          have h10 := Nat.mul_le_mul_left (c + 2) h9
          have h11 := Nat.mul_le_mul_left c (show vis r + 1 ≤ vis s by omega)
          simp only [Nat.mul_add, Nat.add_mul, Res.after] at h1 h2 h10 h11
          simp only [B, Nat.add_mul]
          omega
    | _ =>
      have : (s.takeWhile isSpace).length ≤ vis s := by
        have h1 := (Lvl.dropWhile (f := isSpace) (fun _ => isSpace_plain) s).vis
        have ht := congrArg List.length (List.takeWhile_append_dropWhile (p := isSpace) (l := s))
        rw [List.length_append] at ht
        omega
      simp only [Res.after]
      rw [Nat.add_mul]
      omega

theorem sepList_seq {c a j : Nat} {p : K.P α} (hj : 2 ≤ j) (h : Ext c a j p) (he : Eats p)
    (s : List Char) :
    p.cost s + (p.run s).after (fun r => K.sepCost K.multispace1 p (r.length + 1) r) ≤
      (c + (c + 2)) * B j s + a * B (j + 1) s :=
  seq_ext (q := (⟨fun _ => .err, fun r => K.sepCost K.multispace1 p (r.length + 1) r⟩ : K.P Unit))
    (by omega) h he (fun r => sepCost_le hj h he _ r) s

theorem Bd.sepList0 {c a j : Nat} {p : K.P α} (hj : 2 ≤ j) (h : Ext c a j p) (he : Eats p) :
    Bd (c + (c + 2)) a j (K.sepList0 K.multispace1 p) := sepList_seq hj h he

theorem Bd.sepList1 {c a j : Nat} {p : K.P α} (hj : 2 ≤ j) (h : Ext c a j p) (he : Eats p) :
    Bd (c + (c + 2)) a j (K.sepList1 K.multispace1 p) := sepList_seq hj h he

theorem Bd.spaceSeparatedList0 {c a j : Nat} {p : K.P α} (hj : 2 ≤ j) (h : Ext c a j p)
    (he : Eats p) : Bd (c + 8 + (c + 8 + 2) + 9) a j (K.spaceSeparatedList0 p) :=
  .ws (by omega) (.sepList0 hj (h.eolp (by omega)) (.preceded .ignoreEolComment he))

theorem Bd.spaceSeparatedList1 {c a j : Nat} {p : K.P α} (hj : 2 ≤ j) (h : Ext c a j p)
    (he : Eats p) : Bd (c + 8 + (c + 8 + 2) + 9) a j (K.spaceSeparatedList1 p) :=
  .ws (by omega) (.sepList1 hj (h.eolp (by omega)) (.preceded .ignoreEolComment he))

theorem many0Cost_le {c j : Nat} {p : K.P α} (h : Bd c 0 j p) (he : Eats p) (n : Nat) :
    ∀ s, K.many0Cost p n s ≤ c * B (j + 1) s := by
  induction n with
  | zero => intro s; exact Nat.zero_le _
  | succ n ih =>
    intro s
    show p.cost s + (p.run s).after _ ≤ _
    have h1 := h s
    rw [Nat.zero_mul, Nat.add_zero] at h1
    have h0 := Nat.mul_le_mul_left c (B_deg (show j ≤ j + 1 by omega) s)
    cases hp : p.run s with
    | ok v r =>
      have hl := he _ _ _ hp
      simp only [Res.after]
      split
      · omega
      · have h2 := ih r
        have h3 := hl.vis
        have h4 := hl.len
        have h5 : B j s + B (j + 1) r ≤ B (j + 1) s :=
          Nat.le_trans (Nat.add_le_add_left (amt_mono hl.ops (Nat.le_refl _)) _) (amt_gap (by omega))
        have h6 := Nat.mul_le_mul_left c h5
        rw [Nat.mul_add] at h6
        omega
    | _ => simp only [Res.after]; omega

theorem Bd.many0 {c j : Nat} {p : K.P α} (h : Bd c 0 j p) (he : Eats p) :
    Bd c 0 (j + 1) (K.many0 p) := fun s => by
  have := many0Cost_le h he (s.length + 1) s
  show K.many0Cost p (s.length + 1) s ≤ _
  omega

/-! ## Forms -/

/-- Work outside forms. -/
theorem Leaf.mono {c c' : Nat} {p : K.P α} (h : Leaf c p) (hc : c ≤ c') : Leaf c' p := fun s hs =>
  Nat.le_trans (h s hs) (Nat.mul_le_mul_right _ hc)

theorem Leaf.map {c : Nat} {f : α → β} {p : K.P α} (h : Leaf c p) : Leaf c (K.map f p) := h

theorem Leaf.mapExpect {c : Nat} {f : α → Option β} {p : K.P α} (h : Leaf c p) :
    Leaf c (K.mapExpect f p) := h

theorem Leaf.alt_nil : Leaf 0 (K.alt ([] : List (K.P α))) := fun _ _ => Nat.zero_le _

theorem Leaf.alt_cons {c c' : Nat} {p : K.P α} {ps : List (K.P α)} (h : Leaf c p)
    (h' : Leaf c' (K.alt ps)) : Leaf (c + c') (K.alt (p :: ps)) := fun s hs => by
  have h1 := h s hs
  have h2 : K.altCost ps s ≤ _ := h' s hs
  have h3 := onErr_le (p.run s) (K.altCost ps s)
  show p.cost s + (p.run s).onErr (K.altCost ps s) ≤ _
  rw [Nat.add_mul]
  omega

theorem Leaf.ifOk {c c' : Nat} {f : α → β} {p : K.P α} {k : K.P β} (h : Leaf c p)
    (h' : Leaf c' k) : Leaf (c + c') (K.ifOk p f k) := fun s hs => by
  have h1 := h s hs
  have h2 := h' s hs
  have h3 := onError_le (p.run s) (k.cost s)
  show p.cost s + (p.run s).onError (k.cost s) ≤ _
  rw [Nat.add_mul]
  omega

theorem flat_tag {s t : List Char} {k : List Char} (h : Flat s) : Pddl.tag ('(' :: k) s ≠ .ok t r :=
  fun hs => by
  obtain ⟨_, rfl⟩ := tag_inv hs
  exact h _ (open_opens _)

theorem seq_flat {p : K.P α} {q : K.P β} {s : List Char} (h : ∀ v r, p.run s ≠ .ok v r) :
    seqCost p q s = p.cost s := by
  unfold seqCost
  cases hp : p.run s with
  | ok v r => exact absurd hp (h v r)
  | _ => rfl

theorem Leaf.of_fail {c : Nat} {p : K.P α} {q : K.P β} (hp : Leaf c p)
    (h : ∀ s v r, Flat s → p.run s ≠ .ok v r) : Leaf c (K.preceded p q) := fun s hs => by
  have := seq_flat (q := q) (fun v r => h s v r hs)
  rw [seqCost] at this
  show p.cost s + (p.run s).after q.cost ≤ _
  rw [this]
  exact hp s hs

theorem Leaf.tag {k : List Char} : Leaf (1 + k.length) (K.tag k) := fun s _ =>
  Nat.le_mul_of_pos_right _ (by omega)

theorem Leaf.char {c : Char} : Leaf 2 (K.char c) := fun s _ =>
  Nat.le_mul_of_pos_right _ (by omega)

theorem Leaf.ws {c : Nat} {p : K.P α} (h : Leaf c p) : Leaf (c + 9) (K.ws p) := fun s hs => by
  have h1 := ws_cost p s
  have h2 := h _ hs.skip
  have h3 := (Lvl.skip s).vis
  have h4 := Nat.mul_le_mul_left c (show vis (Pddl.skip s) + 1 ≤ vis s + 1 by omega)
  rw [Nat.add_mul]
  omega

theorem Leaf.eolp {c : Nat} {p : K.P α} (h : Leaf c p) :
    Leaf (c + 8) (K.preceded K.ignoreEolComment p) := fun s hs => by
  have h1 := eolp_cost p s
  have h2 := h _ hs.skipC
  have h3 := (Lvl.skipC s).vis
  have h4 := Nat.mul_le_mul_left c (show vis (Pddl.skipC s) + 1 ≤ vis s + 1 by omega)
  rw [Nat.add_mul]
  omega

theorem flat_ws_tag {k : List Char} {s v r : List Char} (hs : Flat s) :
    (K.ws (K.tag ('(' :: k))).run s ≠ .ok v r := by
  rw [ws_run']; exact flat_tag hs.skip

theorem Leaf.prefixExpr {k : List Char} {p : K.P α} : Leaf 11 (K.prefixExpr k p) :=
  .of_fail (.of_fail (.ws .tag) fun _ _ _ hs => flat_ws_tag hs) fun s v r hs h => by
    obtain ⟨_, _, h1, _⟩ := preceded_ok h
    exact flat_ws_tag hs h1

theorem Leaf.parens {p : K.P α} : Leaf 10 (K.parens p) :=
  .eolp (.of_fail .char fun s v r hs h => by
    have := char_inv h
    subst this
    exact hs _ (open_opens _))

theorem Leaf.bare {p : K.P α} : Leaf 2 (K.delimited (K.tag c!"(") p (K.tag c!")")) :=
  .of_fail .tag fun _ _ _ hs => flat_tag hs

theorem Leaf.equality {p : K.P α} :
    Leaf 12 (K.delimited (K.ws (K.tag c!"(=")) p (K.ws (K.char ')'))) :=
  .of_fail (.ws .tag) fun _ _ _ hs => flat_ws_tag hs

/-- The cost of `p` at a later position of the inside of a form. -/
theorem inside_le {c a j : Nat} {p : K.P α} (h : Bd c a j p) {s t u : List Char} (ho : Opens s t)
    (hl : Lvl t u) : p.cost u ≤ c * BE j s t + a * B (j + 1) t := by
  have h1 := h u
  have h2 := Nat.mul_le_mul_left c (Nat.le_trans (B_lvl (j := j) hl) (B_BE ho))
  have h3 := Nat.mul_le_mul_left a (B_lvl (j := j + 1) hl)
  omega

theorem ws_tag_cost (k s : List Char) : (K.ws (K.tag k)).cost s ≤
    4 * (s.length - (skip s).length) + 6 + k.length := by
  have := ws_cost (K.tag k) s
  have h : (K.tag k).cost (skip s) = 1 + k.length := rfl
  omega

theorem ws_tag_run (k s : List Char) : (K.ws (K.tag k)).run s = Pddl.tag k (skip s) := ws_run' _ s

theorem lay_ext {s t u : List Char} (ho : Opens s t) (hl : Lvl t u) :
    u.length - (skip u).length ≤ ext s t := by
  have h1 := (Lvl.skip u).vis
  have h2 := hl.vis
  have h3 := ho.ext
  omega

theorem lay_ext' {s t : List Char} (ho : Opens s t) : s.length - (skip s).length ≤ ext s t := by
  have e0 : (skip s).length = t.length + 1 := by rw [ho]; rfl
  unfold ext
  omega

/-- Cost of a form with a keyword. -/
theorem prefixExpr_cost {k : List Char} (hk : plainText k = true) {p : K.P α} (he : Eats p)
    {s t : List Char} (ho : Opens s t) :
    (K.prefixExpr k p).cost s ≤ (30 + k.length) * (ext s t + 1) +
      (Pddl.tag k t).after fun u => p.cost (skip u) := by
  show (K.ws (K.tag c!"(")).cost s + ((K.ws (K.tag c!"(")).run s).after (K.tag k).cost +
    (Pddl.preceded (K.ws (K.tag c!"(")).run (Pddl.tag k) s).after
      (fun x => (K.ws p).cost x + ((K.ws p).run x).after (K.ws (K.tag c!")")).cost) ≤ _
  have h0 := ws_tag_cost c!"(" s
  have e0 : (skip s).length = t.length + 1 := by rw [ho]; rfl
  have e1 : (K.ws (K.tag c!"(")).run s = .ok c!"(" t := by
    rw [ws_tag_run, ho]; rfl
  have e2 : Pddl.preceded (K.ws (K.tag c!"(")).run (Pddl.tag k) s = Pddl.tag k t := by
    unfold Pddl.preceded
    rw [e1]
    simp only [Res.bind]
  rw [e1, e2]
  have e3 : (Res.ok c!"(" t).after (K.tag k).cost = 1 + k.length := rfl
  rw [e3]
  have e4 : (30 + k.length) * 1 ≤ (30 + k.length) * (ext s t + 1) :=
    Nat.mul_le_mul_left _ (by omega)
  have e5 : 30 * (ext s t + 1) + k.length ≤ (30 + k.length) * (ext s t + 1) := by
    rw [Nat.add_mul]
    have := Nat.mul_le_mul_left k.length (show 1 ≤ ext s t + 1 by omega)
    omega
  have e6 : s.length - (skip s).length ≤ ext s t := lay_ext' ho
  have e7 : c!"(".length = 1 := rfl
  cases hk1 : Pddl.tag k t with
  | ok v u =>
    obtain ⟨_, hu⟩ := tag_inv hk1
    have hl : Lvl t u := by rw [hu]; exact Lvl.append (plainText_mem hk) u
    have h1 := ws_cost p u
    have h2 := lay_ext ho hl
    have h3 : ((K.ws p).run u).after (K.ws (K.tag c!")")).cost ≤ 4 * ext s t + 7 :=
      after_le fun w y hy => by
        rw [ws_run'] at hy
        have h4 := ws_tag_cost c!")" y
        have h5 := lay_ext ho (hl.trans ((Lvl.skip u).trans (he _ _ _ hy)))
        have h6 : c!")".length = 1 := rfl
        omega
    simp only [Res.after] at h3 ⊢
    omega
  | _ =>
    simp only [Res.after]
    omega

end Pddl
