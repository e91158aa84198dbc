import Verif.Meta.WorkLeaves

/-!
# Meta-theory: the work of every parser
-/

namespace Pddl

/-- Names of different keywords. -/
def kdis (x y : Bool × List Char) : Bool :=
  (!x.2.isPrefixOf y.2 && !y.2.isPrefixOf x.2) || (x.1 && (x.2 ++ ['-']).isPrefixOf y.2) ||
    (y.1 && (y.2 ++ ['-']).isPrefixOf x.2)

theorem ind_cases (x : Bool × List Char) (t : List Char) :
    ind x.1 x.2 t = 0 ∨ (ind x.1 x.2 t = 1 ∧ x.2 <+: t ∧ (x.1 = true → ¬ (x.2 ++ ['-']) <+: t)) := by
  unfold ind
  split
  · rename_i h
    rw [Bool.and_eq_true, List.isPrefixOf_iff_prefix, Bool.not_eq_true'] at h
    refine .inr ⟨rfl, h.1, fun hb hp => ?_⟩
    have h2 := h.2
    rw [hb, Bool.true_and, List.isPrefixOf_iff_prefix.2 hp] at h2
    cases h2
  · exact .inl rfl

theorem ind_dis {x y : Bool × List Char} (h : kdis x y = true) (t : List Char) :
    ind x.1 x.2 t = 0 ∨ ind y.1 y.2 t = 0 := by
  rcases ind_cases x t with h1 | ⟨_, h1, h1'⟩
  · exact .inl h1
  · rcases ind_cases y t with h2 | ⟨_, h2, h2'⟩
    · exact .inr h2
    · exfalso
      simp only [kdis, Bool.or_eq_true, Bool.and_eq_true, Bool.not_eq_true',
        List.isPrefixOf_iff_prefix] at h
      rcases h with (h | h) | h
      · rcases List.prefix_or_prefix_of_prefix h1 h2 with h3 | h3
        · rw [List.isPrefixOf_iff_prefix.2 h3] at h; cases h.1
        · rw [List.isPrefixOf_iff_prefix.2 h3] at h; cases h.2
      · exact h1' h.1 (h.2.trans h2)
      · exact h2' h.1 (h.2.trans h1)

/-- At most one of several keywords begins a text. -/
theorem inds_le (t : List Char) : ∀ (ks : List (Bool × List Char)),
    ks.Pairwise (fun x y => kdis x y = true) → (ks.map fun x => ind x.1 x.2 t).sum ≤ 1
  | [], _ => by simp
  | k :: ks, h => by
    rw [List.pairwise_cons] at h
    have ih := inds_le t ks h.2
    rw [List.map_cons, List.sum_cons]
    rcases ind_cases k t with h1 | ⟨h1, _⟩
    · omega
    · have : (ks.map fun x => ind x.1 x.2 t).sum = 0 := by
        rw [List.sum_eq_zero_iff_forall_eq_nat]
        intro n hn
        obtain ⟨y, hy, rfl⟩ := List.mem_map.1 hn
        rcases ind_dis (h.1 y hy) t with h2 | h2
        · omega
        · exact h2
      omega

theorem firstSolid_gap {g : List Char} (h : Gap g) (s : List Char) :
    firstSolid false (g ++ s) = firstSolid false s := by
  induction h with
  | nil => rfl
  | space hc _ ih => rw [List.cons_append, firstSolid, if_pos hc, ih]
  | @comment b body n g hb hbody hn _ ih =>
    have h1 : ∀ (body : List Char) (x : List Char), (∀ c ∈ body, isNewline c = false) →
        firstSolid true (body ++ n :: x) = firstSolid false x := fun body x hb => by
      induction body with
      | nil => rw [List.nil_append, firstSolid, hn]; rfl
      | cons c body ih =>
        rw [List.cons_append, firstSolid, hb c (by simp)]
        exact ih fun d hd => hb d (by simp [hd])
    rw [List.cons_append, List.cons_append, List.append_assoc, List.cons_append, firstSolid,
      if_neg (by decide), if_pos rfl, firstSolid, hb]
    exact (h1 body _ hbody).trans ih

theorem opI_le (f : Char → Bool) (t : List Char) : opI f t ≤ 1 := by
  unfold opI; split
  · omega
  · split <;> omega

/-- The operators. -/
def isOp (c : Char) : Bool := c == '+' || c == '-' || c == '*' || c == '/'

theorem opI_isOp (t : List Char) : opI isOp t ≤ opw t := by
  obtain ⟨g, h1, _, h2⟩ := skip_spec t
  unfold opI
  split
  · exact Nat.zero_le _
  · rename_i c r hc
    split
    · rename_i ho
      rw [hc] at h1 h2
      have h3 : firstSolid false t = some c := by
        rw [h1, firstSolid_gap (h2 (by simp)), firstSolid, if_neg, if_neg]
        · rintro rfl; exact absurd ho (by decide)
        · intro hb
          simp only [isBlank, Bool.or_eq_true, beq_iff_eq] at hb
          rcases hb with ((h3 | h3) | h3) | h3 <;> (subst h3; exact absurd ho (by decide))
      have h4 : isOperation t = true := by
        unfold isOperation
        rw [h3]
        exact ho
      rw [opw, if_pos h4]
      exact Nat.le_refl _
    · exact Nat.zero_le _

/-- An operation is read at most twice. -/
theorem ops_le (t : List Char) :
    opI isOp t + (opI (fun c => c == '*' || c == '+') t + opI (fun c => c == '-') t) ≤
      2 ^ opw t := by
  have h1 := opI_isOp t
  have h2 : opI (fun c => c == '*' || c == '+') t + opI (fun c => c == '-') t ≤ opI isOp t := by
    unfold opI
    cases skip t with
    | nil => exact Nat.le_refl _
    | cons c r =>
      dsimp only
      by_cases h : c = '-'
      · subst h; decide
      · by_cases h' : (c == '*' || c == '+') = true
        · have h3 : isOp c = true := by
            simp only [Bool.or_eq_true, beq_iff_eq] at h'
            rcases h' with rfl | rfl <;> rfl
          simp [h, h', h3]
        · simp [h, h']
  have h3 : opw t = 0 ∨ opw t = 1 := by
    unfold opw; split
    · exact .inr rfl
    · exact .inl rfl
  rcases h3 with h3 | h3 <;> rw [h3] at h1 ⊢ <;> simp only [Nat.pow_zero, Nat.pow_one] <;> omega

macro "wk" : tactic => `(tactic| (comb <;> first | decide | rfl | omega))

theorem parseName_pol {j : Nat} (hj : 1 ≤ j) : Pol j K.parseName := (parseName_frm hj).pol (by omega)
theorem parseName_eats' : Eats K.parseName := (parseName_frm (Nat.le_refl 1)).2
theorem parseName_whole : Whole K.parseName := (parseName_frm (Nat.le_refl 1)).ext.whole
theorem parseName_leaf : Leaf (coef 1 K.parseName) K.parseName := .own (parseName_frm (Nat.le_refl 1))

theorem parseVariable_pol {j : Nat} (hj : 1 ≤ j) : Pol j K.parseVariable := (parseVariable_frm hj).pol (by omega)
theorem parseVariable_eats' : Eats K.parseVariable := (parseVariable_frm (Nat.le_refl 1)).2
theorem parseVariable_whole : Whole K.parseVariable := (parseVariable_frm (Nat.le_refl 1)).ext.whole
theorem parseVariable_leaf : Leaf (coef 1 K.parseVariable) K.parseVariable := .own (parseVariable_frm (Nat.le_refl 1))

theorem parseNumber_pol {j : Nat} (hj : 1 ≤ j) : Pol j K.parseNumber := (parseNumber_frm hj).pol (by omega)
theorem parseNumber_eats' : Eats K.parseNumber := (parseNumber_frm (Nat.le_refl 1)).2
theorem parseNumber_whole : Whole K.parseNumber := (parseNumber_frm (Nat.le_refl 1)).ext.whole
theorem parseNumber_leaf : Leaf (coef 1 K.parseNumber) K.parseNumber := .own (parseNumber_frm (Nat.le_refl 1))

theorem parsePredicate_frm {j : Nat} (hj : 1 ≤ j) : Frm j K.parsePredicate := by
  refine Frm.mono (i := 1) ?_ hj
  unfold K.parsePredicate
  wk

theorem parsePredicate_pol {j : Nat} (hj : 1 ≤ j) : Pol j K.parsePredicate := (parsePredicate_frm hj).pol (by omega)
theorem parsePredicate_eats : Eats K.parsePredicate := (parsePredicate_frm (Nat.le_refl 1)).2
theorem parsePredicate_whole : Whole K.parsePredicate := (parsePredicate_frm (Nat.le_refl 1)).ext.whole
theorem parsePredicate_leaf : Leaf (coef 1 K.parsePredicate) K.parsePredicate := .own (parsePredicate_frm (Nat.le_refl 1))

theorem parseFunctionSymbol_frm {j : Nat} (hj : 1 ≤ j) : Frm j K.parseFunctionSymbol := by
  refine Frm.mono (i := 1) ?_ hj
  unfold K.parseFunctionSymbol
  wk

theorem parseFunctionSymbol_pol {j : Nat} (hj : 1 ≤ j) : Pol j K.parseFunctionSymbol := (parseFunctionSymbol_frm hj).pol (by omega)
theorem parseFunctionSymbol_eats : Eats K.parseFunctionSymbol := (parseFunctionSymbol_frm (Nat.le_refl 1)).2
theorem parseFunctionSymbol_whole : Whole K.parseFunctionSymbol := (parseFunctionSymbol_frm (Nat.le_refl 1)).ext.whole
theorem parseFunctionSymbol_leaf : Leaf (coef 1 K.parseFunctionSymbol) K.parseFunctionSymbol := .own (parseFunctionSymbol_frm (Nat.le_refl 1))

theorem parseActionSymbol_frm {j : Nat} (hj : 1 ≤ j) : Frm j K.parseActionSymbol := by
  refine Frm.mono (i := 1) ?_ hj
  unfold K.parseActionSymbol
  wk

theorem parseActionSymbol_pol {j : Nat} (hj : 1 ≤ j) : Pol j K.parseActionSymbol := (parseActionSymbol_frm hj).pol (by omega)
theorem parseActionSymbol_eats : Eats K.parseActionSymbol := (parseActionSymbol_frm (Nat.le_refl 1)).2
theorem parseActionSymbol_whole : Whole K.parseActionSymbol := (parseActionSymbol_frm (Nat.le_refl 1)).ext.whole
theorem parseActionSymbol_leaf : Leaf (coef 1 K.parseActionSymbol) K.parseActionSymbol := .own (parseActionSymbol_frm (Nat.le_refl 1))

theorem parseDaSymbol_frm {j : Nat} (hj : 1 ≤ j) : Frm j K.parseDaSymbol := by
  refine Frm.mono (i := 1) ?_ hj
  unfold K.parseDaSymbol
  wk

theorem parseDaSymbol_pol {j : Nat} (hj : 1 ≤ j) : Pol j K.parseDaSymbol := (parseDaSymbol_frm hj).pol (by omega)
theorem parseDaSymbol_eats : Eats K.parseDaSymbol := (parseDaSymbol_frm (Nat.le_refl 1)).2
theorem parseDaSymbol_whole : Whole K.parseDaSymbol := (parseDaSymbol_frm (Nat.le_refl 1)).ext.whole
theorem parseDaSymbol_leaf : Leaf (coef 1 K.parseDaSymbol) K.parseDaSymbol := .own (parseDaSymbol_frm (Nat.le_refl 1))

theorem parsePrefName_frm {j : Nat} (hj : 1 ≤ j) : Frm j K.parsePrefName := by
  refine Frm.mono (i := 1) ?_ hj
  unfold K.parsePrefName
  wk

theorem parsePrefName_pol {j : Nat} (hj : 1 ≤ j) : Pol j K.parsePrefName := (parsePrefName_frm hj).pol (by omega)
theorem parsePrefName_eats : Eats K.parsePrefName := (parsePrefName_frm (Nat.le_refl 1)).2
theorem parsePrefName_whole : Whole K.parsePrefName := (parsePrefName_frm (Nat.le_refl 1)).ext.whole
theorem parsePrefName_leaf : Leaf (coef 1 K.parsePrefName) K.parsePrefName := .own (parsePrefName_frm (Nat.le_refl 1))

theorem parseObject_frm {j : Nat} (hj : 1 ≤ j) : Frm j K.parseObject := by
  refine Frm.mono (i := 1) ?_ hj
  unfold K.parseObject
  wk

theorem parseObject_pol {j : Nat} (hj : 1 ≤ j) : Pol j K.parseObject := (parseObject_frm hj).pol (by omega)
theorem parseObject_eats : Eats K.parseObject := (parseObject_frm (Nat.le_refl 1)).2
theorem parseObject_whole : Whole K.parseObject := (parseObject_frm (Nat.le_refl 1)).ext.whole
theorem parseObject_leaf : Leaf (coef 1 K.parseObject) K.parseObject := .own (parseObject_frm (Nat.le_refl 1))

theorem parsePrimitiveType_frm {j : Nat} (hj : 1 ≤ j) : Frm j K.parsePrimitiveType := by
  refine Frm.mono (i := 1) ?_ hj
  unfold K.parsePrimitiveType
  wk

theorem parsePrimitiveType_pol {j : Nat} (hj : 1 ≤ j) : Pol j K.parsePrimitiveType := (parsePrimitiveType_frm hj).pol (by omega)
theorem parsePrimitiveType_eats : Eats K.parsePrimitiveType := (parsePrimitiveType_frm (Nat.le_refl 1)).2
theorem parsePrimitiveType_whole : Whole K.parsePrimitiveType := (parsePrimitiveType_frm (Nat.le_refl 1)).ext.whole
theorem parsePrimitiveType_leaf : Leaf (coef 1 K.parsePrimitiveType) K.parsePrimitiveType := .own (parsePrimitiveType_frm (Nat.le_refl 1))

theorem parseEitherType_frm {j : Nat} (hj : 2 ≤ j) : Frm j K.parseEitherType := by
  refine Frm.mono (i := 2) ?_ hj
  unfold K.parseEitherType
  wk

theorem parseEitherType_pol {j : Nat} (hj : 2 ≤ j) : Pol j K.parseEitherType := (parseEitherType_frm hj).pol (by omega)
theorem parseEitherType_eats : Eats K.parseEitherType := (parseEitherType_frm (Nat.le_refl 2)).2
theorem parseEitherType_whole : Whole K.parseEitherType := (parseEitherType_frm (Nat.le_refl 2)).ext.whole
theorem parseEitherType_leaf : Leaf (coef 2 K.parseEitherType) K.parseEitherType := .own (parseEitherType_frm (Nat.le_refl 2))

theorem parseType_frm {j : Nat} (hj : 2 ≤ j) : Frm j K.parseType := by
  refine Frm.mono (i := 2) ?_ hj
  unfold K.parseType
  wk

theorem parseType_pol {j : Nat} (hj : 2 ≤ j) : Pol j K.parseType := (parseType_frm hj).pol (by omega)
theorem parseType_eats : Eats K.parseType := (parseType_frm (Nat.le_refl 2)).2
theorem parseType_whole : Whole K.parseType := (parseType_frm (Nat.le_refl 2)).ext.whole
theorem parseType_leaf : Leaf (coef 2 K.parseType) K.parseType := .own (parseType_frm (Nat.le_refl 2))

theorem parseFunctionType_frm {j : Nat} (hj : 2 ≤ j) : Frm j K.parseFunctionType := by
  refine Frm.mono (i := 2) ?_ hj
  unfold K.parseFunctionType
  wk

theorem parseFunctionType_pol {j : Nat} (hj : 2 ≤ j) : Pol j K.parseFunctionType := (parseFunctionType_frm hj).pol (by omega)
theorem parseFunctionType_eats : Eats K.parseFunctionType := (parseFunctionType_frm (Nat.le_refl 2)).2
theorem parseFunctionType_whole : Whole K.parseFunctionType := (parseFunctionType_frm (Nat.le_refl 2)).ext.whole
theorem parseFunctionType_leaf : Leaf (coef 2 K.parseFunctionType) K.parseFunctionType := .own (parseFunctionType_frm (Nat.le_refl 2))


theorem explicitlyTyped_pol {j : Nat} {p : K.P α} (h : Frm j p) (hj : 2 ≤ j) :
    Pol j (K.explicitlyTyped p) :=
  .map (.pair (.spaceSeparatedList1 hj h)
    (.preceded (.ws (by omega) (.char (by omega) rfl)) (parseType_pol hj)))

theorem typedList_pol {j : Nat} {p : K.P α} (hj : 3 ≤ j) (h : Frm 2 p) : Pol j (K.typedList p) :=
  Pol.mono (i := 3) (.map (.pair (.map (.many0 (explicitlyTyped_pol h (by decide))))
    (.spaceSeparatedList0 (by decide) (.map (h.mono (by decide)))))) hj

theorem functionTypedList_pol {j : Nat} {p : K.P α} (hj : 4 ≤ j) (h : Frm 3 p) :
    Pol j (K.functionTypedList p) :=
  Pol.mono (i := 4) (.map (.pair (.map (.many0 (explicitlyTyped_pol h (by decide))))
    (.spaceSeparatedList0 (by decide) (.map (h.mono (by decide)))))) hj


theorem Leaf.alt_one {c : Nat} {p : K.P α} (h : Leaf c p) : Leaf c (K.alt [p]) := fun s hs => by
  have h1 := h s hs
  have h3 := onErr_le (p.run s) 0
  show p.cost s + (p.run s).onErr 0 ≤ _
  omega

theorem functionTermOf_eats {p : K.P Term} (h : Eats p) : Eats (K.functionTermOf p) :=
  .map (Formal.bare (.pair parseFunctionSymbol_eats (.spaceSeparatedList0 h))).eats

theorem functionTermOf_whole {p : K.P Term} (h : Eats p) : Whole (K.functionTermOf p) :=
  .map (Formal.bare (.pair parseFunctionSymbol_eats (.spaceSeparatedList0 h))).whole

theorem functionTermOf_leaf {p : K.P Term} : Leaf 2 (K.functionTermOf p) := .map .bare

theorem Whole.tag {k : List Char} (h : headPlain k = true) : Whole (K.tag k) :=
  .of_not (Shut.tag h).run

theorem error_leaf : Leaf 1 (K.error : K.P α) := fun _ _ => by show 1 ≤ _; omega

theorem Leaf.error : Leaf 1 (K.error : K.P α) := error_leaf

theorem termBody_eats (p) (he : Eats p) : Eats (K.termBody p) := by
  unfold K.termBody
  comb <;> first | exact he | rfl | decide

theorem termBody_whole (p) (he : Eats p) (hw : Whole p) : Whole (K.termBody p) := by
  unfold K.termBody
  comb <;> first | exact he | exact hw | rfl | decide

theorem termBody_leaf : ∃ b, ∀ p, Leaf b (K.termBody p) := by
  exact ⟨_, fun p => by
    unfold K.termBody
    comb
    all_goals decide⟩

theorem termBody_opn (b : Nat) : ∃ c f, (∀ t, f t ≤ 2 ^ opw t) ∧
    ∀ a p, Eats p → Ext b a 2 p → Opn c a 2 (K.termBody p) f :=
  have hd : 1 ≤ 2 := by decide
  ⟨_, _, (by
    intro t
    have h := two_pow_pos' (opw t)
    try dsimp only
    omega), fun a p he hx => .ifOk (.own (parseVariable_frm (by decide))) (.ifOk (.own (parseName_frm (by decide)))
      (.ifOk (.map (.bare (by decide) (.own_pair (parseFunctionSymbol_pol (by decide))
        (.spaceSeparatedList0 (by decide) hx he)))) (.own (.error (by decide)))))⟩

theorem parseTerm_frm {j : Nat} (hj : 3 ≤ j) : Frm j K.parseTerm := by
  refine Frm.mono (i := 3) ?_ hj
  obtain ⟨b, hb⟩ := termBody_leaf
  obtain ⟨c, f, hf, ho⟩ := termBody_opn (b + 1)
  exact fix_frm (j := 2) (body := K.termBody) (fun _ => True) (fun _ => trivial) termBody_eats termBody_whole hb hf
    fun a p he _ hx => ho a p he hx

theorem parseTerm_pol {j : Nat} (hj : 3 ≤ j) : Pol j K.parseTerm := (parseTerm_frm hj).pol (by omega)
theorem parseTerm_eats : Eats K.parseTerm := (parseTerm_frm (Nat.le_refl 3)).2
theorem parseTerm_whole : Whole K.parseTerm := (parseTerm_frm (Nat.le_refl 3)).ext.whole
theorem parseTerm_leaf : Leaf (coef 3 K.parseTerm) K.parseTerm := .own (parseTerm_frm (Nat.le_refl 3))

theorem parseFunctionTerm_frm {j : Nat} (hj : 3 ≤ j) : Frm j K.parseFunctionTerm := by
  refine Frm.mono (i := 3) ?_ hj
  unfold K.parseFunctionTerm K.functionTermOf
  wk

theorem parseFunctionTerm_pol {j : Nat} (hj : 3 ≤ j) : Pol j K.parseFunctionTerm := (parseFunctionTerm_frm hj).pol (by omega)
theorem parseFunctionTerm_eats : Eats K.parseFunctionTerm := (parseFunctionTerm_frm (Nat.le_refl 3)).2
theorem parseFunctionTerm_whole : Whole K.parseFunctionTerm := (parseFunctionTerm_frm (Nat.le_refl 3)).ext.whole
theorem parseFunctionTerm_leaf : Leaf (coef 3 K.parseFunctionTerm) K.parseFunctionTerm := .own (parseFunctionTerm_frm (Nat.le_refl 3))


theorem atomicFormula_frm {j : Nat} {p : K.P α} (hj : 2 ≤ j) (h : Frm j p) :
    Frm j (K.atomicFormula p) :=
  have h1 : 1 ≤ j := by omega
  have hp := h.pol h1
  .alt_cons (.map (.delimited_one h1 (.pair (.ws h1 hp) (.ws h1 hp))))
    (.alt_one (.map (.parens h1 (.pair (parsePredicate_pol h1)
      (.ws h1 (.spaceSeparatedList0 hj h))))))

theorem atomicFormula_pol {j : Nat} {p : K.P α} (hj : 2 ≤ j) (h : Frm j p) :
    Pol j (K.atomicFormula p) := (atomicFormula_frm hj h).pol (by omega)

theorem literal_frm {j : Nat} {p : K.P α} (hj : 2 ≤ j) (h : Frm j p) : Frm j (K.literal p) :=
  .alt_cons (.map (.prefixExpr (by omega) rfl (atomicFormula_pol hj h)))
    (.alt_one (.map (atomicFormula_frm hj h)))

theorem literal_pol {j : Nat} {p : K.P α} (hj : 2 ≤ j) (h : Frm j p) :
    Pol j (K.literal p) := (literal_frm hj h).pol (by omega)

theorem atomicFormula_eats {p : K.P Term} (h : Frm 3 p) : Eats (K.atomicFormula p) :=
  (atomicFormula_frm (by decide) h).2
theorem atomicFormula_whole {p : K.P Term} (h : Frm 3 p) : Whole (K.atomicFormula p) :=
  (atomicFormula_frm (by decide) h).ext.whole
theorem atomicFormula_leaf {p : K.P Term} (h : Frm 3 p) :
    Leaf (coef 3 (K.atomicFormula p)) (K.atomicFormula p) :=
  .own (atomicFormula_frm (by decide) h)
theorem literal_eats {p : K.P Term} (h : Frm 3 p) : Eats (K.literal p) :=
  (literal_frm (by decide) h).2
theorem literal_whole {p : K.P Term} (h : Frm 3 p) : Whole (K.literal p) :=
  (literal_frm (by decide) h).ext.whole
theorem literal_leaf {p : K.P Term} (h : Frm 3 p) :
    Leaf (coef 3 (K.literal p)) (K.literal p) := .own (literal_frm (by decide) h)

theorem parseAtomicFormulaSkeleton_frm {j : Nat} (hj : 3 ≤ j) : Frm j K.parseAtomicFormulaSkeleton := by
  refine Frm.mono (i := 3) ?_ hj
  unfold K.parseAtomicFormulaSkeleton
  wk

theorem parseAtomicFormulaSkeleton_pol {j : Nat} (hj : 3 ≤ j) : Pol j K.parseAtomicFormulaSkeleton := (parseAtomicFormulaSkeleton_frm hj).pol (by omega)
theorem parseAtomicFormulaSkeleton_eats : Eats K.parseAtomicFormulaSkeleton := (parseAtomicFormulaSkeleton_frm (Nat.le_refl 3)).2
theorem parseAtomicFormulaSkeleton_whole : Whole K.parseAtomicFormulaSkeleton := (parseAtomicFormulaSkeleton_frm (Nat.le_refl 3)).ext.whole
theorem parseAtomicFormulaSkeleton_leaf : Leaf (coef 3 K.parseAtomicFormulaSkeleton) K.parseAtomicFormulaSkeleton := .own (parseAtomicFormulaSkeleton_frm (Nat.le_refl 3))

theorem parseAtomicFunctionSkeleton_frm {j : Nat} (hj : 3 ≤ j) : Frm j K.parseAtomicFunctionSkeleton := by
  refine Frm.mono (i := 3) ?_ hj
  unfold K.parseAtomicFunctionSkeleton
  wk

theorem parseAtomicFunctionSkeleton_pol {j : Nat} (hj : 3 ≤ j) : Pol j K.parseAtomicFunctionSkeleton := (parseAtomicFunctionSkeleton_frm hj).pol (by omega)
theorem parseAtomicFunctionSkeleton_eats : Eats K.parseAtomicFunctionSkeleton := (parseAtomicFunctionSkeleton_frm (Nat.le_refl 3)).2
theorem parseAtomicFunctionSkeleton_whole : Whole K.parseAtomicFunctionSkeleton := (parseAtomicFunctionSkeleton_frm (Nat.le_refl 3)).ext.whole
theorem parseAtomicFunctionSkeleton_leaf : Leaf (coef 3 K.parseAtomicFunctionSkeleton) K.parseAtomicFunctionSkeleton := .own (parseAtomicFunctionSkeleton_frm (Nat.le_refl 3))

theorem parseBasicFunctionTerm_frm {j : Nat} (hj : 2 ≤ j) : Frm j K.parseBasicFunctionTerm := by
  refine Frm.mono (i := 2) ?_ hj
  unfold K.parseBasicFunctionTerm
  wk

theorem parseBasicFunctionTerm_pol {j : Nat} (hj : 2 ≤ j) : Pol j K.parseBasicFunctionTerm := (parseBasicFunctionTerm_frm hj).pol (by omega)
theorem parseBasicFunctionTerm_eats : Eats K.parseBasicFunctionTerm := (parseBasicFunctionTerm_frm (Nat.le_refl 2)).2
theorem parseBasicFunctionTerm_whole : Whole K.parseBasicFunctionTerm := (parseBasicFunctionTerm_frm (Nat.le_refl 2)).ext.whole
theorem parseBasicFunctionTerm_leaf : Leaf (coef 2 K.parseBasicFunctionTerm) K.parseBasicFunctionTerm := .own (parseBasicFunctionTerm_frm (Nat.le_refl 2))

theorem parseFHead_frm {j : Nat} (hj : 3 ≤ j) : Frm j K.parseFHead := by
  refine Frm.mono (i := 3) ?_ hj
  unfold K.parseFHead
  wk

theorem parseFHead_pol {j : Nat} (hj : 3 ≤ j) : Pol j K.parseFHead := (parseFHead_frm hj).pol (by omega)
theorem parseFHead_eats : Eats K.parseFHead := (parseFHead_frm (Nat.le_refl 3)).2
theorem parseFHead_whole : Whole K.parseFHead := (parseFHead_frm (Nat.le_refl 3)).ext.whole
theorem parseFHead_leaf : Leaf (coef 3 K.parseFHead) K.parseFHead := .own (parseFHead_frm (Nat.le_refl 3))

theorem parseMultiOp_frm {j : Nat} (hj : 1 ≤ j) : Frm j K.parseMultiOp := by
  refine Frm.mono (i := 1) ?_ hj
  unfold K.parseMultiOp
  wk

theorem parseMultiOp_pol {j : Nat} (hj : 1 ≤ j) : Pol j K.parseMultiOp := (parseMultiOp_frm hj).pol (by omega)
theorem parseMultiOp_eats : Eats K.parseMultiOp := (parseMultiOp_frm (Nat.le_refl 1)).2
theorem parseMultiOp_whole : Whole K.parseMultiOp := (parseMultiOp_frm (Nat.le_refl 1)).ext.whole
theorem parseMultiOp_leaf : Leaf (coef 1 K.parseMultiOp) K.parseMultiOp := .own (parseMultiOp_frm (Nat.le_refl 1))

theorem parseBinaryOp_frm {j : Nat} (hj : 1 ≤ j) : Frm j K.parseBinaryOp := by
  refine Frm.mono (i := 1) ?_ hj
  unfold K.parseBinaryOp
  wk

theorem parseBinaryOp_pol {j : Nat} (hj : 1 ≤ j) : Pol j K.parseBinaryOp := (parseBinaryOp_frm hj).pol (by omega)
theorem parseBinaryOp_eats : Eats K.parseBinaryOp := (parseBinaryOp_frm (Nat.le_refl 1)).2
theorem parseBinaryOp_whole : Whole K.parseBinaryOp := (parseBinaryOp_frm (Nat.le_refl 1)).ext.whole
theorem parseBinaryOp_leaf : Leaf (coef 1 K.parseBinaryOp) K.parseBinaryOp := .own (parseBinaryOp_frm (Nat.le_refl 1))

theorem parseBinaryComp_frm {j : Nat} (hj : 1 ≤ j) : Frm j K.parseBinaryComp := by
  refine Frm.mono (i := 1) ?_ hj
  unfold K.parseBinaryComp
  wk

theorem parseBinaryComp_pol {j : Nat} (hj : 1 ≤ j) : Pol j K.parseBinaryComp := (parseBinaryComp_frm hj).pol (by omega)
theorem parseBinaryComp_eats : Eats K.parseBinaryComp := (parseBinaryComp_frm (Nat.le_refl 1)).2
theorem parseBinaryComp_whole : Whole K.parseBinaryComp := (parseBinaryComp_frm (Nat.le_refl 1)).ext.whole
theorem parseBinaryComp_leaf : Leaf (coef 1 K.parseBinaryComp) K.parseBinaryComp := .own (parseBinaryComp_frm (Nat.le_refl 1))

theorem parseAssignOp_frm {j : Nat} (hj : 1 ≤ j) : Frm j K.parseAssignOp := by
  refine Frm.mono (i := 1) ?_ hj
  unfold K.parseAssignOp
  wk

theorem parseAssignOp_pol {j : Nat} (hj : 1 ≤ j) : Pol j K.parseAssignOp := (parseAssignOp_frm hj).pol (by omega)
theorem parseAssignOp_eats : Eats K.parseAssignOp := (parseAssignOp_frm (Nat.le_refl 1)).2
theorem parseAssignOp_whole : Whole K.parseAssignOp := (parseAssignOp_frm (Nat.le_refl 1)).ext.whole
theorem parseAssignOp_leaf : Leaf (coef 1 K.parseAssignOp) K.parseAssignOp := .own (parseAssignOp_frm (Nat.le_refl 1))

theorem parseAssignOpT_frm {j : Nat} (hj : 1 ≤ j) : Frm j K.parseAssignOpT := by
  refine Frm.mono (i := 1) ?_ hj
  unfold K.parseAssignOpT
  wk

theorem parseAssignOpT_pol {j : Nat} (hj : 1 ≤ j) : Pol j K.parseAssignOpT := (parseAssignOpT_frm hj).pol (by omega)
theorem parseAssignOpT_eats : Eats K.parseAssignOpT := (parseAssignOpT_frm (Nat.le_refl 1)).2
theorem parseAssignOpT_whole : Whole K.parseAssignOpT := (parseAssignOpT_frm (Nat.le_refl 1)).ext.whole
theorem parseAssignOpT_leaf : Leaf (coef 1 K.parseAssignOpT) K.parseAssignOpT := .own (parseAssignOpT_frm (Nat.le_refl 1))

theorem parseDOp_frm {j : Nat} (hj : 1 ≤ j) : Frm j K.parseDOp := by
  refine Frm.mono (i := 1) ?_ hj
  unfold K.parseDOp
  wk

theorem parseDOp_pol {j : Nat} (hj : 1 ≤ j) : Pol j K.parseDOp := (parseDOp_frm hj).pol (by omega)
theorem parseDOp_eats : Eats K.parseDOp := (parseDOp_frm (Nat.le_refl 1)).2
theorem parseDOp_whole : Whole K.parseDOp := (parseDOp_frm (Nat.le_refl 1)).ext.whole
theorem parseDOp_leaf : Leaf (coef 1 K.parseDOp) K.parseDOp := .own (parseDOp_frm (Nat.le_refl 1))

theorem parseOptimization_frm {j : Nat} (hj : 1 ≤ j) : Frm j K.parseOptimization := by
  refine Frm.mono (i := 1) ?_ hj
  unfold K.parseOptimization
  wk

theorem parseOptimization_pol {j : Nat} (hj : 1 ≤ j) : Pol j K.parseOptimization := (parseOptimization_frm hj).pol (by omega)
theorem parseOptimization_eats : Eats K.parseOptimization := (parseOptimization_frm (Nat.le_refl 1)).2
theorem parseOptimization_whole : Whole K.parseOptimization := (parseOptimization_frm (Nat.le_refl 1)).ext.whole
theorem parseOptimization_leaf : Leaf (coef 1 K.parseOptimization) K.parseOptimization := .own (parseOptimization_frm (Nat.le_refl 1))

theorem parseTimeSpecifier_frm {j : Nat} (hj : 1 ≤ j) : Frm j K.parseTimeSpecifier := by
  refine Frm.mono (i := 1) ?_ hj
  unfold K.parseTimeSpecifier
  wk

theorem parseTimeSpecifier_pol {j : Nat} (hj : 1 ≤ j) : Pol j K.parseTimeSpecifier := (parseTimeSpecifier_frm hj).pol (by omega)
theorem parseTimeSpecifier_eats : Eats K.parseTimeSpecifier := (parseTimeSpecifier_frm (Nat.le_refl 1)).2
theorem parseTimeSpecifier_whole : Whole K.parseTimeSpecifier := (parseTimeSpecifier_frm (Nat.le_refl 1)).ext.whole
theorem parseTimeSpecifier_leaf : Leaf (coef 1 K.parseTimeSpecifier) K.parseTimeSpecifier := .own (parseTimeSpecifier_frm (Nat.le_refl 1))

theorem parseInterval_frm {j : Nat} (hj : 1 ≤ j) : Frm j K.parseInterval := by
  refine Frm.mono (i := 1) ?_ hj
  unfold K.parseInterval
  wk

theorem parseInterval_pol {j : Nat} (hj : 1 ≤ j) : Pol j K.parseInterval := (parseInterval_frm hj).pol (by omega)
theorem parseInterval_eats : Eats K.parseInterval := (parseInterval_frm (Nat.le_refl 1)).2
theorem parseInterval_whole : Whole K.parseInterval := (parseInterval_frm (Nat.le_refl 1)).ext.whole
theorem parseInterval_leaf : Leaf (coef 1 K.parseInterval) K.parseInterval := .own (parseInterval_frm (Nat.le_refl 1))


theorem binaryOp_head {s v r} (h : K.parseBinaryOp.run s = .ok v r) :
    ∃ x y, s = x :: y ∧ isOp x = true := by
  obtain ⟨_, h1, _⟩ := mapExpect_inv h
  rcases alt_inv h1 with h1 | ⟨_, h1⟩
  · obtain ⟨_, rfl⟩ := tag_inv h1; exact ⟨_, _, rfl, rfl⟩
  rcases alt_inv h1 with h1 | ⟨_, h1⟩
  · obtain ⟨_, rfl⟩ := tag_inv h1; exact ⟨_, _, rfl, rfl⟩
  rcases alt_inv h1 with h1 | ⟨_, h1⟩
  · obtain ⟨_, rfl⟩ := tag_inv h1; exact ⟨_, _, rfl, rfl⟩
  rcases alt_inv h1 with h1 | ⟨_, h1⟩
  · obtain ⟨_, rfl⟩ := tag_inv h1; exact ⟨_, _, rfl, rfl⟩
  cases h1

theorem multiOp_head {s v r} (h : K.parseMultiOp.run s = .ok v r) :
    ∃ x y, s = x :: y ∧ (x == '*' || x == '+') = true := by
  obtain ⟨_, h1, _⟩ := mapExpect_inv h
  rcases alt_inv h1 with h1 | ⟨_, h1⟩
  · obtain ⟨_, rfl⟩ := tag_inv h1; exact ⟨_, _, rfl, rfl⟩
  rcases alt_inv h1 with h1 | ⟨_, h1⟩
  · obtain ⟨_, rfl⟩ := tag_inv h1; exact ⟨_, _, rfl, rfl⟩
  cases h1

theorem minus_head {s v r} (h : (K.pair (K.char '-') K.multispace0).run s = .ok v r) :
    ∃ x y, s = x :: y ∧ (x == '-') = true := by
  obtain ⟨_, h1, _⟩ := pair_ok h
  have := char_inv h1
  subst this
  exact ⟨_, _, rfl, rfl⟩

theorem Opn.binary {b a j : Nat} {p : K.P α} (hj : 2 ≤ j) (he : Eats p) (h : Ext b a j p) :
    Opn (coefB j K.parseBinaryOp + (b + 5 + (b + 5)) + 20) a j
      (K.parens (K.pair K.parseBinaryOp
        (K.pair (K.preceded K.multispace1 p) (K.preceded K.multispace1 p)))) (opI isOp) :=
  have h1 : 1 ≤ j := by omega
  have hx := h.ms1 h1
  .parens_op h1 rfl (parseBinaryOp_pol h1).bd parseBinaryOp_eats (fun _ _ _ => binaryOp_head)
    (.pair_ext h1 hx (.preceded .multispace1 he) (hx.bd h1))

theorem Opn.multi {b a j : Nat} {p : K.P α} (hj : 2 ≤ j) (he : Eats p) (h : Ext b a j p) :
    Opn (coefB j K.parseMultiOp +
        (b + 5 + (coefB j K.multispace1 + (b + 8 + (b + 8 + 2) + 9))) + 20) a j
      (K.parens (K.pair K.parseMultiOp (K.pair (K.preceded K.multispace1 p)
        (K.preceded K.multispace1 (K.spaceSeparatedList1 p))))) (opI fun c => c == '*' || c == '+') :=
  have h1 : 1 ≤ j := by omega
  .parens_op h1 rfl (parseMultiOp_pol h1).bd parseMultiOp_eats (fun _ _ _ => multiOp_head)
    (.pair_ext h1 (h.ms1 h1) (.preceded .multispace1 he)
      (.own_preceded (.multispace1 h1) (.spaceSeparatedList1 hj h he)))

theorem minus_pol {j : Nat} (hj : 1 ≤ j) : Pol j (K.pair (K.char '-') K.multispace0) :=
  .pair (.char hj rfl) (.multispace0 hj)

theorem Opn.negated {b a j : Nat} {p : K.P α} (hj : 1 ≤ j) (h : Ext b a j p) :
    Opn (coefB j (K.pair (K.char '-') K.multispace0) + b + 20) a j
      (K.parens (K.preceded (K.pair (K.char '-') K.multispace0) p)) (opI fun c => c == '-') :=
  .parens_op hj rfl (minus_pol hj).bd (minus_pol hj).2 (fun _ _ _ => minus_head) (h.bd hj)

theorem fExpBody_eats (p) (he : Eats p) : Eats (K.fExpBody p) := by
  unfold K.fExpBody
  comb <;> first | exact he | rfl | decide

theorem fExpBody_whole (p) (he : Eats p) (hw : Whole p) : Whole (K.fExpBody p) := by
  unfold K.fExpBody
  comb <;> first | exact he | exact hw | rfl | decide

theorem fExpBody_leaf : ∃ b, ∀ p, Leaf b (K.fExpBody p) := by
  exact ⟨_, fun p => by
    unfold K.fExpBody
    comb
    all_goals decide⟩

theorem fExpBody_opn (b : Nat) : ∃ c f, (∀ t, f t ≤ 2 ^ opw t) ∧
    ∀ a p, Eats p → Ext b a 3 p → Opn c a 3 (K.fExpBody p) f :=
  have hd : 1 ≤ 3 := by decide
  ⟨_, _, (by
    intro t
    have h := two_pow_pos' (opw t)
    have h' := ops_le t
    try dsimp only
    omega), fun a p he hx => .alt_cons (.map (.own (parseNumber_frm (by decide))))
      (.alt_cons (.map (.binary (by decide) he hx))
      (.alt_cons (.map (.multi (by decide) he hx))
      (.alt_cons (.map (.negated hd hx))
      (.alt_one (.map (.own (parseFHead_frm (by decide))))))))⟩

theorem parseFExp_frm {j : Nat} (hj : 4 ≤ j) : Frm j K.parseFExp := by
  refine Frm.mono (i := 4) ?_ hj
  obtain ⟨b, hb⟩ := fExpBody_leaf
  obtain ⟨c, f, hf, ho⟩ := fExpBody_opn (b + 1)
  exact fix_frm (j := 3) (body := K.fExpBody) (fun _ => True) (fun _ => trivial) fExpBody_eats fExpBody_whole hb hf
    fun a p he _ hx => ho a p he hx

theorem parseFExp_pol {j : Nat} (hj : 4 ≤ j) : Pol j K.parseFExp := (parseFExp_frm hj).pol (by omega)
theorem parseFExp_eats : Eats K.parseFExp := (parseFExp_frm (Nat.le_refl 4)).2
theorem parseFExp_whole : Whole K.parseFExp := (parseFExp_frm (Nat.le_refl 4)).ext.whole
theorem parseFExp_leaf : Leaf (coef 4 K.parseFExp) K.parseFExp := .own (parseFExp_frm (Nat.le_refl 4))

theorem parseFComp_frm {j : Nat} (hj : 4 ≤ j) : Frm j K.parseFComp := by
  refine Frm.mono (i := 4) ?_ hj
  unfold K.parseFComp
  wk

theorem parseFComp_pol {j : Nat} (hj : 4 ≤ j) : Pol j K.parseFComp := (parseFComp_frm hj).pol (by omega)
theorem parseFComp_eats : Eats K.parseFComp := (parseFComp_frm (Nat.le_refl 4)).2
theorem parseFComp_whole : Whole K.parseFComp := (parseFComp_frm (Nat.le_refl 4)).ext.whole
theorem parseFComp_leaf : Leaf (coef 4 K.parseFComp) K.parseFComp := .own (parseFComp_frm (Nat.le_refl 4))

theorem parseVarList_frm {j : Nat} (hj : 3 ≤ j) : Frm j K.parseVarList := by
  refine Frm.mono (i := 3) ?_ hj
  unfold K.parseVarList
  wk

theorem parseVarList_pol {j : Nat} (hj : 3 ≤ j) : Pol j K.parseVarList := (parseVarList_frm hj).pol (by omega)
theorem parseVarList_eats : Eats K.parseVarList := (parseVarList_frm (Nat.le_refl 3)).2
theorem parseVarList_whole : Whole K.parseVarList := (parseVarList_frm (Nat.le_refl 3)).ext.whole
theorem parseVarList_leaf : Leaf (coef 3 K.parseVarList) K.parseVarList := .own (parseVarList_frm (Nat.le_refl 3))

theorem gdBody_eats (p) (he : Eats p) : Eats (K.gdBody p) := by
  unfold K.gdBody
  comb <;> first | exact he | rfl | decide

theorem gdBody_whole (p) (he : Eats p) (hw : Whole p) : Whole (K.gdBody p) := by
  unfold K.gdBody
  comb <;> first | exact he | exact hw | rfl | decide

theorem gdBody_leaf : ∃ b, ∀ p, Leaf b (K.gdBody p) := by
  exact ⟨_, fun p => by
    unfold K.gdBody
    comb
    all_goals decide⟩

theorem gdBody_opn (b : Nat) : ∃ c f, (∀ t, f t ≤ 2 ^ opw t) ∧
    ∀ a p, Eats p → Ext b a 4 p → Opn c a 4 (K.gdBody p) f :=
  have hd : 1 ≤ 4 := by decide
  ⟨_, _, (by
    intro t
    have h := two_pow_pos' (opw t)
    have h' := inds_le t [(false, c!"and"), (false, c!"or"), (false, c!"not"), (false, c!"imply"), (false, c!"exists"), (false, c!"forall")] (by decide)
    simp only [List.map_cons, List.map_nil, List.sum_cons, List.sum_nil] at h'
    try dsimp only
    omega), fun a p he hx => .alt_cons (.map (.prefixExpr hd (by rfl) (.spaceSeparatedList0 (by decide) hx he) (.spaceSeparatedList0 he)))
      (.alt_cons (.map (.prefixExpr hd (by rfl) (.spaceSeparatedList0 (by decide) hx he) (.spaceSeparatedList0 he)))
      (.alt_cons (.map (.prefixExpr hd (by rfl) (hx.bd hd) he))
      (.alt_cons (.map (.prefixExpr hd (by rfl) (.pair_ext hd hx he (.own_preceded (Pol.multispace1 (by decide)) (hx.bd hd))) (.pair he (.preceded .multispace1 he))))
      (.alt_cons (.map (.prefixExpr hd (by rfl) (.own_pair (parseVarList_pol (by decide)) (.own_preceded (Pol.multispace1 (by decide)) (hx.bd hd))) (.pair parseVarList_eats (.preceded .multispace1 he))))
      (.alt_cons (.map (.prefixExpr hd (by rfl) (.own_pair (parseVarList_pol (by decide)) (.own_preceded (Pol.multispace1 (by decide)) (hx.bd hd))) (.pair parseVarList_eats (.preceded .multispace1 he))))
      (.alt_cons (.map (.own (atomicFormula_frm (by decide) (parseTerm_frm (by decide)))))
      (.alt_cons (.map (.own (literal_frm (by decide) (parseTerm_frm (by decide)))))
      (.alt_one (.map (.own (parseFComp_frm (by decide))))))))))))⟩

theorem parseGd_frm {j : Nat} (hj : 5 ≤ j) : Frm j K.parseGd := by
  refine Frm.mono (i := 5) ?_ hj
  obtain ⟨b, hb⟩ := gdBody_leaf
  obtain ⟨c, f, hf, ho⟩ := gdBody_opn (b + 1)
  exact fix_frm (j := 4) (body := K.gdBody) (fun _ => True) (fun _ => trivial) gdBody_eats gdBody_whole hb hf
    fun a p he _ hx => ho a p he hx

theorem parseGd_pol {j : Nat} (hj : 5 ≤ j) : Pol j K.parseGd := (parseGd_frm hj).pol (by omega)
theorem parseGd_eats : Eats K.parseGd := (parseGd_frm (Nat.le_refl 5)).2
theorem parseGd_whole : Whole K.parseGd := (parseGd_frm (Nat.le_refl 5)).ext.whole
theorem parseGd_leaf : Leaf (coef 5 K.parseGd) K.parseGd := .own (parseGd_frm (Nat.le_refl 5))

theorem parsePrefGd_frm {j : Nat} (hj : 5 ≤ j) : Frm j K.parsePrefGd := by
  refine Frm.mono (i := 5) ?_ hj
  unfold K.parsePrefGd
  wk

theorem parsePrefGd_pol {j : Nat} (hj : 5 ≤ j) : Pol j K.parsePrefGd := (parsePrefGd_frm hj).pol (by omega)
theorem parsePrefGd_eats : Eats K.parsePrefGd := (parsePrefGd_frm (Nat.le_refl 5)).2
theorem parsePrefGd_whole : Whole K.parsePrefGd := (parsePrefGd_frm (Nat.le_refl 5)).ext.whole
theorem parsePrefGd_leaf : Leaf (coef 5 K.parsePrefGd) K.parsePrefGd := .own (parsePrefGd_frm (Nat.le_refl 5))

theorem preGdBody_eats (p) (he : Eats p) : Eats (K.preGdBody p) := by
  unfold K.preGdBody
  comb <;> first | exact he | rfl | decide

theorem preGdBody_whole (p) (he : Eats p) (hw : Whole p) : Whole (K.preGdBody p) := by
  unfold K.preGdBody
  comb <;> first | exact he | exact hw | rfl | decide

theorem preGdBody_leaf : ∃ b, ∀ p, Leaf b (K.preGdBody p) := by
  exact ⟨_, fun p => by
    unfold K.preGdBody
    comb
    all_goals decide⟩

theorem preGdBody_opn (b : Nat) : ∃ c f, (∀ t, f t ≤ 2 ^ opw t) ∧
    ∀ a p, Eats p → Ext b a 5 p → Opn c a 5 (K.preGdBody p) f :=
  have hd : 1 ≤ 5 := by decide
  ⟨_, _, (by
    intro t
    have h := two_pow_pos' (opw t)
    have h' := inds_le t [(false, c!"forall"), (false, c!"and")] (by decide)
    simp only [List.map_cons, List.map_nil, List.sum_cons, List.sum_nil] at h'
    try dsimp only
    omega), fun a p he hx => .alt_cons (.map (.prefixExpr hd (by rfl) (.own_pair (parseVarList_pol (by decide)) (.own_preceded (Pol.multispace1 (by decide)) (hx.bd hd))) (.pair parseVarList_eats (.preceded .multispace1 he))))
      (.alt_cons (.map (.prefixExpr hd (by rfl) (.spaceSeparatedList0 (by decide) hx he) (.spaceSeparatedList0 he)))
      (.alt_one (.map (.own (parsePrefGd_frm (by decide))))))⟩

theorem parsePreGd_frm {j : Nat} (hj : 6 ≤ j) : Frm j K.parsePreGd := by
  refine Frm.mono (i := 6) ?_ hj
  obtain ⟨b, hb⟩ := preGdBody_leaf
  obtain ⟨c, f, hf, ho⟩ := preGdBody_opn (b + 1)
  exact fix_frm (j := 5) (body := K.preGdBody) (fun _ => True) (fun _ => trivial) preGdBody_eats preGdBody_whole hb hf
    fun a p he _ hx => ho a p he hx

theorem parsePreGd_pol {j : Nat} (hj : 6 ≤ j) : Pol j K.parsePreGd := (parsePreGd_frm hj).pol (by omega)
theorem parsePreGd_eats : Eats K.parsePreGd := (parsePreGd_frm (Nat.le_refl 6)).2
theorem parsePreGd_whole : Whole K.parsePreGd := (parsePreGd_frm (Nat.le_refl 6)).ext.whole
theorem parsePreGd_leaf : Leaf (coef 6 K.parsePreGd) K.parsePreGd := .own (parsePreGd_frm (Nat.le_refl 6))

theorem parseProblemGoalDef_frm {j : Nat} (hj : 6 ≤ j) : Frm j K.parseProblemGoalDef := by
  refine Frm.mono (i := 6) ?_ hj
  unfold K.parseProblemGoalDef
  wk

theorem parseProblemGoalDef_pol {j : Nat} (hj : 6 ≤ j) : Pol j K.parseProblemGoalDef := (parseProblemGoalDef_frm hj).pol (by omega)
theorem parseProblemGoalDef_eats : Eats K.parseProblemGoalDef := (parseProblemGoalDef_frm (Nat.le_refl 6)).2
theorem parseProblemGoalDef_whole : Whole K.parseProblemGoalDef := (parseProblemGoalDef_frm (Nat.le_refl 6)).ext.whole
theorem parseProblemGoalDef_leaf : Leaf (coef 6 K.parseProblemGoalDef) K.parseProblemGoalDef := .own (parseProblemGoalDef_frm (Nat.le_refl 6))


theorem con2Of_eats {p : K.P ConGD} (h : Eats p) : Eats (K.con2Of p) := by
  unfold K.con2Of
  comb <;> exact h

theorem con2Of_ext {b a : Nat} {p : K.P ConGD} (h : Ext b a 5 p) :
    Ext (coef 5 K.parseGd + b) a 5 (K.con2Of p) :=
  .alt_cons (.map (parseGd_frm (by decide)).ext) (.alt_one h.map)

theorem conGdBody_eats (p) (he : Eats p) : Eats (K.conGdBody p) := by
  unfold K.conGdBody
  comb <;> first | exact he | rfl | decide

theorem conGdBody_whole (p) (he : Eats p) (hw : Whole p) : Whole (K.conGdBody p) := by
  unfold K.conGdBody
  comb <;> first | exact he | exact hw | rfl | decide

theorem conGdBody_leaf : ∃ b, ∀ p, Leaf b (K.conGdBody p) := by
  exact ⟨_, fun p => by
    unfold K.conGdBody
    comb
    all_goals decide⟩

theorem conGdBody_opn (b : Nat) : ∃ c f, (∀ t, f t ≤ 2 ^ opw t) ∧
    ∀ a p, Eats p → Ext b a 5 p → Opn c a 5 (K.conGdBody p) f :=
  have hd : 1 ≤ 5 := by decide
  ⟨_, _, (by
    intro t
    have h := two_pow_pos' (opw t)
    have h' := inds_le t [(false, c!"and"), (false, c!"forall"), (true, c!"always"), (true, c!"sometime"), (false, c!"within"), (false, c!"at-most-once"), (false, c!"sometime-after"), (false, c!"sometime-before"), (false, c!"always-within"), (false, c!"hold-during"), (false, c!"hold-after")] (by decide)
    simp only [List.map_cons, List.map_nil, List.sum_cons, List.sum_nil] at h'
    try dsimp only
    omega), fun a p he hx => .alt_cons (.map (.prefixExpr hd (by rfl) (.spaceSeparatedList0 (by decide) hx he) (.spaceSeparatedList0 he)))
      (.alt_cons (.map (.prefixExpr hd (by rfl) (.own_pair (parseVarList_pol (by decide)) (.own_preceded (Pol.multispace1 (by decide)) (hx.bd hd))) (.pair parseVarList_eats (.preceded .multispace1 he))))
      (.alt_cons (.map (.own (.prefixExpr hd (by rfl) (parseGd_pol (by decide)))))
      (.alt_cons (.map (.prefixExpr_dash hd (by rfl) (con2Of_ext hx) (con2Of_eats he)))
      (.alt_cons (.map (.prefixExpr_dash hd (by rfl) (con2Of_ext hx) (con2Of_eats he)))
      (.alt_cons (.map (.prefixExpr hd (by rfl) (.own_pair (parseNumber_pol (by decide)) (.own_preceded (Pol.multispace1 (by decide)) ((con2Of_ext hx).bd hd))) (.pair parseNumber_eats (.preceded .multispace1 (con2Of_eats he)))))
      (.alt_cons (.map (.prefixExpr hd (by rfl) ((con2Of_ext hx).bd hd) (con2Of_eats he)))
      (.alt_cons (.map (.prefixExpr hd (by rfl) (.pair_ext hd (con2Of_ext hx) (con2Of_eats he) (.own_preceded (Pol.multispace1 (by decide)) ((con2Of_ext hx).bd hd))) (.pair (con2Of_eats he) (.preceded .multispace1 (con2Of_eats he)))))
      (.alt_cons (.map (.prefixExpr hd (by rfl) (.pair_ext hd (con2Of_ext hx) (con2Of_eats he) (.own_preceded (Pol.multispace1 (by decide)) ((con2Of_ext hx).bd hd))) (.pair (con2Of_eats he) (.preceded .multispace1 (con2Of_eats he)))))
      (.alt_cons (.map (.prefixExpr hd (by rfl) (.own_pair (parseNumber_pol (by decide)) (.pair_ext hd ((con2Of_ext hx).ms1 hd) (.preceded .multispace1 (con2Of_eats he)) (.own_preceded (Pol.multispace1 (by decide)) ((con2Of_ext hx).bd hd)))) (.pair parseNumber_eats (.pair (.preceded .multispace1 (con2Of_eats he)) (.preceded .multispace1 (con2Of_eats he))))))
      (.alt_cons (.map (.prefixExpr hd (by rfl) (.own_pair (parseNumber_pol (by decide)) (.own_pair (.preceded (.multispace1 (by decide)) (parseNumber_pol (by decide))) (.own_preceded (Pol.multispace1 (by decide)) ((con2Of_ext hx).bd hd)))) (.pair parseNumber_eats (.pair (.preceded .multispace1 parseNumber_eats) (.preceded .multispace1 (con2Of_eats he))))))
      (.alt_one (.map (.prefixExpr hd (by rfl) (.own_pair (parseNumber_pol (by decide)) (.own_preceded (Pol.multispace1 (by decide)) ((con2Of_ext hx).bd hd))) (.pair parseNumber_eats (.preceded .multispace1 (con2Of_eats he))))))))))))))))⟩

theorem parseConGd_frm {j : Nat} (hj : 6 ≤ j) : Frm j K.parseConGd := by
  refine Frm.mono (i := 6) ?_ hj
  obtain ⟨b, hb⟩ := conGdBody_leaf
  obtain ⟨c, f, hf, ho⟩ := conGdBody_opn (b + 1)
  exact fix_frm (j := 5) (body := K.conGdBody) (fun _ => True) (fun _ => trivial) conGdBody_eats conGdBody_whole hb hf
    fun a p he _ hx => ho a p he hx

theorem parseConGd_pol {j : Nat} (hj : 6 ≤ j) : Pol j K.parseConGd := (parseConGd_frm hj).pol (by omega)
theorem parseConGd_eats : Eats K.parseConGd := (parseConGd_frm (Nat.le_refl 6)).2
theorem parseConGd_whole : Whole K.parseConGd := (parseConGd_frm (Nat.le_refl 6)).ext.whole
theorem parseConGd_leaf : Leaf (coef 6 K.parseConGd) K.parseConGd := .own (parseConGd_frm (Nat.le_refl 6))

theorem prefConGdBody_eats (p) (he : Eats p) : Eats (K.prefConGdBody p) := by
  unfold K.prefConGdBody
  comb <;> first | exact he | rfl | decide

theorem prefConGdBody_whole (p) (he : Eats p) (hw : Whole p) : Whole (K.prefConGdBody p) := by
  unfold K.prefConGdBody
  comb <;> first | exact he | exact hw | rfl | decide

theorem prefConGdBody_leaf : ∃ b, ∀ p, Leaf b (K.prefConGdBody p) := by
  exact ⟨_, fun p => by
    unfold K.prefConGdBody
    comb
    all_goals decide⟩

theorem prefConGdBody_opn (b : Nat) : ∃ c f, (∀ t, f t ≤ 2 ^ opw t) ∧
    ∀ a p, Eats p → Ext b a 6 p → Opn c a 6 (K.prefConGdBody p) f :=
  have hd : 1 ≤ 6 := by decide
  ⟨_, _, (by
    intro t
    have h := two_pow_pos' (opw t)
    have h' := inds_le t [(false, c!"and"), (false, c!"forall")] (by decide)
    simp only [List.map_cons, List.map_nil, List.sum_cons, List.sum_nil] at h'
    try dsimp only
    omega), fun a p he hx => .alt_cons (.map (.prefixExpr hd (by rfl) (.spaceSeparatedList0 (by decide) hx he) (.spaceSeparatedList0 he)))
      (.alt_cons (.map (.prefixExpr hd (by rfl) (.own_pair (parseVarList_pol (by decide)) (.own_preceded (Pol.multispace1 (by decide)) (hx.bd hd))) (.pair parseVarList_eats (.preceded .multispace1 he))))
      (.alt_cons (.map (.own (.prefixExpr hd (by rfl) (.pair (parsePrefName_pol (by decide)) (.preceded (.multispace1 hd) (parseConGd_pol (by decide)))))))
      (.alt_cons (.map (.own (.prefixExpr hd (by rfl) (parseConGd_pol (by decide)))))
      (.alt_one (.map (.own (parseConGd_frm (by decide))))))))⟩

theorem parsePrefConGd_frm {j : Nat} (hj : 7 ≤ j) : Frm j K.parsePrefConGd := by
  refine Frm.mono (i := 7) ?_ hj
  obtain ⟨b, hb⟩ := prefConGdBody_leaf
  obtain ⟨c, f, hf, ho⟩ := prefConGdBody_opn (b + 1)
  exact fix_frm (j := 6) (body := K.prefConGdBody) (fun _ => True) (fun _ => trivial) prefConGdBody_eats prefConGdBody_whole hb hf
    fun a p he _ hx => ho a p he hx

theorem parsePrefConGd_pol {j : Nat} (hj : 7 ≤ j) : Pol j K.parsePrefConGd := (parsePrefConGd_frm hj).pol (by omega)
theorem parsePrefConGd_eats : Eats K.parsePrefConGd := (parsePrefConGd_frm (Nat.le_refl 7)).2
theorem parsePrefConGd_whole : Whole K.parsePrefConGd := (parsePrefConGd_frm (Nat.le_refl 7)).ext.whole
theorem parsePrefConGd_leaf : Leaf (coef 7 K.parsePrefConGd) K.parsePrefConGd := .own (parsePrefConGd_frm (Nat.le_refl 7))

theorem parseDomainConstraintsDef_frm {j : Nat} (hj : 6 ≤ j) : Frm j K.parseDomainConstraintsDef := by
  refine Frm.mono (i := 6) ?_ hj
  unfold K.parseDomainConstraintsDef
  wk

theorem parseDomainConstraintsDef_pol {j : Nat} (hj : 6 ≤ j) : Pol j K.parseDomainConstraintsDef := (parseDomainConstraintsDef_frm hj).pol (by omega)
theorem parseDomainConstraintsDef_eats : Eats K.parseDomainConstraintsDef := (parseDomainConstraintsDef_frm (Nat.le_refl 6)).2
theorem parseDomainConstraintsDef_whole : Whole K.parseDomainConstraintsDef := (parseDomainConstraintsDef_frm (Nat.le_refl 6)).ext.whole
theorem parseDomainConstraintsDef_leaf : Leaf (coef 6 K.parseDomainConstraintsDef) K.parseDomainConstraintsDef := .own (parseDomainConstraintsDef_frm (Nat.le_refl 6))

theorem parseProblemConstraintsDef_frm {j : Nat} (hj : 7 ≤ j) : Frm j K.parseProblemConstraintsDef := by
  refine Frm.mono (i := 7) ?_ hj
  unfold K.parseProblemConstraintsDef
  wk

theorem parseProblemConstraintsDef_pol {j : Nat} (hj : 7 ≤ j) : Pol j K.parseProblemConstraintsDef := (parseProblemConstraintsDef_frm hj).pol (by omega)
theorem parseProblemConstraintsDef_eats : Eats K.parseProblemConstraintsDef := (parseProblemConstraintsDef_frm (Nat.le_refl 7)).2
theorem parseProblemConstraintsDef_whole : Whole K.parseProblemConstraintsDef := (parseProblemConstraintsDef_frm (Nat.le_refl 7)).ext.whole
theorem parseProblemConstraintsDef_leaf : Leaf (coef 7 K.parseProblemConstraintsDef) K.parseProblemConstraintsDef := .own (parseProblemConstraintsDef_frm (Nat.le_refl 7))

theorem parsePEffect_frm {j : Nat} (hj : 4 ≤ j) : Frm j K.parsePEffect := by
  refine Frm.mono (i := 4) ?_ hj
  unfold K.parsePEffect
  wk

theorem parsePEffect_pol {j : Nat} (hj : 4 ≤ j) : Pol j K.parsePEffect := (parsePEffect_frm hj).pol (by omega)
theorem parsePEffect_eats : Eats K.parsePEffect := (parsePEffect_frm (Nat.le_refl 4)).2
theorem parsePEffect_whole : Whole K.parsePEffect := (parsePEffect_frm (Nat.le_refl 4)).ext.whole
theorem parsePEffect_leaf : Leaf (coef 4 K.parsePEffect) K.parsePEffect := .own (parsePEffect_frm (Nat.le_refl 4))

theorem parseCondEffect_frm {j : Nat} (hj : 4 ≤ j) : Frm j K.parseCondEffect := by
  refine Frm.mono (i := 4) ?_ hj
  unfold K.parseCondEffect
  wk

theorem parseCondEffect_pol {j : Nat} (hj : 4 ≤ j) : Pol j K.parseCondEffect := (parseCondEffect_frm hj).pol (by omega)
theorem parseCondEffect_eats : Eats K.parseCondEffect := (parseCondEffect_frm (Nat.le_refl 4)).2
theorem parseCondEffect_whole : Whole K.parseCondEffect := (parseCondEffect_frm (Nat.le_refl 4)).ext.whole
theorem parseCondEffect_leaf : Leaf (coef 4 K.parseCondEffect) K.parseCondEffect := .own (parseCondEffect_frm (Nat.le_refl 4))

theorem parseWhenCEffect_frm {j : Nat} (hj : 5 ≤ j) : Frm j K.parseWhenCEffect := by
  refine Frm.mono (i := 5) ?_ hj
  unfold K.parseWhenCEffect
  wk

theorem parseWhenCEffect_pol {j : Nat} (hj : 5 ≤ j) : Pol j K.parseWhenCEffect := (parseWhenCEffect_frm hj).pol (by omega)
theorem parseWhenCEffect_eats : Eats K.parseWhenCEffect := (parseWhenCEffect_frm (Nat.le_refl 5)).2
theorem parseWhenCEffect_whole : Whole K.parseWhenCEffect := (parseWhenCEffect_frm (Nat.le_refl 5)).ext.whole
theorem parseWhenCEffect_leaf : Leaf (coef 5 K.parseWhenCEffect) K.parseWhenCEffect := .own (parseWhenCEffect_frm (Nat.le_refl 5))


theorem effectOf_eats {p : K.P CEffect} (h : Eats p) : Eats (K.effectOf p) := by
  unfold K.effectOf
  comb <;> first | exact h | rfl

theorem effectOf_whole {p : K.P CEffect} (h : Eats p) (h' : Whole p) : Whole (K.effectOf p) := by
  unfold K.effectOf
  comb <;> first | exact h | exact h' | rfl

theorem forallCEffectOf_eats {p : K.P CEffect} (h : Eats p) : Eats (K.forallCEffectOf p) := by
  unfold K.forallCEffectOf
  comb <;> first | exact h | rfl

theorem forallCEffectOf_whole {p : K.P CEffect} (h : Eats p) : Whole (K.forallCEffectOf p) := by
  unfold K.forallCEffectOf
  comb <;> first | exact h | rfl

theorem forallCEffectOf_leaf {p : K.P CEffect} : Leaf 11 (K.forallCEffectOf p) := .prefixExpr

/-- Conjunctions are not read by `parse_c_effect`. -/
def AndOwn (c : Nat) (p : K.P CEffect) : Prop :=
  ∀ s t, Opens s t → c!"and" <+: t → p.cost s ≤ c * BE 5 s t

theorem cEffect_and : ∃ c, ∀ n, AndOwn c (K.fixF K.cEffectBody n) := by
  have he : ∀ p, Eats p → Eats (K.cEffectBody p) := fun p he => by
    unfold K.cEffectBody
    comb <;> first | exact he | rfl | decide
  refine ⟨37 + (coef 5 K.parseWhenCEffect + coef 5 K.parsePEffect), fun n s t ho ht => ?_⟩
  cases n with
  | zero => exact Nat.zero_le _
  | succ n =>
    have h1 : (K.forallCEffectOf (K.fixF K.cEffectBody n)).cost s ≤ 36 * (ext s t + 1) := by
      have h2 := prefixExpr_cost (k := c!"forall") (p := K.pair K.parseVarList
        (K.preceded K.multispace1 (K.effectOf (K.fixF K.cEffectBody n)))) rfl
        (.pair parseVarList_eats (.preceded .multispace1 (effectOf_eats (.fixF he n)))) ho
      have h3 : Pddl.tag c!"forall" t = .err := by
        obtain ⟨u, rfl⟩ := ht
        rfl
      rw [h3] at h2
      exact h2
    have h2 := (parseWhenCEffect_frm (Nat.le_refl 5)).ext.form s t ho
    have h3 := (parsePEffect_frm (show 4 ≤ 5 by decide)).ext.form s t ho
    have h4 := BE_lin (show 1 ≤ 5 by decide) s t
    have h5 := onErr_le ((K.forallCEffectOf (K.fixF K.cEffectBody n)).run s)
      (K.parseWhenCEffect.cost s + (K.parseWhenCEffect.run s).onErr (K.parsePEffect.cost s +
        (K.parsePEffect.run s).onErr 0))
    have h6 := onErr_le (K.parseWhenCEffect.run s) (K.parsePEffect.cost s +
        (K.parsePEffect.run s).onErr 0)
    have h7 := onErr_le (K.parsePEffect.run s) 0
    have h8 : (K.fixF K.cEffectBody (n + 1)).cost s ≤ 1 +
      ((K.forallCEffectOf (K.fixF K.cEffectBody n)).cost s + (K.parseWhenCEffect.cost s +
        K.parsePEffect.cost s)) := by
      show 1 + ((K.forallCEffectOf (K.fixF K.cEffectBody n)).cost s +
        ((Pddl.map _ (K.forallCEffectOf (K.fixF K.cEffectBody n)).run) s).onErr
        (K.parseWhenCEffect.cost s + ((Pddl.map _ K.parseWhenCEffect.run) s).onErr
          (K.parsePEffect.cost s + ((Pddl.map _ K.parsePEffect.run) s).onErr 0))) ≤ _
      have i1 := onErr_le ((Pddl.map CEffect.effect K.parsePEffect.run) s) 0
      have i2 := onErr_le ((Pddl.map (fun x : GD × CondEffect => CEffect.when x.1 x.2)
        K.parseWhenCEffect.run) s)
          (K.parsePEffect.cost s + ((Pddl.map CEffect.effect K.parsePEffect.run) s).onErr 0)
      have i3 := onErr_le ((Pddl.map (fun x : TypedList Name × List CEffect =>
          CEffect.forall_ x.1 x.2) (K.forallCEffectOf (K.fixF K.cEffectBody n)).run) s)
        (K.parseWhenCEffect.cost s + ((Pddl.map (fun x : GD × CondEffect => CEffect.when x.1 x.2)
          K.parseWhenCEffect.run) s).onErr
          (K.parsePEffect.cost s + ((Pddl.map CEffect.effect K.parsePEffect.run) s).onErr 0))
      omega
    simp only [Nat.add_mul]
    omega

theorem effectOf_ext {b a c : Nat} {p : K.P CEffect} (he : Eats p) (h : Ext b a 5 p)
    (hc : AndOwn c p) : Ext (c + b + (b + 8 + (b + 8 + 2) + 9 + 33)) a 5 (K.effectOf p) where
  form s t ho := by
    have h1 := h.form s t ho
    have h2 := Ext.prefixExpr (k := c!"and") (show 1 ≤ 5 by decide) rfl
      (Bd.spaceSeparatedList0 (by decide) h he) (.spaceSeparatedList0 he)
    have h3 : (K.effectOf p).cost s ≤
        (K.prefixExpr c!"and" (K.spaceSeparatedList0 p)).cost s + p.cost s := by
      show (K.prefixExpr c!"and" (K.spaceSeparatedList0 p)).cost s +
        ((K.prefixExpr c!"and" (K.spaceSeparatedList0 p)).run s).onErr
          (p.cost s + ((Pddl.map (fun e => [e]) p.run) s).onErr 0) ≤ _
      have i1 := onErr_le ((K.prefixExpr c!"and" (K.spaceSeparatedList0 p)).run s)
          (p.cost s + ((Pddl.map (fun e => [e]) p.run) s).onErr 0)
      have i2 := onErr_le ((Pddl.map (fun e => [e]) p.run) s) 0
      omega
    by_cases ht : c!"and" <+: t
    · have h4 := hc s t ho ht
      have h5 := h2.form s t ho
      have e : c!"and".length = 3 := rfl
      simp only [e, Nat.add_mul] at h5 ⊢
      omega
    · have h4 := prefixExpr_cost (k := c!"and") (p := K.spaceSeparatedList0 p) rfl
        (.spaceSeparatedList0 he) ho
      have h5 : (Pddl.tag c!"and" t).after (fun u => (K.spaceSeparatedList0 p).cost (skip u)) ≤ 0 :=
        after_le fun v u hu => by
          obtain ⟨_, hu⟩ := tag_inv hu
          exact absurd ⟨u, hu.symm⟩ ht
      have h6 := BE_lin (show 1 ≤ 5 by decide) s t
      have e : c!"and".length = 3 := rfl
      simp only [e, Nat.add_mul] at h4 ⊢
      omega
  leaf := (Leaf.alt_cons Leaf.prefixExpr (.alt_one (.map h.leaf))).mono (by omega)
  whole := effectOf_whole he h.whole

theorem cEffectBody_eats (p) (he : Eats p) : Eats (K.cEffectBody p) := by
  unfold K.cEffectBody
  comb <;> first | exact he | rfl | decide

theorem cEffectBody_whole (p) (he : Eats p) (_ : Whole p) : Whole (K.cEffectBody p) := by
  unfold K.cEffectBody
  comb <;> first | exact he | rfl | decide

theorem cEffectBody_leaf : ∃ b, ∀ p, Leaf b (K.cEffectBody p) := by
  exact ⟨_, fun p => by
    unfold K.cEffectBody
    comb⟩

theorem cEffectBody_opn (b c0 : Nat) : ∃ c f, (∀ t, f t ≤ 2 ^ opw t) ∧
    ∀ a p, Eats p → AndOwn c0 p → Ext b a 5 p → Opn c a 5 (K.cEffectBody p) f :=
  have hd : 1 ≤ 5 := by decide
  ⟨_, _, (by
    intro t
    have h := two_pow_pos' (opw t)
    have h' := inds_le t [(false, c!"forall")] (by decide)
    simp only [List.map_cons, List.map_nil, List.sum_cons, List.sum_nil] at h'
    try dsimp only
    omega), fun a p he hi hx => .alt_cons (.map (.prefixExpr hd (by rfl) (.own_pair (parseVarList_pol (by decide))
        (.own_preceded (Pol.multispace1 (by decide)) ((effectOf_ext he hx hi).bd hd)))
        (.pair parseVarList_eats (.preceded .multispace1 (effectOf_eats he)))))
      (.alt_cons (.map (.own (parseWhenCEffect_frm (by decide))))
        (.alt_one (.map (.own (parsePEffect_frm (by decide))))))⟩

theorem parseCEffect_frm {j : Nat} (hj : 6 ≤ j) : Frm j K.parseCEffect := by
  refine Frm.mono (i := 6) ?_ hj
  obtain ⟨b, hb⟩ := cEffectBody_leaf
  obtain ⟨c0, h0⟩ := cEffect_and
  obtain ⟨c, f, hf, ho⟩ := cEffectBody_opn (b + 1) c0
  exact fix_frm (j := 5) (body := K.cEffectBody) (AndOwn c0) h0 cEffectBody_eats cEffectBody_whole hb hf
    fun a p he hi hx => ho a p he hi hx

theorem parseCEffect_pol {j : Nat} (hj : 6 ≤ j) : Pol j K.parseCEffect := (parseCEffect_frm hj).pol (by omega)
theorem parseCEffect_eats : Eats K.parseCEffect := (parseCEffect_frm (Nat.le_refl 6)).2
theorem parseCEffect_whole : Whole K.parseCEffect := (parseCEffect_frm (Nat.le_refl 6)).ext.whole
theorem parseCEffect_leaf : Leaf (coef 6 K.parseCEffect) K.parseCEffect := .own (parseCEffect_frm (Nat.le_refl 6))

theorem parseEffect_frm {j : Nat} (hj : 6 ≤ j) : Frm j K.parseEffect := by
  refine Frm.mono (i := 6) ?_ hj
  unfold K.parseEffect K.effectOf
  wk

theorem parseEffect_pol {j : Nat} (hj : 6 ≤ j) : Pol j K.parseEffect := (parseEffect_frm hj).pol (by omega)
theorem parseEffect_eats : Eats K.parseEffect := (parseEffect_frm (Nat.le_refl 6)).2
theorem parseEffect_whole : Whole K.parseEffect := (parseEffect_frm (Nat.le_refl 6)).ext.whole
theorem parseEffect_leaf : Leaf (coef 6 K.parseEffect) K.parseEffect := .own (parseEffect_frm (Nat.le_refl 6))

theorem parseForallCEffect_frm {j : Nat} (hj : 6 ≤ j) : Frm j K.parseForallCEffect := by
  refine Frm.mono (i := 6) ?_ hj
  unfold K.parseForallCEffect K.forallCEffectOf K.effectOf
  wk

theorem parseParameters_pol {j : Nat} (hj : 3 ≤ j) : Pol j K.parseParameters := by
  refine Pol.mono (i := 3) ?_ hj
  unfold K.parseParameters
  wk
theorem parseParameters_eats : Eats K.parseParameters := (parseParameters_pol (Nat.le_refl 3)).2

theorem parseActionDef_frm {j : Nat} (hj : 6 ≤ j) : Frm j K.parseActionDef := by
  refine Frm.mono (i := 6) ?_ hj
  unfold K.parseActionDef
  wk

theorem parseActionDef_pol {j : Nat} (hj : 6 ≤ j) : Pol j K.parseActionDef := (parseActionDef_frm hj).pol (by omega)
theorem parseActionDef_eats : Eats K.parseActionDef := (parseActionDef_frm (Nat.le_refl 6)).2
theorem parseActionDef_whole : Whole K.parseActionDef := (parseActionDef_frm (Nat.le_refl 6)).ext.whole
theorem parseActionDef_leaf : Leaf (coef 6 K.parseActionDef) K.parseActionDef := .own (parseActionDef_frm (Nat.le_refl 6))

theorem parseDerivedPredicate_frm {j : Nat} (hj : 5 ≤ j) : Frm j K.parseDerivedPredicate := by
  refine Frm.mono (i := 5) ?_ hj
  unfold K.parseDerivedPredicate
  wk

theorem parseDerivedPredicate_pol {j : Nat} (hj : 5 ≤ j) : Pol j K.parseDerivedPredicate := (parseDerivedPredicate_frm hj).pol (by omega)
theorem parseDerivedPredicate_eats : Eats K.parseDerivedPredicate := (parseDerivedPredicate_frm (Nat.le_refl 5)).2
theorem parseDerivedPredicate_whole : Whole K.parseDerivedPredicate := (parseDerivedPredicate_frm (Nat.le_refl 5)).ext.whole
theorem parseDerivedPredicate_leaf : Leaf (coef 5 K.parseDerivedPredicate) K.parseDerivedPredicate := .own (parseDerivedPredicate_frm (Nat.le_refl 5))

theorem parseTimedGd_frm {j : Nat} (hj : 5 ≤ j) : Frm j K.parseTimedGd := by
  refine Frm.mono (i := 5) ?_ hj
  unfold K.parseTimedGd
  wk

theorem parseTimedGd_pol {j : Nat} (hj : 5 ≤ j) : Pol j K.parseTimedGd := (parseTimedGd_frm hj).pol (by omega)
theorem parseTimedGd_eats : Eats K.parseTimedGd := (parseTimedGd_frm (Nat.le_refl 5)).2
theorem parseTimedGd_whole : Whole K.parseTimedGd := (parseTimedGd_frm (Nat.le_refl 5)).ext.whole
theorem parseTimedGd_leaf : Leaf (coef 5 K.parseTimedGd) K.parseTimedGd := .own (parseTimedGd_frm (Nat.le_refl 5))

theorem parsePrefTimedGd_frm {j : Nat} (hj : 5 ≤ j) : Frm j K.parsePrefTimedGd := by
  refine Frm.mono (i := 5) ?_ hj
  unfold K.parsePrefTimedGd
  wk

theorem parsePrefTimedGd_pol {j : Nat} (hj : 5 ≤ j) : Pol j K.parsePrefTimedGd := (parsePrefTimedGd_frm hj).pol (by omega)
theorem parsePrefTimedGd_eats : Eats K.parsePrefTimedGd := (parsePrefTimedGd_frm (Nat.le_refl 5)).2
theorem parsePrefTimedGd_whole : Whole K.parsePrefTimedGd := (parsePrefTimedGd_frm (Nat.le_refl 5)).ext.whole
theorem parsePrefTimedGd_leaf : Leaf (coef 5 K.parsePrefTimedGd) K.parsePrefTimedGd := .own (parsePrefTimedGd_frm (Nat.le_refl 5))

theorem daGdBody_eats (p) (he : Eats p) : Eats (K.daGdBody p) := by
  unfold K.daGdBody
  comb <;> first | exact he | rfl | decide

theorem daGdBody_whole (p) (he : Eats p) (hw : Whole p) : Whole (K.daGdBody p) := by
  unfold K.daGdBody
  comb <;> first | exact he | exact hw | rfl | decide

theorem daGdBody_leaf : ∃ b, ∀ p, Leaf b (K.daGdBody p) := by
  exact ⟨_, fun p => by
    unfold K.daGdBody
    comb
    all_goals decide⟩

theorem daGdBody_opn (b : Nat) : ∃ c f, (∀ t, f t ≤ 2 ^ opw t) ∧
    ∀ a p, Eats p → Ext b a 5 p → Opn c a 5 (K.daGdBody p) f :=
  have hd : 1 ≤ 5 := by decide
  ⟨_, _, (by
    intro t
    have h := two_pow_pos' (opw t)
    have h' := inds_le t [(false, c!"forall"), (false, c!"and")] (by decide)
    simp only [List.map_cons, List.map_nil, List.sum_cons, List.sum_nil] at h'
    try dsimp only
    omega), fun a p he hx => .alt_cons (.map (.prefixExpr hd (by rfl) (.own_pair (parseVarList_pol (by decide)) (.own_preceded (Pol.multispace1 (by decide)) (hx.bd hd))) (.pair parseVarList_eats (.preceded .multispace1 he))))
      (.alt_cons (.map (.prefixExpr hd (by rfl) (.spaceSeparatedList0 (by decide) hx he) (.spaceSeparatedList0 he)))
      (.alt_one (.map (.own (parsePrefTimedGd_frm (by decide))))))⟩

theorem parseDaGd_frm {j : Nat} (hj : 6 ≤ j) : Frm j K.parseDaGd := by
  refine Frm.mono (i := 6) ?_ hj
  obtain ⟨b, hb⟩ := daGdBody_leaf
  obtain ⟨c, f, hf, ho⟩ := daGdBody_opn (b + 1)
  exact fix_frm (j := 5) (body := K.daGdBody) (fun _ => True) (fun _ => trivial) daGdBody_eats daGdBody_whole hb hf
    fun a p he _ hx => ho a p he hx

theorem parseDaGd_pol {j : Nat} (hj : 6 ≤ j) : Pol j K.parseDaGd := (parseDaGd_frm hj).pol (by omega)
theorem parseDaGd_eats : Eats K.parseDaGd := (parseDaGd_frm (Nat.le_refl 6)).2
theorem parseDaGd_whole : Whole K.parseDaGd := (parseDaGd_frm (Nat.le_refl 6)).ext.whole
theorem parseDaGd_leaf : Leaf (coef 6 K.parseDaGd) K.parseDaGd := .own (parseDaGd_frm (Nat.le_refl 6))

theorem fExpDaBody_eats (p) (he : Eats p) : Eats (K.fExpDaBody p) := by
  unfold K.fExpDaBody
  comb <;> first | exact he | rfl | decide

theorem fExpDaBody_whole (p) (he : Eats p) (hw : Whole p) : Whole (K.fExpDaBody p) := by
  unfold K.fExpDaBody
  comb <;> first | exact he | exact hw | rfl | decide

theorem fExpDaBody_leaf : ∃ b, ∀ p, Leaf b (K.fExpDaBody p) := by
  exact ⟨_, fun p => by
    unfold K.fExpDaBody
    comb
    all_goals decide⟩

theorem fExpDaBody_opn (b : Nat) : ∃ c f, (∀ t, f t ≤ 2 ^ opw t) ∧
    ∀ a p, Eats p → Ext b a 4 p → Opn c a 4 (K.fExpDaBody p) f :=
  have hd : 1 ≤ 4 := by decide
  ⟨_, _, (by
    intro t
    have h := two_pow_pos' (opw t)
    have h' := ops_le t
    try dsimp only
    omega), fun a p he hx => .alt_cons (.map (.own (.tag (by decide) rfl rfl)))
      (.alt_cons (.map (.binary (by decide) he hx))
      (.alt_cons (.map (.multi (by decide) he hx))
      (.alt_cons (.map (.negated hd hx))
      (.alt_one (.map (.own (parseFExp_frm (by decide))))))))⟩

theorem parseFExpDa_frm {j : Nat} (hj : 5 ≤ j) : Frm j K.parseFExpDa := by
  refine Frm.mono (i := 5) ?_ hj
  obtain ⟨b, hb⟩ := fExpDaBody_leaf
  obtain ⟨c, f, hf, ho⟩ := fExpDaBody_opn (b + 1)
  exact fix_frm (j := 4) (body := K.fExpDaBody) (fun _ => True) (fun _ => trivial) fExpDaBody_eats fExpDaBody_whole hb hf
    fun a p he _ hx => ho a p he hx

theorem parseFExpDa_pol {j : Nat} (hj : 5 ≤ j) : Pol j K.parseFExpDa := (parseFExpDa_frm hj).pol (by omega)
theorem parseFExpDa_eats : Eats K.parseFExpDa := (parseFExpDa_frm (Nat.le_refl 5)).2
theorem parseFExpDa_whole : Whole K.parseFExpDa := (parseFExpDa_frm (Nat.le_refl 5)).ext.whole
theorem parseFExpDa_leaf : Leaf (coef 5 K.parseFExpDa) K.parseFExpDa := .own (parseFExpDa_frm (Nat.le_refl 5))

theorem parseFAssignDa_frm {j : Nat} (hj : 5 ≤ j) : Frm j K.parseFAssignDa := by
  refine Frm.mono (i := 5) ?_ hj
  unfold K.parseFAssignDa
  wk

theorem parseFAssignDa_pol {j : Nat} (hj : 5 ≤ j) : Pol j K.parseFAssignDa := (parseFAssignDa_frm hj).pol (by omega)
theorem parseFAssignDa_eats : Eats K.parseFAssignDa := (parseFAssignDa_frm (Nat.le_refl 5)).2
theorem parseFAssignDa_whole : Whole K.parseFAssignDa := (parseFAssignDa_frm (Nat.le_refl 5)).ext.whole
theorem parseFAssignDa_leaf : Leaf (coef 5 K.parseFAssignDa) K.parseFAssignDa := .own (parseFAssignDa_frm (Nat.le_refl 5))

theorem parseFExpT_frm {j : Nat} (hj : 4 ≤ j) : Frm j K.parseFExpT := by
  refine Frm.mono (i := 4) ?_ hj
  unfold K.parseFExpT
  wk

theorem parseFExpT_pol {j : Nat} (hj : 4 ≤ j) : Pol j K.parseFExpT := (parseFExpT_frm hj).pol (by omega)
theorem parseFExpT_eats : Eats K.parseFExpT := (parseFExpT_frm (Nat.le_refl 4)).2
theorem parseFExpT_whole : Whole K.parseFExpT := (parseFExpT_frm (Nat.le_refl 4)).ext.whole
theorem parseFExpT_leaf : Leaf (coef 4 K.parseFExpT) K.parseFExpT := .own (parseFExpT_frm (Nat.le_refl 4))

theorem parseTimedEffect_frm {j : Nat} (hj : 5 ≤ j) : Frm j K.parseTimedEffect := by
  refine Frm.mono (i := 5) ?_ hj
  unfold K.parseTimedEffect
  wk

theorem parseTimedEffect_pol {j : Nat} (hj : 5 ≤ j) : Pol j K.parseTimedEffect := (parseTimedEffect_frm hj).pol (by omega)
theorem parseTimedEffect_eats : Eats K.parseTimedEffect := (parseTimedEffect_frm (Nat.le_refl 5)).2
theorem parseTimedEffect_whole : Whole K.parseTimedEffect := (parseTimedEffect_frm (Nat.le_refl 5)).ext.whole
theorem parseTimedEffect_leaf : Leaf (coef 5 K.parseTimedEffect) K.parseTimedEffect := .own (parseTimedEffect_frm (Nat.le_refl 5))

theorem daEffectBody_eats (p) (he : Eats p) : Eats (K.daEffectBody p) := by
  unfold K.daEffectBody
  comb <;> first | exact he | rfl | decide

theorem daEffectBody_whole (p) (he : Eats p) (hw : Whole p) : Whole (K.daEffectBody p) := by
  unfold K.daEffectBody
  comb <;> first | exact he | exact hw | rfl | decide

theorem daEffectBody_leaf : ∃ b, ∀ p, Leaf b (K.daEffectBody p) := by
  exact ⟨_, fun p => by
    unfold K.daEffectBody
    comb
    all_goals decide⟩

theorem daEffectBody_opn (b : Nat) : ∃ c f, (∀ t, f t ≤ 2 ^ opw t) ∧
    ∀ a p, Eats p → Ext b a 6 p → Opn c a 6 (K.daEffectBody p) f :=
  have hd : 1 ≤ 6 := by decide
  ⟨_, _, (by
    intro t
    have h := two_pow_pos' (opw t)
    have h' := inds_le t [(false, c!"and"), (false, c!"forall")] (by decide)
    simp only [List.map_cons, List.map_nil, List.sum_cons, List.sum_nil] at h'
    try dsimp only
    omega), fun a p he hx => .alt_cons (.map (.prefixExpr hd (by rfl) (.spaceSeparatedList0 (by decide) hx he) (.spaceSeparatedList0 he)))
      (.alt_cons (.map (.prefixExpr hd (by rfl) (.own_pair (parseVarList_pol (by decide)) (.own_preceded (Pol.multispace1 (by decide)) (hx.bd hd))) (.pair parseVarList_eats (.preceded .multispace1 he))))
      (.alt_cons (.map (.own (.prefixExpr hd (by rfl) (.pair (parseDaGd_pol (by decide)) (.preceded (.multispace1 hd) (parseTimedEffect_pol (by decide)))))))
      (.alt_one (.map (.own (parseTimedEffect_frm (by decide)))))))⟩

theorem parseDaEffect_frm {j : Nat} (hj : 7 ≤ j) : Frm j K.parseDaEffect := by
  refine Frm.mono (i := 7) ?_ hj
  obtain ⟨b, hb⟩ := daEffectBody_leaf
  obtain ⟨c, f, hf, ho⟩ := daEffectBody_opn (b + 1)
  exact fix_frm (j := 6) (body := K.daEffectBody) (fun _ => True) (fun _ => trivial) daEffectBody_eats daEffectBody_whole hb hf
    fun a p he _ hx => ho a p he hx

theorem parseDaEffect_pol {j : Nat} (hj : 7 ≤ j) : Pol j K.parseDaEffect := (parseDaEffect_frm hj).pol (by omega)
theorem parseDaEffect_eats : Eats K.parseDaEffect := (parseDaEffect_frm (Nat.le_refl 7)).2
theorem parseDaEffect_whole : Whole K.parseDaEffect := (parseDaEffect_frm (Nat.le_refl 7)).ext.whole
theorem parseDaEffect_leaf : Leaf (coef 7 K.parseDaEffect) K.parseDaEffect := .own (parseDaEffect_frm (Nat.le_refl 7))

theorem parseDValue_frm {j : Nat} (hj : 4 ≤ j) : Frm j K.parseDValue := by
  refine Frm.mono (i := 4) ?_ hj
  unfold K.parseDValue
  wk

theorem parseDValue_pol {j : Nat} (hj : 4 ≤ j) : Pol j K.parseDValue := (parseDValue_frm hj).pol (by omega)
theorem parseDValue_eats : Eats K.parseDValue := (parseDValue_frm (Nat.le_refl 4)).2
theorem parseDValue_whole : Whole K.parseDValue := (parseDValue_frm (Nat.le_refl 4)).ext.whole
theorem parseDValue_leaf : Leaf (coef 4 K.parseDValue) K.parseDValue := .own (parseDValue_frm (Nat.le_refl 4))

theorem simpleDurationBody_eats (p) (he : Eats p) : Eats (K.simpleDurationBody p) := by
  unfold K.simpleDurationBody
  comb <;> first | exact he | rfl | decide

theorem simpleDurationBody_whole (p) (he : Eats p) (hw : Whole p) : Whole (K.simpleDurationBody p) := by
  unfold K.simpleDurationBody
  comb <;> first | exact he | exact hw | rfl | decide

theorem simpleDurationBody_leaf : ∃ b, ∀ p, Leaf b (K.simpleDurationBody p) := by
  exact ⟨_, fun p => by
    unfold K.simpleDurationBody
    comb
    all_goals decide⟩

theorem simpleDurationBody_opn (b : Nat) : ∃ c f, (∀ t, f t ≤ 2 ^ opw t) ∧
    ∀ a p, Eats p → Ext b a 4 p → Opn c a 4 (K.simpleDurationBody p) f :=
  have hd : 1 ≤ 4 := by decide
  ⟨_, _, (by
    intro t
    have h := two_pow_pos' (opw t)
    have h' := inds_le t [(false, c!"at")] (by decide)
    simp only [List.map_cons, List.map_nil, List.sum_cons, List.sum_nil] at h'
    try dsimp only
    omega), fun a p he hx => .alt_cons (.map (.own (.parens hd (by wk))))
      (.alt_one (.map (.prefixExpr hd (by rfl) (.own_pair (parseTimeSpecifier_pol (by decide)) (.own_preceded (Pol.multispace1 (by decide)) (hx.bd hd))) (.pair parseTimeSpecifier_eats (.preceded .multispace1 he)))))⟩

theorem parseSimpleDuration_frm {j : Nat} (hj : 5 ≤ j) : Frm j K.parseSimpleDuration := by
  refine Frm.mono (i := 5) ?_ hj
  obtain ⟨b, hb⟩ := simpleDurationBody_leaf
  obtain ⟨c, f, hf, ho⟩ := simpleDurationBody_opn (b + 1)
  exact fix_frm (j := 4) (body := K.simpleDurationBody) (fun _ => True) (fun _ => trivial) simpleDurationBody_eats simpleDurationBody_whole hb hf
    fun a p he _ hx => ho a p he hx

theorem parseSimpleDuration_pol {j : Nat} (hj : 5 ≤ j) : Pol j K.parseSimpleDuration := (parseSimpleDuration_frm hj).pol (by omega)
theorem parseSimpleDuration_eats : Eats K.parseSimpleDuration := (parseSimpleDuration_frm (Nat.le_refl 5)).2
theorem parseSimpleDuration_whole : Whole K.parseSimpleDuration := (parseSimpleDuration_frm (Nat.le_refl 5)).ext.whole
theorem parseSimpleDuration_leaf : Leaf (coef 5 K.parseSimpleDuration) K.parseSimpleDuration := .own (parseSimpleDuration_frm (Nat.le_refl 5))

theorem parseDurationConstraint_frm {j : Nat} (hj : 5 ≤ j) : Frm j K.parseDurationConstraint := by
  refine Frm.mono (i := 5) ?_ hj
  refine .alt_cons (.map (.unit (by decide))) ?_
  wk

theorem parseDurationConstraint_pol {j : Nat} (hj : 5 ≤ j) : Pol j K.parseDurationConstraint := (parseDurationConstraint_frm hj).pol (by omega)
theorem parseDurationConstraint_eats : Eats K.parseDurationConstraint := (parseDurationConstraint_frm (Nat.le_refl 5)).2
theorem parseDurationConstraint_whole : Whole K.parseDurationConstraint := (parseDurationConstraint_frm (Nat.le_refl 5)).ext.whole
theorem parseDurationConstraint_leaf : Leaf (coef 5 K.parseDurationConstraint) K.parseDurationConstraint := .own (parseDurationConstraint_frm (Nat.le_refl 5))

theorem parseDaDef_frm {j : Nat} (hj : 7 ≤ j) : Frm j K.parseDaDef := by
  refine Frm.mono (i := 7) ?_ hj
  unfold K.parseDaDef
  wk

theorem parseDaDef_pol {j : Nat} (hj : 7 ≤ j) : Pol j K.parseDaDef := (parseDaDef_frm hj).pol (by omega)
theorem parseDaDef_eats : Eats K.parseDaDef := (parseDaDef_frm (Nat.le_refl 7)).2
theorem parseDaDef_whole : Whole K.parseDaDef := (parseDaDef_frm (Nat.le_refl 7)).ext.whole
theorem parseDaDef_leaf : Leaf (coef 7 K.parseDaDef) K.parseDaDef := .own (parseDaDef_frm (Nat.le_refl 7))

theorem parseStructureDef_frm {j : Nat} (hj : 7 ≤ j) : Frm j K.parseStructureDef := by
  refine Frm.mono (i := 7) ?_ hj
  unfold K.parseStructureDef
  wk

theorem parseStructureDef_pol {j : Nat} (hj : 7 ≤ j) : Pol j K.parseStructureDef := (parseStructureDef_frm hj).pol (by omega)
theorem parseStructureDef_eats : Eats K.parseStructureDef := (parseStructureDef_frm (Nat.le_refl 7)).2
theorem parseStructureDef_whole : Whole K.parseStructureDef := (parseStructureDef_frm (Nat.le_refl 7)).ext.whole
theorem parseStructureDef_leaf : Leaf (coef 7 K.parseStructureDef) K.parseStructureDef := .own (parseStructureDef_frm (Nat.le_refl 7))

theorem parseRequireKey_frm {j : Nat} (hj : 1 ≤ j) : Frm j K.parseRequireKey :=
  .mapExpect (alt_tags_frm hj _ (by decide))

theorem parseRequireKey_pol {j : Nat} (hj : 1 ≤ j) : Pol j K.parseRequireKey := (parseRequireKey_frm hj).pol (by omega)
theorem parseRequireKey_eats : Eats K.parseRequireKey := (parseRequireKey_frm (Nat.le_refl 1)).2
theorem parseRequireKey_whole : Whole K.parseRequireKey := (parseRequireKey_frm (Nat.le_refl 1)).ext.whole
theorem parseRequireKey_leaf : Leaf (coef 1 K.parseRequireKey) K.parseRequireKey := .own (parseRequireKey_frm (Nat.le_refl 1))

theorem parseRequireDef_frm {j : Nat} (hj : 2 ≤ j) : Frm j K.parseRequireDef := by
  refine Frm.mono (i := 2) ?_ hj
  unfold K.parseRequireDef
  wk

theorem parseRequireDef_pol {j : Nat} (hj : 2 ≤ j) : Pol j K.parseRequireDef := (parseRequireDef_frm hj).pol (by omega)
theorem parseRequireDef_eats : Eats K.parseRequireDef := (parseRequireDef_frm (Nat.le_refl 2)).2
theorem parseRequireDef_whole : Whole K.parseRequireDef := (parseRequireDef_frm (Nat.le_refl 2)).ext.whole
theorem parseRequireDef_leaf : Leaf (coef 2 K.parseRequireDef) K.parseRequireDef := .own (parseRequireDef_frm (Nat.le_refl 2))

theorem parseTypesDef_frm {j : Nat} (hj : 3 ≤ j) : Frm j K.parseTypesDef := by
  refine Frm.mono (i := 3) ?_ hj
  unfold K.parseTypesDef
  wk

theorem parseTypesDef_pol {j : Nat} (hj : 3 ≤ j) : Pol j K.parseTypesDef := (parseTypesDef_frm hj).pol (by omega)
theorem parseTypesDef_eats : Eats K.parseTypesDef := (parseTypesDef_frm (Nat.le_refl 3)).2
theorem parseTypesDef_whole : Whole K.parseTypesDef := (parseTypesDef_frm (Nat.le_refl 3)).ext.whole
theorem parseTypesDef_leaf : Leaf (coef 3 K.parseTypesDef) K.parseTypesDef := .own (parseTypesDef_frm (Nat.le_refl 3))

theorem parseConstantsDef_frm {j : Nat} (hj : 3 ≤ j) : Frm j K.parseConstantsDef := by
  refine Frm.mono (i := 3) ?_ hj
  unfold K.parseConstantsDef
  wk

theorem parseConstantsDef_pol {j : Nat} (hj : 3 ≤ j) : Pol j K.parseConstantsDef := (parseConstantsDef_frm hj).pol (by omega)
theorem parseConstantsDef_eats : Eats K.parseConstantsDef := (parseConstantsDef_frm (Nat.le_refl 3)).2
theorem parseConstantsDef_whole : Whole K.parseConstantsDef := (parseConstantsDef_frm (Nat.le_refl 3)).ext.whole
theorem parseConstantsDef_leaf : Leaf (coef 3 K.parseConstantsDef) K.parseConstantsDef := .own (parseConstantsDef_frm (Nat.le_refl 3))

theorem parseProblemObjectsDeclaration_frm {j : Nat} (hj : 3 ≤ j) : Frm j K.parseProblemObjectsDeclaration := by
  refine Frm.mono (i := 3) ?_ hj
  unfold K.parseProblemObjectsDeclaration
  wk

theorem parseProblemObjectsDeclaration_pol {j : Nat} (hj : 3 ≤ j) : Pol j K.parseProblemObjectsDeclaration := (parseProblemObjectsDeclaration_frm hj).pol (by omega)
theorem parseProblemObjectsDeclaration_eats : Eats K.parseProblemObjectsDeclaration := (parseProblemObjectsDeclaration_frm (Nat.le_refl 3)).2
theorem parseProblemObjectsDeclaration_whole : Whole K.parseProblemObjectsDeclaration := (parseProblemObjectsDeclaration_frm (Nat.le_refl 3)).ext.whole
theorem parseProblemObjectsDeclaration_leaf : Leaf (coef 3 K.parseProblemObjectsDeclaration) K.parseProblemObjectsDeclaration := .own (parseProblemObjectsDeclaration_frm (Nat.le_refl 3))

theorem parsePredicatesDef_frm {j : Nat} (hj : 3 ≤ j) : Frm j K.parsePredicatesDef := by
  refine Frm.mono (i := 3) ?_ hj
  unfold K.parsePredicatesDef
  wk

theorem parsePredicatesDef_pol {j : Nat} (hj : 3 ≤ j) : Pol j K.parsePredicatesDef := (parsePredicatesDef_frm hj).pol (by omega)
theorem parsePredicatesDef_eats : Eats K.parsePredicatesDef := (parsePredicatesDef_frm (Nat.le_refl 3)).2
theorem parsePredicatesDef_whole : Whole K.parsePredicatesDef := (parsePredicatesDef_frm (Nat.le_refl 3)).ext.whole
theorem parsePredicatesDef_leaf : Leaf (coef 3 K.parsePredicatesDef) K.parsePredicatesDef := .own (parsePredicatesDef_frm (Nat.le_refl 3))

theorem parseFunctionsDef_frm {j : Nat} (hj : 4 ≤ j) : Frm j K.parseFunctionsDef := by
  refine Frm.mono (i := 4) ?_ hj
  unfold K.parseFunctionsDef
  wk

theorem parseFunctionsDef_pol {j : Nat} (hj : 4 ≤ j) : Pol j K.parseFunctionsDef := (parseFunctionsDef_frm hj).pol (by omega)
theorem parseFunctionsDef_eats : Eats K.parseFunctionsDef := (parseFunctionsDef_frm (Nat.le_refl 4)).2
theorem parseFunctionsDef_whole : Whole K.parseFunctionsDef := (parseFunctionsDef_frm (Nat.le_refl 4)).ext.whole
theorem parseFunctionsDef_leaf : Leaf (coef 4 K.parseFunctionsDef) K.parseFunctionsDef := .own (parseFunctionsDef_frm (Nat.le_refl 4))

theorem parseTimelessDef_frm {j : Nat} (hj : 2 ≤ j) : Frm j K.parseTimelessDef := by
  refine Frm.mono (i := 2) ?_ hj
  unfold K.parseTimelessDef
  wk

theorem parseTimelessDef_pol {j : Nat} (hj : 2 ≤ j) : Pol j K.parseTimelessDef := (parseTimelessDef_frm hj).pol (by omega)
theorem parseTimelessDef_eats : Eats K.parseTimelessDef := (parseTimelessDef_frm (Nat.le_refl 2)).2
theorem parseTimelessDef_whole : Whole K.parseTimelessDef := (parseTimelessDef_frm (Nat.le_refl 2)).ext.whole
theorem parseTimelessDef_leaf : Leaf (coef 2 K.parseTimelessDef) K.parseTimelessDef := .own (parseTimelessDef_frm (Nat.le_refl 2))

theorem parseInitEl_frm {j : Nat} (hj : 2 ≤ j) : Frm j K.parseInitEl := by
  refine Frm.mono (i := 2) ?_ hj
  unfold K.parseInitEl
  wk

theorem parseInitEl_pol {j : Nat} (hj : 2 ≤ j) : Pol j K.parseInitEl := (parseInitEl_frm hj).pol (by omega)
theorem parseInitEl_eats : Eats K.parseInitEl := (parseInitEl_frm (Nat.le_refl 2)).2
theorem parseInitEl_whole : Whole K.parseInitEl := (parseInitEl_frm (Nat.le_refl 2)).ext.whole
theorem parseInitEl_leaf : Leaf (coef 2 K.parseInitEl) K.parseInitEl := .own (parseInitEl_frm (Nat.le_refl 2))

theorem parseProblemInitDef_frm {j : Nat} (hj : 2 ≤ j) : Frm j K.parseProblemInitDef := by
  refine Frm.mono (i := 2) ?_ hj
  unfold K.parseProblemInitDef
  wk

theorem parseProblemInitDef_pol {j : Nat} (hj : 2 ≤ j) : Pol j K.parseProblemInitDef := (parseProblemInitDef_frm hj).pol (by omega)
theorem parseProblemInitDef_eats : Eats K.parseProblemInitDef := (parseProblemInitDef_frm (Nat.le_refl 2)).2
theorem parseProblemInitDef_whole : Whole K.parseProblemInitDef := (parseProblemInitDef_frm (Nat.le_refl 2)).ext.whole
theorem parseProblemInitDef_leaf : Leaf (coef 2 K.parseProblemInitDef) K.parseProblemInitDef := .own (parseProblemInitDef_frm (Nat.le_refl 2))

theorem parseProblemLengthSpec_frm {j : Nat} (hj : 1 ≤ j) : Frm j K.parseProblemLengthSpec := by
  refine Frm.mono (i := 1) ?_ hj
  unfold K.parseProblemLengthSpec
  wk

theorem parseProblemLengthSpec_pol {j : Nat} (hj : 1 ≤ j) : Pol j K.parseProblemLengthSpec := (parseProblemLengthSpec_frm hj).pol (by omega)
theorem parseProblemLengthSpec_eats : Eats K.parseProblemLengthSpec := (parseProblemLengthSpec_frm (Nat.le_refl 1)).2
theorem parseProblemLengthSpec_whole : Whole K.parseProblemLengthSpec := (parseProblemLengthSpec_frm (Nat.le_refl 1)).ext.whole
theorem parseProblemLengthSpec_leaf : Leaf (coef 1 K.parseProblemLengthSpec) K.parseProblemLengthSpec := .own (parseProblemLengthSpec_frm (Nat.le_refl 1))

theorem metricFExpBody_eats (p) (he : Eats p) : Eats (K.metricFExpBody p) := by
  unfold K.metricFExpBody
  comb <;> first | exact he | rfl | decide

theorem metricFExpBody_whole (p) (he : Eats p) (hw : Whole p) : Whole (K.metricFExpBody p) := by
  unfold K.metricFExpBody
  comb <;> first | exact he | exact hw | rfl | decide

theorem metricFExpBody_leaf : ∃ b, ∀ p, Leaf b (K.metricFExpBody p) := by
  exact ⟨_, fun p => by
    unfold K.metricFExpBody
    comb
    all_goals decide⟩

theorem metricFExpBody_opn (b : Nat) : ∃ c f, (∀ t, f t ≤ 2 ^ opw t) ∧
    ∀ a p, Eats p → Ext b a 2 p → Opn c a 2 (K.metricFExpBody p) f :=
  have hd : 1 ≤ 2 := by decide
  ⟨_, _, (by
    intro t
    have h := two_pow_pos' (opw t)
    have h' := ops_le t
    try dsimp only
    omega), fun a p he hx => .alt_cons (.map (.own (parseNumber_frm (by decide))))
      (.alt_cons (.map (.binary (by decide) he hx))
      (.alt_cons (.mapExpect (.multi (by decide) he hx))
      (.alt_cons (.map (.negated hd hx))
      (.alt_cons (.map (.own (.tag (by decide) rfl rfl)))
      (.alt_cons (.map (.own (.prefixExpr hd (by rfl) (parsePrefName_pol hd))))
      (.alt_cons (.map (.own (.parens hd (by wk))))
      (.alt_one (.map (.own (parseFunctionSymbol_frm (by decide)))))))))))⟩

theorem parseMetricFExp_frm {j : Nat} (hj : 3 ≤ j) : Frm j K.parseMetricFExp := by
  refine Frm.mono (i := 3) ?_ hj
  obtain ⟨b, hb⟩ := metricFExpBody_leaf
  obtain ⟨c, f, hf, ho⟩ := metricFExpBody_opn (b + 1)
  exact fix_frm (j := 2) (body := K.metricFExpBody) (fun _ => True) (fun _ => trivial) metricFExpBody_eats metricFExpBody_whole hb hf
    fun a p he _ hx => ho a p he hx

theorem parseMetricFExp_pol {j : Nat} (hj : 3 ≤ j) : Pol j K.parseMetricFExp := (parseMetricFExp_frm hj).pol (by omega)
theorem parseMetricFExp_eats : Eats K.parseMetricFExp := (parseMetricFExp_frm (Nat.le_refl 3)).2
theorem parseMetricFExp_whole : Whole K.parseMetricFExp := (parseMetricFExp_frm (Nat.le_refl 3)).ext.whole
theorem parseMetricFExp_leaf : Leaf (coef 3 K.parseMetricFExp) K.parseMetricFExp := .own (parseMetricFExp_frm (Nat.le_refl 3))

theorem parseProblemMetricSpec_frm {j : Nat} (hj : 3 ≤ j) : Frm j K.parseProblemMetricSpec := by
  refine Frm.mono (i := 3) ?_ hj
  unfold K.parseProblemMetricSpec
  wk

theorem parseProblemMetricSpec_pol {j : Nat} (hj : 3 ≤ j) : Pol j K.parseProblemMetricSpec := (parseProblemMetricSpec_frm hj).pol (by omega)
theorem parseProblemMetricSpec_eats : Eats K.parseProblemMetricSpec := (parseProblemMetricSpec_frm (Nat.le_refl 3)).2
theorem parseProblemMetricSpec_whole : Whole K.parseProblemMetricSpec := (parseProblemMetricSpec_frm (Nat.le_refl 3)).ext.whole
theorem parseProblemMetricSpec_leaf : Leaf (coef 3 K.parseProblemMetricSpec) K.parseProblemMetricSpec := .own (parseProblemMetricSpec_frm (Nat.le_refl 3))

theorem domainParts_pol {j : Nat} (hj : 7 ≤ j) : Pol j K.domainParts := by
  refine Pol.mono (i := 7) ?_ hj
  unfold K.domainParts
  wk
theorem domainParts_eats : Eats K.domainParts := (domainParts_pol (Nat.le_refl 7)).2

theorem problemParts_pol {j : Nat} (hj : 7 ≤ j) : Pol j K.problemParts := by
  refine Pol.mono (i := 7) ?_ hj
  unfold K.problemParts
  wk
theorem problemParts_eats : Eats K.problemParts := (problemParts_pol (Nat.le_refl 7)).2

theorem parseDomain_pol {j : Nat} (hj : 7 ≤ j) : Pol j K.parseDomain := by
  refine Pol.mono (i := 7) ?_ hj
  unfold K.parseDomain
  wk
theorem parseDomain_eats : Eats K.parseDomain := (parseDomain_pol (Nat.le_refl 7)).2

theorem parseProblem_pol {j : Nat} (hj : 7 ≤ j) : Pol j K.parseProblem := by
  refine Pol.mono (i := 7) ?_ hj
  unfold K.parseProblem
  wk
theorem parseProblem_eats : Eats K.parseProblem := (parseProblem_pol (Nat.le_refl 7)).2

end Pddl
