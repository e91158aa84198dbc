import Verif.Spec.Print
import Verif.Meta.Top

/-!
# Meta-theory: the printer writes spellings
-/

namespace Pddl

/-! ## Numbers -/

theorem digitChar_spec {d : Nat} (h : d < 10) :
    isDigit (digitChar d) = true ∧ digitVal (digitChar d) = d := by
  match d, h with
  | 0, _ | 1, _ | 2, _ | 3, _ | 4, _ | 5, _ | 6, _ | 7, _ | 8, _ | 9, _ => exact ⟨rfl, rfl⟩

theorem decVal_snoc (ds : List Char) (c : Char) : decVal (ds ++ [c]) = decVal ds * 10 + digitVal c := by
  simp [decVal_eq, List.foldl_append]

theorem numeralF_spec (k n : Nat) (h : n ≤ k) :
    numeralF k n ≠ [] ∧ (∀ c ∈ numeralF k n, isDigit c = true) ∧ decVal (numeralF k n) = n := by
  induction k generalizing n with
  | zero =>
    have : n = 0 := by omega
    subst this
    exact ⟨by simp [numeralF], by simp [numeralF]; decide, rfl⟩
  | succ k ih =>
    rw [numeralF]
    split
    · rename_i h10
      obtain ⟨h1, h2⟩ := digitChar_spec h10
      refine ⟨by simp, by simpa using h1, ?_⟩
      simp [decVal_eq, h2]
    · rename_i h10
      obtain ⟨h1, h2, h3⟩ := ih (n / 10) (by omega)
      obtain ⟨h4, h5⟩ := digitChar_spec (Nat.mod_lt n (show 0 < 10 by decide))
      refine ⟨by simp, ?_, ?_⟩
      · intro c hc
        simp only [List.mem_append, List.mem_singleton] at hc
        rcases hc with hc | rfl
        · exact h2 c hc
        · exact h4
      · rw [decVal_snoc, h3, h5]
        omega

theorem numeral_spec (n : Nat) :
    numeral n ≠ [] ∧ (∀ c ∈ numeral n, isDigit c = true) ∧ decVal (numeral n) = n :=
  numeralF_spec n n (Nat.le_refl _)

theorem lastDigits_spec (k n : Nat) :
    (lastDigits k n).length = k ∧ (∀ c ∈ lastDigits k n, isDigit c = true) ∧
      (n < 10 ^ k → decVal (lastDigits k n) = n) := by
  induction k generalizing n with
  | zero => exact ⟨rfl, by simp [lastDigits], fun h => by simp at h; subst h; rfl⟩
  | succ k ih =>
    obtain ⟨h1, h2, h3⟩ := ih (n / 10)
    obtain ⟨h4, h5⟩ := digitChar_spec (Nat.mod_lt n (show 0 < 10 by decide))
    refine ⟨by simp [lastDigits, h1], ?_, ?_⟩
    · intro c hc
      simp only [lastDigits, List.mem_append, List.mem_singleton] at hc
      rcases hc with hc | rfl
      · exact h2 c hc
      · exact h4
    · intro h
      have : n / 10 < 10 ^ k := by
        rw [Nat.pow_succ] at h
        omega
      rw [lastDigits, decVal_snoc, h3 this, h5]
      omega

/-- A decimal fraction equal to a finite binary32 value is read as that value. -/
theorem ofDecimal_exact {x : F32} {m k : Nat} (hf : x.isFinite = true) (hs : x.neg = false)
    (h : m * 2 ^ 149 = F32.absScaled x.mag * 10 ^ k) : F32.ofDecimal m k = x := by
  have hd : 0 < 10 ^ k := Nat.pow_pos (by decide)
  have hn := (F32.roundMag_nearest (num := m * 2 ^ 149) (den := 10 ^ k) hd x.mag).1
  have hz : F32.dist (F32.absScaled x.mag * 10 ^ k) (m * 2 ^ 149) = 0 := by
    rw [h]; unfold F32.dist; omega
  rw [hz] at hn
  have hm : F32.roundMag (m * 2 ^ 149) (10 ^ k) = x.mag := by
    apply F32.absScaled_inj
    apply Nat.eq_of_mul_eq_mul_right hd
    rw [← h]
    unfold F32.dist at hn
    omega
  unfold F32.ofDecimal
  rw [hm]
  have hfin : x.mag < F32.infMag := by simpa [F32.isFinite] using hf
  rw [Nat.min_eq_left (Nat.le_of_lt hfin)]
  have hlt : x.bits.toNat < 2 ^ 31 := by simpa [F32.neg] using hs
  have : x.mag = x.bits.toNat := by
    unfold F32.mag
    exact Nat.mod_eq_of_lt hlt
  rw [this]
  cases x
  simp

theorem Number.print_w {n : Number} (h : n.wf = true) : NumW n n.print := by
  simp only [Number.wf, Bool.and_eq_true, Bool.not_eq_true', bne_iff_ne] at h
  obtain ⟨hf, hs⟩ := h
  rw [msb_eq] at hs
  have hf : n.val.isFinite = true := (isFinite_iff _).mpr hf
  refine numW_iff.mpr ?_
  obtain ⟨i1, i2, i3⟩ := numeral_spec (F32.absScaled n.val.mag / 2 ^ 149)
  have hdm := Nat.div_add_mod (F32.absScaled n.val.mag) (2 ^ 149)
  have h2 : 0 < 2 ^ 149 := Nat.pow_pos (by decide)
  have hml := Nat.mod_lt (F32.absScaled n.val.mag) h2
  unfold Number.print
  dsimp only
  rw [bitsUnits_eq]
  by_cases h0 : F32.absScaled n.val.mag % 2 ^ 149 = 0
  · rw [if_pos h0]
    refine ⟨⟨numeral (F32.absScaled n.val.mag / 2 ^ 149), [], i1, i2, by simp⟩, by simp [Literal10.text], ?_, hf⟩
    refine (ofDecimal_exact hf hs ?_).symm
    simp only [Literal10.num, List.append_nil, i3, List.length_nil, Nat.pow_zero, Nat.mul_one]
    rw [h0, Nat.add_zero, Nat.mul_comm] at hdm
    exact hdm
  · rw [if_neg h0]
    obtain ⟨f1, f2, f3⟩ := lastDigits_spec 149 (F32.absScaled n.val.mag % 2 ^ 149 * 5 ^ 149)
    have e10 : 10 ^ 149 = 2 ^ 149 * 5 ^ 149 := by rw [← Nat.mul_pow]
    have f4 := f3 (by
      rw [e10]
      exact Nat.mul_lt_mul_of_pos_right hml (Nat.pow_pos (by decide)))
    refine ⟨⟨numeral (F32.absScaled n.val.mag / 2 ^ 149),
      lastDigits 149 (F32.absScaled n.val.mag % 2 ^ 149 * 5 ^ 149), i1, i2, f2⟩, ?_, ?_, hf⟩
    · have : lastDigits 149 (F32.absScaled n.val.mag % 2 ^ 149 * 5 ^ 149) ≠ [] := by
        intro e; rw [e] at f1; cases f1
      simp [Literal10.text, this]
    · refine (ofDecimal_exact hf hs ?_).symm
      simp only [Literal10.num]
      rw [decVal_append, f1, i3, f4, e10]
      generalize F32.absScaled n.val.mag % 2 ^ 149 = r at *
      generalize F32.absScaled n.val.mag / 2 ^ 149 = q at *
      generalize F32.absScaled n.val.mag = s at *
      clear f1 f2 f3 f4 e10 i1 i2 i3 hml h0
      generalize 2 ^ 149 = b at *
      generalize 5 ^ 149 = c at *
      rw [← hdm]
      simp only [Nat.mul_add, Nat.mul_comm, Nat.mul_left_comm]

/-! ## Layout and lists -/

theorem sp_blank : Sp [' '] := ⟨by simp, by intro c hc; simp at hc; subst hc; rfl⟩
theorem sep_blank : Sep [' '] := sp_blank.sep
theorem gap_blank : Gap [' '] := sep_blank.gap
theorem sep_line : Sep ['\n'] := .mk rfl .nil

theorem spaced_cons (x : List Char) (xs : List (List Char)) :
    spaced (x :: xs) = ' ' :: joined (x :: xs) := rfl

theorem items_joined {R : α → List Char → Prop} {pr : α → List Char} :
    ∀ {as : List α}, as ≠ [] → (∀ a ∈ as, R a (pr a)) → Items R as (joined (as.map pr))
  | [], h, _ => absurd rfl h
  | [a], _, h => by
    simp only [List.map, joined, spaced, List.append_nil]
    exact .one (h a (by simp))
  | a :: b :: as, _, h => by
    have ih := items_joined (as := b :: as) (by simp) fun x hx => h x (by simp [hx])
    exact .cons (g := [' ']) (h a (by simp)) sep_blank ih

theorem sec_spaced {R : α → List Char → Prop} {pr : α → List Char} {lead trail : List Char → Prop}
    {as : List α} (hl : lead [' ']) (ht : trail []) (h : ∀ a ∈ as, R a (pr a)) :
    Sec lead trail (Items R) as (spaced (as.map pr)) := by
  cases as with
  | nil => exact .nil .nil
  | cons a as =>
    have := Sec.cons (lead := lead) (trail := trail) hl (items_joined (by simp) h) ht
    rw [List.append_nil] at this
    exact this

/-! ## Names, types, typed lists -/

theorem isWordB_iff {t : List Char} (h : isWordB t = true) : IsWord t := by
  cases t with
  | nil => cases h
  | cons c cs =>
    simp only [isWordB, Bool.and_eq_true] at h
    exact isWord_of c cs h.1 h.2

theorem Name.print_w {n : Name} (h : n.wf = true) : NameW n n.print := by
  simp only [Name.wf, Bool.and_eq_true, decide_eq_true_eq] at h
  exact ⟨isWordB_iff h.1, h.2⟩

theorem printVar_w {n : Name} (h : n.wf = true) : VarW .strict n (printVar n) :=
  ⟨[], n.print, rfl, rfl, Name.print_w h⟩

theorem notObjectPrefix_iff {t : List Char} (h : notObjectPrefix t = true) (r : List Char)
    (hr : t = c!"object" ++ r) : r = [] := by
  simp only [notObjectPrefix, Bool.or_eq_true, beq_iff_eq, Bool.not_eq_true'] at h
  rcases h with h | h
  · rw [h] at hr
    exact (List.append_cancel_left (as := c!"object") (bs := []) hr).symm
  · exfalso
    have : (c!"object").isPrefixOf t = true := by rw [List.isPrefixOf_iff_prefix]; exact ⟨r, hr.symm⟩
    rw [this] at h
    cases h

theorem Ty.print_w {ty : Ty} (h : ty.wf = true) : TypeW .strict ty ty.print := by
  cases ty with
  | exactly n => exact .exactly (Name.print_w h)
  | eitherOf ns =>
    simp only [Ty.wf, Bool.and_eq_true, Bool.not_eq_true', List.all_eq_true] at h
    obtain ⟨h1, h2⟩ := h
    have hne : ns ≠ [] := by
      intro e; rw [e] at h1; cases h1
    have hi : Items (EitherMemberW .strict) ns (joined (ns.map Name.print)) :=
      items_joined hne fun n hn =>
        ⟨Name.print_w (h2 n hn).1, fun _ => notObjectPrefix_iff (h2 n hn).2⟩
    have := TypeW.either (m := .strict) (g := [' ']) (g' := []) sep_blank hi .nil
    rw [List.append_nil] at this
    cases ns with
    | nil => exact absurd rfl hne
    | cons n ns => exact this

theorem typed_joined {R : α → List Char → Prop} {pr : α → List Char} {d : Ty} :
    ∀ {xs : TypedList α}, xs ≠ [] → (∀ x ∈ xs, R x.value (pr x.value) ∧ x.ty.wf = true) →
      TypedW .strict R d xs (joined (xs.map (Typed.print pr)))
  | [], h, _ => absurd rfl h
  | [x], _, h => by
    obtain ⟨h1, h2⟩ := h x (by simp)
    simp only [List.map, joined, spaced, List.append_nil]
    exact .last (xs := [x.value]) (g1 := [' ']) (g2 := [' ']) (.one h1) sep_blank sep_blank (Ty.print_w h2)
  | x :: y :: xs, _, h => by
    have ih := typed_joined (d := d) (xs := y :: xs) (by simp) fun x hx => h x (by simp [hx])
    obtain ⟨h1, h2⟩ := h x (by simp)
    have := TypedW.more (m := .strict) (d := d) (xs := [x.value]) (g1 := [' ']) (g2 := [' ']) (g3 := [' ']) (.one h1) sep_blank
      sep_blank (Ty.print_w h2) sep_blank ih
    have e : joined ((x :: y :: xs).map (Typed.print pr)) =
        pr x.value ++ ([' '] ++ (c!"-" ++ ([' '] ++ (x.ty.print ++
          ([' '] ++ joined ((y :: xs).map (Typed.print pr))))))) := by
      simp [joined, spaced, Typed.print]
    rw [e]
    exact this

theorem typed_sec_w {R : α → List Char → Prop} {pr : α → List Char} {w : α → Bool} {d : Ty}
    {lead trail : List Char → Prop} {xs : TypedList α} (hl : lead [' ']) (ht : trail [])
    (hR : ∀ a, w a = true → R a (pr a)) (h : xs.all (Typed.wf w) = true) :
    Sec lead trail (TypedW .strict R d) xs (spaced (xs.map (Typed.print pr))) := by
  simp only [List.all_eq_true, Typed.wf, Bool.and_eq_true] at h
  cases xs with
  | nil => exact .nil .nil
  | cons a as =>
    have := Sec.cons (lead := lead) (trail := trail) hl
      (typed_joined (d := d) (R := R) (pr := pr) (xs := a :: as) (by simp) fun x hx => ⟨hR _ (h x hx).1, (h x hx).2⟩) ht
    simpa [List.map, spaced_cons] using this

theorem printVars_w {vs : TypedList Name} (h : wfVars vs = true) : VarsW .strict vs (printVars vs) := by
  refine ⟨_, rfl, ?_⟩
  simp only [wfVars, List.all_eq_true, Typed.wf, Bool.and_eq_true] at h
  cases vs with
  | nil => exact .nil .nil
  | cons a as =>
    have := Sec.cons (lead := Gap) (trail := Mode.strict.tight) .nil
      (typed_joined (d := objectTy) (R := VarW .strict) (pr := printVar) (xs := a :: as) (by simp)
        fun x hx => ⟨printVar_w (h x hx).1, (h x hx).2⟩) rfl
    simpa using this

/-! ## Terms and atoms -/

theorem Term.prints_eq : ∀ ts : List Term, Term.prints ts = spaced (ts.map Term.print)
  | [] => rfl
  | t :: ts => by rw [Term.prints, Term.prints_eq ts]; rfl

mutual
theorem Term.print_w : ∀ t : Term, t.wf = true → TermW .strict t t.print
  | .name n, h => .name (Name.print_w h)
  | .var v, h => .var (printVar_w h)
  | .fn f ts, h => by
    simp only [Term.wf, Bool.and_eq_true] at h
    rw [Term.print, Term.prints_eq]
    exact .fn (g := []) .nil (Name.print_w h.1) (sec_spaced sep_blank rfl (Term.prints_w ts h.2))
theorem Term.prints_w : ∀ ts : List Term, Term.wfs ts = true → ∀ t ∈ ts, TermW .strict t t.print
  | [], _ => by simp
  | t :: ts, h => by
    simp only [Term.wfs, Bool.and_eq_true] at h
    exact List.forall_mem_cons.mpr ⟨Term.print_w t h.1, Term.prints_w ts h.2⟩
end

theorem FunctionTerm.print_w {f : FunctionTerm} (h : f.wf = true) : FnTermW .strict f f.print := by
  simp only [FunctionTerm.wf, Bool.and_eq_true] at h
  rw [FunctionTerm.print, Term.prints_eq]
  exact .mk (g := []) .nil (Name.print_w h.1) (sec_spaced sep_blank rfl (Term.prints_w _ h.2))

theorem AtomicFormula.print_w {R : α → List Char → Prop} {pr : α → List Char} {w : α → Bool}
    (hR : ∀ a, w a = true → R a (pr a)) {a : AtomicFormula α} (h : a.wf w = true) :
    AtomW .strict R a (a.print pr) := by
  cases a with
  | equality a b =>
    simp only [AtomicFormula.wf, Bool.and_eq_true] at h
    exact .equality (g1 := [' ']) (g2 := [' ']) (g3 := []) gap_blank (hR _ h.1) sep_blank (hR _ h.2) .nil
  | predicate p vs =>
    simp only [AtomicFormula.wf, Bool.and_eq_true, List.all_eq_true] at h
    exact .predicate (g := []) .nil (Name.print_w h.1) (sec_spaced sep_blank rfl fun a ha => hR a (h.2 a ha))

theorem AtomicFormula.headOk_iff {ws : List (List Char)} {a : AtomicFormula α} (h : a.headOk ws = true) :
    a.headNot ws := by
  cases a with
  | equality => trivial
  | predicate p vs =>
    simpa [AtomicFormula.headOk, AtomicFormula.headNot] using h

theorem atomT_w {a : AtomicFormula Term} (h : a.wf Term.wf = true) :
    AtomW .strict (TermW .strict) a (a.print Term.print) := AtomicFormula.print_w Term.print_w h

theorem Literal.print_w {l : Literal Name} (h : l.wf Name.wf = true) :
    LiteralW .strict l (l.print Name.print) := by
  cases l with
  | neg a =>
    exact .neg (g := [' ']) (g' := []) gap_blank (AtomicFormula.print_w (fun _ => Name.print_w) h) .nil
  | pos a => exact .pos (AtomicFormula.print_w (fun _ => Name.print_w) h)

theorem Skeleton.print_w {s : Skeleton} (h : s.wf = true) : SkeletonW .strict s s.print := by
  simp only [Skeleton.wf, Bool.and_eq_true] at h
  exact .mk (g := []) .nil (Name.print_w h.1) (typed_sec_w sep_blank rfl (fun _ => printVar_w) h.2)

theorem BasicFunctionTerm.print_w {f : BasicFunctionTerm} (h : f.wf = true) : BasicW .strict f f.print := by
  simp only [BasicFunctionTerm.wf, Bool.and_eq_true, List.all_eq_true] at h
  exact .app (g := []) .nil (Name.print_w h.1) (sec_spaced sep_blank rfl fun a ha => Name.print_w (h.2 a ha))

theorem FHead.print_w {f : FHead} (h : f.wf = true) : FHeadW .strict f f.print := by
  cases f with
  | simple f =>
    have := FHeadW.simple (m := .strict) (g := []) (g' := []) .nil (Name.print_w h) rfl
    rw [List.append_nil] at this
    exact this
  | withTerms f ts =>
    simp only [FHead.wf, Bool.and_eq_true, Bool.not_eq_true', List.isEmpty_eq_false_iff] at h
    rw [FHead.print, Term.prints_eq]
    exact .terms (g := []) .nil (Name.print_w h.1.1) (sec_spaced sep_blank rfl (Term.prints_w _ h.2))
      fun _ => h.1.2

/-! ## Numeric expressions -/

theorem FExp.prints_eq : ∀ ts : List FExp, FExp.prints ts = spaced (ts.map FExp.print)
  | [] => rfl
  | t :: ts => by rw [FExp.prints, FExp.prints_eq ts]; rfl

theorem ne_of_two {as : List α} (h : 2 ≤ as.length) : as ≠ [] := by
  intro e; rw [e] at h; simp at h

mutual
theorem FExp.print_w : ∀ e : FExp, e.wf = true → FExpW .strict e e.print
  | .number n, h => .number (Number.print_w h)
  | .function f, h => .function (FHead.print_w h)
  | .negative e, h => .negative (g0 := []) (g := [' ']) (g' := []) .nil sp_blank.2 (FExp.print_w e h) rfl
  | .binaryOp op a b, h => by
    simp only [FExp.wf, Bool.and_eq_true] at h
    exact .binaryOp (g0 := []) (g1 := [' ']) (g2 := [' ']) (g3 := []) .nil sp_blank (FExp.print_w a h.1) sp_blank
      (FExp.print_w b h.2) rfl
  | .multiOp op a bs, h => by
    simp only [FExp.wf, Bool.and_eq_true, decide_eq_true_eq] at h
    have hi := items_joined (ne_of_two h.1.2) (FExp.prints_w bs h.2)
    have := FExpW.multiOp (m := .strict) (op := op) (g0 := []) (g1 := [' ']) (g2 := [' ']) (g3 := []) .nil sp_blank
      (FExp.print_w a h.1.1) sep_blank hi rfl h.1.2
    rw [List.append_nil] at this
    rw [FExp.print, FExp.prints_eq]
    match bs, h.1.2 with
    | b :: bs, _ => exact this
theorem FExp.prints_w : ∀ ts : List FExp, FExp.wfs ts = true → ∀ t ∈ ts, FExpW .strict t t.print
  | [], _ => by simp
  | t :: ts, h => by
    simp only [FExp.wfs, Bool.and_eq_true] at h
    exact List.forall_mem_cons.mpr ⟨FExp.print_w t h.1, FExp.prints_w ts h.2⟩
end

theorem FExp.isFunctionB_iff {e : FExp} : e.isFunctionB = true ↔ e.isFunction := by
  cases e <;> simp [FExp.isFunctionB, FExp.isFunction]

theorem FExp.isNumberB_iff {e : FExp} : e.isNumberB = true ↔ e.isNumber := by
  cases e <;> simp [FExp.isNumberB, FExp.isNumber]

theorem FExp.isSimple_of {e : FExp} (h : (e.isFunctionB || e.isNumberB) = true) : e.isSimple := by
  cases e <;> simp [FExp.isFunctionB, FExp.isNumberB, FExp.isSimple] at h ⊢

theorem FExpDa.prints_eq : ∀ ts : List FExpDa, FExpDa.prints ts = spaced (ts.map FExpDa.print)
  | [] => rfl
  | t :: ts => by rw [FExpDa.prints, FExpDa.prints_eq ts]; rfl

mutual
theorem FExpDa.print_w : ∀ e : FExpDa, e.wf = true → FExpDaW .strict e e.print
  | .assign _ _ _, h => by cases h
  | .duration, _ => .duration
  | .fExp e, h => by
    simp only [FExpDa.wf, Bool.and_eq_true] at h
    exact .fExp (FExp.print_w e h.2) fun _ => FExp.isSimple_of h.1
  | .negative e, h => .negative (g0 := []) (g := [' ']) (g' := []) .nil sp_blank.2 (FExpDa.print_w e h) rfl
  | .binaryOp op a b, h => by
    simp only [FExpDa.wf, Bool.and_eq_true] at h
    exact .binaryOp (g0 := []) (g1 := [' ']) (g2 := [' ']) (g3 := []) .nil sp_blank (FExpDa.print_w a h.1) sp_blank
      (FExpDa.print_w b h.2) rfl
  | .multiOp op a bs, h => by
    simp only [FExpDa.wf, Bool.and_eq_true, decide_eq_true_eq] at h
    have hi := items_joined (ne_of_two h.1.2) (FExpDa.prints_w bs h.2)
    have := FExpDaW.multiOp (m := .strict) (op := op) (g0 := []) (g1 := [' ']) (g2 := [' ']) (g3 := []) .nil sp_blank
      (FExpDa.print_w a h.1.1) sep_blank hi rfl h.1.2
    rw [List.append_nil] at this
    rw [FExpDa.print, FExpDa.prints_eq]
    match bs, h.1.2 with
    | b :: bs, _ => exact this
theorem FExpDa.prints_w : ∀ ts : List FExpDa, FExpDa.wfs ts = true → ∀ t ∈ ts, FExpDaW .strict t t.print
  | [], _ => by simp
  | t :: ts, h => by
    simp only [FExpDa.wfs, Bool.and_eq_true] at h
    exact List.forall_mem_cons.mpr ⟨FExpDa.print_w t h.1, FExpDa.prints_w ts h.2⟩
end

theorem FExpT.print_w {e : FExpT} (h : e.wf = true) : FExpTW .strict e e.print := by
  cases e with
  | now => exact .now
  | scaled e =>
    exact .left (g0 := [' ']) (g1 := [' ']) (g2 := []) gap_blank sp_blank (FExp.print_w e h) .nil

theorem FComp.print_w {c : FComp} (h : c.wf = true) : FCompW .strict c c.print := by
  simp only [FComp.wf, Bool.and_eq_true] at h
  exact .mk (g0 := []) (g1 := [' ']) (g2 := [' ']) (g3 := []) .nil sp_blank (FExp.print_w _ h.1) sp_blank
    (FExp.print_w _ h.2) rfl

/-! ## Goals -/

theorem GD.prints_eq : ∀ ts : List GD, GD.prints ts = spaced (ts.map GD.print)
  | [] => rfl
  | t :: ts => by rw [GD.prints, GD.prints_eq ts]; rfl

mutual
theorem GD.print_w : ∀ g : GD, g.wf = true → GDW .strict g g.print
  | .atomic a, h => by
    simp only [GD.wf, Bool.and_eq_true] at h
    exact .atomic (atomT_w h.1) fun _ => AtomicFormula.headOk_iff h.2
  | .literal _, h => by cases h
  | .and gs, h => by
    rw [GD.print, GD.prints_eq]
    exact .and (sec_spaced gap_blank .nil (GD.prints_w gs h))
  | .or gs, h => by
    rw [GD.print, GD.prints_eq]
    exact .or (sec_spaced gap_blank .nil (GD.prints_w gs h))
  | .not g, h => .not (g1 := [' ']) (g2 := []) gap_blank (GD.print_w g h) .nil
  | .imply a b, h => by
    simp only [GD.wf, Bool.and_eq_true] at h
    exact .imply (g1 := [' ']) (g2 := [' ']) (g3 := []) gap_blank (GD.print_w a h.1) sep_blank (GD.print_w b h.2) .nil
  | .exist vs g, h => by
    simp only [GD.wf, Bool.and_eq_true] at h
    exact .exist (g1 := [' ']) (g2 := [' ']) (g3 := []) gap_blank (printVars_w h.1) sep_blank (GD.print_w g h.2) .nil
  | .forall_ vs g, h => by
    simp only [GD.wf, Bool.and_eq_true] at h
    exact .forall_ (g1 := [' ']) (g2 := [' ']) (g3 := []) gap_blank (printVars_w h.1) sep_blank (GD.print_w g h.2) .nil
  | .fComp c, h => by
    simp only [GD.wf, Bool.and_eq_true, Bool.not_eq_true', Bool.and_eq_false_iff, decide_eq_false_iff_not] at h
    refine .fComp (FComp.print_w h.1) fun _ hc hf => ?_
    rcases h.2 with (h2 | h2) | h2
    · exact h2 hc
    · rw [FExp.isFunctionB_iff.mpr hf.1] at h2; cases h2
    · rw [FExp.isFunctionB_iff.mpr hf.2] at h2; cases h2
theorem GD.prints_w : ∀ ts : List GD, GD.wfs ts = true → ∀ t ∈ ts, GDW .strict t t.print
  | [], _ => by simp
  | t :: ts, h => by
    simp only [GD.wfs, Bool.and_eq_true] at h
    exact List.forall_mem_cons.mpr ⟨GD.print_w t h.1, GD.prints_w ts h.2⟩
end

theorem not_isPrefixOf {t u : List Char} (h : t.isPrefixOf u = false) (r : List Char) : u ≠ t ++ r := by
  intro e
  have : t.isPrefixOf u = true := by rw [List.isPrefixOf_iff_prefix]; exact ⟨r, e.symm⟩
  rw [this] at h
  cases h

theorem GD.notPreferenceB_iff {g : GD} (h : g.notPreferenceB = true) : g.notPreference := by
  unfold GD.notPreferenceB at h
  split at h
  · exact not_isPrefixOf (by simpa using h)
  · rename_i hne
    unfold GD.notPreference
    split
    · exact absurd rfl (hne _ _)
    · trivial

theorem PrefGD.print_w {p : PrefGD} (h : p.wf = true) : PrefGDW .strict p p.print := by
  cases p with
  | goal g =>
    simp only [PrefGD.wf, Bool.and_eq_true] at h
    exact .goal (GD.print_w g h.1) fun _ => GD.notPreferenceB_iff h.2
  | preference n g =>
    simp only [PrefGD.wf, Bool.and_eq_true] at h
    cases n with
    | none => exact .anonymous (g1 := [' ']) (g2 := []) gap_blank (GD.print_w g h.2) .nil
    | some n =>
      exact .named (g1 := [' ']) (g2 := [' ']) (g3 := []) sep_blank (Name.print_w h.1) sep_blank (GD.print_w g h.2) .nil

theorem PrefGD.notPreB_iff {p : PrefGD} (h : p.notPreB = true) : p.notPre := by
  cases p with
  | goal g => cases g <;> simp [PrefGD.notPre, PrefGD.notPreB] at h ⊢
  | preference => trivial

theorem PreGD.prints_eq : ∀ ts : List PreGD, PreGD.prints ts = spaced ((ts.map ([·])).map fun l => joined (l.map PreGD.print))
  | [] => rfl
  | t :: ts => by rw [PreGD.prints, PreGD.prints_eq ts]; simp [spaced, joined]

theorem flatten_singles (ts : List α) : (ts.map ([·])).flatten = ts := by
  induction ts with
  | nil => rfl
  | cons t ts ih => simp [ih]

theorem printPre_of {gs : List PreGD} (h : ∀ g ∈ gs, PreGDW .strict [g] g.print) :
    PreGDW .strict gs (printPre gs) := by
  rw [printPre, PreGD.prints_eq]
  have := PreGDW.and (m := .strict) (gss := gs.map ([·])) (u := spaced ((gs.map ([·])).map fun l => joined (l.map PreGD.print)))
    (sec_spaced gap_blank .nil (by
      intro l hl
      obtain ⟨g, hg, rfl⟩ := List.mem_map.mp hl
      simpa [joined, spaced] using h g hg))
  rw [flatten_singles] at this
  exact this

mutual
theorem PreGD.print_w : ∀ g : PreGD, g.wf = true → PreGDW .strict [g] g.print
  | .preference p, h => by
    simp only [PreGD.wf, Bool.and_eq_true] at h
    exact .pref (PrefGD.print_w h.1) fun _ => PrefGD.notPreB_iff h.2
  | .forall_ vs gs, h => by
    simp only [PreGD.wf, Bool.and_eq_true] at h
    exact .forall_ (g1 := [' ']) (g2 := [' ']) (g3 := []) gap_blank (printVars_w h.1) sep_blank
      (printPre_of (PreGD.prints_w gs h.2)) .nil
theorem PreGD.prints_w : ∀ ts : List PreGD, PreGD.wfs ts = true → ∀ t ∈ ts, PreGDW .strict [t] t.print
  | [], _ => by simp
  | t :: ts, h => by
    simp only [PreGD.wfs, Bool.and_eq_true] at h
    exact List.forall_mem_cons.mpr ⟨PreGD.print_w t h.1, PreGD.prints_w ts h.2⟩
end

theorem printPre_w {gs : List PreGD} (h : PreGD.wfs gs = true) : PreGDW .strict gs (printPre gs) :=
  printPre_of (PreGD.prints_w gs h)

/-! ## Trajectory constraints -/

theorem ConGD.prints_eq : ∀ ts : List ConGD, ConGD.prints ts = spaced (ts.map ConGD.print)
  | [] => rfl
  | t :: ts => by rw [ConGD.prints, ConGD.prints_eq ts]; rfl

theorem ConGD.isTimedB_iff {g : ConGD} (h : g.isTimedB = true) : g.isTimed := by
  cases g <;> simp [ConGD.isTimedB, ConGD.isTimed] at h ⊢

mutual
theorem ConGD.print_w : ∀ g : ConGD, g.wf = true → ConGDW .strict g g.print
  | .and gs, h => by
    rw [ConGD.print, ConGD.prints_eq]
    exact .and (sec_spaced gap_blank .nil (ConGD.prints_w gs (by simpa only [ConGD.wf] using h)))
  | .forall_ vs g, h => by
    simp only [ConGD.wf, Bool.and_eq_true] at h
    rw [ConGD.print]
    exact .forall_ (g1 := [' ']) (g2 := [' ']) (g3 := []) gap_blank (printVars_w h.1) sep_blank (ConGD.print_w g h.2) .nil
  | .atEnd g, h => by
    simp only [ConGD.wf] at h
    rw [ConGD.print]
    exact .atEnd (g1 := [' ']) (g2 := []) gap_blank (GD.print_w g h) .nil
  | .always g, h => by
    simp only [ConGD.wf] at h
    rw [ConGD.print]
    exact .always (g1 := [' ']) (g2 := []) gap_blank (Con2GD.print_w g h) .nil
  | .sometime g, h => by
    simp only [ConGD.wf] at h
    rw [ConGD.print]
    exact .sometime (g1 := [' ']) (g2 := []) gap_blank (Con2GD.print_w g h) .nil
  | .within n g, h => by
    simp only [ConGD.wf, Bool.and_eq_true] at h
    rw [ConGD.print]
    exact .within (g1 := [' ']) (g2 := [' ']) (g3 := []) sep_blank (Number.print_w h.1) sep_blank (Con2GD.print_w g h.2) .nil
  | .atMostOnce g, h => by
    simp only [ConGD.wf] at h
    rw [ConGD.print]
    exact .atMostOnce (g1 := [' ']) (g2 := []) gap_blank (Con2GD.print_w g h) .nil
  | .sometimeAfter a b, h => by
    simp only [ConGD.wf, Bool.and_eq_true] at h
    rw [ConGD.print]
    exact .sometimeAfter (g1 := [' ']) (g2 := [' ']) (g3 := []) gap_blank (Con2GD.print_w a h.1) sep_blank
      (Con2GD.print_w b h.2) .nil
  | .sometimeBefore a b, h => by
    simp only [ConGD.wf, Bool.and_eq_true] at h
    rw [ConGD.print]
    exact .sometimeBefore (g1 := [' ']) (g2 := [' ']) (g3 := []) gap_blank (Con2GD.print_w a h.1) sep_blank
      (Con2GD.print_w b h.2) .nil
  | .alwaysWithin n a b, h => by
    simp only [ConGD.wf, Bool.and_eq_true] at h
    rw [ConGD.print]
    exact .alwaysWithin (g1 := [' ']) (g2 := [' ']) (g3 := [' ']) (g4 := []) sep_blank (Number.print_w h.1.1) sep_blank
      (Con2GD.print_w a h.1.2) sep_blank (Con2GD.print_w b h.2) .nil
  | .holdDuring n m g, h => by
    simp only [ConGD.wf, Bool.and_eq_true] at h
    rw [ConGD.print]
    exact .holdDuring (g1 := [' ']) (g2 := [' ']) (g3 := [' ']) (g4 := []) sep_blank (Number.print_w h.1.1) sp_blank
      (Number.print_w h.1.2) sep_blank (Con2GD.print_w g h.2) .nil
  | .holdAfter n g, h => by
    simp only [ConGD.wf, Bool.and_eq_true] at h
    rw [ConGD.print]
    exact .holdAfter (g1 := [' ']) (g2 := [' ']) (g3 := []) sep_blank (Number.print_w h.1) sep_blank (Con2GD.print_w g h.2) .nil
theorem Con2GD.print_w : ∀ g : Con2GD, g.wf = true → Con2W .strict (ConGDW .strict) g g.print
  | .goal g, h => by
    simp only [Con2GD.wf] at h
    rw [Con2GD.print]
    exact .goal (GD.print_w g h)
  | .nested g, h => by
    simp only [Con2GD.wf, Bool.and_eq_true] at h
    rw [Con2GD.print]
    exact .nested (ConGD.print_w g h.2) fun _ => ConGD.isTimedB_iff h.1
theorem ConGD.prints_w : ∀ ts : List ConGD, ConGD.wfs ts = true → ∀ t ∈ ts, ConGDW .strict t t.print
  | [], _ => by simp
  | t :: ts, h => by
    simp only [ConGD.wfs, Bool.and_eq_true] at h
    exact List.forall_mem_cons.mpr ⟨ConGD.print_w t h.1, ConGD.prints_w ts h.2⟩
end

theorem ConGD.notPreB_iff {p : ConGD} (h : p.notPreB = true) : p.notPre := by
  cases p <;> simp [ConGD.notPre, ConGD.notPreB] at h ⊢

theorem PrefConGD.prints_eq : ∀ ts : List PrefConGD,
    PrefConGD.prints ts = spaced ((ts.map ([·])).map fun l => joined (l.map PrefConGD.print))
  | [] => rfl
  | t :: ts => by rw [PrefConGD.prints, PrefConGD.prints_eq ts]; simp [spaced, joined]

theorem printPrefCon_of {gs : List PrefConGD} (h : ∀ g ∈ gs, PrefConGDW .strict [g] g.print) :
    PrefConGDW .strict gs (printPrefCon gs) := by
  rw [printPrefCon, PrefConGD.prints_eq]
  have := PrefConGDW.and (m := .strict) (gss := gs.map ([·]))
    (u := spaced ((gs.map ([·])).map fun l => joined (l.map PrefConGD.print)))
    (sec_spaced gap_blank .nil (by
      intro l hl
      obtain ⟨g, hg, rfl⟩ := List.mem_map.mp hl
      simpa [joined, spaced] using h g hg))
  rw [flatten_singles] at this
  exact this

mutual
theorem PrefConGD.print_w : ∀ g : PrefConGD, g.wf = true → PrefConGDW .strict [g] g.print
  | .goal p, h => by
    simp only [PrefConGD.wf, Bool.and_eq_true] at h
    exact .goal (ConGD.print_w _ h.1) fun _ => ConGD.notPreB_iff h.2
  | .forall_ vs gs, h => by
    simp only [PrefConGD.wf, Bool.and_eq_true] at h
    exact .forall_ (g1 := [' ']) (g2 := [' ']) (g3 := []) gap_blank (printVars_w h.1) sep_blank
      (printPrefCon_of (PrefConGD.prints_w gs h.2)) .nil
  | .preference none g, h => by
    simp only [PrefConGD.wf, Bool.and_eq_true] at h
    exact .anonymous (g1 := [' ']) (g2 := []) gap_blank (ConGD.print_w g h.2) .nil
  | .preference (some n) g, h => by
    simp only [PrefConGD.wf, Bool.and_eq_true] at h
    exact .named (g1 := [' ']) (g2 := [' ']) (g3 := []) sep_blank (Name.print_w h.1) sep_blank (ConGD.print_w g h.2) .nil
theorem PrefConGD.prints_w : ∀ ts : List PrefConGD, PrefConGD.wfs ts = true →
    ∀ t ∈ ts, PrefConGDW .strict [t] t.print
  | [], _ => by simp
  | t :: ts, h => by
    simp only [PrefConGD.wfs, Bool.and_eq_true] at h
    exact List.forall_mem_cons.mpr ⟨PrefConGD.print_w t h.1, PrefConGD.prints_w ts h.2⟩
end

theorem printPrefCon_w {gs : List PrefConGD} (h : PrefConGD.wfs gs = true) :
    PrefConGDW .strict gs (printPrefCon gs) := printPrefCon_of (PrefConGD.prints_w gs h)

/-! ## Effects -/

theorem assignWord_w (op : AssignOp) (b : Bool) : AssignOpW op (assignWord op b) := by
  cases op <;> cases b <;> constructor

theorem PEffect.print_w {p : PEffect} (h : p.wf = true) : PEffectW .strict p p.print := by
  cases p with
  | atomic a =>
    simp only [PEffect.wf, Bool.and_eq_true] at h
    exact .atomic (atomT_w h.1) fun _ => AtomicFormula.headOk_iff h.2
  | notAtomic a => exact .notAtomic (g1 := [' ']) (g2 := []) gap_blank (atomT_w h) .nil
  | assignNumeric op f e =>
    simp only [PEffect.wf, Bool.and_eq_true] at h
    refine .numeric (g0 := []) (g1 := [' ']) (g2 := [' ']) (g3 := []) .nil (assignWord_w op _) sep_blank
      (FHead.print_w h.1) sp_blank (FExp.print_w e h.2) rfl ?_
    intro _ hw _ hf
    rw [FExp.isFunctionB_iff.mpr hf] at hw
    cases op <;> cases hw
  | assignObject f o =>
    cases o with
    | none => exact .undefined (g1 := [' ']) (g2 := [' ']) (g3 := []) gap_blank (FunctionTerm.print_w h) sp_blank .nil
    | some o =>
      simp only [PEffect.wf, Bool.and_eq_true, Bool.not_eq_true', beq_eq_false_iff_ne] at h
      exact .object (g1 := [' ']) (g2 := [' ']) (g3 := []) gap_blank (FunctionTerm.print_w h.1.1) sp_blank
        (Term.print_w o h.1.2) .nil fun _ => h.2

theorem CondEffect.print_w {e : CondEffect} (h : e.wf = true) : CondEffectW .strict e e.print := by
  cases e with
  | single p => exact .single (PEffect.print_w h)
  | all ps =>
    simp only [CondEffect.wf, List.all_eq_true] at h
    exact .all (sec_spaced gap_blank .nil fun p hp => PEffect.print_w (h p hp))

theorem CEffect.prints_eq : ∀ ts : List CEffect, CEffect.prints ts = spaced (ts.map CEffect.print)
  | [] => rfl
  | t :: ts => by rw [CEffect.prints, CEffect.prints_eq ts]; rfl

theorem printEffects_of {es : List CEffect} (h : ∀ e ∈ es, CEffectW .strict e e.print) :
    EffectW (CEffectW .strict) es (printEffects es) := by
  rw [printEffects, CEffect.prints_eq]
  exact .all (sec_spaced gap_blank .nil h)

mutual
theorem CEffect.print_w : ∀ e : CEffect, e.wf = true → CEffectW .strict e e.print
  | .effect p, h => .effect (PEffect.print_w h)
  | .forall_ vs es, h => by
    simp only [CEffect.wf, Bool.and_eq_true] at h
    exact .forall_ (g1 := [' ']) (g2 := [' ']) (g3 := []) gap_blank (printVars_w h.1) sep_blank
      (printEffects_of (CEffect.prints_w es h.2)) .nil
  | .when c e, h => by
    simp only [CEffect.wf, Bool.and_eq_true] at h
    exact .when (g1 := [' ']) (g2 := [' ']) (g3 := []) gap_blank (GD.print_w c h.1) sep_blank (CondEffect.print_w h.2) .nil
theorem CEffect.prints_w : ∀ ts : List CEffect, CEffect.wfs ts = true → ∀ t ∈ ts, CEffectW .strict t t.print
  | [], _ => by simp
  | t :: ts, h => by
    simp only [CEffect.wfs, Bool.and_eq_true] at h
    exact List.forall_mem_cons.mpr ⟨CEffect.print_w t h.1, CEffect.prints_w ts h.2⟩
end

theorem printEffects_w {es : List CEffect} (h : CEffect.wfs es = true) :
    EffectW (CEffectW .strict) es (printEffects es) := printEffects_of (CEffect.prints_w es h)

/-! ## Actions -/

theorem ActionDef.print_w {a : ActionDef} (h : a.wf = true) : ActionW .strict a a.print := by
  obtain ⟨n, vs, pre, eff⟩ := a
  simp only [ActionDef.wf, Bool.and_eq_true] at h
  obtain ⟨⟨⟨h1, h2⟩, h3⟩, h4⟩ := h
  have hpre : SlotW c!":precondition" (PreGDW .strict) (some (some pre))
      (printSlot c!":precondition" printPre (some pre)) :=
    .present (g := [' ']) gap_blank (.some (g := [' ']) sep_blank (printPre_w h3))
  cases eff with
  | none =>
    have := ActionW.mk (m := .strict) (g1 := [' ']) (g2 := [' ']) (g3 := [' ']) (g4 := []) sep_blank (Name.print_w h1)
      sp_blank sep_blank (printVars_w h2) hpre .absent .nil
    exact this
  | some es =>
    have heff : SlotW c!":effect" (EffectW (CEffectW .strict)) (some (some es))
        (printSlot c!":effect" printEffects (some es)) :=
      .present (g := [' ']) gap_blank (.some (g := [' ']) sep_blank (printEffects_w h4))
    have := ActionW.mk (m := .strict) (g1 := [' ']) (g2 := [' ']) (g3 := [' ']) (g4 := []) sep_blank (Name.print_w h1)
      sp_blank sep_blank (printVars_w h2) hpre heff .nil
    rw [List.append_nil] at this
    exact this

theorem DerivedPredicate.print_w {d : DerivedPredicate} (h : d.wf = true) : DerivedW .strict d d.print := by
  simp only [DerivedPredicate.wf, Bool.and_eq_true] at h
  exact .mk (g1 := [' ']) (g2 := [' ']) (g3 := []) gap_blank (Skeleton.print_w h.1) sep_blank (GD.print_w _ h.2) .nil

/-! ## Durative actions -/

theorem TimedGD.print_w {g : TimedGD} (h : g.wf = true) : TimedGDW .strict g g.print := by
  cases g with
  | «at» t g => exact .at (g1 := [' ']) (g2 := [' ']) (g3 := []) sep_blank sep_blank (GD.print_w g h) .nil
  | over i g => exact .over (g1 := [' ']) (g2 := [' ']) (g3 := []) sep_blank sep_blank (GD.print_w g h) .nil

theorem PrefTimedGD.print_w {g : PrefTimedGD} (h : g.wf = true) : PrefTimedGDW .strict g g.print := by
  cases g with
  | required g => exact .required (TimedGD.print_w h)
  | preference n g =>
    simp only [PrefTimedGD.wf, Bool.and_eq_true] at h
    cases n with
    | none => exact .anonymous (g1 := [' ']) (g2 := []) gap_blank (TimedGD.print_w h.2) .nil
    | some n =>
      exact .named (g1 := [' ']) (g2 := [' ']) (g3 := []) sep_blank (Name.print_w h.1) sep_blank (TimedGD.print_w h.2) .nil

theorem DaGD.prints_eq : ∀ ts : List DaGD, DaGD.prints ts = spaced (ts.map DaGD.print)
  | [] => rfl
  | t :: ts => by rw [DaGD.prints, DaGD.prints_eq ts]; rfl

mutual
theorem DaGD.print_w : ∀ g : DaGD, g.wf = true → DaGDW .strict g g.print
  | .timed g, h => .timed (PrefTimedGD.print_w h)
  | .and gs, h => by
    rw [DaGD.print, DaGD.prints_eq]
    exact .and (sec_spaced gap_blank .nil (DaGD.prints_w gs h))
  | .forall_ vs g, h => by
    simp only [DaGD.wf, Bool.and_eq_true] at h
    exact .forall_ (g1 := [' ']) (g2 := [' ']) (g3 := []) gap_blank (printVars_w h.1) sep_blank (DaGD.print_w g h.2) .nil
theorem DaGD.prints_w : ∀ ts : List DaGD, DaGD.wfs ts = true → ∀ t ∈ ts, DaGDW .strict t t.print
  | [], _ => by simp
  | t :: ts, h => by
    simp only [DaGD.wfs, Bool.and_eq_true] at h
    exact List.forall_mem_cons.mpr ⟨DaGD.print_w t h.1, DaGD.prints_w ts h.2⟩
end

theorem FAssignDa.print_w {a : FAssignDa} (h : a.wf = true) : FAssignDaW .strict a a.print := by
  simp only [FAssignDa.wf, Bool.and_eq_true] at h
  exact .mk (g0 := []) (g1 := [' ']) (g2 := [' ']) (g3 := []) .nil (assignWord_w _ _) sep_blank (FHead.print_w h.1) sp_blank
    (FExpDa.print_w _ h.2) rfl

theorem CondEffect.notAssignmentB_iff {e : CondEffect} (h : e.notAssignmentB = true) : e.notAssignment := by
  cases e with
  | single p => cases p <;> simp [CondEffect.notAssignmentB, CondEffect.notAssignment] at h ⊢
  | all => trivial

theorem TimedEffect.print_w {e : TimedEffect} (h : e.wf = true) : TimedEffectW .strict e e.print := by
  cases e with
  | conditional t e =>
    simp only [TimedEffect.wf, Bool.and_eq_true] at h
    exact .conditional (g1 := [' ']) (g2 := [' ']) (g3 := []) sep_blank sep_blank (CondEffect.print_w h.1) .nil
      fun _ => CondEffect.notAssignmentB_iff h.2
  | numericFluent t e =>
    exact .numericFluent (m := .strict) (g1 := [' ']) (g2 := [' ']) (g3 := []) sep_blank sep_blank (FAssignDa.print_w h) .nil
  | continuous op f e =>
    simp only [TimedEffect.wf, Bool.and_eq_true] at h
    exact .continuous (g0 := []) (g1 := [' ']) (g2 := [' ']) (g3 := []) .nil sep_blank (FHead.print_w h.1) sp_blank
      (FExpT.print_w h.2) rfl

theorem DaEffect.prints_eq : ∀ ts : List DaEffect, DaEffect.prints ts = spaced (ts.map DaEffect.print)
  | [] => rfl
  | t :: ts => by rw [DaEffect.prints, DaEffect.prints_eq ts]; rfl

mutual
theorem DaEffect.print_w : ∀ g : DaEffect, g.wf = true → DaEffectW .strict g g.print
  | .timed g, h => .timed (TimedEffect.print_w h)
  | .all gs, h => by
    rw [DaEffect.print, DaEffect.prints_eq]
    exact .all (sec_spaced gap_blank .nil (DaEffect.prints_w gs h))
  | .forall_ vs g, h => by
    simp only [DaEffect.wf, Bool.and_eq_true] at h
    exact .forall_ (g1 := [' ']) (g2 := [' ']) (g3 := []) gap_blank (printVars_w h.1) sep_blank (DaEffect.print_w g h.2) .nil
  | .when c e, h => by
    simp only [DaEffect.wf, Bool.and_eq_true] at h
    exact .when (g1 := [' ']) (g2 := [' ']) (g3 := []) gap_blank (DaGD.print_w c h.1) sep_blank (TimedEffect.print_w h.2) .nil
theorem DaEffect.prints_w : ∀ ts : List DaEffect, DaEffect.wfs ts = true → ∀ t ∈ ts, DaEffectW .strict t t.print
  | [], _ => by simp
  | t :: ts, h => by
    simp only [DaEffect.wfs, Bool.and_eq_true] at h
    exact List.forall_mem_cons.mpr ⟨DaEffect.print_w t h.1, DaEffect.prints_w ts h.2⟩
end

theorem DurationValue.print_w {v : DurationValue} (h : v.wf = true) : DValueW .strict v v.print := by
  cases v with
  | number n => exact .number (Number.print_w h)
  | fExp e =>
    simp only [DurationValue.wf, Bool.and_eq_true, Bool.not_eq_true'] at h
    refine .fExp (FExp.print_w e h.1) fun _ hn => ?_
    rw [FExp.isNumberB_iff.mpr hn] at h
    cases h.2

theorem SimpleDuration.print_w : ∀ c : SimpleDuration, c.wf = true → SimpleDurationW .strict c c.print
  | .op _ _, h =>
    .op (g0 := []) (g1 := [' ']) (g2 := [' ']) (g3 := []) .nil sp_blank sp_blank (DurationValue.print_w h) rfl
  | .at _ c, h =>
    .at (g1 := [' ']) (g2 := [' ']) (g3 := []) sep_blank sep_blank (SimpleDuration.print_w c h) .nil

theorem DurationConstraint.print_w {c : DurationConstraint} (h : c.wf = true) : DurationW .strict c c.print := by
  cases c with
  | single c => exact .single (SimpleDuration.print_w c h)
  | all cs =>
    simp only [DurationConstraint.wf, Bool.and_eq_true, Bool.not_eq_true', List.isEmpty_eq_false_iff,
      List.all_eq_true] at h
    have := DurationW.all (m := .strict) (g1 := [' ']) (g2 := []) gap_blank
      (items_joined (R := SimpleDurationW .strict) (pr := SimpleDuration.print) h.1 fun c hc => SimpleDuration.print_w c (h.2 c hc)) .nil
    rw [List.append_nil] at this
    match cs, h.1 with
    | c :: cs, _ => exact this

theorem printOrEmpty_w {R : α → List Char → Prop} {pr : α → List Char} {w : α → Bool}
    (hR : ∀ v, w v = true → R v (pr v)) {o : Option α} (h : wfOpt w o = true) :
    EmptyOrW R o (' ' :: printOrEmpty pr o) := by
  cases o with
  | none => exact .empty (g := [' ']) sp_blank
  | some v => exact .some (g := [' ']) sep_blank (hR v h)

theorem DaDef.print_w {a : DaDef} (h : a.wf = true) : DaDefW .strict a a.print := by
  obtain ⟨n, vs, d, c, e⟩ := a
  simp only [DaDef.wf, Bool.and_eq_true] at h
  obtain ⟨⟨⟨⟨h1, h2⟩, h3⟩, h4⟩, h5⟩ := h
  have := DaDefW.mk (m := .strict) (g1 := [' ']) (g2 := [' ']) (g3 := [' ']) (g4 := [' ']) (g5 := [' ']) (g6 := [' '])
    (g7 := []) sep_blank (Name.print_w h1) sp_blank sep_blank (printVars_w h2) sp_blank
    (printOrEmpty_w (R := DurationW .strict) (pr := DurationConstraint.print) (fun _ => DurationConstraint.print_w) h3) sp_blank
    (printOrEmpty_w (R := DaGDW .strict) (pr := DaGD.print) DaGD.print_w h4) sp_blank
    (printOrEmpty_w (R := DaEffectW .strict) (pr := DaEffect.print) DaEffect.print_w h5) .nil
  exact this

theorem StructureDef.print_w {s : StructureDef} (h : s.wf = true) : StructureW .strict s s.print := by
  cases s with
  | action a => exact .action (ActionDef.print_w h)
  | durative a => exact .durative (DaDef.print_w h)
  | derived a => exact .derived (DerivedPredicate.print_w h)

/-! ## Sections -/

theorem BasicFunctionTerm.print_head (f : BasicFunctionTerm) : f.print.head? = some '(' := rfl

theorem InitElement.print_w {e : InitElement} (h : e.wf = true) : InitElW .strict e e.print := by
  cases e with
  | literal l => exact .literal (Literal.print_w h)
  | «at» n l =>
    simp only [InitElement.wf, Bool.and_eq_true] at h
    exact .at (g1 := [' ']) (g2 := [' ']) (g3 := []) sep_blank (Number.print_w h.1) sep_blank (Literal.print_w h.2) .nil
  | isValue f n =>
    simp only [InitElement.wf, Bool.and_eq_true] at h
    exact .isValue (g1 := [' ']) (g2 := [' ']) (g3 := []) gap_blank (BasicFunctionTerm.print_w h.1) sp_blank
      (Number.print_w h.2) .nil
  | isObject f o =>
    simp only [InitElement.wf, Bool.and_eq_true] at h
    exact .isObject (g1 := [' ']) (g2 := [' ']) (g3 := []) gap_blank (BasicFunctionTerm.print_w h.1) sep_blank
      (Name.print_w h.2) .nil fun _ => rfl

theorem numeral_w {n : Nat} (h : n < 2 ^ 64) : U64W n (numeral n) := by
  obtain ⟨h1, h2, h3⟩ := numeral_spec n
  exact ⟨h1, h2, h3.symm, h⟩

theorem length_part {kw : List Char} {o : Option Nat} (h : wfOpt (fun n => decide (n < 2 ^ 64)) o = true) :
    OptW Gap (WrapW kw (Mode.word .strict) U64W) o (printOpt ' ' (fun n => form kw [numeral n]) o) := by
  cases o with
  | none => exact .absent
  | some n =>
    exact .present (g := [' ']) gap_blank (.mk (g1 := [' ']) (g2 := []) sep_blank (numeral_w (by simpa [wfOpt] using h)) .nil)

theorem LengthSpec.print_w {l : LengthSpec} (h : l.wf = true) : LengthW .strict l l.print := by
  obtain ⟨s, p⟩ := l
  simp only [LengthSpec.wf, Bool.and_eq_true] at h
  have := LengthW.mk (m := .strict) (length_part h.1) (length_part h.2) .nil
  rw [List.append_nil] at this
  exact this

theorem MetricFExp.prints_eq : ∀ ts : List MetricFExp, MetricFExp.prints ts = spaced (ts.map MetricFExp.print)
  | [] => rfl
  | t :: ts => by rw [MetricFExp.prints, MetricFExp.prints_eq ts]; rfl

mutual
theorem MetricFExp.print_w : ∀ e : MetricFExp, e.wf = true → MetricW .strict e e.print
  | .number n, h => .number (Number.print_w h)
  | .negative e, h => .negative (g0 := []) (g := [' ']) (g' := []) .nil sp_blank.2 (MetricFExp.print_w e h) rfl
  | .binaryOp op a b, h => by
    simp only [MetricFExp.wf, Bool.and_eq_true] at h
    exact .binaryOp (g0 := []) (g1 := [' ']) (g2 := [' ']) (g3 := []) .nil sp_blank (MetricFExp.print_w a h.1) sp_blank
      (MetricFExp.print_w b h.2) rfl
  | .multiOp op a bs, h => by
    simp only [MetricFExp.wf, Bool.and_eq_true, decide_eq_true_eq] at h
    have hi := items_joined (ne_of_two h.1.2) (MetricFExp.prints_w bs h.2)
    have := MetricW.multiOp (m := .strict) (op := op) (g0 := []) (g1 := [' ']) (g2 := [' ']) (g3 := []) .nil sp_blank
      (MetricFExp.print_w a h.1.1) sep_blank hi rfl h.1.2
    rw [List.append_nil] at this
    rw [MetricFExp.print, MetricFExp.prints_eq]
    match bs, h.1.2 with
    | b :: bs, _ => exact this
  | .totalTime, _ => .totalTime
  | .isViolated n, h => .isViolated (g1 := [' ']) (g2 := []) sep_blank (Name.print_w h) .nil
  | .function f ns, h => by
    simp only [MetricFExp.wf, Bool.and_eq_true, Bool.not_eq_true', List.all_eq_true] at h
    exact .function (g := []) .nil (Name.print_w h.1.1)
      (sec_spaced sep_blank rfl fun n hn => Name.print_w (h.2 n hn)) fun _ => not_isPrefixOf h.1.2
theorem MetricFExp.prints_w : ∀ ts : List MetricFExp, MetricFExp.wfs ts = true →
    ∀ t ∈ ts, MetricW .strict t t.print
  | [], _ => by simp
  | t :: ts, h => by
    simp only [MetricFExp.wfs, Bool.and_eq_true] at h
    exact List.forall_mem_cons.mpr ⟨MetricFExp.print_w t h.1, MetricFExp.prints_w ts h.2⟩
end

theorem MetricSpec.print_w {m : MetricSpec} (h : m.wf = true) : MetricSpecW .strict m m.print :=
  .mk (g1 := [' ']) (g2 := [' ']) (g3 := []) sep_blank sp_blank (MetricFExp.print_w _ h) .nil

/-! ## Domain and problem -/

/-- A list that is left out when it is empty. -/
def optList (xs : List α) : Option (List α) := if xs.isEmpty then none else some xs

theorem optList_getD (xs : List α) : (optList xs).getD [] = xs := by
  cases xs <;> rfl

theorem printList_nonEmpty {kw : List Char} {lead : List Char → Prop} {R : α → List Char → Prop}
    {pr : α → List Char} (hl : lead [' ']) {xs : List α} (h : ∀ x ∈ xs, R x (pr x)) :
    OptW Sep (NonEmptyW kw lead R) (optList xs) (printList kw pr xs) := by
  cases xs with
  | nil => exact .absent
  | cons x xs =>
    have := NonEmptyW.mk (kw := kw) (lead := lead) hl (items_joined (by simp) h) .nil
    rw [List.append_nil] at this
    exact .present (g := ['\n']) sep_line this

theorem printList_typedNames {kw : List Char} {xs : TypedList Name} (h : xs.all (Typed.wf Name.wf) = true) :
    OptW Sep (TypedNamesW .strict kw) (optList xs) (printList kw (Typed.print Name.print) xs) := by
  have := TypedNamesW.mk (kw := kw) (typed_sec_w (R := NameW) (d := objectTy)
    (lead := Mode.strict.word) (trail := Gap) sep_blank .nil (fun _ => Name.print_w) h)
  cases xs with
  | nil => exact .absent
  | cons x xs => exact .present (g := ['\n']) sep_line this

theorem printList_functions {xs : TypedList Skeleton} (h : xs.all (Typed.wf Skeleton.wf) = true) :
    OptW Sep (FunctionsW .strict) (optList xs) (printList c!":functions" (Typed.print Skeleton.print) xs) := by
  have := FunctionsW.mk (typed_sec_w (R := SkeletonW .strict) (d := numberTy)
    (lead := Gap) (trail := Gap) gap_blank .nil (fun _ => Skeleton.print_w) h)
  cases xs with
  | nil => exact .absent
  | cons x xs => exact .present (g := ['\n']) sep_line this

theorem wrap_w {kw : List Char} {lead : List Char → Prop} {R : α → List Char → Prop} {v : α} {t : List Char}
    (hl : lead [' ']) (h : R v t) : WrapW kw lead R v (form kw [t]) :=
  .mk (g1 := [' ']) (g2 := []) hl h .nil

theorem Domain.print_w {d : Domain} (h : d.wf = true) : DomainW .strict d d.print := by
  obtain ⟨name, ext, req, ty, con, pre, fn, cstr, tl, st⟩ := d
  simp only [Domain.wf, Bool.and_eq_true, List.isEmpty_iff] at h
  obtain ⟨⟨⟨⟨⟨⟨⟨⟨h1, h2⟩, h3⟩, h4⟩, h5⟩, h6⟩, h7⟩, h8⟩, h9⟩ := h
  subst h8
  simp only [List.all_eq_true] at h2 h5 h9
  have hst : OptW Sep (Items (StructureW .strict)) (optList st) (printStructure st) := by
    cases st with
    | nil => exact .absent
    | cons s ss =>
      exact .present (g := ['\n']) sep_line (items_joined (by simp) fun s hs => StructureDef.print_w (h9 s hs))
  have := DomainW.mk (m := .strict) (g1 := [' ']) (g2 := []) gap_blank
    (wrap_w (kw := c!"domain") (lead := Mode.strict.word) sep_blank (Name.print_w h1))
    (printList_nonEmpty (kw := c!":extends") (lead := Mode.strict.word) (R := NameW) (pr := Name.print) (xs := ext) sep_blank
      fun n hn => Name.print_w (h2 n hn))
    (printList_nonEmpty (kw := c!":requirements") (lead := Mode.strict.word) (R := KeyW) (pr := Requirement.spell) (xs := req)
      sep_blank fun k _ => rfl)
    (printList_typedNames (kw := c!":types") h3) (printList_typedNames (kw := c!":constants") h4)
    (printList_nonEmpty (kw := c!":predicates") (lead := Gap) (R := SkeletonW .strict) (pr := Skeleton.print) (xs := pre) gap_blank
      fun s hs => Skeleton.print_w (h5 s hs))
    (printList_functions h6)
    (.present (g := ['\n']) sep_line (wrap_w (kw := c!":constraints") (lead := Gap) gap_blank (ConGD.print_w cstr h7)))
    hst .nil
  simp only [optList_getD, Option.getD_some, List.append_nil] at this
  exact this

theorem Problem.print_w {p : Problem} (h : p.wf = true) : ProblemW .strict p p.print := by
  obtain ⟨name, domain, req, obj, init, goal, cstr, met, len⟩ := p
  simp only [Problem.wf, Bool.and_eq_true] at h
  obtain ⟨⟨⟨⟨⟨⟨⟨h1, h2⟩, h3⟩, h4⟩, h5⟩, h6⟩, h7⟩, h8⟩ := h
  simp only [List.all_eq_true] at h4
  have hm : OptW Sep (MetricSpecW .strict) met (printOpt '\n' MetricSpec.print met) := by
    cases met with
    | none => exact .absent
    | some m => exact .present (g := ['\n']) sep_line (MetricSpec.print_w h7)
  have hl : OptW Sep (LengthW .strict) len (printOpt '\n' LengthSpec.print len) := by
    cases len with
    | none => exact .absent
    | some m => exact .present (g := ['\n']) sep_line (LengthSpec.print_w h8)
  have := ProblemW.mk (m := .strict) (g1 := [' ']) (g2 := ['\n']) (g3 := ['\n']) (g4 := ['\n']) (g5 := []) gap_blank
    (wrap_w (kw := c!"problem") (lead := Mode.strict.word) sep_blank (Name.print_w h1)) sep_line
    (wrap_w (kw := c!":domain") (lead := Mode.strict.word) sep_blank (Name.print_w h2))
    (printList_nonEmpty (kw := c!":requirements") (lead := Mode.strict.word) (R := KeyW) (pr := Requirement.spell) (xs := req)
      sep_blank fun k _ => rfl)
    (printList_typedNames (kw := c!":objects") h3) sep_line
    (.mk (sec_spaced (R := InitElW .strict) gap_blank .nil fun e he => InitElement.print_w (h4 e he))) sep_line
    (wrap_w (kw := c!":goal") (lead := Gap) gap_blank (printPre_w h5))
    (.present (g := ['\n']) sep_line (wrap_w (kw := c!":constraints") (lead := Gap) gap_blank (printPrefCon_w h6)))
    hm hl .nil
  simp only [optList_getD, Option.getD_some, List.append_nil] at this
  exact this

end Pddl
