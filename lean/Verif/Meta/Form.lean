import Verif.Meta.LocalAll

/-!
# Meta-theory: every parenthesised construct is written as one balanced form
-/

namespace Pddl

theorem VarsW.form {m : Mode} {v : TypedList Name} {t : List Char} (h : VarsW m v t) : Form t := by
  obtain ⟨u, rfl, h⟩ := h
  exact .mk (h.bal (fun _ => id) (fun _ => Mode.tight.gap) fun t h _ => h.bal fun _ _ => VarW.bal)

theorem SkeletonW.form {m : Mode} {v : Skeleton} {t : List Char} (h : SkeletonW m v t) : Form t := by
  cases h with
  | mk h1 h2 h =>
    have := h.bal (fun _ => Mode.word.gap) (fun _ => Mode.tight.gap) fun t h _ =>
      h.bal fun _ _ => VarW.bal
    exact .mk (by bal)

theorem FnTermW.form {m : Mode} {v : FunctionTerm} {t : List Char} (h : FnTermW m v t) : Form t := by
  cases h with
  | mk h1 h2 h =>
    have := h.bal (fun _ => Mode.word.gap) (fun _ => Mode.tight.gap) fun _ h _ =>
      h.bal fun _ _ h _ => h.bal
    exact .mk (by bal)

theorem LiteralW.form {m : Mode} {v : Literal Name} {t : List Char} (h : LiteralW m v t) : Form t := by
  have hn : ∀ (a : Name) t, NameW a t → Bal t := fun _ _ h => h.1.bal
  cases h with
  | neg _ h _ =>
    have := (h.form hn).bal
    exact .mk (by bal)
  | pos h => exact h.form hn

theorem PrefGDW.form {m : Mode} {v : PrefGD} {t : List Char} (h : PrefGDW m v t) : Form t := by
  cases h with
  | goal h => exact h.form
  | named _ _ _ h =>
    have := h.bal
    exact .mk (by bal)
  | anonymous _ h =>
    have := h.bal
    exact .mk (by bal)

theorem PreGDW.form_aux {m : Mode} (n : Nat) : ∀ g t, t.length ≤ n → PreGDW m g t → Form t := by
  induction n with
  | zero =>
    intro v t hn h
    cases h with
    | pref h => exact h.form
    | _ => simp [paren] at hn
  | succ n ih =>
    intro v t hn h
    cases h with
    | forall_ _ h1 _ h2 =>
      simp only [paren, List.length_append, List.length_cons] at hn
      have := h1.bal
      have := (ih _ _ (by omega) h2).bal
      exact .mk (by bal)
    | and h =>
      simp only [paren, List.length_append, List.length_cons] at hn
      have := sec_bal h fun a t h hl => (ih a t (by omega) h).bal
      exact .mk (by bal)
    | pref h => exact h.form

theorem PreGDW.form {m : Mode} {g : List PreGD} {t : List Char} (h : PreGDW m g t) : Form t :=
  PreGDW.form_aux _ g t (Nat.le_refl _) h

theorem ConGDW.form_aux {m : Mode} (n : Nat) : ∀ g t, t.length ≤ n → ConGDW m g t → Form t := by
  induction n with
  | zero =>
    intro v t hn h
    cases h <;> simp [paren] at hn
  | succ n ih =>
    intro v t hn h
    have ih2 : ∀ g t, t.length ≤ n → Con2W m (ConGDW m) g t → Bal t := by
      intro g t hn h
      cases h with
      | goal h => exact h.bal
      | nested h => exact (ih _ _ hn h).bal
    cases h with
    | and h =>
      simp only [paren, List.length_append, List.length_cons] at hn
      have := sec_bal h fun a t h hl => (ih a t (by omega) h).bal
      exact .mk (by bal)
    | forall_ _ h1 _ h2 =>
      simp only [paren, List.length_append, List.length_cons] at hn
      have := h1.bal
      have := (ih _ _ (by omega) h2).bal
      exact .mk (by bal)
    | atEnd _ h =>
      have := h.bal
      exact .mk (by bal)
    | always _ h | sometime _ h | atMostOnce _ h =>
      simp only [paren, List.length_append, List.length_cons] at hn
      have := ih2 _ _ (by omega) h
      exact .mk (by bal)
    | within _ _ _ h | holdAfter _ _ _ h =>
      simp only [paren, List.length_append, List.length_cons] at hn
      have := ih2 _ _ (by omega) h
      exact .mk (by bal)
    | sometimeAfter _ h1 _ h2 | sometimeBefore _ h1 _ h2 =>
      simp only [paren, List.length_append, List.length_cons] at hn
      have := ih2 _ _ (by omega) h1
      have := ih2 _ _ (by omega) h2
      exact .mk (by bal)
    | alwaysWithin _ _ _ h1 _ h2 =>
      simp only [paren, List.length_append, List.length_cons] at hn
      have := ih2 _ _ (by omega) h1
      have := ih2 _ _ (by omega) h2
      exact .mk (by bal)
    | holdDuring _ _ _ _ _ h =>
      simp only [paren, List.length_append, List.length_cons] at hn
      have := ih2 _ _ (by omega) h
      exact .mk (by bal)

theorem ConGDW.form {m : Mode} {g : ConGD} {t : List Char} (h : ConGDW m g t) : Form t :=
  ConGDW.form_aux _ g t (Nat.le_refl _) h

theorem Con2W.form {m : Mode} {g : Con2GD} {t : List Char} (h : Con2W m (ConGDW m) g t) : Form t := by
  cases h with
  | goal h => exact h.form
  | nested h => exact h.form

theorem PrefConGDW.form_aux {m : Mode} (n : Nat) : ∀ g t, t.length ≤ n → PrefConGDW m g t → Form t := by
  induction n with
  | zero =>
    intro v t hn h
    cases h with
    | goal h => exact h.form
    | _ => simp [paren] at hn
  | succ n ih =>
    intro v t hn h
    cases h with
    | and h =>
      simp only [paren, List.length_append, List.length_cons] at hn
      have := sec_bal h fun a t h hl => (ih a t (by omega) h).bal
      exact .mk (by bal)
    | forall_ _ h1 _ h2 =>
      simp only [paren, List.length_append, List.length_cons] at hn
      have := h1.bal
      have := (ih _ _ (by omega) h2).bal
      exact .mk (by bal)
    | named _ _ _ h =>
      have := h.form.bal
      exact .mk (by bal)
    | anonymous _ h =>
      have := h.form.bal
      exact .mk (by bal)
    | goal h => exact h.form

theorem PrefConGDW.form {m : Mode} {g : List PrefConGD} {t : List Char} (h : PrefConGDW m g t) :
    Form t := PrefConGDW.form_aux _ g t (Nat.le_refl _) h

theorem WrapW.form {kw : List Char} {lead : List Char → Prop} {R : α → List Char → Prop} {v : α}
    {t : List Char} (h : WrapW kw lead R v t) (hk : plainText kw = true) (hl : ∀ g, lead g → Gap g)
    (hR : ∀ v t, R v t → Bal t) : Form t := by
  cases h with
  | mk h1 h2 h3 =>
    have := hR _ _ h2
    have := (hl _ h1).bal
    have := Bal.of_kw hk
    exact .mk (by bal)

/-! ## Effects and actions -/

theorem PEffectW.form {m : Mode} {v : PEffect} {t : List Char} (h : PEffectW m v t) : Form t := by
  cases h with
  | notAtomic _ h =>
    have := (h.form fun _ _ h => h.bal).bal
    exact .mk (by bal)
  | undefined _ h =>
    have := h.form.bal
    exact .mk (by bal)
  | object _ h1 _ h2 =>
    have := h1.form.bal
    have := h2.bal
    exact .mk (by bal)
  | numeric _ h1 _ h2 _ h3 =>
    have := h1.bal
    have := h2.bal
    have := h3.bal
    exact .mk (by bal)
  | atomic h => exact h.form fun _ _ h => h.bal

theorem CondEffectW.form {m : Mode} {v : CondEffect} {t : List Char} (h : CondEffectW m v t) :
    Form t := by
  cases h with
  | single h => exact h.form
  | all h =>
    have := sec_bal h fun _ _ h _ => h.form.bal
    exact .mk (by bal)

theorem CEffectW.form_aux {m : Mode} (n : Nat) : ∀ g t, t.length ≤ n → CEffectW m g t → Form t := by
  induction n with
  | zero =>
    intro v t hn h
    cases h with
    | effect h => exact h.form
    | _ => simp [paren] at hn
  | succ n ih =>
    intro v t hn h
    cases h with
    | effect h => exact h.form
    | forall_ _ h1 _ h2 =>
      simp only [paren, List.length_append, List.length_cons] at hn
      have := h1.bal
      cases h2 with
      | single h2 =>
        have := (ih _ _ (by omega) h2).bal
        exact .mk (by bal)
      | all h2 =>
        simp only [paren, List.length_append, List.length_cons] at hn
        have := sec_bal h2 fun a t h hl => (ih a t (by omega) h).bal
        exact .mk (by bal)
    | when _ h1 _ h2 =>
      have := h1.bal
      have := h2.form.bal
      exact .mk (by bal)

theorem CEffectW.form {m : Mode} {v : CEffect} {t : List Char} (h : CEffectW m v t) : Form t :=
  CEffectW.form_aux _ v t (Nat.le_refl _) h

theorem EffectW.form {m : Mode} {v : List CEffect} {t : List Char} (h : EffectW (CEffectW m) v t) :
    Form t := by
  cases h with
  | single h => exact h.form
  | all h =>
    have := sec_bal h fun _ _ h _ => h.form.bal
    exact .mk (by bal)

theorem EmptyOrW.bal {R : α → List Char → Prop} {v : Option α} {t : List Char}
    (h : EmptyOrW R v t) (hR : ∀ v t, R v t → Bal t) : Bal t := by
  cases h with
  | empty h => exact .append (by bal) (.nest .nil .nil)
  | some _ h =>
    have := hR _ _ h
    bal

theorem SlotW.bal {kw : List Char} {R : α → List Char → Prop} {v : Option (Option α)} {t : List Char}
    (h : SlotW kw R v t) (hk : plainText kw = true) (hR : ∀ v t, R v t → Bal t) : Bal t := by
  cases h with
  | absent => exact .nil
  | present _ h =>
    have := h.bal hR
    have := Bal.of_kw hk
    bal

theorem ActionW.form {m : Mode} {v : ActionDef} {t : List Char} (h : ActionW m v t) : Form t := by
  cases h with
  | mk _ _ _ _ h1 h2 h3 =>
    have := h1.bal
    have := h2.bal (by decide) fun _ _ h => h.form.bal
    have := h3.bal (by decide) fun _ _ h => h.form.bal
    exact .mk (by bal)

theorem DerivedW.form {m : Mode} {v : DerivedPredicate} {t : List Char} (h : DerivedW m v t) :
    Form t := by
  cases h with
  | mk _ h1 _ h2 =>
    have := h1.bal
    have := h2.bal
    exact .mk (by bal)

/-! ## Durative actions -/

theorem TimedGDW.form {m : Mode} {v : TimedGD} {t : List Char} (h : TimedGDW m v t) : Form t := by
  cases h with
  | @«at» _ ts _ _ _ _ _ _ h =>
    have := h.bal
    have := ts.bal
    exact .mk (by bal)
  | @over _ i _ _ _ _ _ _ h =>
    have := h.bal
    have : Bal i.spell := by cases i; exact .of_kw (by decide)
    exact .mk (by bal)

theorem PrefTimedGDW.form {m : Mode} {v : PrefTimedGD} {t : List Char} (h : PrefTimedGDW m v t) :
    Form t := by
  cases h with
  | required h => exact h.form
  | named _ _ _ h =>
    have := h.form.bal
    exact .mk (by bal)
  | anonymous _ h =>
    have := h.form.bal
    exact .mk (by bal)

theorem DaGDW.form_aux {m : Mode} (n : Nat) : ∀ g t, t.length ≤ n → DaGDW m g t → Form t := by
  induction n with
  | zero =>
    intro v t hn h
    cases h with
    | timed h => exact h.form
    | _ => simp [paren] at hn
  | succ n ih =>
    intro v t hn h
    cases h with
    | forall_ _ h1 _ h2 =>
      simp only [paren, List.length_append, List.length_cons] at hn
      have := h1.bal
      have := (ih _ _ (by omega) h2).bal
      exact .mk (by bal)
    | and h =>
      simp only [paren, List.length_append, List.length_cons] at hn
      have := sec_bal h fun a t h hl => (ih a t (by omega) h).bal
      exact .mk (by bal)
    | timed h => exact h.form

theorem DaGDW.form {m : Mode} {v : DaGD} {t : List Char} (h : DaGDW m v t) : Form t :=
  DaGDW.form_aux _ v t (Nat.le_refl _) h

theorem FExpDaW.bal_aux {m : Mode} (n : Nat) : ∀ v t, t.length ≤ n → FExpDaW m v t → Bal t := by
  induction n with
  | zero =>
    intro v t hn h
    obtain ⟨c, r, rfl, _⟩ := h.solid
    simp at hn
  | succ n ih =>
    intro v t hn h
    cases h with
    | duration => exact .of_kw (by decide)
    | fExp h => exact h.bal
    | negative _ _ h =>
      simp only [paren, List.length_append, List.length_cons] at hn
      have := ih _ _ (by omega) h
      bal
    | @binaryOp _ op _ _ _ _ _ _ _ _ _ h1 _ h2 =>
      simp only [paren, List.length_append, List.length_cons] at hn
      have := ih _ _ (by omega) h1
      have := ih _ _ (by omega) h2
      have := op.bal
      bal
    | @multiOp _ op _ _ _ _ _ _ _ _ _ h1 _ h2 =>
      simp only [paren, List.length_append, List.length_cons] at hn
      have := ih _ _ (by omega) h1
      have := h2.bal fun a t h hl => ih a t (by omega) h
      have := op.bal
      bal

theorem FExpDaW.bal {m : Mode} {v : FExpDa} {t : List Char} (h : FExpDaW m v t) : Bal t :=
  FExpDaW.bal_aux _ v t (Nat.le_refl _) h

theorem FAssignDaW.form {m : Mode} {v : FAssignDa} {t : List Char} (h : FAssignDaW m v t) : Form t := by
  cases h with
  | mk _ h1 _ h2 _ h3 =>
    have := h1.bal
    have := h2.bal
    have := h3.bal
    exact .mk (by bal)

theorem FExpTW.bal {m : Mode} {v : FExpT} {t : List Char} (h : FExpTW m v t) : Bal t := by
  cases h with
  | now => exact .of_kw (by decide)
  | left _ _ h =>
    have := h.bal
    bal
  | right _ h =>
    have := h.bal
    bal

theorem TimedEffectW.form {m : Mode} {v : TimedEffect} {t : List Char} (h : TimedEffectW m v t) :
    Form t := by
  cases h with
  | @conditional _ ts _ _ _ _ _ _ h =>
    have := h.form.bal
    have := ts.bal
    exact .mk (by bal)
  | @numericFluent _ ts _ _ _ _ _ _ h =>
    have := h.form.bal
    have := ts.bal
    exact .mk (by bal)
  | @continuous _ op _ _ _ _ _ _ _ _ _ h1 _ h2 =>
    have := h1.bal
    have := h2.bal
    have : Bal op.spell := by cases op <;> exact .of_kw (by decide)
    exact .mk (by bal)

theorem DaEffectW.form_aux {m : Mode} (n : Nat) : ∀ g t, t.length ≤ n → DaEffectW m g t → Form t := by
  induction n with
  | zero =>
    intro v t hn h
    cases h with
    | timed h => exact h.form
    | _ => simp [paren] at hn
  | succ n ih =>
    intro v t hn h
    cases h with
    | all h =>
      simp only [paren, List.length_append, List.length_cons] at hn
      have := sec_bal h fun a t h hl => (ih a t (by omega) h).bal
      exact .mk (by bal)
    | forall_ _ h1 _ h2 =>
      simp only [paren, List.length_append, List.length_cons] at hn
      have := h1.bal
      have := (ih _ _ (by omega) h2).bal
      exact .mk (by bal)
    | when _ h1 _ h2 =>
      have := h1.form.bal
      have := h2.form.bal
      exact .mk (by bal)
    | timed h => exact h.form

theorem DaEffectW.form {m : Mode} {v : DaEffect} {t : List Char} (h : DaEffectW m v t) : Form t :=
  DaEffectW.form_aux _ v t (Nat.le_refl _) h

theorem SimpleDurationW.form_aux {m : Mode} (n : Nat) :
    ∀ g t, t.length ≤ n → SimpleDurationW m g t → Form t := by
  induction n with
  | zero =>
    intro v t hn h
    cases h <;> simp [paren] at hn
  | succ n ih =>
    intro v t hn h
    cases h with
    | @op _ o _ _ _ _ _ _ _ _ h =>
      have : Bal o.spell := by cases o <;> exact .of_kw (by decide)
      cases h with
      | number => exact .mk (by bal)
      | fExp h =>
        have := h.bal
        exact .mk (by bal)
    | @«at» _ ts _ _ _ _ _ _ h =>
      simp only [paren, List.length_append, List.length_cons] at hn
      have := (ih _ _ (by omega) h).bal
      have := ts.bal
      exact .mk (by bal)

theorem SimpleDurationW.form {m : Mode} {v : SimpleDuration} {t : List Char}
    (h : SimpleDurationW m v t) : Form t := SimpleDurationW.form_aux _ v t (Nat.le_refl _) h

theorem DurationW.form {m : Mode} {v : DurationConstraint} {t : List Char} (h : DurationW m v t) :
    Form t := by
  cases h with
  | single h => exact h.form
  | all _ h =>
    have := h.bal fun _ _ h _ => h.form.bal
    exact .mk (by bal)

theorem DaDefW.form {m : Mode} {v : DaDef} {t : List Char} (h : DaDefW m v t) : Form t := by
  cases h with
  | mk _ _ _ _ h1 _ h2 _ h3 _ h4 =>
    have := h1.bal
    have := h2.bal fun _ _ h => h.form.bal
    have := h3.bal fun _ _ h => h.form.bal
    have := h4.bal fun _ _ h => h.form.bal
    exact .mk (by bal)

theorem StructureW.form {m : Mode} {v : StructureDef} {t : List Char} (h : StructureW m v t) :
    Form t := by
  cases h with
  | derived h => exact h.form
  | action h => exact h.form
  | durative h => exact h.form

/-! ## Sections -/

theorem NonEmptyW.form {kw : List Char} {lead : List Char → Prop} {R : α → List Char → Prop}
    {v : List α} {t : List Char} (h : NonEmptyW kw lead R v t) (hk : plainText kw = true)
    (hl : ∀ g, lead g → Gap g) (hR : ∀ v t, R v t → Bal t) : Form t := by
  cases h with
  | mk h1 h2 h3 =>
    have := h2.bal fun a t h _ => hR a t h
    have := (hl _ h1).bal
    have := Bal.of_kw hk
    exact .mk (by bal)

theorem RequirementsW.form {m : Mode} {v : List Requirement} {t : List Char}
    (h : RequirementsW m v t) : Form t :=
  NonEmptyW.form h (by decide) (fun _ => Mode.word.gap) fun v t h => by
    rw [KeyW] at h
    subst h
    exact v.bal

theorem TypedNamesW.form {m : Mode} {kw : List Char} {v : TypedList Name} {t : List Char}
    (h : TypedNamesW m kw v t) (hk : plainText kw = true) : Form t := by
  cases h with
  | mk h =>
    have := h.bal (fun _ => Mode.word.gap) (fun _ => id) fun t h _ => h.bal fun _ _ h => h.1.bal
    have := Bal.of_kw hk
    exact .mk (by bal)

theorem FunctionsW.form {m : Mode} {v : TypedList Skeleton} {t : List Char} (h : FunctionsW m v t) :
    Form t := by
  cases h with
  | mk h =>
    have := h.bal (fun _ => id) (fun _ => id) fun t h _ => h.bal fun _ _ h => h.bal
    exact .mk (by bal)

theorem InitElW.form {m : Mode} {v : InitElement} {t : List Char} (h : InitElW m v t) : Form t := by
  cases h with
  | literal h => exact h.form
  | «at» _ _ _ h =>
    have := h.form.bal
    exact .mk (by bal)
  | isValue _ h =>
    have := h.bal
    exact .mk (by bal)
  | isObject _ h =>
    have := h.bal
    exact .mk (by bal)

theorem InitW.form {m : Mode} {v : List InitElement} {t : List Char} (h : InitW m v t) : Form t := by
  cases h with
  | mk h =>
    have := sec_bal h fun _ _ h _ => h.form.bal
    exact .mk (by bal)

theorem OptW.bal {lead : List Char → Prop} {R : α → List Char → Prop} {v : Option α} {t : List Char}
    (h : OptW lead R v t) (hl : ∀ g, lead g → Gap g) (hR : ∀ v t, R v t → Bal t) : Bal t := by
  cases h with
  | absent => exact .nil
  | present h1 h2 => exact (hl _ h1).bal.append (hR _ _ h2)

theorem LengthW.form {m : Mode} {v : LengthSpec} {t : List Char} (h : LengthW m v t) : Form t := by
  have hw : ∀ {kw : List Char} (v : Nat) t, plainText kw = true → WrapW kw m.word U64W v t → Bal t :=
    fun v t hk h => (WrapW.form h hk (fun _ => Mode.word.gap) fun _ _ h => h.bal).bal
  cases h with
  | mk h1 h2 =>
    have := h1.bal (fun _ => id) fun v t h => hw v t (by decide) h
    have := h2.bal (fun _ => id) fun v t h => hw v t (by decide) h
    exact .mk (by bal)

theorem MetricW.bal_aux {m : Mode} (n : Nat) : ∀ v t, t.length ≤ n → MetricW m v t → Bal t := by
  induction n with
  | zero =>
    intro v t hn h
    cases h with
    | number h => exact h.bal
    | bare h => exact h.1.bal
    | _ => simp [paren] at hn
  | succ n ih =>
    intro v t hn h
    cases h with
    | number h => exact h.bal
    | negative _ _ h =>
      simp only [paren, List.length_append, List.length_cons] at hn
      have := ih _ _ (by omega) h
      bal
    | @binaryOp _ op _ _ _ _ _ _ _ _ _ h1 _ h2 =>
      simp only [paren, List.length_append, List.length_cons] at hn
      have := ih _ _ (by omega) h1
      have := ih _ _ (by omega) h2
      have := op.bal
      bal
    | @multiOp _ op _ _ _ _ _ _ _ _ _ h1 _ h2 =>
      simp only [paren, List.length_append, List.length_cons] at hn
      have := ih _ _ (by omega) h1
      have := h2.bal fun a t h hl => ih a t (by omega) h
      have := op.bal
      bal
    | totalTime => exact .of_kw (by decide)
    | isViolated => bal
    | function _ _ h =>
      have := h.bal (fun _ => Mode.word.gap) (fun _ => Mode.tight.gap) fun _ h _ =>
        h.bal fun _ _ h _ => h.1.bal
      bal
    | bare h => exact h.1.bal

theorem MetricW.bal {m : Mode} {v : MetricFExp} {t : List Char} (h : MetricW m v t) : Bal t :=
  MetricW.bal_aux _ v t (Nat.le_refl _) h

theorem MetricSpecW.form {m : Mode} {v : MetricSpec} {t : List Char} (h : MetricSpecW m v t) :
    Form t := by
  cases h with
  | @mk _ o _ _ _ _ _ _ h =>
    have := h.bal
    have : Bal o.spell := by cases o <;> exact .of_kw (by decide)
    exact .mk (by bal)

theorem DomainW.form {m : Mode} {v : Domain} {t : List Char} (h : DomainW m v t) : Form t := by
  cases h with
  | mk _ h0 h1 h2 h3 h4 h5 h6 h7 h8 =>
    have hs : ∀ g, Sep g → Gap g := fun _ => Sep.gap
    have hn : ∀ (a : Name) t, NameW a t → Bal t := fun _ _ h => h.1.bal
    have := (h0.form (by decide) (fun _ => Mode.word.gap) hn).bal
    have := h1.bal hs fun _ _ h => (NonEmptyW.form h (by decide) (fun _ => Mode.word.gap) hn).bal
    have := h2.bal hs fun _ _ h => (RequirementsW.form h).bal
    have := h3.bal hs fun _ _ h => (h.form (by decide)).bal
    have := h4.bal hs fun _ _ h => (h.form (by decide)).bal
    have := h5.bal hs fun _ _ h => (NonEmptyW.form h (by decide) (fun _ => id) fun _ _ h => h.bal).bal
    have := h6.bal hs fun _ _ h => h.form.bal
    have := h7.bal hs fun _ _ h => (h.form (by decide) (fun _ => id) fun _ _ h => h.form.bal).bal
    have := h8.bal hs fun _ _ h => h.bal fun _ _ h _ => h.form.bal
    exact .mk (by bal)

theorem ProblemW.form {m : Mode} {v : Problem} {t : List Char} (h : ProblemW m v t) : Form t := by
  cases h with
  | mk _ h0 _ h1 h2 h3 _ h4 _ h5 h6 h7 h8 =>
    have hs : ∀ g, Sep g → Gap g := fun _ => Sep.gap
    have hn : ∀ (a : Name) t, NameW a t → Bal t := fun _ _ h => h.1.bal
    have := (h0.form (by decide) (fun _ => Mode.word.gap) hn).bal
    have := (h1.form (by decide) (fun _ => Mode.word.gap) hn).bal
    have := h2.bal hs fun _ _ h => (RequirementsW.form h).bal
    have := h3.bal hs fun _ _ h => (h.form (by decide)).bal
    have := h4.form.bal
    have := (h5.form (by decide) (fun _ => id) fun _ _ h => h.form.bal).bal
    have := h6.bal hs fun _ _ h => (h.form (by decide) (fun _ => id) fun _ _ h => h.form.bal).bal
    have := h7.bal hs fun _ _ h => h.form.bal
    have := h8.bal hs fun _ _ h => h.form.bal
    exact .mk (by bal)

end Pddl
