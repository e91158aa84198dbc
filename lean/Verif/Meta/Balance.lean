import Verif.Meta.SoundAtoms
import Verif.Spec.Balance

/-!
# Meta-theory: written text is balanced
-/

namespace Pddl

theorem Bal.append {u v : List Char} (h : Bal u) (h' : Bal v) : Bal (u ++ v) := by
  induction h with
  | nil => exact h'
  | plain h1 h2 h3 _ ih => exact .plain h1 h2 h3 ih
  | comment h1 h2 h3 _ ih =>
    simp only [List.cons_append, List.append_assoc]
    exact .comment h1 h2 h3 ih
  | nest h1 _ _ ih =>
    simp only [List.cons_append, List.append_assoc]
    exact .nest h1 ih

theorem Bal.paren {u : List Char} (h : Bal u) : Bal (paren u) := .nest h .nil

theorem Bal.of_plain {u : List Char} (h : ∀ c ∈ u, c ≠ '(' ∧ c ≠ ')' ∧ c ≠ ';') : Bal u := by
  induction u with
  | nil => exact .nil
  | cons c u ih =>
    have := h c (by simp)
    exact .plain this.1 this.2.1 this.2.2 (ih fun d hd => h d (by simp [hd]))

/-- The check of `Bal.of_plain` for concrete texts. -/
def plainText (u : List Char) : Bool := u.all fun c => c != '(' && c != ')' && c != ';'

theorem Bal.of_kw {u : List Char} (h : plainText u = true) : Bal u := .of_plain fun c hc => by
  simp only [plainText, List.all_eq_true, Bool.and_eq_true, bne_iff_ne] at h
  exact ⟨(h c hc).1.1, (h c hc).1.2, (h c hc).2⟩

theorem isSpace_plain {c : Char} (h : isSpace c = true) : c ≠ '(' ∧ c ≠ ')' ∧ c ≠ ';' := by
  refine ⟨?_, ?_, ?_⟩ <;> rintro rfl <;> exact absurd h (by decide)

theorem isWordChar_plain {c : Char} (h : isWordChar c = true) : c ≠ '(' ∧ c ≠ ')' ∧ c ≠ ';' := by
  refine ⟨?_, ?_, ?_⟩ <;> rintro rfl <;> exact absurd h (by decide)

theorem Gap.bal {g : List Char} (h : Gap g) : Bal g := by
  induction h with
  | nil => exact .nil
  | space hc _ ih => exact .plain (isSpace_plain hc).1 (isSpace_plain hc).2.1 (isSpace_plain hc).2.2 ih
  | comment h1 h2 h3 _ ih => exact .comment h1 h2 h3 ih

theorem IsWord.bal {t : List Char} (h : IsWord t) : Bal t := by
  obtain ⟨c, cs, rfl, hc, hcs⟩ := h
  refine .of_plain fun d hd => isWordChar_plain ?_
  rcases List.mem_cons.mp hd with rfl | hd
  · exact isAlpha_word hc
  · exact hcs d hd

theorem NumW.bal {n : Number} {t : List Char} (h : NumW n t) : Bal t := by
  obtain ⟨l, rfl, _⟩ := h
  unfold Literal10.text
  have hd : ∀ {u : List Char}, (∀ c ∈ u, isDigit c = true) → Bal u := fun h =>
    .of_plain fun c hc => isWordChar_plain (isDigit_word (h c hc))
  split
  · exact hd l.int_digits
  · exact (hd l.int_digits).append (.plain (by decide) (by decide) (by decide) (hd l.frac_digits))

theorem U64W.bal {n : Nat} {t : List Char} (h : U64W n t) : Bal t :=
  .of_plain fun c hc => isWordChar_plain (isDigit_word (h.2.1 c hc))

/-- The text up to the matching parenthesis is determined. -/
theorem Bal.unique {u u' r r' : List Char} (h : Bal u) (h' : Bal u')
    (he : u ++ ')' :: r = u' ++ ')' :: r') : u = u' ∧ r = r' := by
  induction h generalizing u' r r' with
  | nil =>
    cases h' with
    | nil => cases he; exact ⟨rfl, rfl⟩
    | plain h1 h2 => injection he with he _; exact absurd he.symm h2
    | comment => cases he
    | nest => cases he
  | plain h1 h2 h3 _ ih =>
    cases h' with
    | nil => injection he with he _; exact absurd he h2
    | plain _ _ _ h' =>
      simp only [List.cons_append, List.cons.injEq] at he
      obtain ⟨rfl, he⟩ := he
      obtain ⟨rfl, rfl⟩ := ih h' he
      exact ⟨rfl, rfl⟩
    | comment => injection he with he _; exact absurd he h3
    | nest => injection he with he _; exact absurd he h1
  | @comment b body n u hb hbody hn _ ih =>
    cases h' with
    | nil => cases he
    | plain _ _ h3 => injection he with he _; exact absurd he.symm h3
    | @comment b' body' n' u' hb' hbody' hn' h' =>
      simp only [List.cons_append, List.append_assoc, List.cons.injEq, true_and] at he
      obtain ⟨rfl, he⟩ := he
      have h1 := takeWhile_all (f := fun c => !isNewline c) (ds := body)
        (r := n :: (u ++ ')' :: r)) (by intro c hc; simp [hbody c hc])
        (by intro c r' h; cases h; simp [hn])
      have h2 := takeWhile_all (f := fun c => !isNewline c) (ds := body')
        (r := n' :: (u' ++ ')' :: r')) (by intro c hc; simp [hbody' c hc])
        (by intro c r' h; cases h; simp [hn'])
      rw [he] at h1
      have e1 : body = body' := h1.1.symm.trans h2.1
      have e2 := h1.2.symm.trans h2.2
      simp only [List.cons.injEq] at e2
      obtain ⟨rfl, e2⟩ := e2
      obtain ⟨rfl, rfl⟩ := ih h' e2
      exact ⟨by rw [e1], rfl⟩
    | nest => cases he
  | nest h1 h2 ih1 ih2 =>
    cases h' with
    | nil => cases he
    | plain h1 => injection he with he _; exact absurd he.symm h1
    | comment => cases he
    | nest h3 h4 =>
      simp only [List.cons_append, List.append_assoc, List.cons.injEq, true_and] at he
      obtain ⟨rfl, he'⟩ := ih1 h3 he
      obtain ⟨rfl, rfl⟩ := ih2 h4 he'
      exact ⟨rfl, rfl⟩

theorem Items.bal {R : α → List Char → Prop} {as u} (h : Items R as u)
    (hR : ∀ a t, R a t → t.length ≤ u.length → Bal t) : Bal u := by
  induction h with
  | one h => exact hR _ _ h (Nat.le_refl _)
  | cons h hg _ ih =>
    refine (hR _ _ h (by simp)).append (hg.gap.bal.append (ih fun a t ht hl => hR a t ht ?_))
    simp only [List.length_append]; omega

theorem Sec.bal {B : List α → List Char → Prop} {lead trail : List Char → Prop} {xs u}
    (h : Sec lead trail B xs u) (hl : ∀ g, lead g → Gap g) (ht : ∀ g, trail g → Gap g)
    (hB : ∀ t, B xs t → t.length ≤ u.length → Bal t) : Bal u := by
  cases h with
  | nil h => exact h.bal
  | cons h1 h2 h3 =>
    refine (hl _ h1).bal.append ((hB _ h2 ?_).append (ht _ h3).bal)
    simp only [List.length_append]; omega

theorem Mode.num.gap {m : Mode} {g : List Char} (h : m.num g) : Gap g := by
  cases m with
  | strict => exact (Sp.sep h).gap
  | loose => exact Sep.gap h

theorem Mode.neg.gap {m : Mode} {g : List Char} (h : m.neg g) : Gap g := by
  cases m with
  | strict => exact .of_spaces h
  | loose => exact h

/-- Splits `Bal` goals and closes the parts that are layout, keywords or hypotheses. -/
macro "bal" : tactic => `(tactic| repeat' first
  | assumption
  | exact Gap.bal ‹_›
  | exact (Sep.gap ‹_›).bal
  | exact (Sep.gap (Sp.sep ‹_›)).bal
  | exact (Mode.word.gap ‹_›).bal
  | exact (Mode.num.gap ‹_›).bal
  | exact (Mode.tight.gap ‹_›).bal
  | exact (Mode.neg.gap ‹_›).bal
  | exact NumW.bal ‹_›
  | exact IsWord.bal (And.left ‹NameW _ _›)
  | exact Bal.of_kw (by decide)
  | apply Bal.paren
  | apply Bal.append)

theorem VarW.bal {m : Mode} {v : Name} {t : List Char} (h : VarW m v t) : Bal t := by
  obtain ⟨g, w, rfl, h1, h2⟩ := h
  exact .append (u := c!"?") (by bal) (by bal)

theorem TypeW.bal {m : Mode} {v : Ty} {t : List Char} (h : TypeW m v t) : Bal t := by
  cases h with
  | exactly => bal
  | either h1 h2 h3 =>
    have := h2.bal fun _ _ h _ => h.1.1.bal
    bal

theorem TypedW.bal {m : Mode} {R : α → List Char → Prop} {d : Ty} {xs : TypedList α} {t : List Char}
    (h : TypedW m R d xs t) (hR : ∀ a t, R a t → Bal t) : Bal t := by
  induction h with
  | tail h => exact h.bal fun a t h _ => hR a t h
  | last h _ _ h' =>
    have := h.bal fun a t h _ => hR a t h
    have := h'.bal
    bal
  | more h _ _ h' =>
    have := h.bal fun a t h _ => hR a t h
    have := h'.bal
    bal

theorem VarsW.bal {m : Mode} {v : TypedList Name} {t : List Char} (h : VarsW m v t) : Bal t := by
  obtain ⟨u, rfl, h⟩ := h
  have := h.bal (fun _ => id) (fun _ => Mode.tight.gap) fun t h _ => h.bal fun _ _ => VarW.bal
  bal

theorem SkeletonW.bal {m : Mode} {v : Skeleton} {t : List Char} (h : SkeletonW m v t) : Bal t := by
  cases h with
  | mk h1 h2 h =>
    have := h.bal (fun _ => Mode.word.gap) (fun _ => Mode.tight.gap) fun t h _ =>
      h.bal fun _ _ => VarW.bal
    bal

theorem TermW.bal_aux {m : Mode} (n : Nat) : ∀ v t, t.length ≤ n → TermW m v t → Bal t := by
  induction n with
  | zero =>
    intro v t hn h
    obtain ⟨c, r, rfl, _⟩ := h.solid
    simp at hn
  | succ n ih =>
    intro v t hn h
    cases h with
    | name => bal
    | var h => exact h.bal
    | fn h1 h2 h =>
      simp only [paren, List.length_append, List.length_cons] at hn
      have := h.bal (fun _ => Mode.word.gap) (fun _ => Mode.tight.gap) fun t h _ =>
        h.bal fun a t h _ => ih a t (by omega) h
      bal

theorem TermW.bal {m : Mode} {v : Term} {t : List Char} (h : TermW m v t) : Bal t :=
  TermW.bal_aux _ v t (Nat.le_refl _) h

theorem terms_bal {m : Mode} {ts : List Term} {u : List Char}
    (h : Sec m.word m.tight (Items (TermW m)) ts u) : Bal u :=
  h.bal (fun _ => Mode.word.gap) (fun _ => Mode.tight.gap) fun _ h _ => h.bal fun _ _ h _ => h.bal

theorem names_bal {m : Mode} {ts : List Name} {u : List Char}
    (h : Sec m.word m.tight (Items NameW) ts u) : Bal u :=
  h.bal (fun _ => Mode.word.gap) (fun _ => Mode.tight.gap) fun _ h _ => h.bal fun _ _ h _ => h.1.bal

theorem FnTermW.bal {m : Mode} {v : FunctionTerm} {t : List Char} (h : FnTermW m v t) : Bal t := by
  cases h with
  | mk h1 h2 h =>
    have := terms_bal h
    bal

theorem AtomW.bal {m : Mode} {R : α → List Char → Prop} {a : AtomicFormula α} {t : List Char}
    (h : AtomW m R a t) (hR : ∀ a t, R a t → Bal t) : Bal t := by
  cases h with
  | equality _ h1 _ h2 =>
    have := hR _ _ h1
    have := hR _ _ h2
    bal
  | predicate h1 h2 h =>
    have := h.bal (fun _ => Mode.word.gap) (fun _ => Mode.tight.gap) fun _ h _ =>
      h.bal fun a t h _ => hR a t h
    bal

theorem atom_bal {m : Mode} {a : AtomicFormula Term} {t : List Char}
    (h : AtomW m (TermW m) a t) : Bal t := h.bal fun _ _ h => h.bal

theorem LiteralW.bal {m : Mode} {v : Literal Name} {t : List Char} (h : LiteralW m v t) : Bal t := by
  cases h with
  | neg _ h =>
    have := h.bal fun _ _ h => h.1.bal
    bal
  | pos h => exact h.bal fun _ _ h => h.1.bal

theorem BasicW.bal {m : Mode} {v : BasicFunctionTerm} {t : List Char} (h : BasicW m v t) : Bal t := by
  cases h with
  | bare => bal
  | app h1 h2 h =>
    have := names_bal h
    bal

theorem FHeadW.bal {m : Mode} {v : FHead} {t : List Char} (h : FHeadW m v t) : Bal t := by
  cases h with
  | bare => bal
  | simple => bal
  | terms h1 h2 h =>
    have := terms_bal h
    bal

theorem BinaryOp.bal (o : BinaryOp) : Bal o.spell := by cases o <;> bal
theorem MultiOp.bal (o : MultiOp) : Bal o.spell := by cases o <;> bal
theorem BinaryComp.bal (o : BinaryComp) : Bal o.spell := by cases o <;> bal
theorem AssignOpT.bal (o : AssignOpT) : Bal o.spell := by cases o <;> bal
theorem DOp.bal (o : DOp) : Bal o.spell := by cases o <;> bal
theorem Optimization.bal (o : Optimization) : Bal o.spell := by cases o <;> bal
theorem TimeSpecifier.bal (o : TimeSpecifier) : Bal o.spell := by cases o <;> bal
theorem Interval.bal (o : Interval) : Bal o.spell := by cases o <;> bal
theorem Requirement.bal (o : Requirement) : Bal o.spell := by cases o <;> bal
theorem AssignOpW.bal {o : AssignOp} {t : List Char} (h : AssignOpW o t) : Bal t := by
  cases h <;> bal

theorem FExpW.bal_aux {m : Mode} (n : Nat) : ∀ v t, t.length ≤ n → FExpW m v t → Bal t := by
  induction n with
  | zero =>
    intro v t hn h
    obtain ⟨c, r, rfl, _⟩ := h.solid
    simp at hn
  | succ n ih =>
    intro v t hn h
    cases h with
    | number => bal
    | function h => exact h.bal
    | negative _ _ h =>
      simp only [paren, List.length_append, List.length_cons] at hn
      have := ih _ _ (by omega) h
      bal
    | @binaryOp _ op _ _ _ _ _ _ _ _ _ h1 _ h2 =>
      simp only [paren, List.length_append, List.length_cons] at hn
      have := ih _ _ (by omega) h1
      have := ih _ _ (by omega) h2
      have := op.bal
      bal
    | @multiOp _ op _ _ _ _ _ _ _ _ _ h1 _ h2 =>
      simp only [paren, List.length_append, List.length_cons] at hn
      have := ih _ _ (by omega) h1
      have := h2.bal fun a t h _ => ih a t (by omega) h
      have := op.bal
      bal

theorem FExpW.bal {m : Mode} {v : FExp} {t : List Char} (h : FExpW m v t) : Bal t :=
  FExpW.bal_aux _ v t (Nat.le_refl _) h

theorem FCompW.bal {m : Mode} {v : FComp} {t : List Char} (h : FCompW m v t) : Bal t := by
  cases h with
  | @mk _ op _ _ _ _ _ _ _ _ _ h1 _ h2 =>
    have := h1.bal
    have := h2.bal
    have := op.bal
    bal

end Pddl
