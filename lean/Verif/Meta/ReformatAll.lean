import Verif.Meta.Reformat
import Verif.Meta.Form

/-!
# Reformatting keeps the spelled value: every category
-/

namespace Pddl

/-- A keyword. -/
macro "kw" : term => `((by exact ⟨by decide, by decide⟩))

theorem BinaryOp.plain (o : BinaryOp) : Plain o.spell := by cases o <;> exact kw
theorem MultiOp.plain (o : MultiOp) : Plain o.spell := by cases o <;> exact kw
theorem BinaryComp.plain (o : BinaryComp) : Plain o.spell := by cases o <;> exact kw
theorem AssignOpT.plain (o : AssignOpT) : Plain o.spell := by cases o <;> exact kw
theorem DOp.plain (o : DOp) : Plain o.spell := by cases o <;> exact kw
theorem Optimization.plain (o : Optimization) : Plain o.spell := by cases o <;> exact kw
theorem TimeSpecifier.plain (o : TimeSpecifier) : Plain o.spell := by cases o <;> exact kw
theorem Interval.plain (o : Interval) : Plain o.spell := by cases o <;> exact kw
theorem Requirement.plain (o : Requirement) : Plain o.spell := by cases o <;> exact kw
theorem AssignOpW.plain {o : AssignOp} {t : List Char} (h : AssignOpW o t) : Plain t := by
  cases h <;> exact kw

/-! ## Names, types, typed lists -/

theorem NameW.tidy {n : Name} {t : List Char} (h : NameW n t) : Tidy false NameW n t := ⟨t, h, h.vis⟩
theorem NumW.tidy {n : Number} {t : List Char} (h : NumW n t) : Tidy false NumW n t := ⟨t, h, h.vis⟩
theorem KeyW.tidy {n : Requirement} {t : List Char} (h : KeyW n t) : Tidy false KeyW n t :=
  ⟨t, h, .plain (h ▸ n.plain)⟩
theorem U64W.tidy {n : Nat} {t : List Char} (h : U64W n t) : Tidy false U64W n t :=
  ⟨t, h, .plain ⟨h.1, fun c hc => isDec.plain (h.2.1 c hc)⟩⟩

theorem VarW.tidy {v : Name} {t : List Char} (h : VarW .strict v t) :
    Tidy false (VarW .strict) v t := by
  obtain ⟨g, w, rfl, rfl, h2⟩ := h
  refine ⟨_, ⟨[], w, rfl, rfl, h2⟩, .plain ⟨by simp, fun c hc => ?_⟩⟩
  rcases List.mem_cons.1 hc with rfl | hc
  · rfl
  · exact h2.1.plain.2 c hc

theorem EitherMemberW.tidy {n : Name} {t : List Char} (h : EitherMemberW .strict n t) :
    Tidy false (EitherMemberW .strict) n t := ⟨t, h, h.1.vis⟩

theorem TypeW.tidy {ty : Ty} {t : List Char} (h : TypeW .strict ty t) :
    Tidy false (TypeW .strict) ty t := by
  cases h with
  | exactly h => exact h.tidy.map fun _ => .exactly
  | either h1 h2 h3 =>
    obtain ⟨u, r, v⟩ := h2.tidy fun _ _ h _ => h.tidy
    exact ⟨_, .either .space r .nil, .paren (.kw kw (.sep h1 v (.gap h3))) false⟩

theorem TypedW.tidy {k : Bool} {R : α → List Char → Prop} {d : Ty} {xs : TypedList α} {t : List Char}
    (h : TypedW .strict R d xs t) (hR : ∀ a t, R a t → Tidy k R a t) :
    Tidy k (TypedW .strict R d) xs t := by
  induction h with
  | tail h => exact (h.tidy fun a t h _ => hR a t h).map fun _ => .tail
  | last h h1 h2 h' =>
    obtain ⟨u, r, v⟩ := h.tidy fun a t h _ => hR a t h
    obtain ⟨u', r', v'⟩ := h'.tidy
    exact ⟨_, .last r .space .space r', v.append (.sep h1 (.plain kw) (.sep1 h2 v'))⟩
  | more h h1 h2 h' h3 _ ih =>
    obtain ⟨u, r, v⟩ := h.tidy fun a t h _ => hR a t h
    obtain ⟨u', r', v'⟩ := h'.tidy
    obtain ⟨u3, r3, v3⟩ := ih
    exact ⟨_, .more r .space .space r' .space r3,
      v.append (.sep h1 (.plain kw) (.sep h2 v' (.sep1 h3 v3)))⟩

theorem VarsW.tidy {vs : TypedList Name} {t : List Char} (h : VarsW .strict vs t) :
    Tidy true (VarsW .strict) vs t := by
  obtain ⟨u, rfl, h⟩ := h
  obtain ⟨u', r, v⟩ := h.tidy_open (fun _ => tight_gap) rfl fun t h _ => h.tidy fun _ _ h => h.tidy
  exact ⟨_, ⟨u', rfl, r⟩, .paren v⟩

/-! ## Terms and atoms -/

theorem TermW.tidy_aux (n : Nat) : ∀ v t, t.length ≤ n → TermW .strict v t →
    Tidy false (TermW .strict) v t := by
  induction n with
  | zero =>
    intro v t hn h
    obtain ⟨c, r, rfl, _⟩ := h.solid
    simp at hn
  | succ n ih =>
    intro v t hn h
    cases h with
    | name h => exact h.tidy.map fun _ => .name
    | var h => exact h.tidy.map fun _ => .var
    | fn h1 h2 h =>
      simp only [paren, List.length_append, List.length_cons] at hn
      obtain ⟨u, r, v⟩ := h.tidy_sep (fun _ => tight_gap) rfl fun t h _ =>
        h.tidy fun a t h _ => ih a t (by omega) h
      exact ⟨_, .fn .nil h2 r, .paren (.gap h1 (.kw h2.1.plain v)) _⟩

theorem TermW.tidy {v : Term} {t : List Char} (h : TermW .strict v t) :
    Tidy false (TermW .strict) v t := TermW.tidy_aux _ v t (Nat.le_refl _) h

theorem items_tidy {R : α → List Char → Prop} {trail : List Char → Prop} {xs u}
    (h : Sec Sep trail (Items R) xs u) (ht : ∀ g, trail g → Gap g) (h0 : trail [])
    (hR : ∀ a t, R a t → Tidy false R a t) :
    ∃ u', Sec Sep trail (Items R) xs u' ∧ Mid u u' :=
  h.tidy_sep ht h0 fun _ h _ => h.tidy fun a t h _ => hR a t h

theorem terms_tidy {ts : List Term} {u : List Char}
    (h : Sec Sep Mode.strict.tight (Items (TermW .strict)) ts u) :
    ∃ u', Sec Sep Mode.strict.tight (Items (TermW .strict)) ts u' ∧ Mid u u' :=
  items_tidy h (fun _ => tight_gap) rfl fun _ _ h => h.tidy

theorem names_tidy {ts : List Name} {u : List Char}
    (h : Sec Sep Mode.strict.tight (Items NameW) ts u) :
    ∃ u', Sec Sep Mode.strict.tight (Items NameW) ts u' ∧ Mid u u' :=
  items_tidy h (fun _ => tight_gap) rfl fun _ _ h => h.tidy

theorem FnTermW.tidy {v : FunctionTerm} {t : List Char} (h : FnTermW .strict v t) :
    Tidy true (FnTermW .strict) v t := by
  cases h with
  | mk h1 h2 h =>
    obtain ⟨u, r, v⟩ := terms_tidy h
    exact ⟨_, .mk .nil h2 r, .paren (.gap h1 (.kw h2.1.plain v))⟩

/-- Layout the reformatted text may have where the head of a form may touch its first operand. -/
theorem glue_gap {g : List Char} (h : g = [] ∨ g = [' ']) : Gap g := by
  rcases h with rfl | rfl
  · exact .nil
  · exact .blank1

theorem glue_sp0 {g : List Char} (h : g = [] ∨ g = [' ']) : Sp0 g := by
  rcases h with rfl | rfl <;> simp [Sp0, isBlank]

theorem AtomW.tidy {R : α → List Char → Prop} {a : AtomicFormula α} {t : List Char}
    (h : AtomW .strict R a t) (hR : ∀ a t, R a t → Tidy false R a t) :
    Tidy true (AtomW .strict R) a t := by
  cases h with
  | equality h1 ha h2 hb h3 =>
    obtain ⟨u, r, v⟩ := hR _ _ ha
    obtain ⟨u', r', v'⟩ := hR _ _ hb
    obtain ⟨g, hg, b⟩ := Body.glue (t := c!"=") kw h1 v (.sep h2 v' (.gap h3))
    exact ⟨_, .equality (glue_gap hg) r .space r' .nil, .paren b⟩
  | predicate h1 h2 h =>
    obtain ⟨u, r, v⟩ := items_tidy h (fun _ => tight_gap) rfl hR
    exact ⟨_, .predicate .nil h2 r, .paren (.gap h1 (.kw h2.1.plain v))⟩

theorem atom_tidy {a : AtomicFormula Term} {t : List Char} (h : AtomW .strict (TermW .strict) a t) :
    Tidy true (AtomW .strict (TermW .strict)) a t := h.tidy fun _ _ h => h.tidy

theorem LiteralW.tidy {v : Literal Name} {t : List Char} (h : LiteralW .strict v t) :
    Tidy true (LiteralW .strict) v t := by
  cases h with
  | neg h1 h h2 =>
    obtain ⟨u, r, v⟩ := h.tidy fun _ _ h => h.tidy
    exact ⟨_, .neg .blank1 r .nil, .paren (.kw kw (.gapV h1 v (.gap h2)))⟩
  | pos h => exact (h.tidy fun _ _ h => h.tidy).map fun _ => .pos

theorem SkeletonW.tidy {v : Skeleton} {t : List Char} (h : SkeletonW .strict v t) :
    Tidy true (SkeletonW .strict) v t := by
  cases h with
  | mk h1 h2 h =>
    obtain ⟨u, r, v⟩ := h.tidy_sep (fun _ => tight_gap) rfl fun t h _ => h.tidy fun _ _ h => h.tidy
    exact ⟨_, .mk .nil h2 r, .paren (.gap h1 (.kw h2.1.plain v))⟩

theorem BasicW.tidy {v : BasicFunctionTerm} {t : List Char} (h : BasicW .strict v t) :
    Tidy false (BasicW .strict) v t := by
  cases h with
  | bare h => exact h.tidy.map fun _ => .bare
  | app h1 h2 h =>
    obtain ⟨u, r, v⟩ := names_tidy h
    exact ⟨_, .app .nil h2 r, .paren (.gap h1 (.kw h2.1.plain v)) _⟩

theorem FHeadW.tidy {v : FHead} {t : List Char} (h : FHeadW .strict v t) :
    Tidy false (FHeadW .strict) v t := by
  cases h with
  | bare h => exact h.tidy.map fun _ => .bare
  | simple h1 h2 h3 =>
    exact ⟨_, .simple .nil h2 rfl, .paren (.gap h1 (.kw h2.1.plain (.gap (tight_gap h3)))) _⟩
  | terms h1 h2 h h3 =>
    obtain ⟨u, r, v⟩ := terms_tidy h
    exact ⟨_, .terms .nil h2 r h3, .paren (.gap h1 (.kw h2.1.plain v)) _⟩

/-! ## Numeric expressions -/

theorem neg_body {g0 g t u g' : List Char} (h0 : Gap g0) (h : Mode.strict.neg g) (hv : Vis false t u)
    (h' : Mode.strict.tight g') : ∃ s, Mode.strict.neg s ∧
      Vis false (paren (g0 ++ (c!"-" ++ (g ++ (t ++ g'))))) (paren ([] ++ (c!"-" ++ (s ++ (u ++ []))))) := by
  obtain ⟨s, hs, b⟩ := Body.glue (t := c!"-") kw (Mode.neg.gap h) hv (.gap (tight_gap h'))
  exact ⟨s, glue_sp0 hs, .paren (.gap h0 b) _⟩

theorem op_body {g0 o g1 t1 u1 g2 t2 u2 g3 : List Char} {k k' : Bool} (h0 : Gap g0) (ho : Plain o)
    (h1 : Sep g1) (v1 : Vis k t1 u1) (h2 : Sep g2) (v2 : Vis k' t2 u2) (h3 : Mode.strict.tight g3) :
    Vis true (paren (g0 ++ (o ++ (g1 ++ (t1 ++ (g2 ++ (t2 ++ g3)))))))
      (paren ([] ++ (o ++ ([' '] ++ (u1 ++ ([' '] ++ (u2 ++ []))))))) :=
  .paren (.gap h0 (.kw ho (.sep h1 v1 (.sep h2 v2 (.gap (tight_gap h3))))))

theorem FExpW.tidy_aux (n : Nat) : ∀ v t, t.length ≤ n → FExpW .strict v t →
    Tidy false (FExpW .strict) v t := by
  induction n with
  | zero =>
    intro v t hn h
    obtain ⟨c, r, rfl, _⟩ := h.solid
    simp at hn
  | succ n ih =>
    intro v t hn h
    cases h with
    | number h => exact h.tidy.map fun _ => .number
    | function h => exact h.tidy.map fun _ => .function
    | negative h0 h1 h h2 =>
      simp only [paren, List.length_append, List.length_cons] at hn
      obtain ⟨u, r, v⟩ := ih _ _ (by omega) h
      obtain ⟨s, hs, b⟩ := neg_body h0 h1 v h2
      exact ⟨_, .negative .nil hs r rfl, b⟩
    | @binaryOp _ op _ _ _ _ _ _ _ h0 h1 ha h2 hb h3 =>
      simp only [paren, List.length_append, List.length_cons] at hn
      obtain ⟨u, r, v⟩ := ih _ _ (by omega) ha
      obtain ⟨u', r', v'⟩ := ih _ _ (by omega) hb
      exact ⟨_, .binaryOp .nil .space r .space r' rfl,
        (op_body h0 op.plain (Sp.sep h1) v (Sp.sep h2) v' h3).weak⟩
    | @multiOp _ op _ _ _ _ _ _ _ h0 h1 ha h2 hb h3 h4 =>
      simp only [paren, List.length_append, List.length_cons] at hn
      obtain ⟨u, r, v⟩ := ih _ _ (by omega) ha
      obtain ⟨u', r', v'⟩ := hb.tidy fun a t h _ => ih a t (by omega) h
      exact ⟨_, .multiOp .nil .space r .space r' rfl h4,
        (op_body h0 op.plain (Sp.sep h1) v h2 v' h3).weak⟩

theorem FExpW.tidy {v : FExp} {t : List Char} (h : FExpW .strict v t) :
    Tidy false (FExpW .strict) v t := FExpW.tidy_aux _ v t (Nat.le_refl _) h

theorem FExpDaW.tidy_aux (n : Nat) : ∀ v t, t.length ≤ n → FExpDaW .strict v t →
    Tidy false (FExpDaW .strict) v t := by
  induction n with
  | zero =>
    intro v t hn h
    obtain ⟨c, r, rfl, _⟩ := h.solid
    simp at hn
  | succ n ih =>
    intro v t hn h
    cases h with
    | duration => exact ⟨_, .duration, .plain kw⟩
    | fExp h h' => exact h.tidy.map fun _ h => .fExp h h'
    | negative h0 h1 h h2 =>
      simp only [paren, List.length_append, List.length_cons] at hn
      obtain ⟨u, r, v⟩ := ih _ _ (by omega) h
      obtain ⟨s, hs, b⟩ := neg_body h0 h1 v h2
      exact ⟨_, .negative .nil hs r rfl, b⟩
    | @binaryOp _ op _ _ _ _ _ _ _ h0 h1 ha h2 hb h3 =>
      simp only [paren, List.length_append, List.length_cons] at hn
      obtain ⟨u, r, v⟩ := ih _ _ (by omega) ha
      obtain ⟨u', r', v'⟩ := ih _ _ (by omega) hb
      exact ⟨_, .binaryOp .nil .space r .space r' rfl,
        (op_body h0 op.plain (Sp.sep h1) v (Sp.sep h2) v' h3).weak⟩
    | @multiOp _ op _ _ _ _ _ _ _ h0 h1 ha h2 hb h3 h4 =>
      simp only [paren, List.length_append, List.length_cons] at hn
      obtain ⟨u, r, v⟩ := ih _ _ (by omega) ha
      obtain ⟨u', r', v'⟩ := hb.tidy fun a t h _ => ih a t (by omega) h
      exact ⟨_, .multiOp .nil .space r .space r' rfl h4,
        (op_body h0 op.plain (Sp.sep h1) v h2 v' h3).weak⟩

theorem FExpDaW.tidy {v : FExpDa} {t : List Char} (h : FExpDaW .strict v t) :
    Tidy false (FExpDaW .strict) v t := FExpDaW.tidy_aux _ v t (Nat.le_refl _) h

theorem FExpTW.tidy {v : FExpT} {t : List Char} (h : FExpTW .strict v t) :
    Tidy false (FExpTW .strict) v t := by
  cases h with
  | now => exact ⟨_, .now, .plain kw⟩
  | left h0 h1 h h2 =>
    obtain ⟨u, r, v⟩ := h.tidy
    obtain ⟨s, hs, b⟩ := Body.glue (t := c!"*") kw h0 (.plain (t := c!"#t") kw)
      (.sp h1 v (.gap h2))
    exact ⟨_, .left (glue_gap hs) .space r .nil, .paren b _⟩
  | right h0 h h1 h2 =>
    obtain ⟨u, r, v⟩ := h.tidy
    obtain ⟨s, hs, b⟩ := Body.glue (t := c!"*") kw h0 v
      (.sp h1 (.plain (t := c!"#t") kw) (.gap h2))
    exact ⟨_, .right (glue_gap hs) r .space .nil, .paren b _⟩

theorem FCompW.tidy {v : FComp} {t : List Char} (h : FCompW .strict v t) :
    Tidy true (FCompW .strict) v t := by
  cases h with
  | @mk _ op _ _ _ _ _ _ _ h0 h1 ha h2 hb h3 =>
    obtain ⟨u, r, v⟩ := ha.tidy
    obtain ⟨u', r', v'⟩ := hb.tidy
    exact ⟨_, .mk .nil .space r .space r' rfl, op_body h0 op.plain (Sp.sep h1) v (Sp.sep h2) v' h3⟩

/-! ## Forms with a keyword -/

theorem kw1 {w g1 t1 u1 g2 : List Char} (hw : Plain w) (h1 : Gap g1) (v1 : Vis true t1 u1)
    (h2 : Gap g2) : Vis true (paren (w ++ (g1 ++ (t1 ++ g2)))) (paren (w ++ ([' '] ++ (u1 ++ [])))) :=
  .paren (.kw hw (.gapV h1 v1 (.gap h2)))

theorem kw1s {k : Bool} {w g1 t1 u1 g2 : List Char} (hw : Plain w) (h1 : Sep g1) (v1 : Vis k t1 u1)
    (h2 : Gap g2) : Vis true (paren (w ++ (g1 ++ (t1 ++ g2)))) (paren (w ++ ([' '] ++ (u1 ++ [])))) :=
  .paren (.kw hw (.sep h1 v1 (.gap h2)))

theorem kw2 {k : Bool} {w g1 t1 u1 g2 t2 u2 g3 : List Char} (hw : Plain w) (h1 : Gap g1)
    (v1 : Vis true t1 u1) (h2 : Sep g2) (v2 : Vis k t2 u2) (h3 : Gap g3) :
    Vis true (paren (w ++ (g1 ++ (t1 ++ (g2 ++ (t2 ++ g3))))))
      (paren (w ++ ([' '] ++ (u1 ++ ([' '] ++ (u2 ++ [])))))) :=
  .paren (.kw hw (.gapV h1 v1 (.sep h2 v2 (.gap h3))))

theorem kw2s {k k' : Bool} {w g1 t1 u1 g2 t2 u2 g3 : List Char} (hw : Plain w) (h1 : Sep g1)
    (v1 : Vis k' t1 u1) (h2 : Sep g2) (v2 : Vis k t2 u2) (h3 : Gap g3) :
    Vis true (paren (w ++ (g1 ++ (t1 ++ (g2 ++ (t2 ++ g3))))))
      (paren (w ++ ([' '] ++ (u1 ++ ([' '] ++ (u2 ++ [])))))) :=
  .paren (.kw hw (.sep h1 v1 (.sep h2 v2 (.gap h3))))

theorem forms_tidy {R : α → List Char → Prop} {xs u} (h : Sec Gap Gap (Items R) xs u)
    (hR : ∀ a t, R a t → t.length ≤ u.length → Tidy true R a t) :
    ∃ u', Sec Gap Gap (Items R) xs u' ∧ Mid u u' :=
  h.tidy_gap (fun _ => id) .nil fun _ h hl => h.tidy fun a t h hl' => hR a t h (Nat.le_trans hl' hl)

/-! ## Goals -/

theorem GDW.tidy_aux (n : Nat) : ∀ v t, t.length ≤ n → GDW .strict v t →
    Tidy true (GDW .strict) v t := by
  induction n with
  | zero =>
    intro v t hn h
    obtain ⟨c, r, rfl, _⟩ := h.solid
    simp at hn
  | succ n ih =>
    intro v t hn h
    cases h with
    | and h =>
      simp only [paren, List.length_append, List.length_cons] at hn
      obtain ⟨u, r, v⟩ := forms_tidy h fun a t h _ => ih a t (by omega) h
      exact ⟨_, .and r, .paren (.kw kw v)⟩
    | or h =>
      simp only [paren, List.length_append, List.length_cons] at hn
      obtain ⟨u, r, v⟩ := forms_tidy h fun a t h _ => ih a t (by omega) h
      exact ⟨_, .or r, .paren (.kw kw v)⟩
    | not h1 h h2 =>
      simp only [paren, List.length_append, List.length_cons] at hn
      obtain ⟨u, r, v⟩ := ih _ _ (by omega) h
      exact ⟨_, .not .blank1 r .nil, kw1 kw h1 v h2⟩
    | imply h1 ha h2 hb h3 =>
      simp only [paren, List.length_append, List.length_cons] at hn
      obtain ⟨u, r, v⟩ := ih _ _ (by omega) ha
      obtain ⟨u', r', v'⟩ := ih _ _ (by omega) hb
      exact ⟨_, .imply .blank1 r .space r' .nil, kw2 kw h1 v h2 v' h3⟩
    | exist h1 ha h2 hb h3 =>
      simp only [paren, List.length_append, List.length_cons] at hn
      obtain ⟨u, r, v⟩ := ha.tidy
      obtain ⟨u', r', v'⟩ := ih _ _ (by omega) hb
      exact ⟨_, .exist .blank1 r .space r' .nil, kw2 kw h1 v h2 v' h3⟩
    | forall_ h1 ha h2 hb h3 =>
      simp only [paren, List.length_append, List.length_cons] at hn
      obtain ⟨u, r, v⟩ := ha.tidy
      obtain ⟨u', r', v'⟩ := ih _ _ (by omega) hb
      exact ⟨_, .forall_ .blank1 r .space r' .nil, kw2 kw h1 v h2 v' h3⟩
    | atomic h h' => exact (atom_tidy h).map fun _ h => .atomic h h'
    | fComp h h' => exact h.tidy.map fun _ h => .fComp h h'

theorem GDW.tidy {v : GD} {t : List Char} (h : GDW .strict v t) : Tidy true (GDW .strict) v t :=
  GDW.tidy_aux _ v t (Nat.le_refl _) h

theorem PrefGDW.tidy {v : PrefGD} {t : List Char} (h : PrefGDW .strict v t) :
    Tidy true (PrefGDW .strict) v t := by
  cases h with
  | goal h h' => exact h.tidy.map fun _ h => .goal h h'
  | named h1 hn h2 h h3 =>
    obtain ⟨u, r, v⟩ := h.tidy
    exact ⟨_, .named .space hn .space r .nil, kw2s kw h1 hn.vis h2 v h3⟩
  | anonymous h1 h h2 =>
    obtain ⟨u, r, v⟩ := h.tidy
    exact ⟨_, .anonymous .blank1 r .nil, kw1 kw h1 v h2⟩

theorem PreGDW.tidy_aux (n : Nat) : ∀ v t, t.length ≤ n → PreGDW .strict v t →
    Tidy true (PreGDW .strict) v t := by
  induction n with
  | zero =>
    intro v t hn h
    obtain ⟨c, r, rfl, _⟩ := h.solid
    simp at hn
  | succ n ih =>
    intro v t hn h
    cases h with
    | forall_ h1 ha h2 hb h3 =>
      simp only [paren, List.length_append, List.length_cons] at hn
      obtain ⟨u, r, v⟩ := ha.tidy
      obtain ⟨u', r', v'⟩ := ih _ _ (by omega) hb
      exact ⟨_, .forall_ .blank1 r .space r' .nil, kw2 kw h1 v h2 v' h3⟩
    | and h =>
      simp only [paren, List.length_append, List.length_cons] at hn
      obtain ⟨u, r, v⟩ := forms_tidy h fun a t h _ => ih a t (by omega) h
      exact ⟨_, .and r, .paren (.kw kw v)⟩
    | pref h h' => exact h.tidy.map fun _ h => .pref h h'

theorem PreGDW.tidy {v : List PreGD} {t : List Char} (h : PreGDW .strict v t) :
    Tidy true (PreGDW .strict) v t := PreGDW.tidy_aux _ v t (Nat.le_refl _) h

/-! ## Trajectory constraints -/

theorem Con2W.tidy {R : ConGD → List Char → Prop} {v : Con2GD} {t : List Char}
    (h : Con2W .strict R v t) (hR : ∀ c, R c t → Tidy true R c t) :
    Tidy true (Con2W .strict R) v t := by
  cases h with
  | goal h => exact h.tidy.map fun _ => .goal
  | nested h h' => exact (hR _ h).map fun _ h => .nested h h'

theorem ConGDW.tidy_aux (n : Nat) : ∀ v t, t.length ≤ n → ConGDW .strict v t →
    Tidy true (ConGDW .strict) v t := by
  induction n with
  | zero =>
    intro v t hn h
    obtain ⟨c, r, rfl, _⟩ := h.solid
    simp at hn
  | succ n ih =>
    intro v t hn h
    cases h with
    | and h =>
      simp only [paren, List.length_append, List.length_cons] at hn
      obtain ⟨u, r, v⟩ := forms_tidy h fun a t h _ => ih a t (by omega) h
      exact ⟨_, .and r, .paren (.kw kw v)⟩
    | forall_ h1 ha h2 hb h3 =>
      simp only [paren, List.length_append, List.length_cons] at hn
      obtain ⟨u, r, v⟩ := ha.tidy
      obtain ⟨u', r', v'⟩ := ih _ _ (by omega) hb
      exact ⟨_, .forall_ .blank1 r .space r' .nil, kw2 kw h1 v h2 v' h3⟩
    | atEnd h1 h h2 =>
      obtain ⟨u, r, v⟩ := h.tidy
      exact ⟨_, .atEnd .blank1 r .nil,
        .paren (.kw (t := c!"at") kw (.sep (g := c!" ") .space (.plain (t := c!"end") kw)
          (.gapV h1 v (.gap h2))))⟩
    | always h1 h h2 =>
      simp only [paren, List.length_append, List.length_cons] at hn
      obtain ⟨u, r, v⟩ := h.tidy fun c h => ih c _ (by omega) h
      exact ⟨_, .always .blank1 r .nil, kw1 kw h1 v h2⟩
    | sometime h1 h h2 =>
      simp only [paren, List.length_append, List.length_cons] at hn
      obtain ⟨u, r, v⟩ := h.tidy fun c h => ih c _ (by omega) h
      exact ⟨_, .sometime .blank1 r .nil, kw1 kw h1 v h2⟩
    | within h1 hx h2 h h3 =>
      simp only [paren, List.length_append, List.length_cons] at hn
      obtain ⟨u, r, v⟩ := h.tidy fun c h => ih c _ (by omega) h
      exact ⟨_, .within .space hx .space r .nil, kw2s kw h1 hx.vis h2 v h3⟩
    | atMostOnce h1 h h2 =>
      simp only [paren, List.length_append, List.length_cons] at hn
      obtain ⟨u, r, v⟩ := h.tidy fun c h => ih c _ (by omega) h
      exact ⟨_, .atMostOnce .blank1 r .nil, kw1 kw h1 v h2⟩
    | sometimeAfter h1 ha h2 hb h3 =>
      simp only [paren, List.length_append, List.length_cons] at hn
      obtain ⟨u, r, v⟩ := ha.tidy fun c h => ih c _ (by omega) h
      obtain ⟨u', r', v'⟩ := hb.tidy fun c h => ih c _ (by omega) h
      exact ⟨_, .sometimeAfter .blank1 r .space r' .nil, kw2 kw h1 v h2 v' h3⟩
    | sometimeBefore h1 ha h2 hb h3 =>
      simp only [paren, List.length_append, List.length_cons] at hn
      obtain ⟨u, r, v⟩ := ha.tidy fun c h => ih c _ (by omega) h
      obtain ⟨u', r', v'⟩ := hb.tidy fun c h => ih c _ (by omega) h
      exact ⟨_, .sometimeBefore .blank1 r .space r' .nil, kw2 kw h1 v h2 v' h3⟩
    | alwaysWithin h1 hx h2 ha h3 hb h4 =>
      simp only [paren, List.length_append, List.length_cons] at hn
      obtain ⟨u, r, v⟩ := ha.tidy fun c h => ih c _ (by omega) h
      obtain ⟨u', r', v'⟩ := hb.tidy fun c h => ih c _ (by omega) h
      exact ⟨_, .alwaysWithin .space hx .space r .space r' .nil,
        .paren (.kw kw (.sep h1 hx.vis (.sep h2 v (.sep h3 v' (.gap h4)))))⟩
    | holdDuring h1 hx h2 hy h3 h h4 =>
      simp only [paren, List.length_append, List.length_cons] at hn
      obtain ⟨u, r, v⟩ := h.tidy fun c h => ih c _ (by omega) h
      exact ⟨_, .holdDuring .space hx .space hy .space r .nil,
        .paren (.kw kw (.sep h1 hx.vis (.sp h2 hy.vis (.sep h3 v (.gap h4)))))⟩
    | holdAfter h1 hx h2 h h3 =>
      simp only [paren, List.length_append, List.length_cons] at hn
      obtain ⟨u, r, v⟩ := h.tidy fun c h => ih c _ (by omega) h
      exact ⟨_, .holdAfter .space hx .space r .nil, kw2s kw h1 hx.vis h2 v h3⟩

theorem ConGDW.tidy {v : ConGD} {t : List Char} (h : ConGDW .strict v t) :
    Tidy true (ConGDW .strict) v t := ConGDW.tidy_aux _ v t (Nat.le_refl _) h

theorem con2_tidy {v : Con2GD} {t : List Char} (h : Con2W .strict (ConGDW .strict) v t) :
    Tidy true (Con2W .strict (ConGDW .strict)) v t := h.tidy fun _ h => h.tidy

theorem PrefConGDW.tidy_aux (n : Nat) : ∀ v t, t.length ≤ n → PrefConGDW .strict v t →
    Tidy true (PrefConGDW .strict) v t := by
  induction n with
  | zero =>
    intro v t hn h
    obtain ⟨c, r, rfl, _⟩ := h.solid
    simp at hn
  | succ n ih =>
    intro v t hn h
    cases h with
    | and h =>
      simp only [paren, List.length_append, List.length_cons] at hn
      obtain ⟨u, r, v⟩ := forms_tidy h fun a t h _ => ih a t (by omega) h
      exact ⟨_, .and r, .paren (.kw kw v)⟩
    | forall_ h1 ha h2 hb h3 =>
      simp only [paren, List.length_append, List.length_cons] at hn
      obtain ⟨u, r, v⟩ := ha.tidy
      obtain ⟨u', r', v'⟩ := ih _ _ (by omega) hb
      exact ⟨_, .forall_ .blank1 r .space r' .nil, kw2 kw h1 v h2 v' h3⟩
    | named h1 hx h2 h h3 =>
      obtain ⟨u, r, v⟩ := h.tidy
      exact ⟨_, .named .space hx .space r .nil, kw2s kw h1 hx.vis h2 v h3⟩
    | anonymous h1 h h2 =>
      obtain ⟨u, r, v⟩ := h.tidy
      exact ⟨_, .anonymous .blank1 r .nil, kw1 kw h1 v h2⟩
    | goal h h' => exact h.tidy.map fun _ h => .goal h h'

theorem PrefConGDW.tidy {v : List PrefConGD} {t : List Char} (h : PrefConGDW .strict v t) :
    Tidy true (PrefConGDW .strict) v t := PrefConGDW.tidy_aux _ v t (Nat.le_refl _) h

/-! ## Effects -/

/-- A term that is not spelled `undefined` is not reformatted to `undefined`. -/
theorem TermW.tidy_ne {v : Term} {t : List Char} (h : TermW .strict v t) (hne : t ≠ c!"undefined") :
    ∃ u, TermW .strict v u ∧ u ≠ c!"undefined" ∧ Vis false t u := by
  obtain ⟨u, r, v'⟩ := h.tidy
  by_cases hu : u = c!"undefined"
  · subst hu
    have h0 : t.head? = some 'u' := v'.1
    cases h with
    | name h => exact ⟨_, .name h, hne, h.vis⟩
    | var h => obtain ⟨g, w, rfl, _⟩ := h; exact absurd h0 (by simp)
    | fn => exact absurd h0 (by simp [paren])
  · exact ⟨u, r, hu, v'⟩

theorem PEffectW.tidy {v : PEffect} {t : List Char} (h : PEffectW .strict v t) :
    Tidy true (PEffectW .strict) v t := by
  cases h with
  | notAtomic h1 h h2 =>
    obtain ⟨u, r, v⟩ := atom_tidy h
    exact ⟨_, .notAtomic .blank1 r .nil, kw1 kw h1 v h2⟩
  | undefined h1 h h2 h3 =>
    obtain ⟨u, r, v⟩ := h.tidy
    exact ⟨_, .undefined .blank1 r .space .nil, kw2 kw h1 v h2.sep (.plain kw) h3⟩
  | object h1 ha h2 hb h3 h4 =>
    obtain ⟨u, r, v⟩ := ha.tidy
    obtain ⟨u', r', hne, v'⟩ := hb.tidy_ne (h4 rfl)
    exact ⟨_, .object .blank1 r .space r' .nil fun _ => hne, kw2 kw h1 v (Sp.sep h2) v' h3⟩
  | numeric h0 ho h1 ha h2 hb h3 h4 =>
    obtain ⟨u, r, v⟩ := ha.tidy
    obtain ⟨u', r', v'⟩ := hb.tidy
    exact ⟨_, .numeric .nil ho .space r .space r' rfl fun hm hs hu => h4 hm hs (v.1.trans hu),
      op_body h0 ho.plain h1 v (Sp.sep h2) v' h3⟩
  | atomic h h' => exact (atom_tidy h).map fun _ h => .atomic h h'

theorem CondEffectW.tidy {v : CondEffect} {t : List Char} (h : CondEffectW .strict v t) :
    Tidy true (CondEffectW .strict) v t := by
  cases h with
  | single h => exact h.tidy.map fun _ => .single
  | all h =>
    obtain ⟨u, r, v⟩ := forms_tidy h fun _ _ h _ => h.tidy
    exact ⟨_, .all r, .paren (.kw kw v)⟩

theorem EffectW.tidy {R : CEffect → List Char → Prop} {v : List CEffect} {t : List Char}
    (h : EffectW R v t) (hR : ∀ a u, R a u → u.length ≤ t.length → Tidy true R a u) :
    Tidy true (EffectW R) v t := by
  cases h with
  | single h => exact (hR _ _ h (Nat.le_refl _)).map fun _ => .single
  | all h =>
    obtain ⟨u, r, v⟩ := forms_tidy h fun a t h hl => hR a t h
      (by simp only [paren, List.length_append, List.length_cons]; omega)
    exact ⟨_, .all r, .paren (.kw kw v)⟩

theorem CEffectW.tidy_aux (n : Nat) : ∀ v t, t.length ≤ n → CEffectW .strict v t →
    Tidy true (CEffectW .strict) v t := by
  induction n with
  | zero =>
    intro v t hn h
    obtain ⟨c, r, rfl, _⟩ := h.solid
    simp at hn
  | succ n ih =>
    intro v t hn h
    cases h with
    | effect h => exact h.tidy.map fun _ => .effect
    | forall_ h1 ha h2 hb h3 =>
      simp only [paren, List.length_append, List.length_cons] at hn
      obtain ⟨u, r, v⟩ := ha.tidy
      obtain ⟨u', r', v'⟩ := hb.tidy fun a u h hl => ih a u (by omega) h
      exact ⟨_, .forall_ .blank1 r .space r' .nil, kw2 kw h1 v h2 v' h3⟩
    | when h1 ha h2 hb h3 =>
      obtain ⟨u, r, v⟩ := ha.tidy
      obtain ⟨u', r', v'⟩ := hb.tidy
      exact ⟨_, .when .blank1 r .space r' .nil, kw2 kw h1 v h2 v' h3⟩

theorem CEffectW.tidy {v : CEffect} {t : List Char} (h : CEffectW .strict v t) :
    Tidy true (CEffectW .strict) v t := CEffectW.tidy_aux _ v t (Nat.le_refl _) h

theorem effects_tidy {v : List CEffect} {t : List Char} (h : EffectW (CEffectW .strict) v t) :
    Tidy true (EffectW (CEffectW .strict)) v t := h.tidy fun _ _ h _ => h.tidy

/-! ## Actions -/

theorem EmptyOrW.tidy {R : α → List Char → Prop} {v : Option α} {t : List Char} (h : EmptyOrW R v t)
    (hR : ∀ a u, R a u → Tidy true R a u) : ∃ u, EmptyOrW R v u ∧ Mid t u := by
  cases h with
  | empty h =>
    exact ⟨_, .empty .space, .sep1 h.sep (.paren (b := []) (b' := []) (.layout .nil))⟩
  | some h h' =>
    obtain ⟨u, r, v⟩ := hR _ _ h'
    exact ⟨_, .some .space r, .sep1 h v⟩

theorem OptW.tidy_sep {k : Bool} {R : α → List Char → Prop} {v : Option α} {t : List Char}
    (h : OptW Sep R v t) (hR : ∀ a u, R a u → Tidy k R a u) : ∃ u, OptW Sep R v u ∧ Mid t u := by
  cases h with
  | absent => exact ⟨_, .absent, .nil⟩
  | present h h' =>
    obtain ⟨u, r, v⟩ := hR _ _ h'
    exact ⟨_, .present .space r, .sep1 h v⟩

theorem OptW.tidy_gap {R : α → List Char → Prop} {v : Option α} {t : List Char}
    (h : OptW Gap R v t) (hR : ∀ a u, R a u → Tidy true R a u) : ∃ u, OptW Gap R v u ∧ Mid t u := by
  cases h with
  | absent => exact ⟨_, .absent, .nil⟩
  | present h h' =>
    obtain ⟨u, r, v⟩ := hR _ _ h'
    exact ⟨_, .present .blank1 r, .gap1 h v⟩

theorem canon_close (s : List Char) : ∀ b p, (∃ u, ∀ x, canon b p (s ++ ')' :: x) = u ++ canon false .sep x) ∨
    ∃ u p', ∀ x, canon b p (s ++ ')' :: x) = u ++ canon true p' x := by
  induction s with
  | nil =>
    intro b p
    cases b with
    | false => exact .inl ⟨[')'], fun x => by simp [canon, isBlank]⟩
    | true => exact .inr ⟨[], p, fun x => by simp [canon, isNewline]⟩
  | cons c s ih =>
    intro b p
    have step : ∃ w b' p', ∀ y, canon b p (c :: y) = w ++ canon b' p' y := by
      cases b with
      | true => exact ⟨[], _, _, fun y => by rw [canon]; rfl⟩
      | false =>
        by_cases h1 : isBlank c = true
        · exact ⟨[], _, _, fun y => by rw [canon, if_pos h1]; rfl⟩
        by_cases h2 : c = ';'
        · exact ⟨[], _, _, fun y => by rw [canon, if_neg h1, if_pos h2]; rfl⟩
        by_cases h3 : c = '('
        · exact ⟨p.pre ++ [c], _, _, fun y => by rw [canon, if_neg h1, if_neg h2, if_pos h3, List.append_assoc]; rfl⟩
        by_cases h4 : c = ')'
        · exact ⟨[c], _, _, fun y => by rw [canon, if_neg h1, if_neg h2, if_neg h3, if_pos h4]; rfl⟩
        by_cases h5 : p = .word
        · exact ⟨[c], _, _, fun y => by
            rw [canon, if_neg h1, if_neg h2, if_neg h3, if_neg h4, if_pos h5]; rfl⟩
        · exact ⟨p.pre ++ [c], _, _, fun y => by
            rw [canon, if_neg h1, if_neg h2, if_neg h3, if_neg h4, if_neg h5, List.append_assoc]; rfl⟩
    obtain ⟨w, b', p', step⟩ := step
    rcases ih b' p' with ⟨u, hu⟩ | ⟨u, p'', hu⟩
    · exact .inl ⟨w ++ u, fun x => by rw [List.cons_append, step, hu, List.append_assoc]⟩
    · exact .inr ⟨w ++ u, p'', fun x => by rw [List.cons_append, step, hu, List.append_assoc]⟩

/-- Trail `)` the transducer is between tokens. -/
theorem Run.close {p q : RSt} {s u : List Char} (h : Run p (s ++ [')']) u q) (hq : q ≠ .start) :
    q = .sep := by
  cases q with
  | start => exact absurd rfl hq
  | sep => rfl
  | word =>
    have h0 := h []
    have ha := h ['a']
    simp only [List.append_assoc, List.singleton_append] at h0 ha
    rcases canon_close s false p with ⟨u', h'⟩ | ⟨u', p', h'⟩
    · rw [h'] at h0 ha
      simp [canon, isBlank, RSt.pre] at h0 ha
      subst h0
      have := congrArg List.length ha
      simp at this
    · rw [h'] at h0 ha
      simp [canon, isBlank, isNewline] at h0 ha
      subst h0
      simp at ha

theorem Form.closed {t : List Char} (h : Form t) : ∃ s, t = s ++ [')'] := by
  obtain ⟨b, rfl, _⟩ := h
  exact ⟨'(' :: b, rfl⟩

/-- Text after a form in a form. -/
def Trail (t u : List Char) : Prop := ∃ q, q ≠ .start ∧ Run .sep t u q

theorem Mid.trail {t u : List Char} (h : Mid t u) : Trail t u := h .sep (by decide)

theorem Mid.sepC {k : Bool} {g t u r r' : List Char} (h : Sep g) (ht : Vis k t u) (hf : Form t)
    (hr : Trail r r') : Mid (g ++ (t ++ r)) ([' '] ++ (u ++ r')) := by
  intro p hp
  obtain ⟨_, q, h1, _, h3, _⟩ := ht
  obtain ⟨s, rfl⟩ := hf.closed
  obtain rfl := h3.close h1
  obtain ⟨q', hq', hr⟩ := hr
  exact ⟨q', hq', (h.run hp).append (h3.append hr)⟩

theorem Gap.run_sep {g : List Char} (h : Gap g) : Run .sep g [] .sep := by
  have := h.run .sep
  split at this <;> exact this

theorem SlotW.tidy {w : List Char} {R : α → List Char → Prop} {v : Option (Option α)}
    {t r r' : List Char} (h : SlotW w R v t) (hw : Plain w) (hR : ∀ a u, R a u → Tidy true R a u)
    (hf : ∀ a u, R a u → Form u) (hr : Trail r r') : ∃ u, SlotW w R v u ∧ Trail (t ++ r) (u ++ r') := by
  cases h with
  | absent => exact ⟨_, .absent, hr⟩
  | present h h' =>
    obtain ⟨u, hu, m⟩ := h'.tidy hR
    refine ⟨[' '] ++ (w ++ u), .present .blank1 hu, ?_⟩
    obtain ⟨q, hq, m⟩ := m .word (by decide)
    obtain ⟨q', hq', hr⟩ := hr
    have hc : q = .sep := by
      cases h' with
      | @empty g =>
        refine Run.close (s := g ++ ['(']) (u := u) (p := .word) ?_ hq
        simpa using m
      | some _ h' =>
        obtain ⟨s, rfl⟩ := (hf _ _ h').closed
        rw [← List.append_assoc] at m
        exact m.close hq
    subst hc
    refine ⟨q', hq', ?_⟩
    have := h.run_sep.append ((hw.run (p := .sep) (by decide)).append (m.append hr))
    simpa [RSt.pre] using this

theorem ActionW.tidy {v : ActionDef} {t : List Char} (h : ActionW .strict v t) :
    Tidy true (ActionW .strict) v t := by
  cases h with
  | mk h1 hn h2 h3 hv hp he h4 =>
    obtain ⟨uv, rv, vv⟩ := hv.tidy
    obtain ⟨u2, r2, m2⟩ := he.tidy kw (fun _ _ h => effects_tidy h) (fun _ _ h => h.form) (Mid.gap h4).trail
    obtain ⟨u1, r1, m1⟩ := hp.tidy kw (fun _ _ h => h.tidy) (fun _ _ h => h.form) m2
    exact ⟨_, .mk .space hn .space .space rv r1 r2 .nil,
      .paren (.kw kw (.sep h1 hn.vis (.sp h2 (.plain kw) (.sepC h3 vv hv.form m1))))⟩

theorem DerivedW.tidy {v : DerivedPredicate} {t : List Char} (h : DerivedW .strict v t) :
    Tidy true (DerivedW .strict) v t := by
  cases h with
  | mk h1 hs h2 h h3 =>
    obtain ⟨u, r, v⟩ := hs.tidy
    obtain ⟨u', r', v'⟩ := h.tidy
    exact ⟨_, .mk .blank1 r .space r' .nil, kw2 kw h1 v h2 v' h3⟩

/-! ## Durative actions -/

theorem TimedGDW.tidy {v : TimedGD} {t : List Char} (h : TimedGDW .strict v t) :
    Tidy true (TimedGDW .strict) v t := by
  cases h with
  | @«at» _ ts _ _ _ _ h1 h2 h h3 =>
    obtain ⟨u, r, v⟩ := h.tidy
    exact ⟨_, .at .space .space r .nil, kw2s kw h1 (.plain ts.plain) h2 v h3⟩
  | @over _ i _ _ _ _ h1 h2 h h3 =>
    obtain ⟨u, r, v⟩ := h.tidy
    exact ⟨_, .over .space .space r .nil, kw2s kw h1 (.plain i.plain) h2 v h3⟩

theorem PrefTimedGDW.tidy {v : PrefTimedGD} {t : List Char} (h : PrefTimedGDW .strict v t) :
    Tidy true (PrefTimedGDW .strict) v t := by
  cases h with
  | required h => exact h.tidy.map fun _ => .required
  | named h1 hn h2 h h3 =>
    obtain ⟨u, r, v⟩ := h.tidy
    exact ⟨_, .named .space hn .space r .nil, kw2s kw h1 hn.vis h2 v h3⟩
  | anonymous h1 h h2 =>
    obtain ⟨u, r, v⟩ := h.tidy
    exact ⟨_, .anonymous .blank1 r .nil, kw1 kw h1 v h2⟩

theorem DaGDW.tidy_aux (n : Nat) : ∀ v t, t.length ≤ n → DaGDW .strict v t →
    Tidy true (DaGDW .strict) v t := by
  induction n with
  | zero =>
    intro v t hn h
    obtain ⟨b, rfl, _⟩ := h.form
    simp [paren] at hn
  | succ n ih =>
    intro v t hn h
    cases h with
    | forall_ h1 ha h2 hb h3 =>
      simp only [paren, List.length_append, List.length_cons] at hn
      obtain ⟨u, r, v⟩ := ha.tidy
      obtain ⟨u', r', v'⟩ := ih _ _ (by omega) hb
      exact ⟨_, .forall_ .blank1 r .space r' .nil, kw2 kw h1 v h2 v' h3⟩
    | and h =>
      simp only [paren, List.length_append, List.length_cons] at hn
      obtain ⟨u, r, v⟩ := forms_tidy h fun a t h _ => ih a t (by omega) h
      exact ⟨_, .and r, .paren (.kw kw v)⟩
    | timed h => exact h.tidy.map fun _ => .timed

theorem DaGDW.tidy {v : DaGD} {t : List Char} (h : DaGDW .strict v t) :
    Tidy true (DaGDW .strict) v t := DaGDW.tidy_aux _ v t (Nat.le_refl _) h

theorem FAssignDaW.tidy {v : FAssignDa} {t : List Char} (h : FAssignDaW .strict v t) :
    Tidy true (FAssignDaW .strict) v t := by
  cases h with
  | mk h0 ho h1 ha h2 hb h3 =>
    obtain ⟨u, r, v⟩ := ha.tidy
    obtain ⟨u', r', v'⟩ := hb.tidy
    exact ⟨_, .mk .nil ho .space r .space r' rfl, op_body h0 ho.plain h1 v (Sp.sep h2) v' h3⟩

theorem TimedEffectW.tidy {v : TimedEffect} {t : List Char} (h : TimedEffectW .strict v t) :
    Tidy true (TimedEffectW .strict) v t := by
  cases h with
  | @conditional _ ts _ _ _ _ h1 h2 h h3 h4 =>
    obtain ⟨u, r, v⟩ := h.tidy
    exact ⟨_, .conditional .space .space r .nil h4, kw2s kw h1 (.plain ts.plain) h2 v h3⟩
  | @numericFluent _ ts _ _ _ _ h1 h2 h h3 =>
    obtain ⟨u, r, v⟩ := h.tidy
    exact ⟨_, .numericFluent .space .space r .nil, kw2s kw h1 (.plain ts.plain) h2 v h3⟩
  | @continuous _ op _ _ _ _ _ _ _ h0 h1 ha h2 hb h3 =>
    obtain ⟨u, r, v⟩ := ha.tidy
    obtain ⟨u', r', v'⟩ := hb.tidy
    exact ⟨_, .continuous .nil .space r .space r' rfl, op_body h0 op.plain h1 v (Sp.sep h2) v' h3⟩

theorem DaEffectW.tidy_aux (n : Nat) : ∀ v t, t.length ≤ n → DaEffectW .strict v t →
    Tidy true (DaEffectW .strict) v t := by
  induction n with
  | zero =>
    intro v t hn h
    obtain ⟨b, rfl, _⟩ := h.form
    simp [paren] at hn
  | succ n ih =>
    intro v t hn h
    cases h with
    | all h =>
      simp only [paren, List.length_append, List.length_cons] at hn
      obtain ⟨u, r, v⟩ := forms_tidy h fun a t h _ => ih a t (by omega) h
      exact ⟨_, .all r, .paren (.kw kw v)⟩
    | forall_ h1 ha h2 hb h3 =>
      simp only [paren, List.length_append, List.length_cons] at hn
      obtain ⟨u, r, v⟩ := ha.tidy
      obtain ⟨u', r', v'⟩ := ih _ _ (by omega) hb
      exact ⟨_, .forall_ .blank1 r .space r' .nil, kw2 kw h1 v h2 v' h3⟩
    | when h1 ha h2 hb h3 =>
      obtain ⟨u, r, v⟩ := ha.tidy
      obtain ⟨u', r', v'⟩ := hb.tidy
      exact ⟨_, .when .blank1 r .space r' .nil, kw2 kw h1 v h2 v' h3⟩
    | timed h => exact h.tidy.map fun _ => .timed

theorem DaEffectW.tidy {v : DaEffect} {t : List Char} (h : DaEffectW .strict v t) :
    Tidy true (DaEffectW .strict) v t := DaEffectW.tidy_aux _ v t (Nat.le_refl _) h

theorem DValueW.tidy {v : DurationValue} {t : List Char} (h : DValueW .strict v t) :
    Tidy false (DValueW .strict) v t := by
  cases h with
  | number h => exact h.tidy.map fun _ => .number
  | fExp h h' => exact h.tidy.map fun _ h => .fExp h h'

theorem SimpleDurationW.tidy_aux (n : Nat) : ∀ v t, t.length ≤ n → SimpleDurationW .strict v t →
    Tidy true (SimpleDurationW .strict) v t := by
  induction n with
  | zero =>
    intro v t hn h
    obtain ⟨b, rfl, _⟩ := h.form
    simp [paren] at hn
  | succ n ih =>
    intro v t hn h
    cases h with
    | @op _ o _ _ _ _ _ h0 h1 h2 h h3 =>
      obtain ⟨u, r, v⟩ := h.tidy
      exact ⟨_, .op .nil .space .space r rfl,
        op_body h0 o.plain h1.sep (.plain (t := c!"?duration") kw) (Sp.sep h2) v h3⟩
    | @«at» _ ts _ _ _ _ h1 h2 h h3 =>
      simp only [paren, List.length_append, List.length_cons] at hn
      obtain ⟨u, r, v⟩ := ih _ _ (by omega) h
      exact ⟨_, .at .space .space r .nil, kw2s kw h1 (.plain ts.plain) h2 v h3⟩

theorem SimpleDurationW.tidy {v : SimpleDuration} {t : List Char} (h : SimpleDurationW .strict v t) :
    Tidy true (SimpleDurationW .strict) v t := SimpleDurationW.tidy_aux _ v t (Nat.le_refl _) h

theorem DurationW.tidy {v : DurationConstraint} {t : List Char} (h : DurationW .strict v t) :
    Tidy true (DurationW .strict) v t := by
  cases h with
  | single h => exact h.tidy.map fun _ => .single
  | all h1 h h2 =>
    obtain ⟨u, r, v⟩ := h.tidy fun _ _ h _ => h.tidy
    exact ⟨_, .all .blank1 r .nil, kw1 kw h1 v h2⟩

theorem DaDefW.tidy {v : DaDef} {t : List Char} (h : DaDefW .strict v t) :
    Tidy true (DaDefW .strict) v t := by
  cases h with
  | mk h1 hn h2 h3 hv h4 hd h5 hc h6 he h7 =>
    obtain ⟨uv, rv, vv⟩ := hv.tidy
    obtain ⟨u1, r1, m1⟩ := hd.tidy fun _ _ h => h.tidy
    obtain ⟨u2, r2, m2⟩ := hc.tidy fun _ _ h => h.tidy
    obtain ⟨u3, r3, m3⟩ := he.tidy fun _ _ h => h.tidy
    exact ⟨_, .mk .space hn .space .space rv .space r1 .space r2 .space r3 .nil,
      .paren (.kw kw (.sep h1 hn.vis (.sp h2 (.plain kw) (.sep h3 vv (.sp h4 (.plain kw)
        (m1.append (.sp h5 (.plain kw) (m2.append (.sp h6 (.plain kw) (m3.append (.gap h7)))))))))))⟩

theorem StructureW.tidy {v : StructureDef} {t : List Char} (h : StructureW .strict v t) :
    Tidy true (StructureW .strict) v t := by
  cases h with
  | derived h => exact h.tidy.map fun _ => .derived
  | action h => exact h.tidy.map fun _ => .action
  | durative h => exact h.tidy.map fun _ => .durative

/-! ## Sections -/

theorem NonEmptyW.tidy_sep {w : List Char} {R : α → List Char → Prop} {v : List α} {t : List Char}
    (h : NonEmptyW w Sep R v t) (hw : Plain w) (hR : ∀ a u, R a u → Tidy false R a u) :
    Tidy true (NonEmptyW w Sep R) v t := by
  cases h with
  | mk h1 h h2 =>
    obtain ⟨u, r, v⟩ := h.tidy fun a t h _ => hR a t h
    exact ⟨_, .mk .space r .nil, kw1s hw h1 v h2⟩

theorem NonEmptyW.tidy_gap {w : List Char} {R : α → List Char → Prop} {v : List α} {t : List Char}
    (h : NonEmptyW w Gap R v t) (hw : Plain w) (hR : ∀ a u, R a u → Tidy true R a u) :
    Tidy true (NonEmptyW w Gap R) v t := by
  cases h with
  | mk h1 h h2 =>
    obtain ⟨u, r, v⟩ := h.tidy fun a t h _ => hR a t h
    exact ⟨_, .mk .blank1 r .nil, kw1 hw h1 v h2⟩

theorem RequirementsW.tidy {v : List Requirement} {t : List Char} (h : RequirementsW .strict v t) :
    Tidy true (RequirementsW .strict) v t := NonEmptyW.tidy_sep h kw fun _ _ h => h.tidy

theorem ExtendsW.tidy {v : List Name} {t : List Char} (h : ExtendsW .strict v t) :
    Tidy true (ExtendsW .strict) v t := NonEmptyW.tidy_sep h kw fun _ _ h => h.tidy

theorem PredicatesW.tidy {v : List Skeleton} {t : List Char} (h : PredicatesW .strict v t) :
    Tidy true (PredicatesW .strict) v t := NonEmptyW.tidy_gap h kw fun _ _ h => h.tidy

theorem TimelessW.tidy {v : List (Literal Name)} {t : List Char} (h : TimelessW .strict v t) :
    Tidy true (TimelessW .strict) v t := NonEmptyW.tidy_gap h kw fun _ _ h => h.tidy

theorem TypedNamesW.tidy {w : List Char} {v : TypedList Name} {t : List Char}
    (h : TypedNamesW .strict w v t) (hw : Plain w) : Tidy true (TypedNamesW .strict w) v t := by
  cases h with
  | mk h =>
    obtain ⟨u, r, v⟩ := h.tidy_sep (fun _ => id) .nil fun _ h _ => h.tidy fun _ _ h => h.tidy
    exact ⟨_, .mk r, .paren (.kw hw v)⟩

theorem FunctionsW.tidy {v : TypedList Skeleton} {t : List Char} (h : FunctionsW .strict v t) :
    Tidy true (FunctionsW .strict) v t := by
  cases h with
  | mk h =>
    obtain ⟨u, r, v⟩ := h.tidy_gap (fun _ => id) .nil fun _ h _ => h.tidy fun _ _ h => h.tidy
    exact ⟨_, .mk r, .paren (.kw kw v)⟩

theorem InitElW.tidy {v : InitElement} {t : List Char} (h : InitElW .strict v t) :
    Tidy true (InitElW .strict) v t := by
  cases h with
  | literal h => exact h.tidy.map fun _ => .literal
  | «at» h1 hn h2 h h3 =>
    obtain ⟨u, r, v⟩ := h.tidy
    exact ⟨_, .at .space hn .space r .nil, kw2s kw h1 hn.vis h2 v h3⟩
  | isValue h1 h h2 hn h3 =>
    obtain ⟨u, r, v⟩ := h.tidy
    obtain ⟨s, hs, b⟩ := Body.glue (t := c!"=") kw h1 v (.sp h2 hn.vis (.gap h3))
    exact ⟨_, .isValue (glue_gap hs) r .space hn .nil, .paren b⟩
  | isObject h1 h h2 hn h3 h4 =>
    obtain ⟨u, r, v⟩ := h.tidy
    obtain ⟨s, hs, b⟩ := Body.glue (t := c!"=") kw h1 v (.sep h2 hn.vis (.gap h3))
    exact ⟨_, .isObject (glue_gap hs) r .space hn .nil fun h => v.1.symm.trans (h4 h), .paren b⟩

theorem InitW.tidy {v : List InitElement} {t : List Char} (h : InitW .strict v t) :
    Tidy true (InitW .strict) v t := by
  cases h with
  | mk h =>
    obtain ⟨u, r, v⟩ := forms_tidy h fun _ _ h _ => h.tidy
    exact ⟨_, .mk r, .paren (.kw kw v)⟩

theorem WrapW.tidy_sep {w : List Char} {R : α → List Char → Prop} {v : α} {t : List Char}
    (h : WrapW w Sep R v t) (hw : Plain w) (hR : ∀ a u, R a u → Tidy false R a u) :
    Tidy true (WrapW w Sep R) v t := by
  cases h with
  | mk h1 h h2 =>
    obtain ⟨u, r, v⟩ := hR _ _ h
    exact ⟨_, .mk .space r .nil, kw1s hw h1 v h2⟩

theorem WrapW.tidy_gap {w : List Char} {R : α → List Char → Prop} {v : α} {t : List Char}
    (h : WrapW w Gap R v t) (hw : Plain w) (hR : ∀ a u, R a u → Tidy true R a u) :
    Tidy true (WrapW w Gap R) v t := by
  cases h with
  | mk h1 h h2 =>
    obtain ⟨u, r, v⟩ := hR _ _ h
    exact ⟨_, .mk .blank1 r .nil, kw1 hw h1 v h2⟩

theorem LengthW.tidy {v : LengthSpec} {t : List Char} (h : LengthW .strict v t) :
    Tidy true (LengthW .strict) v t := by
  cases h with
  | mk h1 h2 h3 =>
    obtain ⟨u1, r1, m1⟩ := h1.tidy_gap fun _ _ h => WrapW.tidy_sep h kw fun _ _ h => h.tidy
    obtain ⟨u2, r2, m2⟩ := h2.tidy_gap fun _ _ h => WrapW.tidy_sep h kw fun _ _ h => h.tidy
    exact ⟨_, .mk r1 r2 .nil, .paren (.kw kw (m1.append (m2.append (.gap h3))))⟩

theorem MetricW.tidy_aux (n : Nat) : ∀ v t, t.length ≤ n → MetricW .strict v t →
    Tidy false (MetricW .strict) v t := by
  induction n with
  | zero =>
    intro v t hn h
    obtain ⟨c, r, rfl, _⟩ := h.solid
    simp at hn
  | succ n ih =>
    intro v t hn h
    cases h with
    | number h => exact h.tidy.map fun _ => .number
    | negative h0 h1 h h2 =>
      simp only [paren, List.length_append, List.length_cons] at hn
      obtain ⟨u, r, v⟩ := ih _ _ (by omega) h
      obtain ⟨s, hs, b⟩ := neg_body h0 h1 v h2
      exact ⟨_, .negative .nil hs r rfl, b⟩
    | @binaryOp _ op _ _ _ _ _ _ _ h0 h1 ha h2 hb h3 =>
      simp only [paren, List.length_append, List.length_cons] at hn
      obtain ⟨u, r, v⟩ := ih _ _ (by omega) ha
      obtain ⟨u', r', v'⟩ := ih _ _ (by omega) hb
      exact ⟨_, .binaryOp .nil .space r .space r' rfl,
        (op_body h0 op.plain (Sp.sep h1) v (Sp.sep h2) v' h3).weak⟩
    | @multiOp _ op _ _ _ _ _ _ _ h0 h1 ha h2 hb h3 h4 =>
      simp only [paren, List.length_append, List.length_cons] at hn
      obtain ⟨u, r, v⟩ := ih _ _ (by omega) ha
      obtain ⟨u', r', v'⟩ := hb.tidy fun a t h _ => ih a t (by omega) h
      exact ⟨_, .multiOp .nil .space r .space r' rfl h4,
        (op_body h0 op.plain (Sp.sep h1) v h2 v' h3).weak⟩
    | totalTime => exact ⟨_, .totalTime, .plain kw⟩
    | isViolated h1 h h2 => exact ⟨_, .isViolated .space h .nil, (kw1s kw h1 h.vis h2).weak⟩
    | function h1 h2 h h3 =>
      obtain ⟨u, r, v⟩ := names_tidy h
      exact ⟨_, .function .nil h2 r h3, .paren (.gap h1 (.kw h2.1.plain v)) _⟩
    | bare h h' => exact ⟨_, .bare h h', h.vis⟩

theorem MetricW.tidy {v : MetricFExp} {t : List Char} (h : MetricW .strict v t) :
    Tidy false (MetricW .strict) v t := MetricW.tidy_aux _ v t (Nat.le_refl _) h

theorem MetricSpecW.tidy {v : MetricSpec} {t : List Char} (h : MetricSpecW .strict v t) :
    Tidy true (MetricSpecW .strict) v t := by
  cases h with
  | @mk _ o _ _ _ _ h1 h2 h h3 =>
    obtain ⟨u, r, v⟩ := h.tidy
    exact ⟨_, .mk .space .space r .nil, kw2s kw h1 (.plain o.plain) (Sp.sep h2) v h3⟩

/-! ## Domain and problem -/

theorem DomainW.tidy {v : Domain} {t : List Char} (h : DomainW .strict v t) :
    Tidy true (DomainW .strict) v t := by
  cases h with
  | mk h1 hn a1 a2 a3 a4 a5 a6 a7 a8 h2 =>
    obtain ⟨u, r, v⟩ := WrapW.tidy_sep hn kw fun _ _ h => h.tidy
    obtain ⟨u1, r1, m1⟩ := a1.tidy_sep fun _ _ h => ExtendsW.tidy h
    obtain ⟨u2, r2, m2⟩ := a2.tidy_sep fun _ _ h => RequirementsW.tidy h
    obtain ⟨u3, r3, m3⟩ := a3.tidy_sep fun _ _ h => h.tidy kw
    obtain ⟨u4, r4, m4⟩ := a4.tidy_sep fun _ _ h => h.tidy kw
    obtain ⟨u5, r5, m5⟩ := a5.tidy_sep fun _ _ h => PredicatesW.tidy h
    obtain ⟨u6, r6, m6⟩ := a6.tidy_sep fun _ _ h => h.tidy
    obtain ⟨u7, r7, m7⟩ := a7.tidy_sep fun _ _ h => h.tidy_gap kw fun _ _ h => h.tidy
    obtain ⟨u8, r8, m8⟩ := a8.tidy_sep fun _ _ h => h.tidy fun _ _ h _ => h.tidy
    exact ⟨_, .mk .blank1 r r1 r2 r3 r4 r5 r6 r7 r8 .nil,
      .paren (.kw kw (.gapV h1 v (m1.append (m2.append (m3.append (m4.append (m5.append (m6.append
        (m7.append (m8.append (.gap h2)))))))))))⟩

theorem ProblemW.tidy {v : Problem} {t : List Char} (h : ProblemW .strict v t) :
    Tidy true (ProblemW .strict) v t := by
  cases h with
  | mk h1 hn h2 hd a1 a2 h3 hi h4 hg a3 a4 a5 h5 =>
    obtain ⟨u, r, v⟩ := WrapW.tidy_sep hn kw fun _ _ h => h.tidy
    obtain ⟨u', r', v'⟩ := WrapW.tidy_sep hd kw fun _ _ h => h.tidy
    obtain ⟨u1, r1, m1⟩ := a1.tidy_sep fun _ _ h => RequirementsW.tidy h
    obtain ⟨u2, r2, m2⟩ := a2.tidy_sep fun _ _ h => h.tidy kw
    obtain ⟨ui, ri, vi⟩ := hi.tidy
    obtain ⟨ug, rg, vg⟩ := hg.tidy_gap kw fun _ _ h => h.tidy
    obtain ⟨u3, r3, m3⟩ := a3.tidy_sep fun _ _ h => h.tidy_gap kw fun _ _ h => h.tidy
    obtain ⟨u4, r4, m4⟩ := a4.tidy_sep fun _ _ h => h.tidy
    obtain ⟨u5, r5, m5⟩ := a5.tidy_sep fun _ _ h => h.tidy
    exact ⟨_, .mk .blank1 r .space r' r1 r2 .space ri .space rg r3 r4 r5 .nil,
      .paren (.kw kw (.gapV h1 v (.sep h2 v' (m1.append (m2.append (.sep h3 vi (.sep h4 vg
        (m3.append (m4.append (m5.append (.gap h5)))))))))))⟩

end Pddl
