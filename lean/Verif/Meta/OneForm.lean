import Verif.Meta.Form

/-!
# Meta-theory: forms have depth zero at their end and not earlier
-/

namespace Pddl

theorem depth_true_body {body : List Char} (h : ∀ c ∈ body, isNewline c = false) (v : List Char) :
    depth true (body ++ v) = depth true v := by
  induction body with
  | nil => rfl
  | cons c body ih =>
    rw [List.cons_append, depth, h c (by simp), Bool.not_false]
    exact ih fun d hd => h d (by simp [hd])

theorem depth_plain {c : Char} (h1 : c ≠ '(') (h2 : c ≠ ')') (h3 : c ≠ ';') (v : List Char) :
    depth false (c :: v) = depth false v := by
  rw [depth] <;> simp_all

theorem Bal.depth {u : List Char} (h : Bal u) : ∀ v, depth false (u ++ v) = depth false v := by
  induction h with
  | nil => intro v; rfl
  | plain h1 h2 h3 _ ih => intro v; rw [List.cons_append, depth_plain h1 h2 h3, ih]
  | comment hb hbody hn _ ih =>
    intro v
    rw [List.cons_append, Pddl.depth, List.cons_append, Pddl.depth, hb, Bool.not_false,
      List.append_assoc, depth_true_body hbody, List.cons_append, Pddl.depth, hn, Bool.not_true, ih]
  | nest _ _ ih1 ih2 =>
    intro v
    rw [List.cons_append, Pddl.depth, List.append_assoc, ih1, List.cons_append, Pddl.depth, ih2]
    omega

theorem depth_true_prefix {body : List Char} (h : ∀ c ∈ body, isNewline c = false) :
    ∀ {p q}, body = p ++ q → depth true p = 0 := by
  intro p q e
  have : ∀ c ∈ p, isNewline c = false := fun c hc => h c (by rw [e]; simp [hc])
  have := depth_true_body this []
  rw [List.append_nil] at this
  rw [this, depth]

theorem Bal.prefix {u : List Char} (h : Bal u) :
    ∀ p q, u = p ++ q → 0 ≤ Pddl.depth false p := by
  induction h with
  | nil =>
    intro p q e
    obtain ⟨rfl, _⟩ := List.append_eq_nil_iff.mp e.symm
    simp [Pddl.depth]
  | plain h1 h2 h3 _ ih =>
    intro p q e
    cases p with
    | nil => simp [Pddl.depth]
    | cons d p =>
      injection e with e1 e2
      subst e1
      rw [depth_plain h1 h2 h3]
      exact ih p q e2
  | @comment b body n u hb hbody hn _ ih =>
    intro p q e
    match p, e with
    | [], _ => simp [Pddl.depth]
    | [d], e =>
      injection e with e1 e2
      subst e1
      simp [Pddl.depth]
    | d :: d' :: p, e =>
      injection e with e1 e2
      injection e2 with e2 e3
      subst e1 e2
      rw [Pddl.depth, Pddl.depth, hb, Bool.not_false]
      rcases List.append_eq_append_iff.mp e3 with ⟨w, h1, h2⟩ | ⟨w, h1, h2⟩
      · subst h1
        rw [depth_true_body hbody]
        cases w with
        | nil => simp [Pddl.depth]
        | cons a w =>
          injection h2 with h3 h4
          subst h3
          rw [Pddl.depth, hn, Bool.not_true]
          exact ih w q h4
      · rw [depth_true_prefix hbody h1]
        exact Int.le_refl 0
  | @nest u v hu hv ih1 ih2 =>
    intro p q e
    cases p with
    | nil => simp [Pddl.depth]
    | cons d p =>
      injection e with e1 e2
      subst e1
      rw [Pddl.depth]
      rcases List.append_eq_append_iff.mp e2 with ⟨w, h1, h2⟩ | ⟨w, h1, h2⟩
      · subst h1
        rw [hu.depth]
        cases w with
        | nil => simp [Pddl.depth]
        | cons a w =>
          injection h2 with h3 h4
          subst h3
          rw [Pddl.depth]
          have := ih2 w q h4
          omega
      · have := ih1 p w h1
        omega

theorem OneForm.of_form {t : List Char} (h : Form t) : OneForm t := by
  obtain ⟨u, rfl, hu⟩ := h
  refine ⟨rfl, ?_, fun p q e hp hq => ?_⟩
  · have := hu.paren.depth []
    rw [List.append_nil] at this
    rw [this, depth]
  · cases p with
    | nil => exact absurd rfl hp
    | cons d p =>
      rw [paren] at e
      injection e with e1 e2
      subst e1
      rw [depth]
      rcases List.append_eq_append_iff.mp e2 with ⟨w, h1, h2⟩ | ⟨w, h1, h2⟩
      · cases w with
        | nil =>
          rw [List.append_nil] at h1
          subst h1
          have := hu.prefix p [] (by simp)
          omega
        | cons a w =>
          injection h2 with h3 h4
          exact absurd (List.append_eq_nil_iff.mp h4.symm).2 hq
      · have := hu.prefix p w h1
        omega

end Pddl
