import Verif.Meta.Layout
import Verif.Meta.Balance
import Verif.Spec.Work
import Verif.Spec.Depth

/-!
# Meta-theory: positions on the same level of nesting
-/

namespace Pddl

/-- The text from the closing parenthesis of the enclosing form on. -/
def close (s : List Char) : List Char := closeAt false 0 s

theorem closeAt_head (f : Bool) (d : Nat) (s : List Char) :
    closeAt f d s = [] ∨ ∃ r, closeAt f d s = ')' :: r := by
  induction s generalizing f d with
  | nil => exact .inl rfl
  | cons c s ih =>
    cases f with
    | true => exact ih _ d
    | false =>
      rw [closeAt]
      split
      · exact ih _ _
      · split
        next h =>
          split
          · exact .inr ⟨s, by rw [h]⟩
          · exact ih _ _
        · exact ih _ _

theorem closeAt_shift (f : Bool) (a d : Nat) (s : List Char) :
    closeAt f (a + d + 1) s = closeAt false d (closeAt f a s).tail := by
  induction s generalizing f a with
  | nil => simp [closeAt]
  | cons c s ih =>
    cases f with
    | true => exact ih _ a
    | false =>
      rw [closeAt, closeAt.eq_def false a]
      simp only
      by_cases h1 : c = '('
      · simp only [h1, if_true]
        have := ih false (a + 1)
        rw [show a + 1 + d + 1 = a + d + 1 + 1 by omega] at this
        exact this
      · by_cases h2 : c = ')'
        · subst h2
          simp only [h1, if_false, if_true]
          cases a with
          | zero => simp
          | succ a =>
            simp only [show a + 1 + d + 1 ≠ 0 by omega, show a + 1 + d + 1 - 1 = a + d + 1 by omega,
              show a + 1 ≠ 0 by omega, show a + 1 - 1 = a by omega, if_false]
            exact ih false a
        · simp only [h1, h2, if_false]
          exact ih _ a

theorem close_nil : close [] = [] := rfl

theorem close_open (s : List Char) : close ('(' :: s) = close (close s).tail := by
  have := closeAt_shift false 0 0 s
  rw [close, closeAt]
  exact this

theorem close_close (s : List Char) : close (')' :: s) = ')' :: s := by
  rw [close, closeAt]; rfl

theorem close_plain {c : Char} (h1 : c ≠ '(') (h2 : c ≠ ')') (h3 : c ≠ ';') (s : List Char) :
    close (c :: s) = close s := by
  rw [close, closeAt, if_neg h1, if_neg h2, show (c == ';') = false by simp [h3]]
  rfl

theorem closeAt_comment (d : Nat) (s : List Char) :
    closeAt true d s = closeAt false d (s.dropWhile fun c => !isNewline c) := by
  induction s with
  | nil => rfl
  | cons c s ih =>
    rw [closeAt]
    cases h : isNewline c with
    | false => simp [h, ih]
    | true =>
      have h1 : c ≠ '(' ∧ c ≠ ')' ∧ c ≠ ';' := by
        refine ⟨?_, ?_, ?_⟩ <;> rintro rfl <;> exact absurd h (by decide)
      simp only [List.dropWhile_cons, h, Bool.not_true, if_neg (by simp : ¬ (false = true))]
      rw [closeAt, if_neg h1.1, if_neg h1.2.1, show (c == ';') = false by simp [h1.2.2]]

theorem close_comment (s : List Char) :
    close (';' :: s) = close (s.dropWhile fun c => !isNewline c) := by
  rw [close, closeAt]
  exact closeAt_comment 0 s

theorem close_length (s : List Char) : (close s).length ≤ s.length := closeAt_length _ _ _

/-- Length of the text up to the end of the enclosing form. -/
def vis (s : List Char) : Nat := s.length - (close s).length

/-- 1 if an operation begins here. -/
def opw (s : List Char) : Nat := if isOperation s = true then 1 else 0

theorem opDepth_nil : opDepth [] = 0 := by rw [opDepth]

theorem opDepth_open (s : List Char) :
    opDepth ('(' :: s) = max (opw s + opDepth s) (opDepth (close s).tail) := by
  rw [opDepth]; rfl

theorem opDepth_close (s : List Char) : opDepth (')' :: s) = 0 := by
  rw [opDepth]; rfl

theorem opDepth_comment (s : List Char) :
    opDepth (';' :: s) = opDepth (s.dropWhile fun c => !isNewline c) := by
  rw [opDepth]; rfl

theorem opDepth_plain {c : Char} (h1 : c ≠ '(') (h2 : c ≠ ')') (h3 : c ≠ ';') (s : List Char) :
    opDepth (c :: s) = opDepth s := by
  rw [opDepth]; simp [h1, h2, h3]

/-- How deep parentheses are nested up to the first closing parenthesis that belongs to none of the
opening ones. -/
def nestAt : Bool → Nat → List Char → Nat
  | _, d, [] => d
  | true, d, c :: s => nestAt (!isNewline c) d s
  | false, d, c :: s =>
    if c = '(' then nestAt false (d + 1) s
    else if c = ')' then if d = 0 then 0 else max d (nestAt false (d - 1) s)
    else nestAt (c == ';') d s

theorem le_nestAt (f : Bool) (d : Nat) (s : List Char) : d ≤ nestAt f d s := by
  induction s generalizing f d with
  | nil => exact Nat.le_refl d
  | cons c s ih =>
    cases f with
    | true => exact ih _ _
    | false =>
      rw [nestAt]
      split
      · exact Nat.le_trans (Nat.le_succ d) (ih _ _)
      · split
        · split
          · omega
          · exact Nat.le_max_left _ _
        · exact ih _ _

theorem nestAt_shift (f : Bool) (a d : Nat) (s : List Char) :
    nestAt f (a + d + 1) s = max (d + 1 + nestAt f a s) (nestAt false d (closeAt f a s).tail) := by
  induction s generalizing f a with
  | nil => simp [closeAt, nestAt]; omega
  | cons c s ih =>
    cases f with
    | true => exact ih _ a
    | false =>
      rw [nestAt, closeAt, nestAt.eq_def false a]
      simp only
      by_cases h1 : c = '('
      · simp only [h1, if_true]
        have := ih false (a + 1)
        rw [show a + 1 + d + 1 = a + d + 1 + 1 by omega] at this
        exact this
      · by_cases h2 : c = ')'
        · subst h2
          simp only [h1, if_false, if_true]
          cases a with
          | zero => simp
          | succ a =>
            simp only [show a + 1 + d + 1 ≠ 0 by omega, show a + 1 + d + 1 - 1 = a + d + 1 by omega,
              show a + 1 ≠ 0 by omega, show a + 1 - 1 = a by omega, if_false]
            rw [ih false a]
            omega
        · simp only [h1, h2, if_false]
          exact ih _ a

/-- How deep parentheses are nested up to the end of the enclosing form. -/
def nest (s : List Char) : Nat := nestAt false 0 s

theorem nest_open (s : List Char) : nest ('(' :: s) = max (1 + nest s) (nest (close s).tail) := by
  have := nestAt_shift false 0 0 s
  rw [nest, nestAt, if_pos rfl]
  exact this

theorem nest_plain {c : Char} (h1 : c ≠ '(') (h2 : c ≠ ')') (h3 : c ≠ ';') (s : List Char) :
    nest (c :: s) = nest s := by
  rw [nest, nestAt, if_neg h1, if_neg h2, show (c == ';') = false by simp [h3]]
  rfl

theorem nestAt_comment (d : Nat) (s : List Char) :
    nestAt true d s = nestAt false d (s.dropWhile fun c => !isNewline c) := by
  induction s with
  | nil => rfl
  | cons c s ih =>
    rw [nestAt]
    cases h : isNewline c with
    | false => simp [h, ih]
    | true =>
      have h1 : c ≠ '(' ∧ c ≠ ')' ∧ c ≠ ';' := by
        refine ⟨?_, ?_, ?_⟩ <;> rintro rfl <;> exact absurd h (by decide)
      simp only [List.dropWhile_cons, h, Bool.not_true, if_neg (by simp : ¬ (false = true))]
      rw [nestAt, if_neg h1.1, if_neg h1.2.1, show (c == ';') = false by simp [h1.2.2]]

theorem nest_comment (s : List Char) :
    nest (';' :: s) = nest (s.dropWhile fun c => !isNewline c) := by
  rw [nest, nestAt]
  exact nestAt_comment 0 s

theorem nestingFrom_mono (f : Bool) (d e : Nat) (h : d ≤ e) (s : List Char) :
    nestingFrom f d s ≤ nestingFrom f e s := by
  induction s generalizing f d e with
  | nil => exact h
  | cons c s ih =>
    cases f with
    | true => exact ih _ _ _ h
    | false =>
      rw [nestingFrom, nestingFrom]
      split
      · exact ih _ _ _ (by omega)
      · split
        · have := ih false (d - 1) (e - 1) (by omega)
          omega
        · exact ih _ _ _ h

theorem nestAt_le (f : Bool) (d : Nat) (s : List Char) : nestAt f d s ≤ nestingFrom f d s := by
  induction s generalizing f d with
  | nil => exact Nat.le_refl d
  | cons c s ih =>
    cases f with
    | true => exact ih _ _
    | false =>
      rw [nestAt, nestingFrom]
      split
      · exact ih _ _
      · split
        · split
          · omega
          · have := ih false (d - 1); omega
        · exact ih _ _

theorem nest_le (s : List Char) : nest s ≤ nesting s := nestAt_le false 0 s

theorem longestComments_append (u s : List Char) : longestComments s ≤ longestComments (u ++ s) := by
  induction u with
  | nil => exact Nat.le_refl _
  | cons c u ih => exact Nat.le_trans ih (Nat.le_max_right _ _)

theorem longestComments_suffix {r s : List Char} (h : r <:+ s) :
    longestComments r ≤ longestComments s := by
  obtain ⟨u, rfl⟩ := h
  exact longestComments_append u r

theorem closeAt_suffix (f : Bool) (d : Nat) (s : List Char) : closeAt f d s <:+ s := by
  induction s generalizing f d with
  | nil => exact List.suffix_refl _
  | cons c s ih =>
    have h := fun f d => (ih f d).trans (List.suffix_cons c s)
    cases f with
    | true => exact h _ d
    | false =>
      rw [closeAt]
      split
      · exact h _ _
      · split
        · split
          · exact List.suffix_refl _
          · exact h _ _
        · exact h _ _

/-- `r` is a later position of `s` in the same form. -/
structure Lvl (s r : List Char) : Prop where
  len : r.length ≤ s.length
  close : close r = close s
  ops : opDepth r ≤ opDepth s
  nest : nest r ≤ nest s
  coms : longestComments r ≤ longestComments s

theorem Lvl.refl (s : List Char) : Lvl s s :=
  ⟨Nat.le_refl _, rfl, Nat.le_refl _, Nat.le_refl _, Nat.le_refl _⟩

theorem Lvl.trans {s r t : List Char} (h : Lvl s r) (h' : Lvl r t) : Lvl s t :=
  ⟨Nat.le_trans h'.len h.len, h'.close.trans h.close, Nat.le_trans h'.ops h.ops,
    Nat.le_trans h'.nest h.nest, Nat.le_trans h'.coms h.coms⟩

theorem Lvl.vis {s r : List Char} (h : Lvl s r) : vis r + (s.length - r.length) = vis s := by
  have h1 := close_length r
  have h2 := close_length s
  have h3 := h.len
  have h4 := h.close
  unfold Pddl.vis
  rw [h4] at h1 ⊢
  omega

theorem Lvl.vis_le {s r : List Char} (h : Lvl s r) : Pddl.vis r ≤ Pddl.vis s := by
  have := h.vis; omega

theorem Lvl.plain {c : Char} (h : c ≠ '(' ∧ c ≠ ')' ∧ c ≠ ';') (s : List Char) : Lvl (c :: s) s :=
  ⟨by simp, (close_plain h.1 h.2.1 h.2.2 s).symm,
    Nat.le_of_eq (opDepth_plain h.1 h.2.1 h.2.2 s).symm,
    Nat.le_of_eq (nest_plain h.1 h.2.1 h.2.2 s).symm, longestComments_suffix (List.suffix_cons c s)⟩

theorem Lvl.comment (s : List Char) : Lvl (';' :: s) (s.dropWhile fun c => !isNewline c) := by
  have := (List.dropWhile_suffix (fun c => !isNewline c) (l := s)).length_le
  exact ⟨by simp only [List.length_cons]; omega, (close_comment s).symm,
    Nat.le_of_eq (opDepth_comment s).symm, Nat.le_of_eq (nest_comment s).symm,
    longestComments_suffix ((List.dropWhile_suffix _).trans (List.suffix_cons _ s))⟩

/-- After the form. -/
theorem Lvl.form {t r : List Char} (h : Pddl.close t = ')' :: r) : Lvl ('(' :: t) r := by
  have h1 := close_length t
  refine ⟨?_, ?_, ?_, ?_, ?_⟩
  · simp only [h, List.length_cons] at h1 ⊢; omega
  · rw [close_open, h]; rfl
  · rw [opDepth_open, h]; exact Nat.le_max_right _ _
  · rw [nest_open, h]; exact Nat.le_max_right _ _
  · have h2 : Pddl.close t <:+ t := closeAt_suffix _ _ _
    rw [h] at h2
    exact longestComments_suffix ((List.suffix_cons _ r).trans (h2.trans (List.suffix_cons _ t)))

/-- After the form, if the inside is left at its closing parenthesis. -/
theorem Lvl.wrap {t u r : List Char} (h : Lvl t u) (hu : u = ')' :: r) : Lvl ('(' :: t) r := by
  refine .form ?_
  rw [← h.close, hu, close_close]

theorem Lvl.append {u : List Char} (h : ∀ c ∈ u, c ≠ '(' ∧ c ≠ ')' ∧ c ≠ ';') (s : List Char) :
    Lvl (u ++ s) s := by
  induction u with
  | nil => exact .refl s
  | cons c u ih => exact (Lvl.plain (h c (by simp)) _).trans (ih fun d hd => h d (by simp [hd]))

theorem Lvl.dropWhile {f : Char → Bool} (h : ∀ c, f c = true → c ≠ '(' ∧ c ≠ ')' ∧ c ≠ ';')
    (s : List Char) : Lvl s (s.dropWhile f) := by
  have := Lvl.append (u := s.takeWhile f) (fun c hc => h c (all_takeWhile _ _ c hc)) (s.dropWhile f)
  rwa [List.takeWhile_append_dropWhile] at this

theorem Lvl.skipC (s : List Char) : Lvl s (skipC s) := by
  match s with
  | [] => exact .refl _
  | c :: s =>
    by_cases hc : c = ';'
    · subst hc
      by_cases ht : s.takeWhile (fun c => !isNewline c) = []
      · rw [skipC_empty ht]; exact .refl _
      · rw [skipC_comment ht, skip]
        exact (Lvl.comment s).trans ((Lvl.dropWhile (f := isSpace) (fun _ => isSpace_plain) _).trans
          (Lvl.skipC ((s.dropWhile (fun c => !isNewline c)).dropWhile isSpace)))
    · rw [skipC_of_ne hc]; exact .refl _
termination_by s.length
decreasing_by
  have h1 := length_dropWhile_le isSpace (s.dropWhile (fun c => !isNewline c))
  have h2 := length_dropWhile_le (fun c => !isNewline c) s
  simp only [List.length_cons]; omega

theorem Lvl.skip (s : List Char) : Lvl s (skip s) :=
  (Lvl.dropWhile (fun _ => isSpace_plain) s).trans (Lvl.skipC _)

/-- Here a form begins, after layout. -/
def Opens (s t : List Char) : Prop := skip s = '(' :: t

theorem Opens.unique {s t t' : List Char} (h : Opens s t) (h' : Opens s t') : t = t' := by
  have := h.symm.trans h'
  injection this

/-- Length up to the closing parenthesis of the form that begins here. -/
def ext (s t : List Char) : Nat := s.length - t.length + vis t

theorem Opens.ops {s t : List Char} (h : Opens s t) : opw t + opDepth t ≤ opDepth s := by
  have h1 := (Lvl.skip s).ops
  rw [h, opDepth_open] at h1
  exact Nat.le_trans (Nat.le_max_left _ _) h1

theorem Opens.nest {s t : List Char} (h : Opens s t) : 1 + nest t ≤ nest s := by
  have h1 := (Lvl.skip s).nest
  rw [h, nest_open] at h1
  exact Nat.le_trans (Nat.le_max_left _ _) h1

theorem Opens.coms {s t : List Char} (h : Opens s t) : longestComments t ≤ longestComments s := by
  have h1 := (Lvl.skip s).coms
  rw [h] at h1
  exact Nat.le_trans (longestComments_suffix (List.suffix_cons _ t)) h1

theorem Opens.len {s t : List Char} (h : Opens s t) : t.length < s.length := by
  have h1 := (Lvl.skip s).len
  rw [h, List.length_cons] at h1
  exact h1

theorem Opens.ext {s t : List Char} (h : Opens s t) : vis t + 1 ≤ ext s t := by
  have := h.len
  unfold Pddl.ext
  omega

theorem Opens.ext_vis {s t : List Char} (h : Opens s t) : Pddl.ext s t ≤ vis s := by
  have h1 := (Lvl.skip s).vis
  have h2 := (Lvl.skip s).len
  have h3 := h.len
  rw [h] at h1 h2
  have h4 : vis t + 1 ≤ vis ('(' :: t) := by
    unfold vis
    rw [close_open]
    have h5 := close_length (close t).tail
    have h6 := close_length t
    simp only [List.length_tail, List.length_cons] at h5 ⊢
    omega
  unfold Pddl.ext
  simp only [List.length_cons] at h1 h2
  omega

/-- After a form that was closed. -/
theorem Opens.after {s t u r : List Char} (h : Opens s t) (h1 : Lvl t u) (hu : u = ')' :: r) :
    Lvl s r ∧ vis r + Pddl.ext s t + 1 ≤ vis s := by
  have h2 : Lvl s r := by
    have := Lvl.skip s
    rw [h] at this
    exact this.trans (h1.wrap hu)
  refine ⟨h2, ?_⟩
  have h3 := h2.vis
  have h4 := h.len
  have h5 : vis t = t.length - (')' :: r).length := by
    rw [vis, ← h1.close, hu, close_close]
  have h6 := h1.len
  rw [hu] at h6
  unfold Pddl.ext
  simp only [List.length_cons] at h5 h6
  omega

end Pddl
