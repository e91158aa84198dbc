import Verif.Spec.Layout
import Verif.Meta.GoodAll

/-!
# Meta-theory: the layout-skipping parsers as functions
-/

namespace Pddl

theorem isBlank_space {c : Char} (h : isBlank c = true) : isSpace c = true := h

/-- What `ignore_eol_comment` leaves. -/
def skipC (s : List Char) : List Char := match ignoreEolComment s with
  | .ok _ r => r
  | _ => s

/-- What `multispace0` followed by `ignore_eol_comment` leaves. -/
def skip (s : List Char) : List Char := skipC (s.dropWhile isSpace)

theorem ignoreEolComment_eq : ignoreEolComment = ignoreEolCommentBody ignoreEolComment :=
  Good.fix_eq ignoreEolCommentBody_good

theorem isNot_newline : (fun c => !List.contains ['\r', '\n'] c) = fun c => !isNewline c := by
  funext c
  simp [isNewline, ← Bool.beq_eq_decide_eq]

theorem eol_of_ne {c : Char} (h : c ≠ ';') (s : List Char) :
    ignoreEolComment (c :: s) = .ok () (c :: s) := by
  rw [ignoreEolComment_eq]
  simp [ignoreEolCommentBody, value, map, opt, terminated, pair, char, h, Res.bind]

theorem eol_nil : ignoreEolComment [] = .ok () [] := rfl

theorem eol_empty {s : List Char} (h : s.takeWhile (fun c => !isNewline c) = []) :
    ignoreEolComment (';' :: s) = .ok () (';' :: s) := by
  rw [ignoreEolComment_eq]
  simp only [ignoreEolCommentBody, value, map, opt, terminated, pair, char, if_true, Res.bind, isNot,
    isNot_newline, takeWhile1, h]

theorem eol_comment' {s : List Char} (h : s.takeWhile (fun c => !isNewline c) ≠ []) {r}
    (hr : ignoreEolComment ((s.dropWhile (fun c => !isNewline c)).dropWhile isSpace) = .ok () r) :
    ignoreEolComment (';' :: s) = .ok () r := by
  rw [ignoreEolComment_eq]
  simp only [ignoreEolCommentBody, value, map, opt, terminated, pair, char, if_true, Res.bind, isNot,
    isNot_newline, takeWhile1, h, if_false, multispace0, takeWhile0, hr]

theorem length_dropWhile_le (f : Char → Bool) (s : List Char) : (s.dropWhile f).length ≤ s.length := by
  have h1 := congrArg List.length (List.takeWhile_append_dropWhile (p := f) (l := s))
  simp only [List.length_append] at h1
  omega

theorem eol_total (s : List Char) : ∃ r, ignoreEolComment s = .ok () r := by
  match s with
  | [] => exact ⟨_, eol_nil⟩
  | c :: s =>
    by_cases hc : c = ';'
    · subst hc
      by_cases h : s.takeWhile (fun c => !isNewline c) = []
      · exact ⟨_, eol_empty h⟩
      · obtain ⟨r, hr⟩ := eol_total ((s.dropWhile (fun c => !isNewline c)).dropWhile isSpace)
        exact ⟨r, eol_comment' h hr⟩
    · exact ⟨_, eol_of_ne hc s⟩
termination_by s.length
decreasing_by
  have h1 := length_dropWhile_le isSpace (s.dropWhile (fun c => !isNewline c))
  have h2 := length_dropWhile_le (fun c => !isNewline c) s
  simp only [List.length_cons]; omega

theorem eol_eq (s : List Char) : ignoreEolComment s = .ok () (skipC s) := by
  obtain ⟨r, hr⟩ := eol_total s
  rw [skipC, hr]

theorem skipC_nil : skipC [] = [] := rfl

theorem skipC_of_ne {c : Char} (h : c ≠ ';') (s : List Char) : skipC (c :: s) = c :: s := by
  rw [skipC, eol_of_ne h]

theorem skipC_empty {s : List Char} (h : s.takeWhile (fun c => !isNewline c) = []) :
    skipC (';' :: s) = ';' :: s := by
  rw [skipC, eol_empty h]

theorem skipC_comment {s : List Char} (h : s.takeWhile (fun c => !isNewline c) ≠ []) :
    skipC (';' :: s) = skip (s.dropWhile (fun c => !isNewline c)) := by
  rw [skipC, eol_comment' h (eol_eq _), skip]

theorem ws_eq (p : P α) (s : List Char) : ws p s = p (skip s) := by
  simp only [ws, preceded, multispace0, takeWhile0, Res.bind, eol_eq, skip]

theorem eolp_eq (p : P α) (s : List Char) : preceded ignoreEolComment p s = p (skipC s) := by
  simp only [preceded, Res.bind, eol_eq]

theorem skip_nil : skip [] = [] := rfl

theorem skip_space {c : Char} (h : isSpace c = true) (s : List Char) : skip (c :: s) = skip s := by
  simp [skip, h]

theorem Solid.skipC {s : List Char} (h : Solid s) : skipC s = s := by
  obtain ⟨c, r, rfl, _, h⟩ := h
  exact skipC_of_ne h r

theorem Solid.skip {s : List Char} (h : Solid s) : skip s = s := by
  have h' := h.skipC
  obtain ⟨c, r, rfl, h1, h2⟩ := h
  have h1 : isSpace c = false := h1
  simpa [Pddl.skip, h1] using h'

theorem Solid.append {s : List Char} (h : Solid s) (r : List Char) : Solid (s ++ r) := by
  obtain ⟨c, t, rfl, h⟩ := h
  exact ⟨c, t ++ r, rfl, h⟩

theorem Solid.cons {c : Char} (h1 : isSpace c = false) (h2 : c ≠ ';') (s : List Char) :
    Solid (c :: s) := ⟨c, s, rfl, h1, h2⟩

theorem isNewline_isSpace {c : Char} (h : isNewline c = true) : isSpace c = true := by
  simp only [isNewline, Bool.or_eq_true, beq_iff_eq] at h
  rcases h with rfl | rfl <;> rfl

theorem takeWhile_all {f : Char → Bool} {ds r : List Char} (hd : ∀ c ∈ ds, f c = true)
    (hr : ∀ c r', r = c :: r' → f c = false) :
    (ds ++ r).takeWhile f = ds ∧ (ds ++ r).dropWhile f = r := by
  induction ds with
  | nil =>
    cases r with
    | nil => simp
    | cons c r' => simp [hr c r' rfl]
  | cons d ds ih =>
    have h1 := hd d (by simp)
    have := ih fun c hc => hd c (by simp [hc])
    simp [h1, this.1, this.2]

theorem skip_comment_end {b : Char} {body r : List Char} (hb : isNewline b = false)
    (hbody : ∀ c ∈ body, isNewline c = false) (hr : ∀ c r', r = c :: r' → isNewline c = true) :
    skipC (';' :: b :: (body ++ r)) = skip r := by
  have := takeWhile_all (f := fun c => !isNewline c) (ds := b :: body) (r := r)
    (by intro c hc
        simp only [List.mem_cons] at hc
        rcases hc with rfl | hc
        · simp [hb]
        · simp [hbody c hc])
    (by intro c r' h; simp [hr c r' h])
  simp only [List.cons_append] at this
  rw [skipC_comment (by rw [this.1]; simp), this.2]

theorem skip_semicolon (s : List Char) : skip (';' :: s) = skipC (';' :: s) := by
  simp [skip, isSpace]

theorem Gap.skip {g : List Char} (h : Gap g) (s : List Char) : skip (g ++ s) = skip s := by
  induction h with
  | nil => rfl
  | space hc _ ih => rw [List.cons_append, skip_space hc, ih]
  | @comment b body n g hb hbody hn _ ih =>
    simp only [List.cons_append, List.append_assoc]
    rw [skip_semicolon, skip_comment_end hb hbody]
    · rw [skip_space (isNewline_isSpace hn), ih]
    · intro c r' h; cases h; exact hn

theorem Gap.skip_solid {g : List Char} (h : Gap g) {s : List Char} (hs : Solid s) :
    Pddl.skip (g ++ s) = s := by
  rw [h.skip, hs.skip]

theorem Gap.append {g g' : List Char} (h : Gap g) (h' : Gap g') : Gap (g ++ g') := by
  induction h with
  | nil => exact h'
  | space hc _ ih => exact .space hc ih
  | comment hb hbody hn _ ih =>
    simp only [List.cons_append, List.append_assoc]
    exact .comment hb hbody hn ih

theorem Gap.of_spaces {g : List Char} (h : Sp0 g) : Gap g := by
  induction g with
  | nil => exact .nil
  | cons c g ih => exact .space (h c (by simp)) (ih fun d hd => h d (by simp [hd]))

theorem Sep.gap {g : List Char} (h : Sep g) : Gap g := by
  cases h with
  | mk hc hg => exact .space hc hg

theorem Sp.sep {g : List Char} (h : Sp g) : Sep g := by
  obtain ⟨hne, h⟩ := h
  cases g with
  | nil => exact absurd rfl hne
  | cons c g => exact .mk (h c (by simp)) (.of_spaces fun d hd => h d (by simp [hd]))

/-- What the layout skippers drop is layout; the last comment may run into the end of the text. -/
theorem skipC_spec (s : List Char) : ∃ g, s = g ++ skipC s ∧ GapEnd g ∧ (skipC s ≠ [] → Gap g) ∧
    (skipC s = [] → s = g) := by
  match s with
  | [] => exact ⟨[], by simp [skipC_nil], .gap .nil, fun _ => .nil, fun _ => rfl⟩
  | c :: s =>
    by_cases hc : c = ';'
    · subst hc
      by_cases h : s.takeWhile (fun c => !isNewline c) = []
      · rw [skipC_empty h]
        exact ⟨[], rfl, .gap .nil, fun _ => .nil, by simp⟩
      · rw [skipC_comment h]
        have hs : s.takeWhile (fun c => !isNewline c) ++ s.dropWhile (fun c => !isNewline c) = s :=
          List.takeWhile_append_dropWhile
        have hall := all_takeWhile (fun c => !isNewline c) s
        have hhd := head_dropWhile (fun c => !isNewline c) s
        have h2 := length_dropWhile_le (fun c => !isNewline c) s
        revert h hs hall hhd h2
        generalize s.takeWhile (fun c => !isNewline c) = t
        generalize s.dropWhile (fun c => !isNewline c) = u
        intro h hs hall hhd h2
        cases t with
        | nil => exact absurd rfl h
        | cons b body =>
        have hb : isNewline b = false := by simpa using hall b (by simp)
        have hbody : ∀ c ∈ body, isNewline c = false := fun c hc => by
          simpa using hall c (by simp [hc])
        cases u with
        | nil =>
          simp only [List.append_nil] at hs
          rw [skip_nil, ← hs]
          exact ⟨';' :: b :: body, by simp, .comment (g := []) .nil hb hbody, by simp, fun _ => rfl⟩
        | cons n u' =>
          have hn : isNewline n = true := by simpa using hhd n u' rfl
          rw [skip_space (isNewline_isSpace hn)]
          have h3 := length_dropWhile_le isSpace u'
          obtain ⟨g, h4, h5, h6, h7⟩ := skipC_spec (u'.dropWhile isSpace)
          have h8 : Sp0 (u'.takeWhile isSpace) := all_takeWhile _ _
          have h9 : u'.takeWhile isSpace ++ u'.dropWhile isSpace = u' :=
            List.takeWhile_append_dropWhile
          have heq : ';' :: s = (';' :: b :: (body ++ n :: (u'.takeWhile isSpace ++ g))) ++ skip u' := by
            rw [skip, ← hs]
            simp only [List.cons_append, List.append_assoc]
            rw [← h4, h9]
          refine ⟨';' :: b :: (body ++ n :: (u'.takeWhile isSpace ++ g)), heq, ?_, ?_, ?_⟩
          · cases h5 with
            | gap h5 => exact .gap (.comment hb hbody hn ((Gap.of_spaces h8).append h5))
            | @comment g b' body' hg hb' hbody' =>
              have := GapEnd.comment (Gap.comment hb hbody hn ((Gap.of_spaces h8).append hg)) hb' hbody'
              simpa using this
          · intro hne
            exact .comment hb hbody hn ((Gap.of_spaces h8).append (h6 hne))
          · intro hnil
            rw [hnil, List.append_nil] at heq
            exact heq
    · rw [skipC_of_ne hc]
      exact ⟨[], rfl, .gap .nil, fun _ => .nil, by simp⟩
termination_by s.length
decreasing_by
  simp only [List.length_cons] at h2 ⊢; omega

theorem skip_spec (s : List Char) : ∃ g, s = g ++ skip s ∧ GapEnd g ∧ (skip s ≠ [] → Gap g) := by
  obtain ⟨g, h1, h2, h3, _⟩ := skipC_spec (s.dropWhile isSpace)
  have h8 : Gap (s.takeWhile isSpace) := .of_spaces (all_takeWhile _ _)
  have h9 : s.takeWhile isSpace ++ s.dropWhile isSpace = s := List.takeWhile_append_dropWhile
  refine ⟨s.takeWhile isSpace ++ g, ?_, ?_, fun h => h8.append (h3 h)⟩
  · rw [skip, List.append_assoc, ← h1, h9]
  · cases h2 with
    | gap h2 => exact .gap (h8.append h2)
    | comment hg hb hbody =>
      rw [← List.append_assoc]
      exact .comment (h8.append hg) hb hbody

theorem skip_length (s : List Char) : (skip s).length ≤ s.length := by
  obtain ⟨g, h, _⟩ := skip_spec s
  have := congrArg List.length h
  simp only [List.length_append] at this
  omega

/-- After `skip` there is no space in front. -/
theorem skipC_head (s : List Char) (h : ∀ c r, s = c :: r → isSpace c = false) :
    ∀ c r, skipC s = c :: r → isSpace c = false := by
  match s with
  | [] => simp [skipC_nil]
  | c :: s =>
    by_cases hc : c = ';'
    · subst hc
      by_cases ht : s.takeWhile (fun c => !isNewline c) = []
      · rw [skipC_empty ht]
        intro c r hcr; cases hcr; rfl
      · rw [skipC_comment ht, skip]
        exact skipC_head _ (head_dropWhile _ _)
    · rw [skipC_of_ne hc]
      exact h
termination_by s.length
decreasing_by
  have h1 := length_dropWhile_le isSpace (s.dropWhile (fun c => !isNewline c))
  have h2 := length_dropWhile_le (fun c => !isNewline c) s
  simp only [List.length_cons]; omega

theorem skipC_skipC (s : List Char) : skipC (skipC s) = skipC s := by
  match s with
  | [] => rfl
  | c :: s =>
    by_cases hc : c = ';'
    · subst hc
      by_cases ht : s.takeWhile (fun c => !isNewline c) = []
      · rw [skipC_empty ht, skipC_empty ht]
      · rw [skipC_comment ht, skip]
        exact skipC_skipC _
    · rw [skipC_of_ne hc, skipC_of_ne hc]
termination_by s.length
decreasing_by
  have h1 := length_dropWhile_le isSpace (s.dropWhile (fun c => !isNewline c))
  have h2 := length_dropWhile_le (fun c => !isNewline c) s
  simp only [List.length_cons]; omega

theorem skip_of_head {s : List Char} (h : ∀ c r, s = c :: r → isSpace c = false) :
    skip s = skipC s := by
  cases s with
  | nil => rfl
  | cons c s => simp [skip, h c s rfl]

theorem skip_skip (s : List Char) : skip (skip s) = skip s := by
  rw [skip_of_head (s := skip s) (skipC_head _ (head_dropWhile _ _)), skip, skipC_skipC]

theorem skipC_skip (s : List Char) : skipC (skip s) = skip s := skipC_skipC _

theorem ws_skip (p : P α) (s : List Char) : ws p (skip s) = ws p s := by
  rw [ws_eq, ws_eq, skip_skip]

theorem ws_ws (p : P α) : ws (ws p) = ws p := by
  funext s; rw [ws_eq, ws_skip]

end Pddl
