import Verif.Meta.Rename

/-!
# Texts of the same shape
-/

namespace Pddl

/-- What `shape` computes, as a relation. -/
inductive Shaped : List Char → List Mark → Prop
  | nil : Shaped [] []
  | char {c s ms} : isLetter c = false → isBlank c = false → c ≠ ';' → c ≠ ':' → c ≠ '#' → Shaped s ms →
      Shaped (c :: s) (.char c :: ms)
  | gap {g s ms} : g ≠ [] → (∀ d ∈ g, isBlank d = true) → (∀ d r, s = d :: r → isBlank d = false) → Shaped s ms →
      Shaped (g ++ s) (.gap :: ms)
  | word {w s ms} : IsWord w → (∀ d r, s = d :: r → isWordChar d = false) → Shaped s ms →
      Shaped (w ++ s) (.word w (isAtEnd w s) :: ms)
  | sigil {c w s ms} : c = ':' ∨ c = '#' → (∀ d ∈ w, isWordChar d = true) → (∀ d r, s = d :: r → isWordChar d = false) →
      Shaped s ms → Shaped (c :: (w ++ s)) (.sigil c w (isAtEnd w s) :: ms)
  | comment {b s ms} : (∀ d ∈ b, isNewline d = false) → (∀ d r, s = d :: r → isNewline d = true) → Shaped s ms →
      Shaped (';' :: (b ++ s)) (.comment b.isEmpty :: ms)

theorem shaped_shapeF : ∀ {n s}, s.length ≤ n → Shaped s (shapeF n s)
  | n, [], _ => by cases n <;> exact .nil
  | 0, _ :: _, h => by simp at h
  | n + 1, c :: s, h => by
    have stop : ∀ (f : Char → Bool) d r, s.dropWhile f = d :: r → f d = false := fun f d r e => by
      have := List.head?_dropWhile_not f s
      rw [e] at this
      simpa using this
    have len : ∀ f : Char → Bool, (s.dropWhile f).length ≤ n := fun f => by
      have := (List.dropWhile_sublist (l := s) f).length_le
      simp at h; omega
    have all : ∀ (f : Char → Bool), ∀ d ∈ s.takeWhile f, f d = true := fun f d hd => by
      have := List.all_takeWhile (p := f) (l := s)
      rw [List.all_eq_true] at this
      exact this d hd
    simp only [shapeF]
    by_cases h1 : isLetter c = true
    · simp only [h1, if_true]
      have := Shaped.word (w := c :: s.takeWhile isWordChar) ⟨c, _, rfl, h1, all isWordChar⟩ (stop isWordChar)
        (shaped_shapeF (len isWordChar))
      rwa [List.cons_append, List.takeWhile_append_dropWhile] at this
    · have h1 : isLetter c = false := by simpa using h1
      by_cases h2 : c = ';'
      · subst h2
        simp only [h1, if_true, if_false, Bool.false_eq_true]
        have := Shaped.comment (b := s.takeWhile fun d => !isNewline d) (fun d hd => by simpa using all _ d hd)
          (fun d r e => by simpa using stop _ d r e) (shaped_shapeF (len fun d => !isNewline d))
        rwa [List.takeWhile_append_dropWhile] at this
      · by_cases h3 : c = ':' ∨ c = '#'
        · simp only [h1, h2, h3, if_true, if_false, Bool.false_eq_true]
          have := Shaped.sigil h3 (all isWordChar) (stop isWordChar) (shaped_shapeF (len isWordChar))
          rwa [List.takeWhile_append_dropWhile] at this
        · by_cases h4 : isBlank c = true
          · simp only [h1, h2, h3, h4, if_true, if_false, Bool.false_eq_true]
            have := Shaped.gap (g := c :: s.takeWhile isBlank) (by simp)
              (fun d hd => (List.mem_cons.mp hd).elim (fun e => e ▸ h4) (all _ d)) (stop isBlank)
              (shaped_shapeF (len isBlank))
            rwa [List.cons_append, List.takeWhile_append_dropWhile] at this
          · simp only [h1, h2, h3, h4, if_false, Bool.false_eq_true]
            exact .char h1 (by simpa using h4) h2 (fun e => h3 (.inl e)) (fun e => h3 (.inr e))
              (shaped_shapeF (by simpa using h))

theorem Shaped.eq {s ms} (h : Shaped s ms) : ∀ {n}, s.length ≤ n → shapeF n s = ms := by
  have sp : ∀ {w s : List Char} {f : Char → Bool}, (∀ d ∈ w, f d = true) → (∀ d r, s = d :: r → f d = false) →
      (w ++ s).takeWhile f = w ∧ (w ++ s).dropWhile f = s := fun h1 h2 => takeWhile_all h1 h2
  induction h with
  | nil => intro n _; cases n <;> rfl
  | @char c s ms h0 h1 h2 h3 h4 h ih =>
    intro n hn
    obtain _ | n := n
    · simp at hn
    simp only [shapeF, h0, h1, h2, h3, h4, if_false, or_self, Bool.false_eq_true]
    rw [ih (by simpa using hn)]
  | @gap g s ms h1 h2 h3 h ih =>
    intro n hn
    obtain _ | ⟨c, g⟩ := g
    · exact absurd rfl h1
    obtain _ | n := n
    · simp at hn
    have hc := h2 c (.head _)
    have hl : isLetter c = false ∧ c ≠ ';' ∧ ¬ (c = ':' ∨ c = '#') := by
      simp only [isBlank, Bool.or_eq_true, beq_iff_eq] at hc
      rcases hc with ((rfl | rfl) | rfl) | rfl <;> decide
    have := sp (fun d hd => h2 d (.tail _ hd)) h3
    simp only [List.cons_append, shapeF, hl.1, hl.2.1, hl.2.2, hc, if_true, if_false, Bool.false_eq_true, this.2]
    rw [ih (by simp at hn; omega)]
  | @word w s ms hw hs h ih =>
    intro n hn
    obtain ⟨d, ds, rfl, hd, hds⟩ := hw
    obtain _ | n := n
    · simp at hn
    have := sp hds hs
    simp only [List.cons_append, shapeF, hd, if_true, this.1, this.2]
    rw [ih (by simp at hn; omega)]
  | @sigil c w s ms hc h1 h3 h ih =>
    intro n hn
    obtain _ | n := n
    · simp at hn
    have := sp h1 h3
    have hl : isLetter c = false ∧ c ≠ ';' := by rcases hc with rfl | rfl <;> decide
    simp only [shapeF, hl.1, hl.2, hc, if_true, if_false, this.1, this.2, Bool.false_eq_true]
    rw [ih (by simp at hn; omega)]
  | @comment b s ms h1 h2 h ih =>
    intro n hn
    obtain _ | n := n
    · simp at hn
    have := sp (w := b) (s := s) (f := fun d => !isNewline d) (fun d hd => by simp [h1 d hd]) (fun d r e => by simp [h2 d r e])
    have hl : isLetter ';' = false := by decide
    simp only [shapeF, hl, if_true, if_false, this.1, this.2, Bool.false_eq_true]
    rw [ih (by simp at hn; omega)]

theorem isAtEnd_iff {w s s' : List Char} : isAtEnd w s = isAtEnd w s' ↔ SameAtEnd w s s' := by
  unfold isAtEnd SameAtEnd
  rw [decide_eq_decide]
  constructor
  · intro h hw
    simpa [hw] using h
  · intro h
    by_cases hw : c!"at" <:+ w
    · simp only [hw, true_and]; exact h hw
    · simp only [hw, false_and]

theorem Shaped.renames {s ms} (h : Shaped s ms) : ∀ {s'}, Shaped s' ms → Renames id s s' := by
  induction h with
  | nil => intro s' h'; cases h'; exact .nil
  | char h0 h1 h2 h3 h4 _ ih => intro s' h'; cases h' with | char _ _ _ _ _ h' => exact .char h0 h1 h2 h3 h4 (ih h')
  | gap h1 h2 h3 _ ih => intro s' h'; cases h' with | gap k1 k2 _ h' => exact .blanks h1 h2 k1 k2 h3 (ih h')
  | word h1 h2 _ ih =>
    intro s' h'
    generalize e : isAtEnd _ _ = b at h'
    cases h' with
    | word _ _ h' => exact .word (ρ := id) h1 (.inr ⟨rfl, fun _ _ _ _ _ _ => rfl⟩) h2 (isAtEnd_iff.mp e) (ih h')
  | sigil h1 h2 h3 _ ih =>
    intro s' h'
    generalize e : isAtEnd _ _ = b at h'
    cases h' with
    | sigil _ _ _ h' => exact .sigil (ρ := id) h1 h2 (fun _ _ _ _ _ _ => rfl) h3 (isAtEnd_iff.mp e) (ih h')
  | @comment b s ms h1 h2 _ ih =>
    intro s' h'
    generalize e : b.isEmpty = x at h'
    cases h' with
    | @comment b' s' _ k1 k2 h' =>
      refine .comment h1 k1 ?_ h2 k2 (ih h')
      rw [← List.isEmpty_iff, ← List.isEmpty_iff, e]

theorem Renames.shaped {s s'} (h : Renames id s s') : ∃ ms, Shaped s ms ∧ Shaped s' ms := by
  induction h with
  | nil => exact ⟨_, .nil, .nil⟩
  | char h0 h1 h2 h3 h4 _ ih => obtain ⟨ms, a, b⟩ := ih; exact ⟨_, .char h0 h1 h2 h3 h4 a, .char h0 h1 h2 h3 h4 b⟩
  | @blanks g g' s s' h1 h2 h3 h4 h5 h ih =>
    obtain ⟨ms, a, b⟩ := ih
    refine ⟨_, .gap h1 h2 h5 a, .gap h3 h4 ?_ b⟩
    cases h with
    | nil => exact h5
    | char _ h _ _ _ _ => intro d r e; cases e; exact h
    | @blanks g g' s s' h1 h2 _ _ _ _ =>
      cases g with
      | nil => exact absurd rfl h1
      | cons d g => exact absurd (h5 d _ rfl) (by simp [h2 d (.head _)])
    | word hw hr _ _ _ =>
      intro d r e
      obtain ⟨c, cs, e', hc, _⟩ := hr.word hw
      rw [e'] at e
      cases e
      exact (isAlpha_solid hc).1
    | sigil hc _ _ _ _ _ => intro d r e; cases e; rcases hc with rfl | rfl <;> decide
    | comment _ _ _ _ _ _ => intro d r e; cases e; decide
  | @word w s s' h1 h2 h3 h4 h ih =>
    obtain ⟨ms, a, b⟩ := ih
    refine ⟨_, .word h1 h3 a, ?_⟩
    rw [isAtEnd_iff.mpr h4]
    exact .word h1 (h.noWord h3) b
  | @sigil c w s s' h1 h2 h3 h4 h5 h ih =>
    obtain ⟨ms, a, b⟩ := ih
    refine ⟨_, .sigil h1 h2 h4 a, ?_⟩
    rw [isAtEnd_iff.mpr h5]
    exact .sigil h1 h2 (h.noWord h4) b
  | @comment b b' s s' h1 h2 h3 h4 h5 h ih =>
    obtain ⟨ms, a, c⟩ := ih
    refine ⟨_, .comment h1 h4 a, ?_⟩
    have : b.isEmpty = b'.isEmpty := by
      rw [Bool.eq_iff_iff, List.isEmpty_iff, List.isEmpty_iff, h3]
    rw [this]
    exact .comment h2 h5 c

/-- Texts with the same names that differ only in layout are the texts of the same shape. -/
theorem shape_iff {s s' : List Char} : shape s = shape s' ↔ Renames id s s' := by
  constructor
  · intro h
    have a : Shaped s (shape s) := shaped_shapeF (Nat.le_refl _)
    have b : Shaped s' (shape s') := shaped_shapeF (Nat.le_refl _)
    rw [← h] at b
    exact a.renames b
  · intro h
    obtain ⟨ms, a, b⟩ := h.shaped
    rw [shape, shape, a.eq (Nat.le_refl _), b.eq (Nat.le_refl _)]

end Pddl
