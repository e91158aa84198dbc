import Verif.Props.Api
import Verif.Props.Relayout

/-!
# C92: renaming can be undone

If every word of a text has been renamed and `ρ'` takes the new words back to the old ones, then renaming
the value that was read with `ρ'` gives the value of the original text: nothing got lost, and no two
names have become one.
-/

namespace Pddl

/-- Every word of the text can be renamed by `ρ`, and `ρ'` takes it back. -/
structure CanUndo (ρ ρ' : List Char → List Char) (s : List Char) : Prop where
  there : ∀ w, .word w ∈ pieces s → CanRename ρ w
  back : ∀ w, .word w ∈ pieces s → CanRename ρ' (ρ w) ∧ ρ' (ρ w) = w
  sigils : ∀ c w, .sigil c w ∈ pieces s → TailKept ρ (sigiled c) w ∧ TailKept ρ' (sigiled c) w

theorem undo_pieces {ρ ρ' : List Char → List Char} : ∀ {n s}, s.length ≤ n →
    (∀ w, .word w ∈ piecesF n s → CanRename ρ w) →
    (∀ w, .word w ∈ piecesF n s → CanRename ρ' (ρ w) ∧ ρ' (ρ w) = w) →
    (∀ c w, .sigil c w ∈ piecesF n s → TailKept ρ (sigiled c) w ∧ TailKept ρ' (sigiled c) w) →
    Renames ρ' ((piecesF n s).flatMap (Piece.renamed ρ)) s
  | n, [], _, _, _, _ => by cases n <;> exact .nil
  | 0, _ :: _, h, _, _, _ => by simp at h
  | n + 1, c :: s, h, hw, hb, hs => by
    have stop : ∀ (f : Char → Bool) d r, s.dropWhile f = d :: r → f d = false := fun f d r e => by
      have := List.head?_dropWhile_not f s
      rw [e] at this
      simpa using this
    have len : ∀ f : Char → Bool, (s.dropWhile f).length ≤ n := fun f => by
      have := (List.dropWhile_sublist (l := s) f).length_le
      simp at h; omega
    have all : ∀ (f : Char → Bool), ∀ d ∈ s.takeWhile f, f d = true := fun f d hd => by
      have := List.all_takeWhile (p := f) (l := s)
      rw [List.all_eq_true] at this
      exact this d hd
    simp only [piecesF] at hw hb hs ⊢
    by_cases h1 : isLetter c = true
    · simp only [h1, if_true] at hw hb hs ⊢
      have hw' := fun w hm => hw w (.tail _ hm)
      have hs' := fun c w hm => hs c w (.tail _ hm)
      obtain ⟨it, ie⟩ := renames_pieces (len isWordChar) hw' fun c w hm => (hs' c w hm).1
      have ih := undo_pieces (len isWordChar) hw' (fun w hm => hb w (.tail _ hm)) hs'
      have hW : IsWord (c :: s.takeWhile isWordChar) := ⟨c, _, rfl, h1, all isWordChar⟩
      obtain ⟨hC, e⟩ := hb _ (.head _)
      have := Renames.word ((hw _ (.head _)).word hW) hC (it.noWord (stop isWordChar)) (fun _ => ie.symm) ih
      rw [e, List.cons_append, List.takeWhile_append_dropWhile] at this
      exact this
    · have h1 : isLetter c = false := by simpa using h1
      by_cases h2 : c = ';'
      · subst h2
        simp only [h1, if_true, if_false, Bool.false_eq_true] at hw hb hs ⊢
        have ih := undo_pieces (len fun d => !isNewline d) (fun w hm => hw w (.tail _ hm))
          (fun w hm => hb w (.tail _ hm)) fun c w hm => hs c w (.tail _ hm)
        have hn : ∀ d r, s.dropWhile (fun d => !isNewline d) = d :: r → isNewline d = true :=
          fun d r e => by simpa using stop _ d r e
        have := Renames.comment (b := s.takeWhile fun d => !isNewline d) (fun d hd => by simpa using all _ d hd)
          (fun d hd => by simpa using all _ d hd) Iff.rfl (fun d r e => ?_) hn ih
        · rw [List.takeWhile_append_dropWhile] at this
          exact this
        · generalize hx : s.dropWhile (fun d => !isNewline d) = x at hn e
          cases x with
          | nil => cases n <;> cases e
          | cons c x =>
            have hc := hn c x rfl
            have hl : isLetter c = false := by
              cases e : isLetter c with
              | false => rfl
              | true =>
                simp only [isNewline, Bool.or_eq_true, beq_iff_eq] at hc
                rcases hc with rfl | rfl <;> exact absurd e (by decide)
            obtain _ | n := n
            · have := len fun d => !isNewline d
              rw [hx] at this; simp at this
            · obtain ⟨r', e'⟩ := renamed_head (ρ := ρ) (n := n) (s := x) hl
              rw [e'] at e
              cases e
              exact hc
      · by_cases h3 : c = ':' ∨ c = '#'
        · simp only [h1, h2, h3, if_true, if_false, Bool.false_eq_true] at hw hb hs ⊢
          have hw' := fun w hm => hw w (.tail _ hm)
          have hs' := fun c w hm => hs c w (.tail _ hm)
          obtain ⟨it, ie⟩ := renames_pieces (len isWordChar) hw' fun c w hm => (hs' c w hm).1
          have ih := undo_pieces (len isWordChar) hw' (fun w hm => hb w (.tail _ hm)) hs'
          have := Renames.sigil h3 (all isWordChar) (hs _ _ (.head _)).2 (it.noWord (stop isWordChar)) (fun _ => ie.symm) ih
          rw [List.takeWhile_append_dropWhile] at this
          exact this
        · simp only [h1, h2, h3, if_false, Bool.false_eq_true] at hw hb hs ⊢
          have ih := undo_pieces (n := n) (s := s) (by simpa using h) (fun w hm => hw w (.tail _ hm))
            (fun w hm => hb w (.tail _ hm)) fun c w hm => hs c w (.tail _ hm)
          by_cases h4 : isBlank c = true
          · exact ih.blank h4
          · exact .char h1 (by simpa using h4) h2 (fun e => h3 (.inl e)) (fun e => h3 (.inr e)) ih

theorem CanUndo.renames {ρ ρ' : List Char → List Char} {s : List Char} (h : CanUndo ρ ρ' s) :
    Renames ρ s (renameText ρ s) ∧ Renames ρ' (renameText ρ s) s :=
  ⟨renames_renameText h.there fun c w hm => (h.sigils c w hm).1, undo_pieces (Nat.le_refl _) h.there h.back h.sigils⟩

/-- Renaming the value back gives the value that was read. -/
theorem C92_undo {ρ ρ' : List Char → List Char} (ho : ρ c!"object" = c!"object") (hn : ρ c!"number" = c!"number")
    (ho' : ρ' c!"object" = c!"object") (hn' : ρ' c!"number" = c!"number") {s : List Char} (h : CanUndo ρ ρ' s)
    (k : Parsable) (v : k.Item) (hv : k.fromStr s = .ok v []) :
    k.fromStr (renameText ρ s) = .ok (k.mapNames (Name.rename ρ) v) [] ∧
      k.mapNames (Name.rename ρ') (k.mapNames (Name.rename ρ) v) = v := by
  have h1 := C87_from_str ho hn h.renames.1 k
  have h2 := C87_from_str ho' hn' h.renames.2 k
  rw [hv] at h1
  rw [h1, hv] at h2
  exact ⟨h1, (Res.ok.inj h2).1.symm⟩

/-- Two texts whose renamed texts mean the same mean the same: renaming makes no two values equal. -/
theorem C92_distinct {ρ ρ' : List Char → List Char} (ho : ρ c!"object" = c!"object") (hn : ρ c!"number" = c!"number")
    (ho' : ρ' c!"object" = c!"object") (hn' : ρ' c!"number" = c!"number") {s t : List Char} (hs : CanUndo ρ ρ' s)
    (ht : CanUndo ρ ρ' t) (k : Parsable) (he : k.fromStr (renameText ρ s) = k.fromStr (renameText ρ t)) :
    k.fromStr s = k.fromStr t := by
  rw [C87_from_str ho' hn' hs.renames.2 k, C87_from_str ho' hn' ht.renames.2 k, he]

/-- What is not read does not become readable by renaming, and the other way round. -/
theorem C92_readable {ρ ρ' : List Char → List Char} (ho : ρ c!"object" = c!"object") (hn : ρ c!"number" = c!"number")
    {s : List Char} (h : CanUndo ρ ρ' s) (k : Parsable) :
    (∃ v, k.fromStr (renameText ρ s) = .ok v []) ↔ ∃ v, k.fromStr s = .ok v [] := by
  rw [C87_from_str ho hn h.renames.1 k]
  constructor
  · rintro ⟨v, hv⟩
    cases hk : k.fromStr s with
    | ok a r =>
      rw [(C69_from_str_only k s a r hk).1]
      exact ⟨a, rfl⟩
    | _ =>
      rw [hk] at hv
      cases hv
  · rintro ⟨v, hv⟩
    rw [hv]
    exact ⟨_, rfl⟩

theorem renameOne_reserved {a b w : List Char} (ha : Unreserved a) (h : w ∈ reserved) : renameOne a b w = w := by
  unfold renameOne
  split
  · rename_i e
    exact absurd (List.prefix_refl _) (e ▸ ha w h)
  · rfl

/-- A word `a` can be renamed to a word `b` that does not occur, and back. -/
theorem canUndo_one {a b : List Char} (hA : IsWord a) (ha : Unreserved a) (hb : IsWord b) (hb' : Unreserved b)
    {s : List Char} (hs : ∀ t ∈ pieces s, t.Whole a) (hs' : ∀ t ∈ pieces s, t.Whole b) (hn : .word b ∉ pieces s) :
    CanUndo (renameOne a b) (renameOne b a) s := by
  have kept : ∀ {a b w : List Char}, (∀ x, x <:+ w → x ≠ a) → ∀ ks, TailKept (renameOne a b) ks w := by
    rintro a b w h ks k hk u rfl x hx
    exact if_neg (h x (hx.trans (List.suffix_append _ _)))
  have whole : ∀ {a w : List Char}, (.word w : Piece) ∈ pieces s → (∀ t ∈ pieces s, t.Whole a) → w ≠ a →
      ∀ x, x <:+ w → x ≠ a := fun hm h hne x hx e => hne (h _ hm (e ▸ hx))
  refine ⟨fun w hm => ?_, fun w hm => ?_, fun c w hm => ?_⟩
  · by_cases e : w = a
    · subst e
      exact .inl ⟨by simpa [renameOne] using hb, ha, by simpa [renameOne] using hb'⟩
    · exact .inr ⟨if_neg e, kept (whole hm hs e) _⟩
  · have hwb : w ≠ b := fun e => hn (e ▸ hm)
    by_cases e : w = a
    · subst e
      rw [show renameOne w b w = b from if_pos rfl]
      have e1 : renameOne b w b = w := if_pos rfl
      exact ⟨.inl ⟨by rw [e1]; exact hA, hb', by rw [e1]; exact ha⟩, e1⟩
    · rw [show renameOne a b w = w from if_neg e]
      exact ⟨.inr ⟨if_neg hwb, kept (whole hm hs' hwb) _⟩, if_neg hwb⟩
  · exact ⟨kept (fun x hx e => hs _ hm (by subst e; exact hx)) _, kept (fun x hx e => hs' _ hm (by subst e; exact hx)) _⟩

/-- The usual case: one word is renamed to a word that does not occur. -/
theorem C92_one_word {a b : List Char} (hA : IsWord a) (ha : Unreserved a) (hb : IsWord b) (hb' : Unreserved b)
    {s : List Char} (hs : ∀ t ∈ pieces s, t.Whole a) (hs' : ∀ t ∈ pieces s, t.Whole b) (hn : .word b ∉ pieces s)
    (k : Parsable) (v : k.Item) (hv : k.fromStr s = .ok v []) :
    k.mapNames (Name.rename (renameOne b a)) (k.mapNames (Name.rename (renameOne a b)) v) = v :=
  (C92_undo (renameOne_reserved ha (by decide)) (renameOne_reserved ha (by decide))
    (renameOne_reserved hb' (by decide)) (renameOne_reserved hb' (by decide))
    (canUndo_one hA ha hb hb' hs hs' hn) k v hv).2

/-- If the new word does occur, two names become one: these texts differ and mean the same afterwards. -/
theorem C92_capture : parseType c!"(either ball bin)" ≠ parseType c!"(either bin bin)" ∧
    parseType (renameText (renameOne c!"ball" c!"bin") c!"(either ball bin)") =
      parseType (renameText (renameOne c!"ball" c!"bin") c!"(either bin bin)") := ⟨nofun, rfl⟩

/-- The hypotheses hold for the sample domain of C87. -/
example : CanUndo (renameOne c!"ball" c!"bin") (renameOne c!"bin" c!"ball") renameSample :=
  canUndo_one ⟨'b', c!"all", rfl, by decide, by decide⟩ (by decide) ⟨'b', c!"in", rfl, by decide, by decide⟩
    (by decide) (by decide +kernel) (by decide +kernel) (by decide +kernel)

end Pddl
