import Verif.Spec.Rename
import Verif.Meta.Eval
import Verif.Meta.NumParse
import Verif.Meta.Tactic

/-!
# Parsers and renamed texts

`Equi ρ p r`: on renamed texts, the outcome of `p` is the renamed outcome, the value being renamed by `r`.
-/

namespace Pddl

/-- Condition on the outcomes for the texts `s` and `s'`, see `Equi`. -/
def ResR (ρ : List Char → List Char) (r : α → α) (s s' : List Char) : Res α → Res α → Prop
  | .ok a t, .ok a' t' => a' = r a ∧ Renames ρ t t' ∧ t.length ≤ s.length ∧ t'.length ≤ s'.length ∧
      (t.length = s.length ↔ t'.length = s'.length)
  | .err, .err => True
  | .fail, .fail => True
  | .panic, .panic => True
  | .oof, .oof => True
  | _, _ => False

/-- See the file header. -/
def Equi (ρ : List Char → List Char) (p : P α) (r : α → α) : Prop :=
  ∀ s s', Renames ρ s s' → ResR ρ r s s' (p s) (p s')

/-- The same where the value does not matter. -/
def Mute (ρ : List Char → List Char) (p : P α) : Prop :=
  ∀ s s', Renames ρ s s' → ResR ρ id s s' ((p s).bind fun _ t => .ok () t) ((p s').bind fun _ t => .ok () t)

variable {ρ : List Char → List Char}

theorem ResR.ret {r : α → α} {s s' : List Char} (h : Renames ρ s s') (a : α) :
    ResR ρ r s s' (.ok a s) (.ok (r a) s') := ⟨rfl, h, Nat.le_refl _, Nat.le_refl _, by simp⟩

theorem ResR.lt {r : α → α} {s s' t t' : List Char} (h : Renames ρ t t') (h1 : t.length < s.length)
    (h2 : t'.length < s'.length) (a : α) : ResR ρ r s s' (.ok a t) (.ok (r a) t') :=
  ⟨rfl, h, by omega, by omega, by omega⟩

theorem ResR.bind {r : α → α} {q : β → β} {s s' : List Char} {x x' : Res α} {f f' : α → List Char → Res β}
    (h : ResR ρ r s s' x x') (hf : ∀ a t t', Renames ρ t t' → ResR ρ q t t' (f a t) (f' (r a) t')) :
    ResR ρ q s s' (x.bind f) (x'.bind f') := by
  cases x with
  | ok a t =>
    cases x' with
    | ok a' t' =>
      obtain ⟨rfl, h1, h2, h3, h4⟩ := h
      have := hf a t t' h1
      simp only [Res.bind]
      cases hx : f a t with
      | ok b u =>
        rw [hx] at this
        cases hx' : f' (r a) t' with
        | ok b' u' =>
          rw [hx'] at this
          obtain ⟨g1, g2, g3, g4, g5⟩ := this
          exact ⟨g1, g2, by omega, by omega, by omega⟩
        | _ => rw [hx'] at this; cases this
      | _ =>
        rw [hx] at this
        revert this
        cases f' (r a) t' <;> exact id
    | _ => cases h
  | _ => cases x' <;> first | exact h | cases h

/-! ## Renamed texts -/

theorem Renames.noWord {s s' : List Char} (h : Renames ρ s s') (hs : ∀ d r, s = d :: r → isWordChar d = false) :
    ∀ d r, s' = d :: r → isWordChar d = false := by
  cases h with
  | nil => exact hs
  | char _ _ _ _ _ _ => intro d r e; cases e; exact hs _ _ rfl
  | @blanks g g' s s' _ _ h h' _ _ =>
    intro d r e
    cases g' with
    | nil => exact absurd rfl h
    | cons c g' => cases e; exact isWordChar_not (.inl (h' _ (.head _)))
  | word hw _ _ _ _ =>
    obtain ⟨c, cs, rfl, hc, _⟩ := hw
    have := hs c _ rfl
    simp [isWordChar, hc] at this
  | sigil _ _ _ _ _ _ => intro d r e; cases e; exact hs _ _ rfl
  | comment _ _ _ _ _ _ => intro d r e; cases e; decide

theorem SameAtEnd.tail {k u s s' : List Char} (h : SameAtEnd (k ++ u) s s') : SameAtEnd u s s' :=
  fun hs => h (hs.trans (List.suffix_append _ _))

theorem CanRename.word {w : List Char} (h : CanRename ρ w) (hw : IsWord w) : IsWord (ρ w) := by
  rcases h with h | h
  · exact h.1
  · rw [h.1]; exact hw

theorem IsWord.pos {w : List Char} (h : IsWord w) : 0 < w.length := by
  obtain ⟨c, cs, rfl, _⟩ := h
  simp

theorem isWordChar_blank {c : Char} (h : isWordChar c = true) : isBlank c = false := by
  cases hb : isBlank c with
  | false => rfl
  | true => rw [isWordChar_not (.inl hb)] at h; cases h

theorem Renames.kept {u s s' : List Char} (hu : ∀ d ∈ u, isWordChar d = true) (hk : ∀ x, x <:+ u → ρ x = x)
    (hs : ∀ d r, s = d :: r → isWordChar d = false) (ha : SameAtEnd u s s') (h : Renames ρ s s') :
    Renames ρ (u ++ s) (u ++ s') := by
  induction u with
  | nil => exact h
  | cons c u ih =>
    by_cases hc : isLetter c = true
    · have hw : IsWord (c :: u) := ⟨c, u, rfl, hc, fun d hd => hu d (by simp [hd])⟩
      have hr : ρ (c :: u) = c :: u := hk _ (List.suffix_refl _)
      have := Renames.word (ρ := ρ) hw (.inr ⟨hr, fun k _ v e x hx => hk x (hx.trans ⟨k, e.symm⟩)⟩) hs ha h
      rwa [hr] at this
    · have hcw := hu c (by simp)
      refine .char (by simpa using hc) (isWordChar_blank hcw) ?_ ?_ ?_
        (ih (fun d hd => hu d (by simp [hd])) (fun x hx => hk x (hx.trans ⟨[c], rfl⟩)) (ha.tail (k := [c])))
      all_goals
        rintro rfl
        exact absurd hcw (by decide)

theorem stripPrefix_some {t s r : List Char} : stripPrefix t s = some r ↔ s = t ++ r := by
  refine ⟨Good.stripPrefix_eq, ?_⟩
  rintro rfl
  induction t with
  | nil => rfl
  | cons c t ih => simp [stripPrefix, ih]

theorem wordPrefix {k w t r : List Char} (hk : ∀ d ∈ k, isWordChar d = true)
    (ht : ∀ d r, t = d :: r → isWordChar d = false) (e : w ++ t = k ++ r) : ∃ u, w = k ++ u ∧ r = u ++ t := by
  rcases List.append_eq_append_iff.mp e with ⟨a, h1, h2⟩ | ⟨a, h1, h2⟩
  · cases a with
    | nil => exact ⟨[], by simpa using h1.symm, by simpa using h2.symm⟩
    | cons d a =>
      have := ht d _ h2
      rw [hk d (by simp [h1])] at this
      cases this
  · exact ⟨a, h1, h2⟩

/-! ## Tags -/

theorem tag_bind (a b : List Char) (s : List Char) :
    tag (a ++ b) s = (tag a s).bind fun _ r => (tag b r).bind fun _ r' => .ok (a ++ b) r' := by
  have h : stripPrefix (a ++ b) s = (stripPrefix a s).bind (stripPrefix b) := by
    induction a generalizing s with
    | nil => rfl
    | cons c a ih =>
      cases s with
      | nil => rfl
      | cons d s =>
        simp only [List.cons_append, stripPrefix]
        split
        · exact ih s
        · rfl
  simp only [tag, h]
  cases stripPrefix a s with
  | none => rfl
  | some r =>
    simp only [Option.bind_some, Res.bind]
    cases stripPrefix b r <;> rfl

namespace Equi

theorem tag_append {a b : List Char} (ha : Equi ρ (Pddl.tag a) id) (hb : Equi ρ (Pddl.tag b) id) :
    Equi ρ (Pddl.tag (a ++ b)) id := fun s s' h => by
  rw [tag_bind, tag_bind]
  exact (ha s s' h).bind fun _ t t' h => (hb t t' h).bind fun _ t t' h => .ret (r := id) h _

theorem tag_nil : Equi ρ (Pddl.tag []) id := fun _ _ h => .ret (r := id) h _

theorem tag_one {c : Char} (hc : isLetter c = false) (hb : isBlank c = false) (h1 : c ≠ ';') (h2 : c ≠ ':') (h3 : c ≠ '#') :
    Equi ρ (Pddl.tag [c]) id := fun s s' h => by
  cases h with
  | nil => trivial
  | @char d s s' _ _ _ _ _ h =>
    by_cases e : c = d
    · simp only [Pddl.tag, stripPrefix, e, if_true]
      exact .lt (r := id) h (by simp) (by simp) _
    · simp only [Pddl.tag, stripPrefix, e, if_false]
      trivial
  | @blanks g g' s s' h1 h2 h3 h4 _ _ =>
    have key : ∀ {g s : List Char}, g ≠ [] → (∀ d ∈ g, isBlank d = true) → Pddl.tag [c] (g ++ s) = .err := fun {g s} h1 h2 => by
      cases g with
      | nil => exact absurd rfl h1
      | cons d g =>
        have : c ≠ d := by rintro rfl; rw [h2 c (.head _)] at hb; cases hb
        simp [Pddl.tag, stripPrefix, this]
    rw [key h1 h2, key h3 h4]; trivial
  | @word w s s' hw hr _ _ _ =>
    have h1 : ∀ w s, IsWord w → stripPrefix [c] (w ++ s) = none := fun w s hw => by
      obtain ⟨d, ds, rfl, hd, _⟩ := hw
      have : c ≠ d := by rintro rfl; rw [hc] at hd; cases hd
      simp [stripPrefix, this]
    simp only [Pddl.tag, h1 _ _ hw, h1 _ _ (hr.word hw)]
    trivial
  | @sigil d w s s' hd _ _ _ _ _ =>
    have : c ≠ d := by rintro rfl; rcases hd with rfl | rfl <;> contradiction
    simp only [Pddl.tag, stripPrefix, this, if_false]
    trivial
  | @comment b b' s s' _ _ _ _ _ _ =>
    simp only [Pddl.tag, stripPrefix, h1, if_false]
    trivial

theorem blank_letter {c : Char} (h : isBlank c = true) : isLetter c = false := by
  cases hl : isLetter c with
  | false => rfl
  | true =>
    have h1 : isBlank c = false := (isAlpha_solid hl).1
    rw [h1] at h; cases h

theorem blanks_first {p : P α} {x : Res α} {g s : List Char} (h1 : g ≠ []) (h2 : ∀ d ∈ g, isBlank d = true)
    (h : ∀ {d t}, isBlank d = true → p (d :: t) = x) : p (g ++ s) = x := by
  cases g with
  | nil => exact absurd rfl h1
  | cons d g => exact h (h2 d (.head _))

theorem reserved_words : ∀ k ∈ reserved, ∃ c cs, k = c :: cs ∧ isLetter c = true ∧ ∀ d ∈ c :: cs, isWordChar d = true := by
  intro k hk
  have h : ∀ k ∈ reserved, (k.head?.any isLetter && k.all isWordChar) = true := by decide
  have := h k hk
  cases k with
  | nil => simp at this
  | cons c cs =>
    simp only [List.head?_cons, Option.any_some, Bool.and_eq_true, List.all_eq_true] at this
    exact ⟨c, cs, rfl, this.1, this.2⟩

theorem tag_word {k : List Char} (hk : k ∈ reserved) : Equi ρ (Pddl.tag k) id := fun s s' h => by
  obtain ⟨c, cs, rfl, hc, hcs⟩ := reserved_words k hk
  have hne : ∀ {d t}, isLetter d = false → Pddl.tag (c :: cs) (d :: t) = .err := fun {d t} hd => by
    have : c ≠ d := by rintro rfl; rw [hc] at hd; cases hd
    simp [Pddl.tag, stripPrefix, this]
  have hne' : ∀ {d t}, isBlank d = true → Pddl.tag (c :: cs) (d :: t) = .err := fun h => hne (blank_letter h)
  cases h with
  | nil => trivial
  | char hd _ _ _ _ _ => rw [hne hd, hne hd]; trivial
  | @blanks g g' s s' h1 h2 h3 h4 _ _ => rw [blanks_first h1 h2 hne', blanks_first h3 h4 hne']; trivial
  | @word w t t' hw hr ht hA h =>
    have ht' := h.noWord ht
    have miss : ∀ {w t : List Char}, (∀ d r, t = d :: r → isWordChar d = false) → ¬ (c :: cs) <+: w →
        Pddl.tag (c :: cs) (w ++ t) = .err := fun {w t} ht hn => by
      simp only [Pddl.tag]
      cases e : stripPrefix (c :: cs) (w ++ t) with
      | none => rfl
      | some r =>
        obtain ⟨u, rfl, _⟩ := wordPrefix hcs ht (stripPrefix_some.mp e)
        exact absurd (List.prefix_append _ _) hn
    rcases hr with ⟨_, h1, h2⟩ | ⟨h1, h2⟩
    · rw [miss ht (h1 _ hk), miss ht' (h2 _ hk)]; trivial
    · rw [h1]
      by_cases hp : (c :: cs) <+: w
      · obtain ⟨u, rfl⟩ := hp
        have hit : ∀ t, Pddl.tag (c :: cs) (c :: cs ++ u ++ t) = .ok (c :: cs) (u ++ t) := fun t => by
          rw [Pddl.tag, List.append_assoc, stripPrefix_some.mpr rfl]
        rw [hit, hit]
        obtain ⟨d, ds, e, hd, hds⟩ := hw
        refine .lt (r := id) (.kept (fun x hx => ?_) (h2 _ hk u rfl) ht hA.tail h) (by simp; omega) (by simp; omega) _
        cases e
        exact hds x (by simp [hx])
      · rw [miss ht hp, miss ht' hp]; trivial
  | sigil hd _ _ _ _ _ =>
    have : ∀ {d}, d = ':' ∨ d = '#' → isLetter d = false := by rintro d (rfl | rfl) <;> decide
    rw [hne (this hd), hne (this hd)]; trivial
  | comment _ _ _ _ _ _ => rw [hne (by decide), hne (by decide)]; trivial

theorem sigiled_words : ∀ c, ∀ k ∈ sigiled c, k ≠ [] ∧ ∀ d ∈ k, isWordChar d = true := by
  have h : ∀ c, c = ':' ∨ c = '#' → ∀ k ∈ sigiled c, (!k.isEmpty && k.all isWordChar) = true := by
    rintro c (rfl | rfl) <;> decide
  intro c k hk
  have hc : c = ':' ∨ c = '#' := by
    unfold sigiled at hk
    split at hk
    · exact .inl rfl
    · exact .inr rfl
    · cases hk
  have := h c hc k hk
  simp only [Bool.and_eq_true, List.all_eq_true, Bool.not_eq_true', List.isEmpty_eq_false_iff] at this
  exact this

theorem tag_sigil {c : Char} {k : List Char} (hk : k ∈ sigiled c) : Equi ρ (Pddl.tag (c :: k)) id := fun s s' h => by
  have hc : c = ':' ∨ c = '#' := by
    unfold sigiled at hk
    split at hk
    · exact .inl rfl
    · exact .inr rfl
    · cases hk
  obtain ⟨hkne, hkw⟩ := sigiled_words c k hk
  have hne : ∀ {d t}, c ≠ d → Pddl.tag (c :: k) (d :: t) = .err := fun {d t} hd => by
    simp [Pddl.tag, stripPrefix, hd]
  cases h with
  | nil => trivial
  | @blanks g g' s s' h1 h2 h3 h4 _ _ =>
    have hne' : ∀ {d t}, isBlank d = true → Pddl.tag (c :: k) (d :: t) = .err := fun h => hne (by
      rintro rfl; rcases hc with rfl | rfl <;> exact absurd h (by decide))
    rw [blanks_first h1 h2 hne', blanks_first h3 h4 hne']; trivial
  | char _ _ _ h1 h2 _ =>
    have : ∀ {d}, d ≠ ':' → d ≠ '#' → c ≠ d := fun h1 h2 e => by subst e; rcases hc with h | h <;> contradiction
    rw [hne (this h1 h2), hne (this h1 h2)]; trivial
  | @word w t t' hw hr _ _ _ =>
    have : ∀ {w t}, IsWord w → Pddl.tag (c :: k) (w ++ t) = .err := fun {w t} hw => by
      obtain ⟨d, ds, rfl, hd, _⟩ := hw
      exact hne (by rintro rfl; rcases hc with rfl | rfl <;> exact absurd hd (by decide))
    rw [this hw, this (hr.word hw)]; trivial
  | @sigil d w t t' hd hw hT ht hA h =>
    by_cases e : c = d
    · subst e
      have ht' := h.noWord ht
      by_cases hp : k <+: w
      · obtain ⟨u, rfl⟩ := hp
        have hit : ∀ t, Pddl.tag (c :: k) (c :: (k ++ u ++ t)) = .ok (c :: k) (u ++ t) := fun t => by
          rw [Pddl.tag, stripPrefix_some.mpr (show c :: (k ++ u ++ t) = (c :: k) ++ (u ++ t) by simp)]
        rw [hit, hit]
        exact .lt (r := id) (.kept (fun x hx => hw x (by simp [hx])) (hT _ hk u rfl) ht hA.tail h) (by simp; omega)
          (by simp; omega) _
      · have miss : ∀ {t : List Char}, (∀ d r, t = d :: r → isWordChar d = false) →
            Pddl.tag (c :: k) (c :: (w ++ t)) = .err := fun {t} ht => by
          simp only [Pddl.tag]
          cases e : stripPrefix (c :: k) (c :: (w ++ t)) with
          | none => rfl
          | some r =>
            obtain ⟨u, rfl, _⟩ := wordPrefix hkw ht (List.cons.inj (stripPrefix_some.mp e)).2
            exact absurd (List.prefix_append _ _) hp
        rw [miss ht, miss ht']; trivial
    · rw [hne e, hne e]; trivial
  | comment _ _ _ _ _ _ =>
    have : c ≠ ';' := by rintro rfl; rcases hc with h | h <;> exact absurd h (by decide)
    rw [hne this, hne this]; trivial

theorem tag_at_end : Equi ρ (Pddl.tag c!"at end") id := fun s s' h => by
  have hne : ∀ {d t}, d ≠ 'a' → Pddl.tag c!"at end" (d :: t) = .err := fun {d t} hd => by
    simp [Pddl.tag, stripPrefix, Ne.symm hd]
  have split : ∀ {g s r : List Char}, g ≠ [] → (∀ d ∈ g, isBlank d = true) → g ++ s = c!" end" ++ r → s = c!"end" ++ r :=
    fun {g s r} h1 h2 e => by
      cases g with
      | nil => exact absurd rfl h1
      | cons c g =>
        obtain ⟨_, e⟩ := List.cons.inj e
        cases g with
        | nil => exact e
        | cons d g =>
          have := h2 d (by simp)
          rw [(List.cons.inj e).1] at this
          exact absurd this (by decide)
  cases h with
  | nil => trivial
  | char hd _ _ _ _ _ =>
    have : ∀ {d}, isLetter d = false → d ≠ 'a' := by rintro d h rfl; exact absurd h (by decide)
    rw [hne (this hd), hne (this hd)]; trivial
  | @blanks g g' s s' h1 h2 h3 h4 _ _ =>
    have hne' : ∀ {d t}, isBlank d = true → Pddl.tag c!"at end" (d :: t) = .err := fun h => hne (by
      rintro rfl; exact absurd h (by decide))
    rw [blanks_first h1 h2 hne', blanks_first h3 h4 hne']; trivial
  | @word w t t' hw hr ht hA h =>
    have ht' := h.noWord ht
    have miss : ∀ {w t : List Char}, (∀ d r, t = d :: r → isWordChar d = false) → ¬ (w = c!"at" ∧ c!" end" <+: t) →
        IsWord w → Pddl.tag c!"at end" (w ++ t) = .err := fun {w t} ht hn hw => by
      simp only [Pddl.tag]
      cases e : stripPrefix c!"at end" (w ++ t) with
      | none => rfl
      | some r =>
        have e := stripPrefix_some.mp e
        obtain ⟨u, rfl, e2⟩ := wordPrefix (k := c!"at") (r := c!" end" ++ r) (by decide) ht e
        cases u with
        | nil => exact absurd ⟨rfl, r, e2⟩ hn
        | cons d u =>
          obtain ⟨c, cs, e1, hc, hcs⟩ := hw
          cases e1
          have := hcs d (by simp)
          rw [← (List.cons.inj e2).1] at this
          exact absurd this (by decide)
    have kept : w = c!"at" → ρ w = w := fun e => by
      rcases hr with ⟨_, h1, h2⟩ | ⟨h1, h2⟩
      · exact absurd (e ▸ List.prefix_refl _) (h1 c!"at" (by decide))
      · exact h1
    by_cases hc : w = c!"at" ∧ c!" end" <+: t
    · rw [kept hc.1]
      obtain ⟨rfl, hc⟩ := hc
      have hc' := (hA (List.suffix_refl _)).mp hc
      obtain ⟨r, rfl⟩ := hc
      obtain ⟨r', rfl⟩ := hc'
      have hit : ∀ t, Pddl.tag c!"at end" (c!"at" ++ (c!" end" ++ t)) = .ok c!"at end" t := fun t => rfl
      rw [hit, hit]
      refine .lt (r := id) ?_ (by simp; omega) (by simp; omega) _
      generalize e : c!" end" ++ r = x at h
      generalize e' : c!" end" ++ r' = x' at h
      cases h with
      | nil => cases e
      | char _ h _ _ _ _ => cases e; exact absurd h (by decide)
      | @blanks g g' s s' h1 h2 h3 h4 _ h =>
        have := split h1 h2 e.symm
        subst this
        have := split h3 h4 e'.symm
        subst this
        have := tag_word (ρ := ρ) (k := c!"end") (by decide) _ _ h
        exact this.2.1
      | word hw _ _ _ _ =>
        obtain ⟨d, ds, rfl, hd, _⟩ := hw
        rw [← (List.cons.inj e).1] at hd
        exact absurd hd (by decide)
      | sigil hc _ _ _ _ _ => rw [← (List.cons.inj e).1] at hc; exact absurd hc (by decide)
      | comment _ _ _ _ _ _ => exact absurd (List.cons.inj e).1 (by decide)
    · have hc' : ¬ (ρ w = c!"at" ∧ c!" end" <+: t') := by
        rintro ⟨h1, h2⟩
        have : w = c!"at" := by
          rcases hr with ⟨_, _, h3⟩ | ⟨h3, _⟩
          · exact absurd (h1 ▸ List.prefix_refl _) (h3 c!"at" (by decide))
          · rw [← h3]; exact h1
        exact hc ⟨this, (hA (this ▸ List.suffix_refl _)).mpr h2⟩
      rw [miss ht hc hw, miss ht' hc' (hr.word hw)]
      trivial
  | sigil hd _ _ _ _ _ =>
    have : ∀ {d}, d = ':' ∨ d = '#' → d ≠ 'a' := by rintro d (rfl | rfl) <;> decide
    rw [hne (this hd), hne (this hd)]; trivial
  | comment _ _ _ _ _ _ => rw [hne (by decide), hne (by decide)]; trivial

end Equi

/-- The tag consists of words of PDDL, keywords with a colon and symbols. -/
inductive TagOk : List Char → Prop
  | nil : TagOk []
  | at_end : TagOk c!"at end"
  | char {c s} : isLetter c = false → isBlank c = false → c ≠ ';' → c ≠ ':' → c ≠ '#' → TagOk s → TagOk (c :: s)
  | word {w s} : w ∈ reserved → TagOk s → TagOk (w ++ s)
  | sigil {c w s} : w ∈ sigiled c → TagOk s → TagOk (c :: (w ++ s))

theorem TagOk.equi {k : List Char} (h : TagOk k) : Equi ρ (tag k) id := by
  induction h with
  | nil => exact .tag_nil
  | at_end => exact .tag_at_end
  | char h0 h1 h2 h3 h4 _ ih => exact .tag_append (a := [_]) (.tag_one h0 h1 h2 h3 h4) ih
  | word h _ ih => exact .tag_append (.tag_word h) ih
  | sigil h _ ih => exact .tag_append (a := _ :: _) (.tag_sigil h) ih

/-- Checks `TagOk`. -/
def tagOkB : Nat → List Char → Bool
  | 0, _ => false
  | _ + 1, [] => true
  | n + 1, c :: s =>
    if c :: s = c!"at end" then true
    else if isLetter c then decide ((c :: s).takeWhile isWordChar ∈ reserved) && tagOkB n ((c :: s).dropWhile isWordChar)
    else if c = ':' ∨ c = '#' then decide (s.takeWhile isWordChar ∈ sigiled c) && tagOkB n (s.dropWhile isWordChar)
    else c != ';' && !isBlank c && tagOkB n s

theorem tagOk_of : ∀ {n k}, tagOkB n k = true → TagOk k
  | 0, _, h => by cases h
  | _ + 1, [], _ => .nil
  | n + 1, c :: s, h => by
    unfold tagOkB at h
    split at h
    · rename_i e
      rw [e]; exact .at_end
    split at h
    · simp only [Bool.and_eq_true, decide_eq_true_eq] at h
      have := TagOk.word h.1 (tagOk_of h.2)
      rwa [List.takeWhile_append_dropWhile] at this
    · split at h
      · simp only [Bool.and_eq_true, decide_eq_true_eq] at h
        have := TagOk.sigil h.1 (tagOk_of h.2)
        rwa [List.takeWhile_append_dropWhile] at this
      · rename_i h1 h2
        simp only [Bool.and_eq_true, bne_iff_ne, Bool.not_eq_true'] at h
        exact .char (by simpa using h1) h.1.2 h.1.1 (fun e => h2 (.inl e)) (fun e => h2 (.inr e)) (tagOk_of h.2)

namespace Equi

theorem tag {k : List Char} (h : tagOkB (k.length + 1) k = true) : Equi ρ (Pddl.tag k) id := (tagOk_of h).equi

theorem char {c : Char} (h : tagOkB 2 [c] = true) : Equi ρ (Pddl.char c) id := fun s s' hs => by
  have key : ∀ s, Pddl.char c s = (Pddl.tag [c] s).bind fun _ r => .ok c r := fun s => by
    cases s with
    | nil => rfl
    | cons d s =>
      by_cases e : c = d
      · simp [Pddl.char, Pddl.tag, stripPrefix, e, Res.bind]
      · simp [Pddl.char, Pddl.tag, stripPrefix, e, Ne.symm e, Res.bind]
  rw [key, key]
  exact (tag (k := [c]) h s s' hs).bind fun _ t t' h => .ret (r := id) h _

/-! ## Combinators -/

theorem map {f : α → β} {p : P α} {r : α → α} {q : β → β} (h : Equi ρ p r) (hf : ∀ a, f (r a) = q (f a)) :
    Equi ρ (Pddl.map f p) q := fun s s' hs =>
  (h s s' hs).bind fun a t t' h => by rw [hf]; exact .ret h _

theorem mapExpect {f : α → Option β} {p : P α} {r : α → α} {q : β → β} (h : Equi ρ p r)
    (hf : ∀ a, f (r a) = (f a).map q) : Equi ρ (Pddl.mapExpect f p) q := fun s s' hs =>
  (h s s' hs).bind fun a t t' h => by
    rw [hf]
    cases f a with
    | none => trivial
    | some b => exact .ret h b

theorem mute {p : P α} {r : α → α} (h : Equi ρ p r) : Mute ρ p := fun s s' hs =>
  (h s s' hs).bind fun _ t t' h => .ret (r := id) h ()

theorem value {b : β} {p : P α} {q : β → β} (h : Mute ρ p) (hb : b = q b) :
    Equi ρ (Pddl.value b p) q := fun s s' hs => by
  have key : ∀ s, Pddl.value b p s = ((p s).bind fun _ t => .ok () t).bind fun _ t => .ok b t := fun s => by
    simp only [Pddl.value, Pddl.map]
    cases p s <;> rfl
  rw [key, key]
  exact (h s s' hs).bind fun _ t t' h => by
    have := ResR.ret (r := q) h b
    rwa [← hb] at this

theorem pair {p : P α} {q : P β} {r : α → α} {r' : β → β} (h : Equi ρ p r) (k : Equi ρ q r') :
    Equi ρ (Pddl.pair p q) (Prod.map r r') := fun s s' hs =>
  (h s s' hs).bind fun a t t' h => (k t t' h).bind fun b t t' h => .ret (r := Prod.map r r') h (a, b)

theorem preceded {p : P α} {q : P β} {r' : β → β} (h : Mute ρ p) (k : Equi ρ q r') :
    Equi ρ (Pddl.preceded p q) r' := fun s s' hs => by
  have key : ∀ s, Pddl.preceded p q s = ((p s).bind fun _ t => .ok () t).bind fun _ t => q t := fun s => by
    simp only [Pddl.preceded]
    cases p s <;> rfl
  rw [key, key]
  exact (h s s' hs).bind fun _ t t' h => k t t' h

theorem terminated {p : P α} {q : P β} {r : α → α} (h : Equi ρ p r) (k : Mute ρ q) :
    Equi ρ (Pddl.terminated p q) r := fun s s' hs => by
  have key : ∀ s, Pddl.terminated p q s = (p s).bind fun a t => ((q t).bind fun _ t => .ok () t).bind fun _ t => .ok a t :=
    fun s => by
      simp only [Pddl.terminated]
      cases p s <;> try rfl
      rename_i t
      simp only [Res.bind]
      cases q t <;> rfl
  rw [key, key]
  exact (h s s' hs).bind fun a t t' h => (k t t' h).bind fun _ t t' h => .ret (r := r) h a

theorem delimited {p : P α} {q : P β} {t : P γ} {r : β → β} (h : Mute ρ p)
    (k : Equi ρ q r) (l : Mute ρ t) : Equi ρ (Pddl.delimited p q t) r := preceded h (k.terminated l)

theorem alt {r : α → α} : Equi ρ (Pddl.alt []) r := fun _ _ _ => trivial

/-- Pairs of outcomes that correspond. -/
theorem cases {p : P α} {r : α → α} (h : Equi ρ p r) {s s' : List Char} (hs : Renames ρ s s') :
    (∃ a t t', p s = .ok a t ∧ p s' = .ok (r a) t' ∧ Renames ρ t t' ∧ t.length ≤ s.length ∧ t'.length ≤ s'.length ∧
      (t.length = s.length ↔ t'.length = s'.length)) ∨ p s = .err ∧ p s' = .err ∨ p s = .fail ∧ p s' = .fail ∨
      p s = .panic ∧ p s' = .panic ∨ p s = .oof ∧ p s' = .oof := by
  have := h s s' hs
  revert this
  cases p s <;> cases p s' <;> intro this <;> first | (cases this; done) | skip
  · obtain ⟨rfl, h⟩ := this
    exact .inl ⟨_, _, _, rfl, rfl, h⟩
  all_goals simp

theorem _root_.Pddl.Mute.cases {p : P α} (h : Mute ρ p) {s s' : List Char} (hs : Renames ρ s s') :
    (∃ a a' t t', p s = .ok a t ∧ p s' = .ok a' t' ∧ Renames ρ t t' ∧ t.length ≤ s.length ∧ t'.length ≤ s'.length ∧
      (t.length = s.length ↔ t'.length = s'.length)) ∨ p s = .err ∧ p s' = .err ∨ p s = .fail ∧ p s' = .fail ∨
      p s = .panic ∧ p s' = .panic ∨ p s = .oof ∧ p s' = .oof := by
  have := h s s' hs
  revert this
  cases p s <;> cases p s' <;> first | (intro h; cases h; done) | (intro _; simp; done) | skip
  rintro ⟨h1, h2, h3, h4, h5⟩
  exact .inl ⟨_, _, _, _, rfl, rfl, h2, h3, h4, h5⟩

theorem alt_cons {p : P α} {ps : List (P α)} {r : α → α} (h : Equi ρ p r) (k : Equi ρ (Pddl.alt ps) r) :
    Equi ρ (Pddl.alt (p :: ps)) r := fun s s' hs => by
  have := k s s' hs
  simp only [Pddl.alt]
  rcases h.cases hs with ⟨a, t, t', e1, e2, h⟩ | ⟨e1, e2⟩ | ⟨e1, e2⟩ | ⟨e1, e2⟩ | ⟨e1, e2⟩ <;> rw [e1, e2]
  · exact ⟨rfl, h⟩
  · exact this
  all_goals trivial

theorem opt {p : P α} {r : α → α} (h : Equi ρ p r) : Equi ρ (Pddl.opt p) (Option.map r) := fun s s' hs => by
  simp only [Pddl.opt]
  rcases h.cases hs with ⟨a, t, t', e1, e2, h⟩ | ⟨e1, e2⟩ | ⟨e1, e2⟩ | ⟨e1, e2⟩ | ⟨e1, e2⟩ <;> rw [e1, e2]
  · exact ⟨rfl, h⟩
  · exact .ret (r := Option.map r) hs none
  all_goals trivial

theorem ifOk {p : P α} {f : α → β} {k : P β} {r : α → α} {q : β → β} (h : Equi ρ p r) (hf : ∀ a, f (r a) = q (f a))
    (hk : Equi ρ k q) : Equi ρ (Pddl.ifOk p f k) q := fun s s' hs => by
  have := hk s s' hs
  simp only [Pddl.ifOk]
  rcases h.cases hs with ⟨a, t, t', e1, e2, h⟩ | ⟨e1, e2⟩ | ⟨e1, e2⟩ | ⟨e1, e2⟩ | ⟨e1, e2⟩ <;> rw [e1, e2]
  · exact ⟨hf a, h⟩
  · exact this
  · exact this
  all_goals trivial

theorem many0Loop {p : P α} {r : α → α} (h : Equi ρ p r) : ∀ n n' s s', Renames ρ s s' → s.length < n →
    s'.length < n' → ResR ρ (List.map r) s s' (Pddl.many0Loop p n s) (Pddl.many0Loop p n' s')
  | 0, _, _, _, _, h, _ => by omega
  | _ + 1, 0, _, _, _, _, h => by omega
  | n + 1, n' + 1, s, s', hs, hn, hn' => by
    simp only [Pddl.many0Loop]
    rcases h.cases hs with ⟨a, t, t', e1, e2, h1, h2, h3, h4⟩ | ⟨e1, e2⟩ | ⟨e1, e2⟩ | ⟨e1, e2⟩ | ⟨e1, e2⟩ <;> rw [e1, e2]
    · by_cases e : t.length = s.length
      · simp only [e, h4.mp e, if_true]
        trivial
      · simp only [e, mt h4.mpr e, if_false]
        have ih := many0Loop h n n' t t' h1 (by omega) (by have := mt h4.mpr e; omega)
        have := ih.bind (q := List.map r) (f := fun as r' => .ok (a :: as) r') (f' := fun as r' => .ok (r a :: as) r')
          fun as t t' h => .ret (r := List.map r) h (a :: as)
        revert this
        cases Pddl.many0Loop p n t <;> cases Pddl.many0Loop p n' t' <;> first | exact id | skip
        rintro ⟨g1, g2, g3, g4, g5⟩
        have := mt h4.mpr e
        exact ⟨g1, g2, by omega, by omega, by omega⟩
    · exact .ret (r := List.map r) hs []
    all_goals trivial

theorem many0 {p : P α} {r : α → α} (h : Equi ρ p r) : Equi ρ (Pddl.many0 p) (List.map r) := fun s s' hs =>
  many0Loop h _ _ s s' hs (by omega) (by omega)

theorem sepLoop {sep : P β} {p : P α} {r : α → α} (k : Mute ρ sep) (h : Equi ρ p r) : ∀ n n' s s',
    Renames ρ s s' → s.length < n → s'.length < n' →
    ResR ρ (List.map r) s s' (Pddl.sepLoop sep p n s) (Pddl.sepLoop sep p n' s')
  | 0, _, _, _, _, h, _ => by omega
  | _ + 1, 0, _, _, _, _, h => by omega
  | n + 1, n' + 1, s, s', hs, hn, hn' => by
    simp only [Pddl.sepLoop]
    rcases k.cases hs with ⟨b, b', u, u', e1, e2, k1, k2, k3, k4⟩ | ⟨e1, e2⟩ | ⟨e1, e2⟩ | ⟨e1, e2⟩ | ⟨e1, e2⟩ <;> rw [e1, e2]
    · by_cases e : u.length = s.length
      · simp only [e, k4.mp e, if_true]
        trivial
      · have e' := mt k4.mpr e
        simp only [e, e', if_false]
        rcases h.cases k1 with ⟨a, t, t', e1, e2, h1, h2, h3, h4⟩ | ⟨e1, e2⟩ | ⟨e1, e2⟩ | ⟨e1, e2⟩ | ⟨e1, e2⟩ <;> rw [e1, e2]
        · have ih := sepLoop k h n n' t t' h1 (by omega) (by omega)
          have := ih.bind (q := List.map r) (f := fun as r' => .ok (a :: as) r') (f' := fun as r' => .ok (r a :: as) r')
            fun as t t' h => .ret (r := List.map r) h (a :: as)
          simp only
          revert this
          cases Pddl.sepLoop sep p n t <;> cases Pddl.sepLoop sep p n' t' <;> first | exact id | skip
          rintro ⟨g1, g2, g3, g4, g5⟩
          exact ⟨g1, g2, by omega, by omega, by omega⟩
        · exact .ret (r := List.map r) hs []
        all_goals trivial
    · exact .ret (r := List.map r) hs []
    all_goals trivial

theorem sepList1 {sep : P β} {p : P α} {r : α → α} (k : Mute ρ sep) (h : Equi ρ p r) :
    Equi ρ (Pddl.sepList1 sep p) (List.map r) := fun s s' hs =>
  (h s s' hs).bind fun a t t' ht => (sepLoop k h _ _ t t' ht (by omega) (by omega)).bind fun as u u' hu =>
    .ret (r := List.map r) hu (a :: as)

theorem sepList0 {sep : P β} {p : P α} {r : α → α} (k : Mute ρ sep) (h : Equi ρ p r) :
    Equi ρ (Pddl.sepList0 sep p) (List.map r) := fun s s' hs => by
  have := sepList1 k h s s' hs
  simp only [Pddl.sepList1, Pddl.sepList0] at this ⊢
  rcases h.cases hs with ⟨a, t, t', e1, e2, h⟩ | ⟨e1, e2⟩ | ⟨e1, e2⟩ | ⟨e1, e2⟩ | ⟨e1, e2⟩ <;> rw [e1, e2] at this ⊢
  · exact this
  · exact .ret (r := List.map r) hs []
  all_goals trivial

theorem fix {body : P α → P α} {r : α → α} {k : Nat} (g : ∀ L p q, Good k L p q → Good k (L + 1) (body p) (body q))
    (h : ∀ self, Equi ρ self r → Equi ρ (body self) r) : Equi ρ (Pddl.fix body) r := by
  have hF : ∀ n, Equi ρ (Pddl.fixF body n) r := fun n => by
    induction n with
    | zero => exact fun _ _ _ => trivial
    | succ n ih => exact h _ ih
  intro s s' hs
  have h1 := (Good.fixF_fix g (s.length + s'.length + 1) s (by omega)).1
  have h2 := (Good.fixF_fix g (s.length + s'.length + 1) s' (by omega)).1
  rw [← h1, ← h2]
  exact hF _ s s' hs

/-! ## Leaves -/

theorem takeWhile {f : Char → Bool}
    (hf : ∀ c, isLetter c = true ∨ isBlank c = true ∨ c = ';' ∨ c = ':' ∨ c = '#' → f c = false)
    {s s' : List Char} (h : Renames ρ s s') : s'.takeWhile f = s.takeWhile f ∧ Renames ρ (s.dropWhile f) (s'.dropWhile f) ∧
      (s.dropWhile f).length + (s.takeWhile f).length = s.length ∧
      (s'.dropWhile f).length + (s.takeWhile f).length = s'.length := by
  have stop : ∀ {c : Char} {s : List Char}, f c = false → (c :: s).takeWhile f = [] ∧ (c :: s).dropWhile f = c :: s :=
    fun h => by simp [h]
  induction h with
  | nil => exact ⟨rfl, .nil, rfl, rfl⟩
  | @char c s s' h0 h1 h2 h3 h4 h ih =>
    cases hc : f c with
    | false => simp only [(stop hc).1, (stop hc).2]; exact ⟨trivial, .char h0 h1 h2 h3 h4 h, rfl, rfl⟩
    | true =>
      obtain ⟨i1, i2, i3, i4⟩ := ih
      simp only [List.takeWhile_cons, List.dropWhile_cons, hc, if_true, i1]
      refine ⟨trivial, i2, ?_, ?_⟩ <;> simp only [List.length_cons] <;> omega
  | @blanks g g' s s' h1 h2 h3 h4 h5 h ih =>
    have key : ∀ {g s : List Char}, g ≠ [] → (∀ d ∈ g, isBlank d = true) →
        (g ++ s).takeWhile f = [] ∧ (g ++ s).dropWhile f = g ++ s := fun {g s} h1 h2 => by
      cases g with
      | nil => exact absurd rfl h1
      | cons d g => exact stop (hf d (.inr (.inl (h2 d (.head _)))))
    rw [(key h1 h2).1, (key h1 h2).2, (key h3 h4).1, (key h3 h4).2]
    exact ⟨rfl, .blanks h1 h2 h3 h4 h5 h, rfl, rfl⟩
  | @word w s s' hw hr hs hA h ih =>
    have key : ∀ {w s}, IsWord w → (w ++ s).takeWhile f = [] ∧ (w ++ s).dropWhile f = w ++ s := fun hw => by
      obtain ⟨d, ds, rfl, hd, _⟩ := hw
      exact stop (hf d (.inl hd))
    rw [(key hw).1, (key hw).2, (key (hr.word hw)).1, (key (hr.word hw)).2]
    exact ⟨rfl, .word hw hr hs hA h, rfl, rfl⟩
  | @sigil c w s s' hc h1 h2 h3 hA h ih =>
    have e := hf c (by rcases hc with h | h <;> simp [h])
    simp only [(stop e).1, (stop e).2]
    exact ⟨trivial, .sigil hc h1 h2 h3 hA h, rfl, rfl⟩
  | comment h1 h2 h3 h4 h5 h ih =>
    have e := hf ';' (by simp)
    simp only [(stop e).1, (stop e).2]
    exact ⟨trivial, .comment h1 h2 h3 h4 h5 h, rfl, rfl⟩

theorem space_class : ∀ c, isLetter c = true ∨ c = ';' ∨ c = ':' ∨ c = '#' → isSpace c = false := by
  rintro c (h | rfl | rfl | rfl) <;> first | exact (isAlpha_solid h).1 | decide

theorem digit_class : ∀ c, isLetter c = true ∨ isBlank c = true ∨ c = ';' ∨ c = ':' ∨ c = '#' → isDigit c = false := by
  rintro c (h | h | rfl | rfl | rfl)
  · cases hd : isDigit c with
    | false => rfl
    | true =>
      simp [isLetter] at h
      simp [isDigit] at hd
      omega
  · simp only [isBlank, Bool.or_eq_true, beq_iff_eq] at h
    rcases h with ((rfl | rfl) | rfl) | rfl <;> decide
  all_goals decide

/-- Blanks are dropped on both sides or on none. -/
theorem spaces {s s' : List Char} (h : Renames ρ s s') : Renames ρ (s.dropWhile isSpace) (s'.dropWhile isSpace) ∧
    (s.takeWhile isSpace = [] ↔ s'.takeWhile isSpace = []) ∧
    (s.dropWhile isSpace).length + (s.takeWhile isSpace).length = s.length ∧
    (s'.dropWhile isSpace).length + (s'.takeWhile isSpace).length = s'.length := by
  have len : ∀ s : List Char, (s.dropWhile isSpace).length + (s.takeWhile isSpace).length = s.length := fun s => by
    have := congrArg List.length (List.takeWhile_append_dropWhile (p := isSpace) (l := s))
    rw [List.length_append] at this
    omega
  refine (and_assoc).mp ⟨?_, len s, len s'⟩
  have stop : ∀ {c : Char} {s : List Char}, isSpace c = false →
      (c :: s).takeWhile isSpace = [] ∧ (c :: s).dropWhile isSpace = c :: s := fun h => by simp [h]
  cases h with
  | nil => exact ⟨.nil, Iff.rfl⟩
  | char h0 h1 h2 h3 h4 h =>
    simp only [(stop h1).1, (stop h1).2]
    exact ⟨.char h0 h1 h2 h3 h4 h, trivial⟩
  | @blanks g g' s s' h1 h2 h3 h4 h5 h =>
    have h5' : ∀ d r, s' = d :: r → isBlank d = false := by
      cases h with
      | nil => exact h5
      | char _ h _ _ _ _ => intro d r e; cases e; exact h
      | @blanks g g' s s' h1 h2 _ _ _ _ =>
        cases g with
        | nil => exact absurd rfl h1
        | cons d g => exact absurd (h5 d _ rfl) (by simp [h2 d (.head _)])
      | word hw hr _ _ _ =>
        intro d r e
        obtain ⟨c, cs, e', hc, _⟩ := hr.word hw
        rw [e'] at e
        cases e
        exact (isAlpha_solid hc).1
      | sigil hc _ _ _ _ _ => intro d r e; cases e; rcases hc with rfl | rfl <;> decide
      | comment _ _ _ _ _ _ => intro d r e; cases e; decide
    have a := takeWhile_all (f := isSpace) h2 h5
    have b := takeWhile_all (f := isSpace) h4 h5'
    rw [a.1, a.2, b.1, b.2]
    exact ⟨h, by simp [h1, h3]⟩
  | word hw hr hs hA h =>
    have key : ∀ {w s}, IsWord w → (w ++ s).takeWhile isSpace = [] ∧ (w ++ s).dropWhile isSpace = w ++ s := fun hw => by
      obtain ⟨d, ds, rfl, hd, _⟩ := hw
      exact stop (isAlpha_solid hd).1
    rw [(key hw).1, (key hw).2, (key (hr.word hw)).1, (key (hr.word hw)).2]
    exact ⟨.word hw hr hs hA h, Iff.rfl⟩
  | sigil hc h1 h2 h3 hA h =>
    have e := space_class _ (.inr (.inr hc))
    simp only [(stop e).1, (stop e).2]
    exact ⟨.sigil hc h1 h2 h3 hA h, trivial⟩
  | comment h1 h2 h3 h4 h5 h =>
    have e := space_class ';' (by simp)
    simp only [(stop e).1, (stop e).2]
    exact ⟨.comment h1 h2 h3 h4 h5 h, trivial⟩

end Equi

namespace Mute

theorem multispace0 : Mute ρ Pddl.multispace0 := fun s s' h => by
  obtain ⟨h1, h2, h3, h4⟩ := Equi.spaces h
  have : (s.takeWhile isSpace).length = 0 ↔ (s'.takeWhile isSpace).length = 0 := by simpa using h2
  exact ⟨rfl, h1, by omega, by omega, by omega⟩

theorem multispace1 : Mute ρ Pddl.multispace1 := fun s s' h => by
  obtain ⟨h1, h2, h3, h4⟩ := Equi.spaces h
  have hl : (s.takeWhile isSpace).length = 0 ↔ (s'.takeWhile isSpace).length = 0 := by simpa using h2
  simp only [Pddl.multispace1, Pddl.takeWhile1]
  by_cases e : s.takeWhile isSpace = []
  · simp only [e, h2.mp e, if_true]; trivial
  · simp only [e, mt h2.mpr e, if_false]
    exact ⟨rfl, h1, by omega, by omega, by omega⟩

theorem pair {p : P α} {q : P β} (h : Mute ρ p) (k : Mute ρ q) : Mute ρ (Pddl.pair p q) := fun s s' hs => by
  have key : ∀ s, (Pddl.pair p q s).bind (fun _ t => Res.ok () t) =
      ((p s).bind fun _ t => .ok () t).bind fun _ t => (q t).bind fun _ t => .ok () t := fun s => by
    simp only [Pddl.pair]
    cases p s <;> try rfl
    rename_i t
    simp only [Res.bind]
    cases q t <;> rfl
  rw [key, key]
  exact (h s s' hs).bind fun _ t t' h => k t t' h

theorem preceded {p : P α} {q : P β} (h : Mute ρ p) (k : Mute ρ q) : Mute ρ (Pddl.preceded p q) := fun s s' hs => by
  have key : ∀ s, (Pddl.preceded p q s).bind (fun _ t => Res.ok () t) =
      ((p s).bind fun _ t => .ok () t).bind fun _ t => (q t).bind fun _ t => .ok () t := fun s => by
    simp only [Pddl.preceded]
    cases p s <;> rfl
  rw [key, key]
  exact (h s s' hs).bind fun _ t t' h => k t t' h

theorem terminated {p : P α} {q : P β} (h : Mute ρ p) (k : Mute ρ q) : Mute ρ (Pddl.terminated p q) := fun s s' hs => by
  have key : ∀ s, (Pddl.terminated p q s).bind (fun _ t => Res.ok () t) =
      ((p s).bind fun _ t => .ok () t).bind fun _ t => (q t).bind fun _ t => .ok () t := fun s => by
    simp only [Pddl.terminated]
    cases p s <;> try rfl
    rename_i t
    simp only [Res.bind]
    cases q t <;> rfl
  rw [key, key]
  exact (h s s' hs).bind fun _ t t' h => k t t' h

theorem opt {p : P α} (h : Mute ρ p) : Mute ρ (Pddl.opt p) := fun s s' hs => by
  have := h s s' hs
  simp only [Pddl.opt]
  revert this
  cases p s <;> cases p s' <;>
    first | exact id | (intro h; exact h.elim) | (intro _; exact .ret (r := id) (a := ()) hs)

theorem comment : Mute ρ (Pddl.pair (Pddl.char ';') (Pddl.isNot ['\r', '\n'])) := fun s s' h => by
  have miss : ∀ {c : Char} {s : List Char}, c ≠ ';' → Pddl.pair (Pddl.char ';') (Pddl.isNot ['\r', '\n']) (c :: s) = .err :=
    fun h => by simp [Pddl.pair, Pddl.char, h, Res.bind]
  cases h with
  | nil => trivial
  | char _ _ h _ _ _ => rw [miss h, miss h]; trivial
  | @blanks g g' s s' h1 h2 h3 h4 _ _ =>
    have hne' : ∀ {d t}, isBlank d = true → Pddl.pair (Pddl.char ';') (Pddl.isNot ['\r', '\n']) (d :: t) = .err :=
      fun h => miss (by rintro rfl; exact absurd h (by decide))
    rw [Equi.blanks_first h1 h2 hne', Equi.blanks_first h3 h4 hne']; trivial
  | word hw hr _ _ _ =>
    have key : ∀ {w s}, IsWord w → Pddl.pair (Pddl.char ';') (Pddl.isNot ['\r', '\n']) (w ++ s) = .err := fun hw => by
      obtain ⟨d, ds, rfl, hd, _⟩ := hw
      exact miss (by rintro rfl; exact absurd hd (by decide))
    rw [key hw, key (hr.word hw)]; trivial
  | sigil hc _ _ _ _ _ =>
    have key : ∀ {c}, c = ':' ∨ c = '#' → c ≠ ';' := by rintro c (rfl | rfl) <;> decide
    rw [miss (key hc), miss (key hc)]; trivial
  | @comment b b' s s' hb hb' hbb hs hs' h =>
    have run : ∀ {b s : List Char}, (∀ d ∈ b, isNewline d = false) → (∀ d r, s = d :: r → isNewline d = true) →
        Pddl.pair (Pddl.char ';') (Pddl.isNot ['\r', '\n']) (';' :: (b ++ s)) = if b = [] then .err else .ok (';', b) s :=
      fun {b s} hb hs => by
        have h1 : (b ++ s).takeWhile (fun c => !isNewline c) = b ∧ (b ++ s).dropWhile (fun c => !isNewline c) = s :=
          takeWhile_all (fun d hd => by simp [hb d hd]) fun d r e => by simp [hs d r e]
        simp only [Pddl.pair, Pddl.char, if_true, Res.bind, Pddl.isNot, Pddl.takeWhile1, isNot_newline, h1.1, h1.2]
        by_cases e : b = [] <;> simp only [e, if_true, if_false]
    rw [run hb hs, run hb' hs']
    by_cases e : b = []
    · simp only [e, hbb.mp e, if_true]; trivial
    · simp only [e, mt hbb.mpr e, if_false]
      exact .lt (r := id) h (by simp; omega) (by simp; omega) _

end Mute

namespace Equi

theorem u64Loop : ∀ {s s'} v, Renames ρ s s' → ResR ρ id s s' (Pddl.u64Loop v s) (Pddl.u64Loop v s') := by
  intro s s' v h
  have stop : ∀ {c : Char} {s : List Char} {v}, isDigit c = false → Pddl.u64Loop v (c :: s) = .ok v (c :: s) :=
    fun h => by simp [Pddl.u64Loop, h]
  induction h generalizing v with
  | nil => exact .ret (r := id) .nil _
  | @blanks g g' s s' h1 h2 h3 h4 h5 h ih =>
    have key : ∀ {d t} {v}, isBlank d = true → Pddl.u64Loop v (d :: t) = .ok v (d :: t) :=
      fun h => stop (digit_class _ (.inr (.inl h)))
    have run : ∀ {g s : List Char} {v}, g ≠ [] → (∀ d ∈ g, isBlank d = true) → Pddl.u64Loop v (g ++ s) = .ok v (g ++ s) :=
      fun {g s v} h1 h2 => by
        cases g with
        | nil => exact absurd rfl h1
        | cons d g => exact key (h2 d (.head _))
    rw [run h1 h2, run h3 h4]
    exact .ret (r := id) (.blanks h1 h2 h3 h4 h5 h) _
  | @char c s s' h0 h1 h2 h3 h4 h ih =>
    cases hc : isDigit c with
    | false => rw [stop hc, stop hc]; exact .ret (r := id) (.char h0 h1 h2 h3 h4 h) _
    | true =>
      simp only [Pddl.u64Loop, hc, if_true]
      split
      · have := ih (v * 10 + digitVal c)
        revert this
        cases Pddl.u64Loop (v * 10 + digitVal c) s <;> cases Pddl.u64Loop (v * 10 + digitVal c) s' <;>
          first | exact id | skip
        rintro ⟨g1, g2, g3, g4, g5⟩
        exact ⟨g1, g2, by simp; omega, by simp; omega, by simp; omega⟩
      · trivial
  | @word w s s' hw hr hs hA h ih =>
    have key : ∀ {w s v}, IsWord w → Pddl.u64Loop v (w ++ s) = .ok v (w ++ s) := fun hw => by
      obtain ⟨d, ds, rfl, hd, _⟩ := hw
      exact stop (digit_class d (.inl hd))
    rw [key hw, key (hr.word hw)]
    exact .ret (r := id) (.word hw hr hs hA h) _
  | @sigil c w s s' hc h1 h2 h3 hA h ih =>
    have e := digit_class c (by rcases hc with h | h <;> simp [h])
    rw [stop e, stop e]
    exact .ret (r := id) (.sigil hc h1 h2 h3 hA h) _
  | comment h1 h2 h3 h4 h5 h ih =>
    rw [stop (by decide), stop (by decide)]
    exact .ret (r := id) (.comment h1 h2 h3 h4 h5 h) _

theorem u64 : Equi ρ Pddl.u64 id := fun s s' h => by
  have hd := takeWhile digit_class h
  have key : ∀ s, Pddl.u64 s = if s.takeWhile isDigit = [] then .err else Pddl.u64Loop 0 s := fun s => by
    cases s with
    | nil => rfl
    | cons c s => cases hc : isDigit c <;> simp [Pddl.u64, hc]
  rw [key, key, hd.1]
  split
  · trivial
  · exact u64Loop 0 h

theorem number : Equi ρ Pddl.parseNumber id := fun s s' h => by
  obtain ⟨h1, h2, h3, h4⟩ := takeWhile digit_class h
  rw [parseNumber_eq, parseNumber_eq]
  have fin : ∀ {t u u'}, Renames ρ u u' → u.length < s.length → u'.length < s'.length →
      ResR ρ id s s' (numRes (Number.new (floatOf t)) u) (numRes (Number.new (floatOf t)) u') := fun {t u u'} h a b => by
    cases Number.new (floatOf t) with
    | none => trivial
    | some n => exact .lt (r := id) h a b n
  simp only [numSplit, h1]
  by_cases hne : s.takeWhile isDigit = []
  · simp only [hne, if_true]; trivial
  · simp only [hne, if_false]
    have hpos : 0 < (s.takeWhile isDigit).length := List.length_pos_iff.mpr hne
    have hf : (∃ u t t', fracSplit (s.dropWhile isDigit) = some (u, t) ∧ fracSplit (s'.dropWhile isDigit) = some (u, t') ∧
        Renames ρ t t' ∧ t.length ≤ (s.dropWhile isDigit).length ∧ t'.length ≤ (s'.dropWhile isDigit).length) ∨
        fracSplit (s.dropWhile isDigit) = none ∧ fracSplit (s'.dropWhile isDigit) = none := by
      have none_of : ∀ {c : Char} {s}, c ≠ '.' → fracSplit (c :: s) = none := fun h => by simp [fracSplit, h]
      generalize s.dropWhile isDigit = x at h2
      generalize s'.dropWhile isDigit = x' at h2
      cases h2 with
      | nil => exact .inr ⟨rfl, rfl⟩
      | @blanks g g' s s' h1 h2 h3 h4 _ _ =>
        have key : ∀ {g s : List Char}, g ≠ [] → (∀ d ∈ g, isBlank d = true) → fracSplit (g ++ s) = none := fun {g s} h1 h2 => by
          cases g with
          | nil => exact absurd rfl h1
          | cons d g => exact none_of (by rintro rfl; exact absurd (h2 _ (.head _)) (by decide))
        exact .inr ⟨key h1 h2, key h3 h4⟩
      | @char c t t' _ _ _ _ _ h =>
        obtain ⟨i1, i2, i3, i4⟩ := takeWhile digit_class h
        simp only [fracSplit, i1]
        by_cases hc : c = '.' ∧ t.takeWhile isDigit ≠ []
        · rw [if_pos hc, if_pos hc]
          exact .inl ⟨_, _, _, rfl, rfl, i2, by simp; omega, by simp; omega⟩
        · rw [if_neg hc, if_neg hc]
          exact .inr ⟨rfl, rfl⟩
      | word hw hr _ _ _ =>
        have key : ∀ {w s}, IsWord w → fracSplit (w ++ s) = none := fun hw => by
          obtain ⟨d, ds, rfl, hd, _⟩ := hw
          exact none_of (by rintro rfl; exact absurd hd (by decide))
        exact .inr ⟨key hw, key (hr.word hw)⟩
      | sigil hc _ _ _ _ _ =>
        have : ∀ {c}, c = ':' ∨ c = '#' → c ≠ '.' := by rintro c (rfl | rfl) <;> decide
        exact .inr ⟨none_of (this hc), none_of (this hc)⟩
      | comment _ _ _ _ _ _ => exact .inr ⟨none_of (by decide), none_of (by decide)⟩
    rcases hf with ⟨u, t, t', e1, e2, g1, g2, g3⟩ | ⟨e1, e2⟩
    · rw [e1, e2]
      exact fin g1 (by omega) (by omega)
    · rw [e1, e2]
      exact fin h2 (by omega) (by omega)

theorem new_text (w : List Char) : (Name.new w).text = w := by
  rw [← wordName_eq]
  unfold wordName
  split <;> rfl

theorem wordRes : Equi ρ Pddl.wordRes (Name.rename ρ) := fun s s' h => by
  have miss : ∀ {c : Char} {s : List Char}, isLetter c = false → Pddl.wordRes (c :: s) = .err := fun {c s} h => by
    have h : isAlpha c = false := h
    simp [Pddl.wordRes, h]
  cases h with
  | nil => trivial
  | char h _ _ _ _ _ => rw [miss h, miss h]; trivial
  | blanks h1 h2 h3 h4 _ _ =>
    have hne' : ∀ {d t}, isBlank d = true → Pddl.wordRes (d :: t) = .err := fun h => miss (blank_letter h)
    rw [blanks_first h1 h2 hne', blanks_first h3 h4 hne']; trivial
  | @word w t t' hw hr ht hA h =>
    rw [wordRes_word hw ht, wordRes_word (hr.word hw) (h.noWord ht)]
    have : Name.new (ρ w) = Name.rename ρ (Name.new w) := by
      rw [Name.rename, new_text, wordName_eq]
      split
      · rename_i e; rw [e]
      · rfl
    rw [this]
    have := hw.pos
    have := (hr.word hw).pos
    exact .lt h (by simp; omega) (by simp; omega) _
  | sigil hc _ _ _ _ _ =>
    have : ∀ {c}, c = ':' ∨ c = '#' → isLetter c = false := by rintro c (rfl | rfl) <;> decide
    rw [miss (this hc), miss (this hc)]; trivial
  | comment _ _ _ _ _ _ => rw [miss (by decide), miss (by decide)]; trivial

end Equi
end Pddl
