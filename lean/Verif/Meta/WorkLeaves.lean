import Verif.Meta.WorkForms

/-!
# Meta-theory: the work of the parsers of names and numbers
-/

namespace Pddl

/-- What a text where a form begins begins with. -/
theorem Opens.head {s t : List Char} (h : Opens s t) :
    ∃ c r, s = c :: r ∧ (isSpace c = true ∨ c = '(' ∨ c = ';') := by
  cases s with
  | nil => cases h
  | cons c r =>
    refine ⟨c, r, rfl, ?_⟩
    by_cases h1 : isSpace c = true
    · exact .inl h1
    · by_cases h2 : c = ';'
      · exact .inr (.inr h2)
      · rw [Opens, skip_of_head (by intro c' r' h; cases h; simpa using h1), skipC_of_ne h2] at h
        injection h with h3 h4
        exact .inr (.inl h3)

theorem Opens.takeWhile {f : Char → Bool} (hf : ∀ c, f c = true → isWordChar c = true)
    {s t : List Char} (h : Opens s t) : s.takeWhile f = [] := by
  obtain ⟨c, r, rfl, hc⟩ := h.head
  rw [List.takeWhile_cons]
  split
  · rename_i h1
    have h2 := hf c h1
    rcases hc with h3 | h3 | h3
    · simp only [isSpace, Bool.or_eq_true, beq_iff_eq] at h3
      rcases h3 with ((h3 | h3) | h3) | h3 <;> (subst h3; exact absurd h2 (by decide))
    · subst h3; exact absurd h2 (by decide)
    · subst h3; exact absurd h2 (by decide)
  · rfl

/-- Linear in what follows. -/
def Lin (c : Nat) (p : K.P α) : Prop := ∀ s, p.cost s ≤ c * (vis s + 1)

/-- Stops at once where a form begins. -/
structure Shut (c : Nat) (p : K.P α) : Prop where
  cost : ∀ s t, Opens s t → p.cost s ≤ c
  run : ∀ s t v r, Opens s t → p.run s ≠ .ok v r

theorem Lin.leaf {c : Nat} {p : K.P α} (h : Lin c p) : Leaf c p := fun s _ => h s

theorem Lin.const {c : Nat} {p : K.P α} (h : ∀ s, p.cost s ≤ c) : Lin c p := fun s =>
  Nat.le_trans (h s) (Nat.le_mul_of_pos_right _ (by omega))

theorem Lin.seq {c d : Nat} {p : K.P α} {q : K.P β} (h : Lin c p) (he : Eats p) (h' : Lin d q)
    (s : List Char) : seqCost p q s ≤ (c + d) * (vis s + 1) := by
  have h1 := h s
  have h2 : (p.run s).after q.cost ≤ d * (vis s + 1) := after_le fun v r hr =>
    Nat.le_trans (h' r) (Nat.mul_le_mul_left d (by have := (he _ _ _ hr).vis_le; omega))
  rw [seqCost, Nat.add_mul]
  omega

theorem Lin.ws {c : Nat} {p : K.P α} (h : Lin c p) : Lin (c + 9) (K.ws p) := fun s => by
  have h1 := ws_cost p s
  have h2 := h (skip s)
  have h3 := (Lvl.skip s).vis
  have h4 := Nat.mul_le_mul_left c (show vis (skip s) + 1 ≤ vis s + 1 by omega)
  rw [Nat.add_mul]
  omega

theorem Lin.takeWhile {p : K.P α} {f : Char → Bool} (hf : ∀ c, f c = true → isWordChar c = true)
    (hc : ∀ s, p.cost s = 1 + (s.takeWhile f).length) : Lin 1 p := fun s => by
  have h1 := Pol.takeWhile_le (fun c h => isWordChar_plain (hf c h)) s
  rw [hc]
  omega

theorem Shut.seq {c : Nat} {p : K.P α} {q : K.P β} {r : K.P γ} (h : Shut c p)
    (hc : r.cost = seqCost p q) (hr : ∀ s v u, r.run s = .ok v u → ∃ w x, p.run s = .ok w x) :
    Shut c r where
  cost s t ho := by
    rw [hc, seq_flat (fun v u => h.run s t v u ho)]
    exact h.cost s t ho
  run s t v u ho hs := by
    obtain ⟨w, x, h1⟩ := hr s v u hs
    exact h.run s t w x ho h1

theorem Shut.takeWhile1 {p : K.P (List Char)} {f : Char → Bool}
    (hf : ∀ c, f c = true → isWordChar c = true)
    (hc : ∀ s, p.cost s = 1 + (s.takeWhile f).length) (hr : p.run = Pddl.takeWhile1 f) :
    Shut 1 p where
  cost s t ho := by rw [hc, ho.takeWhile hf]; exact Nat.le_refl _
  run s t v r ho hs := by
    rw [hr, Pddl.takeWhile1, if_pos (ho.takeWhile hf)] at hs
    cases hs

/-- The head of a text is neither a space nor a parenthesis nor a semicolon. -/
def headPlain : List Char → Bool
  | [] => false
  | c :: _ => !isSpace c && c != '(' && c != ';'

theorem Shut.tag {k : List Char} (h : headPlain k = true) : Shut (1 + k.length) (K.tag k) where
  cost s t _ := Nat.le_refl _
  run s t v r ho hs := by
    obtain ⟨_, hs⟩ := tag_inv hs
    obtain ⟨c, u, h1, h2⟩ := ho.head
    cases k with
    | nil => cases h
    | cons d k =>
      rw [hs] at h1
      injection h1 with h1 _
      subst h1
      simp only [headPlain, Bool.and_eq_true, Bool.not_eq_true', bne_iff_ne] at h
      rcases h2 with h3 | h3 | h3
      · rw [h.1.1] at h3; cases h3
      · exact h.1.2 h3
      · exact h.2 h3

theorem Shut.frm {c d j : Nat} {p : K.P α} (h : Shut c p) (hl : Lin d p) (he : Eats p)
    (hj : 1 ≤ j) : Frm j p :=
  ⟨⟨c + d, .of_shut hj (fun s t ho => Nat.le_trans (h.cost s t ho)
      (Nat.le_trans (Nat.le_add_right c d) (Nat.le_mul_of_pos_right _ (by omega))))
    (hl.leaf.mono (by omega)) h.run⟩, he⟩

theorem Lin.tag {k : List Char} : Lin (1 + k.length) (K.tag k) := .const fun _ => Nat.le_refl _

theorem Lin.char {c : Char} : Lin 2 (K.char c) := .const fun _ => Nat.le_refl _

theorem Frm.tag {j : Nat} {k : List Char} (hj : 1 ≤ j) (hk : plainText k = true)
    (h : headPlain k = true) : Frm j (K.tag k) := (Shut.tag h).frm .tag (.tag hk) hj

theorem Frm.unit {j : Nat} (hj : 1 ≤ j) : Frm j (K.tag c!"()") :=
  ⟨⟨3, fun s t _ => by
      show 3 ≤ _
      have := BE_lin hj s t
      omega, Lin.tag.leaf, Formal.unit.whole⟩, Formal.unit.eats⟩

theorem Frm.emptyOr {j : Nat} {p : K.P α} (hj : 1 ≤ j) (h : Frm j p) : Frm j (K.emptyOr p) :=
  .alt_cons (.map (.unit hj)) (.alt_one h.map)

theorem Pol.emptyOr {j : Nat} {p : K.P α} (hj : 1 ≤ j) (h : Frm j p) : Pol j (K.emptyOr p) :=
  (Frm.emptyOr hj h).pol hj

/-! ## Names -/

theorem many0_lin {k : Nat} {p : K.P α} (he : Eats p)
    (h1 : ∀ s v r, p.run s = .ok v r → p.cost s ≤ k + (s.length - r.length))
    (h2 : ∀ s, (∀ v r, p.run s ≠ .ok v r) → p.cost s ≤ k) (n : Nat) :
    ∀ s, K.many0Cost p n s ≤ (k + 1) * vis s + k := by
  induction n with
  | zero => intro s; exact Nat.zero_le _
  | succ n ih =>
    intro s
    show p.cost s + (p.run s).after _ ≤ _
    cases hp : p.run s with
    | ok v r =>
      have h3 := h1 s v r hp
      have h4 := (he _ _ _ hp).vis
      have h5 := (he _ _ _ hp).len
      have h6 := ih r
      simp only [Res.after]
      split
      · have h7 : s.length - r.length = 0 := by omega
        have := Nat.zero_le ((k + 1) * vis s)
        omega
      · have h7 : 1 ≤ s.length - r.length := by omega
        have h8 := Nat.mul_le_mul_left k h7
        rw [← h4]
        simp only [Nat.mul_add, Nat.add_mul, Nat.mul_one, Nat.one_mul] at *
        omega
    | _ =>
      have h3 := h2 s (by rw [hp]; intro v r h; cases h)
      simp only [Res.after]
      omega

theorem takeWhile1_cases (f : Char → Bool) (s : List Char) :
    (s.takeWhile f = [] ∧ Pddl.takeWhile1 f s = .err) ∨
      Pddl.takeWhile1 f s = .ok (s.takeWhile f) (s.dropWhile f) := by
  unfold Pddl.takeWhile1
  split
  · exact .inl ⟨‹_›, rfl⟩
  · exact .inr rfl

theorem parseAnyChar_eats : Eats K.parseAnyChar := by
  unfold K.parseAnyChar
  comb
  all_goals rfl

theorem anyChar_cost (s : List Char) :
    (∀ v r, K.parseAnyChar.run s = .ok v r → K.parseAnyChar.cost s ≤ 6 + (s.length - r.length)) ∧
    ((∀ v r, K.parseAnyChar.run s ≠ .ok v r) → K.parseAnyChar.cost s ≤ 6) := by
  have hc : K.parseAnyChar.cost s = 1 + (s.takeWhile isAlpha).length +
    (Pddl.takeWhile1 isAlpha s).onErr (1 + (s.takeWhile isDigit).length +
      (Pddl.takeWhile1 isDigit s).onErr (2 + (Pddl.tag c!"-" s).onErr (2 +
        (Pddl.tag c!"_" s).onErr 0))) := rfl
  have hr : K.parseAnyChar.run = Pddl.recognize (Pddl.alt [Pddl.takeWhile1 isAlpha,
    Pddl.takeWhile1 isDigit, Pddl.tag c!"-", Pddl.tag c!"_"]) := rfl
  have la := congrArg List.length (List.takeWhile_append_dropWhile (p := isAlpha) (l := s))
  have ld := congrArg List.length (List.takeWhile_append_dropWhile (p := isDigit) (l := s))
  rw [List.length_append] at la ld
  rcases takeWhile1_cases isAlpha s with ⟨ha, ha'⟩ | ha
  · rcases takeWhile1_cases isDigit s with ⟨hd, hd'⟩ | hd
    · have : K.parseAnyChar.cost s ≤ 6 := by
        rw [hc, ha, ha', hd, hd']
        have h1 := onErr_le (Pddl.tag c!"_" s) 0
        have h2 := onErr_le (Pddl.tag c!"-" s) (2 + (Pddl.tag c!"_" s).onErr 0)
        simp only [Res.onErr, List.length_nil] at *
        omega
      exact ⟨fun _ _ _ => by omega, fun _ => this⟩
    · have : K.parseAnyChar.cost s = 2 + (s.takeWhile isDigit).length := by
        rw [hc, ha, ha', hd]
        simp only [Res.onErr, List.length_nil]
        omega
      have e : K.parseAnyChar.run s = .ok (s.take (s.length - (s.dropWhile isDigit).length))
          (s.dropWhile isDigit) := by
        rw [hr, Pddl.recognize, alt_miss ha', alt_hit hd]; rfl
      refine ⟨fun v r h => ?_, fun h => absurd e (h _ _)⟩
      rw [e] at h
      cases h
      omega
  · have : K.parseAnyChar.cost s = 1 + (s.takeWhile isAlpha).length := by
      rw [hc, ha]
      simp only [Res.onErr]
      omega
    have e : K.parseAnyChar.run s = .ok (s.take (s.length - (s.dropWhile isAlpha).length))
        (s.dropWhile isAlpha) := by
      rw [hr, Pddl.recognize, alt_hit ha]; rfl
    refine ⟨fun v r h => ?_, fun h => absurd e (h _ _)⟩
    rw [e] at h
    cases h
    omega

theorem name_lin : Lin 8 (K.pair K.alpha1 (K.many0 K.parseAnyChar)) := fun s =>
  Lin.seq (c := 1) (d := 7) (.takeWhile (f := isAlpha) (fun _ => isAlpha_word) fun _ => rfl)
    .alpha1 (fun s => by
      have := many0_lin parseAnyChar_eats (fun s => (anyChar_cost s).1) (fun s => (anyChar_cost s).2)
        (s.length + 1) s
      show K.many0Cost _ _ _ ≤ _
      omega) s

theorem parseName_lin : Lin 17 K.parseName := Lin.ws (c := 8) name_lin

theorem parseName_eats : Eats K.parseName :=
  .map (.ws (.recognize (.pair .alpha1 (.many0 parseAnyChar_eats))))

theorem parseName_frm {j : Nat} (hj : 1 ≤ j) : Frm j K.parseName := by
  refine .map (.ws hj (Shut.frm (c := 1) (d := 8) ?_ name_lin
    (.recognize (.pair .alpha1 (.many0 parseAnyChar_eats))) hj))
  refine Shut.seq (p := K.alpha1) (q := K.many0 K.parseAnyChar)
    (.takeWhile1 (f := isAlpha) (fun _ => isAlpha_word) (fun _ => rfl) rfl) rfl fun s v u h => ?_
  have h : Pddl.recognize (Pddl.pair Pddl.alpha1 (K.many0 K.parseAnyChar).run) s = .ok v u := h
  unfold Pddl.recognize at h
  cases hp : Pddl.pair Pddl.alpha1 (K.many0 K.parseAnyChar).run s with
  | ok a r =>
    obtain ⟨_, h1, _⟩ := pair_ok hp
    exact ⟨_, _, h1⟩
  | _ => rw [hp] at h; cases h

theorem parseVariable_eats : Eats K.parseVariable := .preceded (.tag rfl) parseName_eats

theorem parseVariable_frm {j : Nat} (hj : 1 ≤ j) : Frm j K.parseVariable :=
  Shut.frm (c := 2) (d := 2 + 17)
    (Shut.seq (p := K.tag c!"?") (q := K.parseName) (Shut.tag (k := c!"?") rfl) rfl fun s v u h => by
      obtain ⟨_, _, h1, _⟩ := preceded_ok h
      exact ⟨_, _, h1⟩)
    (fun s => Lin.seq (c := 2) (Lin.tag (k := c!"?")) (.tag rfl) parseName_lin s) parseVariable_eats hj

theorem parseDecimal_eats : Eats K.parseDecimal := .recognize (.pair (.char rfl) .digit1)

theorem parseNumber_eats : Eats K.parseNumber :=
  .mapExpect (.recognize (.pair .digit1 (.many01 parseDecimal_eats)))

theorem digit1_lin : Lin 1 K.digit1 := .takeWhile (f := isDigit) (fun _ => isDigit_word) fun _ => rfl

theorem parseNumber_frm {j : Nat} (hj : 1 ≤ j) : Frm j K.parseNumber := by
  refine .mapExpect (Shut.frm (c := 1) (d := 1 + (2 + 1)) ?_
    (fun s => Lin.seq (p := K.digit1) (q := K.many01 K.parseDecimal) digit1_lin .digit1
      (fun s => Lin.seq (p := K.char '.') (q := K.digit1) .char (.char rfl) digit1_lin s) s)
    (.recognize (.pair .digit1 (.many01 parseDecimal_eats))) hj)
  refine Shut.seq (p := K.digit1) (q := K.many01 K.parseDecimal)
    (.takeWhile1 (f := isDigit) (fun _ => isDigit_word) (fun _ => rfl) rfl) rfl fun s v u h => ?_
  have h : Pddl.recognize (Pddl.pair Pddl.digit1 (K.many01 K.parseDecimal).run) s = .ok v u := h
  unfold Pddl.recognize at h
  cases hp : Pddl.pair Pddl.digit1 (K.many01 K.parseDecimal).run s with
  | ok a r =>
    obtain ⟨_, h1, _⟩ := pair_ok hp
    exact ⟨_, _, h1⟩
  | _ => rw [hp] at h; cases h

theorem alt_tags_frm {j : Nat} (hj : 1 ≤ j) :
    ∀ (ks : List (List Char)), (∀ k ∈ ks, plainText k = true ∧ headPlain k = true) →
      Frm j (K.alt (ks.map K.tag))
  | [], _ => ⟨⟨0, .alt_nil⟩, .alt_nil⟩
  | k :: ks, h => .alt_cons (.tag hj (h k (by simp)).1 (h k (by simp)).2)
    (alt_tags_frm hj ks fun k' hk => h k' (by simp [hk]))

end Pddl
