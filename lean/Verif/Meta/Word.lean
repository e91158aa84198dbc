import Verif.Meta.Layout

/-!
# Meta-theory: names
-/

namespace Pddl

/-- What a name parser does after skipping layout. -/
def wordRes (s : List Char) : Res Name := match s with
  | [] => .err
  | c :: s => if isAlpha c then
      .ok (Name.new (c :: s.takeWhile isWordChar)) (s.dropWhile isWordChar) else .err

theorem recognize_of {p : P α} {a : α} {c r : List Char} (h : p (c ++ r) = .ok a r) :
    recognize p (c ++ r) = .ok c r := by
  simp [recognize, h, Res.bind]

theorem takeWhile1_cons {f : Char → Bool} {c : Char} (h : f c = true) (s : List Char) :
    takeWhile1 f (c :: s) = .ok (c :: s.takeWhile f) (s.dropWhile f) := by
  simp [takeWhile1, h]

theorem takeWhile1_err {f : Char → Bool} {c : Char} (h : f c = false) (s : List Char) :
    takeWhile1 f (c :: s) = .err := by
  simp [takeWhile1, h]

theorem anyChar_run {f : Char → Bool} (hf : ∀ c, f c = true → isWordChar c = true) {c : Char}
    (h : f c = true) (s : List Char)
    (hp : alt [alpha1, digit1, tag c!"-", tag c!"_"] (c :: s) =
      .ok (c :: s.takeWhile f) (s.dropWhile f)) :
    ∃ u r, parseAnyChar (c :: s) = .ok u r ∧ c :: s = u ++ r ∧ u ≠ [] ∧
      ∀ d ∈ u, isWordChar d = true := by
  have hs : s.takeWhile f ++ s.dropWhile f = s := List.takeWhile_append_dropWhile
  refine ⟨c :: s.takeWhile f, s.dropWhile f, ?_, by simp [hs], by simp, ?_⟩
  · unfold parseAnyChar
    have := recognize_of (p := alt [alpha1, digit1, tag c!"-", tag c!"_"]) (c := c :: s.takeWhile f)
      (r := s.dropWhile f) (a := c :: s.takeWhile f)
    rw [List.cons_append, hs] at this
    exact this hp
  · intro d hd
    simp only [List.mem_cons] at hd
    rcases hd with rfl | hd
    · exact hf _ h
    · exact hf _ (all_takeWhile _ _ _ hd)

theorem isWordChar_eq (c : Char) :
    isWordChar c = (isAlpha c || isDigit c || c == '-' || c == '_') := rfl

theorem isAlpha_word {c : Char} (h : isAlpha c = true) : isWordChar c = true := by
  simp [isWordChar_eq, h]

theorem isDigit_word {c : Char} (h : isDigit c = true) : isWordChar c = true := by
  simp [isWordChar_eq, h]

theorem parseAnyChar_word {c : Char} (h : isWordChar c = true) (s : List Char) :
    ∃ u r, parseAnyChar (c :: s) = .ok u r ∧ c :: s = u ++ r ∧ u ≠ [] ∧
      ∀ d ∈ u, isWordChar d = true := by
  by_cases h1 : isAlpha c = true
  · refine anyChar_run (f := isAlpha) (fun _ => isAlpha_word) h1 s ?_
    simp only [alt, alpha1, takeWhile1_cons h1]
  · by_cases h2 : isDigit c = true
    · refine anyChar_run (f := isDigit) (fun _ => isDigit_word) h2 s ?_
      simp only [alt, alpha1, takeWhile1_err (by simpa using h1), digit1, takeWhile1_cons h2]
    · refine ⟨[c], s, ?_, rfl, by simp, by simpa using h⟩
      unfold parseAnyChar
      have key : alt [alpha1, digit1, tag c!"-", tag c!"_"] (c :: s) = .ok [c] s := by
        simp only [alt, alpha1, takeWhile1_err (show isAlpha c = false by simpa using h1), digit1,
          takeWhile1_err (show isDigit c = false by simpa using h2)]
        simp only [isWordChar_eq, Bool.or_eq_true, beq_iff_eq, h1, h2, false_or] at h
        simp only [Bool.false_eq_true, false_or] at h
        rcases h with rfl | rfl <;> simp [tag, stripPrefix]
      exact recognize_of (c := [c]) (r := s) key

theorem parseAnyChar_not_word {s : List Char} (h : ∀ c r, s = c :: r → isWordChar c = false) :
    parseAnyChar s = .err := by
  cases s with
  | nil => rfl
  | cons c s =>
    have := h c s rfl
    simp only [isWordChar_eq, Bool.or_eq_false_iff, beq_eq_false_iff_ne] at this
    obtain ⟨⟨⟨h1, h2⟩, h3⟩, h4⟩ := this
    simp [parseAnyChar, recognize, alt, alpha1, digit1, takeWhile1_err h1, takeWhile1_err h2, tag,
      stripPrefix, Ne.symm h3, Ne.symm h4, Res.bind]

theorem dropWhile_prefix {f : Char → Bool} {u r : List Char} (h : ∀ d ∈ u, f d = true) :
    (u ++ r).dropWhile f = r.dropWhile f ∧ (u ++ r).takeWhile f = u ++ r.takeWhile f := by
  induction u with
  | nil => simp
  | cons c u ih =>
    have h1 := h c (by simp)
    have := ih fun d hd => h d (by simp [hd])
    simp [h1, this.1, this.2]

theorem many0_word (s : List Char) (n : Nat) (hn : s.length < n) :
    ∃ cs, many0Loop parseAnyChar n s = .ok cs (s.dropWhile isWordChar) := by
  induction n generalizing s with
  | zero => omega
  | succ n ih =>
    by_cases h : ∃ c r, s = c :: r ∧ isWordChar c = true
    · obtain ⟨c, r, rfl, hc⟩ := h
      obtain ⟨u, r', h1, h2, h3, h4⟩ := parseAnyChar_word hc r
      have hlen := congrArg List.length h2
      have hu : 0 < u.length := List.length_pos_iff.mpr h3
      simp only [List.length_cons, List.length_append] at hlen hn
      obtain ⟨cs, hcs⟩ := ih r' (by omega)
      refine ⟨u :: cs, ?_⟩
      simp only [many0Loop, h1]
      rw [if_neg (by simp only [List.length_cons]; omega), hcs]
      simp only [Res.bind]
      rw [h2, (dropWhile_prefix h4).1]
    · have hs : ∀ c r, s = c :: r → isWordChar c = false := fun c r hcr => by
        cases hw : isWordChar c with
        | false => rfl
        | true => exact absurd ⟨c, r, hcr, hw⟩ h
      refine ⟨[], ?_⟩
      simp only [many0Loop, parseAnyChar_not_word hs]
      cases s with
      | nil => rfl
      | cons c r => simp [hs c r rfl]

theorem recognize_word (s : List Char) :
    map Name.new (recognize (pair alpha1 (many0 parseAnyChar))) s = wordRes s := by
  unfold wordRes
  cases s with
  | nil => rfl
  | cons c s =>
    cases hc : isAlpha c with
    | false => simp [map, recognize, pair, alpha1, takeWhile1_err hc, Res.bind, hc]
    | true =>
      obtain ⟨cs, hcs⟩ := many0_word (s.dropWhile isAlpha) _ (Nat.lt_succ_self _)
      have hs : s.takeWhile isAlpha ++ s.dropWhile isAlpha = s := List.takeWhile_append_dropWhile
      have h1 : (s.dropWhile isAlpha).dropWhile isWordChar = s.dropWhile isWordChar := by
        have := (dropWhile_prefix (f := isWordChar) (u := s.takeWhile isAlpha)
          (r := s.dropWhile isAlpha) (fun d hd => isAlpha_word (all_takeWhile _ _ _ hd))).1
        rw [hs] at this
        exact this.symm
      rw [h1] at hcs
      have hp : pair alpha1 (many0 parseAnyChar) (c :: s) =
          .ok (c :: s.takeWhile isAlpha, cs) (s.dropWhile isWordChar) := by
        simp only [pair, alpha1, takeWhile1_cons hc, Res.bind, many0]
        rw [hcs]
      have h2 := recognize_of (p := pair alpha1 (many0 parseAnyChar))
        (a := (c :: s.takeWhile isAlpha, cs)) (c := c :: s.takeWhile isWordChar)
        (r := s.dropWhile isWordChar)
      rw [List.cons_append, List.takeWhile_append_dropWhile] at h2
      simp only [map, h2 hp, Res.bind, hc, if_true]

theorem parseName_eq (s : List Char) : parseName s = wordRes (skip s) := by
  have : parseName = ws (map Name.new (recognize (pair alpha1 (many0 parseAnyChar)))) := by
    funext s
    simp only [parseName, map, ws_eq]
  rw [this, ws_eq, recognize_word]

theorem isWordChar_not {c : Char} (h : isSpace c = true ∨ c = '(' ∨ c = ')' ∨ c = ';') :
    isWordChar c = false := by
  simp only [isSpace, Bool.or_eq_true, beq_iff_eq] at h
  rcases h with (((rfl | rfl) | rfl) | rfl) | rfl | rfl | rfl <;> decide

theorem Stop.word {r : List Char} (h : Stop r) : ∀ c r', r = c :: r' → isWordChar c = false :=
  fun c r' hr => isWordChar_not (h c r' hr)

theorem wordRes_word {t r : List Char} (h : IsWord t)
    (hr : ∀ c r', r = c :: r' → isWordChar c = false) : wordRes (t ++ r) = .ok (Name.new t) r := by
  obtain ⟨c, cs, rfl, hc, hcs⟩ := h
  have hc : isAlpha c = true := hc
  have := takeWhile_all hcs hr
  simp only [wordRes, List.cons_append, hc, if_true, this.1, this.2]

theorem isAlpha_solid {c : Char} (h : isAlpha c = true) : isSpace c = false ∧ c ≠ ';' := by
  constructor
  · cases hs : isSpace c with
    | false => rfl
    | true =>
      simp only [isSpace, Bool.or_eq_true, beq_iff_eq] at hs
      rcases hs with ((rfl | rfl) | rfl) | rfl <;> exact absurd h (by decide)
  · rintro rfl; exact absurd h (by decide)

theorem IsWord.solid {t : List Char} (h : IsWord t) : Solid t := by
  obtain ⟨c, cs, rfl, hc, hcs⟩ := h
  exact .cons (isAlpha_solid hc).1 (isAlpha_solid hc).2 cs

theorem parseName_word {t r : List Char} (h : IsWord t)
    (hr : ∀ c r', r = c :: r' → isWordChar c = false) : parseName (t ++ r) = .ok (Name.new t) r := by
  rw [parseName_eq, (h.solid.append r).skip, wordRes_word h hr]

theorem wordRes_ok {s : List Char} {n r} (h : wordRes s = .ok n r) :
    ∃ t, s = t ++ r ∧ IsWord t ∧ n = Name.new t ∧ ∀ c r', r = c :: r' → isWordChar c = false := by
  cases s with
  | nil => cases h
  | cons c s =>
    simp only [wordRes] at h
    split at h
    · rename_i hc
      cases h
      exact ⟨c :: s.takeWhile isWordChar, by simp, ⟨_, _, rfl, hc, all_takeWhile _ _⟩, rfl,
        head_dropWhile _ _⟩
    · cases h

end Pddl
