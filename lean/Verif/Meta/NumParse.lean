import Verif.Meta.Num

/-!
# Meta-theory 3: explicit form of `parse_number`
-/

namespace Pddl

/-- The fractional part (point and digits) at the start of the input, and the rest. -/
def fracSplit : List Char → Option (List Char × List Char)
  | [] => none
  | c :: r =>
    if c = '.' ∧ r.takeWhile isDigit ≠ [] then
      some ('.' :: r.takeWhile isDigit, r.dropWhile isDigit)
    else none

/-- The text of the number literal at the start of the input, if any, and the rest. -/
def numSplit (s : List Char) : Option (List Char × List Char) :=
  if s.takeWhile isDigit = [] then none
  else match fracSplit (s.dropWhile isDigit) with
    | some (fs, r) => some (s.takeWhile isDigit ++ fs, r)
    | none => some (s.takeWhile isDigit, s.dropWhile isDigit)

theorem take_sub_append (a b : List Char) : (a ++ b).take ((a ++ b).length - b.length) = a := by
  simp

theorem parseDecimal_dot (r' : List Char) :
    parseDecimal ('.' :: r') =
      if r'.takeWhile isDigit = [] then .err
      else .ok ('.' :: r'.takeWhile isDigit) (r'.dropWhile isDigit) := by
  simp only [parseDecimal, recognize, pair, char, Res.bind, if_true, digit1, takeWhile1]
  by_cases h : r'.takeWhile isDigit = []
  · simp [h]
  · simp only [h, if_false]
    have := take_sub_append ('.' :: r'.takeWhile isDigit) (r'.dropWhile isDigit)
    simp only [List.cons_append, List.takeWhile_append_dropWhile] at this
    rw [this]

theorem parseDecimal_other {c : Char} (hc : c ≠ '.') (r' : List Char) :
    parseDecimal (c :: r') = .err := by
  simp [parseDecimal, recognize, pair, char, Res.bind, hc]

theorem many01_decimal (r : List Char) :
    many01 parseDecimal r = match fracSplit r with
      | some (fs, r') => .ok [fs] r'
      | none => .ok [] r := by
  cases r with
  | nil => rfl
  | cons c r' =>
    unfold fracSplit
    by_cases hc : c = '.'
    · subst hc
      simp only [many01, parseDecimal_dot, true_and]
      by_cases h : r'.takeWhile isDigit = []
      · simp [h]
      · simp only [h, if_false, ne_eq, not_false_eq_true, if_true]
        rw [if_neg]
        have h1 := congrArg List.length (List.takeWhile_append_dropWhile (p := isDigit) (l := r'))
        simp only [List.length_append] at h1
        simp only [List.length_cons]; omega
    · simp only [many01, parseDecimal_other hc, hc, false_and, if_false]

theorem fracSplit_spec {s t r : List Char} (h : fracSplit s = some (t, r)) :
    s = t ++ r ∧ ∃ fs, fs ≠ [] ∧ (∀ c ∈ fs, isDigit c = true) ∧ t = '.' :: fs := by
  cases s with
  | nil => cases h
  | cons c s =>
    simp only [fracSplit] at h
    split at h
    · rename_i hc
      simp only [Option.some.injEq, Prod.mk.injEq] at h
      rw [← h.1, ← h.2, hc.1]
      refine ⟨by simp, _, hc.2, ?_, rfl⟩
      intro d hd
      have := List.all_takeWhile (l := s) (p := isDigit)
      exact List.all_eq_true.mp this d hd
    · cases h

theorem recognize_number (s : List Char) :
    recognize (pair digit1 (many01 parseDecimal)) s = match numSplit s with
      | none => .err
      | some (t, r) => .ok t r := by
  unfold numSplit
  simp only [recognize, pair, digit1, takeWhile1]
  by_cases h : s.takeWhile isDigit = []
  · simp [h, Res.bind]
  · simp only [h, if_false, Res.bind, many01_decimal]
    have hs : s.takeWhile isDigit ++ s.dropWhile isDigit = s := List.takeWhile_append_dropWhile
    cases hf : fracSplit (s.dropWhile isDigit) with
    | none =>
      simp only
      have h2 := take_sub_append (s.takeWhile isDigit) (s.dropWhile isDigit)
      rw [hs] at h2
      rw [h2]
    | some x =>
      obtain ⟨fs, r'⟩ := x
      simp only
      have h1 := (fracSplit_spec hf).1
      have h2 := take_sub_append (s.takeWhile isDigit ++ fs) r'
      rw [List.append_assoc, ← h1, hs] at h2
      rw [h2]

/-- Last step of `parse_number`. -/
def numRes (z : Option Number) (r : List Char) : Res Number :=
  match z with
  | some n => .ok n r
  | none => .panic

theorem mapExpect_num {γ : Type} (f : γ → Option Number) (p : P γ) (s : List Char) :
    mapExpect f p s = match p s with
      | .ok t r => numRes (f t) r
      | .err => .err
      | .fail => .fail
      | .panic => .panic
      | .oof => .oof := by
  unfold mapExpect
  cases p s with
  | ok t r =>
    simp only [Res.bind]
    cases f t <;> rfl
  | _ => rfl

theorem parseNumber_eq (s : List Char) :
    parseNumber s = match numSplit s with
      | none => .err
      | some (t, r) => numRes (Number.new (floatOf t)) r := by
  unfold parseNumber
  rw [mapExpect_num, recognize_number]
  cases numSplit s with
  | none => rfl
  | some x => obtain ⟨t, r⟩ := x; rfl

theorem takeWhile_digits {ds r : List Char} (hd : ∀ c ∈ ds, isDigit c = true)
    (hr : ∀ c r', r = c :: r' → isDigit c = false) :
    (ds ++ r).takeWhile isDigit = ds ∧ (ds ++ r).dropWhile isDigit = r := by
  induction ds with
  | nil =>
    cases r with
    | nil => simp
    | cons c r' => simp [hr c r' rfl]
  | cons d ds ih =>
    have h1 := hd d (by simp)
    have := ih fun c hc => hd c (by simp [hc])
    simp [h1, this.1, this.2]

theorem all_takeWhile (f : Char → Bool) (s : List Char) : ∀ c ∈ s.takeWhile f, f c = true := by
  induction s with
  | nil => simp
  | cons d s ih =>
    intro c hc
    by_cases h : f d
    · simp only [List.takeWhile_cons, h, if_true, List.mem_cons] at hc
      rcases hc with rfl | hc
      · exact h
      · exact ih c hc
    · simp [h] at hc

theorem head_dropWhile (f : Char → Bool) (s : List Char) :
    ∀ c r, s.dropWhile f = c :: r → f c = false := by
  induction s with
  | nil => simp
  | cons d s ih =>
    intro c r h
    by_cases hd : f d
    · simp only [List.dropWhile_cons, hd, if_true] at h
      exact ih c r h
    · simp [hd] at h
      rw [← h.1]; simpa using hd

theorem litValue_int {ds : List Char} (hd : ∀ c ∈ ds, isDigit c = true) :
    litValue ds = (decVal ds, 0) := by
  have := takeWhile_digits (r := []) hd (by simp)
  simp only [List.append_nil] at this
  simp only [litValue, this.1, this.2]
  simp [decVal_eq]

theorem litValue_frac {ds fs : List Char} (hd : ∀ c ∈ ds, isDigit c = true) :
    litValue (ds ++ '.' :: fs) = (decVal (ds ++ fs), fs.length) := by
  have := takeWhile_digits (r := '.' :: fs) hd (by
    intro c r' h; simp at h; rw [← h.1]; decide)
  simp only [litValue, this.1, this.2]
  simp [decVal_eq]

/-- The literal text: digits, optionally followed by a point and digits. -/
theorem numSplit_spec {s t r : List Char} (h : numSplit s = some (t, r)) :
    s = t ++ r ∧ ∃ ds, ds ≠ [] ∧ (∀ c ∈ ds, isDigit c = true) ∧
      (t = ds ∨ ∃ fs, fs ≠ [] ∧ (∀ c ∈ fs, isDigit c = true) ∧ t = ds ++ '.' :: fs) := by
  unfold numSplit at h
  have hs : s.takeWhile isDigit ++ s.dropWhile isDigit = s := List.takeWhile_append_dropWhile
  split at h
  · cases h
  · rename_i hne
    cases hf : fracSplit (s.dropWhile isDigit) with
    | none =>
      simp only [hf, Option.some.injEq, Prod.mk.injEq] at h
      rw [← h.1, ← h.2]
      exact ⟨hs.symm, _, hne, all_takeWhile _ _, .inl rfl⟩
    | some x =>
      obtain ⟨fs, r'⟩ := x
      simp only [hf, Option.some.injEq, Prod.mk.injEq] at h
      obtain ⟨h1, fs', hne2, hall, hfs⟩ := fracSplit_spec hf
      rw [← h.1, ← h.2]
      refine ⟨?_, _, hne, all_takeWhile _ _, .inr ⟨fs', hne2, hall, by rw [hfs]⟩⟩
      rw [List.append_assoc, ← h1, hs]

theorem finite_int {ds : List Char} (hd : ∀ c ∈ ds, isDigit c = true) :
    (floatOf ds).isFinite = true ↔ decVal ds < overflowBound := by
  unfold floatOf
  rw [litValue_int hd, F32.ofDecimal_finite]
  simp

theorem finite_frac {ds fs : List Char} (hd : ∀ c ∈ ds, isDigit c = true)
    (hf : ∀ c ∈ fs, isDigit c = true) :
    (floatOf (ds ++ '.' :: fs)).isFinite = true ↔ decVal ds < overflowBound := by
  unfold floatOf
  rw [litValue_frac hd, F32.ofDecimal_finite]
  simp only [decVal_append]
  have h1 := decVal_lt hf
  generalize decVal fs = y at *
  generalize decVal ds = x at *
  generalize overflowBound = B at *
  generalize 10 ^ fs.length = T at *
  constructor
  · intro h
    refine Classical.byContradiction fun hn => ?_
    have := Nat.mul_le_mul_right T (Nat.le_of_not_lt hn)
    omega
  · intro h
    have := Nat.mul_le_mul_right T (Nat.succ_le_of_lt h)
    rw [Nat.succ_mul] at this
    omega

theorem new_floatOf_none {t : List Char} (h : Number.new (floatOf t) = none) :
    ¬ (floatOf t).isFinite = true := by
  intro hf
  rw [Number.new, if_pos hf] at h
  exact absurd h (by simp)

theorem Good.parseNumber : Good 1 L parseNumber parseNumber := by
  intro s _
  refine ⟨rfl, ?_⟩
  rw [parseNumber_eq]
  cases h : numSplit s with
  | none => trivial
  | some x =>
    obtain ⟨t, r⟩ := x
    obtain ⟨hs, ds, hne, hd, ht⟩ := numSplit_spec h
    have htne : 1 ≤ t.length := by
      rcases ht with rfl | ⟨fs, _, _, rfl⟩
      · exact List.length_pos_iff.mpr hne
      · simp only [List.length_append, List.length_cons]; omega
    dsimp only
    have key : Number.new (floatOf t) = none → ¬ Calm s := by
      intro hn hcalm
      apply new_floatOf_none hn
      rcases ht with rfl | ⟨fs, _, hf, rfl⟩
      · exact (finite_int hd).mpr (hcalm [] t r (by simpa using hs) hd)
      · exact (finite_frac hd hf).mpr (hcalm [] ds ('.' :: fs ++ r) (by simpa using hs) hd)
    generalize Number.new (floatOf t) = z at key ⊢
    cases z with
    | some n => exact ⟨t, hs, htne⟩
    | none => exact key rfl

end Pddl
