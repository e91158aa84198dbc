import Verif.Meta.Bits
import Verif.Meta.NumParse

/-!
# C37–C39: numbers
-/

namespace Pddl

/-! ## C39: constructors -/

/-- `Number::new` returns (does not panic) exactly on finite values and `Number::try_new` is `Ok`
exactly on those; the stored value is the argument. -/
theorem C39_constructors (x : F32) :
    (FiniteBits x.bits → Number.new x = some ⟨x⟩ ∧ Number.tryNew x = some ⟨x⟩) ∧
    (¬ FiniteBits x.bits → Number.new x = none ∧ Number.tryNew x = none) := by
  rw [← isFinite_iff]
  unfold Number.new Number.tryNew
  by_cases h : x.isFinite <;> simp [h]

/-- A parsed number is finite. -/
theorem C39_parsed_finite (s n r) (h : parseNumber s = .ok n r) : FiniteBits n.val.bits := by
  rw [parseNumber_eq] at h
  cases hs : numSplit s with
  | none => rw [hs] at h; exact absurd h (by simp)
  | some x =>
    obtain ⟨t, r'⟩ := x
    rw [hs] at h
    dsimp only at h
    cases hn : Number.new (floatOf t) with
    | none => rw [hn] at h; exact absurd h (by simp [numRes])
    | some m =>
      rw [hn] at h
      simp only [numRes, Res.ok.injEq] at h
      rw [← h.1, ← isFinite_iff]
      unfold Number.new at hn
      by_cases hf : (floatOf t).isFinite = true
      · rw [if_pos hf] at hn
        have := Option.some.inj hn
        rw [← this]; exact hf
      · rw [if_neg hf] at hn
        exact absurd hn (by simp)

example : ¬ FiniteBits 0x7f800000 ∧ ¬ FiniteBits 0xffc00000 ∧ FiniteBits 0x7f7fffff := by
  unfold FiniteBits; decide

/-! ## C37: comparison -/

theorem absScaled_zero_iff (m : Nat) : F32.absScaled m = 0 ↔ m = 0 := by
  constructor
  · intro h
    refine F32.absScaled_inj (h.trans ?_)
    rfl
  · rintro rfl; rfl

/-- `Ord::cmp` follows the numeric value, on all finite numbers: it never panics and is the order of
the represented values. -/
theorem C37_cmp_follows_value (a b : Number) (ha : FiniteBits a.val.bits)
    (hb : FiniteBits b.val.bits) :
    Number.cmp a b = some (compare (bitsValue a.val.bits) (bitsValue b.val.bits)) := by
  rw [bitsValue_eq, bitsValue_eq]
  rw [← isFinite_iff] at ha hb
  unfold Number.cmp
  have fa : a.val.isNan = false ∧ a.val.isInfinite = false := by
    simp only [F32.isFinite, F32.isNan, F32.isInfinite, decide_eq_true_eq, decide_eq_false_iff_not]
      at *
    omega
  have fb : b.val.isNan = false ∧ b.val.isInfinite = false := by
    simp only [F32.isFinite, F32.isNan, F32.isInfinite, decide_eq_true_eq, decide_eq_false_iff_not]
      at *
    omega
  by_cases hz : a.val.isZero && b.val.isZero
  · simp only [hz, Bool.or_self, if_true]
    simp only [F32.isZero, Bool.and_eq_true, decide_eq_true_eq] at hz
    have h1 : a.val.scaled = 0 := by
      unfold F32.scaled; rw [hz.1]; split <;> rfl
    have h2 : b.val.scaled = 0 := by
      unfold F32.scaled; rw [hz.2]; split <;> rfl
    rw [h1, h2]; rfl
  · simp only [hz, fa, fb, F32.partialCmp]
    simp

/-- `==` (and `partial_cmp`) compare bit patterns: `==` holds exactly for identical patterns. -/
theorem C37_eq_is_identity (a b : Number) : Number.eq a b = true ↔ a = b := by
  unfold Number.eq F32.totalCmp
  rw [F32.totalKey_eq, F32.totalKey_eq]
  simp only [beq_iff_eq, Int.compare_eq_eq]
  constructor
  · intro h
    obtain ⟨⟨⟨a⟩⟩⟩ := a
    obtain ⟨⟨⟨b⟩⟩⟩ := b
    simp only [F32.neg, F32.mag, decide_eq_true_eq, Number.mk.injEq, F32.mk.injEq] at *
    rw [← BitVec.toNat_inj]
    simp only [BitVec.toNat_ofFin] at *
    split at h <;> split at h <;> omega
  · rintro rfl; rfl

/-- Equal numbers hash equally, for both notions of equality. -/
theorem C37_hash (a b : Number) :
    (Number.eq a b = true → a.hashWord = b.hashWord) ∧
    (FiniteBits a.val.bits → FiniteBits b.val.bits → Number.cmp a b = some .eq →
      a.hashWord = b.hashWord) := by
  refine ⟨fun h => by rw [(C37_eq_is_identity a b).mp h], fun ha hb h => ?_⟩
  rw [C37_cmp_follows_value a b ha hb, Option.some.injEq, Int.compare_eq_eq, bitsValue_eq, bitsValue_eq] at h
  unfold Number.hashWord
  simp only [Bool.or_self]
  unfold F32.scaled at h
  have hab : F32.absScaled a.val.mag = F32.absScaled b.val.mag := by
    split at h <;> split at h <;> omega
  have hm := F32.absScaled_inj hab
  have hz : a.val.isZero = b.val.isZero := by unfold F32.isZero; rw [hm]
  rw [hz]
  by_cases hz2 : b.val.isZero
  · simp [hz2]
  · have hpos : F32.absScaled b.val.mag ≠ 0 := by
      rw [Ne, absScaled_zero_iff]
      simpa [F32.isZero] using hz2
    have hn : a.val.neg = b.val.neg := by
      rw [hab] at h
      by_cases h1 : a.val.neg <;> by_cases h2 : b.val.neg <;> simp [h1, h2] at h ⊢ <;> omega
    simp only [hz2]
    unfold F32.neg F32.mag at *
    have h1 := a.val.bits.isLt
    have h2 := b.val.bits.isLt
    simp only [decide_eq_decide] at hn
    simp only [Bool.false_eq_true, if_false]
    omega

/-- Finite numbers hash equally only if `cmp` finds them equal: the word fed to the hasher loses
nothing but the sign of zero. -/
theorem C37_hash_separates (a b : Number) (ha : FiniteBits a.val.bits) (hb : FiniteBits b.val.bits) :
    a.hashWord = b.hashWord ↔ Number.cmp a b = some .eq := by
  refine ⟨fun h => ?_, (C37_hash a b).2 ha hb⟩
  rw [C37_cmp_follows_value a b ha hb, Option.some.injEq, Int.compare_eq_eq, bitsValue_eq, bitsValue_eq]
  unfold Number.hashWord at h
  simp only [Bool.or_self, F32.isZero, decide_eq_true_eq] at h
  have h0 : ∀ x : F32, x.mag = 0 → x.scaled = 0 := fun x hx => by
    unfold F32.scaled; rw [hx]; split <;> rfl
  have h1 : ∀ x : F32, x.bits.toNat = 0 → x.mag = 0 := fun x hx => by
    unfold F32.mag; omega
  split at h
  · rename_i hz
    split at h
    · rename_i hz'; rw [h0 _ hz, h0 _ hz']
    · rename_i hz'; exact absurd (h1 _ h.symm) hz'
  · rename_i hz
    split at h
    · rename_i hz'; exact absurd (h1 _ h) hz
    · have : a.val.bits = b.val.bits := BitVec.eq_of_toNat_eq h
      have : a.val = b.val := by
        obtain ⟨⟨a⟩⟩ := a; obtain ⟨⟨b⟩⟩ := b; simpa using this
      rw [this]

/-- Both numbers are zero. -/
def bothZero (a b : Number) : Prop := bitsValue a.val.bits = 0 ∧ bitsValue b.val.bits = 0

theorem bitsValue_zero (x : F32) : bitsValue x.bits = 0 ↔ x.mag = 0 := by
  rw [bitsValue_eq, ← absScaled_zero_iff]
  unfold F32.scaled
  split <;> omega

/-- Apart from the two zeros the three comparisons agree. What is missing for C37 is the pair of
zeros of different sign, see `C37_false`. -/
theorem C37_agree_partial (a b : Number) (ha : FiniteBits a.val.bits) (hb : FiniteBits b.val.bits)
    (hz : ¬ bothZero a b) :
    Number.partialCmp a b = Number.cmp a b ∧
    (Number.eq a b = true ↔ Number.cmp a b = some .eq) := by
  have key : F32.totalCmp a.val b.val = compare a.val.scaled b.val.scaled := by
    unfold F32.totalCmp
    rw [F32.totalKey_eq, F32.totalKey_eq]
    unfold F32.scaled
    have hmono := fun h => @F32.absScaled_lt a.val.mag b.val.mag h
    have hmono' := fun h => @F32.absScaled_lt b.val.mag a.val.mag h
    have hz' : ¬ (a.val.mag = 0 ∧ b.val.mag = 0) := by
      rwa [bothZero, bitsValue_zero, bitsValue_zero] at hz
    have za := absScaled_zero_iff a.val.mag
    have zb := absScaled_zero_iff b.val.mag
    have heq : a.val.mag = b.val.mag → F32.absScaled a.val.mag = F32.absScaled b.val.mag :=
      fun h => by rw [h]
    generalize F32.absScaled a.val.mag = A at *
    generalize F32.absScaled b.val.mag = B at *
    generalize a.val.mag = x at *
    generalize b.val.mag = y at *
    have ext : ∀ p q p' q' : Int, (p < q ↔ p' < q') → (p = q ↔ p' = q') →
        compare p q = compare p' q' := by
      intro p q p' q' h1 h2
      simp only [compare, compareOfLessAndEq, h1, h2]
    apply ext
    · by_cases h1 : a.val.neg <;> by_cases h2 : b.val.neg <;> simp only [h1, h2] <;>
        simp only [if_true, if_false, Bool.false_eq_true] <;> omega
    · by_cases h1 : a.val.neg <;> by_cases h2 : b.val.neg <;> simp only [h1, h2] <;>
        simp only [if_true, if_false, Bool.false_eq_true] <;> omega
  refine ⟨?_, ?_⟩
  · rw [C37_cmp_follows_value a b ha hb]
    unfold Number.partialCmp
    rw [key, bitsValue_eq, bitsValue_eq]
  · rw [C37_cmp_follows_value a b ha hb, bitsValue_eq, bitsValue_eq, ← key]
    unfold Number.eq
    simp

/-- C37 fails at the zeros: `0.0` and `-0.0` are `Ordering::Equal` for `Ord::cmp` but not `==`, and
`partial_cmp` disagrees with `cmp`. -/
theorem C37_false : ∃ a b : Number, FiniteBits a.val.bits ∧ FiniteBits b.val.bits ∧
    Number.cmp a b = some .eq ∧ Number.eq a b = false ∧
    Number.partialCmp a b ≠ Number.cmp a b :=
  ⟨⟨⟨0⟩⟩, ⟨⟨0x80000000⟩⟩, by unfold FiniteBits; decide, by unfold FiniteBits; decide, by decide, by decide, by decide⟩

example : Number.cmp ⟨⟨0xbf800000⟩⟩ ⟨⟨0x3f800000⟩⟩ = some .lt := by decide +kernel
example : ¬ bothZero ⟨⟨0⟩⟩ ⟨⟨0x3f800000⟩⟩ := by unfold bothZero; decide

/-! ## C38: rounding of literals -/

theorem numSplit_text (l : Literal10) {r : List Char} (hr : NumEnd r) :
    numSplit (l.text ++ r) = some (l.text, r) := by
  unfold Literal10.text
  split
  · have hs := takeWhile_digits l.int_digits (fun c r' h => (hr c r' h).1)
    have hf0 : fracSplit r = none := by
      cases r with
      | nil => rfl
      | cons c r' => simp [fracSplit, (hr c r' rfl).2]
    simp only [numSplit, hs.1, hs.2, l.int_ne, if_false, hf0]
  · rename_i hfne
    have hs := takeWhile_digits (r := '.' :: l.frac ++ r) l.int_digits (by
      intro c r' h; simp at h; rw [← h.1]; decide)
    have hs2 := takeWhile_digits l.frac_digits (fun c r' h => (hr c r' h).1)
    have hf0 : fracSplit ('.' :: l.frac ++ r) = some ('.' :: l.frac, r) := by
      simp [fracSplit, hs2.1, hs2.2, hfne]
    rw [List.append_assoc]
    simp only [numSplit, hs.1, hs.2, l.int_ne, if_false, hf0]

theorem litValue_text (l : Literal10) : litValue l.text = (l.num, l.frac.length) := by
  unfold Literal10.text Literal10.num
  split
  · rename_i h
    rw [litValue_int l.int_digits, h]; simp
  · exact litValue_frac l.int_digits

theorem floatOf_text (l : Literal10) : floatOf l.text = F32.ofDecimal l.num l.frac.length := by
  unfold floatOf
  rw [litValue_text]

/-- The value stored for a literal below the overflow bound. -/
theorem parseNumber_text (l : Literal10) {r : List Char} (hr : NumEnd r)
    (h : l.num < overflowBound * l.den) :
    parseNumber (l.text ++ r) = .ok ⟨F32.ofDecimal l.num l.frac.length⟩ r := by
  have hf := (F32.ofDecimal_finite l.num l.frac.length).mpr h
  rw [parseNumber_eq, numSplit_text l hr]
  dsimp only
  have : Number.new (floatOf l.text) = some ⟨F32.ofDecimal l.num l.frac.length⟩ := by
    rw [floatOf_text, Number.new, if_pos hf]
  rw [this, numRes]

theorem parseNumber_text_inv (l : Literal10) {r : List Char} (hr : NumEnd r) {n r'}
    (h : parseNumber (l.text ++ r) = .ok n r') :
    r' = r ∧ n.val = F32.ofDecimal l.num l.frac.length ∧ l.num < overflowBound * l.den := by
  by_cases hb : l.num < overflowBound * l.den
  · rw [parseNumber_text l hr hb] at h
    simp only [Res.ok.injEq] at h
    rw [← h.1, ← h.2]
    exact ⟨rfl, rfl, hb⟩
  · have hf : ¬ (F32.ofDecimal l.num l.frac.length).isFinite = true :=
      fun h => hb ((F32.ofDecimal_finite l.num l.frac.length).mp h)
    rw [parseNumber_eq, numSplit_text l hr] at h
    dsimp only at h
    have : Number.new (floatOf l.text) = none := by
      rw [floatOf_text, Number.new, if_neg hf]
    rw [this, numRes] at h
    exact absurd h (by simp)

theorem ofDecimal_roundMag {m k : Nat} (h : m < overflowBound * 10 ^ k) :
    (F32.ofDecimal m k).mag = F32.roundMag (m * 2 ^ 149) (10 ^ k) ∧
    (F32.ofDecimal m k).neg = false := by
  have hb : m * 2 ^ 149 < overflowBound * 2 ^ 149 * 10 ^ k := by
    rw [Nat.mul_right_comm]
    exact Nat.mul_lt_mul_of_pos_right h (Nat.two_pow_pos _)
  have hlt := F32.roundMag_lt (Nat.pow_pos (by decide)) hb
  have h31 : F32.infMag < 2 ^ 31 := by decide
  constructor
  · rw [F32.ofDecimal_mag]
    omega
  · unfold F32.neg F32.ofDecimal
    simp only [BitVec.toNat_ofNat, decide_eq_false_iff_not]
    generalize F32.roundMag (m * 2 ^ 149) (10 ^ k) = z at *
    omega

/-- Literals are read as the nearest `f32`, ties to even: the result is the non-negative pattern nearest
to the written value `num / den` (values are in units of `2^-149`). The rest of the text is left. -/
theorem C38_nearest (l : Literal10) (r : List Char) (hr : NumEnd r) (n r')
    (h : parseNumber (l.text ++ r) = .ok n r') :
    r' = r ∧ n.val.bits.msb = false ∧ NearestTo n.val.bits (l.num * 2 ^ 149) l.den := by
  obtain ⟨h1, h2, h3⟩ := parseNumber_text_inv l hr h
  refine ⟨h1, ?_, ?_⟩
  · rw [msb_eq, h2]; exact ofDecimal_pos _ _
  · have := ofDecimal_nearest h3
    rw [← h2, Int.natCast_mul] at this
    exact this

/-- Integers up to `2^24` are read exactly. -/
theorem C38_integers_exact (l : Literal10) (r : List Char) (hr : NumEnd r) (hf : l.frac = [])
    (hle : l.num ≤ 2 ^ 24) :
    ∃ n, parseNumber (l.text ++ r) = .ok n r ∧ bitsValue n.val.bits = l.num * 2 ^ 149 := by
  have hb : (2 : Nat) ^ 24 < overflowBound := by decide +kernel
  have hden : l.den = 1 := by unfold Literal10.den; rw [hf]; rfl
  have h3 : l.num < overflowBound * l.den := by
    rw [hden, Nat.mul_one]; exact Nat.lt_of_le_of_lt hle hb
  refine ⟨_, parseNumber_text l hr h3, ?_⟩
  obtain ⟨h4, h5⟩ := ofDecimal_roundMag (k := l.frac.length) h3
  have hx : (F32.ofDecimal l.num l.frac.length).scaled =
      (F32.absScaled (F32.ofDecimal l.num l.frac.length).mag : Int) := by
    unfold F32.scaled; rw [h5]; rfl
  show bitsValue (F32.ofDecimal l.num l.frac.length).bits = _
  rw [bitsValue_eq, hx, h4]
  have hk : (10 : Nat) ^ l.frac.length = 1 := hden
  rw [hk]
  -- the exact value is itself a magnitude
  have hex : ∃ y, F32.absScaled y = l.num * 2 ^ 149 := by
    generalize l.num = m at *
    by_cases h24 : m = 2 ^ 24
    · refine ⟨150 * 2 ^ 23 + 2 ^ 23, ?_⟩
      rw [F32.absScaled_compose (Or.inr (Nat.le_refl _)) (by decide), h24]
    · by_cases h0 : m = 0
      · exact ⟨0, by rw [h0]; rfl⟩
      · have hlt : m < 2 ^ 24 := by omega
        have hl : m.log2 < 24 := (Nat.log2_lt h0).mpr hlt
        have h1 := Nat.log2_self_le h0
        have h2 : m < 2 ^ (m.log2 + 1) := Nat.lt_log2_self
        generalize m.log2 = j at *
        have e1 : 2 ^ j * 2 ^ (23 - j) = 2 ^ 23 := by rw [← Nat.pow_add]; congr 1; omega
        have e2 : 2 ^ (j + 1) * 2 ^ (23 - j) = 2 ^ 24 := by rw [← Nat.pow_add]; congr 1; omega
        have a1 := Nat.mul_le_mul_right (2 ^ (23 - j)) h1
        have a2 := Nat.mul_le_mul_right (2 ^ (23 - j)) (Nat.le_of_lt h2)
        refine ⟨(126 + j) * 2 ^ 23 + m * 2 ^ (23 - j), ?_⟩
        rw [F32.absScaled_compose (by omega) (by omega), Nat.mul_assoc, ← Nat.pow_add]
        congr 2; omega
  obtain ⟨y, hy⟩ := hex
  have hn := (F32.roundMag_nearest (num := l.num * 2 ^ 149) (den := 1) (by decide) y).1
  have hz : F32.dist (F32.absScaled y * 1) (l.num * 2 ^ 149) = 0 := by
    rw [hy]; unfold F32.dist; omega
  rw [hz] at hn
  have hfin : F32.absScaled (F32.roundMag (l.num * 2 ^ 149) 1) = l.num * 2 ^ 149 := by
    unfold F32.dist at hn
    generalize l.num * 2 ^ 149 = N at *
    omega
  rw [hfin, Int.natCast_mul]; rfl

/-- A larger literal never yields a smaller number. -/
theorem C38_monotone (l l' : Literal10) (r1 r2 : List Char) (hr1 : NumEnd r1) (hr2 : NumEnd r2)
    (hle : l.num * l'.den ≤ l'.num * l.den) (n n' : Number) (x x')
    (h1 : parseNumber (l.text ++ r1) = .ok n x) (h2 : parseNumber (l'.text ++ r2) = .ok n' x') :
    bitsValue n.val.bits ≤ bitsValue n'.val.bits := by
  rw [bitsValue_eq, bitsValue_eq]
  obtain ⟨_, hv1, hb1⟩ := parseNumber_text_inv l hr1 h1
  obtain ⟨_, hv2, hb2⟩ := parseNumber_text_inv l' hr2 h2
  obtain ⟨m1, s1⟩ := ofDecimal_roundMag hb1
  obtain ⟨m2, s2⟩ := ofDecimal_roundMag hb2
  rw [← hv1] at m1 s1
  rw [← hv2] at m2 s2
  have hm : n.val.mag ≤ n'.val.mag := by
    rw [m1, m2]
    apply F32.roundMag_mono (Nat.pow_pos (by decide)) (Nat.pow_pos (by decide))
    rw [Nat.mul_right_comm, Nat.mul_right_comm l'.num]
    exact Nat.mul_le_mul_right _ hle
  have := F32.absScaled_le hm
  unfold F32.scaled
  rw [s1, s2]
  simpa using this

/-- Literals with the same decimal value are read as the same number: leading zeros and trailing
zeros of the fraction do not matter. -/
theorem C38_same_value (l l' : Literal10) (r1 r2 : List Char) (hr1 : NumEnd r1) (hr2 : NumEnd r2)
    (heq : l.num * l'.den = l'.num * l.den) (n : Number) (x)
    (h1 : parseNumber (l.text ++ r1) = .ok n x) : parseNumber (l'.text ++ r2) = .ok n r2 := by
  obtain ⟨_, hv1, hb1⟩ := parseNumber_text_inv l hr1 h1
  have hd1 := l.den_pos
  have hd2 := l'.den_pos
  have hb2 : l'.num < overflowBound * l'.den := by
    have := Nat.mul_lt_mul_of_pos_right hb1 hd2
    rw [heq, Nat.mul_right_comm] at this
    exact Nat.lt_of_mul_lt_mul_right this
  rw [parseNumber_text l' hr2 hb2]
  have e : F32.roundMag (l.num * 2 ^ 149) l.den = F32.roundMag (l'.num * 2 ^ 149) l'.den := by
    rw [← F32.roundMag_scale (c := l'.den) hd2, ← F32.roundMag_scale (num := l'.num * 2 ^ 149) (c := l.den) hd1,
      Nat.mul_comm l'.den, Nat.mul_right_comm, heq, Nat.mul_right_comm]
  have : F32.ofDecimal l'.num l'.frac.length = n.val := by
    rw [hv1]; unfold F32.ofDecimal
    have e' : F32.roundMag (l.num * 2 ^ 149) (10 ^ l.frac.length) =
      F32.roundMag (l'.num * 2 ^ 149) (10 ^ l'.frac.length) := e
    rw [e']
  rw [this]

/-- `16777217 = 2^24 + 1` is a tie and goes to the even neighbour `16777216`. -/
example : parseNumber c!"16777217)" = .ok ⟨⟨0x4b800000⟩⟩ c!")" := by decide +kernel
/-- A literal that satisfies the hypotheses: `0.10` and `.1` spelled with trailing zero. -/
example : parseNumber c!"0.10 " = parseNumber c!"0.1 " := by decide +kernel
example : ∃ l : Literal10, l.text = c!"0.10" ∧ l.num = 10 ∧ l.den = 100 :=
  ⟨⟨c!"0", c!"10", by decide, by decide, by decide⟩, rfl, rfl, rfl⟩

end Pddl
