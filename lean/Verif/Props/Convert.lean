import Verif.Props.Number

/-!
# Properties: conversions to `Number` (C53, C54)
-/

namespace Pddl

theorem Number.new_finite {x : F32} (h : x.isFinite = true) : Number.new x = some ⟨x⟩ := by
  rw [Number.new, if_pos h]

theorem Number.new_none {x : F32} : Number.new x = none ↔ ¬ x.isFinite = true := by
  unfold Number.new
  split
  · simp [*]
  · simp [*]

/-! ## C53: integers -/

/-- The range of all integer types with a conversion: `i8`, `u8`, `i16`, `u16`, `i32`, `u32`. -/
def IntRange (z : Int) : Prop := -(2 ^ 31) ≤ z ∧ z < 2 ^ 32

theorem IntRange.bound {z : Int} (h : IntRange z) : z.natAbs * 2 ^ 149 < overflowBound * 2 ^ 149 * 1 := by
  have h1 : z.natAbs < 2 ^ 33 := by unfold IntRange at h; omega
  have h2 : 2 ^ 33 * 2 ^ 149 < overflowBound * 2 ^ 149 * 1 := by decide +kernel
  exact Nat.lt_of_le_of_lt (Nat.mul_le_mul_right _ (Nat.le_of_lt h1)) h2

theorem signedVal_int (z : Int) :
    signedVal (decide (z < 0)) (z.natAbs * 2 ^ 149) = z * 2 ^ 149 := by
  unfold signedVal
  by_cases h : z < 0
  · simp only [h, decide_true, if_true, Int.natCast_mul]
    rw [← Int.neg_mul]
    congr 1
    omega
  · simp only [h, decide_false, Bool.false_eq_true, if_false, Int.natCast_mul]
    congr 1
    omega

/-- Converting an integer never panics and gives the nearest `f32`. -/
theorem C53_nearest (z : Int) (hz : IntRange z) :
    ∃ n, Number.fromInt z = some n ∧ NearestTo n.val.bits (z * 2 ^ 149) 1 := by
  have hb := hz.bound
  have hs := F32.nearest_spec (decide (z < 0)) (by decide) hb
  rw [signedVal_int] at hs
  exact ⟨⟨F32.ofInt z⟩, Number.new_finite ((isFinite_iff _).mpr hs.1), hs⟩

/-- Integers of at most 24 bits are converted exactly. -/
theorem C53_exact (z : Int) (hz : z.natAbs ≤ 2 ^ 24) :
    ∃ n, Number.fromInt z = some n ∧ bitsValue n.val.bits = z * 2 ^ 149 := by
  have hr : IntRange z := by unfold IntRange; omega
  obtain ⟨y, hy⟩ := F32.exists_absScaled hz
  have hround := F32.roundMag_exact (d := 1) (by decide) ((Nat.mul_one _).trans hy)
  have hlt := F32.roundMag_lt (by decide) hr.bound
  refine ⟨⟨F32.ofInt z⟩, Number.new_finite ?_, ?_⟩
  · exact (F32.nearest_finite _ (by decide)).mpr hr.bound
  · show bitsValue (F32.ofInt z).bits = _
    rw [bitsValue_eq]
    have hm : (F32.ofInt z).mag = y := by
      unfold F32.ofInt
      rw [F32.nearest_mag, hround]
      rw [hround] at hlt
      omega
    have hn : (F32.ofInt z).neg = decide (z < 0) := F32.nearest_neg _ _ _
    rw [F32.scaled_eq, hm, hn, hy, signedVal_int]

/-- The order of integers is kept, up to rounding. -/
theorem C53_monotone (a b : Int) (ha : IntRange a) (hb : IntRange b) (hab : a ≤ b) (x y : Number)
    (hx : Number.fromInt a = some x) (hy : Number.fromInt b = some y) :
    bitsValue x.val.bits ≤ bitsValue y.val.bits := by
  rw [bitsValue_eq, bitsValue_eq]
  have val : ∀ z, IntRange z → ∀ n, Number.fromInt z = some n → n.val = F32.ofInt z := by
    intro z hz n hn
    have := Number.new_finite ((F32.nearest_finite (decide (z < 0)) (by decide)).mpr hz.bound)
    rw [Number.fromInt, F32.ofInt, this] at hn
    cases hn
    rfl
  rw [val a ha x hx, val b hb y hy]
  have hm : ∀ z, IntRange z → (F32.ofInt z).mag = F32.roundMag (z.natAbs * 2 ^ 149) 1 := by
    intro z hz
    unfold F32.ofInt
    rw [F32.nearest_mag]
    have := F32.roundMag_lt (by decide) hz.bound
    omega
  have hn : ∀ z, (F32.ofInt z).neg = decide (z < 0) := fun z => F32.nearest_neg _ _ _
  rw [F32.scaled_eq, F32.scaled_eq, hm a ha, hm b hb, hn, hn]
  have mono : ∀ m n : Nat, m ≤ n → F32.absScaled (F32.roundMag (m * 2 ^ 149) 1) ≤
      F32.absScaled (F32.roundMag (n * 2 ^ 149) 1) := fun m n h =>
    F32.absScaled_le (F32.roundMag_mono (by decide) (by decide)
      (by rw [Nat.mul_one, Nat.mul_one]; exact Nat.mul_le_mul_right _ h))
  unfold signedVal
  by_cases h1 : a < 0 <;> by_cases h2 : b < 0
  · have := mono b.natAbs a.natAbs (by omega)
    simp only [h1, h2, decide_true, if_true]
    omega
  · simp only [h1, h2, decide_true, decide_false, if_true, Bool.false_eq_true, if_false]
    omega
  · omega
  · have := mono a.natAbs b.natAbs (by omega)
    simp only [h1, h2, decide_false, Bool.false_eq_true, if_false]
    omega

/-- Comparing a number that came from an integer with an integer: faithful for at most 24 bits. -/
theorem C53_eq_24bit (a b : Int) (ha : a.natAbs ≤ 2 ^ 24) (hb : b.natAbs ≤ 2 ^ 24) (x : Number)
    (hx : Number.fromInt a = some x) : x.eqInt b = some (decide (a = b)) := by
  obtain ⟨n, h1, h2⟩ := C53_exact a ha
  obtain ⟨m, h3, h4⟩ := C53_exact b hb
  rw [hx] at h1
  cases h1
  rw [Number.eqInt, h3, Option.map_some]
  congr 1
  by_cases h : a = b
  · subst h
    rw [hx] at h3
    cases h3
    simp [(C37_eq_is_identity x x).mpr rfl]
  · simp only [h, decide_false]
    refine Bool.eq_false_iff.mpr fun he => h ?_
    have := (C37_eq_is_identity x m).mp he
    subst this
    rw [h2] at h4
    omega

/-- Beyond 24 bits different integers compare equal. -/
theorem C53_beyond : ∃ (a b : Int) (x : Number), IntRange a ∧ IntRange b ∧ a ≠ b ∧
    Number.fromInt a = some x ∧ x.eqInt b = some true :=
  ⟨16777217, 16777216, ⟨⟨0x4b800000⟩⟩, by unfold IntRange; omega, by unfold IntRange; omega,
    by decide, by decide +kernel, by decide +kernel⟩

example : Number.fromInt (-3) = some ⟨⟨0xc0400000⟩⟩ := by decide +kernel
example : (⟨⟨0x42280000⟩⟩ : Number).eqInt 42 = some true := by decide +kernel

/-! ## C54: `f32` and `f64` -/

/-- `Number::from` on an `f32` panics exactly on infinities and NaNs. -/
theorem C54_f32 (x : F32) :
    (FiniteBits x.bits → Number.fromF32 x = some ⟨x⟩) ∧
    (¬ FiniteBits x.bits → Number.fromF32 x = none) := by
  constructor
  · intro h
    exact Number.new_finite ((isFinite_iff x).mpr h)
  · intro h
    exact Number.new_none.mpr fun hf => h ((isFinite_iff x).mp hf)

theorem mag64_lt (x : F64) : FiniteBits64 x.bits ↔ x.mag < F64.infMag := by
  obtain ⟨b⟩ := x
  have hb := b.isLt
  unfold FiniteBits64 F64.mag F64.infMag
  have h : b.extractLsb' 52 11 = 2047 ↔ b.toNat / 2 ^ 52 % 2 ^ 11 = 2047 := by
    rw [← BitVec.toNat_inj, BitVec.extractLsb'_toNat, Nat.shiftRight_eq_div_pow]
    rfl
  rw [Ne, h]
  dsimp only
  generalize b.toNat = n at *
  omega

theorem bitsUnits64_eq (x : F64) : bitsUnits64 x.bits = F64.absScaled x.mag := by
  have e : (x.bits.extractLsb' 52 11).toNat = x.mag / 2 ^ 52 := by
    unfold F64.mag
    rw [BitVec.extractLsb'_toNat, Nat.shiftRight_eq_div_pow]
    omega
  have m : (x.bits.extractLsb' 0 52).toNat = x.mag % 2 ^ 52 := by
    unfold F64.mag
    rw [BitVec.extractLsb'_toNat, Nat.shiftRight_eq_div_pow]
    omega
  unfold bitsUnits64 fieldUnits F64.absScaled
  rw [e, m]
  by_cases h : x.mag < 2 ^ 52
  · rw [if_pos h, if_pos (by omega)]; omega
  · rw [if_neg h, if_neg (by omega)]

theorem msb64_eq (x : F64) : x.bits.msb = x.neg := by
  unfold F64.neg
  rw [BitVec.msb_eq_decide]

theorem toF32_finite {x : F64} (h : FiniteBits64 x.bits) :
    x.toF32 = .nearest x.neg (F64.absScaled x.mag) (2 ^ 925) := by
  have := (mag64_lt x).mp h
  unfold F64.toF32
  rw [if_neg (by omega), if_neg (by omega)]

/-- `Number::from` on a finite `f64` below the overflow bound gives the nearest `f32`. -/
theorem C54_f64_nearest (x : F64) (hf : FiniteBits64 x.bits)
    (hb : bitsUnits64 x.bits < overflowBound * 2 ^ 1074) :
    ∃ n, Number.fromF64 x = some n ∧ NearestTo n.val.bits (bitsValue64 x.bits) (2 ^ 925) := by
  unfold bitsValue64
  rw [bitsUnits64_eq] at hb
  rw [msb64_eq, bitsUnits64_eq]
  have e : overflowBound * 2 ^ 149 * 2 ^ 925 = overflowBound * 2 ^ 1074 := by
    rw [Nat.mul_assoc, ← Nat.pow_add]
  have hs := F32.nearest_spec x.neg (Nat.two_pow_pos 925) (by rw [e]; exact hb)
  rw [← toF32_finite hf] at hs
  exact ⟨⟨x.toF32⟩, Number.new_finite ((isFinite_iff _).mpr hs.1), hs⟩

/-- It panics on everything else: NaN, infinities, and finite doubles that round to infinity. -/
theorem C54_f64_panic (x : F64)
    (h : ¬ FiniteBits64 x.bits ∨ overflowBound * 2 ^ 1074 ≤ bitsUnits64 x.bits) :
    Number.fromF64 x = none := by
  rw [bitsUnits64_eq] at h
  have e : overflowBound * 2 ^ 149 * 2 ^ 925 = overflowBound * 2 ^ 1074 := by
    rw [Nat.mul_assoc, ← Nat.pow_add]
  rw [Number.fromF64, Number.new_none]
  by_cases hf : FiniteBits64 x.bits
  · have hb : overflowBound * 2 ^ 1074 ≤ F64.absScaled x.mag := by
      rcases h with h | h
      · exact absurd hf h
      · exact h
    rw [toF32_finite hf, F32.nearest_finite _ (Nat.two_pow_pos 925), e]
    exact Nat.not_lt.mpr hb
  · have h1 : ¬ x.mag < F64.infMag := fun h => hf ((mag64_lt x).mpr h)
    unfold F64.toF32 F32.isFinite
    rw [decide_eq_true_iff]
    by_cases h2 : F64.infMag < x.mag
    · rw [if_pos h2, F32.signed_mag _ (by decide)]
      decide
    · rw [if_neg h2, if_pos (by omega), F32.signed_mag _ (by decide)]
      decide

/-- So it is not total on finite doubles: `1e39` panics. -/
theorem C54_finite_double : ∃ x : F64, FiniteBits64 x.bits ∧ Number.fromF64 x = none :=
  ⟨⟨0x48078287f49c4a1d⟩, by unfold FiniteBits64; decide, by decide +kernel⟩

/-- `0.1` as a double becomes the `f32` next to one tenth. -/
example : Number.fromF64 ⟨0x3fb999999999999a⟩ = some ⟨⟨0x3dcccccd⟩⟩ := by decide +kernel

end Pddl
