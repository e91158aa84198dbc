import Verif.Convert
import Verif.Spec.Bits
import Verif.Meta.Round

/-!
# Meta-theory: bit patterns, and rounding to the nearest value
-/

namespace Pddl

theorem isFinite_iff (x : F32) : x.isFinite = true ↔ FiniteBits x.bits := by
  obtain ⟨b⟩ := x
  have hb := b.isLt
  unfold FiniteBits F32.isFinite F32.mag
  rw [decide_eq_true_iff]
  have e : (b.extractLsb' 23 8).toNat = b.toNat / 2 ^ 23 % 2 ^ 8 := by
    rw [BitVec.extractLsb'_toNat, Nat.shiftRight_eq_div_pow]
  have e2 : b.extractLsb' 23 8 = 255 ↔ b.toNat / 2 ^ 23 % 2 ^ 8 = 255 := by
    rw [← e, ← BitVec.toNat_inj]; rfl
  rw [Ne, e2]
  show b.toNat % 2 ^ 31 < 255 * 2 ^ 23 ↔ _
  omega

theorem msb_eq (x : F32) : x.bits.msb = x.neg := by
  unfold F32.neg
  rw [BitVec.msb_eq_decide]

theorem expField_eq (x : F32) : expField x.bits = x.mag / 2 ^ 23 := by
  unfold expField F32.mag
  rw [BitVec.extractLsb'_toNat, Nat.shiftRight_eq_div_pow]
  omega

theorem manField_eq (x : F32) : manField x.bits = x.mag % 2 ^ 23 := by
  unfold manField F32.mag
  rw [BitVec.extractLsb'_toNat, Nat.shiftRight_eq_div_pow]
  omega

theorem bitsUnits_eq (x : F32) : bitsUnits x.bits = F32.absScaled x.mag := by
  unfold bitsUnits fieldUnits F32.absScaled
  rw [expField_eq, manField_eq]
  by_cases h : x.mag < 2 ^ 23
  · rw [if_pos h, if_pos (by omega)]; omega
  · rw [if_neg h, if_neg (by omega)]

theorem bitsValue_eq (x : F32) : bitsValue x.bits = x.scaled := by
  unfold bitsValue signedVal F32.scaled
  rw [msb_eq, bitsUnits_eq]

/-- The pattern in terms of the functions of the model. -/
theorem nearestTo_iff (x : F32) (v : Int) (d : Nat) : NearestTo x.bits v d ↔
    x.isFinite = true ∧ ∀ y : F32, y.isFinite = true →
      (x.scaled * d - v).natAbs ≤ (y.scaled * d - v).natAbs ∧
      ((x.scaled * d - v).natAbs = (y.scaled * d - v).natAbs → y.scaled ≠ x.scaled →
        x.mag % 2 = 0) := by
  have hp : manField x.bits % 2 = x.mag % 2 := by rw [manField_eq]; omega
  unfold NearestTo
  rw [isFinite_iff, bitsValue_eq, hp]
  refine and_congr_right fun _ => ?_
  constructor
  · intro h y hy
    have := h y.bits ((isFinite_iff y).mp hy)
    rwa [bitsValue_eq] at this
  · intro h y hy
    have := h ⟨y⟩ ((isFinite_iff ⟨y⟩).mpr hy)
    rwa [← bitsValue_eq ⟨y⟩] at this

theorem F32.ext_mag {x y : F32} (h1 : x.neg = y.neg) (h2 : x.mag = y.mag) : x = y := by
  obtain ⟨a⟩ := x
  obtain ⟨b⟩ := y
  have ha := a.isLt
  have hb := b.isLt
  simp only [F32.neg, F32.mag, decide_eq_decide] at h1 h2
  congr 1
  rw [← BitVec.toNat_inj]
  omega

theorem nearest_le {x y : F32} {v : Int} {d : Nat} (hd : 0 < d) (hx : x.neg = false)
    (hy : y.neg = false) (h1 : NearestTo x.bits v d) (h2 : NearestTo y.bits v d) : x.mag ≤ y.mag := by
  refine Classical.byContradiction fun hn => ?_
  have hlt : y.mag < x.mag := by omega
  rw [nearestTo_iff] at h1 h2
  have sx : x.scaled = (F32.absScaled x.mag : Int) := by unfold F32.scaled; rw [hx]; rfl
  have sy : y.scaled = (F32.absScaled y.mag : Int) := by unfold F32.scaled; rw [hy]; rfl
  have a1 := h1.2 y h2.1
  have a2 := h2.2 x h1.1
  have hs := F32.absScaled_lt hlt
  have hpx := a1.2 (by omega) (by rw [sx, sy]; omega)
  have hpy := a2.2 (by omega) (by rw [sx, sy]; omega)
  have hxf : x.mag < F32.infMag := by simpa [F32.isFinite] using h1.1
  have hi : F32.infMag < 2 ^ 31 := by decide
  let z : F32 := ⟨BitVec.ofNat 32 (y.mag + 1)⟩
  have hz : z.mag = y.mag + 1 := by
    show (BitVec.ofNat 32 (y.mag + 1)).toNat % 2 ^ 31 = _
    rw [BitVec.toNat_ofNat]
    omega
  have hzn : z.neg = false := by
    show decide (2 ^ 31 ≤ (BitVec.ofNat 32 (y.mag + 1)).toNat) = false
    rw [BitVec.toNat_ofNat, decide_eq_false_iff_not]
    omega
  have hzf : z.isFinite = true := by
    unfold F32.isFinite
    rw [hz, decide_eq_true_iff]
    omega
  have sz : z.scaled = (F32.absScaled z.mag : Int) := by unfold F32.scaled; rw [hzn]; rfl
  have a3 := (h1.2 z hzf).1
  have l1 := F32.absScaled_lt (show y.mag < z.mag by omega)
  have l2 := F32.absScaled_lt (show z.mag < x.mag by omega)
  rw [sx, sy] at a1 a2
  rw [sx, sz] at a3
  have d1 := Nat.mul_lt_mul_of_pos_right l1 hd
  have d2 := Nat.mul_lt_mul_of_pos_right l2 hd
  have a1 := a1.1
  have a2 := a2.1
  simp only [← Int.natCast_mul] at a1 a2 a3
  omega

/-- A non-negative nearest value is unique. -/
theorem NearestTo.unique {x y : F32} {v : Int} {d : Nat} (hd : 0 < d) (hx : x.neg = false)
    (hy : y.neg = false) (h1 : NearestTo x.bits v d) (h2 : NearestTo y.bits v d) : x = y :=
  F32.ext_mag (hx.trans hy.symm)
    (Nat.le_antisymm (nearest_le hd hx hy h1 h2) (nearest_le hd hy hx h2 h1))

namespace F32

theorem signed_mag (neg : Bool) {m : Nat} (h : m ≤ infMag + 2 ^ 22) : (signed neg m).mag = m := by
  have : infMag + 2 ^ 22 < 2 ^ 31 := by decide
  unfold signed mag
  simp only [BitVec.toNat_ofNat]
  cases neg <;> simp only [if_true, if_false, Bool.false_eq_true] <;> omega

theorem signed_neg (neg : Bool) {m : Nat} (h : m ≤ infMag + 2 ^ 22) : (signed neg m).neg = neg := by
  have : infMag + 2 ^ 22 < 2 ^ 31 := by decide
  unfold signed F32.neg
  simp only [BitVec.toNat_ofNat]
  cases neg <;> simp only [if_true, if_false, Bool.false_eq_true, decide_eq_true_eq,
    decide_eq_false_iff_not] <;> omega

theorem signed_parity (neg : Bool) {m : Nat} :
    (signed neg m).bits.toNat % 2 = m % 2 := by
  unfold signed
  simp only [BitVec.toNat_ofNat]
  cases neg <;> simp only [if_true, if_false, Bool.false_eq_true] <;> omega

theorem nearest_mag (neg : Bool) (num den : Nat) :
    (nearest neg num den).mag = min (roundMag num den) infMag :=
  signed_mag neg (Nat.le_trans (Nat.min_le_right _ _) (by decide))

theorem nearest_neg (neg : Bool) (num den : Nat) : (nearest neg num den).neg = neg :=
  signed_neg neg (Nat.le_trans (Nat.min_le_right _ _) (by decide))

/-- Rounding overflows exactly from the overflow bound on. -/
theorem nearest_finite (neg : Bool) {num den : Nat} (hd : 0 < den) :
    (nearest neg num den).isFinite = true ↔ num < overflowBound * 2 ^ 149 * den := by
  unfold isFinite
  rw [nearest_mag, decide_eq_true_iff]
  constructor
  · intro h
    refine Classical.byContradiction fun hn => ?_
    have := le_roundMag hd (Nat.le_of_not_lt hn)
    exact absurd h (Nat.not_lt.mpr (Nat.le_min.mpr ⟨this, Nat.le_refl _⟩))
  · intro h
    exact Nat.lt_of_le_of_lt (Nat.min_le_left _ _) (roundMag_lt hd h)

theorem scaled_eq (x : F32) : x.scaled = signedVal x.neg (absScaled x.mag) := rfl

theorem nearest_spec (neg : Bool) {N d : Nat} (hd : 0 < d) (h : N < overflowBound * 2 ^ 149 * d) :
    NearestTo (nearest neg N d).bits (signedVal neg N) d := by
  have hfin := (nearest_finite neg hd).mpr h
  refine (nearestTo_iff _ _ _).mpr ⟨hfin, fun y _ => ?_⟩
  have hlt := roundMag_lt hd h
  have hm : (nearest neg N d).mag = roundMag N d := by rw [nearest_mag]; omega
  have hs := nearest_neg neg N d
  have hn := roundMag_nearest (num := N) hd y.mag
  have hn0 := (roundMag_nearest (num := N) hd 0).1
  have h00 : absScaled 0 = 0 := rfl
  rw [h00, Nat.zero_mul] at hn0
  rw [← hm] at hn hn0
  have hx : (nearest neg N d).scaled = signedVal neg (absScaled (nearest neg N d).mag) := by
    rw [scaled_eq, hs]
  rw [hx]
  generalize nearest neg N d = x at *
  have hy : y.scaled = (absScaled y.mag : Int) ∨ y.scaled = -(absScaled y.mag : Int) := by
    unfold F32.scaled; split
    · exact Or.inr rfl
    · exact Or.inl rfl
  have hsame : y.mag = x.mag → absScaled y.mag = absScaled x.mag := fun h => by rw [h]
  clear hm hlt h h00 hfin hs hx
  have hu : ∀ a : Nat, (a : Int) * (d : Int) = ((a * d : Nat) : Int) :=
    fun a => (Int.natCast_mul a d).symm
  generalize absScaled x.mag = X at *
  generalize absScaled y.mag = Y at *
  have hneg : ∀ Y : Nat, -(Y : Int) * (d : Int) = -((Y * d : Nat) : Int) := fun Y => by
    rw [Int.neg_mul, hu]
  have hYpos : Y * d = 0 → Y = 0 := fun h => by
    rcases Nat.mul_eq_zero.mp h with h | h
    · exact h
    · omega
  have hXpos : X * d = 0 → X = 0 := fun h => by
    rcases Nat.mul_eq_zero.mp h with h | h
    · exact h
    · omega
  have hXX : Y = X → Y * d = X * d := fun h => by rw [h]
  unfold F32.dist at hn hn0
  obtain ⟨hn1, hn2⟩ := hn
  have hdiff : y.mag ≠ x.mag ∨ y.mag = x.mag := by omega
  cases neg
  · simp only [signedVal, if_false, Bool.false_eq_true]
    rw [hu]
    rcases hy with hy | hy
    · rw [hy, hu]
      generalize X * d = P at *
      generalize Y * d = Q at *
      refine ⟨by omega, fun h1 h2 => hn2 (by omega) ?_⟩
      intro h
      have := hsame h
      omega
    · rw [hy, hneg]
      generalize X * d = P at *
      generalize Y * d = Q at *
      refine ⟨by omega, fun h1 h2 => ?_⟩
      rcases hdiff with h | h
      · exact hn2 (by omega) h
      · have := hsame h
        have h0 := hXX this
        have : Q = 0 ∨ N = 0 := by omega
        have : Q = 0 := by omega
        have := hYpos this
        omega
  · simp only [signedVal, if_true]
    rw [hneg]
    rcases hy with hy | hy
    · rw [hy, hu]
      generalize X * d = P at *
      generalize Y * d = Q at *
      refine ⟨by omega, fun h1 h2 => ?_⟩
      rcases hdiff with h | h
      · exact hn2 (by omega) h
      · have := hsame h
        have h0 := hXX this
        have : Q = 0 ∨ N = 0 := by omega
        have : Q = 0 := by omega
        have := hYpos this
        omega
    · rw [hy, hneg]
      generalize X * d = P at *
      generalize Y * d = Q at *
      refine ⟨by omega, fun h1 h2 => hn2 (by omega) ?_⟩
      intro h
      have := hsame h
      omega

/-- A representable value is not changed. -/
theorem roundMag_exact {N d y : Nat} (hd : 0 < d) (h : absScaled y * d = N) : roundMag N d = y := by
  have hn := (roundMag_nearest (num := N) hd y).1
  have hz : dist (absScaled y * d) N = 0 := by rw [h]; unfold dist; omega
  rw [hz] at hn
  have : absScaled (roundMag N d) * d = absScaled y * d := by
    rw [h]
    unfold dist at hn
    omega
  exact absScaled_inj (Nat.eq_of_mul_eq_mul_right hd this)

/-- Integers of at most 24 bits are representable. -/
theorem exists_absScaled {m : Nat} (h : m ≤ 2 ^ 24) : ∃ y, absScaled y = m * 2 ^ 149 := by
  by_cases h24 : m = 2 ^ 24
  · refine ⟨150 * 2 ^ 23 + 2 ^ 23, ?_⟩
    rw [absScaled_compose (Or.inr (Nat.le_refl _)) (by decide), h24]
  · by_cases h0 : m = 0
    · exact ⟨0, by rw [h0]; rfl⟩
    · have hlt : m < 2 ^ 24 := by omega
      have hl : m.log2 < 24 := (Nat.log2_lt h0).mpr hlt
      have h1 := Nat.log2_self_le h0
      have h2 : m < 2 ^ (m.log2 + 1) := Nat.lt_log2_self
      generalize m.log2 = j at *
      have e1 : 2 ^ j * 2 ^ (23 - j) = 2 ^ 23 := by rw [← Nat.pow_add]; congr 1; omega
      have e2 : 2 ^ (j + 1) * 2 ^ (23 - j) = 2 ^ 24 := by rw [← Nat.pow_add]; congr 1; omega
      have a1 := Nat.mul_le_mul_right (2 ^ (23 - j)) h1
      have a2 := Nat.mul_le_mul_right (2 ^ (23 - j)) (Nat.le_of_lt h2)
      refine ⟨(126 + j) * 2 ^ 23 + m * 2 ^ (23 - j), ?_⟩
      rw [absScaled_compose (by omega) (by omega), Nat.mul_assoc, ← Nat.pow_add]
      congr 2; omega

end F32

theorem ofDecimal_eq (m k : Nat) : F32.ofDecimal m k = F32.nearest false (m * 2 ^ 149) (10 ^ k) := by
  unfold F32.ofDecimal F32.nearest F32.signed
  rw [if_neg (by decide), Nat.zero_add]

theorem ofDecimal_pos (m k : Nat) : (F32.ofDecimal m k).neg = false := by
  rw [ofDecimal_eq]; exact F32.nearest_neg _ _ _

/-- The value of a decimal fraction below the overflow bound is the nearest one. -/
theorem ofDecimal_nearest {m k : Nat} (h : m < overflowBound * 10 ^ k) :
    NearestTo (F32.ofDecimal m k).bits ((m * 2 ^ 149 : Nat) : Int) (10 ^ k) := by
  rw [ofDecimal_eq]
  refine F32.nearest_spec false (Nat.pow_pos (by decide)) ?_
  rw [Nat.mul_right_comm]
  exact Nat.mul_lt_mul_of_pos_right h (Nat.two_pow_pos _)

/-- The nearest non-negative value is the one `f32::from_str` gives. -/
theorem eq_ofDecimal {x : F32} {m k : Nat} (h : m < overflowBound * 10 ^ k) (hx : x.neg = false)
    (hn : NearestTo x.bits ((m * 2 ^ 149 : Nat) : Int) (10 ^ k)) : x = F32.ofDecimal m k :=
  hn.unique (Nat.pow_pos (by decide)) hx (ofDecimal_pos m k) (ofDecimal_nearest h)

end Pddl
