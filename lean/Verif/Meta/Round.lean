import Verif.Meta.Num

/-!
# Meta-theory: order and rounding of `f32` values
-/

namespace Pddl
namespace F32

theorem xor_low (m : Nat) (h : m < 2 ^ 31) : (2 ^ 31 + m) ^^^ (2 ^ 31 - 1) = 2 ^ 31 + (2 ^ 31 - (m + 1)) := by
  apply Nat.eq_of_testBit_eq
  intro i
  rw [Nat.testBit_xor, Nat.testBit_two_pow_sub_one]
  by_cases hi : i < 31
  · rw [Nat.testBit_two_pow_add_gt hi, Nat.testBit_two_pow_add_gt hi, Nat.testBit_two_pow_sub_succ h]
    simp [hi]
  · by_cases h31 : i = 31
    · subst h31
      rw [Nat.testBit_two_pow_add_eq, Nat.testBit_two_pow_add_eq, Nat.testBit_lt_two_pow h,
        Nat.testBit_lt_two_pow (by omega)]
      simp
    · have : 2 ^ 32 ≤ 2 ^ i := Nat.pow_le_pow_right (by decide) (by omega)
      rw [Nat.testBit_lt_two_pow (by omega), Nat.testBit_lt_two_pow (by omega)]
      simp [hi]

theorem totalKey_eq (x : F32) : x.totalKey = if x.neg then -(x.mag : Int) - 1 else (x.mag : Int) := by
  obtain ⟨b⟩ := x
  have hb := b.isLt
  unfold totalKey neg mag
  dsimp only
  by_cases h : 2 ^ 31 ≤ b.toNat
  · have hm : b.msb = true := by rw [BitVec.msb_eq_decide]; simpa using h
    have e : (b ^^^ ((b.sshiftRight 31) >>> 1)).toNat = 2 ^ 31 + (2 ^ 31 - (b.toNat % 2 ^ 31 + 1)) := by
      have h1 : ((b.sshiftRight 31) >>> 1).toNat = 2 ^ 31 - 1 := by
        rw [BitVec.toNat_ushiftRight, BitVec.toNat_sshiftRight_of_msb_true hm]
        rw [Nat.shiftRight_eq_div_pow, Nat.shiftRight_eq_div_pow]
        omega
      rw [BitVec.toNat_xor, h1]
      have : b.toNat = 2 ^ 31 + b.toNat % 2 ^ 31 := by omega
      conv => lhs; rw [this]
      exact xor_low _ (Nat.mod_lt _ (by decide))
    rw [BitVec.toInt_eq_toNat_cond, e]
    simp only [h, decide_true, if_true]
    split <;> omega
  · have hm : b.msb = false := by rw [BitVec.msb_eq_decide]; simpa using h
    have e : (b ^^^ ((b.sshiftRight 31) >>> 1)).toNat = b.toNat := by
      have h1 : ((b.sshiftRight 31) >>> 1).toNat = 0 := by
        rw [BitVec.toNat_ushiftRight, BitVec.toNat_sshiftRight_of_msb_false hm]
        rw [Nat.shiftRight_eq_div_pow, Nat.shiftRight_eq_div_pow]
        omega
      rw [BitVec.toNat_xor, h1]; simp
    rw [BitVec.toInt_eq_toNat_cond, e]
    simp only [h, decide_false]
    split
    · simp; omega
    · omega

theorem absScaled_step (m : Nat) : absScaled m < absScaled (m + 1) := by
  unfold absScaled
  by_cases h : m + 1 < 2 ^ 23
  · rw [if_pos (by omega), if_pos h]; omega
  · rw [if_neg h]
    by_cases h2 : m < 2 ^ 23
    · have : m + 1 = 2 ^ 23 := by omega
      rw [if_pos h2, this]
      have : (2 ^ 23 + 2 ^ 23 % 2 ^ 23) * 2 ^ (2 ^ 23 / 2 ^ 23 - 1) = 2 ^ 23 := by decide
      omega
    · rw [if_neg h2]
      by_cases h3 : (m + 1) % 2 ^ 23 = 0
      · have e1 : (m + 1) / 2 ^ 23 - 1 = (m / 2 ^ 23 - 1) + 1 := by omega
        have e2 : m % 2 ^ 23 = 2 ^ 23 - 1 := by omega
        rw [h3, e1, e2]
        generalize m / 2 ^ 23 - 1 = t
        rw [Nat.pow_succ 2 t, Nat.mul_comm (2 ^ t) 2, ← Nat.mul_assoc]
        exact Nat.mul_lt_mul_of_pos_right (by decide) (Nat.two_pow_pos _)
      · have e1 : (m + 1) / 2 ^ 23 = m / 2 ^ 23 := by omega
        have e2 : (m + 1) % 2 ^ 23 = m % 2 ^ 23 + 1 := by omega
        rw [e1, e2]
        exact Nat.mul_lt_mul_of_pos_right (by omega) (Nat.two_pow_pos _)

theorem absScaled_lt {m m' : Nat} (h : m < m') : absScaled m < absScaled m' := by
  induction h with
  | refl => exact absScaled_step m
  | step _ ih => exact Nat.lt_trans ih (absScaled_step _)

theorem absScaled_inj {m m' : Nat} (h : absScaled m = absScaled m') : m = m' := by
  rcases Nat.lt_trichotomy m m' with h1 | h1 | h1
  · have := absScaled_lt h1; omega
  · exact h1
  · have := absScaled_lt h1; omega

theorem absScaled_le {m m' : Nat} (h : m ≤ m') : absScaled m ≤ absScaled m' := by
  rcases Nat.lt_or_eq_of_le h with h | h
  · exact Nat.le_of_lt (absScaled_lt h)
  · rw [h]; exact Nat.le_refl _

/-- Value of the magnitude that `roundMag` composes. -/
theorem absScaled_compose {e R : Nat} (h1 : e = 0 ∨ 2 ^ 23 ≤ R) (h2 : R ≤ 2 ^ 24) :
    absScaled (e * 2 ^ 23 + R) = R * 2 ^ e := by
  unfold absScaled
  by_cases hR : R < 2 ^ 23
  · have : e = 0 := by omega
    subst this
    rw [if_pos (by omega)]; omega
  · rw [if_neg (by omega)]
    by_cases h24 : R = 2 ^ 24
    · subst h24
      have e1 : (e * 2 ^ 23 + 2 ^ 24) / 2 ^ 23 - 1 = e + 1 := by omega
      have e2 : (e * 2 ^ 23 + 2 ^ 24) % 2 ^ 23 = 0 := by omega
      rw [e1, e2, Nat.pow_succ 2 e, Nat.mul_comm (2 ^ e) 2, ← Nat.mul_assoc]
    · have e1 : (e * 2 ^ 23 + R) / 2 ^ 23 - 1 = e := by omega
      have e2 : (e * 2 ^ 23 + R) % 2 ^ 23 = R - 2 ^ 23 := by omega
      have e3 : 2 ^ 23 + (R - 2 ^ 23) = R := by omega
      rw [e1, e2, e3]

/-- Values from `2^(23+e)` on are multiples of `2^e`. -/
theorem dvd_absScaled {e y : Nat} (h : 2 ^ (23 + e) ≤ absScaled y) : 2 ^ e ∣ absScaled y := by
  have e1 : absScaled (e * 2 ^ 23 + 2 ^ 23) = 2 ^ (23 + e) := by
    rw [absScaled_compose (Or.inr (Nat.le_refl _)) (by decide), Nat.pow_add]
  have hy : e * 2 ^ 23 + 2 ^ 23 ≤ y := by
    refine Classical.byContradiction fun hn => ?_
    have := absScaled_lt (Nat.lt_of_not_le hn)
    omega
  have h23 : ¬ y < 2 ^ 23 := by omega
  unfold absScaled
  rw [if_neg h23]
  have : y / 2 ^ 23 - 1 = (y / 2 ^ 23 - 1 - e) + e := by omega
  rw [this, Nat.pow_add, ← Nat.mul_assoc]
  exact Nat.dvd_mul_left _ _

/-- `|a - b|` for naturals. -/
def dist (a b : Nat) : Nat := (a - b) + (b - a)

/-- `roundDiv` gives the nearest multiple; on a tie the even one. -/
theorem roundDiv_nearest {num u : Nat} (hu : 0 < u) (Z : Nat) :
    dist (roundDiv num u * u) num ≤ dist (Z * u) num ∧
    (dist (roundDiv num u * u) num = dist (Z * u) num → Z ≠ roundDiv num u →
      roundDiv num u % 2 = 0) := by
  have hdm := Nat.div_add_mod num u
  have hmod := Nat.mod_lt num hu
  rw [Nat.mul_comm] at hdm
  have key : ∀ q r, q * u + r = num → r < u → (Z * u ≤ q * u ∧ (Z ≠ q → Z * u + u ≤ q * u)) ∨
      (Z * u = q * u + u ∧ Z = q + 1) ∨ q * u + u + u ≤ Z * u := by
    intro q r _ _
    rcases Nat.lt_trichotomy Z q with h | h | h
    · left
      have := Nat.mul_le_mul_right u (Nat.succ_le_of_lt h)
      rw [Nat.succ_mul] at this
      exact ⟨by omega, fun _ => this⟩
    · left; subst h; exact ⟨Nat.le_refl _, fun h => absurd rfl h⟩
    · rcases Nat.eq_or_lt_of_le (Nat.succ_le_of_lt h) with h | h
      · right; left; subst h; exact ⟨by rw [Nat.succ_mul], rfl⟩
      · right; right
        have := Nat.mul_le_mul_right u (Nat.succ_le_of_lt h)
        rw [Nat.succ_mul, Nat.succ_mul] at this
        exact this
  have k := key _ _ hdm hmod
  unfold roundDiv dist
  simp only
  generalize num / u = q at *
  generalize num % u = r at *
  have e1 : (q + 1) * u = q * u + u := by rw [Nat.succ_mul]
  split
  · rename_i h1
    refine ⟨by omega, fun h2 h3 => ?_⟩
    rcases k with k | k | k
    · have := k.2 h3; omega
    · omega
    · omega
  · split
    · rename_i h1 h2
      rw [e1]
      refine ⟨?_, fun h3 h4 => ?_⟩
      · rcases k with k | k | k <;> omega
      · rcases k with k | k | k
        · omega
        · exact absurd k.2 h4
        · omega
    · split
      · rename_i h1 h2 h3
        refine ⟨by omega, fun _ _ => h3⟩
      · rename_i h1 h2 h3
        rw [e1]
        refine ⟨?_, fun _ _ => by omega⟩
        rcases k with k | k | k <;> omega

/-- Facts about the exponent chosen by `roundMag`. -/
theorem roundMag_exp {num den : Nat} (hd : 0 < den) :
    let e := (num / den).log2 - 23
    (e = 0 ∨ 2 ^ (23 + e) * den ≤ num) ∧ num / (den * 2 ^ e) < 2 ^ 24 ∧
      (e = 0 ∨ 2 ^ 23 ≤ num / (den * 2 ^ e)) := by
  intro e
  have hlt : num / (den * 2 ^ e) < 2 ^ 24 := by
    rw [← Nat.div_div_eq_div_mul]
    apply Nat.div_lt_of_lt_mul
    rw [← Nat.pow_add]
    by_cases h0 : num / den = 0
    · rw [h0]; exact Nat.two_pow_pos _
    · apply (Nat.log2_lt h0).mp; omega
  by_cases he : e = 0
  · exact ⟨Or.inl he, hlt, Or.inl he⟩
  · have h0 : num / den ≠ 0 := by
      intro h0
      apply he
      show (num / den).log2 - 23 = 0
      rw [h0, Nat.log2_zero]
    have h1 : 2 ^ (23 + e) ≤ num / den := by
      have : 23 + e = (num / den).log2 := by omega
      rw [this]; exact Nat.log2_self_le h0
    refine ⟨Or.inr ((Nat.le_div_iff_mul_le hd).mp h1), hlt, Or.inr ?_⟩
    rw [← Nat.div_div_eq_div_mul, Nat.le_div_iff_mul_le (Nat.two_pow_pos _), ← Nat.pow_add]
    exact h1

/-- `roundMag` is the magnitude nearest to `num / den`; on a tie it is even. -/
theorem roundMag_nearest {num den : Nat} (hd : 0 < den) (y : Nat) :
    dist (absScaled (roundMag num den) * den) num ≤ dist (absScaled y * den) num ∧
    (dist (absScaled (roundMag num den) * den) num = dist (absScaled y * den) num →
      y ≠ roundMag num den → roundMag num den % 2 = 0) := by
  obtain ⟨h1, h2, h3⟩ := roundMag_exp (num := num) hd
  unfold roundMag
  simp only
  generalize (num / den).log2 - 23 = e at *
  have hu : 0 < den * 2 ^ e := Nat.mul_pos hd (Nat.two_pow_pos _)
  have hR1 := roundDiv_le num (den * 2 ^ e)
  have hR2 := le_roundDiv num (den * 2 ^ e)
  have hc : absScaled (e * 2 ^ 23 + roundDiv num (den * 2 ^ e)) = roundDiv num (den * 2 ^ e) * 2 ^ e :=
    absScaled_compose (by omega) (by omega)
  have hv : absScaled (e * 2 ^ 23 + roundDiv num (den * 2 ^ e)) * den =
      roundDiv num (den * 2 ^ e) * (den * 2 ^ e) := by
    rw [hc, Nat.mul_assoc, Nat.mul_comm (2 ^ e)]
  rw [hv]
  by_cases hy : 2 ^ e ∣ absScaled y
  · obtain ⟨Z, hZ⟩ := hy
    have hyv : absScaled y * den = Z * (den * 2 ^ e) := by
      rw [hZ, Nat.mul_comm (2 ^ e) Z, Nat.mul_assoc, Nat.mul_comm (2 ^ e)]
    have hn := roundDiv_nearest (num := num) hu Z
    rw [hyv]
    refine ⟨hn.1, fun h hne => ?_⟩
    have : Z ≠ roundDiv num (den * 2 ^ e) := by
      intro hZR
      apply hne
      apply absScaled_inj
      rw [hc, hZ, hZR, Nat.mul_comm]
    have := hn.2 h this
    omega
  · have hlt : absScaled y < 2 ^ (23 + e) := by
      refine Classical.byContradiction fun hn => hy (dvd_absScaled (Nat.le_of_not_lt hn))
    have he : e ≠ 0 := by rintro rfl; exact hy ⟨absScaled y, by simp⟩
    have h4 := h1.resolve_left he
    have hn := (roundDiv_nearest (num := num) hu (2 ^ 23)).1
    have e1 : 2 ^ 23 * (den * 2 ^ e) = 2 ^ (23 + e) * den := by
      rw [Nat.pow_add, Nat.mul_assoc, Nat.mul_comm den]
    rw [e1] at hn
    have h5 : absScaled y * den < 2 ^ (23 + e) * den := Nat.mul_lt_mul_of_pos_right hlt hd
    generalize dist (roundDiv num (den * 2 ^ e) * (den * 2 ^ e)) num = d at *
    generalize 2 ^ (23 + e) * den = a at *
    generalize absScaled y * den = b at *
    unfold dist at *
    omega

/-- Scaling numerator and denominator does not matter. -/
theorem roundMag_scale {num den c : Nat} (hc : 0 < c) :
    roundMag (num * c) (den * c) = roundMag num den := by
  unfold roundMag
  simp only [Nat.mul_div_mul_right _ _ hc]
  congr 1
  generalize (num / den).log2 - 23 = e
  have : den * c * 2 ^ e = (den * 2 ^ e) * c := Nat.mul_right_comm _ _ _
  rw [this]
  generalize den * 2 ^ e = d
  unfold roundDiv
  simp only [Nat.mul_div_mul_right _ _ hc, Nat.mul_mod_mul_right]
  have e1 : 2 * (num % d * c) < d * c ↔ 2 * (num % d) < d := by
    rw [← Nat.mul_assoc]; exact Nat.mul_lt_mul_right hc
  have e2 : d * c < 2 * (num % d * c) ↔ d < 2 * (num % d) := by
    rw [← Nat.mul_assoc]; exact Nat.mul_lt_mul_right hc
  simp only [e1, e2]

theorem dist_mul (a b c : Nat) : dist (a * c) (b * c) = dist a b * c := by
  unfold dist
  rw [Nat.add_mul, Nat.sub_mul, Nat.sub_mul]

/-- Rounding is monotone in the represented rational. -/
theorem roundMag_mono {n1 d1 n2 d2 : Nat} (h1 : 0 < d1) (h2 : 0 < d2) (h : n1 * d2 ≤ n2 * d1) :
    roundMag n1 d1 ≤ roundMag n2 d2 := by
  refine Classical.byContradiction fun hn => ?_
  have hlt := Nat.lt_of_not_le hn
  have hs := absScaled_lt hlt
  have a1 := Nat.mul_le_mul_right d2 (roundMag_nearest (num := n1) h1 (roundMag n2 d2)).1
  have a2 := Nat.mul_le_mul_right d1 (roundMag_nearest (num := n2) h2 (roundMag n1 d1)).1
  rw [← dist_mul, ← dist_mul] at a1 a2
  generalize hx1 : absScaled (roundMag n1 d1) = X1 at *
  generalize hx2 : absScaled (roundMag n2 d2) = X2 at *
  have hX : X2 * (d1 * d2) < X1 * (d1 * d2) := Nat.mul_lt_mul_of_pos_right hs (Nat.mul_pos h1 h2)
  rw [Nat.mul_assoc X1, Nat.mul_assoc X2] at a1
  rw [Nat.mul_assoc X1, Nat.mul_assoc X2, Nat.mul_comm d2 d1] at a2
  have heq : n1 * d2 = n2 * d1 := by
    generalize X1 * (d1 * d2) = A at *
    generalize X2 * (d1 * d2) = B at *
    generalize n1 * d2 = v1 at *
    generalize n2 * d1 = v2 at *
    unfold dist at *
    omega
  have e1 := roundMag_scale (num := n1) (den := d1) h2
  have e2 := roundMag_scale (num := n2) (den := d2) h1
  rw [heq, Nat.mul_comm d1 d2, e2] at e1
  omega

end F32
end Pddl
