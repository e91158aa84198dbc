import Verif.Meta.Good

/-!
# Meta-theory 2: when a number literal overflows
-/

namespace Pddl
namespace F32

theorem roundDiv_le (num den : Nat) : roundDiv num den ≤ num / den + 1 := by
  unfold roundDiv
  simp only
  split
  · omega
  · split
    · omega
    · split <;> omega

theorem le_roundDiv (num den : Nat) : num / den ≤ roundDiv num den := by
  unfold roundDiv
  simp only
  split
  · omega
  · split
    · omega
    · split <;> omega

theorem roundDiv_lt_top {num D : Nat} (hb : 2 * num < (2 ^ 25 - 1) * D) :
    roundDiv num D < 2 ^ 24 := by
  have hdm := Nat.div_add_mod num D
  unfold roundDiv
  simp only
  generalize num / D = q at *
  generalize num % D = r at *
  by_cases hqq : q < 2 ^ 24 - 1
  · split
    · omega
    · split
      · omega
      · split <;> omega
  · have hq1 : q = 2 ^ 24 - 1 := by
      refine Classical.byContradiction fun hne => ?_
      have hq2 : 2 ^ 24 ≤ q := by omega
      have := Nat.mul_le_mul_left D hq2
      omega
    subst hq1
    rw [if_pos]
    · omega
    · have e1 : D * (2 ^ 24 - 1) = (2 ^ 24 - 1) * D := Nat.mul_comm _ _
      omega

theorem top_le_roundDiv {num D : Nat} (hD : 0 < D) (hb : (2 ^ 25 - 1) * D ≤ 2 * num) :
    2 ^ 24 ≤ roundDiv num D := by
  have hdm := Nat.div_add_mod num D
  have hmod := Nat.mod_lt num hD
  unfold roundDiv
  simp only
  generalize num / D = q at *
  generalize num % D = r at *
  by_cases hq24 : 2 ^ 24 ≤ q
  · split
    · omega
    · split
      · omega
      · split <;> omega
  · have hq1 : q = 2 ^ 24 - 1 := by
      refine Classical.byContradiction fun hne => ?_
      have hq2 : q + 2 ≤ 2 ^ 24 := by omega
      have := Nat.mul_le_mul_left D hq2
      rw [Nat.mul_add] at this
      omega
    subst hq1
    have e1 : D * (2 ^ 24 - 1) = (2 ^ 24 - 1) * D := Nat.mul_comm _ _
    rw [if_neg (by omega)]
    split
    · omega
    · rw [if_neg (by decide)]; omega

theorem bound_eq (den : Nat) :
    overflowBound * 2 ^ 149 * den * 2 = (2 ^ 25 - 1) * (den * 2 ^ 253) := by
  have h : overflowBound * 2 ^ 149 * 2 = (2 ^ 25 - 1) * 2 ^ 253 := by decide +kernel
  rw [Nat.mul_right_comm, h, Nat.mul_comm den, Nat.mul_assoc]

/-- Below the overflow bound the rounded magnitude is finite. -/
theorem roundMag_lt {num den : Nat} (hd : 0 < den) (h : num < overflowBound * 2 ^ 149 * den) :
    roundMag num den < infMag := by
  have hq : num / den < 2 ^ 277 := by
    apply Nat.div_lt_of_lt_mul
    have h1 : overflowBound * 2 ^ 149 ≤ 2 ^ 277 := by decide +kernel
    have := Nat.mul_le_mul_right den h1
    rw [Nat.mul_comm den]
    exact Nat.lt_of_lt_of_le h this
  have hlog : Nat.log2 (num / den) ≤ 276 := by
    by_cases h0 : num / den = 0
    · rw [h0, Nat.log2_zero]; exact Nat.zero_le _
    · have := (Nat.log2_lt h0).mpr hq
      exact Nat.le_of_lt_succ this
  unfold roundMag
  simp only
  generalize he : (num / den).log2 - 23 = e
  have he' : e ≤ 253 := by omega
  have hqe : num / (den * 2 ^ e) < 2 ^ 24 := by
    rw [← Nat.div_div_eq_div_mul]
    apply Nat.div_lt_of_lt_mul
    rw [← Nat.pow_add]
    by_cases h0 : num / den = 0
    · rw [h0]; exact Nat.two_pow_pos _
    · apply (Nat.log2_lt h0).mp; omega
  by_cases h253 : e = 253
  · have hr : roundDiv num (den * 2 ^ e) < 2 ^ 24 := by
      apply roundDiv_lt_top
      rw [h253, ← bound_eq, Nat.mul_comm 2]
      exact Nat.mul_lt_mul_of_pos_right h (by decide)
    have : infMag = 253 * 2 ^ 23 + 2 ^ 24 := by decide
    have : e * 2 ^ 23 = 253 * 2 ^ 23 := by rw [h253]
    clear hq h
    omega
  · have := roundDiv_le num (den * 2 ^ e)
    have h1 : e * 2 ^ 23 ≤ 252 * 2 ^ 23 := Nat.mul_le_mul_right _ (by omega)
    have : infMag = 252 * 2 ^ 23 + 3 * 2 ^ 23 := by decide
    omega

/-- From the overflow bound on, the rounded magnitude is at least that of infinity. -/
theorem le_roundMag {num den : Nat} (hd : 0 < den) (h : overflowBound * 2 ^ 149 * den ≤ num) :
    infMag ≤ roundMag num den := by
  have hq : 2 ^ 276 ≤ num / den := by
    rw [Nat.le_div_iff_mul_le hd]
    have h1 : 2 ^ 276 ≤ overflowBound * 2 ^ 149 := by decide +kernel
    exact Nat.le_trans (Nat.mul_le_mul_right den h1) h
  have h0 : num / den ≠ 0 := Nat.ne_of_gt (Nat.lt_of_lt_of_le (Nat.two_pow_pos _) hq)
  have hlog : 276 ≤ Nat.log2 (num / den) := by
    rw [Nat.le_log2 h0]; exact hq
  unfold roundMag
  simp only
  generalize he : (num / den).log2 - 23 = e
  have he' : 253 ≤ e := by clear hq h; omega
  have hqe : 2 ^ 23 ≤ num / (den * 2 ^ e) := by
    rw [← Nat.div_div_eq_div_mul, Nat.le_div_iff_mul_le (Nat.two_pow_pos _), ← Nat.pow_add]
    have : 23 + e = (num / den).log2 := by clear hq h; omega
    rw [this]
    exact Nat.log2_self_le h0
  by_cases h253 : e = 253
  · have hr : 2 ^ 24 ≤ roundDiv num (den * 2 ^ e) := by
      apply top_le_roundDiv (Nat.mul_pos hd (Nat.two_pow_pos _))
      rw [h253, ← bound_eq, Nat.mul_comm 2]
      exact Nat.mul_le_mul_right _ h
    have : infMag = 253 * 2 ^ 23 + 2 ^ 24 := by decide
    have : e * 2 ^ 23 = 253 * 2 ^ 23 := by rw [h253]
    clear hq h
    omega
  · have := le_roundDiv num (den * 2 ^ e)
    have h1 : 254 * 2 ^ 23 ≤ e * 2 ^ 23 := Nat.mul_le_mul_right _ (by clear hq h; omega)
    have : infMag = 254 * 2 ^ 23 + 2 ^ 23 := by decide
    clear hq h
    omega

theorem ofDecimal_mag (m k : Nat) :
    (ofDecimal m k).mag = min (roundMag (m * 2 ^ 149) (10 ^ k)) infMag := by
  have : min (roundMag (m * 2 ^ 149) (10 ^ k)) infMag ≤ infMag := Nat.min_le_right _ _
  have h2 : infMag < 2 ^ 31 := by decide
  unfold ofDecimal mag
  simp only [BitVec.toNat_ofNat]
  omega

/-- A decimal `m / 10^k` is read as a finite number exactly if it is below the overflow bound. -/
theorem ofDecimal_finite (m k : Nat) :
    (ofDecimal m k).isFinite = true ↔ m < overflowBound * 10 ^ k := by
  unfold isFinite
  rw [ofDecimal_mag, decide_eq_true_iff]
  have hd : 0 < 10 ^ k := Nat.pow_pos (by decide)
  constructor
  · intro h
    refine Classical.byContradiction fun hn => ?_
    have : overflowBound * 2 ^ 149 * 10 ^ k ≤ m * 2 ^ 149 := by
      rw [Nat.mul_right_comm]
      exact Nat.mul_le_mul_right _ (Nat.le_of_not_lt hn)
    have := le_roundMag hd this
    exact absurd h (Nat.not_lt.mpr (Nat.le_min.mpr ⟨this, Nat.le_refl _⟩))
  · intro h
    have : m * 2 ^ 149 < overflowBound * 2 ^ 149 * 10 ^ k := by
      rw [Nat.mul_right_comm]
      exact Nat.mul_lt_mul_of_pos_right h (Nat.two_pow_pos _)
    have := roundMag_lt hd this
    exact Nat.lt_of_le_of_lt (Nat.min_le_left _ _) this

end F32

theorem decVal_eq (ds : List Char) : decVal ds = ds.foldl (fun v c => v * 10 + digitVal c) 0 := rfl

theorem decVal_foldl (ds : List Char) (v : Nat) :
    ds.foldl (fun v c => v * 10 + digitVal c) v = v * 10 ^ ds.length + decVal ds := by
  rw [decVal_eq]
  induction ds generalizing v with
  | nil => simp
  | cons d ds ih =>
    simp only [List.foldl_cons, List.length_cons]
    rw [ih, ih (0 * 10 + digitVal d)]
    rw [Nat.pow_succ]
    simp only [Nat.add_mul, Nat.zero_mul, Nat.zero_add]
    rw [Nat.mul_assoc v 10, Nat.mul_comm 10]
    omega

theorem decVal_append (a b : List Char) : decVal (a ++ b) = decVal a * 10 ^ b.length + decVal b := by
  conv => lhs; rw [decVal_eq]
  rw [List.foldl_append, decVal_foldl]
  rfl

theorem isDigit_val {c : Char} (h : isDigit c = true) : digitVal c < 10 := by
  unfold isDigit at h
  simp only [Bool.and_eq_true, decide_eq_true_eq] at h
  unfold digitVal; omega

theorem decVal_lt {ds : List Char} (h : ∀ c ∈ ds, isDigit c = true) : decVal ds < 10 ^ ds.length := by
  induction ds with
  | nil => simp [decVal]
  | cons d ds ih =>
    have e : decVal (d :: ds) = digitVal d * 10 ^ ds.length + decVal ds := by
      have := decVal_append [d] ds
      simpa [decVal_eq] using this
    have h1 := ih fun c hc => h c (by simp [hc])
    have h2 := isDigit_val (h d (by simp))
    rw [e, List.length_cons, Nat.pow_succ]
    have : (digitVal d + 1) * 10 ^ ds.length ≤ 10 * 10 ^ ds.length := Nat.mul_le_mul_right _ (by omega)
    rw [Nat.add_mul] at this
    omega

end Pddl
