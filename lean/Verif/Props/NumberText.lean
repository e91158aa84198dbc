import Verif.Props.Convert
import Verif.Meta.Layout

/-!
# Properties: numbers from text (C50)
-/

namespace Pddl

/-! ## C50: texts -/

/-- All characters are ASCII digits. -/
def Digits (ds : List Char) : Prop := ∀ c ∈ ds, isDec c = true

/-- An optional sign in front of `t`. -/
inductive SignW : Bool → List Char → List Char → Prop
  | none {t} : SignW false t t
  | plus {t} : SignW false ('+' :: t) t
  | minus {t} : SignW true ('-' :: t) t

/-- An optional exponent. -/
inductive ExpW : List Char → Int → Prop
  | none : ExpW [] 0
  | some {c t neg ds} : c = 'e' ∨ c = 'E' → SignW neg t ds → Digits ds → ds ≠ [] →
      ExpW (c :: t) (signedVal neg (decVal ds))

/-- A decimal number without sign: digits, optionally a point and digits, at least one digit in all,
and an optional exponent. Its value is `m * 10 ^ e`. -/
inductive SciW : List Char → Nat → Int → Prop
  | whole {int ex e} : Digits int → int ≠ [] → ExpW ex e → SciW (int ++ ex) (decVal int) e
  | point {int frac ex e} : Digits int → Digits frac → int ≠ [] ∨ frac ≠ [] → ExpW ex e →
      SciW (int ++ '.' :: (frac ++ ex)) (decVal (int ++ frac)) (e - frac.length)

/-- The words for values that are not finite, in any case. -/
def SpecialW (t : List Char) : Prop :=
  t.map Char.toLower = c!"inf" ∨ t.map Char.toLower = c!"infinity" ∨ t.map Char.toLower = c!"nan"

/-- `m * 10 ^ e` is below the least value that rounds to infinity. -/
def InRange (m : Nat) (e : Int) : Prop := m * 10 ^ e.toNat < overflowBound * 10 ^ (-e).toNat

theorem Digits.not {c : Char} (h : isDigit c = false) {t : List Char} : ¬ Digits (c :: t) :=
  fun hd => Bool.noConfusion (h.symm.trans (hd c (by simp)))

theorem Digits.all {ds : List Char} (h : Digits ds) : ∀ c ∈ ds, isDigit c = true := h

theorem splitSign_digits {ds : List Char} (h : Digits ds) : splitSign ds = (false, ds) := by
  unfold splitSign
  split
  · exact (Digits.not (by decide) h).elim
  · exact (Digits.not (by decide) h).elim
  · rfl

theorem splitSign_run {neg : Bool} {t ds : List Char} (h : SignW neg t ds) (hd : Digits ds) :
    splitSign t = (neg, ds) := by
  cases h with
  | none => exact splitSign_digits hd
  | plus => rfl
  | minus => rfl

theorem splitSign_inv (t : List Char) : SignW (splitSign t).1 t (splitSign t).2 := by
  unfold splitSign
  split
  · exact .minus
  · exact .plus
  · exact .none

theorem all_digits {ds : List Char} : ds.all isDigit = true ↔ Digits ds := List.all_eq_true

theorem signedExp_run {neg : Bool} {ds : List Char} (hd : Digits ds) (hne : ds ≠ []) :
    signedExp neg ds = some (signedVal neg (decVal ds)) := by
  unfold signedExp
  rw [if_pos ⟨hne, all_digits.mpr hd⟩]
  rfl

theorem signedExp_inv {neg : Bool} {ds : List Char} {e : Int} (h : signedExp neg ds = some e) :
    Digits ds ∧ ds ≠ [] ∧ e = signedVal neg (decVal ds) := by
  unfold signedExp at h
  by_cases hd : ds ≠ [] ∧ ds.all isDigit = true
  · rw [if_pos hd] at h
    exact ⟨all_digits.mp hd.2, hd.1, (Option.some.inj h).symm⟩
  · rw [if_neg hd] at h
    cases h

theorem expOf_iff {ex : List Char} {e : Int} : expOf ex = some e ↔ ExpW ex e := by
  cases ex with
  | nil =>
    constructor
    · intro h; rw [expOf] at h; cases h; exact .none
    · intro h; cases h; rfl
  | cons c t =>
    rw [expOf]
    constructor
    · intro h
      by_cases hc : c = 'e' ∨ c = 'E'
      · rw [if_pos hc] at h
        obtain ⟨h1, h2, rfl⟩ := signedExp_inv h
        exact .some hc (splitSign_inv t) h1 h2
      · rw [if_neg hc] at h
        cases h
    · intro h
      cases h with
      | some hc hs hd hne =>
        rw [if_pos hc, splitSign_run hs hd]
        exact signedExp_run hd hne

theorem ExpW.no_digit {ex : List Char} {e : Int} (h : ExpW ex e) :
    ∀ c r, ex = c :: r → isDigit c = false := by
  intro c r he
  cases h with
  | none => cases he
  | some hc => injection he with he; subst he; rcases hc with rfl | rfl <;> decide

theorem ExpW.no_point {ex : List Char} {e : Int} (h : ExpW ex e) : ∀ r, ex ≠ '.' :: r := by
  intro r he
  cases h with
  | none => cases he
  | some hc => injection he with he; subst he; rcases hc with h | h <;> exact absurd h (by decide)

theorem takeDigits_spec (t : List Char) : Digits (t.takeWhile isDigit) := by
  induction t with
  | nil => intro c hc; cases hc
  | cons c t ih =>
    rw [List.takeWhile_cons]
    split
    · intro d hd
      rcases List.mem_cons.mp hd with rfl | hd
      · assumption
      · exact ih d hd
    · intro d hd; cases hd

theorem decimalParts_run {int frac ex : List Char} {e : Int} (hne : int ≠ [] ∨ frac ≠ [])
    (hx : ExpW ex e) :
    decimalParts int frac ex = some (decVal (int ++ frac), e - frac.length) := by
  unfold decimalParts
  rw [if_neg (fun h => by rcases hne with h' | h'; exact h' h.1; exact h' h.2), expOf_iff.mpr hx]
  rfl

theorem decimalParts_inv {int frac ex : List Char} {m : Nat} {e : Int}
    (h : decimalParts int frac ex = some (m, e)) :
    (int ≠ [] ∨ frac ≠ []) ∧ ∃ x, ExpW ex x ∧ m = decVal (int ++ frac) ∧ e = x - frac.length := by
  unfold decimalParts at h
  by_cases hne : int = [] ∧ frac = []
  · rw [if_pos hne] at h
    cases h
  · rw [if_neg hne] at h
    cases hex : expOf ex with
    | none => rw [hex] at h; cases h
    | some x =>
      rw [hex, Option.map_some] at h
      have h := Option.some.inj h
      refine ⟨?_, x, expOf_iff.mp hex, ?_, ?_⟩
      · by_cases hint : int = []
        · exact .inr fun hh => hne ⟨hint, hh⟩
        · exact .inl hint
      · exact (Prod.mk.inj h).1.symm
      · exact (Prod.mk.inj h).2.symm

theorem splitFrac_point (r : List Char) :
    splitFrac ('.' :: r) = (r.takeWhile isDigit, r.dropWhile isDigit) := rfl

theorem splitFrac_other {r : List Char} (h : ∀ t, r ≠ '.' :: t) : splitFrac r = ([], r) := by
  unfold splitFrac
  split
  · exact (h _ rfl).elim
  · rfl

theorem decimalOf_iff {t : List Char} {m : Nat} {e : Int} :
    decimalOf t = some (m, e) ↔ SciW t m e := by
  constructor
  · intro h
    unfold decimalOf at h
    have ht := List.takeWhile_append_dropWhile (p := isDigit) (l := t)
    have hi := takeDigits_spec t
    generalize t.takeWhile isDigit = int at *
    generalize t.dropWhile isDigit = rest at *
    subst ht
    by_cases hp : ∃ r, rest = '.' :: r
    · obtain ⟨r, rfl⟩ := hp
      rw [splitFrac_point] at h
      dsimp only at h
      have hr := List.takeWhile_append_dropWhile (p := isDigit) (l := r)
      have hf := takeDigits_spec r
      generalize r.takeWhile isDigit = frac at *
      generalize r.dropWhile isDigit = ex at *
      subst hr
      obtain ⟨h1, x, h2, rfl, rfl⟩ := decimalParts_inv h
      exact .point hi hf h1 h2
    · rw [splitFrac_other fun r hr => hp ⟨r, hr⟩] at h
      obtain ⟨h1, x, h2, rfl, rfl⟩ := decimalParts_inv h
      have := SciW.whole hi (by rcases h1 with h | h; exact h; exact absurd rfl h) h2
      simpa using this
  · intro h
    cases h with
    | @whole int ex e hi hne hx =>
      obtain ⟨h1, h2⟩ := takeWhile_all hi.all hx.no_digit
      unfold decimalOf
      rw [h1, h2, splitFrac_other hx.no_point]
      dsimp only
      rw [decimalParts_run (.inl hne) hx]
      simp
    | @point int frac ex e hi hf hne hx =>
      obtain ⟨h1, h2⟩ := takeWhile_all (r := '.' :: (frac ++ ex)) hi.all (by
        intro c r h; injection h with h; subst h; decide)
      obtain ⟨h3, h4⟩ := takeWhile_all hf.all hx.no_digit
      unfold decimalOf
      rw [h1, h2, splitFrac_point, h3, h4]
      exact decimalParts_run hne hx

/-- A decimal number starts with a digit or the point. -/
theorem SciW.head {t : List Char} {m e} (h : SciW t m e) :
    ∃ c r, t = c :: r ∧ (isDigit c = true ∨ c = '.') := by
  have first : ∀ int : List Char, Digits int → ∀ w, int ≠ [] →
      ∃ c r, int ++ w = c :: r ∧ (isDigit c = true ∨ c = '.') := fun int hd w hne => by
    cases int with
    | nil => exact absurd rfl hne
    | cons c r => exact ⟨c, r ++ w, rfl, .inl (hd c (by simp))⟩
  cases h with
  | whole hi hne => exact first _ hi _ hne
  | @point int frac ex e hi =>
    by_cases h0 : int = []
    · subst h0
      exact ⟨'.', frac ++ ex, rfl, .inr rfl⟩
    · exact first int hi _ h0

theorem splitSign_sci {neg : Bool} {s t : List Char} {m e} (h : SignW neg s t) (ht : SciW t m e) :
    splitSign s = (neg, t) := by
  cases h with
  | none =>
    obtain ⟨c, r, rfl, hc⟩ := ht.head
    unfold splitSign
    split
    · rename_i heq; injection heq with h1; subst h1; exact absurd hc (by decide)
    · rename_i heq; injection heq with h1; subst h1; exact absurd hc (by decide)
    · rfl
  | plus => rfl
  | minus => rfl

theorem SpecialW.not_sci {t : List Char} (h : SpecialW t) : decimalOf t = none := by
  cases hd : decimalOf t with
  | none => rfl
  | some x =>
    obtain ⟨m, e⟩ := x
    obtain ⟨c, r, rfl, hc⟩ := (decimalOf_iff.mp hd).head
    exfalso
    have hl : Char.toLower c = 'i' ∨ Char.toLower c = 'n' := by
      rcases h with h | h | h <;> simp only [List.map_cons] at h <;> injection h with h1
      · exact .inl h1
      · exact .inl h1
      · exact .inr h1
    have hlow : Char.toLower c = c := by
      rcases hc with hc | rfl
      · unfold isDigit at hc
        simp only [Bool.and_eq_true, decide_eq_true_eq] at hc
        unfold Char.toLower
        split
        · rename_i h2
          have h3 : c.toNat ≥ 65 := h2.1
          omega
        · rfl
      · decide
    rw [hlow] at hl
    rcases hl with rfl | rfl <;> exact absurd hc (by decide)

theorem splitSign_special {neg : Bool} {s t : List Char} (h : SignW neg s t) (ht : SpecialW t) :
    splitSign s = (neg, t) := by
  cases h with
  | none =>
    unfold splitSign
    split
    · rcases ht with h | h | h <;> simp only [List.map_cons] at h <;> injection h with h1 <;>
        exact absurd h1 (by decide)
    · rcases ht with h | h | h <;> simp only [List.map_cons] at h <;> injection h with h1 <;>
        exact absurd h1 (by decide)
    · rfl
  | plus => rfl
  | minus => rfl

theorem unsignedOf_sci {neg : Bool} {t : List Char} {m : Nat} {e : Int} (h : SciW t m e) :
    unsignedOf neg t = some (.ofScientific neg m e) := by
  unfold unsignedOf
  rw [decimalOf_iff.mpr h]

theorem signed_inf {neg : Bool} {m : Nat} (hm : F32.infMag ≤ m) (hm' : m ≤ F32.infMag + 2 ^ 22) :
    (F32.signed neg m).isFinite = false := by
  unfold F32.isFinite
  rw [F32.signed_mag _ hm', decide_eq_false_iff_not]
  omega

theorem specialOf_spec {neg : Bool} {l : List Char}
    (h : l = c!"inf" ∨ l = c!"infinity" ∨ l = c!"nan") :
    ∃ x, specialOf neg l = some x ∧ x.isFinite = false := by
  rcases h with rfl | rfl | rfl
  · exact ⟨_, rfl, signed_inf (by decide) (by decide)⟩
  · exact ⟨_, rfl, signed_inf (by decide) (by decide)⟩
  · exact ⟨_, rfl, signed_inf (by decide) (by decide)⟩

theorem specialOf_none {neg : Bool} {l : List Char}
    (h : ¬ (l = c!"inf" ∨ l = c!"infinity" ∨ l = c!"nan")) : specialOf neg l = none := by
  unfold specialOf
  rw [if_neg (fun hh => h (by rcases hh with h | h; exact .inl h; exact .inr (.inl h))),
    if_neg (fun hh => h (.inr (.inr hh)))]

theorem unsignedOf_special {neg : Bool} {t : List Char} (h : SpecialW t) :
    ∃ x, unsignedOf neg t = some x ∧ x.isFinite = false := by
  unfold unsignedOf
  rw [h.not_sci]
  exact specialOf_spec h

theorem f32FromStr_sci {neg : Bool} {s t : List Char} {m : Nat} {e : Int} (hs : SignW neg s t)
    (ht : SciW t m e) : f32FromStr s = some (.ofScientific neg m e) := by
  unfold f32FromStr
  rw [splitSign_sci hs ht]
  exact unsignedOf_sci ht

theorem f32FromStr_special {neg : Bool} {s t : List Char} (hs : SignW neg s t)
    (ht : SpecialW t) : ∃ x, f32FromStr s = some x ∧ x.isFinite = false := by
  unfold f32FromStr
  rw [splitSign_special hs ht]
  exact unsignedOf_special ht

/-- The three kinds of texts `f32::from_str` knows. -/
theorem f32FromStr_cases (s : List Char) :
    (∃ neg t m e, SignW neg s t ∧ SciW t m e) ∨ (∃ neg t, SignW neg s t ∧ SpecialW t) ∨
    f32FromStr s = none := by
  have hs := splitSign_inv s
  cases hd : decimalOf (splitSign s).2 with
  | some x =>
    obtain ⟨m, e⟩ := x
    exact .inl ⟨_, _, m, e, hs, decimalOf_iff.mp hd⟩
  | none =>
    by_cases h : SpecialW (splitSign s).2
    · exact .inr (.inl ⟨_, _, hs, h⟩)
    · refine .inr (.inr ?_)
      unfold f32FromStr unsignedOf
      rw [hd]
      exact specialOf_none h

theorem ofScientific_finite (neg : Bool) (m : Nat) (e : Int) :
    (F32.ofScientific neg m e).isFinite = true ↔ InRange m e := by
  unfold F32.ofScientific InRange
  rw [F32.nearest_finite neg (Nat.pow_pos (by decide))]
  constructor
  · intro h
    rw [Nat.mul_right_comm overflowBound] at h
    exact Nat.lt_of_mul_lt_mul_right h
  · intro h
    rw [Nat.mul_right_comm overflowBound]
    exact Nat.mul_lt_mul_of_pos_right h (Nat.two_pow_pos _)

theorem fromStr_some {s : List Char} {x : F32} (h : f32FromStr s = some x) :
    Number.fromStr s = if x.isFinite then .ok ⟨x⟩ else .panic := by
  unfold Number.fromStr
  rw [h]
  show outcomeOf (Number.new x) = _
  unfold Number.new
  by_cases hx : x.isFinite = true
  · rw [if_pos hx, if_pos hx]; rfl
  · rw [if_neg hx, if_neg hx]; rfl

theorem fromStr_sci {neg : Bool} {s t : List Char} {m : Nat} {e : Int} (hs : SignW neg s t)
    (ht : SciW t m e) : (InRange m e → Number.fromStr s = .ok ⟨.ofScientific neg m e⟩) ∧
      (¬ InRange m e → Number.fromStr s = .panic) := by
  have h := fromStr_some (f32FromStr_sci hs ht)
  have hf := ofScientific_finite neg m e
  constructor
  · intro hr
    rw [h, if_pos (hf.mpr hr)]
  · intro hr
    rw [h, if_neg fun h => hr (hf.mp h)]

theorem fromStr_special {neg : Bool} {s t : List Char} (hs : SignW neg s t) (ht : SpecialW t) :
    Number.fromStr s = .panic := by
  obtain ⟨x, h1, h2⟩ := f32FromStr_special hs ht
  rw [fromStr_some h1, if_neg (by rw [h2]; decide)]

theorem fromStr_none {s : List Char} (h : f32FromStr s = none) :
    Number.fromStr s = .invalidFormat := by
  unfold Number.fromStr
  rw [h]

/-- A decimal text of finite value is accepted, and the number is the nearest `f32`. -/
theorem C50_ok_partial {neg : Bool} {s t : List Char} {m : Nat} {e : Int} (hs : SignW neg s t)
    (ht : SciW t m e) (hr : InRange m e) :
    ∃ n, Number.fromStr s = .ok n ∧
      NearestTo n.val.bits (signedVal neg (m * 10 ^ e.toNat * 2 ^ 149)) (10 ^ (-e).toNat) := by
  refine ⟨⟨.ofScientific neg m e⟩, (fromStr_sci hs ht).1 hr, ?_⟩
  have hf := (ofScientific_finite neg m e).mpr hr
  unfold F32.ofScientific at hf ⊢
  have hd : 0 < 10 ^ (-e).toNat := Nat.pow_pos (by decide)
  exact F32.nearest_spec neg hd ((F32.nearest_finite neg hd).mp hf)

/-- Only such a text is accepted. -/
theorem C50_only {s : List Char} {n : Number} (h : Number.fromStr s = .ok n) :
    ∃ neg t m e, SignW neg s t ∧ SciW t m e ∧ InRange m e := by
  rcases f32FromStr_cases s with ⟨neg, t, m, e, h1, h2⟩ | ⟨neg, t, h1, h2⟩ | h1
  · refine ⟨neg, t, m, e, h1, h2, Classical.byContradiction fun hn => ?_⟩
    rw [(fromStr_sci h1 h2).2 hn] at h
    exact FromStrOutcome.noConfusion h
  · rw [fromStr_special h1 h2] at h
    exact FromStrOutcome.noConfusion h
  · rw [fromStr_none h1] at h
    exact FromStrOutcome.noConfusion h

/-- The claim is false: a text can make the conversion panic. It does so exactly on the words for
infinity and NaN and on decimal texts of too large a value. -/
theorem C50_panics (s : List Char) : Number.fromStr s = .panic ↔
    ∃ neg t, SignW neg s t ∧ (SpecialW t ∨ ∃ m e, SciW t m e ∧ ¬ InRange m e) := by
  constructor
  · intro h
    rcases f32FromStr_cases s with ⟨neg, t, m, e, h1, h2⟩ | ⟨neg, t, h1, h2⟩ | h1
    · refine ⟨neg, t, h1, .inr ⟨m, e, h2, fun hr => ?_⟩⟩
      rw [(fromStr_sci h1 h2).1 hr] at h
      exact FromStrOutcome.noConfusion h
    · exact ⟨neg, t, h1, .inl h2⟩
    · rw [fromStr_none h1] at h
      exact FromStrOutcome.noConfusion h
  · rintro ⟨neg, t, h1, h2 | ⟨m, e, h2, h3⟩⟩
    · exact fromStr_special h1 h2
    · exact (fromStr_sci h1 h2).2 h3

theorem C50_false : Number.fromStr c!"inf" = .panic ∧ Number.fromStr c!"NaN" = .panic ∧
    Number.fromStr c!"1e39" = .panic := by decide +kernel

/-- Every other text is reported as an error. -/
theorem C50_error (s : List Char) : Number.fromStr s = .invalidFormat ↔
    ∀ neg t, SignW neg s t → (∀ m e, ¬ SciW t m e) ∧ ¬ SpecialW t := by
  constructor
  · intro h neg t ht
    refine ⟨fun m e h2 => ?_, fun h2 => ?_⟩
    · by_cases hr : InRange m e
      · rw [(fromStr_sci ht h2).1 hr] at h
        exact FromStrOutcome.noConfusion h
      · rw [(fromStr_sci ht h2).2 hr] at h
        exact FromStrOutcome.noConfusion h
    · rw [fromStr_special ht h2] at h
      exact FromStrOutcome.noConfusion h
  · intro h
    rcases f32FromStr_cases s with ⟨neg, t, m, e, h1, h2⟩ | ⟨neg, t, h1, h2⟩ | h1
    · exact ((h neg t h1).1 m e h2).elim
    · exact ((h neg t h1).2 h2).elim
    · exact fromStr_none h1

/-- On the literals of the language the conversion and the parser agree. -/
theorem C50_agrees (l : Literal10) (n : Number) :
    Number.fromStr l.text = .ok n ↔ parseNumber l.text = .ok n [] := by
  have hend : NumEnd [] := fun c r h => nomatch h
  have hsci : SciW l.text l.num (-(l.frac.length : Int)) := by
    unfold Literal10.text Literal10.num
    split
    · rename_i hf
      have := SciW.whole l.int_digits l.int_ne .none
      simpa [hf] using this
    · have := SciW.point l.int_digits l.frac_digits (.inl l.int_ne) .none
      simpa using this
  have hr : InRange l.num (-(l.frac.length : Int)) ↔ l.num < overflowBound * l.den := by
    unfold InRange Literal10.den
    simp
  have hval : F32.ofScientific false l.num (-(l.frac.length : Int)) =
      F32.ofDecimal l.num l.frac.length := by
    have h1 : (-(l.frac.length : Int)).toNat = 0 := by omega
    have h2 : (-(-(l.frac.length : Int))).toNat = l.frac.length := by omega
    unfold F32.ofScientific F32.nearest F32.signed F32.ofDecimal
    rw [h1, h2, Nat.pow_zero, Nat.mul_one, if_neg (by decide), Nat.zero_add]
  have hp := parseNumber_text (r := []) l hend
  rw [List.append_nil] at hp
  by_cases hb : l.num < overflowBound * l.den
  · rw [hp hb, (fromStr_sci .none hsci).1 (hr.mpr hb), hval]
    simp only [FromStrOutcome.ok.injEq, Res.ok.injEq, and_true]
  · constructor
    · intro h
      rw [(fromStr_sci .none hsci).2 fun h => hb (hr.mp h)] at h
      exact FromStrOutcome.noConfusion h
    · intro h
      have := parseNumber_text_inv (r := []) l hend (n := n) (r' := []) (by rw [List.append_nil]; exact h)
      exact absurd this.2.2 hb

example : Number.fromStr c!"-1.5e1" = .ok ⟨⟨0xc1700000⟩⟩ := by decide +kernel
example : Number.fromStr c!"1e" = .invalidFormat := by decide +kernel
example : SciW c!"1.5e1" 15 0 :=
  SciW.point (int := c!"1") (frac := c!"5") (by unfold Digits; decide) (by unfold Digits; decide)
    (.inl (by decide)) (ExpW.some (.inl rfl) .none (ds := c!"1") (by unfold Digits; decide) (by decide))

end Pddl
