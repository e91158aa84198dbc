import Verif.Spec.Layout

/-!
# Specification: numeric literals
-/

namespace Pddl

/-- Decimal value of a list of digits. -/
def decVal (ds : List Char) : Nat := ds.foldl (fun v c => v * 10 + (c.toNat - 48)) 0

/-- A numeric literal: digits, optionally a point and more digits. -/
structure Literal10 where
  int : List Char
  frac : List Char
  int_ne : int ≠ []
  int_digits : ∀ c ∈ int, isDec c = true
  frac_digits : ∀ c ∈ frac, isDec c = true

namespace Literal10
/-- The text of the literal. -/
def text (l : Literal10) : List Char := if l.frac = [] then l.int else l.int ++ '.' :: l.frac
/-- Numerator of the decimal value over `10 ^ frac.length`. -/
def num (l : Literal10) : Nat := decVal (l.int ++ l.frac)
/-- Denominator of the decimal value. -/
def den (l : Literal10) : Nat := 10 ^ l.frac.length

theorem den_pos (l : Literal10) : 0 < l.den := Nat.pow_pos (by decide)
end Literal10

/-- Text that does not continue a number. -/
def NumEnd (r : List Char) : Prop := ∀ c r', r = c :: r' → isDec c = false ∧ c ≠ '.'

/-- The least real number that rounds (to nearest, ties to even) to infinity in binary32:
halfway between the largest finite value `(2^24 - 1) * 2^104` and `2^128`. -/
def overflowBound : Nat := (2 ^ 25 - 1) * 2 ^ 103

/-- No run of digits in the text denotes an integer of `overflowBound` or more. -/
def Calm (s : List Char) : Prop :=
  ∀ a ds b, s = a ++ ds ++ b → (∀ c ∈ ds, isDec c = true) → decVal ds < overflowBound

end Pddl
