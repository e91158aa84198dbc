/-!
# Specification: values of IEEE-754 bit patterns

Stated on the fields of the patterns, without the functions of the model.
-/

namespace Pddl

/-- Absolute value of a binary floating point number with exponent field `e` and an `mb` bit mantissa
field `m`, in units of the least positive number of the format. Exponent field 0 marks subnormal
numbers; all others have an implicit leading bit. -/
def fieldUnits (mb e m : Nat) : Nat := if e = 0 then m else (2 ^ mb + m) * 2 ^ (e - 1)

/-- The integer with this sign and absolute value. -/
def signedVal (neg : Bool) (n : Nat) : Int := if neg then -(n : Int) else (n : Int)

/-- Exponent field of a binary32 pattern. -/
def expField (b : BitVec 32) : Nat := (b.extractLsb' 23 8).toNat
/-- Mantissa field of a binary32 pattern. -/
def manField (b : BitVec 32) : Nat := (b.extractLsb' 0 23).toNat

/-- The bit pattern of a finite binary32 value: the exponent field is not all ones. -/
def FiniteBits (b : BitVec 32) : Prop := b.extractLsb' 23 8 ≠ 255

/-- Absolute value of a finite pattern, in units of `2^-149`. -/
def bitsUnits (b : BitVec 32) : Nat := fieldUnits 23 (expField b) (manField b)

/-- Value of a finite pattern, in units of `2^-149`. -/
def bitsValue (b : BitVec 32) : Int := signedVal b.msb (bitsUnits b)

/-- The pattern `b` is the binary32 value nearest to `v / d` units of `2^-149`, ties to even: it is
finite, no finite pattern is closer, and if one with a different value is equally close then the
mantissa of `b` is even. -/
def NearestTo (b : BitVec 32) (v : Int) (d : Nat) : Prop :=
  FiniteBits b ∧ ∀ y, FiniteBits y →
    (bitsValue b * d - v).natAbs ≤ (bitsValue y * d - v).natAbs ∧
    ((bitsValue b * d - v).natAbs = (bitsValue y * d - v).natAbs → bitsValue y ≠ bitsValue b →
      manField b % 2 = 0)

/-- The bit pattern of a finite binary64 value. -/
def FiniteBits64 (b : BitVec 64) : Prop := b.extractLsb' 52 11 ≠ 2047

/-- Absolute value of a finite binary64 pattern, in units of `2^-1074`. -/
def bitsUnits64 (b : BitVec 64) : Nat :=
  fieldUnits 52 (b.extractLsb' 52 11).toNat (b.extractLsb' 0 52).toNat

/-- Value of a finite binary64 pattern, in units of `2^-1074`. -/
def bitsValue64 (b : BitVec 64) : Int := signedVal b.msb (bitsUnits64 b)

end Pddl
