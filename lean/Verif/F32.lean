/-!
# `f32` and `Number`

Bit-level model of the IEEE-754 binary32 operations that `/repo/src/types/number.rs` uses.
A value is its 32 bit pattern. `mag` is the pattern without the sign bit; for finite values
it is also the rank of the absolute value among all finite absolute values.
-/

namespace Pddl

/-- An `f32`, given by `f32::to_bits`. -/
structure F32 where
  bits : BitVec 32
  deriving DecidableEq, Repr

namespace F32

/-- Sign bit. -/
def neg (x : F32) : Bool := decide (2 ^ 31 ≤ x.bits.toNat)

/-- Exponent and mantissa bits. -/
def mag (x : F32) : Nat := x.bits.toNat % 2 ^ 31

/-- Magnitude bits of infinity: exponent 255, mantissa 0. -/
abbrev infMag : Nat := 255 * 2 ^ 23

/-- `f32::is_finite`: exponent below 255. -/
def isFinite (x : F32) : Bool := decide (x.mag < infMag)

/-- `f32::is_nan`. -/
def isNan (x : F32) : Bool := decide (infMag < x.mag)

/-- `f32::is_infinite`. -/
def isInfinite (x : F32) : Bool := decide (x.mag = infMag)

/-- `x == 0.0` (equally `x == -0.0`): all magnitude bits are clear. -/
def isZero (x : F32) : Bool := decide (x.mag = 0)

/-- Absolute value of a finite `f32` in units of `2^-149`, an exact integer. Subnormal values have
exponent field 0; normal values have an implicit leading mantissa bit. -/
def absScaled (m : Nat) : Nat :=
  if m < 2 ^ 23 then m else (2 ^ 23 + m % 2 ^ 23) * 2 ^ (m / 2 ^ 23 - 1)

/-- The real value of a finite `f32` in units of `2^-149`. -/
def scaled (x : F32) : Int := if x.neg then -(absScaled x.mag : Int) else (absScaled x.mag : Int)

/-- `f32::partial_cmp`: `None` if an operand is NaN, otherwise the order of the represented values. -/
def partialCmp (x y : F32) : Option Ordering :=
  if x.isNan || y.isNan then none
  else some (compare x.scaled y.scaled)

/-- The key of `f32::total_cmp` (core::num::f32): `left ^= (((left >> 31) as u32) >> 1) as i32`,
i.e. an arithmetic shift by 31 that yields all ones for negative values, then a logical shift
by one that clears the top bit, then exclusive or; compared as `i32`. -/
def totalKey (x : F32) : Int :=
  (x.bits ^^^ ((x.bits.sshiftRight 31) >>> 1)).toInt

/-- `f32::total_cmp`. -/
def totalCmp (x y : F32) : Ordering := compare x.totalKey y.totalKey

/-- Integer division rounded to nearest, ties to even. -/
def roundDiv (num den : Nat) : Nat :=
  let q := num / den
  let r := num % den
  if 2 * r < den then q
  else if den < 2 * r then q + 1
  else if q % 2 = 0 then q else q + 1

/-- Magnitude bits of the `f32` nearest to `num / den` units of `2^-149`, ties to even, before the
overflow check. With `e` the number of binary digits beyond 24, the significand is rounded to a
multiple of `2^e`; a carry into the next binade needs no special case. -/
def roundMag (num den : Nat) : Nat :=
  let e := Nat.log2 (num / den) - 23
  e * 2 ^ 23 + roundDiv num (den * 2 ^ e)

/-- `f32::from_str` on a literal with digit value `m` and `k` digits after the point, i.e. on
`m / 10^k`: correctly rounded, and infinity on overflow (documented behaviour of std). -/
def ofDecimal (m k : Nat) : F32 :=
  ⟨BitVec.ofNat 32 (min (roundMag (m * 2 ^ 149) (10 ^ k)) infMag)⟩

end F32

/-- `pub struct Number(f32)`, `/repo/src/types/number.rs:31-32`. -/
structure Number where
  val : F32
  deriving DecidableEq, Repr

namespace Number

/-- `Number::new`, `/repo/src/types/number.rs:46-49`; `none` is the failed assertion (panic). -/
def new (v : F32) : Option Number := if v.isFinite then some ⟨v⟩ else none

/-- `Number::try_new`, `/repo/src/types/number.rs:59-65`; `none` is `Err(NotFinite)`. -/
def tryNew (v : F32) : Option Number := if !v.isFinite then none else some ⟨v⟩

/-- `PartialEq::eq`, `/repo/src/types/number.rs:98-103`. `self.total_cmp` resolves through `Deref`
to `f32::total_cmp`. -/
def eq (a b : Number) : Bool := F32.totalCmp a.val b.val == .eq

/-- `PartialOrd::partial_cmp`, `/repo/src/types/number.rs:133-137`. -/
def partialCmp (a b : Number) : Option Ordering := some (F32.totalCmp a.val b.val)

/-- `Ord::cmp`, `/repo/src/types/number.rs:105-131`; `none` is a panic (`unreachable!`/`expect`). -/
def cmp (a b : Number) : Option Ordering :=
  if a.val.isZero && b.val.isZero || a.val.isZero && b.val.isZero then some .eq
  else if a.val.isNan || b.val.isNan then none
  else if a.val.isInfinite || b.val.isInfinite then none
  else F32.partialCmp a.val b.val

/-- The word fed to the hasher by `Hash::hash`, `/repo/src/types/number.rs:139-148`. -/
def hashWord (a : Number) : Nat := if a.val.isZero || a.val.isZero then 0 else a.val.bits.toNat

/-- `Number::default()`: derived, `f32::default()` is `+0.0`, `/repo/src/types/number.rs:31`. -/
def default : Number := ⟨⟨0⟩⟩

end Number
end Pddl
