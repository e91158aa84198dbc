import Verif.Parsers

/-!
# Conversions to `Number`

`FromStr` and the `From` implementations of `/repo/src/types/number.rs:68-77` and `158-226`. The
conversions to `f32` themselves are those of the Rust standard library, modelled from its
documentation: `f32::from_str` reads the grammar given there and rounds correctly; `as f32` from an
integer or from `f64` rounds to the nearest value, ties to even, and gives infinity on overflow.
-/

namespace Pddl

namespace F32

/-- The `f32` with this sign and these magnitude bits. -/
def signed (neg : Bool) (m : Nat) : F32 := ⟨BitVec.ofNat 32 ((if neg then 2 ^ 31 else 0) + m)⟩

/-- A NaN; which of the NaN patterns it is does not matter here (simplification). -/
def nanMag : Nat := infMag + 2 ^ 22

/-- The nearest `f32` to `± num / den` units of `2^-149`, infinity on overflow. -/
def nearest (neg : Bool) (num den : Nat) : F32 := signed neg (min (roundMag num den) infMag)

/-- `z as f32` for an integer (std: rounded to nearest, ties to even; never overflows for the
integer types used). -/
def ofInt (z : Int) : F32 := nearest (decide (z < 0)) (z.natAbs * 2 ^ 149) 1

end F32

/-- An `f64`, given by `f64::to_bits`. -/
structure F64 where
  bits : BitVec 64
  deriving DecidableEq, Repr

namespace F64

/-- Sign bit. -/
def neg (x : F64) : Bool := decide (2 ^ 63 ≤ x.bits.toNat)
/-- Exponent and mantissa bits. -/
def mag (x : F64) : Nat := x.bits.toNat % 2 ^ 63
/-- Magnitude bits of infinity: exponent 2047, mantissa 0. -/
abbrev infMag : Nat := 2047 * 2 ^ 52
/-- Absolute value of a finite `f64` in units of `2^-1074`. -/
def absScaled (m : Nat) : Nat :=
  if m < 2 ^ 52 then m else (2 ^ 52 + m % 2 ^ 52) * 2 ^ (m / 2 ^ 52 - 1)

/-- `x as f32` (std: NaN to NaN, otherwise rounded to nearest, ties to even, infinity on
overflow). One unit of `2^-1074` is `2^-925` units of `2^-149`. -/
def toF32 (x : F64) : F32 :=
  if infMag < x.mag then .signed x.neg F32.nanMag
  else if x.mag = infMag then .signed x.neg F32.infMag
  else .nearest x.neg (absScaled x.mag) (2 ^ 925)

end F64

/-! ## `f32::from_str` -/

/-- An optional sign. -/
def splitSign : List Char → Bool × List Char
  | '-' :: t => (true, t)
  | '+' :: t => (false, t)
  | t => (false, t)

/-- Value of a run of decimal digits. -/
def digitsVal (ds : List Char) : Nat := ds.foldl (fun v c => v * 10 + digitVal c) 0

/-- The digits of an exponent and its sign. -/
def signedExp (neg : Bool) (ds : List Char) : Option Int :=
  if ds ≠ [] ∧ ds.all isDigit = true then
    some (if neg then -(digitsVal ds : Int) else (digitsVal ds : Int))
  else none

/-- The part after the digits: nothing, or `e` or `E`, an optional sign and digits. -/
def expOf : List Char → Option Int
  | [] => some 0
  | c :: t =>
    if c = 'e' ∨ c = 'E' then signedExp (splitSign t).1 (splitSign t).2 else none

/-- The point and the digits after it, and what follows. -/
def splitFrac : List Char → List Char × List Char
  | '.' :: r => (r.takeWhile isDigit, r.dropWhile isDigit)
  | r => ([], r)

/-- Digit value and decimal exponent; at least one digit is needed. -/
def decimalParts (int frac ex : List Char) : Option (Nat × Int) :=
  if int = [] ∧ frac = [] then none
  else (expOf ex).map fun e => (digitsVal (int ++ frac), e - frac.length)

/-- Digits, optionally a point and digits, then the exponent. -/
def decimalOf (t : List Char) : Option (Nat × Int) :=
  decimalParts (t.takeWhile isDigit) (splitFrac (t.dropWhile isDigit)).1
    (splitFrac (t.dropWhile isDigit)).2

/-- `± m * 10^e`, correctly rounded. -/
def F32.ofScientific (neg : Bool) (m : Nat) (e : Int) : F32 :=
  .nearest neg (m * 10 ^ e.toNat * 2 ^ 149) (10 ^ (-e).toNat)

/-- `inf`, `infinity` and `nan` in any case. -/
def specialOf (neg : Bool) (l : List Char) : Option F32 :=
  if l = c!"inf" ∨ l = c!"infinity" then some (.signed neg F32.infMag)
  else if l = c!"nan" then some (.signed neg F32.nanMag)
  else none

/-- The text after the sign. -/
def unsignedOf (neg : Bool) (t : List Char) : Option F32 :=
  match decimalOf t with
  | some x => some (.ofScientific neg x.1 x.2)
  | none => specialOf neg (t.map Char.toLower)

/-- `f32::from_str` (std, documented grammar); `none` is `Err(ParseFloatError)`. -/
def f32FromStr (s : List Char) : Option F32 := unsignedOf (splitSign s).1 (splitSign s).2

/-! ## The conversions of `Number` -/

/-- Result of `Number::from_str`. -/
inductive FromStrOutcome
  | ok (n : Number)
  /-- `Err(NumberError::InvalidFormat(_))` -/
  | invalidFormat
  | panic
  deriving DecidableEq, Repr

/-- `Ok(Number::new(x))`. -/
def outcomeOf : Option Number → FromStrOutcome
  | some n => .ok n
  | none => .panic

/-- `FromStr for Number`, `/repo/src/types/number.rs:68-77`: `Ok(Number::new(x))`, where
`Number::new` panics on values that are not finite. -/
def Number.fromStr (s : List Char) : FromStrOutcome :=
  match f32FromStr s with
  | some x => outcomeOf (Number.new x)
  | none => .invalidFormat

/-- `From<i8>`, `From<u8>`, `From<i16>`, `From<u16>`, `From<i32>`, `From<u32>` for `Number`,
`/repo/src/types/number.rs:158-192`, all `Number::new(value as f32)`; `none` is the panic. -/
def Number.fromInt (z : Int) : Option Number := Number.new (F32.ofInt z)

/-- `From<f32>`, `/repo/src/types/number.rs:194-209`. -/
def Number.fromF32 (x : F32) : Option Number := Number.new x

/-- `From<f64>`, `/repo/src/types/number.rs:211-226`. -/
def Number.fromF64 (x : F64) : Option Number := Number.new x.toF32

/-- `number == value` for a value of one of these types, `/repo/src/types/number.rs:98-103`: the
value is converted first. `none` is the panic of the conversion. -/
def Number.eqInt (a : Number) (z : Int) : Option Bool := (Number.fromInt z).map (Number.eq a)

end Pddl
