import Verif.MetaAsm
import Mathlib.Algebra.Order.Field.Rat
import Mathlib.Algebra.Order.Field.Power
import Mathlib.Data.Rat.Floor
import Mathlib.Tactic.Linarith
import Mathlib.Tactic.Positivity
import Mathlib.Tactic.Ring
import Mathlib.Tactic.FieldSimp
/-!
# binary32 arithmetic

What the floating-point instructions of the generated ARM code do with one lane: IEEE 754 binary32, rounded to the
nearest, ties to even.  The model is exact: numbers are rationals, and a result is the rounded exact result.  On 32-bit
ARM the vector instructions flush subnormal operands and results to zero (`ftz`); on 64-bit ARM they do not unless the
program asks for it.  Simplification: every NaN result is the default NaN (no payloads are carried over); nothing in the
transformations depends on it, since a NaN is converted to the integer 0.
-/
namespace Gemmlowp.F32

/-- 2^e. -/
def pow2 (e : Int) : Rat := if 0 ≤ e then ((2 ^ e.toNat : Nat) : Rat) else 1 / ((2 ^ (-e).toNat : Nat) : Rat)

/-- The exponent of a positive number: 2^e ≤ q < 2^(e+1). -/
def expo (q : Rat) : Int :=
  let e : Int := (Nat.log2 q.num.toNat : Int) - (Nat.log2 q.den : Int)
  if q < pow2 e then e - 1 else e

/-- The nearest integer; of two, the even one. -/
def roundEven (q : Rat) : Int :=
  let n := q.floor
  if q - n < 1 / 2 then n else if 1 / 2 < q - n then n + 1 else if n % 2 = 0 then n else n + 1

/-- The bits of infinity. -/
def infBits : Nat := 0x7F800000

/-- The number that 31 bits (exponent and fraction) stand for, below `infBits`. -/
def magVal (m : Nat) : Rat :=
  if m / 8388608 = 0 then (m : Rat) * pow2 (-149) else ((8388608 + m % 8388608 : Nat) : Rat) * pow2 ((m / 8388608 : Nat) - 150)

/-- The bits of the nearest binary32 number to a number that is not negative: with the exponent of the number, but at
least -126, its multiple of the last place; the sum carries into the exponent by itself. -/
def magOf (q : Rat) : Nat :=
  if q ≤ 0 then 0
  else
    let e := max (expo q) (-126)
    min ((e + 126).toNat * 8388608 + (roundEven (q / pow2 (e - 23))).toNat) infBits

def neg (b : BitVec 32) : Bool := decide (2147483648 ≤ b.toNat)

def mag (b : BitVec 32) : Nat := b.toNat % 2147483648

/-- A sign and 31 bits. -/
def pack (s : Bool) (m : Nat) : BitVec 32 := BitVec.ofNat 32 ((if s then 2147483648 else 0) + m)

def isNaN (b : BitVec 32) : Bool := decide (infBits < mag b)

def isInf (b : BitVec 32) : Bool := decide (mag b = infBits)

def isFin (b : BitVec 32) : Bool := decide (mag b < infBits)

/-- The default NaN. -/
def qnan : BitVec 32 := 0x7FC00000#32

/-- Subnormal operands are taken for zeros. -/
def inp (ftz : Bool) (b : BitVec 32) : BitVec 32 := if ftz && decide (mag b < 8388608) then pack (neg b) 0 else b

/-- The number that a finite operand stands for. -/
def val (b : BitVec 32) : Rat := if neg b then -magVal (mag b) else magVal (mag b)

/-- The exact result `q`, a magnitude, rounded. -/
def rnd (ftz : Bool) (s : Bool) (q : Rat) : BitVec 32 :=
  if ftz && decide (q < pow2 (-126)) then pack s 0 else pack s (magOf q)

/-- `fadd`, `vadd.f32`, for operands that were flushed. -/
def add' (ftz : Bool) (a b : BitVec 32) : BitVec 32 :=
  if isNaN a || isNaN b then qnan
  else if isInf a then (if isInf b && (neg a != neg b) then qnan else a)
  else if isInf b then b
  else if val a + val b = 0 then pack (neg a && neg b) 0
  else rnd ftz (decide (val a + val b < 0)) |val a + val b|

def add (ftz : Bool) (a b : BitVec 32) : BitVec 32 := add' ftz (inp ftz a) (inp ftz b)

/-- The sign turned. -/
def opp (b : BitVec 32) : BitVec 32 := pack (!neg b) (mag b)

def sub (ftz : Bool) (a b : BitVec 32) : BitVec 32 := add ftz a (opp b)

def mul' (ftz : Bool) (a b : BitVec 32) : BitVec 32 :=
  if isNaN a || isNaN b then qnan
  else if isInf a || isInf b then (if mag a = 0 ∨ mag b = 0 then qnan else pack (neg a != neg b) infBits)
  else rnd ftz (neg a != neg b) |val a * val b|

/-- `fmul`, `vmul.f32`. -/
def mul (ftz : Bool) (a b : BitVec 32) : BitVec 32 := mul' ftz (inp ftz a) (inp ftz b)

/-- Saturation to `int32`. -/
def satI32 (x : Int) : BitVec 32 :=
  BitVec.ofInt 32 (if x < -2147483648 then -2147483648 else if 2147483647 < x then 2147483647 else x)

/-- Conversion to `int32` with a rounding of finite numbers: NaN gives 0, what does not fit is saturated. -/
def toInt (r : Rat → Int) (b : BitVec 32) : BitVec 32 :=
  if isNaN b then 0
  else if isInf b then satI32 (if neg b then -2147483648 else 2147483647)
  else satI32 (r (val b))

/-- Towards zero. -/
def trunc (q : Rat) : Int := if q < 0 then -(-q).floor else q.floor

/-- `scvtf`, `vcvt.f32.s32`. -/
def ofInt (x : BitVec 32) : BitVec 32 := pack (decide (x.toInt < 0)) (magOf |(x.toInt : Rat)|)

/-- The floating-point unit of 64-bit (`ftz = false`) and 32-bit (`ftz = true`) ARM. -/
def ieee (ftz : Bool) : MetaAsm.FloatOps where
  ofInt := ofInt
  mul := mul ftz
  add := add ftz
  sub := sub ftz
  toNearest := toInt roundEven
  toZero := toInt trunc

end Gemmlowp.F32
