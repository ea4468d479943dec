import Verif.Base
/-!
# fixedpoint/fixedpoint.h: primitive operations on integers, scalar versions

`tIntegerType` is a signed integer of `w` bits, represented by `BitVec w` and read with `toInt`.
`m` says what signed overflow of `w`-bit arithmetic means: for `w = 32` the C++ rule is `trap`;
for narrower types the operands are promoted to `int` and the result is narrowed again, which is
`wrap`.
-/
namespace Gemmlowp

/-- `x` fits in a signed integer of `w` bits. -/
def InW (w : Nat) (x : Int) : Prop := -2 ^ (w - 1) ≤ x ∧ x < 2 ^ (w - 1)

instance (w : Nat) (x : Int) : Decidable (InW w x) := inferInstanceAs (Decidable (_ ∧ _))

/-- The result of an operation on signed `w`-bit integers whose exact value is `x`. -/
def retW (m : OvMode) (w : Nat) (x : Int) : M (BitVec w) :=
  if m = .trap ∧ ¬ InW w x then .error .overflow else .ok (BitVec.ofInt w x)

namespace Fx

variable {w : Nat}

/-- fixedpoint/fixedpoint.h:64-68 `Dup` for a scalar type: conversion of an integer to it. -/
def dup (w : Nat) (x : Int) : BitVec w := BitVec.ofInt w x

/-- fixedpoint/fixedpoint.h:70-93 `BitAnd`, `BitOr`, `BitXor`, `BitNot`. -/
def bitAnd (a b : BitVec w) : BitVec w := a &&& b
@[inherit_doc bitAnd] def bitOr (a b : BitVec w) : BitVec w := a ||| b
@[inherit_doc bitAnd] def bitXor (a b : BitVec w) : BitVec w := a ^^^ b
@[inherit_doc bitAnd] def bitNot (a : BitVec w) : BitVec w := ~~~a

/-- fixedpoint/fixedpoint.h:95-99 `Add`. -/
def add (m : OvMode) (a b : BitVec w) : M (BitVec w) := retW m w (a.toInt + b.toInt)
/-- fixedpoint/fixedpoint.h:101-105 `Mul`. -/
def mul (m : OvMode) (a b : BitVec w) : M (BitVec w) := retW m w (a.toInt * b.toInt)
/-- fixedpoint/fixedpoint.h:107-111 `Sub`. -/
def sub (m : OvMode) (a b : BitVec w) : M (BitVec w) := retW m w (a.toInt - b.toInt)
/-- fixedpoint/fixedpoint.h:113-117 `Neg`. -/
def neg (m : OvMode) (a : BitVec w) : M (BitVec w) := retW m w (-a.toInt)

/-- `std::numeric_limits<T>::min()` -/
def minW (w : Nat) : Int := -2 ^ (w - 1)
/-- `std::numeric_limits<T>::max()` -/
def maxW (w : Nat) : Int := 2 ^ (w - 1) - 1

/-- fixedpoint/fixedpoint.h:128-138 `ShiftLeft`.  `1 << offset` is computed in `int`: undefined
for a negative offset, for one of 32 or more, and (C++11, signed shift into the sign bit) for 31.
The product is computed in 64 bits. -/
def shiftLeft (a : BitVec w) (offset : Int) : M (BitVec w) :=
  if offset < 0 ∨ 31 ≤ offset then .error .badOp
  else
    let wide := a.toInt * 2 ^ offset.toNat
    .ok (BitVec.ofInt w (if wide < minW w then minW w else if wide > maxW w then maxW w else wide))

/-- fixedpoint/fixedpoint.h:143-146 `ShiftRight`: the operand is promoted to `int`. -/
def shiftRight (a : BitVec w) (offset : Int) : M (BitVec w) :=
  if offset < 0 ∨ 32 ≤ offset then .error .badOp else .ok (a.sshiftRight offset.toNat)

/-- fixedpoint/fixedpoint.h:151-155 `SelectUsingMask`. -/
def selectUsingMask (mask thenVal elseVal : BitVec w) : BitVec w :=
  bitXor (bitAnd mask thenVal) (bitAnd (bitNot mask) elseVal)

/-- fixedpoint/fixedpoint.h:159-163 `MaskIfNonZero`. -/
def maskIfNonZero (a : BitVec w) : BitVec w := if a ≠ 0 then bitNot 0 else 0

/-- Conversion of a `bool` to an integer type. -/
def ofBool (b : Bool) : BitVec w := if b then 1 else 0

/-- fixedpoint/fixedpoint.h:167-170 `MaskIfZero`. -/
def maskIfZero (a : BitVec w) : BitVec w := maskIfNonZero (ofBool (a == 0))
/-- fixedpoint/fixedpoint.h:174-177 `MaskIfEqual`. -/
def maskIfEqual (a b : BitVec w) : BitVec w := maskIfNonZero (ofBool (a == b))
/-- fixedpoint/fixedpoint.h:181-184 `MaskIfNotEqual`. -/
def maskIfNotEqual (a b : BitVec w) : BitVec w := maskIfNonZero (ofBool (a != b))
/-- fixedpoint/fixedpoint.h:188-191 `MaskIfGreaterThan`. -/
def maskIfGreaterThan (a b : BitVec w) : BitVec w := maskIfNonZero (ofBool (b.slt a))
/-- fixedpoint/fixedpoint.h:195-198 `MaskIfGreaterThanOrEqual`. -/
def maskIfGreaterThanOrEqual (a b : BitVec w) : BitVec w := maskIfNonZero (ofBool (b.sle a))
/-- fixedpoint/fixedpoint.h:202-205 `MaskIfLessThan`. -/
def maskIfLessThan (a b : BitVec w) : BitVec w := maskIfNonZero (ofBool (a.slt b))
/-- fixedpoint/fixedpoint.h:209-212 `MaskIfLessThanOrEqual`. -/
def maskIfLessThanOrEqual (a b : BitVec w) : BitVec w := maskIfNonZero (ofBool (a.sle b))

/-- fixedpoint/fixedpoint.h:217-220 `All` on one scalar. -/
def all (a : BitVec w) : Bool := a != 0
/-- fixedpoint/fixedpoint.h:225-228 `Any` on one scalar. -/
def any (a : BitVec w) : Bool := a != 0

/-- fixedpoint/fixedpoint.h:239-246 (int32) and 248-255 (int16) `RoundingHalfSum`.  The sum is
computed in a type twice as wide. -/
def roundingHalfSum (a b : BitVec w) : BitVec w :=
  let sum := a.toInt + b.toInt
  let sign : Int := if sum ≥ 0 then 1 else -1
  BitVec.ofInt w ((sum + sign).tdiv 2)

/-- fixedpoint/fixedpoint.h:265-273 (int16) and 275-283 (int8) `SaturatingAdd`. -/
def saturatingAdd (a b : BitVec w) : BitVec w :=
  BitVec.ofInt w (min (maxW w) (max (minW w) (a.toInt + b.toInt)))

/-- fixedpoint/fixedpoint.h:287-304 `AddSaturatingIf16Bit`. -/
def addSaturatingIf16Bit (m : OvMode) (a b : BitVec w) : M (BitVec w) :=
  if w = 16 then .ok (saturatingAdd a b) else add m a b

/-- fixedpoint/fixedpoint.h:345-356 (int32, `w = 32`) and 358-369 (int16, `w = 16`)
`SaturatingRoundingDoublingHighMul`.  The product is computed in a type twice as wide; the cast of
the quotient back to `w` bits wraps. -/
def srdhm (a b : BitVec w) : BitVec w :=
  let overflow := decide (a = b) && decide (a.toInt = minW w)
  let ab := a.toInt * b.toInt
  let nudge : Int := if ab ≥ 0 then 2 ^ (w - 2) else 1 - 2 ^ (w - 2)
  let high := BitVec.ofInt w ((ab + nudge).tdiv (2 ^ (w - 1)))
  if overflow then BitVec.ofInt w (maxW w) else high

/-- fixedpoint/fixedpoint.h:373-386 `RoundingDivideByPOT`, generic version. -/
def rdpot (m : OvMode) (x : BitVec w) (exponent : Int) : M (BitVec w) := do
  assertM (decide (exponent ≥ 0))
  assertM (decide (exponent ≤ 31))
  let mask := dup w (2 ^ exponent.toNat - 1)
  let zero := dup w 0
  let one := dup w 1
  let remainder := bitAnd x mask
  let half ← shiftRight mask 1
  let threshold ← add m half (bitAnd (maskIfLessThan x zero) one)
  let q ← shiftRight x exponent
  add m q (bitAnd (maskIfGreaterThan remainder threshold) one)

/-- fixedpoint/fixedpoint.h:392-428 `SaturatingRoundingMultiplyByPOT<Exponent>`.  `1 << k` for a
negative `k` does not compile; it is a fault here. -/
def srmbp (m : OvMode) (exponent : Int) (x : BitVec w) : M (BitVec w) :=
  if exponent = 0 then .ok x
  else if 0 < exponent then do
    let k : Int := w - 1 - exponent
    if k < 0 then .error .badOp
    else do
      let threshold : Int := 2 ^ k.toNat - 1
      let positiveMask := maskIfGreaterThan x (dup w threshold)
      let negativeMask := maskIfLessThan x (dup w (-threshold))
      let result ← shiftLeft x exponent
      let result := selectUsingMask positiveMask (dup w (maxW w)) result
      pure (selectUsingMask negativeMask (dup w (minW w)) result)
  else rdpot m x (-exponent)

end Fx
end Gemmlowp
