import Verif.TanhStage
import Verif.Transcendental
/-!
# fixedpoint/fixedpoint.h: conversions to and from double, and the build that checks the constants

With GEMMLOWP_ENABLE_FIXEDPOINT_CONSTANTS_CHECKS, `CheckedFixedPointConstant` (705-712) compares every constant of
the code with `FromDouble` of the expression beside it.  The functions here are those of `Transcendental.lean` in
that build; `ex` is the library's `std::exp`.
-/
namespace Gemmlowp.Fx

open TanhStage (fromDouble rn64)
open F32 (pow2)

variable {w : Nat}

/-- fixedpoint/fixedpoint.h:667-674 `ToDouble`. -/
def toDouble (w ib : Nat) (r : BitVec w) : Rat := rn64 ((r.toInt : Rat) / pow2 ((w : Int) - 1 - ib))

/-- fixedpoint/fixedpoint.h:706-712 `CheckedFixedPointConstant` on the value of `RescaleConstantInitializer`; the
`operator==` of 640-643 is equality. -/
def constantC (w ib : Nat) (v : Int) (d : Rat) : M (BitVec w) := do
  let r ← constant w v
  if r = fromDouble w ib d then .ok r else .error .assertion

/-- fixedpoint/fixedpoint.h:731-753. -/
def expIntervalC (ex : Rat → Rat) (m : OvMode) (a : BitVec w) : M (BitVec w) := do
  let constant_term ← constantC w 0 1895147668 (ex (-1 / 8))
  let constant_1_over_3 ← constantC w 0 715827883 (rn64 (1 / 3))
  let c ← constantPOT w 0 (-3)
  let x ← add m a c
  let x2 := srdhm x x
  let x3 := srdhm x2 x
  let x4 := srdhm x2 x2
  let x4_over_4 ← srmbp m (-2) x4
  let s ← add m x4_over_4 x3
  let t ← add m (srdhm s constant_1_over_3) x2
  let u ← srmbp m (-1) t
  let v ← add m x u
  addSaturatingIf16Bit m constant_term (srdhm constant_term v)

/-- fixedpoint/fixedpoint.h:770-779; `std::pow(2.0, Exponent)` is exact. -/
def expBarrelC (ex : Rat → Rat) (ib : Nat) (remainder : BitVec w) (e mult : Int) (result : BitVec w) :
    M (BitVec w) :=
  if (ib : Int) > e then do
    let kMultiplier ← constantC w 0 mult (ex (-pow2 e))
    let bit ← oneShl w (fracBits w ib + e)
    pure (selectUsingMask (maskIfNonZero (bitAnd remainder bit)) (srdhm result kMultiplier) result)
  else pure result

/-- fixedpoint/fixedpoint.h:792-798. -/
def expClampC (ib : Nat) (a result : BitVec w) : M (BitVec w) :=
  if (ib : Int) > 5 then do
    let k := 36 - (ib : Int)
    (if k < 0 ∨ 31 ≤ k then .error .badOp else .ok ()) >>= fun _ => do
    let clamp ← constantC w ib (-2 ^ k.toNat) (-32)
    pure (selectUsingMask (maskIfLessThan a clamp) (dup w 0) result)
  else pure result

/-- fixedpoint/fixedpoint.h:756-802. -/
def expNegC (ex : Rat → Rat) (m : OvMode) (ib : Nat) (a : BitVec w) : M (BitVec w) := do
  let kOneQuarter ← constantPOT w ib (-2)
  let mask ← sub m kOneQuarter (dup w 1)
  let amod ← sub m (bitAnd a mask) kOneQuarter
  let z ← rescale m ib 0 amod
  let result ← expIntervalC ex m z
  let remainder ← sub m amod a
  let result ← expBarrelC ex ib remainder (-2) 1672461947 result
  let result ← expBarrelC ex ib remainder (-1) 1302514674 result
  let result ← expBarrelC ex ib remainder 0 790015084 result
  let result ← expBarrelC ex ib remainder 1 290630308 result
  let result ← expBarrelC ex ib remainder 2 39332535 result
  let result ← expBarrelC ex ib remainder 3 720401 result
  let result ← expBarrelC ex ib remainder 4 242 result
  let result ← expClampC ib a result
  let o ← one w 0
  pure (selectUsingMask (maskIfZero a) o result)

/-- fixedpoint/fixedpoint.h:810-825 = 857-872. -/
def newtonC (m : OvMode) (a : BitVec w) : M (BitVec w) := do
  let o ← one w 0
  let half_denominator := roundingHalfSum a o
  let c48 ← constantC w 2 1515870810 (rn64 (48 / 17))
  let c32 ← constantC w 2 (-1010580540) (rn64 (-32 / 17))
  let x ← add m c48 (srdhm half_denominator c32)
  let x ← newtonStep m half_denominator x
  let x ← newtonStep m half_denominator x
  newtonStep m half_denominator x

/-- fixedpoint/fixedpoint.h:806-835. -/
def negTanhC (ex : Rat → Rat) (m : OvMode) (ib : Nat) (a : BitVec w) : M (BitVec w) := do
  let e ← expNegC ex m (ib + 1) a
  let x ← newtonC m e
  let o ← one w 2
  let y ← sub m x o
  rescale m 2 0 y

/-- fixedpoint/fixedpoint.h:838-848 `tanh`. -/
def tanhC (ex : Rat → Rat) (m : OvMode) (ib : Nat) (a : BitVec w) : M (BitVec w) := do
  let mask_if_negative := maskIfLessThan a (dup w 0)
  let mask_if_zero := maskIfZero a
  let na ← neg m a
  let n := selectUsingMask mask_if_negative a na
  let t ← negTanhC ex m ib n
  let nt ← neg m t
  pure (selectUsingMask mask_if_zero (dup w 0) (selectUsingMask mask_if_negative nt t))

/-- fixedpoint/fixedpoint.h:853-881. -/
def logisticPosC (ex : Rat → Rat) (m : OvMode) (ib : Nat) (a : BitVec w) : M (BitVec w) := do
  let na ← neg m a
  let e ← expNegC ex m ib na
  let x ← newtonC m e
  rescale m 1 0 x

/-- fixedpoint/fixedpoint.h:884-899 `logistic`. -/
def logisticC (ex : Rat → Rat) (m : OvMode) (ib : Nat) (a : BitVec w) : M (BitVec w) := do
  let mask_if_positive := maskIfGreaterThan a (dup w 0)
  let mask_if_zero := maskIfZero a
  let na ← neg m a
  let abs_input := selectUsingMask mask_if_positive a na
  let result_if_positive ← logisticPosC ex m ib abs_input
  let o ← one w 0
  let result_if_negative ← sub m o result_if_positive
  let one_half ← constantC w 0 (2 ^ 30) (1 / 2)
  pure (selectUsingMask mask_if_zero one_half
    (selectUsingMask mask_if_positive result_if_positive result_if_negative))

end Gemmlowp.Fx
