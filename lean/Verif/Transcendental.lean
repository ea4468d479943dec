import Verif.FixedPoint
/-!
# fixedpoint/fixedpoint.h: the FixedPoint class, exp, tanh and logistic, scalar versions

`FixedPoint<RawType, ib>` is represented by its raw value, a `BitVec w`, the number `ib` of integer
bits being passed as an argument where it matters.  So `ExactMulByPot` is the identity, and an
operator on `FixedPoint` is the operator on raw values.
-/
namespace Gemmlowp.Fx

variable {w : Nat}

/-- `kFractionalBits` (fixedpoint/fixedpoint.h:470). -/
def fracBits (w : Nat) (ib : Int) : Int := w - 1 - ib

/-- `T(1) << k`, computed in `int` and converted: `k` negative or above 30 is a fault. -/
def oneShl (w : Nat) (k : Int) : M (BitVec w) :=
  if k < 0 ∨ 31 ≤ k then .error .badOp else .ok (BitVec.ofInt w (2 ^ k.toNat))

/-- fixedpoint/fixedpoint.h:508-515 `ConstantPOT<Exponent>()`. -/
def constantPOT (w : Nat) (ib e : Int) : M (BitVec w) := oneShl w (fracBits w ib + e)

/-- fixedpoint/fixedpoint.h:519-524 `One()`. -/
def one (w : Nat) (ib : Int) : M (BitVec w) :=
  if ib = 0 then .ok (dup w (maxW w)) else oneShl w (fracBits w ib)

/-- fixedpoint/fixedpoint.h:678-685 `Rescale<dst>(FixedPoint<T, src>)`. -/
def rescale (m : OvMode) (src dst : Int) (x : BitVec w) : M (BitVec w) := srmbp m (src - dst) x

/-- fixedpoint/fixedpoint.h:697-704 `RescaleConstantInitializer` (so
`GEMMLOWP_CHECKED_FIXEDPOINT_CONSTANT`, 705-727, without the optional check against a double). -/
def constant (w : Nat) (v : Int) : M (BitVec w) := do
  let r ← rdpot .trap (BitVec.ofInt 32 v) (32 - w)
  pure (BitVec.ofInt w r.toInt)

/-- fixedpoint/fixedpoint.h:731-753
`exp_on_interval_between_negative_one_quarter_and_0_excl`. -/
def expInterval (m : OvMode) (a : BitVec w) : M (BitVec w) := do
  let constant_term ← constant w 1895147668
  let constant_1_over_3 ← constant w 715827883
  let c ← constantPOT w 0 (-3)
  let x ← add m a c
  let x2 := srdhm x x
  let x3 := srdhm x2 x
  let x4 := srdhm x2 x2
  let x4_over_4 ← srmbp m (-2) x4
  let s ← add m x4_over_4 x3
  let t ← add m (srdhm s constant_1_over_3) x2
  let u ← srmbp m (-1) t
  let v ← add m x u
  addSaturatingIf16Bit m constant_term (srdhm constant_term v)

/-- fixedpoint/fixedpoint.h:770-779 `GEMMLOWP_EXP_BARREL_SHIFTER(Exponent, Multiplier)`. -/
def expBarrel (ib : Int) (remainder : BitVec w) (e mult : Int) (result : BitVec w) :
    M (BitVec w) :=
  if ib > e then do
    let kMultiplier ← constant w mult
    let bit ← oneShl w (fracBits w ib + e)
    pure (selectUsingMask (maskIfNonZero (bitAnd remainder bit)) (srdhm result kMultiplier) result)
  else pure result

/-- fixedpoint/fixedpoint.h:792-798: the clamp applied when there are more than 5 integer bits. -/
def expClamp (ib : Int) (a result : BitVec w) : M (BitVec w) :=
  if ib > 5 then do
    let k := 36 - ib
    (if k < 0 ∨ 31 ≤ k then .error .badOp else .ok ()) >>= fun _ => do
    let clamp ← constant w (-2 ^ k.toNat)
    pure (selectUsingMask (maskIfLessThan a clamp) (dup w 0) result)
  else pure result

/-- fixedpoint/fixedpoint.h:756-802 `exp_on_negative_values`. -/
def expNeg (m : OvMode) (ib : Int) (a : BitVec w) : M (BitVec w) := do
  let kOneQuarter ← constantPOT w ib (-2)
  let mask ← sub m kOneQuarter (dup w 1)
  let amod ← sub m (bitAnd a mask) kOneQuarter
  let z ← rescale m ib 0 amod
  let result ← expInterval m z
  let remainder ← sub m amod a
  let result ← expBarrel ib remainder (-2) 1672461947 result
  let result ← expBarrel ib remainder (-1) 1302514674 result
  let result ← expBarrel ib remainder 0 790015084 result
  let result ← expBarrel ib remainder 1 290630308 result
  let result ← expBarrel ib remainder 2 39332535 result
  let result ← expBarrel ib remainder 3 720401 result
  let result ← expBarrel ib remainder 4 242 result
  let result ← expClamp ib a result
  let o ← one w 0
  pure (selectUsingMask (maskIfZero a) o result)

/-- One round of fixedpoint/fixedpoint.h:820-825 and 867-872 (Newton-Raphson division). -/
def newtonStep (m : OvMode) (half_denominator x : BitVec w) : M (BitVec w) := do
  let hx := srdhm half_denominator x
  let o ← one w 2
  let d ← sub m o hx
  let y ← rescale m 4 2 (srdhm x d)
  add m x y

/-- fixedpoint/fixedpoint.h:810-825 = 857-872: the common part of the two functions below, an
approximation of `1 / half_denominator` with two integer bits, where
`half_denominator = (1 + a) / 2`. -/
def newton (m : OvMode) (a : BitVec w) : M (BitVec w) := do
  let o ← one w 0
  let half_denominator := roundingHalfSum a o
  let c48 ← constant w 1515870810
  let c32 ← constant w (-1010580540)
  let x ← add m c48 (srdhm half_denominator c32)
  let x ← newtonStep m half_denominator x
  let x ← newtonStep m half_denominator x
  newtonStep m half_denominator x

/-- fixedpoint/fixedpoint.h:806-827 `one_minus_x_over_one_plus_x_for_x_in_0_1`. -/
def oneMinusOver (m : OvMode) (a : BitVec w) : M (BitVec w) := do
  let x ← newton m a
  let o ← one w 2
  let y ← sub m x o
  rescale m 2 0 y

/-- fixedpoint/fixedpoint.h:830-835 `neg_tanh_on_negative_values`. -/
def negTanh (m : OvMode) (ib : Int) (a : BitVec w) : M (BitVec w) := do
  let e ← expNeg m (ib + 1) a
  oneMinusOver m e

/-- fixedpoint/fixedpoint.h:838-848 `tanh`. -/
def tanh (m : OvMode) (ib : Int) (a : BitVec w) : M (BitVec w) := do
  let mask_if_negative := maskIfLessThan a (dup w 0)
  let mask_if_zero := maskIfZero a
  let na ← neg m a
  let n := selectUsingMask mask_if_negative a na
  let t ← negTanh m ib n
  let nt ← neg m t
  pure (selectUsingMask mask_if_zero (dup w 0) (selectUsingMask mask_if_negative nt t))

/-- fixedpoint/fixedpoint.h:853-874 `one_over_one_plus_x_for_x_in_0_1`. -/
def oneOver (m : OvMode) (a : BitVec w) : M (BitVec w) := do
  let x ← newton m a
  rescale m 1 0 x

/-- fixedpoint/fixedpoint.h:877-881 `logistic_on_positive_values`. -/
def logisticPos (m : OvMode) (ib : Int) (a : BitVec w) : M (BitVec w) := do
  let na ← neg m a
  let e ← expNeg m ib na
  oneOver m e

/-- fixedpoint/fixedpoint.h:884-899 `logistic`. -/
def logistic (m : OvMode) (ib : Int) (a : BitVec w) : M (BitVec w) := do
  let mask_if_positive := maskIfGreaterThan a (dup w 0)
  let mask_if_zero := maskIfZero a
  let na ← neg m a
  let abs_input := selectUsingMask mask_if_positive a na
  let result_if_positive ← logisticPos m ib abs_input
  let o ← one w 0
  let result_if_negative ← sub m o result_if_positive
  let one_half ← constant w (2 ^ 30)
  pure (selectUsingMask mask_if_zero one_half
    (selectUsingMask mask_if_positive result_if_positive result_if_negative))

end Gemmlowp.Fx
