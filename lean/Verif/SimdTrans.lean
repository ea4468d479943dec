import Verif.Simd
/-!
# fixedpoint/fixedpoint.h: exp, tanh and logistic on vector raw types

The templates of `Transcendental.lean` once more, now over the operations of a raw type.  Constants
are scalars (`ScalarRawType`) spread with `Dup`.
-/
namespace Gemmlowp.Gen

variable {w : Nat} {V : Type}

/-- fixedpoint/fixedpoint.h:287-304 `AddSaturatingIf16Bit`. -/
def addSaturatingIf16Bit (O : RawOps w V) (a b : V) : V :=
  if w = 16 then O.saturatingAdd a b else O.add a b

/-- fixedpoint/fixedpoint.h:678-685 `Rescale<dst>(FixedPoint<T, src>)`. -/
def rescale (O : RawOps w V) (src dst : Int) (x : V) : M V := O.srmbp (src - dst) x

/-- fixedpoint/fixedpoint.h:731-753
`exp_on_interval_between_negative_one_quarter_and_0_excl`. -/
def expInterval (O : RawOps w V) (a : V) : M V := do
  let constant_term ← Fx.constant w 1895147668
  let constant_1_over_3 ← Fx.constant w 715827883
  let c ← Fx.constantPOT w 0 (-3)
  let x := O.add a (O.dup c)
  let x2 := O.srdhm x x
  let x3 := O.srdhm x2 x
  let x4 := O.srdhm x2 x2
  let x4_over_4 ← O.srmbp (-2) x4
  let s := O.add x4_over_4 x3
  let t := O.add (O.srdhm s (O.dup constant_1_over_3)) x2
  let u ← O.srmbp (-1) t
  let v := O.add x u
  pure (addSaturatingIf16Bit O (O.dup constant_term) (O.srdhm (O.dup constant_term) v))

/-- fixedpoint/fixedpoint.h:770-779 `GEMMLOWP_EXP_BARREL_SHIFTER(Exponent, Multiplier)`. -/
def expBarrel (O : RawOps w V) (ib : Int) (remainder : V) (e mult : Int) (result : V) : M V :=
  if ib > e then do
    let kMultiplier ← Fx.constant w mult
    let bit ← Fx.oneShl w (Fx.fracBits w ib + e)
    pure (O.selectUsingMask (O.maskIfNonZero (O.bitAnd remainder (O.dup bit)))
      (O.srdhm result (O.dup kMultiplier)) result)
  else pure result

/-- fixedpoint/fixedpoint.h:792-798: the clamp applied when there are more than 5 integer bits. -/
def expClamp (O : RawOps w V) (ib : Int) (a result : V) : M V :=
  if ib > 5 then do
    let k := 36 - ib
    (if k < 0 ∨ 31 ≤ k then .error .badOp else .ok ()) >>= fun _ => do
    let clamp ← Fx.constant w (-2 ^ k.toNat)
    pure (O.selectUsingMask (O.maskIfLessThan a (O.dup clamp)) (O.dup 0) result)
  else pure result

/-- fixedpoint/fixedpoint.h:756-802 `exp_on_negative_values`. -/
def expNeg (O : RawOps w V) (ib : Int) (a : V) : M V := do
  let kOneQuarter ← Fx.constantPOT w ib (-2)
  let mask := O.sub (O.dup kOneQuarter) (O.dup 1)
  let amod := O.sub (O.bitAnd a mask) (O.dup kOneQuarter)
  let z ← rescale O ib 0 amod
  let result ← expInterval O z
  let remainder := O.sub amod a
  let result ← expBarrel O ib remainder (-2) 1672461947 result
  let result ← expBarrel O ib remainder (-1) 1302514674 result
  let result ← expBarrel O ib remainder 0 790015084 result
  let result ← expBarrel O ib remainder 1 290630308 result
  let result ← expBarrel O ib remainder 2 39332535 result
  let result ← expBarrel O ib remainder 3 720401 result
  let result ← expBarrel O ib remainder 4 242 result
  let result ← expClamp O ib a result
  let o ← Fx.one w 0
  pure (O.selectUsingMask (O.maskIfZero a) (O.dup o) result)

/-- One round of fixedpoint/fixedpoint.h:820-825 and 867-872 (Newton-Raphson division). -/
def newtonStep (O : RawOps w V) (half_denominator x : V) : M V := do
  let hx := O.srdhm half_denominator x
  let o ← Fx.one w 2
  let d := O.sub (O.dup o) hx
  let y ← rescale O 4 2 (O.srdhm x d)
  pure (O.add x y)

/-- fixedpoint/fixedpoint.h:810-825 = 857-872: the common part of the two functions below. -/
def newton (O : RawOps w V) (a : V) : M V := do
  let o ← Fx.one w 0
  let half_denominator := O.roundingHalfSum a (O.dup o)
  let c48 ← Fx.constant w 1515870810
  let c32 ← Fx.constant w (-1010580540)
  let x := O.add (O.dup c48) (O.srdhm half_denominator (O.dup c32))
  let x ← newtonStep O half_denominator x
  let x ← newtonStep O half_denominator x
  newtonStep O half_denominator x

/-- fixedpoint/fixedpoint.h:806-827 `one_minus_x_over_one_plus_x_for_x_in_0_1`. -/
def oneMinusOver (O : RawOps w V) (a : V) : M V := do
  let x ← newton O a
  let o ← Fx.one w 2
  let y := O.sub x (O.dup o)
  rescale O 2 0 y

/-- fixedpoint/fixedpoint.h:830-835 `neg_tanh_on_negative_values`. -/
def negTanh (O : RawOps w V) (ib : Int) (a : V) : M V := do
  let e ← expNeg O (ib + 1) a
  oneMinusOver O e

/-- fixedpoint/fixedpoint.h:838-848 `tanh`. -/
def tanh (O : RawOps w V) (ib : Int) (a : V) : M V := do
  let mask_if_negative := O.maskIfLessThan a (O.dup 0)
  let mask_if_zero := O.maskIfZero a
  let n := O.selectUsingMask mask_if_negative a (O.neg a)
  let t ← negTanh O ib n
  pure (O.selectUsingMask mask_if_zero (O.dup 0) (O.selectUsingMask mask_if_negative (O.neg t) t))

/-- fixedpoint/fixedpoint.h:853-874 `one_over_one_plus_x_for_x_in_0_1`. -/
def oneOver (O : RawOps w V) (a : V) : M V := do
  let x ← newton O a
  rescale O 1 0 x

/-- fixedpoint/fixedpoint.h:877-881 `logistic_on_positive_values`. -/
def logisticPos (O : RawOps w V) (ib : Int) (a : V) : M V := do
  let e ← expNeg O ib (O.neg a)
  oneOver O e

/-- fixedpoint/fixedpoint.h:884-899 `logistic`. -/
def logistic (O : RawOps w V) (ib : Int) (a : V) : M V := do
  let mask_if_positive := O.maskIfGreaterThan a (O.dup 0)
  let mask_if_zero := O.maskIfZero a
  let abs_input := O.selectUsingMask mask_if_positive a (O.neg a)
  let result_if_positive ← logisticPos O ib abs_input
  let o ← Fx.one w 0
  let result_if_negative := O.sub (O.dup o) result_if_positive
  let one_half ← Fx.constant w (2 ^ 30)
  pure (O.selectUsingMask mask_if_zero (O.dup one_half)
    (O.selectUsingMask mask_if_positive result_if_positive result_if_negative))

end Gemmlowp.Gen
