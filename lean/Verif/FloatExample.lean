import Verif.Float32
import Verif.TanhStage
/-!
# doc/quantization_example.cc in IEEE arithmetic

The functions of `Quantize.lean` as the program runs them: `float` is binary32 (`Float32.lean`, without flushing),
`double` is binary64.  Every operation rounds to its type (FLT_EVAL_METHOD is 0), to nearest, ties to even.  A double is
a NaN, an infinity or a rational; the doubles here are quotients of floats, so that they are never subnormal and never
overflow.
-/
namespace Gemmlowp.FloatExample

open F32
open TanhStage (rnPos roundAway)

/-- `a / b` of floats. -/
def fdiv (a b : BitVec 32) : BitVec 32 :=
  if isNaN a || isNaN b then qnan
  else if isInf a then (if isInf b then qnan else pack (neg a != neg b) infBits)
  else if isInf b then pack (neg a != neg b) 0
  else if mag b = 0 then (if mag a = 0 then qnan else pack (neg a != neg b) infBits)
  else rnd false (neg a != neg b) |val a / val b|

/-- The place of a float that is no NaN in the order of floats; both zeros are at 0. -/
def place (a : BitVec 32) : Int := if neg a then -(mag a : Int) else mag a

/-- `a < b` of floats. -/
def flt (a b : BitVec 32) : Bool := !isNaN a && !isNaN b && decide (place a < place b)

/-- `std::min(a, b)`. -/
def stdMin (a b : BitVec 32) : BitVec 32 := if flt b a then b else a

/-- `std::max(a, b)`. -/
def stdMax (a b : BitVec 32) : BitVec 32 := if flt a b then b else a

/-- 0.f, 255.f, 0.5f, 1.f, 2.f and `static_cast<float>(1ll << 31)`. -/
def f0 : BitVec 32 := 0#32
@[inherit_doc f0] def f255 : BitVec 32 := 0x437F0000#32
@[inherit_doc f0] def fHalf : BitVec 32 := 0x3F000000#32
@[inherit_doc f0] def f1 : BitVec 32 := 0x3F800000#32
@[inherit_doc f0] def f2 : BitVec 32 := 0x40000000#32
@[inherit_doc f0] def f2p31 : BitVec 32 := 0x4F000000#32

/-- A double. -/
inductive Dbl where
  | nan
  | inf (neg : Bool)
  /-- A sign and the absolute value. -/
  | fin (neg : Bool) (abs : Rat)
  deriving DecidableEq

/-- Conversion of a float to double. -/
def toDbl (a : BitVec 32) : Dbl :=
  if isNaN a then .nan else if isInf a then .inf (neg a) else .fin (neg a) (magVal (mag a))

/-- `x / y` of doubles. -/
def ddiv : Dbl → Dbl → Dbl
  | .nan, _ => .nan
  | _, .nan => .nan
  | .inf _, .inf _ => .nan
  | .inf s, .fin t _ => .inf (s != t)
  | .fin s _, .inf t => .fin (s != t) 0
  | .fin s p, .fin t q =>
    if q = 0 then (if p = 0 then .nan else .inf (s != t)) else .fin (s != t) (if p = 0 then 0 else rnPos (p / q))

/-- `0 - x` of doubles. -/
def zeroMinus : Dbl → Dbl
  | .nan => .nan
  | .inf s => .inf (!s)
  | .fin s q => if q = 0 then .fin false 0 else .fin (!s) q

/-- doc/quantization_example.cc:64-67, the scale a float. -/
structure Params where
  scale : BitVec 32
  zeroPoint : BitVec 8
  deriving DecidableEq

/-- doc/quantization_example.cc:92-106: `initial_zero_point` to uint8. Conversion of a NaN is undefined. -/
def nudge : Dbl → M (BitVec 8)
  | .nan => .error .badOp
  | .inf s => .ok (if s then 0 else 255)
  | .fin s q =>
    let x := if s then -q else q
    if x < 0 then .ok 0 else if 255 < x then .ok 255 else .ok (BitVec.ofInt 8 (roundAway x))

/-- doc/quantization_example.cc:71-112.  `max - min`, `qmax - qmin` and their quotient are floats; `scale` is that
quotient as a double, and the conversion back to float gives the quotient itself. -/
def chooseParams (min0 max0 : BitVec 32) : M Params := do
  let mn := stdMin min0 f0
  let mx := stdMax max0 f0
  let scale := fdiv (sub false mx mn) (sub false f255 f0)
  let zero_point ← nudge (zeroMinus (ddiv (toDbl mn) (toDbl scale)))
  pure { scale := scale, zeroPoint := zero_point }

/-- `static_cast<float>(x)` of a uint8 or a small int. -/
def ofSmall (x : Int) : BitVec 32 := ofInt (BitVec.ofInt 32 x)

/-- doc/quantization_example.cc:133-142, one element. -/
def quantizeOne (p : Params) (x : BitVec 32) : BitVec 8 :=
  let transformed_val := add false (ofSmall p.zeroPoint.toNat) (fdiv x p.scale)
  let clamped_val := stdMax f0 (stdMin f255 transformed_val)
  BitVec.ofInt 8 (roundAway (val clamped_val))

/-- doc/quantization_example.cc:144-151, one element. -/
def dequantizeOne (p : Params) (v : BitVec 8) : BitVec 32 :=
  mul false p.scale (ofSmall ((v.toNat : Int) - p.zeroPoint.toNat))

/-- doc/quantization_example.cc:220-223: the loop.  `fuel` rounds are allowed. -/
def bringUp : Nat → BitVec 32 → Nat → M (BitVec 32 × Nat)
  | 0, _, _ => .error .diverge
  | fuel + 1, r, s => if flt r fHalf then bringUp fuel (mul false r f2) (s + 1) else .ok (r, s)

/-- doc/quantization_example.cc:210-241.  The product with 2^31 and its rounding are floats; the theorems show that the
loop ends and that the conversion to `int64_t` is defined. -/
def quantizeMultiplier (r : BitVec 32) : M (Int × Int) := do
  assertM (flt f0 r)
  assertM (flt r f1)
  let (r, s) ← bringUp 1000 r 0
  let q := roundAway (val (mul false r f2p31))
  assertM (decide (q ≤ 2147483648))
  let (q, s) : Int × Int := if q = 2147483648 then (q / 2, (s : Int) - 1) else (q, (s : Int))
  assertM (decide (0 ≤ s))
  assertM (decide (q ≤ 2147483647))
  pure (q, s)

/-- doc/quantization_example.cc:336-337. -/
def realMultiplier (lhs rhs result : Params) : BitVec 32 := fdiv (mul false lhs.scale rhs.scale) result.scale

/-- doc/quantization_example.cc:42-53, on a matrix given by its entries. -/
def findMinMax (rows cols : Nat) (m : Nat → Nat → BitVec 32) : M (BitVec 32 × BitVec 32) :=
  if rows = 0 ∨ cols = 0 then .error .oob
  else .ok ((List.range rows).foldl (fun s i =>
    (List.range cols).foldl (fun s j => (stdMin s.1 (m i j), stdMax s.2 (m i j))) s) (m 0 0, m 0 0))

/-- doc/quantization_example.cc:114-131, one entry: `result += lhs(i, j) * rhs(j, k)` for each `j` in turn. -/
def dotF (lhs rhs : Nat → BitVec 32) : Nat → BitVec 32
  | 0 => f0
  | d + 1 => add false (dotF lhs rhs d) (mul false (lhs d) (rhs d))

end Gemmlowp.FloatExample
