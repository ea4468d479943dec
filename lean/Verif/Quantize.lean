import Verif.Base
import Mathlib.Algebra.Order.Floor.Ring
import Mathlib.Data.Rat.Floor

/-!
# The quantization code of doc/quantization_example.cc

The real numbers of the program are rational numbers here.  `QuantizeMultiplierSmallerThanOne` only
scales by powers of two and rounds to an integer, which float arithmetic does exactly, so that for it
nothing is left out.  In the other functions the roundings of the float and double operations are left
out: they compute in exact arithmetic.
-/

namespace Gemmlowp

/-- `std::round`: to the nearest integer, halves away from zero. -/
def roundAway (x : ℚ) : Int := if 0 ≤ x then ⌊x + 1 / 2⌋ else -⌊-x + 1 / 2⌋

/-- doc/quantization_example.cc:42-53, on a matrix given by its entries.  The first reading of
`m(0, 0)` needs an entry. -/
def findMinMax (rows cols : Nat) (m : Nat → Nat → ℚ) : M (ℚ × ℚ) :=
  if rows = 0 ∨ cols = 0 then .error .oob
  else .ok ((List.range rows).foldl (fun s i =>
    (List.range cols).foldl (fun s j => (min s.1 (m i j), max s.2 (m i j))) s) (m 0 0, m 0 0))

/-- doc/quantization_example.cc:64-67. -/
structure QuantizationParams where
  scale : ℚ
  zeroPoint : Nat
  deriving DecidableEq

/-- doc/quantization_example.cc:71-112.  If the range is `[0, 0]` then the quotient `min / scale` is the
NaN `0 / 0`, whose conversion to `std::uint8_t` is undefined. -/
def chooseQuantizationParams (min0 max0 : ℚ) : M QuantizationParams :=
  let mn := min min0 0
  let mx := max max0 0
  let scale := (mx - mn) / (255 - 0)
  if scale = 0 then .error .badOp
  else
    let initial := 0 - mn / scale
    let nudged : Nat :=
      if initial < 0 then 0 else if 255 < initial then 255 else (roundAway initial).toNat
    .ok { scale := scale, zeroPoint := nudged }

/-- doc/quantization_example.cc:133-142, one element.  A zero scale gives an infinity or a NaN. -/
def quantizeOne (p : QuantizationParams) (x : ℚ) : M Nat :=
  if p.scale = 0 then .error .badOp
  else
    let transformed := (p.zeroPoint : ℚ) + x / p.scale
    let clamped := max 0 (min 255 transformed)
    .ok (roundAway clamped).toNat

/-- doc/quantization_example.cc:144-151, one element. -/
def dequantizeOne (p : QuantizationParams) (v : Nat) : ℚ :=
  p.scale * (((v : Int) - (p.zeroPoint : Int) : Int) : ℚ)

/-- doc/quantization_example.cc:220-223: the loop, for the multiplier `p / q`; its value after the loop
is the first result over `q`. -/
def bringUp (p q s : Nat) : Nat × Nat :=
  if h : 0 < p ∧ 2 * p < q then bringUp (2 * p) q (s + 1) else (p, s)
termination_by q - p
decreasing_by omega

/-- doc/quantization_example.cc:210-241. -/
def quantizeMultiplierSmallerThanOne (r : ℚ) : M (Int × Int) := do
  assertM (decide (0 < r))
  assertM (decide (r < 1))
  let t := bringUp r.num.toNat r.den 0
  let q := roundAway (((t.1 : ℚ) / r.den) * 2147483648)
  assertM (decide (q ≤ 2147483648))
  let u : Int × Int := if q = 2147483648 then (q / 2, (t.2 : Int) - 1) else (q, (t.2 : Int))
  assertM (decide (0 ≤ u.2))
  assertM (decide (u.1 ≤ 2147483647))
  pure u

end Gemmlowp
