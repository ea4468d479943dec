import Verif.OutSimd
import Verif.Float32
/-!
# internal/output.h: the constructor of the tanh output stage, with its doubles

Doubles are numbers here, each operation rounds to 53 significant bits (IEEE binary64, to nearest,
ties to even).  The exponents stay between -31 and 62, far from where binary64 overflows or loses bits.
-/
namespace Gemmlowp.TanhStage

open F32 (pow2 expo roundEven)

/-- The nearest binary64 number to a positive number. -/
def rnPos (q : Rat) : Rat := (roundEven (q / pow2 (expo q - 52)) : Int) * pow2 (expo q - 52)

/-- The nearest binary64 number. -/
def rn64 (q : Rat) : Rat := if q = 0 then 0 else if q < 0 then -rnPos (-q) else rnPos q

/-- The C function `round`: to the nearest integer, halves away from zero. -/
def roundAway (q : Rat) : Int := if q < 0 then -(-q + 1 / 2).floor else (q + 1 / 2).floor

/-- fixedpoint/fixedpoint.h:526-533 `FixedPoint<T, ib>::FromDouble` for a scalar type `T` of `w` bits, on a finite
number; the bounds are exact as doubles. -/
def fromDouble (w ib : Nat) (x : Rat) : BitVec w :=
  BitVec.ofInt w (min (max (roundAway (rn64 (x * pow2 ((w : Int) - 1 - ib)))) (Fx.minW w)) (Fx.maxW w))

/-- internal/output.h:377-380: `while (x < 0.5) { x *= 2; e++; }`.  After 64 passes this is given up: from
the reciprocal of a positive int32 it takes 31 at most, and a number that is not positive never gets there. -/
def grow : Nat → Rat → Int → M (Rat × Int)
  | 0, _, _ => .error .diverge
  | n + 1, x, e => if x < 1 / 2 then grow n (rn64 (x * 2)) (e + 1) else .ok (x, e)

/-- internal/output.h:386-389: `while (x >= 1.0) { x *= 0.5; e++; }`, with the same limit. -/
def shrink : Nat → Rat → Int → M (Rat × Int)
  | 0, _, _ => .error .diverge
  | n + 1, x, e => if 1 ≤ x then shrink n (rn64 (x * (1 / 2))) (e + 1) else .ok (x, e)

/-- internal/output.h:365-392, the constructor, without the integer bounds 370-373 (they are in `tanhReg`,
`tanhVec`).  `1.0 / 0` is infinite: the loop is not entered, and `FromDouble` gives the largest number. -/
def tanhInit (zero amplitude : BitVec 32) : M TanhParams := do
  let (inv, e) ←
    if amplitude.toInt = 0 then pure (0x7fffffff#32, 0)
    else do
      let (x, e) ← grow 64 (rn64 (1 / (amplitude.toInt : Rat))) 0
      pure (fromDouble 32 0 x, e)
  let (x, e') ← shrink 64 (amplitude.toInt : Rat) 0
  pure { zero := zero, amplitude := amplitude, inverseAmplitude := inv, inverseNegExponent := e,
         amplitudeNormalized := fromDouble 32 0 x, amplitudeExponent := e' }

end Gemmlowp.TanhStage
