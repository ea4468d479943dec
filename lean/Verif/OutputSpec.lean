import Verif.Output
import Verif.FixedSpec
/-!
# What the output stages are documented to do (public/output_stages.h), on plain integers

`s.Maps r c x y`: for the entry at row `r` and column `c`, stage `s` turns `x` into `y`, and no value
met on the way leaves the int32 range.  Only the fields of the stages are used, none of the
functions of the model.
-/
namespace Gemmlowp
namespace Spec

/-- `FixedPointMul`: nearest integer to `x * mu / 2^31`, the largest int32 for `(-1) * (-1)`. -/
def HighMul (x mu h : Int) : Prop :=
  if x = -2147483648 ∧ mu = -2147483648 then h = 2147483647 else NearestUp (x * mu) 2147483648 h

/-- `((x + offset) * mult) / 2^shift`, rounded to nearest. -/
def QuantizeDown (offset mult shift x y : Int) : Prop :=
  0 ≤ shift ∧ shift ≤ 31 ∧ InI32 (x + offset) ∧ InI32 ((x + offset) * mult) ∧
    NearestAway ((x + offset) * mult) (2 ^ shift.toNat) y

/-- `x * mult / 2^31 / 2^shift + offset`, two roundings. -/
def ByFixedPoint (mult shift offset x y : Int) : Prop :=
  0 ≤ shift ∧ shift ≤ 31 ∧ InI32 y ∧
    ∃ h, HighMul x mult h ∧ NearestAway h (2 ^ shift.toNat) (y - offset)

/-- A multiplication by `2^e` (saturating) before the multiplication for `e > 0`, a division by
`2^-e` after it for `e < 0`. -/
def ByExponent (mult e offset x y : Int) : Prop :=
  if 0 < e then e ≤ 30 ∧
    ByFixedPoint mult 0 offset (clampTo (-2147483648) 2147483647 (x * 2 ^ e.toNat)) y
  else ByFixedPoint mult (-e) offset x y

end Spec

/-- Element number `r` (shape `col`) or `c` (shape `row`) of the vector is `v`. -/
def VMap.Elem (a : VMap) (sh : VectorShape) (r c : Nat) (v : BitVec 32) : Prop :=
  match sh with
  | .col => a.data (a.base + r) = some v
  | .row => a.data (a.base + c) = some v

/-- The element of a bias vector that belongs to row `r`, column `c`. -/
def OffsetVec.Elem (a : OffsetVec) (r c : Nat) (v : BitVec 32) : Prop :=
  match a with
  | .map .col d b _ => d (b + r) = some v
  | .map .row d b _ => d (b + c) = some v
  | .dup _ x _ => x = v

/-- What each stage does to one entry.  The tanh stage is not described here. -/
def Stage.Maps (s : Stage) (r c : Nat) (x y : Int) : Prop :=
  match s with
  | .quantizeDown o mu sh => Spec.QuantizeDown o.toInt mu.toInt sh.toInt x y
  | .quantizeDownPC shape o mu sh => ∃ ov mv : BitVec 32, o.Elem shape r c ov ∧ mu.Elem shape r c mv ∧
      Spec.QuantizeDown ov.toInt mv.toInt sh.toInt x y
  | .byFixedPoint mu sh o => Spec.ByFixedPoint mu.toInt sh.toInt o.toInt x y
  | .byExponent mu e o => Spec.ByExponent mu.toInt e.toInt o.toInt x y
  | .byExponentPC shape mu e o => ∃ mv ev : BitVec 32, mu.Elem shape r c mv ∧ e.Elem shape r c ev ∧
      Spec.ByExponent mv.toInt ev.toInt o.toInt x y
  | .bias v => ∃ b : BitVec 32, v.Elem r c b ∧ y = x + b.toInt ∧ InI32 y
  | .clamp lo hi => y = min (max x lo.toInt) hi.toInt
  | .tanh _ => False

/-- A list of stages, first to last. -/
def StagesMap : List Stage → Nat → Nat → Int → Int → Prop
  | [], _, _, x, y => y = x
  | s :: rest, r, c, x, y => ∃ z, s.Maps r c x z ∧ StagesMap rest r c z y

/-- The final cast. -/
def Cast.value (k : Cast) (x : Int) : Int :=
  match k with
  | .none => x
  | .satUint8 => Spec.clampTo 0 255 x
  | .satInt8 => Spec.clampTo (-128) 127 x
  | .satInt16 => Spec.clampTo (-32768) 32767 x
  | .truncUint8 => x % 256

/-- A pipeline turns the accumulator `x` at `(r, c)` into the stored value `v`. -/
def Pipeline.Maps (p : Pipeline) (r c : Nat) (x v : Int) : Prop :=
  ∃ y, StagesMap p.stages r c x y ∧ v = p.cast.value y

end Gemmlowp
