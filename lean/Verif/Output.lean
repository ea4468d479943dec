import Verif.Unpack
import Verif.Transcendental
/-!
# public/output_stages.h and internal/output.h: output stages and pipelines

Scalar code path: each register holds one scalar.  `m` is the meaning of signed overflow of int32
additions, subtractions and multiplications.
-/
namespace Gemmlowp

/-- A `VectorMap<const int32_t, shape>` (public/map.h:83-110) whose shape is a template parameter
of the stage that holds it. -/
structure VMap where
  data : Nat → Option (BitVec 32)
  base : Nat
  size : Nat

/-- The vector together with its shape parameter. -/
def VMap.vec (v : VMap) (sh : VectorShape) : OffsetVec := .map sh v.data v.base v.size

/-- What the constructor internal/output.h:365-392 of the tanh stage derives from
`real_zero_as_int32`, `real_amplitude_as_int32`.  The two normalised values are computed with
doubles in the code (375-391), so they and their exponents are parameters here; the four bounds are
int32 arithmetic (370-373). -/
structure TanhParams where
  zero : BitVec 32
  amplitude : BitVec 32
  inverseAmplitude : BitVec 32
  inverseNegExponent : Int
  amplitudeNormalized : BitVec 32
  amplitudeExponent : Int

/-- public/output_stages.h:28-205: the stages that turn int32 into int32. -/
inductive Stage
  /-- 40-44 `OutputStageQuantizeDownInt32ToUint8Scale` -/
  | quantizeDown (offset mult shift : BitVec 32)
  /-- 61-66 `OutputStageQuantizeDownInt32ToUint8ScalePC<sh>` -/
  | quantizeDownPC (sh : VectorShape) (offset mult : VMap) (shift : BitVec 32)
  /-- 115-119 `OutputStageQuantizeDownInt32ByFixedPoint` -/
  | byFixedPoint (mult shift offset : BitVec 32)
  /-- 135-139 `OutputStageScaleInt32ByFixedPointAndExponent` -/
  | byExponent (mult exponent offset : BitVec 32)
  /-- 154-159 `OutputStageScaleInt32ByFixedPointAndExponentPC<sh>` -/
  | byExponentPC (sh : VectorShape) (mult exponent : VMap) (offset : BitVec 32)
  /-- 189-192 `OutputStageBiasAddition<VectorType>` -/
  | bias (v : OffsetVec)
  /-- 197-200 `OutputStageClamp` -/
  | clamp (min max : BitVec 32)
  /-- 202-205 `OutputStageTanh` -/
  | tanh (p : TanhParams)

/-- The stages that turn int32 into the final scalar type; none can follow them. -/
inductive Cast
  /-- no cast: int32 results -/
  | none
  /-- `OutputStageSaturatingCastToUint8` -/
  | satUint8
  /-- `OutputStageSaturatingCastToInt8` -/
  | satInt8
  /-- `OutputStageSaturatingCastToInt16` -/
  | satInt16
  /-- `OutputStageTruncatingCastToUint8` -/
  | truncUint8
  deriving DecidableEq

/-- An output pipeline: a tuple of stages. -/
structure Pipeline where
  stages : List Stage
  cast : Cast

/-- public/output_stages.h:207-224 `MakeStandardOutputPipeline`. -/
def standardPipeline (offset mult shift : BitVec 32) : Pipeline :=
  { stages := [.quantizeDown offset mult shift], cast := .satUint8 }

open Fx

/-- `std::max<int32_t>` / `Max` on scalars (internal/simd_wrappers.h:35-37). -/
def max32 (a b : BitVec 32) : BitVec 32 := if b.slt a then a else b
/-- `std::min<int32_t>` / `Min` (internal/simd_wrappers.h:31-33). -/
def min32 (a b : BitVec 32) : BitVec 32 := if a.slt b then a else b

/-- internal/output.h:75-88, one register. -/
def quantizeDownReg (m : OvMode) (offset mult shift x : BitVec 32) : M (BitVec 32) := do
  let s ← Fx.add m x offset
  let p ← Fx.mul m s mult
  rdpot m p shift.toInt

/-- internal/output.h:132-145, one register. -/
def byFixedPointReg (m : OvMode) (mult shift offset x : BitVec 32) : M (BitVec 32) := do
  let q ← rdpot m (srdhm x mult) shift.toInt
  Fx.add m q offset

/-- internal/output.h:163-177, one register; `left`, `right` are `left_shift`, `right_shift`. -/
def byExponentReg (m : OvMode) (left right : Int) (mult offset x : BitVec 32) : M (BitVec 32) := do
  let l ← shiftLeft x left
  let q ← rdpot m (srdhm l mult) right
  Fx.add m q offset

/-- internal/output.h:394-433, one register.  `28 - n`, `31 - n` are the shift amounts. -/
def tanhReg (m : OvMode) (p : TanhParams) (x : BitVec 32) : M (BitVec 32) := do
  let a8 ← Fx.mul m 8 p.amplitude
  let cutMin ← Fx.sub m p.zero a8
  let cutMax ← Fx.add m p.zero a8
  let outMin ← Fx.sub m p.zero p.amplitude
  let outMax ← Fx.add m p.zero p.amplitude
  let centered ← Fx.sub m x p.zero
  let f := srdhm centered p.inverseAmplitude
  let f ← shiftLeft f (28 - p.inverseNegExponent)
  let t ← Fx.tanh m 3 f
  let o := srdhm t p.amplitudeNormalized
  let o ← shiftRight o (31 - p.amplitudeExponent)
  let o ← Fx.add m p.zero o
  pure (selectUsingMask (maskIfLessThanOrEqual x cutMin) outMin
    (selectUsingMask (maskIfGreaterThanOrEqual x cutMax) outMax o))

/-- `const int pos = Shape == VectorShape::Col ? row : col` (internal/output.h:104) and
`Shape == VectorShape::Row ? col : row` (196, 324). -/
def posOf (sh : VectorShape) (row col : Nat) : Nat :=
  match sh with | .col => row | .row => col

/-- The shape parameter of a vector class. -/
def OffsetVec.shape : OffsetVec → VectorShape
  | .map sh _ _ _ => sh
  | .dup sh _ _ => sh

/-- internal/output.h:44-63 `OutputStageEvalImpl::Eval` and its specialisations: the value of one
stage on a register block at global position `(row, col)`.  The constructor of the tanh stage runs
once in the code; here its int32 arithmetic is part of every register's computation. -/
def Stage.eval (m : OvMode) (s : Stage) (b : RBlock (BitVec 32)) (row col : Nat) :
    M (RBlock (BitVec 32)) :=
  match s with
  | .quantizeDown offset mult shift => b.mapM' (quantizeDownReg m offset mult shift)
  | .quantizeDownPC sh offset mult shift => do
    let pos := posOf sh row col
    let mult ← RBlock.loadForBroadcasting b.rows b.cols (mult.vec sh) pos
    let offset ← RBlock.loadForBroadcasting b.rows b.cols (offset.vec sh) pos
    let s ← RBlock.broadcast (Fx.add m) b offset
    let d ← RBlock.broadcast (Fx.mul m) s mult
    d.mapM' (fun x => rdpot m x shift.toInt)
  | .byFixedPoint mult shift offset => b.mapM' (byFixedPointReg m mult shift offset)
  | .byExponent mult exponent offset => do
    let left := max 0 exponent.toInt
    let ne ← Fx.neg m exponent
    let right := max 0 ne.toInt
    b.mapM' (byExponentReg m left right mult offset)
  | .byExponentPC sh mult exponent offset => do
    let pos := posOf sh row col
    let left ← RBlock.loadForBroadcasting b.rows b.cols (exponent.vec sh) pos
    let right ← RBlock.loadForBroadcasting b.rows b.cols (exponent.vec sh) pos
    let mult ← RBlock.loadForBroadcasting b.rows b.cols (mult.vec sh) pos
    let left ← left.mapM' (fun e => pure (max32 e 0))
    let right ← right.mapM' (fun e => do
      let ne ← Fx.neg m e
      pure (max32 ne 0))
    let l ← RBlock.broadcast (fun x e => shiftLeft x e.toInt) b left
    let h ← RBlock.broadcast (fun x y => .ok (srdhm x y)) l mult
    let q ← RBlock.broadcast (fun x e => rdpot m x e.toInt) h right
    q.mapM' (fun x => Fx.add m x offset)
  | .bias v => do
    let pos := posOf v.shape row col
    let bv ← RBlock.loadForBroadcasting b.rows b.cols v pos
    RBlock.broadcast (Fx.add m) b bv
  | .clamp lo hi => b.mapM' (fun x => pure (min32 (max32 x lo) hi))
  | .tanh p => b.mapM' (tanhReg m p)

/-- internal/output.h:223-312, the cast of one register; the result is the value of the final
scalar. -/
def Cast.reg (c : Cast) (x : BitVec 32) : Int :=
  match c with
  | .none => x.toInt
  | .satUint8 => if x.toInt > 255 then 255 else if x.toInt < 0 then 0 else x.toInt
  | .satInt8 => if x.toInt > 127 then 127 else if x.toInt < -128 then -128 else x.toInt
  | .satInt16 => if x.toInt > 32767 then 32767 else if x.toInt < -32768 then -32768 else x.toInt
  | .truncUint8 => x.toInt % 256

/-- internal/output.h:475-506 `OutputPipelineEvalImpl::Eval`: first stage, then the rest. -/
def evalStages (m : OvMode) : List Stage → RBlock (BitVec 32) → Nat → Nat → M (RBlock (BitVec 32))
  | [], b, _, _ => pure b
  | s :: rest, b, row, col => do
    let b' ← s.eval m b row col
    evalStages m rest b' row col

/-- The whole pipeline. -/
def Pipeline.eval (m : OvMode) (p : Pipeline) : PipeEval Int := fun b row col => do
  let b' ← evalStages m p.stages b row col
  b'.mapM' (fun x => pure (p.cast.reg x))

/-- internal/dispatch_gemm_shape.h:74-116, `Transpose` of a stage; the stages without
specialisation are returned unchanged (27-31). -/
def Stage.transpose : Stage → Stage
  | .quantizeDownPC sh offset mult shift => .quantizeDownPC sh.transpose offset mult shift
  | .byExponentPC sh mult exponent offset => .byExponentPC sh.transpose mult exponent offset
  | .bias v => .bias v.transpose
  | s => s

/-- internal/dispatch_gemm_shape.h:122-167 `TransposeTuple`. -/
def Pipeline.transpose (p : Pipeline) : Pipeline :=
  { stages := p.stages.map Stage.transpose, cast := p.cast }

end Gemmlowp
