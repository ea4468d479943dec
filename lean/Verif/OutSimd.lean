import Verif.Output
import Verif.SimdTrans
/-!
# The vector code of unpacking and of the output stages

internal/simd_wrappers_{sse,neon,msa}.h, internal/simd_wrappers_common_neon_sse.h and, from
internal/output.h, the stages on vector registers.  A block of four or more int32 entries is held in
registers of four lanes, a smaller one in scalars (`RegisterType<int32_t, N>`:
simd_wrappers_sse.h:26-31, simd_wrappers_neon.h:29-33, simd_wrappers_msa.h:28-32).  In all other
respects the C++ templates are those of `RegBlock.lean`, `Unpack.lean` and `Output.lean`; what is
below are their specialisations.  A combination of shapes or of register kinds without
specialisation does not compile in C++; here it is the fault `badOp`.
-/
namespace Gemmlowp.OutSimd

open Isa

/-- One register of a block of int32: a scalar, or a vector of four. -/
inductive IReg
  | s (x : BitVec 32)
  | v (x : Reg 4 32)

/-- A vector given by its lanes. -/
def reg4 (x0 x1 x2 x3 : BitVec 32) : Reg 4 32 := fun i =>
  match i with | 0 => x0 | 1 => x1 | 2 => x2 | 3 => x3

/-- `_mm_max_epi32`, `vmaxq_s32`, `__builtin_msa_max_s_w`. -/
def maxs : Reg 4 32 → Reg 4 32 → Reg 4 32 := map2 fun a b => if b.slt a then a else b

/-- The functions of the per-architecture wrapper headers.  `O` are the fixed-point primitives;
`maxS`, `shiftLeftV`, `rdpotV`, `neg` exist only for NEON. -/
structure Wrap where
  O : RawOps 32 (Reg 4 32)
  dupLane : Reg 4 32 → Nat → Reg 4 32
  mulS : Reg 4 32 → BitVec 32 → Reg 4 32
  min : Reg 4 32 → Reg 4 32 → Reg 4 32
  max : Reg 4 32 → Reg 4 32 → Reg 4 32
  srdhmS : Reg 4 32 → BitVec 32 → Reg 4 32
  mulByLane : Reg 4 32 → Reg 4 32 → Nat → Reg 4 32
  mulAddS : Reg 4 32 → BitVec 32 → Reg 4 32 → Reg 4 32
  mulAddByLane : Reg 4 32 → Reg 4 32 → Nat → Reg 4 32 → Reg 4 32
  maxS : Reg 4 32 → BitVec 32 → M (Reg 4 32)
  shiftLeftV : Reg 4 32 → Reg 4 32 → M (Reg 4 32)
  rdpotV : Reg 4 32 → Reg 4 32 → M (Reg 4 32)

/-- internal/simd_wrappers_sse.h:60-110; `_mm_shuffle_epi32 (a, 0x55 * Lane)` repeats a lane. -/
def sseWrap : Wrap :=
  let O := Sse.ops32
  let dupLane : Reg 4 32 → Nat → Reg 4 32 := fun a k => splat (rd a k)
  let mulS : Reg 4 32 → BitVec 32 → Reg 4 32 := fun a b => O.mul a (O.dup b)
  let mulByLane : Reg 4 32 → Reg 4 32 → Nat → Reg 4 32 := fun a b k => O.mul a (dupLane b k)
  { O, dupLane, mulS, mulByLane
    min := mins
    max := maxs
    srdhmS := fun a b => O.srdhm a (O.dup b)
    mulAddS := fun l r acc => O.add acc (mulS l r)
    mulAddByLane := fun l r k acc => O.add acc (mulByLane l r k)
    maxS := fun _ _ => .error .badOp
    shiftLeftV := fun _ _ => .error .badOp
    rdpotV := fun _ _ => .error .badOp }

/-- `vdupq_lane_s32 (vget_low_s32 (a), k)` and `vdupq_lane_s32 (vget_high_s32 (a), k - 2)`
(internal/simd_wrappers_neon.h:82-97). -/
def neonLane (a : Reg 4 32) (k : Nat) : BitVec 32 :=
  match k with
  | 0 => rd a (0 + 0)
  | 1 => rd a (0 + 1)
  | 2 => rd a (2 + 0)
  | 3 => rd a (2 + 1)
  | _ => 0

/-- internal/simd_wrappers_neon.h:77-156, and from fixedpoint/fixedpoint_neon.h:117-125 `ShiftLeft` and
295-309 `RoundingDivideByPOT` by a vector.  `vmlaq_s32 (a, b, c)` is `a + b * c`. -/
def neonWrap : Wrap where
  O := Neon.ops32
  dupLane a k := splat (neonLane a k)
  mulS a b := mullo a (splat b)
  min := mins
  max := maxs
  srdhmS a b := qrdmulh a (splat b)
  mulByLane a b k := mullo a (splat (neonLane b k))
  mulAddS l r acc := vadd acc (mullo l (splat r))
  mulAddByLane l r k acc := vadd acc (mullo l (splat (neonLane r k)))
  maxS a b := .ok (maxs a (splat b))
  shiftLeftV a b := .ok (vshl a b)
  rdpotV a b := .ok (Neon.rdpotVec a b)

/-- internal/simd_wrappers_msa.h:91-152; `maddv.w a, b, c` is `a + b * c`, `__builtin_msa_splati_w`
repeats a lane. -/
def msaWrap : Wrap where
  O := Msa.ops32
  dupLane a k := splat (rd a k)
  mulS a b := mullo a (splat b)
  min := mins
  max := maxs
  srdhmS a b := qrdmulh a (splat b)
  mulByLane a b k := mullo a (splat (rd b k))
  mulAddS l r acc := vadd acc (mullo l (splat r))
  mulAddByLane l r k acc := vadd acc (mullo l (splat (rd r k)))
  maxS _ _ := .error .badOp
  shiftLeftV _ _ := .error .badOp
  rdpotV _ _ := .error .badOp

/-- The code of a loop body that is written once for all register types: `fs` its meaning on
scalars, `fv` its meaning on vectors. -/
def onReg (fs : BitVec 32 → M (BitVec 32)) (fv : Reg 4 32 → M (Reg 4 32)) : IReg → M IReg
  | .s x => do
    let y ← fs x
    pure (.s y)
  | .v x => do
    let y ← fv x
    pure (.v y)

/-- `blk.buf.reg[i]`, a vector. -/
def vec (b : RBlock IReg) (i : Nat) : M (Reg 4 32) := do
  match ← b.regAt i with
  | .v x => .ok x
  | .s _ => .error .badOp

/-- `blk.buf.reg[i]`, a scalar. -/
def sca (b : RBlock IReg) (i : Nat) : M (BitVec 32) := do
  match ← b.regAt i with
  | .s x => .ok x
  | .v _ => .error .badOp

/-- `result.buf.reg[i] = f (i, blk.buf.reg[i])` for all registers, which are vectors. -/
def each (b : RBlock IReg) (f : Nat → Reg 4 32 → M (Reg 4 32)) : M (RBlock IReg) := do
  let reg ← (List.range b.reg.length).mapM (fun i => do
    let x ← vec b i
    let y ← f i x
    pure (IReg.v y))
  pure { rows := b.rows, cols := b.cols, reg }

/-- The shapes of the two operands of a broadcasting operation. -/
def shapes (l r : RBlock IReg) : (Nat × Nat) × (Nat × Nat) := ((l.rows, l.cols), (r.rows, r.cols))

/-- internal/simd_wrappers_common_neon_sse.h:194-351 `BroadcastAddImpl`, 353-555
`BroadcastSaturatingRoundingDoublingHighMulImpl`, and the tables of the same form for
`BroadcastShiftLeftImpl` and `BroadcastRoundingDivideByPOTImpl` in internal/simd_wrappers_neon.h.  The
operation is `fs` on scalars (the generic version, for 1×1 blocks) and `fv` on vectors. -/
def bcastImpl (W : Wrap) (fs : BitVec 32 → BitVec 32 → M (BitVec 32))
    (fv : Reg 4 32 → Reg 4 32 → M (Reg 4 32)) (l r : RBlock IReg) : M (RBlock IReg) :=
  let sh := shapes l r
  if sh = ((1, 1), (1, 1)) then do
    let a ← sca l 0
    let b ← sca r 0
    let c ← fs a b
    pure { rows := 1, cols := 1, reg := [.s c] }
  else if sh = ((4, 1), (1, 1)) ∨ sh = ((1, 4), (1, 1)) ∨ sh = ((8, 1), (1, 1)) ∨
      sh = ((1, 8), (1, 1)) then do
    let b ← sca r 0
    each l (fun _ a => fv a (W.O.dup b))
  else if sh = ((4, 1), (4, 1)) ∨ sh = ((1, 4), (1, 4)) ∨ sh = ((8, 1), (8, 1)) ∨
      sh = ((1, 8), (1, 8)) then
    each l (fun i a => do
      let b ← vec r i
      fv a b)
  else if sh = ((4, 4), (1, 4)) then do
    let b ← vec r 0
    each l (fun i a => fv a (W.dupLane b i))
  else if sh = ((4, 4), (4, 1)) then do
    let b ← vec r 0
    each l (fun _ a => fv a b)
  else if sh = ((8, 4), (1, 4)) then do
    let b ← vec r 0
    each l (fun i a => fv a (W.dupLane b (i / 2)))
  else if sh = ((8, 4), (8, 1)) then
    each l (fun i a => do
      let b ← vec r (i % 2)
      fv a b)
  else .error .badOp

/-- The broadcasting functions of internal/simd_wrappers.h:186-196 etc. -/
def bcast (W : Wrap) (fs : BitVec 32 → BitVec 32 → M (BitVec 32))
    (fv : Reg 4 32 → Reg 4 32 → M (Reg 4 32)) (l r : RBlock IReg) : M (RBlock IReg) :=
  if RBlock.shouldFlip l r then bcastImpl W fs fv r l else bcastImpl W fs fv l r

/-- internal/simd_wrappers_common_neon_sse.h:557-690 `BroadcastMulImpl`. -/
def bcastMulImpl (W : Wrap) (m : OvMode) (l r : RBlock IReg) : M (RBlock IReg) :=
  let sh := shapes l r
  if sh = ((1, 1), (1, 1)) then do
    let a ← sca l 0
    let b ← sca r 0
    let c ← Fx.mul m a b
    pure { rows := 1, cols := 1, reg := [.s c] }
  else if sh = ((4, 1), (1, 1)) then do
    let b ← sca r 0
    each l (fun _ a => .ok (W.O.mul a (W.O.dup b)))
  else if sh = ((1, 4), (1, 1)) ∨ sh = ((8, 1), (1, 1)) then do
    let b ← sca r 0
    each l (fun _ a => .ok (W.mulS a b))
  else if sh = ((4, 1), (4, 1)) ∨ sh = ((1, 4), (1, 4)) ∨ sh = ((8, 1), (8, 1)) then
    each l (fun i a => do
      let b ← vec r i
      pure (W.O.mul a b))
  else if sh = ((4, 4), (1, 4)) then do
    let b ← vec r 0
    each l (fun i a => .ok (W.mulByLane a b i))
  else if sh = ((4, 4), (4, 1)) then do
    let b ← vec r 0
    each l (fun _ a => .ok (W.O.mul a b))
  else if sh = ((8, 4), (1, 4)) then do
    let b ← vec r 0
    each l (fun i a => .ok (W.mulByLane a b (i / 2)))
  else if sh = ((8, 4), (8, 1)) then
    each l (fun i a => do
      let b ← vec r (i % 2)
      pure (W.O.mul a b))
  else .error .badOp

/-- internal/simd_wrappers.h:281-291 `BroadcastMul`. -/
def bcastMul (W : Wrap) (m : OvMode) (l r : RBlock IReg) : M (RBlock IReg) :=
  if RBlock.shouldFlip l r then bcastMulImpl W m r l else bcastMulImpl W m l r

/-- internal/simd_wrappers_common_neon_sse.h:692-846 `BroadcastMulAddImpl`, with `kRegsPerCol` the number
of registers of a column of the accumulators.  The arithmetic on scalars is internal/simd_wrappers.h:40-42
`MulAdd`, internal/simd_wrappers.h:27-29 `Mul`. -/
def bcastMulAddImpl (W : Wrap) (m : OvMode) (l r acc : RBlock IReg) : M (RBlock IReg) :=
  let sh := shapes l r
  let rpc := acc.rows / 4
  if sh = ((1, 1), (1, 1)) then
    if acc.rows = 1 ∧ acc.cols = 1 then do
      let a ← sca l 0
      let b ← sca r 0
      let c ← sca acc 0
      let d ← UnpackCtx.mulAdd m a b c
      pure { rows := 1, cols := 1, reg := [.s d] }
    else do
      let a ← sca l 0
      let b ← sca r 0
      let p ← mul32 m a b
      each acc (fun _ c => .ok (W.O.add c (W.O.dup p)))
  else if sh = ((acc.rows, 1), (1, 1)) then
    if acc.cols = 1 then do
      let b ← sca r 0
      each acc (fun k c => do
        let a ← vec l k
        pure (W.mulAddS a b c))
    else if acc.rows = 4 then do
      let b ← sca r 0
      let a ← vec l 0
      each acc (fun _ c => .ok (W.O.add (W.mulS a b) c))
    else do
      let b ← sca r 0
      each acc (fun k c => do
        let a ← vec l (k % rpc)
        pure (W.O.add c (W.mulS a b)))
  else if sh = ((1, 4), (1, 1)) ∧ acc.cols = 4 then
    if acc.rows = 1 then do
      let b ← sca r 0
      each acc (fun k c => do
        let a ← vec l k
        pure (W.mulAddS a b c))
    else do
      let b ← sca r 0
      let a ← vec l 0
      each acc (fun k c => .ok (W.O.add (W.dupLane (W.mulS a b) (k / rpc)) c))
  else if sh = ((acc.rows, 1), (1, 4)) ∧ acc.cols = 4 ∧ acc.rows ≠ 1 then do
    let b ← vec r 0
    each acc (fun k c => do
      let a ← vec l (k % rpc)
      pure (W.mulAddByLane a b (k / rpc) c))
  else .error .badOp

/-- internal/simd_wrappers.h:423-431 `BroadcastMulAdd`. -/
def bcastMulAdd (W : Wrap) (m : OvMode) (l r acc : RBlock IReg) : M (RBlock IReg) :=
  if RBlock.shouldFlip l r then bcastMulAddImpl W m r l acc else bcastMulAddImpl W m l r acc

/-! ## Loading -/

/-- `LoadInt32x4 (src + a)`. -/
def load4 (read : Nat → M (BitVec 32)) (a : Nat) : M (Reg 4 32) := do
  let x0 ← read a
  let x1 ← read (a + 1)
  let x2 ← read (a + 2)
  let x3 ← read (a + 3)
  pure (reg4 x0 x1 x2 x3)

/-- The vectors at a list of places. -/
def loadRegs (read : Nat → M (BitVec 32)) (as : List Nat) : M (List IReg) :=
  as.mapM (fun a => do
    let x ← load4 read a
    pure (IReg.v x))

/-- internal/simd_wrappers_common_neon_sse.h:24-84 `LoadImpl`: from a column-major matrix, 4×N, 8×N, 1×4
(through an array of four); 1×1 with the generic code. -/
def loadMatrix (rows cols : Nat) (mem : Buf (BitVec 32)) (m : MatrixMap) (row col : Nat) :
    M (RBlock IReg) :=
  if rows = 4 then do
    let reg ← loadRegs mem.read ((List.range cols).map fun i => m.addr row (col + i))
    pure { rows, cols, reg }
  else if rows = 8 then do
    let reg ← loadRegs mem.read ((List.range (2 * cols)).map fun k =>
      m.addr (row + 4 * (k % 2)) (col + k / 2))
    pure { rows, cols, reg }
  else if rows = 1 ∧ cols = 4 then do
    let x0 ← mem.read (m.addr row (col + 0))
    let x1 ← mem.read (m.addr row (col + 1))
    let x2 ← mem.read (m.addr row (col + 2))
    let x3 ← mem.read (m.addr row (col + 3))
    pure { rows, cols, reg := [.v (reg4 x0 x1 x2 x3)] }
  else if rows = 1 ∧ cols = 1 then do
    let x ← mem.read (m.addr row col)
    pure { rows, cols, reg := [.s x] }
  else .error .badOp

/-- internal/simd_wrappers_common_neon_sse.h:108-192 `LoadForBroadcastingImpl`; the rest with the generic
code of internal/simd_wrappers.h:558-601. -/
def loadForBroadcasting (rows cols : Nat) (v : OffsetVec) (pos : Nat) : M (RBlock IReg) :=
  match v with
  | .map .col _ _ _ =>
    if rows = 4 then do
      let reg ← loadRegs v.read [pos]
      pure { rows := 4, cols := 1, reg }
    else if rows = 8 then do
      let reg ← loadRegs v.read [pos, pos + 4]
      pure { rows := 8, cols := 1, reg }
    else if rows = 1 then do
      let x ← v.read pos
      pure { rows := 1, cols := 1, reg := [.s x] }
    else .error .badOp
  | .map .row _ _ _ =>
    if cols = 4 then do
      let reg ← loadRegs v.read [pos]
      pure { rows := 1, cols := 4, reg }
    else if cols = 8 then do
      let reg ← loadRegs v.read [pos, pos + 4]
      pure { rows := 1, cols := 8, reg }
    else if cols = 1 then do
      let x ← v.read pos
      pure { rows := 1, cols := 1, reg := [.s x] }
    else .error .badOp
  | .dup _ _ _ => do
    let x ← v.read 0
    pure { rows := 1, cols := 1, reg := [.s x] }

/-! ## internal/unpack.h -/

/-- internal/simd_wrappers.h:619-640 `AddConstant`. -/
def addConstant (W : Wrap) (m : OvMode) (c : Int) (b : RBlock IReg) : M (RBlock IReg) :=
  if c = 0 then pure b
  else b.mapM' (onReg (fun v => add32 m v (BitVec.ofInt 32 c))
    (fun v => .ok (W.O.add v (W.O.dup (BitVec.ofInt 32 c)))))

/-- internal/unpack.h:89-125 `UnpackResultBlock` up to the output pipeline. -/
def accBlock (W : Wrap) (x : UnpackCtx) (rows cols srcRow srcCol : Nat) : M (RBlock IReg) := do
  let acc ← loadMatrix rows cols x.src x.srcMap srcRow srcCol
  let lhsSums ← loadForBroadcasting rows cols x.lhsSums srcRow
  let rhsSums ← loadForBroadcasting rows cols x.rhsSums srcCol
  let lhsOff ← loadForBroadcasting rows cols x.lhsOffset srcRow
  let rhsOff ← loadForBroadcasting rows cols x.rhsOffset srcCol
  let lhsOff ← addConstant W x.mode x.k.lhs.zp lhsOff
  let rhsOff ← addConstant W x.mode x.k.rhs.zp rhsOff
  let acc ← bcastMulAdd W x.mode lhsSums rhsOff acc
  let rhsOff ← rhsOff.mapM' (onReg (fun v => mul32 x.mode v (BitVec.ofInt 32 x.depth))
    (fun v => .ok (W.mulS v (BitVec.ofInt 32 x.depth))))
  let s ← bcast W (add32 x.mode) (fun a b => .ok (W.O.add a b)) rhsSums rhsOff
  bcastMulAdd W x.mode s lhsOff acc

/-! ## internal/output.h: the stages on vector registers -/

/-- internal/output.h:75-88. -/
def quantizeDownVec (W : Wrap) (offset mult shift : BitVec 32) (x : Reg 4 32) : M (Reg 4 32) :=
  W.O.rdpot (W.mulS (W.O.add x (W.O.dup offset)) mult) shift.toInt

/-- internal/output.h:132-145. -/
def byFixedPointVec (W : Wrap) (mult shift offset : BitVec 32) (x : Reg 4 32) : M (Reg 4 32) := do
  let q ← W.O.rdpot (W.srdhmS x mult) shift.toInt
  pure (W.O.add q (W.O.dup offset))

/-- internal/output.h:163-177. -/
def byExponentVec (W : Wrap) (left right : Int) (mult offset : BitVec 32) (x : Reg 4 32) :
    M (Reg 4 32) := do
  let q ← W.O.rdpot (W.srdhmS (W.O.shiftLeft x left) mult) right
  pure (W.O.add q (W.O.dup offset))

/-- internal/output.h:350-354. -/
def clampVec (W : Wrap) (lo hi : BitVec 32) (x : Reg 4 32) : Reg 4 32 :=
  W.min (W.max x (W.O.dup lo)) (W.O.dup hi)

/-- internal/output.h:394-433, with the scalar arithmetic 370-373 of the constructor. -/
def tanhVec (W : Wrap) (m : OvMode) (p : TanhParams) (x : Reg 4 32) : M (Reg 4 32) := do
  let a8 ← Fx.mul m 8 p.amplitude
  let cutMin ← Fx.sub m p.zero a8
  let cutMax ← Fx.add m p.zero a8
  let outMin ← Fx.sub m p.zero p.amplitude
  let outMax ← Fx.add m p.zero p.amplitude
  let centered := W.O.sub x (W.O.dup p.zero)
  let f := W.O.srdhm centered (W.O.dup p.inverseAmplitude)
  let f := W.O.shiftLeft f (28 - p.inverseNegExponent)
  let t ← Gen.tanh W.O 3 f
  let o := W.O.srdhm t (W.O.dup p.amplitudeNormalized)
  let o := W.O.shiftRight o (31 - p.amplitudeExponent)
  let o := W.O.add (W.O.dup p.zero) o
  pure (W.O.selectUsingMask (W.O.maskIfLessThanOrEqual x (W.O.dup cutMin)) (W.O.dup outMin)
    (W.O.selectUsingMask (W.O.maskIfGreaterThanOrEqual x (W.O.dup cutMax)) (W.O.dup outMax) o))

/-- internal/output.h:44-63 `OutputStageEvalImpl::Eval` and its specialisations. -/
def stageEval (W : Wrap) (m : OvMode) (s : Stage) (b : RBlock IReg) (row col : Nat) :
    M (RBlock IReg) :=
  match s with
  | .quantizeDown offset mult shift =>
    b.mapM' (onReg (quantizeDownReg m offset mult shift) (quantizeDownVec W offset mult shift))
  | .quantizeDownPC sh offset mult shift => do
    let pos := posOf sh row col
    let mult ← loadForBroadcasting b.rows b.cols (mult.vec sh) pos
    let offset ← loadForBroadcasting b.rows b.cols (offset.vec sh) pos
    let s ← bcast W (Fx.add m) (fun a b => .ok (W.O.add a b)) b offset
    let d ← bcastMul W m s mult
    d.mapM' (onReg (fun x => Fx.rdpot m x shift.toInt) (fun x => W.O.rdpot x shift.toInt))
  | .byFixedPoint mult shift offset =>
    b.mapM' (onReg (byFixedPointReg m mult shift offset) (byFixedPointVec W mult shift offset))
  | .byExponent mult exponent offset => do
    let left := max 0 exponent.toInt
    let ne ← Fx.neg m exponent
    let right := max 0 ne.toInt
    b.mapM' (onReg (byExponentReg m left right mult offset) (byExponentVec W left right mult offset))
  | .byExponentPC sh mult exponent offset => do
    let pos := posOf sh row col
    let left ← loadForBroadcasting b.rows b.cols (exponent.vec sh) pos
    let right ← loadForBroadcasting b.rows b.cols (exponent.vec sh) pos
    let mult ← loadForBroadcasting b.rows b.cols (mult.vec sh) pos
    let left ← left.mapM' (onReg (fun e => pure (max32 e 0)) (fun e => W.maxS e 0))
    let right ← right.mapM' (onReg (fun e => do
        let ne ← Fx.neg m e
        pure (max32 ne 0))
      (fun e => W.maxS (W.O.neg e) 0))
    let l ← bcast W (fun x e => Fx.shiftLeft x e.toInt) W.shiftLeftV b left
    let h ← bcast W (fun x y => .ok (Fx.srdhm x y)) (fun x y => .ok (W.O.srdhm x y)) l mult
    let q ← bcast W (fun x e => Fx.rdpot m x e.toInt) W.rdpotV h right
    q.mapM' (onReg (fun x => Fx.add m x offset) (fun x => .ok (W.O.add x (W.O.dup offset))))
  | .bias v => do
    let pos := posOf v.shape row col
    let bv ← loadForBroadcasting b.rows b.cols v pos
    bcast W (Fx.add m) (fun a b => .ok (W.O.add a b)) b bv
  | .clamp lo hi => b.mapM' (onReg (fun x => pure (min32 (max32 x lo) hi))
      (fun x => .ok (clampVec W lo hi x)))
  | .tanh p => b.mapM' (onReg (tanhReg m p) (tanhVec W m p))

/-- internal/output.h:475-506 `OutputPipelineEvalImpl::Eval` up to the cast. -/
def evalStages (W : Wrap) (m : OvMode) : List Stage → RBlock IReg → Nat → Nat → M (RBlock IReg)
  | [], b, _, _ => pure b
  | s :: rest, b, row, col => do
    let b' ← stageEval W m s b row col
    evalStages W m rest b' row col

end Gemmlowp.OutSimd
