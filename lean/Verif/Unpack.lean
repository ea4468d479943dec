import Verif.Compute
import Verif.RegBlock
/-!
# internal/unpack.h

Stores into the result matrix are recorded, in program order, as a list of
(address, value) pairs.
-/
namespace Gemmlowp

/-- The stores into the result matrix, in program order. -/
abbrev Trace (β : Type) := List (Nat × β)

/-- internal/output.h:475-506 `OutputPipelineEvalImpl::Eval`: what the output pipeline computes
for a register block located at the given global row and column. -/
abbrev PipeEval (β : Type) := RBlock (BitVec 32) → Nat → Nat → M (RBlock β)

/-- `for (; i <= bound - sz; i += sz) s = body(i, s);` with `i` still visible afterwards.  The
bound is a signed `int` in the code, so that `bound - sz` may be negative. -/
def whileStep {σ : Type} (sz bound : Nat) (body : Nat → σ → M σ) (i : Nat) (s : σ) : M (Nat × σ) :=
  if i + sz ≤ bound then
    if 0 < sz then body i s >>= fun s' => whileStep sz bound body (i + sz) s'
    else .error .diverge
  else .ok (i, s)
termination_by bound - i
decreasing_by omega

/-- internal/output.h:514-534 `StoreFinalOutput`, generic version; `store` performs the store at
an address of the destination. -/
def storeFinal {β σ : Type} (store : Nat → β → σ → M σ) (dst : MatrixMap) (b : RBlock β)
    (row col : Nat) (s : σ) : M σ :=
  forLoop 0 b.rows 1 (fun r s =>
    forLoop 0 b.cols 1 (fun c s => do
      let v ← b.regAt (r + c * b.rows)
      store (dst.addr (row + r) (col + c)) v s) s) s

/-- A store into the result matrix. -/
def storeTrace {β : Type} (a : Nat) (v : β) (t : Trace β) : M (Trace β) := .ok (t ++ [(a, v)])

/-- A store into the local array `dst_colmajor_buf`, whose elements are initially
indeterminate (`none`). -/
def storeLocal {β : Type} (a : Nat) (v : β) (b : Buf (Option β)) : M (Buf (Option β)) :=
  b.write a (some v)

/-- internal/simd_wrappers.h:501-518 `LoadContiguous`; reading an indeterminate element is a
fault. -/
def loadContiguous {β : Type} (rows cols : Nat) (b : Buf (Option β)) : M (RBlock β) :=
  RBlock.build rows cols (fun r c => do
    match ← b.read (r + c * rows) with
    | some v => .ok v
    | none => .error .badOp)

/-- A vector of sums as `VectorMap` of the given shape (internal/unpack.h:148-151). -/
def sumsVec (sh : VectorShape) (b : Buf (BitVec 32)) (n : Nat) : OffsetVec :=
  .map sh (fun i => if i < b.size then some (b.get i) else none) 0 n

/-- The arguments of internal/unpack.h:132-140 `UnpackResult` that stay the same throughout. -/
structure UnpackCtx where
  mode : OvMode
  k : KernelFormat
  src : Buf (BitVec 32)
  srcMap : MatrixMap
  lhsSums : OffsetVec
  rhsSums : OffsetVec
  lhsOffset : OffsetVec
  rhsOffset : OffsetVec
  depth : Nat
  startRow : Nat
  startCol : Nat
  dst : MatrixMap

namespace UnpackCtx

variable {β : Type} (x : UnpackCtx)

/-- internal/simd_wrappers.h:40-42 `MulAdd`. -/
def mulAdd (mode : OvMode) (a b acc : BitVec 32) : M (BitVec 32) := do
  let p ← mul32 mode a b
  add32 mode acc p

/-- internal/simd_wrappers.h:619-640 `AddConstant`. -/
def addConstant (mode : OvMode) (c : Int) (b : RBlock (BitVec 32)) : M (RBlock (BitVec 32)) :=
  if c = 0 then pure b else b.mapM' (fun v => add32 mode v (BitVec.ofInt 32 c))

/-- internal/unpack.h:89-125, the value computed by `UnpackResultBlock` for the
`rows × cols` register block at `(srcRow, srcCol)`, before it is stored. -/
def evalBlock (pipe : PipeEval β) (rows cols srcRow srcCol globalRow globalCol : Nat) :
    M (RBlock β) := do
  let acc ← RBlock.loadMatrix rows cols x.src x.srcMap srcRow srcCol
  let lhsSums ← RBlock.loadForBroadcasting rows cols x.lhsSums srcRow
  let rhsSums ← RBlock.loadForBroadcasting rows cols x.rhsSums srcCol
  let lhsOff ← RBlock.loadForBroadcasting rows cols x.lhsOffset srcRow
  let rhsOff ← RBlock.loadForBroadcasting rows cols x.rhsOffset srcCol
  let lhsOff ← addConstant x.mode x.k.lhs.zp lhsOff
  let rhsOff ← addConstant x.mode x.k.rhs.zp rhsOff
  let acc ← RBlock.broadcastMulAdd (mulAdd x.mode) lhsSums rhsOff acc
  let rhsOff ← rhsOff.mapM' (fun v => mul32 x.mode v (BitVec.ofInt 32 x.depth))
  let s ← RBlock.broadcast (add32 x.mode) rhsSums rhsOff
  let acc ← RBlock.broadcastMulAdd (mulAdd x.mode) s lhsOff acc
  pipe acc globalRow globalCol

/-- internal/unpack.h:89-127 `UnpackResultBlock` (with internal/output.h:536-567 `Execute`),
storing to the result matrix: destination coordinates and global coordinates coincide. -/
def block (pipe : PipeEval β) (rows cols r c : Nat) (t : Trace β) : M (Trace β) := do
  let b ← x.evalBlock pipe rows cols r c (r + x.startRow) (c + x.startCol)
  storeFinal storeTrace x.dst b (r + x.startRow) (c + x.startCol) t

/-- internal/unpack.h:178-195, one 8×8 block of a row-major destination: through the local
column-major array. -/
def block8x8 (pipe : PipeEval β) (r c8 : Nat) (t : Trace β) : M (Trace β) := do
  let buf : Buf (Option β) := { size := 64, get := fun _ => none }
  let buf ← forLoop 0 8 4 (fun cx buf => do
    let b ← x.evalBlock pipe 8 4 r (c8 + cx) (r + x.startRow) (c8 + cx + x.startCol)
    storeFinal storeLocal (MatrixMap.mk3 .colMajor 0 8 8) b 0 cx buf) buf
  let b ← loadContiguous 8 8 buf
  storeFinal storeTrace x.dst b (r + x.startRow) (c8 + x.startCol) t

end UnpackCtx

/-- What `UnpackResultBlock` does with one register block, and what internal/unpack.h:178-195 does with
an 8×8 block of a row-major destination.  These are the parts of `UnpackResult` that are specialised
for vector instructions. -/
structure BlockOps (β : Type) where
  block : UnpackCtx → Nat → Nat → Nat → Nat → Trace β → M (Trace β)
  block8x8 : UnpackCtx → Nat → Nat → Trace β → M (Trace β)

/-- The code without vector instructions. -/
def scalarOps {β : Type} (pipe : PipeEval β) : BlockOps β where
  block x := x.block pipe
  block8x8 x := x.block8x8 pipe

namespace UnpackCtx

variable {β : Type} (x : UnpackCtx) (o : BlockOps β)

/-- internal/unpack.h:175-219, eight columns of a row-major destination. -/
def cols8 (rows c8 : Nat) (t : Trace β) : M (Trace β) := do
  let (r, t) ← whileStep 8 rows (fun r t => o.block8x8 x r c8 t) 0 t
  let (r, t) ← whileStep 4 rows (fun r t =>
    forLoop 0 8 4 (fun cx t => o.block x 4 4 r (c8 + cx) t) t) r t
  let (_, t) ← whileStep 1 rows (fun r t =>
    forLoop 0 8 4 (fun cx t => o.block x 1 4 r (c8 + cx) t) t) r t
  pure t

/-- internal/unpack.h:222-248 (`w = 4`) and 249-275 (`w = 1`): the columns `c .. c + w - 1`. -/
def colsN (w rows c : Nat) (t : Trace β) : M (Trace β) := do
  let (r, t) ← whileStep 8 rows (fun r t => o.block x 8 w r c t) 0 t
  let (r, t) ← whileStep 4 rows (fun r t => o.block x 4 w r c t) r t
  let (_, t) ← whileStep 1 rows (fun r t => o.block x 1 w r c t) r t
  pure t

/-- internal/unpack.h:173-220: the columns handled eight at a time, only for a row-major
destination. -/
def phase8 (rows cols : Nat) (t : Trace β) : M (Nat × Trace β) :=
  match x.dst.order with
  | .rowMajor => whileStep 8 cols (fun c8 t => x.cols8 o rows c8 t) 0 t
  | .colMajor => pure (0, t)

/-- internal/unpack.h:141-276, the body of `UnpackResult` for a destination block of
`rows × cols`.  Prefetches are left out. -/
def run (rows cols : Nat) (t : Trace β) : M (Trace β) := do
  assertM (decide (x.startRow + rows ≤ x.dst.rows))
  assertM (decide (x.startCol + cols ≤ x.dst.cols))
  let (c, t) ← x.phase8 o rows cols t
  let (c, t) ← whileStep 4 cols (fun c t => x.colsN o 4 rows c t) c t
  let (_, t) ← whileStep 1 cols (fun c t => x.colsN o 1 rows c t) c t
  pure t

end UnpackCtx

/-- internal/unpack.h:132-140 `UnpackResult`. -/
def unpackResult {β : Type} (mode : OvMode) (k : KernelFormat) (b : BlockParams) (dst : MatrixMap)
    (startRow startCol rows cols : Nat) (src : Buf (BitVec 32)) (depth : Nat)
    (lhsSums rhsSums : Buf (BitVec 32)) (lhsOffset rhsOffset : OffsetVec) (out : BlockOps β)
    (t : Trace β) : M (Trace β) :=
  UnpackCtx.run
    { mode, k, src, srcMap := packedResultMap b
      lhsSums := sumsVec .col lhsSums rows, rhsSums := sumsVec .row rhsSums cols
      lhsOffset, rhsOffset, depth, startRow, startCol, dst } out rows cols t

end Gemmlowp
