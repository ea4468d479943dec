import Verif.MultiThread
/-!
# The `int` arithmetic of sizes and addresses

The GEMM model (`Verif.Pack`, `Verif.Compute`, `Verif.Gemm`, ...) computes block sizes, loop counters and
addresses with natural numbers.  The code uses `int`.  This file follows the same functions once more, keeping
only that arithmetic: every `int` operation is checked, a result outside of int32 is the fault `overflow`.
Contents of buffers are left out; pointers are unbounded integers (they are 64 bits wide).
-/
namespace Gemmlowp
namespace IntSizes

/-- The value of an `unsigned` number after conversion to `int` (modulo 2^32). -/
def toI32 (x : Int) : Int := (BitVec.ofInt 32 x).toInt

/-- internal/common.h:134-139 `RoundDown<Modulus>`: `Modulus` is `unsigned`, so that the
subtraction is unsigned arithmetic; the result is converted back to `int`. -/
def roundDownI (m : Nat) (i : Int) : Int :=
  let u := i % 4294967296
  toI32 (u - u % m)

/-- internal/common.h:141-146 `RoundUp<Modulus>`: also in unsigned arithmetic, which does not fault but
may give a negative `int`. -/
def roundUpI (m : Nat) (i : Int) : Int := roundDownI m ((i + m - 1) % 4294967296)

/-- `a / b` on `int`. -/
def cdivI (a b : Int) : M Int := do
  let q ← cdiv a b
  cint q

/-- A value computed by a `float` expression and cast to `int`; undefined if it does not fit. -/
def castI (x : Int) : M Int := cint x

/-- `for (int i = lo; i < hi; i += step) s = f(i, s);` with the overflow of the counter. -/
def forI {σ : Type} (lo hi step : Int) (f : Int → σ → M σ) (s : σ) : M σ :=
  if lo < hi then
    (f lo s).bind fun s' =>
      if 0 < step then
        if lo + step ≤ 2147483647 then forI (lo + step) hi step f s' else .error .overflow
      else .error .diverge
  else .ok s
termination_by (hi - lo).toNat
decreasing_by omega

/-- Two nested loops over `[0, r) x [0, c)`. -/
def rect (r c : Int) (f : Int → Int → M Unit) : M Unit :=
  forI 0 r 1 (fun i _ => forI 0 c 1 (fun j _ => f i j) ()) ()

/-! ## Block parameters -/

/-- internal/block_params.h:32-43 `BlockParams` with its `int` members. -/
structure Params where
  l1_rows : Int
  l1_cols : Int
  l1_depth : Int
  l2_rows : Int
  l2_cols : Int
  l2_depth : Int
  deriving DecidableEq, Repr

/-- internal/block_params.h:56-101 `FindL2BlockSizes`. -/
def findL2 (k : KernelFormat) (reg : Nat) (rows cols depth numThreads : Int) (t : Tuning) :
    M (Int × Int × Int) := do
  let q ← cdivI (roundUpI k.kRows rows) numThreads
  let perThreadRows := max 1 q
  let l2_depth := roundUpI reg depth
  let bytesPerDepth ← cdivI t.l2Bytes l2_depth
  let f ← castI (t.rhsTerm bytesPerDepth)
  let maxCols := max 1 f
  let cq ← ceilQuotientI cols maxCols
  let minColsBlocks := max 1 cq
  let cq ← ceilQuotientI cols minColsBlocks
  let l2_cols := roundUpI k.kCols cq
  let l2_rows ←
    if t.factorIsOne then pure (roundUpI k.kRows perThreadRows)
    else do
      let a ← cint (l2_depth * l2_cols)
      let a ← cint (t.l2Bytes - a)
      let b ← cint (4 * l2_cols)
      let b ← cint (l2_depth + b)
      let b ← cint (numThreads * b)
      let q ← cdivI a b
      let maxRows := max 1 q
      let cq ← ceilQuotientI perThreadRows maxRows
      let minRowsBlocks := max 1 cq
      let cq ← ceilQuotientI perThreadRows minRowsBlocks
      pure (roundUpI k.kRows cq)
  pure (l2_rows, l2_cols, l2_depth)

/-- internal/block_params.h:104-142 `FindL1BlockSizes`. -/
def findL1 (k : KernelFormat) (reg : Nat) (rows cols depth : Int) (t : Tuning) :
    M (Int × Int × Int) := do
  assertM (decide (rows % k.kRows = 0))
  assertM (decide (cols % k.kCols = 0))
  assertM (decide (depth % k.kDepth = 0))
  let l1_cols := cols
  let a ← cint (t.l1Bytes - 4 * k.kRows * k.kCols)
  let q ← cdivI a (k.kRows + k.kCols)
  let maxDepth := max 1 q
  let cq ← ceilQuotientI depth maxDepth
  let minDepthBlocks := max 1 cq
  let cq ← ceilQuotientI depth minDepthBlocks
  let l1_depth := roundUpI reg cq
  let b ← cint (4 * l1_cols)
  let b ← cint (l1_depth + b)
  let q ← cdivI t.l1Bytes b
  let maxRows := max 1 q
  let cq ← ceilQuotientI rows maxRows
  let minRowsBlocks := max 1 cq
  let cq ← ceilQuotientI rows minRowsBlocks
  let l1_rows := roundUpI k.kRows cq
  pure (l1_rows, l1_cols, l1_depth)

/-- internal/block_params.h:46-53 `Init`. -/
def initI (k : KernelFormat) (reg : Nat) (rows cols depth numThreads : Int) (t : Tuning) : M Params := do
  let (l2r, l2c, l2d) ← findL2 k reg rows cols depth numThreads t
  let (l1r, l1c, l1d) ← findL1 k reg l2r l2c l2d t
  pure { l1_rows := l1r, l1_cols := l1c, l1_depth := l1d,
         l2_rows := l2r, l2_cols := l2c, l2_depth := l2d }

/-- internal/block_params.h:150-160 `SideBlockParams`. -/
structure SidePar where
  l1_width : Int
  l1_depth : Int
  l2_width : Int
  l2_depth : Int
  deriving DecidableEq, Repr

/-- internal/block_params.h:164-173 `GetSideBlockParams`. -/
def Params.side (b : Params) (s : Side) : SidePar :=
  { l1_width := match s with | .lhs => b.l1_rows | .rhs => b.l1_cols
    l2_width := match s with | .lhs => b.l2_rows | .rhs => b.l2_cols
    l1_depth := b.l1_depth
    l2_depth := b.l2_depth }

/-! ## Maps -/

/-- A matrix view: public/map.h:31-48 `MatrixMap` (`majorA` for row-major: the first index is the one
that is multiplied with the stride) and internal/pack.h:142-187 `SideMap` (`majorA` for width-major). -/
structure Map where
  base : Int
  a : Int
  b : Int
  stride : Int
  majorA : Bool
  deriving DecidableEq, Repr

namespace Map
/-- public/map.h:59 `rows_stride`, internal/pack.h:162-164 `width_stride`. -/
def strideA (m : Map) : Int := if m.majorA then m.stride else 1
/-- public/map.h:60 `cols_stride`, internal/pack.h:165-167 `depth_stride`. -/
def strideB (m : Map) : Int := if m.majorA then 1 else m.stride

/-- public/map.h:62-64 and internal/pack.h:169-171 `data(_, _)`: two `int` products, added to the
pointer one after the other. -/
def data (m : Map) (i j : Int) : M Int := do
  let x ← cint (i * m.strideA)
  let y ← cint (j * m.strideB)
  pure (m.base + x + y)

/-- public/map.h:67-76 and internal/pack.h:175-184 `block`. -/
def block (m : Map) (i j da db : Int) : M Map := do
  assertM (decide (0 ≤ i))
  let x ← cint (i + da)
  assertM (decide (x ≤ m.a))
  assertM (decide (0 ≤ j))
  let y ← cint (j + db)
  assertM (decide (y ≤ m.b))
  let p ← m.data i j
  pure { m with base := p, a := da, b := db }

/-- internal/pack.h:421-425: the side map of a block of the RHS exchanges the two indices. -/
def flip (m : Map) : Map := { m with a := m.b, b := m.a, majorA := !m.majorA }

/-- The `int` version of a map of the model. -/
def of (m : MatrixMap) : Map :=
  { base := m.base, a := m.rows, b := m.cols, stride := m.stride, majorA := decide (m.order = .rowMajor) }
end Map

/-! ## Packing -/

/-- internal/pack.h:52-59, the constructor of `PackedSideBlock`: the number of bytes to reserve, an
`int` product. -/
def packedSize (p : SidePar) : M Int := cint (p.l2_width * p.l2_depth)

/-- internal/pack.h:63-67 `seek_run`: the new `pos_`. -/
def seekRun (p : SidePar) (startWidth startDepth : Int) : M Int := do
  let e ← cint (p.l2_depth - startDepth)
  let runDepth := min p.l1_depth e
  let x ← cint (p.l2_width * startDepth)
  let y ← cint (startWidth * runDepth)
  cint (x + y)

/-- internal/pack.h:71-73 `seek_forward_n_cells`. -/
def seekForward (f : SideFormat) (pos n : Int) : M Int := do
  let x ← cint (n * f.cellSize)
  cint (pos + x)

/-- internal/pack.h:262-289 `Pack` of the generic register block: the entries of each cell are read through
a block of the source, then `pos_` moves. -/
def pack (f : SideFormat) (reg : Nat) (src : Map) (pos : Int) : M Int := do
  forI 0 reg f.cd (fun csd _ =>
    forI 0 f.kw f.cw (fun csw _ => do
      let cell ← src.block csw csd f.cw f.cd
      rect f.cw f.cd (fun w d => do
        let _ ← cell.data w d
        pure ())) ()) ()
  let n ← cint (f.cells * reg)
  let n ← cdivI n f.cd
  seekForward f pos n

/-- internal/pack.h:242-258 `MakeCompleteSrc`: the copies from the source; the result is a map of the local
buffer, with the order of the source. -/
def makeComplete (f : SideFormat) (reg : Nat) (src : Map) : M Map := do
  if src.majorA then
    forI 0 src.a 1 (fun w _ => do
      let _ ← cint (w * reg)
      let _ ← src.data w 0
      pure ()) ()
  else
    forI 0 src.b 1 (fun d _ => do
      let _ ← cint (d * f.kw)
      let _ ← src.data 0 d
      pure ()) ()
  pure { base := 0, a := f.kw, b := reg, stride := if src.majorA then reg else f.kw
         majorA := src.majorA }

/-- internal/pack.h:365-394 `PackRun`. -/
def packRun (f : SideFormat) (reg : Nat) (src : Map) (startWidth width startDepth depth pos : Int) : M Int :=
  if width = f.kw then do
    let aligned := roundDownI reg depth
    let pos ← forI 0 aligned reg (fun d pos => do
      let x ← cint (startDepth + d)
      let blk ← src.block startWidth x width reg
      pack f reg blk pos) pos
    if aligned < depth then do
      let x ← cint (startDepth + aligned)
      let y ← cint (depth - aligned)
      let blk ← src.block startWidth x width y
      let c ← makeComplete f reg blk
      pack f reg c pos
    else pure pos
  else do
    assertM (decide (width < f.kw))
    forI 0 depth reg (fun d pos => do
      let y ← cint (depth - d)
      let ds := min (reg : Int) y
      let x ← cint (startDepth + d)
      let blk ← src.block startWidth x width ds
      let c ← makeComplete f reg blk
      pack f reg c pos) pos

/-- internal/pack.h:340-346 `PackL1`. -/
def packL1 (f : SideFormat) (reg : Nat) (p : SidePar) (src : Map)
    (startWidth width startDepth depth : Int) : M Unit :=
  forI 0 width f.kw (fun w _ => do
    let y ← cint (width - w)
    let ws := min (f.kw : Int) y
    let x ← cint (startWidth + w)
    let pos ← seekRun p x startDepth
    let _ ← packRun f reg src x ws startDepth depth pos
    pure ()) ()

/-- internal/pack.h:349-363 `PrefetchL1`; 64 is `kDefaultCacheLineSize`. -/
def prefetchL1 (src : Map) (startWidth width startDepth depth : Int) : M Unit :=
  let sd : Int := if src.majorA then 64 else 1
  let sw : Int := if src.majorA then 1 else 64
  forI 0 depth sd (fun d _ =>
    forI 0 width sw (fun w _ => do
      let x ← cint (startWidth + w)
      let y ← cint (startDepth + d)
      let _ ← src.data x y
      pure ()) ()) ()

/-- internal/pack.h:319-336 `PackL2`. -/
def packL2 (f : SideFormat) (reg : Nat) (p : SidePar) (src : Map) : M Unit :=
  forI 0 src.b p.l1_depth (fun d _ => do
    let y ← cint (src.b - d)
    let ds := min p.l1_depth y
    forI 0 src.a p.l1_width (fun w _ => do
      let x ← cint (src.a - w)
      let ws := min p.l1_width x
      prefetchL1 src w ws d ds
      packL1 f reg p src w ws d ds) ()) ()

/-! ## The kernel loops -/

/-- internal/unpack.h:32-36 the constructor of `PackedResult`: the number of entries to reserve. -/
def resultSize (b : Params) : M Int := cint (b.l2_rows * b.l2_cols)

/-- internal/unpack.h:40-50 `PackedResult::Map`. -/
def resultMap (b : Params) : Map :=
  { base := 0, a := b.l2_rows, b := b.l2_cols, stride := b.l2_rows, majorA := false }

/-- internal/kernel_reference.h:62-68, the offsets of the cells of one side in `ReferenceKernel::Run`. -/
def cellOffset (f : SideFormat) (dc rc : Int) : M Int := do
  let x ← cint (dc * f.cells)
  let x ← cint (x + rc)
  let x ← cint (x * f.cw)
  cint (x * f.cd)

/-- internal/kernel_reference.h:48-68 `ReferenceKernel::Run`, the loops over the cells. -/
def kernelRun (k : KernelFormat) (runDepth : Int) : M Unit :=
  forI 0 (runDepth / k.kDepth) 1 (fun dc _ =>
    forI 0 k.lhs.cells 1 (fun rc _ => do
      let _ ← cellOffset k.lhs dc rc
      forI 0 k.rhs.cells 1 (fun cc _ => do
        let _ ← cellOffset k.rhs dc cc
        pure ()) ()) ()) ()

/-- internal/compute.h:79-89 `ComputeRun`. -/
def computeRun (k : KernelFormat) (b : Params) (startRow startCol startDepth depth : Int) : M Unit := do
  let _ ← seekRun (b.side .lhs) startRow startDepth
  let _ ← seekRun (b.side .rhs) startCol startDepth
  let _ ← (resultMap b).block startRow startCol k.kRows k.kCols
  kernelRun k depth

/-- internal/compute.h:91-102 `ComputeL1`. -/
def computeL1 (k : KernelFormat) (b : Params) (startRow rows startCol cols startDepth depth : Int) :
    M Unit := do
  assertM (decide (rows % k.kRows = 0))
  assertM (decide (cols % k.kCols = 0))
  assertM (decide (depth % k.kDepth = 0))
  forI 0 cols k.kCols (fun c _ =>
    forI 0 rows k.kRows (fun r _ => do
      let x ← cint (startRow + r)
      let y ← cint (startCol + c)
      computeRun k b x y startDepth depth) ()) ()

/-- internal/compute.h:51-63 `Compute`. -/
def compute (k : KernelFormat) (b : Params) (depth0 : Int) : M Unit := do
  let depth := roundUpI k.kDepth depth0
  assertM (decide (depth ≤ b.l2_depth))
  forI 0 depth b.l1_depth (fun d _ => do
    let y ← cint (depth - d)
    let ds := min b.l1_depth y
    forI 0 b.l2_rows b.l1_rows (fun r _ => do
      let x ← cint (b.l2_rows - r)
      let rs := min b.l1_rows x
      computeL1 k b r rs 0 b.l2_cols d ds) ()) ()

/-! ## Unpacking -/

/-- internal/unpack.h:71-87 `PrefetchResultBlock<Rows, Cols>` (8 rows everywhere). -/
def prefetchResult (cols : Nat) (src : Map) (row col : Int) : M Unit := do
  let _ ← src.data row col
  forI 0 cols 1 (fun c _ => do
    let _ ← cint (c * src.stride)
    pure ()) ()

/-- internal/unpack.h:89-127 `UnpackResultBlock`: the loads of an `R x C` register block
(internal/simd_wrappers.h:443-458).  The caller gives the coordinates. -/
def loadBlock (R C : Nat) (src : Map) (row col : Int) : M Unit :=
  rect R C (fun i j => do
    let x ← cint (row + i)
    let y ← cint (col + j)
    let _ ← src.data x y
    pure ())

/-- internal/output.h:512-524 `StoreFinalOutput`: the same for the stores. -/
def storeBlock (R C : Nat) (dst : Map) (row col : Int) : M Unit := loadBlock R C dst row col

/-- One call of `UnpackResultBlock` that stores directly into the result; internal/unpack.h:195-206 and the
calls below it. -/
def unpackBlock (R C : Nat) (src dst : Map) (r c startRow startCol : Int) : M Unit := do
  let gr ← cint (r + startRow)
  let gc ← cint (c + startCol)
  loadBlock R C src r c
  storeBlock R C dst gr gc

/-- A loop `for (; r <= n - step; r += step) body(r)` that leaves the counter in `r`. -/
def strip (n : Int) (step : Nat) (body : Int → M Unit) (r : Int) : M Int := do
  let e ← cint (n - step)
  forI r (e + 1) step (fun r _ => do
    body r
    cint (r + step)) r

/-- internal/unpack.h:175-219: one strip of 8 columns of a row-major result.  The local 8x8 buffer is left
out, its addresses are constants. -/
def strip8 (src dst : Map) (rows startRow startCol c8 : Int) : M Unit := do
  prefetchResult 8 src 0 c8
  let r ← strip rows 8 (fun r => do
    let gr ← cint (r + startRow)
    let x ← cint (r + 8)
    prefetchResult 8 src x c8
    forI 0 8 4 (fun cx _ => do
      let c ← cint (c8 + cx)
      let _ ← cint (c + startCol)
      loadBlock 8 4 src r c) ()
    let gc ← cint (c8 + startCol)
    storeBlock 8 8 dst gr gc) 0
  let r ← strip rows 4 (fun r =>
    forI 0 8 4 (fun cx _ => do
      let c ← cint (c8 + cx)
      unpackBlock 4 4 src dst r c startRow startCol) ()) r
  let _ ← strip rows 1 (fun r =>
    forI 0 8 4 (fun cx _ => do
      let c ← cint (c8 + cx)
      unpackBlock 1 4 src dst r c startRow startCol) ()) r
  pure ()

/-- internal/unpack.h:222-248 and 249-275: one strip of 4 columns, or one column. -/
def stripCols (C : Nat) (src dst : Map) (rows startRow startCol c : Int) : M Unit := do
  prefetchResult C src 0 c
  let r ← strip rows 8 (fun r => do
    let x ← cint (r + 8)
    prefetchResult C src x c
    unpackBlock 8 C src dst r c startRow startCol) 0
  let r ← strip rows 4 (fun r => unpackBlock 4 C src dst r c startRow startCol) r
  let _ ← strip rows 1 (fun r => unpackBlock 1 C src dst r c startRow startCol) r
  pure ()

/-- internal/unpack.h:129-276 `UnpackResult`; `dst` is the whole result, the block has its first entry at
(`startRow`, `startCol`) and `rows x cols` entries. -/
def unpack (b : Params) (dst : Map) (startRow startCol rows cols : Int) : M Unit := do
  assertM (decide (0 ≤ startRow))
  let x ← cint (startRow + rows)
  assertM (decide (x ≤ dst.a))
  assertM (decide (0 ≤ startCol))
  let y ← cint (startCol + cols)
  assertM (decide (y ≤ dst.b))
  let src := resultMap b
  let c8 ← if dst.majorA then strip cols 8 (strip8 src dst rows startRow startCol) 0 else pure 0
  let c ← strip cols 4 (stripCols 4 src dst rows startRow startCol) c8
  let _ ← strip cols 1 (stripCols 1 src dst rows startRow startCol) c
  pure ()

/-! ## The drivers -/

/-- public/map.h:104-109 `VectorMap::block`, 131-137 `VectorDup::block`: the check of the offsets. -/
def offsetBlock (size start len : Int) : M Unit := do
  assertM (decide (0 ≤ start))
  let x ← cint (start + len)
  assertM (decide (x ≤ size))

/-- internal/single_thread_gemm.h:65-150 `SingleThreadGemm`; the vectors of offsets have as many entries as
the result has rows and columns. -/
def single (k : KernelFormat) (reg : Nat) (t : Tuning) (lhs rhs result : Map) : M Unit := do
  assertM (decide (lhs.b = rhs.a))
  let rows := result.a
  let cols := result.b
  let depth := lhs.b
  assertM (decide (0 < rows))
  assertM (decide (0 < cols))
  assertM (decide (0 < depth))
  assertM (decide (cols ≤ rows))
  let b ← initI k reg rows cols depth 1 t
  let _ ← packedSize (b.side .lhs)
  let _ ← packedSize (b.side .rhs)
  let _ ← resultSize b
  let once := decide (cols ≤ b.l2_cols)
  if once then packL2 k.rhs reg (b.side .rhs) rhs.flip else pure ()
  forI 0 rows b.l2_rows (fun r _ => do
    let x ← cint (rows - r)
    let rs := min b.l2_rows x
    let blk ← lhs.block r 0 rs depth
    packL2 k.lhs reg (b.side .lhs) blk
    forI 0 cols b.l2_cols (fun c _ => do
      let y ← cint (cols - c)
      let cs := min b.l2_cols y
      if once then pure () else do
        let blk ← rhs.block 0 c depth cs
        packL2 k.rhs reg (b.side .rhs) blk.flip
      compute k b depth
      unpack b result r c rs cs
      offsetBlock result.a r rs
      offsetBlock result.b c cs) ()) ()

/-- internal/multi_thread_gemm.h:489-524 `GemmWithPackedRhsTask::Run`. -/
def task (k : KernelFormat) (reg : Nat) (b : Params) (lhs result : Map)
    (startRow startCol rows cols : Int) : M Unit := do
  let depth := lhs.b
  let _ ← packedSize (b.side .lhs)
  let _ ← resultSize b
  forI 0 cols b.l2_cols (fun c _ => do
    let y ← cint (cols - c)
    let cs := min b.l2_cols y
    forI 0 rows b.l2_rows (fun r _ => do
      let x ← cint (rows - r)
      let rs := min b.l2_rows x
      let blk ← lhs.block r 0 rs depth
      packL2 k.lhs reg (b.side .lhs) blk
      compute k b depth
      let gr ← cint (startRow + r)
      let gc ← cint (startCol + c)
      unpack b result gr gc rs cs
      offsetBlock result.a gr rs
      offsetBlock result.b gc cs) ()) ()

/-- internal/multi_thread_gemm.h:697-698: where the rows of task `n` end. -/
def nextRow (kRows : Nat) (rows taskCount n : Int) : M Int := do
  let e ← cint (n + 1)
  let p ← cint (rows * e)
  let q ← cdivI p taskCount
  pure (min rows (roundUpI kRows q))

/-- internal/multi_thread_gemm.h:666-717, `MultiThreadGemm` with `taskCount` > 1 tasks.  The tasks run on the
workers; since only the arithmetic of each matters here, they are taken one after the other. -/
def multi (k : KernelFormat) (reg : Nat) (t : Tuning) (taskCount : Int) (lhs rhs result : Map) : M Unit := do
  assertM (decide (lhs.b = rhs.a))
  let rows := result.a
  let cols := result.b
  let depth := lhs.b
  assertM (decide (0 < rows))
  assertM (decide (0 < cols))
  assertM (decide (0 < depth))
  assertM (decide (cols ≤ rows))
  let b ← initI k reg rows cols depth taskCount t
  let _ ← packedSize (b.side .rhs)
  forI 0 cols b.l2_cols (fun c _ => do
    let y ← cint (cols - c)
    let cs := min b.l2_cols y
    let blk ← rhs.block 0 c depth cs
    packL2 k.rhs reg (b.side .rhs) blk.flip
    let _ ← forI 0 taskCount 1 (fun n startRow => do
      let next ← nextRow k.kRows rows taskCount n
      let blockRows ← cint (next - startRow)
      let blk ← lhs.block startRow 0 blockRows depth
      task k reg b blk result startRow c blockRows cs
      pure next) 0
    pure ()) ()

end IntSizes
end Gemmlowp
