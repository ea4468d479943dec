import Verif.MultiThread

/-!
# meta/: the "meta" GEMM drivers

Everything in meta/ except the generated assembly: streams.h (sizes and strides), single_thread_gemm.h,
multi_thread_gemm.h, single_thread_transform.h, multi_thread_transform.h and the legacy drivers.

`Stream::Pack` and `MulKernel::Multiply` are parameters (`MetaOps`).  Pointers are byte offsets within their
object.  `int` computations whose operands are sizes of the whole problem are checked for overflow (`cint`);
increments of a pointer inside an object are not.
-/

namespace Gemmlowp
namespace Meta

/-! ## base.h and streams.h -/

/-- meta/base.h:26-33 `AlignTo` (both versions). -/
def alignTo (align value : Nat) : Nat := (value + align - 1) / align * align

/-- meta/streams.h:25-45. -/
inductive StreamKind
  | rowMajor | rowMajorWithSum | columnMajorWithSum
  deriving DecidableEq, Repr

/-- meta/streams.h:25-45: the parameters of a stream. -/
structure StreamParams where
  kind : StreamKind
  count : Nat
  stride : Nat
  multiplicativeSumOffset : Int := 0
  additiveSumOffset : Int := 0

/-- meta/streams.h:50-117 `StreamUtil::Offset(params, source, offset_stride, offset_advance)`; `size` is
`sizeof(InType)`. -/
def StreamParams.offset (p : StreamParams) (size source offsetStride offsetAdvance : Nat) : Nat :=
  match p.kind with
  | .rowMajor | .rowMajorWithSum => source + offsetStride * p.stride + offsetAdvance * size
  | .columnMajorWithSum => source + p.stride * offsetAdvance + offsetStride * size

/-- meta/streams.h:64-66, 87-91, 112-116 `StreamUtil::Scratch(params, lanes_count, pack_size)`. -/
def StreamParams.utilScratch (p : StreamParams) (size lanes pack : Nat) : Nat :=
  match p.kind with
  | .rowMajor => alignTo 64 (lanes * alignTo pack p.stride)
  | .rowMajorWithSum | .columnMajorWithSum => 32 + alignTo 32 (size * lanes * alignTo pack p.count)

/-- meta/streams.h:137-139, 193-195, 258-260 `UnpackedAdvance`. -/
def StreamParams.unpackedAdvance (p : StreamParams) (size pack : Nat) : Nat :=
  match p.kind with
  | .rowMajor | .rowMajorWithSum => size * pack
  | .columnMajorWithSum => size * pack * p.stride

/-- meta/streams.h:145-147, 201-203, 266-268 `UnpackedStride`. -/
def StreamParams.unpackedStride (p : StreamParams) (size lanes : Nat) : Nat :=
  match p.kind with
  | .rowMajor => lanes * p.stride
  | .rowMajorWithSum => size * lanes * p.stride
  | .columnMajorWithSum => size * lanes

/-- meta/streams.h:149-151, 205-208, 270-273 `PackedStride`; `Scratch` (153, 210-212, 275-277) is the same. -/
def StreamParams.packedStride (p : StreamParams) (size lanes pack : Nat) : Nat :=
  match p.kind with
  | .rowMajor => alignTo 32 (lanes * alignTo pack p.stride)
  | .rowMajorWithSum | .columnMajorWithSum => 32 + alignTo 32 (size * lanes * alignTo pack p.count)

/-! ## Parameters and operations -/

/-- meta/base.h:47-74 `GemmParams`, with `sizeof(OutType)`; `sizeof(InType)` is 1 in every instance. -/
structure GemmParams where
  m : Nat
  n : Nat
  k : Nat
  lhs : Nat
  rhs : Nat
  result : Nat
  scratch : Nat
  left : StreamParams
  right : StreamParams
  out : StreamParams
  outSize : Nat

/-- The generated code: what the specialisations of `Stream::Pack` (for the left and the right operand)
and `MulKernel::Multiply` do to the scratch memory (`σ`) and which entries a multiplication stores.
The arguments of a packing operation are the lanes, the leftovers of the depth, source and destination;
those of a multiplication the two sizes, the two packed operands and the destination. -/
structure MetaOps (σ β : Type) where
  packLeft : Nat → Nat → Nat → Nat → σ → M σ
  packRight : Nat → Nat → Nat → Nat → σ → M σ
  mul : Nat → Nat → Nat → Nat → Nat → σ → M (List (Nat × β))

/-- A specialisation for 0 lanes is the primary template, which does nothing (meta/streams.h:122-135,
177-191, 241-256). -/
def packOrSkip {σ : Type} (pack : Nat → Nat → Nat → Nat → σ → M σ) (lanes kLeft src dst : Nat) (s : σ) :
    M σ :=
  if lanes = 0 then .ok s else pack lanes kLeft src dst s

/-- Likewise `Multiply` (meta/quantized_mul_kernels.h:39-54, 89-103, 133-147). -/
def mulOrSkip {σ β : Type} (mul : Nat → Nat → Nat → Nat → Nat → σ → M (List (Nat × β)))
    (mm nn pl pr res : Nat) (s : σ) : M (List (Nat × β)) :=
  if mm = 0 ∨ nn = 0 then .ok [] else mul mm nn pl pr res s

/-! ## single_thread_gemm.h: the executors -/

/-- meta/single_thread_gemm.h:30-42 `GemmExecutorPackRHS::EstimateScratchSize`. -/
def estimateScratchPackRHS (p : GemmParams) (kernelM kernelN kernelK : Nat) : Nat :=
  let lhsScratch := p.left.utilScratch 1 kernelM kernelK
  let rhsChunks := (p.n + kernelN - 1) / kernelN
  let rhsScratch := rhsChunks * p.right.utilScratch 1 kernelN kernelK
  alignTo 65536 (lhsScratch + rhsScratch)

/-- meta/single_thread_gemm.h:219-231 `GemmExecutorPackLHS::EstimateScratchSize`. -/
def estimateScratchPackLHS (p : GemmParams) (kernelM kernelN kernelK : Nat) : Nat :=
  let lhsChunks := (p.m + kernelM - 1) / kernelM
  let lhsScratch := lhsChunks * p.left.utilScratch 1 kernelM kernelK
  let rhsScratch := p.right.utilScratch 1 kernelN kernelK
  alignTo 65536 (lhsScratch + rhsScratch)

/-- The tile sizes and the leftovers, the template arguments of `ExecuteDispatch3D`. -/
structure Tile where
  m : Nat
  n : Nat
  k : Nat
  mLeft : Nat
  nLeft : Nat
  kLeft : Nat
  deriving DecidableEq, Repr

/-- One strip of products: the loop over the chunks of the side that is packed as a whole and the leftover
after it (meta/single_thread_gemm.h:164-180, 196-212 and, with the sides exchanged, 351-367, 383-399).
`mulF` is the kernel for a full chunk, `mulL` the one for the leftover, both given the packed chunk and the
place of the result. -/
def strip {σ β : Type} (mulF mulL : Nat → Nat → σ → M (List (Nat × β))) (chunks chunkSize resSize : Nat)
    (packed res : Nat) (s : σ) : M (List (Nat × β)) := do
  let r ← forLoop 0 chunks 1 (fun _ (st : Nat × Nat × List (Nat × β)) => do
    let t ← mulF st.1 st.2.1 s
    pure (st.1 + chunkSize, st.2.1 + resSize, st.2.2 ++ t)) (packed, res, [])
  let t ← mulL r.1 r.2.1 s
  pure (r.2.2 ++ t)

/-- Packing a whole side: meta/single_thread_gemm.h:124-142, 311-329.  `packF` packs a full chunk, `packL`
the leftover, both given source and destination. -/
def packSide {σ : Type} (packF packL : Nat → Nat → σ → M σ) (chunks chunkSize packedSize src dst : Nat)
    (s : σ) : M σ := do
  let r ← forLoop 0 chunks 1 (fun _ (st : Nat × Nat × σ) => do
    let s' ← packF st.1 st.2.1 st.2.2
    pure (st.1 + chunkSize, st.2.1 + packedSize, s')) (src, dst, s)
  packL r.1 r.2.1 r.2.2

/-- meta/single_thread_gemm.h:44-214 `GemmExecutorPackRHS::ExecuteDispatch3D`. -/
def executePackRHS {σ β : Type} (ops : MetaOps σ β) (t : Tile) (p : GemmParams) (s : σ) :
    M (σ × List (Nat × β)) := do
  let lhsChunks := p.m / t.m
  let rhsChunks := p.n / t.n
  let packedLhs := p.scratch
  let packedRhs := p.scratch + p.left.packedStride 1 t.m t.k
  let packedRhsChunkSize := p.right.packedStride 1 t.n t.k
  let s ← packSide (packOrSkip ops.packRight t.n t.kLeft) (packOrSkip ops.packRight t.nLeft t.kLeft)
    rhsChunks (p.right.unpackedStride 1 t.n) packedRhsChunkSize p.rhs packedRhs s
  let resultStripSize := p.out.unpackedStride p.outSize t.m
  let resultChunkSize := p.out.unpackedAdvance p.outSize t.n
  let r ← forLoop 0 lhsChunks 1 (fun _ (st : Nat × Nat × σ × List (Nat × β)) => do
    let s ← packOrSkip ops.packLeft t.m t.kLeft st.1 packedLhs st.2.2.1
    let l ← strip (fun pr res => mulOrSkip ops.mul t.m t.n packedLhs pr res)
      (fun pr res => mulOrSkip ops.mul t.m t.nLeft packedLhs pr res)
      rhsChunks packedRhsChunkSize resultChunkSize packedRhs st.2.1 s
    pure (st.1 + p.left.unpackedStride 1 t.m, st.2.1 + resultStripSize, s, st.2.2.2 ++ l))
    (p.lhs, p.result, s, [])
  if t.mLeft > 0 then do
    let s ← packOrSkip ops.packLeft t.mLeft t.kLeft r.1 packedLhs r.2.2.1
    let l ← strip (fun pr res => mulOrSkip ops.mul t.mLeft t.n packedLhs pr res)
      (fun pr res => mulOrSkip ops.mul t.mLeft t.nLeft packedLhs pr res)
      rhsChunks packedRhsChunkSize resultChunkSize packedRhs r.2.1 s
    pure (s, r.2.2.2 ++ l)
  else pure (r.2.2.1, r.2.2.2)

/-- meta/single_thread_gemm.h:233-401 `GemmExecutorPackLHS::ExecuteDispatch3D`. -/
def executePackLHS {σ β : Type} (ops : MetaOps σ β) (t : Tile) (p : GemmParams) (s : σ) :
    M (σ × List (Nat × β)) := do
  let lhsChunks := p.m / t.m
  let rhsChunks := p.n / t.n
  let packedRhs := p.scratch
  let packedLhs := p.scratch + p.right.packedStride 1 t.n t.k
  let packedLhsChunkSize := p.left.packedStride 1 t.m t.k
  let s ← packSide (packOrSkip ops.packLeft t.m t.kLeft) (packOrSkip ops.packLeft t.mLeft t.kLeft)
    lhsChunks (p.left.unpackedStride 1 t.m) packedLhsChunkSize p.lhs packedLhs s
  let resultStripSize := p.out.unpackedAdvance p.outSize t.n
  let resultChunkSize := p.out.unpackedStride p.outSize t.m
  let r ← forLoop 0 rhsChunks 1 (fun _ (st : Nat × Nat × σ × List (Nat × β)) => do
    let s ← packOrSkip ops.packRight t.n t.kLeft st.1 packedRhs st.2.2.1
    let l ← strip (fun pl res => mulOrSkip ops.mul t.m t.n pl packedRhs res)
      (fun pl res => mulOrSkip ops.mul t.mLeft t.n pl packedRhs res)
      lhsChunks packedLhsChunkSize resultChunkSize packedLhs st.2.1 s
    pure (st.1 + p.right.unpackedStride 1 t.n, st.2.1 + resultStripSize, s, st.2.2.2 ++ l))
    (p.rhs, p.result, s, [])
  if t.nLeft > 0 then do
    let s ← packOrSkip ops.packRight t.nLeft t.kLeft r.1 packedRhs r.2.2.1
    let l ← strip (fun pl res => mulOrSkip ops.mul t.m t.nLeft pl packedRhs res)
      (fun pl res => mulOrSkip ops.mul t.mLeft t.nLeft pl packedRhs res)
      lhsChunks packedLhsChunkSize resultChunkSize packedLhs r.2.1 s
    pure (s, r.2.2.2 ++ l)
  else pure (r.2.2.1, r.2.2.2)

/-! ## Dispatch -/

/-- meta/single_thread_gemm.h:539-582 `Dispatch3DStage3`; `v` is `variable_k`.  `exit(1)` is `abort`. -/
def dispatch3 {α : Type} (exec : Tile → M α) (dm dn dk fm fn : Nat) : Nat → Nat → M α
  | 0, k => if k = 0 then exec ⟨dm, dn, dk, fm, fn, 0⟩ else .error .abort
  | v + 1, k => if k = v + 1 then exec ⟨dm, dn, dk, fm, fn, v + 1⟩ else dispatch3 exec dm dn dk fm fn v k

/-- meta/single_thread_gemm.h:586-627 `Dispatch3DStage2`. -/
def dispatch2 {α : Type} (exec : Tile → M α) (dm dn dk fm : Nat) : Nat → Nat → Nat → M α
  | 0, n, k => if n = 0 then dispatch3 exec dm dn dk fm 0 (dk - 1) k else .error .abort
  | v + 1, n, k =>
    if n = v + 1 then dispatch3 exec dm dn dk fm (v + 1) (dk - 1) k else dispatch2 exec dm dn dk fm v n k

/-- meta/single_thread_gemm.h:631-672 `Dispatch3DStage1`. -/
def dispatch1 {α : Type} (exec : Tile → M α) (dm dn dk : Nat) : Nat → Nat → Nat → Nat → M α
  | 0, m, n, k => if m = 0 then dispatch2 exec dm dn dk 0 (dn - 1) n k else .error .abort
  | v + 1, m, n, k =>
    if m = v + 1 then dispatch2 exec dm dn dk (v + 1) (dn - 1) n k else dispatch1 exec dm dn dk v m n k

/-- meta/single_thread_gemm.h:676-683 `Gemm<Executor, Params, kernel_m, kernel_n, kernel_k>`. -/
def gemm {α : Type} (exec : Tile → GemmParams → M α) (km kn kk : Nat) (p : GemmParams) : M α :=
  dispatch1 (fun t => exec t p) km kn kk (km - 1) (p.m % km) (p.n % kn) (p.k % kk)

/-- meta/single_thread_transform.h:40-76 `Dispatch1D`. -/
def dispatch1D {α : Type} (exec : Nat → Nat → M α) (kernelSize : Nat) : Nat → Nat → M α
  | 0, l => if l = 0 then exec kernelSize 0 else .error .abort
  | v + 1, l => if l = v + 1 then exec kernelSize (v + 1) else dispatch1D exec kernelSize v l

/-- meta/single_thread_transform.h:80-85 `Transform1D`. -/
def transform1D {α : Type} (exec : Nat → Nat → M α) (kernelSize count : Nat) : M α :=
  dispatch1D exec kernelSize (kernelSize - 1) (count % kernelSize)

/-! ## The cache-friendly executors -/

/-- meta/single_thread_gemm.h:406-414 `CalculateCacheFriendlyTasksCount`. -/
def cacheFriendlyTasksCount (cacheSize constantMemory perChunkMemory totalDim chunkDim : Nat) : M Nat := do
  assertM (decide (constantMemory + perChunkMemory < cacheSize))
  let availableCache := cacheSize - constantMemory
  let availableChunks := availableCache / perChunkMemory
  let chunksCount := (totalDim + chunkDim - 1) / chunkDim
  pure ((chunksCount + availableChunks - 1) / availableChunks)

/-- meta/single_thread_gemm.h:416-433 `UpdateCacheFriendlyTask`. -/
def updateTask (p : GemmParams) (mOffset m nOffset n : Nat) : GemmParams :=
  { p with
    m := m
    lhs := p.left.offset 1 p.lhs mOffset 0
    n := n
    rhs := p.right.offset 1 p.rhs nOffset 0
    result := p.out.offset p.outSize p.result mOffset nOffset }

/-- How a dimension is cut into a number of tasks: first entry and number of entries of each
(meta/single_thread_gemm.h:470-481, 519-530; meta/multi_thread_gemm.h:78-87, 89-98;
meta/legacy_multi_thread_common.h:98-112; meta/multi_thread_transform.h:47-60): all but the last have
`dim / tasks` entries. -/
def cut (dim tasks : Nat) : List (Nat × Nat) :=
  (List.range (tasks - 1)).map (fun i => (i * (dim / tasks), dim / tasks)) ++
    [((tasks - 1) * (dim / tasks), dim - (tasks - 1) * (dim / tasks))]

/-- Running some tasks one after the other on the same scratch memory. -/
def runTasks {σ β : Type} (run : GemmParams → σ → M (σ × List (Nat × β))) :
    List GemmParams → σ → M (σ × List (Nat × β))
  | [], s => .ok (s, [])
  | p :: ps, s => run p s >>= fun r => runTasks run ps r.1 >>= fun r' => .ok (r'.1, r.2 ++ r'.2)

/-- meta/single_thread_gemm.h:437-484 `GemmExecutorPackRHSCacheFriendly<cache_size>`. -/
def executePackRHSCacheFriendly {σ β : Type} (cacheSize : Nat) (ops : MetaOps σ β) (t : Tile)
    (p : GemmParams) (s : σ) : M (σ × List (Nat × β)) := do
  let lhsScratch := p.left.packedStride 1 t.m t.k
  let rhsScratch := p.right.packedStride 1 t.n t.k
  let tasks ← cacheFriendlyTasksCount cacheSize lhsScratch rhsScratch p.n t.n
  if tasks = 1 then executePackRHS ops t p s
  else if tasks = 0 then .error .badOp
  else
    runTasks (fun q s => gemm (fun t q => executePackRHS ops t q s) t.m t.n t.k q)
      ((cut p.n tasks).map fun c => updateTask p 0 p.m c.1 c.2) s

/-- meta/single_thread_gemm.h:486-533 `GemmExecutorPackLHSCacheFriendly<cache_size>`. -/
def executePackLHSCacheFriendly {σ β : Type} (cacheSize : Nat) (ops : MetaOps σ β) (t : Tile)
    (p : GemmParams) (s : σ) : M (σ × List (Nat × β)) := do
  let lhsScratch := p.left.packedStride 1 t.m t.k
  let rhsScratch := p.right.packedStride 1 t.n t.k
  let tasks ← cacheFriendlyTasksCount cacheSize rhsScratch lhsScratch p.m t.m
  if tasks = 1 then executePackLHS ops t p s
  else if tasks = 0 then .error .badOp
  else
    runTasks (fun q s => gemm (fun t q => executePackLHS ops t q s) t.m t.n t.k q)
      ((cut p.m tasks).map fun c => updateTask p c.1 c.2 0 p.n) s

/-! ## Several threads -/

/-- meta/multi_thread_common.h:23-35, meta/legacy_multi_thread_common.h:73-81 `ResolveMaxThreads`; `hw` is
the number of processors that the operating system reports. -/
def resolveMaxThreads (hw maxThreads : Int) : Int := if maxThreads = 0 then hw else maxThreads

/-- The number of tasks, meta/multi_thread_gemm.h:60-69 and meta/legacy_multi_thread_common.h:85-91; the
constants (25-26, respectively 27-28) are the same. -/
def realTasks (maxTasks : Int) (m n k : Nat) : M Int := do
  let mn ← cint (m * n)
  let mnk ← cint (mn * k)
  let maxTasksBySize := mnk / 16000
  let maxTasksDimension := max ((m : Int) / 4) ((n : Int) / 4)
  pure (max 1 (min maxTasks (min maxTasksBySize maxTasksDimension)))

/-- The rectangle of a task, meta/legacy_multi_thread_common.h:30-39 `TaskRect`. -/
structure TaskRect where
  mOffset : Nat
  m : Nat
  nOffset : Nat
  n : Nat
  deriving DecidableEq, Repr

/-- The rectangles of meta/multi_thread_gemm.h:71-99 and meta/legacy_multi_thread_common.h:93-113
`PrepareTasks`. -/
def prepareRects (maxTasks : Int) (m n k : Nat) : M (List TaskRect) := do
  let tasks ← realTasks maxTasks m n k
  if tasks = 1 then pure [⟨0, m, 0, n⟩]
  else if m / 4 > n / 4 then pure ((cut m tasks.toNat).map fun c => ⟨c.1, c.2, 0, n⟩)
  else pure ((cut n tasks.toNat).map fun c => ⟨0, m, c.1, c.2⟩)

/-- meta/multi_thread_gemm.h:28-54 `PrepareGemmTask`, for a list of rectangles: each task gets the scratch
memory after that of the one before. -/
def prepareGemmTasksFrom (estimate : GemmParams → Nat) (p : GemmParams) : Nat → List TaskRect →
    List GemmParams
  | _, [] => []
  | scratch, r :: rs =>
    let task := { updateTask p r.mOffset r.m r.nOffset r.n with scratch := scratch }
    task :: prepareGemmTasksFrom estimate p (scratch + estimate task) rs

/-- meta/multi_thread_gemm.h:56-102 `PrepareGemmTasks`: `none` is the answer `false`. -/
def prepareGemmTasks (estimate : GemmParams → Nat) (maxThreads : Int) (p : GemmParams) :
    M (Option (List GemmParams)) := do
  let tasks ← realTasks maxThreads p.m p.n p.k
  if tasks = 1 then pure none
  else do
    let rects ← prepareRects maxThreads p.m p.n p.k
    pure (some (prepareGemmTasksFrom estimate p p.scratch rects))

/-- meta/multi_thread_gemm.h:104-140 `MultiThreadGemm`: the stores of each task (one if the calling thread
does everything).  `run` is `Gemm<Executor, ..>`.  The tasks work on separate parts of the scratch memory; each
is described by its run from the same contents `s`. -/
def multiThreadGemmTasks {σ β : Type} (run : GemmParams → σ → M (σ × List (Nat × β)))
    (estimate : GemmParams → Nat) (maxThreads : Int) (p : GemmParams) (s : σ) : M (List (List (Nat × β))) :=
  prepareGemmTasks estimate maxThreads p >>= fun o =>
  match o with
  | none => run p s >>= fun r => .ok [r.2]
  | some ts => ts.mapM fun q => run q s >>= fun r => .ok r.2

/-- meta/multi_thread_transform.h:28-62 `PrepareTransform1DTasks`: the part of the input of each task;
`cost` is the factor of `EstimateComputeCost` (meta/transform_kernels.h:165-167, 183-185, 201-203, 219-221).
`none` is the answer `false`. -/
def prepareTransform1DTasks (cost : Nat) (maxThreads : Int) (count : Nat) : M (Option (List (Nat × Nat))) := do
  let taskSize ← cint (count * cost)
  let over ← cint (taskSize - 128000)
  let maxTasksBySize := Int.tdiv over 32000
  let tasks := max 1 (min maxThreads maxTasksBySize)
  if tasks = 1 then pure none else pure (some (cut count tasks.toNat))

/-! ## The legacy drivers -/

/-- meta/legacy_multi_thread_gemm.h:31 `kMaxCacheFriendlySize`. -/
def kMaxCacheFriendlySize : Nat := 256 * 1024

/-- meta/legacy_multi_thread_gemm.h:33-60 `CacheFriendlyMatrixMatrix`: first column and number of columns of
each call of the operation.  `sizeof(IN_TYPE)` is 1.  `k` is positive (the code divides by `k * 4`). -/
def cacheFriendlyChunks (n k : Nat) : M (List (Nat × Nat)) := do
  let nk ← cint (n * k)
  if nk > (kMaxCacheFriendlySize : Int) then do
    let k4 ← cint (k * 4)
    let optimalN := max 1 (4 * (kMaxCacheFriendlySize / k4.toNat))
    let chunksLessOne : Int := (n / optimalN : Nat) - 1
    let _ ← cint (optimalN * k)
    let nLeft ← cint (n - chunksLessOne * optimalN)
    -- a negative number would put the last chunk before the beginning of the operands
    if chunksLessOne < 0 then .error .oob
    else pure ((List.range chunksLessOne.toNat).map (fun i => (i * optimalN, optimalN)) ++
      [((chunksLessOne * optimalN).toNat, nLeft.toNat)])
  else pure [(0, n)]

/-- What the three operations of the legacy drivers (quantized, `int32`, `float`) differ in: the size of an
entry of the result, the generated code (given the streams), the `result_offset` that goes into
`additive_sum_offset` (0 for the other two), the computation of the constants of the kernel, and the tiles
that `gemv_*` uses for some depth. -/
structure LegacyOp (σ β : Type) where
  outSize : Nat
  ops : StreamParams → StreamParams → StreamParams → MetaOps σ β
  sumOffset : Int
  constants : M Unit
  gemvTile : Nat → Nat × Nat

/-- The constants of the quantized kernel, meta/legacy_single_thread_gemm.h:66-67, 110-111:
`1 << (shift - 1)`. -/
def q8Constants (shift : Int) : M Unit := if 1 ≤ shift ∧ shift ≤ 31 then .ok () else .error .badOp

/-- meta/legacy_single_thread_gemm.h:115-119. -/
def q8GemvTile (k : Nat) : Nat × Nat := if k < 1536 then (1, 8) else (2, 4)

/-- meta/legacy_single_thread_gemm.h:200-204, 285-289. -/
def i32GemvTile (k : Nat) : Nat × Nat := if k < 1664 then (1, 8) else (1, 6)

/-- The parameters, meta/legacy_single_thread_gemm.h:42-69, 86-113, 134-158, 174-198, 218-243, 258-283.
`outStride` is in bytes. -/
def legacyParams {σ β : Type} (o : LegacyOp σ β) (scratch lhs rhs m n k : Nat) (lhsOffset rhsOffset : Int)
    (result outStride : Nat) : M GemmParams := do
  let kl ← cint (k * lhsOffset)
  let klr ← cint (kl * rhsOffset)
  let add ← cint (o.sumOffset + klr)
  o.constants
  pure
    { m := m, n := n, k := k, lhs := lhs, rhs := rhs, result := result, scratch := scratch
      left := { kind := .rowMajorWithSum, count := k, stride := k
                multiplicativeSumOffset := rhsOffset, additiveSumOffset := add }
      right := { kind := .rowMajorWithSum, count := k, stride := k
                 multiplicativeSumOffset := lhsOffset, additiveSumOffset := 0 }
      out := { kind := .rowMajor, count := 0, stride := outStride }
      outSize := o.outSize }

/-- meta/legacy_single_thread_gemm.h:29-72, 122-161, 207-246 `gemm_*_strided`; `result_stride` is in
entries. -/
def legacyGemm {σ β : Type} (o : LegacyOp σ β) (scratch lhs rhs m n k : Nat) (lhsOffset rhsOffset : Int)
    (result resultStride : Nat) (s : σ) : M (σ × List (Nat × β)) := do
  let p ← legacyParams o scratch lhs rhs m n k lhsOffset rhsOffset result (resultStride * o.outSize)
  gemm (fun t p => executePackRHS (o.ops p.left p.right p.out) t p s) 2 4 8 p

/-- meta/legacy_single_thread_gemm.h:74-120, 163-205, 248-290 `gemv_*`.  The output has one row, so that
its stride (`n` or 0) does not matter. -/
def legacyGemv {σ β : Type} (o : LegacyOp σ β) (scratch lhs rhs n k : Nat) (lhsOffset rhsOffset : Int)
    (result : Nat) (s : σ) : M (σ × List (Nat × β)) := do
  let p ← legacyParams o scratch lhs rhs 1 n k lhsOffset rhsOffset result 0
  gemm (fun t p => executePackLHS (o.ops p.left p.right p.out) t p s) (o.gemvTile k).1 (o.gemvTile k).2 8 p

/-- meta/legacy_multi_thread_gemm.h:33-60 `CacheFriendlyMatrixMatrix`. -/
def cacheFriendlyMM {σ β : Type} (o : LegacyOp σ β) (lhsOffset rhsOffset : Int)
    (scratch lhs rhs m n k result resultStride : Nat) (s : σ) : M (σ × List (Nat × β)) := do
  let chunks ← cacheFriendlyChunks n k
  chunks.foldlM (fun (st : σ × List (Nat × β)) c => do
    let r ← legacyGemm o scratch lhs (rhs + c.1 * k) m c.2 k lhsOffset rhsOffset
      (result + c.1 * o.outSize) resultStride st.1
    pure (r.1, st.2 ++ r.2)) (s, [])

/-- meta/legacy_multi_thread_common.h:60-68, 115-147 `MultiThreadedMatrixMatrix`: the stores of each task
(one task if the product is computed by the calling thread).  `run` is `ExecuteMatrixMatrix` and `per`
`ScratchPerThread`.  The tasks work on separate parts of the scratch memory; each is described by its run
from the same contents `s`, which are overwritten before they are read. -/
def multiThreadedMM {σ β : Type} (outSize : Nat)
    (run : (scratch lhs rhs m n k result resultStride : Nat) → σ → M (σ × List (Nat × β)))
    (per : Nat) (hw maxThreads : Int) (scratch lhs rhs m n k result resultStride : Nat) (s : σ) :
    M (List (List (Nat × β))) := do
  let rects ← prepareRects (resolveMaxThreads hw maxThreads) m n k
  if rects.length = 1 then do
    let r ← run scratch lhs rhs m n k result resultStride s
    pure [r.2]
  else
    rects.zipIdx.mapM fun (r, i) => do
      let t ← run (scratch + i * per) (lhs + r.mOffset * k) (rhs + r.nOffset * k) r.m r.n k
        (result + (r.mOffset * resultStride + r.nOffset) * outSize) resultStride s
      pure t.2

/-- meta/legacy_multi_thread_gemv.h:39-50, 99-115 and the like: `multi_thread_gemv_*`. -/
def multiThreadGemv {σ β : Type} (o : LegacyOp σ β) (hw maxThreads : Int) (scratch lhs rhs n k : Nat)
    (lhsOffset rhsOffset : Int) (result : Nat) (s : σ) : M (List (List (Nat × β))) :=
  if resolveMaxThreads hw maxThreads = 1 then do
    let r ← legacyGemv o scratch lhs rhs n k lhsOffset rhsOffset result s
    pure [r.2]
  else
    multiThreadedMM o.outSize
      (fun scratch lhs rhs _ n k result _ s => legacyGemv o scratch lhs rhs n k lhsOffset rhsOffset result s)
      (128 * 1024) hw (resolveMaxThreads hw maxThreads) scratch lhs rhs 1 n k result n s

/-- meta/legacy_multi_thread_gemm.h:158-186, 193-218, 226-252 `multi_thread_gemm_*`. -/
def multiThreadGemm {σ β : Type} (o : LegacyOp σ β) (hw maxThreads : Int) (scratch lhs rhs m n k : Nat)
    (lhsOffset rhsOffset : Int) (result : Nat) (s : σ) : M (List (List (Nat × β))) :=
  if m = 1 then multiThreadGemv o hw maxThreads scratch lhs rhs n k lhsOffset rhsOffset result s
  else if n = 1 then multiThreadGemv o hw maxThreads scratch rhs lhs m k rhsOffset lhsOffset result s
  else if resolveMaxThreads hw maxThreads = 1 then do
    let r ← cacheFriendlyMM o lhsOffset rhsOffset scratch lhs rhs m n k result n s
    pure [r.2]
  else
    multiThreadedMM o.outSize (cacheFriendlyMM o lhsOffset rhsOffset) (4 * kMaxCacheFriendlySize) hw
      (resolveMaxThreads hw maxThreads) scratch lhs rhs m n k result n s

/-- meta/legacy_multi_thread_gemm.h:152-156, 187-191, 220-224 `gemm_*_scratch`. -/
def gemmScratch (hw maxThreads : Int) : M Int :=
  cint (resolveMaxThreads hw maxThreads * (4 * kMaxCacheFriendlySize : Nat))

end Meta
end Gemmlowp
