import Verif.MultiThreadProof2
import Verif.OutBuild
/-!
# internal/dispatch_gemm_shape.h and public/gemmlowp.h: the entry points
-/
namespace Gemmlowp

/-- The part of a call that depends on how the library was built, on the machine and on the
context: overflow rule, kernel, packing routine, code of the output stages, `kRegisterSize`, tuning knobs, `hardware_concurrency` and
`max_num_threads`, and what happens to be in the scratch memory. -/
structure Env where
  mode : OvMode
  k : KernelFormat
  reg : Nat
  run : KernelRun
  pack : BlockPacker := packBlock
  out : OutBuild := .scalar
  tun : Tuning
  hw : Int
  maxThreads : Int
  scratch : Scratch
  mtScratch : MtScratch

/-- The arguments of public/gemmlowp.h:34-41 `GemmWithOutputPipelinePC`, the context excepted. -/
structure Call where
  lhsMem : Mem
  lhs : MatrixMap
  rhsMem : Mem
  rhs : MatrixMap
  result : MatrixMap
  lhsOffset : OffsetVec
  rhsOffset : OffsetVec
  pipe : Pipeline

/-- internal/dispatch_gemm_shape.h:191-197: the arguments of the recursive call. -/
def Call.transpose (c : Call) : Call :=
  { lhsMem := c.rhsMem, lhs := c.rhs.transpose
    rhsMem := c.lhsMem, rhs := c.lhs.transpose
    result := c.result.transpose
    lhsOffset := c.rhsOffset.transpose, rhsOffset := c.lhsOffset.transpose
    pipe := c.pipe.transpose }

/-- The arguments of `MultiThreadGemm` (internal/dispatch_gemm_shape.h:199-202). -/
def Call.args (e : Env) (c : Call) : GemmArgs Int :=
  { mode := e.mode, k := e.k, reg := e.reg, run := e.run, pack := e.pack
    lhsMem := c.lhsMem, lhs := c.lhs, rhsMem := c.rhsMem, rhs := c.rhs
    result := c.result, lhsOffset := c.lhsOffset, rhsOffset := c.rhsOffset
    out := e.out.ops e.mode c.pipe }

/-- internal/dispatch_gemm_shape.h:169-203 `DispatchGemmShape`. -/
def dispatch (e : Env) (c : Call) : M (Plan Int) := do
  assertM (decide (c.lhs.cols = c.rhs.rows))
  let rows := c.result.rows
  let cols := c.result.cols
  let depth := c.lhs.cols
  if rows = 0 ∨ cols = 0 ∨ depth = 0 then pure (.single [])
  else if h : rows < cols then dispatch e c.transpose
  else multiThreadGemm (c.args e) e.tun e.hw e.maxThreads e.scratch e.mtScratch
termination_by c.result.cols - c.result.rows
decreasing_by
  show c.result.rows - c.result.cols < c.result.cols - c.result.rows
  have h' : c.result.rows < c.result.cols := h
  omega

/-- public/gemmlowp.h:34-44 `GemmWithOutputPipelinePC`. -/
def gemmWithOutputPipelinePC (e : Env) (c : Call) : M (Plan Int) := dispatch e c

/-- public/gemmlowp.h:51-70 `GemmWithOutputPipeline`: the same offset for every row and for every
column. -/
def gemmWithOutputPipeline (e : Env) (lhsMem : Mem) (lhs : MatrixMap) (rhsMem : Mem) (rhs : MatrixMap)
    (result : MatrixMap) (lhsOffset rhsOffset : BitVec 32) (pipe : Pipeline) : M (Plan Int) :=
  dispatch e { lhsMem, lhs, rhsMem, rhs, result, pipe
               lhsOffset := .dup .col lhsOffset lhs.rows
               rhsOffset := .dup .row rhsOffset rhs.cols }

/-- public/gemmlowp.h:76-90 `Gemm`. -/
def gemm (e : Env) (lhsMem : Mem) (lhs : MatrixMap) (rhsMem : Mem) (rhs : MatrixMap)
    (result : MatrixMap) (lhsOffset rhsOffset resultOffset resultMultInt resultShift : BitVec 32) :
    M (Plan Int) :=
  gemmWithOutputPipeline e lhsMem lhs rhsMem rhs result lhsOffset rhsOffset
    (standardPipeline resultOffset resultMultInt resultShift)

/-- The memory of the result after a sequence of stores. -/
def applyStores (mem : Nat → Int) (t : Trace Int) : Nat → Int :=
  t.foldl (fun m s => fun a => if a = s.1 then s.2 else m a) mem

end Gemmlowp
