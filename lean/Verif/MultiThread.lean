import Verif.GemmProof2
import Verif.PropsPool
/-!
# internal/multi_thread_gemm.h: splitting a product over the worker pool
-/
namespace Gemmlowp

/-- An `int` computed exactly as `x`: a value outside of int32 is signed overflow. -/
def cint (x : Int) : M Int := if InI32 x then .ok x else .error .overflow

theorem cint_ok {x : Int} (h : InI32 x) : cint x = .ok x := by simp [cint, h]

/-- Conversion to `int` of an unsigned 64-bit number: modulo 2^32 into the signed range
(implementation-defined before C++20, done this way by all the compilers in question). -/
def intOfU64 (x : Nat) : Int := (BitVec.ofNat 32 x).toInt

/-- internal/platform.h:92-99 (and 43-50) `GetHardwareConcurrency`; `hw` is what the operating
system reports. -/
def getHardwareConcurrency (hw maxThreads : Int) : Int := if maxThreads = 0 then hw else maxThreads

/-- internal/common.h:149-152 `CeilQuotient` on `int`, overflow being a fault. -/
def ceilQuotientI (a b : Int) : M Int := do
  let s ← cint (a + b)
  let s ← cint (s - 1)
  cdiv s b

/-- internal/multi_thread_gemm.h:580-625 `HowManyThreads<KernelRows>`. -/
def howManyThreads (kernelRows : Nat) (hw maxNumThreads rows cols depth : Int) : M Int := do
  if maxNumThreads = 1 then pure 1
  else do
    let maxCount := getHardwareConcurrency hw maxNumThreads
    let minRowsPerThread : Int := if kernelRows > 16 then kernelRows else 16
    let q ← ceilQuotientI rows minRowsPerThread
    let t := min maxCount q
    let t :=
      if t > 1 then
        let cubic := ((rows % 2 ^ 64).toNat * (cols % 2 ^ 64).toNat * (depth % 2 ^ 64).toNat) % 2 ^ 64
        let t := min t (intOfU64 (cubic / 65536))
        if t < 1 then 1 else t
      else t
    assertM (decide (0 < t ∧ t ≤ maxCount))
    pure t

/-- internal/multi_thread_gemm.h:692-693, where the rows of task `n` end. -/
def nextStartRow (kRows rows taskCount n : Nat) : M Nat := do
  let p ← cint (rows * (n + 1))
  let q ← cdiv p taskCount
  let s ← cint (q + kRows)
  let _ ← cint (s - 1)
  pure (min rows (roundUp kRows q.toNat))

/-- internal/multi_thread_gemm.h:688-708, the loop over the tasks: first row and number of rows
of each. -/
def splitRows (kRows rows taskCount : Nat) : M (List (Nat × Nat)) := do
  let (_, l) ← forLoop 0 taskCount 1 (fun n (s : Nat × List (Nat × Nat)) => do
    let next ← nextStartRow kRows rows taskCount n
    pure (next, s.2 ++ [(s.1, next - s.1)])) (0, [])
  pure l

/-- What happens to be in the buffers that the allocator of a worker hands to a task. -/
structure TaskScratch where
  lhsData : Nat → UInt8
  lhsSums : Nat → BitVec 32
  res : Nat → BitVec 32

/-- internal/multi_thread_gemm.h:489-524 `GemmWithPackedRhsTask::Run`: the stores it performs.
`pr` is the packed block of the RHS, which nobody writes while tasks are running; everything else
that the task writes belongs to its own `local_allocator`.  Start and size of the result block are
`MatrixBlockBounds`. -/
def taskRun {β : Type} (a : GemmArgs β) (b : BlockParams) (lhs : MatrixMap) (pr : PackedSide)
    (startRow startCol rows cols : Nat) (s : TaskScratch) : M (Trace β) := do
  let depth := lhs.cols
  let pl := PackedSide.fresh (b.side .lhs) s.lhsData s.lhsSums
  let res := freshResult b s.res
  let (_, _, t) ← forLoop 0 cols b.l2_cols
    (fun c (st : PackedSide × Buf (BitVec 32) × Trace β) => do
      let cs := min b.l2_cols (cols - c)
      forLoop 0 rows b.l2_rows (fun r (st : PackedSide × Buf (BitVec 32) × Trace β) => do
        let rs := min b.l2_rows (rows - r)
        let blk ← lhs.block r 0 rs depth
        let pl ← packLhs a.pack a.mode a.k.lhs a.reg (b.side .lhs) a.lhsMem blk st.1
        let (res, t) ← gemmStep a b pl pr (startRow + r) (startCol + c) rs cs depth st.2.1 st.2.2
        pure (pl, res, t)) st) (pl, res, [])
  pure t

/-- internal/multi_thread_gemm.h:695-707, the tasks of one call of `Execute`, each as the list of
its stores.  `tasks` is the row split; `s n` the scratch memory of task `n`. -/
def makeTasks {β : Type} (a : GemmArgs β) (b : BlockParams) (pr : PackedSide) (c cs depth : Nat)
    (split : List (Nat × Nat)) (s : Nat → TaskScratch) : M (List (Trace β)) :=
  split.zipIdx.mapM (fun x => do
    let lhsBlock ← a.lhs.block x.1.1 0 x.1.2 depth
    taskRun a b lhsBlock pr x.1.1 c x.1.2 cs (s x.2))

/-- Contents of the memory handed out during a multi-threaded call: the master's buffer for the
packed RHS, and for each call of `Execute` and each task its own buffers. -/
structure MtScratch where
  rhsData : Nat → UInt8
  rhsSums : Nat → BitVec 32
  task : Nat → Nat → TaskScratch

/-- internal/multi_thread_gemm.h:666-714, what `MultiThreadGemm` does with more than one thread:
the calls of `WorkersPool::Execute` it makes. -/
def mtScript {β : Type} (a : GemmArgs β) (tun : Tuning) (taskCount : Nat) (s : MtScratch) :
    M (Pool.Script (Nat × β)) := do
  let rows := a.result.rows
  let cols := a.result.cols
  let depth := a.lhs.cols
  let b ← BlockParams.init a.k a.reg rows cols depth taskCount tun
  let pr := PackedSide.fresh (b.side .rhs) s.rhsData s.rhsSums
  let (_, sc) ← forLoop 0 cols b.l2_cols (fun c (st : PackedSide × Pool.Script (Nat × β)) => do
    let cs := min b.l2_cols (cols - c)
    let blk ← a.rhs.block 0 c depth cs
    let pr ← packRhs a.pack a.mode a.k.rhs a.reg (b.side .rhs) a.rhsMem blk st.1
    let split ← splitRows a.k.kRows rows taskCount
    let ts ← makeTasks a b pr c cs depth split (s.task st.2.length)
    pure (pr, st.2 ++ [ts])) (pr, [])
  pure sc

/-- What a call of `MultiThreadGemm` does: either everything itself, or through the pool. -/
inductive Plan (β : Type)
  | single (t : Trace β)
  | pool (sc : Pool.Script (Nat × β))

/-- internal/multi_thread_gemm.h:627-717 `MultiThreadGemm`.  `hw` and `maxThreads` determine the
number of threads. -/
def multiThreadGemm {β : Type} (a : GemmArgs β) (tun : Tuning) (hw maxThreads : Int) (s : Scratch)
    (ms : MtScratch) : M (Plan β) := do
  assertM (decide (a.lhs.cols = a.rhs.rows))
  let rows := a.result.rows
  let cols := a.result.cols
  let depth := a.lhs.cols
  assertM (decide (0 < rows))
  assertM (decide (0 < cols))
  assertM (decide (0 < depth))
  assertM (decide (cols ≤ rows))
  let threadCount ← howManyThreads a.k.kRows hw maxThreads rows cols depth
  if threadCount = 1 then do
    let t ← singleThreadGemm a tun s []
    pure (.single t)
  else do
    assertM (decide (1 < threadCount))
    let sc ← mtScript a tun threadCount.toNat ms
    pure (.pool sc)

/-- The stores performed by the calls `[from_, from_ + n)` of `Execute`, in the order in which
they happen. -/
def storesOf {β : Type} (log : List (Pool.TaskId × (Nat × β))) (from_ n : Nat) : Trace β :=
  (log.filter (fun x => decide (from_ ≤ x.1.1 ∧ x.1.1 < from_ + n))).map Prod.snd

/-- The possible sequences of stores of a planned call: one for each schedule.  The pool may have
been used before (`pre`) and be used again afterwards (`post`); the call has returned when all its
`Execute`s have. -/
inductive Outcome {β : Type} : Plan β → Trace β → Prop
  | single (t : Trace β) : Outcome (.single t) t
  | pool (sc pre post : Pool.Script (Nat × β)) (st : Pool.State (Nat × β))
      (h : Pool.Reachable (pre ++ sc ++ post) st) (hc : pre.length + sc.length ≤ st.call) :
      Outcome (.pool sc) (storesOf st.log pre.length sc.length)

end Gemmlowp
