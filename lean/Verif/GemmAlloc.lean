import Verif.AllocSpec
import Verif.Gemm
/-!
# The calls that the GEMM makes to its allocators

A `MultiThreadGemmContext` owns one allocator of its own (internal/single_thread_gemm.h:43,54), one for the
task that runs on the calling thread (internal/multi_thread_gemm.h:455) and one for every worker
(internal/multi_thread_gemm.h:351).  Here the GEMM is reduced to its calls of `Reserve`, `Commit`, `GetPointer`
and `Decommit`.

Simplifications: how often and in which order `GetPointer` is called depends on the loops of packing,
computing and unpacking; here any number of these calls in any order is allowed.  The same holds for the
number of column blocks.  Nothing is assumed about the block sizes, and they may differ from call to call.
-/
namespace Gemmlowp
namespace GemmAlloc

/-- The allocators of a context: `allocator_` (internal/single_thread_gemm.h:54), `main_thread_task_allocator_`
(internal/multi_thread_gemm.h:455) and the `local_allocator_` of worker `i` (internal/multi_thread_gemm.h:351). -/
inductive Aid
  | base
  | main
  | worker (i : Nat)
  deriving DecidableEq, Repr

/-- A call and, for `GetPointer`, the number of bytes that the caller accesses from there on (0 for other calls). -/
abbrev Call := AOp × Nat

/-- A call on one of the allocators. -/
abbrev Ev := Aid × Call

/-- The calls on allocator `x`, in the same order. -/
def proj (x : Aid) (tr : List Ev) : List AOp := (tr.filter fun e => e.1 = x).map (·.2.1)

/-- The number of handles that allocator `x` has given out. -/
def serial (x : Aid) (h : List Ev) : Nat := reserveCount (proj x h)

/-- The handles of a `PackedSideBlock` (internal/pack.h:103-114), each represented by the serial number of the call
of `Reserve` that returned it, and its `params_`. -/
structure SideObj where
  data : Nat
  sums : Nat
  params : SideParams

/-- internal/pack.h:51-59, the constructor of `PackedSideBlock`: its handles and its calls of `Reserve`.  `k` is the
number of handles already given out. -/
def packedSide (k : Nat) (p : SideParams) : SideObj × List Call :=
  (⟨k, k + 1, p⟩, [(.reserve .uint8 (p.l2_width * p.l2_depth), 0), (.reserve .int32 p.l2_width, 0)])

/-- Uses of a packed side. -/
inductive SideUse | data | sums
  deriving DecidableEq, Repr

/-- internal/pack.h:79-94 `current_data` and `sums_of_each_slice`.  The bytes accessed from there on are those of
the buffers of the GEMM model (`PackedSide.fresh`), in which an access beyond is a fault. -/
def SideObj.use (o : SideObj) : SideUse → Call
  | .data => (.get .uint8 o.data, (PackedSide.fresh o.params (fun _ => 0) (fun _ => 0)).data.size)
  | .sums => (.get .int32 o.sums, (PackedSide.fresh o.params (fun _ => 0) (fun _ => 0)).sums.size * 4)

/-- The handle and the block sizes of a `PackedResult` (internal/unpack.h:53-55). -/
structure ResObj where
  matrix : Nat
  params : BlockParams

/-- internal/unpack.h:32-36, the constructor of `PackedResult`: its handle and its call of `Reserve`. -/
def packedResult (k : Nat) (b : BlockParams) : ResObj × List Call :=
  (⟨k, b⟩, [(.reserve .int32 (b.l2_rows * b.l2_cols), 0)])

/-- internal/unpack.h:40-50 `Map`. -/
def ResObj.use (o : ResObj) : Call := (.get .int32 o.matrix, (freshResult o.params (fun _ => 0)).size * 4)

/-- What the code does with its buffers. -/
inductive Use
  | lhs (u : SideUse)
  | rhs (u : SideUse)
  | result
  deriving DecidableEq, Repr

/-- internal/single_thread_gemm.h:89-152 `SingleThreadGemm`.  `addr` is the result of `aligned_alloc`, should it be
called. -/
def singleCalls (k : Nat) (b : BlockParams) (addr : Nat) (uses : List Use) : List Call :=
  let (lhs, e1) := packedSide k (b.side .lhs)
  let (rhs, e2) := packedSide (k + 2) (b.side .rhs)
  let (res, e3) := packedResult (k + 4) b
  e1 ++ e2 ++ e3 ++ [(.commit addr, 0)] ++
    uses.map (fun
      | .lhs u => lhs.use u
      | .rhs u => rhs.use u
      | .result => res.use) ++
    [(.decommit, 0)]

/-- internal/multi_thread_gemm.h:381-390 and 282: the allocator of task `n` of `tasks`. -/
def taskAlloc (tasks n : Nat) : Aid := if n + 1 = tasks then .main else .worker n

/-- internal/multi_thread_gemm.h:489-524 `GemmWithPackedRhsTask::Run`: the task packs on its own allocator and reads
the packed RHS of the base allocator, of which it has a copy with the same handles. -/
def taskCalls (x : Aid) (k : Nat) (b : BlockParams) (rhs : SideObj) (addr : Nat) (uses : List Use) : List Ev :=
  let (lhs, e1) := packedSide k (b.side .lhs)
  let (res, e2) := packedResult (k + 2) b
  (e1 ++ e2 ++ [(AOp.commit addr, 0)]).map (fun c => (x, c)) ++
    uses.map (fun
      | .lhs u => (x, lhs.use u)
      | .rhs u => (.base, rhs.use u)
      | .result => (x, res.use)) ++
    [(x, .decommit, 0)]

/-- `tr` is an interleaving of the lists `ls`. -/
inductive Shuffle {α : Type} : List (List α) → List α → Prop
  | done {ls : List (List α)} : (∀ l ∈ ls, l = []) → Shuffle ls []
  | step {ls : List (List α)} {i : Nat} {x : α} {t tr : List α} :
      ls[i]? = some (x :: t) → Shuffle (ls.set i t) tr → Shuffle ls (x :: tr)

/-- internal/multi_thread_gemm.h:686-714, the loop over the column blocks: each is packed by the calling thread, then
`Execute` (internal/multi_thread_gemm.h:377-395) runs one task per thread, in parallel, and returns when all have
finished. -/
inductive Blocks (b : BlockParams) (tasks : Nat) (rhs : SideObj) : List Ev → List Ev → Prop
  | done {h : List Ev} : Blocks b tasks rhs h []
  | block {h tr rest : List Ev} (pack : List SideUse) (addr : Nat → Nat) (uses : Nat → List Use) :
      Shuffle ((List.range tasks).map fun n =>
        taskCalls (taskAlloc tasks n) (serial (taskAlloc tasks n) h) b rhs (addr n) (uses n)) tr →
      Blocks b tasks rhs (h ++ pack.map (fun u => (.base, rhs.use u)) ++ tr) rest →
      Blocks b tasks rhs h (pack.map (fun u => (.base, rhs.use u)) ++ tr ++ rest)

/-- internal/multi_thread_gemm.h:681-683, `MultiThreadGemm` up to its loop. -/
def multiStart (k : Nat) (b : BlockParams) (addr : Nat) : List Ev :=
  ((packedSide k (b.side .rhs)).2 ++ [(AOp.commit addr, 0)]).map fun c => (.base, c)

/-- What a context goes through: any number of calls of `SingleThreadGemm` and `MultiThreadGemm`
(internal/multi_thread_gemm.h:673-716), with block sizes that satisfy `ok`.  Thread counts may differ
from call to call. -/
inductive Life (ok : BlockParams → Prop) : List Ev → Prop
  | new : Life ok []
  | single {h : List Ev} (b : BlockParams) (addr : Nat) (uses : List Use) : ok b → Life ok h →
      Life ok (h ++ (singleCalls (serial .base h) b addr uses).map fun c => (.base, c))
  | multi {h tr : List Ev} (b : BlockParams) (tasks addr : Nat) : ok b → 1 ≤ tasks → Life ok h →
      Blocks b tasks (packedSide (serial .base h) (b.side .rhs)).1 (h ++ multiStart (serial .base h) b addr) tr →
      Life ok (h ++ multiStart (serial .base h) b addr ++ tr ++ [(.base, .decommit, 0)])

/-- All the allocators of a context; `g` is the indeterminate contents of each. -/
abbrev Worlds := Aid → AWorld

/-- internal/single_thread_gemm.h:54, internal/multi_thread_gemm.h:351,455: the allocators as constructed. -/
def Worlds.new (g : Aid → Nat → Nat) : Worlds := fun x => ⟨Alloc.init (g x), []⟩

/-- Execute one call. -/
def Worlds.step (W : Nat) (w : Worlds) (e : Ev) : M Worlds := do
  let a ← (w e.1).step W e.2.1
  pure fun x => if x = e.1 then a else w x

/-- Execute calls in the order of the list. -/
def Worlds.run (W : Nat) : Worlds → List Ev → M Worlds
  | w, [] => .ok w
  | w, e :: tr => do
    let w' ← w.step W e
    run W w' tr

end GemmAlloc
end Gemmlowp
