import Verif.Base

/-!
# The profiler: profiling/instrumentation.h and profiling/profiler.h

Labels are pointers to string literals; here they are numbers, compared as the code compares pointers.
-/

namespace Gemmlowp

/-! ## The stack of labels of a thread -/

/-- profiling/instrumentation.h:111 `kMaxSize`. -/
def kMaxStack : Nat := 30

/-- profiling/instrumentation.h:110-115 `ProfilingStack`: the array and the number of used elements.
The lock is not part of the state: each operation below holds it from beginning to end, so that it is one
step. -/
structure PStack where
  labels : Nat → Nat
  size : Nat

/-- The constructor, profiling/instrumentation.h:117: all zero. -/
def PStack.init : PStack := ⟨fun _ => 0, 0⟩

/-- profiling/instrumentation.h:120-125. -/
def PStack.push (s : PStack) (label : Nat) : M PStack :=
  if s.size < kMaxStack then
    .ok ⟨fun i => if i = s.size then label else s.labels i, s.size + 1⟩
  else .error .abort

/-- profiling/instrumentation.h:127-131. -/
def PStack.pop (s : PStack) : M PStack :=
  if s.size > 0 then .ok { s with size := s.size - 1 } else .error .abort

/-- profiling/instrumentation.h:133-137. -/
def PStack.updateTop (s : PStack) (label : Nat) : M PStack :=
  if s.size = 0 then .error .assertion
  else .ok { s with labels := fun i => if i = s.size - 1 then label else s.labels i }

/-- The loop of profiling/profiler.h:312-315. -/
def recordLoop (src dst : PStack) : M PStack :=
  if h : dst.size < src.size then
    if dst.size < kMaxStack then
      recordLoop src
        ⟨fun i => if i = dst.size then src.labels dst.size else dst.labels i, dst.size + 1⟩
    else .error .oob
  else .ok dst
termination_by src.size - dst.size
decreasing_by omega

/-- profiling/profiler.h:309-316 `RecordStack`. -/
def recordStack (src dst : PStack) : M PStack :=
  assertM (decide (dst.size = 0)) >>= fun _ => recordLoop src dst

/-- The labels of a stack, outermost first. -/
def PStack.toList (s : PStack) : List Nat := (List.range s.size).map s.labels

/-! ## Instrumented code -/

/-- Code of one thread, as far as the profiler sees it: blocks with a `ScopedProfilingLabel`, calls of
`Update` on the label object of the `k`-th enclosing block (0 is the innermost), and points at which the
profiler thread takes a sample. -/
inductive LProg
  | done
  | scope (label : Nat) (body next : LProg)
  | update (k label : Nat) (next : LProg)
  | sample (next : LProg)

/-- profiling/instrumentation.h:207-219: the constructor of `ScopedProfilingLabel` pushes, the
destructor pops, `Update` replaces the top label, whichever object it is called on.  The second result
are the samples recorded (profiling/profiler.h:335-337). -/
def LProg.run : LProg → PStack → M (PStack × List (List Nat))
  | .done, s => .ok (s, [])
  | .scope l body next, s =>
    s.push l >>= fun s1 => body.run s1 >>= fun r1 => r1.1.pop >>= fun s2 =>
    next.run s2 >>= fun r2 => .ok (r2.1, r1.2 ++ r2.2)
  | .update _ l next, s => s.updateTop l >>= fun s1 => next.run s1
  | .sample next, s =>
    recordStack s .init >>= fun d => next.run s >>= fun r => .ok (r.1, d.toList :: r.2)

/-! ## The tree -/

/-- The label of a node: the null pointer of the root, a label of the program, or one of the two strings
of profiling/profiler.h:223. -/
inductive PLabel
  | null
  | text (p : Nat)
  | other
  | otherOutside
  deriving DecidableEq, Repr

/-- profiling/profiler.h:158-168 `ProfileTreeView::Node`. -/
inductive PNode
  | mk (label : PLabel) (weight : Nat) (children : List PNode)

namespace PNode

def label : PNode → PLabel | .mk l _ _ => l
def weight : PNode → Nat | .mk _ w _ => w
def children : PNode → List PNode | .mk _ _ c => c

end PNode

/-- `std::size_t` arithmetic. -/
def sizeT (x : Nat) : Nat := x % 2 ^ 64

/-- The search of profiling/profiler.h:194-206: the first child with the label is changed by `f`; if
there is none, a new node changed by `f` is appended. -/
def addToChild (l : PLabel) (f : PNode → PNode) : List PNode → List PNode
  | [] => [f (.mk l 0 [])]
  | c :: cs => if c.label = l then f c :: cs else c :: addToChild l f cs

/-- profiling/profiler.h:188-208 `AddStackToNode`, for the rest of the stack from the given level. -/
def addStackToNode : List Nat → PNode → PNode
  | [], .mk lab w cs => .mk lab (sizeT (w + 1)) cs
  | l :: rest, .mk lab w cs =>
    .mk lab (sizeT (w + 1)) (addToChild (.text l) (addStackToNode rest) cs)

mutual
/-- profiling/profiler.h:214-227 `AddOtherChildrenToNode`; `root` says whether `node == &root_`. -/
def addOther (root : Bool) : PNode → PNode
  | .mk lab w cs =>
    let cs' := addOtherList cs
    let top := cs'.foldl (fun s c => sizeT (s + c.weight)) 0
    .mk lab w (if top ≠ 0 then
        cs' ++ [.mk (if root then .otherOutside else .other) (sizeT (w + 2 ^ 64 - top)) []]
      else cs')
/-- The loop of profiling/profiler.h:216-219. -/
def addOtherList : List PNode → List PNode
  | [] => []
  | c :: cs => addOther false c :: addOtherList cs
end

mutual
/-- profiling/profiler.h:231-236 `SortNode`.  `sort` is the call of `std::sort`, which may leave children
of equal weight in any order. -/
def sortNode (sort : List PNode → List PNode) : PNode → PNode
  | .mk lab w cs => .mk lab w (sort (sortNodeList sort cs))
/-- The loop of profiling/profiler.h:233-235; each subtree can be sorted before its siblings are, since
sorting does not change weights. -/
def sortNodeList (sort : List PNode → List PNode) : List PNode → List PNode
  | [] => []
  | c :: cs => sortNode sort c :: sortNodeList sort cs
end

/-- profiling/profiler.h:241-247: the constructor of `ProfileTreeView`. -/
def profileTree (sort : List PNode → List PNode) (stacks : List (List Nat)) : PNode :=
  sortNode sort (addOther true
    (stacks.foldl (fun n s => addStackToNode s n) (.mk .null 0 [])))

/-! ## Threads under profiling -/

/-- The state of the profiler shared by all threads: the `ThreadInfo` objects that are allocated, those in
the set `ThreadsUnderProfiling()`, and `IsProfiling()`. -/
structure ProfState where
  live : List Nat
  registered : List Nat
  profiling : Bool
  deriving DecidableEq, Repr

/-- What can happen, in any order that the threads allow.  When a thread ends, two functions run for its
`ThreadInfo`: `ThreadExitCallback` and `DeleteThreadInfo`, destructors of two different keys of the
thread, so that POSIX leaves their order open. -/
inductive ProfEvent
  | register (t : Nat)
  | exitCallback (t : Nat)
  | deleteInfo (t : Nat)
  | sampleAll
  | start
  | finish
  deriving DecidableEq, Repr

/-- One event.  profiling/instrumentation.h:221-225 (`register`, which creates the `ThreadInfo` if the
thread has none, 178-199), 171-175 (`exitCallback`), 180-185 (`deleteInfo`), profiling/profiler.h:333-339
(`sampleAll`: reads the stack of every registered thread), 349-355 (`start`), 358-369 (`finish`). -/
def ProfState.step (s : ProfState) : ProfEvent → M ProfState
  | .register t => .ok { s with
      live := if t ∈ s.live then s.live else t :: s.live
      registered := if t ∈ s.registered then s.registered else t :: s.registered }
  | .exitCallback t => .ok { s with registered := s.registered.filter (· ≠ t) }
  | .deleteInfo t => .ok { s with live := s.live.filter (· ≠ t) }
  | .sampleAll => if s.registered.all (· ∈ s.live) then .ok s else .error .oob
  | .start => if s.profiling then .error .abort else .ok { s with profiling := true }
  | .finish => if s.profiling then .ok { s with profiling := false } else .error .abort

/-- A history. -/
def ProfState.run (s : ProfState) : List ProfEvent → M ProfState
  | [] => .ok s
  | e :: es => s.step e >>= fun s' => s'.run es

end Gemmlowp
