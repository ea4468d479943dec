import Verif.PthreadSpec
import Verif.Pool
/-!
# The pthread calls of the pool of worker threads

`Pool.lean` describes the pool with locks and sleeping threads of its own.  Here is which pthread functions each of its
moves calls (internal/multi_thread_gemm.h), and how its state is to be read as a state of the specification of those
functions.  Thread 0 is the master, thread `i + 1` the thread of worker `i`; mutex, condition variable and thread
variable `i` are the members of worker `i`.
-/
namespace Gemmlowp
namespace Shim

variable {ε : Type} {n : Nat}

/-- The thread of worker `i`. -/
def tid (K i : Nat) : Fin (K + 1) := Fin.ofNat (K + 1) (i + 1)

/-- What the pthread functions are called with in a move of worker `i`: internal/multi_thread_gemm.h:254, 289, 290
(`ChangeState`), 129, 132, 135 (`WaitForVariableChange`), 317 (the return of `ThreadFunc`). -/
def workerCalls (s : Pool.State ε) (i : Nat) {n : Nat} : List (Act n) :=
  match (s.ws i).pc with
  | .lockReady => [.mutexLock i]
  | .storeReady => [.condBroadcast i]
  | .unlockReady => [.mutexUnlock i]
  | .lockWait => [.mutexLock i]
  | .checkWait => if (s.ws i).st = .ready then [.condWait i i, .go] else []
  | .waiting => [.go]
  | .woken => [.go]
  | .unlockWait _ => [.mutexUnlock i]
  | .act .exit => [.exit]
  | _ => []

/-- The same for the master: internal/multi_thread_gemm.h:234-236 (constructor of `Worker`), 254, 289, 290
(`ChangeState`), 241-243 (destructor of `Worker`). -/
def masterCalls (K : Nat) (sc : Pool.Script ε) (s : Pool.State ε) : List (Act (K + 1)) :=
  let need := (sc.tasks s.call).length - 1
  match s.mpc with
  | .cwCreate => if s.nw < need then [.condInit s.nw, .mutexInit s.nw, .create s.nw (tid K s.nw)] else []
  | .swLock i => if i < need then [.mutexLock i] else []
  | .swStore i => [.condBroadcast i]
  | .swUnlock i => [.mutexUnlock i]
  | .dLock i => if i < s.nw then [.mutexLock i] else []
  | .dStore i => [.condBroadcast i]
  | .dUnlock i => [.mutexUnlock i]
  | .dJoin i => [.join i, .condDestroy i, .mutexDestroy i]
  | _ => []

/-- The calls of a move, with the thread that makes them. -/
def calls (K : Nat) (sc : Pool.Script ε) (s : Pool.State ε) : Pool.Choice → List (Fin (K + 1) × Act (K + 1))
  | .master => (masterCalls K sc s).map fun x => (0, x)
  | .worker i => (workerCalls s i).map fun x => (tid K i, x)
  | .giveUp _ => []
  | .spurious i => [(tid K i, .spurious)]

/-- All of the calls of a schedule of the pool; moves that have to wait are passed over. -/
def callsOf (K : Nat) (sc : Pool.Script ε) : List Pool.Choice → Pool.State ε → List (Fin (K + 1) × Act (K + 1))
  | [], _ => []
  | c :: cs, s =>
    match Pool.step sc s c with
    | .next s' => calls K sc s c ++ callsOf K sc cs s'
    | _ => callsOf K sc cs s

/-- Steps of which none has to wait. -/
def Sp.steps : List (Fin n × Act n) → Sp n → Res (Sp n)
  | [], a => .ok a
  | (t, x) :: l, a =>
    match a.step t x with
    | .ok a' => Sp.steps l a'
    | .blocked => .blocked
    | .fault => .fault

/-- The number of workers that have been destroyed. -/
def gone (s : Pool.State ε) : Nat :=
  match s.mpc with
  | .dLock i | .dSet i | .dStore i | .dUnlock i | .dJoin i => i
  | .done => s.nw
  | _ => 0

/-- The owner of the mutex of worker `i`. -/
def ownerId (K i : Nat) : Option Pool.Owner → Option (Fin (K + 1))
  | none => none
  | some .master => some 0
  | some .worker => some (tid K i)

/-- Where worker `i` is in `pthread_cond_wait`. -/
def waitPc (i : Nat) : Pool.WPc ε → SPc
  | .waiting => .sleeping i i
  | .woken => .woken i
  | _ => .idle

/-- Whether the thread of a worker has returned. -/
def lifeOf : Pool.WPc ε → Life
  | .exited => .finished
  | _ => .running

/-- `nw` workers in the states `ws`, of which the first `g` have been destroyed. -/
def viewOf (K nw : Nat) (ws : Nat → Pool.Worker ε) (g : Nat) : Sp (K + 1) where
  mutex i := if g ≤ i ∧ i < nw then some (ownerId K i (ws i).lock) else none
  cond i := decide (g ≤ i ∧ i < nw)
  thread i := if i < nw then some (tid K i, decide (i < g)) else none
  pc t := if t.val = 0 then .idle else if t.val - 1 < nw then waitPc (t.val - 1) (ws (t.val - 1)).pc else .idle
  life t := if t.val = 0 then .running else if t.val - 1 < nw then lifeOf (ws (t.val - 1)).pc else .notStarted

/-- The state of the pthread functions that the pool's state stands for. -/
def view (K : Nat) (s : Pool.State ε) : Sp (K + 1) := viewOf K s.nw s.ws (gone s)

end Shim
end Gemmlowp
