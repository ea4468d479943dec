/-!
# internal/multi_thread_gemm.h: the pool of worker threads

A transition system.  One transition is one access to shared state (a lock, unlock, atomic load,
store or read-modify-write, one visible effect of a task); which thread moves next is arbitrary.
The memory is sequentially consistent: the code orders its accesses by `state_mutex_` and by the
acquire/release accesses to `count_`, which is what makes that assumption legitimate.

A task is the list of visible effects (of type `ε`) its `Run()` performs.  A client of the pool is
a list of calls of `Execute`, each with its list of tasks, followed by the destruction of the pool.
-/
namespace Gemmlowp.Pool

/-- internal/multi_thread_gemm.h:223-228 `Worker::State`. -/
inductive WSt | threadStartup | ready | hasWork | exit
  deriving DecidableEq, Repr

/-- Which thread holds a worker's `state_mutex_`. -/
inductive Owner | master | worker
  deriving DecidableEq, Repr

/-- Where a worker thread is. -/
inductive WPc (ε : Type)
  /-- in `ChangeState(Ready)`, about to lock (254) -/
  | lockReady
  /-- lock held, about to check the old state and look at `task_` (255-277) -/
  | inReady
  /-- in `task_->Run()` (276), with the effects still to come -/
  | running (todo : List ε)
  /-- about to store `Ready` and broadcast (288-289) -/
  | storeReady
  /-- about to unlock (290) -/
  | unlockReady
  /-- about to decrement the counter (292) -/
  | decrement
  /-- in `WaitForVariableChange`, before passive waiting: about to load `state_` (114, 122) -/
  | spin
  /-- about to lock for passive waiting (129) -/
  | lockWait
  /-- lock held, about to load `state_` (130, 133) -/
  | checkWait
  /-- blocked in `pthread_cond_wait` (132), lock released -/
  | waiting
  /-- woken up in `pthread_cond_wait`, has to get the lock again -/
  | woken
  /-- about to unlock and return `v` (135-136) -/
  | unlockWait (v : WSt)
  /-- `WaitForVariableChange` has returned `v` (306-320) -/
  | act (v : WSt)
  /-- the thread function has returned (317) -/
  | exited
  deriving DecidableEq, Repr

/-- A task is identified by the number of the call of `Execute` and its index there. -/
abbrev TaskId := Nat × Nat

/-- internal/multi_thread_gemm.h:333-355, the members of `Worker`, with its thread. -/
structure Worker (ε : Type) where
  pc : WPc ε
  st : WSt
  /-- `task_`: which task, and what it does -/
  task : Option (TaskId × List ε)
  lock : Option Owner

/-- Where the master thread is: in `Execute` (378-394, 397-417), `CreateWorkers` (428-437),
`StartWork` on worker `i` (331, 252-294), or in the destructor of worker `i` (239-244). -/
inductive MPc (ε : Type)
  /-- outside of the pool's code -/
  | idle
  /-- 429 -/
  | cwCheck
  /-- 432 -/
  | cwReset
  /-- 433-435 -/
  | cwCreate
  /-- 436 -/
  | cwWait
  /-- 383-384 -/
  | reset
  /-- 385 and, in `ChangeState`, 254 -/
  | swLock (i : Nat)
  /-- 255-283 -/
  | swSet (i : Nat)
  /-- 288-289 -/
  | swStore (i : Nat)
  /-- 290 -/
  | swUnlock (i : Nat)
  /-- 391: the last task, on the master thread -/
  | run (todo : List ε)
  /-- 393 -/
  | wait
  /-- 370 and, in `ChangeState`, 254 -/
  | dLock (i : Nat)
  /-- 255-272 -/
  | dSet (i : Nat)
  /-- 288-289 -/
  | dStore (i : Nat)
  /-- 290 -/
  | dUnlock (i : Nat)
  /-- 241 -/
  | dJoin (i : Nat)
  /-- the pool is destroyed -/
  | done
  deriving DecidableEq, Repr

/-- The whole state: the pool, its threads, the client and the log of effects. -/
structure State (ε : Type) where
  mpc : MPc ε
  /-- number of the current (or next) call of `Execute` -/
  call : Nat
  /-- `workers_.size()` -/
  nw : Nat
  ws : Nat → Worker ε
  /-- `count_` of the `BlockingCounter` -/
  count : Nat
  /-- effects so far, each with the task that performed it -/
  log : List (TaskId × ε)

/-- What an attempted move gives. -/
inductive Out (ε : Type)
  /-- the thread is blocked (lock held by someone else, condition variable, join, or finished) -/
  | blocked
  /-- a failing assertion or `abort()` -/
  | fault
  | next (s : State ε)

/-- Who moves. -/
inductive Choice
  | master
  | worker (i : Nat)
  /-- worker `i` has busy-waited long enough (120) -/
  | giveUp (i : Nat)
  /-- spurious wake-up of worker `i` from `pthread_cond_wait` -/
  | spurious (i : Nat)
  deriving DecidableEq, Repr

/-- The client: for each call of `Execute`, for each task, its effects. -/
abbrev Script (ε : Type) := List (List (List ε))

variable {ε : Type}

/-- The tasks of call `c`. -/
def Script.tasks (sc : Script ε) (c : Nat) : List (List ε) := sc.getD c []

/-- The effects of task `j` of call `c`. -/
def Script.prog (sc : Script ε) (c j : Nat) : List ε := (sc.tasks c).getD j []

/-- `ws[i] = w` -/
def State.setW (s : State ε) (i : Nat) (w : Worker ε) : State ε :=
  { s with ws := fun j => if j = i then w else s.ws j }

/-- internal/multi_thread_gemm.h:230-238, a newly created worker: its thread starts in
`ThreadFunc` (297-300). -/
def newWorker : Worker ε := { pc := .lockReady, st := .threadStartup, task := none, lock := none }

/-- `pthread_cond_broadcast(&state_cond_)` (289): only the worker itself ever waits there. -/
def Worker.wake (w : Worker ε) : Worker ε :=
  match w.pc with
  | .waiting => { w with pc := .woken }
  | _ => w

/-- One move of worker `i`: internal/multi_thread_gemm.h:252-294 `ChangeState(Ready)`, 297-322
`ThreadFunc`, 110-137 `WaitForVariableChange`, 164-170 `DecrementCount`. -/
def wstep (s : State ε) (i : Nat) : Out ε :=
  let w := s.ws i
  match w.pc with
  | .lockReady =>
    match w.lock with
    | none => .next (s.setW i { w with pc := .inReady, lock := some .worker })
    | some _ => .blocked
  | .inReady =>
    match w.st with
    | .ready => .fault          -- assert(old_state != new_state)
    | .exit => .fault           -- abort()
    | _ =>
      match w.task with
      | none => .next (s.setW i { w with pc := .storeReady })
      | some (_, p) => .next (s.setW i { w with pc := .running p })
  | .running [] => .next (s.setW i { w with pc := .storeReady, task := none })
  | .running (e :: es) =>
    match w.task with
    | none => .fault
    | some (id, _) =>
      .next { s.setW i { w with pc := .running es } with log := s.log ++ [(id, e)] }
  | .storeReady => .next (s.setW i { w with pc := .unlockReady, st := .ready })
  | .unlockReady => .next (s.setW i { w with pc := .decrement, lock := none })
  | .decrement =>
    if s.count = 0 then .fault
    else .next { s.setW i { w with pc := .spin } with count := s.count - 1 }
  | .spin =>
    match w.st with
    | .ready => .next s
    | v => .next (s.setW i { w with pc := .act v })
  | .lockWait =>
    match w.lock with
    | none => .next (s.setW i { w with pc := .checkWait, lock := some .worker })
    | some _ => .blocked
  | .checkWait =>
    match w.st with
    | .ready => .next (s.setW i { w with pc := .waiting, lock := none })
    | v => .next (s.setW i { w with pc := .unlockWait v })
  | .waiting => .blocked
  | .woken =>
    match w.lock with
    | none => .next (s.setW i { w with pc := .checkWait, lock := some .worker })
    | some _ => .blocked
  | .unlockWait v => .next (s.setW i { w with pc := .act v, lock := none })
  | .act .hasWork => .next (s.setW i { w with pc := .lockReady })
  | .act .exit => .next (s.setW i { w with pc := .exited })
  | .act _ => .fault            -- abort()
  | .exited => .blocked

/-- One move of the master thread: internal/multi_thread_gemm.h:378-394 `Execute` (397-417 is the
same), 428-437 `CreateWorkers`, 153-158 `Reset`, 174-203 `Wait`, 252-294 `ChangeState`, 369-373 and
239-244 the destructors. -/
def mstep (sc : Script ε) (s : State ε) : Out ε :=
  let n := (sc.tasks s.call).length - 1
  match s.mpc with
  | .idle =>
    if s.call < sc.length then
      if sc.tasks s.call = [] then .fault      -- assert(tasks_count >= 1)
      else .next { s with mpc := .cwCheck }
    else .next { s with mpc := .dLock 0 }
  | .cwCheck => .next { s with mpc := if n ≤ s.nw then .reset else .cwReset }
  | .cwReset =>
    if s.count ≠ 0 then .fault                  -- assert(old_count_value == 0)
    else .next { s with count := n - s.nw, mpc := .cwCreate }
  | .cwCreate =>
    if s.nw < n then .next { s.setW s.nw newWorker with nw := s.nw + 1 }
    else .next { s with mpc := .cwWait }
  | .cwWait => if s.count = 0 then .next { s with mpc := .reset } else .next s
  | .reset =>
    if s.nw < n then .fault                     -- assert(workers_count <= workers_.size())
    else if s.count ≠ 0 then .fault
    else .next { s with count := n, mpc := .swLock 0 }
  | .swLock i =>
    if i < n then
      match (s.ws i).lock with
      | none => .next { s.setW i { s.ws i with lock := some .master } with mpc := .swSet i }
      | some _ => .blocked
    else .next { s with mpc := .run (sc.prog s.call n) }
  | .swSet i =>
    match (s.ws i).st with
    | .ready =>
      match (s.ws i).task with
      | some _ => .fault                        -- assert(!task_)
      | none => .next { s.setW i { s.ws i with task := some ((s.call, i), sc.prog s.call i) } with
                        mpc := .swStore i }
    | _ => .fault
  | .swStore i =>
    .next { s.setW i { s.ws i with st := .hasWork }.wake with mpc := .swUnlock i }
  | .swUnlock i =>
    .next { s.setW i { s.ws i with lock := none } with mpc := .swLock (i + 1) }
  | .run [] => .next { s with mpc := .wait }
  | .run (e :: es) => .next { s with log := s.log ++ [((s.call, n), e)], mpc := .run es }
  | .wait => if s.count = 0 then .next { s with mpc := .idle, call := s.call + 1 } else .next s
  | .dLock i =>
    if i < s.nw then
      match (s.ws i).lock with
      | none => .next { s.setW i { s.ws i with lock := some .master } with mpc := .dSet i }
      | some _ => .blocked
    else .next { s with mpc := .done }
  | .dSet i =>
    match (s.ws i).st with
    | .ready => .next { s with mpc := .dStore i }
    | .hasWork => .next { s with mpc := .dStore i }
    | _ => .fault
  | .dStore i =>
    .next { s.setW i { s.ws i with st := .exit }.wake with mpc := .dUnlock i }
  | .dUnlock i =>
    .next { s.setW i { s.ws i with lock := none } with mpc := .dJoin i }
  | .dJoin i =>
    match (s.ws i).pc with
    | .exited => .next { s with mpc := .dLock (i + 1) }
    | _ => .blocked
  | .done => .blocked

/-- One move. -/
def step (sc : Script ε) (s : State ε) : Choice → Out ε
  | .master => mstep sc s
  | .worker i => if i < s.nw then wstep s i else .blocked
  | .giveUp i =>
    if i < s.nw then
      match (s.ws i).pc with
      | .spin => .next (s.setW i { s.ws i with pc := .lockWait })
      | _ => .blocked
    else .blocked
  | .spurious i =>
    if i < s.nw then
      match (s.ws i).pc with
      | .waiting => .next (s.setW i { s.ws i with pc := .woken })
      | _ => .blocked
    else .blocked

/-- A pool just constructed (internal/multi_thread_gemm.h:367, 151). -/
def initial : State ε :=
  { mpc := .idle, call := 0, nw := 0, ws := fun _ => newWorker, count := 0, log := [] }

/-- States that can occur under some schedule. -/
inductive Reachable (sc : Script ε) : State ε → Prop
  | init : Reachable sc initial
  | step {s s' : State ε} (c : Choice) (h : Reachable sc s) (hs : Pool.step sc s c = .next s') :
      Reachable sc s'

/-- The effects of one task so far, in order. -/
def logOf (l : List (TaskId × ε)) (k : TaskId) : List ε :=
  l.filterMap (fun x => if x.1 = k then some x.2 else none)

end Gemmlowp.Pool
