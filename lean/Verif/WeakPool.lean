import Verif.Pool
/-!
# internal/multi_thread_gemm.h: the pool of worker threads under the C++ memory model

`Verif/Pool.lean` lets every load see the latest store.  Here the loads of the atomics `state_` and
`count_` may see older stores, as far as the C++ memory model lets them, and every access to
ordinary memory is checked for data races.

* Each thread has a vector clock (`Clock`): what it knows to have happened before.  `pthread_create`
  and `pthread_join`, and unlocking and then locking a mutex pass it on, and so does an acquire load
  that reads a release store, or reads a read-modify-write in the release sequence of one.  Nothing
  else does: in particular `pthread_cond_broadcast` and relaxed accesses do not.
* Each atomic has its modification order, a list of messages, newest first.  A load picks any
  message, unless it has read or stored a newer one itself or a newer one is known to have happened
  before; a read-modify-write picks a message that no other read-modify-write has picked.  (That
  an action before which another thread has read a newer message cannot read an older one either
  is left out: the model allows more than C++ does.)  A store that is not known to come after all
  the others could be put in several places; that is the outcome `misplaced`, and so is a
  read-modify-write that does not read the newest message.
* An access to ordinary memory that conflicts with an earlier one (same location, one of them
  writes) not known to have happened before is the outcome `race`.

A load can only read a store that was executed before (no load buffering); release sequences are
those of C++20 (a relaxed store, even by the same thread, ends one).
-/
namespace Gemmlowp.Weak

open Pool

/-- `none` is the master thread, `some i` the thread of worker `i`. -/
abbrev Tid := Option Nat

/-- How many actions of each thread are known to have happened before. -/
abbrev Clock := Tid → Nat

/-- What is known to either. -/
def join (c d : Clock) : Clock := fun t => max (c t) (d t)

/-- The memory orders in internal/multi_thread_gemm.h that can be chosen: whether the loads of
`WaitForVariableChange` (114, 122, 130, 133) acquire, whether the store of `Reset` (157) releases,
whether `DecrementCount` (166) acquires and releases, whether the load of `Wait` (178) acquires.
(The accesses of `ChangeState`, 255 and 288, and the load of `Reset`, 154, are relaxed.) -/
structure Orders where
  chkAcq : Bool
  resetRel : Bool
  decAcq : Bool
  decRel : Bool
  waitAcq : Bool

/-- The memory orders that the code has. -/
def Orders.code : Orders :=
  { chkAcq := true, resetRel := true, decAcq := true, decRel := true, waitAcq := true }

/-- A store to an atomic: by the `clk`-th action of thread `tid`; a thread that acquires it learns
`view`. -/
structure Msg (α : Type) where
  val : α
  tid : Tid
  clk : Nat
  view : Clock
  rmw : Bool

/-- Ordinary memory. -/
inductive Loc (δ : Type)
  /-- the client's memory: matrices, result, … -/
  | data (x : δ)
  /-- the `j`-th `Task` object of a call -/
  | taskObj (j : Nat)
  /-- `task_` of worker `i` (337) -/
  | member (i : Nat)
  /-- `local_allocator_` of worker `i` (351) -/
  | alloc (i : Nat)
  /-- the other members of worker `i`, and that the object is alive -/
  | obj (i : Nat)
  /-- the pool with its `BlockingCounter`: that the object is alive -/
  | pool
  deriving DecidableEq

/-- On whose behalf an access is made. -/
inductive Src
  | client
  | pool
  | task (k : TaskId)
  deriving DecidableEq

/-- An access to ordinary memory, the `clk`-th action of thread `tid`. -/
structure Rec (δ : Type) where
  loc : Loc δ
  wr : Bool
  tid : Tid
  clk : Nat
  src : Src

/-- The memory: what each thread knows, what was known when each `state_mutex_` was last unlocked,
the messages of each `state_` and of `count_`, the accesses to ordinary memory, and up to which
message (counted from the oldest) each thread has read or stored to each `state_` and to `count_`
(`none`). -/
structure Mem (δ : Type) where
  C : Tid → Clock
  M : Nat → Clock
  sh : Nat → List (Msg WSt)
  ch : List (Msg Nat)
  recs : List (Rec δ)
  pos : Tid → Option Nat → Nat

/-- What a thread does to memory in one action. -/
inductive Act (δ : Type)
  | acc (x : Loc δ) (wr : Bool) (src : Src)
  | lock (i : Nat)
  | unlock (i : Nat)
  /-- load message `k` of `state_` of worker `i` -/
  | stLoad (i k : Nat) (acq : Bool)
  /-- relaxed store to `state_` of worker `i` -/
  | stStore (i : Nat) (v : WSt)
  /-- load message `k` of `count_` -/
  | cLoad (k : Nat) (acq : Bool)
  | cStore (v : Nat) (rel : Bool)
  /-- decrement message `k` of `count_` -/
  | cDec (k : Nat) (acq rel : Bool)
  /-- `pthread_create` for worker `i`, after its constructor has initialized `state_` -/
  | fork (i : Nat)
  /-- `pthread_join` for worker `i` -/
  | joinT (i : Nat)

section
variable {ε δ : Type} [DecidableEq δ]

/-- `f` with `f t = x`. -/
def upd {α β : Type} [DecidableEq α] (f : α → β) (t : α) (x : β) : α → β :=
  fun u => if u = t then x else f u

/-- Thread `t` does one more action. -/
def Mem.tick (m : Mem δ) (t : Tid) : Mem δ :=
  { m with C := upd m.C t (upd (m.C t) t (m.C t t + 1)) }

/-- Thread `t` learns `c`. -/
def Mem.learn (m : Mem δ) (t : Tid) (c : Clock) : Mem δ :=
  { m with C := upd m.C t (join (m.C t) c) }

/-- Thread `t` has read or stored the `n`-th message. -/
def Mem.see (m : Mem δ) (t : Tid) (x : Option Nat) (n : Nat) : Mem δ :=
  { m with pos := upd m.pos t (upd (m.pos t) x n) }

/-- What reading message `k` teaches. -/
def viewAt {α : Type} (h : List (Msg α)) (k : Nat) (acq : Bool) : Clock :=
  if acq then (match h[k]? with | some g => g.view | none => fun _ => 0) else fun _ => 0

/-- The value of message `k`. -/
def valAt {α : Type} (d : α) (h : List (Msg α)) (k : Nat) : α :=
  match h[k]? with | some g => g.val | none => d

/-- The effect of an action of thread `t` on the memory, after the tick. -/
def Mem.eff (m : Mem δ) (t : Tid) : Act δ → Mem δ
  | .acc x w src => { m with recs := ⟨x, w, t, m.C t t, src⟩ :: m.recs }
  | .lock i => m.learn t (m.M i)
  | .unlock i => { m with M := upd m.M i (m.C t) }
  | .stLoad i k acq => (m.learn t (viewAt (m.sh i) k acq)).see t (some i) ((m.sh i).length - k)
  | .stStore i v =>
    { m.see t (some i) ((m.sh i).length + 1) with
      sh := upd m.sh i (⟨v, t, m.C t t, fun _ => 0, false⟩ :: m.sh i) }
  | .cLoad k acq => (m.learn t (viewAt m.ch k acq)).see t none (m.ch.length - k)
  | .cStore v rel =>
    { m.see t none (m.ch.length + 1) with
      ch := ⟨v, t, m.C t t, if rel then m.C t else fun _ => 0, false⟩ :: m.ch }
  | .cDec k acq rel =>
    let m' := m.learn t (viewAt m.ch k acq)
    { m'.see t none (m.ch.length + 1) with ch := ⟨valAt 0 m.ch k - 1, t, m'.C t t,
                join (viewAt m.ch k true) (if rel then m'.C t else fun _ => 0), true⟩ :: m.ch }
  | .fork i =>
    { m with C := upd m.C (some i) (m.C t), M := upd m.M i (fun _ => 0),
             sh := upd m.sh i [⟨.threadStartup, t, m.C t t, fun _ => 0, false⟩],
             pos := fun u x => if x = some i then 0 else m.pos u x }
  | .joinT i => m.learn t (m.C (some i))

/-- An action of thread `t`. -/
def Mem.act (m : Mem δ) (t : Tid) (b : Act δ) : Mem δ := (m.tick t).eff t b

/-- A thread with clock `c` that has got to message `p` does not know about some of the messages. -/
def unknown {α : Type} (c : Clock) (p : Nat) (h : List (Msg α)) : Bool :=
  (h.take (h.length - p)).any (fun g => decide (c g.tid < g.clk))

/-- A conflicting access that thread clock `c` does not know about. -/
def racy (c : Clock) (recs : List (Rec δ)) (x : Loc δ) (w : Bool) : Bool :=
  recs.any (fun r => decide (r.loc = x) && (w || r.wr) && decide (c r.tid < r.clk))

/-- What can be wrong with an action. -/
inductive Bad
  | race
  | misplaced
  deriving DecidableEq

/-- What is wrong with an action, if anything. -/
def Mem.bad (m : Mem δ) (t : Tid) : Act δ → Option Bad
  | .acc x w _ => if racy (m.C t) m.recs x w then some .race else none
  | .stStore i _ => if unknown (m.C t) (m.pos t (some i)) (m.sh i) then some .misplaced else none
  | .cStore _ _ => if unknown (m.C t) (m.pos t none) m.ch then some .misplaced else none
  | .cDec k _ _ => if k = 0 then none else some .misplaced
  | _ => none

/-- Several actions of thread `t`, up to the first that is wrong. -/
def Mem.run (m : Mem δ) (t : Tid) : List (Act δ) → Except Bad (Mem δ)
  | [] => .ok m
  | b :: bs =>
    match m.bad t b with
    | some e => .error e
    | none => (m.act t b).run t bs

/-- What a transition loads. -/
inductive Load
  | nothing
  | state (i : Nat)
  | count
  | rmw

/-- The messages that a load by a thread with clock `c` may read: those for which no newer one is
known to have happened before. -/
def visible {α : Type} (c : Clock) (h : List (Msg α)) (k : Nat) : Bool :=
  decide (k < h.length) && (h.take k).all (fun g => decide (c g.tid < g.clk))

/-- Message `k` can be read by thread `t`.  A read-modify-write comes immediately after what it
reads, so that it cannot read what another one has read. -/
def Mem.readable (m : Mem δ) (t : Tid) (k : Nat) : Load → Bool
  | .nothing => true
  | .state i => visible (m.C t) (m.sh i) k
  | .count => visible (m.C t) m.ch k
  | .rmw => visible (m.C t) m.ch k &&
      (decide (k = 0) || !(match m.ch[k - 1]? with | some g => g.rmw | none => false))

/-- Message `k` is not older than what thread `t` has read or stored. -/
def Mem.coherent (m : Mem δ) (t : Tid) (k : Nat) : Load → Bool
  | .nothing => true
  | .state i => decide (k + m.pos t (some i) ≤ (m.sh i).length)
  | .count | .rmw => decide (k + m.pos t none ≤ m.ch.length)

/-- What a worker loads (internal/multi_thread_gemm.h:255, 166, 114/122, 130/133). -/
def wload (i : Nat) : WPc ε → Load
  | .inReady | .spin | .checkWait => .state i
  | .decrement => .rmw
  | _ => .nothing

/-- What the master loads (internal/multi_thread_gemm.h:154, 178, 255). -/
def mload : MPc ε → Load
  | .cwReset | .cwWait | .reset | .wait => .count
  | .swSet i | .dSet i => .state i
  | _ => .nothing

/-- `Pool.wstep` for a worker that has loaded `v` from `state_`, or `c` from `count_`. -/
def wstepL (s : State ε) (i : Nat) (v : WSt) (c : Nat) : Out ε :=
  let w := s.ws i
  match w.pc with
  | .lockReady =>
    match w.lock with
    | none => .next (s.setW i { w with pc := .inReady, lock := some .worker })
    | some _ => .blocked
  | .inReady =>
    match v with
    | .ready => .fault          -- assert(old_state != new_state)
    | .exit => .fault           -- abort()
    | _ =>
      match w.task with
      | none => .next (s.setW i { w with pc := .storeReady })
      | some (_, p) => .next (s.setW i { w with pc := .running p })
  | .running [] => .next (s.setW i { w with pc := .storeReady, task := none })
  | .running (e :: es) =>
    match w.task with
    | none => .fault
    | some (id, _) =>
      .next { s.setW i { w with pc := .running es } with log := s.log ++ [(id, e)] }
  | .storeReady => .next (s.setW i { w with pc := .unlockReady, st := .ready })
  | .unlockReady => .next (s.setW i { w with pc := .decrement, lock := none })
  | .decrement =>
    if c = 0 then .fault
    else .next { s.setW i { w with pc := .spin } with count := c - 1 }
  | .spin =>
    match v with
    | .ready => .next s
    | v => .next (s.setW i { w with pc := .act v })
  | .lockWait =>
    match w.lock with
    | none => .next (s.setW i { w with pc := .checkWait, lock := some .worker })
    | some _ => .blocked
  | .checkWait =>
    match v with
    | .ready => .next (s.setW i { w with pc := .waiting, lock := none })
    | v => .next (s.setW i { w with pc := .unlockWait v })
  | .waiting => .blocked
  | .woken =>
    match w.lock with
    | none => .next (s.setW i { w with pc := .checkWait, lock := some .worker })
    | some _ => .blocked
  | .unlockWait v => .next (s.setW i { w with pc := .act v, lock := none })
  | .act .hasWork => .next (s.setW i { w with pc := .lockReady })
  | .act .exit => .next (s.setW i { w with pc := .exited })
  | .act _ => .fault            -- abort()
  | .exited => .blocked

/-- `Pool.mstep` for a master that has loaded `v` from a `state_`, or `c` from `count_`. -/
def mstepL (sc : Script ε) (s : State ε) (v : WSt) (c : Nat) : Out ε :=
  let n := (sc.tasks s.call).length - 1
  match s.mpc with
  | .idle =>
    if s.call < sc.length then
      if sc.tasks s.call = [] then .fault      -- assert(tasks_count >= 1)
      else .next { s with mpc := .cwCheck }
    else .next { s with mpc := .dLock 0 }
  | .cwCheck => .next { s with mpc := if n ≤ s.nw then .reset else .cwReset }
  | .cwReset =>
    if c ≠ 0 then .fault                        -- assert(old_count_value == 0)
    else .next { s with count := n - s.nw, mpc := .cwCreate }
  | .cwCreate =>
    if s.nw < n then .next { s.setW s.nw newWorker with nw := s.nw + 1 }
    else .next { s with mpc := .cwWait }
  | .cwWait => if c = 0 then .next { s with mpc := .reset } else .next s
  | .reset =>
    if s.nw < n then .fault                     -- assert(workers_count <= workers_.size())
    else if c ≠ 0 then .fault
    else .next { s with count := n, mpc := .swLock 0 }
  | .swLock i =>
    if i < n then
      match (s.ws i).lock with
      | none => .next { s.setW i { s.ws i with lock := some .master } with mpc := .swSet i }
      | some _ => .blocked
    else .next { s with mpc := .run (sc.prog s.call n) }
  | .swSet i =>
    match v with
    | .ready =>
      match (s.ws i).task with
      | some _ => .fault                        -- assert(!task_)
      | none => .next { s.setW i { s.ws i with task := some ((s.call, i), sc.prog s.call i) } with
                        mpc := .swStore i }
    | _ => .fault
  | .swStore i =>
    .next { s.setW i { s.ws i with st := .hasWork }.wake with mpc := .swUnlock i }
  | .swUnlock i =>
    .next { s.setW i { s.ws i with lock := none } with mpc := .swLock (i + 1) }
  | .run [] => .next { s with mpc := .wait }
  | .run (e :: es) => .next { s with log := s.log ++ [((s.call, n), e)], mpc := .run es }
  | .wait => if c = 0 then .next { s with mpc := .idle, call := s.call + 1 } else .next s
  | .dLock i =>
    if i < s.nw then
      match (s.ws i).lock with
      | none => .next { s.setW i { s.ws i with lock := some .master } with mpc := .dSet i }
      | some _ => .blocked
    else .next { s with mpc := .done }
  | .dSet i =>
    match v with
    | .ready => .next { s with mpc := .dStore i }
    | .hasWork => .next { s with mpc := .dStore i }
    | _ => .fault
  | .dStore i =>
    .next { s.setW i { s.ws i with st := .exit }.wake with mpc := .dUnlock i }
  | .dUnlock i =>
    .next { s.setW i { s.ws i with lock := none } with mpc := .dJoin i }
  | .dJoin i =>
    match (s.ws i).pc with
    | .exited => .next { s with mpc := .dLock (i + 1) }
    | _ => .blocked
  | .done => .blocked

/-- The accesses to the client's memory of an effect of task `k`. -/
def dataActs (foot : ε → List (δ × Bool)) (k : TaskId) (e : ε) : List (Act δ) :=
  (foot e).map (fun p => .acc (.data p.1) p.2 (.task k))

/-- What worker `i` does to memory in a transition in which it reads message `k` with value `v`:
internal/multi_thread_gemm.h:252-294, 297-322, 110-137, 164-170.  Calling `Run` reads the task
object; each effect of the task may use the worker's allocator. -/
def wacts (o : Orders) (foot : ε → List (δ × Bool)) (s : State ε) (i k : Nat) (v : WSt) :
    List (Act δ) :=
  let w := s.ws i
  .acc (.obj i) false .pool ::
  match w.pc with
  | .lockReady => [.lock i]
  | .inReady =>
    .stLoad i k false :: .acc (.member i) false .pool ::
    (match w.task with
     | none => []
     | some (id, _) => [.acc (.taskObj i) false (.task id)])
  | .running [] => [.acc (.member i) true .pool]
  | .running (e :: _) =>
    match w.task with
    | none => []
    | some (id, _) =>
      .acc (.taskObj i) false (.task id) :: .acc (.alloc i) true .pool :: dataActs foot id e
  | .storeReady => [.stStore i .ready]
  | .unlockReady => [.unlock i]
  | .decrement => [.acc .pool false .pool, .cDec k o.decAcq o.decRel]
  | .spin => [.stLoad i k o.chkAcq]
  | .lockWait => [.lock i]
  | .checkWait =>
    .stLoad i k o.chkAcq :: (match v with | .ready => [.unlock i] | _ => [])
  | .woken => [.lock i]
  | .unlockWait _ => [.unlock i]
  | .waiting | .act _ | .exited => []

/-- `delete` of worker `i` (370), after the join. -/
def destroyActs (i : Nat) : List (Act δ) :=
  [.acc (.member i) true .pool, .acc (.alloc i) true .pool, .acc (.obj i) true .pool]

/-- What the master does to memory in a transition in which it reads message `k`:
internal/multi_thread_gemm.h:378-394, 428-437, 153-158, 174-203, 252-294, 369-373, 239-244.  The
memory of worker `i` is freed (370) at the beginning of the transition after the join. -/
def macts (o : Orders) (foot : ε → List (δ × Bool)) (sc : Script ε) (s : State ε) (k : Nat) :
    List (Act δ) :=
  let n := (sc.tasks s.call).length - 1
  match s.mpc with
  | .idle | .cwCheck => []
  | .cwReset => [.cLoad k false, .cStore (n - s.nw) o.resetRel]
  | .cwCreate =>
    if s.nw < n then
      [.acc (.obj s.nw) true .pool, .acc (.alloc s.nw) true .pool, .acc (.member s.nw) true .pool,
       .fork s.nw]
    else []
  | .cwWait => [.cLoad k o.waitAcq]
  | .reset => [.cLoad k false, .cStore n o.resetRel]
  | .swLock i => if i < n then [.lock i] else [.acc (.taskObj n) true (.task (s.call, n))]
  | .swSet i =>
    [.stLoad i k false, .acc (.member i) false .pool, .acc (.taskObj i) true (.task (s.call, i)),
     .acc (.member i) true .pool]
  | .swStore i => [.stStore i .hasWork]
  | .swUnlock i => [.unlock i]
  | .run [] => []
  | .run (e :: _) => .acc (.taskObj n) false (.task (s.call, n)) :: dataActs foot (s.call, n) e
  | .wait => [.cLoad k o.waitAcq]
  | .dLock i =>
    (if i = 0 then [] else destroyActs (i - 1)) ++
      (if i < s.nw then [.lock i] else [.acc .pool true .pool])
  | .dSet i => [.stLoad i k false]
  | .dStore i => [.stStore i .exit]
  | .dUnlock i => [.unlock i]
  | .dJoin i => [.joinT i]
  | .done => []

/-- The pool, its threads, the client and the memory. -/
structure WState (ε δ : Type) where
  s : State ε
  m : Mem δ

/-- What an attempted move gives. -/
inductive WOut (ε δ : Type)
  | blocked
  /-- a failing assertion or `abort()` -/
  | fault
  /-- a data race, or a store whose place is not determined -/
  | bad (e : Bad)
  | next (a : WState ε δ)

/-- Who moves, and which message is read. -/
inductive WChoice (δ : Type)
  | master (k : Nat)
  | worker (i k : Nat)
  | giveUp (i : Nat)
  | spurious (i : Nat)
  /-- the client accesses its memory outside of calls -/
  | client (x : δ) (wr : Bool)
  /-- the client accesses (creates, deletes) the `j`-th task object outside of calls -/
  | clientTask (j : Nat) (wr : Bool)

/-- The transition, after thread `t` has made the control step `out`. -/
def finish (m : Mem δ) (t : Tid) (acts : List (Act δ)) : Out ε → WOut ε δ
  | .blocked => .blocked
  | .fault => .fault
  | .next s' =>
    match m.run t acts with
    | .error e => .bad e
    | .ok m' => .next ⟨s', m'⟩

/-- The state loaded from: which worker's `state_`. -/
def mstate (m : Mem δ) (k : Nat) : MPc ε → WSt
  | .swSet i | .dSet i => valAt .ready (m.sh i) k
  | _ => .ready

/-- The client is outside of the pool's code. -/
def outside : MPc ε → Bool
  | .idle | .done => true
  | _ => false

/-- One move. -/
def step (o : Orders) (foot : ε → List (δ × Bool)) (sc : Script ε) (a : WState ε δ) :
    WChoice δ → WOut ε δ
  | .master k =>
    if a.m.readable none k (mload a.s.mpc) ∧ a.m.coherent none k (mload a.s.mpc) then
      finish a.m none (macts o foot sc a.s k)
        (mstepL sc a.s (mstate a.m k a.s.mpc) (valAt 0 a.m.ch k))
    else .blocked
  | .worker i k =>
    if i < a.s.nw ∧ a.m.readable (some i) k (wload i (a.s.ws i).pc) ∧
        a.m.coherent (some i) k (wload i (a.s.ws i).pc) then
      finish a.m (some i) (wacts o foot a.s i k (valAt .ready (a.m.sh i) k))
        (wstepL a.s i (valAt .ready (a.m.sh i) k) (valAt 0 a.m.ch k))
    else .blocked
  | .giveUp i => finish a.m (some i) [] (Pool.step sc a.s (.giveUp i))
  | .spurious i => finish a.m (some i) [] (Pool.step sc a.s (.spurious i))
  | .client x w =>
    if outside a.s.mpc then finish a.m none [.acc (.data x) w .client] (.next a.s) else .blocked
  | .clientTask j w =>
    if outside a.s.mpc then finish a.m none [.acc (.taskObj j) w .client] (.next a.s) else .blocked

/-- A pool just constructed: the master has initialized `count_` (151). -/
def initial : WState ε δ :=
  { s := Pool.initial
    m := { C := fun t u => if t = none ∧ u = none then 1 else 0
           M := fun _ _ => 0
           sh := fun _ => []
           ch := [⟨0, none, 1, fun _ => 0, false⟩]
           recs := [⟨.pool, true, none, 1, .pool⟩]
           pos := fun t x => if t = none ∧ x = none then 1 else 0 } }

/-- States that can occur under some schedule and some choice of messages. -/
inductive Reachable (o : Orders) (foot : ε → List (δ × Bool)) (sc : Script ε) : WState ε δ → Prop
  | init : Reachable o foot sc initial
  | step {a a' : WState ε δ} (c : WChoice δ) (h : Reachable o foot sc a)
      (hs : step o foot sc a c = .next a') : Reachable o foot sc a'

end

end Gemmlowp.Weak
