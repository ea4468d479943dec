/-!
# The pthread functions for Windows

profiling/pthread_everywhere.h implements the pthread functions that the library uses on top of `std::thread`,
`std::mutex` and `std::condition_variable`.  Here are a small model of those classes (with their preconditions, whose
violation is undefined) and the functions of that file on top of it.

Simplifications: objects of different classes have separate addresses; `new` does not fail; every function but
`pthread_cond_wait` is one step, `pthread_cond_wait` is a step for each of its statements and for waking up; threads are
numbered in advance and each is started once.
-/
namespace Gemmlowp
namespace Shim

/-- What a step of a thread does: it happens, it has to wait, or it is undefined. -/
inductive Res (α : Type) where
  | ok (a : α)
  | blocked
  | fault
  deriving DecidableEq, Repr

/-- `f` with another value at `i`. -/
def upd {α β : Type} [DecidableEq α] (f : α → β) (i : α) (x : β) : α → β := fun j => if j = i then x else f j

/-- The calls of a thread.  `v`, `c`, `m` name the variables of type `pthread_mutex_t`, `pthread_cond_t`, `pthread_t`
(each type has its own names).  `pick` is the thread that is woken by a signal, `child` the thread that is started.
`go` is the next step inside of `pthread_cond_wait`, `spurious` a wakeup without a signal, `exit` the end of the
thread's function. -/
inductive Act (n : Nat) where
  | mutexInit (v : Nat)
  | mutexLock (v : Nat)
  | mutexUnlock (v : Nat)
  | mutexDestroy (v : Nat)
  | condInit (v : Nat)
  | condSignal (v : Nat) (pick : Fin n)
  | condBroadcast (v : Nat)
  | condDestroy (v : Nat)
  | condWait (c m : Nat)
  | create (v : Nat) (child : Fin n)
  | join (v : Nat)
  | exit
  | go
  | spurious
  deriving DecidableEq, Repr

/-- Where a thread is in its life. -/
inductive Life where
  | notStarted
  | running
  | finished
  deriving DecidableEq, Repr

/-- A `std::mutex` object and its owner. -/
inductive MObj (n : Nat) where
  | unused
  | live (owner : Option (Fin n))
  | freed
  deriving DecidableEq, Repr

/-- A `std::condition_variable` object; who waits on it is seen from the threads. -/
inductive CObj where
  | unused
  | live
  | freed
  deriving DecidableEq, Repr

/-- A `std::unique_lock<std::mutex>`: the associated mutex and whether it is owned. -/
structure ULock where
  pm : Option Nat
  owns : Bool
  deriving DecidableEq, Repr

/-- Where a thread is inside `pthread_cond_wait(c, m)` (profiling/pthread_everywhere.h:66-72): after the constructor
of the lock, asleep in `wait` on the object at `cp`, awake but without the mutex, after `wait`, after `release`. -/
inductive Pc where
  | idle
  | constructed (c m : Nat) (lk : ULock)
  | sleeping (c m cp : Nat) (lk : ULock)
  | woken (c m : Nat) (lk : ULock)
  | locked (c m : Nat) (lk : ULock)
  | released (c m : Nat) (lk : ULock)
  deriving DecidableEq, Repr

/-- The state: the pointers that the variables hold (`none`: indeterminate), the objects, the threads. -/
structure St (n : Nat) where
  mptr : Nat → Option Nat
  cptr : Nat → Option Nat
  tptr : Nat → Option Nat
  mheap : Nat → MObj n
  cheap : Nat → CObj
  /-- The `std::thread` objects: the thread and whether it is joinable.  No function frees one. -/
  theap : Nat → Option (Fin n × Bool)
  mnext : Nat
  cnext : Nat
  tnext : Nat
  pc : Fin n → Pc
  life : Fin n → Life

variable {n : Nat}

/-- At the beginning thread 0 runs. -/
def St.init (n : Nat) [NeZero n] : St n :=
  { mptr := fun _ => none, cptr := fun _ => none, tptr := fun _ => none
    mheap := fun _ => .unused, cheap := fun _ => .unused, theap := fun _ => none
    mnext := 0, cnext := 0, tnext := 0
    pc := fun _ => .idle, life := fun t => if t = 0 then .running else .notStarted }

/-- `std::mutex::lock`; undefined if the calling thread owns the mutex. -/
def stdLock (s : St n) (t : Fin n) (p : Nat) : Res (St n) :=
  match s.mheap p with
  | .live none => .ok { s with mheap := upd s.mheap p (.live (some t)) }
  | .live (some o) => if o = t then .fault else .blocked
  | _ => .fault

/-- `std::mutex::unlock`; undefined if the calling thread does not own the mutex. -/
def stdUnlock (s : St n) (t : Fin n) (p : Nat) : Res (St n) :=
  match s.mheap p with
  | .live (some o) => if o = t then .ok { s with mheap := upd s.mheap p (.live none) } else .fault
  | _ => .fault

/-- `delete` of a `std::mutex`; undefined if it is owned. -/
def deleteMutex (s : St n) (p : Nat) : Res (St n) :=
  match s.mheap p with
  | .live none => .ok { s with mheap := upd s.mheap p .freed }
  | _ => .fault

/-- The thread waits on the object at `p`. -/
def Pc.sleepsOn (p : Nat) : Pc → Bool
  | .sleeping _ _ cp _ => cp = p
  | _ => false

/-- If the thread waits on the object at `cp` then with the mutex at `p`. -/
def Pc.agrees (cp p : Nat) : Pc → Bool
  | .sleeping _ _ cp' lk => cp' ≠ cp || lk.pm = some p
  | _ => true

/-- `delete` of a `std::condition_variable`; undefined if a thread waits that has not been notified. -/
def deleteCond (s : St n) (p : Nat) : Res (St n) :=
  match s.cheap p with
  | .live =>
    if ∀ t : Fin n, (s.pc t).sleepsOn p = false then
      .ok { s with cheap := upd s.cheap p .freed }
    else .fault
  | _ => .fault

/-- A thread that waits on `p` is woken. -/
def wakeIf (p : Nat) : Pc → Pc
  | .sleeping c m cp lk => if cp = p then .woken c m lk else .sleeping c m cp lk
  | x => x

/-- `notify_one`: one of the waiting threads, if there is one. -/
def notifyOne (s : St n) (p : Nat) (pick : Fin n) : Res (St n) :=
  match s.cheap p with
  | .live =>
    if ∀ t : Fin n, (s.pc t).sleepsOn p = false then .ok s
    else if (s.pc pick).sleepsOn p then .ok { s with pc := upd s.pc pick (wakeIf p (s.pc pick)) }
    else .blocked
  | _ => .fault

/-- `notify_all`. -/
def notifyAll (s : St n) (p : Nat) : Res (St n) :=
  match s.cheap p with
  | .live => .ok { s with pc := fun t => wakeIf p (s.pc t) }
  | _ => .fault

/-- The constructor of `std::unique_lock` with `std::adopt_lock`; undefined if the thread does not own the mutex. -/
def adopt (s : St n) (t : Fin n) (p : Nat) : Res ULock :=
  match s.mheap p with
  | .live (some o) => if o = t then .ok { pm := some p, owns := true } else .fault
  | _ => .fault

/-- The first half of `std::condition_variable::wait`: unlocks the lock and goes to sleep.  The lock has to be owned,
all waiting threads have to use the same mutex. -/
def waitBegin (s : St n) (t : Fin n) (c m cp : Nat) (lk : ULock) : Res (St n) :=
  match s.cheap cp, lk.pm with
  | .live, some p =>
    if lk.owns = true ∧ ∀ t' : Fin n, (s.pc t').agrees cp p = true then
      match stdUnlock s t p with
      | .ok s => .ok { s with pc := upd s.pc t (.sleeping c m cp { lk with owns := false }) }
      | .blocked => .blocked
      | .fault => .fault
    else .fault
  | _, _ => .fault

/-- The second half of `wait`: locks the lock again (an exception if it is owned or has no mutex). -/
def waitEnd (s : St n) (t : Fin n) (c m : Nat) (lk : ULock) : Res (St n) :=
  match lk.pm with
  | some p =>
    if lk.owns then .fault
    else match stdLock s t p with
      | .ok s => .ok { s with pc := upd s.pc t (.locked c m { lk with owns := true }) }
      | .blocked => .blocked
      | .fault => .fault
  | none => .fault

/-- `std::unique_lock::release`. -/
def releaseLock (_ : ULock) : ULock := { pm := none, owns := false }

/-- The destructor of `std::unique_lock`. -/
def dropLock (s : St n) (t : Fin n) (lk : ULock) : Res (St n) :=
  if lk.owns then
    match lk.pm with
    | some p => stdUnlock s t p
    | none => .fault
  else .ok s

/-- Reading a pointer variable. -/
def deref (p : Option Nat) (f : Nat → Res (St n)) : Res (St n) :=
  match p with
  | some p => f p
  | none => .fault

/-- profiling/pthread_everywhere.h:53-55 `pthread_mutex_init`. -/
def mutexInit (s : St n) (v : Nat) : Res (St n) :=
  .ok { s with mheap := upd s.mheap s.mnext (.live none), mptr := upd s.mptr v (some s.mnext), mnext := s.mnext + 1 }

/-- profiling/pthread_everywhere.h:59-61 `pthread_cond_init`. -/
def condInit (s : St n) (v : Nat) : Res (St n) :=
  .ok { s with cheap := upd s.cheap s.cnext .live, cptr := upd s.cptr v (some s.cnext), cnext := s.cnext + 1 }

/-- profiling/pthread_everywhere.h:48-51 `pthread_create`. -/
def create (s : St n) (v : Nat) (child : Fin n) : Res (St n) :=
  if s.life child = .notStarted then
    .ok { s with theap := upd s.theap s.tnext (some (child, true)), tptr := upd s.tptr v (some s.tnext)
                 tnext := s.tnext + 1, life := upd s.life child .running }
  else .blocked

/-- profiling/pthread_everywhere.h:52 `pthread_join`; `std::thread::join` throws if the object is not joinable or if
the thread is the calling one. -/
def join (s : St n) (t : Fin n) (p : Nat) : Res (St n) :=
  match s.theap p with
  | some (child, true) =>
    if child = t then .fault
    else if s.life child = .finished then .ok { s with theap := upd s.theap p (some (child, false)) }
    else .blocked
  | _ => .fault

/-- The steps of `pthread_cond_wait` after the constructor of the lock (profiling/pthread_everywhere.h:68-72). -/
def goOn (s : St n) (t : Fin n) : Res (St n) :=
  match s.pc t with
  | .constructed c m lk => deref (s.cptr c) fun cp => waitBegin s t c m cp lk
  | .woken c m lk => waitEnd s t c m lk
  | .locked c m lk => .ok { s with pc := upd s.pc t (.released c m (releaseLock lk)) }
  | .released _ _ lk =>
    match dropLock s t lk with
    | .ok s => .ok { s with pc := upd s.pc t .idle }
    | .blocked => .blocked
    | .fault => .fault
  | _ => .blocked

/-- A call by a thread that runs and is not inside of `pthread_cond_wait`. -/
def call (s : St n) (t : Fin n) : Act n → Res (St n)
  | .mutexInit v => mutexInit s v
  -- profiling/pthread_everywhere.h:56-58
  | .mutexLock v => deref (s.mptr v) (stdLock s t)
  | .mutexUnlock v => deref (s.mptr v) (stdUnlock s t)
  | .mutexDestroy v => deref (s.mptr v) (deleteMutex s)
  | .condInit v => condInit s v
  -- profiling/pthread_everywhere.h:62-65
  | .condSignal v pick => deref (s.cptr v) fun p => notifyOne s p pick
  | .condBroadcast v => deref (s.cptr v) (notifyAll s)
  -- profiling/pthread_everywhere.h:73
  | .condDestroy v => deref (s.cptr v) (deleteCond s)
  -- profiling/pthread_everywhere.h:66-67
  | .condWait c m => deref (s.mptr m) fun p =>
    match adopt s t p with
    | .ok lk => .ok { s with pc := upd s.pc t (.constructed c m lk) }
    | .blocked => .blocked
    | .fault => .fault
  | .create v child => create s v child
  | .join v => deref (s.tptr v) (join s t)
  | .exit => .ok { s with life := upd s.life t .finished }
  | .go => .blocked
  | .spurious => .blocked

/-- A step of thread `t`. -/
def step (s : St n) (t : Fin n) (a : Act n) : Res (St n) :=
  if s.life t = .running then
    match a, s.pc t with
    | .go, _ => goOn s t
    | .spurious, .sleeping c m _ lk => .ok { s with pc := upd s.pc t (.woken c m lk) }
    | a, .idle => call s t a
    | _, _ => .blocked
  else .blocked

/-- A schedule: which thread does what.  Steps that have to wait are passed over. -/
def run : List (Fin n × Act n) → St n → Res (St n)
  | [], s => .ok s
  | (t, a) :: l, s =>
    match step s t a with
    | .ok s' => run l s'
    | .blocked => run l s
    | .fault => .fault

/-- The steps of a schedule that were not passed over. -/
def performed : List (Fin n × Act n) → St n → List (Fin n × Act n)
  | [], _ => []
  | (t, a) :: l, s =>
    match step s t a with
    | .ok s' => (t, a) :: performed l s'
    | .blocked => performed l s
    | .fault => [(t, a)]

end Shim
end Gemmlowp
