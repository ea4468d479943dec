import Verif.PthreadShim
/-!
# What the pthread functions mean

The behaviour that POSIX promises of the functions in profiling/pthread_everywhere.h, without objects on a heap: a
mutex has an owner, a condition variable exists or not, a thread has been joined or not.  Uses that POSIX leaves
undefined are faults.
-/
namespace Gemmlowp
namespace Shim

/-- Where a thread is in `pthread_cond_wait(c, m)`. -/
inductive SPc where
  | idle
  | calling (c m : Nat)
  | sleeping (c m : Nat)
  | woken (m : Nat)
  deriving DecidableEq, Repr

/-- The state: mutexes (`none`: not initialized), condition variables, threads and whether they were joined. -/
structure Sp (n : Nat) where
  mutex : Nat → Option (Option (Fin n))
  cond : Nat → Bool
  thread : Nat → Option (Fin n × Bool)
  pc : Fin n → SPc
  life : Fin n → Life

variable {n : Nat}

def Sp.init (n : Nat) [NeZero n] : Sp n :=
  { mutex := fun _ => none, cond := fun _ => false, thread := fun _ => none
    pc := fun _ => .idle, life := fun t => if t = 0 then .running else .notStarted }

/-- The thread needs mutex `m` to finish a wait. -/
def SPc.usesMutex (m : Nat) : SPc → Bool
  | .idle => false
  | .calling _ m' => m' = m
  | .sleeping _ m' => m' = m
  | .woken m' => m' = m

/-- The thread is about to wait or waits on `c`. -/
def SPc.usesCond (c : Nat) : SPc → Bool
  | .calling c' _ => c' = c
  | .sleeping c' _ => c' = c
  | _ => false

/-- The thread waits on `c`. -/
def SPc.waitsOn (c : Nat) : SPc → Bool
  | .sleeping c' _ => c' = c
  | _ => false

/-- A waiting thread is woken. -/
def SPc.wake (c : Nat) : SPc → SPc
  | .sleeping c' m => if c' = c then .woken m else .sleeping c' m
  | x => x

/-- The thread waits on `c` with `m`, or on another condition variable. -/
def SPc.agrees (c m : Nat) : SPc → Bool
  | .sleeping c' m' => c' ≠ c || m' = m
  | _ => true

/-- The second half of a wait, and going to sleep. -/
def Sp.goOn (a : Sp n) (t : Fin n) : Res (Sp n) :=
  match a.pc t with
  | .calling c m =>
    if ∀ t' : Fin n, (a.pc t').agrees c m = true then
      .ok { a with mutex := upd a.mutex m (some none), pc := upd a.pc t (.sleeping c m) }
    else .fault
  | .woken m =>
    match a.mutex m with
    | some none => .ok { a with mutex := upd a.mutex m (some (some t)), pc := upd a.pc t .idle }
    | some (some _) => .blocked
    | none => .fault
  | _ => .blocked

/-- The calls. -/
def Sp.call (a : Sp n) (t : Fin n) : Act n → Res (Sp n)
  | .mutexInit v =>
    match a.mutex v with
    | none => .ok { a with mutex := upd a.mutex v (some none) }
    | some _ => .fault
  | .mutexLock v =>
    match a.mutex v with
    | some none => .ok { a with mutex := upd a.mutex v (some (some t)) }
    | some (some o) => if o = t then .fault else .blocked
    | none => .fault
  | .mutexUnlock v =>
    match a.mutex v with
    | some (some o) => if o = t then .ok { a with mutex := upd a.mutex v (some none) } else .fault
    | _ => .fault
  | .mutexDestroy v =>
    match a.mutex v with
    | some none =>
      if ∀ t' : Fin n, (a.pc t').usesMutex v = false then .ok { a with mutex := upd a.mutex v none } else .fault
    | _ => .fault
  | .condInit v => if a.cond v then .fault else .ok { a with cond := upd a.cond v true }
  | .condSignal v pick =>
    if a.cond v then
      if ∀ t' : Fin n, (a.pc t').waitsOn v = false then .ok a
      else if (a.pc pick).waitsOn v then .ok { a with pc := upd a.pc pick ((a.pc pick).wake v) }
      else .blocked
    else .fault
  | .condBroadcast v => if a.cond v then .ok { a with pc := fun t' => (a.pc t').wake v } else .fault
  | .condDestroy v =>
    if a.cond v = true ∧ ∀ t' : Fin n, (a.pc t').usesCond v = false then .ok { a with cond := upd a.cond v false }
    else .fault
  | .condWait c m =>
    if a.cond c = true ∧ a.mutex m = some (some t) then .ok { a with pc := upd a.pc t (.calling c m) } else .fault
  | .create v child =>
    if a.life child = .notStarted then
      .ok { a with thread := upd a.thread v (some (child, false)), life := upd a.life child .running }
    else .blocked
  | .join v =>
    match a.thread v with
    | some (child, false) =>
      if child = t then .fault
      else if a.life child = .finished then .ok { a with thread := upd a.thread v (some (child, true)) }
      else .blocked
    | _ => .fault
  | .exit => .ok { a with life := upd a.life t .finished }
  | .go => .blocked
  | .spurious => .blocked

/-- A step of thread `t`. -/
def Sp.step (a : Sp n) (t : Fin n) (x : Act n) : Res (Sp n) :=
  if a.life t = .running then
    match x, a.pc t with
    | .go, _ => a.goOn t
    | .spurious, .sleeping _ m => .ok { a with pc := upd a.pc t (.woken m) }
    | x, .idle => a.call t x
    | _, _ => .blocked
  else .blocked

/-- A schedule. -/
def Sp.run : List (Fin n × Act n) → Sp n → Res (Sp n)
  | [], a => .ok a
  | (t, x) :: l, a =>
    match a.step t x with
    | .ok a' => Sp.run l a'
    | .blocked => Sp.run l a
    | .fault => .fault

/-- How a thread is inside of `pthread_cond_wait`, seen from outside: the last two steps are not visible. -/
def Pc.matches (s : St n) (a : Sp n) (t : Fin n) : Pc → SPc → Prop
  | .idle, .idle => True
  | .constructed c m lk, .calling c' m' => c' = c ∧ m' = m ∧ a.cond c = true ∧ a.mutex m = some (some t) ∧
      lk.owns = true ∧ lk.pm = s.mptr m
  | .sleeping c m cp lk, .sleeping c' m' => c' = c ∧ m' = m ∧ a.cond c = true ∧ (a.mutex m).isSome = true ∧
      a.mutex m ≠ some (some t) ∧ s.cptr c = some cp ∧ lk.owns = false ∧ lk.pm = s.mptr m
  | .woken _ m lk, .woken m' => m' = m ∧ (a.mutex m).isSome = true ∧ a.mutex m ≠ some (some t) ∧
      lk.owns = false ∧ lk.pm = s.mptr m
  | .locked _ m lk, .idle => a.mutex m = some (some t) ∧ lk.owns = true ∧ lk.pm = s.mptr m
  | .released _ m lk, .idle => a.mutex m = some (some t) ∧ lk.owns = false
  | _, _ => False

/-- The state of the objects stands for the state of the variables. -/
structure Rel (s : St n) (a : Sp n) : Prop where
  mutex : ∀ v o, a.mutex v = some o → ∃ p, s.mptr v = some p ∧ s.mheap p = .live o
  mutex_inj : ∀ v v' p, (a.mutex v).isSome = true → (a.mutex v').isSome = true → s.mptr v = some p →
    s.mptr v' = some p → v = v'
  /-- No object is lost. -/
  mutex_kept : ∀ p o, s.mheap p = .live o → ∃ v, (a.mutex v).isSome = true ∧ s.mptr v = some p
  mutex_next : ∀ p, s.mnext ≤ p → s.mheap p = .unused
  cond : ∀ v, a.cond v = true → ∃ p, s.cptr v = some p ∧ s.cheap p = .live
  cond_inj : ∀ v v' p, a.cond v = true → a.cond v' = true → s.cptr v = some p → s.cptr v' = some p → v = v'
  cond_kept : ∀ p, s.cheap p = .live → ∃ v, a.cond v = true ∧ s.cptr v = some p
  cond_next : ∀ p, s.cnext ≤ p → s.cheap p = .unused
  thread : ∀ v x, a.thread v = some x → ∃ p, s.tptr v = some p ∧ s.theap p = some (x.1, !x.2)
  thread_inj : ∀ v v' p, (a.thread v).isSome = true → (a.thread v').isSome = true → s.tptr v = some p →
    s.tptr v' = some p → v = v'
  thread_next : ∀ p, s.theap p = none ↔ s.tnext ≤ p
  pc : ∀ t, (s.pc t).matches s a t (a.pc t)
  life : a.life = s.life

end Shim
end Gemmlowp
