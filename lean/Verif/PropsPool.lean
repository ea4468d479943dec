import Verif.PoolProof4
/-!
# Properties C17-C21: the worker pool and the blocking counter

Everything is stated about `Pool.Reachable`, `Pool.step` and runs of the transition system of
`Verif.Pool`.  `s.call` is the number of calls of `Execute` that have returned; `s.log` lists the
effects performed so far by tasks.
-/
namespace Gemmlowp.Pool

variable {ε : Type}

/-! ## C17 -/

/-- **C17.**  In every state that any schedule can produce: the tasks of every call that has
returned have been run completely, each exactly once and in order; tasks of later calls have not
begun; a task of the call in progress has been run at most once (its effects so far are the
beginning of its list of effects); and nothing else has run. -/
theorem C17_each_task_runs_exactly_once (sc : Script ε) (s : State ε) (h : Reachable sc s)
    (c j : Nat) :
    (c < s.call → logOf s.log (c, j) = sc.prog c j) ∧
    (s.call < c → logOf s.log (c, j) = []) ∧
    (logOf s.log (c, j) <+: sc.prog c j) := by
  have hi := (reachable_inv h).hist c j
  refine ⟨fun hc => ?_, fun hc => ?_, ⟨_, hi⟩⟩
  · simpa [rem, hc] using hi
  · have h1 : ¬ c < s.call := by omega
    simpa [rem, hc, h1] using hi

/-- **C17**, the barrier: while the master is outside of the pool's code, no worker is running a
task or holds one. -/
theorem C17_no_task_runs_between_calls (sc : Script ε) (s : State ε) (h : Reachable sc s)
    (hidle : s.mpc = .idle) (i : Nat) (hi : i < s.nw) :
    (s.ws i).task = none ∧ ∀ todo, (s.ws i).pc ≠ .running todo := by
  have hI := reachable_inv h
  have hA : Idle (s.ws i) := by simpa [hidle, Allowed] using hI.allowed i hi
  have hl : (s.ws i).lock ≠ some .master := by rw [Ne, hI.lockM i hi, hidle]; simp [holds]
  refine ⟨idle_task hA (hI.wok i hi) hl, fun todo e => ?_⟩
  rcases hA.cases (hI.wok i hi) with q | q | q | q | q <;> rw [q] at e <;> simp at e

/-- When all the calls have returned the log is complete: all the effects of all the tasks, each
as often as it should be. -/
theorem C17_all_done (sc : Script ε) (s : State ε) (h : Reachable sc s)
    (hc : s.call = sc.length) (c j : Nat) : logOf s.log (c, j) = sc.prog c j := by
  by_cases h1 : c < s.call
  · exact (C17_each_task_runs_exactly_once sc s h c j).1 h1
  · have hp : sc.prog c j = [] := prog_oob sc (by rw [tasks_oob sc (by omega)]; simp)
    have := (C17_each_task_runs_exactly_once sc s h c j).2.2
    rw [hp] at this ⊢
    exact List.prefix_nil.mp this

/-! ## C18 -/

/-- No assertion of the pool, its workers or the counter fails and no `abort()` is reached, in any
schedule, provided every call has at least one task. -/
theorem C18_no_assertion_fails (sc : Script ε) (hsc : ∀ ts ∈ sc, ts ≠ []) (s : State ε)
    (h : Reachable sc s) (c : Choice) : step sc s c ≠ .fault :=
  step_nofault (reachable_inv h) hsc c

/-- **C18**, no deadlock: in every reachable state in which the pool is not yet destroyed, the
master or some worker has a move that changes the state. -/
theorem C18_no_deadlock (sc : Script ε) (hsc : ∀ ts ∈ sc, ts ≠ []) (s : State ε)
    (h : Reachable sc s) (hd : s.mpc ≠ .done) :
    ∃ c s', (c = .master ∨ ∃ i < s.nw, c = .worker i) ∧ step sc s c = .next s' ∧ s' ≠ s := by
  rcases progress (reachable_inv h) hsc hd with ⟨s', h1, h2⟩ | ⟨i, hi, s', h1, h2⟩
  · exact ⟨_, s', .inl rfl, h1, h2⟩
  · exact ⟨_, s', .inr ⟨i, hi, rfl⟩, h1, h2⟩

/-- An infinite execution: at each time somebody attempts a move (`who`), which either happens or,
if that thread is blocked, changes nothing. -/
structure Run (sc : Script ε) (at' : Nat → State ε) (who : Nat → Choice) : Prop where
  start : at' 0 = initial
  move : ∀ n, step sc (at' n) (who n) = .next (at' (n + 1)) ∨
    (step sc (at' n) (who n) = .blocked ∧ at' (n + 1) = at' n)

/-- Every thread is scheduled again and again. -/
structure Fair (who : Nat → Choice) : Prop where
  master : ∀ n, ∃ m, n ≤ m ∧ who m = .master
  worker : ∀ i n, ∃ m, n ≤ m ∧ who m = .worker i

/-- Spurious wake-ups come to an end. -/
def FinitelySpurious (who : Nat → Choice) : Prop := ∃ n, ∀ m, n ≤ m → ∀ i, who m ≠ .spurious i

theorem Run.reachable {sc : Script ε} {σ : Nat → State ε} {who : Nat → Choice} (h : Run sc σ who)
    (n : Nat) : Reachable sc (σ n) := by
  induction n with
  | zero => rw [h.start]; exact .init
  | succ n ih =>
    rcases h.move n with e | ⟨_, e⟩
    · exact .step _ ih e
    · rw [e]; exact ih

/-- **C18**, termination: in every fair execution all the calls of `Execute` return and the
destructor of the pool completes. -/
theorem C18_fair_runs_terminate (sc : Script ε) (hsc : ∀ ts ∈ sc, ts ≠ []) (σ : Nat → State ε)
    (who : Nat → Choice) (h : Run sc σ who) (hf : Fair who) (hs : FinitelySpurious who) :
    ∃ n, (σ n).mpc = .done ∧ (σ n).call = sc.length := by
  obtain ⟨n0, hn0⟩ := hs
  have mono : ∀ n, n0 ≤ n → σ (n + 1) = σ n ∨ meas sc (σ (n + 1)) < meas sc (σ n) := by
    intro n hn
    rcases h.move n with e | ⟨_, e⟩
    · exact step_meas (reachable_inv (h.reachable n)) (hn0 n hn) e
    · exact .inl e
  have key : ∀ b n, n0 ≤ n → meas sc (σ n) ≤ b → ∃ m, (σ m).mpc = .done := by
    intro b
    induction b using Nat.strongRecOn with
    | ind b ih =>
      intro n hn hb
      by_cases hd : (σ n).mpc = .done
      · exact ⟨n, hd⟩
      · -- some thread can move; wait until it is scheduled or something else moved
        have hp := progress (reachable_inv (h.reachable n)) hsc hd
        have hsched : ∃ c, CanMove sc (σ n) c ∧ ∃ m, n ≤ m ∧ who m = c := by
          rcases hp with hp | ⟨i, _, hp⟩
          · exact ⟨_, hp, hf.master n⟩
          · exact ⟨_, hp, hf.worker i n⟩
        obtain ⟨c, ⟨s', hc1, hc2⟩, m, hm, hwho⟩ := hsched
        have stay : ∀ k, (∀ j, j < k → σ (n + j + 1) = σ (n + j)) → σ (n + k) = σ n := by
          intro k
          induction k with
          | zero => intro _; rfl
          | succ k ihk =>
            intro hk
            have := hk k (by omega)
            rw [show n + (k + 1) = n + k + 1 by omega, this]
            exact ihk (fun j hj => hk j (by omega))
        by_cases hall : ∀ j, j < m - n → σ (n + j + 1) = σ (n + j)
        · have e := stay (m - n) hall
          rw [show n + (m - n) = m by omega] at e
          have h2 : σ (m + 1) = s' := by
            rcases h.move m with q | ⟨q, _⟩
            · rw [e, hwho, hc1] at q; injection q with q; exact q.symm
            · rw [e, hwho, hc1] at q; simp at q
          have h3 : meas sc (σ (m + 1)) < meas sc (σ m) := by
            rcases mono m (by omega) with q | q
            · rw [h2, e] at q; exact absurd q hc2
            · exact q
          rw [e] at h3
          exact ih (meas sc (σ (m + 1))) (by omega) (m + 1) (by omega) (Nat.le_refl _)
        · have hex : ∃ j, j < m - n ∧ σ (n + j + 1) ≠ σ (n + j) ∧
              ∀ i, i < j → σ (n + i + 1) = σ (n + i) := by
            have : ∃ j, j < m - n ∧ σ (n + j + 1) ≠ σ (n + j) :=
              Classical.byContradiction (fun hno =>
                hall (fun j hj => Classical.byContradiction (fun e => hno ⟨j, hj, e⟩)))
            obtain ⟨j, hj⟩ := this
            induction j using Nat.strongRecOn with
            | ind j ihj =>
              by_cases hlow : ∃ i, i < j ∧ σ (n + i + 1) ≠ σ (n + i)
              · obtain ⟨i, hi, hne⟩ := hlow
                exact ihj i hi ⟨by omega, hne⟩
              · exact ⟨j, hj.1, hj.2, fun i hi =>
                  Classical.byContradiction (fun e => hlow ⟨i, hi, e⟩)⟩
          obtain ⟨j, hj, hne, hlow⟩ := hex
          have e := stay j hlow
          have h3 : meas sc (σ (n + j + 1)) < meas sc (σ n) := by
            rcases mono (n + j) (by omega) with q | q
            · exact absurd q hne
            · rwa [e] at q
          exact ih (meas sc (σ (n + j + 1))) (by omega) (n + j + 1) (by omega) (Nat.le_refl _)
  obtain ⟨m, hm⟩ := key (meas sc (σ n0)) n0 (Nat.le_refl _) (Nat.le_refl _)
  refine ⟨m, hm, ?_⟩
  have := (reachable_inv (h.reachable m)).phase
  simp only [Phase, hm] at this
  exact this.1

/-- The number of moves other than spurious wake-ups that change the state is bounded by a number
that depends on the state only: along an execution without spurious wake-ups the measure `meas`
decreases with every change. -/
theorem C18_bounded_work (sc : Script ε) (s s' : State ε) (h : Reachable sc s) (c : Choice)
    (hc : ∀ i, c ≠ .spurious i) (hs : step sc s c = .next s') :
    s' = s ∨ meas sc s' < meas sc s :=
  step_meas (reachable_inv h) hc hs

/-- The execution determined by a sequence of attempted moves. -/
noncomputable def follow (sc : Script ε) (who : Nat → Choice) : Nat → State ε
  | 0 => initial
  | n + 1 =>
    match step sc (follow sc who n) (who n) with
    | .next s => s
    | _ => follow sc who n

/-- Every sequence of attempted moves is an execution (so fair executions exist). -/
theorem follow_run (sc : Script ε) (hsc : ∀ ts ∈ sc, ts ≠ []) (who : Nat → Choice) :
    Run sc (follow sc who) who := by
  have key : ∀ n, Reachable sc (follow sc who n) ∧
      (step sc (follow sc who n) (who n) = .next (follow sc who (n + 1)) ∨
        (step sc (follow sc who n) (who n) = .blocked ∧
          follow sc who (n + 1) = follow sc who n)) := by
    intro n
    have mv : ∀ n, Reachable sc (follow sc who n) →
        (step sc (follow sc who n) (who n) = .next (follow sc who (n + 1)) ∨
        (step sc (follow sc who n) (who n) = .blocked ∧
          follow sc who (n + 1) = follow sc who n)) := by
      intro n hr
      have hnf := step_nofault (reachable_inv hr) hsc (who n)
      cases hst : step sc (follow sc who n) (who n) with
      | blocked => right; exact ⟨rfl, by simp only [follow, hst]⟩
      | fault => exact absurd hst hnf
      | next s => left; simp only [follow, hst]
    induction n with
    | zero => exact ⟨.init, mv 0 .init⟩
    | succ n ih =>
      have hr : Reachable sc (follow sc who (n + 1)) := by
        rcases ih.2 with e | ⟨_, e⟩
        · exact .step _ ih.1 e
        · rw [e]; exact ih.1
      exact ⟨hr, mv _ hr⟩
  exact ⟨rfl, fun n => (key n).2⟩

/-- A fair schedule: repeatedly the master and workers `0 … k` for growing `k`. -/
theorem fair_exists : ∃ who : Nat → Choice, Fair who ∧ FinitelySpurious who := by
  -- at time `2^a * (2 b + 1)` thread number `a` moves
  let tz : Nat → Nat := fun n => (List.range (n + 1)).foldl (fun acc i => if 2 ^ i ∣ n then i else acc) 0
  let who : Nat → Choice := fun n => match tz n with | 0 => .master | i + 1 => .worker i
  have htz : ∀ a b, tz (2 ^ a * (2 * b + 1)) = a := by
    intro a b
    have hdvd : ∀ i, 2 ^ i ∣ 2 ^ a * (2 * b + 1) ↔ i ≤ a := by
      intro i
      constructor
      · intro hd
        apply Classical.byContradiction
        intro hgt
        have h1 : 2 ^ (a + 1) ∣ 2 ^ a * (2 * b + 1) :=
          Nat.dvd_trans (Nat.pow_dvd_pow 2 (by omega)) hd
        rw [Nat.pow_succ] at h1
        have h2 : 2 ∣ 2 * b + 1 := Nat.dvd_of_mul_dvd_mul_left (Nat.pow_pos (by omega)) h1
        omega
      · intro hle
        exact Nat.dvd_trans (Nat.pow_dvd_pow 2 hle) (Nat.dvd_mul_right _ _)
    have hfold : ∀ m, a < m → (List.range m).foldl
        (fun acc i => if 2 ^ i ∣ 2 ^ a * (2 * b + 1) then i else acc) 0 = a := by
      intro m
      induction m with
      | zero => omega
      | succ m ih =>
        intro hm
        rw [List.range_succ, List.foldl_append]
        simp only [List.foldl_cons, List.foldl_nil, hdvd]
        by_cases q : m ≤ a
        · rw [if_pos q]; omega
        · rw [if_neg q]; simp only [hdvd] at ih; exact ih (by omega)
    refine hfold _ ?_
    have h1 : a < 2 ^ a := Nat.lt_two_pow_self
    have h2 : 2 ^ a * 1 ≤ 2 ^ a * (2 * b + 1) := Nat.mul_le_mul_left _ (by omega)
    omega
  have hbig : ∀ a n, n ≤ 2 ^ a * (2 * n + 1) := by
    intro a n
    have h2 : 1 * (2 * n + 1) ≤ 2 ^ a * (2 * n + 1) :=
      Nat.mul_le_mul_right _ (Nat.one_le_two_pow)
    omega
  refine ⟨who, ⟨fun n => ⟨_, hbig 0 n, ?_⟩, fun i n => ⟨_, hbig (i + 1) n, ?_⟩⟩, 0, fun m _ i => ?_⟩
  · show (match tz (2 ^ 0 * (2 * n + 1)) with | 0 => Choice.master | i + 1 => .worker i) = _
    rw [htz 0 n]
  · show (match tz (2 ^ (i + 1) * (2 * n + 1)) with | 0 => Choice.master | i + 1 => .worker i) = _
    rw [htz (i + 1) n]
  · show (match tz m with | 0 => Choice.master | i + 1 => .worker i) ≠ _
    cases tz m <;> simp

/-! ## C19 -/

/-- The largest number of workers needed by calls `0 … c-1`. -/
def workersNeeded (sc : Script ε) : Nat → Nat
  | 0 => 0
  | c + 1 => max (workersNeeded sc c) ((sc.tasks c).length - 1)

theorem workers_inv {sc : Script ε} {s : State ε} (h : Reachable sc s) :
    match s.mpc with
    | .idle | .cwCheck => s.nw = workersNeeded sc s.call
    | .cwReset => s.nw = workersNeeded sc s.call ∧ s.nw < (sc.tasks s.call).length - 1
    | .cwCreate => workersNeeded sc s.call ≤ s.nw ∧ s.nw ≤ (sc.tasks s.call).length - 1
    | .dLock _ | .dSet _ | .dStore _ | .dUnlock _ | .dJoin _ | .done =>
      s.nw = workersNeeded sc s.call
    | _ => s.nw = workersNeeded sc (s.call + 1) := by
  induction h with
  | init => rfl
  | @step s s' c hr hs ih =>
    have hworker : ∀ s' : State ε, s'.mpc = s.mpc → s'.nw = s.nw → s'.call = s.call →
        match s'.mpc with
        | .idle | .cwCheck => s'.nw = workersNeeded sc s'.call
        | .cwReset => s'.nw = workersNeeded sc s'.call ∧ s'.nw < (sc.tasks s'.call).length - 1
        | .cwCreate => workersNeeded sc s'.call ≤ s'.nw ∧ s'.nw ≤ (sc.tasks s'.call).length - 1
        | .dLock _ | .dSet _ | .dStore _ | .dUnlock _ | .dJoin _ | .done =>
          s'.nw = workersNeeded sc s'.call
        | _ => s'.nw = workersNeeded sc (s'.call + 1) := by
      intro s' e1 e2 e3
      rw [e1, e2, e3]; exact ih
    cases c with
    | worker i =>
      simp only [step] at hs
      split at hs
      · obtain ⟨f1, f2, f3, _⟩ := wstep_frame hs
        exact hworker s' f1 f3 f2
      · simp at hs
    | giveUp i =>
      simp only [step] at hs
      split at hs
      · split at hs
        · injection hs with hs; subst hs; exact hworker _ rfl rfl rfl
        · simp at hs
      · simp at hs
    | spurious i =>
      simp only [step] at hs
      split at hs
      · split at hs
        · injection hs with hs; subst hs; exact hworker _ rfl rfl rfl
        · simp at hs
      · simp at hs
    | master =>
      simp only [step] at hs
      unfold mstep at hs
      dsimp only at hs
      split at hs <;> rename_i hm <;> simp only [hm] at ih <;> (try split at hs) <;>
        (try split at hs) <;> (try (simp at hs; done)) <;> injection hs with hs <;> subst hs <;>
        simp only [State.setW, hm, workersNeeded] at ih ⊢ <;> (try omega)

/-- **C19.**  When a call of `Execute` has returned, the pool has exactly as many workers as the
largest call so far needs (one less than its number of tasks), and all of them are idle and ready
for the next call.  Each further call satisfies C17, whose statement ranges over all the calls. -/
theorem C19_pool_grows_on_demand_and_is_idle_after_each_call (sc : Script ε) (s : State ε)
    (h : Reachable sc s) (hidle : s.mpc = .idle) :
    s.nw = workersNeeded sc s.call ∧
    ∀ i < s.nw, (s.ws i).st = .ready ∧ (s.ws i).task = none := by
  have hI := reachable_inv h
  refine ⟨?_, fun i hi => ?_⟩
  · have := workers_inv h; simpa [hidle] using this
  · have hA : Idle (s.ws i) := by simpa [hidle, Allowed] using hI.allowed i hi
    exact ⟨hA.1, (C17_no_task_runs_between_calls sc s h hidle i hi).1⟩

/-- One call more needs `max` of the workers there are and one less than its tasks. -/
theorem C19_workersNeeded_succ (sc : Script ε) (c : Nat) :
    workersNeeded sc (c + 1) = max (workersNeeded sc c) ((sc.tasks c).length - 1) := rfl

/-! ## C20 -/

/-- **C20.**  Once the pool is destroyed every worker thread has returned, nobody can make any move
any more (so no worker runs a task or touches the pool), and all the tasks of all the calls have
been run, each exactly once. -/
theorem C20_destruction_stops_every_worker (sc : Script ε) (s : State ε) (h : Reachable sc s)
    (hd : s.mpc = .done) :
    (∀ i < s.nw, (s.ws i).pc = .exited) ∧ (∀ c, step sc s c = .blocked) ∧
    (∀ c j, logOf s.log (c, j) = sc.prog c j) := by
  have hI := reachable_inv h
  have hx : ∀ i < s.nw, (s.ws i).pc = .exited := by
    intro i hi; simpa [hd, Allowed] using hI.allowed i hi
  have hp := hI.phase
  simp only [Phase, hd] at hp
  refine ⟨hx, fun c => ?_, C17_all_done sc s h hp.1⟩
  cases c with
  | master => simp [step, mstep, hd]
  | worker i =>
    simp only [step]; split
    · next hi => simp [wstep, hx i hi]
    · rfl
  | giveUp i =>
    simp only [step]; split
    · next hi => simp [hx i hi]
    · rfl
  | spurious i =>
    simp only [step]; split
    · next hi => simp [hx i hi]
    · rfl

/-- **C20**: a worker is only destroyed (joined, its mutex and condition variable freed) after its
thread has returned, and then nobody touches it: once the master has passed the join of worker
`i`, that worker has exited in every later state. -/
theorem C20_no_use_after_destruction (sc : Script ε) (s : State ε) (h : Reachable sc s) (k : Nat)
    (hd : s.mpc = .dLock k ∨ s.mpc = .dSet k ∨ s.mpc = .dStore k ∨ s.mpc = .dUnlock k ∨
      s.mpc = .dJoin k) (i : Nat) (hik : i < k) (hi : i < s.nw) :
    (s.ws i).pc = .exited ∧ (s.ws i).lock = none ∧ wstep s i = .blocked := by
  have hI := reachable_inv h
  have hx : (s.ws i).pc = .exited := by
    have := hI.allowed i hi
    rcases hd with e | e | e | e | e <;> simpa [e, Allowed, hik] using this
  have hne : ¬ holds i s.mpc := by
    rcases hd with e | e | e | e | e <;> simp [e, holds] <;> omega
  have hw := hI.wok i hi
  simp only [WOk, hx] at hw
  have hl := hI.lockM i hi
  refine ⟨hx, ?_, by simp [wstep, hx]⟩
  cases hlk : (s.ws i).lock with
  | none => rfl
  | some o =>
    cases o with
    | master => exact absurd (hl.mp hlk) hne
    | worker => exact absurd hlk hw.1

/-! ## C21 -/

/-- internal/multi_thread_gemm.h:147-210 `BlockingCounter`: its value and the number of decrements
and of `true` answers of `DecrementCount` since the last `Reset` (these two are ghost variables). -/
structure Counter where
  count : Nat
  decs : Nat
  trues : Nat
  deriving DecidableEq, Repr

/-- The atomic operations on the counter. -/
inductive CounterOp | reset (n : Nat) | dec | wait
  deriving DecidableEq, Repr

/-- One operation; `none` when it faults or (for `wait`, 174-203) does not return yet.
153-158 `Reset` asserts the old count is 0; 164-170 `DecrementCount` asserts the old count is
positive and returns whether the new one is 0. -/
def Counter.op (c : Counter) : CounterOp → Option Counter
  | .reset n => if c.count = 0 then some { count := n, decs := 0, trues := 0 } else none
  | .dec =>
    if c.count = 0 then none
    else some { count := c.count - 1, decs := c.decs + 1,
                trues := if c.count - 1 = 0 then c.trues + 1 else c.trues }
  | .wait => if c.count = 0 then some c else none

/-- A sequence of operations (any interleaving of any threads' operations). -/
def Counter.ops (c : Counter) : List CounterOp → Option Counter
  | [] => some c
  | o :: os => (c.op o).bind (fun c => c.ops os)

theorem Counter.ops_dec (n k : Nat) (d t : Nat) (hk : k ≤ n) :
    Counter.ops { count := n, decs := d, trues := t } (List.replicate k .dec) =
      some { count := n - k, decs := d + k, trues := if k = n ∧ 0 < n then t + 1 else t } := by
  induction k generalizing n d t with
  | zero =>
    simp only [List.replicate, Counter.ops]
    by_cases h0 : 0 < n
    · rw [if_neg (by omega)]; simp
    · rw [if_neg (by omega)]; simp
  | succ k ih =>
    simp only [List.replicate_succ, Counter.ops, Counter.op]
    rw [if_neg (by omega)]
    simp only [Option.bind_some]
    rw [ih (n - 1) _ _ (by omega)]
    have e1 : n - 1 - k = n - (k + 1) := by omega
    have e2 : d + 1 + k = d + (k + 1) := by omega
    rw [e1, e2]
    by_cases h1 : k + 1 = n
    · subst h1
      by_cases h2 : k = 0
      · subst h2; simp
      · rw [if_pos (by omega), if_neg (by omega), if_pos (by omega)]
    · rw [if_neg (by omega), if_neg (by omega), if_neg (by omega)]

/-- **C21.**  After `Reset(n)`: any `k ≤ n` decrements succeed (the count is not driven below
zero), a wait placed after them returns exactly when `k = n`, one more decrement than `n` is
refused by the assertion, and for `n ≥ 1`, exactly one of the `n` decrements (the last in the
order in which they take effect) reports reaching zero. -/
theorem C21_blocking_counter (n k : Nat) (hk : k ≤ n) (c0 : Counter) (h0 : c0.count = 0) :
    ∃ c, c0.ops (.reset n :: List.replicate k .dec) = some c ∧
      c.count = n - k ∧
      ((∃ c', c.op .wait = some c') ↔ k = n) ∧
      ((c.op .dec = none) ↔ k = n) ∧
      (0 < n → c.trues = if k = n then 1 else 0) := by
  refine ⟨{ count := n - k, decs := k, trues := if k = n ∧ 0 < n then 1 else 0 }, ?_, rfl, ?_, ?_, ?_⟩
  · simp only [Counter.ops, Counter.op, h0, if_true, Option.bind_some]
    rw [Counter.ops_dec n k 0 0 hk]; simp
  · simp only [Counter.op]
    constructor
    · rintro ⟨c', h⟩
      split at h
      · omega
      · simp at h
    · intro e; rw [if_pos (by omega)]; exact ⟨_, rfl⟩
  · simp only [Counter.op]
    constructor
    · intro h; split at h
      · omega
      · simp at h
    · intro e; rw [if_pos (by omega)]
  · intro hn; simp only; split <;> split <;> first | rfl | omega

/-- In the pool the counter is used within these rules: its value is always the number of workers
that still have to report plus those the master has not started yet, and when the master's wait
returns, no worker has anything left to report. -/
theorem C21_counter_in_pool (sc : Script ε) (s : State ε) (h : Reachable sc s)
    (hw : s.mpc = .wait ∨ s.mpc = .cwWait) (h0 : s.count = 0) (i : Nat) (hi : i < s.nw) :
    (s.ws i).st = .ready ∧ (s.ws i).task = none := by
  have hI := reachable_inv h
  have hc := hI.cnt
  have ho : owed ((sc.tasks s.call).length - 1) s.nw s.mpc = 0 := by
    rcases hw with e | e <;> simp [e, owed]
  have hp := natSum_eq_zero (n := s.nw) (f := fun j => pend (s.ws j)) (by omega) hi
  have hA := hI.allowed i hi
  have hst : (s.ws i).st = .ready := by
    rcases hw with e | e <;> simp only [e, Allowed] at hA
    · split at hA
      · rcases hA with q | q
        · exact q
        · rw [pend_work q] at hp; simp at hp
      · exact hA.1
    · rcases hA with q | q
      · rw [pend_startup q] at hp; simp at hp
      · exact q
  refine ⟨hst, idle_task ⟨hst, hp⟩ (hI.wok i hi) ?_⟩
  rw [Ne, hI.lockM i hi]
  rcases hw with e | e <;> simp [e, holds]

/-! ## A concrete case -/

/-- Attempt a list of moves. -/
def execute (sc : Script ε) : List Choice → State ε → Option (State ε)
  | [], s => some s
  | c :: cs, s =>
    match step sc s c with
    | .next s' => execute sc cs s'
    | .blocked => execute sc cs s
    | .fault => none

theorem execute_reachable {sc : Script ε} {cs : List Choice} {s s' : State ε}
    (h : Reachable sc s) (e : execute sc cs s = some s') : Reachable sc s' := by
  induction cs generalizing s with
  | nil => simp only [execute, Option.some.injEq] at e; subst e; exact h
  | cons c cs ih =>
    simp only [execute] at e
    split at e
    · next s1 hs => exact ih (.step c h hs) e
    · exact ih h e
    · simp at e

/-- Two calls, with three tasks and one task. -/
def sampleScript : Script Nat := [[[1, 2], [3], [4, 5]], [[6]]]

/-- A schedule with spinning, blocking and spurious wake-ups. -/
def sampleSchedule : List Choice :=
  (List.replicate 60 [.worker 1, .giveUp 0, .master, .worker 0, .spurious 0]).flatten

/-- The hypotheses of the theorems above are met by a run of two calls with two workers that ends
with the destruction of the pool. -/
theorem sample_reachable : ∃ s, Reachable sampleScript s ∧ s.mpc = .done ∧ s.call = 2 ∧ s.nw = 2 ∧
    s.log.length = 6 := by
  have h : ((execute sampleScript sampleSchedule initial).map
      (fun s => (s.mpc, s.call, s.nw, s.log.length))) = some (.done, 2, 2, 6) := by
    decide +kernel
  cases he : execute sampleScript sampleSchedule initial with
  | none => rw [he] at h; simp at h
  | some s =>
    rw [he] at h
    simp only [Option.map_some, Option.some.injEq, Prod.mk.injEq] at h
    exact ⟨s, execute_reachable .init he, h.1, h.2.1, h.2.2.1, h.2.2.2⟩

end Gemmlowp.Pool
