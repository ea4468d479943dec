import Verif.WeakLive
/-!
# Property C68: the worker pool under the C++ memory model

Everything is stated about `Weak.step` and `Weak.Reachable`: executions in which loads of `state_`
and `count_` may see older stores.  The theorems hold for every choice of memory orders in which
the decrement of the counter releases and the load that waits for it acquires (`Orders.code`, the
orders in the source, is one); the other orders make no difference.
-/
namespace Gemmlowp.Weak

open Pool

variable {ε δ : Type} [DecidableEq δ]

/-- The two memory orders that matter. -/
def Orders.Sync (o : Orders) : Prop := o.decRel = true ∧ o.waitAcq = true

/-- **C68**, no data race and no failing assertion: whatever the threads and the client do next,
they do not access ordinary memory without synchronization, no store can be reordered against
another one, and no assertion fails; provided that every call has a task and that the tasks of one
call do not conflict with each other.  (Two accesses conflict if they are to the same location and
one of them writes.  The client may do anything with its memory between calls.) -/
theorem C68_no_race (o : Orders) (ho : o.Sync) (foot : ε → List (δ × Bool)) (sc : Script ε)
    (hsc : ∀ ts ∈ sc, ts ≠ [])
    (hap : ∀ c i j, i ≠ j → ∀ e ∈ sc.prog c i, ∀ e' ∈ sc.prog c j, ∀ x w w',
      (x, w) ∈ foot e → (x, w') ∈ foot e' → w = false ∧ w' = false)
    (a : WState ε δ) (h : Reachable o foot sc a) (c : WChoice δ) :
    step o foot sc a c ≠ .fault ∧ ∀ e, step o foot sc a c ≠ .bad e := by
  obtain ⟨h1, h2⟩ := reachable_ok ho.1 ho.2 hsc hap h
  rcases step_ok ho.1 ho.2 hsc hap (reachable_inv h1) h2 c with e | ⟨a', e, _⟩ <;> rw [e] <;> simp

/-- **C68**, sequential consistency: the states of the pool, its workers and the log of effects
that occur are among those that occur if every load sees the latest store. -/
theorem C68_states_are_sc (o : Orders) (ho : o.Sync) (foot : ε → List (δ × Bool)) (sc : Script ε)
    (hsc : ∀ ts ∈ sc, ts ≠ []) (hap : Apart foot sc) (a : WState ε δ) (h : Reachable o foot sc a) :
    Pool.Reachable sc a.s :=
  (reachable_ok ho.1 ho.2 hsc hap h).1

/-- **C68**, with C17: each task runs exactly once and in order, a call returns only after its
tasks are done, and no task of a later call has begun. -/
theorem C68_each_task_runs_exactly_once (o : Orders) (ho : o.Sync) (foot : ε → List (δ × Bool))
    (sc : Script ε) (hsc : ∀ ts ∈ sc, ts ≠ []) (hap : Apart foot sc) (a : WState ε δ)
    (h : Reachable o foot sc a) (c j : Nat) :
    (c < a.s.call → logOf a.s.log (c, j) = sc.prog c j) ∧
    (a.s.call < c → logOf a.s.log (c, j) = []) ∧
    (logOf a.s.log (c, j) <+: sc.prog c j) :=
  C17_each_task_runs_exactly_once sc a.s (C68_states_are_sc o ho foot sc hsc hap a h) c j

/-- **C68**, visibility: when a call has returned, all that its tasks did has happened before (in
the sense of the memory model) whatever the caller does next: the caller sees the results. -/
theorem C68_results_visible (o : Orders) (ho : o.Sync) (foot : ε → List (δ × Bool)) (sc : Script ε)
    (hsc : ∀ ts ∈ sc, ts ≠ []) (hap : Apart foot sc) (a : WState ε δ) (h : Reachable o foot sc a)
    (hidle : a.s.mpc = .idle) (r : Rec δ) (hr : r ∈ a.m.recs) (k : TaskId) (hk : r.src = .task k) :
    k.1 < a.s.call ∧ r.clk ≤ a.m.C none r.tid := by
  obtain ⟨_, h2⟩ := reachable_ok ho.1 ho.2 hsc hap h
  obtain ⟨_, _, h3⟩ := h2.recs r hr
  simp only [hk] at h3
  rcases h3.2 with ⟨hc, hb⟩ | ⟨_, ⟨_, ha, _⟩ | ⟨_, hs, _⟩⟩
  · exact ⟨hc, hb.1⟩
  · rw [hidle] at ha; exact ha.elim
  · rw [hidle] at hs; exact hs.elim

/-- **C68**, the other way round: what the client did before a call, and what tasks of earlier
calls did, has happened before whatever a worker does while it runs a task. -/
theorem C68_inputs_visible (o : Orders) (ho : o.Sync) (foot : ε → List (δ × Bool)) (sc : Script ε)
    (hsc : ∀ ts ∈ sc, ts ≠ []) (hap : Apart foot sc) (a : WState ε δ) (h : Reachable o foot sc a)
    (i : Nat) (hi : i < a.s.nw) (todo : List ε) (hrun : (a.s.ws i).pc = .running todo)
    (r : Rec δ) (hr : r ∈ a.m.recs)
    (hk : r.src = .client ∨ ∃ k : TaskId, r.src = .task k ∧ k.1 < a.s.call) :
    r.clk ≤ a.m.C (some i) r.tid := by
  obtain ⟨h1, h2⟩ := reachable_ok ho.1 ho.2 hsc hap h
  have hok := (reachable_inv h1).wok i hi
  simp only [WOk, hrun] at hok
  have key : Before a.s a.m r.ep → r.clk ≤ a.m.C (some i) r.tid := fun hb =>
    (Kn_worker hok.1).1 (hb.2 i hi hok.2.2)
  obtain ⟨_, _, h3⟩ := h2.recs r hr
  rcases hk with hk | ⟨k, hk, hc⟩ <;> simp only [hk] at h3
  · exact key h3.2
  · rcases h3.2 with ⟨_, hb⟩ | ⟨hc', _⟩
    · exact key hb
    · omega

/-- **C68**, destruction: when the pool has been destroyed everything that any of its threads did
has happened before what the client does next. -/
theorem C68_all_visible_after_destruction (o : Orders) (ho : o.Sync) (foot : ε → List (δ × Bool))
    (sc : Script ε) (hsc : ∀ ts ∈ sc, ts ≠ []) (hap : Apart foot sc) (a : WState ε δ)
    (h : Reachable o foot sc a) (hdone : a.s.mpc = .done) (r : Rec δ) (hr : r ∈ a.m.recs) :
    r.clk ≤ a.m.C none r.tid := by
  obtain ⟨_, h2⟩ := reachable_ok ho.1 ho.2 hsc hap h
  obtain ⟨h3, h4, _⟩ := h2.recs r hr
  cases ht : r.tid with
  | none => rw [ht] at h3; simp only [K, Rec.ep, ht] at h3; exact h3
  | some i =>
    have := h2.joined i (h4 i ht) (by rw [hdone]; trivial)
    rw [ht] at h3
    simp only [K, Rec.ep, ht] at h3
    omega

/-! ### Termination -/

/-- An infinite execution: at each time somebody attempts a move, which either happens or changes
nothing. -/
structure Run (o : Orders) (foot : ε → List (δ × Bool)) (sc : Script ε) (σ : Nat → WState ε δ)
    (who : Nat → WChoice δ) : Prop where
  start : σ 0 = initial
  move : ∀ n, step o foot sc (σ n) (who n) = .next (σ (n + 1)) ∨
    (step o foot sc (σ n) (who n) = .blocked ∧ σ (n + 1) = σ n)

/-- Every thread is scheduled, and sees the newest store, again and again (C++ only promises the
second in the form of a recommendation, [atomics.order]). -/
structure Fair (who : Nat → WChoice δ) : Prop where
  master : ∀ n, ∃ m, n ≤ m ∧ who m = .master 0
  worker : ∀ i n, ∃ m, n ≤ m ∧ who m = .worker i 0

/-- Spurious wake-ups come to an end. -/
def FinitelySpurious (who : Nat → WChoice δ) : Prop := ∃ n, ∀ m, n ≤ m → ∀ i, who m ≠ .spurious i

theorem Run.reachable {o : Orders} {foot : ε → List (δ × Bool)} {sc : Script ε}
    {σ : Nat → WState ε δ} {who : Nat → WChoice δ} (h : Run o foot sc σ who) (n : Nat) :
    Reachable o foot sc (σ n) := by
  induction n with
  | zero => rw [h.start]; exact .init
  | succ n ih =>
    rcases h.move n with e | ⟨_, e⟩
    · exact .step _ ih e
    · rw [e]; exact ih

/-- **C68**, termination: in every fair execution all the calls return and the destructor of the
pool completes. -/
theorem C68_fair_runs_terminate (o : Orders) (ho : o.Sync) (foot : ε → List (δ × Bool))
    (sc : Script ε) (hsc : ∀ ts ∈ sc, ts ≠ []) (hap : Apart foot sc) (σ : Nat → WState ε δ)
    (who : Nat → WChoice δ) (h : Run o foot sc σ who) (hf : Fair who)
    (hs : FinitelySpurious who) : ∃ n, (σ n).s.mpc = .done ∧ (σ n).s.call = sc.length := by
  classical
  -- the execution of the sequentially consistent pool
  let moves : Nat → Choice → Prop := fun n c =>
    Pool.step sc (σ n).s c = .next (σ (n + 1)).s ∨
      (Pool.step sc (σ n).s c = .blocked ∧ (σ (n + 1)).s = (σ n).s)
  let who' : Nat → Choice := fun n =>
    match (who n).sc with
    | some c => if moves n c then c else .giveUp (σ n).s.nw
    | none => .giveUp (σ n).s.nw
  have hok := fun n => reachable_ok ho.1 ho.2 hsc hap (h.reachable n)
  have hpos := fun n => posOk_reachable (h.reachable n)
  have hidle : ∀ n, Pool.step sc (σ n).s (.giveUp (σ n).s.nw) = .blocked := by
    intro n; simp [Pool.step]
  have hmove : ∀ n, moves n (who' n) := by
    intro n
    have hstut : (∀ c, (who n).sc = some c → ¬ moves n c) → (σ (n + 1)).s = (σ n).s := by
      intro hno
      rcases h.move n with e | ⟨_, e⟩
      · rcases step_ok ho.1 ho.2 hsc hap (reachable_inv (hok n).1) (hok n).2 (who n) with
          e' | ⟨a', e', e1, _⟩
        · rw [e'] at e; simp at e
        · rw [e'] at e
          simp only [WOut.next.injEq] at e
          subst e
          rcases e1 with ⟨c', hc', e1⟩ | e1
          · exact absurd (.inl e1) (hno c' hc')
          · exact e1
      · rw [e]
    simp only [who']
    cases hc : (who n).sc with
    | none => exact .inr ⟨hidle n, hstut (by rw [hc]; simp)⟩
    | some c =>
      dsimp only
      by_cases hmv : moves n c
      · rw [if_pos hmv]; exact hmv
      · rw [if_neg hmv]
        exact .inr ⟨hidle n, hstut (by rw [hc]; intro c' e; injection e with e; subst e; exact hmv)⟩
  have hfin : ∀ n t l (out : Out ε),
      (finish (σ n).m t l out = .next (σ (n + 1)) ∨
        (finish (σ n).m t l out = .blocked ∧ σ (n + 1) = σ n)) →
      out = .next (σ (n + 1)).s ∨ (out = .blocked ∧ (σ (n + 1)).s = (σ n).s) := by
    intro n t l out hh
    cases out with
    | blocked =>
      rcases hh with e | ⟨_, e⟩
      · simp [finish] at e
      · exact .inr ⟨rfl, by rw [e]⟩
    | fault => simp [finish] at hh
    | next s' =>
      simp only [finish] at hh
      split at hh
      · simp at hh
      · rcases hh with e | ⟨e, _⟩
        · simp only [WOut.next.injEq] at e; rw [← e]; exact .inl rfl
        · simp at e
  have hmaster : ∀ n, who n = .master 0 → who' n = .master := by
    intro n hn
    have hmv : moves n .master := by
      have := h.move n
      rw [hn, newest_master (reachable_inv (hok n).1) (hok n).2 (hpos n)] at this
      exact hfin n _ _ _ this
    simp only [who', hn, WChoice.sc, if_pos hmv]
  have hworker : ∀ n i, who n = .worker i 0 → who' n = .worker i := by
    intro n i hn
    have hmv : moves n (.worker i) := by
      have hh := h.move n
      rw [hn] at hh
      by_cases hi : i < (σ n).s.nw
      · rw [newest_worker (hok n).2 (hpos n) hi] at hh
        exact hfin n _ _ _ hh
      · simp only [step, hi, false_and, if_false, reduceCtorEq, true_and, false_or] at hh
        exact .inr ⟨by simp [Pool.step, hi], by rw [hh]⟩
    simp only [who', hn, WChoice.sc, if_pos hmv]
  refine C18_fair_runs_terminate sc hsc (fun n => (σ n).s) who' ⟨?_, hmove⟩ ⟨?_, ?_⟩ ?_
    |>.imp (fun n hn => hn)
  · show (σ 0).s = _
    rw [h.start]; rfl
  · intro n
    obtain ⟨m, hm, e⟩ := hf.master n
    exact ⟨m, hm, hmaster m e⟩
  · intro i n
    obtain ⟨m, hm, e⟩ := hf.worker i n
    exact ⟨m, hm, hworker m i e⟩
  · obtain ⟨n, hn⟩ := hs
    refine ⟨n, fun m hm i e => ?_⟩
    have hns := hn m hm
    simp only [who'] at e
    cases hw : who m <;> simp only [hw, WChoice.sc] at e hns
    all_goals first
      | exact (hns _ rfl).elim
      | (split at e <;> simp at e)
      | simp at e

/-- The execution determined by a sequence of attempted moves. -/
noncomputable def follow (o : Orders) (foot : ε → List (δ × Bool)) (sc : Script ε)
    (who : Nat → WChoice δ) : Nat → WState ε δ
  | 0 => initial
  | n + 1 =>
    match step o foot sc (follow o foot sc who n) (who n) with
    | .next a => a
    | _ => follow o foot sc who n

/-- Every sequence of attempted moves is an execution, and there are fair ones. -/
theorem C68_fair_runs_exist (o : Orders) (ho : o.Sync) (foot : ε → List (δ × Bool))
    (sc : Script ε) (hsc : ∀ ts ∈ sc, ts ≠ []) (hap : Apart foot sc) :
    ∃ σ who, Run o foot sc σ who ∧ Fair who ∧ FinitelySpurious who := by
  obtain ⟨who, hf, n, hn⟩ := fair_exists
  let w : Nat → WChoice δ := fun n =>
    match who n with
    | .master => .master 0
    | .worker i => .worker i 0
    | .giveUp i => .giveUp i
    | .spurious i => .spurious i
  refine ⟨follow o foot sc w, w, ⟨rfl, fun n => ?_⟩, ⟨fun n => ?_, fun i n => ?_⟩, n, fun m hm i => ?_⟩
  · have key : ∀ n, Reachable o foot sc (follow o foot sc w n) →
        step o foot sc (follow o foot sc w n) (w n) = .next (follow o foot sc w (n + 1)) ∨
        (step o foot sc (follow o foot sc w n) (w n) = .blocked ∧
          follow o foot sc w (n + 1) = follow o foot sc w n) := by
      intro n hr
      have hnf := C68_no_race o ho foot sc hsc hap _ hr (w n)
      cases hst : step o foot sc (follow o foot sc w n) (w n) with
      | blocked => right; exact ⟨rfl, by simp only [follow, hst]⟩
      | fault => exact absurd hst hnf.1
      | bad e => exact absurd hst (hnf.2 e)
      | next s => left; simp only [follow, hst]
    have hr : ∀ n, Reachable o foot sc (follow o foot sc w n) := by
      intro n
      induction n with
      | zero => exact .init
      | succ n ih =>
        rcases key n ih with e | ⟨_, e⟩
        · exact .step _ ih e
        · rw [e]; exact ih
    exact key n (hr n)
  · obtain ⟨m, hm, e⟩ := hf.master n
    exact ⟨m, hm, by simp only [w, e]⟩
  · obtain ⟨m, hm, e⟩ := hf.worker i n
    exact ⟨m, hm, by simp only [w, e]⟩
  · have := hn m hm i
    simp only [w]
    cases hw : who m with
    | spurious j => rw [hw] at this; simpa using this
    | _ => simp

/-! ### Examples -/

/-- A sequence of moves. -/
def exec (o : Orders) (foot : ε → List (δ × Bool)) (sc : Script ε) :
    WState ε δ → List (WChoice δ) → WOut ε δ
  | a, [] => .next a
  | a, c :: cs =>
    match step o foot sc a c with
    | .next a' => exec o foot sc a' cs
    | r => r

theorem exec_reachable {o : Orders} {foot : ε → List (δ × Bool)} {sc : Script ε} {a a' : WState ε δ}
    (h : Reachable o foot sc a) {cs : List (WChoice δ)} (he : exec o foot sc a cs = .next a') :
    Reachable o foot sc a' := by
  induction cs generalizing a with
  | nil => simp only [exec, WOut.next.injEq] at he; rw [← he]; exact h
  | cons c cs ih =>
    simp only [exec] at he
    split at he
    · next hs => exact ih (.step c h hs) he
    · next hs => exact absurd he (by intro q; exact hs _ q)

/-- Two tasks: the worker's stores to location 0, the master's to location 1. -/
def twoTasks : Script Nat := [[[0], [1]]]

/-- Each effect stores to one location. -/
def storesTo (e : Nat) : List (Nat × Bool) := [(e, true)]

/-- The hypotheses of the theorems hold of `twoTasks`. -/
theorem twoTasks_apart : (∀ ts ∈ twoTasks, ts ≠ []) ∧ Apart storesTo twoTasks := by
  refine ⟨by simp [twoTasks], ?_⟩
  have hp : ∀ c k e, e ∈ twoTasks.prog c k → e = k := by
    intro c k e he
    rcases c with _ | c
    · rcases k with _ | _ | k <;> simp [twoTasks, Script.prog, Script.tasks] at he ⊢ <;> exact he
    · simp [twoTasks, Script.prog, Script.tasks] at he
  intro c i j hij e he e' he' x w w' hx hx'
  simp only [storesTo, List.mem_singleton, Prod.mk.injEq] at hx hx'
  have h1 := hp c i e he
  have h2 := hp c j e' he'
  omega

/-- The client writes location 0, the call runs, the client reads location 0. -/
def wholeCall : List (WChoice Nat) :=
  [.client 0 true] ++ List.replicate 5 (.master 0) ++ List.replicate 6 (.worker 0 0) ++
  List.replicate 6 (.master 0) ++ List.replicate 9 (.worker 0 0) ++ List.replicate 4 (.master 0) ++
  [.client 0 false]

/-- What comes of a sequence of moves: what is wrong, or the number of calls that have returned and
the stores. -/
def summary : WOut Nat Nat → Option (Option Bad × Nat × List Nat)
  | .next a => some (none, a.s.call, a.s.log.map Prod.snd)
  | .bad e => some (some e, 0, [])
  | _ => none

/-- With the memory orders of the code, the call runs and returns. -/
theorem wholeCall_runs :
    summary (exec Orders.code storesTo twoTasks initial wholeCall) = some (none, 1, [0, 1]) := by
  decide +kernel

/-- A worker that does not see that it has been given work yet: the newest `state_` is `HasWork`,
and it reads the `Ready` before. -/
theorem stale_read_possible : ∃ a : WState Nat Nat, Reachable Orders.code storesTo twoTasks a ∧
    valAt .ready (a.m.sh 0) 0 = .hasWork ∧
    ∃ a', step Orders.code storesTo twoTasks a (.worker 0 1) = .next a' ∧
      (a'.s.ws 0).pc = .spin := by
  have key : (match exec Orders.code storesTo twoTasks initial (wholeCall.take 17) with
      | .next a => decide (valAt .ready (a.m.sh 0) 0 = .hasWork) &&
        (match step Orders.code storesTo twoTasks a (.worker 0 1) with
         | .next a' => decide ((a'.s.ws 0).pc = .spin)
         | _ => false)
      | _ => false) = true := by decide +kernel
  split at key
  · next a he =>
    simp only [Bool.and_eq_true, decide_eq_true_eq] at key
    obtain ⟨k1, k2⟩ := key
    refine ⟨a, exec_reachable .init he, k1, ?_⟩
    split at k2
    · next a' hs => exact ⟨a', hs, by simpa using k2⟩
    · simp at k2
  · simp at key

/-- **C68**, both orders are needed: without the release in `DecrementCount` (166) the client's
access to what a worker has written is a data race, although the call has returned. -/
theorem C68_needs_release : ∃ (o : Orders) (a : WState Nat Nat) (c : WChoice Nat),
    o = { Orders.code with decRel := false } ∧ Reachable o storesTo twoTasks a ∧
    a.s.mpc = .idle ∧ a.s.call = 1 ∧ step o storesTo twoTasks a c = .bad .race := by
  have key : (match exec { Orders.code with decRel := false } storesTo twoTasks initial
        (wholeCall.take 31) with
      | .next a => decide (a.s.mpc = .idle) && decide (a.s.call = 1) &&
        (match step { Orders.code with decRel := false } storesTo twoTasks a (.client 0 false) with
         | .bad .race => true
         | _ => false)
      | _ => false) = true := by decide +kernel
  split at key
  · next a he =>
    simp only [Bool.and_eq_true, decide_eq_true_eq] at key
    obtain ⟨⟨k1, k2⟩, k3⟩ := key
    refine ⟨_, a, .client 0 false, rfl, exec_reachable .init he, k1, k2, ?_⟩
    split at k3
    · next hs => exact hs
    · simp at k3
  · simp at key

/-- … and so it is without the acquire in `Wait` (178). -/
theorem C68_needs_acquire : ∃ (o : Orders) (a : WState Nat Nat) (c : WChoice Nat),
    o = { Orders.code with waitAcq := false } ∧ Reachable o storesTo twoTasks a ∧
    a.s.mpc = .idle ∧ a.s.call = 1 ∧ step o storesTo twoTasks a c = .bad .race := by
  have key : (match exec { Orders.code with waitAcq := false } storesTo twoTasks initial
        (wholeCall.take 31) with
      | .next a => decide (a.s.mpc = .idle) && decide (a.s.call = 1) &&
        (match step { Orders.code with waitAcq := false } storesTo twoTasks a (.client 0 false) with
         | .bad .race => true
         | _ => false)
      | _ => false) = true := by decide +kernel
  split at key
  · next a he =>
    simp only [Bool.and_eq_true, decide_eq_true_eq] at key
    obtain ⟨⟨k1, k2⟩, k3⟩ := key
    refine ⟨_, a, .client 0 false, rfl, exec_reachable .init he, k1, k2, ?_⟩
    split at k3
    · next hs => exact hs
    · simp at k3
  · simp at key

end Gemmlowp.Weak
