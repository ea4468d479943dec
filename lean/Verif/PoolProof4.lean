import Verif.PoolProof3
/-!
# The pool: reachable states, progress and the decreasing measure
-/
namespace Gemmlowp.Pool

variable {ε : Type}

theorem mstep_nofault {sc : Script ε} {s : State ε} (h : Inv sc s) (hsc : ∀ ts ∈ sc, ts ≠ []) :
    mstep sc s ≠ .fault := by
  have hph := h.phase
  unfold mstep
  unfold Phase at hph
  dsimp only at hph ⊢
  split <;> rename_i hm <;> simp only [hm] at hph
  · split
    · next hc =>
      have : sc.tasks s.call ≠ [] := by
        unfold Script.tasks
        rw [List.getD_eq_getElem?_getD, List.getElem?_eq_getElem hc]
        exact hsc _ (List.getElem_mem hc)
      simp [this]
    · simp
  · simp
  · rw [if_neg (by omega)]; simp
  · split <;> simp
  · split <;> simp
  · rw [if_neg (by omega), if_neg (by omega)]; simp
  · split
    · split <;> simp
    · simp
  · next i =>
    have hA := h.allowed i (by omega)
    simp only [hm, Allowed, Nat.lt_irrefl, if_false] at hA
    rw [hA.1.1, hA.2 trivial]; simp
  · simp
  · simp
  · simp
  · simp
  · split <;> simp
  · split
    · split <;> simp
    · simp
  · next i =>
    have hA := h.allowed i (by omega)
    simp only [hm, Allowed, Nat.lt_irrefl, if_false] at hA
    rw [hA.1.1]; simp
  · simp
  · simp
  · split <;> simp
  · simp

theorem step_inv {sc : Script ε} {s s' : State ε} {c : Choice} (h : Inv sc s)
    (hs : step sc s c = .next s') : Inv sc s' := by
  cases c with
  | master => exact mstep_inv h hs
  | worker i =>
    simp only [step] at hs
    split at hs
    · next hi => exact wstep_inv h hi hs
    · simp at hs
  | giveUp i =>
    simp only [step] at hs
    split at hs
    · next hi =>
      have hw := h.wok i hi
      split at hs
      · next hpc =>
        injection hs with hs; subst hs
        simp only [WOk, hpc] at hw
        refine inv_move h hi ?_ Iff.rfl (pend_same rfl ?_ ?_ ?_ ?_) ?_
          (wrem_move rfl ?_ ?_) <;> simp [hpc]
        simpa [WOk, Quiet] using hw
      · simp at hs
    · simp at hs
  | spurious i =>
    simp only [step] at hs
    split at hs
    · next hi =>
      have hw := h.wok i hi
      split at hs
      · next hpc =>
        injection hs with hs; subst hs
        simp only [WOk, hpc] at hw
        refine inv_move h hi ?_ Iff.rfl (pend_same rfl ?_ ?_ ?_ ?_) ?_
          (wrem_move rfl ?_ ?_) <;> simp [hpc]
        simpa [WOk, Quiet] using ⟨hw.1, hw.2.1⟩
      · simp at hs
    · simp at hs

theorem step_nofault {sc : Script ε} {s : State ε} (h : Inv sc s) (hsc : ∀ ts ∈ sc, ts ≠ [])
    (c : Choice) : step sc s c ≠ .fault := by
  cases c with
  | master => exact mstep_nofault h hsc
  | worker i =>
    simp only [step]; split
    · next hi => exact wstep_nofault h hi
    · simp
  | giveUp i =>
    simp only [step]
    split
    · split <;> simp
    · simp
  | spurious i =>
    simp only [step]
    split
    · split <;> simp
    · simp

theorem reachable_inv {sc : Script ε} {s : State ε} (h : Reachable sc s) : Inv sc s := by
  induction h with
  | init => exact inv_initial sc
  | step c _ hs ih => exact step_inv ih hs

/-! ### The measure -/

/-- Number of effects of the task a worker has. -/
def taskLen (w : Worker ε) : Nat :=
  match w.task with
  | none => 0
  | some (_, p) => p.length

/-- Moves a worker can still make, as long as nobody wakes it up. -/
def wMeas (w : Worker ε) : Nat :=
  match w.pc with
  | .unlockReady => 6
  | .decrement => 5
  | .storeReady => 7
  | .running es => 8 + es.length
  | .inReady => 9 + taskLen w
  | .lockReady => 10 + taskLen w
  | .act .hasWork => 11 + taskLen w
  | .unlockWait .hasWork => 12 + taskLen w
  | .act _ => 1
  | .unlockWait _ => 2
  | .exited => 0
  | .waiting => 1
  | .checkWait =>
    match w.st with | .hasWork => 13 + taskLen w | .exit => 3 | _ => 2
  | .lockWait =>
    match w.st with | .hasWork => 14 + taskLen w | .exit => 4 | _ => 3
  | .woken =>
    match w.st with | .hasWork => 14 + taskLen w | .exit => 4 | _ => 3
  | .spin =>
    match w.st with | .hasWork => 15 + taskLen w | .exit => 5 | _ => 4

/-- Sum of the lengths of the tasks of a call, with an allowance for each. -/
def workLeft (sc : Script ε) (c i n : Nat) : Nat :=
  natSum (n - i) (fun k => (sc.prog c (i + k)).length + 40)

/-- Moves of call `c` from `StartWork` of worker `i` on. -/
def fromStart (sc : Script ε) (c i : Nat) : Nat :=
  workLeft sc c i ((sc.tasks c).length - 1) + (sc.prog c ((sc.tasks c).length - 1)).length + 10

/-- All the moves of calls `c`, `c + 1`, … -/
def callsLeft (sc : Script ε) (c : Nat) : Nat :=
  natSum (sc.length - c) (fun k =>
    fromStart sc (c + k) 0 + 40 * ((sc.tasks (c + k)).length - 1) + 20)

/-- Moves the master can still make. -/
def mMeas (sc : Script ε) (s : State ε) : Nat :=
  let n := (sc.tasks s.call).length - 1
  let later := callsLeft sc (s.call + 1) + 20 * s.nw + 10
  match s.mpc with
  | .idle => callsLeft sc s.call + 20 * s.nw + 10
  | .cwCheck => fromStart sc s.call 0 + 40 * (n - s.nw) + 5 + later
  | .cwReset => fromStart sc s.call 0 + 40 * (n - s.nw) + 4 + later
  | .cwCreate => fromStart sc s.call 0 + 40 * (n - s.nw) + 3 + later
  | .cwWait => fromStart sc s.call 0 + 2 + later
  | .reset => fromStart sc s.call 0 + 1 + later
  | .swLock i => fromStart sc s.call i + later
  | .swSet i => fromStart sc s.call i - 1 + later
  | .swStore i => fromStart sc s.call i - 2 + later
  | .swUnlock i => fromStart sc s.call (i + 1) + 1 + later
  | .run es => es.length + 5 + later
  | .wait => 4 + later
  | .dLock i => 20 * (s.nw - i) + 5
  | .dSet i => 20 * (s.nw - i) + 4
  | .dStore i => 20 * (s.nw - i) + 3
  | .dUnlock i => 20 * (s.nw - i) - 10
  | .dJoin i => 20 * (s.nw - i) - 11
  | .done => 0

/-- A bound on the number of moves still to come. -/
def meas (sc : Script ε) (s : State ε) : Nat :=
  natSum s.nw (fun j => wMeas (s.ws j)) + mMeas sc s

/-- Replacing worker `i`. -/
theorem meas_setW {s s' : State ε} {i : Nat} (hi : i < s.nw) (en : s'.nw = s.nw)
    (ew : ∀ j, j ≠ i → s'.ws j = s.ws j) :
    natSum s'.nw (fun j => wMeas (s'.ws j)) + wMeas (s.ws i) =
      natSum s.nw (fun j => wMeas (s.ws j)) + wMeas (s'.ws i) := by
  rw [en]
  exact natSum_upd (n := s.nw) (f := fun j => wMeas (s.ws j)) (g := fun j => wMeas (s'.ws j)) hi
    (by intro j hj; simp only [ew j hj])

theorem wstep_frame {s s' : State ε} {i : Nat} (hs : wstep s i = .next s') :
    s'.mpc = s.mpc ∧ s'.call = s.call ∧ s'.nw = s.nw ∧ ∀ j, j ≠ i → s'.ws j = s.ws j := by
  unfold wstep at hs
  dsimp only at hs
  split at hs <;> (try split at hs) <;> (try split at hs) <;> (try injection hs with hs) <;>
    (try subst hs) <;> simp_all [State.setW]

/-- A move of a worker changes nothing or decreases the worker's measure. -/
theorem wstep_meas {sc : Script ε} {s s' : State ε} (h : Inv sc s) {i : Nat} (hi : i < s.nw)
    (hs : wstep s i = .next s') : s' = s ∨ wMeas (s'.ws i) < wMeas (s.ws i) := by
  have hw := h.wok i hi
  unfold wstep at hs
  unfold WOk at hw
  dsimp only at hs
  split at hs <;> rename_i hpc <;> simp only [hpc] at hw
  · split at hs
    · injection hs with hs; subst hs; right; simp [wMeas, hpc, State.setW, taskLen]
    · simp at hs
  · split at hs
    · simp at hs
    · simp at hs
    · split at hs
      · injection hs with hs; subst hs; right; simp only [wMeas, hpc, State.setW, if_true]; omega
      · next htk =>
        injection hs with hs; subst hs; right
        simp only [wMeas, hpc, State.setW, if_true, taskLen, htk]; omega
  · injection hs with hs; subst hs; right; simp [wMeas, hpc, State.setW]
  · split at hs
    · simp at hs
    · injection hs with hs; subst hs; right; simp [wMeas, hpc, State.setW]
  · injection hs with hs; subst hs; right; simp [wMeas, hpc, State.setW]
  · injection hs with hs; subst hs; right; simp [wMeas, hpc, State.setW]
  · split at hs
    · simp at hs
    · injection hs with hs; subst hs; right; simp [wMeas, hpc, State.setW, hw.2.2]
  · split at hs
    · injection hs with hs; exact .inl hs.symm
    · next v hv =>
      injection hs with hs; subst hs; right
      simp only [wMeas, hpc, State.setW, if_true]
      cases hst : (s.ws i).st <;> simp_all [Quiet, taskLen]
  · split at hs
    · injection hs with hs; subst hs; right
      simp only [wMeas, hpc, State.setW, if_true]
      cases hst : (s.ws i).st <;> simp [taskLen]
    · simp at hs
  · split at hs
    · next hst =>
      injection hs with hs; subst hs; right
      simp [wMeas, hpc, State.setW, hst]
    · next v hv =>
      injection hs with hs; subst hs; right
      simp only [wMeas, hpc, State.setW, if_true]
      cases hst : (s.ws i).st <;> simp_all [Quiet, taskLen]
  · simp at hs
  · split at hs
    · injection hs with hs; subst hs; right
      simp only [wMeas, hpc, State.setW, if_true]
      cases hst : (s.ws i).st <;> simp [taskLen]
    · simp at hs
  · next v =>
    injection hs with hs; subst hs; right
    simp only [wMeas, hpc, State.setW, if_true]
    cases v <;> simp [taskLen]
  · injection hs with hs; subst hs; right; simp [wMeas, hpc, State.setW, taskLen]
  · injection hs with hs; subst hs; right; simp [wMeas, hpc, State.setW]
  · simp at hs
  · simp at hs

theorem fromStart_succ {sc : Script ε} {c i : Nat} (hi : i < (sc.tasks c).length - 1) :
    fromStart sc c i = fromStart sc c (i + 1) + (sc.prog c i).length + 40 := by
  unfold fromStart workLeft
  have e : (sc.tasks c).length - 1 - i = ((sc.tasks c).length - 1 - (i + 1)) + 1 := by omega
  rw [e]
  have shift : ∀ (m : Nat) (f : Nat → Nat), natSum (m + 1) f = f 0 + natSum m (fun k => f (k + 1)) := by
    intro m f
    induction m with
    | zero => simp [natSum]
    | succ m ih => rw [natSum, ih]; simp only [natSum]; omega
  rw [shift]
  simp only [Nat.add_zero]
  rw [natSum_congr (f := fun k => (sc.prog c (i + (k + 1))).length + 40)
    (g := fun k => (sc.prog c (i + 1 + k)).length + 40)
    (fun k _ => by rw [show i + (k + 1) = i + 1 + k by omega])]
  omega

theorem callsLeft_succ {sc : Script ε} {c : Nat} (hc : c < sc.length) :
    callsLeft sc c =
      fromStart sc c 0 + 40 * ((sc.tasks c).length - 1) + 20 + callsLeft sc (c + 1) := by
  unfold callsLeft
  have e : sc.length - c = (sc.length - (c + 1)) + 1 := by omega
  rw [e]
  have shift : ∀ (m : Nat) (f : Nat → Nat), natSum (m + 1) f = f 0 + natSum m (fun k => f (k + 1)) := by
    intro m f
    induction m with
    | zero => simp [natSum]
    | succ m ih => rw [natSum, ih]; simp only [natSum]; omega
  rw [shift]
  simp only [Nat.add_zero]
  rw [natSum_congr
    (f := fun k => fromStart sc (c + (k + 1)) 0 + 40 * ((sc.tasks (c + (k + 1))).length - 1) + 20)
    (g := fun k => fromStart sc (c + 1 + k) 0 + 40 * ((sc.tasks (c + 1 + k)).length - 1) + 20)
    (fun k _ => by rw [show c + (k + 1) = c + 1 + k by omega])]

/-- A move of the master changes nothing or decreases the measure. -/
theorem mstep_meas {sc : Script ε} {s s' : State ε} (h : Inv sc s)
    (hs : mstep sc s = .next s') : s' = s ∨ meas sc s' < meas sc s := by
  have hph := h.phase
  unfold mstep at hs
  unfold Phase at hph
  dsimp only at hs hph
  split at hs <;> rename_i hm <;> simp only [hm] at hph
  -- idle
  · split at hs
    · next hc =>
      split at hs
      · simp at hs
      · injection hs with hs; subst hs; right
        simp only [meas, mMeas, hm]
        rw [callsLeft_succ hc]; omega
    · injection hs with hs; subst hs; right
      simp only [meas, mMeas, hm]; omega
  -- cwCheck
  · injection hs with hs; subst hs; right
    simp only [meas, mMeas, hm]
    split <;> (rename_i hq; split at hq <;> simp_all) <;> omega
  -- cwReset
  · split at hs
    · simp at hs
    · injection hs with hs; subst hs; right
      simp only [meas, mMeas, hm]; omega
  -- cwCreate
  · split at hs
    · next hlt =>
      injection hs with hs; subst hs; right
      have e : natSum s.nw (fun j => wMeas ((s.setW s.nw newWorker).ws j)) =
          natSum s.nw (fun j => wMeas (s.ws j)) :=
        natSum_congr (fun j hj => by simp only [State.setW]; rw [if_neg (by omega)])
      have e2 : wMeas ((s.setW s.nw newWorker).ws s.nw) = 10 := by
        simp [State.setW, newWorker, wMeas, taskLen]
      simp only [meas, natSum, e, e2]
      simp only [mMeas, State.setW, hm]; omega
    · injection hs with hs; subst hs; right
      simp only [meas, mMeas, hm]; omega
  -- cwWait
  · split at hs
    · injection hs with hs; subst hs; right
      simp only [meas, mMeas, hm]; omega
    · injection hs with hs; exact .inl hs.symm
  -- reset
  · split at hs
    · simp at hs
    · split at hs
      · simp at hs
      · injection hs with hs; subst hs; right
        simp only [meas, mMeas, hm]; omega
  -- swLock
  · next i =>
    split at hs
    · next hin =>
      split at hs
      · injection hs with hs; subst hs; right
        have hi : i < s.nw := by omega
        have e := meas_setW (s := s) (s' := { s.setW i { s.ws i with lock := some .master } with
          mpc := .swSet i }) hi rfl (by intro j hj; simp [State.setW, hj])
        have e2 : wMeas (({ s.setW i { s.ws i with lock := some .master } with
          mpc := .swSet i } : State ε).ws i) = wMeas (s.ws i) := by
          simp only [State.setW, if_true]; rfl
        have : 0 < fromStart sc s.call i := by unfold fromStart; omega
        unfold meas
        simp only [mMeas, State.setW, hm] at e e2 ⊢
        omega
      · simp at hs
    · injection hs with hs; subst hs; right
      simp only [meas, mMeas, hm, fromStart]; omega
  -- swSet
  · next i =>
    have hi : i < s.nw := by omega
    have hA := h.allowed i hi
    simp only [hm, Allowed, Nat.lt_irrefl, if_false] at hA
    have hlk : (s.ws i).lock = some .master := by rw [h.lockM i hi, hm]; rfl
    have hpc := idle_lock hA.1 (h.wok i hi) hlk
    split at hs
    · next hst =>
      split at hs
      · simp at hs
      · injection hs with hs; subst hs; right
        have e := meas_setW (s := s) (s' := { s.setW i { s.ws i with
          task := some ((s.call, i), sc.prog s.call i) } with mpc := .swStore i }) hi rfl
          (by intro j hj; simp [State.setW, hj])
        have e2 : wMeas (({ s.setW i { s.ws i with
          task := some ((s.call, i), sc.prog s.call i) } with mpc := .swStore i } : State ε).ws i) =
            wMeas (s.ws i) := by
          simp only [State.setW, if_true, wMeas, hst]
          rcases hpc with q | q | q | q <;> simp [q]
        have := fromStart_succ (sc := sc) (c := s.call) (i := i) (by omega)
        unfold meas
        simp only [mMeas, State.setW, hm] at e e2 ⊢
        omega
    · simp at hs
  -- swStore
  · next i =>
    injection hs with hs; subst hs; right
    have hi : i < s.nw := by omega
    have hA := h.allowed i hi
    simp only [hm, Allowed, Nat.lt_irrefl, if_false] at hA
    obtain ⟨hI, htk⟩ := hA
    replace htk := htk trivial
    have hlk : (s.ws i).lock = some .master := by rw [h.lockM i hi, hm]; rfl
    have hpc := idle_lock hI (h.wok i hi) hlk
    have e := meas_setW (s := s) (s' := { s.setW i { s.ws i with st := .hasWork }.wake with
      mpc := .swUnlock i }) hi rfl (by intro j hj; simp [State.setW, hj])
    have htl : taskLen (s.ws i) = (sc.prog s.call i).length := by
      cases hx : (s.ws i).task with
      | none => exact absurd hx htk
      | some x =>
        have := h.task i hi x hx
        subst this
        simp [taskLen, hx]
    have e2 : wMeas (({ s.setW i { s.ws i with st := .hasWork }.wake with
      mpc := .swUnlock i } : State ε).ws i) ≤ 15 + (sc.prog s.call i).length := by
      rw [← htl]
      simp only [State.setW, if_true, Worker.wake]
      rcases hpc with q | q | q | q <;> simp [q, wMeas, taskLen]
    have := fromStart_succ (sc := sc) (c := s.call) (i := i) (by omega)
    unfold meas
    simp only [mMeas, State.setW, hm] at e e2 ⊢
    omega
  -- swUnlock
  · next i =>
    injection hs with hs; subst hs; right
    have hi : i < s.nw := by omega
    have e := meas_setW (s := s) (s' := { s.setW i { s.ws i with lock := none } with
      mpc := .swLock (i + 1) }) hi rfl (by intro j hj; simp [State.setW, hj])
    have e2 : wMeas (({ s.setW i { s.ws i with lock := none } with
      mpc := .swLock (i + 1) } : State ε).ws i) = wMeas (s.ws i) := by
      simp only [State.setW, if_true]; rfl
    unfold meas
    simp only [mMeas, State.setW, hm] at e e2 ⊢
    omega
  -- run []
  · injection hs with hs; subst hs; right
    simp only [meas, mMeas, hm, List.length_nil]; omega
  -- run (e :: es)
  · injection hs with hs; subst hs; right
    simp only [meas, mMeas, hm, List.length_cons]; omega
  -- wait
  · split at hs
    · injection hs with hs; subst hs; right
      simp only [meas, mMeas, hm]; omega
    · injection hs with hs; exact .inl hs.symm
  -- dLock
  · next i =>
    split at hs
    · next hi =>
      split at hs
      · injection hs with hs; subst hs; right
        have e := meas_setW (s := s) (s' := { s.setW i { s.ws i with lock := some .master } with
          mpc := .dSet i }) hi rfl (by intro j hj; simp [State.setW, hj])
        have e2 : wMeas (({ s.setW i { s.ws i with lock := some .master } with
          mpc := .dSet i } : State ε).ws i) = wMeas (s.ws i) := by
          simp only [State.setW, if_true]; rfl
        unfold meas
        simp only [mMeas, State.setW, hm] at e e2 ⊢
        omega
      · simp at hs
    · injection hs with hs; subst hs; right
      simp only [meas, mMeas, hm]; omega
  -- dSet
  · split at hs
    · injection hs with hs; subst hs; right
      simp only [meas, mMeas, hm]; omega
    · injection hs with hs; subst hs; right
      simp only [meas, mMeas, hm]; omega
    · simp at hs
  -- dStore
  · next i =>
    injection hs with hs; subst hs; right
    have hi : i < s.nw := by omega
    have hA := h.allowed i hi
    simp only [hm, Allowed, Nat.lt_irrefl, if_false] at hA
    obtain ⟨hI, htk⟩ := hA
    have hlk : (s.ws i).lock = some .master := by rw [h.lockM i hi, hm]; rfl
    have hpc := idle_lock hI (h.wok i hi) hlk
    have e := meas_setW (s := s) (s' := { s.setW i { s.ws i with st := .exit }.wake with
      mpc := .dUnlock i }) hi rfl (by intro j hj; simp [State.setW, hj])
    have e2 : wMeas (({ s.setW i { s.ws i with st := .exit }.wake with
      mpc := .dUnlock i } : State ε).ws i) ≤ 5 := by
      simp only [State.setW, if_true, Worker.wake]
      rcases hpc with q | q | q | q <;> simp [q, wMeas]
    unfold meas
    simp only [mMeas, State.setW, hm] at e e2 ⊢
    omega
  -- dUnlock
  · next i =>
    injection hs with hs; subst hs; right
    have hi : i < s.nw := by omega
    have e := meas_setW (s := s) (s' := { s.setW i { s.ws i with lock := none } with
      mpc := .dJoin i }) hi rfl (by intro j hj; simp [State.setW, hj])
    have e2 : wMeas (({ s.setW i { s.ws i with lock := none } with
      mpc := .dJoin i } : State ε).ws i) = wMeas (s.ws i) := by
      simp only [State.setW, if_true]; rfl
    unfold meas
    simp only [mMeas, State.setW, hm] at e e2 ⊢
    omega
  -- dJoin
  · split at hs
    · injection hs with hs; subst hs; right
      simp only [meas, mMeas, hm]; omega
    · simp at hs
  · simp at hs

/-- Only a spurious wake-up can increase the measure. -/
theorem step_meas {sc : Script ε} {s s' : State ε} (h : Inv sc s) {c : Choice}
    (hc : ∀ i, c ≠ .spurious i) (hs : step sc s c = .next s') :
    s' = s ∨ meas sc s' < meas sc s := by
  cases c with
  | master => exact mstep_meas h hs
  | worker i =>
    simp only [step] at hs
    split at hs
    · next hi =>
      obtain ⟨f1, f2, f3, f4⟩ := wstep_frame hs
      rcases wstep_meas h hi hs with e | e
      · exact .inl e
      · right
        have := meas_setW hi f3 f4
        have hm : mMeas sc s' = mMeas sc s := by unfold mMeas; rw [f1, f2, f3]
        unfold meas; omega
    · simp at hs
  | giveUp i =>
    simp only [step] at hs
    split at hs
    · next hi =>
      split at hs
      · next hpc =>
        injection hs with hs; subst hs; right
        obtain ⟨w', hw'⟩ : ∃ w', w' = ({ s.ws i with pc := .lockWait } : Worker ε) := ⟨_, rfl⟩
        rw [← hw']
        have e := meas_setW (s := s) (s' := s.setW i w') hi rfl
          (by intro j hj; simp [State.setW, hj])
        have e2 : wMeas ((s.setW i w').ws i) < wMeas (s.ws i) := by
          simp only [State.setW, if_true, wMeas, hpc, hw']
          cases hst : (s.ws i).st <;> simp [taskLen]
        have hm : mMeas sc (s.setW i w') = mMeas sc s := rfl
        unfold meas; omega
      · simp at hs
    · simp at hs
  | spurious i => exact absurd rfl (hc i)

/-! ### Progress -/

/-- A thread that can really move: its move changes the state. -/
def CanMove (sc : Script ε) (s : State ε) (c : Choice) : Prop :=
  ∃ s', step sc s c = .next s' ∧ s' ≠ s

theorem pc_ne {s s' : State ε} {i : Nat} (h : (s'.ws i).pc ≠ (s.ws i).pc) : s' ≠ s := by
  intro e; subst e; exact h rfl

/-- A worker that owes a decrement, or must exit, can move unless the master holds its lock. -/
theorem worker_can_move {sc : Script ε} {s : State ε} (h : Inv sc s) {i : Nat} (hi : i < s.nw)
    (hl : (s.ws i).lock ≠ some .master)
    (hp : pend (s.ws i) = 1 ∨ ((s.ws i).st = .exit ∧ (s.ws i).pc ≠ .exited) ∨
      (s.ws i).lock = some .worker) :
    CanMove sc s (.worker i) := by
  have hw := h.wok i hi
  have hnf := wstep_nofault h hi
  have hc0 : pend (s.ws i) = 1 → s.count ≠ 0 := by
    intro h1 h0
    have h3 := h.cnt
    have := natSum_eq_zero (n := s.nw) (f := fun j => pend (s.ws j)) (by omega) hi
    omega
  have hlk : (s.ws i).lock = none ∨ (s.ws i).lock = some .worker := by
    cases hh : (s.ws i).lock with
    | none => simp
    | some o => cases o <;> simp_all
  suffices hsuf : ∃ s', wstep s i = .next s' ∧ (s'.ws i).pc ≠ (s.ws i).pc by
    obtain ⟨s', h1, h2⟩ := hsuf
    exact ⟨s', by simp only [step, if_pos hi]; exact h1, pc_ne h2⟩
  unfold WOk at hw
  unfold wstep at hnf ⊢
  dsimp only at hnf ⊢
  cases hpc : (s.ws i).pc <;> simp only [hpc] at hw hnf ⊢
  case lockReady =>
    have : (s.ws i).lock = none := by simpa [hw.1] using hlk
    simp [this, State.setW]
  case inReady =>
    rcases hw.2 with ⟨e, e'⟩ | ⟨e, e'⟩
    · simp [e, e', State.setW]
    · cases ht : (s.ws i).task with
      | none => exact absurd ht e'
      | some x => simp [e, State.setW]
  case running l =>
    cases l with
    | nil => simp [State.setW]
    | cons e es =>
      cases ht : (s.ws i).task with
      | none => exact absurd ht hw.2.2
      | some x => simp [State.setW]
  case storeReady => simp [State.setW]
  case unlockReady => simp [State.setW]
  case decrement =>
    have := hc0 (pend_ready' hw.2.2 (.inr hpc))
    simp [this, State.setW]
  case spin =>
    have hne : (s.ws i).st ≠ .ready := by
      intro e
      rcases hp with hp | hp | hp
      · rw [pend_ready e (by simp [hpc]) (by simp [hpc])] at hp; simp at hp
      · rw [e] at hp; simp at hp
      · exact hw.1 hp
    cases hst : (s.ws i).st <;> simp_all [State.setW]
  case lockWait =>
    have : (s.ws i).lock = none := by simpa [hw.1] using hlk
    simp [this, State.setW]
  case checkWait =>
    cases hst : (s.ws i).st <;> simp [State.setW]
  case waiting =>
    exfalso
    rcases hp with hp | hp | hp
    · rw [pend_ready hw.2.2 (by simp [hpc]) (by simp [hpc])] at hp; simp at hp
    · rw [hw.2.2] at hp; simp at hp
    · exact hw.1 hp
  case woken =>
    have : (s.ws i).lock = none := by simpa [hw.1] using hlk
    simp [this, State.setW]
  case unlockWait v => simp [State.setW]
  case act v =>
    cases v <;> simp_all [State.setW]
  case exited =>
    exfalso
    rcases hp with hp | hp | hp
    · rw [pend_exit hw.2.1 (by simp [hpc]) (by simp [hpc])] at hp; simp at hp
    · exact hp.2 hpc
    · exact hw.1 hp

/-- In every reachable state that is not final some thread can move. -/
theorem progress {sc : Script ε} {s : State ε} (h : Inv sc s) (hsc : ∀ ts ∈ sc, ts ≠ [])
    (hd : s.mpc ≠ .done) :
    CanMove sc s .master ∨ ∃ i < s.nw, CanMove sc s (.worker i) := by
  have hph := h.phase
  have hnf := mstep_nofault h hsc
  have mne : ∀ s', mstep sc s = .next s' → s'.mpc ≠ s.mpc → CanMove sc s .master := by
    intro s' h1 h2; exact ⟨s', h1, fun e => h2 (by rw [e])⟩
  have hwait : s.count ≠ 0 → owed ((sc.tasks s.call).length - 1) s.nw s.mpc = 0 →
      (∀ j < s.nw, (s.ws j).lock ≠ some .master) → ∃ i < s.nw, CanMove sc s (.worker i) := by
    intro h0 h1 h2
    have h3 := h.cnt
    obtain ⟨j, hj, hp⟩ := natSum_pos (n := s.nw) (f := fun j => pend (s.ws j)) (by omega)
    refine ⟨j, hj, worker_can_move h hj (h2 j hj) (.inl ?_)⟩
    have : pend (s.ws j) ≤ 1 := by
      unfold pend; split <;> omega
    omega
  have hlock : ∀ i < s.nw, ¬ holds i s.mpc → (s.ws i).lock = none ∨ CanMove sc s (.worker i) := by
    intro i hi hh
    have hl := h.lockM i hi
    cases hlk : (s.ws i).lock with
    | none => simp
    | some o =>
      cases o with
      | master => exact absurd (hl.mp hlk) hh
      | worker =>
        right
        exact worker_can_move h hi (by simp [hlk]) (.inr (.inr hlk))
  unfold mstep at hnf mne
  unfold Phase at hph
  dsimp only at hph hnf mne
  cases hm : s.mpc <;> simp only [hm] at hph hnf mne hlock hwait
  case idle =>
    left
    split at hnf
    · next hc =>
      split at hnf
      · simp at hnf
      · next hne => exact mne _ (by rw [if_pos hc, if_neg hne]) (by simp)
    · next hc => exact mne _ (by rw [if_neg hc]) (by simp)
  case cwCheck => left; refine mne _ rfl ?_; dsimp only; split <;> simp
  case cwReset => left; exact mne _ (by rw [if_neg (by omega)]) (by simp)
  case cwCreate =>
    left
    by_cases hn : s.nw < (sc.tasks s.call).length - 1
    · refine ⟨{ s.setW s.nw newWorker with nw := s.nw + 1 }, ?_, ?_⟩
      · simp only [step, mstep, hm]; rw [if_pos hn]
      · intro e
        have := congrArg State.nw e
        simp at this
    · exact mne _ (by rw [if_neg hn]) (by simp)
  case cwWait =>
    by_cases h0 : s.count = 0
    · left; exact mne _ (by rw [if_pos h0]) (by simp)
    · right; exact hwait h0 rfl (fun j hj => by rw [Ne, h.lockM j hj, hm]; simp [holds])
  case reset => left; exact mne _ (by rw [if_neg (by omega), if_neg (by omega)]) (by simp)
  case swLock i =>
    by_cases hin : i < (sc.tasks s.call).length - 1
    · rcases hlock i (by omega) (by simp [holds]) with e | e
      · left; exact mne _ (by rw [if_pos hin, e]) (by simp)
      · right; exact ⟨i, by omega, e⟩
    · left; exact mne _ (by rw [if_neg hin]) (by simp)
  case swSet i =>
    have hA := h.allowed i (by omega)
    simp only [hm, Allowed, Nat.lt_irrefl, if_false] at hA
    left; exact mne _ (by rw [hA.1.1, hA.2 trivial]) (by simp)
  case swStore i => left; exact mne _ rfl (by simp)
  case swUnlock i => left; exact mne _ rfl (by simp)
  case run l =>
    left
    cases l with
    | nil => exact mne _ rfl (by simp)
    | cons e es => exact mne _ rfl (by simp)
  case wait =>
    by_cases h0 : s.count = 0
    · left; exact mne _ (by rw [if_pos h0]) (by simp)
    · right; exact hwait h0 rfl (fun j hj => by rw [Ne, h.lockM j hj, hm]; simp [holds])
  case dLock i =>
    by_cases hin : i < s.nw
    · rcases hlock i (by omega) (by simp [holds]) with e | e
      · left; exact mne _ (by rw [if_pos hin, e]) (by simp)
      · right; exact ⟨i, by omega, e⟩
    · left; exact mne _ (by rw [if_neg hin]) (by simp)
  case dSet i =>
    have hA := h.allowed i (by omega)
    simp only [hm, Allowed, Nat.lt_irrefl, if_false] at hA
    left; exact mne _ (by rw [hA.1.1]) (by simp)
  case dStore i => left; exact mne _ rfl (by simp)
  case dUnlock i => left; exact mne _ rfl (by simp)
  case dJoin i =>
    have hA := h.allowed i (by omega)
    simp only [hm, Allowed, Nat.lt_irrefl, if_false, if_true] at hA
    by_cases hx : (s.ws i).pc = .exited
    · left; exact mne _ (by rw [hx]) (by simp)
    · right
      exact ⟨i, by omega, worker_can_move h (by omega)
        (by rw [Ne, h.lockM i (by omega), hm]; simp [holds]) (.inr (.inl ⟨hA, hx⟩))⟩
  case done => exact absurd hm hd

end Gemmlowp.Pool
