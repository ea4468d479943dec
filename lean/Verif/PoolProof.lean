import Verif.Pool
/-!
# The pool: the invariant of its reachable states
-/
namespace Gemmlowp.Pool

variable {ε : Type}

/-- Sum of `f 0 … f (n-1)`. -/
def natSum : Nat → (Nat → Nat) → Nat
  | 0, _ => 0
  | n + 1, f => natSum n f + f n

theorem natSum_congr {n : Nat} {f g : Nat → Nat} (h : ∀ j < n, f j = g j) :
    natSum n f = natSum n g := by
  induction n with
  | zero => rfl
  | succ n ih =>
    simp only [natSum]
    rw [ih (fun j hj => h j (by omega)), h n (by omega)]

theorem natSum_upd {n i : Nat} {f g : Nat → Nat} (hi : i < n) (h : ∀ j, j ≠ i → g j = f j) :
    natSum n g + f i = natSum n f + g i := by
  induction n with
  | zero => omega
  | succ n ih =>
    simp only [natSum]
    by_cases hin : i = n
    · subst hin
      rw [natSum_congr (f := g) (g := f) (fun j hj => h j (by omega))]
      omega
    · have := ih (by omega)
      rw [h n (fun e => hin e.symm)]
      omega

theorem natSum_eq_zero {n : Nat} {f : Nat → Nat} (h : natSum n f = 0) {j : Nat} (hj : j < n) :
    f j = 0 := by
  induction n with
  | zero => omega
  | succ n ih =>
    simp only [natSum] at h
    by_cases hjn : j = n
    · subst hjn; omega
    · exact ih (by omega) (by omega)

theorem natSum_pos {n : Nat} {f : Nat → Nat} (h : 0 < natSum n f) : ∃ j < n, 0 < f j := by
  induction n with
  | zero => simp [natSum] at h
  | succ n ih =>
    simp only [natSum] at h
    by_cases h0 : 0 < f n
    · exact ⟨n, by omega, h0⟩
    · obtain ⟨j, hj, hp⟩ := ih (by omega)
      exact ⟨j, by omega, hp⟩

theorem natSum_zero {n : Nat} {f : Nat → Nat} (h : ∀ j < n, f j = 0) : natSum n f = 0 := by
  induction n with
  | zero => rfl
  | succ n ih => simp only [natSum, ih (fun j hj => h j (by omega)), h n (by omega)]

/-- 1 when the worker still has to decrement the counter. -/
def pend (w : Worker ε) : Nat :=
  match w.st, w.pc with
  | .threadStartup, _ => 1
  | .hasWork, _ => 1
  | _, .unlockReady => 1
  | _, .decrement => 1
  | _, _ => 0

/-- Facts about a worker that is not inside `ChangeState`. -/
def Quiet (w : Worker ε) : Prop :=
  w.st ≠ .threadStartup ∧ (w.st = .hasWork → w.task ≠ none) ∧ (w.st = .exit → w.task = none) ∧
    (w.st = .ready → w.lock ≠ some .master → w.task = none)

/-- Facts about a worker that is in `ChangeState(Ready)` before running the task. -/
def Entering (w : Worker ε) : Prop :=
  (w.st = .threadStartup ∧ w.task = none) ∨ (w.st = .hasWork ∧ w.task ≠ none)

/-- What holds of a worker wherever it is. -/
def WOk (w : Worker ε) : Prop :=
  match w.pc with
  | .lockReady => w.lock ≠ some .worker ∧ Entering w
  | .inReady => w.lock = some .worker ∧ Entering w
  | .running _ => w.lock = some .worker ∧ w.st = .hasWork ∧ w.task ≠ none
  | .storeReady => w.lock = some .worker ∧ w.task = none ∧
      (w.st = .threadStartup ∨ w.st = .hasWork)
  | .unlockReady => w.lock = some .worker ∧ w.task = none ∧ w.st = .ready
  | .decrement => w.lock ≠ some .worker ∧ w.task = none ∧ w.st = .ready
  | .spin => w.lock ≠ some .worker ∧ Quiet w
  | .lockWait => w.lock ≠ some .worker ∧ Quiet w
  | .checkWait => w.lock = some .worker ∧ Quiet w
  | .waiting => w.lock ≠ some .worker ∧ Quiet w ∧ w.st = .ready
  | .woken => w.lock ≠ some .worker ∧ Quiet w
  | .unlockWait v => w.lock = some .worker ∧ Quiet w ∧ v = w.st ∧ v ≠ .ready
  | .act v => w.lock ≠ some .worker ∧ Quiet w ∧ v = w.st ∧ v ≠ .ready
  | .exited => w.lock ≠ some .worker ∧ w.st = .exit ∧ w.task = none

/-- The worker has nothing to do and owes nothing. -/
def Idle (w : Worker ε) : Prop := w.st = .ready ∧ pend w = 0

/-- The worker has been given work in this call, and may have finished it. -/
def Busy (w : Worker ε) : Prop := w.st = .ready ∨ w.st = .hasWork

/-- What the position of the master says about worker `j`; `n` is the number of workers used by
the current call. -/
def Allowed (n j : Nat) (w : Worker ε) : MPc ε → Prop
  | .idle | .cwCheck | .cwReset | .reset => Idle w
  | .cwCreate | .cwWait => w.st = .threadStartup ∨ w.st = .ready
  | .swLock i => if j < i then Busy w else Idle w
  | .swSet i => if j < i then Busy w else Idle w ∧ (j = i → w.task = none)
  | .swStore i => if j < i then Busy w else Idle w ∧ (j = i → w.task ≠ none)
  | .swUnlock i => if j ≤ i then Busy w ∧ (j = i → w.st = .hasWork) else Idle w
  | .run _ | .wait => if j < n then Busy w else Idle w
  | .dLock i => if j < i then w.pc = .exited else Idle w
  | .dSet i | .dStore i => if j < i then w.pc = .exited else Idle w ∧ (j = i → w.task = none)
  | .dUnlock i | .dJoin i =>
    if j < i then w.pc = .exited else if j = i then w.st = .exit else Idle w
  | .done => w.pc = .exited

/-- The master holds worker `j`'s lock. -/
def holds (j : Nat) : MPc ε → Prop
  | .swSet i | .swStore i | .swUnlock i | .dSet i | .dStore i | .dUnlock i => j = i
  | _ => False

/-- Decrements the master has counted on in advance. -/
def owed (n nw : Nat) : MPc ε → Nat
  | .cwCreate => n - nw
  | .swLock i | .swSet i | .swStore i => n - i
  | .swUnlock i => n - (i + 1)
  | _ => 0

/-- Where the master can be, given the call it is in. -/
def Phase (sc : Script ε) (s : State ε) : Prop :=
  let n := (sc.tasks s.call).length - 1
  let inCall := s.call < sc.length ∧ 0 < (sc.tasks s.call).length
  match s.mpc with
  | .idle => s.call ≤ sc.length ∧ s.count = 0
  | .cwCheck => inCall ∧ s.count = 0
  | .cwReset => inCall ∧ s.count = 0 ∧ s.nw ≤ n
  | .cwCreate => inCall ∧ s.nw ≤ n
  | .cwWait => inCall ∧ n ≤ s.nw
  | .reset => inCall ∧ s.count = 0 ∧ n ≤ s.nw
  | .swLock i => inCall ∧ n ≤ s.nw ∧ i ≤ n
  | .swSet i | .swStore i | .swUnlock i => inCall ∧ n ≤ s.nw ∧ i < n
  | .run _ | .wait => inCall ∧ n ≤ s.nw
  | .dLock i => s.call = sc.length ∧ s.count = 0 ∧ i ≤ s.nw
  | .dSet i | .dStore i | .dUnlock i | .dJoin i => s.call = sc.length ∧ s.count = 0 ∧ i < s.nw
  | .done => s.call = sc.length ∧ s.count = 0

/-- The master has handed task `j` of the current call to worker `j`. -/
def started (j : Nat) : MPc ε → Prop
  | .swLock i | .swSet i | .swStore i => j < i
  | .swUnlock i => j ≤ i
  | .run _ | .wait => True
  | _ => False

instance (j : Nat) : (m : MPc ε) → Decidable (started j m)
  | .swLock i | .swSet i | .swStore i => inferInstanceAs (Decidable (j < i))
  | .swUnlock i => inferInstanceAs (Decidable (j ≤ i))
  | .run _ | .wait => inferInstanceAs (Decidable True)
  | .idle | .cwCheck | .cwReset | .cwCreate | .cwWait | .reset | .dLock _ | .dSet _ | .dStore _
  | .dUnlock _ | .dJoin _ | .done => inferInstanceAs (Decidable False)

/-- The effects still to come of the task a worker has. -/
def wrem (w : Worker ε) : List ε :=
  match w.task with
  | none => []
  | some (_, p) =>
    match w.pc with
    | .running es => es
    | _ => p

/-- The effects still to come of the master's own task. -/
def mrem (p : List ε) : MPc ε → List ε
  | .run es => es
  | .wait => []
  | _ => p

/-- The effects of task `j` of call `c` still to come. -/
def rem (sc : Script ε) (s : State ε) (c j : Nat) : List ε :=
  if c < s.call then []
  else if s.call < c then sc.prog c j
  else if j + 1 = (sc.tasks c).length then mrem (sc.prog c j) s.mpc
  else if j + 1 < (sc.tasks c).length ∧ started j s.mpc then wrem (s.ws j)
  else sc.prog c j

/-- The invariant. -/
structure Inv (sc : Script ε) (s : State ε) : Prop where
  wok : ∀ j < s.nw, WOk (s.ws j)
  lockM : ∀ j < s.nw, ((s.ws j).lock = some .master ↔ holds j s.mpc)
  allowed : ∀ j < s.nw, Allowed ((sc.tasks s.call).length - 1) j (s.ws j) s.mpc
  cnt : s.count = natSum s.nw (fun j => pend (s.ws j)) +
    owed ((sc.tasks s.call).length - 1) s.nw s.mpc
  task : ∀ j < s.nw, ∀ x, (s.ws j).task = some x → x = ((s.call, j), sc.prog s.call j)
  phase : Phase sc s
  hist : ∀ c j, logOf s.log (c, j) ++ rem sc s c j = sc.prog c j

theorem logOf_snoc (l : List (TaskId × ε)) (k k' : TaskId) (e : ε) :
    logOf (l ++ [(k', e)]) k = if k' = k then logOf l k ++ [e] else logOf l k := by
  unfold logOf
  by_cases h : k' = k <;> simp [h, List.filterMap_append]

theorem prog_oob (sc : Script ε) {c j : Nat} (h : (sc.tasks c).length ≤ j) : sc.prog c j = [] := by
  unfold Script.prog
  simp [List.getD_eq_getElem?_getD, List.getElem?_eq_none h]

theorem tasks_oob (sc : Script ε) {c : Nat} (h : sc.length ≤ c) : sc.tasks c = [] := by
  unfold Script.tasks
  simp [List.getD_eq_getElem?_getD, List.getElem?_eq_none h]

theorem inv_initial (sc : Script ε) : Inv sc (initial : State ε) where
  wok := by intro j hj; exact absurd hj (by simp [initial])
  lockM := by intro j hj; exact absurd hj (by simp [initial])
  allowed := by intro j hj; exact absurd hj (by simp [initial])
  cnt := by simp [initial, natSum, owed]
  task := by intro j hj; exact absurd hj (by simp [initial])
  phase := by simp [Phase, initial]
  hist := by
    intro c j
    simp only [initial, logOf, List.filterMap_nil, List.nil_append, rem, mrem, started, and_false,
      if_false]
    (repeat' split) <;> first | rfl | omega

/-- The position of a worker that is idle. -/
theorem Idle.cases {w : Worker ε} (h : Idle w) (hw : WOk w) :
    w.pc = .spin ∨ w.pc = .lockWait ∨ w.pc = .checkWait ∨ w.pc = .waiting ∨ w.pc = .woken := by
  obtain ⟨h1, h2⟩ := h
  unfold WOk at hw
  unfold pend at h2
  cases hpc : w.pc <;> simp_all [Entering, Quiet]

/-- A worker's own move preserves the invariant if it changes the worker's part well. -/
theorem inv_worker {sc : Script ε} {s s' : State ε} (h : Inv sc s) {i : Nat} (hi : i < s.nw)
    {w' : Worker ε} (em : s'.mpc = s.mpc) (ec : s'.call = s.call) (en : s'.nw = s.nw)
    (ew : s'.ws = fun j => if j = i then w' else s.ws j)
    (hok : WOk w') (hlock : w'.lock = some .master ↔ (s.ws i).lock = some .master)
    (hall : Allowed ((sc.tasks s.call).length - 1) i w' s.mpc)
    (hcnt : s'.count + pend (s.ws i) = s.count + pend w') (hle : s'.count ≤ s.count)
    (htask : w'.task = none ∨ w'.task = (s.ws i).task)
    (hlog : (s'.log = s.log ∧ (started i s.mpc → wrem w' = wrem (s.ws i))) ∨
      (started i s.mpc ∧ i < (sc.tasks s.call).length - 1 ∧
        ∃ e, s'.log = s.log ++ [((s.call, i), e)] ∧ wrem (s.ws i) = e :: wrem w')) :
    Inv sc s' where
  wok := by
    intro j hj; rw [ew]; dsimp only
    split
    · exact hok
    · exact h.wok j (en ▸ hj)
  lockM := by
    intro j hj; rw [ew, em]; dsimp only
    split
    · next e => subst e; rw [hlock]; exact h.lockM j hi
    · exact h.lockM j (en ▸ hj)
  allowed := by
    intro j hj; rw [ew, em, ec]; dsimp only
    split
    · next e => subst e; exact hall
    · exact h.allowed j (en ▸ hj)
  cnt := by
    have h1 := h.cnt
    have h2 := natSum_upd (n := s.nw) (f := fun j => pend (s.ws j)) (g := fun j => pend (s'.ws j)) hi
      (by intro j hj; simp only [ew, if_neg hj])
    have h3 : pend (s'.ws i) = pend w' := by simp [ew]
    rw [em, ec, en]
    rw [h3] at h2
    omega
  task := by
    intro j hj x; rw [ew, ec]; dsimp only
    split
    · next e =>
      subst e
      rcases htask with e | e
      · rw [e]; intro hx; simp at hx
      · rw [e]; exact h.task j hi x
    · exact h.task j (en ▸ hj) x
  phase := by
    have h1 := h.phase
    unfold Phase at h1 ⊢
    rw [em, ec, en]
    cases hm : s.mpc <;> simp only [hm] at h1 ⊢ <;> omega
  hist := by
    intro c j
    have h1 := h.hist c j
    rcases hlog with ⟨e, hr⟩ | ⟨hst, hin, e, hl, hr⟩
    · rw [e]
      have : rem sc s' c j = rem sc s c j := by
        unfold rem
        rw [em, ec, ew]
        dsimp only
        by_cases hj : j = i
        · subst hj
          by_cases hs : started j s.mpc
          · simp [hr hs]
          · simp [hs]
        · simp [hj]
      rw [this]; exact h1
    · rw [hl, logOf_snoc]
      by_cases hk : (s.call, i) = (c, j)
      · rw [if_pos hk]
        simp only [Prod.mk.injEq] at hk
        obtain ⟨rfl, rfl⟩ := hk
        have e1 : rem sc s s.call i = e :: wrem w' := by
          unfold rem
          rw [if_neg (by omega), if_neg (by omega), if_neg (by omega), if_pos ⟨by omega, hst⟩, hr]
        have e2 : rem sc s' s.call i = wrem w' := by
          unfold rem
          rw [ec, em, if_neg (by omega), if_neg (by omega), if_neg (by omega),
            if_pos ⟨by omega, hst⟩, ew]
          simp
        rw [e1] at h1
        rw [e2]
        simpa using h1
      · rw [if_neg hk]
        have : rem sc s' c j = rem sc s c j := by
          unfold rem
          rw [em, ec, ew]
          dsimp only
          by_cases hc : c = s.call
          · have hj : j ≠ i := by
              intro e; apply hk; rw [hc, e]
            simp [hj]
          · by_cases h2 : c < s.call
            · simp [h2]
            · have h3 : s.call < c := by omega
              simp [h2, h3]
        rw [this]; exact h1

end Gemmlowp.Pool
