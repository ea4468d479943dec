import Verif.PthreadProof
/-!
# C73: the pthread functions for Windows
-/
namespace Gemmlowp
namespace Shim
variable {n : Nat}

/-- One step: it is the step of the specification, or the invisible end of a wait, or it has to wait for that end. -/
theorem step_sim {s : St n} {a : Sp n} (h : Rel s a) (t : Fin n) (x : Act n) :
    Sim (step s t x) (a.step t x) ∨
    ((s.pc t).returning = true ∧ (step s t x = .blocked ∨
      (x = .go ∧ a.step t x = .blocked ∧ ∃ s', step s t x = .ok s' ∧ Rel s' a))) := by
  unfold step Sp.step
  rw [show a.life t = s.life t from congrFun h.life t]
  by_cases hl : s.life t = .running
  · rw [if_pos hl, if_pos hl]
    have hm := h.pc t
    by_cases hg : x = .go
    · subst hg
      dsimp only
      by_cases hr : (s.pc t).returning = true
      · right
        refine ⟨hr, .inr ⟨rfl, ?_⟩⟩
        unfold Sp.goOn goOn
        cases e : s.pc t <;> rw [e] at hr <;> try cases hr
        all_goals
          cases e' : a.pc t <;> rw [e, e'] at hm <;> simp only [Pc.matches] at hm
        · rename_i c m lk
          refine ⟨rfl, _, rfl, pc_rel h (spcs := a.pc) fun t' => ?_⟩
          by_cases e2 : t' = t
          · subst e2; rw [upd_same, e']; exact ⟨hm.1, rfl⟩
          · rw [upd_ne _ _ e2]; exact h.pc t'
        · rename_i c m lk
          dsimp only [dropLock]
          rw [hm.2]
          refine ⟨rfl, _, rfl, pc_rel h (spcs := a.pc) fun t' => ?_⟩
          by_cases e2 : t' = t
          · subst e2; rw [upd_same, e']; trivial
          · rw [upd_ne _ _ e2]; exact h.pc t'
      · exact .inl (goOn_sim h (by simpa using hr))
    · by_cases hi : s.pc t = .idle
      · rw [hi] at hm
        have hq : a.pc t = .idle := by
          cases e' : a.pc t <;> rw [e'] at hm <;> simp only [Pc.matches] at hm
        left
        have := call_sim h hi hq x
        rw [hi, hq]
        cases x <;> first | exact this | exact absurd rfl hg
      · by_cases hr : (s.pc t).returning = true
        · right
          refine ⟨hr, .inl ?_⟩
          cases e : s.pc t <;> rw [e] at hr <;> try cases hr
          all_goals cases x <;> first | rfl | exact absurd rfl hg
        · left
          by_cases hx : x = .spurious
          · subst hx
            cases e : s.pc t <;> cases e' : a.pc t <;> rw [e, e'] at hm <;> simp only [Pc.matches] at hm
            · exact absurd e hi
            · rfl
            · refine ⟨_, rfl, pc_rel h fun t' => ?_⟩
              by_cases e2 : t' = t
              · subst e2; rw [upd_same, upd_same]
                obtain ⟨-, h1, -, h2, h5, -, h3, h4⟩ := hm
                exact ⟨h1, h2, h5, h3, h4⟩
              · rw [upd_ne _ _ e2, upd_ne _ _ e2]; exact h.pc t'
            · rfl
            · rw [e] at hr; exact absurd rfl hr
            · rw [e] at hr; exact absurd rfl hr
          · cases e : s.pc t <;> cases e' : a.pc t <;> rw [e, e'] at hm <;> simp only [Pc.matches] at hm
            · exact absurd e hi
            all_goals first
              | (cases x <;> first | rfl | exact absurd rfl hg | exact absurd rfl hx)
              | (rw [e] at hr; exact absurd rfl hr)
  · rw [if_neg hl, if_neg hl]
    exact .inl rfl

theorem init_rel (n : Nat) [NeZero n] : Rel (St.init n) (Sp.init n) where
  mutex := fun _ _ h => by cases h
  mutex_inj := fun _ _ _ h => by cases h
  mutex_kept := fun _ _ h => by cases h
  mutex_next := fun _ _ => rfl
  cond := fun _ h => by cases h
  cond_inj := fun _ _ _ h => by cases h
  cond_kept := fun _ h => by cases h
  cond_next := fun _ _ => rfl
  thread := fun _ _ h => by cases h
  thread_inj := fun _ _ _ h => by cases h
  thread_next := fun p => ⟨fun _ => Nat.zero_le p, fun _ => rfl⟩
  pc := fun _ => trivial
  life := rfl

theorem run_sim (l : List (Fin n × Act n)) : ∀ {s : St n} {a : Sp n}, Rel s a →
    Sp.run (performed l s) a ≠ .fault →
    ∃ s' a', run l s = .ok s' ∧ Sp.run (performed l s) a = .ok a' ∧ Rel s' a' := by
  induction l with
  | nil => intro s a h _; exact ⟨s, a, rfl, rfl, h⟩
  | cons y l ih =>
    obtain ⟨t, x⟩ := y
    intro s a h hn
    rw [performed] at hn ⊢
    rw [run]

    rcases step_sim h t x with hs | ⟨-, hb | ⟨-, hb, s', hs', h'⟩⟩
    · cases e : a.step t x with
      | fault =>
        cases e2 : step s t x with
        | fault => rw [e2] at hn; dsimp only at hn; unfold Sp.run at hn; rw [e] at hn; exact absurd rfl hn
        | ok s' => rw [e2] at hn; dsimp only at hn; unfold Sp.run at hn; rw [e] at hn; exact absurd rfl hn
        | blocked => rw [e2] at hn; exact ih h hn
      | blocked =>
        rw [e] at hs
        rw [show step s t x = .blocked from hs] at hn ⊢
        exact ih h hn
      | ok a' =>
        rw [e] at hs
        obtain ⟨s', hs', h'⟩ := hs
        rw [hs'] at hn ⊢
        dsimp only at hn ⊢
        unfold Sp.run at hn ⊢
        rw [e] at hn ⊢
        exact ih h' hn
    · rw [hb] at hn ⊢
      exact ih h hn
    · rw [hs'] at hn ⊢
      dsimp only at hn ⊢
      unfold Sp.run at hn ⊢
      rw [hb] at hn ⊢
      exact ih h' hn

/-- A schedule in which the program uses the pthread functions as POSIX allows. -/
def Proper [NeZero n] (l : List (Fin n × Act n)) : Prop := Sp.run (performed l (St.init n)) (Sp.init n) ≠ .fault

theorem proper_of [NeZero n] {l : List (Fin n × Act n)}
    (h : (match Sp.run (performed l (St.init n)) (Sp.init n) with | .fault => true | _ => false) = false) : Proper l := by
  intro e
  rw [e] at h
  cases h

/-- **C73**, refinement.  For every program and schedule: if the program uses the functions as POSIX allows then no
function does anything undefined, and what was performed is an execution of pthread functions, in a state that
the objects stand for. -/
theorem C73_refines [NeZero n] (l : List (Fin n × Act n)) (h : Proper l) :
    ∃ s a, run l (St.init n) = .ok s ∧ Sp.run (performed l (St.init n)) (Sp.init n) = .ok a ∧
      (∀ v o, a.mutex v = some o → ∃ p, s.mptr v = some p ∧ s.mheap p = .live o) ∧
      (∀ v, a.cond v = true → ∃ p, s.cptr v = some p ∧ s.cheap p = .live) ∧
      (∀ v w b, a.thread v = some (w, b) → ∃ p, s.tptr v = some p ∧ s.theap p = some (w, !b)) := by
  obtain ⟨s, a, h1, h2, h3⟩ := run_sim l (init_rel n) h
  exact ⟨s, a, h1, h2, h3.mutex, h3.cond, fun v w b hv => h3.thread v (w, b) hv⟩

/-- **C73**, no step is lost: where a thread has to wait, it has to wait by POSIX too, or it is at the end of a
`pthread_cond_wait`, which it can always finish. -/
theorem C73_blocked [NeZero n] (l : List (Fin n × Act n)) (h : Proper l) {s : St n} {a : Sp n}
    (hs : run l (St.init n) = .ok s) (ha : Sp.run (performed l (St.init n)) (Sp.init n) = .ok a) (t : Fin n) (x : Act n)
    (hb : step s t x = .blocked) (hf : a.step t x ≠ .fault) :
    a.step t x = .blocked ∨ ((s.pc t).returning = true ∧ ∃ s1 s2, goOn s t = .ok s1 ∧
      (s1.pc t = .idle ∨ (goOn s1 t = .ok s2 ∧ s2.pc t = .idle))) := by
  obtain ⟨s', a', h1, h2, h3⟩ := run_sim l (init_rel n) h
  rw [hs] at h1; cases h1
  rw [ha] at h2; cases h2
  rcases step_sim h3 t x with k | ⟨k, -⟩
  · left
    rw [hb] at k
    cases e : a.step t x with
    | fault => exact absurd e hf
    | blocked => rfl
    | ok a' => rw [e] at k; obtain ⟨s', k, -⟩ := k; cases k
  · right
    refine ⟨k, ?_⟩
    cases e : s.pc t <;> rw [e] at k <;> try cases k
    · rename_i c m lk
      refine ⟨{ s with pc := upd s.pc t (.released c m (releaseLock lk)) },
        { s with pc := upd (upd s.pc t (.released c m (releaseLock lk))) t .idle }, ?_, .inr ⟨?_, upd_same _ _ _⟩⟩
      · unfold goOn; rw [e]
      · unfold goOn
        dsimp only
        rw [upd_same]
        rfl
    · rename_i c m lk
      have hm := h3.pc t
      rw [e] at hm
      have hm : lk.owns = false := by
        cases e' : a.pc t <;> rw [e'] at hm <;> simp only [Pc.matches] at hm
        exact hm.2
      refine ⟨{ s with pc := upd s.pc t .idle }, s, ?_, .inl (upd_same _ _ _)⟩
      unfold goOn dropLock
      rw [e]
      dsimp only
      rw [hm]
      rfl

/-- **C73**, `pthread_cond_wait` returns with the mutex locked by the calling thread. -/
theorem C73_wait_returns_owning [NeZero n] (l : List (Fin n × Act n)) (h : Proper l) {s s' : St n}
    (hs : run l (St.init n) = .ok s) {t : Fin n} {c m : Nat} {lk : ULock} (hp : s.pc t = .released c m lk)
    (hg : step s t .go = .ok s') :
    s'.pc t = .idle ∧ ∃ p, s'.mptr m = some p ∧ s'.mheap p = .live (some t) := by
  obtain ⟨s0, a, h1, h2, h3⟩ := run_sim l (init_rel n) h
  rw [hs] at h1; cases h1
  have hm := h3.pc t
  rw [hp] at hm
  have hm : a.mutex m = some (some t) ∧ lk.owns = false := by
    cases e' : a.pc t <;> rw [e'] at hm <;> simp only [Pc.matches] at hm
    exact hm
  unfold step at hg
  split at hg
  · dsimp only at hg
    unfold goOn dropLock at hg
    rw [hp] at hg
    dsimp only at hg
    rw [hm.2] at hg
    injection hg with hg
    subst hg
    obtain ⟨p, k1, k2⟩ := h3.mutex m _ hm.1
    exact ⟨upd_same _ _ _, p, k1, k2⟩
  · cases hg

/-- **C73**, mutexes and condition variables are freed: the objects that are alive are exactly those of the
variables that are initialized. -/
theorem C73_no_lost_mutex [NeZero n] (l : List (Fin n × Act n)) (h : Proper l) :
    ∃ s a, run l (St.init n) = .ok s ∧ Sp.run (performed l (St.init n)) (Sp.init n) = .ok a ∧
      (∀ p, (∃ o, s.mheap p = .live o) ↔ ∃ v, (a.mutex v).isSome = true ∧ s.mptr v = some p) ∧
      (∀ p, s.cheap p = .live ↔ ∃ v, a.cond v = true ∧ s.cptr v = some p) := by
  obtain ⟨s, a, h1, h2, h3⟩ := run_sim l (init_rel n) h
  refine ⟨s, a, h1, h2, fun p => ⟨fun ⟨o, ho⟩ => h3.mutex_kept p o ho, ?_⟩, fun p => ⟨h3.cond_kept p, ?_⟩⟩
  · rintro ⟨v, hv, hp⟩
    obtain ⟨o, ho⟩ := Option.isSome_iff_exists.1 hv
    obtain ⟨q, k1, k2⟩ := h3.mutex v o ho
    rw [hp] at k1; cases k1
    exact ⟨o, k2⟩
  · rintro ⟨v, hv, hp⟩
    obtain ⟨q, k1, k2⟩ := h3.cond v hv
    rw [hp] at k1; cases k1
    exact k2

/-- The number of threads that were created. -/
def creates : List (Fin n × Act n) → Nat
  | [] => 0
  | (_, .create _ _) :: l => creates l + 1
  | _ :: l => creates l

theorem stdUnlock_tnext {s s' : St n} {t : Fin n} {p : Nat} (h : stdUnlock s t p = .ok s') : s'.tnext = s.tnext := by
  unfold stdUnlock at h
  split at h
  · split at h
    · cases h; rfl
    · cases h
  · cases h

theorem goOn_tnext {s s' : St n} {t : Fin n} (h : goOn s t = .ok s') : s'.tnext = s.tnext := by
  unfold goOn at h
  split at h
  · unfold deref waitBegin at h
    split at h
    · dsimp only at h
      split at h
      · split at h
        · split at h
          · rename_i e; cases h; exact stdUnlock_tnext (s' := ‹_›) e
          · cases h
          · cases h
        · cases h
      · cases h
    · cases h
  · unfold waitEnd at h
    split at h
    · split at h
      · cases h
      · split at h
        · rename_i e
          unfold stdLock at e
          split at e
          · cases e; cases h; rfl
          · split at e <;> cases e
          · cases e
        · cases h
        · cases h
    · cases h
  · cases h; rfl
  · split at h
    · rename_i e
      unfold dropLock at e
      split at e
      · split at e
        · cases h; exact stdUnlock_tnext (s' := ‹_›) e
        · cases e
      · cases e; cases h; rfl
    · cases h
    · cases h
  · cases h

theorem step_tnext {s s' : St n} {t : Fin n} {x : Act n} (h : step s t x = .ok s') :
    s'.tnext = s.tnext + creates [(t, x)] := by
  unfold step at h
  split at h
  · split at h
    · exact goOn_tnext h
    · cases h; rfl
    · rename_i y _ _ _ _
      cases y <;> simp only [call, mutexInit, condInit, deref] at h
      case mutexInit => cases h; rfl
      case mutexLock =>
        split at h
        · unfold stdLock at h
          split at h
          · cases h; rfl
          · split at h <;> cases h
          · cases h
        · cases h
      case mutexUnlock =>
        split at h
        · exact stdUnlock_tnext h
        · cases h
      case mutexDestroy =>
        split at h
        · unfold deleteMutex at h
          split at h
          · cases h; rfl
          · cases h
        · cases h
      case condInit => cases h; rfl
      case condSignal =>
        split at h
        · unfold notifyOne at h
          split at h
          · split at h
            · cases h; rfl
            · split at h
              · cases h; rfl
              · cases h
          · cases h
        · cases h
      case condBroadcast =>
        split at h
        · unfold notifyAll at h
          split at h
          · cases h; rfl
          · cases h
        · cases h
      case condDestroy =>
        split at h
        · unfold deleteCond at h
          split at h
          · split at h
            · cases h; rfl
            · cases h
          · cases h
        · cases h
      case condWait =>
        split at h
        · split at h
          · cases h; rfl
          · cases h
          · cases h
        · cases h
      case create =>
        unfold create at h
        split at h
        · cases h; rfl
        · cases h
      case join =>
        split at h
        · unfold join at h
          split at h
          · split at h
            · cases h
            · split at h
              · cases h; rfl
              · cases h
          · cases h
        · cases h
      case exit => cases h; rfl
      case go => cases h
      case spurious => cases h
    · cases h
  · cases h

theorem creates_cons (y : Fin n × Act n) (l : List (Fin n × Act n)) : creates (y :: l) = creates l + creates [y] := by
  obtain ⟨t, x⟩ := y
  cases x <;> rfl

theorem run_tnext (l : List (Fin n × Act n)) : ∀ {s s' : St n}, run l s = .ok s' →
    s'.tnext = s.tnext + creates (performed l s) := by
  induction l with
  | nil => intro s s' h; cases h; rfl
  | cons y l ih =>
    obtain ⟨t, x⟩ := y
    intro s s' h
    unfold run at h
    unfold performed
    cases e : step s t x with
    | fault => rw [e] at h; cases h
    | blocked => rw [e] at h; exact ih h
    | ok s1 =>
      rw [e] at h
      dsimp only at h ⊢
      rw [ih h, step_tnext e, creates_cons (t, x) (performed l s1)]
      omega

/-- **C73, finding F46.**  `pthread_join` does not free the `std::thread` object that `pthread_create` made, and no other
function does: at any moment there are as many of them as threads were ever created, joined or not. -/
theorem C73_threads_leak [NeZero n] (l : List (Fin n × Act n)) (h : Proper l) :
    ∃ s, run l (St.init n) = .ok s ∧
      ∀ p, (∃ x, s.theap p = some x) ↔ p < creates (performed l (St.init n)) := by
  obtain ⟨s, a, h1, h2, h3⟩ := run_sim l (init_rel n) h
  refine ⟨s, h1, fun p => ?_⟩
  have e : s.tnext = creates (performed l (St.init n)) := by rw [run_tnext l h1]; exact Nat.zero_add _
  rw [← e]
  have := h3.thread_next p
  cases hp : s.theap p with
  | none => rw [hp] at this; simp at this; simp; exact this
  | some x => rw [hp] at this; simp at this; simpa using this

/-! ## A worker -/

/-- internal/multi_thread_gemm.h:230-244 and 246-292: the life of a `Worker`.  The main thread makes its condition
variable, mutex and thread; the thread waits for a change of its state; the main thread changes it under the mutex; the
thread ends; the main thread joins it and destroys the condition variable and the mutex. -/
def workerLife : List (Fin 2 × Act 2) :=
  [(0, .condInit 0), (0, .mutexInit 0), (0, .create 0 1),
   (1, .mutexLock 0), (1, .condWait 0 0), (1, .go),
   (0, .mutexLock 0), (0, .condBroadcast 0), (1, .go), (0, .mutexUnlock 0),
   (1, .go), (0, .mutexLock 0), (1, .go), (1, .mutexLock 0), (1, .go), (1, .mutexUnlock 0), (1, .exit),
   (0, .join 0), (0, .condDestroy 0), (0, .mutexDestroy 0)]

/-- The hypothesis of the theorems holds for it; three of its steps are passed over because they have to wait. -/
example : Proper workerLife ∧ (performed workerLife (St.init 2)).length = 17 :=
  ⟨proper_of (by decide +kernel), by decide +kernel⟩

/-- It leaves the thread object behind, and nothing else. -/
theorem C73_worker_leaks : ∃ s, run workerLife (St.init 2) = .ok s ∧ s.theap 0 = some (1, false) ∧
    (∀ p o, s.mheap p ≠ .live o) ∧ ∀ p, s.cheap p ≠ .live := by
  have hp : Proper workerLife := proper_of (by decide +kernel)
  obtain ⟨s, a, h1, h2, h3⟩ := run_sim workerLife (init_rel 2) hp
  refine ⟨s, h1, ?_, ?_, ?_⟩
  · have : (match run workerLife (St.init 2) with | .ok s => s.theap 0 | _ => none) = some (1, false) := by
      decide +kernel
    rw [h1] at this
    exact this
  · intro p o ho
    have k1 : (match run workerLife (St.init 2) with | .ok s => s.mnext | _ => 9) = 1 := by decide +kernel
    have k2 : (match run workerLife (St.init 2) with | .ok s => s.mheap 0 | _ => .unused) = .freed := by decide +kernel
    rw [h1] at k1 k2
    dsimp only at k1 k2
    have := h3.mutex_lt ho
    rw [show p = 0 by omega, k2] at ho
    cases ho
  · intro p ho
    have k1 : (match run workerLife (St.init 2) with | .ok s => s.cnext | _ => 9) = 1 := by decide +kernel
    have k2 : (match run workerLife (St.init 2) with | .ok s => s.cheap 0 | _ => .unused) = .freed := by decide +kernel
    rw [h1] at k1 k2
    dsimp only at k1 k2
    have := h3.cond_lt ho
    rw [show p = 0 by omega, k2] at ho
    cases ho

end Shim
end Gemmlowp
