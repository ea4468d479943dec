import Verif.PoolProof
/-!
# The pool: every move of a worker preserves the invariant and never faults
-/
namespace Gemmlowp.Pool

variable {ε : Type}

theorem allowed_same {n j : Nat} {w w' : Worker ε} {m : MPc ε} (h : Allowed n j w m)
    (hst : w'.st = w.st) (hp : pend w' ≤ pend w) (hpc : w.pc = .exited → w'.pc = .exited)
    (ht : w'.task = w.task ∨ w.st = .hasWork) : Allowed n j w' m := by
  have hI : Idle w → Idle w' := by
    intro ⟨h1, h2⟩; exact ⟨hst.trans h1, by omega⟩
  have hB : Busy w → Busy w' := by
    unfold Busy; rw [hst]; exact id
  have hT : Idle w → w'.task = w.task := by
    intro ⟨h1, _⟩
    rcases ht with e | e
    · exact e
    · rw [h1] at e; simp at e
  cases m <;> simp only [Allowed] at h ⊢
  case idle | cwCheck | cwReset | reset => exact hI h
  case cwCreate | cwWait => rw [hst]; exact h
  case swLock i => split at h <;> simp_all <;> intros <;> omega
  case swSet i =>
    split at h
    · simp_all <;> intros <;> omega
    · next e => simp only [if_neg e]; exact ⟨hI h.1, fun e => (hT h.1).trans (h.2 e)⟩
  case swStore i =>
    split at h
    · simp_all <;> intros <;> omega
    · next e => simp only [if_neg e]; exact ⟨hI h.1, fun e => by rw [hT h.1]; exact h.2 e⟩
  case swUnlock i =>
    split at h
    · next e => simp only [if_pos e]; exact ⟨hB h.1, fun e => hst.trans (h.2 e)⟩
    · simp_all <;> intros <;> omega
  case run l => split at h <;> simp_all <;> intros <;> omega
  case wait => split at h <;> simp_all <;> intros <;> omega
  case dLock i => split at h <;> simp_all <;> intros <;> omega
  case dSet i =>
    split at h
    · next e => simp only [if_pos e]; exact hpc h
    · next e => simp only [if_neg e]; exact ⟨hI h.1, fun e => (hT h.1).trans (h.2 e)⟩
  case dStore i =>
    split at h
    · next e => simp only [if_pos e]; exact hpc h
    · next e => simp only [if_neg e]; exact ⟨hI h.1, fun e => (hT h.1).trans (h.2 e)⟩
  case dUnlock i =>
    split at h
    · simp_all <;> intros <;> omega
    · split at h <;> simp_all <;> intros <;> omega
  case dJoin i =>
    split at h
    · simp_all <;> intros <;> omega
    · split at h <;> simp_all <;> intros <;> omega
  case done => exact hpc h

/-- A worker with work has been started by the master in the current call. -/
theorem hasWork_started {n j : Nat} {w : Worker ε} {m : MPc ε} (h : Allowed n j w m)
    (hst : w.st = .hasWork) (hw : w.pc ≠ .exited) : started j m := by
  have hI : ¬ Idle w := by intro ⟨h1, _⟩; rw [hst] at h1; simp at h1
  cases m <;> simp only [Allowed, started, hst] at h ⊢ <;> (try split at h) <;> (try split at h) <;>
    simp_all

theorem hasWork_lt {n j : Nat} {w : Worker ε} {sc : Script ε} {s : State ε}
    (h : Allowed n j w s.mpc) (hn : n = (sc.tasks s.call).length - 1) (hp : Phase sc s)
    (hst : w.st = .hasWork) (hw : w.pc ≠ .exited) : j < n := by
  have hI : ¬ Idle w := by intro ⟨h1, _⟩; rw [hst] at h1; simp at h1
  unfold Phase at hp
  subst hn
  cases hm : s.mpc <;> simp only [hm, Allowed, hst] at h hp <;> (try split at h) <;>
    (try split at h) <;> simp_all <;> omega

theorem pend_ready {w : Worker ε} (h : w.st = .ready) (h1 : w.pc ≠ .unlockReady)
    (h2 : w.pc ≠ .decrement) : pend w = 0 := by
  unfold pend; rw [h]; cases hp : w.pc <;> simp_all

theorem pend_ready' {w : Worker ε} (h : w.st = .ready)
    (h1 : w.pc = .unlockReady ∨ w.pc = .decrement) : pend w = 1 := by
  unfold pend; rw [h]; rcases h1 with e | e <;> simp [e]

theorem pend_work {w : Worker ε} (h : w.st = .hasWork) : pend w = 1 := by
  unfold pend; rw [h]

theorem pend_startup {w : Worker ε} (h : w.st = .threadStartup) : pend w = 1 := by
  unfold pend; rw [h]

theorem pend_exit {w : Worker ε} (h : w.st = .exit) (h1 : w.pc ≠ .unlockReady)
    (h2 : w.pc ≠ .decrement) : pend w = 0 := by
  unfold pend; rw [h]; cases hp : w.pc <;> simp_all

theorem pend_same {w w' : Worker ε} (h : w'.st = w.st) (h1 : w.pc ≠ .unlockReady)
    (h2 : w.pc ≠ .decrement) (h3 : w'.pc ≠ .unlockReady) (h4 : w'.pc ≠ .decrement) :
    pend w' = pend w := by
  cases hs : w.st
  · rw [pend_startup hs, pend_startup (h.trans hs)]
  · rw [pend_ready hs h1 h2, pend_ready (h.trans hs) h3 h4]
  · rw [pend_work hs, pend_work (h.trans hs)]
  · rw [pend_exit hs h1 h2, pend_exit (h.trans hs) h3 h4]

/-- A move that only changes the position of a worker and its lock. -/
theorem inv_move {sc : Script ε} {s : State ε} (h : Inv sc s) {i : Nat} (hi : i < s.nw)
    {pc' : WPc ε} {lk' : Option Owner}
    (hok : WOk { s.ws i with pc := pc', lock := lk' })
    (hlock : lk' = some .master ↔ (s.ws i).lock = some .master)
    (hp : pend { s.ws i with pc := pc', lock := lk' } = pend (s.ws i))
    (hx : (s.ws i).pc ≠ .exited)
    (hr : wrem { s.ws i with pc := pc', lock := lk' } = wrem (s.ws i)) :
    Inv sc (s.setW i { s.ws i with pc := pc', lock := lk' }) :=
  inv_worker h hi rfl rfl rfl rfl hok hlock
    (allowed_same (h.allowed i hi) rfl (by rw [hp]; exact Nat.le_refl _) (fun e => absurd e hx)
      (.inl rfl))
    (by rw [hp]; rfl) (Nat.le_refl _) (.inr rfl) (.inl ⟨rfl, fun _ => hr⟩)

theorem wrem_move {w w' : Worker ε} (ht : w'.task = w.task) (h : ∀ l, w.pc ≠ .running l)
    (h' : ∀ l, w'.pc ≠ .running l) : wrem w' = wrem w := by
  unfold wrem; rw [ht]
  cases w.task with
  | none => rfl
  | some x =>
    obtain ⟨a, p⟩ := x
    dsimp only
    cases h1 : w.pc <;> cases h2 : w'.pc <;> simp_all

theorem wstep_inv {sc : Script ε} {s s' : State ε} (h : Inv sc s) {i : Nat} (hi : i < s.nw)
    (hs : wstep s i = .next s') : Inv sc s' := by
  have hw := h.wok i hi
  have ha := h.allowed i hi
  have hl := h.lockM i hi
  have ht := h.task i hi
  have hhw := hasWork_started ha
  have hlt := hasWork_lt ha rfl h.phase
  unfold wstep at hs
  unfold WOk at hw
  dsimp only at hs
  split at hs <;> rename_i hpc
  -- lockReady
  · split at hs
    · next hlk =>
      injection hs with hs; subst hs
      simp only [hpc] at hw
      refine inv_move h hi ?_ (by simp [hlk]) (pend_same rfl ?_ ?_ ?_ ?_) ?_
        (wrem_move rfl ?_ ?_) <;> simp [hpc]
      simpa [WOk, Entering] using hw.2
    · simp at hs
  -- inReady
  · simp only [hpc] at hw
    have hst : (s.ws i).st = .threadStartup ∨ (s.ws i).st = .hasWork := by
      rcases hw.2 with ⟨e, _⟩ | ⟨e, _⟩ <;> simp [e]
    have key : wstep s i = wstep s i → True := fun _ => trivial
    split at hs
    · simp at hs
    · simp at hs
    · split at hs
      · next htk =>
        injection hs with hs; subst hs
        refine inv_move h hi ?_ Iff.rfl (pend_same rfl ?_ ?_ ?_ ?_) ?_
          (wrem_move rfl ?_ ?_) <;> simp [hpc]
        simpa [WOk, htk, hw.1] using hst
      · next id p htk =>
        injection hs with hs; subst hs
        have hwk : (s.ws i).st = .hasWork := by
          rcases hw.2 with ⟨_, e⟩ | ⟨e, _⟩
          · rw [htk] at e; simp at e
          · exact e
        refine inv_move h hi ?_ Iff.rfl (pend_same rfl ?_ ?_ ?_ ?_) ?_ ?_ <;> simp [hpc]
        · simp [WOk, htk, hw.1, hwk]
        · simp [wrem, htk, hpc]
  -- running []
  · injection hs with hs; subst hs
    simp only [hpc] at hw
    obtain ⟨h1, h2, h3⟩ := hw
    refine inv_worker h hi rfl rfl rfl rfl ?_ Iff.rfl (allowed_same ha rfl ?_ ?_ (.inr h2)) ?_
      (Nat.le_refl _) (.inl rfl) (.inl ⟨rfl, fun _ => ?_⟩)
    · simp [WOk, h1, h2]
    · rw [pend_work h2, pend_work (by exact h2)]; exact Nat.le_refl _
    · simp [hpc]
    · rw [pend_work h2, pend_work (by exact h2)]; rfl
    · simp only [wrem, hpc]; cases (s.ws i).task <;> rfl
  -- running (e :: es)
  · next e es =>
    simp only [hpc] at hw
    obtain ⟨h1, h2, h3⟩ := hw
    split at hs
    · simp at hs
    · next id p htk =>
      injection hs with hs; subst hs
      have hid : id = (s.call, i) := by
        have := ht _ htk
        simp only [Prod.mk.injEq] at this
        exact this.1
      subst hid
      refine inv_worker h hi (w' := { s.ws i with pc := .running es }) rfl rfl rfl rfl ?_ Iff.rfl
        (allowed_same ha rfl ?_ ?_ (.inl rfl)) ?_ (Nat.le_refl _) (.inr rfl)
        (.inr ⟨hhw h2 (by simp [hpc]), hlt h2 (by simp [hpc]), e, rfl, ?_⟩)
      · simp [WOk, h1, h2, h3]
      · rw [pend_work h2, pend_work (by exact h2)]; exact Nat.le_refl _
      · simp [hpc]
      · rw [pend_work h2, pend_work (by exact h2)]; rfl
      · simp [wrem, hpc, htk]
  -- storeReady
  · injection hs with hs; subst hs
    simp only [hpc] at hw
    obtain ⟨h1, h2, h3⟩ := hw
    have hp1 : pend (s.ws i) = 1 := by
      rcases h3 with e | e
      · exact pend_startup e
      · exact pend_work e
    have hp2 : pend { s.ws i with pc := .unlockReady, st := .ready } = 1 :=
      pend_ready' rfl (.inl rfl)
    have hnh : ¬ holds i s.mpc := by rw [← hl, h1]; simp
    refine inv_worker h hi rfl rfl rfl rfl ?_ Iff.rfl ?_ ?_
      (Nat.le_refl _) (.inr rfl) (.inl ⟨rfl, fun _ => ?_⟩)
    · simp [WOk, h1, h2]
    · have hI : ¬ Idle (s.ws i) := by intro ⟨_, e⟩; omega
      cases hm : s.mpc <;> simp only [hm, Allowed, holds] at ha hnh ⊢ <;> (try split at ha) <;>
        (try split at ha) <;> simp_all [Busy]
    · rw [hp1, hp2]; rfl
    · simp [wrem, h2]
  -- unlockReady
  · injection hs with hs; subst hs
    simp only [hpc] at hw
    obtain ⟨h1, h2, h3⟩ := hw
    refine inv_move h hi ?_ (by simp [h1]) ?_ ?_ (wrem_move rfl ?_ ?_) <;> simp [hpc]
    · simp [WOk, h2, h3]
    · rw [pend_ready' h3 (.inl hpc), pend_ready' (by exact h3) (.inr rfl)]
  -- decrement
  · split at hs
    · simp at hs
    · next h0 =>
      injection hs with hs; subst hs
      simp only [hpc] at hw
      obtain ⟨h1, h2, h3⟩ := hw
      have hp1 : pend (s.ws i) = 1 := pend_ready' h3 (.inr hpc)
      have hp2 : pend { s.ws i with pc := .spin } = 0 := pend_ready h3 (by simp) (by simp)
      refine inv_worker h hi (w' := { s.ws i with pc := .spin }) rfl rfl rfl rfl ?_ Iff.rfl
        (allowed_same ha rfl ?_ ?_ (.inl rfl)) ?_ ?_ (.inr rfl)
        (.inl ⟨rfl, fun _ => wrem_move rfl ?_ ?_⟩)
      · simp [WOk, Quiet, h1, h2, h3]
      · omega
      · simp [hpc]
      · rw [hp1, hp2]; dsimp only [State.setW]; omega
      · dsimp only [State.setW]; omega
      · simp [hpc]
      · simp
  -- spin
  · simp only [hpc] at hw
    split at hs
    · injection hs with hs; subst hs; exact h
    · next v hv =>
      injection hs with hs; subst hs
      refine inv_move h hi ?_ Iff.rfl (pend_same rfl ?_ ?_ ?_ ?_) ?_
        (wrem_move rfl ?_ ?_) <;> simp [hpc]
      simpa [WOk, Quiet, hw.1] using ⟨hw.2, hv⟩
  -- lockWait
  · split at hs
    · next hlk =>
      injection hs with hs; subst hs
      simp only [hpc] at hw
      refine inv_move h hi ?_ (by simp [hlk]) (pend_same rfl ?_ ?_ ?_ ?_) ?_
        (wrem_move rfl ?_ ?_) <;> simp [hpc]
      obtain ⟨_, q1, q2, q3, q4⟩ := hw
      exact ⟨rfl, q1, q2, q3, fun e _ => q4 e (by simp [hlk])⟩
    · simp at hs
  -- checkWait
  · simp only [hpc] at hw
    obtain ⟨hlk, q1, q2, q3, q4⟩ := hw
    split at hs
    · next hv =>
      injection hs with hs; subst hs
      refine inv_move h hi ?_ (by simp [hlk]) (pend_same rfl ?_ ?_ ?_ ?_) ?_
        (wrem_move rfl ?_ ?_) <;> simp [hpc]
      exact ⟨by simp, ⟨q1, q2, q3, fun e _ => q4 e (by simp [hlk])⟩, hv⟩
    · next v hv =>
      injection hs with hs; subst hs
      refine inv_move h hi ?_ Iff.rfl (pend_same rfl ?_ ?_ ?_ ?_) ?_
        (wrem_move rfl ?_ ?_) <;> simp [hpc]
      exact ⟨hlk, ⟨q1, q2, q3, q4⟩, rfl, hv⟩
  -- waiting
  · simp at hs
  -- woken
  · split at hs
    · next hlk =>
      injection hs with hs; subst hs
      simp only [hpc] at hw
      refine inv_move h hi ?_ (by simp [hlk]) (pend_same rfl ?_ ?_ ?_ ?_) ?_
        (wrem_move rfl ?_ ?_) <;> simp [hpc]
      obtain ⟨_, q1, q2, q3, q4⟩ := hw
      exact ⟨rfl, q1, q2, q3, fun e _ => q4 e (by simp [hlk])⟩
    · simp at hs
  -- unlockWait
  · injection hs with hs; subst hs
    simp only [hpc] at hw
    obtain ⟨hlk, ⟨q1, q2, q3, q4⟩, rfl, hv⟩ := hw
    refine inv_move h hi ?_ (by simp [hlk]) (pend_same rfl ?_ ?_ ?_ ?_) ?_
      (wrem_move rfl ?_ ?_) <;> simp [hpc]
    exact ⟨by simp, ⟨q1, q2, q3, fun e _ => q4 e (by simp [hlk])⟩, rfl, hv⟩
  -- act hasWork
  · injection hs with hs; subst hs
    simp only [hpc] at hw
    obtain ⟨hlk, ⟨q1, q2, q3, q4⟩, e, hv⟩ := hw
    refine inv_move h hi ?_ Iff.rfl (pend_same rfl ?_ ?_ ?_ ?_) ?_
      (wrem_move rfl ?_ ?_) <;> simp [hpc]
    exact ⟨hlk, .inr ⟨e.symm, q2 e.symm⟩⟩
  -- act exit
  · injection hs with hs; subst hs
    simp only [hpc] at hw
    obtain ⟨hlk, ⟨q1, q2, q3, q4⟩, e, hv⟩ := hw
    refine inv_move h hi ?_ Iff.rfl (pend_same rfl ?_ ?_ ?_ ?_) ?_
      (wrem_move rfl ?_ ?_) <;> simp [hpc]
    exact ⟨hlk, e.symm, q3 e.symm⟩
  · simp at hs
  · simp at hs

theorem wstep_nofault {sc : Script ε} {s : State ε} (h : Inv sc s) {i : Nat} (hi : i < s.nw) :
    wstep s i ≠ .fault := by
  have hw := h.wok i hi
  unfold wstep
  unfold WOk at hw
  dsimp only
  split <;> rename_i hpc
  · split <;> simp
  · simp only [hpc, Entering] at hw
    split
    · next e => simp [e] at hw
    · next e => simp [e] at hw
    · split <;> simp
  · simp
  · simp only [hpc] at hw
    split
    · next e => simp [e] at hw
    · simp
  · simp
  · simp
  · simp only [hpc] at hw
    have h1 : pend (s.ws i) = 1 := pend_ready' hw.2.2 (.inr hpc)
    have h2 : s.count ≠ 0 := by
      intro h0
      have h3 := h.cnt
      have := natSum_eq_zero (n := s.nw) (f := fun j => pend (s.ws j)) (by omega) hi
      omega
    simp [h2]
  · split <;> simp
  · split <;> simp
  · split <;> simp
  · simp
  · split <;> simp
  · simp
  · simp
  · simp
  · next v hv1 hv2 =>
    simp only [hpc] at hw
    obtain ⟨hlk, ⟨q1, q2, q3, q4⟩, e, hv⟩ := hw
    subst e
    cases hst : (s.ws i).st <;> simp_all
  · simp

end Gemmlowp.Pool
