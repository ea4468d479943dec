import Verif.PoolProof2
/-!
# The pool: every move of the master preserves the invariant and never faults
-/
namespace Gemmlowp.Pool

variable {ε : Type}

theorem rem_congr {sc : Script ε} {s s' : State ε} (ec : s'.call = s.call)
    (hm : ∀ p, mrem p s'.mpc = mrem p s.mpc)
    (hw : ∀ j, j + 1 < (sc.tasks s.call).length →
      (if started j s'.mpc then wrem (s'.ws j) else sc.prog s.call j) =
      (if started j s.mpc then wrem (s.ws j) else sc.prog s.call j)) (c j : Nat) :
    rem sc s' c j = rem sc s c j := by
  unfold rem
  rw [ec, hm]
  by_cases h1 : c < s.call
  · simp [h1]
  · by_cases h2 : s.call < c
    · simp [h1, h2]
    · have e : c = s.call := by omega
      subst e
      simp only [Nat.lt_irrefl, if_false]
      by_cases h3 : j + 1 = (sc.tasks s.call).length
      · simp [h3]
      · simp only [if_neg h3]
        by_cases h4 : j + 1 < (sc.tasks s.call).length
        · simpa [h4] using hw j h4
        · simp [h4]

theorem hist_same {sc : Script ε} {s s' : State ε} (h : Inv sc s) (el : s'.log = s.log)
    (ec : s'.call = s.call) (hm : ∀ p, mrem p s'.mpc = mrem p s.mpc)
    (hw : ∀ j, j + 1 < (sc.tasks s.call).length →
      (if started j s'.mpc then wrem (s'.ws j) else sc.prog s.call j) =
      (if started j s.mpc then wrem (s.ws j) else sc.prog s.call j)) (c j : Nat) :
    logOf s'.log (c, j) ++ rem sc s' c j = sc.prog c j := by
  rw [el, rem_congr ec hm hw]; exact h.hist c j

theorem pend_eq {w w' : Worker ε} (h : w'.st = w.st) (h' : w'.pc = w.pc) : pend w' = pend w := by
  unfold pend; rw [h, h']

/-- A move of the master that changes no worker. -/
theorem inv_same {sc : Script ε} {s s' : State ε} (h : Inv sc s) (ec : s'.call = s.call)
    (en : s'.nw = s.nw) (ew : s'.ws = s.ws) (hh : ∀ j, holds j s'.mpc ↔ holds j s.mpc)
    (hall : ∀ j < s.nw, Allowed ((sc.tasks s.call).length - 1) j (s.ws j) s.mpc → WOk (s.ws j) →
      ((s.ws j).lock = some .master ↔ holds j s.mpc) →
      Allowed ((sc.tasks s.call).length - 1) j (s.ws j) s'.mpc)
    (hcnt : s'.count + owed ((sc.tasks s.call).length - 1) s.nw s.mpc =
      s.count + owed ((sc.tasks s.call).length - 1) s.nw s'.mpc)
    (hph : Phase sc s') (hlog : ∀ c j, logOf s'.log (c, j) ++ rem sc s' c j = sc.prog c j) :
    Inv sc s' where
  wok := by rw [en, ew]; exact h.wok
  lockM := by
    intro j hj; rw [ew, hh]; exact h.lockM j (en ▸ hj)
  allowed := by
    intro j hj; rw [ew, ec]
    exact hall j (en ▸ hj) (h.allowed j (en ▸ hj)) (h.wok j (en ▸ hj)) (h.lockM j (en ▸ hj))
  cnt := by
    have := h.cnt
    rw [ec, en, ew]; omega
  task := by rw [en, ew, ec]; exact h.task
  phase := hph
  hist := hlog

/-- A move of the master that changes worker `i`. -/
theorem inv_touch {sc : Script ε} {s s' : State ε} (h : Inv sc s) {i : Nat} (hi : i < s.nw)
    {w' : Worker ε} (ec : s'.call = s.call) (en : s'.nw = s.nw)
    (ew : s'.ws = fun j => if j = i then w' else s.ws j) (el : s'.log = s.log)
    (hok : WOk w') (hlock : w'.lock = some .master ↔ holds i s'.mpc)
    (hh : ∀ j, j ≠ i → (holds j s'.mpc ↔ holds j s.mpc))
    (halli : Allowed ((sc.tasks s.call).length - 1) i w' s'.mpc)
    (hall : ∀ j, j < s.nw → j ≠ i → Allowed ((sc.tasks s.call).length - 1) j (s.ws j) s.mpc →
      Allowed ((sc.tasks s.call).length - 1) j (s.ws j) s'.mpc)
    (hcnt : s'.count + pend (s.ws i) + owed ((sc.tasks s.call).length - 1) s.nw s.mpc =
      s.count + pend w' + owed ((sc.tasks s.call).length - 1) s.nw s'.mpc)
    (htask : ∀ x, w'.task = some x → x = ((s.call, i), sc.prog s.call i))
    (hph : Phase sc s') (hm : ∀ p, mrem p s'.mpc = mrem p s.mpc)
    (hst : ∀ j, j ≠ i → (started j s'.mpc ↔ started j s.mpc))
    (hsi : i + 1 < (sc.tasks s.call).length →
      (if started i s'.mpc then wrem w' else sc.prog s.call i) =
      (if started i s.mpc then wrem (s.ws i) else sc.prog s.call i)) : Inv sc s' where
  wok := by
    intro j hj; rw [ew]; dsimp only
    split
    · exact hok
    · exact h.wok j (en ▸ hj)
  lockM := by
    intro j hj; rw [ew]; dsimp only
    split
    · next e => subst e; exact hlock
    · next e => rw [hh j e]; exact h.lockM j (en ▸ hj)
  allowed := by
    intro j hj; rw [ew, ec]; dsimp only
    split
    · next e => subst e; exact halli
    · next e => exact hall j (en ▸ hj) e (h.allowed j (en ▸ hj))
  cnt := by
    have h1 := h.cnt
    have h2 := natSum_upd (n := s.nw) (f := fun j => pend (s.ws j)) (g := fun j => pend (s'.ws j)) hi
      (by intro j hj; simp only [ew, if_neg hj])
    have h3 : pend (s'.ws i) = pend w' := by simp [ew]
    rw [ec, en]
    rw [h3] at h2
    omega
  task := by
    intro j hj x; rw [ew, ec]; dsimp only
    split
    · next e => subst e; exact htask x
    · exact h.task j (en ▸ hj) x
  phase := hph
  hist := by
    intro c j
    rw [el, rem_congr ec hm]
    · exact h.hist c j
    · intro j hj
      by_cases e : j = i
      · subst e; rw [ew]; simpa using hsi hj
      · rw [ew]; simp only [if_neg e, hst j e]

theorem idle_task {w : Worker ε} (h : Idle w) (hw : WOk w) (hl : w.lock ≠ some .master) :
    w.task = none := by
  rcases h.cases hw with e | e | e | e | e <;> simp only [WOk, e] at hw
  · exact hw.2.2.2.2 h.1 hl
  · exact hw.2.2.2.2 h.1 hl
  · exact hw.2.2.2.2 h.1 hl
  · exact hw.2.1.2.2.2 h.1 hl
  · exact hw.2.2.2.2 h.1 hl

theorem idle_lock {w : Worker ε} (h : Idle w) (hw : WOk w) (hl : w.lock = some .master) :
    w.pc = .spin ∨ w.pc = .lockWait ∨ w.pc = .waiting ∨ w.pc = .woken := by
  rcases h.cases hw with e | e | e | e | e <;> simp only [WOk, e] at hw <;> simp_all

/-- An idle worker stays fine when the master takes or gives back its lock or sets its task. -/
theorem idle_wok {w w' : Worker ε} (h : Idle w) (hw : WOk w) (ep : w'.pc = w.pc)
    (es : w'.st = w.st) (hl0 : w.lock = none ∨ w.lock = some .master)
    (hl : w'.lock = some .master ∨ w'.lock = none ∧ w'.task = none) :
    WOk w' := by
  have hpc : w.pc = .spin ∨ w.pc = .lockWait ∨ w.pc = .waiting ∨ w.pc = .woken := by
    rcases h.cases hw with e | e | e | e | e <;> simp only [WOk, e] at hw <;> simp_all
  have hr : w'.st = .ready := es.trans h.1
  have hlw : w'.lock ≠ some .worker := by rcases hl with e | e <;> simp [e]
  have hq : Quiet w' := by
    refine ⟨by simp [hr], by simp [hr], by simp [hr], fun _ hm => ?_⟩
    rcases hl with e | e
    · exact absurd e hm
    · exact e.2
  unfold WOk
  rw [ep]
  rcases hpc with e | e | e | e <;> simp only [e] <;> simp [hlw, hq, hr]

theorem mstep_inv {sc : Script ε} {s s' : State ε} (h : Inv sc s)
    (hs : mstep sc s = .next s') : Inv sc s' := by
  have hph := h.phase
  have hcnt := h.cnt
  unfold mstep at hs
  unfold Phase at hph
  dsimp only at hs hph
  split at hs <;> rename_i hm <;> simp only [hm] at hph
  -- idle
  · split at hs
    · next hc =>
      split at hs
      · simp at hs
      · next hne =>
        injection hs with hs; subst hs
        refine inv_same h rfl rfl rfl ?_ ?_ ?_ ?_ ?_
        · intro j; simp [holds, hm]
        · intro j hj; simp only [hm, Allowed]; exact fun h _ _ => h
        · simp [hm, owed]
        · have : 0 < (sc.tasks s.call).length := List.length_pos_iff.mpr hne
          simp only [Phase]; omega
        · exact hist_same h rfl rfl (by simp [hm, mrem]) (by simp [hm, started])
    · next hc =>
      injection hs with hs; subst hs
      refine inv_same h rfl rfl rfl ?_ ?_ ?_ ?_ ?_
      · intro j; simp [holds, hm]
      · intro j hj; simp only [hm, Allowed]; exact fun h _ _ => by simpa using h
      · simp [hm, owed]
      · simp only [Phase]; omega
      · exact hist_same h rfl rfl (by simp [hm, mrem]) (by simp [hm, started])
  -- cwCheck
  · injection hs with hs; subst hs
    refine inv_same h rfl rfl rfl ?_ ?_ ?_ ?_ ?_
    · intro j; dsimp only; split <;> simp [holds, hm]
    · intro j hj; dsimp only; split <;> simp only [hm, Allowed] <;> exact fun h _ _ => h
    · dsimp only; split <;> simp [hm, owed]
    · simp only [Phase]; split <;> (rename_i hq; split at hq <;> simp_all) <;> omega
    · exact hist_same h rfl rfl (by dsimp only; split <;> simp [hm, mrem]) (by dsimp only; split <;> simp [hm, started])
  -- cwReset
  · split at hs
    · simp at hs
    · injection hs with hs; subst hs
      refine inv_same h rfl rfl rfl ?_ ?_ ?_ ?_ ?_
      · intro j; simp [holds, hm]
      · intro j hj; simp only [hm, Allowed]; exact fun h _ _ => .inr h.1
      · simp only [hm, owed]; omega
      · simp only [Phase]; omega
      · exact hist_same h rfl rfl (by simp [hm, mrem]) (by simp [hm, started])
  -- cwCreate
  · split at hs
    · next hlt =>
      injection hs with hs; subst hs
      have hws : ∀ j, j < s.nw → (s.setW s.nw newWorker).ws j = s.ws j := by
        intro j hj; simp only [State.setW]; rw [if_neg (by omega)]
      have hwn : (s.setW s.nw newWorker).ws s.nw = newWorker := by simp [State.setW]
      refine ⟨?_, ?_, ?_, ?_, ?_, ?_, ?_⟩
      · intro j hj; dsimp only at hj ⊢
        by_cases e : j = s.nw
        · rw [e, hwn]; simp [WOk, newWorker, Entering]
        · rw [hws j (by omega)]; exact h.wok j (by omega)
      · intro j hj; dsimp only at hj ⊢
        by_cases e : j = s.nw
        · rw [e, hwn]; simp [State.setW, newWorker, hm, holds]
        · rw [hws j (by omega)]; exact h.lockM j (by omega)
      · intro j hj; dsimp only at hj ⊢
        by_cases e : j = s.nw
        · rw [e, hwn]; simp [State.setW, newWorker, hm, Allowed]
        · rw [hws j (by omega)]; exact h.allowed j (by omega)
      · dsimp only [natSum]
        rw [natSum_congr (g := fun j => pend (s.ws j)) (fun j hj => by rw [hws j hj]), hwn]
        simp only [State.setW, hm, owed] at hcnt ⊢
        have : pend (newWorker : Worker ε) = 1 := rfl
        omega
      · intro j hj x; dsimp only at hj ⊢
        by_cases e : j = s.nw
        · rw [e, hwn]; simp [newWorker]
        · rw [hws j (by omega)]; exact h.task j (by omega) x
      · simp only [Phase, State.setW, hm]; omega
      · exact hist_same h rfl rfl (by simp [State.setW]) (by simp [State.setW, hm, started])
    · next hge =>
      injection hs with hs; subst hs
      refine inv_same h rfl rfl rfl ?_ ?_ ?_ ?_ ?_
      · intro j; simp [holds, hm]
      · intro j hj; simp only [hm, Allowed]; exact fun h _ _ => h
      · simp only [hm, owed]; omega
      · simp only [Phase]; omega
      · exact hist_same h rfl rfl (by simp [hm, mrem]) (by simp [hm, started])
  -- cwWait
  · split at hs
    · next h0 =>
      injection hs with hs; subst hs
      refine inv_same h rfl rfl rfl ?_ ?_ ?_ ?_ ?_
      · intro j; simp [holds, hm]
      · intro j hj; simp only [hm, Allowed]
        intro ha _ _
        have hp := natSum_eq_zero (n := s.nw) (f := fun j => pend (s.ws j)) (by omega) hj
        rcases ha with e | e
        · rw [pend_startup e] at hp; simp at hp
        · exact ⟨e, hp⟩
      · simp only [hm, owed]
      · simp only [Phase]; omega
      · exact hist_same h rfl rfl (by simp [hm, mrem]) (by simp [hm, started])
    · injection hs with hs; subst hs; exact h
  -- reset
  · split at hs
    · simp at hs
    · split at hs
      · simp at hs
      · injection hs with hs; subst hs
        refine inv_same h rfl rfl rfl ?_ ?_ ?_ ?_ ?_
        · intro j; simp [holds, hm]
        · intro j hj; simp only [hm, Allowed]; exact fun h _ _ => by simpa using h
        · simp only [hm, owed]; omega
        · simp only [Phase]; omega
        · exact hist_same h rfl rfl (by simp [hm, mrem]) (by simp [hm, started])
  -- swLock
  · next i =>
    split at hs
    · next hin =>
      split at hs
      · next hlk =>
        injection hs with hs; subst hs
        have hi : i < s.nw := by omega
        have hI : Idle (s.ws i) := by
          have := h.allowed i hi; simpa [hm, Allowed] using this
        have htn := idle_task hI (h.wok i hi) (by simp [hlk])
        refine inv_touch h hi rfl rfl rfl rfl (idle_wok hI (h.wok i hi) rfl rfl (.inl hlk) (.inl rfl))
          ?_ ?_ ?_ ?_ ?_ ?_ ?_ ?_ ?_ ?_
        · simp [holds]
        · intro j hj; simp [holds, hm, hj]
        · simp only [Allowed, Nat.lt_irrefl, if_false]; exact ⟨hI, fun _ => htn⟩
        · intro j hj hji; simp only [hm, Allowed]
          split
          · exact id
          · exact fun h => ⟨h, fun e => absurd e hji⟩
        · simp only [hm, owed, State.setW]; rfl
        · simp [htn]
        · simp only [Phase, State.setW]; omega
        · simp [hm, mrem]
        · simp [hm, started]
        · simp [hm, started]
      · simp at hs
    · next hin =>
      injection hs with hs; subst hs
      refine inv_same h rfl rfl rfl ?_ ?_ ?_ ?_ ?_
      · intro j; simp [holds, hm]
      · intro j hj; simp only [hm, Allowed]
        have : i = (sc.tasks s.call).length - 1 := by omega
        rw [this]; exact fun h _ _ => h
      · simp only [hm, owed]; omega
      · simp only [Phase]; omega
      · intro c j
        have h1 := h.hist c j
        have : rem sc { s with mpc := MPc.run (sc.prog s.call ((sc.tasks s.call).length - 1)) } c j =
            rem sc s c j := by
          unfold rem
          simp only [hm, mrem, started]
          by_cases q1 : c < s.call
          · simp [q1]
          · by_cases q2 : s.call < c
            · simp [q1, q2]
            · have e : c = s.call := by omega
              subst e
              simp only [Nat.lt_irrefl, if_false]
              by_cases q3 : j + 1 = (sc.tasks s.call).length
              · have : j = (sc.tasks s.call).length - 1 := by omega
                simp only [q3, if_true]; rw [← this]
              · simp only [if_neg q3]
                by_cases q4 : j + 1 < (sc.tasks s.call).length
                · have : j < i := by omega
                  simp [q4, this]
                · simp [q4]
        rw [this]; exact h1
  -- swSet
  · next i =>
    split at hs
    · next hst =>
      split at hs
      · simp at hs
      · next htn =>
        injection hs with hs; subst hs
        have hi : i < s.nw := by omega
        have hI : Idle (s.ws i) := by
          have := h.allowed i hi; simp [hm, Allowed] at this; exact this.1
        have hlk : (s.ws i).lock = some .master := by rw [h.lockM i hi, hm]; rfl
        refine inv_touch h hi rfl rfl rfl rfl (idle_wok hI (h.wok i hi) rfl rfl (.inr hlk) (.inl hlk))
          ?_ ?_ ?_ ?_ ?_ ?_ ?_ ?_ ?_ ?_
        · simp [holds, hlk]
        · intro j hj; simp [holds, hm]
        · simp only [Allowed, Nat.lt_irrefl, if_false]; exact ⟨hI, fun _ => by simp⟩
        · intro j hj hji; simp only [hm, Allowed]
          split
          · exact id
          · exact fun h => ⟨h.1, fun e => absurd e hji⟩
        · simp only [hm, owed, State.setW]; rfl
        · intro x hx; simpa using hx.symm
        · simp only [Phase, State.setW]; omega
        · simp [hm, mrem]
        · simp [hm, started]
        · simp [hm, started]
    · simp at hs
  -- swStore
  · next i =>
    injection hs with hs; subst hs
    have hi : i < s.nw := by omega
    have hA := h.allowed i hi
    simp only [hm, Allowed, Nat.lt_irrefl, if_false] at hA
    obtain ⟨hI, htk⟩ := hA
    replace htk := htk trivial
    have hlk : (s.ws i).lock = some .master := by rw [h.lockM i hi, hm]; rfl
    have hpc := idle_lock hI (h.wok i hi) hlk
    have e1 : ({ s.ws i with st := .hasWork } : Worker ε).wake.st = .hasWork := by
      unfold Worker.wake; rcases hpc with e | e | e | e <;> simp [e]
    have e2 : ({ s.ws i with st := .hasWork } : Worker ε).wake.task = (s.ws i).task := by
      unfold Worker.wake; rcases hpc with e | e | e | e <;> simp [e]
    have e3 : ({ s.ws i with st := .hasWork } : Worker ε).wake.lock = some .master := by
      unfold Worker.wake; rcases hpc with e | e | e | e <;> simp [e, hlk]
    have e4 : ({ s.ws i with st := .hasWork } : Worker ε).wake.pc = .spin ∨
        ({ s.ws i with st := .hasWork } : Worker ε).wake.pc = .lockWait ∨
        ({ s.ws i with st := .hasWork } : Worker ε).wake.pc = .woken := by
      unfold Worker.wake; rcases hpc with e | e | e | e <;> simp [e]
    generalize hw' : ({ s.ws i with st := .hasWork } : Worker ε).wake = w' at *
    have hq : Quiet w' := ⟨by simp [e1], fun _ => by rw [e2]; exact htk, by simp [e1], by simp [e1]⟩
    refine inv_touch (w' := w') h hi rfl rfl rfl rfl ?_ ?_ ?_ ?_ ?_ ?_ ?_ ?_ ?_ ?_ ?_
    · unfold WOk; rcases e4 with e | e | e <;> simp [e, e3, hq]
    · simp [holds, e3]
    · intro j hj; simp [holds, hm]
    · simp only [Allowed, Nat.le_refl, if_true]; exact ⟨.inr e1, fun _ => e1⟩
    · intro j hj hji; simp only [hm, Allowed]
      by_cases q : j < i
      · simp only [if_pos q, if_pos (Nat.le_of_lt q)]; exact fun h => ⟨h, fun e => absurd e hji⟩
      · simp only [if_neg q, if_neg (show ¬ j ≤ i by omega)]; exact fun h => h.1
    · rw [pend_work e1, hI.2]
      simp only [hm, owed, State.setW]; omega
    · intro x hx; rw [e2] at hx; exact h.task i hi x hx
    · simp only [Phase, State.setW]; omega
    · simp [hm, mrem]
    · intro j hj; simp only [hm, started]; omega
    · intro _
      simp only [hm, started, Nat.le_refl, Nat.lt_irrefl, if_true, if_false]
      cases hx : (s.ws i).task with
      | none => exact absurd hx htk
      | some x =>
        have := h.task i hi x hx
        subst this
        unfold wrem; rw [e2, hx]
        rcases e4 with e | e | e <;> simp [e]
  -- swUnlock
  · next i =>
    injection hs with hs; subst hs
    have hi : i < s.nw := by omega
    have hA := h.allowed i hi
    simp only [hm, Allowed, Nat.le_refl, if_true] at hA
    have hst := hA.2 trivial
    have hlk : (s.ws i).lock = some .master := by rw [h.lockM i hi, hm]; rfl
    have hw := h.wok i hi
    refine inv_touch h hi rfl rfl rfl rfl ?_ ?_ ?_ ?_ ?_ ?_ ?_ ?_ ?_ ?_ ?_
    · unfold WOk at hw ⊢
      cases hpc : (s.ws i).pc <;> simp_all [Quiet, Entering]
    · simp [holds]
    · intro j hj; simp [holds, hm, hj]
    · simp only [Allowed, Nat.lt_succ_self, if_true]; exact .inr hst
    · intro j hj hji; simp only [hm, Allowed]
      by_cases q : j < i
      · simp only [if_pos (show j < i + 1 by omega), if_pos (Nat.le_of_lt q)]; exact fun h => h.1
      · simp only [if_neg (show ¬ j < i + 1 by omega), if_neg (show ¬ j ≤ i by omega)]; exact id
    · rw [pend_work hst, pend_work (by exact hst)]
      simp only [hm, owed, State.setW]
    · intro x hx; exact h.task i hi x hx
    · simp only [Phase, State.setW]; omega
    · simp [hm, mrem]
    · intro j hj; simp only [hm, started]; omega
    · simp only [hm, started, Nat.le_refl, Nat.lt_succ_self, if_true]; intro _; rfl
  -- run []
  · injection hs with hs; subst hs
    refine inv_same h rfl rfl rfl ?_ ?_ ?_ ?_ ?_
    · intro j; simp [holds, hm]
    · intro j hj; simp only [hm, Allowed]; exact fun h _ _ => h
    · simp [hm, owed]
    · simp only [Phase]; omega
    · exact hist_same h rfl rfl (by simp [hm, mrem]) (by simp [hm, started])
  -- run (e :: es)
  · next e es =>
    injection hs with hs; subst hs
    refine inv_same h rfl rfl rfl ?_ ?_ ?_ ?_ ?_
    · intro j; simp [holds, hm]
    · intro j hj; simp only [hm, Allowed]; exact fun h _ _ => h
    · simp [hm, owed]
    · simp only [Phase]; omega
    · intro c j
      have h1 := h.hist c j
      dsimp only
      rw [logOf_snoc]
      split
      · next hk =>
        simp only [Prod.mk.injEq] at hk
        obtain ⟨rfl, rfl⟩ := hk
        simp only [rem, Nat.lt_irrefl, if_false, hm, mrem,
          if_pos (show (sc.tasks s.call).length - 1 + 1 = (sc.tasks s.call).length by omega)] at h1 ⊢
        simpa using h1
      · next hk =>
        have : rem sc { s with log := s.log ++ [((s.call, (sc.tasks s.call).length - 1), e)],
                               mpc := MPc.run es } c j = rem sc s c j := by
          unfold rem
          simp only [hm, mrem, started]
          by_cases q1 : c < s.call
          · simp [q1]
          · by_cases q2 : s.call < c
            · simp [q1, q2]
            · have e : c = s.call := by omega
              subst e
              have q3 : j + 1 ≠ (sc.tasks s.call).length := by
                intro q; apply hk; rw [← q]; simp
              simp [q3]
        rw [this]; exact h1
  -- wait
  · split at hs
    · next h0 =>
      injection hs with hs; subst hs
      have hp : ∀ j < s.nw, Idle (s.ws j) := by
        intro j hj
        have hp := natSum_eq_zero (n := s.nw) (f := fun j => pend (s.ws j)) (by omega) hj
        have ha := h.allowed j hj
        simp only [hm, Allowed] at ha
        split at ha
        · rcases ha with e | e
          · exact ⟨e, hp⟩
          · rw [pend_work e] at hp; simp at hp
        · exact ha
      have htn : ∀ j < s.nw, (s.ws j).task = none := fun j hj =>
        idle_task (hp j hj) (h.wok j hj) (by rw [Ne, h.lockM j hj, hm]; simp [holds])
      refine ⟨h.wok, ?_, ?_, ?_, ?_, ?_, ?_⟩
      · intro j hj; rw [h.lockM j hj, hm]; simp [holds]
      · intro j hj; exact hp j hj
      · simp only [hm, owed] at hcnt ⊢; exact hcnt
      · intro j hj x hx; rw [htn j hj] at hx; simp at hx
      · simp only [Phase]; omega
      · intro c j
        have h1 := h.hist c j
        unfold rem at h1 ⊢
        simp only [hm, mrem, started, and_false, if_false, and_true] at h1 ⊢
        by_cases q1 : c < s.call
        · simpa [q1, show c < s.call + 1 by omega] using h1
        · by_cases q2 : c = s.call
          · subst q2
            simp only [Nat.lt_irrefl, if_false] at h1
            simp only [Nat.lt_succ_self, if_true]
            by_cases q3 : j + 1 = (sc.tasks s.call).length
            · simpa [q3] using h1
            · simp only [if_neg q3] at h1
              by_cases q4 : j + 1 < (sc.tasks s.call).length
              · simp only [if_pos q4] at h1
                have : wrem (s.ws j) = [] := by
                  unfold wrem; rw [htn j (by omega)]
                rwa [this] at h1
              · simp only [if_neg q4] at h1
                rw [prog_oob sc (by omega)] at h1 ⊢
                exact h1
          · have q3 : s.call < c := by omega
            simp only [if_neg q1, if_pos q3] at h1
            simp only [show ¬ c < s.call + 1 by omega, if_false]
            by_cases q5 : s.call + 1 < c
            · simpa [q5] using h1
            · simp only [if_neg q5]
              split <;> exact h1
    · injection hs with hs; subst hs; exact h
  -- dLock
  · next i =>
    split at hs
    · next hi =>
      split at hs
      · next hlk =>
        injection hs with hs; subst hs
        have hI : Idle (s.ws i) := by
          have := h.allowed i hi; simpa [hm, Allowed] using this
        have htn := idle_task hI (h.wok i hi) (by simp [hlk])
        refine inv_touch h hi rfl rfl rfl rfl (idle_wok hI (h.wok i hi) rfl rfl (.inl hlk) (.inl rfl))
          ?_ ?_ ?_ ?_ ?_ ?_ ?_ ?_ ?_ ?_
        · simp [holds]
        · intro j hj; simp [holds, hm, hj]
        · simp only [Allowed, Nat.lt_irrefl, if_false]; exact ⟨hI, fun _ => htn⟩
        · intro j hj hji; simp only [hm, Allowed]
          split
          · exact id
          · exact fun h => ⟨h, fun e => absurd e hji⟩
        · simp only [hm, owed, State.setW]; rfl
        · simp [htn]
        · simp only [Phase, State.setW]; omega
        · simp [hm, mrem]
        · simp [hm, started]
        · simp [hm, started]
      · simp at hs
    · next hi =>
      injection hs with hs; subst hs
      refine inv_same h rfl rfl rfl ?_ ?_ ?_ ?_ ?_
      · intro j; simp [holds, hm]
      · intro j hj; simp only [hm, Allowed]
        intro ha _ _
        rwa [if_pos (by omega)] at ha
      · simp only [hm, owed]
      · simp only [Phase]; omega
      · exact hist_same h rfl rfl (by simp [hm, mrem]) (by simp [hm, started])
  -- dSet
  · next i =>
    have key : Inv sc { s with mpc := .dStore i } := by
      refine inv_same h rfl rfl rfl ?_ ?_ ?_ ?_ ?_
      · intro j; simp [holds, hm]
      · intro j hj; simp only [hm, Allowed]; exact fun h _ _ => h
      · simp only [hm, owed]
      · simp only [Phase]; omega
      · exact hist_same h rfl rfl (by simp [hm, mrem]) (by simp [hm, started])
    split at hs
    · injection hs with hs; subst hs; exact key
    · injection hs with hs; subst hs; exact key
    · simp at hs
  -- dStore
  · next i =>
    injection hs with hs; subst hs
    have hi : i < s.nw := by omega
    have hA := h.allowed i hi
    simp only [hm, Allowed, Nat.lt_irrefl, if_false] at hA
    obtain ⟨hI, htk⟩ := hA
    replace htk := htk trivial
    have hlk : (s.ws i).lock = some .master := by rw [h.lockM i hi, hm]; rfl
    have hpc := idle_lock hI (h.wok i hi) hlk
    have e1 : ({ s.ws i with st := .exit } : Worker ε).wake.st = .exit := by
      unfold Worker.wake; rcases hpc with e | e | e | e <;> simp [e]
    have e2 : ({ s.ws i with st := .exit } : Worker ε).wake.task = (s.ws i).task := by
      unfold Worker.wake; rcases hpc with e | e | e | e <;> simp [e]
    have e3 : ({ s.ws i with st := .exit } : Worker ε).wake.lock = some .master := by
      unfold Worker.wake; rcases hpc with e | e | e | e <;> simp [e, hlk]
    have e4 : ({ s.ws i with st := .exit } : Worker ε).wake.pc = .spin ∨
        ({ s.ws i with st := .exit } : Worker ε).wake.pc = .lockWait ∨
        ({ s.ws i with st := .exit } : Worker ε).wake.pc = .woken := by
      unfold Worker.wake; rcases hpc with e | e | e | e <;> simp [e]
    generalize hw' : ({ s.ws i with st := .exit } : Worker ε).wake = w' at *
    have hq : Quiet w' := ⟨by simp [e1], by simp [e1], fun _ => by rw [e2]; exact htk, by simp [e1]⟩
    refine inv_touch (w' := w') h hi rfl rfl rfl rfl ?_ ?_ ?_ ?_ ?_ ?_ ?_ ?_ ?_ ?_ ?_
    · unfold WOk; rcases e4 with e | e | e <;> simp [e, e3, hq]
    · simp [holds, e3]
    · intro j hj; simp [holds, hm]
    · simp only [Allowed, Nat.lt_irrefl, if_false, if_true]; exact e1
    · intro j hj hji; simp only [hm, Allowed, if_neg hji]
      by_cases q : j < i
      · simp only [if_pos q]; exact id
      · simp only [if_neg q]; exact fun h => h.1
    · rw [pend_exit e1 (by rcases e4 with e | e | e <;> simp [e])
        (by rcases e4 with e | e | e <;> simp [e]), hI.2]
      simp only [hm, owed, State.setW]
    · intro x hx; rw [e2] at hx; exact h.task i hi x hx
    · simp only [Phase, State.setW]; omega
    · simp [hm, mrem]
    · intro j hj; simp [hm, started]
    · simp [hm, started]
  -- dUnlock
  · next i =>
    injection hs with hs; subst hs
    have hi : i < s.nw := by omega
    have hst := h.allowed i hi
    simp only [hm, Allowed, Nat.lt_irrefl, if_false, if_true] at hst
    have hlk : (s.ws i).lock = some .master := by rw [h.lockM i hi, hm]; rfl
    have hw := h.wok i hi
    refine inv_touch h hi rfl rfl rfl rfl ?_ ?_ ?_ ?_ ?_ ?_ ?_ ?_ ?_ ?_ ?_
    · unfold WOk at hw ⊢
      cases hpc : (s.ws i).pc <;> simp_all [Quiet, Entering]
    · simp [holds]
    · intro j hj; simp [holds, hm, hj]
    · simp only [Allowed, Nat.lt_irrefl, if_false, if_true]; exact hst
    · intro j hj hji; simp only [hm, Allowed]; exact id
    · simp only [hm, owed, State.setW]; rfl
    · intro x hx; exact h.task i hi x hx
    · simp only [Phase, State.setW]; omega
    · simp [hm, mrem]
    · simp [hm, started]
    · simp [hm, started]
  -- dJoin
  · next i =>
    split at hs
    · next hpc =>
      injection hs with hs; subst hs
      refine inv_same h rfl rfl rfl ?_ ?_ ?_ ?_ ?_
      · intro j; simp [holds, hm]
      · intro j hj; simp only [hm, Allowed]
        intro ha _ _
        by_cases q : j < i
        · rw [if_pos q] at ha; rwa [if_pos (by omega)]
        · rw [if_neg q] at ha
          by_cases q2 : j = i
          · subst q2; rw [if_pos (by omega)]; exact hpc
          · rw [if_neg q2] at ha; rwa [if_neg (by omega)]
      · simp only [hm, owed]
      · simp only [Phase]; omega
      · exact hist_same h rfl rfl (by simp [hm, mrem]) (by simp [hm, started])
    · simp at hs
  -- done
  · simp at hs

end Gemmlowp.Pool
