import Verif.PthreadPoolProof
import Verif.PropsPthread
/-!
# C74: the pool of worker threads uses the pthread functions as POSIX allows
-/
namespace Gemmlowp
namespace Shim

variable {ε : Type} {n : Nat}

theorem step_calls {K : Nat} {sc : Pool.Script ε} {s s' : Pool.State ε} (h : Pool.Inv sc s) {c : Pool.Choice}
    (hK : s'.nw ≤ K) (hn : s.nw ≤ s'.nw) (hs : Pool.step sc s c = .next s') :
    Sp.steps (calls K sc s c) (view K s) = .ok (view K s') := by
  cases c with
  | master => exact mstep_calls h hK hs
  | worker i =>
    simp only [Pool.step] at hs
    split at hs
    · rename_i hi; exact wstep_calls h hi (by omega) hs
    · cases hs
  | giveUp i =>
    simp only [Pool.step] at hs
    split at hs
    · rename_i hi
      split at hs
      · rename_i e
        cases hs
        refine congrArg Res.ok ?_
        have hg := gone_le h hi (by rw [e]; simp)
        have hk : i < K := by have : s.nw ≤ K := hK; omega
        rw [worker_view hk hi hg { s.ws i with pc := .lockWait } (s' := s.setW i { s.ws i with pc := .lockWait }) rfl rfl
          rfl]
        have hm : (view K s).mutex i = some (ownerId K i (s.ws i).lock) := view_mutex hg hi
        have hp : (view K s).pc (tid K i) = .idle := by unfold view; rw [view_pc hk hi, e]; rfl
        have hl : (view K s).life (tid K i) = .running := by unfold view; rw [view_life hk hi, e]; rfl
        rw [upd_self hm, upd_self (x := waitPc i (Pool.WPc.lockWait : Pool.WPc ε)) hp,
          upd_self (x := lifeOf (Pool.WPc.lockWait : Pool.WPc ε)) hl]
      · cases hs
    · cases hs
  | spurious i =>
    simp only [Pool.step] at hs
    split at hs
    · rename_i hi
      split at hs
      · rename_i e
        cases hs
        have hg := gone_le h hi (by rw [e]; simp)
        have hk : i < K := by have : s.nw ≤ K := hK; omega
        rw [worker_view hk hi hg { s.ws i with pc := .woken } (s' := s.setW i { s.ws i with pc := .woken }) rfl rfl rfl]
        have hm : (view K s).mutex i = some (ownerId K i (s.ws i).lock) := view_mutex hg hi
        have hp : (view K s).pc (tid K i) = .sleeping i i := by unfold view; rw [view_pc hk hi, e]; rfl
        have hl : (view K s).life (tid K i) = .running := by unfold view; rw [view_life hk hi, e]; rfl
        rw [upd_self hm, upd_self (x := lifeOf (Pool.WPc.woken : Pool.WPc ε)) hl]
        show Sp.steps [(tid K i, .spurious)] (view K s) = _
        rw [steps_one]
        unfold Sp.step
        rw [if_pos hl, hp]
        rfl
      · cases hs
    · cases hs

theorem nw_mono {sc : Pool.Script ε} {s s' : Pool.State ε} {c : Pool.Choice} (hs : Pool.step sc s c = .next s') :
    s.nw ≤ s'.nw := by
  cases c with
  | worker i =>
    simp only [Pool.step] at hs
    split at hs
    · exact Nat.le_of_eq (Pool.wstep_frame hs).2.2.1.symm
    · cases hs
  | giveUp i =>
    simp only [Pool.step] at hs
    split at hs
    · split at hs <;> cases hs; exact Nat.le_refl _
    · cases hs
  | spurious i =>
    simp only [Pool.step] at hs
    split at hs
    · split at hs <;> cases hs; exact Nat.le_refl _
    · cases hs
  | master =>
    simp only [Pool.step] at hs
    unfold Pool.mstep at hs
    dsimp only at hs
    split at hs <;> (try split at hs) <;> (try split at hs) <;> (try (cases hs; done)) <;> cases hs <;>
      first | exact Nat.le_refl _ | exact Nat.le_succ _

theorem view_initial (K : Nat) : view K (Pool.initial : Pool.State ε) = Sp.init (K + 1) := by
  unfold view viewOf Sp.init
  rw [Sp.mk.injEq]
  refine ⟨funext fun i => if_neg (by simp [Pool.initial]), funext fun i => decide_eq_false (by simp [Pool.initial]),
    funext fun i => if_neg (by simp [Pool.initial]), funext fun t => ?_, funext fun t => ?_⟩
  · rw [if_neg (show ¬ t.val - 1 < (Pool.initial : Pool.State ε).nw by simp [Pool.initial])]
    split <;> rfl
  · by_cases e : t = 0
    · subst e; simp
    · rw [if_neg e, if_neg (show ¬ t.val = 0 from fun hh => e (Fin.ext hh)), if_neg (by simp [Pool.initial])]

theorem execute_calls {K : Nat} {sc : Pool.Script ε} (cs : List Pool.Choice) : ∀ {s s' : Pool.State ε}, Pool.Inv sc s →
    Pool.execute sc cs s = some s' → s'.nw ≤ K →
    s.nw ≤ s'.nw ∧ Sp.steps (callsOf K sc cs s) (view K s) = .ok (view K s') := by
  induction cs with
  | nil => intro s s' _ he _; cases he; exact ⟨Nat.le_refl _, rfl⟩
  | cons c cs ih =>
    intro s s' h he hK
    simp only [Pool.execute] at he
    unfold callsOf
    split at he
    · rename_i s1 hs
      obtain ⟨k1, k2⟩ := ih (Pool.step_inv h hs) he hK
      have := nw_mono hs
      refine ⟨by omega, ?_⟩
      rw [hs]
      dsimp only
      rw [steps_append, step_calls h (by omega) this hs]
      exact k2
    · rename_i hs
      rw [hs]
      exact ih h he hK
    · cases he

/-- **C74.**  For every client, every number of workers and every schedule: the pthread calls that the pool makes are all
allowed by POSIX, none of them has to wait where the pool's model moves, and the pool's locks, waiting threads and running
threads are those of POSIX. -/
theorem C74_pool_uses_posix {K : Nat} {sc : Pool.Script ε} {cs : List Pool.Choice} {s : Pool.State ε}
    (he : Pool.execute sc cs Pool.initial = some s) (hK : s.nw ≤ K) :
    Sp.steps (callsOf K sc cs Pool.initial) (Sp.init (K + 1)) = .ok (view K s) := by
  rw [← view_initial (ε := ε)]
  exact (execute_calls cs (Pool.inv_initial sc) he hK).2

/-- **C74**, the other direction: where the model of the pool says that a thread has to wait, it has to wait in a
pthread function. -/
theorem C74_blocked {K : Nat} {sc : Pool.Script ε} {cs : List Pool.Choice} {s : Pool.State ε}
    (he : Pool.execute sc cs Pool.initial = some s) (hK : s.nw ≤ K) :
    (s.mpc ≠ .done → Pool.step sc s .master = .blocked → Sp.steps (calls K sc s .master) (view K s) = .blocked) ∧
    (∀ i, i < s.nw → (s.ws i).pc ≠ .exited → Pool.step sc s (.worker i) = .blocked →
      Sp.steps (calls K sc s (.worker i)) (view K s) = .blocked) := by
  have h := Pool.reachable_inv (Pool.execute_reachable .init he)
  constructor
  · intro hd hs
    have hph := h.phase
    have hl : (view K s).life 0 = .running := rfl
    have hp : (view K s).pc 0 = .idle := rfl
    have held : ∀ i, i < s.nw → gone s ≤ i → (s.ws i).lock ≠ none → (s.ws i).lock ≠ some .master →
        Sp.steps [(0, .mutexLock i)] (view K s) = .blocked := by
      intro i hi hg e1 e2
      have hm : (view K s).mutex i = some (ownerId K i (s.ws i).lock) := view_mutex hg hi
      rw [steps_one, step_call hl hp (by simp)]
      simp only [Sp.call]
      rw [hm]
      cases e : (s.ws i).lock with
      | none => exact absurd e e1
      | some o =>
        cases o with
        | master => exact absurd e e2
        | worker =>
          simp only [ownerId]
          rw [if_neg]
          rw [Fin.ext_iff, tid_val (by omega)]
          simp
    simp only [Pool.step] at hs
    unfold Pool.mstep at hs
    unfold calls masterCalls
    unfold Pool.Phase at hph
    have hlm := h.lockM
    have hgone : gone s = match s.mpc with
      | .dLock i | .dSet i | .dStore i | .dUnlock i | .dJoin i => i
      | .done => s.nw
      | _ => 0 := rfl
    dsimp only at hs hph ⊢
    split at hs <;> rename_i e <;> rw [e] at hph hlm hgone <;> dsimp only at hph hgone
    case h_7 i =>
      split at hs
      · rename_i hn
        rw [e]
        dsimp only
        rw [if_pos hn]
        split at hs
        · cases hs
        · rename_i el
          refine held i (by omega) (by omega) (by rw [el]; simp) fun hh => ?_
          exact absurd ((hlm i (by omega)).1 hh) (by simp [Pool.holds])
      · cases hs
    case h_14 i =>
      split at hs
      · rename_i hn
        rw [e]
        dsimp only
        rw [if_pos hn]
        split at hs
        · cases hs
        · rename_i el
          refine held i (by omega) (by omega) (by rw [el]; simp) fun hh => ?_
          exact absurd ((hlm i (by omega)).1 hh) (by simp [Pool.holds])
      · cases hs
    case h_18 i =>
      split at hs
      · cases hs
      · rename_i ex
        have hi : i < s.nw := hph.2.2
        have hk : i < K := by omega
        rw [e]
        simp only [List.map_cons, List.map_nil, Sp.steps]
        rw [step_call hl hp (by simp)]
        simp only [Sp.call]
        have ht : (view K s).thread i = some (tid K i, false) := by
          show (if _ then _ else _) = _
          rw [if_pos hi, decide_eq_false (by omega)]
        have hli : (view K s).life (tid K i) ≠ .finished := by
          unfold view
          rw [view_life hk hi]
          cases e2 : (s.ws i).pc <;> simp only [lifeOf] <;> first | (exact absurd e2 ex) | (intro hh; cases hh)
        rw [ht]
        dsimp only
        rw [if_neg (by rw [Fin.ext_iff, tid_val hk]; simp), if_neg hli]
    case h_19 => exact absurd e hd
    all_goals
      (try split at hs) <;> (try split at hs) <;> cases hs
  · intro i hi hx hs
    have hk : i < K := by omega
    have hg := gone_le h hi hx
    have hl : (view K s).life (tid K i) = .running := by
      unfold view
      rw [view_life hk hi]
      cases e : (s.ws i).pc <;> first | rfl | exact absurd e hx
    have hm : (view K s).mutex i = some (ownerId K i (s.ws i).lock) := view_mutex hg hi
    have hp : (view K s).pc (tid K i) = waitPc i (s.ws i).pc := view_pc hk hi
    have hw := h.wok i hi
    unfold Pool.WOk at hw
    have held : ∀ o, (s.ws i).lock = some o → o ≠ .worker → (s.ws i).lock = some .master := by
      intro o e1 e2
      cases o with
      | master => exact e1
      | worker => exact absurd rfl e2
    simp only [Pool.step, if_pos hi] at hs
    unfold Pool.wstep at hs
    unfold calls workerCalls
    have lk : ∀ o, (s.ws i).lock = some o → (s.ws i).lock ≠ some .worker → waitPc i (s.ws i).pc = .idle →
        Sp.steps [(tid K i, .mutexLock i)] (view K s) = .blocked := by
      intro o e1 e2 e3
      have e4 : o = .master := by cases o with
        | master => rfl
        | worker => exact absurd e1 e2
      rw [steps_one, step_call hl (hp.trans e3) (by simp)]
      simp only [Sp.call]
      rw [hm, e1, e4]
      simp only [ownerId]
      rw [if_neg]
      rw [Fin.ext_iff, tid_val hk]
      simp
    dsimp only at hs
    split at hs <;> rename_i e <;> rw [e] at hw <;> (try dsimp only at hw) <;> (try dsimp only) <;> rw [e] <;> (try dsimp only)
    case h_1 =>
      split at hs
      · cases hs
      · rename_i e1; exact lk _ e1 hw.1 (by rw [e]; rfl)
    case h_8 =>
      split at hs <;> cases hs
    case h_9 =>
      split at hs
      · cases hs
      · rename_i e1; exact lk _ e1 hw.1 (by rw [e]; rfl)
    case h_11 =>
      rw [e] at hp
      rw [List.map_cons, List.map_nil, steps_one, step_go hl]
      unfold Sp.goOn
      rw [hp]
      rfl
    case h_12 =>
      rw [e] at hp
      split at hs
      · cases hs
      · rename_i e1
        rw [List.map_cons, List.map_nil, steps_one, step_go hl]
        unfold Sp.goOn
        rw [hp]
        dsimp only [waitPc]
        rw [hm, e1]
        rename_i o
        cases o <;> rfl
    all_goals
      first
      | exact absurd e hx
      | ((try split at hs) <;> (try split at hs) <;> cases hs)

/-- **C74**, the end: when the pool is destroyed, all mutexes and condition variables are destroyed, and all threads have
ended and been joined. -/
theorem C74_all_destroyed {K : Nat} {sc : Pool.Script ε} {cs : List Pool.Choice} {s : Pool.State ε}
    (he : Pool.execute sc cs Pool.initial = some s) (hK : s.nw ≤ K) (hd : s.mpc = .done) :
    ∃ a, Sp.steps (callsOf K sc cs Pool.initial) (Sp.init (K + 1)) = .ok a ∧
      (∀ i, a.mutex i = none ∧ a.cond i = false) ∧
      ∀ i, i < s.nw → a.thread i = some (tid K i, true) ∧ a.life (tid K i) = .finished := by
  have h := Pool.reachable_inv (Pool.execute_reachable .init he)
  have hg : gone s = s.nw := by unfold gone; rw [hd]
  refine ⟨_, C74_pool_uses_posix he hK, fun i => ⟨if_neg (by omega), decide_eq_false (by omega)⟩, fun i hi => ⟨?_, ?_⟩⟩
  · show (if _ then _ else _) = _
    rw [if_pos hi, decide_eq_true (by omega)]
  · have ha := h.allowed i hi
    rw [hd] at ha
    unfold view
    rw [view_life (by omega) hi, show (s.ws i).pc = .exited from ha]
    rfl

/-! ## On Windows -/

/-- Steps of which none has to wait. -/
def steps : List (Fin n × Act n) → St n → Res (St n)
  | [], s => .ok s
  | (t, x) :: l, s =>
    match step s t x with
    | .ok s' => steps l s'
    | .blocked => .blocked
    | .fault => .fault

/-- After the end of a wait, the two steps in which the function `pthread_cond_wait` of profiling/pthread_everywhere.h
gives up its lock object and returns (71-72). -/
def withReturns : List (Fin n × Act n) → Sp n → List (Fin n × Act n)
  | [], _ => []
  | (t, x) :: l, a =>
    match a.step t x with
    | .ok a' =>
      if x = .go ∧ a'.pc t = .idle then (t, x) :: (t, .go) :: (t, .go) :: withReturns l a' else (t, x) :: withReturns l a'
    | _ => []

theorem goOn_pc {s s' : St n} {t : Fin n} (h : goOn s t = .ok s') (u : Fin n) (hu : u ≠ t) : s'.pc u = s.pc u := by
  unfold goOn at h
  split at h
  · unfold deref waitBegin at h
    split at h
    · dsimp only at h
      split at h
      · split at h
        · split at h
          · rename_i e
            cases h
            unfold stdUnlock at e
            split at e
            · split at e
              · cases e; exact upd_ne _ _ hu
              · cases e
            · cases e
          · cases h
          · cases h
        · cases h
      · cases h
    · cases h
  · unfold waitEnd at h
    split at h
    · split at h
      · cases h
      · split at h
        · rename_i e
          unfold stdLock at e
          split at e
          · cases e; cases h; exact upd_ne _ _ hu
          · split at e <;> cases e
          · cases e
        · cases h
        · cases h
    · cases h
  · cases h; exact upd_ne _ _ hu
  · split at h
    · rename_i e
      cases h
      unfold dropLock at e
      split at e
      · split at e
        · unfold stdUnlock at e
          split at e
          · split at e
            · cases e; exact upd_ne _ _ hu
            · cases e
          · cases e
        · cases e
      · cases e; exact upd_ne _ _ hu
    · cases h
    · cases h
  · cases h

/-- A call does not bring a thread to the end of a wait. -/
theorem call_returning {s s' : St n} {t : Fin n} {x : Act n} (h : call s t x = .ok s')
    (hr : ∀ u, (s.pc u).returning = false) (u : Fin n) : (s'.pc u).returning = false := by
  have wk : ∀ (p : Nat) (y : Pc), y.returning = false → (wakeIf p y).returning = false := by
    intro p y hy
    unfold wakeIf
    split
    · split <;> rfl
    · exact hy
  have same : s'.pc = s.pc → (s'.pc u).returning = false := fun e => by rw [e]; exact hr u
  have one : ∀ t y, s'.pc = upd s.pc t y → y.returning = false → (s'.pc u).returning = false := by
    intro t y e hy
    rw [e]
    by_cases e2 : u = t
    · subst e2; rw [upd_same]; exact hy
    · rw [upd_ne _ _ e2]; exact hr u
  cases x <;> simp only [call, mutexInit, condInit, deref] at h
  case mutexInit => cases h; exact same rfl
  case mutexLock =>
    split at h
    · unfold stdLock at h
      split at h
      · cases h; exact same rfl
      · split at h <;> cases h
      · cases h
    · cases h
  case mutexUnlock =>
    split at h
    · unfold stdUnlock at h
      split at h
      · split at h
        · cases h; exact same rfl
        · cases h
      · cases h
    · cases h
  case mutexDestroy =>
    split at h
    · unfold deleteMutex at h
      split at h
      · cases h; exact same rfl
      · cases h
    · cases h
  case condInit => cases h; exact same rfl
  case condSignal =>
    split at h
    · unfold notifyOne at h
      split at h
      · split at h
        · cases h; exact same rfl
        · split at h
          · cases h; exact one _ _ rfl (wk _ _ (hr _))
          · cases h
      · cases h
    · cases h
  case condBroadcast =>
    split at h
    · unfold notifyAll at h
      split at h
      · cases h; exact wk _ _ (hr u)
      · cases h
    · cases h
  case condDestroy =>
    split at h
    · unfold deleteCond at h
      split at h
      · split at h
        · cases h; exact same rfl
        · cases h
      · cases h
    · cases h
  case condWait =>
    split at h
    · split at h
      · cases h; exact one _ _ rfl rfl
      · cases h
      · cases h
    · cases h
  case create =>
    unfold create at h
    split at h
    · cases h; exact same rfl
    · cases h
  case join =>
    split at h
    · unfold join at h
      split at h
      · split at h
        · cases h
        · split at h
          · cases h; exact same rfl
          · cases h
      · cases h
    · cases h
  case exit => cases h; exact same rfl
  case go => cases h
  case spurious => cases h

theorem steps_sim (l : List (Fin n × Act n)) : ∀ {s : St n} {a a' : Sp n}, Rel s a →
    (∀ u, (s.pc u).returning = false) → Sp.steps l a = .ok a' →
    ∃ s', steps (withReturns l a) s = .ok s' ∧ Rel s' a' ∧ ∀ u, (s'.pc u).returning = false := by
  induction l with
  | nil => intro s a a' h hr ha; cases ha; exact ⟨s, rfl, h, hr⟩
  | cons y l ih =>
    obtain ⟨t, x⟩ := y
    intro s a a' h hr ha
    unfold Sp.steps at ha
    unfold withReturns
    cases e : a.step t x with
    | blocked => rw [e] at ha; cases ha
    | fault => rw [e] at ha; cases ha
    | ok a1 =>
      rw [e] at ha
      dsimp only at ha ⊢
      rcases step_sim h t x with hs | ⟨k, -⟩
      · rw [e] at hs
        obtain ⟨s1, hs1, h1⟩ := hs
        by_cases hg : x = .go
        · subst hg
          have hl : s.life t = .running := by
            unfold step at hs1
            split at hs1
            · assumption
            · cases hs1
          have hs2 : goOn s t = .ok s1 := by
            unfold step at hs1
            rw [if_pos hl] at hs1
            exact hs1
          have hlife1 : s1.life t = .running := by
            have q := h1.life
            have q2 := h.life
            unfold Sp.step at e
            rw [show a.life t = s.life t from congrFun q2 t, if_pos hl] at e
            have : a1.life = a.life := by
              unfold Sp.goOn at e
              dsimp only at e
              split at e
              · split at e
                · cases e; rfl
                · cases e
              · split at e
                · cases e; rfl
                · cases e
                · cases e
              · cases e
            rw [← q, this, q2]; exact hl
          have hm := h1.pc t
          by_cases hi : a1.pc t = .idle
          · rw [if_pos ⟨rfl, hi⟩]
            -- the thread has the mutex again
            have hq : ∃ c m lk, s1.pc t = .locked c m lk := by
              unfold goOn at hs2
              have hrt := hr t
              rw [hi] at hm
              cases e1 : s.pc t <;> rw [e1] at hs2 hrt <;> dsimp only at hs2
              · cases hs2
              · unfold deref waitBegin at hs2
                split at hs2
                · dsimp only at hs2
                  split at hs2
                  · split at hs2
                    · split at hs2
                      · cases hs2
                        dsimp only at hm
                        rw [upd_same] at hm
                        exact hm.elim
                      · cases hs2
                      · cases hs2
                    · cases hs2
                  · cases hs2
                · cases hs2
              · cases hs2
              · unfold waitEnd at hs2
                split at hs2
                · split at hs2
                  · cases hs2
                  · split at hs2
                    · cases hs2; exact ⟨_, _, _, upd_same _ _ _⟩
                    · cases hs2
                    · cases hs2
                · cases hs2
              · cases hrt
              · cases hrt
            obtain ⟨c, m, lk, hq⟩ := hq
            have g1 : goOn s1 t = .ok { s1 with pc := upd s1.pc t (.released c m (releaseLock lk)) } := by
              unfold goOn; rw [hq]
            have g2 : goOn { s1 with pc := upd s1.pc t (.released c m (releaseLock lk)) } t =
                .ok { s1 with pc := upd (upd s1.pc t (.released c m (releaseLock lk))) t .idle } := by
              unfold goOn
              dsimp only
              rw [upd_same]
              rfl
            have h2 : Rel { s1 with pc := upd (upd s1.pc t (.released c m (releaseLock lk))) t .idle } a1 := by
              refine pc_rel h1 (spcs := a1.pc) fun u => ?_
              by_cases eu : u = t
              · subst eu; rw [upd_same, hi]; trivial
              · rw [upd_ne _ _ eu, upd_ne _ _ eu]; exact h1.pc u
            obtain ⟨s', k1, k2, k3⟩ := ih h2 (fun u => by
              show Pc.returning (upd _ _ _ u) = false
              by_cases eu : u = t
              · subst eu; rw [upd_same]; rfl
              · rw [upd_ne _ _ eu, upd_ne _ _ eu, goOn_pc hs2 u eu]; exact hr u) ha
            refine ⟨s', ?_, k2, k3⟩
            unfold steps
            rw [hs1]
            dsimp only
            unfold steps
            rw [show step s1 t .go = goOn s1 t by unfold step; rw [if_pos hlife1], g1]
            dsimp only
            unfold steps
            rw [show step { s1 with pc := upd s1.pc t (.released c m (releaseLock lk)) } t .go = goOn _ t by
              unfold step; exact if_pos hlife1, g2]
            exact k1
          · rw [if_neg (fun hh => hi hh.2)]
            obtain ⟨s', k1, k2, k3⟩ := ih h1 (fun u => by
              by_cases eu : u = t
              · subst eu
                cases e1 : s1.pc u <;> first | rfl | skip
                all_goals
                  rw [e1] at hm
                  cases e2 : a1.pc u <;> rw [e2] at hm <;> first | exact hm.elim | exact absurd e2 hi
              · rw [goOn_pc hs2 u eu]; exact hr u) ha
            refine ⟨s', ?_, k2, k3⟩
            unfold steps
            rw [hs1]
            exact k1
        · rw [if_neg (fun hh => hg hh.1)]
          have hr1 : ∀ u, (s1.pc u).returning = false := by
            unfold step at hs1
            split at hs1
            · split at hs1
              · exact absurd rfl hg
              · cases hs1
                intro u
                show Pc.returning (upd _ _ _ u) = false
                by_cases eu : u = t
                · subst eu; rw [upd_same]; rfl
                · rw [upd_ne _ _ eu]; exact hr u
              · exact call_returning hs1 hr
              · cases hs1
            · cases hs1
          obtain ⟨s', k1, k2, k3⟩ := ih h1 hr1 ha
          refine ⟨s', ?_, k2, k3⟩
          unfold steps
          rw [hs1]
          exact k1
      · rw [hr t] at k; cases k

/-- **C74 on Windows.**  With the functions of profiling/pthread_everywhere.h no step of the pool violates a precondition
of the C++ classes or has to wait where the model of the pool moves.  When the pool is destroyed no mutex and no
condition variable is left; for each worker a `std::thread` object is (finding F46). -/
theorem C74_windows {K : Nat} {sc : Pool.Script ε} {cs : List Pool.Choice} {s : Pool.State ε}
    (he : Pool.execute sc cs Pool.initial = some s) (hK : s.nw ≤ K) :
    ∃ w, steps (withReturns (callsOf K sc cs Pool.initial) (Sp.init (K + 1))) (St.init (K + 1)) = .ok w ∧
      (∀ i, gone s ≤ i → i < s.nw → ∃ p, w.mptr i = some p ∧ w.mheap p = .live (ownerId K i (s.ws i).lock)) ∧
      (s.mpc = .done → (∀ p o, w.mheap p ≠ .live o) ∧ (∀ p, w.cheap p ≠ .live) ∧
        ∃ q : Nat → Nat, (∀ i j, i < s.nw → j < s.nw → q i = q j → i = j) ∧
          ∀ i, i < s.nw → w.theap (q i) = some (tid K i, false)) := by
  obtain ⟨w, h1, h2, -⟩ := steps_sim _ (init_rel (K + 1)) (fun _ => rfl) (C74_pool_uses_posix he hK)
  refine ⟨w, h1, fun i hg hi => h2.mutex i _ (view_mutex hg hi), fun hd => ?_⟩
  have hg : gone s = s.nw := by unfold gone; rw [hd]
  have no : ∀ i, (view K s).mutex i = none ∧ (view K s).cond i = false :=
    fun i => ⟨if_neg (by omega), decide_eq_false (by omega)⟩
  have th : ∀ i, i < s.nw → (view K s).thread i = some (tid K i, true) := by
    intro i hi
    show (if _ then _ else _) = _
    rw [if_pos hi, decide_eq_true (by omega)]
  refine ⟨fun p o ho => ?_, fun p ho => ?_, fun i => (w.tptr i).getD 0, fun i j hi hj hq => ?_, fun i hi => ?_⟩
  · obtain ⟨v, hv, -⟩ := h2.mutex_kept p o ho
    rw [(no v).1] at hv; cases hv
  · obtain ⟨v, hv, -⟩ := h2.cond_kept p ho
    rw [(no v).2] at hv; cases hv
  · obtain ⟨p, p1, p2⟩ := h2.thread i _ (th i hi)
    obtain ⟨p', p1', p2'⟩ := h2.thread j _ (th j hj)
    dsimp only at hq
    rw [p1, p1'] at hq
    simp only [Option.getD_some] at hq
    subst hq
    exact h2.thread_inj i j p (by rw [th i hi]; rfl) (by rw [th j hj]; rfl) p1 p1'
  · obtain ⟨p, p1, p2⟩ := h2.thread i _ (th i hi)
    dsimp only
    rw [p1]
    exact p2

/-- The hypotheses are met by the run of `sample_reachable`: two calls with two workers, waiting, spurious wakeups, and
the destruction of the pool. -/
example : ∃ s, Pool.execute Pool.sampleScript Pool.sampleSchedule Pool.initial = some s ∧ s.mpc = .done ∧ s.nw = 2 := by
  have h : ((Pool.execute Pool.sampleScript Pool.sampleSchedule Pool.initial).map
      (fun s => (s.mpc, s.nw))) = some (.done, 2) := by decide +kernel
  cases he : Pool.execute Pool.sampleScript Pool.sampleSchedule Pool.initial with
  | none => rw [he] at h; cases h
  | some s =>
    rw [he] at h
    simp only [Option.map_some, Option.some.injEq, Prod.mk.injEq] at h
    exact ⟨s, rfl, h.1, h.2⟩

example : (callsOf 2 Pool.sampleScript Pool.sampleSchedule Pool.initial).length = 70 := by decide +kernel

end Shim
end Gemmlowp
