import Verif.PthreadPool
import Verif.PthreadProof
import Verif.PropsPool
/-!
# The moves of the pool are calls of pthread functions
-/
namespace Gemmlowp
namespace Shim

variable {ε : Type} {n : Nat}

theorem tid_val {K i : Nat} (h : i < K) : (tid K i).val = i + 1 := by
  show (i + 1) % (K + 1) = i + 1
  exact Nat.mod_eq_of_lt (by omega)

theorem upd_self {α β : Type} [DecidableEq α] {f : α → β} {i : α} {x : β} (h : f i = x) : upd f i x = f := by
  funext j
  by_cases e : j = i
  · subst e; rw [upd_same, h]
  · rw [upd_ne _ _ e]

theorem steps_append (l l' : List (Fin n × Act n)) (a : Sp n) :
    Sp.steps (l ++ l') a = match Sp.steps l a with
      | .ok a' => Sp.steps l' a'
      | .blocked => .blocked
      | .fault => .fault := by
  induction l generalizing a with
  | nil => rfl
  | cons y l ih =>
    obtain ⟨t, x⟩ := y
    simp only [List.cons_append, Sp.steps]
    cases a.step t x <;> simp only []
    exact ih _

section
variable {K nw g : Nat} {ws : Nat → Pool.Worker ε} {i : Nat}

theorem view_mutex (h1 : g ≤ i) (h2 : i < nw) :
    (viewOf K nw ws g).mutex i = some (ownerId K i (ws i).lock) := if_pos ⟨h1, h2⟩

theorem view_cond (h1 : g ≤ i) (h2 : i < nw) : (viewOf K nw ws g).cond i = true := decide_eq_true ⟨h1, h2⟩

theorem view_pc (hK : i < K) (h2 : i < nw) : (viewOf K nw ws g).pc (tid K i) = waitPc i (ws i).pc := by
  show (if (tid K i).val = 0 then _ else _) = _
  rw [tid_val hK, if_neg (by omega), if_pos (by omega)]
  rfl

theorem view_life (hK : i < K) (h2 : i < nw) : (viewOf K nw ws g).life (tid K i) = lifeOf (ws i).pc := by
  show (if (tid K i).val = 0 then _ else _) = _
  rw [tid_val hK, if_neg (by omega), if_pos (by omega)]
  rfl

theorem view_pc0 : (viewOf K nw ws g).pc 0 = .idle := rfl

theorem view_life0 : (viewOf K nw ws g).life 0 = .running := rfl

theorem tid_ne {t : Fin (K + 1)} (hK : i < K) : t ≠ tid K i ↔ t.val ≠ i + 1 := by
  rw [Ne, Fin.ext_iff, tid_val hK]

/-- The state of one worker changes. -/
theorem view_set (hK : i < K) (h1 : g ≤ i) (h2 : i < nw) (w : Pool.Worker ε) :
    viewOf K nw (fun j => if j = i then w else ws j) g =
      { viewOf K nw ws g with
        mutex := upd (viewOf K nw ws g).mutex i (some (ownerId K i w.lock))
        pc := upd (viewOf K nw ws g).pc (tid K i) (waitPc i w.pc)
        life := upd (viewOf K nw ws g).life (tid K i) (lifeOf w.pc) } := by
  unfold viewOf
  congr 1
  · funext j
    by_cases e : j = i
    · subst e; rw [upd_same, if_pos ⟨h1, h2⟩]; dsimp only; rw [if_pos rfl]
    · rw [upd_ne _ _ e]; dsimp only; rw [if_neg e]
  · funext t
    by_cases e : t = tid K i
    · subst e
      rw [upd_same, tid_val hK, if_neg (by omega), if_pos (by omega)]
      simp
    · have := (tid_ne hK).1 e
      rw [upd_ne _ _ e]
      dsimp only
      by_cases e0 : t.val = 0
      · rw [if_pos e0, if_pos e0]
      · rw [if_neg (show ¬ t.val - 1 = i by omega)]
  · funext t
    by_cases e : t = tid K i
    · subst e
      rw [upd_same, tid_val hK, if_neg (by omega), if_pos (by omega)]
      simp
    · have := (tid_ne hK).1 e
      rw [upd_ne _ _ e]
      dsimp only
      by_cases e0 : t.val = 0
      · rw [if_pos e0, if_pos e0]
      · rw [if_neg (show ¬ t.val - 1 = i by omega)]

/-- Only worker `i` waits on its condition variable. -/
theorem view_wake (hK : i < K) (h2 : i < nw) :
    (fun t => ((viewOf K nw ws g).pc t).wake i) =
      upd (viewOf K nw ws g).pc (tid K i) ((waitPc i (ws i).pc).wake i) := by
  funext t
  by_cases e : t = tid K i
  · subst e; rw [upd_same, view_pc hK h2]
  · rw [upd_ne _ _ e]
    have := (tid_ne hK).1 e
    show SPc.wake i (if t.val = 0 then _ else _) = if t.val = 0 then _ else _
    by_cases e0 : t.val = 0
    · rw [if_pos e0]; rfl
    · rw [if_neg e0]
      split
      · cases (ws (t.val - 1)).pc <;> simp only [waitPc, SPc.wake]
        rw [if_neg (by omega)]
      · rfl

theorem view_uses (hK : i < K) (h2 : i < nw) (hp : waitPc i (ws i).pc = .idle) (t : Fin (K + 1)) :
    ((viewOf K nw ws g).pc t).usesMutex i = false ∧ ((viewOf K nw ws g).pc t).usesCond i = false := by
  by_cases e : t = tid K i
  · subst e; rw [view_pc hK h2, hp]; exact ⟨rfl, rfl⟩
  · have := (tid_ne hK).1 e
    show SPc.usesMutex i (if t.val = 0 then _ else _) = false ∧ SPc.usesCond i (if t.val = 0 then _ else _) = false
    by_cases e0 : t.val = 0
    · rw [if_pos e0]; exact ⟨rfl, rfl⟩
    · rw [if_neg e0]
      split
      · cases (ws (t.val - 1)).pc <;> simp only [waitPc, SPc.usesMutex, SPc.usesCond, decide_eq_false_iff_not] <;>
          first | exact ⟨trivial, trivial⟩ | (constructor <;> first | omega | trivial)
      · exact ⟨rfl, rfl⟩

end

/-- A call by a thread that is not in a wait. -/
theorem step_call {a : Sp n} {t : Fin n} {x : Act n} (hl : a.life t = .running) (hp : a.pc t = .idle) (hx : x ≠ .go) :
    a.step t x = a.call t x := by
  unfold Sp.step
  rw [if_pos hl, hp]
  cases x <;> first | rfl | exact absurd rfl hx

theorem step_go {a : Sp n} {t : Fin n} (hl : a.life t = .running) : a.step t .go = a.goOn t := by
  unfold Sp.step
  rw [if_pos hl]

theorem steps_one {a : Sp n} {t : Fin n} {x : Act n} : Sp.steps [(t, x)] a = a.step t x := by
  simp only [Sp.steps]
  cases a.step t x <;> rfl

theorem gone_le {sc : Pool.Script ε} {s : Pool.State ε} (h : Pool.Inv sc s) {i : Nat} (hi : i < s.nw)
    (hx : (s.ws i).pc ≠ .exited) : gone s ≤ i := by
  have ha := h.allowed i hi
  unfold gone
  cases e : s.mpc <;> rw [e] at ha <;> simp only [Pool.Allowed] at ha <;> dsimp only <;> try omega
  all_goals
    first
      | (rcases Nat.lt_or_ge i _ with hlt | hge
         · rw [if_pos hlt] at ha; exact absurd ha hx
         · exact hge)
      | exact absurd ha hx

/-- A move of worker `i` in the state of the pthread functions. -/
theorem worker_view {K : Nat} {s : Pool.State ε} {i : Nat} (hK : i < K) (hi : i < s.nw) (hg : gone s ≤ i)
    (w : Pool.Worker ε) {s' : Pool.State ε} (h1 : s'.nw = s.nw) (h2 : gone s' = gone s)
    (h3 : s'.ws = fun j => if j = i then w else s.ws j) :
    view K s' = { view K s with
        mutex := upd (view K s).mutex i (some (ownerId K i w.lock))
        pc := upd (view K s).pc (tid K i) (waitPc i w.pc)
        life := upd (view K s).life (tid K i) (lifeOf w.pc) } := by
  unfold view
  rw [h1, h2, h3]
  exact view_set hK hg hi w


/-- A move of a worker is the calls that it makes. -/
theorem wstep_calls {K : Nat} {sc : Pool.Script ε} {s s' : Pool.State ε} (h : Pool.Inv sc s) {i : Nat} (hi : i < s.nw)
    (hK : i < K) (hs : Pool.wstep s i = .next s') :
    Sp.steps ((workerCalls s i).map fun x => (tid K i, x)) (view K s) = .ok (view K s') := by
  have hx : (s.ws i).pc ≠ .exited := by
    intro e
    unfold Pool.wstep at hs
    dsimp only at hs
    rw [e] at hs
    cases hs
  have hg := gone_le h hi hx
  have hl : (view K s).life (tid K i) = .running := by
    unfold view
    rw [view_life hK hi]
    cases e : (s.ws i).pc <;> first | rfl | exact absurd e hx
  have hm : (view K s).mutex i = some (ownerId K i (s.ws i).lock) := view_mutex hg hi
  have hc : (view K s).cond i = true := view_cond hg hi
  have hp : (view K s).pc (tid K i) = waitPc i (s.ws i).pc := view_pc hK hi
  have hb : (fun t => ((view K s).pc t).wake i) = upd (view K s).pc (tid K i) ((waitPc i (s.ws i).pc).wake i) :=
    view_wake hK hi
  have hw' := h.wok i hi
  unfold Pool.WOk at hw'
  have hv := fun w s' => worker_view hK hi hg w (s' := s')
  have quiet : ∀ w s', s'.nw = s.nw → gone s' = gone s → (s'.ws = fun j => if j = i then w else s.ws j) →
      w.lock = (s.ws i).lock → waitPc i w.pc = waitPc i (s.ws i).pc → lifeOf w.pc = .running →
      Sp.steps [] (view K s) = .ok (view K s') := by
    intro w s' e1 e2 e3 e4 e5 e6
    refine congrArg Res.ok ?_
    rw [hv w s' e1 e2 e3, e4, e5, e6, ← hm, ← hp, ← hl, upd_self rfl, upd_self rfl, upd_self rfl]
  have locked : (s.ws i).lock = none → ∀ pc, waitPc i pc = .idle → lifeOf pc = .running → waitPc i (s.ws i).pc = .idle →
      s' = s.setW i { s.ws i with pc := pc, lock := some .worker } →
      Sp.steps [(tid K i, .mutexLock i)] (view K s) = .ok (view K s') := by
    intro e1 pc e2 e3 e4 e5
    subst e5
    rw [hv _ (s.setW i _) rfl rfl rfl, steps_one, step_call hl (hp.trans e4) (by simp)]
    simp only [Sp.call]
    rw [hm, e1]
    simp only [ownerId, e2, e3]
    rw [← hl, upd_self rfl, upd_self (hp.trans e4)]
  have unlocked : (s.ws i).lock = some .worker → ∀ pc, waitPc i pc = .idle → lifeOf pc = .running →
      waitPc i (s.ws i).pc = .idle → s' = s.setW i { s.ws i with pc := pc, lock := none } →
      Sp.steps [(tid K i, .mutexUnlock i)] (view K s) = .ok (view K s') := by
    intro e1 pc e2 e3 e4 e5
    subst e5
    rw [hv _ (s.setW i _) rfl rfl rfl, steps_one, step_call hl (hp.trans e4) (by simp)]
    simp only [Sp.call]
    rw [hm, e1]
    simp only [ownerId, e2, e3, if_true]
    rw [← hl, upd_self rfl, upd_self (hp.trans e4)]
  unfold Pool.wstep at hs
  unfold workerCalls
  dsimp only at hs
  cases e : (s.ws i).pc <;> rw [e] at hs locked unlocked hw' <;> try dsimp only at hs ⊢
  case lockReady =>
    split at hs
    · cases hs; rename_i e1; exact locked e1 _ rfl rfl rfl rfl
    · cases hs
  case inReady =>
    split at hs
    · cases hs
    · cases hs
    · split at hs <;> cases hs <;> exact quiet _ _ rfl rfl rfl rfl (by rw [e]; rfl) rfl
  case running l =>
    cases l with
    | nil => cases hs; exact quiet _ _ rfl rfl rfl rfl (by rw [e]; rfl) rfl
    | cons y l =>
      dsimp only at hs
      split at hs
      · cases hs
      · cases hs; exact quiet _ _ rfl rfl rfl rfl (by rw [e]; rfl) rfl
  case storeReady =>
    cases hs
    rw [e] at hp hb
    rw [List.map_cons, List.map_nil, steps_one, step_call hl hp (by simp)]
    simp only [Sp.call]
    rw [if_pos hc, hb]
    rw [← quiet _ (s.setW i { s.ws i with pc := .unlockReady, st := .ready }) rfl rfl rfl rfl (by rw [e]; rfl) rfl]
    exact congrArg (fun p => Res.ok { view K s with pc := p }) (upd_self hp)
  case unlockReady => cases hs; exact unlocked hw'.1 _ rfl rfl rfl rfl
  case decrement =>
    split at hs
    · cases hs
    · cases hs; exact quiet _ _ rfl rfl rfl rfl (by rw [e]; rfl) rfl
  case spin =>
    split at hs
    · cases hs; rfl
    · cases hs; exact quiet _ _ rfl rfl rfl rfl (by rw [e]; rfl) rfl
  case lockWait =>
    split at hs
    · cases hs; rename_i e1; exact locked e1 _ rfl rfl rfl rfl
    · cases hs
  case checkWait =>
    rw [e] at hp
    split at hs
    · rename_i e1
      cases hs
      rw [if_pos e1, hv _ (s.setW i _) rfl rfl rfl]
      rw [hw'.1] at hm
      have hm : (view K s).mutex i = some (some (tid K i)) := hm
      have ag : ∀ t, (upd (view K s).pc (tid K i) (.calling i i) t).agrees i i = true := by
        intro t
        by_cases e2 : t = tid K i
        · subst e2; rw [upd_same]; rfl
        · rw [upd_ne _ _ e2]
          have := (view_uses (K := K) (nw := s.nw) (ws := s.ws) (g := gone s) hK hi (by rw [e]; rfl) t).2
          show (((viewOf K s.nw s.ws (gone s)).pc t).agrees i i) = true
          cases e3 : (viewOf K s.nw s.ws (gone s)).pc t <;> rw [e3] at this <;> first | rfl | skip
          simp only [SPc.usesCond, decide_eq_false_iff_not] at this
          simp [SPc.agrees, this]
      simp only [List.map_cons, List.map_nil, Sp.steps]
      rw [step_call hl hp (by simp)]
      simp only [Sp.call]
      rw [if_pos ⟨hc, hm⟩]
      dsimp only
      rw [step_go (by exact hl)]
      unfold Sp.goOn
      dsimp only
      rw [upd_same]
      dsimp only
      rw [if_pos ag]
      dsimp only
      refine congrArg Res.ok ?_
      rw [show lifeOf (Pool.WPc.waiting : Pool.WPc ε) = (view K s).life (tid K i) from hl.symm, upd_self rfl]
      simp only [ownerId, waitPc]
      rw [show upd (upd (view K s).pc (tid K i) (.calling i i)) (tid K i) (.sleeping i i) =
        upd (view K s).pc (tid K i) (.sleeping i i) from ?_]
      funext t
      by_cases e2 : t = tid K i
      · subst e2; rw [upd_same, upd_same]
      · rw [upd_ne _ _ e2, upd_ne _ _ e2, upd_ne _ _ e2]
    · rename_i e1
      cases hs
      rw [if_neg (by intro hh; exact e1 hh)]
      exact quiet _ _ rfl rfl rfl rfl (by rw [e]; rfl) rfl
  case waiting => cases hs
  case woken =>
    rw [e] at hp
    split at hs
    · rename_i e1
      cases hs
      rw [e1] at hm
      rw [hv _ (s.setW i _) rfl rfl rfl, List.map_cons, List.map_nil, steps_one, step_go hl]
      unfold Sp.goOn
      rw [hp]
      dsimp only [waitPc]
      rw [hm]
      dsimp only [ownerId, lifeOf]
      rw [← hl, upd_self rfl]
    · cases hs
  case unlockWait v => cases hs; exact unlocked hw'.1 _ rfl rfl rfl rfl
  case act v =>
    cases v <;> cases hs
    · exact quiet _ _ rfl rfl rfl rfl (by rw [e]; rfl) rfl
    · rw [e] at hp
      rw [List.map_cons, List.map_nil, steps_one, step_call hl hp (by simp), hv _ (s.setW i _) rfl rfl rfl]
      simp only [Sp.call, lifeOf]
      rw [← hm, upd_self rfl,
        upd_self (show (view K s).pc (tid K i) = waitPc i (Pool.WPc.exited : Pool.WPc ε) from hp)]
  case exited => cases hs

/-- A move of the master is the calls that it makes. -/
theorem mstep_calls {K : Nat} {sc : Pool.Script ε} {s s' : Pool.State ε} (h : Pool.Inv sc s) (hK : s'.nw ≤ K)
    (hs : Pool.mstep sc s = .next s') :
    Sp.steps ((masterCalls K sc s).map fun x => (0, x)) (view K s) = .ok (view K s') := by
  have hph := h.phase
  have hl : (view K s).life 0 = .running := rfl
  have hp : (view K s).pc 0 = .idle := rfl
  have quiet : ∀ s' : Pool.State ε, s'.nw = s.nw → gone s' = gone s → s'.ws = s.ws →
      Sp.steps [] (view K s) = .ok (view K s') := by
    intro s' e1 e2 e3
    refine congrArg Res.ok ?_
    unfold view
    rw [e1, e2, e3]
  have keep : ∀ i w (s' : Pool.State ε), i < s.nw → i < K → gone s ≤ i → s'.nw = s.nw → gone s' = gone s →
      (s'.ws = fun j => if j = i then w else s.ws j) → w.pc = (s.ws i).pc →
      view K s' = { view K s with mutex := upd (view K s).mutex i (some (ownerId K i w.lock)) } := by
    intro i w s' hi hk hg e1 e2 e3 e4
    rw [worker_view hk hi hg w e1 e2 e3, e4]
    have hp : (view K s).pc (tid K i) = waitPc i (s.ws i).pc := view_pc hk hi
    have hl : (view K s).life (tid K i) = lifeOf (s.ws i).pc := view_life hk hi
    rw [upd_self hp, upd_self hl]
  have locked : ∀ i (s' : Pool.State ε), i < s.nw → i < K → gone s ≤ i → s'.nw = s.nw → gone s' = gone s →
      (s'.ws = fun j => if j = i then { s.ws i with lock := some .master } else s.ws j) → (s.ws i).lock = none →
      Sp.steps [(0, .mutexLock i)] (view K s) = .ok (view K s') := by
    intro i s' hi hk hg e1 e2 e3 e4
    have hm : (view K s).mutex i = some (ownerId K i (s.ws i).lock) := view_mutex hg hi
    rw [keep i _ s' hi hk hg e1 e2 e3 rfl, steps_one, step_call hl hp (by simp)]
    simp only [Sp.call]
    rw [hm, e4]
    rfl
  have unlocked : ∀ i (s' : Pool.State ε), i < s.nw → i < K → gone s ≤ i → s'.nw = s.nw → gone s' = gone s →
      (s'.ws = fun j => if j = i then { s.ws i with lock := none } else s.ws j) → (s.ws i).lock = some .master →
      Sp.steps [(0, .mutexUnlock i)] (view K s) = .ok (view K s') := by
    intro i s' hi hk hg e1 e2 e3 e4
    have hm : (view K s).mutex i = some (ownerId K i (s.ws i).lock) := view_mutex hg hi
    rw [keep i _ s' hi hk hg e1 e2 e3 rfl, steps_one, step_call hl hp (by simp)]
    simp only [Sp.call]
    rw [hm, e4]
    rfl
  have woken : ∀ i st (s' : Pool.State ε), i < s.nw → i < K → gone s ≤ i → s'.nw = s.nw → gone s' = gone s →
      (s'.ws = fun j => if j = i then { s.ws i with st := st }.wake else s.ws j) →
      Sp.steps [(0, .condBroadcast i)] (view K s) = .ok (view K s') := by
    intro i st s' hi hk hg e1 e2 e3
    have hm : (view K s).mutex i = some (ownerId K i (s.ws i).lock) := view_mutex hg hi
    have hc : (view K s).cond i = true := view_cond hg hi
    have hb : (fun t => ((view K s).pc t).wake i) = upd (view K s).pc (tid K i) ((waitPc i (s.ws i).pc).wake i) :=
      view_wake hk hi
    have hli : (view K s).life (tid K i) = lifeOf (s.ws i).pc := view_life hk hi
    rw [worker_view hk hi hg _ e1 e2 e3, steps_one, step_call hl hp (by simp)]
    simp only [Sp.call]
    rw [if_pos hc, hb]
    have q : ∀ w : Pool.Worker ε, w.wake.lock = w.lock ∧ waitPc i w.wake.pc = (waitPc i w.pc).wake i ∧
        lifeOf w.wake.pc = lifeOf w.pc := by
      intro w
      unfold Pool.Worker.wake
      cases e : w.pc <;> dsimp only <;> (try rw [e]) <;> simp [waitPc, SPc.wake, lifeOf]
    obtain ⟨q1, q2, q3⟩ := q { s.ws i with st := st }
    rw [q1, q2, q3]
    dsimp only
    rw [upd_self hm, upd_self hli]
  unfold Pool.mstep at hs
  unfold masterCalls
  unfold Pool.Phase at hph
  have hlm := h.lockM
  have hwo := h.wok
  have hal := h.allowed
  dsimp only at hs hph ⊢
  have hgone : gone s = match s.mpc with
    | .dLock i | .dSet i | .dStore i | .dUnlock i | .dJoin i => i
    | .done => s.nw
    | _ => 0 := rfl
  cases e : s.mpc <;> rw [e] at hs hph hlm hal hgone <;> try dsimp only at hs hph hgone ⊢
  case idle =>
    split at hs
    · split at hs
      · cases hs
      · cases hs; exact quiet _ rfl hgone.symm rfl
    · cases hs; exact quiet _ rfl hgone.symm rfl
  case cwCheck =>
    cases hs
    refine quiet _ rfl ?_ rfl
    rw [hgone]
    show gone { s with mpc := if _ then _ else _ } = 0
    split <;> rfl
  case cwReset =>
    split at hs
    · cases hs
    · cases hs; exact quiet _ rfl hgone.symm rfl
  case cwCreate =>
    split at hs
    · rename_i hn
      cases hs
      have hk : s.nw < K := hK
      rw [if_pos hn]
      simp only [List.map_cons, List.map_nil, Sp.steps]
      rw [step_call hl hp (by simp)]
      simp only [Sp.call]
      have c1 : (view K s).cond s.nw = false := decide_eq_false (by omega)
      have c2 : (view K s).mutex s.nw = none := if_neg (by omega)
      have c3 : (view K s).life (tid K s.nw) = .notStarted := by
        show (if (tid K s.nw).val = 0 then _ else _) = _
        rw [tid_val hk, if_neg (by omega), if_neg (by omega)]
      rw [c1]
      simp only [Bool.false_eq_true, if_false]
      rw [step_call (by exact hl) (by exact hp) (by simp)]
      simp only [Sp.call, c2]
      rw [step_call (by exact hl) (by exact hp) (by simp)]
      simp only [Sp.call, c3, if_true]
      refine congrArg Res.ok ?_
      unfold view
      rw [show gone ({ s.setW s.nw Pool.newWorker with nw := s.nw + 1 } : Pool.State ε) = 0 by
        unfold gone Pool.State.setW; dsimp only; rw [e], hgone]
      unfold viewOf
      congr 1
      · funext j
        dsimp only [Pool.State.setW]
        by_cases ej : j = s.nw
        · subst ej; rw [upd_same, if_pos (by omega), if_pos rfl]; rfl
        · rw [upd_ne _ _ ej, if_neg ej]
          by_cases hj : j < s.nw
          · rw [if_pos (by omega), if_pos (by omega)]
          · rw [if_neg (by omega), if_neg (by omega)]
      · funext j
        dsimp only [Pool.State.setW]
        by_cases ej : j = s.nw
        · subst ej; rw [upd_same]; symm; exact decide_eq_true (by omega)
        · rw [upd_ne _ _ ej]
          by_cases hj : j < s.nw
          · rw [decide_eq_true (by omega), decide_eq_true (by omega)]
          · rw [decide_eq_false (by omega), decide_eq_false (by omega)]
      · funext j
        dsimp only [Pool.State.setW]
        by_cases ej : j = s.nw
        · subst ej; rw [upd_same, if_pos (by omega)]; rfl
        · rw [upd_ne _ _ ej]
          by_cases hj : j < s.nw
          · rw [if_pos (by omega), if_pos (by omega)]
          · rw [if_neg (by omega), if_neg (by omega)]
      · funext t
        dsimp only [Pool.State.setW]
        by_cases e0 : t.val = 0
        · rw [if_pos e0, if_pos e0]
        · rw [if_neg e0, if_neg e0]
          by_cases ej : t.val - 1 = s.nw
          · rw [if_neg (by omega), if_pos (by omega), if_pos ej]; rfl
          · rw [if_neg ej]
            by_cases hj : t.val - 1 < s.nw
            · rw [if_pos (by omega), if_pos (by omega)]
            · rw [if_neg (by omega), if_neg (by omega)]
      · funext t
        dsimp only [Pool.State.setW]
        by_cases et : t = tid K s.nw
        · subst et
          rw [upd_same, tid_val hk, if_neg (by omega), if_pos (by omega)]
          simp [Pool.newWorker, lifeOf]
        · have := (tid_ne hk).1 et
          rw [upd_ne _ _ et]
          by_cases e0 : t.val = 0
          · rw [if_pos e0, if_pos e0]
          · rw [if_neg e0, if_neg e0, if_neg (show ¬ t.val - 1 = s.nw by omega)]
            by_cases hj : t.val - 1 < s.nw
            · rw [if_pos (by omega), if_pos (by omega)]
            · rw [if_neg (by omega), if_neg (by omega)]
    · rename_i hn
      cases hs
      rw [if_neg hn]
      exact quiet _ rfl hgone.symm rfl
  case cwWait =>
    split at hs
    · cases hs; exact quiet _ rfl hgone.symm rfl
    · cases hs; rfl
  case reset =>
    split at hs
    · cases hs
    · split at hs
      · cases hs
      · cases hs; exact quiet _ rfl hgone.symm rfl
  case swLock i =>
    split at hs
    · rename_i hn
      split at hs
      · rename_i el
        rw [if_pos hn]
        cases hs
        exact locked i _ (by omega) (by have : s.nw ≤ K := hK; omega) (by omega) rfl hgone.symm rfl el
      · cases hs
    · rename_i hn
      cases hs
      rw [if_neg hn]
      exact quiet _ rfl hgone.symm rfl
  case swSet i =>
    split at hs
    · split at hs
      · cases hs
      · cases hs
        rw [List.map_nil]
        refine congrArg Res.ok ?_
        have hm : (view K s).mutex i = some (ownerId K i (s.ws i).lock) := view_mutex (by omega) (by omega)
        rw [keep i { s.ws i with task := some ((s.call, i), sc.prog s.call i) }
          { s.setW i { s.ws i with task := some ((s.call, i), sc.prog s.call i) } with mpc := .swStore i }
          (by omega) (by have : s.nw ≤ K := hK; omega) (by omega) rfl hgone.symm rfl rfl]
        exact congrArg (fun m => { view K s with mutex := m }) (upd_self hm).symm
    · cases hs
  case swStore i =>
    cases hs
    exact woken i _ _ (by omega) (by have : s.nw ≤ K := hK; omega) (by omega) rfl hgone.symm rfl
  case swUnlock i =>
    cases hs
    exact unlocked i _ (by omega) (by have : s.nw ≤ K := hK; omega) (by omega) rfl hgone.symm rfl
      ((hlm i (by omega)).2 rfl)
  case run l =>
    cases l <;> cases hs <;> exact quiet _ rfl hgone.symm rfl
  case wait =>
    split at hs
    · cases hs; exact quiet _ rfl hgone.symm rfl
    · cases hs; rfl
  case dLock i =>
    split at hs
    · rename_i hn
      split at hs
      · rename_i el
        rw [if_pos hn]
        cases hs
        exact locked i _ (by omega) (by have : s.nw ≤ K := hK; omega) (by omega) rfl hgone.symm rfl el
      · cases hs
    · rename_i hn
      cases hs
      rw [if_neg hn]
      refine quiet _ rfl ?_ rfl
      rw [hgone]
      show s.nw = i
      omega
  case dSet i =>
    split at hs <;> cases hs <;> exact quiet _ rfl hgone.symm rfl
  case dStore i =>
    cases hs
    exact woken i _ _ (by omega) (by have : s.nw ≤ K := hK; omega) (by omega) rfl hgone.symm rfl
  case dUnlock i =>
    cases hs
    exact unlocked i _ (by omega) (by have : s.nw ≤ K := hK; omega) (by omega) rfl hgone.symm rfl
      ((hlm i (by omega)).2 rfl)
  case dJoin i =>
    split at hs
    · rename_i ex
      cases hs
      have hi : i < s.nw := hph.2.2
      have hk : i < K := by have : s.nw ≤ K := hK; omega
      have hm : (view K s).mutex i = some (ownerId K i (s.ws i).lock) := view_mutex (by omega) hi
      have hc : (view K s).cond i = true := view_cond (by omega) hi
      have ht : (view K s).thread i = some (tid K i, false) := by
        show (if _ then _ else _) = _
        rw [if_pos hi, decide_eq_false (by omega)]
      have hli : (view K s).life (tid K i) = .finished := by
        unfold view; rw [view_life hk hi, ex]; rfl
      have hu : ∀ t, ((view K s).pc t).usesMutex i = false ∧ ((view K s).pc t).usesCond i = false :=
        view_uses hk hi (by rw [ex]; rfl)
      have hw := hwo i hi
      unfold Pool.WOk at hw
      rw [ex] at hw
      have hlo : (s.ws i).lock = none := by
        cases el : (s.ws i).lock with
        | none => rfl
        | some o =>
          cases o with
          | master => exact absurd ((hlm i hi).1 el) (by simp [Pool.holds])
          | worker => exact absurd el hw.1
      rw [hlo] at hm
      simp only [List.map_cons, List.map_nil, Sp.steps]
      rw [step_call hl hp (by simp)]
      simp only [Sp.call]
      rw [ht]
      dsimp only
      rw [if_neg (by rw [Fin.ext_iff, tid_val hk]; simp), if_pos hli]
      dsimp only
      rw [step_call (by exact hl) (by exact hp) (by simp)]
      simp only [Sp.call]
      rw [if_pos ⟨hc, fun t => (hu t).2⟩]
      dsimp only
      rw [step_call (by exact hl) (by exact hp) (by simp)]
      simp only [Sp.call]
      rw [hm]
      simp only [ownerId]
      rw [if_pos (fun t => (hu t).1)]
      dsimp only
      refine congrArg Res.ok ?_
      unfold view
      rw [hgone, show gone { s with mpc := .dLock (i + 1) } = i + 1 from rfl]
      unfold viewOf
      congr 1
      · funext j
        by_cases ej : j = i
        · subst ej; rw [upd_same, if_neg (by omega)]
        · rw [upd_ne _ _ ej]
          dsimp only
          by_cases hj : i ≤ j ∧ j < s.nw
          · rw [if_pos hj, if_pos (by omega)]
          · rw [if_neg hj, if_neg (by omega)]
      · funext j
        by_cases ej : j = i
        · subst ej; rw [upd_same, decide_eq_false (by omega)]
        · rw [upd_ne _ _ ej]
          dsimp only
          by_cases hj : i ≤ j ∧ j < s.nw
          · rw [decide_eq_true hj, decide_eq_true (by omega)]
          · rw [decide_eq_false hj, decide_eq_false (by omega)]
      · funext j
        by_cases ej : j = i
        · subst ej; rw [upd_same, if_pos hi, decide_eq_true (by omega)]
        · rw [upd_ne _ _ ej]
          dsimp only
          by_cases hj : j < s.nw
          · rw [if_pos hj, if_pos hj]
            by_cases hj : j < i
            · rw [decide_eq_true hj, decide_eq_true (by omega)]
            · rw [decide_eq_false hj, decide_eq_false (by omega)]
          · rw [if_neg hj, if_neg hj]
    · cases hs
  case done => cases hs

end Shim
end Gemmlowp
