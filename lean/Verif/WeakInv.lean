import Verif.WeakProof
/-!
# The pool under the C++ memory model: the invariant
-/
namespace Gemmlowp.Weak

open Pool

variable {ε δ : Type}

/-- Everything at epoch `e` is known to whoever holds worker `i`'s mutex, and to the master and the
worker once they lock it. -/
def Kn (s : State ε) (m : Mem δ) (i : Nat) (e : Tid × Nat) : Prop :=
  match (s.ws i).lock with
  | none => e.2 ≤ max (m.C none e.1) (m.M i e.1) ∧ e.2 ≤ max (m.C (some i) e.1) (m.M i e.1)
  | some .master => K (m.C none) e
  | some .worker => K (m.C (some i)) e

/-- Known to the master and to every worker that has a task. -/
def Before (s : State ε) (m : Mem δ) (e : Tid × Nat) : Prop :=
  K (m.C none) e ∧ ∀ i < s.nw, (s.ws i).task ≠ none → Kn s m i e

/-- The master is handing out tasks or running its own, or waiting. -/
def active : MPc ε → Prop
  | .swLock _ | .swSet _ | .swStore _ | .swUnlock _ | .run _ | .wait => True
  | _ => False

/-- An access for task `j` of the current call. -/
def Current (sc : Script ε) (s : State ε) (m : Mem δ) (r : Rec δ) (j : Nat) : Prop :=
  (r.tid = none ∧ active s.mpc ∧ (j < s.nw → (s.ws j).task ≠ none → Kn s m j r.ep)) ∨
  (r.tid = some j ∧ started j s.mpc ∧ j < s.nw ∧ j < (sc.tasks s.call).length - 1 ∧
    (pend (s.ws j) = 1 ∨ K (viewAt m.ch 0 true) r.ep))

/-- What a task accesses. -/
def TaskLoc (foot : ε → List (δ × Bool)) (sc : Script ε) (r : Rec δ) (k : TaskId) : Prop :=
  (∃ x, r.loc = .data x ∧ ∃ e ∈ sc.prog k.1 k.2, (x, r.wr) ∈ foot e) ∨ r.loc = .taskObj k.2

/-- An access of the pool to its own memory. -/
def PoolRec (s : State ε) (m : Mem δ) (r : Rec δ) : Prop :=
  match r.loc with
  | .member i => i < s.nw ∧ (r.tid = none ∨ r.tid = some i) ∧
      ((s.ws i).pc ≠ .exited → Kn s m i r.ep)
  | .alloc i | .obj i => i < s.nw ∧ (r.tid = none ∨ r.tid = some i) ∧
      (r.tid = none → (s.ws i).pc ≠ .exited → K (m.C (some i)) r.ep)
  | .pool => (r.tid = none → ∀ i < s.nw, (s.ws i).pc ≠ .exited → K (m.C (some i)) r.ep) ∧
      (r.tid ≠ none → r.wr = false)
  | _ => False

/-- What holds of each access so far. -/
def RecOk (foot : ε → List (δ × Bool)) (sc : Script ε) (s : State ε) (m : Mem δ) (r : Rec δ) :
    Prop :=
  K (m.C r.tid) r.ep ∧ (∀ i, r.tid = some i → i < s.nw) ∧
  match r.src with
  | .client => ((∃ x, r.loc = .data x) ∨ ∃ j, r.loc = .taskObj j) ∧ Before s m r.ep
  | .task k => TaskLoc foot sc r k ∧
      (k.1 < s.call ∧ Before s m r.ep ∨ k.1 = s.call ∧ Current sc s m r k.2)
  | .pool => PoolRec s m r

/-- The worker has stored `Ready` and has not acted on a newer state. -/
def past : WPc ε → Prop
  | .unlockReady | .decrement | .spin | .lockWait | .checkWait | .waiting | .woken => True
  | _ => False

/-- The worker knows its own last store of `Ready`, which is the newest message but at most one. -/
def OwnReady (m : Mem δ) (i : Nat) : Prop :=
  (∃ g h, m.sh i = g :: h ∧ g.val = .ready ∧ K (m.C (some i)) g.ep) ∨
  (∃ g0 g h, m.sh i = g0 :: g :: h ∧ g0.val ≠ .ready ∧ g.val = .ready ∧ K (m.C (some i)) g.ep)

/-- What holds of the messages of `state_` of worker `i`. -/
def ShOk (s : State ε) (m : Mem δ) (i : Nat) : Prop :=
  (∃ g h, m.sh i = g :: h ∧ g.val = (s.ws i).st) ∧ (∀ x ∈ m.sh i, Kn s m i x.ep) ∧
  (past (s.ws i).pc → OwnReady m i)

/-- The master is not between resetting the counter and having waited for it. -/
def quiet : MPc ε → Prop
  | .cwCreate | .cwWait | .swLock _ | .swSet _ | .swStore _ | .swUnlock _ | .run _ | .wait => False
  | _ => True

/-- What holds of the messages of `count_`: since the last store, decrements only. -/
structure ChOk (s : State ε) (m : Mem δ) (pre : List (Msg Nat)) (g : Msg Nat)
    (h : List (Msg Nat)) : Prop where
  eq : m.ch = pre ++ g :: h
  store : g.rmw = false
  known : K (m.C none) g.ep
  dec : ∀ k x, pre[k]? = some x → x.rmw = true ∧ x.val = s.count + k
  val : g.val = s.count + pre.length
  pend : ∀ i < s.nw, pend (s.ws i) = 1 → Kn s m i g.ep
  dcr : ∀ i < s.nw, (s.ws i).pc = .decrement → K (m.C (some i)) g.ep
  view : ∀ x ∈ m.ch, K (join (viewAt m.ch 0 true) (m.C none)) x.ep
  all : quiet s.mpc → ∀ x ∈ m.ch, K (m.C none) x.ep

/-- The thread of worker `i` has been joined. -/
def joined (i : Nat) : MPc ε → Prop
  | .dLock k | .dSet k | .dStore k | .dUnlock k | .dJoin k => i < k
  | .done => True
  | _ => False

/-- The invariant. -/
structure MInv (foot : ε → List (δ × Bool)) (sc : Script ε) (s : State ε) (m : Mem δ) : Prop where
  recs : ∀ r ∈ m.recs, RecOk foot sc s m r
  sh : ∀ i < s.nw, ShOk s m i
  ch : ∃ pre g h, ChOk s m pre g h
  joined : ∀ i < s.nw, joined i s.mpc → m.C (some i) (some i) ≤ m.C none (some i)
  fresh : ∀ i, s.nw ≤ i → ∀ t, m.C (some i) t = 0

/-- Tasks of the same call do not conflict. -/
def Apart (foot : ε → List (δ × Bool)) (sc : Script ε) : Prop :=
  ∀ c i j, i ≠ j → ∀ e ∈ sc.prog c i, ∀ e' ∈ sc.prog c j, ∀ x w w',
    (x, w) ∈ foot e → (x, w') ∈ foot e' → w = false ∧ w' = false

theorem minv_initial (foot : ε → List (δ × Bool)) (sc : Script ε) [DecidableEq δ] :
    MInv foot sc (initial (ε := ε) (δ := δ)).s (initial (ε := ε) (δ := δ)).m where
  recs := by
    intro r hr
    simp only [initial, List.mem_cons, List.not_mem_nil, or_false] at hr
    subst hr
    refine ⟨by simp [K, Rec.ep, initial], by intro i h; simp at h, ?_⟩
    simp [PoolRec, initial, Pool.initial]
  sh := by intro i hi; simp [initial, Pool.initial] at hi
  ch := by
    refine ⟨[], ⟨0, none, 1, fun _ => 0, false⟩, [], ?_⟩
    refine ⟨rfl, rfl, by simp [K, Msg.ep, initial], by intro k x h; simp at h,
      by simp [initial, Pool.initial], ?_, ?_, ?_, ?_⟩
    · intro i hi; simp [initial, Pool.initial] at hi
    · intro i hi; simp [initial, Pool.initial] at hi
    · intro x hx
      simp only [initial, List.mem_cons, List.not_mem_nil, or_false] at hx
      subst hx
      exact Nat.le_max_right _ _
    · intro _ x hx
      simp only [initial, List.mem_cons, List.not_mem_nil, or_false] at hx
      subst hx
      simp [K, Msg.ep, initial]
  joined := by intro i hi; simp [initial, Pool.initial] at hi
  fresh := by intro i _ t; simp [initial]

theorem Kn_both {s : State ε} {m : Mem δ} {i : Nat} {e : Tid × Nat} (h1 : K (m.C none) e)
    (h2 : K (m.C (some i)) e) : Kn s m i e := by
  unfold Kn
  split
  · exact ⟨Nat.le_trans h1 (Nat.le_max_left _ _), Nat.le_trans h2 (Nat.le_max_left _ _)⟩
  · exact h1
  · exact h2

theorem Kn_worker {s : State ε} {m : Mem δ} {i : Nat} {e : Tid × Nat}
    (h : (s.ws i).lock = some .worker) : Kn s m i e ↔ K (m.C (some i)) e := by simp [Kn, h]

theorem Kn_master {s : State ε} {m : Mem δ} {i : Nat} {e : Tid × Nat}
    (h : (s.ws i).lock = some .master) : Kn s m i e ↔ K (m.C none) e := by simp [Kn, h]

/-- What a move of thread `t` does to the mutex of worker `j`. -/
def LockRel (s : State ε) (m : Mem δ) (s' : State ε) (m' : Mem δ) (j : Nat) : Prop :=
  ((s'.ws j).lock = (s.ws j).lock ∧ m'.M j = m.M j) ∨
  (∃ o t, (o = .master ∧ t = none ∨ o = .worker ∧ t = some j) ∧
    (((s.ws j).lock = none ∧ (s'.ws j).lock = some o ∧ ∀ u, m.M j u ≤ m'.C t u) ∨
     ((s.ws j).lock = some o ∧ (s'.ws j).lock = none ∧ m'.M j = m'.C t)))

theorem Kn_step {s s' : State ε} {m m' : Mem δ} {j : Nat} {e : Tid × Nat}
    (hC : ∀ u v, m.C u v ≤ m'.C u v) (hl : LockRel s m s' m' j) (h : Kn s m j e) :
    Kn s' m' j e := by
  have h1 := hC none e.1
  have h2 := hC (some j) e.1
  rcases hl with ⟨el, eM⟩ | ⟨o, t, ho, ⟨e1, e2, hM⟩ | ⟨e1, e2, hM⟩⟩
  · unfold Kn K at h ⊢
    rw [el, eM]
    cases hlk : (s.ws j).lock with
    | none => rw [hlk] at h; dsimp only at h ⊢; omega
    | some o =>
      rw [hlk] at h
      cases o <;> dsimp only at h ⊢ <;> omega
  · have h3 := hM e.1
    unfold Kn at h ⊢
    rw [e1] at h
    rw [e2]
    rcases ho with ⟨rfl, rfl⟩ | ⟨rfl, rfl⟩ <;> simp only [K] at h ⊢ <;> omega
  · unfold Kn at h ⊢
    rw [e1] at h
    rw [e2, hM]
    rcases ho with ⟨rfl, rfl⟩ | ⟨rfl, rfl⟩ <;> simp only [K] at h ⊢ <;> omega

/-- What most moves have in common. -/
structure Gen (sc : Script ε) (s : State ε) (m : Mem δ) (s' : State ε) (m' : Mem δ) : Prop where
  call : s'.call = s.call
  nw : s'.nw = s.nw
  mono : ∀ u v, m.C u v ≤ m'.C u v
  lock : ∀ j < s.nw, LockRel s m s' m' j
  pc : ∀ j < s.nw, (s.ws j).pc = .exited → (s'.ws j).pc = .exited
  task : ∀ j < s.nw, (s'.ws j).task ≠ none →
    (s.ws j).task ≠ none ∨ (s'.ws j).lock = some .master
  act : active s.mpc → active s'.mpc
  start : ∀ j, started j s.mpc → started j s'.mpc
  view : ∀ j < s.nw, ∀ e : Tid × Nat, K (m.C (some j)) e →
    (pend (s.ws j) = 1 ∨ K (viewAt m.ch 0 true) e) →
    (pend (s'.ws j) = 1 ∨ K (viewAt m'.ch 0 true) e)

theorem Gen.before {sc : Script ε} {s s' : State ε} {m m' : Mem δ} (g : Gen sc s m s' m')
    {e : Tid × Nat} (h : Before s m e) : Before s' m' e := by
  refine ⟨K_mono h.1 (g.mono none), fun i hi ht => ?_⟩
  rw [g.nw] at hi
  rcases g.task i hi ht with h' | h'
  · exact Kn_step g.mono (g.lock i hi) (h.2 i hi h')
  · exact (Kn_master h').2 (K_mono h.1 (g.mono none))

theorem Gen.recOk {sc : Script ε} {s s' : State ε} {m m' : Mem δ} (g : Gen sc s m s' m')
    {foot : ε → List (δ × Bool)} {r : Rec δ} (h : RecOk foot sc s m r) : RecOk foot sc s' m' r := by
  obtain ⟨h1, h2, h3⟩ := h
  refine ⟨K_mono h1 (g.mono _), fun i hi => g.nw ▸ h2 i hi, ?_⟩
  cases hsrc : r.src with
  | client =>
    simp only [hsrc] at h3
    exact ⟨h3.1, g.before h3.2⟩
  | pool =>
    simp only [hsrc] at h3
    simp only [PoolRec] at h3 ⊢
    cases hloc : r.loc with
    | data x => simp [hloc] at h3
    | taskObj x => simp [hloc] at h3
    | member i =>
      simp only [hloc] at h3 ⊢
      refine ⟨g.nw ▸ h3.1, h3.2.1, fun hp => ?_⟩
      exact Kn_step g.mono (g.lock i h3.1) (h3.2.2 (fun e => hp (g.pc i h3.1 e)))
    | alloc i =>
      simp only [hloc] at h3 ⊢
      exact ⟨g.nw ▸ h3.1, h3.2.1, fun ht hp =>
        K_mono (h3.2.2 ht (fun e => hp (g.pc i h3.1 e))) (g.mono _)⟩
    | obj i =>
      simp only [hloc] at h3 ⊢
      exact ⟨g.nw ▸ h3.1, h3.2.1, fun ht hp =>
        K_mono (h3.2.2 ht (fun e => hp (g.pc i h3.1 e))) (g.mono _)⟩
    | pool =>
      simp only [hloc] at h3 ⊢
      refine ⟨fun ht i hi hp => ?_, h3.2⟩
      rw [g.nw] at hi
      exact K_mono (h3.1 ht i hi (fun e => hp (g.pc i hi e))) (g.mono _)
  | task k =>
    simp only [hsrc] at h3
    refine ⟨h3.1, ?_⟩
    rw [g.call]
    rcases h3.2 with ⟨hc, hb⟩ | ⟨hc, hcur⟩
    · exact .inl ⟨hc, g.before hb⟩
    · refine .inr ⟨hc, ?_⟩
      rcases hcur with ⟨ht, ha, hk⟩ | ⟨ht, hs, hj, hn, hv⟩
      · refine .inl ⟨ht, g.act ha, fun hj htk => ?_⟩
        rw [g.nw] at hj
        rcases g.task _ hj htk with h' | h'
        · exact Kn_step g.mono (g.lock _ hj) (hk hj h')
        · rw [Kn_master h']
          rw [ht] at h1
          exact K_mono h1 (g.mono none)
      · refine .inr ⟨ht, g.start _ hs, g.nw ▸ hj, g.call ▸ hn, ?_⟩
        refine g.view _ hj _ ?_ hv
        rw [ht] at h1; exact h1

theorem Gen.shSame {sc : Script ε} {s s' : State ε} {m m' : Mem δ} (g : Gen sc s m s' m')
    {i : Nat} (hi : i < s.nw) (h : ShOk s m i) (e : m'.sh i = m.sh i)
    (est : (s'.ws i).st = (s.ws i).st) (hp : past (s'.ws i).pc → past (s.ws i).pc) :
    ShOk s' m' i := by
  obtain ⟨h1, h2, h3⟩ := h
  refine ⟨by rw [e, est]; exact h1, ?_, fun hpa => ?_⟩
  · rw [e]; exact fun x hx => Kn_step g.mono (g.lock i hi) (h2 x hx)
  · unfold OwnReady
    rw [e]
    rcases h3 (hp hpa) with ⟨a, b, h4, h5, h6⟩ | ⟨a0, a, b, h4, h5, h6, h7⟩
    · exact .inl ⟨a, b, h4, h5, K_mono h6 (g.mono _)⟩
    · exact .inr ⟨a0, a, b, h4, h5, h6, K_mono h7 (g.mono _)⟩

theorem Gen.chSame {sc : Script ε} {s s' : State ε} {m m' : Mem δ} (g : Gen sc s m s' m')
    {pre h : List (Msg Nat)} {x : Msg Nat} (hc : ChOk s m pre x h) (e : m'.ch = m.ch)
    (ec : s'.count = s.count)
    (hpend : ∀ i < s.nw, pend (s'.ws i) = 1 → pend (s.ws i) = 1 ∨ (s'.ws i).lock = some .master)
    (hdec : ∀ i < s.nw, (s'.ws i).pc = .decrement → (s.ws i).pc = .decrement ∨
      ((s.ws i).lock = some .worker ∧ pend (s.ws i) = 1))
    (hq : quiet s'.mpc → quiet s.mpc ∨ ∀ u, viewAt m.ch 0 true u ≤ m'.C none u) :
    ChOk s' m' pre x h := by
  refine ⟨by rw [e]; exact hc.eq, hc.store, K_mono hc.known (g.mono _), ?_, ?_, ?_, ?_, ?_, ?_⟩
  · rw [ec]; exact hc.dec
  · rw [ec]; exact hc.val
  · intro i hi hp
    rw [g.nw] at hi
    rcases hpend i hi hp with h' | h'
    · exact Kn_step g.mono (g.lock i hi) (hc.pend i hi h')
    · exact (Kn_master h').2 (K_mono hc.known (g.mono _))
  · intro i hi hp
    rw [g.nw] at hi
    rcases hdec i hi hp with h' | ⟨h', h''⟩
    · exact K_mono (hc.dcr i hi h') (g.mono _)
    · exact K_mono ((Kn_worker h').1 (hc.pend i hi h'')) (g.mono _)
  · intro y hy
    rw [e] at hy ⊢
    refine K_mono (hc.view y hy) (fun t => ?_)
    simp only [join]
    have := g.mono none t
    omega
  · intro hq' y hy
    rw [e] at hy
    rcases hq hq' with h' | h'
    · exact K_mono (hc.all h' y hy) (g.mono _)
    · refine K_mono (hc.view y hy) (fun t => ?_)
      simp only [join]
      have h1 := g.mono none t
      have h2 := h' t
      omega

end Gemmlowp.Weak
