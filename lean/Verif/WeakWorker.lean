import Verif.WeakInv
/-!
# The pool under the C++ memory model: moves of the workers
-/
namespace Gemmlowp.Weak

open Pool

variable {ε δ : Type}

/-- A load by a thread that knows all messages reads the newest. -/
theorem vis_zero {α : Type} {c : Clock} {h : List (Msg α)} {k : Nat} (hk : ∀ g ∈ h, K c g.ep)
    (hv : visible c h k = true) : k = 0 := by
  simp only [visible, Bool.and_eq_true, decide_eq_true_eq, List.all_eq_true] at hv
  cases k with
  | zero => rfl
  | succ k =>
    cases h with
    | nil => simp at hv
    | cons g h =>
      have h1 := hv.2 g (by simp)
      have h2 := hk g (by simp)
      simp only [K, Msg.ep] at h2
      omega

/-- A load by a thread that knows message `j` does not read an older one. -/
theorem vis_le {α : Type} {c : Clock} {h : List (Msg α)} {k j : Nat} {g : Msg α}
    (hj : h[j]? = some g) (hk : K c g.ep) (hv : visible c h k = true) : k ≤ j := by
  simp only [visible, Bool.and_eq_true, decide_eq_true_eq, List.all_eq_true] at hv
  apply Classical.byContradiction
  intro hlt
  have h2 : g ∈ h.take k := by
    obtain ⟨hjl, e⟩ := List.getElem?_eq_some_iff.1 hj
    rw [← e]
    exact List.mem_take_iff_getElem.2 ⟨j, by omega, rfl⟩
  have h1 := hv.2 g h2
  simp only [K, Msg.ep] at hk
  omega

/-- The accesses a worker makes. -/
def WAcc (foot : ε → List (δ × Bool)) (sc : Script ε) (s s' : State ε) (i : Nat) (x : Loc δ)
    (w : Bool) (src : Src) : Prop :=
  (src = .pool ∧ (x = .obj i ∨ x = .alloc i ∨
    (x = .member i ∧ (s.ws i).lock = some .worker ∧ (s'.ws i).lock = some .worker) ∨
    (x = .pool ∧ w = false))) ∨
  (src = .task (s.call, i) ∧ (s.ws i).lock = some .worker ∧ (s.ws i).st = .hasWork ∧
    (s.ws i).task ≠ none ∧ pend (s'.ws i) = 1 ∧
    (x = .taskObj i ∨ ∃ y, x = .data y ∧ ∃ e ∈ sc.prog s.call i, (y, w) ∈ foot e))

/-- They do not race. -/
theorem wacc_safe {foot : ε → List (δ × Bool)} {sc : Script ε} {s s' : State ε} {m : Mem δ}
    (h : MInv foot sc s m) (hap : Apart foot sc) {i : Nat} (hi : i < s.nw)
    (hpc : (s.ws i).pc ≠ .exited) {x : Loc δ} {w : Bool} {src : Src}
    (ha : WAcc foot sc s s' i x w src) : SafeAct m (some i) (.acc x w src) := by
  intro r hr hx hw
  obtain ⟨h1, h2, h3⟩ := h.recs r hr
  have hown : r.tid = some i → K (m.C (some i)) r.ep := fun e => by rw [e] at h1; exact h1
  rcases ha with ⟨_, hc⟩ | ⟨_, hlk, hst, htk, _, hl⟩
  · cases hsrc : r.src with
    | client =>
      simp only [hsrc] at h3
      rw [hx] at h3
      rcases h3.1 with ⟨y, e⟩ | ⟨y, e⟩ <;> rcases hc with e' | e' | ⟨e', _⟩ | ⟨e', _⟩ <;>
        · rw [e'] at e; simp at e
    | task k =>
      simp only [hsrc, TaskLoc] at h3
      rw [hx] at h3
      rcases h3.1 with ⟨y, e, _⟩ | e <;> rcases hc with e' | e' | ⟨e', _⟩ | ⟨e', _⟩ <;>
        · rw [e'] at e; simp at e
    | pool =>
      simp only [hsrc, PoolRec] at h3
      rw [hx] at h3
      rcases hc with e' | e' | ⟨e', hl, _⟩ | ⟨e', hwf⟩ <;> rw [e'] at h3 <;> dsimp only at h3
      · rcases h3.2.1 with ht | ht
        · exact h3.2.2 ht hpc
        · exact hown ht
      · rcases h3.2.1 with ht | ht
        · exact h3.2.2 ht hpc
        · exact hown ht
      · exact (Kn_worker hl).1 (h3.2.2 hpc)
      · rw [hwf] at hw
        by_cases ht : r.tid = none
        · exact h3.1 ht i hi hpc
        · rw [h3.2 ht] at hw; simp at hw
  · have hkn : Before s m r.ep → K (m.C (some i)) r.ep := fun hb => (Kn_worker hlk).1 (hb.2 i hi htk)
    cases hsrc : r.src with
    | client => simp only [hsrc] at h3; exact hkn h3.2
    | pool =>
      simp only [hsrc, PoolRec] at h3
      rw [hx] at h3
      rcases hl with e | ⟨y, e, _⟩ <;> rw [e] at h3 <;> exact h3.elim
    | task k =>
      simp only [hsrc, TaskLoc] at h3
      rcases h3.2 with ⟨_, hb⟩ | ⟨hc, hcur⟩
      · exact hkn hb
      · by_cases hki : k.2 = i
        · rcases hcur with ⟨_, _, hk⟩ | ⟨ht, _⟩
          · rw [hki] at hk; exact (Kn_worker hlk).1 (hk hi htk)
          · exact hown (by rw [ht, hki])
        · exfalso
          rw [hx] at h3
          rcases hl with e | ⟨y, e, e0, he0, hf0⟩ <;> rw [e] at h3 <;>
            rcases h3.1 with ⟨z, ez, e1, he1, hf1⟩ | ez
          · simp at ez
          · simp only [Loc.taskObj.injEq] at ez; exact hki ez.symm
          · simp only [Loc.data.injEq] at ez
            subst ez
            rw [hc] at he1
            have := hap s.call k.2 i hki e1 he1 e0 he0 y r.wr w hf1 hf0
            simp [this] at hw
          · simp at ez

/-- The general form of a move of a worker. -/
theorem worker_fin [DecidableEq δ] {foot : ε → List (δ × Bool)} {sc : Script ε} {s s' : State ε}
    {m : Mem δ} {l : List (Act δ)} {out : Out ε}
    (hI : Inv sc s) (h : MInv foot sc s m) (hap : Apart foot sc) {i : Nat} (hi : i < s.nw)
    (hout : out = .next s') (hsc : wstep s i = .next s' ∨ s' = s)
    (hm : s'.mpc = s.mpc) (hcall : s'.call = s.call) (hnw : s'.nw = s.nw)
    (hws : ∀ j, j ≠ i → s'.ws j = s.ws j)
    (hnf : ∀ b ∈ l, b.isFork = false)
    (hsafe : ∀ b ∈ l, (∀ x w src, b ≠ .acc x w src) → SafeAct m (some i) b)
    (hacc : ∀ x w src, Act.acc x w src ∈ l → WAcc foot sc s s' i x w src)
    (hpc : (s.ws i).pc ≠ .exited)
    (htask : (s'.ws i).task ≠ none → (s.ws i).task ≠ none)
    (hM : ∀ j, j ≠ i → (m.acts (some i) l).M j = m.M j)
    (hlk : LockRel s m s' (m.acts (some i) l) i)
    (hview : ∀ j < s.nw, ∀ e : Tid × Nat, K (m.C (some j)) e →
      (pend (s.ws j) = 1 ∨ K (viewAt m.ch 0 true) e) →
      (pend (s'.ws j) = 1 ∨ K (viewAt (m.acts (some i) l).ch 0 true) e))
    (hsh : ∀ j, j ≠ i → (m.acts (some i) l).sh j = m.sh j)
    (hshi : Gen sc s m s' (m.acts (some i) l) → ShOk s' (m.acts (some i) l) i)
    (hch : Gen sc s m s' (m.acts (some i) l) → ∀ pre g t, ChOk s m pre g t →
      ∃ pre', ChOk s' (m.acts (some i) l) pre' g t) :
    finish m (some i) l out = .blocked ∨
      ∃ a', finish m (some i) l out = .next a' ∧ (wstep s i = .next a'.s ∨ a'.s = s) ∧
        MInv foot sc a'.s a'.m := by
  have hmono := acts_mono m (some i) l hnf
  have hrun : m.run (some i) l = .ok (m.acts (some i) l) := by
    refine run_ok (fun j hj => ?_) (fun b hb => ?_)
    · have := hnf _ hj; simp [Act.isFork] at this
    · by_cases hb' : ∃ x w src, b = .acc x w src
      · obtain ⟨x, w, src, rfl⟩ := hb'
        exact wacc_safe h hap hi hpc (hacc x w src hb)
      · exact hsafe b hb (fun x w src e => hb' ⟨x, w, src, e⟩)
  refine .inr ⟨⟨s', m.acts (some i) l⟩, ?_, hsc, ?_⟩
  · rw [hout]; simp only [finish, hrun]
  have hg : Gen sc s m s' (m.acts (some i) l) := by
    refine ⟨hcall, hnw, hmono, fun j hj => ?_, fun j hj e => ?_, fun j hj ht => ?_,
      fun ha => hm ▸ ha, fun j hs => hm ▸ hs, hview⟩
    · by_cases e : j = i
      · subst e; exact hlk
      · exact .inl ⟨by rw [hws j e], hM j e⟩
    · by_cases e' : j = i
      · subst e'; exact absurd e hpc
      · rw [hws j e']; exact e
    · by_cases e' : j = i
      · subst e'; exact .inl (htask ht)
      · rw [hws j e'] at ht; exact .inl ht
  dsimp only
  constructor
  · intro r hr
    rcases acts_recs m (some i) l hnf hr with hr' | ⟨ht, hk, ha⟩
    · exact hg.recOk (h.recs r hr')
    · have hK : K ((m.acts (some i) l).C (some i)) r.ep := by
        simp only [K, Rec.ep, ht]; exact hk
      refine ⟨by rw [ht]; exact hK, fun j hj => ?_, ?_⟩
      · rw [ht, Option.some.injEq] at hj; rw [← hj, hnw]; exact hi
      rcases hacc _ _ _ ha with ⟨hsrc, hx⟩ | ⟨hsrc, hl, hst, htk, hp, hx⟩
      · simp only [hsrc, PoolRec]
        rcases hx with e | e | ⟨e, hl, hl'⟩ | ⟨e, hw⟩ <;> rw [e] <;> dsimp only
        · exact ⟨by rw [hnw]; exact hi, .inr ht, fun e => by rw [ht] at e; simp at e⟩
        · exact ⟨by rw [hnw]; exact hi, .inr ht, fun e => by rw [ht] at e; simp at e⟩
        · exact ⟨by rw [hnw]; exact hi, .inr ht, fun _ => (Kn_worker hl').2 hK⟩
        · exact ⟨fun e => by rw [ht] at e; simp at e, fun _ => hw⟩
      · simp only [hsrc]
        refine ⟨?_, .inr ⟨hcall.symm, .inr ⟨ht, ?_, by rw [hnw]; exact hi, ?_, .inl hp⟩⟩⟩
        · rcases hx with e | ⟨y, e, e0, he0, hf0⟩
          · exact .inr e
          · exact .inl ⟨y, e, e0, he0, hf0⟩
        · rw [hm]; exact hasWork_started (hI.allowed i hi) hst hpc
        · rw [hcall]; exact hasWork_lt (hI.allowed i hi) rfl hI.phase hst hpc
  · intro j hj
    rw [hnw] at hj
    by_cases e : j = i
    · subst e; exact hshi hg
    · exact hg.shSame hj (h.sh j hj) (hsh j e) (by rw [hws j e]) (by rw [hws j e]; exact id)
  · obtain ⟨pre, g, t, hc⟩ := h.ch
    obtain ⟨pre', hc'⟩ := hch hg pre g t hc
    exact ⟨pre', g, t, hc'⟩
  · intro j hj hjn
    rw [hnw] at hj
    rw [hm] at hjn
    have h1 := h.joined j hj hjn
    have hne : some j ≠ some i := by
      intro e
      rw [Option.some.injEq] at e
      subst e
      have hal := hI.allowed j hi
      revert hjn hal
      cases s.mpc <;> simp only [joined, Allowed] <;> intro h1 h2 <;>
        first | contradiction | exact hpc h2 | (rw [if_pos h1] at h2; exact hpc h2)
    rw [acts_other m (some i) l hnf hne]
    exact Nat.le_trans h1 (hmono none (some j))
  · intro j hj t
    rw [hnw] at hj
    have hne : some j ≠ some i := by intro e; rw [Option.some.injEq] at e; omega
    rw [acts_other m (some i) l hnf hne]
    exact h.fresh j hj t


/-- An action that changes nothing but what the thread knows and the recorded accesses. -/
def Act.calm : Act δ → Bool
  | .acc _ _ _ | .lock _ | .stLoad _ _ _ | .cLoad _ _ | .joinT _ => true
  | _ => false

theorem calm_fork {b : Act δ} (h : b.calm = true) : b.isFork = false := by
  cases b <;> simp_all [Act.calm, Act.isFork]

theorem calm_M {b : Act δ} (h : b.calm = true) : b.touchM = false := by
  cases b <;> simp_all [Act.calm, Act.touchM]

theorem calm_S {b : Act δ} (h : b.calm = true) : b.touchS = false := by
  cases b <;> simp_all [Act.calm, Act.touchS]

theorem calm_C {b : Act δ} (h : b.calm = true) : b.touchC = false := by
  cases b <;> simp_all [Act.calm, Act.touchC]

theorem calm_safe {m : Mem δ} {t : Tid} {b : Act δ} (h : b.calm = true)
    (hb : ∀ x w src, b ≠ .acc x w src) : SafeAct m t b := by
  cases b <;> simp_all [Act.calm, SafeAct]

theorem setW_same (s : State ε) (i : Nat) (w : Worker ε) : (s.setW i w).ws i = w := by
  simp [State.setW]

theorem setW_ne (s : State ε) {i j : Nat} (w : Worker ε) (h : j ≠ i) :
    (s.setW i w).ws j = s.ws j := by simp [State.setW, h]

/-- A move of a worker with calm actions only. -/
theorem worker_calm [DecidableEq δ] {foot : ε → List (δ × Bool)} {sc : Script ε} {s s' : State ε}
    {m : Mem δ} {l : List (Act δ)} {out : Out ε}
    (hI : Inv sc s) (h : MInv foot sc s m) (hap : Apart foot sc) {i : Nat} (hi : i < s.nw)
    (hout : out = .next s') (hsc : wstep s i = .next s' ∨ s' = s)
    (hm : s'.mpc = s.mpc) (hcall : s'.call = s.call) (hnw : s'.nw = s.nw)
    (hcnt : s'.count = s.count) (hws : ∀ j, j ≠ i → s'.ws j = s.ws j)
    (hcalm : ∀ b ∈ l, b.calm = true)
    (hacc : ∀ x w src, Act.acc x w src ∈ l → WAcc foot sc s s' i x w src)
    (hpc : (s.ws i).pc ≠ .exited)
    (htask : (s'.ws i).task ≠ none → (s.ws i).task ≠ none)
    (hlock : (s'.ws i).lock = (s.ws i).lock ∨
      ((s.ws i).lock = none ∧ (s'.ws i).lock = some .worker ∧
        ∀ u, m.M i u ≤ (m.acts (some i) l).C (some i) u))
    (hst : (s'.ws i).st = (s.ws i).st)
    (hpast : past (s'.ws i).pc → past (s.ws i).pc)
    (hdec : (s'.ws i).pc ≠ .decrement)
    (hpend : pend (s'.ws i) = pend (s.ws i)) :
    finish m (some i) l out = .blocked ∨
      ∃ a', finish m (some i) l out = .next a' ∧ (wstep s i = .next a'.s ∨ a'.s = s) ∧
        MInv foot sc a'.s a'.m := by
  have eM := acts_M m (some i) l (fun b hb => calm_M (hcalm b hb))
  have eS := acts_sh m (some i) l (fun b hb => calm_S (hcalm b hb))
  have eC := acts_ch m (some i) l (fun b hb => calm_C (hcalm b hb))
  have hpj : ∀ j, pend (s'.ws j) = pend (s.ws j) := by
    intro j
    by_cases e : j = i
    · subst e; exact hpend
    · rw [hws j e]
  refine worker_fin hI h hap hi hout hsc hm hcall hnw hws (fun b hb => calm_fork (hcalm b hb))
    (fun b hb hb' => calm_safe (hcalm b hb) hb') hacc hpc htask (fun j _ => by rw [eM]) ?_ ?_
    (fun j _ => by rw [eS]) ?_ ?_
  · rcases hlock with e | ⟨e1, e2, e3⟩
    · exact .inl ⟨e, by rw [eM]⟩
    · exact .inr ⟨.worker, some i, .inr ⟨rfl, rfl⟩, .inl ⟨e1, e2, e3⟩⟩
  · intro j _ e _ hv
    rw [hpj, eC]; exact hv
  · intro hg
    exact hg.shSame hi (h.sh i hi) (by rw [eS]) hst hpast
  · intro hg pre g t hc
    refine ⟨pre, hg.chSame hc eC hcnt (fun j _ hp => .inl (hpj j ▸ hp)) (fun j hj hp => ?_)
      (fun hq => .inl (hm ▸ hq))⟩
    by_cases e : j = i
    · subst e; exact absurd hp hdec
    · rw [hws j e] at hp; exact .inl hp

/-- A move of a worker that ends with unlocking its mutex. -/
theorem worker_unlock [DecidableEq δ] {foot : ε → List (δ × Bool)} {sc : Script ε}
    {s s' : State ε} {m : Mem δ} {l : List (Act δ)} {out : Out ε}
    (hI : Inv sc s) (h : MInv foot sc s m) (hap : Apart foot sc) {i : Nat} (hi : i < s.nw)
    (hout : out = .next s') (hsc : wstep s i = .next s')
    (hm : s'.mpc = s.mpc) (hcall : s'.call = s.call) (hnw : s'.nw = s.nw)
    (hcnt : s'.count = s.count) (hws : ∀ j, j ≠ i → s'.ws j = s.ws j)
    (hcalm : ∀ b ∈ l, b.calm = true)
    (hacc : ∀ x w src, Act.acc x w src ∈ l → WAcc foot sc s s' i x w src)
    (hpc : (s.ws i).pc ≠ .exited)
    (htask : (s'.ws i).task ≠ none → (s.ws i).task ≠ none)
    (hl1 : (s.ws i).lock = some .worker) (hl2 : (s'.ws i).lock = none)
    (hst : (s'.ws i).st = (s.ws i).st)
    (hpast : past (s'.ws i).pc → past (s.ws i).pc)
    (hpend : pend (s'.ws i) = pend (s.ws i))
    (hdec : (s'.ws i).pc = .decrement → pend (s.ws i) = 1) :
    finish m (some i) (l ++ [.unlock i]) out = .blocked ∨
      ∃ a', finish m (some i) (l ++ [.unlock i]) out = .next a' ∧
        (wstep s i = .next a'.s ∨ a'.s = s) ∧ MInv foot sc a'.s a'.m := by
  have eM := acts_M m (some i) l (fun b hb => calm_M (hcalm b hb))
  have eM' : (m.acts (some i) (l ++ [.unlock i])).M =
      upd m.M i ((m.acts (some i) (l ++ [.unlock i])).C (some i)) := by
    rw [acts_append, acts_cons, acts_nil]
    simp only [Mem.act, Mem.eff, Mem.tick, eM]
  have eS := acts_sh m (some i) (l ++ [.unlock i]) (by
    intro b hb
    rcases List.mem_append.1 hb with hb | hb
    · exact calm_S (hcalm b hb)
    · rw [List.mem_singleton] at hb; subst hb; rfl)
  have eC := acts_ch m (some i) (l ++ [.unlock i]) (by
    intro b hb
    rcases List.mem_append.1 hb with hb | hb
    · exact calm_C (hcalm b hb)
    · rw [List.mem_singleton] at hb; subst hb; rfl)
  have hpj : ∀ j, pend (s'.ws j) = pend (s.ws j) := by
    intro j
    by_cases e : j = i
    · subst e; exact hpend
    · rw [hws j e]
  refine worker_fin hI h hap hi hout (.inl hsc) hm hcall hnw hws ?_ ?_ ?_ hpc htask ?_ ?_ ?_
    (fun j _ => by rw [eS]) ?_ ?_
  · intro b hb
    rcases List.mem_append.1 hb with hb | hb
    · exact calm_fork (hcalm b hb)
    · rw [List.mem_singleton] at hb; subst hb; rfl
  · intro b hb hb'
    rcases List.mem_append.1 hb with hb | hb
    · exact calm_safe (hcalm b hb) hb'
    · rw [List.mem_singleton] at hb; subst hb; trivial
  · intro x w src hb
    rcases List.mem_append.1 hb with hb | hb
    · exact hacc x w src hb
    · rw [List.mem_singleton] at hb; simp at hb
  · intro j hj; rw [eM']; simp [upd, hj]
  · exact .inr ⟨.worker, some i, .inr ⟨rfl, rfl⟩, .inr ⟨hl1, hl2, by rw [eM']; simp [upd]⟩⟩
  · intro j _ e _ hv
    rw [hpj, eC]; exact hv
  · intro hg
    exact hg.shSame hi (h.sh i hi) (by rw [eS]) hst hpast
  · intro hg pre g t hc
    refine ⟨pre, hg.chSame hc eC hcnt (fun j _ hp => .inl (hpj j ▸ hp)) (fun j hj hp => ?_)
      (fun hq => .inl (hm ▸ hq))⟩
    by_cases e : j = i
    · subst e; exact .inr ⟨hl1, hdec hp⟩
    · rw [hws j e] at hp; exact .inl hp

end Gemmlowp.Weak
