import Verif.WeakWorker
/-!
# The pool under the C++ memory model: each move of a worker
-/
namespace Gemmlowp.Weak

open Pool

variable {ε δ : Type}

theorem valAt_head {s : State ε} {m : Mem δ} {i : Nat} (h : ShOk s m i) (d : WSt) :
    valAt d (m.sh i) 0 = (s.ws i).st := by
  obtain ⟨⟨g, t, e, hv⟩, _⟩ := h
  rw [e, ← hv]; rfl

/-- A worker that holds its mutex sees the newest state. -/
theorem locked_load {foot : ε → List (δ × Bool)} {sc : Script ε} {s : State ε} {m : Mem δ}
    (h : MInv foot sc s m) {i k : Nat} (hi : i < s.nw) (hl : (s.ws i).lock = some .worker)
    (hv : visible (m.C (some i)) (m.sh i) k = true) : k = 0 :=
  vis_zero (fun g hg => (Kn_worker hl).1 ((h.sh i hi).2.1 g hg)) hv

/-- A worker that looks at its state without holding the mutex sees `Ready` or the newest state. -/
theorem spin_load {foot : ε → List (δ × Bool)} {sc : Script ε} {s : State ε} {m : Mem δ}
    (h : MInv foot sc s m) {i k : Nat} (hi : i < s.nw) (hp : past (s.ws i).pc)
    (hv : visible (m.C (some i)) (m.sh i) k = true) :
    valAt .ready (m.sh i) k = .ready ∨ valAt .ready (m.sh i) k = (s.ws i).st := by
  obtain ⟨⟨g0, t0, e0, hg0⟩, _, h3⟩ := h.sh i hi
  rcases h3 hp with ⟨g, t, e, hg, hk⟩ | ⟨g1, g, t, e, h1, hg, hk⟩
  · have := vis_le (j := 0) (by rw [e]; rfl) hk hv
    have hk0 : k = 0 := by omega
    subst hk0
    exact .inr (valAt_head (h.sh i hi) _)
  · have := vis_le (j := 1) (by rw [e]; rfl) hk hv
    have hk0 : k = 0 ∨ k = 1 := by omega
    rcases hk0 with e' | e' <;> subst e'
    · exact .inr (valAt_head (h.sh i hi) _)
    · left; rw [e]; exact hg

theorem obj_acc {foot : ε → List (δ × Bool)} {sc : Script ε} {s s' : State ε} {i : Nat} {w : Bool} :
    WAcc foot sc s s' i (.obj i) w .pool := .inl ⟨rfl, .inl rfl⟩

variable [DecidableEq δ]

/-- What is to be proved of a move of a worker. -/
def WorkerOk (foot : ε → List (δ × Bool)) (sc : Script ε) (s : State ε) (m : Mem δ) (i : Nat)
    (l : List (Act δ)) (out : Out ε) : Prop :=
  finish m (some i) l out = .blocked ∨
    ∃ a', finish m (some i) l out = .next a' ∧ (wstep s i = .next a'.s ∨ a'.s = s) ∧
      MInv foot sc a'.s a'.m

theorem worker_lockMove {foot : ε → List (δ × Bool)} {sc : Script ε} {s : State ε} {m : Mem δ}
    (hI : Inv sc s) (h : MInv foot sc s m) (hap : Apart foot sc) {i : Nat} (hi : i < s.nw)
    {p : WPc ε} (hl : (s.ws i).lock = none)
    (hsc : wstep s i = .next (s.setW i { s.ws i with pc := p, lock := some .worker }))
    (hpc : (s.ws i).pc ≠ .exited) (hpast : past p → past (s.ws i).pc) (hdec : p ≠ .decrement)
    (hpend : pend { s.ws i with pc := p, lock := some .worker } = pend (s.ws i)) :
    WorkerOk foot sc s m i [.acc (.obj i) false .pool, .lock i]
      (.next (s.setW i { s.ws i with pc := p, lock := some .worker })) := by
  refine worker_calm hI h hap hi rfl (.inl hsc) rfl rfl rfl rfl
    (fun j hj => setW_ne s _ hj) ?_ ?_ hpc ?_ ?_ ?_ ?_ ?_ ?_
  · intro b hb
    simp only [List.mem_cons, List.not_mem_nil, or_false] at hb
    rcases hb with e | e <;> subst e <;> rfl
  · intro x w src hb
    simp only [List.mem_cons, List.not_mem_nil, or_false, Act.acc.injEq, reduceCtorEq] at hb
    obtain ⟨rfl, rfl, rfl⟩ := hb
    exact obj_acc
  · rw [setW_same]; exact id
  · refine .inr ⟨hl, by rw [setW_same], fun u => ?_⟩
    rw [acts_cons, acts_cons, acts_nil]
    simp only [Mem.act, Mem.eff, learn_C, if_true]
    exact Nat.le_max_right _ _
  · rw [setW_same]
  · rw [setW_same]; exact hpast
  · rw [setW_same]; exact hdec
  · rw [setW_same]; exact hpend

theorem worker_step {o : Orders} {foot : ε → List (δ × Bool)} {sc : Script ε} {s : State ε}
    {m : Mem δ} (hd : o.decRel = true) (hI : Inv sc s) (h : MInv foot sc s m) (hap : Apart foot sc)
    {i k : Nat} (hi : i < s.nw) (hr : m.readable (some i) k (wload i (s.ws i).pc) = true) :
    WorkerOk foot sc s m i (wacts o foot s i k (valAt .ready (m.sh i) k))
      (wstepL s i (valAt .ready (m.sh i) k) (valAt 0 m.ch k)) := by
  have hok := hI.wok i hi
  unfold WOk at hok
  unfold wacts wstepL
  dsimp only
  cases hpc : (s.ws i).pc with
  | lockReady =>
    dsimp only
    cases hl : (s.ws i).lock with
    | some o => exact .inl rfl
    | none =>
      refine worker_lockMove hI h hap hi hl ?_ (by rw [hpc]; simp) (by simp [past]) (by simp) ?_
      · unfold wstep; dsimp only; rw [hpc]; dsimp only; rw [hl]
      · exact pend_same rfl (by rw [hpc]; simp) (by rw [hpc]; simp) (by simp) (by simp)
  | lockWait =>
    dsimp only
    cases hl : (s.ws i).lock with
    | some o => exact .inl rfl
    | none =>
      refine worker_lockMove hI h hap hi hl ?_ (by rw [hpc]; simp) (by rw [hpc]; simp [past])
        (by simp) ?_
      · unfold wstep; dsimp only; rw [hpc]; dsimp only; rw [hl]
      · exact pend_same rfl (by rw [hpc]; simp) (by rw [hpc]; simp) (by simp) (by simp)
  | woken =>
    dsimp only
    cases hl : (s.ws i).lock with
    | some o => exact .inl rfl
    | none =>
      refine worker_lockMove hI h hap hi hl ?_ (by rw [hpc]; simp) (by rw [hpc]; simp [past])
        (by simp) ?_
      · unfold wstep; dsimp only; rw [hpc]; dsimp only; rw [hl]
      · exact pend_same rfl (by rw [hpc]; simp) (by rw [hpc]; simp) (by simp) (by simp)
  | waiting => exact .inl rfl
  | exited => exact .inl rfl
  | inReady =>
    rw [hpc] at hok
    obtain ⟨hl, hent⟩ := hok
    rw [hpc] at hr
    have hk := locked_load h hi hl hr
    subst hk
    rw [valAt_head (h.sh i hi)]
    dsimp only
    have hpend : pend (s.ws i) = 1 := by
      rcases hent with e | e
      · exact pend_startup e.1
      · exact pend_work e.1
    cases htk : (s.ws i).task with
    | none =>
      have hst : (s.ws i).st = .threadStartup := by
        rcases hent with e | e
        · exact e.1
        · exact absurd htk e.2
      refine worker_calm hI h hap hi (s' := s.setW i { s.ws i with pc := .storeReady })
        (by simp [hst, htk]) (.inl ?_) rfl rfl rfl rfl (fun j hj => setW_ne s _ hj) ?_ ?_
        (by rw [hpc]; simp) ?_ (.inl ?_) ?_ ?_ ?_ ?_
      · unfold wstep; dsimp only; rw [hpc]; dsimp only; rw [hst, htk]
      · intro b hb
        simp only [List.mem_cons, List.not_mem_nil, or_false] at hb
        rcases hb with e | e | e <;> subst e <;> rfl
      · intro x w src hb
        simp only [List.mem_cons, List.not_mem_nil, or_false, Act.acc.injEq, reduceCtorEq,
          false_or] at hb
        rcases hb with ⟨rfl, rfl, rfl⟩ | ⟨rfl, rfl, rfl⟩
        · exact obj_acc
        · exact .inl ⟨rfl, .inr (.inr (.inl ⟨rfl, hl, by rw [setW_same]; exact hl⟩))⟩
      · rw [setW_same]; exact id
      · rw [setW_same]
      · rw [setW_same]
      · rw [setW_same]; simp [past]
      · rw [setW_same]; simp
      · rw [setW_same, hpend]; exact pend_startup hst
    | some tp =>
      obtain ⟨id, p⟩ := tp
      have hst : (s.ws i).st = .hasWork := by
        rcases hent with e | e
        · rw [htk] at e; simp at e
        · exact e.1
      have hid : id = (s.call, i) := by
        have := hI.task i hi _ htk
        simp only [Prod.mk.injEq] at this
        exact this.1
      refine worker_calm hI h hap hi (s' := s.setW i { s.ws i with pc := .running p })
        (by simp [hst, htk]) (.inl ?_) rfl rfl rfl rfl (fun j hj => setW_ne s _ hj) ?_ ?_
        (by rw [hpc]; simp) ?_ (.inl ?_) ?_ ?_ ?_ ?_
      · unfold wstep; dsimp only; rw [hpc]; dsimp only; rw [hst, htk]
      · intro b hb
        simp only [List.mem_cons, List.not_mem_nil, or_false] at hb
        rcases hb with e | e | e | e <;> subst e <;> rfl
      · intro x w src hb
        simp only [List.mem_cons, List.not_mem_nil, or_false, Act.acc.injEq, reduceCtorEq,
          false_or] at hb
        rcases hb with ⟨rfl, rfl, rfl⟩ | ⟨rfl, rfl, rfl⟩ | ⟨rfl, rfl, rfl⟩
        · exact obj_acc
        · exact .inl ⟨rfl, .inr (.inr (.inl ⟨rfl, hl, by rw [setW_same]; exact hl⟩))⟩
        · refine .inr ⟨by rw [hid], hl, hst, by rw [htk]; simp, ?_, .inl rfl⟩
          rw [setW_same]; exact pend_work hst
      · rw [setW_same]; exact fun h => h
      · rw [setW_same]
      · rw [setW_same]
      · rw [setW_same]; simp [past]
      · rw [setW_same]; simp
      · rw [setW_same, hpend]; exact pend_work hst
  | running es =>
    rw [hpc] at hok
    obtain ⟨hl, hst, htk⟩ := hok
    cases es with
    | nil =>
      dsimp only
      refine worker_calm hI h hap hi
        (s' := s.setW i { s.ws i with pc := .storeReady, task := none })
        rfl (.inl ?_) rfl rfl rfl rfl (fun j hj => setW_ne s _ hj) ?_ ?_
        (by rw [hpc]; simp) ?_ (.inl ?_) ?_ ?_ ?_ ?_
      · unfold wstep; dsimp only; rw [hpc]
      · intro b hb
        simp only [List.mem_cons, List.not_mem_nil, or_false] at hb
        rcases hb with e | e <;> subst e <;> rfl
      · intro x w src hb
        simp only [List.mem_cons, List.not_mem_nil, or_false, Act.acc.injEq] at hb
        rcases hb with ⟨rfl, rfl, rfl⟩ | ⟨rfl, rfl, rfl⟩
        · exact obj_acc
        · exact .inl ⟨rfl, .inr (.inr (.inl ⟨rfl, hl, by rw [setW_same]; exact hl⟩))⟩
      · rw [setW_same]; exact fun h => absurd rfl h
      · rw [setW_same]
      · rw [setW_same]
      · rw [setW_same]; simp [past]
      · rw [setW_same]; simp
      · rw [setW_same, pend_work hst]; exact pend_work hst
    | cons e es =>
      obtain ⟨⟨id, p⟩, htk'⟩ := Option.ne_none_iff_exists'.1 htk
      have hid := hI.task i hi _ htk'
      simp only [Prod.mk.injEq] at hid
      obtain ⟨hid, hp⟩ := hid
      have hmem : e ∈ sc.prog s.call i := by
        have hh := hI.hist s.call i
        have hlt := hasWork_lt (hI.allowed i hi) rfl hI.phase hst (by rw [hpc]; simp)
        have hs := hasWork_started (hI.allowed i hi) hst (by rw [hpc]; simp)
        have e2 : rem sc s s.call i = e :: es := by
          unfold rem
          rw [if_neg (by omega), if_neg (by omega), if_neg (by omega), if_pos ⟨by omega, hs⟩]
          unfold wrem
          rw [htk', hpc]
        rw [← hh, e2]
        simp
      dsimp only
      rw [htk']
      dsimp only
      refine worker_calm hI h hap hi
        (s' := { s.setW i { s.ws i with pc := .running es } with log := s.log ++ [(id, e)] })
        (by simp [htk']) (.inl ?_) rfl rfl rfl rfl (fun j hj => setW_ne s _ hj) ?_ ?_
        (by rw [hpc]; simp) ?_ (.inl ?_) ?_ ?_ ?_ ?_
      · unfold wstep; dsimp only; rw [hpc]; dsimp only; rw [htk']
      · intro b hb
        simp only [List.mem_cons, dataActs, List.mem_map] at hb
        rcases hb with e | e | e | ⟨p, _, e⟩ <;> subst e <;> rfl
      · intro x w src hb
        simp only [List.mem_cons, dataActs, List.mem_map, Act.acc.injEq] at hb
        rcases hb with ⟨rfl, rfl, rfl⟩ | ⟨rfl, rfl, rfl⟩ | ⟨rfl, rfl, rfl⟩ | ⟨p, hp, rfl, rfl, rfl⟩
        · exact obj_acc
        · refine .inr ⟨by rw [hid], hl, hst, htk, ?_, .inl rfl⟩
          show pend ((s.setW i _).ws i) = 1
          rw [setW_same]; exact pend_work hst
        · exact .inl ⟨rfl, .inr (.inl rfl)⟩
        · refine .inr ⟨by rw [hid], hl, hst, htk, ?_, .inr ⟨p.1, rfl, e, hmem, hp⟩⟩
          show pend ((s.setW i _).ws i) = 1
          rw [setW_same]; exact pend_work hst
      · show ((s.setW i _).ws i).task ≠ none → _
        rw [setW_same]; exact fun h => h
      · show ((s.setW i _).ws i).lock = _
        rw [setW_same]
      · show ((s.setW i _).ws i).st = _
        rw [setW_same]
      · show past ((s.setW i _).ws i).pc → _
        rw [setW_same]; simp [past]
      · show ((s.setW i _).ws i).pc ≠ _
        rw [setW_same]; simp
      · show pend ((s.setW i _).ws i) = _
        rw [setW_same, pend_work hst]; exact pend_work hst
  | spin =>
    rw [hpc] at hok
    obtain ⟨hl, hq⟩ := hok
    rw [hpc] at hr
    have hval := spin_load h hi (by rw [hpc]; trivial) hr
    have hcalm : ∀ b ∈ ([.acc (.obj i) false .pool, .stLoad i k o.chkAcq] : List (Act δ)),
        b.calm = true := by
      intro b hb
      simp only [List.mem_cons, List.not_mem_nil, or_false] at hb
      rcases hb with e | e <;> subst e <;> rfl
    have hacc : ∀ s', ∀ x w src, Act.acc x w src ∈
        ([.acc (.obj i) false .pool, .stLoad i k o.chkAcq] : List (Act δ)) →
        WAcc foot sc s s' i x w src := by
      intro s' x w src hb
      simp only [List.mem_cons, List.not_mem_nil, or_false, Act.acc.injEq, reduceCtorEq] at hb
      obtain ⟨rfl, rfl, rfl⟩ := hb
      exact obj_acc
    dsimp only
    by_cases hrd : valAt .ready (m.sh i) k = .ready
    · refine worker_calm hI h hap hi (s' := s) (by rw [hrd]) (.inr rfl) rfl rfl rfl rfl
        (fun j hj => rfl) hcalm (hacc s) (by rw [hpc]; simp) id (.inl rfl) rfl id
        (by rw [hpc]; simp) rfl
    · have hv : valAt .ready (m.sh i) k = (s.ws i).st := hval.resolve_left hrd
      rw [hv] at hrd ⊢
      refine worker_calm hI h hap hi (s' := s.setW i { s.ws i with pc := .act (s.ws i).st })
        ?_ (.inl ?_) rfl rfl rfl rfl (fun j hj => setW_ne s _ hj) hcalm (hacc _)
        (by rw [hpc]; simp) ?_ (.inl ?_) ?_ ?_ ?_ ?_
      · cases hst : (s.ws i).st <;> simp_all
      · unfold wstep; dsimp only; rw [hpc]; dsimp only
        cases hst : (s.ws i).st <;> simp_all
      · rw [setW_same]; exact fun h => h
      · rw [setW_same]
      · rw [setW_same]
      · rw [setW_same]; simp [past]
      · rw [setW_same]; simp
      · rw [setW_same]
        exact pend_same rfl (by rw [hpc]; simp) (by rw [hpc]; simp) (by simp) (by simp)
  | act v =>
    rw [hpc] at hok
    obtain ⟨hl, hq, hv, hvr⟩ := hok
    have hcalm : ∀ b ∈ ([.acc (.obj i) false .pool] : List (Act δ)), b.calm = true := by
      intro b hb
      simp only [List.mem_cons, List.not_mem_nil, or_false] at hb
      subst hb; rfl
    have hacc : ∀ s', ∀ x w src, Act.acc x w src ∈ ([.acc (.obj i) false .pool] : List (Act δ)) →
        WAcc foot sc s s' i x w src := by
      intro s' x w src hb
      simp only [List.mem_cons, List.not_mem_nil, or_false, Act.acc.injEq] at hb
      obtain ⟨rfl, rfl, rfl⟩ := hb
      exact obj_acc
    cases v with
    | threadStartup => exact absurd hv.symm hq.1
    | ready => exact absurd rfl hvr
    | hasWork =>
      dsimp only
      refine worker_calm hI h hap hi (s' := s.setW i { s.ws i with pc := .lockReady })
        rfl (.inl ?_) rfl rfl rfl rfl (fun j hj => setW_ne s _ hj) hcalm (hacc _)
        (by rw [hpc]; simp) ?_ (.inl ?_) ?_ ?_ ?_ ?_
      · unfold wstep; dsimp only; rw [hpc]
      · rw [setW_same]; exact fun h => h
      · rw [setW_same]
      · rw [setW_same]
      · rw [setW_same]; simp [past]
      · rw [setW_same]; simp
      · rw [setW_same, pend_work hv.symm]; exact pend_work hv.symm
    | exit =>
      dsimp only
      refine worker_calm hI h hap hi (s' := s.setW i { s.ws i with pc := .exited })
        rfl (.inl ?_) rfl rfl rfl rfl (fun j hj => setW_ne s _ hj) hcalm (hacc _)
        (by rw [hpc]; simp) ?_ (.inl ?_) ?_ ?_ ?_ ?_
      · unfold wstep; dsimp only; rw [hpc]
      · rw [setW_same]; exact fun h => h
      · rw [setW_same]
      · rw [setW_same]
      · rw [setW_same]; simp [past]
      · rw [setW_same]; simp
      · rw [setW_same]
        exact pend_same rfl (by rw [hpc]; simp) (by rw [hpc]; simp) (by simp) (by simp)
  | unlockReady =>
    rw [hpc] at hok
    obtain ⟨hl, htk, hst⟩ := hok
    dsimp only
    refine worker_unlock (l := [.acc (.obj i) false .pool]) hI h hap hi
      (s' := s.setW i { s.ws i with pc := .decrement, lock := none }) rfl ?_ rfl rfl rfl rfl
      (fun j hj => setW_ne s _ hj) ?_ ?_ (by rw [hpc]; simp) ?_ hl ?_ ?_ ?_ ?_ ?_
    · unfold wstep; dsimp only; rw [hpc]
    · intro b hb
      simp only [List.mem_cons, List.not_mem_nil, or_false] at hb
      subst hb; rfl
    · intro x w src hb
      simp only [List.mem_cons, List.not_mem_nil, or_false, Act.acc.injEq] at hb
      obtain ⟨rfl, rfl, rfl⟩ := hb
      exact obj_acc
    · rw [setW_same]; exact fun h => h
    · rw [setW_same]
    · rw [setW_same]
    · rw [setW_same, hpc]; exact fun h => h
    · rw [setW_same]; simp [pend, hpc, hst]
    · intro _; simp [pend, hpc, hst]
  | unlockWait v =>
    rw [hpc] at hok
    obtain ⟨hl, hq, hv, hvr⟩ := hok
    dsimp only
    refine worker_unlock (l := [.acc (.obj i) false .pool]) hI h hap hi
      (s' := s.setW i { s.ws i with pc := .act v, lock := none }) rfl ?_ rfl rfl rfl rfl
      (fun j hj => setW_ne s _ hj) ?_ ?_ (by rw [hpc]; simp) ?_ hl ?_ ?_ ?_ ?_ ?_
    · unfold wstep; dsimp only; rw [hpc]
    · intro b hb
      simp only [List.mem_cons, List.not_mem_nil, or_false] at hb
      subst hb; rfl
    · intro x w src hb
      simp only [List.mem_cons, List.not_mem_nil, or_false, Act.acc.injEq] at hb
      obtain ⟨rfl, rfl, rfl⟩ := hb
      exact obj_acc
    · rw [setW_same]; exact fun h => h
    · rw [setW_same]
    · rw [setW_same]
    · rw [setW_same]; simp [past]
    · rw [setW_same]
      exact pend_same rfl (by rw [hpc]; simp) (by rw [hpc]; simp) (by simp) (by simp)
    · rw [setW_same]; simp
  | checkWait =>
    rw [hpc] at hok
    obtain ⟨hl, hq⟩ := hok
    rw [hpc] at hr
    have hk := locked_load h hi hl hr
    subst hk
    rw [valAt_head (h.sh i hi)]
    have hcalm : ∀ b ∈ ([.acc (.obj i) false .pool, .stLoad i 0 o.chkAcq] : List (Act δ)),
        b.calm = true := by
      intro b hb
      simp only [List.mem_cons, List.not_mem_nil, or_false] at hb
      rcases hb with e | e <;> subst e <;> rfl
    have hacc : ∀ s', ∀ x w src, Act.acc x w src ∈
        ([.acc (.obj i) false .pool, .stLoad i 0 o.chkAcq] : List (Act δ)) →
        WAcc foot sc s s' i x w src := by
      intro s' x w src hb
      simp only [List.mem_cons, List.not_mem_nil, or_false, Act.acc.injEq, reduceCtorEq] at hb
      obtain ⟨rfl, rfl, rfl⟩ := hb
      exact obj_acc
    dsimp only
    by_cases hst : (s.ws i).st = .ready
    · rw [hst]
      dsimp only
      refine worker_unlock (l := [.acc (.obj i) false .pool, .stLoad i 0 o.chkAcq]) hI h hap hi
        (s' := s.setW i { s.ws i with pc := .waiting, lock := none }) (by simp [hst]) ?_ rfl rfl rfl rfl
        (fun j hj => setW_ne s _ hj) hcalm (hacc _) (by rw [hpc]; simp) ?_ hl ?_ ?_ ?_ ?_ ?_
      · unfold wstep; dsimp only; rw [hpc]; dsimp only; rw [hst]
      · rw [setW_same]; exact fun h => h
      · rw [setW_same]
      · rw [setW_same]
      · rw [setW_same, hpc]; exact fun h => h
      · rw [setW_same]
        exact pend_same rfl (by rw [hpc]; simp) (by rw [hpc]; simp) (by simp) (by simp)
      · rw [setW_same]; simp
    · have key : WorkerOk foot sc s m i [.acc (.obj i) false .pool, .stLoad i 0 o.chkAcq]
          (.next (s.setW i { s.ws i with pc := .unlockWait (s.ws i).st })) := by
        refine worker_calm hI h hap hi
          (s' := s.setW i { s.ws i with pc := .unlockWait (s.ws i).st })
          rfl (.inl ?_) rfl rfl rfl rfl (fun j hj => setW_ne s _ hj) hcalm (hacc _)
          (by rw [hpc]; simp) ?_ (.inl ?_) ?_ ?_ ?_ ?_
        · unfold wstep; dsimp only; rw [hpc]; dsimp only
          cases hst : (s.ws i).st <;> simp_all
        · rw [setW_same]; exact fun h => h
        · rw [setW_same]
        · rw [setW_same]
        · rw [setW_same]; simp [past]
        · rw [setW_same]; simp
        · rw [setW_same]
          exact pend_same rfl (by rw [hpc]; simp) (by rw [hpc]; simp) (by simp) (by simp)
      dsimp only at key
      cases hs : (s.ws i).st with
      | ready => exact absurd hs hst
      | threadStartup => rw [hs] at key; exact key
      | hasWork => rw [hs] at key; exact key
      | exit => rw [hs] at key; exact key
  | storeReady =>
    rw [hpc] at hok
    obtain ⟨hl, htk, hst⟩ := hok
    have hpend : pend (s.ws i) = 1 := by
      rcases hst with e | e
      · exact pend_startup e
      · exact pend_work e
    have hpend' : pend { s.ws i with pc := .unlockReady, st := .ready } = 1 := rfl
    have hpj : ∀ j, pend ((s.setW i { s.ws i with pc := .unlockReady, st := .ready }).ws j) =
        pend (s.ws j) := by
      intro j
      by_cases e : j = i
      · subst e; rw [setW_same, hpend, hpend']
      · rw [setW_ne _ _ e]
    dsimp only
    generalize hm' : m.acts (some i) [.acc (.obj i) false .pool, .stStore i .ready] = m'
    have eS : m'.sh = upd m.sh i
        (⟨.ready, some i, m'.C (some i) (some i), fun _ => 0, false⟩ :: m.sh i) := by
      rw [← hm']; rfl
    have eM : m'.M = m.M := by rw [← hm']; rfl
    have eC : m'.ch = m.ch := by rw [← hm']; rfl
    refine worker_fin (l := [.acc (.obj i) false .pool, .stStore i .ready]) hI h hap hi
      (s' := s.setW i { s.ws i with pc := .unlockReady, st := .ready }) rfl (.inl ?_) rfl rfl rfl
      (fun j hj => setW_ne s _ hj) ?_ ?_ ?_ (by rw [hpc]; simp) ?_ ?_ ?_ ?_ ?_ ?_ ?_ <;>
      (try rw [hm'])
    · unfold wstep; dsimp only; rw [hpc]
    · intro b hb
      simp only [List.mem_cons, List.not_mem_nil, or_false] at hb
      rcases hb with e | e <;> subst e <;> rfl
    · intro b hb hb'
      simp only [List.mem_cons, List.not_mem_nil, or_false] at hb
      rcases hb with e | e <;> subst e
      · exact absurd rfl (hb' _ _ _)
      · exact fun g hg => (Kn_worker hl).1 ((h.sh i hi).2.1 g hg)
    · intro x w src hb
      simp only [List.mem_cons, List.not_mem_nil, or_false, Act.acc.injEq, reduceCtorEq] at hb
      obtain ⟨rfl, rfl, rfl⟩ := hb
      exact obj_acc
    · rw [setW_same]; exact fun h => h
    · intro j _; rw [eM]
    · exact .inl ⟨by rw [setW_same], by rw [eM]⟩
    · intro j _ e _ hv
      rw [hpj, eC]; exact hv
    · intro j hj; rw [eS]; simp [upd, hj]
    · intro hg
      have hl' : ((s.setW i { s.ws i with pc := .unlockReady, st := .ready }).ws i).lock =
          some .worker := by rw [setW_same]; exact hl
      have eSi : m'.sh i = ⟨.ready, some i, m'.C (some i) (some i), fun _ => 0, false⟩ :: m.sh i := by
        rw [eS]; simp only [upd, if_true]
      refine ⟨⟨_, _, eSi, by rw [setW_same]⟩, ?_, fun _ => ?_⟩
      · intro x hx
        rw [eSi] at hx
        rcases List.mem_cons.1 hx with e | hx
        · subst e; exact (Kn_worker hl').2 (Nat.le_refl _)
        · exact Kn_step hg.mono (hg.lock i hi) ((h.sh i hi).2.1 x hx)
      · exact .inl ⟨_, _, eSi, rfl, Nat.le_refl _⟩
    · intro hg pre g t hc
      refine ⟨pre, hg.chSame hc eC rfl (fun j _ hp => .inl (hpj j ▸ hp)) (fun j hj hp => ?_)
        (fun hq => .inl hq)⟩
      by_cases e : j = i
      · subst e; rw [setW_same] at hp; simp at hp
      · rw [setW_ne _ _ e] at hp; exact .inl hp
  | decrement =>
    rw [hpc] at hok
    obtain ⟨hl, htk, hst⟩ := hok
    have hpend : pend (s.ws i) = 1 := by simp [pend, hpc, hst]
    obtain ⟨pre0, g0, t0, hc0⟩ := h.ch
    have hk0 : k = 0 := by
      rw [hpc] at hr
      simp only [wload, Mem.readable, Bool.and_eq_true, Bool.or_eq_true, decide_eq_true_eq] at hr
      rcases hr.2 with e | e
      · exact e
      · apply Classical.byContradiction
        intro hk
        have hle := vis_le (j := pre0.length) (by rw [hc0.eq]; simp) (hc0.dcr i hi hpc) hr.1
        have hlt : k - 1 < pre0.length := by omega
        have h1 : m.ch[k - 1]? = some (pre0[k - 1]) := by
          rw [hc0.eq, List.getElem?_append_left hlt, List.getElem?_eq_getElem hlt]
        rw [h1] at e
        have h2 := (hc0.dec (k - 1) _ (List.getElem?_eq_getElem hlt)).1
        simp [h2] at e
    subst hk0
    have hval : valAt 0 m.ch 0 = s.count := by
      unfold valAt
      rw [hc0.eq]
      cases hp : pre0 with
      | nil => have := hc0.val; rw [hp] at this; simpa using this
      | cons x xs => exact (hc0.dec 0 x (by rw [hp]; rfl)).2
    have hcnt : s.count ≠ 0 := by
      intro e
      apply wstep_nofault hI hi
      unfold wstep
      dsimp only
      rw [hpc]
      simp [e]
    have hnq : ¬ quiet s.mpc := by
      intro hq
      have hp := hI.phase
      revert hq hp
      unfold Phase
      cases s.mpc <;> simp only [quiet] <;> intro h1 h2 <;> first
        | exact h1
        | omega
    dsimp only
    rw [hval, if_neg hcnt]
    generalize hm' : m.acts (some i) [.acc (.obj i) false .pool, .acc .pool false .pool,
      .cDec 0 o.decAcq o.decRel] = m'
    have eS : m'.sh = m.sh := by rw [← hm']; rfl
    have eM : m'.M = m.M := by rw [← hm']; rfl
    have eC : m'.ch = ⟨s.count - 1, some i, m'.C (some i) (some i),
        join (viewAt m.ch 0 true) (m'.C (some i)), true⟩ :: m.ch := by
      rw [← hm', hd, ← hval]; rfl
    have hmono : ∀ u v, m.C u v ≤ m'.C u v := by
      rw [← hm']
      refine acts_mono m (some i) _ ?_
      intro b hb
      simp only [List.mem_cons, List.not_mem_nil, or_false] at hb
      rcases hb with e | e | e <;> subst e <;> rfl
    have hpi : pend { s.ws i with pc := .spin } = 0 := pend_ready hst (by simp) (by simp)
    refine worker_fin (l := [.acc (.obj i) false .pool, .acc .pool false .pool,
        .cDec 0 o.decAcq o.decRel]) hI h hap hi
      (s' := { s.setW i { s.ws i with pc := .spin } with count := s.count - 1 }) rfl (.inl ?_)
      rfl rfl rfl (fun j hj => setW_ne s _ hj) ?_ ?_ ?_ (by rw [hpc]; simp) ?_ ?_ ?_ ?_ ?_ ?_ ?_ <;>
      (try rw [hm'])
    · unfold wstep; dsimp only; rw [hpc]; dsimp only; rw [if_neg hcnt]
    · intro b hb
      simp only [List.mem_cons, List.not_mem_nil, or_false] at hb
      rcases hb with e | e | e <;> subst e <;> rfl
    · intro b hb hb'
      simp only [List.mem_cons, List.not_mem_nil, or_false] at hb
      rcases hb with e | e | e <;> subst e
      · exact absurd rfl (hb' _ _ _)
      · exact absurd rfl (hb' _ _ _)
      · exact rfl
    · intro x w src hb
      simp only [List.mem_cons, List.not_mem_nil, or_false, Act.acc.injEq, reduceCtorEq] at hb
      rcases hb with ⟨rfl, rfl, rfl⟩ | ⟨rfl, rfl, rfl⟩
      · exact obj_acc
      · exact .inl ⟨rfl, .inr (.inr (.inr ⟨rfl, rfl⟩))⟩
    · show ((s.setW i _).ws i).task ≠ none → _
      rw [setW_same]; exact fun h => h
    · intro j _; rw [eM]
    · refine .inl ⟨?_, by rw [eM]⟩
      show ((s.setW i _).ws i).lock = _
      rw [setW_same]
    · intro j _ e hK hv
      show pend ((s.setW i _).ws j) = 1 ∨ _
      have hview : viewAt m'.ch 0 true = join (viewAt m.ch 0 true) (m'.C (some i)) := by
        rw [eC]; rfl
      rw [hview]
      by_cases ej : j = i
      · subst ej
        exact .inr (Nat.le_trans (K_mono hK (hmono _)) (Nat.le_max_right _ _))
      · rw [setW_ne _ _ ej]
        rcases hv with hv | hv
        · exact .inl hv
        · exact .inr (Nat.le_trans hv (Nat.le_max_left _ _))
    · intro j hj; rw [eS]
    · intro hg
      refine hg.shSame hi (h.sh i hi) (by rw [eS]) ?_ ?_
      · show ((s.setW i _).ws i).st = _
        rw [setW_same]
      · intro _; rw [hpc]; trivial
    · intro hg pre g t hc
      have hview : viewAt m'.ch 0 true = join (viewAt m.ch 0 true) (m'.C (some i)) := by
        rw [eC]; rfl
      refine ⟨⟨s.count - 1, some i, m'.C (some i) (some i),
        join (viewAt m.ch 0 true) (m'.C (some i)), true⟩ :: pre, ?_⟩
      refine ⟨by rw [eC, hc.eq]; rfl, hc.store, K_mono hc.known (hmono _), ?_, ?_, ?_, ?_, ?_, ?_⟩
      · intro k x hk
        show _ ∧ x.val = s.count - 1 + k
        cases k with
        | zero =>
          simp only [List.getElem?_cons_zero, Option.some.injEq] at hk
          subst hk; exact ⟨rfl, rfl⟩
        | succ k =>
          simp only [List.getElem?_cons_succ] at hk
          have := hc.dec k x hk
          exact ⟨this.1, by omega⟩
      · show g.val = s.count - 1 + (pre.length + 1)
        have := hc.val
        omega
      · intro j hj hp
        by_cases ej : j = i
        · subst ej
          exfalso
          change pend ((s.setW j _).ws j) = 1 at hp
          rw [setW_same, hpi] at hp
          simp at hp
        · change pend ((s.setW i _).ws j) = 1 at hp
          rw [setW_ne _ _ ej] at hp
          exact Kn_step hmono (hg.lock j hj) (hc.pend j hj hp)
      · intro j hj hp
        by_cases ej : j = i
        · subst ej
          exfalso
          change ((s.setW j _).ws j).pc = _ at hp
          rw [setW_same] at hp
          simp at hp
        · change ((s.setW i _).ws j).pc = _ at hp
          rw [setW_ne _ _ ej] at hp
          exact K_mono (hc.dcr j hj hp) (hmono _)
      · intro x hx
        rw [hview]
        rw [eC] at hx
        rcases List.mem_cons.1 hx with e | hx
        · subst e
          simp only [K, Msg.ep, join]
          omega
        · refine K_mono (hc.view x hx) (fun t => ?_)
          simp only [join]
          have := hmono none t
          omega
      · intro hq; exact absurd hq hnq

end Gemmlowp.Weak
