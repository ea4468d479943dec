import Verif.WeakMaster2
/-!
# The pool under the C++ memory model: every move of the master
-/
namespace Gemmlowp.Weak

open Pool

variable {ε δ : Type} [DecidableEq δ]

/-- A master that only waits, or only changes its position. -/
theorem master_plain {foot : ε → List (δ × Bool)} {sc : Script ε} {s s' : State ε}
    {m : Mem δ} {l : List (Act δ)} {out : Out ε}
    (hI : Inv sc s) (h : MInv foot sc s m) (hap : Apart foot sc)
    (hout : out = .next s') (hsc : mstep sc s = .next s' ∨ s' = s)
    (hcall : s'.call = s.call) (hnw : s'.nw = s.nw) (hcnt : s'.count = s.count)
    (hws : s'.ws = s.ws)
    (hcalm : ∀ b ∈ l, b.calm = true) (hna : ∀ x w src, Act.acc x w src ∉ l)
    (hact : active s.mpc → active s'.mpc)
    (hstart : ∀ j, started j s.mpc → started j s'.mpc)
    (hq : quiet s'.mpc → quiet s.mpc ∨ ∀ u, viewAt m.ch 0 true u ≤ (m.acts none l).C none u)
    (hjoin : ∀ j < s.nw, joined j s'.mpc → joined j s.mpc ∨
      m.C (some j) (some j) ≤ (m.acts none l).C none (some j)) :
    MasterOk foot sc s m l out :=
  master_calm hI h hap hout hsc hcall hnw hcnt hws hcalm
    (fun x w src hb => absurd hb (hna x w src)) (fun _ _ x w hb => absurd hb (hna x w _))
    (fun x w hb => absurd hb (hna x w _)) hact hstart hq hjoin

/-- The master gives a task to worker `i`, whose mutex it holds. -/
theorem master_set {foot : ε → List (δ × Bool)} {sc : Script ε} {s : State ε}
    {m : Mem δ} {i : Nat} (hI : Inv sc s) (h : MInv foot sc s m) (hap : Apart foot sc)
    (hm : s.mpc = .swSet i) (hi : i < s.nw) :
    MasterOk foot sc s m
      [.stLoad i 0 false, .acc (.member i) false .pool, .acc (.taskObj i) true (.task (s.call, i)),
       .acc (.member i) true .pool]
      (.next { s.setW i { s.ws i with task := some ((s.call, i), sc.prog s.call i) } with
                mpc := .swStore i }) := by
  have hl : (s.ws i).lock = some .master := (hI.lockM i hi).2 (by rw [hm]; rfl)
  have hal := hI.allowed i hi
  rw [hm] at hal
  simp only [Allowed, Nat.lt_irrefl, if_false] at hal
  have hidle : Idle (s.ws i) := hal.1
  have htk : (s.ws i).task = none := hal.2 trivial
  have hpc : (s.ws i).pc ≠ .exited := by
    intro e
    rcases idle_lock hidle (hI.wok i hi) hl with e' | e' | e' | e' <;> simp [e'] at e
  generalize hs' : ({ s.setW i { s.ws i with task := some ((s.call, i), sc.prog s.call i) } with
                mpc := .swStore i } : State ε) = s'
  have hws : ∀ j, j ≠ i → s'.ws j = s.ws j := by
    intro j hj; rw [← hs']; exact setW_ne s _ hj
  have hwi : s'.ws i = { s.ws i with task := some ((s.call, i), sc.prog s.call i) } := by
    rw [← hs']; exact setW_same s _ _
  have hlk' : ∀ j, (s'.ws j).lock = (s.ws j).lock := by
    intro j
    by_cases e : j = i
    · subst e; rw [hwi]
    · rw [hws j e]
  have hst' : ∀ j, (s'.ws j).st = (s.ws j).st := by
    intro j
    by_cases e : j = i
    · subst e; rw [hwi]
    · rw [hws j e]
  have hpc' : ∀ j, (s'.ws j).pc = (s.ws j).pc := by
    intro j
    by_cases e : j = i
    · subst e; rw [hwi]
    · rw [hws j e]
  have hpd' : ∀ j, pend (s'.ws j) = pend (s.ws j) := by
    intro j; unfold pend; rw [hst', hpc']
  have hmp : s'.mpc = .swStore i := by rw [← hs']
  have hnw : s'.nw = s.nw := by rw [← hs']; rfl
  have hcalm : ∀ b ∈ ([.stLoad i 0 false, .acc (.member i) false .pool,
      .acc (.taskObj i) true (.task (s.call, i)), .acc (.member i) true .pool] : List (Act δ)),
      b.calm = true := by
    intro b hb
    simp only [List.mem_cons, List.not_mem_nil, or_false] at hb
    rcases hb with e | e | e | e <;> subst e <;> rfl
  generalize hgl : ([.stLoad i 0 false, .acc (.member i) false .pool,
      .acc (.taskObj i) true (.task (s.call, i)), .acc (.member i) true .pool] : List (Act δ)) = l
      at hcalm
  have hin : ∀ x w src, Act.acc x w src ∈ l → (x = .member i ∧ src = .pool) ∨
      (x = .taskObj i ∧ src = .task (s.call, i)) := by
    intro x w src hb
    rw [← hgl] at hb
    simp only [List.mem_cons, List.not_mem_nil, or_false, Act.acc.injEq, reduceCtorEq,
      false_or] at hb
    rcases hb with ⟨e, _, e'⟩ | ⟨e, _, e'⟩ | ⟨e, _, e'⟩ <;> simp [e, e']
  have eM : (m.acts none l).M = m.M := acts_M m none l (fun b hb => calm_M (hcalm b hb))
  have eS : (m.acts none l).sh = m.sh := acts_sh m none l (fun b hb => calm_S (hcalm b hb))
  have eC : (m.acts none l).ch = m.ch := acts_ch m none l (fun b hb => calm_C (hcalm b hb))
  refine master_fin hI h hap rfl (.inl ?_) ?_ hnw (fun b hb => calm_fork (hcalm b hb))
    (fun b hb hn => calm_safe (hcalm b hb) hn) ?_ ?_ ?_ ?_ ?_ ?_ ?_ ?_ ?_ ?_ ?_ ?_ ?_
  · rw [← hs']; simp [mstep, hm, hidle.1, htk]
  · rw [← hs']; rfl
  · intro x w src hb
    rcases hin x w src hb with ⟨e, e'⟩ | ⟨e, e'⟩
    · exact .inl ⟨e', .inl ⟨i, hi, e, hl, hpc⟩⟩
    · refine .inr (.inl ⟨i, e', by rw [hm]; trivial, fun hst => ?_, .inl e⟩)
      rw [hm] at hst
      exact absurd hst (Nat.lt_irrefl i)
  · intro _ _ _ _ j _ hj; rw [hlk']; exact hj
  · intro j hj x w hb
    rcases hin _ _ _ hb with ⟨_, e⟩ | ⟨_, e⟩
    · simp at e
    · simp only [Src.task.injEq, Prod.mk.injEq, true_and] at e
      subst e
      exact .inr (by rw [hlk']; exact hl)
  · intro x w hb
    rcases hin _ _ _ hb with ⟨_, e⟩ | ⟨_, e⟩ <;> simp at e
  · intro j _ hj; rw [hpc']; exact hj
  · intro j _ hj
    by_cases e : j = i
    · subst e; exact .inr (by rw [hlk']; exact hl)
    · rw [hws j e] at hj; exact .inl hj
  · intro j _; exact .inl ⟨hlk' j, by rw [eM]⟩
  · intro _; rw [hmp]; trivial
  · intro j hj; rw [hm] at hj; rw [hmp]; exact hj
  · intro j _ e _ hv; rw [hpd', eC]; exact hv
  · intro hg j hj
    exact hg.shSame hj (h.sh j hj) (by rw [eS]) (hst' j) (by rw [hpc']; exact id)
  · intro hg pre g t hc
    refine ⟨pre, g, t, hg.chSame hc eC ?_ ?_ ?_ ?_⟩
    · rw [← hs']; rfl
    · intro j _ hp; rw [hpd'] at hp; exact .inl hp
    · intro j _ hp; rw [hpc'] at hp; exact .inl hp
    · intro hq; rw [hmp] at hq; exact hq.elim
  · intro j _ hjn; rw [hmp] at hjn; exact hjn.elim

/-- The end of the wait at the end of a call. -/
theorem master_end {foot : ε → List (δ × Bool)} {sc : Script ε} {s : State ε}
    {m : Mem δ} (hI : Inv sc s) (h : MInv foot sc s m) (hap : Apart foot sc)
    (hm : s.mpc = .wait) (hcnt : s.count = 0) :
    MasterOk foot sc s m [.cLoad 0 true] (.next { s with mpc := .idle, call := s.call + 1 }) := by
  have hst : MasterOk foot sc s m [.cLoad 0 true] (.next s) :=
    master_plain hI h hap rfl (.inr rfl) rfl rfl rfl rfl
      (by intro b hb; rw [List.mem_singleton] at hb; subst hb; rfl)
      (by intro x w src hb; simp at hb) id (fun _ => id)
      (fun hq => .inl hq) (fun _ _ => .inl)
  have hrun : m.run none [.cLoad 0 true] = .ok (m.acts none [.cLoad 0 true]) := rfl
  have hfin : ∀ s' : State ε, finish m none [.cLoad 0 true] (.next s') =
      .next ⟨s', m.acts none [.cLoad 0 true]⟩ := by
    intro s'; simp only [finish, hrun]
  rcases hst with e | ⟨a', e, _, hinv⟩
  · rw [hfin] at e; simp at e
  · rw [hfin] at e
    simp only [WOut.next.injEq] at e
    subst e
    refine .inr ⟨_, hfin _, .inl (by simp [mstep, hm, hcnt]), ?_⟩
    refine wait_end hI hinv hm hcnt (fun u => ?_)
    have : (m.acts none [.cLoad 0 true]).ch = m.ch := rfl
    rw [this]
    show _ ≤ join _ _ u
    exact Nat.le_max_right _ _

/-- At the points where a worker is idle, it has no task. -/
theorem no_task {sc : Script ε} {s : State ε} (hI : Inv sc s) {j : Nat} (hj : j < s.nw)
    (hidle : Idle (s.ws j)) (hh : ¬ holds j s.mpc) : (s.ws j).task = none :=
  idle_task hidle (hI.wok j hj) (fun e => hh ((hI.lockM j hj).1 e))

/-- Every move of the master: it makes no access that races, no assertion fails, and it is a move
of the sequentially consistent pool, or leaves that unchanged. -/
theorem master_step {o : Orders} {foot : ε → List (δ × Bool)} {sc : Script ε} {s : State ε}
    {m : Mem δ} {k : Nat} (hw : o.waitAcq = true) (hI : Inv sc s) (h : MInv foot sc s m)
    (hap : Apart foot sc) (hne : s.call < sc.length → sc.tasks s.call ≠ [])
    (hr : m.readable none k (mload s.mpc) = true) :
    MasterOk foot sc s m (macts o foot sc s k)
      (mstepL sc s (mstate m k s.mpc) (valAt 0 m.ch k)) := by
  have hph := hI.phase
  have none_acc : ∀ x w src, Act.acc x w src ∉ ([] : List (Act δ)) := by intro x w src hb; simp at hb
  have none_calm : ∀ b ∈ ([] : List (Act δ)), b.calm = true := by intro b hb; simp at hb
  have load_calm : ∀ k a, ∀ b ∈ ([.cLoad k a] : List (Act δ)), b.calm = true := by
    intro k a b hb; rw [List.mem_singleton] at hb; subst hb; rfl
  have load_acc : ∀ k a x w src, Act.acc x w src ∉ ([.cLoad k a] : List (Act δ)) := by
    intro k a x w src hb; simp at hb
  cases hm : s.mpc with
  | idle =>
    simp only [macts, mstepL, hm]
    by_cases hc : s.call < sc.length
    · rw [if_pos hc, if_neg (hne hc)]
      exact master_plain hI h hap rfl (.inl (by simp [mstep, hm, hc, hne hc])) rfl rfl rfl rfl
        none_calm none_acc (by rw [hm]; exact id) (by rw [hm]; exact fun _ => id)
        (fun _ => .inl (by rw [hm]; trivial)) (fun j _ hj => hj.elim)
    · rw [if_neg hc]
      exact master_plain hI h hap rfl (.inl (by simp [mstep, hm, hc])) rfl rfl rfl rfl
        none_calm none_acc (by rw [hm]; exact id) (by rw [hm]; exact fun _ => id)
        (fun _ => .inl (by rw [hm]; trivial)) (fun j _ hj => absurd hj (Nat.not_lt_zero j))
  | cwCheck =>
    simp only [macts, mstepL, hm]
    refine master_plain hI h hap rfl (.inl (by simp [mstep, hm])) rfl rfl rfl rfl
      none_calm none_acc (by rw [hm]; exact False.elim) (by rw [hm]; exact fun _ => False.elim)
      (fun _ => .inl (by rw [hm]; trivial)) (fun j _ hj => ?_)
    dsimp only at hj
    split at hj <;> exact hj.elim
  | cwReset =>
    rw [hm] at hr
    simp only [Phase, hm] at hph
    have hcnt : s.count = 0 := hph.2.1
    have hk : k = 0 := quiet_load h (by rw [hm]; trivial) hr
    have hv := count_load h hr
    subst hk
    simp only [macts, mstepL, hm, hv, hcnt]
    refine master_reset hI h rfl (by simp [mstep, hm, hcnt]) rfl rfl rfl rfl ?_
      (by rw [hm]; trivial) id (by rw [hm]; exact id) (by rw [hm]; exact fun _ => id)
      (fun _ _ hj => hj.elim)
    intro j hj
    have := hI.allowed j hj
    rw [hm] at this
    exact this.2
  | cwCreate =>
    simp only [macts, mstepL, hm]
    by_cases hc : s.nw < (sc.tasks s.call).length - 1
    · rw [if_pos hc, if_pos hc]
      exact master_fork h hm (by simp [mstep, hm, hc])
    · rw [if_neg hc, if_neg hc]
      exact master_plain hI h hap rfl (.inl (by simp [mstep, hm, hc])) rfl rfl rfl rfl
        none_calm none_acc (by rw [hm]; exact id) (by rw [hm]; exact fun _ => id)
        (fun hq => hq.elim) (fun j _ hj => hj.elim)
  | cwWait =>
    rw [hm] at hr
    have hv := count_load h hr
    simp only [macts, mstepL, hm, hv, hw]
    by_cases hz : s.count + k = 0
    · have hk : k = 0 := by omega
      have hcnt : s.count = 0 := by omega
      subst hk
      rw [if_pos hz]
      refine master_plain hI h hap rfl (.inl (by simp [mstep, hm, hcnt])) rfl rfl rfl rfl
        (load_calm _ _) (load_acc _ _) (by rw [hm]; exact id) (by rw [hm]; exact fun _ => id)
        (fun _ => .inr (fun u => ?_)) (fun j _ hj => hj.elim)
      show _ ≤ join _ _ u
      exact Nat.le_max_right _ _
    · rw [if_neg hz]
      exact master_plain hI h hap rfl (.inr rfl) rfl rfl rfl rfl (load_calm _ _) (load_acc _ _) id
        (fun _ => id) (fun hq => .inl hq) (fun j _ hj => .inl hj)
  | reset =>
    rw [hm] at hr
    simp only [Phase, hm] at hph
    have hcnt : s.count = 0 := hph.2.1
    have hnn : ¬ s.nw < (sc.tasks s.call).length - 1 := by have := hph.2.2; omega
    have hk : k = 0 := quiet_load h (by rw [hm]; trivial) hr
    have hv := count_load h hr
    subst hk
    simp only [macts, mstepL, hm, hv, hcnt, if_neg hnn]
    refine master_reset hI h rfl (by simp [mstep, hm, hcnt, hnn]) rfl rfl rfl rfl ?_
      (by rw [hm]; trivial) id (by rw [hm]; exact id) (by rw [hm]; exact fun _ => id)
      (fun _ _ hj => hj.elim)
    intro j hj
    have := hI.allowed j hj
    rw [hm] at this
    exact this.2
  | swLock i =>
    simp only [Phase, hm] at hph
    simp only [macts, mstepL, hm]
    by_cases hc : i < (sc.tasks s.call).length - 1
    · rw [if_pos hc, if_pos hc]
      cases hl : (s.ws i).lock with
      | some _ => exact .inl rfl
      | none =>
        refine master_lock (l := []) hI h hap rfl (by simp [mstep, hm, hc, hl]) rfl rfl rfl
          (fun j hj => setW_ne s _ hj) (setW_same s _ _) hl none_calm ?_
          (fun _ => trivial) (by rw [hm]; exact fun _ => id) (fun hq => hq.elim)
          (fun j _ hj => hj.elim)
        intro x w src hb; simp at hb
    · rw [if_neg hc, if_neg hc]
      have hin : i = (sc.tasks s.call).length - 1 := by omega
      refine master_calm hI h hap rfl (.inl (by simp [mstep, hm, hc])) rfl rfl rfl rfl ?_ ?_ ?_ ?_
        (fun _ => trivial) (fun _ _ => trivial) (fun hq => hq.elim) (fun j _ hj => hj.elim)
      · intro b hb; rw [List.mem_singleton] at hb; subst hb; rfl
      · intro x w src hb
        simp only [List.mem_singleton, Act.acc.injEq] at hb
        obtain ⟨e1, e2, e3⟩ := hb
        exact .inr (.inl ⟨_, e3, by rw [hm]; trivial, fun _ => rfl, .inl e1⟩)
      · intro j hj x w hb
        simp only [List.mem_singleton, Act.acc.injEq, Src.task.injEq, Prod.mk.injEq, true_and] at hb
        obtain ⟨_, _, e3⟩ := hb
        have hal := hI.allowed j hj
        rw [hm] at hal
        simp only [Allowed] at hal
        rw [if_neg (by omega)] at hal
        exact no_task hI hj hal (by rw [hm]; exact id)
      · intro x w hb; simp at hb
  | swSet i =>
    rw [hm] at hr
    simp only [Phase, hm] at hph
    have hi : i < s.nw := by have := hph.2; omega
    have hl : (s.ws i).lock = some .master := (hI.lockM i hi).2 (by rw [hm]; rfl)
    have hk := mlocked_load h hi hl hr
    subst hk
    obtain ⟨⟨g, t, hg, hgv⟩, _, _⟩ := h.sh i hi
    have hal := hI.allowed i hi
    rw [hm] at hal
    simp only [Allowed, Nat.lt_irrefl, if_false] at hal
    have e := master_set hI h hap hm hi
    have hv : mstate m 0 (MPc.swSet (ε := ε) i) = .ready := by
      simp only [mstate, valAt, hg]
      rw [← hal.1.1]; exact hgv
    simp only [macts, mstepL, hm, hv, hal.2 trivial]
    exact e
  | swStore i =>
    simp only [Phase, hm] at hph
    have hi : i < s.nw := by have := hph.2; omega
    have hl : (s.ws i).lock = some .master := (hI.lockM i hi).2 (by rw [hm]; rfl)
    have hal := hI.allowed i hi
    rw [hm] at hal
    simp only [Allowed, Nat.lt_irrefl, if_false] at hal
    simp only [macts, mstepL, hm]
    exact master_store hI h hap rfl (by simp [mstep, hm]) rfl rfl rfl hi
      (fun j hj => setW_ne s _ hj) (setW_same s _ _) hl (by simp) hal.1.1 hal.1.2
      (fun _ => trivial) (by rw [hm]; exact fun j hj => Nat.le_of_lt hj)
      (by rw [hm]; exact Nat.lt_irrefl i) (fun hq => hq.elim) (fun j _ hj => hj.elim)
  | swUnlock i =>
    simp only [Phase, hm] at hph
    have hi : i < s.nw := by have := hph.2; omega
    have hl : (s.ws i).lock = some .master := (hI.lockM i hi).2 (by rw [hm]; rfl)
    simp only [macts, mstepL, hm]
    exact master_unlock hI h hap rfl (by simp [mstep, hm]) rfl rfl rfl
      (fun j hj => setW_ne s _ hj) (setW_same s _ _) hl
      (fun _ => trivial) (by rw [hm]; exact fun j hj => Nat.lt_succ_of_le hj)
      (fun hq => hq.elim) (fun j _ hj => hj.elim)
  | run es =>
    simp only [Phase, hm] at hph
    cases es with
    | nil =>
      simp only [macts, mstepL, hm]
      exact master_plain hI h hap rfl (.inl (by simp [mstep, hm])) rfl rfl rfl rfl
        none_calm none_acc (fun _ => trivial) (fun _ _ => trivial)
        (fun hq => hq.elim) (fun j _ hj => hj.elim)
    | cons e es =>
      have hmem : e ∈ sc.prog s.call ((sc.tasks s.call).length - 1) := by
        have hh := hI.hist s.call ((sc.tasks s.call).length - 1)
        rw [← hh]
        have : (sc.tasks s.call).length - 1 + 1 = (sc.tasks s.call).length := by omega
        simp [rem, this, hm, mrem]
      simp only [macts, mstepL, hm]
      have hin : ∀ x w src, Act.acc x w src ∈
          (.acc (.taskObj ((sc.tasks s.call).length - 1)) false
            (.task (s.call, (sc.tasks s.call).length - 1)) ::
            dataActs foot (s.call, (sc.tasks s.call).length - 1) e : List (Act δ)) →
          src = .task (s.call, (sc.tasks s.call).length - 1) ∧
          (x = .taskObj ((sc.tasks s.call).length - 1) ∨ ∃ y, x = .data y ∧ (y, w) ∈ foot e) := by
        intro x w src hb
        simp only [List.mem_cons, Act.acc.injEq, dataActs, List.mem_map, Prod.exists] at hb
        rcases hb with ⟨e1, _, e3⟩ | ⟨y, w', hf, e1, e2, e3⟩
        · exact ⟨e3, .inl e1⟩
        · exact ⟨e3.symm, .inr ⟨y, e1.symm, by rw [← e2]; exact hf⟩⟩
      refine master_calm hI h hap rfl (.inl (by simp [mstep, hm])) rfl rfl rfl rfl ?_ ?_ ?_ ?_
        (fun _ => trivial) (fun _ _ => trivial) (fun hq => hq.elim) (fun j _ hj => hj.elim)
      · intro b hb
        simp only [List.mem_cons, dataActs, List.mem_map] at hb
        rcases hb with hb | ⟨p, _, hb⟩
        · subst hb; rfl
        · subst hb; rfl
      · intro x w src hb
        obtain ⟨e1, e2⟩ := hin x w src hb
        refine .inr (.inl ⟨_, e1, by rw [hm]; trivial, fun _ => rfl, ?_⟩)
        rcases e2 with e2 | ⟨y, e2, hf⟩
        · exact .inl e2
        · exact .inr ⟨y, e2, e, hmem, hf⟩
      · intro j hj x w hb
        obtain ⟨e1, _⟩ := hin _ _ _ hb
        simp only [Src.task.injEq, Prod.mk.injEq, true_and] at e1
        have hal := hI.allowed j hj
        rw [hm] at hal
        simp only [Allowed] at hal
        rw [if_neg (by omega)] at hal
        exact no_task hI hj hal (by rw [hm]; exact id)
      · intro x w hb
        obtain ⟨e1, _⟩ := hin _ _ _ hb
        simp at e1
  | wait =>
    rw [hm] at hr
    have hv := count_load h hr
    simp only [macts, mstepL, hm, hv, hw]
    by_cases hz : s.count + k = 0
    · have hk : k = 0 := by omega
      have hcnt : s.count = 0 := by omega
      subst hk
      rw [if_pos hz]
      exact master_end hI h hap hm hcnt
    · rw [if_neg hz]
      exact master_plain hI h hap rfl (.inr rfl) rfl rfl rfl rfl (load_calm _ _) (load_acc _ _) id
        (fun _ => id) (fun hq => .inl hq) (fun j _ hj => .inl hj)
  | dLock i =>
    simp only [Phase, hm] at hph
    simp only [macts, mstepL, hm]
    have hdin : ∀ x w src, Act.acc x w src ∈
        (if i = 0 then [] else destroyActs (i - 1) : List (Act δ)) → MAcc foot sc s x w src ∧
          src = .pool := by
      intro x w src hb
      by_cases h0 : i = 0
      · rw [if_pos h0] at hb; simp at hb
      · rw [if_neg h0] at hb
        have hjn : joined (i - 1) s.mpc := by rw [hm]; show i - 1 < i; omega
        simp only [destroyActs, List.mem_cons, Act.acc.injEq, List.not_mem_nil, or_false] at hb
        rcases hb with ⟨e1, _, e3⟩ | ⟨e1, _, e3⟩ | ⟨e1, _, e3⟩ <;>
          exact ⟨.inl ⟨e3, .inr (.inl ⟨i - 1, by omega, by simp [e1], hjn⟩)⟩, e3⟩
    have hdc : ∀ b ∈ (if i = 0 then [] else destroyActs (i - 1) : List (Act δ)),
        b.calm = true := by
      intro b hb
      by_cases h0 : i = 0
      · rw [if_pos h0] at hb; simp at hb
      · rw [if_neg h0] at hb
        simp only [destroyActs, List.mem_cons, List.not_mem_nil, or_false] at hb
        rcases hb with hb | hb | hb <;> subst hb <;> rfl
    by_cases hc : i < s.nw
    · rw [if_pos hc, if_pos hc]
      cases hl : (s.ws i).lock with
      | some _ => exact .inl rfl
      | none =>
        exact master_lock hI h hap rfl (by simp [mstep, hm, hc, hl]) rfl rfl rfl
          (fun j hj => setW_ne s _ hj) (setW_same s _ _) hl hdc hdin
          (by rw [hm]; exact id) (by rw [hm]; exact fun _ => id)
          (fun _ => by rw [hm]; trivial) (fun j _ hj => by rw [hm]; exact hj)
    · rw [if_neg hc, if_neg hc]
      have hall : ∀ j < s.nw, joined j s.mpc := by
        intro j hj; rw [hm]; show j < i; omega
      refine master_calm hI h hap rfl (.inl (by simp [mstep, hm, hc])) rfl rfl rfl rfl ?_ ?_ ?_ ?_
        (by rw [hm]; exact id) (by rw [hm]; exact fun _ => id)
        (fun _ => .inl (by rw [hm]; trivial)) (fun j hj _ => .inl (hall j hj))
      · intro b hb
        rcases List.mem_append.1 hb with hb | hb
        · exact hdc b hb
        · rw [List.mem_singleton] at hb; subst hb; rfl
      · intro x w src hb
        rcases List.mem_append.1 hb with hb | hb
        · exact (hdin x w src hb).1
        · simp only [List.mem_singleton, Act.acc.injEq] at hb
          obtain ⟨e1, e2, e3⟩ := hb
          exact .inl ⟨e3, .inr (.inr ⟨e1, hall⟩)⟩
      · intro j hj x w hb
        rcases List.mem_append.1 hb with hb | hb
        · exact absurd (hdin _ _ _ hb).2 (by simp)
        · simp at hb
      · intro x w hb
        rcases List.mem_append.1 hb with hb | hb
        · exact absurd (hdin _ _ _ hb).2 (by simp)
        · simp at hb
  | dSet i =>
    rw [hm] at hr
    simp only [Phase, hm] at hph
    have hi : i < s.nw := hph.2.2
    have hl : (s.ws i).lock = some .master := (hI.lockM i hi).2 (by rw [hm]; rfl)
    have hk := mlocked_load h hi hl hr
    subst hk
    obtain ⟨⟨g, t, hg, hgv⟩, _, _⟩ := h.sh i hi
    have hal := hI.allowed i hi
    rw [hm] at hal
    simp only [Allowed, Nat.lt_irrefl, if_false] at hal
    have hv : mstate m 0 (MPc.dSet (ε := ε) i) = .ready := by
      simp only [mstate, valAt, hg]
      rw [← hal.1.1]; exact hgv
    simp only [macts, mstepL, hm, hv]
    refine master_plain hI h hap rfl (.inl (by simp [mstep, hm, hal.1.1])) rfl rfl rfl rfl
      ?_ ?_ (by rw [hm]; exact id) (by rw [hm]; exact fun _ => id)
      (fun _ => .inl (by rw [hm]; trivial)) (fun j _ hj => .inl (by rw [hm]; exact hj))
    · intro b hb; rw [List.mem_singleton] at hb; subst hb; rfl
    · intro x w src hb; simp at hb
  | dStore i =>
    simp only [Phase, hm] at hph
    have hi : i < s.nw := hph.2.2
    have hl : (s.ws i).lock = some .master := (hI.lockM i hi).2 (by rw [hm]; rfl)
    have hal := hI.allowed i hi
    rw [hm] at hal
    simp only [Allowed, Nat.lt_irrefl, if_false] at hal
    simp only [macts, mstepL, hm]
    exact master_store hI h hap rfl (by simp [mstep, hm]) rfl rfl rfl hi
      (fun j hj => setW_ne s _ hj) (setW_same s _ _) hl (by simp) hal.1.1 hal.1.2
      (by rw [hm]; exact id) (by rw [hm]; exact fun _ => id)
      (by rw [hm]; exact id) (fun _ => by rw [hm]; trivial)
      (fun j _ hj => by rw [hm]; exact hj)
  | dUnlock i =>
    simp only [Phase, hm] at hph
    have hi : i < s.nw := hph.2.2
    have hl : (s.ws i).lock = some .master := (hI.lockM i hi).2 (by rw [hm]; rfl)
    simp only [macts, mstepL, hm]
    exact master_unlock hI h hap rfl (by simp [mstep, hm]) rfl rfl rfl
      (fun j hj => setW_ne s _ hj) (setW_same s _ _) hl
      (by rw [hm]; exact id) (by rw [hm]; exact fun _ => id)
      (fun _ => by rw [hm]; trivial) (fun j _ hj => by rw [hm]; exact hj)
  | dJoin i =>
    simp only [macts, mstepL, hm]
    cases hp : (s.ws i).pc with
    | exited =>
      refine master_plain hI h hap rfl (.inl (by simp [mstep, hm, hp])) rfl rfl rfl rfl
        ?_ ?_ (by rw [hm]; exact id) (by rw [hm]; exact fun _ => id)
        (fun _ => .inl (by rw [hm]; trivial)) (fun j _ hj => ?_)
      · intro b hb; rw [List.mem_singleton] at hb; subst hb; rfl
      · intro x w src hb; simp at hb
      · rw [hm]
        have hj : j < i + 1 := hj
        by_cases e : j = i
        · subst e
          refine .inr ?_
          show _ ≤ join _ _ _
          refine Nat.le_trans ?_ (Nat.le_max_right _ _)
          simp [Mem.tick, upd]
        · exact .inl (by show j < i; omega)
    | _ => exact .inl rfl
  | done =>
    simp only [macts, mstepL, hm]
    exact .inl rfl

end Gemmlowp.Weak
