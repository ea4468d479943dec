import Verif.WeakMaster3
/-!
# The pool under the C++ memory model: every move
-/
namespace Gemmlowp.Weak

open Pool

variable {ε δ : Type} [DecidableEq δ]

omit [DecidableEq δ] in
/-- A worker's position changes without any access. -/
theorem minv_pc {foot : ε → List (δ × Bool)} {sc : Script ε} {s : State ε} {m : Mem δ}
    (h : MInv foot sc s m) {i : Nat} {p : WPc ε} (hx : (s.ws i).pc ≠ .exited)
    (hp : past (s.ws i).pc) (hd : p ≠ .decrement)
    (hpd : pend { s.ws i with pc := p } = pend (s.ws i)) :
    MInv foot sc (s.setW i { s.ws i with pc := p }) m := by
  generalize hs' : s.setW i { s.ws i with pc := p } = s'
  have hws : ∀ j, j ≠ i → s'.ws j = s.ws j := by
    intro j hj; rw [← hs']; exact setW_ne s _ hj
  have hwi : s'.ws i = { s.ws i with pc := p } := by rw [← hs']; exact setW_same s _ _
  have hmp : s'.mpc = s.mpc := by rw [← hs']; rfl
  have hnw : s'.nw = s.nw := by rw [← hs']; rfl
  have hst : ∀ j, (s'.ws j).st = (s.ws j).st ∧ (s'.ws j).lock = (s.ws j).lock ∧
      (s'.ws j).task = (s.ws j).task ∧ pend (s'.ws j) = pend (s.ws j) := by
    intro j
    by_cases e : j = i
    · subst e; rw [hwi]; exact ⟨rfl, rfl, rfl, hpd⟩
    · rw [hws j e]; exact ⟨rfl, rfl, rfl, rfl⟩
  have hg : Gen sc s m s' m := by
    refine ⟨by rw [← hs']; rfl, hnw, fun _ _ => Nat.le_refl _, fun j _ => .inl ⟨(hst j).2.1, rfl⟩,
      ?_, ?_, by rw [hmp]; exact id, by rw [hmp]; exact fun _ => id, ?_⟩
    · intro j _ hj
      by_cases e : j = i
      · subst e; exact absurd hj hx
      · rw [hws j e]; exact hj
    · intro j _ hj; rw [(hst j).2.2.1] at hj; exact .inl hj
    · intro j _ e _ hv; rw [(hst j).2.2.2]; exact hv
  constructor
  · exact fun r hr => hg.recOk (h.recs r hr)
  · intro j hj
    rw [hnw] at hj
    refine hg.shSame hj (h.sh j hj) rfl (hst j).1 ?_
    by_cases e : j = i
    · subst e; exact fun _ => hp
    · rw [hws j e]; exact id
  · obtain ⟨pre, g, t, hc⟩ := h.ch
    refine ⟨pre, g, t, hg.chSame hc rfl (by rw [← hs']; rfl) ?_ ?_ ?_⟩
    · intro j _ hj; rw [(hst j).2.2.2] at hj; exact .inl hj
    · intro j _ hj
      by_cases e : j = i
      · subst e; rw [hwi] at hj; exact absurd hj hd
      · rw [hws j e] at hj; exact .inl hj
    · rw [hmp]; exact .inl
  · rw [hnw, hmp]; exact h.joined
  · rw [hnw]; exact h.fresh

omit [DecidableEq δ] in
/-- Outside of calls no worker has a task. -/
theorem outside_task {sc : Script ε} {s : State ε} (hI : Inv sc s) (ho : outside s.mpc = true)
    {j : Nat} (hj : j < s.nw) : (s.ws j).task = none := by
  have hal := hI.allowed j hj
  have hok := hI.wok j hj
  have hl : ¬ holds j s.mpc → (s.ws j).lock ≠ some .master := fun hh e => hh ((hI.lockM j hj).1 e)
  cases hm : s.mpc <;> rw [hm] at ho hal hl <;> simp only [outside, Bool.false_eq_true] at ho
  · exact idle_task hal hok (hl id)
  · simp only [Allowed] at hal
    simp only [WOk, hal] at hok
    exact hok.2.2

/-- The move of the sequentially consistent pool. -/
def WChoice.sc : WChoice δ → Option Choice
  | .master _ => some .master
  | .worker i _ => some (.worker i)
  | .giveUp i => some (.giveUp i)
  | .spurious i => some (.spurious i)
  | .client _ _ | .clientTask _ _ => none

/-- Every move: blocked, or a move of the sequentially consistent pool, or one that leaves it
unchanged; and the invariant is preserved. -/
theorem step_ok {o : Orders} {foot : ε → List (δ × Bool)} {sc : Script ε} {a : WState ε δ}
    (hd : o.decRel = true) (hw : o.waitAcq = true) (hsc : ∀ ts ∈ sc, ts ≠ [])
    (hap : Apart foot sc) (hI : Inv sc a.s) (h : MInv foot sc a.s a.m) (c : WChoice δ) :
    step o foot sc a c = .blocked ∨ ∃ a', step o foot sc a c = .next a' ∧
      ((∃ c', c.sc = some c' ∧ Pool.step sc a.s c' = .next a'.s) ∨ a'.s = a.s) ∧
      MInv foot sc a'.s a'.m := by
  have hne : a.s.call < sc.length → sc.tasks a.s.call ≠ [] := by
    intro hc
    have : sc.tasks a.s.call = sc[a.s.call] := by
      simp [Script.tasks, List.getD_eq_getElem?_getD, hc]
    rw [this]
    exact hsc _ (List.getElem_mem hc)
  cases c with
  | master k =>
    simp only [step]
    split
    · next hr =>
      rcases master_step (o := o) hw hI h hap hne hr.1 with e | ⟨a', e, e1, e2⟩
      · exact .inl e
      · refine .inr ⟨a', e, ?_, e2⟩
        rcases e1 with e1 | e1
        · exact .inl ⟨_, rfl, e1⟩
        · exact .inr e1
    · exact .inl rfl
  | worker i k =>
    simp only [step]
    split
    · next hr =>
      rcases worker_step (o := o) hd hI h hap hr.1 hr.2.1 with e | ⟨a', e, e1, e2⟩
      · exact .inl e
      · refine .inr ⟨a', e, ?_, e2⟩
        rcases e1 with e1 | e1
        · refine .inl ⟨_, rfl, ?_⟩
          simp only [Pool.step, if_pos hr.1]
          exact e1
        · exact .inr e1
    · exact .inl rfl
  | giveUp i =>
    simp only [step, WChoice.sc]
    by_cases hi : i < a.s.nw
    · cases hpc : (a.s.ws i).pc with
      | spin =>
        have e : Pool.step sc a.s (.giveUp i) =
            .next (a.s.setW i { a.s.ws i with pc := .lockWait }) := by
          simp [Pool.step, hi, hpc]
        refine .inr ⟨⟨_, a.m⟩, by rw [e]; rfl, .inl ⟨_, rfl, e⟩, ?_⟩
        refine minv_pc h (by simp [hpc]) (by rw [hpc]; trivial) (by simp) ?_
        cases hst : (a.s.ws i).st <;> simp [pend, hpc, hst]
      | _ => exact .inl (by simp [Pool.step, hi, hpc, finish])
    · exact .inl (by simp [Pool.step, hi, finish])
  | spurious i =>
    simp only [step, WChoice.sc]
    by_cases hi : i < a.s.nw
    · cases hpc : (a.s.ws i).pc with
      | waiting =>
        have e : Pool.step sc a.s (.spurious i) =
            .next (a.s.setW i { a.s.ws i with pc := .woken }) := by
          simp [Pool.step, hi, hpc]
        refine .inr ⟨⟨_, a.m⟩, by rw [e]; rfl, .inl ⟨_, rfl, e⟩, ?_⟩
        refine minv_pc h (by simp [hpc]) (by rw [hpc]; trivial) (by simp) ?_
        cases hst : (a.s.ws i).st <;> simp [pend, hpc, hst]
      | _ => exact .inl (by simp [Pool.step, hi, hpc, finish])
    · exact .inl (by simp [Pool.step, hi, finish])
  | client x w =>
    simp only [step]
    split
    · next ho =>
      have hok : MasterOk foot sc a.s a.m [.acc (.data x) w .client] (.next a.s) := by
        refine master_calm hI h hap rfl (.inr rfl) rfl rfl rfl rfl ?_ ?_ ?_ ?_ id (fun _ => id)
          .inl (fun _ _ => .inl)
        · intro b hb; rw [List.mem_singleton] at hb; subst hb; rfl
        · intro y w' src hb
          simp only [List.mem_singleton, Act.acc.injEq] at hb
          exact .inr (.inr ⟨hb.2.2, ho, .inl ⟨x, hb.1⟩⟩)
        · intro j _ y w' hb; simp at hb
        · intro y w' _ j hj
          exact outside_task hI ho hj
      rcases hok with e | ⟨a', e, e1, e2⟩
      · exact .inl e
      · refine .inr ⟨a', e, .inr ?_, e2⟩
        simp only [finish] at e
        split at e
        · simp at e
        · simp only [WOut.next.injEq] at e; rw [← e]
    · exact .inl rfl
  | clientTask x w =>
    simp only [step]
    split
    · next ho =>
      have hok : MasterOk foot sc a.s a.m [.acc (.taskObj x) w .client] (.next a.s) := by
        refine master_calm hI h hap rfl (.inr rfl) rfl rfl rfl rfl ?_ ?_ ?_ ?_ id (fun _ => id)
          .inl (fun _ _ => .inl)
        · intro b hb; rw [List.mem_singleton] at hb; subst hb; rfl
        · intro y w' src hb
          simp only [List.mem_singleton, Act.acc.injEq] at hb
          exact .inr (.inr ⟨hb.2.2, ho, .inr ⟨x, hb.1⟩⟩)
        · intro j _ y w' hb; simp at hb
        · intro y w' _ j hj
          exact outside_task hI ho hj
      rcases hok with e | ⟨a', e, e1, e2⟩
      · exact .inl e
      · refine .inr ⟨a', e, .inr ?_, e2⟩
        simp only [finish] at e
        split at e
        · simp at e
        · simp only [WOut.next.injEq] at e; rw [← e]
    · exact .inl rfl

/-- Every state that can occur is one of the sequentially consistent pool, and the invariant holds.
-/
theorem reachable_ok {o : Orders} {foot : ε → List (δ × Bool)} {sc : Script ε} {a : WState ε δ}
    (hd : o.decRel = true) (hw : o.waitAcq = true) (hsc : ∀ ts ∈ sc, ts ≠ [])
    (hap : Apart foot sc) (h : Reachable o foot sc a) :
    Pool.Reachable sc a.s ∧ MInv foot sc a.s a.m := by
  induction h with
  | init => exact ⟨.init, minv_initial foot sc⟩
  | step c _ hs ih =>
    rcases step_ok hd hw hsc hap (reachable_inv ih.1) ih.2 c with e | ⟨a', e, e1, e2⟩
    · rw [e] at hs; simp at hs
    · rw [e] at hs
      simp only [WOut.next.injEq] at hs
      subst hs
      refine ⟨?_, e2⟩
      rcases e1 with ⟨c', _, e1⟩ | e1
      · exact .step c' ih.1 e1
      · rw [e1]; exact ih.1

end Gemmlowp.Weak
