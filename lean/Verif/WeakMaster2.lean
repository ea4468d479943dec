import Verif.WeakMaster
/-!
# The pool under the C++ memory model: each move of the master
-/
namespace Gemmlowp.Weak

open Pool

variable {ε δ : Type}

/-- A master that holds worker `i`'s mutex sees the newest state. -/
theorem mlocked_load {foot : ε → List (δ × Bool)} {sc : Script ε} {s : State ε} {m : Mem δ}
    (h : MInv foot sc s m) {i k : Nat} (hi : i < s.nw) (hl : (s.ws i).lock = some .master)
    (hv : visible (m.C none) (m.sh i) k = true) : k = 0 :=
  vis_zero (fun g hg => (Kn_master hl).1 ((h.sh i hi).2.1 g hg)) hv

/-- What the master reads from the counter. -/
theorem count_load {foot : ε → List (δ × Bool)} {sc : Script ε} {s : State ε} {m : Mem δ}
    (h : MInv foot sc s m) {k : Nat} (hv : visible (m.C none) m.ch k = true) :
    valAt 0 m.ch k = s.count + k := by
  obtain ⟨pre, g, t, hc⟩ := h.ch
  have hle := vis_le (j := pre.length) (by rw [hc.eq]; simp) hc.known hv
  unfold valAt
  rw [hc.eq]
  by_cases hlt : k < pre.length
  · rw [List.getElem?_append_left hlt, List.getElem?_eq_getElem hlt]
    exact (hc.dec k _ (List.getElem?_eq_getElem hlt)).2
  · have e : k = pre.length := by omega
    subst e
    simp [hc.val]

theorem quiet_load {foot : ε → List (δ × Bool)} {sc : Script ε} {s : State ε} {m : Mem δ}
    (h : MInv foot sc s m) {k : Nat} (hq : quiet s.mpc)
    (hv : visible (m.C none) m.ch k = true) : k = 0 := by
  obtain ⟨pre, g, t, hc⟩ := h.ch
  exact vis_zero (hc.all hq) hv

variable [DecidableEq δ]

omit [DecidableEq δ] in
/-- The end of a call: the master has learnt everything the workers did. -/
theorem wait_end {foot : ε → List (δ × Bool)} {sc : Script ε} {s : State ε} {m : Mem δ}
    (hI : Inv sc s) (h : MInv foot sc s m) (hm : s.mpc = .wait) (hcnt : s.count = 0)
    (hv : ∀ u, viewAt m.ch 0 true u ≤ m.C none u) :
    MInv foot sc { s with mpc := .idle, call := s.call + 1 } m := by
  have hpd : ∀ j < s.nw, pend (s.ws j) = 0 := by
    intro j hj
    have hc := hI.cnt
    exact natSum_eq_zero (n := s.nw) (f := fun j => pend (s.ws j)) (by omega) hj
  have htk : ∀ j < s.nw, (s.ws j).task = none := by
    intro j hj
    have hidle : Idle (s.ws j) := by
      refine ⟨?_, hpd j hj⟩
      have hal := hI.allowed j hj
      rw [hm] at hal
      simp only [Allowed] at hal
      split at hal
      · rcases hal with e | e
        · exact e
        · have := hpd j hj; rw [pend_work e] at this; simp at this
      · exact hal.1
    refine idle_task hidle (hI.wok j hj) (fun e => ?_)
    have := (hI.lockM j hj).1 e
    rw [hm] at this
    exact this
  constructor
  · intro r hr
    obtain ⟨h1, h2, h3⟩ := h.recs r hr
    refine ⟨h1, h2, ?_⟩
    cases hsrc : r.src with
    | client => simp only [hsrc] at h3; exact h3
    | pool => simp only [hsrc] at h3; exact h3
    | task k =>
      simp only [hsrc] at h3
      refine ⟨h3.1, .inl ?_⟩
      have hb : K (m.C none) r.ep → Before { s with mpc := .idle, call := s.call + 1 } m r.ep :=
        fun hk => ⟨hk, fun i hi ht => absurd (htk i hi) ht⟩
      rcases h3.2 with ⟨hc, hb'⟩ | ⟨hc, hcur⟩
      · exact ⟨by dsimp only; omega, hb hb'.1⟩
      · refine ⟨by dsimp only; omega, hb ?_⟩
        rcases hcur with ⟨ht, _⟩ | ⟨ht, _, hkn, _, hp⟩
        · rw [ht] at h1; exact h1
        · refine K_mono (hp.resolve_left ?_) hv
          rw [hpd _ hkn]; simp
  · exact h.sh
  · obtain ⟨pre, g, t, hc⟩ := h.ch
    refine ⟨pre, g, t, hc.eq, hc.store, hc.known, hc.dec, hc.val, hc.pend, hc.dcr, hc.view, ?_⟩
    intro _ x hx
    refine K_mono (hc.view x hx) (fun u => ?_)
    have := hv u
    simp only [join]
    omega
  · intro j hj hjn
    exact hjn.elim
  · exact h.fresh

/-- The master creates a worker. -/
theorem master_fork {foot : ε → List (δ × Bool)} {sc : Script ε} {s : State ε} {m : Mem δ}
    (h : MInv foot sc s m) (hm : s.mpc = .cwCreate)
    (hsc : mstep sc s = .next { s.setW s.nw newWorker with nw := s.nw + 1 }) :
    MasterOk foot sc s m
      [.acc (.obj s.nw) true .pool, .acc (.alloc s.nw) true .pool, .acc (.member s.nw) true .pool,
       .fork s.nw]
      (.next { s.setW s.nw newWorker with nw := s.nw + 1 }) := by
  generalize hl : ([.acc (.obj s.nw) true .pool, .acc (.alloc s.nw) true .pool,
    .acc (.member s.nw) true .pool] : List (Act δ)) = l
  have hcalm : ∀ b ∈ l, b.calm = true := by
    intro b hb
    rw [← hl] at hb
    simp only [List.mem_cons, List.not_mem_nil, or_false] at hb
    rcases hb with e | e | e <;> subst e <;> rfl
  have hll : ([.acc (.obj s.nw) true .pool, .acc (.alloc s.nw) true .pool,
    .acc (.member s.nw) true .pool, .fork s.nw] : List (Act δ)) = l ++ [.fork s.nw] := by
    rw [← hl]; rfl
  rw [hll]
  generalize hm' : m.acts none (l ++ [.fork s.nw]) = m'
  generalize hm3 : m.acts none l = m3
  have hnf : ∀ b ∈ l, b.isFork = false := fun b hb => calm_fork (hcalm b hb)
  have e3 : m' = m3.act none (.fork s.nw) := by
    rw [← hm', acts_append, hm3]; rfl
  have mono3 : ∀ u v, m.C u v ≤ m3.C u v := by rw [← hm3]; exact acts_mono m none l hnf
  have oth3 : ∀ j, m3.C (some j) = m.C (some j) := by
    intro j; rw [← hm3]; exact acts_other m none l hnf (by simp)
  have M3 : m3.M = m.M := by rw [← hm3]; exact acts_M m none l (fun b hb => calm_M (hcalm b hb))
  have S3 : m3.sh = m.sh := by rw [← hm3]; exact acts_sh m none l (fun b hb => calm_S (hcalm b hb))
  have C3 : m3.ch = m.ch := by rw [← hm3]; exact acts_ch m none l (fun b hb => calm_C (hcalm b hb))
  have hmono0 : ∀ v, m.C none v ≤ m'.C none v := by
    intro v
    refine Nat.le_trans (mono3 none v) ?_
    rw [e3]
    exact act_mono_self m3 none _ (by intro i _; simp) v
  have hnew : m'.C (some s.nw) = m'.C none := by
    rw [e3]; simp [Mem.act, Mem.eff, upd]
  have hoth : ∀ j, j ≠ s.nw → m'.C (some j) = m.C (some j) := by
    intro j hj
    rw [e3, ← oth3 j]
    simp [Mem.act, Mem.eff, Mem.tick, upd, hj]
  have hM : ∀ j, j ≠ s.nw → m'.M j = m.M j := by
    intro j hj; rw [e3, ← M3]; simp [Mem.act, Mem.eff, Mem.tick, upd, hj]
  have hS : ∀ j, j ≠ s.nw → m'.sh j = m.sh j := by
    intro j hj; rw [e3, ← S3]; simp [Mem.act, Mem.eff, Mem.tick, upd, hj]
  have hSn : m'.sh s.nw = [⟨.threadStartup, none, m'.C none none, fun _ => 0, false⟩] := by
    rw [e3]; simp [Mem.act, Mem.eff, Mem.tick, upd]
  have hC : m'.ch = m.ch := by rw [e3, ← C3]; rfl
  have hmono : ∀ u v, m.C u v ≤ m'.C u v := by
    intro u v
    cases u with
    | none => exact hmono0 v
    | some j =>
      by_cases hj : j = s.nw
      · subst hj; rw [h.fresh _ (Nat.le_refl _)]; exact Nat.zero_le _
      · rw [hoth j hj]; exact Nat.le_refl _
  have hrecs : ∀ r ∈ m'.recs, r ∈ m.recs ∨ (r.tid = none ∧ r.clk ≤ m'.C none none ∧
      r.src = .pool ∧ (r.loc = .obj s.nw ∨ r.loc = .alloc s.nw ∨ r.loc = .member s.nw)) := by
    intro r hr
    rw [e3] at hr
    have hr3 : r ∈ m3.recs := hr
    rw [← hm3] at hr3
    rcases acts_recs m none l hnf hr3 with hr' | ⟨ht, hk, ha⟩
    · exact .inl hr'
    · refine .inr ⟨ht, ?_, ?_⟩
      · refine Nat.le_trans hk ?_
        rw [hm3, e3]
        exact act_mono_self m3 none _ (by intro i _; simp) none
      · rw [← hl] at ha
        simp only [List.mem_cons, List.not_mem_nil, or_false, Act.acc.injEq] at ha
        rcases ha with ⟨e1, _, e2⟩ | ⟨e1, _, e2⟩ | ⟨e1, _, e2⟩ <;> simp [e1, e2]
  have hrun : m.run none (l ++ [.fork s.nw]) = .ok m' := by
    rw [← hm']
    refine run_ok (fun j hj => by simp) (fun b hb => ?_)
    have hb' : b = .fork s.nw ∨ ∃ x, b = .acc x true .pool ∧
        (x = .obj s.nw ∨ x = .alloc s.nw ∨ x = .member s.nw) := by
      rw [← hl] at hb
      simp only [List.mem_append, List.mem_cons, List.not_mem_nil, or_false] at hb
      rcases hb with (e | e | e) | e
      · exact .inr ⟨_, e, .inl rfl⟩
      · exact .inr ⟨_, e, .inr (.inl rfl)⟩
      · exact .inr ⟨_, e, .inr (.inr rfl)⟩
      · exact .inl e
    rcases hb' with e | ⟨x, e, hx⟩ <;> subst e
    · trivial
    · intro r hr hrx _
      exfalso
      obtain ⟨_, _, h3⟩ := h.recs r hr
      rw [← hrx] at hx
      cases hsrc : r.src with
      | client =>
        simp only [hsrc] at h3
        rcases h3.1 with ⟨y, e⟩ | ⟨y, e⟩ <;> simp [e] at hx
      | task k =>
        simp only [hsrc, TaskLoc] at h3
        rcases h3.1 with ⟨y, e, _⟩ | e <;> simp [e] at hx
      | pool =>
        simp only [hsrc, PoolRec] at h3
        rcases hx with e | e | e <;> rw [e] at h3 <;> exact absurd h3.1 (Nat.lt_irrefl _)
  have hws : ∀ j, j ≠ s.nw → ({ s.setW s.nw newWorker with nw := s.nw + 1 } : State ε).ws j =
      s.ws j := fun j hj => setW_ne s _ hj
  have hwn : ({ s.setW s.nw newWorker with nw := s.nw + 1 } : State ε).ws s.nw = newWorker :=
    setW_same s _ _
  refine .inr ⟨⟨_, m'⟩, by simp only [finish, hrun], .inl hsc, ?_⟩
  dsimp only
  generalize hs' : ({ s.setW s.nw newWorker with nw := s.nw + 1 } : State ε) = s' at hws hwn ⊢
  have hnw : s'.nw = s.nw + 1 := by rw [← hs']
  have hcall : s'.call = s.call := by rw [← hs']; rfl
  have hmp : s'.mpc = .cwCreate := by rw [← hs', ← hm]; rfl
  have hcnt : s'.count = s.count := by rw [← hs']; rfl
  have hkn : ∀ {j e}, j < s.nw → Kn s m j e → Kn s' m' j e := by
    intro j e hj hk
    have hj' : j ≠ s.nw := by omega
    exact Kn_step hmono (.inl ⟨by rw [hws j hj'], hM j hj'⟩) hk
  have hkn' : ∀ {e}, K (m'.C none) e → Kn s' m' s.nw e := by
    intro e hk
    exact Kn_both hk (by rw [hnew]; exact hk)
  have hbef : ∀ {e}, Before s m e → Before s' m' e := by
    intro e hb
    refine ⟨K_mono hb.1 (hmono _), fun i hi ht => ?_⟩
    by_cases e' : i = s.nw
    · subst e'; exact hkn' (K_mono hb.1 (hmono _))
    · rw [hws i e'] at ht
      exact hkn (by omega) (hb.2 i (by omega) ht)
  constructor
  · intro r hr
    rcases hrecs r hr with hr | ⟨ht, hk, hsrc, hloc⟩
    · obtain ⟨h1, h2, h3⟩ := h.recs r hr
      refine ⟨K_mono h1 (hmono _), fun i hi => by have := h2 i hi; omega, ?_⟩
      cases hsrc : r.src with
      | client => simp only [hsrc] at h3; exact ⟨h3.1, hbef h3.2⟩
      | task k =>
        simp only [hsrc] at h3
        refine ⟨h3.1, .inl ?_⟩
        rw [hcall]
        rcases h3.2 with ⟨hc, hb⟩ | ⟨hc, ⟨_, ha, _⟩ | ⟨_, hs, _⟩⟩
        · exact ⟨hc, hbef hb⟩
        · rw [hm] at ha; exact ha.elim
        · rw [hm] at hs; exact hs.elim
      | pool =>
        simp only [hsrc, PoolRec] at h3 ⊢
        cases hloc : r.loc with
        | data x => simp [hloc] at h3
        | taskObj x => simp [hloc] at h3
        | member i =>
          simp only [hloc] at h3 ⊢
          have hne : i ≠ s.nw := by have := h3.1; omega
          rw [hws i hne]
          exact ⟨by have := h3.1; omega, h3.2.1, fun hp => hkn h3.1 (h3.2.2 hp)⟩
        | alloc i =>
          simp only [hloc] at h3 ⊢
          have hne : i ≠ s.nw := by have := h3.1; omega
          rw [hws i hne]
          exact ⟨by have := h3.1; omega, h3.2.1, fun ht hp => K_mono (h3.2.2 ht hp) (hmono _)⟩
        | obj i =>
          simp only [hloc] at h3 ⊢
          have hne : i ≠ s.nw := by have := h3.1; omega
          rw [hws i hne]
          exact ⟨by have := h3.1; omega, h3.2.1, fun ht hp => K_mono (h3.2.2 ht hp) (hmono _)⟩
        | pool =>
          simp only [hloc] at h3 ⊢
          refine ⟨fun ht i hi hp => ?_, h3.2⟩
          by_cases e' : i = s.nw
          · subst e'
            rw [hnew]
            rw [ht] at h1
            exact K_mono h1 (hmono _)
          · rw [hws i e'] at hp
            exact K_mono (h3.1 ht i (by omega) hp) (hmono _)
    · have hK : K (m'.C none) r.ep := by simp only [K, Rec.ep, ht]; exact hk
      refine ⟨by rw [ht]; exact hK, fun j hj => by rw [ht] at hj; simp at hj, ?_⟩
      simp only [hsrc, PoolRec]
      rcases hloc with e | e | e <;> rw [e] <;> dsimp only <;>
        refine ⟨by omega, .inl ht, ?_⟩
      · exact fun _ _ => by rw [hnew]; exact hK
      · exact fun _ _ => by rw [hnew]; exact hK
      · exact fun _ => hkn' hK
  · intro j hj
    by_cases e' : j = s.nw
    · subst e'
      refine ⟨⟨_, _, hSn, by rw [hwn]; rfl⟩, ?_, fun hp => ?_⟩
      · intro x hx
        rw [hSn, List.mem_singleton] at hx
        subst hx
        exact hkn' (Nat.le_refl _)
      · rw [hwn] at hp; exact hp.elim
    · obtain ⟨h1, h2, h3⟩ := h.sh j (by omega)
      refine ⟨by rw [hS j e', hws j e']; exact h1, ?_, ?_⟩
      · intro x hx
        rw [hS j e'] at hx
        exact hkn (by omega) (h2 x hx)
      · rw [hws j e']
        intro hp
        unfold OwnReady
        rw [hS j e', hoth j e']
        exact h3 hp
  · obtain ⟨pre, g, t, hc⟩ := h.ch
    refine ⟨pre, g, t, by rw [hC]; exact hc.eq, hc.store, K_mono hc.known (hmono _),
      by rw [hcnt]; exact hc.dec, by rw [hcnt]; exact hc.val, ?_, ?_, ?_, ?_⟩
    · intro i hi hp
      by_cases e' : i = s.nw
      · subst e'; exact hkn' (K_mono hc.known (hmono _))
      · rw [hws i e'] at hp
        exact hkn (by omega) (hc.pend i (by omega) hp)
    · intro i hi hp
      by_cases e' : i = s.nw
      · subst e'; rw [hwn] at hp; simp [newWorker] at hp
      · rw [hws i e'] at hp
        exact K_mono (hc.dcr i (by omega) hp) (hmono _)
    · intro x hx
      rw [hC] at hx ⊢
      refine K_mono (hc.view x hx) (fun u => ?_)
      have := hmono none u
      simp only [join]
      omega
    · intro hq; rw [hmp] at hq; exact hq.elim
  · intro j hj hjn; rw [hmp] at hjn; exact hjn.elim
  · intro j hj t
    have e' : j ≠ s.nw := by omega
    rw [hoth j e']
    exact h.fresh j (by omega) t

end Gemmlowp.Weak
