import Verif.WeakWorker2
/-!
# The pool under the C++ memory model: moves of the master
-/
namespace Gemmlowp.Weak

open Pool

variable {ε δ : Type}

/-- The accesses the master makes, apart from those to create a worker. -/
def MAcc (foot : ε → List (δ × Bool)) (sc : Script ε) (s : State ε) (x : Loc δ) (w : Bool)
    (src : Src) : Prop :=
  (src = .pool ∧ ((∃ i < s.nw, x = .member i ∧ (s.ws i).lock = some .master ∧
      (s.ws i).pc ≠ .exited) ∨
    (∃ i < s.nw, (x = .member i ∨ x = .alloc i ∨ x = .obj i) ∧ joined i s.mpc) ∨
    (x = .pool ∧ ∀ i < s.nw, joined i s.mpc))) ∨
  (∃ j, src = .task (s.call, j) ∧ active s.mpc ∧
    (started j s.mpc → j = (sc.tasks s.call).length - 1) ∧
    (x = .taskObj j ∨ ∃ y, x = .data y ∧ ∃ e ∈ sc.prog s.call j, (y, w) ∈ foot e)) ∨
  (src = .client ∧ outside s.mpc = true ∧ ((∃ y, x = .data y) ∨ ∃ j, x = .taskObj j))

theorem joined_exited {sc : Script ε} {s : State ε} (hI : Inv sc s) {i : Nat} (hi : i < s.nw)
    (hj : joined i s.mpc) : (s.ws i).pc = .exited := by
  have hal := hI.allowed i hi
  revert hj hal
  cases s.mpc <;> simp only [joined, Allowed] <;> intro h1 h2 <;>
    first | contradiction | exact h2 | (rw [if_pos h1] at h2; exact h2)

/-- They do not race. -/
theorem macc_safe {foot : ε → List (δ × Bool)} {sc : Script ε} {s : State ε} {m : Mem δ}
    (h : MInv foot sc s m) (hap : Apart foot sc) {x : Loc δ} {w : Bool} {src : Src}
    (ha : MAcc foot sc s x w src) : SafeAct m none (.acc x w src) := by
  intro r hr hx hw
  obtain ⟨h1, h2, h3⟩ := h.recs r hr
  have hown : r.tid = none → K (m.C none) r.ep := fun e => by rw [e] at h1; exact h1
  have hjoin : ∀ i, i < s.nw → joined i s.mpc → r.tid = some i → K (m.C none) r.ep := by
    intro i hi hj e
    rw [e] at h1
    have := h.joined i hi hj
    simp only [K, Rec.ep, e] at h1 ⊢
    omega
  rcases ha with ⟨_, hc⟩ | ⟨j, _, hact, hst, hl⟩ | ⟨_, hout, hl⟩
  · cases hsrc : r.src with
    | client =>
      simp only [hsrc] at h3
      rw [hx] at h3
      rcases h3.1 with ⟨y, e⟩ | ⟨y, e⟩ <;>
        rcases hc with ⟨_, _, e', _⟩ | ⟨_, _, e' | e' | e', _⟩ | ⟨e', _⟩ <;>
        · rw [e'] at e; simp at e
    | task k =>
      simp only [hsrc, TaskLoc] at h3
      rw [hx] at h3
      rcases h3.1 with ⟨y, e, _⟩ | e <;>
        rcases hc with ⟨_, _, e', _⟩ | ⟨_, _, e' | e' | e', _⟩ | ⟨e', _⟩ <;>
        · rw [e'] at e; simp at e
    | pool =>
      simp only [hsrc, PoolRec] at h3
      rw [hx] at h3
      rcases hc with ⟨i, hi, e', hl, hne⟩ | ⟨i, hi, e', hj⟩ | ⟨e', hj⟩
      · rw [e'] at h3
        dsimp only at h3
        exact (Kn_master hl).1 (h3.2.2 hne)
      · rcases e' with e' | e' | e' <;> rw [e'] at h3 <;> dsimp only at h3 <;>
          rcases h3.2.1 with ht | ht
        all_goals first | exact hown ht | exact hjoin i hi hj ht
      · rw [e'] at h3
        cases ht : r.tid with
        | none => exact hown ht
        | some i => exact hjoin i (h2 i ht) (hj i (h2 i ht)) ht
  · cases hsrc : r.src with
    | client => simp only [hsrc] at h3; exact h3.2.1
    | pool =>
      simp only [hsrc, PoolRec] at h3
      rw [hx] at h3
      rcases hl with e | ⟨y, e, _⟩ <;> rw [e] at h3 <;> exact h3.elim
    | task k =>
      simp only [hsrc, TaskLoc] at h3
      rcases h3.2 with ⟨_, hb⟩ | ⟨hc, hcur⟩
      · exact hb.1
      · rcases hcur with ⟨ht, _⟩ | ⟨ht, hs, hkn, hkl, _⟩
        · exact hown ht
        · exfalso
          have hki : k.2 ≠ j := by
            intro e
            rw [e] at hs hkl
            have := hst hs
            omega
          rw [hx] at h3
          rcases hl with e | ⟨y, e, e0, he0, hf0⟩ <;> rw [e] at h3 <;>
            rcases h3.1 with ⟨z, ez, e1, he1, hf1⟩ | ez
          · simp at ez
          · simp only [Loc.taskObj.injEq] at ez; exact hki ez.symm
          · simp only [Loc.data.injEq] at ez
            subst ez
            rw [hc] at he1
            have := hap s.call k.2 j hki e1 he1 e0 he0 y r.wr w hf1 hf0
            simp [this] at hw
          · simp at ez
  · cases hsrc : r.src with
    | client => simp only [hsrc] at h3; exact h3.2.1
    | pool =>
      simp only [hsrc, PoolRec] at h3
      rw [hx] at h3
      rcases hl with ⟨y, e⟩ | ⟨y, e⟩ <;> rw [e] at h3 <;> exact h3.elim
    | task k =>
      simp only [hsrc, TaskLoc] at h3
      rcases h3.2 with ⟨_, hb⟩ | ⟨hc, hcur⟩
      · exact hb.1
      · exfalso
        have hna : ¬ active s.mpc := by
          revert hout; cases s.mpc <;> simp [outside, active]
        have hns : ∀ j, ¬ started j s.mpc := by
          revert hout; cases s.mpc <;> simp [outside, started]
        rcases hcur with ⟨_, ha, _⟩ | ⟨_, hs, _⟩
        · exact hna ha
        · exact hns _ hs

variable [DecidableEq δ]

/-- What is to be proved of a move of the master. -/
def MasterOk (foot : ε → List (δ × Bool)) (sc : Script ε) (s : State ε) (m : Mem δ)
    (l : List (Act δ)) (out : Out ε) : Prop :=
  finish m none l out = .blocked ∨
    ∃ a', finish m none l out = .next a' ∧ (mstep sc s = .next a'.s ∨ a'.s = s) ∧
      MInv foot sc a'.s a'.m

/-- The general form of a move of the master that neither creates a worker nor ends a call. -/
theorem master_fin {foot : ε → List (δ × Bool)} {sc : Script ε} {s s' : State ε}
    {m : Mem δ} {l : List (Act δ)} {out : Out ε}
    (hI : Inv sc s) (h : MInv foot sc s m) (hap : Apart foot sc)
    (hout : out = .next s') (hsc : mstep sc s = .next s' ∨ s' = s)
    (hcall : s'.call = s.call) (hnw : s'.nw = s.nw)
    (hnf : ∀ b ∈ l, b.isFork = false)
    (hsafe : ∀ b ∈ l, (∀ x w src, b ≠ .acc x w src) → SafeAct m none b)
    (hacc : ∀ x w src, Act.acc x w src ∈ l → MAcc foot sc s x w src)
    (hkeep : ∀ x w src, Act.acc x w src ∈ l → ∀ i < s.nw,
      (s.ws i).lock = some .master → (s'.ws i).lock = some .master)
    (hnt : ∀ j < s.nw, ∀ x w, Act.acc x w (.task (s.call, j)) ∈ l →
      (s'.ws j).task = none ∨ (s'.ws j).lock = some .master)
    (hct : ∀ x w, Act.acc x w .client ∈ l → ∀ j < s.nw, (s'.ws j).task = none)
    (hpc : ∀ j < s.nw, (s.ws j).pc = .exited → (s'.ws j).pc = .exited)
    (htask : ∀ j < s.nw, (s'.ws j).task ≠ none →
      (s.ws j).task ≠ none ∨ (s'.ws j).lock = some .master)
    (hlk : ∀ j < s.nw, LockRel s m s' (m.acts none l) j)
    (hact : active s.mpc → active s'.mpc)
    (hstart : ∀ j, started j s.mpc → started j s'.mpc)
    (hview : ∀ j < s.nw, ∀ e : Tid × Nat, K (m.C (some j)) e →
      (pend (s.ws j) = 1 ∨ K (viewAt m.ch 0 true) e) →
      (pend (s'.ws j) = 1 ∨ K (viewAt (m.acts none l).ch 0 true) e))
    (hsh : Gen sc s m s' (m.acts none l) → ∀ j < s.nw, ShOk s' (m.acts none l) j)
    (hch : Gen sc s m s' (m.acts none l) → ∀ pre g t, ChOk s m pre g t →
      ∃ pre' g' t', ChOk s' (m.acts none l) pre' g' t')
    (hjoin : ∀ j < s.nw, joined j s'.mpc → joined j s.mpc ∨
      m.C (some j) (some j) ≤ (m.acts none l).C none (some j)) :
    MasterOk foot sc s m l out := by
  have hmono := acts_mono m none l hnf
  have hrun : m.run none l = .ok (m.acts none l) := by
    refine run_ok (fun j hj => by simp) (fun b hb => ?_)
    by_cases hb' : ∃ x w src, b = .acc x w src
    · obtain ⟨x, w, src, rfl⟩ := hb'
      exact macc_safe h hap (hacc x w src hb)
    · exact hsafe b hb (fun x w src e => hb' ⟨x, w, src, e⟩)
  refine .inr ⟨⟨s', m.acts none l⟩, ?_, hsc, ?_⟩
  · rw [hout]; simp only [finish, hrun]
  have hg : Gen sc s m s' (m.acts none l) :=
    ⟨hcall, hnw, hmono, hlk, hpc, htask, hact, hstart, hview⟩
  dsimp only
  constructor
  · intro r hr
    rcases acts_recs m none l hnf hr with hr' | ⟨ht, hk, ha⟩
    · exact hg.recOk (h.recs r hr')
    · have hK : K ((m.acts none l).C none) r.ep := by
        simp only [K, Rec.ep, ht]; exact hk
      have hke := hkeep _ _ _ ha
      refine ⟨by rw [ht]; exact hK, fun j hj => by rw [ht] at hj; simp at hj, ?_⟩
      rcases hacc _ _ _ ha with ⟨hsrc, hx⟩ | ⟨j, hsrc, hac, _, hx⟩ | ⟨hsrc, ho, hx⟩
      · simp only [hsrc, PoolRec]
        rcases hx with ⟨i, hi, e, hl, _⟩ | ⟨i, hi, e, hj⟩ | ⟨e, hj⟩
        · rw [e]
          exact ⟨by rw [hnw]; exact hi, .inl ht, fun _ => (Kn_master (hke i hi hl)).2 hK⟩
        · have hx := hpc i hi (joined_exited hI hi hj)
          rcases e with e | e | e <;> rw [e] <;> dsimp only <;>
            refine ⟨by rw [hnw]; exact hi, .inl ht, ?_⟩
          · exact fun h => absurd hx h
          · exact fun _ h => absurd hx h
          · exact fun _ h => absurd hx h
        · rw [e]
          dsimp only
          refine ⟨fun _ i hi hp => ?_, fun e => absurd ht e⟩
          rw [hnw] at hi
          exact absurd (hpc i hi (joined_exited hI hi (hj i hi))) hp
      · simp only [hsrc]
        refine ⟨?_, .inr ⟨hcall.symm, .inl ⟨ht, hact hac, fun hj htk => ?_⟩⟩⟩
        · rcases hx with e | ⟨y, e, e0, he0, hf0⟩
          · exact .inr e
          · exact .inl ⟨y, e, e0, he0, hf0⟩
        · rw [hnw] at hj
          rcases hnt j hj _ _ (hsrc ▸ ha) with e | e
          · exact absurd e htk
          · exact (Kn_master e).2 hK
      · simp only [hsrc]
        refine ⟨hx, hK, fun i hi htk => ?_⟩
        rw [hnw] at hi
        exact absurd (hct _ _ (hsrc ▸ ha) i hi) htk
  · intro j hj
    rw [hnw] at hj
    exact hsh hg j hj
  · obtain ⟨pre, g, t, hc⟩ := h.ch
    exact hch hg pre g t hc
  · intro j hj hjn
    rw [hnw] at hj
    rw [acts_other m none l hnf (by simp)]
    rcases hjoin j hj hjn with h' | h'
    · exact Nat.le_trans (h.joined j hj h') (hmono none (some j))
    · exact h'
  · intro j hj t
    rw [hnw] at hj
    rw [acts_other m none l hnf (by simp)]
    exact h.fresh j hj t


/-- A move of the master with calm actions only, after which all workers are as before. -/
theorem master_calm {foot : ε → List (δ × Bool)} {sc : Script ε} {s s' : State ε}
    {m : Mem δ} {l : List (Act δ)} {out : Out ε}
    (hI : Inv sc s) (h : MInv foot sc s m) (hap : Apart foot sc)
    (hout : out = .next s') (hsc : mstep sc s = .next s' ∨ s' = s)
    (hcall : s'.call = s.call) (hnw : s'.nw = s.nw) (hcnt : s'.count = s.count)
    (hws : s'.ws = s.ws)
    (hcalm : ∀ b ∈ l, b.calm = true)
    (hacc : ∀ x w src, Act.acc x w src ∈ l → MAcc foot sc s x w src)
    (hnt : ∀ j < s.nw, ∀ x w, Act.acc x w (.task (s.call, j)) ∈ l → (s.ws j).task = none)
    (hct : ∀ x w, Act.acc x w .client ∈ l → ∀ j < s.nw, (s.ws j).task = none)
    (hact : active s.mpc → active s'.mpc)
    (hstart : ∀ j, started j s.mpc → started j s'.mpc)
    (hq : quiet s'.mpc → quiet s.mpc ∨ ∀ u, viewAt m.ch 0 true u ≤ (m.acts none l).C none u)
    (hjoin : ∀ j < s.nw, joined j s'.mpc → joined j s.mpc ∨
      m.C (some j) (some j) ≤ (m.acts none l).C none (some j)) :
    MasterOk foot sc s m l out := by
  have eM := acts_M m none l (fun b hb => calm_M (hcalm b hb))
  have eS := acts_sh m none l (fun b hb => calm_S (hcalm b hb))
  have eC := acts_ch m none l (fun b hb => calm_C (hcalm b hb))
  refine master_fin hI h hap hout hsc hcall hnw (fun b hb => calm_fork (hcalm b hb))
    (fun b hb hb' => calm_safe (hcalm b hb) hb') hacc (fun _ _ _ _ i _ e => hws ▸ e)
    (fun j hj x w e => .inl (hws ▸ hnt j hj x w e)) (fun x w e j hj => hws ▸ hct x w e j hj)
    (fun j _ e => hws ▸ e) (fun j _ e => .inl (hws ▸ e)) (fun j _ => .inl ⟨by rw [hws], by rw [eM]⟩)
    hact hstart (fun j _ e _ hv => by rw [hws, eC]; exact hv) ?_ ?_ hjoin
  · intro hg j hj
    exact hg.shSame hj (h.sh j hj) (by rw [eS]) (by rw [hws]) (by rw [hws]; exact id)
  · intro hg pre g t hc
    exact ⟨pre, g, t, hg.chSame hc eC hcnt (fun i _ e => .inl (hws ▸ e))
      (fun i _ e => .inl (hws ▸ e)) hq⟩

/-- A move in which the master stores to the state of worker `i`, whose mutex it holds. -/
theorem master_store {foot : ε → List (δ × Bool)} {sc : Script ε} {s s' : State ε}
    {m : Mem δ} {out : Out ε} {i : Nat} {v : WSt}
    (hI : Inv sc s) (h : MInv foot sc s m) (hap : Apart foot sc)
    (hout : out = .next s') (hsc : mstep sc s = .next s')
    (hcall : s'.call = s.call) (hnw : s'.nw = s.nw) (hcnt : s'.count = s.count)
    (hi : i < s.nw) (hws : ∀ j, j ≠ i → s'.ws j = s.ws j)
    (hwi : s'.ws i = { s.ws i with st := v }.wake)
    (hl : (s.ws i).lock = some .master) (hv : v ≠ .ready) (hst : (s.ws i).st = .ready)
    (hpd : pend (s.ws i) = 0)
    (hact : active s.mpc → active s'.mpc)
    (hstart : ∀ j, started j s.mpc → started j s'.mpc)
    (hns : ¬ started i s.mpc)
    (hq : quiet s'.mpc → quiet s.mpc)
    (hjoin : ∀ j < s.nw, joined j s'.mpc → joined j s.mpc) :
    MasterOk foot sc s m [.stStore i v] out := by
  generalize hm' : m.acts none [.stStore i v] = m'
  have eS : m'.sh = upd m.sh i (⟨v, none, m'.C none none, fun _ => 0, false⟩ :: m.sh i) := by
    rw [← hm']; rfl
  have eM : m'.M = m.M := by rw [← hm']; rfl
  have eC : m'.ch = m.ch := by rw [← hm']; rfl
  have hlk' : (s'.ws i).lock = some .master := by
    rw [hwi]; unfold Worker.wake; dsimp only; split <;> exact hl
  have htk' : (s'.ws i).task = (s.ws i).task := by
    rw [hwi]; unfold Worker.wake; dsimp only; split <;> rfl
  have hst' : (s'.ws i).st = v := by
    rw [hwi]; unfold Worker.wake; dsimp only; split <;> rfl
  have hpc' : (s'.ws i).pc = (s.ws i).pc ∨ ((s.ws i).pc = .waiting ∧ (s'.ws i).pc = .woken) := by
    rw [hwi]; unfold Worker.wake; dsimp only
    split
    · next e => exact .inr ⟨e, rfl⟩
    · exact .inl rfl
  refine master_fin hI h hap hout (.inl hsc) hcall hnw ?_ ?_ ?_ ?_ ?_ ?_ ?_ ?_ ?_ hact hstart
    ?_ ?_ ?_ (fun j hj e => .inl (hjoin j hj e)) <;> (try rw [hm'])
  · intro b hb; rw [List.mem_singleton] at hb; subst hb; rfl
  · intro b hb _
    rw [List.mem_singleton] at hb; subst hb
    exact fun g hg => (Kn_master hl).1 ((h.sh i hi).2.1 g hg)
  · intro x w src hb; rw [List.mem_singleton] at hb; simp at hb
  · intro x w src hb; rw [List.mem_singleton] at hb; simp at hb
  · intro j _ x w hb; rw [List.mem_singleton] at hb; simp at hb
  · intro x w hb; rw [List.mem_singleton] at hb; simp at hb
  · intro j _ e
    by_cases ej : j = i
    · subst ej
      rcases hpc' with e' | e'
      · rw [e']; exact e
      · rw [e'.1] at e; simp at e
    · rw [hws j ej]; exact e
  · intro j _ e
    by_cases ej : j = i
    · subst ej; rw [htk'] at e; exact .inl e
    · rw [hws j ej] at e; exact .inl e
  · intro j _
    by_cases ej : j = i
    · subst ej; exact .inl ⟨by rw [hlk', hl], by rw [eM]⟩
    · exact .inl ⟨by rw [hws j ej], by rw [eM]⟩
  · intro j _ e _ hv'
    rw [eC]
    by_cases ej : j = i
    · subst ej
      exact .inr (hv'.resolve_left (by rw [hpd]; simp))
    · rw [hws j ej]; exact hv'
  · intro hg j hj
    by_cases ej : j = i
    · subst ej
      have eSi : m'.sh j = ⟨v, none, m'.C none none, fun _ => 0, false⟩ :: m.sh j := by
        rw [eS]; simp only [upd, if_true]
      refine ⟨⟨_, _, eSi, hst'.symm⟩, ?_, fun hp => ?_⟩
      · intro x hx
        rw [eSi] at hx
        rcases List.mem_cons.1 hx with e | hx
        · subst e; exact (Kn_master hlk').2 (Nat.le_refl _)
        · exact Kn_step hg.mono (hg.lock j hj) ((h.sh j hj).2.1 x hx)
      · have hp' : past (s.ws j).pc := by
          rcases hpc' with e | e
          · rw [e] at hp; exact hp
          · rw [e.1]; trivial
        rcases (h.sh j hj).2.2 hp' with ⟨g, t, e, hg', hk⟩ | ⟨g0, g, t, e, h0, _⟩
        · exact .inr ⟨_, g, t, by rw [eSi, e], hv, hg', K_mono hk (hg.mono _)⟩
        · exfalso
          obtain ⟨⟨g1, t1, e1, h1⟩, _⟩ := h.sh j hj
          rw [e] at e1
          simp only [List.cons.injEq] at e1
          rw [← e1.1, hst] at h1
          exact h0 h1
    · exact hg.shSame hj (h.sh j hj) (by rw [eS]; simp [upd, ej]) (by rw [hws j ej])
        (by rw [hws j ej]; exact id)
  · intro hg pre g t hc
    refine ⟨pre, g, t, hg.chSame hc eC hcnt (fun j hj e => ?_) (fun j hj e => ?_)
      (fun e => .inl (hq e))⟩
    · by_cases ej : j = i
      · subst ej; exact .inr hlk'
      · rw [hws j ej] at e; exact .inl e
    · by_cases ej : j = i
      · subst ej
        rcases hpc' with e' | e'
        · rw [e'] at e; exact .inl e
        · rw [e'.2] at e; simp at e
      · rw [hws j ej] at e; exact .inl e

/-- A move in which the master locks the mutex of worker `i`. -/
theorem master_lock {foot : ε → List (δ × Bool)} {sc : Script ε} {s s' : State ε}
    {m : Mem δ} {l : List (Act δ)} {out : Out ε} {i : Nat}
    (hI : Inv sc s) (h : MInv foot sc s m) (hap : Apart foot sc)
    (hout : out = .next s') (hsc : mstep sc s = .next s')
    (hcall : s'.call = s.call) (hnw : s'.nw = s.nw) (hcnt : s'.count = s.count)
    (hws : ∀ j, j ≠ i → s'.ws j = s.ws j)
    (hwi : s'.ws i = { s.ws i with lock := some .master })
    (hl : (s.ws i).lock = none)
    (hcalm : ∀ b ∈ l, b.calm = true)
    (hacc : ∀ x w src, Act.acc x w src ∈ l → MAcc foot sc s x w src ∧ src = .pool)
    (hact : active s.mpc → active s'.mpc)
    (hstart : ∀ j, started j s.mpc → started j s'.mpc)
    (hq : quiet s'.mpc → quiet s.mpc)
    (hjoin : ∀ j < s.nw, joined j s'.mpc → joined j s.mpc) :
    MasterOk foot sc s m (l ++ [.lock i]) out := by
  have hcalm' : ∀ b ∈ l ++ [.lock i], b.calm = true := by
    intro b hb
    rcases List.mem_append.1 hb with hb | hb
    · exact hcalm b hb
    · rw [List.mem_singleton] at hb; subst hb; rfl
  have hmem : ∀ {x w src}, Act.acc x w src ∈ l ++ [Act.lock i] → Act.acc x w src ∈ l := by
    intro x w src hb
    rcases List.mem_append.1 hb with hb | hb
    · exact hb
    · rw [List.mem_singleton] at hb; simp at hb
  have eM := acts_M m none _ (fun b hb => calm_M (hcalm' b hb))
  have eS := acts_sh m none _ (fun b hb => calm_S (hcalm' b hb))
  have eC := acts_ch m none _ (fun b hb => calm_C (hcalm' b hb))
  have eMl := acts_M m none l (fun b hb => calm_M (hcalm b hb))
  have hpcs : ∀ j, (s'.ws j).pc = (s.ws j).pc ∧ (s'.ws j).st = (s.ws j).st ∧
      (s'.ws j).task = (s.ws j).task := by
    intro j
    by_cases ej : j = i
    · subst ej; rw [hwi]; exact ⟨rfl, rfl, rfl⟩
    · rw [hws j ej]; exact ⟨rfl, rfl, rfl⟩
  have hpj : ∀ j, pend (s'.ws j) = pend (s.ws j) := fun j => pend_eq (hpcs j).2.1 (hpcs j).1
  refine master_fin hI h hap hout (.inl hsc) hcall hnw (fun b hb => calm_fork (hcalm' b hb))
    (fun b hb hb' => calm_safe (hcalm' b hb) hb') (fun x w src hb => (hacc x w src (hmem hb)).1)
    ?_ ?_ ?_ (fun j _ e => by rw [(hpcs j).1]; exact e)
    (fun j _ e => .inl (by rw [(hpcs j).2.2] at e; exact e)) ?_ hact hstart
    (fun j _ e _ hv => by rw [hpj, eC]; exact hv) ?_ ?_ (fun j hj e => .inl (hjoin j hj e))
  · intro x w src hb j hj e
    by_cases ej : j = i
    · subst ej; rw [hl] at e; simp at e
    · rw [hws j ej]; exact e
  · intro j hj x w hb
    exact absurd (hacc _ _ _ (hmem hb)).2 (by simp)
  · intro x w hb
    exact absurd (hacc _ _ _ (hmem hb)).2 (by simp)
  · intro j hj
    by_cases ej : j = i
    · subst ej
      refine .inr ⟨.master, none, .inl ⟨rfl, rfl⟩, .inl ⟨hl, by rw [hwi], fun u => ?_⟩⟩
      rw [acts_append, acts_cons, acts_nil]
      simp only [Mem.act, Mem.eff, learn_C, if_true, Mem.tick, eMl]
      exact Nat.le_max_right _ _
    · exact .inl ⟨by rw [hws j ej], by rw [eM]⟩
  · intro hg j hj
    exact hg.shSame hj (h.sh j hj) (by rw [eS]) (hpcs j).2.1 (by rw [(hpcs j).1]; exact id)
  · intro hg pre g t hc
    exact ⟨pre, g, t, hg.chSame hc eC hcnt (fun j hj e => .inl (hpj j ▸ e))
      (fun j hj e => .inl (by rw [(hpcs j).1] at e; exact e)) (fun e => .inl (hq e))⟩

/-- A move in which the master unlocks the mutex of worker `i`. -/
theorem master_unlock {foot : ε → List (δ × Bool)} {sc : Script ε} {s s' : State ε}
    {m : Mem δ} {out : Out ε} {i : Nat}
    (hI : Inv sc s) (h : MInv foot sc s m) (hap : Apart foot sc)
    (hout : out = .next s') (hsc : mstep sc s = .next s')
    (hcall : s'.call = s.call) (hnw : s'.nw = s.nw) (hcnt : s'.count = s.count)
    (hws : ∀ j, j ≠ i → s'.ws j = s.ws j)
    (hwi : s'.ws i = { s.ws i with lock := none })
    (hl : (s.ws i).lock = some .master)
    (hact : active s.mpc → active s'.mpc)
    (hstart : ∀ j, started j s.mpc → started j s'.mpc)
    (hq : quiet s'.mpc → quiet s.mpc)
    (hjoin : ∀ j < s.nw, joined j s'.mpc → joined j s.mpc) :
    MasterOk foot sc s m [.unlock i] out := by
  generalize hm' : m.acts none [.unlock i] = m'
  have eM : m'.M = upd m.M i (m'.C none) := by rw [← hm']; rfl
  have eS : m'.sh = m.sh := by rw [← hm']; rfl
  have eC : m'.ch = m.ch := by rw [← hm']; rfl
  have hpcs : ∀ j, (s'.ws j).pc = (s.ws j).pc ∧ (s'.ws j).st = (s.ws j).st ∧
      (s'.ws j).task = (s.ws j).task := by
    intro j
    by_cases ej : j = i
    · subst ej; rw [hwi]; exact ⟨rfl, rfl, rfl⟩
    · rw [hws j ej]; exact ⟨rfl, rfl, rfl⟩
  have hpj : ∀ j, pend (s'.ws j) = pend (s.ws j) := fun j => pend_eq (hpcs j).2.1 (hpcs j).1
  refine master_fin hI h hap hout (.inl hsc) hcall hnw ?_ ?_ ?_ ?_ ?_ ?_
    (fun j _ e => by rw [(hpcs j).1]; exact e)
    (fun j _ e => .inl (by rw [(hpcs j).2.2] at e; exact e)) ?_ hact hstart
    ?_ ?_ ?_ (fun j hj e => .inl (hjoin j hj e)) <;> (try rw [hm'])
  · intro b hb; rw [List.mem_singleton] at hb; subst hb; rfl
  · intro b hb _; rw [List.mem_singleton] at hb; subst hb; trivial
  · intro x w src hb; rw [List.mem_singleton] at hb; simp at hb
  · intro x w src hb; rw [List.mem_singleton] at hb; simp at hb
  · intro j _ x w hb; rw [List.mem_singleton] at hb; simp at hb
  · intro x w hb; rw [List.mem_singleton] at hb; simp at hb
  · intro j hj
    by_cases ej : j = i
    · subst ej
      exact .inr ⟨.master, none, .inl ⟨rfl, rfl⟩, .inr ⟨hl, by rw [hwi], by rw [eM]; simp [upd]⟩⟩
    · exact .inl ⟨by rw [hws j ej], by rw [eM]; simp [upd, ej]⟩
  · intro j _ e _ hv; rw [hpj, eC]; exact hv
  · intro hg j hj
    exact hg.shSame hj (h.sh j hj) (by rw [eS]) (hpcs j).2.1 (by rw [(hpcs j).1]; exact id)
  · intro hg pre g t hc
    exact ⟨pre, g, t, hg.chSame hc eC hcnt (fun j hj e => .inl (hpj j ▸ e))
      (fun j hj e => .inl (by rw [(hpcs j).1] at e; exact e)) (fun e => .inl (hq e))⟩

/-- A move in which the master resets the counter. -/
theorem master_reset {foot : ε → List (δ × Bool)} {sc : Script ε} {s s' : State ε}
    {m : Mem δ} {out : Out ε} {n : Nat} {rel : Bool}
    (hI : Inv sc s) (h : MInv foot sc s m)
    (hout : out = .next s') (hsc : mstep sc s = .next s')
    (hcall : s'.call = s.call) (hnw : s'.nw = s.nw) (hcnt : s'.count = n)
    (hws : s'.ws = s.ws) (hpd : ∀ j < s.nw, pend (s.ws j) = 0)
    (hq : quiet s.mpc) (hq' : ¬ quiet s'.mpc)
    (hact : ¬ active s.mpc) (hstart : ∀ j, ¬ started j s.mpc)
    (hjoin : ∀ j < s.nw, joined j s'.mpc → joined j s.mpc) :
    MasterOk foot sc s m [.cLoad 0 false, .cStore n rel] out := by
  generalize hm' : m.acts none [.cLoad 0 false, .cStore n rel] = m'
  have eM : m'.M = m.M := by rw [← hm']; rfl
  have eS : m'.sh = m.sh := by rw [← hm']; rfl
  have eC : m'.ch = ⟨n, none, m'.C none none, if rel then m'.C none else fun _ => 0, false⟩ ::
      m.ch := by rw [← hm']; rfl
  obtain ⟨pre0, g0, t0, hc0⟩ := h.ch
  have hnf : ∀ b ∈ ([.cLoad 0 false, .cStore n rel] : List (Act δ)), b.isFork = false := by
    intro b hb
    simp only [List.mem_cons, List.not_mem_nil, or_false] at hb
    rcases hb with e | e <;> subst e <;> rfl
  have hmono : ∀ u v, m.C u v ≤ m'.C u v := by rw [← hm']; exact acts_mono m none _ hnf
  have hoth : ∀ j, m'.C (some j) = m.C (some j) := by
    intro j; rw [← hm']; exact acts_other m none _ hnf (by simp)
  have hrun : m.run none [.cLoad 0 false, .cStore n rel] = .ok m' := by
    rw [← hm']
    refine run_ok (fun j hj => by simp) (fun b hb => ?_)
    simp only [List.mem_cons, List.not_mem_nil, or_false] at hb
    rcases hb with e | e <;> subst e
    · trivial
    · exact hc0.all hq
  have erecs : m'.recs = m.recs := by rw [← hm']; rfl
  have hlk : ∀ j, LockRel s m s' m' j := fun j => .inl ⟨by rw [hws], by rw [eM]⟩
  have hkn : ∀ {j e}, Kn s m j e → Kn s' m' j e := fun hk => Kn_step hmono (hlk _) hk
  refine .inr ⟨⟨s', m'⟩, ?_, .inl hsc, ?_⟩
  · rw [hout]; simp only [finish, hrun]
  dsimp only
  have hbef : ∀ {e}, Before s m e → Before s' m' e := by
    intro e hb
    refine ⟨K_mono hb.1 (hmono _), fun i hi ht => ?_⟩
    rw [hnw] at hi; rw [hws] at ht
    exact hkn (hb.2 i hi ht)
  constructor
  · intro r hr
    rw [erecs] at hr
    obtain ⟨h1, h2, h3⟩ := h.recs r hr
    refine ⟨K_mono h1 (hmono _), fun i hi => hnw ▸ h2 i hi, ?_⟩
    cases hsrc : r.src with
    | client => simp only [hsrc] at h3; exact ⟨h3.1, hbef h3.2⟩
    | pool =>
      simp only [hsrc, PoolRec] at h3 ⊢
      cases hloc : r.loc with
      | data x => simp [hloc] at h3
      | taskObj x => simp [hloc] at h3
      | member i =>
        simp only [hloc] at h3 ⊢
        exact ⟨hnw ▸ h3.1, h3.2.1, fun hp => hkn (h3.2.2 (by rw [hws] at hp; exact hp))⟩
      | alloc i =>
        simp only [hloc] at h3 ⊢
        exact ⟨hnw ▸ h3.1, h3.2.1, fun ht hp =>
          K_mono (h3.2.2 ht (by rw [hws] at hp; exact hp)) (hmono _)⟩
      | obj i =>
        simp only [hloc] at h3 ⊢
        exact ⟨hnw ▸ h3.1, h3.2.1, fun ht hp =>
          K_mono (h3.2.2 ht (by rw [hws] at hp; exact hp)) (hmono _)⟩
      | pool =>
        simp only [hloc] at h3 ⊢
        refine ⟨fun ht i hi hp => ?_, h3.2⟩
        rw [hnw] at hi; rw [hws] at hp
        exact K_mono (h3.1 ht i hi hp) (hmono _)
    | task k =>
      simp only [hsrc] at h3
      refine ⟨h3.1, .inl ?_⟩
      rw [hcall]
      rcases h3.2 with ⟨hc, hb⟩ | ⟨hc, ⟨_, ha, _⟩ | ⟨_, hs, _⟩⟩
      · exact ⟨hc, hbef hb⟩
      · exact absurd ha hact
      · exact absurd hs (hstart _)
  · intro j hj
    rw [hnw] at hj
    obtain ⟨h1, h2, h3⟩ := h.sh j hj
    refine ⟨by rw [eS, hws]; exact h1, fun x hx => hkn (h2 x (by rw [eS] at hx; exact hx)), ?_⟩
    rw [hws]
    intro hp
    unfold OwnReady
    rw [eS, hoth]
    exact h3 hp
  · refine ⟨[], _, m.ch, eC, rfl, Nat.le_refl _, by intro k x hk; simp at hk, by rw [hcnt]; rfl,
      ?_, ?_, ?_, fun hq'' => absurd hq'' hq'⟩
    · intro i hi hp
      rw [hnw] at hi
      rw [hws, hpd i hi] at hp
      simp at hp
    · intro i hi hp
      exfalso
      rw [hnw] at hi
      rw [hws] at hp
      have hok := hI.wok i hi
      unfold WOk at hok
      rw [hp] at hok
      have := hpd i hi
      simp [pend, hp, hok.2.2] at this
    · intro x hx
      rw [eC] at hx
      rcases List.mem_cons.1 hx with e | hx
      · subst e
        exact Nat.le_max_right _ _
      · exact Nat.le_trans (K_mono (hc0.all hq x hx) (hmono _)) (Nat.le_max_right _ _)
  · intro j hj hjn
    rw [hnw] at hj
    rw [hoth]
    exact Nat.le_trans (h.joined j hj (hjoin j hj hjn)) (hmono none (some j))
  · intro j hj t
    rw [hnw] at hj
    rw [hoth]
    exact h.fresh j hj t

end Gemmlowp.Weak
