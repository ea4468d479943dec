import Verif.WeakStep
import Verif.PropsPool
/-!
# The pool under the C++ memory model: what happens when the newest stores are read
-/
namespace Gemmlowp.Weak

open Pool

variable {ε δ : Type}

/-- How many messages there are. -/
def Mem.len (m : Mem δ) : Option Nat → Nat
  | none => m.ch.length
  | some i => (m.sh i).length

/-- Nobody has read a message that does not exist. -/
def PosOk (m : Mem δ) : Prop := ∀ t x, m.pos t x ≤ m.len x

theorem posOk_act {m : Mem δ} (h : PosOk m) (t : Tid) (b : Act δ) : PosOk (m.act t b) := by
  have hsee : ∀ (u : Tid) (y : Option Nat) (n : Nat) (x : Option Nat) (t' : Tid),
      upd m.pos u (upd (m.pos u) y n) t' x ≤ if x = y then max n (m.len x) else m.len x := by
    intro u y n x t'
    have h1 := h t' x
    have h2 := h u x
    by_cases e1 : t' = u <;> by_cases e2 : x = y <;> simp only [upd, e1, e2, if_true, if_false] <;>
      subst_vars <;> omega
  cases b with
  | stLoad i k acq =>
    intro t' x
    refine Nat.le_trans (hsee t (some i) ((m.sh i).length - k) x t') ?_
    split
    · next e => subst e; show max _ (m.sh i).length ≤ (m.sh i).length; omega
    · exact Nat.le_refl _
  | cLoad k acq =>
    intro t' x
    refine Nat.le_trans (hsee t none (m.ch.length - k) x t') ?_
    split
    · next e => subst e; show max _ m.ch.length ≤ m.ch.length; omega
    · exact Nat.le_refl _
  | stStore i v =>
    intro t' x
    refine Nat.le_trans (hsee t (some i) ((m.sh i).length + 1) x t') ?_
    cases x with
    | none => exact Nat.le_refl _
    | some j =>
      by_cases e : j = i
      · subst e
        simp [Mem.act, Mem.eff, Mem.len, Mem.tick, Mem.see, upd]
      · simp [Mem.act, Mem.eff, Mem.len, Mem.tick, Mem.see, upd, e]
  | cStore v rel =>
    intro t' x
    refine Nat.le_trans (hsee t none (m.ch.length + 1) x t') ?_
    cases x with
    | none => simp [Mem.act, Mem.eff, Mem.len, Mem.tick, Mem.see]
    | some j => exact Nat.le_refl _
  | cDec k acq rel =>
    intro t' x
    refine Nat.le_trans (hsee t none (m.ch.length + 1) x t') ?_
    cases x with
    | none => simp [Mem.act, Mem.eff, Mem.len, Mem.tick, Mem.see, Mem.learn]
    | some j => exact Nat.le_refl _
  | fork i =>
    intro t' x
    have h1 := h t' x
    simp only [Mem.act, Mem.eff, Mem.len, Mem.tick] at h1 ⊢
    split
    · exact Nat.zero_le _
    · next e =>
      cases x with
      | none => exact h1
      | some j =>
        have e' : j ≠ i := fun q => e (by rw [q])
        simp only [upd, if_neg e']
        exact h1
  | _ => exact h

variable [DecidableEq δ]

theorem posOk_run {m m' : Mem δ} (h : PosOk m) {t : Tid} {l : List (Act δ)}
    (hr : m.run t l = .ok m') : PosOk m' := by
  induction l generalizing m with
  | nil => simp only [Mem.run, Except.ok.injEq] at hr; rw [← hr]; exact h
  | cons b l ih =>
    simp only [Mem.run] at hr
    split at hr
    · simp at hr
    · exact ih (posOk_act h t b) hr

theorem posOk_finish {m : Mem δ} (h : PosOk m) {t : Tid} {l : List (Act δ)} {out : Out ε}
    {a' : WState ε δ} (hr : finish m t l out = .next a') : PosOk a'.m := by
  cases out <;> simp only [finish] at hr
  · simp at hr
  · simp at hr
  · split at hr
    · simp at hr
    · next hm => simp only [WOut.next.injEq] at hr; rw [← hr]; exact posOk_run h hm

theorem posOk_reachable {o : Orders} {foot : ε → List (δ × Bool)} {sc : Script ε} {a : WState ε δ}
    (h : Reachable o foot sc a) : PosOk a.m := by
  induction h with
  | init =>
    intro t x
    cases x <;> cases t <;> simp [initial, Mem.len]
  | step c _ hs ih =>
    cases c <;> simp only [step] at hs
    all_goals first
      | exact posOk_finish ih hs
      | (split at hs
         · exact posOk_finish ih hs
         · simp at hs)

omit [DecidableEq δ] in
theorem newest_visible {α : Type} (c : Clock) {h : List (Msg α)} (hh : h ≠ []) :
    visible c h 0 = true := by
  cases h with
  | nil => exact absurd rfl hh
  | cons g t => simp [visible]

omit [DecidableEq δ] in
/-- The newest message can always be read. -/
theorem newest_readable {foot : ε → List (δ × Bool)} {sc : Script ε} {s : State ε} {m : Mem δ}
    (h : MInv foot sc s m) (hp : PosOk m) (t : Tid) (ld : Load)
    (hld : ∀ i, ld = .state i → i < s.nw) :
    m.readable t 0 ld = true ∧ m.coherent t 0 ld = true := by
  have hch : m.ch ≠ [] := by
    obtain ⟨pre, g, t', hc⟩ := h.ch
    rw [hc.eq]; simp
  have h1 := hp t none
  cases ld with
  | nothing => exact ⟨rfl, rfl⟩
  | state i =>
    have hi := hld i rfl
    obtain ⟨⟨g, t', hg, _⟩, _, _⟩ := h.sh i hi
    have h2 := hp t (some i)
    refine ⟨newest_visible _ (by rw [hg]; simp), ?_⟩
    simp only [Mem.coherent, decide_eq_true_eq]
    simp only [Mem.len] at h2
    omega
  | count =>
    refine ⟨newest_visible _ hch, ?_⟩
    simp only [Mem.coherent, decide_eq_true_eq]
    simp only [Mem.len] at h1
    omega
  | rmw =>
    refine ⟨?_, ?_⟩
    · simp [Mem.readable, newest_visible _ hch]
    · simp only [Mem.coherent, decide_eq_true_eq]
      simp only [Mem.len] at h1
      omega

omit [DecidableEq δ] in
theorem newest_count {foot : ε → List (δ × Bool)} {sc : Script ε} {s : State ε} {m : Mem δ}
    (h : MInv foot sc s m) : valAt 0 m.ch 0 = s.count := by
  have hch : m.ch ≠ [] := by
    obtain ⟨pre, g, t', hc⟩ := h.ch
    rw [hc.eq]; simp
  have := count_load h (k := 0) (newest_visible _ hch)
  simpa using this

omit [DecidableEq δ] in
theorem newest_state {foot : ε → List (δ × Bool)} {sc : Script ε} {s : State ε} {m : Mem δ}
    (h : MInv foot sc s m) {i : Nat} (hi : i < s.nw) : valAt .ready (m.sh i) 0 = (s.ws i).st := by
  obtain ⟨⟨g, t', hg, hv⟩, _, _⟩ := h.sh i hi
  simp [valAt, hg, hv]

/-- A thread that reads the newest messages does what it does under sequential consistency. -/
theorem newest_master {o : Orders} {foot : ε → List (δ × Bool)} {sc : Script ε} {a : WState ε δ}
    (hI : Inv sc a.s) (h : MInv foot sc a.s a.m) (hp : PosOk a.m) :
    step o foot sc a (.master 0) = finish a.m none (macts o foot sc a.s 0) (mstep sc a.s) := by
  have hph := hI.phase
  have hld : ∀ i, mload a.s.mpc = .state i → i < a.s.nw := by
    intro i
    cases hm : a.s.mpc <;> simp only [mload, reduceCtorEq, Load.state.injEq, false_imp_iff] <;>
      intro e <;> subst e <;> simp only [Phase, hm] at hph <;> omega
  have hr := newest_readable h hp none (mload a.s.mpc) hld
  simp only [step]
  rw [if_pos hr, newest_count h]
  congr 1
  unfold mstepL mstep
  dsimp only
  cases hm : a.s.mpc with
  | swSet i =>
    have hi := hld i (by rw [hm]; rfl)
    simp only [mstate, newest_state h hi]
    cases (a.s.ws i).st <;> rfl
  | dSet i =>
    have hi := hld i (by rw [hm]; rfl)
    simp only [mstate, newest_state h hi]
    cases (a.s.ws i).st <;> rfl
  | run es => cases es <;> rfl
  | _ => rfl

theorem newest_worker {o : Orders} {foot : ε → List (δ × Bool)} {sc : Script ε} {a : WState ε δ}
    (h : MInv foot sc a.s a.m) (hp : PosOk a.m) {i : Nat} (hi : i < a.s.nw) :
    step o foot sc a (.worker i 0) =
      finish a.m (some i) (wacts o foot a.s i 0 (a.s.ws i).st) (Pool.step sc a.s (.worker i)) := by
  have hld : ∀ j, wload i (a.s.ws i).pc = .state j → j < a.s.nw := by
    intro j
    cases (a.s.ws i).pc <;> simp only [wload, reduceCtorEq, Load.state.injEq, false_imp_iff] <;>
      intro e <;> omega
  have hr := newest_readable h hp (some i) (wload i (a.s.ws i).pc) hld
  simp only [step, Pool.step]
  rw [if_pos ⟨hi, hr⟩, if_pos hi, newest_count h, newest_state h hi, wstepL_eq]

end Gemmlowp.Weak
