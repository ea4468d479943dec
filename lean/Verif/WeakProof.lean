import Verif.WeakPool
import Verif.PoolProof4
/-!
# The pool under the C++ memory model: actions on memory
-/
namespace Gemmlowp.Weak

open Pool

section
variable {ε δ : Type}

/-- The epoch is known to clock `c`. -/
def K (c : Clock) (e : Tid × Nat) : Prop := e.2 ≤ c e.1

/-- When an access happened. -/
def Rec.ep (r : Rec δ) : Tid × Nat := (r.tid, r.clk)

/-- When a store happened. -/
def Msg.ep {α : Type} (g : Msg α) : Tid × Nat := (g.tid, g.clk)

theorem K_mono {c d : Clock} {e : Tid × Nat} (h : K c e) (hcd : ∀ t, c t ≤ d t) : K d e :=
  Nat.le_trans h (hcd _)

/-- Several actions of thread `t`, without checks. -/
def Mem.acts (m : Mem δ) (t : Tid) (l : List (Act δ)) : Mem δ := l.foldl (fun m b => m.act t b) m

@[simp] theorem acts_nil (m : Mem δ) (t : Tid) : m.acts t [] = m := rfl

@[simp] theorem acts_cons (m : Mem δ) (t : Tid) (b : Act δ) (l : List (Act δ)) :
    m.acts t (b :: l) = (m.act t b).acts t l := rfl

theorem acts_append (m : Mem δ) (t : Tid) (l l' : List (Act δ)) :
    m.acts t (l ++ l') = (m.acts t l).acts t l' := by simp [Mem.acts, List.foldl_append]

/-- Creates a thread. -/
def Act.isFork : Act δ → Bool
  | .fork _ => true
  | _ => false

/-- Changes what is known when a mutex is locked. -/
def Act.touchM : Act δ → Bool
  | .fork _ | .unlock _ => true
  | _ => false

/-- Changes the messages of a `state_`. -/
def Act.touchS : Act δ → Bool
  | .fork _ | .stStore _ _ => true
  | _ => false

/-- Changes the messages of `count_`. -/
def Act.touchC : Act δ → Bool
  | .cStore _ _ | .cDec _ _ _ => true
  | _ => false

@[simp] theorem see_C (m : Mem δ) (t : Tid) (x : Option Nat) (n : Nat) : (m.see t x n).C = m.C := rfl
@[simp] theorem see_M (m : Mem δ) (t : Tid) (x : Option Nat) (n : Nat) : (m.see t x n).M = m.M := rfl
@[simp] theorem see_sh (m : Mem δ) (t : Tid) (x : Option Nat) (n : Nat) :
    (m.see t x n).sh = m.sh := rfl
@[simp] theorem see_ch (m : Mem δ) (t : Tid) (x : Option Nat) (n : Nat) :
    (m.see t x n).ch = m.ch := rfl
@[simp] theorem see_recs (m : Mem δ) (t : Tid) (x : Option Nat) (n : Nat) :
    (m.see t x n).recs = m.recs := rfl

theorem tick_C (m : Mem δ) (t u v : Tid) :
    (m.tick t).C u v = if u = t ∧ v = t then m.C t t + 1 else m.C u v := by
  simp only [Mem.tick, upd]
  by_cases h : u = t
  · subst h
    by_cases h' : v = u <;> simp [upd, h']
  · simp [h]

theorem learn_C (m : Mem δ) (t u v : Tid) (c : Clock) :
    (m.learn t c).C u v = if u = t then max (m.C t v) (c v) else m.C u v := by
  simp only [Mem.learn, upd]
  by_cases h : u = t
  · subst h; simp [join]
  · simp [h]

theorem eff_mono (m : Mem δ) (t : Tid) (b : Act δ) (hb : b.isFork = false) (u v : Tid) :
    m.C u v ≤ (m.eff t b).C u v := by
  cases b <;> simp only [Mem.eff, see_C, learn_C, Act.isFork] at * <;> first
    | exact Nat.le_refl _
    | contradiction
    | (split
       · next h => subst h; exact Nat.le_max_left _ _
       · exact Nat.le_refl _)

theorem act_mono (m : Mem δ) (t : Tid) (b : Act δ) (hb : b.isFork = false) (u v : Tid) :
    m.C u v ≤ (m.act t b).C u v := by
  refine Nat.le_trans ?_ (eff_mono _ t b hb u v)
  rw [tick_C]
  split
  · next h => rw [h.1, h.2]; omega
  · exact Nat.le_refl _

/-- The acting thread only learns, whatever it does (it does not create itself). -/
theorem eff_mono_self (m : Mem δ) (t : Tid) (b : Act δ) (hb : ∀ i, b = .fork i → t ≠ some i)
    (v : Tid) : m.C t v ≤ (m.eff t b).C t v := by
  by_cases h : b.isFork = false
  · exact eff_mono m t b h t v
  · cases b <;> simp only [Act.isFork, not_true_eq_false] at h
    next i =>
      simp only [Mem.eff, upd, if_neg (hb i rfl)]
      exact Nat.le_refl _

theorem act_mono_self (m : Mem δ) (t : Tid) (b : Act δ) (hb : ∀ i, b = .fork i → t ≠ some i)
    (v : Tid) : m.C t v ≤ (m.act t b).C t v := by
  refine Nat.le_trans ?_ (eff_mono_self _ t b hb v)
  rw [tick_C]
  split
  · next h => rw [h.2]; omega
  · exact Nat.le_refl _

theorem act_other (m : Mem δ) (t : Tid) (b : Act δ) (hb : b.isFork = false) {u : Tid} (hu : u ≠ t) :
    (m.act t b).C u = m.C u := by
  funext v
  cases b <;> simp only [Mem.act, Mem.eff, see_C, learn_C, tick_C, Act.isFork] at * <;>
    simp_all

theorem act_recs (m : Mem δ) (t : Tid) (b : Act δ) (hb : ∀ i, b = .fork i → t ≠ some i) {r : Rec δ}
    (hr : r ∈ (m.act t b).recs) :
    r ∈ m.recs ∨ (r.tid = t ∧ r.clk ≤ (m.act t b).C t t ∧ b = .acc r.loc r.wr r.src) := by
  cases b <;> simp only [Mem.act, Mem.eff, Mem.tick, Mem.learn] at hr ⊢ <;> try exact .inl hr
  rcases List.mem_cons.1 hr with e | e
  · exact .inr (by subst e; simp)
  · exact .inl e

theorem act_M (m : Mem δ) (t : Tid) (b : Act δ) (hb : b.touchM = false) : (m.act t b).M = m.M := by
  cases b <;> simp_all [Mem.act, Mem.eff, Mem.tick, Mem.learn, Act.touchM]

theorem act_sh (m : Mem δ) (t : Tid) (b : Act δ) (hb : b.touchS = false) :
    (m.act t b).sh = m.sh := by
  cases b <;> simp_all [Mem.act, Mem.eff, Mem.tick, Mem.learn, Act.touchS]

theorem act_ch (m : Mem δ) (t : Tid) (b : Act δ) (hb : b.touchC = false) :
    (m.act t b).ch = m.ch := by
  cases b <;> simp_all [Mem.act, Mem.eff, Mem.tick, Mem.learn, Act.touchC]

theorem acts_mono (m : Mem δ) (t : Tid) (l : List (Act δ)) (hl : ∀ b ∈ l, b.isFork = false)
    (u v : Tid) : m.C u v ≤ (m.acts t l).C u v := by
  induction l generalizing m with
  | nil => exact Nat.le_refl _
  | cons b l ih =>
    exact Nat.le_trans (act_mono m t b (hl b (by simp)) u v)
      (ih _ (fun b' h => hl b' (by simp [h])))

theorem acts_other (m : Mem δ) (t : Tid) (l : List (Act δ)) (hl : ∀ b ∈ l, b.isFork = false)
    {u : Tid} (hu : u ≠ t) : (m.acts t l).C u = m.C u := by
  induction l generalizing m with
  | nil => rfl
  | cons b l ih =>
    rw [acts_cons, ih _ (fun b' h => hl b' (by simp [h])), act_other m t b (hl b (by simp)) hu]

theorem acts_M (m : Mem δ) (t : Tid) (l : List (Act δ)) (hl : ∀ b ∈ l, b.touchM = false) :
    (m.acts t l).M = m.M := by
  induction l generalizing m with
  | nil => rfl
  | cons b l ih =>
    rw [acts_cons, ih _ (fun b' h => hl b' (by simp [h])), act_M m t b (hl b (by simp))]

theorem acts_sh (m : Mem δ) (t : Tid) (l : List (Act δ)) (hl : ∀ b ∈ l, b.touchS = false) :
    (m.acts t l).sh = m.sh := by
  induction l generalizing m with
  | nil => rfl
  | cons b l ih =>
    rw [acts_cons, ih _ (fun b' h => hl b' (by simp [h])), act_sh m t b (hl b (by simp))]

theorem acts_ch (m : Mem δ) (t : Tid) (l : List (Act δ)) (hl : ∀ b ∈ l, b.touchC = false) :
    (m.acts t l).ch = m.ch := by
  induction l generalizing m with
  | nil => rfl
  | cons b l ih =>
    rw [acts_cons, ih _ (fun b' h => hl b' (by simp [h])), act_ch m t b (hl b (by simp))]

/-- An access recorded by a sequence of actions was there before, or is one of the actions. -/
theorem acts_recs (m : Mem δ) (t : Tid) (l : List (Act δ)) (hl : ∀ b ∈ l, b.isFork = false)
    {r : Rec δ} (hr : r ∈ (m.acts t l).recs) :
    r ∈ m.recs ∨
      (r.tid = t ∧ r.clk ≤ (m.acts t l).C t t ∧ Act.acc r.loc r.wr r.src ∈ l) := by
  induction l generalizing m with
  | nil => exact .inl hr
  | cons b l ih =>
    rw [acts_cons] at hr ⊢
    rcases ih _ (fun b' h => hl b' (by simp [h])) hr with h | ⟨h1, h2, h3⟩
    · rcases act_recs m t b (by intro i e; rw [e] at hl; simp [Act.isFork] at hl) h with
        h | ⟨h1, h2, h3⟩
      · exact .inl h
      · refine .inr ⟨h1, Nat.le_trans h2 (acts_mono _ t l (fun b' h => hl b' (by simp [h])) _ _), ?_⟩
        rw [h3]; simp
    · exact .inr ⟨h1, h2, by simp [h3]⟩

/-- The action is no race and its place is determined. -/
def SafeAct (m : Mem δ) (t : Tid) : Act δ → Prop
  | .acc x w _ => ∀ r ∈ m.recs, r.loc = x → (w = true ∨ r.wr = true) → K (m.C t) r.ep
  | .stStore i _ => ∀ g ∈ m.sh i, K (m.C t) g.ep
  | .cStore _ _ => ∀ g ∈ m.ch, K (m.C t) g.ep
  | .cDec k _ _ => k = 0
  | _ => True

variable [DecidableEq δ]

theorem bad_none {m : Mem δ} {t : Tid} {b : Act δ} (h : SafeAct m t b) : m.bad t b = none := by
  cases b <;> simp only [Mem.bad, SafeAct] at * <;> try rfl
  · rw [if_neg]
    simp only [racy, List.any_eq_true, Bool.and_eq_true, Bool.or_eq_true, decide_eq_true_eq,
      not_exists, not_and]
    intro r hr hx
    have := h r hr hx.1 hx.2
    simp only [K, Rec.ep] at this
    omega
  · rw [if_neg]
    simp only [unknown, List.any_eq_true, decide_eq_true_eq, not_exists, not_and]
    intro g hg
    have := h g (List.mem_of_mem_take hg)
    simp only [K, Msg.ep] at this
    omega
  · rw [if_neg]
    simp only [unknown, List.any_eq_true, decide_eq_true_eq, not_exists, not_and]
    intro g hg
    have := h g (List.mem_of_mem_take hg)
    simp only [K, Msg.ep] at this
    omega
  · simp [h]

omit [DecidableEq δ] in
theorem tick_self (m : Mem δ) (t : Tid) : (m.tick t).C t t = m.C t t + 1 := by simp [tick_C]

omit [DecidableEq δ] in
/-- What is safe stays safe while the thread acts. -/
theorem safe_act {m : Mem δ} {t : Tid} {b0 b : Act δ} (hb0 : ∀ i, b0 = .fork i → t ≠ some i)
    (h : SafeAct m t b) : SafeAct (m.act t b0) t b := by
  have hm := act_mono_self m t b0 hb0
  have hmono : ∀ {e}, K (m.C t) e → K ((m.act t b0).C t) e := fun h => K_mono h hm
  cases b <;> simp only [SafeAct] at * <;> try trivial
  · intro r hr hx hw
    rcases act_recs m t b0 hb0 hr with h' | ⟨h1, h2, _⟩
    · exact hmono (h r h' hx hw)
    · simp only [K, Rec.ep, h1]; exact h2
  · next i _ =>
    intro g hg
    cases b0 <;> simp only [Mem.act, Mem.eff, Mem.learn, Mem.tick] at hg
    case stStore j v =>
      by_cases hj : i = j
      · subst hj
        simp only [upd, if_true, List.mem_cons] at hg
        rcases hg with e | hg
        · subst e; simp [K, Msg.ep, Mem.act, Mem.eff, Mem.tick, upd]
        · exact hmono (h g hg)
      · simp only [upd, if_neg hj] at hg; exact hmono (h g hg)
    case fork j =>
      by_cases hj : i = j
      · subst hj
        simp only [upd, if_true, List.mem_cons, List.not_mem_nil, or_false] at hg
        subst hg
        have := hb0 i rfl
        simp [K, Msg.ep, Mem.act, Mem.eff, Mem.tick, upd, this]
      · simp only [upd, if_neg hj] at hg; exact hmono (h g hg)
    all_goals exact hmono (h g hg)
  · intro g hg
    cases b0 <;> simp only [Mem.act, Mem.eff, Mem.learn, Mem.tick] at hg
    case cStore v rel =>
      rcases List.mem_cons.1 hg with e | hg
      · subst e; simp [K, Msg.ep, Mem.act, Mem.eff, Mem.tick, upd]
      · exact hmono (h g hg)
    case cDec k acq rel =>
      rcases List.mem_cons.1 hg with e | hg
      · subst e; simp [K, Msg.ep, Mem.act, Mem.eff, Mem.tick, Mem.learn, upd]
      · exact hmono (h g hg)
    all_goals exact hmono (h g hg)

/-- Actions that are all safe at the start are carried out. -/
theorem run_ok {m : Mem δ} {t : Tid} {l : List (Act δ)}
    (hf : ∀ i, Act.fork i ∈ l → t ≠ some i) (h : ∀ b ∈ l, SafeAct m t b) :
    m.run t l = .ok (m.acts t l) := by
  induction l generalizing m with
  | nil => rfl
  | cons b l ih =>
    simp only [Mem.run, bad_none (h b (by simp)), acts_cons]
    refine ih (fun i hi => hf i (by simp [hi])) (fun b' hb' => ?_)
    exact safe_act (fun i e => hf i (by simp [e])) (h b' (by simp [hb']))

omit [DecidableEq δ] in
theorem wstepL_eq (s : State ε) (i : Nat) : wstepL s i (s.ws i).st s.count = wstep s i := by
  unfold wstepL wstep
  rfl

end

end Gemmlowp.Weak
