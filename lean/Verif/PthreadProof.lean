import Verif.PthreadSpec
/-!
# The Windows functions refine the pthread functions
-/
namespace Gemmlowp
namespace Shim
variable {n : Nat}

@[simp] theorem upd_same {α β : Type} [DecidableEq α] (f : α → β) (i : α) (x : β) : upd f i x i = x := if_pos rfl
theorem upd_ne {α β : Type} [DecidableEq α] (f : α → β) {i j : α} (x : β) (h : j ≠ i) : upd f i x j = f j := if_neg h

/-- What is visible of two steps agrees; nothing is claimed of undefined calls. -/
def Sim (r : Res (St n)) : Res (Sp n) → Prop
  | .fault => True
  | .blocked => r = .blocked
  | .ok a => ∃ s, r = .ok s ∧ Rel s a

/-- The place of a thread in a wait stays right if what it refers to stays. -/
theorem matches_of {s s' : St n} {a a' : Sp n} {t : Fin n} {x : Pc} {y : SPc} (h : x.matches s a t y)
    (hm : ∀ m, (a.mutex m).isSome = true → y.usesMutex m = true ∨ a.mutex m = some (some t) →
      s'.mptr m = s.mptr m ∧ (a'.mutex m).isSome = true)
    (ho : ∀ m, a.mutex m = some (some t) → a'.mutex m = some (some t))
    (hn : ∀ m, y.usesMutex m = true → a'.mutex m = some (some t) → a.mutex m = some (some t))
    (hc : ∀ c, y.usesCond c = true → a.cond c = true → s'.cptr c = s.cptr c ∧ a'.cond c = true) :
    x.matches s' a' t y := by
  cases x <;> cases y <;> simp only [Pc.matches] at h ⊢
  · obtain ⟨rfl, rfl, h1, h2, h3, h4⟩ := h
    rename_i c m
    have := hm m (by rw [h2]; rfl) (.inr h2)
    exact ⟨rfl, rfl, (hc c (by simp [SPc.usesCond]) h1).2, ho _ h2, h3, by rw [h4, this.1]⟩
  · obtain ⟨rfl, rfl, h1, h2, h6, h3, h4, h5⟩ := h
    rename_i c m
    have := hm m h2 (.inl (by simp [SPc.usesMutex]))
    have k := hc c (by simp [SPc.usesCond]) h1
    exact ⟨rfl, rfl, k.2, this.2, fun x => h6 (hn m (by simp [SPc.usesMutex]) x), by rw [k.1, h3], h4,
      by rw [h5, this.1]⟩
  · obtain ⟨rfl, h2, h6, h4, h5⟩ := h
    rename_i m
    have := hm m h2 (.inl (by simp [SPc.usesMutex]))
    exact ⟨rfl, this.2, fun x => h6 (hn m (by simp [SPc.usesMutex]) x), h4, by rw [h5, this.1]⟩
  · obtain ⟨h2, h3, h4⟩ := h
    have := hm _ (by rw [h2]; rfl) (.inr h2)
    exact ⟨ho _ h2, h3, by rw [h4, this.1]⟩
  · exact ⟨ho _ h.1, h.2⟩

theorem Rel.mutex_lt {s : St n} {a : Sp n} (h : Rel s a) {p : Nat} {o : Option (Fin n)} (hp : s.mheap p = .live o) :
    p < s.mnext := by
  rcases Nat.lt_or_ge p s.mnext with h1 | h1
  · exact h1
  · rw [h.mutex_next p h1] at hp; cases hp

theorem Rel.cond_lt {s : St n} {a : Sp n} (h : Rel s a) {p : Nat} (hp : s.cheap p = .live) : p < s.cnext := by
  rcases Nat.lt_or_ge p s.cnext with h1 | h1
  · exact h1
  · rw [h.cond_next p h1] at hp; cases hp

theorem Rel.thread_lt {s : St n} {a : Sp n} (h : Rel s a) {p : Nat} {x} (hp : s.theap p = some x) : p < s.tnext := by
  rcases Nat.lt_or_ge p s.tnext with h1 | h1
  · exact h1
  · rw [(h.thread_next p).2 h1] at hp; cases hp

theorem mutexInit_rel {s : St n} {a : Sp n} (h : Rel s a) {v : Nat} (hv : a.mutex v = none) :
    Rel { s with mheap := upd s.mheap s.mnext (.live none), mptr := upd s.mptr v (some s.mnext)
                 mnext := s.mnext + 1 } { a with mutex := upd a.mutex v (some none) } := by
  have old : ∀ w o, a.mutex w = some o → w ≠ v := by rintro w o hw rfl; rw [hv] at hw; cases hw
  have old' : ∀ w, (a.mutex w).isSome = true → w ≠ v := by rintro w hw rfl; rw [hv] at hw; cases hw
  have oldp : ∀ w p, (a.mutex w).isSome = true → s.mptr w = some p → p ≠ s.mnext := by
    intro w p hw hp
    obtain ⟨o, ho⟩ := Option.isSome_iff_exists.1 hw
    obtain ⟨q, h1, h2⟩ := h.mutex w o ho
    rw [hp] at h1; cases h1
    exact Nat.ne_of_lt (h.mutex_lt h2)
  refine ⟨?_, ?_, ?_, ?_, h.cond, h.cond_inj, h.cond_kept, h.cond_next, h.thread, h.thread_inj, h.thread_next, ?_,
    h.life⟩
  · intro w o hw
    dsimp only at hw ⊢
    by_cases e : w = v
    · subst e
      rw [upd_same] at hw; cases hw
      exact ⟨s.mnext, upd_same _ _ _, upd_same _ _ _⟩
    · rw [upd_ne _ _ e] at hw ⊢
      obtain ⟨p, h1, h2⟩ := h.mutex w o hw
      exact ⟨p, h1, by rw [upd_ne _ _ (Nat.ne_of_lt (h.mutex_lt h2))]; exact h2⟩
  · intro w w' p h1 h2 h3 h4
    dsimp only at h1 h2 h3 h4
    by_cases e : w = v <;> by_cases e' : w' = v
    · rw [e, e']
    · subst e
      rw [upd_same] at h3; cases h3
      rw [upd_ne _ _ e'] at h2 h4
      exact absurd rfl (oldp _ _ h2 h4)
    · subst e'
      rw [upd_same] at h4; cases h4
      rw [upd_ne _ _ e] at h1 h3
      exact absurd rfl (oldp _ _ h1 h3)
    · rw [upd_ne _ _ e] at h1 h3
      rw [upd_ne _ _ e'] at h2 h4
      exact h.mutex_inj w w' p h1 h2 h3 h4
  · intro p o hp
    dsimp only at hp ⊢
    by_cases e : p = s.mnext
    · exact ⟨v, by rw [upd_same]; rfl, by rw [upd_same, e]⟩
    · rw [upd_ne _ _ e] at hp
      obtain ⟨w, h1, h2⟩ := h.mutex_kept p o hp
      exact ⟨w, by rw [upd_ne _ _ (old' w h1)]; exact h1, by rw [upd_ne _ _ (old' w h1)]; exact h2⟩
  · intro p hp
    dsimp only at hp ⊢
    rw [upd_ne _ _ (by omega)]
    exact h.mutex_next p (by omega)
  · intro t
    refine matches_of (h.pc t) ?_ ?_ ?_ (fun c _ hc => ⟨rfl, hc⟩)
    · intro m h1 _
      exact ⟨upd_ne _ _ (old' m h1), by dsimp only; rw [upd_ne _ _ (old' m h1)]; exact h1⟩
    · intro m h1
      dsimp only
      rw [upd_ne _ _ (old _ _ h1)]; exact h1
    · intro m _ h1
      dsimp only at h1
      by_cases e : m = v
      · subst e; rw [upd_same] at h1; cases h1
      · rw [upd_ne _ _ e] at h1; exact h1

/-- The owner of a mutex changes. -/
theorem owner_rel {s : St n} {a : Sp n} (h : Rel s a) {v p : Nat} {o o' : Option (Fin n)} (hv : a.mutex v = some o)
    (hp : s.mptr v = some p) {pcs : Fin n → Pc} {spcs : Fin n → SPc}
    (hpc : ∀ t, (pcs t).matches { s with mheap := upd s.mheap p (.live o'), pc := pcs }
      { a with mutex := upd a.mutex v (some o'), pc := spcs } t (spcs t)) :
    Rel { s with mheap := upd s.mheap p (.live o'), pc := pcs }
      { a with mutex := upd a.mutex v (some o'), pc := spcs } := by
  have hv' : (a.mutex v).isSome = true := by rw [hv]; rfl
  have hh : s.mheap p = .live o := by
    obtain ⟨q, h1, h2⟩ := h.mutex v o hv
    rw [hp] at h1; cases h1; exact h2
  have iso : ∀ w, ((upd a.mutex v (some o')) w).isSome = (a.mutex w).isSome := by
    intro w
    by_cases e : w = v
    · subst e; rw [upd_same, hv']; rfl
    · rw [upd_ne _ _ e]
  refine ⟨?_, ?_, ?_, ?_, h.cond, h.cond_inj, h.cond_kept, h.cond_next, h.thread, h.thread_inj, h.thread_next, hpc,
    h.life⟩
  · intro w u hw
    dsimp only at hw ⊢
    by_cases e : w = v
    · subst e
      rw [upd_same] at hw; cases hw
      exact ⟨p, hp, upd_same _ _ _⟩
    · rw [upd_ne _ _ e] at hw
      obtain ⟨q, h1, h2⟩ := h.mutex w u hw
      refine ⟨q, h1, ?_⟩
      rw [upd_ne _ _ ?_]
      · exact h2
      · rintro rfl
        exact e (h.mutex_inj w v q (by rw [hw]; rfl) hv' h1 hp)
  · intro w w' q h1 h2 h3 h4
    dsimp only at h1 h2 h3 h4
    rw [iso] at h1 h2
    exact h.mutex_inj w w' q h1 h2 h3 h4
  · intro q u hq
    dsimp only at hq ⊢
    by_cases e : q = p
    · exact ⟨v, by rw [iso]; exact hv', by rw [e]; exact hp⟩
    · rw [upd_ne _ _ e] at hq
      obtain ⟨w, h1, h2⟩ := h.mutex_kept q u hq
      exact ⟨w, by rw [iso]; exact h1, h2⟩
  · intro q hq
    dsimp only at hq ⊢
    rw [upd_ne _ _ ?_]
    · exact h.mutex_next q hq
    · rintro rfl
      rw [h.mutex_next q hq] at hh; cases hh

/-- The other threads do not notice that the owner changes if they are not the owner. -/
theorem owner_pc {s : St n} {a : Sp n} {t : Fin n} {v p : Nat} {o o' : Option (Fin n)}
    {pcs : Fin n → Pc} {spcs : Fin n → SPc} {x : Pc} {y : SPc}
    (h : x.matches s a t y) (hv : a.mutex v = some o) (ho : o ≠ some t) (ho' : o' ≠ some t) :
    x.matches { s with mheap := upd s.mheap p (.live o'), pc := pcs }
      { a with mutex := upd a.mutex v (some o'), pc := spcs } t y := by
  refine matches_of h ?_ ?_ ?_ (fun c _ hc => ⟨rfl, hc⟩)
  · intro m h1 _
    refine ⟨rfl, ?_⟩
    dsimp only
    by_cases e : m = v
    · subst e; rw [upd_same]; rfl
    · rw [upd_ne _ _ e]; exact h1
  · intro m h1
    dsimp only
    rw [upd_ne _ _ ?_]
    · exact h1
    · rintro rfl
      rw [hv] at h1; cases h1; exact ho rfl
  · intro m _ h1
    dsimp only at h1
    by_cases e : m = v
    · subst e; rw [upd_same] at h1; cases h1; exact absurd rfl ho'
    · rw [upd_ne _ _ e] at h1; exact h1

theorem mutexDestroy_rel {s : St n} {a : Sp n} (h : Rel s a) {v p : Nat} (hv : a.mutex v = some none)
    (hp : s.mptr v = some p) (hu : ∀ t : Fin n, (a.pc t).usesMutex v = false) :
    Rel { s with mheap := upd s.mheap p .freed } { a with mutex := upd a.mutex v none } := by
  have hv' : (a.mutex v).isSome = true := by rw [hv]; rfl
  have hh : s.mheap p = .live none := by
    obtain ⟨q, h1, h2⟩ := h.mutex v none hv
    rw [hp] at h1; cases h1; exact h2
  have iso : ∀ w, ((upd a.mutex v none) w).isSome = true → w ≠ v ∧ (a.mutex w).isSome = true := by
    intro w hw
    by_cases e : w = v
    · subst e; rw [upd_same] at hw; cases hw
    · rw [upd_ne _ _ e] at hw; exact ⟨e, hw⟩
  refine ⟨?_, ?_, ?_, ?_, h.cond, h.cond_inj, h.cond_kept, h.cond_next, h.thread, h.thread_inj, h.thread_next, ?_,
    h.life⟩
  · intro w u hw
    dsimp only at hw ⊢
    obtain ⟨e, hw'⟩ := iso w (by rw [hw]; rfl)
    rw [upd_ne _ _ e] at hw
    obtain ⟨q, h1, h2⟩ := h.mutex w u hw
    refine ⟨q, h1, ?_⟩
    rw [upd_ne _ _ ?_]
    · exact h2
    · rintro rfl
      exact e (h.mutex_inj w v q hw' hv' h1 hp)
  · intro w w' q h1 h2 h3 h4
    exact h.mutex_inj w w' q (iso w h1).2 (iso w' h2).2 h3 h4
  · intro q u hq
    dsimp only at hq ⊢
    by_cases e : q = p
    · subst e; rw [upd_same] at hq; cases hq
    · rw [upd_ne _ _ e] at hq
      obtain ⟨w, h1, h2⟩ := h.mutex_kept q u hq
      refine ⟨w, ?_, h2⟩
      rw [upd_ne _ _ ?_]
      · exact h1
      · rintro rfl
        rw [hp] at h2; cases h2; exact e rfl
  · intro q hq
    dsimp only at hq ⊢
    rw [upd_ne _ _ ?_]
    · exact h.mutex_next q hq
    · rintro rfl
      rw [h.mutex_next q hq] at hh; cases hh
  · intro t
    have ne : ∀ m, (a.pc t).usesMutex m = true ∨ a.mutex m = some (some t) → m ≠ v := by
      rintro m (h1 | h1) rfl
      · rw [hu t] at h1; cases h1
      · rw [hv] at h1; cases h1
    refine matches_of (h.pc t) ?_ ?_ ?_ (fun c _ hc => ⟨rfl, hc⟩)
    · intro m h1 h2
      exact ⟨rfl, by dsimp only; rw [upd_ne _ _ (ne m h2)]; exact h1⟩
    · intro m h1
      dsimp only
      rw [upd_ne _ _ (ne m (.inr h1))]; exact h1
    · intro m h2 h1
      dsimp only at h1
      rw [upd_ne _ _ (ne m (.inl h2))] at h1; exact h1

theorem condInit_rel {s : St n} {a : Sp n} (h : Rel s a) {v : Nat} (hv : a.cond v = false) :
    Rel { s with cheap := upd s.cheap s.cnext .live, cptr := upd s.cptr v (some s.cnext)
                 cnext := s.cnext + 1 } { a with cond := upd a.cond v true } := by
  have old : ∀ w, a.cond w = true → w ≠ v := by rintro w hw rfl; rw [hv] at hw; cases hw
  have oldp : ∀ w p, a.cond w = true → s.cptr w = some p → p ≠ s.cnext := by
    intro w p hw hp
    obtain ⟨q, h1, h2⟩ := h.cond w hw
    rw [hp] at h1; cases h1
    exact Nat.ne_of_lt (h.cond_lt h2)
  refine ⟨h.mutex, h.mutex_inj, h.mutex_kept, h.mutex_next, ?_, ?_, ?_, ?_, h.thread, h.thread_inj, h.thread_next, ?_,
    h.life⟩
  · intro w hw
    dsimp only at hw ⊢
    by_cases e : w = v
    · subst e
      exact ⟨s.cnext, upd_same _ _ _, upd_same _ _ _⟩
    · rw [upd_ne _ _ e] at hw ⊢
      obtain ⟨p, h1, h2⟩ := h.cond w hw
      exact ⟨p, h1, by rw [upd_ne _ _ (Nat.ne_of_lt (h.cond_lt h2))]; exact h2⟩
  · intro w w' p h1 h2 h3 h4
    dsimp only at h1 h2 h3 h4
    by_cases e : w = v <;> by_cases e' : w' = v
    · rw [e, e']
    · subst e
      rw [upd_same] at h3; cases h3
      rw [upd_ne _ _ e'] at h2 h4
      exact absurd rfl (oldp _ _ h2 h4)
    · subst e'
      rw [upd_same] at h4; cases h4
      rw [upd_ne _ _ e] at h1 h3
      exact absurd rfl (oldp _ _ h1 h3)
    · rw [upd_ne _ _ e] at h1 h3
      rw [upd_ne _ _ e'] at h2 h4
      exact h.cond_inj w w' p h1 h2 h3 h4
  · intro p hp
    dsimp only at hp ⊢
    by_cases e : p = s.cnext
    · exact ⟨v, by rw [upd_same], by rw [upd_same, e]⟩
    · rw [upd_ne _ _ e] at hp
      obtain ⟨w, h1, h2⟩ := h.cond_kept p hp
      exact ⟨w, by rw [upd_ne _ _ (old w h1)]; exact h1, by rw [upd_ne _ _ (old w h1)]; exact h2⟩
  · intro p hp
    dsimp only at hp ⊢
    rw [upd_ne _ _ (by omega)]
    exact h.cond_next p (by omega)
  · intro t
    refine matches_of (h.pc t) (fun m h1 _ => ⟨rfl, h1⟩) (fun m h1 => h1) (fun _ _ h1 => h1) ?_
    intro c _ hc
    exact ⟨upd_ne _ _ (old c hc), by dsimp only; rw [upd_ne _ _ (old c hc)]; exact hc⟩

theorem condDestroy_rel {s : St n} {a : Sp n} (h : Rel s a) {v p : Nat} (hv : a.cond v = true)
    (hp : s.cptr v = some p) (hu : ∀ t : Fin n, (a.pc t).usesCond v = false) :
    Rel { s with cheap := upd s.cheap p .freed } { a with cond := upd a.cond v false } := by
  have hh : s.cheap p = .live := by
    obtain ⟨q, h1, h2⟩ := h.cond v hv
    rw [hp] at h1; cases h1; exact h2
  have iso : ∀ w, (upd a.cond v false) w = true → w ≠ v ∧ a.cond w = true := by
    intro w hw
    by_cases e : w = v
    · subst e; rw [upd_same] at hw; cases hw
    · rw [upd_ne _ _ e] at hw; exact ⟨e, hw⟩
  refine ⟨h.mutex, h.mutex_inj, h.mutex_kept, h.mutex_next, ?_, ?_, ?_, ?_, h.thread, h.thread_inj, h.thread_next, ?_,
    h.life⟩
  · intro w hw
    dsimp only at hw ⊢
    obtain ⟨e, hw'⟩ := iso w hw
    obtain ⟨q, h1, h2⟩ := h.cond w hw'
    refine ⟨q, h1, ?_⟩
    rw [upd_ne _ _ ?_]
    · exact h2
    · rintro rfl
      exact e (h.cond_inj w v q hw' hv h1 hp)
  · intro w w' q h1 h2 h3 h4
    exact h.cond_inj w w' q (iso w h1).2 (iso w' h2).2 h3 h4
  · intro q hq
    dsimp only at hq ⊢
    by_cases e : q = p
    · subst e; rw [upd_same] at hq; cases hq
    · rw [upd_ne _ _ e] at hq
      obtain ⟨w, h1, h2⟩ := h.cond_kept q hq
      refine ⟨w, ?_, h2⟩
      rw [upd_ne _ _ ?_]
      · exact h1
      · rintro rfl
        rw [hp] at h2; cases h2; exact e rfl
  · intro q hq
    dsimp only at hq ⊢
    rw [upd_ne _ _ ?_]
    · exact h.cond_next q hq
    · rintro rfl
      rw [h.cond_next q hq] at hh; cases hh
  · intro t
    refine matches_of (h.pc t) (fun m h1 _ => ⟨rfl, h1⟩) (fun m h1 => h1) (fun _ _ h1 => h1) ?_
    intro c h1 hc
    have e : c ≠ v := by rintro rfl; rw [hu t] at h1; cases h1
    exact ⟨rfl, by dsimp only; rw [upd_ne _ _ e]; exact hc⟩

/-- Only the places of the threads change. -/
theorem pc_rel {s : St n} {a : Sp n} (h : Rel s a) {pcs : Fin n → Pc} {spcs : Fin n → SPc}
    (hpc : ∀ t, (pcs t).matches s a t (spcs t)) : Rel { s with pc := pcs } { a with pc := spcs } :=
  ⟨h.mutex, h.mutex_inj, h.mutex_kept, h.mutex_next, h.cond, h.cond_inj, h.cond_kept, h.cond_next, h.thread, h.thread_inj,
    h.thread_next, fun t => matches_of (hpc t) (fun _ h1 _ => ⟨rfl, h1⟩) (fun _ h1 => h1) (fun _ _ h1 => h1) (fun _ _ hc => ⟨rfl, hc⟩),
    h.life⟩

theorem create_rel {s : St n} {a : Sp n} (h : Rel s a) (v : Nat) (child : Fin n) :
    Rel { s with theap := upd s.theap s.tnext (some (child, true)), tptr := upd s.tptr v (some s.tnext)
                 tnext := s.tnext + 1, life := upd s.life child .running }
      { a with thread := upd a.thread v (some (child, false)), life := upd a.life child .running } := by
  have oldp : ∀ w p, (a.thread w).isSome = true → s.tptr w = some p → p ≠ s.tnext := by
    intro w p hw hp
    obtain ⟨x, hx⟩ := Option.isSome_iff_exists.1 hw
    obtain ⟨q, h1, h2⟩ := h.thread w x hx
    rw [hp] at h1; cases h1
    exact Nat.ne_of_lt (h.thread_lt h2)
  refine ⟨h.mutex, h.mutex_inj, h.mutex_kept, h.mutex_next, h.cond, h.cond_inj, h.cond_kept, h.cond_next, ?_, ?_, ?_,
    fun t => matches_of (h.pc t) (fun _ h1 _ => ⟨rfl, h1⟩) (fun _ h1 => h1) (fun _ _ h1 => h1) (fun _ _ hc => ⟨rfl, hc⟩), ?_⟩
  · intro w x hw
    dsimp only at hw ⊢
    by_cases e : w = v
    · subst e
      rw [upd_same] at hw; cases hw
      exact ⟨s.tnext, upd_same _ _ _, upd_same _ _ _⟩
    · rw [upd_ne _ _ e] at hw ⊢
      obtain ⟨p, h1, h2⟩ := h.thread w x hw
      exact ⟨p, h1, by rw [upd_ne _ _ (Nat.ne_of_lt (h.thread_lt h2))]; exact h2⟩
  · intro w w' p h1 h2 h3 h4
    dsimp only at h1 h2 h3 h4
    by_cases e : w = v <;> by_cases e' : w' = v
    · rw [e, e']
    · subst e
      rw [upd_same] at h3; cases h3
      rw [upd_ne _ _ e'] at h2 h4
      exact absurd rfl (oldp _ _ h2 h4)
    · subst e'
      rw [upd_same] at h4; cases h4
      rw [upd_ne _ _ e] at h1 h3
      exact absurd rfl (oldp _ _ h1 h3)
    · rw [upd_ne _ _ e] at h1 h3
      rw [upd_ne _ _ e'] at h2 h4
      exact h.thread_inj w w' p h1 h2 h3 h4
  · intro p
    dsimp only
    by_cases e : p = s.tnext
    · subst e; rw [upd_same]
      exact ⟨fun h => (by cases h), fun h => (by omega)⟩
    · rw [upd_ne _ _ e, h.thread_next p]; omega
  · dsimp only; rw [h.life]

theorem join_rel {s : St n} {a : Sp n} (h : Rel s a) {v p : Nat} {child : Fin n}
    (hv : a.thread v = some (child, false)) (hp : s.tptr v = some p) :
    Rel { s with theap := upd s.theap p (some (child, false)) }
      { a with thread := upd a.thread v (some (child, true)) } := by
  have hv' : (a.thread v).isSome = true := by rw [hv]; rfl
  have hh : s.theap p = some (child, true) := by
    obtain ⟨q, h1, h2⟩ := h.thread v _ hv
    rw [hp] at h1; cases h1; exact h2
  have iso : ∀ w, ((upd a.thread v (some (child, true))) w).isSome = (a.thread w).isSome := by
    intro w
    by_cases e : w = v
    · subst e; rw [upd_same, hv']; rfl
    · rw [upd_ne _ _ e]
  refine ⟨h.mutex, h.mutex_inj, h.mutex_kept, h.mutex_next, h.cond, h.cond_inj, h.cond_kept, h.cond_next, ?_, ?_, ?_,
    fun t => matches_of (h.pc t) (fun _ h1 _ => ⟨rfl, h1⟩) (fun _ h1 => h1) (fun _ _ h1 => h1) (fun _ _ hc => ⟨rfl, hc⟩), h.life⟩
  · intro w x hw
    dsimp only at hw ⊢
    by_cases e : w = v
    · subst e
      rw [upd_same] at hw; cases hw
      exact ⟨p, hp, upd_same _ _ _⟩
    · rw [upd_ne _ _ e] at hw
      obtain ⟨q, h1, h2⟩ := h.thread w x hw
      refine ⟨q, h1, ?_⟩
      rw [upd_ne _ _ ?_]
      · exact h2
      · rintro rfl
        exact e (h.thread_inj w v q (by rw [hw]; rfl) hv' h1 hp)
  · intro w w' q h1 h2 h3 h4
    dsimp only at h1 h2 h3 h4
    rw [iso] at h1 h2
    exact h.thread_inj w w' q h1 h2 h3 h4
  · intro q
    dsimp only
    by_cases e : q = p
    · subst e; rw [upd_same]
      have := h.thread_lt hh
      exact ⟨fun h => (by cases h), fun h => (by omega)⟩
    · rw [upd_ne _ _ e, h.thread_next q]

/-- Waiting on the object and waiting on the variable are the same. -/
theorem sleeps_iff {s : St n} {a : Sp n} (h : Rel s a) {v p : Nat} (hv : a.cond v = true) (hp : s.cptr v = some p)
    (t : Fin n) : (s.pc t).sleepsOn p = (a.pc t).waitsOn v := by
  have := h.pc t
  cases e : s.pc t <;> cases e' : a.pc t <;> rw [e, e'] at this <;> simp only [Pc.matches] at this <;>
    simp only [Pc.sleepsOn, SPc.waitsOn]
  obtain ⟨rfl, rfl, h1, -, -, h3, -, -⟩ := this
  rename_i cp _ c m
  rw [decide_eq_decide]
  constructor
  · rintro rfl; exact h.cond_inj _ _ _ h1 hv h3 hp
  · rintro rfl; rw [hp] at h3; cases h3; rfl

theorem wake_matches {s : St n} {a : Sp n} (h : Rel s a) {v p : Nat} (hv : a.cond v = true) (hp : s.cptr v = some p)
    (t : Fin n) : (wakeIf p (s.pc t)).matches s a t ((a.pc t).wake v) := by
  have k := sleeps_iff h hv hp t
  have := h.pc t
  cases e : s.pc t <;> cases e' : a.pc t <;> rw [e, e'] at this k <;> simp only [wakeIf, SPc.wake] <;>
    try (first | exact this | (simp only [Pc.matches] at this; done))
  all_goals simp only [Pc.sleepsOn, SPc.waitsOn, decide_eq_decide] at k
  · rename_i c m cp lk c' m'
    by_cases e : cp = p
    · rw [if_pos e, if_pos (k.1 e)]
      simp only [Pc.matches] at this ⊢
      obtain ⟨-, h1, -, h2, h5, -, h3, h4⟩ := this
      exact ⟨h1, h2, h5, h3, h4⟩
    · rw [if_neg e, if_neg (fun x => e (k.2 x))]
      exact this

/-- The calls of a thread that is not inside of `pthread_cond_wait`. -/
theorem call_sim {s : St n} {a : Sp n} (h : Rel s a) {t : Fin n} (hp : s.pc t = .idle) (hq : a.pc t = .idle)
    (x : Act n) : Sim (call s t x) (a.call t x) := by
  cases x with
  | mutexInit v =>
    simp only [call, Sp.call, mutexInit]
    cases hv : a.mutex v with
    | none => exact ⟨_, rfl, mutexInit_rel h hv⟩
    | some o => trivial
  | mutexLock v =>
    simp only [call, Sp.call]
    cases hv : a.mutex v with
    | none => trivial
    | some o =>
      obtain ⟨p, h1, h2⟩ := h.mutex v o hv
      dsimp only [deref]
      rw [h1]
      dsimp only [stdLock]
      rw [h2]
      cases o with
      | none =>
        refine ⟨_, rfl, owner_rel h hv h1 (pcs := s.pc) (spcs := a.pc) fun t' => ?_⟩
        by_cases e' : t' = t
        · subst e'; rw [hp, hq]; trivial
        · exact owner_pc (h.pc t') hv (by simp) (by simp; exact fun x => e' x.symm)
      | some o =>
        dsimp only
        by_cases e : o = t
        · rw [if_pos e, if_pos e]; trivial
        · rw [if_neg e, if_neg e]; rfl
  | mutexUnlock v =>
    simp only [call, Sp.call]
    cases hv : a.mutex v with
    | none => trivial
    | some o =>
      cases o with
      | none => trivial
      | some o =>
        obtain ⟨p, h1, h2⟩ := h.mutex v _ hv
        dsimp only [deref]
        rw [h1]
        dsimp only [stdUnlock]
        rw [h2]
        dsimp only
        by_cases e : o = t
        · subst e
          rw [if_pos rfl, if_pos rfl]
          refine ⟨_, rfl, owner_rel h hv h1 (pcs := s.pc) (spcs := a.pc) fun t' => ?_⟩
          by_cases e' : t' = o
          · subst e'; rw [hp, hq]; trivial
          · exact owner_pc (h.pc t') hv (by simp; exact fun x => e' x.symm) (by simp)
        · rw [if_neg e, if_neg e]; trivial
  | mutexDestroy v =>
    simp only [call, Sp.call]
    cases hv : a.mutex v with
    | none => trivial
    | some o =>
      cases o with
      | some o => trivial
      | none =>
        obtain ⟨p, h1, h2⟩ := h.mutex v _ hv
        dsimp only [deref]
        rw [h1]
        dsimp only [deleteMutex]
        rw [h2]
        dsimp only
        split
        · rename_i hu
          exact ⟨_, rfl, mutexDestroy_rel h hv h1 hu⟩
        · trivial
  | condInit v =>
    simp only [call, Sp.call, condInit]
    cases hv : a.cond v with
    | true => trivial
    | false => exact ⟨_, rfl, condInit_rel h hv⟩
  | condSignal v pick =>
    simp only [call, Sp.call]
    cases hv : a.cond v with
    | false => trivial
    | true =>
      obtain ⟨p, h1, h2⟩ := h.cond v hv
      rw [h1]
      dsimp only [deref, notifyOne]
      rw [h2]
      simp only [sleeps_iff h hv h1, if_true]
      by_cases e : ∀ t' : Fin n, (a.pc t').waitsOn v = false
      · rw [if_pos e, if_pos e]; exact ⟨_, rfl, h⟩
      · rw [if_neg e, if_neg e]
        by_cases e' : (a.pc pick).waitsOn v = true
        · rw [if_pos e', if_pos e']
          refine ⟨_, rfl, pc_rel h fun t' => ?_⟩
          by_cases e2 : t' = pick
          · subst e2; rw [upd_same, upd_same]; exact wake_matches h hv h1 t'
          · rw [upd_ne _ _ e2, upd_ne _ _ e2]; exact h.pc t'
        · rw [if_neg e', if_neg e']; rfl
  | condBroadcast v =>
    simp only [call, Sp.call]
    cases hv : a.cond v with
    | false => trivial
    | true =>
      obtain ⟨p, h1, h2⟩ := h.cond v hv
      rw [h1]
      dsimp only [deref, notifyAll]
      rw [h2, if_pos rfl]
      exact ⟨_, rfl, pc_rel h fun t' => wake_matches h hv h1 t'⟩
  | condDestroy v =>
    simp only [call, Sp.call]
    split
    · rename_i hu
      obtain ⟨p, h1, h2⟩ := h.cond v hu.1
      rw [h1]
      dsimp only [deref, deleteCond]
      rw [h2]
      dsimp only
      rw [if_pos]
      · exact ⟨_, rfl, condDestroy_rel h hu.1 h1 hu.2⟩
      · intro t'
        rw [sleeps_iff h hu.1 h1]
        have := hu.2 t'
        cases e : a.pc t' <;> rw [e] at this <;> simp_all [SPc.usesCond, SPc.waitsOn]
    · trivial
  | condWait c m =>
    simp only [call, Sp.call]
    split
    · rename_i hu
      obtain ⟨p, h1, h2⟩ := h.mutex m _ hu.2
      rw [h1]
      dsimp only [deref, adopt]
      rw [h2]
      dsimp only
      rw [if_pos rfl]
      refine ⟨_, rfl, pc_rel h fun t' => ?_⟩
      by_cases e2 : t' = t
      · subst e2; rw [upd_same, upd_same]
        exact ⟨rfl, rfl, hu.1, hu.2, rfl, h1.symm⟩
      · rw [upd_ne _ _ e2, upd_ne _ _ e2]; exact h.pc t'
    · trivial
  | create v child =>
    simp only [call, Sp.call, create]
    rw [h.life]
    split
    · have := create_rel h v child
      rw [h.life] at this
      exact ⟨_, rfl, this⟩
    · rfl
  | join v =>
    simp only [call, Sp.call]
    cases hv : a.thread v with
    | none => trivial
    | some y =>
      obtain ⟨child, b⟩ := y
      cases b with
      | true => trivial
      | false =>
        obtain ⟨p, h1, h2⟩ := h.thread v _ hv
        dsimp only [deref]
        rw [h1]
        dsimp only [join]
        have h2 : s.theap p = some (child, true) := h2
        rw [h2]
        dsimp only
        by_cases e : child = t
        · rw [if_pos e, if_pos e]; trivial
        · rw [if_neg e, if_neg e, h.life]
          by_cases e' : s.life child = .finished
          · rw [if_pos e', if_pos e']
            have := join_rel h hv h1
            rw [h.life] at this
            exact ⟨_, rfl, this⟩
          · rw [if_neg e', if_neg e']; rfl
  | exit =>
    simp only [call, Sp.call]
    refine ⟨_, rfl, ⟨h.mutex, h.mutex_inj, h.mutex_kept, h.mutex_next, h.cond, h.cond_inj, h.cond_kept, h.cond_next,
      h.thread, h.thread_inj, h.thread_next,
      fun t => matches_of (h.pc t) (fun _ h1 _ => ⟨rfl, h1⟩) (fun _ h1 => h1) (fun _ _ h1 => h1) (fun _ _ hc => ⟨rfl, hc⟩), ?_⟩⟩
    dsimp only; rw [h.life]
  | go => rfl
  | spurious => rfl

/-- The thread is at the end of `pthread_cond_wait`, after it got the mutex back. -/
def Pc.returning : Pc → Bool
  | .locked .. => true
  | .released .. => true
  | _ => false

theorem agrees_iff {s : St n} {a : Sp n} (h : Rel s a) {c m cp p : Nat} (hc : a.cond c = true)
    (hm : (a.mutex m).isSome = true) (h1 : s.cptr c = some cp) (h2 : s.mptr m = some p) (t : Fin n) :
    (s.pc t).agrees cp p = (a.pc t).agrees c m := by
  have := h.pc t
  cases e : s.pc t <;> cases e' : a.pc t <;> rw [e, e'] at this <;> simp only [Pc.matches] at this <;>
    simp only [Pc.agrees, SPc.agrees]
  obtain ⟨rfl, rfl, k1, k2, -, k3, -, k4⟩ := this
  rename_i cp' lk c' m'
  have e1 : cp' = cp ↔ c' = c := by
    constructor
    · rintro rfl; exact h.cond_inj _ _ _ k1 hc k3 h1
    · rintro rfl; rw [h1] at k3; cases k3; rfl
  have e2 : lk.pm = some p ↔ m' = m := by
    rw [k4]
    constructor
    · intro hh; exact h.mutex_inj _ _ _ k2 hm hh h2
    · rintro rfl; exact h2
  rw [Bool.eq_iff_iff]
  simp [e1, e2]

/-- The steps inside of `pthread_cond_wait` that are visible. -/
theorem goOn_sim {s : St n} {a : Sp n} (h : Rel s a) {t : Fin n} (hr : (s.pc t).returning = false) :
    Sim (goOn s t) (a.goOn t) := by
  have hm := h.pc t
  unfold goOn Sp.goOn
  cases e : s.pc t <;> cases e' : a.pc t <;> rw [e, e'] at hm <;> simp only [Pc.matches] at hm <;> dsimp only
  · rfl
  · obtain ⟨rfl, rfl, k1, k2, k3, k4⟩ := hm
    rename_i lk c m
    obtain ⟨cp, h1, h2⟩ := h.cond c k1
    obtain ⟨p, h3, h4⟩ := h.mutex m _ k2
    split
    · rename_i hu
      rw [h1]
      dsimp only [deref, waitBegin]
      rw [h2, k4, h3]
      dsimp only
      rw [if_pos ⟨k3, fun t' => by rw [agrees_iff h k1 (by rw [k2]; rfl) h1 h3]; exact hu t'⟩]
      unfold stdUnlock
      rw [h4]
      dsimp only
      rw [if_pos rfl]
      refine ⟨_, rfl, owner_rel h k2 h3 fun t' => ?_⟩
      by_cases e2 : t' = t
      · subst e2; rw [upd_same, upd_same]
        exact ⟨rfl, rfl, k1, by dsimp only; rw [upd_same]; rfl, by dsimp only; rw [upd_same]; simp, h1, rfl, h3.symm⟩
      · rw [upd_ne _ _ e2, upd_ne _ _ e2]
        exact owner_pc (h.pc t') k2 (by simp; exact fun x => e2 x.symm) (by simp)
    · trivial
  · rfl
  · obtain ⟨rfl, k1, k5, k2, k3⟩ := hm
    rename_i c lk m
    obtain ⟨o, ho⟩ := Option.isSome_iff_exists.1 k1
    obtain ⟨p, h3, h4⟩ := h.mutex m _ ho
    unfold waitEnd
    rw [k3, h3, k2, ho]
    dsimp only [stdLock]
    rw [h4]
    cases o with
    | none =>
      dsimp only
      refine ⟨_, rfl, owner_rel h ho h3 fun t' => ?_⟩
      by_cases e2 : t' = t
      · subst e2; rw [upd_same, upd_same]
        exact ⟨upd_same _ _ _, rfl, h3.symm⟩
      · rw [upd_ne _ _ e2, upd_ne _ _ e2]
        exact owner_pc (h.pc t') ho (by simp) (by simp; exact fun x => e2 x.symm)
    | some o =>
      dsimp only
      by_cases e2 : o = t
      · subst e2
        exact absurd ho k5
      · rw [if_neg (by decide), if_neg e2]; rfl
  · rw [e] at hr; cases hr
  · rw [e] at hr; cases hr

end Shim
end Gemmlowp
