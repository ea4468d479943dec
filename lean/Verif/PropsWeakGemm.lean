import Verif.PropsWeak
import Verif.PropsGemm
/-!
# Property C68: a matrix product under the C++ memory model

The tasks of `MultiThreadGemm` (C01) executed by the pool as C++ may execute it.
-/
namespace Gemmlowp.Weak

open Pool

variable {ε δ : Type}

theorem worker_call {s s' : State ε} {i : Nat} (h : wstep s i = .next s') : s'.call = s.call := by
  unfold wstep at h
  dsimp only at h
  split at h <;> (try split at h) <;> (try split at h) <;>
    first
      | (simp only [Out.next.injEq] at h; rw [← h]; rfl)
      | (simp at h; done)
      | (simp only [Out.next.injEq] at h; rw [← h])

theorem master_call {sc : Script ε} {s s' : State ε} (h : mstep sc s = .next s') :
    s'.call = s.call ∨ (s.mpc = .wait ∧ s'.call = s.call + 1) := by
  unfold mstep at h
  dsimp only at h
  split at h <;> (try split at h) <;> (try split at h) <;>
    first
      | (simp only [Out.next.injEq] at h; rw [← h]; exact .inl rfl)
      | (simp at h; done)
      | (next hm _ => simp only [Out.next.injEq] at h; rw [← h]; exact .inr ⟨hm, rfl⟩)

/-- Only calls with tasks return. -/
theorem returned_nonempty {sc : Script ε} {s : State ε} (h : Pool.Reachable sc s) :
    ∀ c < s.call, sc.tasks c ≠ [] := by
  induction h with
  | init => intro c hc; simp [Pool.initial] at hc
  | step ch hr hs ih =>
    next s s' =>
    have key : s'.call = s.call ∨ (s.mpc = .wait ∧ s'.call = s.call + 1) := by
      cases ch with
      | master => exact master_call hs
      | worker i =>
        simp only [Pool.step] at hs
        split at hs
        · exact .inl (worker_call hs)
        · simp at hs
      | giveUp i =>
        simp only [Pool.step] at hs
        split at hs
        · split at hs
          · simp only [Out.next.injEq] at hs; rw [← hs]; exact .inl rfl
          · simp at hs
        · simp at hs
      | spurious i =>
        simp only [Pool.step] at hs
        split at hs
        · split at hs
          · simp only [Out.next.injEq] at hs; rw [← hs]; exact .inl rfl
          · simp at hs
        · simp at hs
    intro c hc
    rcases key with e | ⟨hm, e⟩
    · exact ih c (by omega)
    · by_cases hc' : c < s.call
      · exact ih c hc'
      · have hcc : c = s.call := by omega
        subst hcc
        have hph := (reachable_inv hr).phase
        simp only [Phase, hm] at hph
        intro q
        rw [q] at hph
        simp at hph

/-- Where a store of the product goes, and the locations (other than the result) that the task has
read before it. -/
def gemmFoot {γ : Type} (reads : Nat × Int → List γ) (e : Nat × Int) : List ((Nat ⊕ γ) × Bool) :=
  (.inl e.1, true) :: (reads e).map (fun x => (.inr x, false))

theorem flatten_ne {α β : Type} {f : α → β} {l : List (List α)} (h : (l.flatten.map f).Nodup) :
    (∀ k ∈ l, (k.map f).Nodup) ∧ ∀ i j (hi : i < l.length) (hj : j < l.length), i ≠ j →
      ∀ x ∈ l[i], ∀ y ∈ l[j], f x ≠ f y := by
  rw [List.map_flatten, List.nodup_flatten] at h
  refine ⟨fun k hk => h.1 _ (List.mem_map_of_mem hk), ?_⟩
  have h2 := List.pairwise_iff_getElem.1 h.2
  have key : ∀ i j (hi : i < l.length) (hj : j < l.length), i < j →
      ∀ x ∈ l[i], ∀ y ∈ l[j], f x ≠ f y := by
    intro i j hi hj hij x hx y hy e
    have := h2 i j (by simpa using hi) (by simpa using hj) hij
    simp only [List.getElem_map] at this
    exact this (List.mem_map_of_mem hx) (e ▸ List.mem_map_of_mem hy)
  intro i j hi hj hij x hx y hy e
  rcases Nat.lt_or_gt_of_ne hij with q | q
  · exact key i j hi hj q x hx y hy e
  · exact key j i hj hi q y hy x hx e.symm

/-- Stores of different tasks go to different places. -/
theorem apart_of_nodup {γ : Type} (reads : Nat × Int → List γ) (sc : Script (Nat × Int))
    (h : (sc.flatten.flatten.map Prod.fst).Nodup) : Apart (gemmFoot reads) sc := by
  intro c i j hij e he e' he' x w w' hx hx'
  simp only [gemmFoot, List.mem_cons, Prod.mk.injEq, List.mem_map] at hx hx'
  rcases hx with ⟨e1, e2⟩ | ⟨y, _, e1, e2⟩ <;> rcases hx' with ⟨e1', e2'⟩ | ⟨y', _, e1', e2'⟩
  · exfalso
    rw [e1] at e1'
    have hadr : e.1 = e'.1 := by injection e1'
    -- both stores are in the tasks of call `c`
    have hc : c < sc.length := by
      apply Classical.byContradiction
      intro hc
      rw [prog_oob sc (by rw [tasks_oob sc (by omega)]; simp)] at he
      simp at he
    have ht : sc.tasks c = sc[c] := by simp [Script.tasks, List.getD_eq_getElem?_getD, hc]
    have hpr : ∀ k, ∀ q ∈ sc.prog c k, k < sc[c].length := by
      intro k q hq
      apply Classical.byContradiction
      intro hk
      rw [prog_oob sc (by rw [ht]; omega)] at hq
      simp at hq
    have hi := hpr i e he
    have hj := hpr j e' he'
    have hpi : ∀ k (hk : k < sc[c].length), sc.prog c k = sc[c][k] := by
      intro k hk
      simp [Script.prog, ht, List.getD_eq_getElem?_getD, hk]
    rw [hpi i hi] at he
    rw [hpi j hj] at he'
    rw [List.flatten_flatten] at h
    have h1 := (flatten_ne h).1 sc[c].flatten (List.mem_map_of_mem (List.getElem_mem hc))
    exact (flatten_ne h1).2 i j hi hj hij e he e' he' hadr
  · rw [e1] at e1'; simp at e1'
  · rw [← e1] at e1'; simp at e1'
  · exact ⟨e2.symm, e2'.symm⟩

/-- Scripts one after the other. -/
theorem apart_append {foot : ε → List (δ × Bool)} {s1 s2 : Script ε} (h1 : Apart foot s1)
    (h2 : Apart foot s2) : Apart foot (s1 ++ s2) := by
  have key : ∀ c k, Script.prog (s1 ++ s2) c k =
      if c < s1.length then s1.prog c k else s2.prog (c - s1.length) k := by
    intro c k
    unfold Script.prog Script.tasks
    simp only [List.getD_eq_getElem?_getD]
    split
    · next hc => rw [List.getElem?_append_left hc]
    · next hc => rw [List.getElem?_append_right (by omega)]
  intro c i j hij e he e' he'
  rw [key] at he he'
  by_cases hc : c < s1.length
  · rw [if_pos hc] at he he'; exact h1 c i j hij e he e' he'
  · rw [if_neg hc] at he he'; exact h2 _ i j hij e he e' he'

section
variable {e : Env} {ty : InputScalar} {c : Call} {L R : Nat → Nat → UInt8} {LO RO : Nat → BitVec 32}
  {val : Nat → Nat → Int}

/-- The tasks that a multi-threaded product hands to the pool. -/
theorem gemm_script (h : WellFormed e ty c L R LO RO val) {sc : Script (Nat × Int)}
    (hpl : gemmWithOutputPipelinePC e c = .ok (.pool sc)) :
    (∀ ts ∈ sc, ts ≠ []) ∧ sc.flatten.flatten.Perm (c.stores val) := by
  obtain ⟨pl, h1, ⟨t, ht⟩, h3⟩ := h.ok
  have hpl' : dispatch e c = .ok (.pool sc) := hpl
  rw [h1] at hpl'
  injection hpl' with hpl'
  subst hpl'
  have h4 := h3 t ht
  cases ht with
  | pool _ pre post st hr hc =>
    refine ⟨fun ts hts => ?_, (storesOf_perm hr hc).symm.trans h4⟩
    obtain ⟨k, hk, rfl⟩ := List.getElem_of_mem hts
    have := returned_nonempty hr (pre.length + k) (by omega)
    have e1 : Script.tasks (pre ++ sc ++ post) (pre.length + k) = sc[k] := by
      unfold Script.tasks
      simp only [List.getD_eq_getElem?_getD]
      rw [List.append_assoc, List.getElem?_append_right (by omega),
        List.getElem?_append_left (by omega)]
      simp [hk]
    rw [e1] at this
    exact this

/-- **C68**, a matrix product: if `GemmWithOutputPipeline` uses the pool, then, as C++ may execute
it, no two of its threads access the result or anything that its tasks read without
synchronization, no assertion fails, and when it has returned the result is what C01 says, and is
visible to the caller.  The pool may be used for anything else before (`pre`) and after (`post`).
(`reads` gives the locations, other than the result, that a task reads: the operands and the packed
right-hand side, which the master writes between the calls of `Execute`, in the model as the
client.) -/
theorem C68_gemm {γ : Type} [DecidableEq γ] (h : WellFormed e ty c L R LO RO val)
    {sc : Script (Nat × Int)} (hpl : gemmWithOutputPipelinePC e c = .ok (.pool sc))
    (o : Orders) (ho : o.Sync) (reads : Nat × Int → List γ) (pre post : Script (Nat × Int))
    (hpre : (∀ ts ∈ pre, ts ≠ []) ∧ Apart (gemmFoot reads) pre)
    (hpost : (∀ ts ∈ post, ts ≠ []) ∧ Apart (gemmFoot reads) post)
    (a : WState (Nat × Int) (Nat ⊕ γ)) (ha : Reachable o (gemmFoot reads) (pre ++ sc ++ post) a) :
    (∀ w, step o (gemmFoot reads) (pre ++ sc ++ post) a w ≠ .fault ∧
      ∀ b, step o (gemmFoot reads) (pre ++ sc ++ post) a w ≠ .bad b) ∧
    (pre.length + sc.length ≤ a.s.call → ∀ mem r j, r < c.result.rows → j < c.result.cols →
      applyStores mem (storesOf a.s.log pre.length sc.length) (c.result.addr r j) = val r j) := by
  obtain ⟨h1, h2⟩ := gemm_script h hpl
  have hnd : (sc.flatten.flatten.map Prod.fst).Nodup :=
    (h2.map Prod.fst).nodup_iff.2 (stores_nodup h.stride)
  have hsc : ∀ ts ∈ pre ++ sc ++ post, ts ≠ [] := by
    intro ts hts
    simp only [List.mem_append] at hts
    rcases hts with (q | q) | q
    · exact hpre.1 ts q
    · exact h1 ts q
    · exact hpost.1 ts q
  have hap := apart_append (apart_append hpre.2 (apart_of_nodup reads sc hnd)) hpost.2
  refine ⟨C68_no_race o ho _ _ hsc hap a ha, fun hc mem r j hr hj => ?_⟩
  have hre := C68_states_are_sc o ho _ _ hsc hap a ha
  exact (stores_memory h.stride ((storesOf_perm hre hc).trans h2) mem).1 r j hr hj

end

end Gemmlowp.Weak
