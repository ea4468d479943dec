import Verif.MultiThreadProof
import Mathlib.Data.List.Forall2
import Mathlib.Data.List.Nodup
import Mathlib.Tactic.ByContra
/-!
# The calls of `Execute` made by a multi-threaded product, and what any schedule does with them
-/
namespace Gemmlowp

theorem mapM_ok_exists {γ δ : Type} {l : List γ} {f : γ → M δ} {P : γ → δ → Prop}
    (h : ∀ x, x ∈ l → ∃ y, f x = .ok y ∧ P x y) :
    ∃ ys, l.mapM f = .ok ys ∧ List.Forall₂ P l ys := by
  induction l with
  | nil => exact ⟨[], rfl, .nil⟩
  | cons x l ih =>
    obtain ⟨y, e, hy⟩ := h x (by simp)
    obtain ⟨ys, es, hys⟩ := ih (fun z hz => h z (by simp [hz]))
    exact ⟨y :: ys, by rw [List.mapM_cons, e, ok_bind, es, ok_bind]; rfl, .cons hy hys⟩

theorem flatten_perm_flatMap {γ δ : Type} {l : List γ} {ys : List (List δ)} {f : γ → List δ}
    (h : List.Forall₂ (fun x y => y.Perm (f x)) l ys) : ys.flatten.Perm (l.flatMap f) := by
  induction h with
  | nil => exact List.Perm.refl _
  | cons h _ ih =>
    rw [List.flatten_cons, List.flatMap_cons]
    exact h.append ih

section
variable {β : Type} {a : GemmArgs β} {ty : InputScalar} {L R : Nat → Nat → UInt8} {LO RO : Nat → BitVec 32} {N : KernelNeeds}

theorem makeTasks_ok {b : BlockParams} (hK : a.Kernel ty N) (hW : a.Within N L R) (hD : a.Describe ty L R LO RO)
    (hg : b.Good a.k a.reg a.result.rows a.result.cols a.lhs.cols)
    (hd0 : 0 < a.lhs.cols) {P : Nat → Nat → BitVec 32 → β → Prop} (hp : OutOk a.out a.mode P)
    {val : Nat → Nat → β}
    (hv : ∀ r c, r < a.result.rows → c < a.result.cols →
      P r c (BitVec.ofInt 32 (exactEntry ty a.lhs.cols L R LO RO r c)) (val r c))
    {pr : PackedSide} {c cs tc : Nat} (hc0 : 0 < cs) (htc : 0 < tc)
    (hpr : PackedRhsIs a b R a.lhs.cols c cs pr)
    (hcs : cs ≤ b.l2_cols) (hc : c + cs ≤ a.result.cols) (s : Nat → TaskScratch) :
    ∃ ts, makeTasks a b pr c cs a.lhs.cols (splitList a.k.kRows a.result.rows tc tc) s = .ok ts ∧
      ts.length = tc ∧
      ts.flatten.Perm (rect (fun r c => (a.result.addr r c, val r c)) 0 a.result.rows c cs) := by
  have hk : 0 < a.k.kRows := hK.wf.lhs.kw_pos
  unfold makeTasks
  have H := mapM_ok_exists (l := (splitList a.k.kRows a.result.rows tc tc).zipIdx)
    (f := fun x => do
      let lhsBlock ← a.lhs.block x.1.1 0 x.1.2 a.lhs.cols
      taskRun a b lhsBlock pr x.1.1 c x.1.2 cs (s x.2))
    (P := fun x y => y.Perm (rect (fun r c => (a.result.addr r c, val r c)) x.1.1 x.1.2 c cs)) (by
      rintro ⟨⟨sr, rows⟩, i⟩ hx
      have hmem := List.mem_zipIdx' hx
      have hb : sr + rows ≤ a.result.rows := by
        have h1 : (sr, rows) ∈ splitList a.k.kRows a.result.rows tc tc := by
          rw [hmem.2]; exact List.getElem_mem _
        unfold splitList at h1
        rw [List.mem_map] at h1
        obtain ⟨n, hn, e⟩ := h1
        injection e with e1 e2
        have := rowBound_mono (rows := a.result.rows) (tc := tc) hk (Nat.le_add_right n 1)
        have h3 : rowBound a.k.kRows a.result.rows tc (n + 1) ≤ a.result.rows := by
          unfold rowBound; omega
        omega
      obtain ⟨m', b1, b2, b3, b4, b5⟩ := holds_block hD.lhs (r := sr) (c := 0) (br := rows)
        (bc := a.lhs.cols) (by rw [hD.lrows]; omega) (by omega)
      simp only [Nat.zero_add] at b4
      dsimp only
      rw [b1, ok_bind]
      exact taskRun_ok hK hW hD hg hd0 hp hv hc0 b4 b5 b2 b3 hpr hcs hb hc (s i))
  obtain ⟨ts, e, hts⟩ := H
  refine ⟨ts, e, ?_, ?_⟩
  · have := hts.length_eq
    rw [List.length_zipIdx] at this
    rw [← this]
    unfold splitList
    simp
  · have h1 := flatten_perm_flatMap hts
    have h2 : ((splitList a.k.kRows a.result.rows tc tc).zipIdx.flatMap fun x =>
        rect (fun r c => (a.result.addr r c, val r c)) x.1.1 x.1.2 c cs) =
        (splitList a.k.kRows a.result.rows tc tc).flatMap fun x =>
        rect (fun r c => (a.result.addr r c, val r c)) x.1 x.2 c cs := by
      conv => rhs; rw [← List.zipIdx_map_fst 0 (splitList a.k.kRows a.result.rows tc tc),
        List.flatMap_map]
    rw [h2, splitList_rect hk, rowBound_full hk htc] at h1
    exact h1

theorem mtScript_ok (hK : a.Kernel ty N) (hW : a.Within N L R) (hD : a.Describe ty L R LO RO)
    (hr0 : 0 < a.result.rows) (hc0 : 0 < a.result.cols) (hd0 : 0 < a.lhs.cols)
    {P : Nat → Nat → BitVec 32 → β → Prop} (hp : OutOk a.out a.mode P) {val : Nat → Nat → β}
    (hv : ∀ r c, r < a.result.rows → c < a.result.cols →
      P r c (BitVec.ofInt 32 (exactEntry ty a.lhs.cols L R LO RO r c)) (val r c))
    {tc : Nat} (htc : 0 < tc) (hi1 : a.result.rows * tc ≤ 2147483647)
    (hi2 : a.result.rows + a.k.kRows ≤ 2147483647) (tun : Tuning) (s : MtScratch) :
    ∃ sc, mtScript a tun tc s = .ok sc ∧ (∀ ts ∈ sc, ts.length = tc) ∧
      sc.flatten.flatten.Perm
        (rect (fun r c => (a.result.addr r c, val r c)) 0 a.result.rows 0 a.result.cols) := by
  obtain ⟨b, hb, hg⟩ := init_good hK.wf hr0 hc0 hd0 htc tun
  have hfits := hD.fits
  have hk : 0 < a.k.kRows := hK.wf.lhs.kw_pos
  unfold mtScript
  dsimp only
  rw [hb, ok_bind]
  have hout : ∃ st : PackedSide × Pool.Script (Nat × β),
      forLoop 0 a.result.cols b.l2_cols (fun c (st : PackedSide × Pool.Script (Nat × β)) => do
        let blk ← a.rhs.block 0 c a.lhs.cols (min b.l2_cols (a.result.cols - c))
        let pr ← packRhs a.pack a.mode a.k.rhs a.reg (b.side .rhs) a.rhsMem blk st.1
        let split ← splitRows a.k.kRows a.result.rows tc
        let ts ← makeTasks a b pr c (min b.l2_cols (a.result.cols - c)) a.lhs.cols split
          (s.task st.2.length)
        pure (pr, st.2 ++ [ts])) (PackedSide.fresh (b.side .rhs) s.rhsData s.rhsSums, []) = .ok st ∧
      (∀ ts ∈ st.2, ts.length = tc) ∧ st.2.flatten.flatten.Perm
        (rect (fun r c => (a.result.addr r c, val r c)) 0 a.result.rows 0 a.result.cols) := by
    refine forLoop_postS (fun i (st : PackedSide × Pool.Script (Nat × β)) =>
        st.1.data.size = b.l2_cols * b.l2_depth ∧ st.1.sums.size = b.l2_cols ∧
        (∀ ts ∈ st.2, ts.length = tc) ∧ st.2.flatten.flatten.Perm
        (rect (fun r c => (a.result.addr r c, val r c)) 0 a.result.rows 0 (min i a.result.cols)))
      hg.l2_cols_pos ⟨rfl, rfl, by simp, by rw [Nat.zero_min, rect_zero_cols]; exact List.Perm.refl _⟩
      (by
        rintro i st h1 _ ⟨_, _, q3, q4⟩
        rw [Nat.min_eq_right h1] at q4
        exact ⟨q3, q4⟩) ?_
    rintro i st hi ⟨h1, h2, h3, h4⟩
    simp only [Nat.zero_add] at hi h4 ⊢
    generalize hc : b.l2_cols * i = c at hi h4 ⊢
    have hnextc : min (b.l2_cols * (i + 1)) a.result.cols =
        c + min b.l2_cols (a.result.cols - c) := by rw [Nat.mul_add, hc]; omega
    rw [hnextc]
    have hcpos := hg.l2_cols_pos
    generalize hcs : min b.l2_cols (a.result.cols - c) = cs
    obtain ⟨mr, d1, d2, d3, d4, d5⟩ := holds_block hD.rhs (r := 0) (c := c) (br := a.lhs.cols)
      (bc := cs) (by rw [hD.depth]; omega) (by rw [hD.rcols]; omega)
    simp only [Nat.zero_add] at d4
    rw [d1, ok_bind]
    obtain ⟨pr, r1, r2⟩ := packRhs_ok hK hg hfits (R := R) (sc := c) (cs := cs) d4 d5 d3 d2
      (by omega) h1 h2
    rw [r1, ok_bind, splitRows_ok hk htc hi1 hi2, ok_bind]
    obtain ⟨ts, t1, t2, t3⟩ := makeTasks_ok hK hW hD hg hd0 hp hv (c := c) (cs := cs) (by omega) htc r2
      (by omega) (by omega) (s.task st.2.length)
    rw [t1, ok_bind]
    refine ⟨_, rfl, r2.dataSize, r2.sumsSize, ?_, ?_⟩
    · intro ts' hts'
      rw [List.mem_append, List.mem_singleton] at hts'
      rcases hts' with h | h
      · exact h3 _ h
      · rw [h, t2]
    · rw [Nat.min_eq_left (by omega)] at h4
      have := rect_cols (out := fun r c => (a.result.addr r c, val r c)) a.result.rows 0 c cs 0
      rw [Nat.zero_add] at this
      refine List.Perm.trans ?_ this.symm
      dsimp only
      rw [List.flatten_append, List.flatten_append]
      refine h4.append ?_
      simpa using t3
  obtain ⟨st, e1, e2, e3⟩ := hout
  exact ⟨st.2, by rw [e1, ok_bind]; rfl, e2, e3⟩

end

/-! ## Any interleaving is a permutation -/

section
variable {ε : Type}
open Pool

theorem logOf_cons (x : TaskId × ε) (l : List (TaskId × ε)) (k : TaskId) :
    logOf (x :: l) k = (if x.1 = k then [x.2] else []) ++ logOf l k := by
  unfold logOf
  rw [List.filterMap_cons]
  split <;> rename_i h <;> split at h <;> simp_all

theorem flatMap_logOf_cons (x : TaskId × ε) (l : List (TaskId × ε)) (K : List TaskId)
    (hK : K.Nodup) :
    (K.flatMap (logOf (x :: l))).Perm ((if x.1 ∈ K then [x.2] else []) ++ K.flatMap (logOf l)) := by
  induction K with
  | nil => simp
  | cons k K ih =>
    rw [List.nodup_cons] at hK
    rw [List.flatMap_cons, List.flatMap_cons, logOf_cons]
    have := ih hK.2
    by_cases hx : x.1 = k
    · have h2 : x.1 ∉ K := by rw [hx]; exact hK.1
      rw [if_neg h2, List.nil_append] at this
      rw [if_pos hx, if_pos (by rw [hx]; simp), List.append_assoc]
      exact List.Perm.append_left _ (List.Perm.append_left _ this)
    · rw [if_neg hx, List.nil_append]
      have e : (x.1 ∈ k :: K) ↔ x.1 ∈ K := by simp [hx]
      simp only [e]
      refine (List.Perm.append_left _ this).trans ?_
      rw [← List.append_assoc, ← List.append_assoc]
      exact List.Perm.append_right _ List.perm_append_comm

/-- A log restricted to the tasks in `K` is a rearrangement of what each of them did. -/
theorem log_perm (l : List (TaskId × ε)) (K : List TaskId) (hK : K.Nodup) :
    ((l.filter (fun x => decide (x.1 ∈ K))).map Prod.snd).Perm (K.flatMap (logOf l)) := by
  induction l with
  | nil => simp [logOf]
  | cons x l ih =>
    refine List.Perm.trans ?_ (flatMap_logOf_cons x l K hK).symm
    rw [List.filter_cons]
    by_cases h : x.1 ∈ K
    · rw [if_pos (by simpa using h), if_pos h, List.map_cons]
      exact List.Perm.cons _ ih
    · rw [if_neg (by simpa using h), if_neg h, List.nil_append]
      exact ih

/-- The tasks of a script, numbered from call `n0` on. -/
def keysOf : Script ε → Nat → List TaskId
  | [], _ => []
  | ts :: sc, n0 => (List.range ts.length).map (fun j => (n0, j)) ++ keysOf sc (n0 + 1)

theorem mem_keysOf (sc : Script ε) : ∀ (n0 : Nat) (c j : Nat),
    (c, j) ∈ keysOf sc n0 ↔ n0 ≤ c ∧ j < (sc.tasks (c - n0)).length := by
  induction sc with
  | nil => intro n0 c j; simp [keysOf, Script.tasks]
  | cons ts sc ih =>
    intro n0 c j
    unfold keysOf
    rw [List.mem_append, ih]
    simp only [List.mem_map, List.mem_range, Prod.mk.injEq]
    by_cases h : c = n0
    · subst h
      constructor
      · rintro (⟨x, hx, _, rfl⟩ | ⟨h1, _⟩)
        · exact ⟨by omega, by simpa [Script.tasks] using hx⟩
        · omega
      · rintro ⟨_, h2⟩
        exact .inl ⟨j, by simpa [Script.tasks] using h2, rfl, rfl⟩
    · constructor
      · rintro (⟨x, hx, h1, _⟩ | ⟨h1, h2⟩)
        · exact absurd h1.symm h
        · refine ⟨by omega, ?_⟩
          rw [show c - n0 = (c - (n0 + 1)) + 1 by omega]
          simpa [Script.tasks] using h2
      · rintro ⟨h1, h2⟩
        refine .inr ⟨by omega, ?_⟩
        rw [show c - n0 = (c - (n0 + 1)) + 1 by omega] at h2
        simpa [Script.tasks] using h2

theorem keysOf_nodup (sc : Script ε) : ∀ n0, (keysOf sc n0).Nodup := by
  induction sc with
  | nil => intro n0; simp [keysOf]
  | cons ts sc ih =>
    intro n0
    unfold keysOf
    rw [List.nodup_append]
    refine ⟨?_, ih _, ?_⟩
    · rw [List.nodup_map_iff (by intro x y h; injection h)]
      exact List.nodup_range
    · rintro ⟨c, j⟩ hx y hy he
      subst he
      rw [mem_keysOf] at hy
      rw [List.mem_map] at hx
      obtain ⟨_, _, e⟩ := hx
      injection e with e1 e2
      omega

theorem flatMap_keysOf (sc : Script ε) : ∀ (n0 : Nat) (f : TaskId → List ε),
    (∀ c j, n0 ≤ c → j < (sc.tasks (c - n0)).length → f (c, j) = sc.prog (c - n0) j) →
    (keysOf sc n0).flatMap f = sc.flatten.flatten := by
  induction sc with
  | nil => intro n0 f _; rfl
  | cons ts sc ih =>
    intro n0 f hf
    unfold keysOf
    rw [List.flatMap_append, List.flatten_cons, List.flatten_append, ih (n0 + 1) f ?_]
    · congr 1
      rw [List.flatMap_map]
      have : (List.range ts.length).flatMap (fun j => f (n0, j)) =
          (List.range ts.length).flatMap (fun j => ts.getD j []) := by
        rw [List.flatMap_def, List.flatMap_def]
        congr 1
        apply List.map_congr_left
        intro j hj
        rw [List.mem_range] at hj
        have := hf n0 j (Nat.le_refl _) (by simpa [Script.tasks] using hj)
        simpa [Script.prog, Script.tasks] using this
      rw [this, List.flatMap_def]
      congr 1
      apply List.ext_getElem
      · simp
      · intro i h1 h2
        simp [h2]
    · intro c j hc hj
      have e : c - n0 = (c - (n0 + 1)) + 1 := by omega
      have := hf c j (by omega) (by rw [e]; simpa [Script.tasks] using hj)
      rw [this, e]
      simp [Script.prog, Script.tasks]

/-- Whatever the schedule, the stores of the calls belonging to `sc` are a rearrangement of the
stores of its tasks. -/
theorem storesOf_perm {β : Type} {sc pre post : Script (Nat × β)} {st : State (Nat × β)}
    (h : Reachable (pre ++ sc ++ post) st) (hc : pre.length + sc.length ≤ st.call) :
    (storesOf st.log pre.length sc.length).Perm sc.flatten.flatten := by
  have htasks : ∀ c, pre.length ≤ c → c < pre.length + sc.length →
      Script.tasks (pre ++ sc ++ post) c = sc.tasks (c - pre.length) := by
    intro c h1 h2
    unfold Script.tasks
    simp only [List.getD_eq_getElem?_getD]
    rw [List.append_assoc, List.getElem?_append_right h1, List.getElem?_append_left (by omega)]
  have hlog : ∀ c j, pre.length ≤ c → c < pre.length + sc.length →
      logOf st.log (c, j) = sc.prog (c - pre.length) j := by
    intro c j h1 h2
    rw [(C17_each_task_runs_exactly_once _ st h c j).1 (by omega)]
    unfold Script.prog
    rw [htasks c h1 h2]
  have hfilter : st.log.filter (fun x => decide (pre.length ≤ x.1.1 ∧ x.1.1 < pre.length + sc.length)) =
      st.log.filter (fun x => decide (x.1 ∈ keysOf sc pre.length)) := by
    apply List.filter_congr
    rintro ⟨⟨c, j⟩, e⟩ hx
    rw [decide_eq_decide, mem_keysOf]
    constructor
    · rintro ⟨h1, h2⟩
      refine ⟨h1, ?_⟩
      dsimp only at h1 h2
      by_contra hj
      have hm : e ∈ logOf st.log (c, j) := by
        unfold logOf
        rw [List.mem_filterMap]
        exact ⟨_, hx, by simp⟩
      rw [hlog c j h1 h2] at hm
      have : sc.prog (c - pre.length) j = [] := by
        unfold Script.prog
        rw [List.getD_eq_getElem?_getD, List.getElem?_eq_none (by omega)]; rfl
      rw [this] at hm
      simp at hm
    · rintro ⟨h1, h2⟩
      refine ⟨h1, ?_⟩
      dsimp only at h1 h2 ⊢
      by_contra hj
      have : sc.tasks (c - pre.length) = [] := by
        unfold Script.tasks
        rw [List.getD_eq_getElem?_getD, List.getElem?_eq_none (by omega)]; rfl
      rw [this] at h2
      simp at h2
  unfold storesOf
  rw [hfilter]
  refine (log_perm st.log _ (keysOf_nodup sc _)).trans (List.Perm.of_eq ?_)
  apply flatMap_keysOf
  intro c j h1 h2
  refine hlog c j h1 ?_
  by_contra hj
  have : sc.tasks (c - pre.length) = [] := by
    unfold Script.tasks
    rw [List.getD_eq_getElem?_getD, List.getElem?_eq_none (by omega)]; rfl
  rw [this] at h2
  simp at h2

end
end Gemmlowp
