import Verif.MultiThread
/-!
# Lemmas for the multi-threaded product
-/
namespace Gemmlowp

/-! ## Thread count -/

theorem howManyThreads_ok {kRows : Nat} {hw mt : Int} {rows cols depth : Int}
    (hr : 0 < rows) (hk : rows + max (kRows : Int) 16 ≤ 2147483647)
    (hm : 0 < getHardwareConcurrency hw mt) :
    ∃ t, howManyThreads kRows hw mt rows cols depth = .ok t ∧ 0 < t ∧
      t ≤ getHardwareConcurrency hw mt := by
  unfold howManyThreads
  by_cases h1 : mt = 1
  · rw [if_pos h1]
    refine ⟨1, rfl, by omega, by omega⟩
  · rw [if_neg h1]
    dsimp only
    generalize getHardwareConcurrency hw mt = mc at hm ⊢
    have hmin : ∃ m : Int, (if kRows > 16 then (kRows : Int) else 16) = m ∧ 16 ≤ m ∧
        m ≤ max (kRows : Int) 16 := by
      split
      · exact ⟨_, rfl, by omega, by omega⟩
      · exact ⟨_, rfl, by omega, by omega⟩
    obtain ⟨m, e, hm1, hm2⟩ := hmin
    rw [e]
    unfold ceilQuotientI
    rw [cint_ok (show InI32 (rows + m) by unfold InI32; omega), ok_bind,
      cint_ok (show InI32 (rows + m - 1) by unfold InI32; omega), ok_bind, cdiv_ok (by omega), ok_bind]
    have hq : 0 < (rows + m - 1).tdiv m := by
      rw [Int.tdiv_eq_ediv_of_nonneg (by omega)]
      have := Int.ediv_le_ediv (c := m) (by omega) (show m ≤ rows + m - 1 by omega)
      rw [Int.ediv_self (by omega)] at this
      omega
    generalize (rows + m - 1).tdiv m = q at hq ⊢
    split
    · split
      · rw [decide_eq_true (by omega)]
        exact ⟨1, rfl, by omega, by omega⟩
      · rw [decide_eq_true (by omega)]
        exact ⟨_, rfl, by omega, by omega⟩
    · rw [decide_eq_true (by omega)]
      exact ⟨_, rfl, by omega, by omega⟩

/-! ## Row split -/

/-- Where the rows of the tasks before `n` end. -/
def rowBound (kRows rows taskCount n : Nat) : Nat := min rows (roundUp kRows (rows * n / taskCount))

theorem nextStartRow_ok {kRows rows tc n : Nat} (htc : 0 < tc)
    (h1 : rows * (n + 1) ≤ 2147483647) (h2 : rows * (n + 1) / tc + kRows ≤ 2147483647) :
    nextStartRow kRows rows tc n = .ok (rowBound kRows rows tc (n + 1)) := by
  unfold nextStartRow
  have e : (rows : Int) * ((n : Int) + 1) = ((rows * (n + 1) : Nat) : Int) := by push_cast; rfl
  rw [e, cint_ok (show InI32 _ by unfold InI32; omega), ok_bind, cdiv_ok (by omega), ok_bind]
  have e2 : (((rows * (n + 1) : Nat) : Int).tdiv (tc : Int)) = ((rows * (n + 1) / tc : Nat) : Int) := by
    rw [Int.tdiv_eq_ediv_of_nonneg (by omega)]; rfl
  rw [e2]
  unfold rowBound
  generalize rows * (n + 1) / tc = q at h2
  rw [cint_ok (show InI32 ((q : Int) + kRows) by unfold InI32; omega), ok_bind,
    cint_ok (show InI32 ((q : Int) + kRows - 1) by unfold InI32; omega), ok_bind]
  rfl

theorem rowBound_mono {kRows rows tc m n : Nat} (hk : 0 < kRows) (h : m ≤ n) :
    rowBound kRows rows tc m ≤ rowBound kRows rows tc n := by
  unfold rowBound
  have := roundUp_mono hk (Nat.div_le_div_right (c := tc) (Nat.mul_le_mul_left rows h))
  omega

theorem rowBound_zero {kRows rows tc : Nat} (hk : 0 < kRows) : rowBound kRows rows tc 0 = 0 := by
  unfold rowBound
  have := roundUp_lt hk (rows * 0 / tc)
  have h0 : rows * 0 / tc = 0 := by simp
  rw [h0] at this ⊢
  have h2 := roundUp_le_of_dvd hk (Nat.dvd_zero kRows) (Nat.le_refl 0)
  omega

theorem rowBound_full {kRows rows tc : Nat} (hk : 0 < kRows) (ht : 0 < tc) :
    rowBound kRows rows tc tc = rows := by
  unfold rowBound
  rw [Nat.mul_div_cancel _ ht]
  have := le_roundUp hk rows
  omega

/-- The split computed by the code, in closed form. -/
def splitList (kRows rows tc : Nat) (n : Nat) : List (Nat × Nat) :=
  (List.range n).map (fun i => (rowBound kRows rows tc i,
    rowBound kRows rows tc (i + 1) - rowBound kRows rows tc i))

theorem splitRows_ok {kRows rows tc : Nat} (hk : 0 < kRows) (htc : 0 < tc)
    (h1 : rows * tc ≤ 2147483647) (h2 : rows + kRows ≤ 2147483647) :
    splitRows kRows rows tc = .ok (splitList kRows rows tc tc) := by
  have H : ∃ s, forLoop 0 tc 1 (fun n (s : Nat × List (Nat × Nat)) => do
      let next ← nextStartRow kRows rows tc n
      pure (next, s.2 ++ [(s.1, next - s.1)])) (0, []) = .ok s ∧ s.2 = splitList kRows rows tc tc := by
    refine forLoop_post (fun n s => s.1 = rowBound kRows rows tc n ∧ s.2 = splitList kRows rows tc n)
      ⟨(rowBound_zero hk).symm, rfl⟩ (fun s h => h.2) ?_
    rintro n s hn ⟨e1, e2⟩
    have h3 : rows * (n + 1) ≤ rows * tc := Nat.mul_le_mul_left rows hn
    have h4 : rows * (n + 1) / tc ≤ rows := by
      have := Nat.div_le_div_right (c := tc) h3
      rwa [Nat.mul_div_cancel _ htc] at this
    rw [nextStartRow_ok htc (by omega) (by omega), ok_bind]
    refine ⟨_, rfl, rfl, ?_⟩
    rw [e1, e2]
    unfold splitList
    rw [List.range_succ, List.map_append]; rfl
  obtain ⟨s, e1, e2⟩ := H
  unfold splitRows
  rw [e1, ok_bind]
  show Except.ok s.2 = _
  rw [e2]

theorem splitList_rect {γ : Type} {out : Nat → Nat → γ} {kRows rows tc : Nat} (hk : 0 < kRows)
    (c0 w : Nat) (n : Nat) :
    ((splitList kRows rows tc n).flatMap fun x => rect out x.1 x.2 c0 w) =
      rect out 0 (rowBound kRows rows tc n) c0 w := by
  induction n with
  | zero => rw [rowBound_zero hk]; rfl
  | succ n ih =>
    have e : splitList kRows rows tc (n + 1) = splitList kRows rows tc n ++
        [(rowBound kRows rows tc n, rowBound kRows rows tc (n + 1) - rowBound kRows rows tc n)] := by
      unfold splitList
      rw [List.range_succ, List.map_append]; rfl
    rw [e, List.flatMap_append, ih]
    have := rowBound_mono (rows := rows) (tc := tc) hk (Nat.le_add_right n 1)
    have e2 : rowBound kRows rows tc (n + 1) =
      rowBound kRows rows tc n + (rowBound kRows rows tc (n + 1) - rowBound kRows rows tc n) := by
      omega
    conv => rhs; rw [e2, rect_rows]
    simp

/-! ## One task -/

section
variable {β : Type} {a : GemmArgs β} {b : BlockParams} {ty : InputScalar} {L R : Nat → Nat → UInt8}
  {LO RO : Nat → BitVec 32} {N : KernelNeeds}

theorem taskRun_ok (hK : a.Kernel ty N) (hW : a.Within N L R) (hD : a.Describe ty L R LO RO)
    (hg : b.Good a.k a.reg a.result.rows a.result.cols a.lhs.cols)
    (hd0 : 0 < a.lhs.cols) {P : Nat → Nat → BitVec 32 → β → Prop} (hp : OutOk a.out a.mode P)
    {val : Nat → Nat → β}
    (hv : ∀ r c, r < a.result.rows → c < a.result.cols →
      P r c (BitVec.ofInt 32 (exactEntry ty a.lhs.cols L R LO RO r c)) (val r c))
    {lhs : MatrixMap} {pr : PackedSide} {sr sc rows cols : Nat} (hc0 : 0 < cols)
    (hl : HoldsMatrix a.lhsMem lhs (fun w d => L (sr + w) d)) (hlo' : lhs.order = a.lhs.order) (hlr : lhs.rows = rows)
    (hlc : lhs.cols = a.lhs.cols) (hpr : PackedRhsIs a b R a.lhs.cols sc cols pr)
    (hcs : cols ≤ b.l2_cols) (hr : sr + rows ≤ a.result.rows) (hc : sc + cols ≤ a.result.cols)
    (s : TaskScratch) :
    ∃ t, taskRun a b lhs pr sr sc rows cols s = .ok t ∧
      t.Perm (rect (fun r c => (a.result.addr r c, val r c)) sr rows sc cols) := by
  have hfits := hD.fits
  have hout : ∃ st : PackedSide × Buf (BitVec 32) × Trace β, forLoop 0 cols b.l2_cols
      (fun c (st : PackedSide × Buf (BitVec 32) × Trace β) => do
        forLoop 0 rows b.l2_rows (fun r (st : PackedSide × Buf (BitVec 32) × Trace β) => do
          let blk ← lhs.block r 0 (min b.l2_rows (rows - r)) lhs.cols
          let pl ← packLhs a.pack a.mode a.k.lhs a.reg (b.side .lhs) a.lhsMem blk st.1
          let (res, t) ← gemmStep a b pl pr (sr + r) (sc + c) (min b.l2_rows (rows - r))
            (min b.l2_cols (cols - c)) lhs.cols st.2.1 st.2.2
          pure (pl, res, t)) st)
      (PackedSide.fresh (b.side .lhs) s.lhsData s.lhsSums, freshResult b s.res, []) = .ok st ∧
      Adds [] st.2.2 (rect (fun r c => (a.result.addr r c, val r c)) sr rows sc cols) := by
    refine forLoop_postS (fun i (st : PackedSide × Buf (BitVec 32) × Trace β) =>
        st.1.data.size = b.l2_rows * b.l2_depth ∧ st.1.sums.size = b.l2_rows ∧
        st.2.1.size = b.l2_rows * b.l2_cols ∧
        Adds [] st.2.2 (rect (fun r c => (a.result.addr r c, val r c)) sr rows sc
          (if i = 0 then 0 else cols)))
      hg.l2_cols_pos ⟨rfl, rfl, rfl, by rw [if_pos rfl, rect_zero_cols]; exact Adds.refl _⟩
      (by
        intro i st h1 _ hI
        have h3 := hI.2.2.2
        rwa [if_neg (by omega)] at h3) ?_
    rintro i st hi ⟨h1, h2, h3, h4⟩
    simp only [Nat.zero_add] at hi h4 ⊢
    have hi0 : i = 0 := by
      rcases Nat.eq_zero_or_pos i with h | h
      · exact h
      · have := Nat.mul_le_mul_left b.l2_cols h
        omega
    subst hi0
    rw [Nat.mul_zero, if_pos rfl, rect_zero_cols] at h4
    rw [Nat.mul_zero, Nat.zero_add, Nat.mul_one, if_neg (by have := hg.l2_cols_pos; omega),
      Nat.add_zero, Nat.sub_zero, Nat.min_eq_right hcs]
    refine forLoop_postS (fun j (st : PackedSide × Buf (BitVec 32) × Trace β) =>
        st.1.data.size = b.l2_rows * b.l2_depth ∧ st.1.sums.size = b.l2_rows ∧
        st.2.1.size = b.l2_rows * b.l2_cols ∧
        Adds [] st.2.2 (rect (fun r c => (a.result.addr r c, val r c)) sr (min j rows) sc cols))
      hg.l2_rows_pos ⟨h1, h2, h3, by rw [Nat.zero_min, rect_zero_rows]; exact h4⟩
      (by
        rintro j st' k1 _ ⟨q1, q2, q3, q4⟩
        rw [Nat.min_eq_right k1] at q4
        exact ⟨q1, q2, q3, q4⟩) ?_
    rintro j st' hj ⟨q1, q2, q3, q4⟩
    simp only [Nat.zero_add] at hj q4 ⊢
    generalize hr' : b.l2_rows * j = r at hj q4 ⊢
    have hnext : min (b.l2_rows * (j + 1)) rows = r + min b.l2_rows (rows - r) := by
      rw [Nat.mul_add, hr']; omega
    rw [hnext]
    generalize hrs : min b.l2_rows (rows - r) = rs
    obtain ⟨m', b1, b2, b3, b4, b5⟩ := holds_block hl (r := r) (c := 0) (br := rs) (bc := lhs.cols)
      (by omega) (by omega)
    simp only [Nat.zero_add] at b4
    rw [b1, ok_bind]
    obtain ⟨pl, p1, p2⟩ := packLhs_ok hK hg hfits (L := L) (sr := sr + r) (rs := rs)
      (by simpa only [Nat.add_assoc] using b4) (b5.trans hlo') b2 (by omega) (by omega) q1 q2
    rw [p1, ok_bind]
    rw [hlc]
    obtain ⟨res', t', s1, s2, s3⟩ := gemmStep_ok hK hg hD.lo hD.ro hfits hd0 hW rfl p2 hpr
      (by omega) (by omega) (by omega) (by omega) (by omega) (by omega) hp (val := val)
      (by intro x y _ _ _ _; exact hv x y (by omega) (by omega)) q3 st'.2.2
    rw [s1, ok_bind]
    refine ⟨_, rfl, p2.dataSize, p2.sumsSize, s2, ?_⟩
    refine q4.trans s3 ?_
    rw [Nat.min_eq_left (by omega), rect_rows]
  obtain ⟨st, e1, e2⟩ := hout
  refine ⟨st.2.2, ?_, ?_⟩
  · unfold taskRun
    dsimp only
    rw [e1, ok_bind]; rfl
  · obtain ⟨u, e, h⟩ := e2
    rw [List.nil_append] at e
    rw [e]; exact h

end
end Gemmlowp
