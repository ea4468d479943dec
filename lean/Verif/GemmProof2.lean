import Verif.GemmProof
/-!
# Correctness of `SingleThreadGemm`
-/
namespace Gemmlowp

section
variable {β : Type} {a : GemmArgs β} {ty : InputScalar} {L R : Nat → Nat → UInt8} {LO RO : Nat → BitVec 32} {N : KernelNeeds}

/-- Buffer sizes and, if the RHS is packed once, its contents. -/
structure RhsReady (a : GemmArgs β) (b : BlockParams) (R : Nat → Nat → UInt8) (depth cols : Nat)
    (pr : PackedSide) : Prop where
  data : pr.data.size = b.l2_cols * b.l2_depth
  sums : pr.sums.size = b.l2_cols
  once : cols ≤ b.l2_cols → PackedRhsIs a b R depth 0 cols pr

theorem singleThreadGemm_ok (hK : a.Kernel ty N) (hW : a.Within N L R) (hD : a.Describe ty L R LO RO)
    (hr0 : 0 < a.result.rows) (hc0 : 0 < a.result.cols) (hd0 : 0 < a.lhs.cols)
    (hrc : a.result.cols ≤ a.result.rows)
    {P : Nat → Nat → BitVec 32 → β → Prop} (hp : OutOk a.out a.mode P) {val : Nat → Nat → β}
    (hv : ∀ r c, r < a.result.rows → c < a.result.cols →
      P r c (BitVec.ofInt 32 (exactEntry ty a.lhs.cols L R LO RO r c)) (val r c))
    (tun : Tuning) (s : Scratch) (t : Trace β) :
    ∃ t', singleThreadGemm a tun s t = .ok t' ∧
      Adds t t' (rect (fun r c => (a.result.addr r c, val r c)) 0 a.result.rows 0 a.result.cols) := by
  unfold singleThreadGemm
  dsimp only
  rw [decide_eq_true hD.depth, decide_eq_true hr0, decide_eq_true hc0, decide_eq_true hd0,
    decide_eq_true hrc]
  simp only [assertM_true, ok_bind]
  obtain ⟨b, hb, hg⟩ := init_good hK.wf hr0 hc0 hd0 (nt := 1) (by omega) tun
  rw [hb, ok_bind]
  have hfits := hD.fits
  have hrhs : ∃ pr, (if a.result.cols ≤ b.l2_cols then
      packRhs a.pack a.mode a.k.rhs a.reg (b.side .rhs) a.rhsMem a.rhs
        (PackedSide.fresh (b.side .rhs) s.rhsData s.rhsSums)
      else pure (PackedSide.fresh (b.side .rhs) s.rhsData s.rhsSums)) = .ok pr ∧
      RhsReady a b R a.lhs.cols a.result.cols pr := by
    by_cases h : a.result.cols ≤ b.l2_cols
    · rw [if_pos h]
      obtain ⟨pr, e1, e2⟩ := packRhs_ok (R := R) (sc := 0) (cs := a.result.cols) (m := a.rhs)
        (ps := PackedSide.fresh (b.side .rhs) s.rhsData s.rhsSums) hK hg hfits
        (by
          have := hD.rhs
          simpa only [Nat.zero_add] using this) rfl hD.rcols hD.depth.symm h rfl rfl
      exact ⟨pr, e1, e2.dataSize, e2.sumsSize, fun _ => e2⟩
    · rw [if_neg h]
      exact ⟨_, rfl, rfl, rfl, fun hh => absurd hh h⟩
  obtain ⟨pr0, hpr0, hready0⟩ := hrhs
  rw [hpr0, ok_bind]
  have hout : ∃ st : GemmState β, forLoop 0 a.result.rows b.l2_rows (fun r (st : GemmState β) => do
      let blk ← a.lhs.block r 0 (min b.l2_rows (a.result.rows - r)) a.lhs.cols
      let pl ← packLhs a.pack a.mode a.k.lhs a.reg (b.side .lhs) a.lhsMem blk st.pl
      forLoop 0 a.result.cols b.l2_cols (fun c (st : GemmState β) => do
        (if a.result.cols ≤ b.l2_cols then pure st.pr
          else do
            let blk ← a.rhs.block 0 c a.lhs.cols (min b.l2_cols (a.result.cols - c))
            packRhs a.pack a.mode a.k.rhs a.reg (b.side .rhs) a.rhsMem blk st.pr) >>= fun pr => do
        let (res, t) ← gemmStep a b st.pl pr r c (min b.l2_rows (a.result.rows - r))
          (min b.l2_cols (a.result.cols - c)) a.lhs.cols st.res st.t
        pure { pl := st.pl, pr := pr, res := res, t := t }) { st with pl := pl })
      { pl := PackedSide.fresh (b.side .lhs) s.lhsData s.lhsSums, pr := pr0
        res := freshResult b s.res, t := t } = .ok st ∧
      Adds t st.t (rect (fun r c => (a.result.addr r c, val r c)) 0 a.result.rows 0 a.result.cols) := by
    refine forLoop_postS (fun i (st : GemmState β) =>
        st.pl.data.size = b.l2_rows * b.l2_depth ∧ st.pl.sums.size = b.l2_rows ∧
        RhsReady a b R a.lhs.cols a.result.cols st.pr ∧ st.res.size = b.l2_rows * b.l2_cols ∧
        Adds t st.t (rect (fun r c => (a.result.addr r c, val r c)) 0 (min i a.result.rows) 0
          a.result.cols))
      hg.l2_rows_pos
      ⟨rfl, rfl, hready0, rfl, by rw [Nat.zero_min, rect_zero_rows]; exact Adds.refl t⟩
      (by
        intro i st h1 _ hI
        have h3 := hI.2.2.2.2
        rwa [Nat.min_eq_right h1] at h3) ?_
    rintro i st hi ⟨h1, h2, h3, h4, h5⟩
    simp only [Nat.zero_add] at hi h5 ⊢
    generalize hr : b.l2_rows * i = r at hi h5 ⊢
    have hnext : min (b.l2_rows * (i + 1)) a.result.rows =
        r + min b.l2_rows (a.result.rows - r) := by rw [Nat.mul_add, hr]; omega
    rw [hnext]
    generalize hrs : min b.l2_rows (a.result.rows - r) = rs
    obtain ⟨m', b1, b2, b3, b4, b5⟩ := holds_block hD.lhs (r := r) (c := 0) (br := rs) (bc := a.lhs.cols)
      (by rw [hD.lrows]; omega) (by omega)
    simp only [Nat.zero_add] at b4
    rw [b1, ok_bind]
    obtain ⟨pl, p1, p2⟩ := packLhs_ok hK hg hfits (L := L) (sr := r) (rs := rs) b4 b5 b2 b3 (by omega)
      h1 h2
    rw [p1, ok_bind]
    refine forLoop_postS (fun j (st : GemmState β) => PackedLhsIs a b L a.lhs.cols r rs st.pl ∧
        RhsReady a b R a.lhs.cols a.result.cols st.pr ∧ st.res.size = b.l2_rows * b.l2_cols ∧
        Adds t st.t (rect (fun r c => (a.result.addr r c, val r c)) 0 r 0 a.result.cols ++
          rect (fun r c => (a.result.addr r c, val r c)) r rs 0 (min j a.result.cols)))
      hg.l2_cols_pos
      ⟨p2, h3, h4, ?_⟩ ?_ ?_
    · rw [Nat.zero_min, rect_zero_cols, List.append_nil]
      rwa [Nat.min_eq_left (by omega)] at h5
    · rintro j st' k1 _ ⟨q1, q2, q3, q4⟩
      refine ⟨q1.dataSize, q1.sumsSize, q2, q3, ?_⟩
      rw [Nat.min_eq_right k1] at q4
      rw [rect_rows, Nat.zero_add]
      exact q4
    · rintro j st' hj ⟨q1, q2, q3, q4⟩
      simp only [Nat.zero_add] at hj q4 ⊢
      generalize hc : b.l2_cols * j = c at hj q4 ⊢
      have hnextc : min (b.l2_cols * (j + 1)) a.result.cols =
          c + min b.l2_cols (a.result.cols - c) := by rw [Nat.mul_add, hc]; omega
      rw [hnextc]
      generalize hcs : min b.l2_cols (a.result.cols - c) = cs
      have hpr : ∃ pr, (if a.result.cols ≤ b.l2_cols then pure st'.pr
          else do
            let blk ← a.rhs.block 0 c a.lhs.cols cs
            packRhs a.pack a.mode a.k.rhs a.reg (b.side .rhs) a.rhsMem blk st'.pr) = .ok pr ∧
          PackedRhsIs a b R a.lhs.cols c cs pr ∧ RhsReady a b R a.lhs.cols a.result.cols pr := by
        by_cases honce : a.result.cols ≤ b.l2_cols
        · rw [if_pos honce]
          have hj0 : j = 0 := by
            rcases Nat.eq_zero_or_pos j with h | h
            · exact h
            · have := Nat.mul_le_mul_left b.l2_cols h
              omega
          have hc0 : c = 0 := by rw [← hc, hj0, Nat.mul_zero]
          have hcs' : cs = a.result.cols := by omega
          subst hc0; subst hcs'
          exact ⟨_, rfl, q2.once honce, q2⟩
        · rw [if_neg honce]
          obtain ⟨mr, d1, d2, d3, d4, d5⟩ := holds_block hD.rhs (r := 0) (c := c) (br := a.lhs.cols)
            (bc := cs) (by rw [hD.depth]; omega) (by rw [hD.rcols]; omega)
          simp only [Nat.zero_add] at d4
          rw [d1, ok_bind]
          obtain ⟨pr, r1, r2⟩ := packRhs_ok hK hg hfits (R := R) (sc := c) (cs := cs) d4 d5 d3 d2
            (by omega) q2.data q2.sums
          exact ⟨pr, r1, r2, r2.dataSize, r2.sumsSize, fun h => absurd h honce⟩
      obtain ⟨pr, r1, r2, r3⟩ := hpr
      rw [r1, ok_bind]
      obtain ⟨res', t', s1, s2, s3⟩ := gemmStep_ok hK hg hD.lo hD.ro hfits hd0 hW rfl q1 r2
        (by omega) (by omega) (by omega) (by omega) (by omega) (by omega) hp (val := val)
        (by intro x y _ _ _ _; exact hv x y (by omega) (by omega)) q3 st'.t
      rw [s1, ok_bind]
      refine ⟨_, rfl, q1, r3, s2, ?_⟩
      refine q4.trans s3 ?_
      rw [List.append_assoc, Nat.min_eq_left (by omega)]
      refine List.Perm.append_left _ ?_
      have := rect_cols (out := fun r c => (a.result.addr r c, val r c)) rs 0 c cs r
      rw [Nat.zero_add] at this
      exact this.symm
  obtain ⟨st, e1, e2⟩ := hout
  exact ⟨st.t, by rw [e1, ok_bind]; rfl, e2⟩

end
end Gemmlowp
