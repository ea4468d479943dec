import Verif.Kernel
/-!
# standalone/neon-gemm-kernel-benchmark.cc: `ReferenceKernel`
-/
namespace Gemmlowp.Bench

/-- standalone/neon-gemm-kernel-benchmark.cc:5594-5647 `ReferenceKernel::Run`.  Unlike the kernel it was copied
from it adds to the accumulators in place.  `mode` says what an overflow is: `uint32_t` accumulators wrap, for
`int32_t` ones it is undefined behaviour. -/
def reference (mode : OvMode) (k : KernelFormat) (lhs rhs : Buf UInt8) (accum : Buf (BitVec 32)) (depth : Nat) :
    M (Buf (BitVec 32)) :=
  forLoop 0 (depth / k.kDepth) 1 (fun dc acc =>
    forLoop 0 k.lhs.cells 1 (fun rc acc =>
      let lhsCell := (dc * k.lhs.cells + rc) * k.lhs.cw * k.kDepth
      forLoop 0 k.rhs.cells 1 (fun cc acc =>
        let rhsCell := (dc * k.rhs.cells + cc) * k.rhs.cw * k.kDepth
        forLoop 0 k.kDepth 1 (fun di acc =>
          forLoop 0 k.lhs.cw 1 (fun ri acc =>
            forLoop 0 k.rhs.cw 1 (fun ci acc => do
              let lo ← offsetIntoCell k.lhs ri di
              let ro ← offsetIntoCell k.rhs ci di
              let l ← lhs.read (lhsCell + lo)
              let r ← rhs.read (rhsCell + ro)
              let i := (ri + rc * k.lhs.cw) + (ci + cc * k.rhs.cw) * k.kRows
              let prod ← mul32 mode (BitVec.ofInt 32 (k.lhs.kval l)) (BitVec.ofInt 32 (k.rhs.kval r))
              let old ← acc.read i
              let new ← add32 mode old prod
              acc.write i new) acc) acc) acc) acc) acc) accum

section
variable {mode : OvMode} {k : KernelFormat} {reg : Nat}

/-- Entry `(r, c)` holds `b r c` and the first `n r c` terms of its sum. -/
structure AccFrom (R C : Nat) (b : Nat → Nat → Int) (T : Nat → Nat → Nat → Int) (n : Nat → Nat → Nat)
    (acc : Buf (BitVec 32)) : Prop where
  size : acc.size = R * C
  val : ∀ r c, r < R → c < C → acc.get (r + c * R) = BitVec.ofInt 32 (b r c + sumTo (n r c) (T r c))

theorem AccFrom.congr {R C b T n n' acc} (h : AccFrom R C b T n acc)
    (e : ∀ r c, r < R → c < C → n' r c = n r c) : AccFrom R C b T n' acc :=
  ⟨h.size, fun r c hr hc => by rw [e r c hr hc]; exact h.val r c hr hc⟩

theorem AccFrom.step {R C b T n acc} (h : AccFrom R C b T n acc) {r c : Nat} (hr : r < R) (_hc : c < C) :
    AccFrom R C b T (fun r' c' => if r' = r ∧ c' = c then n r c + 1 else n r' c')
      (acc.upd (r + c * R) (BitVec.ofInt 32 (b r c + sumTo (n r c + 1) (T r c)))) := by
  refine ⟨h.size, ?_⟩
  intro r' c' hr' hc'
  rw [Buf.upd_get]
  by_cases he : r' + c' * R = r + c * R
  · obtain ⟨rfl, rfl⟩ := mixed_inj hr' hr he
    simp
  · rw [if_neg he, if_neg (by rintro ⟨rfl, rfl⟩; exact he rfl)]
    exact h.val r' c' hr' hc'

/-- The reference adds the sum of products to each accumulator, if no intermediate value overflows or overflow
is defined. -/
theorem reference_ok (hk : k.WF reg) {lhs rhs : Buf UInt8} {accum : Buf (BitVec 32)} {rd : Nat}
    (hd : k.kDepth ∣ rd) (hl : k.kRows * rd ≤ lhs.size) (hr : k.kCols * rd ≤ rhs.size)
    (hsz : accum.size = k.kRows * k.kCols) {b : Nat → Nat → Int}
    (hb : ∀ r c, r < k.kRows → c < k.kCols → accum.get (r + c * k.kRows) = BitVec.ofInt 32 (b r c))
    (hm : mode = .trap → ∀ r c n, r < k.kRows → c < k.kCols → n ≤ rd →
      InI32 (b r c + sumTo n (fun d => runCoeff k.lhs lhs 0 r d * runCoeff k.rhs rhs 0 c d))) :
    ∃ acc, reference mode k lhs rhs accum rd = .ok acc ∧
      AccFrom k.kRows k.kCols b (fun r c d => runCoeff k.lhs lhs 0 r d * runCoeff k.rhs rhs 0 c d)
        (fun _ _ => rd) acc := by
  unfold reference
  replace hl : 0 + k.lhs.kw * rd ≤ lhs.size := by rw [Nat.zero_add]; exact hl
  replace hr : 0 + k.rhs.kw * rd ≤ rhs.size := by rw [Nat.zero_add]; exact hr
  obtain ⟨N, hN⟩ := hd
  have hdpos : 0 < k.kDepth := hk.lhs.cd_pos
  have hrc : k.rhs.cd = k.kDepth := hk.depth.symm
  have hlc : k.lhs.cd = k.kDepth := rfl
  have hND : rd / k.kDepth = N := by rw [hN, Nat.mul_div_cancel_left _ hdpos]
  rw [hND]
  -- depth cells
  refine forLoop_post
    (fun dc acc => AccFrom k.kRows k.kCols b
      (fun r c d => runCoeff k.lhs lhs 0 r d * runCoeff k.rhs rhs 0 c d)
      (fun _ _ => dc * k.kDepth) acc)
    ⟨hsz, by intro r c hr hc; rw [Nat.zero_mul, hb r c hr hc]; exact congrArg _ (Int.add_zero _).symm⟩
    (by
      intro acc h2
      refine h2.congr ?_
      intro r c _ _
      rw [hN, Nat.mul_comm]) ?_
  intro dc a0 hdc hA0
  have hdcr : dc * k.kDepth + k.kDepth ≤ rd := by
    have := Nat.mul_le_mul_left k.kDepth hdc
    rw [Nat.succ_eq_add_one, Nat.mul_add, Nat.mul_comm k.kDepth dc] at this; omega
  -- LHS cells
  refine forLoop_post
    (fun rc acc => AccFrom k.kRows k.kCols b
      (fun r c d => runCoeff k.lhs lhs 0 r d * runCoeff k.rhs rhs 0 c d)
      (updBox 0 (rc * k.lhs.cw) 0 k.kCols (dc * k.kDepth + k.kDepth)
        (fun _ _ => dc * k.kDepth)) acc)
    (by rw [updBox_empty (by omega)]; exact hA0)
    (by
      intro acc h2
      refine h2.congr ?_
      intro r c hr hc
      have hkr : k.kRows = k.lhs.cells * k.lhs.cw := Nat.mul_comm _ _
      rw [updBox_in (by omega), Nat.add_mul, Nat.one_mul]) ?_
  intro rc a1 hrc' hA1
  -- RHS cells
  refine forLoop_post
    (fun cc acc => AccFrom k.kRows k.kCols b
      (fun r c d => runCoeff k.lhs lhs 0 r d * runCoeff k.rhs rhs 0 c d)
      (updBox (rc * k.lhs.cw) (rc * k.lhs.cw + k.lhs.cw) 0 (cc * k.rhs.cw)
        (dc * k.kDepth + k.kDepth)
        (updBox 0 (rc * k.lhs.cw) 0 k.kCols (dc * k.kDepth + k.kDepth)
          (fun _ _ => dc * k.kDepth))) acc)
    (by rw [updBox_empty (by omega)]; exact hA1)
    (by
      intro acc h2
      refine h2.congr ?_
      intro r c _ hc
      rw [Nat.add_mul, Nat.one_mul]
      have hkc : k.kCols = k.rhs.cells * k.rhs.cw := Nat.mul_comm _ _
      by_cases hin : (rc * k.lhs.cw ≤ r ∧ r < rc * k.lhs.cw + k.lhs.cw) ∧
          (0 ≤ c ∧ c < k.rhs.cells * k.rhs.cw)
      · rw [updBox_in hin, updBox_in (by omega)]
      · rw [updBox_out hin]
        by_cases hin2 : (0 ≤ r ∧ r < rc * k.lhs.cw) ∧ (0 ≤ c ∧ c < k.kCols)
        · rw [updBox_in hin2, updBox_in (by omega)]
        · rw [updBox_out hin2, updBox_out (by omega)]) ?_
  intro cc a2 hcc hA2
  -- depth in the cell
  refine forLoop_post
    (fun di acc => AccFrom k.kRows k.kCols b
      (fun r c d => runCoeff k.lhs lhs 0 r d * runCoeff k.rhs rhs 0 c d)
      (updBox (rc * k.lhs.cw) (rc * k.lhs.cw + k.lhs.cw)
        (cc * k.rhs.cw) (cc * k.rhs.cw + k.rhs.cw) (dc * k.kDepth + di)
      (updBox (rc * k.lhs.cw) (rc * k.lhs.cw + k.lhs.cw) 0 (cc * k.rhs.cw)
        (dc * k.kDepth + k.kDepth)
        (updBox 0 (rc * k.lhs.cw) 0 k.kCols (dc * k.kDepth + k.kDepth)
          (fun _ _ => dc * k.kDepth)))) acc)
    (hA2.congr (by
      intro r c _ _
      by_cases hin : (rc * k.lhs.cw ≤ r ∧ r < rc * k.lhs.cw + k.lhs.cw) ∧
        (cc * k.rhs.cw ≤ c ∧ c < cc * k.rhs.cw + k.rhs.cw)
      · rw [updBox_in hin, updBox_out (by omega), updBox_out (by omega)]; rfl
      · rw [updBox_out hin]))
    (by
      intro acc h2
      refine h2.congr ?_
      intro r c _ _
      rw [Nat.add_mul cc, Nat.one_mul]
      by_cases hin : (rc * k.lhs.cw ≤ r ∧ r < rc * k.lhs.cw + k.lhs.cw) ∧
        (cc * k.rhs.cw ≤ c ∧ c < cc * k.rhs.cw + k.rhs.cw)
      · rw [updBox_in hin, updBox_in (by omega)]
      · rw [updBox_out hin]
        by_cases hin2 : (rc * k.lhs.cw ≤ r ∧ r < rc * k.lhs.cw + k.lhs.cw) ∧
          (0 ≤ c ∧ c < cc * k.rhs.cw)
        · rw [updBox_in hin2, updBox_in (by omega)]
        · rw [updBox_out hin2, updBox_out (by omega)]) ?_
  intro di a3 hdi hA3
  generalize hn0 : (updBox (rc * k.lhs.cw) (rc * k.lhs.cw + k.lhs.cw) 0
    (cc * k.rhs.cw) (dc * k.kDepth + k.kDepth)
    (updBox 0 (rc * k.lhs.cw) 0 k.kCols (dc * k.kDepth + k.kDepth)
      (fun _ _ => dc * k.kDepth))) = n0 at hA3 ⊢
  -- rows of the cell
  refine forLoop_post
    (fun ri acc => AccFrom k.kRows k.kCols b
      (fun r c d => runCoeff k.lhs lhs 0 r d * runCoeff k.rhs rhs 0 c d)
      (updBox (rc * k.lhs.cw) (rc * k.lhs.cw + ri)
        (cc * k.rhs.cw) (cc * k.rhs.cw + k.rhs.cw) (dc * k.kDepth + di + 1)
      (updBox (rc * k.lhs.cw) (rc * k.lhs.cw + k.lhs.cw)
        (cc * k.rhs.cw) (cc * k.rhs.cw + k.rhs.cw) (dc * k.kDepth + di) n0)) acc)
    (by rw [updBox_empty (by omega)]; exact hA3)
    (by
      intro acc h2
      refine h2.congr ?_
      intro r c _ _
      by_cases hin : (rc * k.lhs.cw ≤ r ∧ r < rc * k.lhs.cw + k.lhs.cw) ∧
        (cc * k.rhs.cw ≤ c ∧ c < cc * k.rhs.cw + k.rhs.cw)
      · rw [updBox_in hin, updBox_in hin]; rfl
      · rw [updBox_out hin, updBox_out hin, updBox_out hin]) ?_
  intro ri a4 hri hA4
  -- columns of the cell
  refine forLoop_post
    (fun ci acc => AccFrom k.kRows k.kCols b
      (fun r c d => runCoeff k.lhs lhs 0 r d * runCoeff k.rhs rhs 0 c d)
      (updBox (rc * k.lhs.cw + ri) (rc * k.lhs.cw + ri + 1)
        (cc * k.rhs.cw) (cc * k.rhs.cw + ci) (dc * k.kDepth + di + 1)
      (updBox (rc * k.lhs.cw) (rc * k.lhs.cw + ri)
        (cc * k.rhs.cw) (cc * k.rhs.cw + k.rhs.cw) (dc * k.kDepth + di + 1)
      (updBox (rc * k.lhs.cw) (rc * k.lhs.cw + k.lhs.cw)
        (cc * k.rhs.cw) (cc * k.rhs.cw + k.rhs.cw) (dc * k.kDepth + di) n0)))
        acc)
    (by rw [updBox_empty (by omega)]; exact hA4)
    (by
      intro acc h2
      refine h2.congr ?_
      intro r c _ _
      by_cases hin : (rc * k.lhs.cw + ri ≤ r ∧ r < rc * k.lhs.cw + ri + 1) ∧
        (cc * k.rhs.cw ≤ c ∧ c < cc * k.rhs.cw + k.rhs.cw)
      · rw [updBox_in hin, updBox_in (by omega)]
      · rw [updBox_out hin]
        by_cases hin2 : (rc * k.lhs.cw ≤ r ∧ r < rc * k.lhs.cw + ri) ∧
          (cc * k.rhs.cw ≤ c ∧ c < cc * k.rhs.cw + k.rhs.cw)
        · rw [updBox_in hin2, updBox_in (by omega)]
        · rw [updBox_out hin2, updBox_out (by omega)]) ?_
  intro ci a5 hci hA5
  obtain ⟨lv, r1, r2⟩ := run_read (wc := rc) (dc := dc) (rd := rd)
    hk.lhs hri hrc' hdi (by rw [hlc]; exact hdcr) hl
  obtain ⟨rv, s1, s2⟩ := run_read (wc := cc) (dc := dc) (rd := rd)
    (di := di) hk.rhs hci hcc (by rw [hrc]; exact hdi)
    (by rw [hrc]; exact hdcr) hr
  rw [hlc] at r1 r2
  rw [hrc] at s1 s2
  have hR := (cell_ix hri hrc').1
  have hC := (cell_ix hci hcc).1
  have hst := hA5.step (r := ri + rc * k.lhs.cw) (c := ci + cc * k.rhs.cw) hR hC
  rw [updBox_out (by omega), updBox_out (by omega), updBox_in (by omega)] at hst
  have hval := hA5.val (ri + rc * k.lhs.cw) (ci + cc * k.rhs.cw) hR hC
  rw [updBox_out (by omega), updBox_out (by omega), updBox_in (by omega)] at hval
  have htb : ∀ d, -65025 ≤ runCoeff k.lhs lhs 0 (ri + rc * k.lhs.cw) d *
      runCoeff k.rhs rhs 0 (ci + cc * k.rhs.cw) d ∧
      runCoeff k.lhs lhs 0 (ri + rc * k.lhs.cw) d *
      runCoeff k.rhs rhs 0 (ci + cc * k.rhs.cw) d ≤ 65025 :=
    fun d => term_bound k lhs rhs 0 0 _ _ d
  refine ⟨_, ?_, hst.congr ?_⟩
  · rw [Nat.zero_add] at r1 s1
    rw [offsetIntoCell_ok hk.lhs, ok_bind, offsetIntoCell_ok hk.rhs, ok_bind, r1, ok_bind, s1, ok_bind]
    dsimp only
    rw [r2, s2, mul32_ofInt, ok_bind, Buf.read_ok (by
      rw [hA5.size]; exact mixed_lt hR hC), ok_bind, hval, add32_ofInt,
      ok_bind, Buf.write_ok (by rw [hA5.size]; exact mixed_lt hR hC)]
    · rw [Nat.add_comm di, Int.add_assoc, ← sumTo_succ (dc * k.kDepth + di) (fun d =>
        runCoeff k.lhs lhs 0 (ri + rc * k.lhs.cw) d *
          runCoeff k.rhs rhs 0 (ci + cc * k.rhs.cw) d)]
    · intro hmt
      have b0 := htb (di + dc * k.kDepth)
      have b1 := hm hmt _ _ (dc * k.kDepth + di) hR hC (by omega)
      have b2 := hm hmt _ _ (dc * k.kDepth + di + 1) hR hC (by omega)
      rw [sumTo_succ, ← Int.add_assoc] at b2
      rw [Nat.add_comm di] at b0 ⊢
      refine ⟨b1, ?_, b2⟩
      unfold InI32
      omega
    · intro _
      have b0 := htb (di + dc * k.kDepth)
      have b1 := runCoeff_bound k.lhs lhs 0 (ri + rc * k.lhs.cw) (di + dc * k.kDepth)
      have b2 := runCoeff_bound k.rhs rhs 0 (ci + cc * k.rhs.cw) (di + dc * k.kDepth)
      unfold InI32
      omega
  · intro r c _ _
    by_cases hin : r = ri + rc * k.lhs.cw ∧ c = ci + cc * k.rhs.cw
    · rw [if_pos hin, updBox_in (by omega)]
    · rw [if_neg hin]
      by_cases hin2 : (rc * k.lhs.cw + ri ≤ r ∧ r < rc * k.lhs.cw + ri + 1) ∧
        (cc * k.rhs.cw ≤ c ∧ c < cc * k.rhs.cw + ci)
      · rw [updBox_in hin2, updBox_in (by omega)]
      · rw [updBox_out hin2, updBox_out (by omega)]

end
end Gemmlowp.Bench
