import Verif.PackProof2
/-!
# internal/kernel.h `KernelBase::Run` and internal/kernel_reference.h
-/
namespace Gemmlowp

/-- internal/kernel.h:218-228 `KernelBase::Run`: arguments are the destination (buffer, position,
row stride, column stride), the packed LHS (buffer, position), the packed RHS (buffer, position),
`start_depth` and `run_depth`.  The result is the new content of the destination buffer. -/
abbrev KernelRun := Buf (BitVec 32) → Nat → Nat → Nat → Buf UInt8 → Nat → Buf UInt8 → Nat →
  Nat → Nat → M (Buf (BitVec 32))

/-- internal/kernel_reference.h:48-113 `ReferenceKernel<Format>::Run`.  Simplified in one respect:
a packed byte is read as the kernel scalar of its format (`kval`), so that the same definition
also serves formats with int8 scalars, whose kernels exist only as SIMD code; for uint8 formats it
is literally line 90. -/
def referenceKernel (mode : OvMode) (k : KernelFormat) : KernelRun :=
  fun dst dp rs cs lhs lp rhs rp startDepth runDepth => do
    let acc0 : Buf (BitVec 32) := { size := k.kRows * k.kCols, get := fun _ => 0#32 }
    let acc ← forLoop 0 (runDepth / k.kDepth) 1 (fun dc acc =>
      forLoop 0 k.lhs.cells 1 (fun rc acc =>
        let lhsCell := lp + (dc * k.lhs.cells + rc) * k.lhs.cw * k.kDepth
        forLoop 0 k.rhs.cells 1 (fun cc acc =>
          let rhsCell := rp + (dc * k.rhs.cells + cc) * k.rhs.cw * k.kDepth
          forLoop 0 k.kDepth 1 (fun di acc =>
            forLoop 0 k.lhs.cw 1 (fun ri acc =>
              forLoop 0 k.rhs.cw 1 (fun ci acc => do
                let lo ← offsetIntoCell k.lhs ri di
                let ro ← offsetIntoCell k.rhs ci di
                let l ← lhs.read (lhsCell + lo)
                let r ← rhs.read (rhsCell + ro)
                let i := (ri + rc * k.lhs.cw) + (ci + cc * k.rhs.cw) * k.kRows
                let prod ← mul32 mode (BitVec.ofInt 32 (k.lhs.kval l)) (BitVec.ofInt 32 (k.rhs.kval r))
                let old ← acc.read i
                let new ← add32 mode old prod
                acc.write i new) acc) acc) acc) acc) acc) acc0
    if startDepth = 0 then
      forLoop 0 k.kRows 1 (fun r dst =>
        forLoop 0 k.kCols 1 (fun c dst => do
          let v ← acc.read (r + c * k.kRows)
          dst.write (dp + (r * rs + c * cs)) v) dst) dst
    else
      forLoop 0 k.kRows 1 (fun r dst =>
        forLoop 0 k.kCols 1 (fun c dst => do
          let v ← acc.read (r + c * k.kRows)
          let old ← dst.read (dp + (r * rs + c * cs))
          let new ← add32 mode old v
          dst.write (dp + (r * rs + c * cs)) new) dst) dst

/-- The coefficient a kernel finds for width `w`, depth `d` in a run that starts at `pos`
(internal/kernel.h:60-119: cells in depth-major sequence of `cells` stacked cells). -/
def runCoeff (f : SideFormat) (b : Buf UInt8) (pos w d : Nat) : Int :=
  f.kval (b.get (pos + (d / f.cd * f.cells + w / f.cw) * f.cellSize + cellOff f (w % f.cw) (d % f.cd)))

/-- The exact value a kernel has to leave in entry `(r, c)`. -/
def kernelExact (k : KernelFormat) (dst : Buf (BitVec 32)) (lhs : Buf UInt8) (lp : Nat)
    (rhs : Buf UInt8) (rp startDepth runDepth i r c : Nat) : Int :=
  (if startDepth = 0 then 0 else (dst.get i).toInt) +
    sumTo runDepth (fun d => runCoeff k.lhs lhs lp r d * runCoeff k.rhs rhs rp c d)

/-- What a kernel relies on.  Some kernels only work for operands in a restricted range
(internal/kernel_default.h): `pair l r` says which pairs of packed values the kernel can multiply.
Some kernels read more levels of depth than asked for and rely on the packed data being padded with
zeros (`pad`).  Some kernels count in a C++ `int` (`int`). -/
structure KernelNeeds where
  pair : Int → Int → Prop
  pad : Prop
  int : Prop

/-- The operands `l`, `r` of an entry are as needed, for a run of depth `rd`. -/
structure KernelNeeds.Met (N : KernelNeeds) (reg : Nat) (l r : Nat → Int) (rd : Nat) : Prop where
  pair : ∀ d, d < rd → N.pair (l d) (r d)
  pad : N.pad → ∀ d, rd ≤ d → d < roundUp reg rd → l d * r d = 0

/-- No needs. -/
def KernelNeeds.none : KernelNeeds := { pair := fun _ _ => True, pad := False, int := False }

/-- What every kernel has to do (the contract documented at internal/kernel.h:214-228): compute
the product of the two packed runs and overwrite (`start_depth = 0`) or accumulate into the
destination block, touching nothing else.  The destination is column-major (`dst_row_stride = 1`;
most kernels ignore that argument), blocks start at multiples of the number of rows of the kernel
(some kernels need aligned blocks), and the run is not empty.

The packed runs are followed by padding up to a multiple of `kRegisterSize`, which a kernel may read;
an entry has to be right if the operands that contribute to it are as the kernel needs them. -/
def KernelOk (mode : OvMode) (k : KernelFormat) (reg : Nat) (N : KernelNeeds) (run : KernelRun) :
    Prop :=
  ∀ (dst : Buf (BitVec 32)) (dp rs cs : Nat) (lhs : Buf UInt8) (lp : Nat) (rhs : Buf UInt8)
    (rp sd rd : Nat),
    rs = 1 → k.kRows ∣ dp → k.kRows ∣ cs → 0 < rd → k.kDepth ∣ rd →
    (N.int → rd ≤ 2147483647) →
    lp + k.kRows * roundUp reg rd ≤ lhs.size → rp + k.kCols * roundUp reg rd ≤ rhs.size →
    (∀ r c, r < k.kRows → c < k.kCols → dp + (r * rs + c * cs) < dst.size) →
    (∀ r c r' c', r < k.kRows → c < k.kCols → r' < k.kRows → c' < k.kCols →
      r * rs + c * cs = r' * rs + c' * cs → r = r' ∧ c = c') →
    (mode = .trap → (rd : Int) * 65025 ≤ 2147483647 ∧ ∀ r c, r < k.kRows → c < k.kCols →
      InI32 (kernelExact k dst lhs lp rhs rp sd rd (dp + (r * rs + c * cs)) r c)) →
    ∃ dst', run dst dp rs cs lhs lp rhs rp sd rd = .ok dst' ∧ dst'.size = dst.size ∧
      (∀ r c, r < k.kRows → c < k.kCols →
        N.Met reg (runCoeff k.lhs lhs lp r) (runCoeff k.rhs rhs rp c) rd →
        dst'.get (dp + (r * rs + c * cs)) =
        BitVec.ofInt 32 (kernelExact k dst lhs lp rhs rp sd rd (dp + (r * rs + c * cs)) r c)) ∧
      (∀ j, (∀ r c, r < k.kRows → c < k.kCols → j ≠ dp + (r * rs + c * cs)) →
        dst'.get j = dst.get j)

/-- The kernel meets its contract: either the one for machine arithmetic, or, for a kernel written in
C++ that takes any operands, the one that presumes that the exact values fit. -/
def KernelMeets (mode : OvMode) (k : KernelFormat) (reg : Nat) (N : KernelNeeds) (run : KernelRun) :
    Prop :=
  ∃ m, KernelOk m k reg N run ∧ (m = .trap → mode = .trap ∧ (∀ x y, N.pair x y) ∧ ¬ N.pad)

/-! ## The reference kernel meets the contract -/

theorem kval_bound (f : SideFormat) (b : UInt8) : -128 ≤ f.kval b ∧ f.kval b ≤ 255 := by
  have := b.toNat_lt
  unfold SideFormat.kval
  split
  · omega
  · split <;> omega
  · split <;> omega

theorem prod_bound {a b A B : Int} (ha : -A ≤ a ∧ a ≤ A) (hb : -B ≤ b ∧ b ≤ B) (hA : 0 ≤ A) :
    -(A * B) ≤ a * b ∧ a * b ≤ A * B := by
  have h1 : 0 ≤ (A - a) * (B - b) := Int.mul_nonneg (by omega) (by omega)
  have h2 : 0 ≤ (A + a) * (B + b) := Int.mul_nonneg (by omega) (by omega)
  have h3 : 0 ≤ (A - a) * (B + b) := Int.mul_nonneg (by omega) (by omega)
  have h4 : 0 ≤ (A + a) * (B - b) := Int.mul_nonneg (by omega) (by omega)
  simp only [Int.add_mul, Int.sub_mul, Int.mul_add, Int.mul_sub] at h1 h2 h3 h4
  omega

theorem runCoeff_bound (f : SideFormat) (b : Buf UInt8) (pos w d : Nat) :
    -255 ≤ runCoeff f b pos w d ∧ runCoeff f b pos w d ≤ 255 := by
  have := kval_bound f (b.get (pos + (d / f.cd * f.cells + w / f.cw) * f.cellSize +
    cellOff f (w % f.cw) (d % f.cd)))
  unfold runCoeff; omega

theorem term_bound (k : KernelFormat) (lhs rhs : Buf UInt8) (lp rp r c d : Nat) :
    -65025 ≤ runCoeff k.lhs lhs lp r d * runCoeff k.rhs rhs rp c d ∧
      runCoeff k.lhs lhs lp r d * runCoeff k.rhs rhs rp c d ≤ 65025 := by
  have := prod_bound (runCoeff_bound k.lhs lhs lp r d) (runCoeff_bound k.rhs rhs rp c d) (by omega)
  omega

section
variable {mode : OvMode} {k : KernelFormat} {reg : Nat}

/-- Accumulator progress: entry `(r, c)` holds the first `n r c` terms of its sum. -/
structure AccIs (R C : Nat) (T : Nat → Nat → Nat → Int) (n : Nat → Nat → Nat)
    (acc : Buf (BitVec 32)) : Prop where
  size : acc.size = R * C
  val : ∀ r c, r < R → c < C → acc.get (r + c * R) = BitVec.ofInt 32 (sumTo (n r c) (T r c))

theorem AccIs.congr {R C T n n' acc} (h : AccIs R C T n acc)
    (e : ∀ r c, r < R → c < C → n' r c = n r c) : AccIs R C T n' acc :=
  ⟨h.size, fun r c hr hc => by rw [e r c hr hc]; exact h.val r c hr hc⟩

theorem AccIs.step {R C T n acc} (h : AccIs R C T n acc) {r c : Nat} (hr : r < R) (_hc : c < C) :
    AccIs R C T (fun r' c' => if r' = r ∧ c' = c then n r c + 1 else n r' c')
      (acc.upd (r + c * R) (BitVec.ofInt 32 (sumTo (n r c + 1) (T r c)))) := by
  refine ⟨h.size, ?_⟩
  intro r' c' hr' hc'
  rw [Buf.upd_get]
  by_cases he : r' + c' * R = r + c * R
  · obtain ⟨rfl, rfl⟩ := mixed_inj hr' hr he
    simp
  · rw [if_neg he, if_neg (by rintro ⟨rfl, rfl⟩; exact he rfl)]
    exact h.val r' c' hr' hc'

/-- Range update of a two-argument counter. -/
def updBox (r0 r1 c0 c1 v : Nat) (n : Nat → Nat → Nat) : Nat → Nat → Nat :=
  fun r c => if (r0 ≤ r ∧ r < r1) ∧ (c0 ≤ c ∧ c < c1) then v else n r c

theorem updBox_empty {r0 r1 c0 c1 v : Nat} {n : Nat → Nat → Nat} (h : r1 ≤ r0 ∨ c1 ≤ c0) :
    updBox r0 r1 c0 c1 v n = n := by
  funext r c; unfold updBox; rw [if_neg (by omega)]

theorem updBox_in {r0 r1 c0 c1 v r c : Nat} {n : Nat → Nat → Nat}
    (h : (r0 ≤ r ∧ r < r1) ∧ (c0 ≤ c ∧ c < c1)) : updBox r0 r1 c0 c1 v n r c = v := by
  unfold updBox; rw [if_pos h]

theorem updBox_out {r0 r1 c0 c1 v r c : Nat} {n : Nat → Nat → Nat}
    (h : ¬ ((r0 ≤ r ∧ r < r1) ∧ (c0 ≤ c ∧ c < c1))) : updBox r0 r1 c0 c1 v n r c = n r c := by
  unfold updBox; rw [if_neg h]

theorem cell_ix {cw cells a b : Nat} (ha : a < cw) (hb : b < cells) :
    a + b * cw < cw * cells ∧ (a + b * cw) / cw = b ∧ (a + b * cw) % cw = a := by
  refine ⟨mixed_lt ha hb, ?_, ?_⟩
  · rw [Nat.add_mul_div_right _ _ (by omega), Nat.div_eq_of_lt ha]; omega
  · rw [Nat.add_mul_mod_self_right]; exact Nat.mod_eq_of_lt ha

theorem run_read {f : SideFormat} (hf : f.WF reg) {b : Buf UInt8} {pos dc wc wi di rd : Nat}
    (hwi : wi < f.cw) (hwc : wc < f.cells) (hdi : di < f.cd) (hdc : dc * f.cd + f.cd ≤ rd)
    (hsz : pos + f.kw * rd ≤ b.size) :
    ∃ v, b.read (pos + (dc * f.cells + wc) * f.cw * f.cd + cellOff f wi di) = .ok v ∧
      f.kval v = runCoeff f b pos (wi + wc * f.cw) (di + dc * f.cd) := by
  obtain ⟨_, e1, e2⟩ := cell_ix hwi hwc
  obtain ⟨_, e3, e4⟩ := cell_ix (cells := dc + 1) hdi (Nat.lt_succ_self dc)
  have hoff := cellOff_lt hf hwi hdi
  have hlt : (dc * f.cells + wc) * f.cw * f.cd + cellOff f wi di < f.kw * rd := by
    have h1 : (dc * f.cells + wc + 1) * (f.cw * f.cd) ≤ (dc + 1) * f.cells * (f.cw * f.cd) := by
      apply Nat.mul_le_mul_right
      rw [Nat.add_mul]; omega
    have h2 : (dc + 1) * f.cells * (f.cw * f.cd) = f.kw * (dc * f.cd + f.cd) := by
      unfold SideFormat.kw
      rw [show dc * f.cd + f.cd = (dc + 1) * f.cd by rw [Nat.add_mul]; omega]
      ac_rfl
    have h3 : f.kw * (dc * f.cd + f.cd) ≤ f.kw * rd := Nat.mul_le_mul_left _ hdc
    rw [Nat.add_mul _ 1, Nat.one_mul] at h1
    have h4 : (dc * f.cells + wc) * f.cw * f.cd = (dc * f.cells + wc) * (f.cw * f.cd) :=
      Nat.mul_assoc _ _ _
    unfold SideFormat.cellSize at hoff
    omega
  refine ⟨b.get (pos + (dc * f.cells + wc) * f.cw * f.cd + cellOff f wi di),
    Buf.read_ok (by omega), ?_⟩
  unfold runCoeff SideFormat.cellSize
  rw [e1, e2, e3, e4, Nat.mul_assoc]

theorem referenceKernel_acc (hk : k.WF reg) {lhs rhs : Buf UInt8} {lp rp rd : Nat}
    (hd : k.kDepth ∣ rd)
    (hl : lp + k.kRows * rd ≤ lhs.size) (hr : rp + k.kCols * rd ≤ rhs.size)
    (hm : mode = .trap → (rd : Int) * 65025 ≤ 2147483647) :
    ∃ acc, forLoop 0 (rd / k.kDepth) 1 (fun dc acc =>
      forLoop 0 k.lhs.cells 1 (fun rc acc =>
        let lhsCell := lp + (dc * k.lhs.cells + rc) * k.lhs.cw * k.kDepth
        forLoop 0 k.rhs.cells 1 (fun cc acc =>
          let rhsCell := rp + (dc * k.rhs.cells + cc) * k.rhs.cw * k.kDepth
          forLoop 0 k.kDepth 1 (fun di acc =>
            forLoop 0 k.lhs.cw 1 (fun ri acc =>
              forLoop 0 k.rhs.cw 1 (fun ci acc => do
                let lo ← offsetIntoCell k.lhs ri di
                let ro ← offsetIntoCell k.rhs ci di
                let l ← lhs.read (lhsCell + lo)
                let r ← rhs.read (rhsCell + ro)
                let i := (ri + rc * k.lhs.cw) + (ci + cc * k.rhs.cw) * k.kRows
                let prod ← mul32 mode (BitVec.ofInt 32 (k.lhs.kval l)) (BitVec.ofInt 32 (k.rhs.kval r))
                let old ← acc.read i
                let new ← add32 mode old prod
                acc.write i new) acc) acc) acc) acc) acc)
        ({ size := k.kRows * k.kCols, get := fun _ => 0#32 } : Buf (BitVec 32)) = .ok acc ∧
      AccIs k.kRows k.kCols (fun r c d => runCoeff k.lhs lhs lp r d * runCoeff k.rhs rhs rp c d)
        (fun _ _ => rd) acc := by
  obtain ⟨N, hN⟩ := hd
  have hdpos : 0 < k.kDepth := hk.lhs.cd_pos
  have hrc : k.rhs.cd = k.kDepth := hk.depth.symm
  have hlc : k.lhs.cd = k.kDepth := rfl
  have hND : rd / k.kDepth = N := by rw [hN, Nat.mul_div_cancel_left _ hdpos]
  rw [hND]
  -- depth cells
  refine forLoop_post
    (fun dc acc => AccIs k.kRows k.kCols
      (fun r c d => runCoeff k.lhs lhs lp r d * runCoeff k.rhs rhs rp c d)
      (fun _ _ => dc * k.kDepth) acc)
    ⟨rfl, by intro r c _ _; rw [Nat.zero_mul]; rfl⟩
    (by
      intro acc h2
      refine h2.congr ?_
      intro r c _ _
      rw [hN, Nat.mul_comm]) ?_
  intro dc a0 hdc hA0
  have hdcr : dc * k.kDepth + k.kDepth ≤ rd := by
    have := Nat.mul_le_mul_left k.kDepth hdc
    rw [Nat.succ_eq_add_one, Nat.mul_add, Nat.mul_comm k.kDepth dc] at this; omega
  -- LHS cells
  refine forLoop_post
    (fun rc acc => AccIs k.kRows k.kCols
      (fun r c d => runCoeff k.lhs lhs lp r d * runCoeff k.rhs rhs rp c d)
      (updBox 0 (rc * k.lhs.cw) 0 k.kCols (dc * k.kDepth + k.kDepth)
        (fun _ _ => dc * k.kDepth)) acc)
    (by rw [updBox_empty (by omega)]; exact hA0)
    (by
      intro acc h2
      refine h2.congr ?_
      intro r c hr hc
      have hkr : k.kRows = k.lhs.cells * k.lhs.cw := Nat.mul_comm _ _
      rw [updBox_in (by omega), Nat.add_mul, Nat.one_mul]) ?_
  intro rc a1 hrc' hA1
  -- RHS cells
  refine forLoop_post
    (fun cc acc => AccIs k.kRows k.kCols
      (fun r c d => runCoeff k.lhs lhs lp r d * runCoeff k.rhs rhs rp c d)
      (updBox (rc * k.lhs.cw) (rc * k.lhs.cw + k.lhs.cw) 0 (cc * k.rhs.cw)
        (dc * k.kDepth + k.kDepth)
        (updBox 0 (rc * k.lhs.cw) 0 k.kCols (dc * k.kDepth + k.kDepth)
          (fun _ _ => dc * k.kDepth))) acc)
    (by rw [updBox_empty (by omega)]; exact hA1)
    (by
      intro acc h2
      refine h2.congr ?_
      intro r c _ hc
      rw [Nat.add_mul, Nat.one_mul]
      have hkc : k.kCols = k.rhs.cells * k.rhs.cw := Nat.mul_comm _ _
      by_cases hin : (rc * k.lhs.cw ≤ r ∧ r < rc * k.lhs.cw + k.lhs.cw) ∧
          (0 ≤ c ∧ c < k.rhs.cells * k.rhs.cw)
      · rw [updBox_in hin, updBox_in (by omega)]
      · rw [updBox_out hin]
        by_cases hin2 : (0 ≤ r ∧ r < rc * k.lhs.cw) ∧ (0 ≤ c ∧ c < k.kCols)
        · rw [updBox_in hin2, updBox_in (by omega)]
        · rw [updBox_out hin2, updBox_out (by omega)]) ?_
  intro cc a2 hcc hA2
  -- depth in the cell
  refine forLoop_post
    (fun di acc => AccIs k.kRows k.kCols
      (fun r c d => runCoeff k.lhs lhs lp r d * runCoeff k.rhs rhs rp c d)
      (updBox (rc * k.lhs.cw) (rc * k.lhs.cw + k.lhs.cw)
        (cc * k.rhs.cw) (cc * k.rhs.cw + k.rhs.cw) (dc * k.kDepth + di)
      (updBox (rc * k.lhs.cw) (rc * k.lhs.cw + k.lhs.cw) 0 (cc * k.rhs.cw)
        (dc * k.kDepth + k.kDepth)
        (updBox 0 (rc * k.lhs.cw) 0 k.kCols (dc * k.kDepth + k.kDepth)
          (fun _ _ => dc * k.kDepth)))) acc)
    (hA2.congr (by
      intro r c _ _
      by_cases hin : (rc * k.lhs.cw ≤ r ∧ r < rc * k.lhs.cw + k.lhs.cw) ∧
        (cc * k.rhs.cw ≤ c ∧ c < cc * k.rhs.cw + k.rhs.cw)
      · rw [updBox_in hin, updBox_out (by omega), updBox_out (by omega)]; rfl
      · rw [updBox_out hin]))
    (by
      intro acc h2
      refine h2.congr ?_
      intro r c _ _
      rw [Nat.add_mul cc, Nat.one_mul]
      by_cases hin : (rc * k.lhs.cw ≤ r ∧ r < rc * k.lhs.cw + k.lhs.cw) ∧
        (cc * k.rhs.cw ≤ c ∧ c < cc * k.rhs.cw + k.rhs.cw)
      · rw [updBox_in hin, updBox_in (by omega)]
      · rw [updBox_out hin]
        by_cases hin2 : (rc * k.lhs.cw ≤ r ∧ r < rc * k.lhs.cw + k.lhs.cw) ∧
          (0 ≤ c ∧ c < cc * k.rhs.cw)
        · rw [updBox_in hin2, updBox_in (by omega)]
        · rw [updBox_out hin2, updBox_out (by omega)]) ?_
  intro di a3 hdi hA3
  generalize hn0 : (updBox (rc * k.lhs.cw) (rc * k.lhs.cw + k.lhs.cw) 0
    (cc * k.rhs.cw) (dc * k.kDepth + k.kDepth)
    (updBox 0 (rc * k.lhs.cw) 0 k.kCols (dc * k.kDepth + k.kDepth)
      (fun _ _ => dc * k.kDepth))) = n0 at hA3 ⊢
  -- rows of the cell
  refine forLoop_post
    (fun ri acc => AccIs k.kRows k.kCols
      (fun r c d => runCoeff k.lhs lhs lp r d * runCoeff k.rhs rhs rp c d)
      (updBox (rc * k.lhs.cw) (rc * k.lhs.cw + ri)
        (cc * k.rhs.cw) (cc * k.rhs.cw + k.rhs.cw) (dc * k.kDepth + di + 1)
      (updBox (rc * k.lhs.cw) (rc * k.lhs.cw + k.lhs.cw)
        (cc * k.rhs.cw) (cc * k.rhs.cw + k.rhs.cw) (dc * k.kDepth + di) n0)) acc)
    (by rw [updBox_empty (by omega)]; exact hA3)
    (by
      intro acc h2
      refine h2.congr ?_
      intro r c _ _
      by_cases hin : (rc * k.lhs.cw ≤ r ∧ r < rc * k.lhs.cw + k.lhs.cw) ∧
        (cc * k.rhs.cw ≤ c ∧ c < cc * k.rhs.cw + k.rhs.cw)
      · rw [updBox_in hin, updBox_in hin]; rfl
      · rw [updBox_out hin, updBox_out hin, updBox_out hin]) ?_
  intro ri a4 hri hA4
  -- columns of the cell
  refine forLoop_post
    (fun ci acc => AccIs k.kRows k.kCols
      (fun r c d => runCoeff k.lhs lhs lp r d * runCoeff k.rhs rhs rp c d)
      (updBox (rc * k.lhs.cw + ri) (rc * k.lhs.cw + ri + 1)
        (cc * k.rhs.cw) (cc * k.rhs.cw + ci) (dc * k.kDepth + di + 1)
      (updBox (rc * k.lhs.cw) (rc * k.lhs.cw + ri)
        (cc * k.rhs.cw) (cc * k.rhs.cw + k.rhs.cw) (dc * k.kDepth + di + 1)
      (updBox (rc * k.lhs.cw) (rc * k.lhs.cw + k.lhs.cw)
        (cc * k.rhs.cw) (cc * k.rhs.cw + k.rhs.cw) (dc * k.kDepth + di) n0)))
        acc)
    (by rw [updBox_empty (by omega)]; exact hA4)
    (by
      intro acc h2
      refine h2.congr ?_
      intro r c _ _
      by_cases hin : (rc * k.lhs.cw + ri ≤ r ∧ r < rc * k.lhs.cw + ri + 1) ∧
        (cc * k.rhs.cw ≤ c ∧ c < cc * k.rhs.cw + k.rhs.cw)
      · rw [updBox_in hin, updBox_in (by omega)]
      · rw [updBox_out hin]
        by_cases hin2 : (rc * k.lhs.cw ≤ r ∧ r < rc * k.lhs.cw + ri) ∧
          (cc * k.rhs.cw ≤ c ∧ c < cc * k.rhs.cw + k.rhs.cw)
        · rw [updBox_in hin2, updBox_in (by omega)]
        · rw [updBox_out hin2, updBox_out (by omega)]) ?_
  intro ci a5 hci hA5
  obtain ⟨lv, r1, r2⟩ := run_read (wc := rc) (dc := dc) (rd := rd)
    hk.lhs hri hrc' hdi (by rw [hlc]; exact hdcr) hl
  obtain ⟨rv, s1, s2⟩ := run_read (wc := cc) (dc := dc) (rd := rd)
    (di := di) hk.rhs hci hcc (by rw [hrc]; exact hdi)
    (by rw [hrc]; exact hdcr) hr
  rw [hlc] at r1 r2
  rw [hrc] at s1 s2
  have hR := (cell_ix hri hrc').1
  have hC := (cell_ix hci hcc).1
  have hst := hA5.step (r := ri + rc * k.lhs.cw) (c := ci + cc * k.rhs.cw) hR hC
  rw [updBox_out (by omega), updBox_out (by omega), updBox_in (by omega)] at hst
  have hval := hA5.val (ri + rc * k.lhs.cw) (ci + cc * k.rhs.cw) hR hC
  rw [updBox_out (by omega), updBox_out (by omega), updBox_in (by omega)] at hval
  have htb : ∀ d, -65025 ≤ runCoeff k.lhs lhs lp (ri + rc * k.lhs.cw) d *
      runCoeff k.rhs rhs rp (ci + cc * k.rhs.cw) d ∧
      runCoeff k.lhs lhs lp (ri + rc * k.lhs.cw) d *
      runCoeff k.rhs rhs rp (ci + cc * k.rhs.cw) d ≤ 65025 :=
    fun d => term_bound k lhs rhs lp rp _ _ d
  refine ⟨_, ?_, hst.congr ?_⟩
  · rw [offsetIntoCell_ok hk.lhs, ok_bind, offsetIntoCell_ok hk.rhs,
      ok_bind, r1, ok_bind, s1, ok_bind]
    dsimp only
    rw [r2, s2, mul32_ofInt, ok_bind, Buf.read_ok (by
      rw [hA5.size]; exact mixed_lt hR hC), ok_bind, hval, add32_ofInt,
      ok_bind, Buf.write_ok (by rw [hA5.size]; exact mixed_lt hR hC)]
    · rw [Nat.add_comm di, ← sumTo_succ (dc * k.kDepth + di) (fun d =>
        runCoeff k.lhs lhs lp (ri + rc * k.lhs.cw) d *
          runCoeff k.rhs rhs rp (ci + cc * k.rhs.cw) d)]
    · intro hmt
      have hmm := hm hmt
      have b0 := htb (di + dc * k.kDepth)
      have b1 := sumTo_bound (n := dc * k.kDepth + di) (B := 65025)
        (fun i _ => htb i)
      have b2 := sumTo_bound (n := dc * k.kDepth + di + 1) (B := 65025)
        (fun i _ => htb i)
      rw [sumTo_succ] at b2
      rw [Nat.add_comm di] at b0 ⊢
      unfold InI32
      omega
    · intro _
      have b0 := htb (di + dc * k.kDepth)
      have b1 := runCoeff_bound k.lhs lhs lp (ri + rc * k.lhs.cw) (di + dc * k.kDepth)
      have b2 := runCoeff_bound k.rhs rhs rp (ci + cc * k.rhs.cw) (di + dc * k.kDepth)
      unfold InI32
      omega
  · intro r c _ _
    by_cases hin : r = ri + rc * k.lhs.cw ∧ c = ci + cc * k.rhs.cw
    · rw [if_pos hin, updBox_in (by omega)]
    · rw [if_neg hin]
      by_cases hin2 : (rc * k.lhs.cw + ri ≤ r ∧ r < rc * k.lhs.cw + ri + 1) ∧
        (cc * k.rhs.cw ≤ c ∧ c < cc * k.rhs.cw + ci)
      · rw [updBox_in hin2, updBox_in (by omega)]
      · rw [updBox_out hin2, updBox_out (by omega)]

/-- Nested row/column store loops: every entry of the block gets its value, nothing else moves. -/
theorem storeBlock_ok {R C dp rs cs : Nat} {dst : Buf (BitVec 32)}
    {f : Nat → Nat → Buf (BitVec 32) → M (Buf (BitVec 32))} {v : Nat → Nat → BitVec 32}
    (hsz : ∀ r c, r < R → c < C → dp + (r * rs + c * cs) < dst.size)
    (hinj : ∀ r c r' c', r < R → c < C → r' < R → c' < C →
      r * rs + c * cs = r' * rs + c' * cs → r = r' ∧ c = c')
    (hf : ∀ r c d, r < R → c < C → d.size = dst.size →
      d.get (dp + (r * rs + c * cs)) = dst.get (dp + (r * rs + c * cs)) →
      f r c d = .ok (d.upd (dp + (r * rs + c * cs)) (v r c))) :
    ∃ dst', forLoop 0 R 1 (fun r d => forLoop 0 C 1 (fun c d => f r c d) d) dst = .ok dst' ∧
      dst'.size = dst.size ∧
      (∀ r c, r < R → c < C → dst'.get (dp + (r * rs + c * cs)) = v r c) ∧
      (∀ j, (∀ r c, r < R → c < C → j ≠ dp + (r * rs + c * cs)) → dst'.get j = dst.get j) := by
  have H := forLoop_inv1 (hi := R) (s := dst) (f := fun r d => forLoop 0 C 1 (fun c d => f r c d) d)
    (fun R' d => d.size = dst.size ∧
      (∀ r c, r < R → c < C → d.get (dp + (r * rs + c * cs)) =
        if r < R' then v r c else dst.get (dp + (r * rs + c * cs))) ∧
      (∀ j, (∀ r c, r < R → c < C → j ≠ dp + (r * rs + c * cs)) → d.get j = dst.get j))
    ⟨rfl, by intro r c _ _; simp, fun _ _ => rfl⟩
    (by
      intro r0 d hr0 ⟨hd1, hd2, hd3⟩
      obtain ⟨d', e1, e2, e3, e4⟩ := forLoop_inv1 (hi := C) (s := d) (f := fun c d => f r0 c d)
        (fun C' d => d.size = dst.size ∧
          (∀ r c, r < R → c < C → d.get (dp + (r * rs + c * cs)) =
            if r < r0 ∨ (r = r0 ∧ c < C') then v r c else dst.get (dp + (r * rs + c * cs))) ∧
          (∀ j, (∀ r c, r < R → c < C → j ≠ dp + (r * rs + c * cs)) → d.get j = dst.get j))
        ⟨hd1, by intro r c hr hc; rw [hd2 r c hr hc]; simp, hd3⟩
        (by
          intro c0 d1 hc0 ⟨g1, g2, g3⟩
          refine ⟨d1.upd (dp + (r0 * rs + c0 * cs)) (v r0 c0), hf r0 c0 d1 hr0 hc0 g1 ?_, g1, ?_, ?_⟩
          · rw [g2 r0 c0 hr0 hc0, if_neg (by omega)]
          · intro r c hr hc
            rw [Buf.upd_get]
            by_cases he : dp + (r * rs + c * cs) = dp + (r0 * rs + c0 * cs)
            · obtain ⟨rfl, rfl⟩ := hinj r c r0 c0 hr hc hr0 hc0 (by omega)
              rw [if_pos rfl, if_pos (by omega)]
            · rw [if_neg he, g2 r c hr hc]
              have : ¬ (r = r0 ∧ c = c0) := by rintro ⟨rfl, rfl⟩; exact he rfl
              by_cases hin : r < r0 ∨ (r = r0 ∧ c < c0)
              · rw [if_pos hin, if_pos (by omega)]
              · rw [if_neg hin, if_neg (by omega)]
          · intro j hj
            rw [Buf.upd_get, if_neg (hj r0 c0 hr0 hc0)]
            exact g3 j hj)
      refine ⟨d', e1, e2, ?_, e4⟩
      intro r c hr hc
      rw [e3 r c hr hc]
      by_cases hin : r < r0 + 1
      · rw [if_pos hin, if_pos (by omega)]
      · rw [if_neg hin, if_neg (by omega)])
  obtain ⟨d, h1, h2, h3, h4⟩ := H
  exact ⟨d, h1, h2, fun r c hr hc => by rw [h3 r c hr hc, if_pos hr], h4⟩

theorem referenceKernel_ok (hk : k.WF reg) :
    KernelOk mode k reg .none (referenceKernel mode k) := by
  intro dst dp rs cs lhs lp rhs rp sd rd _ _ _ _ hd _ hl hr hsz hinj hm
  have hup : rd ≤ roundUp reg rd := le_roundUp hk.lhs.reg_pos rd
  replace hl : lp + k.kRows * rd ≤ lhs.size := by
    have := Nat.mul_le_mul_left k.kRows hup
    omega
  replace hr : rp + k.kCols * rd ≤ rhs.size := by
    have := Nat.mul_le_mul_left k.kCols hup
    omega
  suffices h : ∃ dst', referenceKernel mode k dst dp rs cs lhs lp rhs rp sd rd = .ok dst' ∧
      dst'.size = dst.size ∧
      (∀ r c, r < k.kRows → c < k.kCols → dst'.get (dp + (r * rs + c * cs)) =
        BitVec.ofInt 32 (kernelExact k dst lhs lp rhs rp sd rd (dp + (r * rs + c * cs)) r c)) ∧
      (∀ j, (∀ r c, r < k.kRows → c < k.kCols → j ≠ dp + (r * rs + c * cs)) →
        dst'.get j = dst.get j) by
    obtain ⟨d, h1, h2, h3, h4⟩ := h
    exact ⟨d, h1, h2, fun r c hr hc _ => h3 r c hr hc, h4⟩
  obtain ⟨acc, h1, h2⟩ := referenceKernel_acc (mode := mode) hk hd hl hr (fun h => (hm h).1)
  unfold referenceKernel
  dsimp only at h1 ⊢
  rw [h1, ok_bind]
  have hacc : ∀ r c, r < k.kRows → c < k.kCols → acc.read (r + c * k.kRows) =
      .ok (BitVec.ofInt 32 (sumTo rd
        (fun d => runCoeff k.lhs lhs lp r d * runCoeff k.rhs rhs rp c d))) := by
    intro r c hr hc
    rw [Buf.read_ok (by rw [h2.size]; exact mixed_lt hr hc), h2.val r c hr hc]
  by_cases h0 : sd = 0
  · rw [if_pos h0]
    apply storeBlock_ok hsz hinj
    intro r c d hr hc hds _
    rw [hacc r c hr hc, ok_bind, Buf.write_ok (by rw [hds]; exact hsz r c hr hc)]
    unfold kernelExact
    rw [if_pos h0, Int.zero_add]
  · rw [if_neg h0]
    apply storeBlock_ok hsz hinj
    intro r c d hr hc hds hold
    rw [hacc r c hr hc, ok_bind, Buf.read_ok (by rw [hds]; exact hsz r c hr hc), ok_bind, hold]
    rw [← ofInt_toInt32 (dst.get _), add32_ofInt, ok_bind,
      Buf.write_ok (by rw [hds]; exact hsz r c hr hc)]
    · unfold kernelExact; rw [if_neg h0]
    · intro hmt
      obtain ⟨m1, m2⟩ := hm hmt
      have b := sumTo_bound (n := rd) (B := 65025) (fun d _ => term_bound k lhs rhs lp rp r c d)
      have m3 := m2 r c hr hc
      unfold kernelExact at m3
      rw [if_neg h0] at m3
      refine ⟨inI32_toInt _, ?_, m3⟩
      unfold InI32; omega

theorem referenceKernel_meets (hk : k.WF reg) :
    KernelMeets mode k reg .none (referenceKernel mode k) :=
  ⟨mode, referenceKernel_ok hk, fun h => ⟨h, fun _ _ => trivial, fun h => h⟩⟩

end

end Gemmlowp
