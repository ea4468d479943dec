import Verif.BenchRef
import Verif.BenchGoodA
import Verif.BenchGoodB
import Verif.BenchGoodC
import Verif.BenchOver
/-!
# C76: the kernels of the benchmark agree with its reference

`test_kernel` (standalone/neon-gemm-kernel-benchmark.cc:5728-5790) compares each kernel with `ReferenceKernel` on
one random input per depth, for the depths up to 1024.  Here the comparison is made for all inputs and depths.
-/
namespace Gemmlowp.Bench

/-- `Kernel::Run(lhs, rhs, accum, depth)`: the assembly with its loads from and stores to the accumulators.  The
registers `x` at the start are arbitrary.  A read outside the buffers is an error. -/
def Kern.Run (K : Kern) (x : Nat → DReg) (lhs rhs : Buf UInt8) (accum : Buf (BitVec 32)) (depth : Nat) :
    M (Buf (BitVec 32)) :=
  if (K.run ⟨lhs, rhs, accum.get⟩ depth ⟨x, 0, 0, true⟩).ok = true then
    .ok ⟨accum.size, fun k => if k < K.F.kRows * K.F.kCols then
      K.word (K.run ⟨lhs, rhs, accum.get⟩ depth ⟨x, 0, 0, true⟩) k else accum.get k⟩
  else .error .oob

/-- A buffer of `CacheLineAlignedBuffer` (lines 5652-5672) for `n` packed bytes: it has 16 more. -/
def allocated (n : Nat) : Nat := n + 16

/-- The first `n` values of the operand, read as its type, are from `lo` to `hi` (`KernelOperandRanges`,
lines 243-288). -/
def InRange (f : SideFormat) (b : Buf UInt8) (n : Nat) (lo hi : Int) : Prop :=
  ∀ i, i < n → lo ≤ f.kval (b.get i) ∧ f.kval (b.get i) ≤ hi

/-- Kernel and reference end without error and with the same accumulators. -/
def Agree (n : Nat) (a b : M (Buf (BitVec 32))) : Prop :=
  ∃ x y, a = .ok x ∧ b = .ok y ∧ x.size = n ∧ y.size = n ∧ ∀ k, k < n → x.get k = y.get k

namespace Kern

theorem gl_eq {K : Kern} (t : Nat) : t * K.gl = K.F.kRows * (t * K.F.kDepth) := by
  unfold gl KernelFormat.kRows KernelFormat.kDepth SideFormat.kw SideFormat.cellSize
  ring

theorem gr_eq {K : Kern} (hcd : K.F.rhs.cd = K.F.lhs.cd) (t : Nat) : t * K.gr = K.F.kCols * (t * K.F.kDepth) := by
  unfold gr KernelFormat.kCols KernelFormat.kDepth SideFormat.kw SideFormat.cellSize
  rw [hcd]
  ring

theorem inRange_first {f : SideFormat} {b : Buf UInt8} {n : Nat} {lo hi : Int} (h : InRange f b n lo hi)
    (hz : lo ≤ 0 ∧ 0 ≤ hi) (i : Nat) : lo ≤ f.kval ((firstBytes b n).get i) ∧ f.kval ((firstBytes b n).get i) ≤ hi := by
  unfold firstBytes
  dsimp only
  by_cases hi : i < n
  · rw [if_pos hi]; exact h i hi
  · rw [if_neg hi, kval_zero]; exact hz

/-- A kernel that passes the check agrees with the reference. -/
theorem Good.agree {K : Kern} (hG : Good K) (hc : K.c0 + K.cl ≤ 1) {reg : Nat} (hW : K.F.WF reg) {mode : OvMode}
    (hz : (K.lr.1 ≤ 0 ∧ 0 ≤ K.lr.2) ∧ K.rr.1 ≤ 0 ∧ 0 ≤ K.rr.2)
    (x : Nat → DReg) {lhs rhs : Buf UInt8} {accum : Buf (BitVec 32)} {depth : Nat} (h0 : 0 < depth)
    (hd : K.F.kDepth ∣ depth) (hl : K.F.kRows * depth + K.padL ≤ lhs.size)
    (hr : K.F.kCols * depth + K.padR ≤ rhs.size) (ha : accum.size = K.F.kRows * K.F.kCols)
    (hlr : InRange K.F.lhs lhs (K.F.kRows * depth + K.padL) K.lr.1 K.lr.2)
    (hrr : InRange K.F.rhs rhs (K.F.kCols * depth + K.padR) K.rr.1 K.rr.2)
    (hm : mode = .trap → ∀ r c n, r < K.F.kRows → c < K.F.kCols → n ≤ depth →
      InI32 ((accum.get (r + c * K.F.kRows)).toInt +
        sumTo n (fun d => runCoeff K.F.lhs lhs 0 r d * runCoeff K.F.rhs rhs 0 c d))) :
    Agree (K.F.kRows * K.F.kCols) (K.Run x lhs rhs accum depth) (reference mode K.F lhs rhs accum depth) := by
  have hP := check_parts hG.check
  have hdl : K.F.lhs.cd ∣ depth := hd
  have hdr : K.F.rhs.cd ∣ depth := by rw [hP.cd]; exact hd
  obtain ⟨t, rfl⟩ := hd
  have ht : K.c0 + K.cl ≤ t := by
    rcases Nat.eq_zero_or_pos t with h | h
    · rw [h] at h0; omega
    · omega
  obtain ⟨y, hy, hA⟩ := reference_ok (mode := mode) hW (Nat.dvd_mul_right _ _) (by omega) (by omega) ha
    (b := fun r c => (accum.get (r + c * K.F.kRows)).toInt) (fun r c _ _ => (ofInt_toInt32 _).symm) hm
  rw [Nat.mul_comm K.F.kDepth t] at hl hr hy hA hlr hrr hdl hdr ⊢
  let m' : Mem := ⟨firstBytes lhs (K.F.kRows * (t * K.F.kDepth) + K.padL),
    firstBytes rhs (K.F.kCols * (t * K.F.kDepth) + K.padR), accum.get⟩
  have hpart : m'.Part ⟨lhs, rhs, accum.get⟩ := part_first (m := ⟨lhs, rhs, accum.get⟩) hl hr
  obtain ⟨hok', hw⟩ := run_ok hG (m := m') ht ⟨inRange_first hlr hz.1, inRange_first hrr hz.2⟩
    ⟨by rw [gl_eq]; exact Nat.le_refl _, by rw [gr_eq hP.cd]; exact Nat.le_refl _⟩ x
  have hsame := Kern.run_part hpart hok'
  have hok : (K.run ⟨lhs, rhs, accum.get⟩ (t * K.F.kDepth) ⟨x, 0, 0, true⟩).ok = true := by rw [hsame]; exact hok'
  have hrun : K.Run x lhs rhs accum (t * K.F.kDepth) = .ok ⟨accum.size, fun k =>
      if k < K.F.kRows * K.F.kCols then
        K.word (K.run ⟨lhs, rhs, accum.get⟩ (t * K.F.kDepth) ⟨x, 0, 0, true⟩) k else accum.get k⟩ := if_pos hok
  refine ⟨_, y, hrun, hy, ha, hA.size, fun k hk => ?_⟩
  show (if k < K.F.kRows * K.F.kCols then _ else _) = _
  rw [if_pos hk, hsame, hw k hk]
  have hR : 0 < K.F.kRows := by
    rcases Nat.eq_zero_or_pos K.F.kRows with h | h
    · rw [h, Nat.zero_mul] at hk; omega
    · exact h
  have hv := hA.val (k % K.F.kRows) (k / K.F.kRows) (Nat.mod_lt _ hR)
    (Nat.div_lt_of_lt_mul hk)
  have e : k % K.F.kRows + k / K.F.kRows * K.F.kRows = k := by rw [Nat.mul_comm]; exact Nat.mod_add_div k _
  rw [e] at hv
  rw [hv]
  unfold cellsSum
  rw [Nat.mul_comm K.F.kDepth t]
  show accum.get k + _ = _
  rw [BitVec.ofInt_add, ofInt_toInt32]
  congr 2
  refine sumTo_congr (fun d hd => ?_)
  have e1 : runCoeff K.F.lhs m'.lhs 0 (k % K.F.kRows) d = runCoeff K.F.lhs lhs 0 (k % K.F.kRows) d :=
    runCoeff_first hW.lhs (Nat.le_add_right _ _) hl (Nat.mod_lt _ hR) hdl hd
  have e2 : runCoeff K.F.rhs m'.rhs 0 (k / K.F.kRows) d = runCoeff K.F.rhs rhs 0 (k / K.F.kRows) d :=
    runCoeff_first hW.rhs (Nat.le_add_right _ _) hr (Nat.div_lt_of_lt_mul hk) hdr hd
  rw [e1, e2]

end Kern

theorem inRange_u8 {f : SideFormat} (h : f.scalar = .uint8) (b : Buf UInt8) (n : Nat) : InRange f b n 0 255 := by
  intro i _
  have := (b.get i).toNat_lt
  unfold SideFormat.kval
  rw [h]
  dsimp only
  omega

/-! ## The kernels with `uint32_t` accumulators -/

/-- The kernels for `uint8_t` operands that stay within the buffers of the benchmark: ARM, ARM without expansion,
AArch64, AArch64 for A57, AArch64 with dot products, and the two for MSA. -/
def uint8Kernels : List Kern := [arm8, armNoexpand, a64u8, a64Noexpand, a64Dot, a64Narrow, msa1, msa2]

theorem wf16 {f : KernelFormat} (h1 : 0 < f.lhs.cw ∧ 0 < f.lhs.cd ∧ 0 < f.lhs.cells ∧ f.lhs.order ≠ .diagonal ∧
    16 % f.lhs.cd = 0) (h2 : 0 < f.rhs.cw ∧ 0 < f.rhs.cells ∧ f.rhs.order ≠ .diagonal)
    (h3 : f.lhs.cd = f.rhs.cd) : f.WF 16 :=
  ⟨⟨h1.1, h1.2.1, h1.2.2.1, fun h => absurd h h1.2.2.2.1, Nat.dvd_of_mod_eq_zero h1.2.2.2.2, by decide⟩,
   ⟨h2.1, h3 ▸ h1.2.1, h2.2.1, fun h => absurd h h2.2.2, h3 ▸ Nat.dvd_of_mod_eq_zero h1.2.2.2.2, by decide⟩, h3⟩

/-- What a kernel needs besides `Good`. -/
structure Fine (K : Kern) : Prop where
  good : K.Good
  cells : K.c0 + K.cl ≤ 1
  wf : K.F.WF 16
  u8 : K.F.lhs.scalar = .uint8 ∧ K.F.rhs.scalar = .uint8 ∧ K.lr = (0, 255) ∧ K.rr = (0, 255)

theorem uint8Kernels_fine : ∀ K ∈ uint8Kernels, Fine K ∧ K.padL ≤ 16 ∧ K.padR ≤ 16 := by
  intro K hK
  simp only [uint8Kernels, List.mem_cons, List.not_mem_nil, or_false] at hK
  rcases hK with rfl | rfl | rfl | rfl | rfl | rfl | rfl | rfl
  · exact ⟨⟨arm8_good, by decide, wf16 (by decide) (by decide) (by decide), by decide⟩, by decide, by decide⟩
  · exact ⟨⟨armNoexpand_good, by decide, wf16 (by decide) (by decide) (by decide), by decide⟩, by decide, by decide⟩
  · exact ⟨⟨a64u8_good, by decide, wf16 (by decide) (by decide) (by decide), by decide⟩, by decide, by decide⟩
  · exact ⟨⟨a64Noexpand_good, by decide, wf16 (by decide) (by decide) (by decide), by decide⟩, by decide, by decide⟩
  · exact ⟨⟨a64Dot_good, by decide, wf16 (by decide) (by decide) (by decide), by decide⟩, by decide, by decide⟩
  · exact ⟨⟨a64Narrow_good, by decide, wf16 (by decide) (by decide) (by decide), by decide⟩, by decide, by decide⟩
  · exact ⟨⟨msa1_good, by decide, wf16 (by decide) (by decide) (by decide), by decide⟩, by decide, by decide⟩
  · exact ⟨⟨msa2_good, by decide, wf16 (by decide) (by decide) (by decide), by decide⟩, by decide, by decide⟩

/-- **C76.**  Each of these kernels, run on the buffers of the benchmark with any operands, any accumulators and any
depth that is a positive multiple of the depth of its cells, reads within the buffers and leaves the accumulators
that the reference leaves. -/
theorem C76_uint8_kernels {K : Kern} (hK : K ∈ uint8Kernels) (x : Nat → DReg) {lhs rhs : Buf UInt8}
    {accum : Buf (BitVec 32)} {depth : Nat} (h0 : 0 < depth) (hd : K.F.kDepth ∣ depth)
    (hl : lhs.size = allocated (K.F.kRows * depth)) (hr : rhs.size = allocated (K.F.kCols * depth))
    (ha : accum.size = K.F.kRows * K.F.kCols) :
    Agree (K.F.kRows * K.F.kCols) (K.Run x lhs rhs accum depth) (reference .wrap K.F lhs rhs accum depth) := by
  obtain ⟨hf, p1, p2⟩ := uint8Kernels_fine K hK
  unfold allocated at hl hr
  refine hf.good.agree hf.cells hf.wf ?_ x h0 hd (by omega) (by omega) ha ?_ ?_ (fun h => by cases h)
  · rw [hf.u8.2.2.1, hf.u8.2.2.2]; decide
  · rw [hf.u8.2.2.1]; exact inRange_u8 hf.u8.1 lhs _
  · rw [hf.u8.2.2.2]; exact inRange_u8 hf.u8.2.1 rhs _

/-- Sizes for a run: 1000 levels of depth, 12x8 accumulators. -/
example : ∃ (lhs rhs : Buf UInt8) (accum : Buf (BitVec 32)), a64Dot ∈ uint8Kernels ∧ a64Dot.F.kDepth ∣ 1000 ∧
    lhs.size = allocated (a64Dot.F.kRows * 1000) ∧ rhs.size = allocated (a64Dot.F.kCols * 1000) ∧
    accum.size = a64Dot.F.kRows * a64Dot.F.kCols :=
  ⟨⟨12016, fun i => UInt8.ofNat i⟩, ⟨8016, fun i => UInt8.ofNat (3 * i)⟩, ⟨96, fun _ => 5#32⟩,
    by simp [uint8Kernels], by decide, by decide, by decide, by decide⟩

/-! ## The kernels with `int32_t` accumulators -/

/-- The accumulators of the reference, which are of type `int32_t`, do not overflow. -/
def NoOverflow (F : KernelFormat) (lhs rhs : Buf UInt8) (accum : Buf (BitVec 32)) (depth : Nat) : Prop :=
  ∀ r c n, r < F.kRows → c < F.kCols → n ≤ depth →
    InI32 ((accum.get (r + c * F.kRows)).toInt + sumTo n (fun d => runCoeff F.lhs lhs 0 r d * runCoeff F.rhs rhs 0 c d))

/-- With the accumulators of `test_kernel`, which are from -100 to 100 (lines 5744-5748), nothing overflows up to a
depth of 33000. -/
theorem noOverflow_test {F : KernelFormat} {accum : Buf (BitVec 32)}
    (ha : ∀ k, k < F.kRows * F.kCols → -100 ≤ (accum.get k).toInt ∧ (accum.get k).toInt ≤ 100) (lhs rhs : Buf UInt8)
    {depth : Nat} (hd : depth ≤ 33000) : NoOverflow F lhs rhs accum depth := by
  intro r c n hr hc hn
  have h1 := ha (r + c * F.kRows) (mixed_lt hr hc)
  have h2 := sumTo_bound (n := n) (B := 65025) (fun d _ => term_bound F lhs rhs 0 0 r c d)
  unfold InI32
  omega

theorem inRange_s8 {f : SideFormat} (h : f.scalar = .int8Inputs) (b : Buf UInt8) (n : Nat) :
    InRange f b n (-128) 127 := by
  intro i _
  have := (b.get i).toNat_lt
  unfold SideFormat.kval
  rw [h]
  dsimp only
  split <;> omega

/-- The kernels written with intrinsics for `uint8_t` operands, 12x4 and 12x8.  (Their names say `Uint32Accumulators`,
but `AccumulatorType` is `int32_t`.) -/
def intrinsicsKernels : List Kern := [intrU8 1, intrU8 2]

/-- **C76.**  These kernels leave the accumulators that the reference leaves, if the reference does not overflow. -/
theorem C76_uint8_intrinsics {K : Kern} (hK : K ∈ intrinsicsKernels) (x : Nat → DReg) {lhs rhs : Buf UInt8}
    {accum : Buf (BitVec 32)} {depth : Nat} (h0 : 0 < depth) (hd : 2 ∣ depth)
    (hl : lhs.size = allocated (K.F.kRows * depth)) (hr : rhs.size = allocated (K.F.kCols * depth))
    (ha : accum.size = K.F.kRows * K.F.kCols) (hno : NoOverflow K.F lhs rhs accum depth) :
    Agree (K.F.kRows * K.F.kCols) (K.Run x lhs rhs accum depth) (reference .trap K.F lhs rhs accum depth) := by
  unfold allocated at hl hr
  simp only [intrinsicsKernels, List.mem_cons, List.not_mem_nil, or_false] at hK
  rcases hK with rfl | rfl
  · exact intrU8_1_good.agree (by decide) (wf16 (by decide) (by decide) (by decide)) (by decide) x h0 hd
      (by show _ + 0 ≤ _; omega) (by show _ + 0 ≤ _; omega) ha (inRange_u8 rfl lhs _) (inRange_u8 rfl rhs _)
      (fun _ => hno)
  · exact intrU8_2_good.agree (by decide) (wf16 (by decide) (by decide) (by decide)) (by decide) x h0 hd
      (by show _ + 0 ≤ _; omega) (by show _ + 0 ≤ _; omega) ha (inRange_u8 rfl lhs _) (inRange_u8 rfl rhs _)
      (fun _ => hno)

/-- The kernels that add two products in 16 bits: ARM, AArch64, with intrinsics for both, and MSA. -/
def accumTwoKernels : List Kern := [armTwo, a64Two, intrTwo 2, intrTwo 4, msa3]

/-- Two products in 16 bits.  Partial: the right operands must not be -128, though the range that the benchmark sets
for these kernels is that of `int8_t` (finding F48). -/
theorem C76_accum_two_partial {K : Kern} (hK : K ∈ accumTwoKernels) (x : Nat → DReg) {lhs rhs : Buf UInt8}
    {accum : Buf (BitVec 32)} {depth : Nat} (h0 : 0 < depth) (hd : 16 ∣ depth)
    (hl : lhs.size = allocated (K.F.kRows * depth)) (hr : rhs.size = allocated (K.F.kCols * depth))
    (ha : accum.size = K.F.kRows * K.F.kCols) (hrr : InRange K.F.rhs rhs (K.F.kCols * depth) (-127) 127)
    (hno : NoOverflow K.F lhs rhs accum depth) :
    Agree (K.F.kRows * K.F.kCols) (K.Run x lhs rhs accum depth) (reference .trap K.F lhs rhs accum depth) := by
  unfold allocated at hl hr
  simp only [accumTwoKernels, List.mem_cons, List.not_mem_nil, or_false] at hK
  rcases hK with rfl | rfl | rfl | rfl | rfl
  · exact armTwo_good.agree (by decide) (wf16 (by decide) (by decide) (by decide)) (by decide) x h0 hd
      (by show _ + 0 ≤ _; omega) (by show _ + 0 ≤ _; omega) ha (inRange_s8 rfl lhs _) hrr (fun _ => hno)
  · exact a64Two_good.agree (by decide) (wf16 (by decide) (by decide) (by decide)) (by decide) x h0 hd
      (by show _ + 0 ≤ _; omega) (by show _ + 0 ≤ _; omega) ha (inRange_s8 rfl lhs _) hrr (fun _ => hno)
  · exact intrTwo2_good.agree (by decide) (wf16 (by decide) (by decide) (by decide)) (by decide) x h0 hd
      (by show _ + 0 ≤ _; omega) (by show _ + 0 ≤ _; omega) ha (inRange_s8 rfl lhs _) hrr (fun _ => hno)
  · exact intrTwo4_good.agree (by decide) (wf16 (by decide) (by decide) (by decide)) (by decide) x h0 hd
      (by show _ + 0 ≤ _; omega) (by show _ + 0 ≤ _; omega) ha (inRange_s8 rfl lhs _) hrr (fun _ => hno)
  · exact msa3_good.agree (by decide) (wf16 (by decide) (by decide) (by decide)) (by decide) x h0 hd
      (by show _ + 0 ≤ _; omega) (by show _ + 0 ≤ _; omega) ha (inRange_s8 rfl lhs _) hrr (fun _ => hno)

/-- **C76.**  The kernel written with intrinsics that adds eight products in 16 bits leaves the accumulators that the
reference leaves, for operands in the ranges of `SET_7BIT_RANGES`, if the reference does not overflow. -/
theorem C76_accum_eight_intrinsics (x : Nat → DReg) {lhs rhs : Buf UInt8} {accum : Buf (BitVec 32)} {depth : Nat}
    (h0 : 0 < depth) (hd : 16 ∣ depth) (hl : lhs.size = allocated (4 * depth)) (hr : rhs.size = allocated (2 * depth))
    (ha : accum.size = 8) (hlr : InRange intrSeven.F.lhs lhs (4 * depth) (-63) 63)
    (hrr : InRange intrSeven.F.rhs rhs (2 * depth) (-64) 63) (hno : NoOverflow intrSeven.F lhs rhs accum depth) :
    Agree 8 (intrSeven.Run x lhs rhs accum depth) (reference .trap intrSeven.F lhs rhs accum depth) := by
  unfold allocated at hl hr
  exact intrSeven_good.agree (by decide) (wf16 (by decide) (by decide) (by decide)) (by decide) x h0 hd
    (by show 4 * depth + 0 ≤ _; omega) (by show 2 * depth + 0 ≤ _; omega) ha hlr hrr (fun _ => hno)

/-- Eight products in 16 bits, operands in the ranges of `SET_7BIT_RANGES`.  Partial: the kernel reads 64 and 32
bytes after the packed operands, so the buffers of the benchmark are too small (finding F49); here they are larger,
and the bytes after the operands are in the ranges, too. -/
theorem C76_accum_eight_partial (x : Nat → DReg) {lhs rhs : Buf UInt8} {accum : Buf (BitVec 32)} {depth : Nat}
    (h0 : 0 < depth) (hd : 16 ∣ depth) (hl : 4 * depth + 64 ≤ lhs.size) (hr : 2 * depth + 32 ≤ rhs.size)
    (ha : accum.size = 8) (hlr : InRange a64Seven.F.lhs lhs (4 * depth + 64) (-63) 63)
    (hrr : InRange a64Seven.F.rhs rhs (2 * depth + 32) (-64) 63)
    (hno : NoOverflow a64Seven.F lhs rhs accum depth) :
    Agree 8 (a64Seven.Run x lhs rhs accum depth) (reference .trap a64Seven.F lhs rhs accum depth) :=
  a64Seven_good.agree (by decide) (wf16 (by decide) (by decide) (by decide)) (by decide) x h0 hd hl hr ha hlr hrr
    (fun _ => hno)

/-- Dot products, the variant for A55r1.  Partial: the kernel reads 32 bytes after the packed LHS, so the buffers of
the benchmark are too small (finding F49); here they are larger. -/
theorem C76_dotproduct_A55_partial (x : Nat → DReg) {lhs rhs : Buf UInt8} {accum : Buf (BitVec 32)} {depth : Nat}
    (h0 : 0 < depth) (hd : 4 ∣ depth) (hl : 12 * depth + 32 ≤ lhs.size) (hr : 8 * depth + 16 ≤ rhs.size)
    (ha : accum.size = 96) :
    Agree 96 (a64DotA55.Run x lhs rhs accum depth) (reference .wrap a64DotA55.F lhs rhs accum depth) :=
  a64DotA55_good.agree (by decide) (wf16 (by decide) (by decide) (by decide)) (by decide)
    x h0 hd hl hr ha (inRange_u8 rfl lhs _) (inRange_u8 rfl rhs _) (fun h => by cases h)

/-! ## Where the kernels fail -/

theorem a64DotA55_reads : a64DotA55.S0.hl = 80 ∧ (sym a64DotA55.R a64DotA55.body a64DotA55.T).hl = 80 := by
  decide +kernel

theorem a64Seven_reads : (sym a64Seven.R a64Seven.body a64Seven.T).hl = 128 ∧
    (sym a64Seven.R a64SevenWide a64Seven.T).hl = 320 := by decide +kernel

theorem Kern.Run_fault {K : Kern} {x : Nat → DReg} {lhs rhs : Buf UInt8} {accum : Buf (BitVec 32)} {depth : Nat}
    (h : (K.run ⟨lhs, rhs, accum.get⟩ depth ⟨x, 0, 0, true⟩).ok = false) :
    K.Run x lhs rhs accum depth = .error .oob := if_neg (by rw [h]; decide)

/-- **Finding F49.**  At every depth the dot product kernel for A55r1 reads outside the buffers of the benchmark,
whatever they contain: it starts to load the next cells before it knows whether there are any. -/
theorem C76_refuted_dotproduct_A55 (x : Nat → DReg) {lhs rhs : Buf UInt8} {accum : Buf (BitVec 32)} {depth : Nat}
    (h0 : 0 < depth) (hd : 4 ∣ depth) (hl : lhs.size = allocated (12 * depth)) (hr : rhs.size = allocated (8 * depth)) :
    a64DotA55.Run x lhs rhs accum depth = .error .oob := by
  apply Kern.Run_fault
  obtain ⟨t, rfl⟩ := hd
  unfold allocated at hl hr
  have hR : Kern.Ranges a64DotA55 ⟨lhs, rhs, accum.get⟩ :=
    ⟨fun i => inRange_u8 (f := a64DotA55.F.lhs) rfl lhs (i + 1) i (Nat.lt_succ_self i),
     fun i => inRange_u8 (f := a64DotA55.F.rhs) rfl rhs (i + 1) i (Nat.lt_succ_self i)⟩
  unfold Kern.run
  rw [if_neg (by show ¬ 4 * t < 4; omega)]
  apply exec_fault
  show (loopNZ _ a64DotA55.step a64DotA55.body (4 * t - 4) (exec _ a64DotA55.pre ⟨x, 0, 0, true⟩)).ok = false
  rcases Nat.lt_or_ge 1 t with h1 | h1
  · obtain ⟨n, rfl⟩ : ∃ n, t = n + 2 := ⟨t - 2, by omega⟩
    have hH := Kern.head_init a64DotA55_good hR (x := x)
      ⟨by show 1 * 48 + 32 ≤ lhs.size; omega, by show 1 * 32 + 16 ≤ rhs.size; omega⟩
    have := Kern.loopNZ_over a64DotA55_good n 1 _ hH
      ⟨by show (1 + n + 0) * 48 + 32 ≤ lhs.size; omega, by show (1 + n + 0) * 32 + 16 ≤ rhs.size; omega⟩
      (by rw [a64DotA55_reads.2]; show lhs.size < (1 + n) * 48 + 80; omega)
    rw [show (4 * (n + 2) - 4 : Nat) = (n + 1) * a64DotA55.F.kDepth by show _ = (n + 1) * 4; omega]
    exact this
  · apply loopNZ_fault
    rw [Bool.eq_false_iff]
    intro h
    have h2 := ((Kern.pre_ok a64DotA55_good.zero hR x).1 h).1
    rw [a64DotA55_reads.1] at h2
    have h3 : 80 ≤ lhs.size := h2
    omega

/-- **Finding F49.**  So does the kernel that adds eight products in 16 bits. -/
theorem C76_refuted_accum_eight (x : Nat → DReg) {lhs rhs : Buf UInt8} {accum : Buf (BitVec 32)} {depth : Nat}
    (h0 : 0 < depth) (hd : 16 ∣ depth) (hl : lhs.size = allocated (4 * depth)) (hr : rhs.size = allocated (2 * depth))
    (hlr : InRange a64Seven.F.lhs lhs lhs.size (-63) 63) (hrr : InRange a64Seven.F.rhs rhs rhs.size (-64) 63) :
    a64Seven.Run x lhs rhs accum depth = .error .oob := by
  apply Kern.Run_fault
  rw [Bool.eq_false_iff]
  intro hok
  obtain ⟨t, rfl⟩ := hd
  unfold allocated at hl hr
  -- the same buffers with zeros after their end
  have hsame := Kern.run_part (m' := ⟨lhs, rhs, accum.get⟩)
    (m := ⟨firstBytes lhs lhs.size, firstBytes rhs rhs.size, accum.get⟩)
    ⟨rfl, Nat.le_refl _, Nat.le_refl _, fun i hi => (if_pos hi).symm, fun i hi => (if_pos hi).symm⟩ hok
  rw [← hsame] at hok
  generalize hm : (⟨firstBytes lhs lhs.size, firstBytes rhs rhs.size, accum.get⟩ : Mem) = m at hok
  have hml : m.lhs.size = 4 * (16 * t) + 16 := by rw [← hm]; exact hl
  have hmr : m.rhs.size = 2 * (16 * t) + 16 := by rw [← hm]; exact hr
  have hR : Kern.Ranges a64Seven m := by
    rw [← hm]
    exact ⟨Kern.inRange_first hlr (by decide), Kern.inRange_first hrr (by decide)⟩
  have hP := Kern.check_parts a64Seven_good.check
  have hfits : ∀ u, u < t → Kern.Fits a64Seven m u := fun u hu =>
    ⟨by show u * 64 + 64 ≤ _; omega, by show u * 32 + 32 ≤ _; omega⟩
  have hH := Kern.head_init a64Seven_good hR (hfits 0 (by omega)) x
  unfold Kern.run at hok
  rw [if_neg (by show ¬ 16 * t < 0; omega)] at hok
  have h1 := exec_ok hok
  have h2 : ((loopGE m a64Seven.step a64Seven.body
      (a64Seven.first m (16 * t) (exec m a64Seven.pre ⟨x, 0, 0, true⟩)).1
      (a64Seven.first m (16 * t) (exec m a64Seven.pre ⟨x, 0, 0, true⟩)).2).2).ok = true := h1
  have h3 : a64Seven.first m (16 * t) (exec m a64Seven.pre ⟨x, 0, 0, true⟩) =
      loopGE m (4 * a64Seven.F.kDepth) a64SevenWide (t * a64Seven.F.kDepth) (exec m a64Seven.pre ⟨x, 0, 0, true⟩) := by
    rw [show t * a64Seven.F.kDepth = 16 * t by show t * 16 = _; omega]
    rfl
  rw [h3] at h2
  rcases Kern.loopGE_over a64Seven_good (c := 4) (by decide) (hP.wide (a64SevenWide, 64) rfl) t 0 _ (by omega) hH
    (hfits _ (by show 0 + t - 1 + 0 < t; omega))
    (fun h => by rw [a64Seven_reads.2, hml]; show _ < (0 + t - 4) * 64 + 320; omega) with hf | ⟨n', u', s', e, hu, hn, _, hH'⟩
  · rw [loopGE_fault _ hf] at h2
    cases h2
  · rw [e] at h2
    rcases Kern.loopGE_over a64Seven_good (c := 1) (by decide) hP.body n' u' s' hn hH'
      (hfits _ (by show u' + n' - 1 + 0 < t; omega))
      (fun h => by rw [a64Seven_reads.1, hml]; show _ < (u' + n' - 1) * 64 + 128; omega) with hf | ⟨_, _, _, _, _, h5, h6, _⟩
    · have : (loopGE m a64Seven.step a64Seven.body (n' * a64Seven.F.kDepth) s').2.ok = false := hf
      rw [this] at h2
      cases h2
    · omega

/-- An operand that is -128 everywhere. -/
def lowest (n : Nat) : Buf UInt8 := ⟨n, fun _ => 128⟩

theorem kval_lowest {f : SideFormat} (h : f.scalar = .int8Inputs) : f.kval 128 = -128 := by
  unfold SideFormat.kval; rw [h]; rfl

theorem lowest_sum {F : KernelFormat} (hl : F.lhs.scalar = .int8Inputs) (hr : F.rhs.scalar = .int8Inputs)
    (a b r c : Nat) : ∀ n, sumTo n (fun d => runCoeff F.lhs (lowest a) 0 r d * runCoeff F.rhs (lowest b) 0 c d) =
      16384 * n
  | 0 => rfl
  | n + 1 => by
    rw [sumTo_succ, lowest_sum hl hr a b r c n]
    unfold runCoeff lowest
    dsimp only
    rw [kval_lowest hl, kval_lowest hr]
    push_cast
    ring

theorem reference_lowest {F : KernelFormat} (hF : F.WF 16) (hd : F.kDepth = 16) (hl : F.lhs.scalar = .int8Inputs)
    (hr : F.rhs.scalar = .int8Inputs) (h0 : 0 < F.kRows ∧ 0 < F.kCols) :
    ∃ y, reference .trap F (lowest (allocated (F.kRows * 16))) (lowest (allocated (F.kCols * 16)))
      ⟨F.kRows * F.kCols, fun _ => 0#32⟩ 16 = .ok y ∧ y.get 0 = 262144#32 := by
  obtain ⟨y, h1, h2⟩ := reference_ok (mode := .trap) hF (rd := 16)
    (lhs := lowest (allocated (F.kRows * 16))) (rhs := lowest (allocated (F.kCols * 16)))
    (accum := ⟨F.kRows * F.kCols, fun _ => 0#32⟩) (by rw [hd]) (Nat.le_add_right _ _) (Nat.le_add_right _ _) rfl
    (b := fun _ _ => 0) (fun r c _ _ => rfl) (fun _ r c n _ _ hn => by
      rw [lowest_sum hl hr]; unfold InI32; omega)
  refine ⟨y, h1, ?_⟩
  have := h2.val 0 0 h0.1 h0.2
  rw [lowest_sum hl hr] at this
  rw [Nat.zero_mul] at this
  exact this

/-- A run with one pass through the loop. -/
theorem run_once {K : Kern} (hw : K.wide = none) (hg : K.ge = false) (hp : K.preStep = 0) (hs : K.step = 16) (m : Mem)
    (s : St) : K.run m 16 s = exec m K.last (exec m K.body (exec m K.pre s)) := by
  unfold Kern.run Kern.first
  rw [hp, if_neg (by omega), hw, hg]
  dsimp only
  rw [Nat.sub_zero, hs, if_neg (by decide), loopNZ, if_neg (by decide), if_pos (by decide), loopNZ, if_pos rfl]

/-- A run without a pass through the loop. -/
theorem run_short {K : Kern} (hw : K.wide = none) (hg : K.ge = false) (m : Mem) (s : St) :
    K.run m K.preStep s = exec m K.last (exec m K.pre s) := by
  unfold Kern.run Kern.first
  rw [if_neg (by omega), hw, hg]
  dsimp only
  rw [Nat.sub_self, loopNZ, if_pos rfl]
  rfl

/-- **Finding F48.**  With -128 everywhere, which the benchmark allows, two products are 2^15 and do not fit: the
reference finds 262144, the kernels that add two products in 16 bits find -262144. -/
theorem C76_refuted_accum_two {K : Kern} (hK : K ∈ accumTwoKernels) :
    (∃ a, K.Run (fun _ _ => 0#8) (lowest (allocated (K.F.kRows * 16))) (lowest (allocated (K.F.kCols * 16)))
      ⟨K.F.kRows * K.F.kCols, fun _ => 0#32⟩ 16 = .ok a ∧ a.get 0 = -262144#32) ∧
    ∃ y, reference .trap K.F (lowest (allocated (K.F.kRows * 16))) (lowest (allocated (K.F.kCols * 16)))
      ⟨K.F.kRows * K.F.kCols, fun _ => 0#32⟩ 16 = .ok y ∧ y.get 0 = 262144#32 := by
  have main : ∀ K : Kern, 0 < K.F.kRows * K.F.kCols → ∀ e : St,
      K.run ⟨lowest (allocated (K.F.kRows * 16)), lowest (allocated (K.F.kCols * 16)), fun _ => 0#32⟩ 16
        ⟨fun _ _ => 0#8, 0, 0, true⟩ = e → e.ok = true → K.word e 0 = -262144#32 →
      ∃ a, K.Run (fun _ _ => 0#8) (lowest (allocated (K.F.kRows * 16))) (lowest (allocated (K.F.kCols * 16)))
        ⟨K.F.kRows * K.F.kCols, fun _ => 0#32⟩ 16 = .ok a ∧ a.get 0 = -262144#32 := by
    intro K h4 e he h5 h6
    rw [← he] at h5 h6
    refine ⟨_, if_pos h5, ?_⟩
    show (if 0 < K.F.kRows * K.F.kCols then _ else _) = _
    rw [if_pos h4]
    exact h6
  simp only [accumTwoKernels, List.mem_cons, List.not_mem_nil, or_false] at hK
  rcases hK with rfl | rfl | rfl | rfl | rfl
  · exact ⟨main armTwo (by decide) _ (run_short (K := armTwo) rfl rfl _ _) (by decide +kernel) (by decide +kernel),
      reference_lowest (wf16 (by decide) (by decide) (by decide)) rfl rfl rfl (by decide)⟩
  · exact ⟨main a64Two (by decide) _ (run_short (K := a64Two) rfl rfl _ _) (by decide +kernel) (by decide +kernel),
      reference_lowest (wf16 (by decide) (by decide) (by decide)) rfl rfl rfl (by decide)⟩
  · exact ⟨main (intrTwo 2) (by decide) _ (run_once rfl rfl rfl rfl _ _) (by decide +kernel) (by decide +kernel),
      reference_lowest (wf16 (by decide) (by decide) (by decide)) rfl rfl rfl (by decide)⟩
  · exact ⟨main (intrTwo 4) (by decide) _ (run_once rfl rfl rfl rfl _ _) (by decide +kernel) (by decide +kernel),
      reference_lowest (wf16 (by decide) (by decide) (by decide)) rfl rfl rfl (by decide)⟩
  · exact ⟨main msa3 (by decide) _ (run_short (K := msa3) rfl rfl _ _) (by decide +kernel) (by decide +kernel),
      reference_lowest (wf16 (by decide) (by decide) (by decide)) rfl rfl rfl (by decide)⟩

/-- Inputs as in the theorems above: 1000 levels of depth with the accumulators of the tests, and operands 1 and -1. -/
example : NoOverflow (intrU8 2).F ⟨12016, fun i => UInt8.ofNat i⟩ ⟨8016, fun i => UInt8.ofNat (3 * i)⟩
      ⟨96, fun k => BitVec.ofNat 32 k⟩ 1000 ∧ intrU8 2 ∈ intrinsicsKernels ∧ msa3 ∈ accumTwoKernels ∧
    InRange msa3.F.rhs ⟨80, fun _ => 255⟩ 64 (-127) 127 ∧ InRange a64Seven.F.lhs ⟨128, fun _ => 1⟩ 128 (-63) 63 ∧
    InRange a64Seven.F.rhs ⟨64, fun _ => 255⟩ 64 (-64) 63 ∧
    NoOverflow msa3.F (lowest 80) (lowest 80) ⟨16, fun _ => 7#32⟩ 16 := by
  refine ⟨noOverflow_test (fun k hk => ?_) _ _ (by omega), by simp [intrinsicsKernels], by simp [accumTwoKernels],
    fun _ _ => (by decide : -127 ≤ msa3.F.rhs.kval 255 ∧ msa3.F.rhs.kval 255 ≤ 127),
    fun _ _ => (by decide : -63 ≤ a64Seven.F.lhs.kval 1 ∧ a64Seven.F.lhs.kval 1 ≤ 63),
    fun _ _ => (by decide : -64 ≤ a64Seven.F.rhs.kval 255 ∧ a64Seven.F.rhs.kval 255 ≤ 63),
    noOverflow_test (fun k _ => (by decide : -100 ≤ (7#32).toInt ∧ (7#32).toInt ≤ 100)) _ _ (by omega)⟩
  have hk' : k < 96 := hk
  show -100 ≤ (BitVec.ofNat 32 k).toInt ∧ (BitVec.ofNat 32 k).toInt ≤ 100
  rw [BitVec.toInt_eq_toNat_of_lt (by rw [BitVec.toNat_ofNat]; omega), BitVec.toNat_ofNat]
  omega

end Gemmlowp.Bench
