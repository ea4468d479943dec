import Verif.BenchWRef
import Verif.BenchWProgA
import Verif.BenchWProgB
/-!
# C77: the kernels for int32 and float operands

They agree with `ReferenceKernel` for words of any kind and any `accumulator + lhs * rhs` that the instructions may
compute; nothing about rounding or overflow is used, as every kernel does the same operations on an accumulator in
the same order as the reference.
-/
namespace Gemmlowp.BenchW

/-- The kernel with its loads from and stores to the accumulators. -/
def WKern.call {α : Type} (K : WKern) (mac : α → α → α → α) (zero : α) (x : Nat → α) (lhs rhs accum : Buf α)
    (n : Nat) : M (Buf α) :=
  let s := K.run mac ⟨lhs, rhs, accum.get, zero⟩ n ⟨x, 0, 0, true⟩
  if s.ok = true then
    .ok ⟨accum.size, fun k => if k < K.F.kRows * K.F.kCols then K.word s k else accum.get k⟩
  else .error .oob

/-- The kernels that stay inside of the buffers. -/
def wordKernels : List WKern := [i32Scalar32, f32MlaDup32, f32FmaDup32, f32MlaScalar32, f32Intr 1, f32A53_32,
  f32A53Depth2, f32MlaRot, f32FmaRot, i32Scalar64, f32Dup64, f32Scalar64, f32Intr 2, f32A57, f32A53_64]

theorem wordKernels_ok : ∀ K ∈ wordKernels, okW K 4 4 = true := by
  intro K hK
  simp only [wordKernels, List.mem_cons, List.not_mem_nil, or_false] at hK
  rcases hK with rfl | rfl | rfl | rfl | rfl | rfl | rfl | rfl | rfl | rfl | rfl | rfl | rfl | rfl | rfl
  · decide +kernel
  · decide +kernel
  · decide +kernel
  · decide +kernel
  · decide +kernel
  · decide +kernel
  · decide +kernel
  · decide +kernel
  · decide +kernel
  · decide +kernel
  · decide +kernel
  · decide +kernel
  · decide +kernel
  · decide +kernel
  · decide +kernel

/-- The formats. -/
def fmtW (K : WKern) : Bool :=
  decide (0 < K.F.lhs.cw) && decide (0 < K.F.lhs.cells) && decide (0 < K.F.rhs.cw) && decide (0 < K.F.rhs.cells) &&
  decide (0 < K.F.lhs.cd) && decide (K.F.lhs.cd = K.F.rhs.cd) &&
  decide (K.F.lhs.order = .depthMajor) && decide (K.F.rhs.order = .depthMajor)

theorem fmtW_wf {K : WKern} (h : fmtW K = true) : K.F.WF K.F.lhs.cd := by
  unfold fmtW at h
  simp only [Bool.and_eq_true, decide_eq_true_eq] at h
  obtain ⟨⟨⟨⟨⟨⟨⟨h1, h2⟩, h3⟩, h4⟩, h5⟩, h6⟩, h7⟩, h8⟩ := h
  exact ⟨⟨h1, h5, h2, (fun h => by rw [h7] at h; cases h), Nat.dvd_refl _, h5⟩,
    ⟨h3, h6 ▸ h5, h4, (fun h => by rw [h8] at h; cases h), h6 ▸ Nat.dvd_refl _, h5⟩, h6⟩

theorem wordKernels_fmt : ∀ K ∈ wordKernels, fmtW K = true := by decide +kernel

/-- A checked kernel agrees with the reference wherever that is defined. -/
theorem agreeW {α : Type} {K : WKern} {pl pr : Nat} (hK : okW K pl pr = true) (hf : fmtW K = true)
    {op : α → α → α → M α} {mac : α → α → α → α} (hop : ∀ a l r v, op a l r = .ok v → v = mac a l r)
    {lhs rhs accum acc : Buf α} {n : Nat} (hn : 0 < n)
    (hl : K.F.kRows * (n * K.F.kDepth) + pl ≤ lhs.size) (hr : K.F.kCols * (n * K.F.kDepth) + pr ≤ rhs.size)
    (ha : accum.size = K.F.kRows * K.F.kCols)
    (href : reference op K.F lhs rhs accum (n * K.F.kDepth) = .ok acc) (zero : α) (x : Nat → α) :
    ∃ acc', K.call mac zero x lhs rhs accum n = .ok acc' ∧ acc'.size = acc.size ∧
      ∀ k, k < K.F.kRows * K.F.kCols → acc'.get k = acc.get k := by
  have hW := fmtW_wf hf
  obtain ⟨acc2, h1, h2, h3⟩ := reference_ok (mac := mac) hW (lhs := lhs) (rhs := rhs) (accum := accum)
    (rd := n * K.F.kDepth) (Nat.dvd_mul_left _ _) (by omega) (by omega) ha
  have h4 := reference_mono hop href
  rw [h1] at h4
  cases h4
  have e1 : n * (K.F.kRows * K.F.kDepth) = K.F.kRows * (n * K.F.kDepth) := by ring
  have e2 : n * (K.F.kCols * K.F.kDepth) = K.F.kCols * (n * K.F.kDepth) := by ring
  obtain ⟨s1, s2⟩ := okW_sound (mac := mac) (m := ⟨lhs, rhs, accum.get, zero⟩) hK hW.depth.symm hW.lhs.cd_pos hn
    (by rw [e1]; exact hl) (by rw [e2]; exact hr) x
  refine ⟨_, if_pos s1, ha.trans h2.symm, fun k hk => ?_⟩
  have hR : 0 < K.F.kRows := Nat.mul_pos hW.lhs.cw_pos hW.lhs.cells_pos
  have hkr := h3 (k % K.F.kRows) (k / K.F.kRows) (Nat.mod_lt _ hR)
    (Nat.div_lt_of_lt_mul hk)
  rw [show k % K.F.kRows + k / K.F.kRows * K.F.kRows = k by rw [Nat.mul_comm]; exact Nat.mod_add_div k _] at hkr
  show (if k < K.F.kRows * K.F.kCols then _ else _) = _
  rw [if_pos hk, s2 k hk, hkr]

/-- **C77**: the fifteen kernels for int32 and float operands that stay inside of the buffers.  They are the ones of the
benchmark except for one.  For all contents of the operands and the registers, all depths that are positive multiples
of the depth of a cell, and with the 16 bytes of padding that the benchmark's buffers have (4 words): if the
reference is defined, the kernel reads nothing outside of the buffers, and leaves in every accumulator what the
reference leaves there.  `op` is what the reference's `+=` computes, where it is defined, and `mac` what the
instruction computes. -/
theorem C77_word_kernels {α : Type} {K : WKern} (hK : K ∈ wordKernels) {op : α → α → α → M α} {mac : α → α → α → α}
    (hop : ∀ a l r v, op a l r = .ok v → v = mac a l r) {lhs rhs accum acc : Buf α} {n : Nat} (hn : 0 < n)
    (hl : lhs.size = K.F.kRows * (n * K.F.kDepth) + 4) (hr : rhs.size = K.F.kCols * (n * K.F.kDepth) + 4)
    (ha : accum.size = K.F.kRows * K.F.kCols)
    (href : reference op K.F lhs rhs accum (n * K.F.kDepth) = .ok acc) (zero : α) (x : Nat → α) :
    ∃ acc', K.call mac zero x lhs rhs accum n = .ok acc' ∧ acc'.size = acc.size ∧
      ∀ k, k < K.F.kRows * K.F.kCols → acc'.get k = acc.get k :=
  agreeW (wordKernels_ok K hK) (wordKernels_fmt K hK) hop hn (by omega) (by omega) ha href zero x

/-- `a += l * r` of `int32_t`: undefined if the product or the sum is out of range. -/
def opI32 (a l r : BitVec 32) : M (BitVec 32) := do
  let p ← mul32 .trap l r
  add32 .trap a p

theorem ret32_val {md : OvMode} {i : Int} {v : BitVec 32} (h : ret32 md i = .ok v) : v = BitVec.ofInt 32 i := by
  unfold ret32 at h
  split at h
  · cases h
  · cases h; rfl

theorem opI32_val (a l r v : BitVec 32) (h : opI32 a l r = .ok v) : v = a + l * r := by
  unfold opI32 at h
  cases hp : mul32 .trap l r with
  | error e => rw [hp] at h; cases h
  | ok p =>
    rw [hp, ok_bind] at h
    rw [ret32_val h]
    have := ret32_val hp
    rw [this, BitVec.ofInt_add, BitVec.ofInt_mul]
    simp only [BitVec.ofInt_toInt]

/-- **C77** for `int32_t`: the two kernels whose instructions compute modulo `2 ^ 32`. -/
theorem C77_int32 {K : WKern} (hK : K = i32Scalar32 ∨ K = i32Scalar64) {lhs rhs accum acc : Buf (BitVec 32)} {n : Nat}
    (hn : 0 < n)
    (hl : lhs.size = K.F.kRows * (n * K.F.kDepth) + 4) (hr : rhs.size = K.F.kCols * (n * K.F.kDepth) + 4)
    (ha : accum.size = K.F.kRows * K.F.kCols)
    (href : reference opI32 K.F lhs rhs accum (n * K.F.kDepth) = .ok acc) (x : Nat → BitVec 32) :
    ∃ acc', K.call (fun a l r => a + l * r) 0 x lhs rhs accum n = .ok acc' ∧ acc'.size = acc.size ∧
      ∀ k, k < K.F.kRows * K.F.kCols → acc'.get k = acc.get k := by
  refine C77_word_kernels (op := opI32) ?_ opI32_val hn hl hr ha href 0 x
  rcases hK with rfl | rfl
  · exact List.mem_of_getElem? (i := 0) rfl
  · exact List.mem_of_getElem? (i := 9) rfl

theorem a55r1_ok : okW f32A55r1 8 4 = true := by decide +kernel

theorem a55r1_reach : (headAgain f32A55r1 (headSt f32A55r1)).hl = 20 ∧ (headSt f32A55r1).hl ≤ 16 ∧
    (headSt f32A55r1).hr ≤ 12 := by decide +kernel

/-- **C77**, the remaining kernel `NEON_64bit_GEMM_Float32_WithScalar_A55r1`: with 32 bytes of padding after the LHS
it would agree with the reference. -/
theorem C77_float_A55r1_partial {α : Type} {op : α → α → α → M α} {mac : α → α → α → α}
    (hop : ∀ a l r v, op a l r = .ok v → v = mac a l r) {lhs rhs accum acc : Buf α} {n : Nat} (hn : 0 < n)
    (hl : lhs.size = 12 * n + 8) (hr : rhs.size = 8 * n + 4) (ha : accum.size = 96)
    (href : reference op f32A55r1.F lhs rhs accum n = .ok acc) (zero : α) (x : Nat → α) :
    ∃ acc', f32A55r1.call mac zero x lhs rhs accum n = .ok acc' ∧ acc'.size = acc.size ∧
      ∀ k, k < 96 → acc'.get k = acc.get k := by
  have e : n * f32A55r1.F.kDepth = n := Nat.mul_one n
  exact agreeW a55r1_ok (by decide +kernel) hop hn (by rw [e]; exact Nat.le_of_eq hl.symm)
    (by rw [e]; exact Nat.le_of_eq hr.symm) ha (by rw [e]; exact href) zero x

/-- **C77 is refuted** for `NEON_64bit_GEMM_Float32_WithScalar_A55r1` at every depth: in its last pass it loads the
first two cells of the LHS that would come next (lines 4468-4484), 32 bytes, and the buffers have 16 bytes of
padding. -/
theorem C77_refuted_float_A55r1 {α : Type} (mac : α → α → α → α) {lhs rhs accum : Buf α} (n : Nat)
    (hl : lhs.size = 12 * (n + 1) + 4) (hr : rhs.size = 8 * (n + 1) + 4) (zero : α) (x : Nat → α) :
    f32A55r1.call mac zero x lhs rhs accum (n + 1) = .error .oob := by
  obtain ⟨g1, g2, g3⟩ := a55r1_reach
  have h := okW_outside (mac := mac) (m := ⟨lhs, rhs, accum.get, zero⟩) (n := n) a55r1_ok rfl (by decide)
    (by show _ ≤ lhs.size; omega) (by show _ ≤ rhs.size; omega)
    (by show n * 12 + 8 ≤ lhs.size; omega) (by show n * 8 + 4 ≤ rhs.size; omega)
    (by show lhs.size < n * 12 + _; omega) x
  unfold WKern.call
  dsimp only
  rw [h]
  rfl

/-! ## Non-trivial cases -/

/-- Depth 2 in a kernel that reads ahead, with an operation in which the order matters. -/
example : ∃ acc acc', reference (α := Int) (fun a l r => .ok (3 * a + l * r)) f32A57.F ⟨28, fun i => i⟩ ⟨20, fun i => 2 * i⟩
      ⟨96, fun k => k⟩ 2 = .ok acc ∧
    f32A57.call (fun a l r : Int => 3 * a + l * r) 0 (fun _ => 7) ⟨28, fun i => i⟩ ⟨20, fun i => 2 * i⟩
      ⟨96, fun k => k⟩ 2 = .ok acc' ∧ ∀ k, k < 96 → acc'.get k = acc.get k := by
  have hmem : f32A57 ∈ wordKernels := List.mem_of_getElem? (i := 13) rfl
  obtain ⟨acc, h, _⟩ := reference_ok (α := Int) (mac := fun a l r => 3 * a + l * r)
    (fmtW_wf (wordKernels_fmt _ hmem)) (lhs := ⟨28, fun i => i⟩) (rhs := ⟨20, fun i => 2 * i⟩)
    (accum := ⟨96, fun k => k⟩) (rd := 2) ⟨2, rfl⟩ (by decide +kernel) (by decide +kernel) rfl
  obtain ⟨acc', h1, _, h3⟩ := C77_word_kernels hmem (op := fun a l r => .ok (3 * a + l * r))
    (mac := fun a l r => 3 * a + l * r) (fun a l r v e => by cases e; rfl) (n := 2) (by decide) rfl rfl rfl h 0
    (fun _ => 7)
  exact ⟨acc, acc', h, h1, h3⟩

/-- The operation of the reference is defined for small numbers, and not for big ones. -/
example : opI32 5 3 (-4) = .ok (-7) ∧ opI32 0 65536 65536 = .error .overflow := by decide

end Gemmlowp.BenchW
