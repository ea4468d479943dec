import Verif.Bench
import Verif.Kernel
/-!
# standalone/neon-gemm-kernel-benchmark.cc: the kernel for 4.25-bit operands
-/
namespace Gemmlowp.Bench

/-- Lines 3182-3204: up to the loops. -/
def int425Pre : List Ins := [
  dup_wzr 24, ld1_16b 8 .rhs, dup_wzr 25, ld1_16b 9 .rhs, dup_wzr 26, ld1_16b 10 .rhs, dup_wzr 27,
  ld1_16b 11 .rhs, dup_wzr 28, ld1_16b 0 .lhs, dup_wzr 29, ld1_16b 1 .lhs, dup_wzr 30, ld1_16b 2 .lhs,
  dup_wzr 31, ld1_16b 3 .lhs, ld1_16b 4 .lhs, ld1_16b 5 .lhs, ld1_16b 6 .lhs, ld1_16b 7 .lhs].flatten

/-- Lines 3206-3218: the 16-bit accumulators. -/
def int425Clear : List Ins := [
  dup_wzr 16, dup_wzr 17, dup_wzr 18, dup_wzr 19, dup_wzr 20, dup_wzr 21, dup_wzr 22, dup_wzr 23].flatten

/-- Lines 3220-3306: a pass through the inner loop. -/
def int425Pass : List Ins := [
  mul_16b 12 0 8, mul_16b 13 0 10, ld1_16b 0 .lhs, mul_16b 14 2 8, mul_16b 15 2 10, mla_16b 12 1 9,
  mla_16b 13 1 11, ld1_16b 1 .lhs, mla_16b 14 3 9, ld1_16b 2 .lhs, mla_16b 15 3 11, ld1_16b 3 .lhs,
  sadalp_8h 16 12, sadalp_8h 17 13, sadalp_8h 18 14, sadalp_8h 19 15, mul_16b 12 4 8, mul_16b 13 4 10,
  ld1_16b 4 .lhs, mul_16b 14 6 8, ld1_16b 8 .rhs, mul_16b 15 6 10, mla_16b 12 5 9, mla_16b 13 5 11,
  ld1_16b 5 .lhs, mla_16b 14 7 9, ld1_16b 9 .rhs, mla_16b 15 7 11, ld1_16b 10 .rhs, sadalp_8h 20 12,
  ld1_16b 11 .rhs, sadalp_8h 21 13, ld1_16b 6 .lhs, sadalp_8h 22 14, ld1_16b 7 .lhs, sadalp_8h 23 15,
  mul_16b 12 0 8, mul_16b 13 0 10, ld1_16b 0 .lhs, mul_16b 14 2 8, mul_16b 15 2 10, mla_16b 12 1 9,
  mla_16b 13 1 11, ld1_16b 1 .lhs, mla_16b 14 3 9, ld1_16b 2 .lhs, mla_16b 15 3 11, ld1_16b 3 .lhs,
  sadalp_8h 16 12, sadalp_8h 17 13, sadalp_8h 18 14, sadalp_8h 19 15, mul_16b 12 4 8, mul_16b 13 4 10,
  ld1_16b 4 .lhs, mul_16b 14 6 8, ld1_16b 8 .rhs, mul_16b 15 6 10, mla_16b 12 5 9, mla_16b 13 5 11,
  ld1_16b 5 .lhs, mla_16b 14 7 9, ld1_16b 9 .rhs, mla_16b 15 7 11, ld1_16b 10 .rhs, sadalp_8h 20 12,
  ld1_16b 11 .rhs, sadalp_8h 21 13, ld1_16b 6 .lhs, sadalp_8h 22 14, ld1_16b 7 .lhs, sadalp_8h 23 15].flatten

/-- Lines 3314-3347: after the inner loop, with the part after the outer loop. -/
def int425Last : List Ins := [
  sadalp 24 16, sadalp 25 17, sadalp 26 18, sadalp 27 19, sadalp 28 20, sadalp 29 21, sadalp 30 22,
  sadalp 31 23, addp 0 24 26, addp 1 28 30, addp 2 25 27, addp 3 29 31, addp 4 0 1, addp 5 2 3,
  ld_acc 6 0, ld_acc 7 4, add_4s 6 6 4, add_4s 7 7 5].flatten

/-- Lines 3220-3312: the inner loop.  `x` is `x1 / 32` and `depth` the number in the register, before the pass; both are
reduced by 32 in a pass.  The loop is left when `x1` has become 0 (`beq`) or the depth has (`cmp`, `bne`). -/
def int425Passes (m : Mem) : Nat → Nat → St → St
  | 0, _, s => s
  | x + 1, depth, s =>
    if x = 0 ∨ depth = 32 then exec m int425Pass s else int425Passes m x (depth - 32) (exec m int425Pass s)

/-- Lines 3125-3369 `NEON_64bit_GEMM_Int425Operands::Run` up to its stores, for a depth that is a positive multiple of
32.  The branch back to the outer loop (line 3327) is taken if the zero flag is clear, and at both exits of the inner
loop it is set; nothing in between changes it.  So there is one pass through the outer loop. -/
def int425Run (m : Mem) (depth : Nat) (s : St) : St :=
  exec m int425Last (int425Passes m 16 depth (exec m int425Clear (exec m int425Pre s)))

/-- The format of the kernel. -/
def int425F : KernelFormat :=
  ⟨⟨4, 32, .widthMajor, 1, .int8Inputs⟩, ⟨2, 32, .widthMajor, 1, .int8Inputs⟩⟩

/-- Registers and lanes that are stored (lines 3349-3351). -/
def int425Word (s : St) (k : Nat) : BitVec 32 := BitVec.ofNat 32 (lane 4 (s.x (12 + k / 2)) (k % 2))

end Gemmlowp.Bench
