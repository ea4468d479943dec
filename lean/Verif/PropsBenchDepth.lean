import Verif.BenchDepth
import Verif.PropsBenchWord
import Verif.BenchProgA
import Verif.BenchProgB
import Verif.BenchProgC
import Verif.BenchProgD
import Verif.BenchProgE
import Verif.BenchProgF
import Verif.BenchProgG
import Verif.BenchProgH
/-!
# C78: the depth at which a kernel is timed
-/
namespace Gemmlowp.BenchDepth

/-- Operands of this depth and the accumulators fit into a cache of `kb` KB, with two lines to spare. -/
def Fits (z : Sizes) (kb d : Int) : Prop := z.perDepth * d + z.accumulators + 128 ≤ 1024 * kb

/-- A depth that is allowed: a multiple of the length of a cache line, from one to 1024. -/
def Allowed (d : Int) : Prop := 64 ∣ d ∧ 64 ≤ d ∧ d ≤ 1024

theorem roundDown_eq {i : Int} (h : InI32 i) : roundDown i = i - i % 64 := by
  unfold roundDown InI32 at *
  dsimp only
  split <;> omega

theorem tdiv_bounds {a : Int} {b : Nat} (hb : 0 < b) (ha : 0 ≤ a) :
    0 ≤ Int.tdiv a b ∧ ∀ d : Int, d ≤ Int.tdiv a b ↔ b * d ≤ a := by
  rw [Int.tdiv_eq_ediv_of_nonneg ha]
  refine ⟨Int.ediv_nonneg ha (by omega), fun d => ?_⟩
  rw [Int.le_ediv_iff_mul_le (by omega), Int.mul_comm]

theorem tdiv_neg {a : Int} {b : Nat} (ha : a ≤ 0) : Int.tdiv a b ≤ 0 ∧ a ≤ Int.tdiv a b := by
  obtain ⟨c, rfl⟩ : ∃ c : Nat, a = -(c : Int) := ⟨a.natAbs, by omega⟩
  rw [Int.neg_tdiv, Int.tdiv_eq_ediv_of_nonneg (by omega)]
  have h1 : ((c : Int) / (b : Int)) ≤ c := Int.ediv_le_self _ (by omega)
  have h2 : 0 ≤ (c : Int) / (b : Int) := Int.ediv_nonneg (by omega) (by omega)
  omega

/-- What is computed, if nothing overflows. -/
theorem depthToFit_ok {z : Sizes} (hz : z.accumulators ≤ 1000000000) {kb : Int} (h0 : -1000000 ≤ kb)
    (h1 : kb ≤ 2097151) :
    depthToFit z kb = .ok (roundDown (min 1024 (Int.tdiv (1024 * kb - 128 - z.accumulators) z.perDepth))) := by
  unfold depthToFit intM
  rw [if_pos (by unfold InI32; omega), ok_bind, if_pos (by unfold InI32; omega), ok_bind,
    if_pos (by unfold InI32; omega), ok_bind]

/-- **C78** (part): if some allowed depth fits into the cache, the greatest one is taken. -/
theorem C78_greatest_partial {z : Sizes} (hp : 0 < z.perDepth) (hz : z.accumulators ≤ 1000000000) {kb : Int}
    (h1 : kb ≤ 2097151) (hf : Fits z kb 64) :
    ∃ d, depthToFit z kb = .ok d ∧ Allowed d ∧ Fits z kb d ∧ ∀ d', Allowed d' → Fits z kb d' → d' ≤ d := by
  unfold Fits at *
  have hr : 0 ≤ 1024 * kb - 128 - z.accumulators := by
    have : (0 : Int) ≤ z.perDepth * 64 := by omega
    omega
  obtain ⟨t0, ht⟩ := tdiv_bounds hp hr
  have h64 := (ht 64).2 (by omega)
  have hd := depthToFit_ok hz (by omega) h1
  generalize Int.tdiv (1024 * kb - 128 - z.accumulators) z.perDepth = q at *
  rw [roundDown_eq (by unfold InI32; omega)] at hd
  refine ⟨_, hd, ⟨by omega, by omega, by omega⟩, ?_, ?_⟩
  · have := (ht (min 1024 q - min 1024 q % 64)).1 (by omega)
    omega
  · rintro d' ⟨a1, a2, a3⟩ f'
    have := (ht d').2 (by omega)
    omega

/-- **C78 is refuted** for small caches: if not even 64 levels fit, the depth is not positive.  It is 0 or negative,
and nothing looks at it before the kernel is run. -/
theorem C78_refuted_small {z : Sizes} (hp : 0 < z.perDepth) (hz : z.accumulators ≤ 1000000000) {kb : Int}
    (h0 : -1000000 ≤ kb) (h1 : kb ≤ 2097151) (hf : ¬ Fits z kb 64) : ∃ d, depthToFit z kb = .ok d ∧ d ≤ 0 := by
  unfold Fits at hf
  have hd := depthToFit_ok hz h0 h1
  by_cases hr : 0 ≤ 1024 * kb - 128 - z.accumulators
  · obtain ⟨t0, ht⟩ := tdiv_bounds hp hr
    have h64 : ¬ (64 : Int) ≤ _ := fun h => hf (by have := (ht 64).1 h; omega)
    generalize Int.tdiv (1024 * kb - 128 - z.accumulators) z.perDepth = q at *
    rw [roundDown_eq (by unfold InI32; omega)] at hd
    exact ⟨_, hd, by omega⟩
  · obtain ⟨t0, t1⟩ := tdiv_neg (a := 1024 * kb - 128 - z.accumulators) (b := z.perDepth) (by omega)
    generalize Int.tdiv (1024 * kb - 128 - z.accumulators) z.perDepth = q at *
    rw [roundDown_eq (by unfold InI32; omega)] at hd
    exact ⟨_, hd, by omega⟩

/-- Sizes beyond 2097151 KB overflow `int`. -/
theorem C78_refuted_big (z : Sizes) {kb : Int} (h : 2097152 ≤ kb) : depthToFit z kb = .error .overflow := by
  unfold depthToFit intM
  rw [if_neg (by unfold InI32; omega)]
  rfl

/-- Formats of the kernels for 8-bit operands. -/
def formats8 : List KernelFormat := Bench.int425F :: Bench.intr425F :: [Bench.arm8, Bench.armNoexpand, Bench.armTwo,
  Bench.a64u8, Bench.a64Noexpand, Bench.a64Two, Bench.a64Narrow, Bench.a64Seven, Bench.a64Dot, Bench.a64DotA55,
  Bench.intrTwo 2, Bench.intrTwo 4, Bench.intrU8 1, Bench.intrU8 2, Bench.intrSeven, Bench.msa1, Bench.msa2,
  Bench.msa3].map (·.F)

/-- Formats of the kernels for int32 and float operands. -/
def formats32 : List KernelFormat := (BenchW.f32A55r1 :: BenchW.wordKernels).map (·.F)

/-- The kernels of the benchmark: format and bytes of an operand. -/
def kernels : List (KernelFormat × Nat) := formats8.map (·, 1) ++ formats32.map (·, 4)

/-- All accumulators have 4 bytes. -/
def sizesOf (K : KernelFormat × Nat) : Sizes := ⟨K.1.kRows, K.1.kCols, K.2, 4⟩

theorem kernels_sizes : ∀ K ∈ kernels, 0 < (sizesOf K).perDepth ∧ (sizesOf K).accumulators ≤ 1000000000 ∧
    (sizesOf K).perDepth * 64 + (sizesOf K).accumulators + 128 ≤ 16384 ∧ 64 % K.1.kDepth = 0 := by decide +kernel

/-- **C78** (part): with the default of 16 KB every kernel is timed at the greatest allowed depth that fits, and it is
a multiple of the depth of the kernel's cells. -/
theorem C78_default_partial {K : KernelFormat × Nat} (hK : K ∈ kernels) :
    ∃ d, depthToFit (sizesOf K) 16 = .ok d ∧ Allowed d ∧ (K.1.kDepth : Int) ∣ d ∧ Fits (sizesOf K) 16 d ∧
      ∀ d', Allowed d' → Fits (sizesOf K) 16 d' → d' ≤ d := by
  obtain ⟨h1, h2, h3, h4⟩ := kernels_sizes K hK
  obtain ⟨d, e1, e2, e3, e4⟩ := C78_greatest_partial h1 h2 (kb := 16) (by decide) (by unfold Fits; omega)
  refine ⟨d, e1, e2, Int.dvd_trans ?_ e2.1, e3, e4⟩
  exact Int.natCast_dvd_natCast.2 (Nat.dvd_of_mod_eq_zero h4)

/-! ## What a depth of 0 does -/

open BenchW

/-- The kernels in assembly. -/
def asmWordKernels : List WKern := [i32Scalar32, f32MlaDup32, f32FmaDup32, f32MlaScalar32, f32A53_32, f32A53Depth2,
  f32MlaRot, f32FmaRot, i32Scalar64, f32Dup64, f32Scalar64, f32A57, f32A53_64, f32A55r1]

/-- How far the instructions before the loop and the first pass read. -/
def firstReach (K : WKern) : Nat :=
  (symExec true K.body (symExec true K.pre ⟨List.replicate 130 .no, 0, 0, 0, 0⟩)).hl

theorem asmWordKernels_reach : ∀ K ∈ asmWordKernels, 12 ≤ firstReach K := by decide +kernel

/-- **C78 is refuted** with an effect: at depth 0 a kernel in assembly for int32 or float operands goes through its loop
at least once (the register is reduced before it is tested, so that there would be some `2 ^ 32` passes), and leaves
buffers of 16 bytes in the first one.  `n + 1` is the number of passes. -/
theorem C78_refuted_zero {α : Type} {K : WKern} (hK : K ∈ asmWordKernels) (mac : α → α → α → α)
    {lhs rhs accum : Buf α} (n : Nat) (hl : lhs.size = 4) (zero : α) (x : Nat → α) :
    K.call mac zero x lhs rhs accum (n + 1) = .error .oob := by
  have h : (execW mac ⟨lhs, rhs, accum.get, zero⟩ K.body
      (execW mac ⟨lhs, rhs, accum.get, zero⟩ K.pre ⟨x, 0, 0, true⟩)).ok = false := by
    have hs : StIs mac ⟨lhs, rhs, accum.get, zero⟩ 0 0 accum.get ⟨List.replicate 130 .no, 0, 0, 0, 0⟩
        (⟨x, 0, 0, true⟩ : WSt α) := by
      refine ⟨?_, rfl, rfl, ⟨fun _ => ⟨Nat.zero_le _, Nat.zero_le _⟩, fun _ => rfl⟩⟩
      intro q
      rw [List.getD_eq_getElem?_getD, List.getElem?_replicate]
      split <;> trivial
    have h1 := exec_is (pre := true) (fun _ => rfl) K.pre hs
    obtain ⟨_, _, _, e4⟩ := exec_is (pre := true) (fun _ => rfl) K.body h1
    apply Bool.eq_false_iff.2
    intro hc
    have h2 : 0 + firstReach K ≤ lhs.size := (e4.1 hc).1
    have h3 := asmWordKernels_reach K hK
    omega
  have hp : ∀ n (s : WSt α), s.ok = false →
      (passesW mac ⟨lhs, rhs, accum.get, zero⟩ K.body n s).ok = false := by
    intro n
    induction n with
    | zero => exact fun _ h => h
    | succ n ih => exact fun s h => ih _ (execW_bad _ _ h)
  unfold WKern.call
  dsimp only
  rw [if_neg]
  rw [Bool.not_eq_true]
  exact execW_bad _ _ (hp n _ h)

/-! ## Non-trivial cases -/

/-- `NEON_64bit_GEMM_Float32_WithScalar`: depth 192 by default, 0 with 4 KB, negative with 0 KB. -/
example : depthToFit ⟨12, 8, 4, 4⟩ 16 = .ok 192 ∧ depthToFit ⟨12, 8, 4, 4⟩ 4 = .ok 0 ∧
    depthToFit ⟨12, 8, 4, 4⟩ 0 = .ok (-64) ∧ ¬ Fits ⟨12, 8, 4, 4⟩ 4 64 ∧ Fits ⟨12, 8, 4, 4⟩ 16 64 := by
  refine ⟨rfl, rfl, rfl, ?_, ?_⟩ <;> (unfold Fits; decide)

end Gemmlowp.BenchDepth
