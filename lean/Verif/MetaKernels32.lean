import Verif.MetaAsm32
/-!
# The multiplication kernels of meta/quantized_mul_kernels_arm_32.h

`q8_32_MxN`, `i32_32_MxN` and `f32_32_MxN` are the code of `MulKernel<uint8_t, T, K, RowMajor, M, N, 8>::Multiply` for
`T`, `K` = `uint8_t`, `QuantizedStaticPreprocessed`; `int32_t`, `QuantizedStaticPreprocessedAsInt32`; and `float`,
`QuantizedStaticPreprocessedAsFloat`, line by line.
-/
namespace Gemmlowp.MetaAsm

/-- meta/quantized_mul_kernels_arm_32.h:42-98. -/
def q8_32_1x1 : Prog32 :=
  { init := [.zeroQ 0]
    skip := false
    body := [.subs .count 8, .vld1 [2] .lhs 8 (.imm 8), .vld1 [3] .rhs 8 (.imm 8), .qdd .umull 2 3 2, .qqq .uadalp 0 0 2]
    cond := .gt
    tail := [.vld1 [8, 9] .lhs 8 (.imm 16), .vld1 [10, 11] .rhs 8 (.imm 16), .dupW 6 .mulOffset, .dupW 7 .rounding,
    .dupW 8 .shift, .dupLane 4 8 0, .ddd .vpadd 0 0 1, .ddd .vpadd 0 0 0, .qqq .add 0 0 4, .qqq .add 0 0 5,
    .qqq .mul 0 0 6, .qqq .add 0 0 7, .qqq .sshl 0 0 8, .dq .sqxtn 0 0, .dq .sqxtun 0 0,
    .vstLane 1 0 0 .result (.imm 1)] }

/-- meta/quantized_mul_kernels_arm_32.h:116-176. -/
def q8_32_1x2 : Prog32 :=
  { init := [.zeroQ 0, .zeroQ 1]
    skip := false
    body := [.subs .count 8, .vld1 [4] .lhs 8 (.imm 8), .vld1 [5, 6] .rhs 8 (.imm 16), .qdd .umull 4 5 4,
    .qdd .umull 5 6 4, .qqq .uadalp 0 0 4, .qqq .uadalp 1 1 5]
    cond := .gt
    tail := [.vld1 [8, 9] .lhs 8 (.imm 16), .vld1 [10, 11] .rhs 8 (.imm 16), .dupW 6 .mulOffset, .dupW 7 .rounding,
    .dupW 8 .shift, .dupLane 4 8 0, .ddd .vpadd 0 0 1, .ddd .vpadd 2 2 3, .ddd .vpadd 0 0 2, .qqq .add 0 0 4,
    .qqq .add 0 0 5, .qqq .mul 0 0 6, .qqq .add 0 0 7, .qqq .sshl 0 0 8, .dq .sqxtn 0 0, .dq .sqxtun 0 0,
    .vstLane 2 0 0 .result (.imm 2)] }

/-- meta/quantized_mul_kernels_arm_32.h:194-260. -/
def q8_32_1x3 : Prog32 :=
  { init := [.zeroQ 0, .zeroQ 1, .zeroQ 2]
    skip := false
    body := [.subs .count 8, .vld1 [6] .lhs 8 (.imm 8), .vld1 [7, 8, 9] .rhs 8 (.imm 24), .qdd .umull 5 7 6,
    .qdd .umull 6 8 6, .qdd .umull 7 9 6, .qqq .uadalp 0 0 5, .qqq .uadalp 1 1 6, .qqq .uadalp 2 2 7]
    cond := .gt
    tail := [.vld1 [8, 9] .lhs 8 (.imm 16), .vld1 [10, 11] .rhs 8 (.imm 16), .dupW 6 .mulOffset, .dupW 7 .rounding,
    .dupW 8 .shift, .dupLane 4 8 0, .ddd .vpadd 0 0 1, .ddd .vpadd 2 2 3, .ddd .vpadd 4 4 5, .ddd .vpadd 0 0 2,
    .ddd .vpadd 1 4 4, .qqq .add 0 0 4, .qqq .add 0 0 5, .qqq .mul 0 0 6, .qqq .add 0 0 7, .qqq .sshl 0 0 8,
    .dq .sqxtn 0 0, .dq .sqxtun 0 0, .vstLane 2 0 0 .result (.imm 2), .vstLane 1 2 0 .result (.imm 1)] }

/-- meta/quantized_mul_kernels_arm_32.h:278-348. -/
def q8_32_1x4 : Prog32 :=
  { init := [.zeroQ 0, .zeroQ 1, .zeroQ 2, .movQ 3 0]
    skip := false
    body := [.subs .count 8, .vld1 [8] .lhs 8 (.imm 8), .vld1 [9, 10, 11, 12] .rhs 8 (.imm 32), .qdd .umull 7 9 8,
    .qdd .umull 8 10 8, .qdd .umull 9 11 8, .qdd .umull 10 12 8, .qqq .uadalp 0 0 7, .qqq .uadalp 1 1 8,
    .qqq .uadalp 2 2 9, .qqq .uadalp 3 3 10]
    cond := .gt
    tail := [.vld1 [8, 9] .lhs 8 (.imm 16), .vld1 [10, 11] .rhs 8 (.imm 16), .dupW 6 .mulOffset, .dupW 7 .rounding,
    .dupW 8 .shift, .dupLane 4 8 0, .ddd .vpadd 0 0 1, .ddd .vpadd 2 2 3, .ddd .vpadd 4 4 5, .ddd .vpadd 6 6 7,
    .ddd .vpadd 0 0 2, .ddd .vpadd 1 4 6, .qqq .add 0 0 4, .qqq .add 0 0 5, .qqq .mul 0 0 6, .qqq .add 0 0 7,
    .qqq .sshl 0 0 8, .dq .sqxtn 0 0, .dq .sqxtun 0 0, .vstLane 4 0 0 .result (.imm 4)] }

/-- meta/quantized_mul_kernels_arm_32.h:366-449. -/
def q8_32_1x5 : Prog32 :=
  { init := [.zeroQ 0, .zeroQ 1, .zeroQ 2, .movQ 3 0, .movQ 4 1]
    skip := false
    body := [.subs .count 8, .vld1 [10, 11, 12, 13] .rhs 8 (.imm 32), .vld1 [14] .lhs 8 (.imm 8), .qdd .umull 8 10 14,
    .qdd .umull 9 11 14, .qdd .umull 10 12 14, .qdd .umull 11 13 14, .vld1 [10] .rhs 8 (.imm 8),
    .qqq .uadalp 0 0 8, .qqq .uadalp 1 1 9, .qqq .uadalp 2 2 10, .qqq .uadalp 3 3 11, .qdd .umull 8 10 14,
    .qqq .uadalp 4 4 8]
    cond := .gt
    tail := [.vld1 [10, 11] .lhs 8 (.imm 16), .vld1 [12, 13, 14, 15] .rhs 8 (.imm 32), .dupW 8 .mulOffset,
    .dupW 9 .rounding, .dupW 10 .shift, .dupLane 5 10 0, .ddd .vpadd 0 0 1, .ddd .vpadd 2 2 3,
    .ddd .vpadd 4 4 5, .ddd .vpadd 6 6 7, .ddd .vpadd 8 8 9, .ddd .vpadd 0 0 2, .ddd .vpadd 1 4 6,
    .ddd .vpadd 2 8 8, .qqq .add 0 0 5, .qqq .add 1 1 5, .qqq .add 0 0 6, .qqq .add 1 1 7, .qqq .mul 0 0 8,
    .qqq .mul 1 1 8, .qqq .add 0 0 9, .qqq .add 1 1 9, .qqq .sshl 0 0 10, .qqq .sshl 1 1 10, .dq .sqxtn 0 0,
    .dq .sqxtn 1 1, .dq .sqxtun 0 0, .vstLane 4 0 0 .result (.imm 4), .vstLane 1 4 0 .result (.imm 1)] }

/-- meta/quantized_mul_kernels_arm_32.h:467-554. -/
def q8_32_1x6 : Prog32 :=
  { init := [.zeroQ 0, .zeroQ 1, .zeroQ 2, .movQ 3 0, .movQ 4 1, .movQ 5 2]
    skip := false
    body := [.subs .count 8, .vld1 [12, 13, 14, 15] .rhs 8 (.imm 32), .vld1 [16] .lhs 8 (.imm 8), .qdd .umull 9 12 16,
    .qdd .umull 10 13 16, .qdd .umull 11 14 16, .qdd .umull 12 15 16, .vld1 [12, 13] .rhs 8 (.imm 16),
    .qqq .uadalp 0 0 9, .qqq .uadalp 1 1 10, .qqq .uadalp 2 2 11, .qqq .uadalp 3 3 12, .qdd .umull 9 12 16,
    .qdd .umull 10 13 16, .qqq .uadalp 4 4 9, .qqq .uadalp 5 5 10]
    cond := .gt
    tail := [.vld1 [12, 13] .lhs 8 (.imm 16), .vld1 [14, 15, 16, 17] .rhs 8 (.imm 32), .dupW 9 .mulOffset,
    .dupW 10 .rounding, .dupW 11 .shift, .dupLane 6 12 0, .ddd .vpadd 0 0 1, .ddd .vpadd 2 2 3,
    .ddd .vpadd 4 4 5, .ddd .vpadd 6 6 7, .ddd .vpadd 8 8 9, .ddd .vpadd 10 10 11, .ddd .vpadd 0 0 2,
    .ddd .vpadd 1 4 6, .ddd .vpadd 2 8 10, .qqq .add 0 0 6, .qqq .add 1 1 6, .qqq .add 0 0 7, .qqq .add 1 1 8,
    .qqq .mul 0 0 9, .qqq .mul 1 1 9, .qqq .add 0 0 10, .qqq .add 1 1 10, .qqq .sshl 0 0 11, .qqq .sshl 1 1 11,
    .dq .sqxtn 0 0, .dq .sqxtn 1 1, .dq .sqxtun 0 0, .vstLane 4 0 0 .result (.imm 4),
    .vstLane 2 2 0 .result (.imm 2)] }

/-- meta/quantized_mul_kernels_arm_32.h:572-665. -/
def q8_32_1x7 : Prog32 :=
  { init := [.zeroQ 0, .zeroQ 1, .zeroQ 2, .movQ 3 0, .movQ 4 1, .movQ 5 2, .movQ 6 3]
    skip := false
    body := [.subs .count 8, .vld1 [14, 15, 16, 17] .rhs 8 (.imm 32), .vld1 [18] .lhs 8 (.imm 8), .qdd .umull 10 14 18,
    .qdd .umull 11 15 18, .qdd .umull 12 16 18, .qdd .umull 13 17 18, .vld1 [14, 15, 16] .rhs 8 (.imm 24),
    .qqq .uadalp 0 0 10, .qqq .uadalp 1 1 11, .qqq .uadalp 2 2 12, .qqq .uadalp 3 3 13, .qdd .umull 10 14 18,
    .qdd .umull 11 15 18, .qdd .umull 12 16 18, .qqq .uadalp 4 4 10, .qqq .uadalp 5 5 11, .qqq .uadalp 6 6 12]
    cond := .gt
    tail := [.vld1 [14, 15] .lhs 8 (.imm 16), .vld1 [16, 17, 18, 19] .rhs 8 (.imm 32), .dupW 10 .mulOffset,
    .dupW 11 .rounding, .dupW 12 .shift, .dupLane 7 14 0, .ddd .vpadd 0 0 1, .ddd .vpadd 2 2 3,
    .ddd .vpadd 4 4 5, .ddd .vpadd 6 6 7, .ddd .vpadd 8 8 9, .ddd .vpadd 10 10 11, .ddd .vpadd 12 12 13,
    .ddd .vpadd 0 0 2, .ddd .vpadd 1 4 6, .ddd .vpadd 2 8 10, .ddd .vpadd 3 12 12, .qqq .add 0 0 7,
    .qqq .add 1 1 7, .qqq .add 0 0 8, .qqq .add 1 1 9, .qqq .mul 0 0 10, .qqq .mul 1 1 10, .qqq .add 0 0 11,
    .qqq .add 1 1 11, .qqq .sshl 0 0 12, .qqq .sshl 1 1 12, .dq .sqxtn 0 0, .dq .sqxtn 1 1, .dq .sqxtun 0 0,
    .vstLane 4 0 0 .result (.imm 4), .vstLane 2 2 0 .result (.imm 2), .vstLane 1 6 0 .result (.imm 1)] }

/-- meta/quantized_mul_kernels_arm_32.h:683-780. -/
def q8_32_1x8 : Prog32 :=
  { init := [.zeroQ 0, .zeroQ 1, .zeroQ 2, .movQ 3 0, .movQ 4 1, .movQ 5 2, .movQ 6 3, .movQ 7 4]
    skip := false
    body := [.vld1 [17, 18, 19, 20] .rhs 32 (.imm 32), .vld1 [16] .lhs 8 (.imm 8), .qdd .umull 11 16 17,
    .qdd .umull 12 16 18, .qdd .umull 13 16 19, .qdd .umull 14 16 20, .vld1 [17, 18, 19, 20] .rhs 32 (.imm 32),
    .qqq .uadalp 0 0 11, .qqq .uadalp 1 1 12, .qqq .uadalp 2 2 13, .qqq .uadalp 3 3 14, .qdd .umull 15 16 17,
    .qdd .umull 11 16 18, .qdd .umull 12 16 19, .qdd .umull 13 16 20, .subs .count 8, .qqq .uadalp 4 4 15,
    .qqq .uadalp 5 5 11, .qqq .uadalp 6 6 12, .qqq .uadalp 7 7 13]
    cond := .gt
    tail := [.vld1 [16, 17] .lhs 8 (.imm 16), .vld1 [18, 19, 20, 21] .rhs 8 (.imm 32), .dupW 11 .mulOffset,
    .dupW 12 .rounding, .dupW 13 .shift, .dupLane 8 16 0, .ddd .vpadd 0 0 1, .ddd .vpadd 2 2 3,
    .ddd .vpadd 4 4 5, .ddd .vpadd 6 6 7, .ddd .vpadd 8 8 9, .ddd .vpadd 10 10 11, .ddd .vpadd 12 12 13,
    .ddd .vpadd 14 14 15, .ddd .vpadd 0 0 2, .ddd .vpadd 1 4 6, .ddd .vpadd 2 8 10, .ddd .vpadd 3 12 14,
    .qqq .add 0 0 8, .qqq .add 1 1 8, .qqq .add 0 0 9, .qqq .add 1 1 10, .qqq .mul 0 0 11, .qqq .mul 1 1 11,
    .qqq .add 0 0 12, .qqq .add 1 1 12, .qqq .sshl 0 0 13, .qqq .sshl 1 1 13, .dq .sqxtn 0 0, .dq .sqxtn 1 1,
    .dq .sqxtun 0 0, .vst1 4 [0] .result 0 (.imm 8)] }

/-- meta/quantized_mul_kernels_arm_32.h:798-869. -/
def q8_32_2x1 : Prog32 :=
  { init := [.zeroQ 0, .zeroQ 1]
    skip := false
    body := [.subs .count 8, .vld1 [4, 5] .lhs 8 (.imm 16), .vld1 [6] .rhs 8 (.imm 8), .qdd .umull 4 6 4,
    .qdd .umull 5 6 5, .qqq .uadalp 0 0 4, .qqq .uadalp 1 1 5]
    cond := .gt
    tail := [.vld1 [8, 9] .lhs 8 (.imm 16), .vld1 [10, 11] .rhs 8 (.imm 16), .dupW 6 .mulOffset, .dupW 7 .rounding,
    .dupW 8 .shift, .dupLane 2 8 0, .dupLane 4 8 1, .addX (.t 0) .result .stride, .ddd .vpadd 0 0 1,
    .ddd .vpadd 0 0 0, .ddd .vpadd 2 2 3, .ddd .vpadd 2 2 2, .qqq .add 0 0 2, .qqq .add 1 1 4, .qqq .add 0 0 5,
    .qqq .add 1 1 5, .qqq .mul 0 0 6, .qqq .mul 1 1 6, .qqq .add 0 0 7, .qqq .add 1 1 7, .qqq .sshl 0 0 8,
    .qqq .sshl 1 1 8, .dq .sqxtn 0 0, .dq .sqxtn 2 1, .dq .sqxtun 0 0, .dq .sqxtun 2 1,
    .vstLane 1 0 0 .result (.imm 1), .vstLane 1 0 2 (.t 0) (.imm 1)] }

/-- meta/quantized_mul_kernels_arm_32.h:887-967. -/
def q8_32_2x2 : Prog32 :=
  { init := [.zeroQ 0, .zeroQ 1, .zeroQ 2, .movQ 3 0]
    skip := false
    body := [.subs .count 8, .vld1 [8, 9] .lhs 8 (.imm 16), .vld1 [10, 11] .rhs 8 (.imm 16), .qdd .umull 6 10 8,
    .qdd .umull 7 11 8, .qdd .umull 8 10 9, .qdd .umull 9 11 9, .qqq .uadalp 0 0 6, .qqq .uadalp 1 1 7,
    .qqq .uadalp 2 2 8, .qqq .uadalp 3 3 9]
    cond := .gt
    tail := [.vld1 [8, 9] .lhs 8 (.imm 16), .vld1 [10, 11] .rhs 8 (.imm 16), .dupW 6 .mulOffset, .dupW 7 .rounding,
    .dupW 8 .shift, .dupLane 9 8 0, .dupLane 4 8 1, .addX (.t 0) .result .stride, .ddd .vpadd 0 0 1,
    .ddd .vpadd 2 2 3, .ddd .vpadd 0 0 2, .ddd .vpadd 4 4 5, .ddd .vpadd 6 6 7, .ddd .vpadd 4 4 6,
    .qqq .add 0 0 9, .qqq .add 2 2 4, .qqq .add 0 0 5, .qqq .add 2 2 5, .qqq .mul 0 0 6, .qqq .mul 2 2 6,
    .qqq .add 0 0 7, .qqq .add 2 2 7, .qqq .sshl 0 0 8, .qqq .sshl 2 2 8, .dq .sqxtn 0 0, .dq .sqxtn 4 2,
    .dq .sqxtun 0 0, .dq .sqxtun 4 2, .vstLane 2 0 0 .result (.imm 2), .vstLane 2 0 4 (.t 0) (.imm 2)] }

/-- meta/quantized_mul_kernels_arm_32.h:985-1078. -/
def q8_32_2x3 : Prog32 :=
  { init := [.zeroQ 0, .zeroQ 1, .zeroQ 2, .movQ 3 0, .movQ 4 1, .movQ 5 2]
    skip := false
    body := [.subs .count 8, .vld1 [12, 13] .lhs 8 (.imm 16), .vld1 [14, 15, 16] .rhs 8 (.imm 24), .qdd .umull 9 14 12,
    .qdd .umull 10 15 12, .qdd .umull 11 16 12, .qdd .umull 12 14 13, .qdd .umull 13 15 13,
    .qdd .umull 14 16 13, .qqq .uadalp 0 0 9, .qqq .uadalp 1 1 10, .qqq .uadalp 2 2 11, .qqq .uadalp 3 3 12,
    .qqq .uadalp 4 4 13, .qqq .uadalp 5 5 14]
    cond := .gt
    tail := [.vld1 [12, 13] .lhs 8 (.imm 16), .vld1 [14, 15] .rhs 8 (.imm 16), .dupW 8 .mulOffset, .dupW 9 .rounding,
    .dupW 10 .shift, .dupLane 11 12 0, .dupLane 6 12 1, .addX (.t 0) .result .stride, .ddd .vpadd 0 0 1,
    .ddd .vpadd 2 2 3, .ddd .vpadd 4 4 5, .ddd .vpadd 0 0 2, .ddd .vpadd 1 4 4, .ddd .vpadd 6 6 7,
    .ddd .vpadd 8 8 9, .ddd .vpadd 10 10 11, .ddd .vpadd 6 6 8, .ddd .vpadd 7 10 10, .qqq .add 0 0 11,
    .qqq .add 3 3 6, .qqq .add 0 0 7, .qqq .add 3 3 7, .qqq .mul 0 0 8, .qqq .mul 3 3 8, .qqq .add 0 0 9,
    .qqq .add 3 3 9, .qqq .sshl 0 0 10, .qqq .sshl 3 3 10, .dq .sqxtn 0 0, .dq .sqxtn 6 3, .dq .sqxtun 0 0,
    .dq .sqxtun 6 3, .vstLane 2 0 0 .result (.imm 2), .vstLane 1 2 0 .result (.imm 1),
    .vstLane 2 0 6 (.t 0) (.imm 2), .vstLane 1 2 6 (.t 0) (.imm 1)] }

/-- meta/quantized_mul_kernels_arm_32.h:1096-1197. -/
def q8_32_2x4 : Prog32 :=
  { init := [.zeroQ 0, .zeroQ 1, .zeroQ 2, .movQ 3 0, .movQ 4 1, .movQ 5 2, .movQ 6 3, .movQ 7 4]
    skip := false
    body := [.vld1 [18, 19, 20, 21] .rhs 32 (.imm 32), .vld1 [16] .lhs 8 (.imm 8), .qdd .umull 11 16 18,
    .vld1 [17] .lhs 8 (.imm 8), .qdd .umull 12 16 19, .qdd .umull 13 16 20, .qdd .umull 14 16 21,
    .qdd .umull 15 17 18, .qqq .uadalp 0 0 11, .qqq .uadalp 1 1 12, .qqq .uadalp 2 2 13, .qdd .umull 11 17 19,
    .qdd .umull 12 17 20, .qdd .umull 13 17 21, .subs .count 8, .qqq .uadalp 3 3 14, .qqq .uadalp 4 4 15,
    .qqq .uadalp 5 5 11, .qqq .uadalp 6 6 12, .qqq .uadalp 7 7 13]
    cond := .gt
    tail := [.vld1 [16, 17] .lhs 8 (.imm 16), .vld1 [18, 19] .rhs 8 (.imm 16), .dupW 10 .mulOffset, .dupW 11 .rounding,
    .dupW 12 .shift, .dupLane 13 16 0, .dupLane 8 16 1, .addX (.t 0) .result .stride, .ddd .vpadd 0 0 1,
    .ddd .vpadd 2 2 3, .ddd .vpadd 4 4 5, .ddd .vpadd 6 6 7, .ddd .vpadd 0 0 2, .ddd .vpadd 1 4 6,
    .ddd .vpadd 8 8 9, .ddd .vpadd 10 10 11, .ddd .vpadd 12 12 13, .ddd .vpadd 14 14 15, .ddd .vpadd 8 8 10,
    .ddd .vpadd 9 12 14, .qqq .add 0 0 13, .qqq .add 4 4 8, .qqq .add 0 0 9, .qqq .add 4 4 9, .qqq .mul 0 0 10,
    .qqq .mul 4 4 10, .qqq .add 0 0 11, .qqq .add 4 4 11, .qqq .sshl 0 0 12, .qqq .sshl 4 4 12, .dq .sqxtn 0 0,
    .dq .sqxtn 8 4, .dq .sqxtun 0 0, .dq .sqxtun 8 4, .vstLane 4 0 0 .result (.imm 4),
    .vstLane 4 0 8 (.t 0) (.imm 4)] }

/-- meta/quantized_mul_kernels_arm_32.h:1215-1302. -/
def q8_32_3x1 : Prog32 :=
  { init := [.zeroQ 0, .zeroQ 1, .zeroQ 2]
    skip := false
    body := [.subs .count 8, .vld1 [6, 7, 8] .lhs 8 (.imm 24), .vld1 [9] .rhs 8 (.imm 8), .qdd .umull 5 9 6,
    .qdd .umull 6 9 7, .qdd .umull 7 9 8, .qqq .uadalp 0 0 5, .qqq .uadalp 1 1 6, .qqq .uadalp 2 2 7]
    cond := .gt
    tail := [.vld1 [8, 9] .lhs 8 (.imm 16), .vld1 [10, 11] .rhs 8 (.imm 16), .dupW 6 .mulOffset, .dupW 7 .rounding,
    .dupW 8 .shift, .dupLane 3 8 0, .dupLane 9 8 1, .dupLane 4 9 0, .addX (.t 0) .result .stride,
    .addX (.t 1) (.t 0) .stride, .ddd .vpadd 0 0 1, .ddd .vpadd 0 0 0, .ddd .vpadd 2 2 3, .ddd .vpadd 2 2 2,
    .ddd .vpadd 4 4 5, .ddd .vpadd 4 4 4, .qqq .add 0 0 3, .qqq .add 1 1 9, .qqq .add 2 2 4, .qqq .add 0 0 5,
    .qqq .add 1 1 5, .qqq .add 2 2 5, .qqq .mul 0 0 6, .qqq .mul 1 1 6, .qqq .mul 2 2 6, .qqq .add 0 0 7,
    .qqq .add 1 1 7, .qqq .add 2 2 7, .qqq .sshl 0 0 8, .qqq .sshl 1 1 8, .qqq .sshl 2 2 8, .dq .sqxtn 0 0,
    .dq .sqxtn 2 1, .dq .sqxtn 4 2, .dq .sqxtun 0 0, .dq .sqxtun 2 1, .dq .sqxtun 4 2,
    .vstLane 1 0 0 .result (.imm 1), .vstLane 1 0 2 (.t 0) (.imm 1), .vstLane 1 0 4 (.t 1) (.imm 1)] }

/-- meta/quantized_mul_kernels_arm_32.h:1320-1420. -/
def q8_32_3x2 : Prog32 :=
  { init := [.zeroQ 0, .zeroQ 1, .zeroQ 2, .movQ 3 0, .movQ 4 1, .movQ 5 2]
    skip := false
    body := [.subs .count 8, .vld1 [12, 13, 14] .lhs 8 (.imm 24), .vld1 [15, 16] .rhs 8 (.imm 16), .qdd .umull 9 15 12,
    .qdd .umull 10 16 12, .qdd .umull 11 15 13, .qdd .umull 12 16 13, .qdd .umull 13 15 14,
    .qdd .umull 14 16 14, .qqq .uadalp 0 0 9, .qqq .uadalp 1 1 10, .qqq .uadalp 2 2 11, .qqq .uadalp 3 3 12,
    .qqq .uadalp 4 4 13, .qqq .uadalp 5 5 14]
    cond := .gt
    tail := [.vld1 [12, 13] .lhs 8 (.imm 16), .vld1 [14, 15] .rhs 8 (.imm 16), .dupW 8 .mulOffset, .dupW 9 .rounding,
    .dupW 10 .shift, .dupLane 11 12 0, .dupLane 12 12 1, .dupLane 6 13 0, .addX (.t 0) .result .stride,
    .addX (.t 1) (.t 0) .stride, .ddd .vpadd 0 0 1, .ddd .vpadd 2 2 3, .ddd .vpadd 0 0 2, .ddd .vpadd 4 4 5,
    .ddd .vpadd 6 6 7, .ddd .vpadd 4 4 6, .ddd .vpadd 8 8 9, .ddd .vpadd 10 10 11, .ddd .vpadd 8 8 10,
    .qqq .add 0 0 11, .qqq .add 2 2 12, .qqq .add 4 4 6, .qqq .add 0 0 7, .qqq .add 2 2 7, .qqq .add 4 4 7,
    .qqq .mul 0 0 8, .qqq .mul 2 2 8, .qqq .mul 4 4 8, .qqq .add 0 0 9, .qqq .add 2 2 9, .qqq .add 4 4 9,
    .qqq .sshl 0 0 10, .qqq .sshl 2 2 10, .qqq .sshl 4 4 10, .dq .sqxtn 0 0, .dq .sqxtn 4 2, .dq .sqxtn 8 4,
    .dq .sqxtun 0 0, .dq .sqxtun 4 2, .dq .sqxtun 8 4, .vstLane 2 0 0 .result (.imm 2),
    .vstLane 2 0 4 (.t 0) (.imm 2), .vstLane 2 0 8 (.t 1) (.imm 2)] }

/-- meta/quantized_mul_kernels_arm_32.h:1438-1559. -/
def q8_32_3x3 : Prog32 :=
  { init := [.zeroQ 0, .zeroQ 1, .zeroQ 2, .movQ 3 0, .movQ 4 1, .movQ 5 2, .movQ 6 3, .movQ 7 4, .movQ 8 5]
    skip := false
    body := [.vld1 [21, 22, 23] .rhs 8 (.imm 24), .vld1 [18] .lhs 8 (.imm 8), .qdd .umull 12 18 21,
    .vld1 [19] .lhs 8 (.imm 8), .qdd .umull 13 18 22, .vld1 [20] .lhs 8 (.imm 8), .qdd .umull 14 18 23,
    .qdd .umull 15 19 21, .qqq .uadalp 0 0 12, .qqq .uadalp 1 1 13, .qqq .uadalp 2 2 14, .qqq .uadalp 3 3 15,
    .qdd .umull 12 19 22, .qdd .umull 13 19 23, .qdd .umull 14 20 21, .qdd .umull 15 20 22, .subs .count 8,
    .qdd .umull 9 20 23, .qqq .uadalp 4 4 12, .qqq .uadalp 5 5 13, .qqq .uadalp 6 6 14, .qqq .uadalp 7 7 15,
    .qqq .uadalp 8 8 9]
    cond := .gt
    tail := [.vld1 [18, 19] .lhs 8 (.imm 16), .vld1 [20, 21] .rhs 8 (.imm 16), .dupW 11 .mulOffset, .dupW 12 .rounding,
    .dupW 13 .shift, .dupLane 14 18 0, .dupLane 15 18 1, .dupLane 9 19 0, .addX (.t 0) .result .stride,
    .addX (.t 1) (.t 0) .stride, .ddd .vpadd 0 0 1, .ddd .vpadd 2 2 3, .ddd .vpadd 4 4 5, .ddd .vpadd 0 0 2,
    .ddd .vpadd 1 4 4, .ddd .vpadd 6 6 7, .ddd .vpadd 8 8 9, .ddd .vpadd 10 10 11, .ddd .vpadd 6 6 8,
    .ddd .vpadd 7 10 10, .ddd .vpadd 12 12 13, .ddd .vpadd 14 14 15, .ddd .vpadd 16 16 17,
    .ddd .vpadd 12 12 14, .ddd .vpadd 13 16 16, .qqq .add 0 0 14, .qqq .add 3 3 15, .qqq .add 6 6 9,
    .qqq .add 0 0 10, .qqq .add 3 3 10, .qqq .add 6 6 10, .qqq .mul 0 0 11, .qqq .mul 3 3 11, .qqq .mul 6 6 11,
    .qqq .add 0 0 12, .qqq .add 3 3 12, .qqq .add 6 6 12, .qqq .sshl 0 0 13, .qqq .sshl 3 3 13,
    .qqq .sshl 6 6 13, .dq .sqxtn 0 0, .dq .sqxtn 6 3, .dq .sqxtn 12 6, .dq .sqxtun 0 0, .dq .sqxtun 6 3,
    .dq .sqxtun 12 6, .vstLane 2 0 0 .result (.imm 2), .vstLane 1 2 0 .result (.imm 1),
    .vstLane 2 0 6 (.t 0) (.imm 2), .vstLane 1 2 6 (.t 0) (.imm 1), .vstLane 2 0 12 (.t 1) (.imm 2),
    .vstLane 1 2 12 (.t 1) (.imm 1)] }

/-- meta/quantized_mul_kernels_arm_32.h:1578-1623. -/
def i32_32_1x1 : Prog32 :=
  { init := [.zeroQ 0]
    skip := false
    body := [.subs .count 8, .vld1 [2] .lhs 8 (.imm 8), .vld1 [3] .rhs 8 (.imm 8), .qdd .umull 2 3 2, .qqq .uadalp 0 0 2]
    cond := .gt
    tail := [.vld1 [8, 9] .lhs 8 (.imm 16), .vld1 [10, 11] .rhs 8 (.imm 16), .dupLane 4 8 0, .ddd .vpadd 0 0 1,
    .ddd .vpadd 0 0 0, .qqq .add 0 0 4, .qqq .add 0 0 5, .vstLane 4 0 0 .result (.imm 4)] }

/-- meta/quantized_mul_kernels_arm_32.h:1642-1691. -/
def i32_32_1x2 : Prog32 :=
  { init := [.zeroQ 0, .zeroQ 1]
    skip := false
    body := [.subs .count 8, .vld1 [4] .lhs 8 (.imm 8), .vld1 [5, 6] .rhs 8 (.imm 16), .qdd .umull 4 5 4,
    .qdd .umull 5 6 4, .qqq .uadalp 0 0 4, .qqq .uadalp 1 1 5]
    cond := .gt
    tail := [.vld1 [8, 9] .lhs 8 (.imm 16), .vld1 [10, 11] .rhs 8 (.imm 16), .dupLane 4 8 0, .ddd .vpadd 0 0 1,
    .ddd .vpadd 2 2 3, .ddd .vpadd 0 0 2, .qqq .add 0 0 4, .qqq .add 0 0 5, .vst1 4 [0] .result 0 (.imm 8)] }

/-- meta/quantized_mul_kernels_arm_32.h:1710-1765. -/
def i32_32_1x3 : Prog32 :=
  { init := [.zeroQ 0, .zeroQ 1, .zeroQ 2]
    skip := false
    body := [.subs .count 8, .vld1 [6] .lhs 8 (.imm 8), .vld1 [7, 8, 9] .rhs 8 (.imm 24), .qdd .umull 5 7 6,
    .qdd .umull 6 8 6, .qdd .umull 7 9 6, .qqq .uadalp 0 0 5, .qqq .uadalp 1 1 6, .qqq .uadalp 2 2 7]
    cond := .gt
    tail := [.vld1 [8, 9] .lhs 8 (.imm 16), .vld1 [10, 11] .rhs 8 (.imm 16), .dupLane 4 8 0, .ddd .vpadd 0 0 1,
    .ddd .vpadd 2 2 3, .ddd .vpadd 4 4 5, .ddd .vpadd 0 0 2, .ddd .vpadd 1 4 4, .qqq .add 0 0 4,
    .qqq .add 0 0 5, .vst1 4 [0] .result 0 (.imm 8), .vstLane 4 0 1 .result (.imm 4)] }

/-- meta/quantized_mul_kernels_arm_32.h:1784-1843. -/
def i32_32_1x4 : Prog32 :=
  { init := [.zeroQ 0, .zeroQ 1, .zeroQ 2, .movQ 3 0]
    skip := false
    body := [.subs .count 8, .vld1 [8] .lhs 8 (.imm 8), .vld1 [9, 10, 11, 12] .rhs 8 (.imm 32), .qdd .umull 7 9 8,
    .qdd .umull 8 10 8, .qdd .umull 9 11 8, .qdd .umull 10 12 8, .qqq .uadalp 0 0 7, .qqq .uadalp 1 1 8,
    .qqq .uadalp 2 2 9, .qqq .uadalp 3 3 10]
    cond := .gt
    tail := [.vld1 [8, 9] .lhs 8 (.imm 16), .vld1 [10, 11] .rhs 8 (.imm 16), .dupLane 4 8 0, .ddd .vpadd 0 0 1,
    .ddd .vpadd 2 2 3, .ddd .vpadd 4 4 5, .ddd .vpadd 6 6 7, .ddd .vpadd 0 0 2, .ddd .vpadd 1 4 6,
    .qqq .add 0 0 4, .qqq .add 0 0 5, .vst1 4 [0, 1] .result 0 (.imm 16)] }

/-- meta/quantized_mul_kernels_arm_32.h:1862-1930. -/
def i32_32_1x5 : Prog32 :=
  { init := [.zeroQ 0, .zeroQ 1, .zeroQ 2, .movQ 3 0, .movQ 4 1]
    skip := false
    body := [.subs .count 8, .vld1 [10, 11, 12, 13] .rhs 8 (.imm 32), .vld1 [14] .lhs 8 (.imm 8), .qdd .umull 8 10 14,
    .qdd .umull 9 11 14, .qdd .umull 10 12 14, .qdd .umull 11 13 14, .vld1 [10] .rhs 8 (.imm 8),
    .qqq .uadalp 0 0 8, .qqq .uadalp 1 1 9, .qqq .uadalp 2 2 10, .qqq .uadalp 3 3 11, .qdd .umull 8 10 14,
    .qqq .uadalp 4 4 8]
    cond := .gt
    tail := [.vld1 [10, 11] .lhs 8 (.imm 16), .vld1 [12, 13, 14, 15] .rhs 8 (.imm 32), .dupLane 5 10 0,
    .ddd .vpadd 0 0 1, .ddd .vpadd 2 2 3, .ddd .vpadd 4 4 5, .ddd .vpadd 6 6 7, .ddd .vpadd 8 8 9,
    .ddd .vpadd 0 0 2, .ddd .vpadd 1 4 6, .ddd .vpadd 2 8 8, .qqq .add 0 0 5, .qqq .add 1 1 5, .qqq .add 0 0 6,
    .qqq .add 1 1 7, .vst1 4 [0, 1] .result 0 (.imm 16), .vstLane 4 0 2 .result (.imm 4)] }

/-- meta/quantized_mul_kernels_arm_32.h:1949-2020. -/
def i32_32_1x6 : Prog32 :=
  { init := [.zeroQ 0, .zeroQ 1, .zeroQ 2, .movQ 3 0, .movQ 4 1, .movQ 5 2]
    skip := false
    body := [.subs .count 8, .vld1 [12, 13, 14, 15] .rhs 8 (.imm 32), .vld1 [16] .lhs 8 (.imm 8), .qdd .umull 9 12 16,
    .qdd .umull 10 13 16, .qdd .umull 11 14 16, .qdd .umull 12 15 16, .vld1 [12, 13] .rhs 8 (.imm 16),
    .qqq .uadalp 0 0 9, .qqq .uadalp 1 1 10, .qqq .uadalp 2 2 11, .qqq .uadalp 3 3 12, .qdd .umull 9 12 16,
    .qdd .umull 10 13 16, .qqq .uadalp 4 4 9, .qqq .uadalp 5 5 10]
    cond := .gt
    tail := [.vld1 [12, 13] .lhs 8 (.imm 16), .vld1 [14, 15, 16, 17] .rhs 8 (.imm 32), .dupLane 6 12 0,
    .ddd .vpadd 0 0 1, .ddd .vpadd 2 2 3, .ddd .vpadd 4 4 5, .ddd .vpadd 6 6 7, .ddd .vpadd 8 8 9,
    .ddd .vpadd 10 10 11, .ddd .vpadd 0 0 2, .ddd .vpadd 1 4 6, .ddd .vpadd 2 8 10, .qqq .add 0 0 6,
    .qqq .add 1 1 6, .qqq .add 0 0 7, .qqq .add 1 1 8, .vst1 4 [0, 1, 2] .result 0 (.imm 24)] }

/-- meta/quantized_mul_kernels_arm_32.h:2039-2116. -/
def i32_32_1x7 : Prog32 :=
  { init := [.zeroQ 0, .zeroQ 1, .zeroQ 2, .movQ 3 0, .movQ 4 1, .movQ 5 2, .movQ 6 3]
    skip := false
    body := [.subs .count 8, .vld1 [14, 15, 16, 17] .rhs 8 (.imm 32), .vld1 [18] .lhs 8 (.imm 8), .qdd .umull 10 14 18,
    .qdd .umull 11 15 18, .qdd .umull 12 16 18, .qdd .umull 13 17 18, .vld1 [14, 15, 16] .rhs 8 (.imm 24),
    .qqq .uadalp 0 0 10, .qqq .uadalp 1 1 11, .qqq .uadalp 2 2 12, .qqq .uadalp 3 3 13, .qdd .umull 10 14 18,
    .qdd .umull 11 15 18, .qdd .umull 12 16 18, .qqq .uadalp 4 4 10, .qqq .uadalp 5 5 11, .qqq .uadalp 6 6 12]
    cond := .gt
    tail := [.vld1 [14, 15] .lhs 8 (.imm 16), .vld1 [16, 17, 18, 19] .rhs 8 (.imm 32), .dupLane 7 14 0,
    .ddd .vpadd 0 0 1, .ddd .vpadd 2 2 3, .ddd .vpadd 4 4 5, .ddd .vpadd 6 6 7, .ddd .vpadd 8 8 9,
    .ddd .vpadd 10 10 11, .ddd .vpadd 12 12 13, .ddd .vpadd 0 0 2, .ddd .vpadd 1 4 6, .ddd .vpadd 2 8 10,
    .ddd .vpadd 3 12 12, .qqq .add 0 0 7, .qqq .add 1 1 7, .qqq .add 0 0 8, .qqq .add 1 1 9,
    .vst1 4 [0, 1, 2] .result 0 (.imm 24), .vstLane 4 0 3 .result (.imm 4)] }

/-- meta/quantized_mul_kernels_arm_32.h:2135-2217. -/
def i32_32_1x8 : Prog32 :=
  { init := [.zeroQ 0, .zeroQ 1, .zeroQ 2, .movQ 3 0, .movQ 4 1, .movQ 5 2, .movQ 6 3, .movQ 7 4]
    skip := false
    body := [.vld1 [17, 18, 19, 20] .rhs 32 (.imm 32), .vld1 [16] .lhs 8 (.imm 8), .qdd .umull 11 16 17,
    .qdd .umull 12 16 18, .qdd .umull 13 16 19, .qdd .umull 14 16 20, .vld1 [17, 18, 19, 20] .rhs 32 (.imm 32),
    .qqq .uadalp 0 0 11, .qqq .uadalp 1 1 12, .qqq .uadalp 2 2 13, .qqq .uadalp 3 3 14, .qdd .umull 15 16 17,
    .qdd .umull 11 16 18, .qdd .umull 12 16 19, .qdd .umull 13 16 20, .subs .count 8, .qqq .uadalp 4 4 15,
    .qqq .uadalp 5 5 11, .qqq .uadalp 6 6 12, .qqq .uadalp 7 7 13]
    cond := .gt
    tail := [.vld1 [16, 17] .lhs 8 (.imm 16), .vld1 [18, 19, 20, 21] .rhs 8 (.imm 32), .dupLane 8 16 0,
    .ddd .vpadd 0 0 1, .ddd .vpadd 2 2 3, .ddd .vpadd 4 4 5, .ddd .vpadd 6 6 7, .ddd .vpadd 8 8 9,
    .ddd .vpadd 10 10 11, .ddd .vpadd 12 12 13, .ddd .vpadd 14 14 15, .ddd .vpadd 0 0 2, .ddd .vpadd 1 4 6,
    .ddd .vpadd 2 8 10, .ddd .vpadd 3 12 14, .qqq .add 0 0 8, .qqq .add 1 1 8, .qqq .add 0 0 9,
    .qqq .add 1 1 10, .vst1 4 [0, 1, 2, 3] .result 0 (.imm 32)] }

/-- meta/quantized_mul_kernels_arm_32.h:2236-2291. -/
def i32_32_2x1 : Prog32 :=
  { init := [.zeroQ 0, .zeroQ 1]
    skip := false
    body := [.subs .count 8, .vld1 [4, 5] .lhs 8 (.imm 16), .vld1 [6] .rhs 8 (.imm 8), .qdd .umull 4 6 4,
    .qdd .umull 5 6 5, .qqq .uadalp 0 0 4, .qqq .uadalp 1 1 5]
    cond := .gt
    tail := [.vld1 [8, 9] .lhs 8 (.imm 16), .vld1 [10, 11] .rhs 8 (.imm 16), .dupLane 2 8 0, .dupLane 4 8 1,
    .addX (.t 0) .result .stride, .ddd .vpadd 0 0 1, .ddd .vpadd 0 0 0, .ddd .vpadd 2 2 3, .ddd .vpadd 2 2 2,
    .qqq .add 0 0 2, .qqq .add 1 1 4, .qqq .add 0 0 5, .qqq .add 1 1 5, .vstLane 4 0 0 .result (.imm 4),
    .vstLane 4 0 2 (.t 0) (.imm 4)] }

/-- meta/quantized_mul_kernels_arm_32.h:2310-2374. -/
def i32_32_2x2 : Prog32 :=
  { init := [.zeroQ 0, .zeroQ 1, .zeroQ 2, .movQ 3 0]
    skip := false
    body := [.subs .count 8, .vld1 [8, 9] .lhs 8 (.imm 16), .vld1 [10, 11] .rhs 8 (.imm 16), .qdd .umull 6 10 8,
    .qdd .umull 7 11 8, .qdd .umull 8 10 9, .qdd .umull 9 11 9, .qqq .uadalp 0 0 6, .qqq .uadalp 1 1 7,
    .qqq .uadalp 2 2 8, .qqq .uadalp 3 3 9]
    cond := .gt
    tail := [.vld1 [8, 9] .lhs 8 (.imm 16), .vld1 [10, 11] .rhs 8 (.imm 16), .dupLane 6 8 0, .dupLane 4 8 1,
    .addX (.t 0) .result .stride, .ddd .vpadd 0 0 1, .ddd .vpadd 2 2 3, .ddd .vpadd 0 0 2, .ddd .vpadd 4 4 5,
    .ddd .vpadd 6 6 7, .ddd .vpadd 4 4 6, .qqq .add 0 0 6, .qqq .add 2 2 4, .qqq .add 0 0 5, .qqq .add 2 2 5,
    .vst1 4 [0] .result 0 (.imm 8), .vst1 4 [4] (.t 0) 0 (.imm 8)] }

/-- meta/quantized_mul_kernels_arm_32.h:2393-2470. -/
def i32_32_2x3 : Prog32 :=
  { init := [.zeroQ 0, .zeroQ 1, .zeroQ 2, .movQ 3 0, .movQ 4 1, .movQ 5 2]
    skip := false
    body := [.subs .count 8, .vld1 [12, 13] .lhs 8 (.imm 16), .vld1 [14, 15, 16] .rhs 8 (.imm 24), .qdd .umull 9 14 12,
    .qdd .umull 10 15 12, .qdd .umull 11 16 12, .qdd .umull 12 14 13, .qdd .umull 13 15 13,
    .qdd .umull 14 16 13, .qqq .uadalp 0 0 9, .qqq .uadalp 1 1 10, .qqq .uadalp 2 2 11, .qqq .uadalp 3 3 12,
    .qqq .uadalp 4 4 13, .qqq .uadalp 5 5 14]
    cond := .gt
    tail := [.vld1 [12, 13] .lhs 8 (.imm 16), .vld1 [14, 15] .rhs 8 (.imm 16), .dupLane 8 12 0, .dupLane 6 12 1,
    .addX (.t 0) .result .stride, .ddd .vpadd 0 0 1, .ddd .vpadd 2 2 3, .ddd .vpadd 4 4 5, .ddd .vpadd 0 0 2,
    .ddd .vpadd 1 4 4, .ddd .vpadd 6 6 7, .ddd .vpadd 8 8 9, .ddd .vpadd 10 10 11, .ddd .vpadd 6 6 8,
    .ddd .vpadd 7 10 10, .qqq .add 0 0 8, .qqq .add 3 3 6, .qqq .add 0 0 7, .qqq .add 3 3 7,
    .vst1 4 [0] .result 0 (.imm 8), .vstLane 4 0 1 .result (.imm 4), .vst1 4 [6] (.t 0) 0 (.imm 8),
    .vstLane 4 0 7 (.t 0) (.imm 4)] }

/-- meta/quantized_mul_kernels_arm_32.h:2489-2574. -/
def i32_32_2x4 : Prog32 :=
  { init := [.zeroQ 0, .zeroQ 1, .zeroQ 2, .movQ 3 0, .movQ 4 1, .movQ 5 2, .movQ 6 3, .movQ 7 4]
    skip := false
    body := [.vld1 [18, 19, 20, 21] .rhs 32 (.imm 32), .vld1 [16] .lhs 8 (.imm 8), .qdd .umull 11 16 18,
    .vld1 [17] .lhs 8 (.imm 8), .qdd .umull 12 16 19, .qdd .umull 13 16 20, .qdd .umull 14 16 21,
    .qdd .umull 15 17 18, .qqq .uadalp 0 0 11, .qqq .uadalp 1 1 12, .qqq .uadalp 2 2 13, .qdd .umull 11 17 19,
    .qdd .umull 12 17 20, .qdd .umull 13 17 21, .subs .count 8, .qqq .uadalp 3 3 14, .qqq .uadalp 4 4 15,
    .qqq .uadalp 5 5 11, .qqq .uadalp 6 6 12, .qqq .uadalp 7 7 13]
    cond := .gt
    tail := [.vld1 [16, 17] .lhs 8 (.imm 16), .vld1 [18, 19] .rhs 8 (.imm 16), .dupLane 10 16 0, .dupLane 8 16 1,
    .addX (.t 0) .result .stride, .ddd .vpadd 0 0 1, .ddd .vpadd 2 2 3, .ddd .vpadd 4 4 5, .ddd .vpadd 6 6 7,
    .ddd .vpadd 0 0 2, .ddd .vpadd 1 4 6, .ddd .vpadd 8 8 9, .ddd .vpadd 10 10 11, .ddd .vpadd 12 12 13,
    .ddd .vpadd 14 14 15, .ddd .vpadd 8 8 10, .ddd .vpadd 9 12 14, .qqq .add 0 0 10, .qqq .add 4 4 8,
    .qqq .add 0 0 9, .qqq .add 4 4 9, .vst1 4 [0, 1] .result 0 (.imm 16), .vst1 4 [8, 9] (.t 0) 0 (.imm 16)] }

/-- meta/quantized_mul_kernels_arm_32.h:2593-2658. -/
def i32_32_3x1 : Prog32 :=
  { init := [.zeroQ 0, .zeroQ 1, .zeroQ 2]
    skip := false
    body := [.subs .count 8, .vld1 [6, 7, 8] .lhs 8 (.imm 24), .vld1 [9] .rhs 8 (.imm 8), .qdd .umull 5 9 6,
    .qdd .umull 6 9 7, .qdd .umull 7 9 8, .qqq .uadalp 0 0 5, .qqq .uadalp 1 1 6, .qqq .uadalp 2 2 7]
    cond := .gt
    tail := [.vld1 [8, 9] .lhs 8 (.imm 16), .vld1 [10, 11] .rhs 8 (.imm 16), .dupLane 3 8 0, .dupLane 6 8 1,
    .dupLane 4 9 0, .addX (.t 0) .result .stride, .addX (.t 1) (.t 0) .stride, .ddd .vpadd 0 0 1,
    .ddd .vpadd 0 0 0, .ddd .vpadd 2 2 3, .ddd .vpadd 2 2 2, .ddd .vpadd 4 4 5, .ddd .vpadd 4 4 4,
    .qqq .add 0 0 3, .qqq .add 1 1 6, .qqq .add 2 2 4, .qqq .add 0 0 5, .qqq .add 1 1 5, .qqq .add 2 2 5,
    .vstLane 4 0 0 .result (.imm 4), .vstLane 4 0 2 (.t 0) (.imm 4), .vstLane 4 0 4 (.t 1) (.imm 4)] }

/-- meta/quantized_mul_kernels_arm_32.h:2677-2756. -/
def i32_32_3x2 : Prog32 :=
  { init := [.zeroQ 0, .zeroQ 1, .zeroQ 2, .movQ 3 0, .movQ 4 1, .movQ 5 2]
    skip := false
    body := [.subs .count 8, .vld1 [12, 13, 14] .lhs 8 (.imm 24), .vld1 [15, 16] .rhs 8 (.imm 16), .qdd .umull 9 15 12,
    .qdd .umull 10 16 12, .qdd .umull 11 15 13, .qdd .umull 12 16 13, .qdd .umull 13 15 14,
    .qdd .umull 14 16 14, .qqq .uadalp 0 0 9, .qqq .uadalp 1 1 10, .qqq .uadalp 2 2 11, .qqq .uadalp 3 3 12,
    .qqq .uadalp 4 4 13, .qqq .uadalp 5 5 14]
    cond := .gt
    tail := [.vld1 [12, 13] .lhs 8 (.imm 16), .vld1 [14, 15] .rhs 8 (.imm 16), .dupLane 8 12 0, .dupLane 9 12 1,
    .dupLane 6 13 0, .addX (.t 0) .result .stride, .addX (.t 1) (.t 0) .stride, .ddd .vpadd 0 0 1,
    .ddd .vpadd 2 2 3, .ddd .vpadd 0 0 2, .ddd .vpadd 4 4 5, .ddd .vpadd 6 6 7, .ddd .vpadd 4 4 6,
    .ddd .vpadd 8 8 9, .ddd .vpadd 10 10 11, .ddd .vpadd 8 8 10, .qqq .add 0 0 8, .qqq .add 2 2 9,
    .qqq .add 4 4 6, .qqq .add 0 0 7, .qqq .add 2 2 7, .qqq .add 4 4 7, .vst1 4 [0] .result 0 (.imm 8),
    .vst1 4 [4] (.t 0) 0 (.imm 8), .vst1 4 [8] (.t 1) 0 (.imm 8)] }

/-- meta/quantized_mul_kernels_arm_32.h:2775-2875. -/
def i32_32_3x3 : Prog32 :=
  { init := [.zeroQ 0, .zeroQ 1, .zeroQ 2, .movQ 3 0, .movQ 4 1, .movQ 5 2, .movQ 6 3, .movQ 7 4, .movQ 8 5]
    skip := false
    body := [.vld1 [21, 22, 23] .rhs 8 (.imm 24), .vld1 [18] .lhs 8 (.imm 8), .qdd .umull 12 18 21,
    .vld1 [19] .lhs 8 (.imm 8), .qdd .umull 13 18 22, .vld1 [20] .lhs 8 (.imm 8), .qdd .umull 14 18 23,
    .qdd .umull 15 19 21, .qqq .uadalp 0 0 12, .qqq .uadalp 1 1 13, .qqq .uadalp 2 2 14, .qqq .uadalp 3 3 15,
    .qdd .umull 12 19 22, .qdd .umull 13 19 23, .qdd .umull 14 20 21, .qdd .umull 15 20 22, .subs .count 8,
    .qdd .umull 9 20 23, .qqq .uadalp 4 4 12, .qqq .uadalp 5 5 13, .qqq .uadalp 6 6 14, .qqq .uadalp 7 7 15,
    .qqq .uadalp 8 8 9]
    cond := .gt
    tail := [.vld1 [18, 19] .lhs 8 (.imm 16), .vld1 [20, 21] .rhs 8 (.imm 16), .dupLane 11 18 0, .dupLane 12 18 1,
    .dupLane 9 19 0, .addX (.t 0) .result .stride, .addX (.t 1) (.t 0) .stride, .ddd .vpadd 0 0 1,
    .ddd .vpadd 2 2 3, .ddd .vpadd 4 4 5, .ddd .vpadd 0 0 2, .ddd .vpadd 1 4 4, .ddd .vpadd 6 6 7,
    .ddd .vpadd 8 8 9, .ddd .vpadd 10 10 11, .ddd .vpadd 6 6 8, .ddd .vpadd 7 10 10, .ddd .vpadd 12 12 13,
    .ddd .vpadd 14 14 15, .ddd .vpadd 16 16 17, .ddd .vpadd 12 12 14, .ddd .vpadd 13 16 16, .qqq .add 0 0 11,
    .qqq .add 3 3 12, .qqq .add 6 6 9, .qqq .add 0 0 10, .qqq .add 3 3 10, .qqq .add 6 6 10,
    .vst1 4 [0] .result 0 (.imm 8), .vstLane 4 0 1 .result (.imm 4), .vst1 4 [6] (.t 0) 0 (.imm 8),
    .vstLane 4 0 7 (.t 0) (.imm 4), .vst1 4 [12] (.t 1) 0 (.imm 8), .vstLane 4 0 13 (.t 1) (.imm 4)] }

/-- meta/quantized_mul_kernels_arm_32.h:2894-2943. -/
def f32_32_1x1 : Prog32 :=
  { init := [.zeroQ 0]
    skip := false
    body := [.subs .count 8, .vld1 [2] .lhs 8 (.imm 8), .vld1 [3] .rhs 8 (.imm 8), .qdd .umull 2 3 2, .qqq .uadalp 0 0 2]
    cond := .gt
    tail := [.vld1 [8, 9] .lhs 8 (.imm 16), .vld1 [10, 11] .rhs 8 (.imm 16), .dupW 6 .scale, .dupLane 4 8 0,
    .ddd .vpadd 0 0 1, .ddd .vpadd 0 0 0, .qqq .add 0 0 4, .qqq .add 0 0 5, .qq .scvtf 0 0, .qqq .fmul 0 0 6,
    .vstLane 4 0 0 .result (.imm 4)] }

/-- meta/quantized_mul_kernels_arm_32.h:2962-3015. -/
def f32_32_1x2 : Prog32 :=
  { init := [.zeroQ 0, .zeroQ 1]
    skip := false
    body := [.subs .count 8, .vld1 [4] .lhs 8 (.imm 8), .vld1 [5, 6] .rhs 8 (.imm 16), .qdd .umull 4 5 4,
    .qdd .umull 5 6 4, .qqq .uadalp 0 0 4, .qqq .uadalp 1 1 5]
    cond := .gt
    tail := [.vld1 [8, 9] .lhs 8 (.imm 16), .vld1 [10, 11] .rhs 8 (.imm 16), .dupW 6 .scale, .dupLane 4 8 0,
    .ddd .vpadd 0 0 1, .ddd .vpadd 2 2 3, .ddd .vpadd 0 0 2, .qqq .add 0 0 4, .qqq .add 0 0 5, .qq .scvtf 0 0,
    .qqq .fmul 0 0 6, .vst1 4 [0] .result 0 (.imm 8)] }

/-- meta/quantized_mul_kernels_arm_32.h:3034-3093. -/
def f32_32_1x3 : Prog32 :=
  { init := [.zeroQ 0, .zeroQ 1, .zeroQ 2]
    skip := false
    body := [.subs .count 8, .vld1 [6] .lhs 8 (.imm 8), .vld1 [7, 8, 9] .rhs 8 (.imm 24), .qdd .umull 5 7 6,
    .qdd .umull 6 8 6, .qdd .umull 7 9 6, .qqq .uadalp 0 0 5, .qqq .uadalp 1 1 6, .qqq .uadalp 2 2 7]
    cond := .gt
    tail := [.vld1 [8, 9] .lhs 8 (.imm 16), .vld1 [10, 11] .rhs 8 (.imm 16), .dupW 6 .scale, .dupLane 4 8 0,
    .ddd .vpadd 0 0 1, .ddd .vpadd 2 2 3, .ddd .vpadd 4 4 5, .ddd .vpadd 0 0 2, .ddd .vpadd 1 4 4,
    .qqq .add 0 0 4, .qqq .add 0 0 5, .qq .scvtf 0 0, .qqq .fmul 0 0 6, .vst1 4 [0] .result 0 (.imm 8),
    .vstLane 4 0 1 .result (.imm 4)] }

/-- meta/quantized_mul_kernels_arm_32.h:3112-3175. -/
def f32_32_1x4 : Prog32 :=
  { init := [.zeroQ 0, .zeroQ 1, .zeroQ 2, .movQ 3 0]
    skip := false
    body := [.subs .count 8, .vld1 [8] .lhs 8 (.imm 8), .vld1 [9, 10, 11, 12] .rhs 8 (.imm 32), .qdd .umull 7 9 8,
    .qdd .umull 8 10 8, .qdd .umull 9 11 8, .qdd .umull 10 12 8, .qqq .uadalp 0 0 7, .qqq .uadalp 1 1 8,
    .qqq .uadalp 2 2 9, .qqq .uadalp 3 3 10]
    cond := .gt
    tail := [.vld1 [8, 9] .lhs 8 (.imm 16), .vld1 [10, 11] .rhs 8 (.imm 16), .dupW 6 .scale, .dupLane 4 8 0,
    .ddd .vpadd 0 0 1, .ddd .vpadd 2 2 3, .ddd .vpadd 4 4 5, .ddd .vpadd 6 6 7, .ddd .vpadd 0 0 2,
    .ddd .vpadd 1 4 6, .qqq .add 0 0 4, .qqq .add 0 0 5, .qq .scvtf 0 0, .qqq .fmul 0 0 6,
    .vst1 4 [0, 1] .result 0 (.imm 16)] }

/-- meta/quantized_mul_kernels_arm_32.h:3194-3268. -/
def f32_32_1x5 : Prog32 :=
  { init := [.zeroQ 0, .zeroQ 1, .zeroQ 2, .movQ 3 0, .movQ 4 1]
    skip := false
    body := [.subs .count 8, .vld1 [10, 11, 12, 13] .rhs 8 (.imm 32), .vld1 [14] .lhs 8 (.imm 8), .qdd .umull 8 10 14,
    .qdd .umull 9 11 14, .qdd .umull 10 12 14, .qdd .umull 11 13 14, .vld1 [10] .rhs 8 (.imm 8),
    .qqq .uadalp 0 0 8, .qqq .uadalp 1 1 9, .qqq .uadalp 2 2 10, .qqq .uadalp 3 3 11, .qdd .umull 8 10 14,
    .qqq .uadalp 4 4 8]
    cond := .gt
    tail := [.vld1 [10, 11] .lhs 8 (.imm 16), .vld1 [12, 13, 14, 15] .rhs 8 (.imm 32), .dupW 8 .scale, .dupLane 5 10 0,
    .ddd .vpadd 0 0 1, .ddd .vpadd 2 2 3, .ddd .vpadd 4 4 5, .ddd .vpadd 6 6 7, .ddd .vpadd 8 8 9,
    .ddd .vpadd 0 0 2, .ddd .vpadd 1 4 6, .ddd .vpadd 2 8 8, .qqq .add 0 0 5, .qqq .add 1 1 5, .qqq .add 0 0 6,
    .qqq .add 1 1 7, .qq .scvtf 0 0, .qq .scvtf 1 1, .qqq .fmul 0 0 8, .qqq .fmul 1 1 8,
    .vst1 4 [0, 1] .result 0 (.imm 16), .vstLane 4 0 2 .result (.imm 4)] }

/-- meta/quantized_mul_kernels_arm_32.h:3287-3364. -/
def f32_32_1x6 : Prog32 :=
  { init := [.zeroQ 0, .zeroQ 1, .zeroQ 2, .movQ 3 0, .movQ 4 1, .movQ 5 2]
    skip := false
    body := [.subs .count 8, .vld1 [12, 13, 14, 15] .rhs 8 (.imm 32), .vld1 [16] .lhs 8 (.imm 8), .qdd .umull 9 12 16,
    .qdd .umull 10 13 16, .qdd .umull 11 14 16, .qdd .umull 12 15 16, .vld1 [12, 13] .rhs 8 (.imm 16),
    .qqq .uadalp 0 0 9, .qqq .uadalp 1 1 10, .qqq .uadalp 2 2 11, .qqq .uadalp 3 3 12, .qdd .umull 9 12 16,
    .qdd .umull 10 13 16, .qqq .uadalp 4 4 9, .qqq .uadalp 5 5 10]
    cond := .gt
    tail := [.vld1 [12, 13] .lhs 8 (.imm 16), .vld1 [14, 15, 16, 17] .rhs 8 (.imm 32), .dupW 9 .scale, .dupLane 6 12 0,
    .ddd .vpadd 0 0 1, .ddd .vpadd 2 2 3, .ddd .vpadd 4 4 5, .ddd .vpadd 6 6 7, .ddd .vpadd 8 8 9,
    .ddd .vpadd 10 10 11, .ddd .vpadd 0 0 2, .ddd .vpadd 1 4 6, .ddd .vpadd 2 8 10, .qqq .add 0 0 6,
    .qqq .add 1 1 6, .qqq .add 0 0 7, .qqq .add 1 1 8, .qq .scvtf 0 0, .qq .scvtf 1 1, .qqq .fmul 0 0 9,
    .qqq .fmul 1 1 9, .vst1 4 [0, 1, 2] .result 0 (.imm 24)] }

/-- meta/quantized_mul_kernels_arm_32.h:3383-3466. -/
def f32_32_1x7 : Prog32 :=
  { init := [.zeroQ 0, .zeroQ 1, .zeroQ 2, .movQ 3 0, .movQ 4 1, .movQ 5 2, .movQ 6 3]
    skip := false
    body := [.subs .count 8, .vld1 [14, 15, 16, 17] .rhs 8 (.imm 32), .vld1 [18] .lhs 8 (.imm 8), .qdd .umull 10 14 18,
    .qdd .umull 11 15 18, .qdd .umull 12 16 18, .qdd .umull 13 17 18, .vld1 [14, 15, 16] .rhs 8 (.imm 24),
    .qqq .uadalp 0 0 10, .qqq .uadalp 1 1 11, .qqq .uadalp 2 2 12, .qqq .uadalp 3 3 13, .qdd .umull 10 14 18,
    .qdd .umull 11 15 18, .qdd .umull 12 16 18, .qqq .uadalp 4 4 10, .qqq .uadalp 5 5 11, .qqq .uadalp 6 6 12]
    cond := .gt
    tail := [.vld1 [14, 15] .lhs 8 (.imm 16), .vld1 [16, 17, 18, 19] .rhs 8 (.imm 32), .dupW 10 .scale, .dupLane 7 14 0,
    .ddd .vpadd 0 0 1, .ddd .vpadd 2 2 3, .ddd .vpadd 4 4 5, .ddd .vpadd 6 6 7, .ddd .vpadd 8 8 9,
    .ddd .vpadd 10 10 11, .ddd .vpadd 12 12 13, .ddd .vpadd 0 0 2, .ddd .vpadd 1 4 6, .ddd .vpadd 2 8 10,
    .ddd .vpadd 3 12 12, .qqq .add 0 0 7, .qqq .add 1 1 7, .qqq .add 0 0 8, .qqq .add 1 1 9, .qq .scvtf 0 0,
    .qq .scvtf 1 1, .qqq .fmul 0 0 10, .qqq .fmul 1 1 10, .vst1 4 [0, 1, 2] .result 0 (.imm 24),
    .vstLane 4 0 3 .result (.imm 4)] }

/-- meta/quantized_mul_kernels_arm_32.h:3485-3573. -/
def f32_32_1x8 : Prog32 :=
  { init := [.zeroQ 0, .zeroQ 1, .zeroQ 2, .movQ 3 0, .movQ 4 1, .movQ 5 2, .movQ 6 3, .movQ 7 4]
    skip := false
    body := [.vld1 [17, 18, 19, 20] .rhs 32 (.imm 32), .vld1 [16] .lhs 8 (.imm 8), .qdd .umull 11 16 17,
    .qdd .umull 12 16 18, .qdd .umull 13 16 19, .qdd .umull 14 16 20, .vld1 [17, 18, 19, 20] .rhs 32 (.imm 32),
    .qqq .uadalp 0 0 11, .qqq .uadalp 1 1 12, .qqq .uadalp 2 2 13, .qqq .uadalp 3 3 14, .qdd .umull 15 16 17,
    .qdd .umull 11 16 18, .qdd .umull 12 16 19, .qdd .umull 13 16 20, .subs .count 8, .qqq .uadalp 4 4 15,
    .qqq .uadalp 5 5 11, .qqq .uadalp 6 6 12, .qqq .uadalp 7 7 13]
    cond := .gt
    tail := [.vld1 [16, 17] .lhs 8 (.imm 16), .vld1 [18, 19, 20, 21] .rhs 8 (.imm 32), .dupW 11 .scale, .dupLane 8 16 0,
    .ddd .vpadd 0 0 1, .ddd .vpadd 2 2 3, .ddd .vpadd 4 4 5, .ddd .vpadd 6 6 7, .ddd .vpadd 8 8 9,
    .ddd .vpadd 10 10 11, .ddd .vpadd 12 12 13, .ddd .vpadd 14 14 15, .ddd .vpadd 0 0 2, .ddd .vpadd 1 4 6,
    .ddd .vpadd 2 8 10, .ddd .vpadd 3 12 14, .qqq .add 0 0 8, .qqq .add 1 1 8, .qqq .add 0 0 9,
    .qqq .add 1 1 10, .qq .scvtf 0 0, .qq .scvtf 1 1, .qqq .fmul 0 0 11, .qqq .fmul 1 1 11,
    .vst1 4 [0, 1, 2, 3] .result 0 (.imm 32)] }

/-- meta/quantized_mul_kernels_arm_32.h:3592-3653. -/
def f32_32_2x1 : Prog32 :=
  { init := [.zeroQ 0, .zeroQ 1]
    skip := false
    body := [.subs .count 8, .vld1 [4, 5] .lhs 8 (.imm 16), .vld1 [6] .rhs 8 (.imm 8), .qdd .umull 4 6 4,
    .qdd .umull 5 6 5, .qqq .uadalp 0 0 4, .qqq .uadalp 1 1 5]
    cond := .gt
    tail := [.vld1 [8, 9] .lhs 8 (.imm 16), .vld1 [10, 11] .rhs 8 (.imm 16), .dupW 6 .scale, .dupLane 2 8 0,
    .dupLane 4 8 1, .addX (.t 0) .result .stride, .ddd .vpadd 0 0 1, .ddd .vpadd 0 0 0, .ddd .vpadd 2 2 3,
    .ddd .vpadd 2 2 2, .qqq .add 0 0 2, .qqq .add 1 1 4, .qqq .add 0 0 5, .qqq .add 1 1 5, .qq .scvtf 0 0,
    .qq .scvtf 1 1, .qqq .fmul 0 0 6, .qqq .fmul 1 1 6, .vstLane 4 0 0 .result (.imm 4),
    .vstLane 4 0 2 (.t 0) (.imm 4)] }

/-- meta/quantized_mul_kernels_arm_32.h:3672-3742. -/
def f32_32_2x2 : Prog32 :=
  { init := [.zeroQ 0, .zeroQ 1, .zeroQ 2, .movQ 3 0]
    skip := false
    body := [.subs .count 8, .vld1 [8, 9] .lhs 8 (.imm 16), .vld1 [10, 11] .rhs 8 (.imm 16), .qdd .umull 6 10 8,
    .qdd .umull 7 11 8, .qdd .umull 8 10 9, .qdd .umull 9 11 9, .qqq .uadalp 0 0 6, .qqq .uadalp 1 1 7,
    .qqq .uadalp 2 2 8, .qqq .uadalp 3 3 9]
    cond := .gt
    tail := [.vld1 [8, 9] .lhs 8 (.imm 16), .vld1 [10, 11] .rhs 8 (.imm 16), .dupW 6 .scale, .dupLane 7 8 0,
    .dupLane 4 8 1, .addX (.t 0) .result .stride, .ddd .vpadd 0 0 1, .ddd .vpadd 2 2 3, .ddd .vpadd 0 0 2,
    .ddd .vpadd 4 4 5, .ddd .vpadd 6 6 7, .ddd .vpadd 4 4 6, .qqq .add 0 0 7, .qqq .add 2 2 4, .qqq .add 0 0 5,
    .qqq .add 2 2 5, .qq .scvtf 0 0, .qq .scvtf 2 2, .qqq .fmul 0 0 6, .qqq .fmul 2 2 6,
    .vst1 4 [0] .result 0 (.imm 8), .vst1 4 [4] (.t 0) 0 (.imm 8)] }

/-- meta/quantized_mul_kernels_arm_32.h:3761-3844. -/
def f32_32_2x3 : Prog32 :=
  { init := [.zeroQ 0, .zeroQ 1, .zeroQ 2, .movQ 3 0, .movQ 4 1, .movQ 5 2]
    skip := false
    body := [.subs .count 8, .vld1 [12, 13] .lhs 8 (.imm 16), .vld1 [14, 15, 16] .rhs 8 (.imm 24), .qdd .umull 9 14 12,
    .qdd .umull 10 15 12, .qdd .umull 11 16 12, .qdd .umull 12 14 13, .qdd .umull 13 15 13,
    .qdd .umull 14 16 13, .qqq .uadalp 0 0 9, .qqq .uadalp 1 1 10, .qqq .uadalp 2 2 11, .qqq .uadalp 3 3 12,
    .qqq .uadalp 4 4 13, .qqq .uadalp 5 5 14]
    cond := .gt
    tail := [.vld1 [12, 13] .lhs 8 (.imm 16), .vld1 [14, 15] .rhs 8 (.imm 16), .dupW 8 .scale, .dupLane 9 12 0,
    .dupLane 6 12 1, .addX (.t 0) .result .stride, .ddd .vpadd 0 0 1, .ddd .vpadd 2 2 3, .ddd .vpadd 4 4 5,
    .ddd .vpadd 0 0 2, .ddd .vpadd 1 4 4, .ddd .vpadd 6 6 7, .ddd .vpadd 8 8 9, .ddd .vpadd 10 10 11,
    .ddd .vpadd 6 6 8, .ddd .vpadd 7 10 10, .qqq .add 0 0 9, .qqq .add 3 3 6, .qqq .add 0 0 7, .qqq .add 3 3 7,
    .qq .scvtf 0 0, .qq .scvtf 3 3, .qqq .fmul 0 0 8, .qqq .fmul 3 3 8, .vst1 4 [0] .result 0 (.imm 8),
    .vstLane 4 0 1 .result (.imm 4), .vst1 4 [6] (.t 0) 0 (.imm 8), .vstLane 4 0 7 (.t 0) (.imm 4)] }

/-- meta/quantized_mul_kernels_arm_32.h:3863-3954. -/
def f32_32_2x4 : Prog32 :=
  { init := [.zeroQ 0, .zeroQ 1, .zeroQ 2, .movQ 3 0, .movQ 4 1, .movQ 5 2, .movQ 6 3, .movQ 7 4]
    skip := false
    body := [.vld1 [18, 19, 20, 21] .rhs 32 (.imm 32), .vld1 [16] .lhs 8 (.imm 8), .qdd .umull 11 16 18,
    .vld1 [17] .lhs 8 (.imm 8), .qdd .umull 12 16 19, .qdd .umull 13 16 20, .qdd .umull 14 16 21,
    .qdd .umull 15 17 18, .qqq .uadalp 0 0 11, .qqq .uadalp 1 1 12, .qqq .uadalp 2 2 13, .qdd .umull 11 17 19,
    .qdd .umull 12 17 20, .qdd .umull 13 17 21, .subs .count 8, .qqq .uadalp 3 3 14, .qqq .uadalp 4 4 15,
    .qqq .uadalp 5 5 11, .qqq .uadalp 6 6 12, .qqq .uadalp 7 7 13]
    cond := .gt
    tail := [.vld1 [16, 17] .lhs 8 (.imm 16), .vld1 [18, 19] .rhs 8 (.imm 16), .dupW 10 .scale, .dupLane 11 16 0,
    .dupLane 8 16 1, .addX (.t 0) .result .stride, .ddd .vpadd 0 0 1, .ddd .vpadd 2 2 3, .ddd .vpadd 4 4 5,
    .ddd .vpadd 6 6 7, .ddd .vpadd 0 0 2, .ddd .vpadd 1 4 6, .ddd .vpadd 8 8 9, .ddd .vpadd 10 10 11,
    .ddd .vpadd 12 12 13, .ddd .vpadd 14 14 15, .ddd .vpadd 8 8 10, .ddd .vpadd 9 12 14, .qqq .add 0 0 11,
    .qqq .add 4 4 8, .qqq .add 0 0 9, .qqq .add 4 4 9, .qq .scvtf 0 0, .qq .scvtf 4 4, .qqq .fmul 0 0 10,
    .qqq .fmul 4 4 10, .vst1 4 [0, 1] .result 0 (.imm 16), .vst1 4 [8, 9] (.t 0) 0 (.imm 16)] }

/-- meta/quantized_mul_kernels_arm_32.h:3973-4046. -/
def f32_32_3x1 : Prog32 :=
  { init := [.zeroQ 0, .zeroQ 1, .zeroQ 2]
    skip := false
    body := [.subs .count 8, .vld1 [6, 7, 8] .lhs 8 (.imm 24), .vld1 [9] .rhs 8 (.imm 8), .qdd .umull 5 9 6,
    .qdd .umull 6 9 7, .qdd .umull 7 9 8, .qqq .uadalp 0 0 5, .qqq .uadalp 1 1 6, .qqq .uadalp 2 2 7]
    cond := .gt
    tail := [.vld1 [8, 9] .lhs 8 (.imm 16), .vld1 [10, 11] .rhs 8 (.imm 16), .dupW 6 .scale, .dupLane 3 8 0,
    .dupLane 7 8 1, .dupLane 4 9 0, .addX (.t 0) .result .stride, .addX (.t 1) (.t 0) .stride,
    .ddd .vpadd 0 0 1, .ddd .vpadd 0 0 0, .ddd .vpadd 2 2 3, .ddd .vpadd 2 2 2, .ddd .vpadd 4 4 5,
    .ddd .vpadd 4 4 4, .qqq .add 0 0 3, .qqq .add 1 1 7, .qqq .add 2 2 4, .qqq .add 0 0 5, .qqq .add 1 1 5,
    .qqq .add 2 2 5, .qq .scvtf 0 0, .qq .scvtf 1 1, .qq .scvtf 2 2, .qqq .fmul 0 0 6, .qqq .fmul 1 1 6,
    .qqq .fmul 2 2 6, .vstLane 4 0 0 .result (.imm 4), .vstLane 4 0 2 (.t 0) (.imm 4),
    .vstLane 4 0 4 (.t 1) (.imm 4)] }

/-- meta/quantized_mul_kernels_arm_32.h:4065-4152. -/
def f32_32_3x2 : Prog32 :=
  { init := [.zeroQ 0, .zeroQ 1, .zeroQ 2, .movQ 3 0, .movQ 4 1, .movQ 5 2]
    skip := false
    body := [.subs .count 8, .vld1 [12, 13, 14] .lhs 8 (.imm 24), .vld1 [15, 16] .rhs 8 (.imm 16), .qdd .umull 9 15 12,
    .qdd .umull 10 16 12, .qdd .umull 11 15 13, .qdd .umull 12 16 13, .qdd .umull 13 15 14,
    .qdd .umull 14 16 14, .qqq .uadalp 0 0 9, .qqq .uadalp 1 1 10, .qqq .uadalp 2 2 11, .qqq .uadalp 3 3 12,
    .qqq .uadalp 4 4 13, .qqq .uadalp 5 5 14]
    cond := .gt
    tail := [.vld1 [12, 13] .lhs 8 (.imm 16), .vld1 [14, 15] .rhs 8 (.imm 16), .dupW 8 .scale, .dupLane 9 12 0,
    .dupLane 10 12 1, .dupLane 6 13 0, .addX (.t 0) .result .stride, .addX (.t 1) (.t 0) .stride,
    .ddd .vpadd 0 0 1, .ddd .vpadd 2 2 3, .ddd .vpadd 0 0 2, .ddd .vpadd 4 4 5, .ddd .vpadd 6 6 7,
    .ddd .vpadd 4 4 6, .ddd .vpadd 8 8 9, .ddd .vpadd 10 10 11, .ddd .vpadd 8 8 10, .qqq .add 0 0 9,
    .qqq .add 2 2 10, .qqq .add 4 4 6, .qqq .add 0 0 7, .qqq .add 2 2 7, .qqq .add 4 4 7, .qq .scvtf 0 0,
    .qq .scvtf 2 2, .qq .scvtf 4 4, .qqq .fmul 0 0 8, .qqq .fmul 2 2 8, .qqq .fmul 4 4 8,
    .vst1 4 [0] .result 0 (.imm 8), .vst1 4 [4] (.t 0) 0 (.imm 8), .vst1 4 [8] (.t 1) 0 (.imm 8)] }

/-- meta/quantized_mul_kernels_arm_32.h:4171-4279. -/
def f32_32_3x3 : Prog32 :=
  { init := [.zeroQ 0, .zeroQ 1, .zeroQ 2, .movQ 3 0, .movQ 4 1, .movQ 5 2, .movQ 6 3, .movQ 7 4, .movQ 8 5]
    skip := false
    body := [.vld1 [21, 22, 23] .rhs 8 (.imm 24), .vld1 [18] .lhs 8 (.imm 8), .qdd .umull 12 18 21,
    .vld1 [19] .lhs 8 (.imm 8), .qdd .umull 13 18 22, .vld1 [20] .lhs 8 (.imm 8), .qdd .umull 14 18 23,
    .qdd .umull 15 19 21, .qqq .uadalp 0 0 12, .qqq .uadalp 1 1 13, .qqq .uadalp 2 2 14, .qqq .uadalp 3 3 15,
    .qdd .umull 12 19 22, .qdd .umull 13 19 23, .qdd .umull 14 20 21, .qdd .umull 15 20 22, .subs .count 8,
    .qdd .umull 9 20 23, .qqq .uadalp 4 4 12, .qqq .uadalp 5 5 13, .qqq .uadalp 6 6 14, .qqq .uadalp 7 7 15,
    .qqq .uadalp 8 8 9]
    cond := .gt
    tail := [.vld1 [18, 19] .lhs 8 (.imm 16), .vld1 [20, 21] .rhs 8 (.imm 16), .dupW 11 .scale, .dupLane 12 18 0,
    .dupLane 13 18 1, .dupLane 9 19 0, .addX (.t 0) .result .stride, .addX (.t 1) (.t 0) .stride,
    .ddd .vpadd 0 0 1, .ddd .vpadd 2 2 3, .ddd .vpadd 4 4 5, .ddd .vpadd 0 0 2, .ddd .vpadd 1 4 4,
    .ddd .vpadd 6 6 7, .ddd .vpadd 8 8 9, .ddd .vpadd 10 10 11, .ddd .vpadd 6 6 8, .ddd .vpadd 7 10 10,
    .ddd .vpadd 12 12 13, .ddd .vpadd 14 14 15, .ddd .vpadd 16 16 17, .ddd .vpadd 12 12 14,
    .ddd .vpadd 13 16 16, .qqq .add 0 0 12, .qqq .add 3 3 13, .qqq .add 6 6 9, .qqq .add 0 0 10,
    .qqq .add 3 3 10, .qqq .add 6 6 10, .qq .scvtf 0 0, .qq .scvtf 3 3, .qq .scvtf 6 6, .qqq .fmul 0 0 11,
    .qqq .fmul 3 3 11, .qqq .fmul 6 6 11, .vst1 4 [0] .result 0 (.imm 8), .vstLane 4 0 1 .result (.imm 4),
    .vst1 4 [6] (.t 0) 0 (.imm 8), .vstLane 4 0 7 (.t 0) (.imm 4), .vst1 4 [12] (.t 1) 0 (.imm 8),
    .vstLane 4 0 13 (.t 1) (.imm 4)] }

/-- The kernel for a number of rows and columns and results of type `uint8_t`. -/
def q8_32Prog : Nat → Nat → Option Prog32
  | 1, 1 => some q8_32_1x1
  | 1, 2 => some q8_32_1x2
  | 1, 3 => some q8_32_1x3
  | 1, 4 => some q8_32_1x4
  | 1, 5 => some q8_32_1x5
  | 1, 6 => some q8_32_1x6
  | 1, 7 => some q8_32_1x7
  | 1, 8 => some q8_32_1x8
  | 2, 1 => some q8_32_2x1
  | 2, 2 => some q8_32_2x2
  | 2, 3 => some q8_32_2x3
  | 2, 4 => some q8_32_2x4
  | 3, 1 => some q8_32_3x1
  | 3, 2 => some q8_32_3x2
  | 3, 3 => some q8_32_3x3
  | _, _ => none

/-- The kernel for a number of rows and columns and results of type `int32_t`. -/
def i32_32Prog : Nat → Nat → Option Prog32
  | 1, 1 => some i32_32_1x1
  | 1, 2 => some i32_32_1x2
  | 1, 3 => some i32_32_1x3
  | 1, 4 => some i32_32_1x4
  | 1, 5 => some i32_32_1x5
  | 1, 6 => some i32_32_1x6
  | 1, 7 => some i32_32_1x7
  | 1, 8 => some i32_32_1x8
  | 2, 1 => some i32_32_2x1
  | 2, 2 => some i32_32_2x2
  | 2, 3 => some i32_32_2x3
  | 2, 4 => some i32_32_2x4
  | 3, 1 => some i32_32_3x1
  | 3, 2 => some i32_32_3x2
  | 3, 3 => some i32_32_3x3
  | _, _ => none

/-- The kernel for a number of rows and columns and results of type `float`. -/
def f32_32Prog : Nat → Nat → Option Prog32
  | 1, 1 => some f32_32_1x1
  | 1, 2 => some f32_32_1x2
  | 1, 3 => some f32_32_1x3
  | 1, 4 => some f32_32_1x4
  | 1, 5 => some f32_32_1x5
  | 1, 6 => some f32_32_1x6
  | 1, 7 => some f32_32_1x7
  | 1, 8 => some f32_32_1x8
  | 2, 1 => some f32_32_2x1
  | 2, 2 => some f32_32_2x2
  | 2, 3 => some f32_32_2x3
  | 2, 4 => some f32_32_2x4
  | 3, 1 => some f32_32_3x1
  | 3, 2 => some f32_32_3x2
  | 3, 3 => some f32_32_3x3
  | _, _ => none

end Gemmlowp.MetaAsm
