import Verif.MetaAsm
/-!
# The multiplication kernels of meta/quantized_mul_kernels_arm_64.h

`q8_MxN`, `i32_MxN` and `f32_MxN` are the code of `MulKernel<uint8_t, T, K, RowMajor, M, N, 8>::Multiply` for `T`, `K` =
`uint8_t`, `QuantizedStaticPreprocessed`; `int32_t`, `QuantizedStaticPreprocessedAsInt32`; and `float`,
`QuantizedStaticPreprocessedAsFloat`, line by line.
-/
namespace Gemmlowp.MetaAsm

/-- meta/quantized_mul_kernels_arm_64.h:42-97. -/
def q8_1x1 : Prog :=
  { init := [.movi 0]
    skip := false
    body := [.subs .count 8, .ld1 8 [1] .lhs (.imm 8), .ld1 8 [2] .rhs (.imm 8), .op2 .umull 3 2 1, .op2 .uadalp 0 0 3]
    cond := .gt
    tail := [.ld1 16 [4] .lhs (.imm 16), .ld1 16 [5] .rhs (.imm 16), .dupW 6 .mulOffset, .dupW 7 .rounding,
    .dupW 8 .shift, .dupLane 4 4 0, .op2 .addp 0 0 0, .op2 .addp 0 0 0, .op2 .add 0 0 4, .op2 .add 0 0 5,
    .op2 .mul 0 0 6, .op2 .add 0 0 7, .op2 .sshl 0 0 8, .op1 .sqxtn 0 0, .op1 .sqxtun 0 0,
    .stLane 1 0 0 .result (.imm 1)] }

/-- meta/quantized_mul_kernels_arm_64.h:115-173. -/
def q8_1x2 : Prog :=
  { init := [.movi 0, .movi 1]
    skip := false
    body := [.subs .count 8, .ld1 8 [2] .lhs (.imm 8), .ld1 8 [3, 4] .rhs (.imm 16), .op2 .umull 5 3 2,
    .op2 .umull 6 4 2, .op2 .uadalp 0 0 5, .op2 .uadalp 1 1 6]
    cond := .gt
    tail := [.ld1 16 [4] .lhs (.imm 16), .ld1 16 [5] .rhs (.imm 16), .dupW 6 .mulOffset, .dupW 7 .rounding,
    .dupW 8 .shift, .dupLane 4 4 0, .op2 .addp 0 0 1, .op2 .addp 0 0 0, .op2 .add 0 0 4, .op2 .add 0 0 5,
    .op2 .mul 0 0 6, .op2 .add 0 0 7, .op2 .sshl 0 0 8, .op1 .sqxtn 0 0, .op1 .sqxtun 0 0,
    .stLane 2 0 0 .result (.imm 2)] }

/-- meta/quantized_mul_kernels_arm_64.h:191-255. -/
def q8_1x3 : Prog :=
  { init := [.movi 0, .movi 1, .movi 2]
    skip := false
    body := [.subs .count 8, .ld1 8 [3] .lhs (.imm 8), .ld1 8 [4, 5, 6] .rhs (.imm 24), .op2 .umull 7 4 3,
    .op2 .umull 8 5 3, .op2 .umull 9 6 3, .op2 .uadalp 0 0 7, .op2 .uadalp 1 1 8, .op2 .uadalp 2 2 9]
    cond := .gt
    tail := [.ld1 16 [4] .lhs (.imm 16), .ld1 16 [5] .rhs (.imm 16), .dupW 6 .mulOffset, .dupW 7 .rounding,
    .dupW 8 .shift, .dupLane 4 4 0, .op2 .addp 0 0 1, .op2 .addp 2 2 2, .op2 .addp 0 0 2, .op2 .add 0 0 4,
    .op2 .add 0 0 5, .op2 .mul 0 0 6, .op2 .add 0 0 7, .op2 .sshl 0 0 8, .op1 .sqxtn 0 0, .op1 .sqxtun 0 0,
    .stLane 2 0 0 .result (.imm 2), .stLane 1 2 0 .result (.imm 1)] }

/-- meta/quantized_mul_kernels_arm_64.h:273-339. -/
def q8_1x4 : Prog :=
  { init := [.movi 0, .movi 1, .movi 2, .mov 3 0]
    skip := false
    body := [.subs .count 8, .ld1 8 [4] .lhs (.imm 8), .ld1 8 [5, 6, 7, 8] .rhs (.imm 32), .op2 .umull 9 5 4,
    .op2 .umull 10 6 4, .op2 .umull 11 7 4, .op2 .umull 12 8 4, .op2 .uadalp 0 0 9, .op2 .uadalp 1 1 10,
    .op2 .uadalp 2 2 11, .op2 .uadalp 3 3 12]
    cond := .gt
    tail := [.ld1 16 [4] .lhs (.imm 16), .ld1 16 [5] .rhs (.imm 16), .dupW 6 .mulOffset, .dupW 7 .rounding,
    .dupW 8 .shift, .dupLane 4 4 0, .op2 .addp 0 0 1, .op2 .addp 2 2 3, .op2 .addp 0 0 2, .op2 .add 0 0 4,
    .op2 .add 0 0 5, .op2 .mul 0 0 6, .op2 .add 0 0 7, .op2 .sshl 0 0 8, .op1 .sqxtn 0 0, .op1 .sqxtun 0 0,
    .stLane 4 0 0 .result (.imm 4)] }

/-- meta/quantized_mul_kernels_arm_64.h:357-436. -/
def q8_1x5 : Prog :=
  { init := [.movi 0, .movi 1, .movi 2, .mov 3 0, .mov 4 1]
    skip := false
    body := [.subs .count 8, .ld1 8 [5, 6, 7, 8] .rhs (.imm 32), .ld1 8 [9] .lhs (.imm 8), .op2 .umull 10 5 9,
    .op2 .umull 11 6 9, .op2 .umull 12 7 9, .op2 .umull 13 8 9, .ld1 8 [5] .rhs (.imm 8), .op2 .uadalp 0 0 10,
    .op2 .uadalp 1 1 11, .op2 .uadalp 2 2 12, .op2 .uadalp 3 3 13, .op2 .umull 10 5 9, .op2 .uadalp 4 4 10]
    cond := .gt
    tail := [.ld1 16 [5] .lhs (.imm 16), .ld1 16 [6, 7] .rhs (.imm 32), .dupW 8 .mulOffset, .dupW 9 .rounding,
    .dupW 10 .shift, .dupLane 5 5 0, .op2 .addp 0 0 1, .op2 .addp 2 2 3, .op2 .addp 4 4 4, .op2 .addp 0 0 2,
    .op2 .addp 1 4 4, .op2 .add 0 0 5, .op2 .add 1 1 5, .op2 .add 0 0 6, .op2 .add 1 1 7, .op2 .mul 0 0 8,
    .op2 .mul 1 1 8, .op2 .add 0 0 9, .op2 .add 1 1 9, .op2 .sshl 0 0 10, .op2 .sshl 1 1 10, .op1 .sqxtn 0 0,
    .op2 .sqxtn2 0 0 1, .op1 .sqxtun 0 0, .stLane 4 0 0 .result (.imm 4), .stLane 1 4 0 .result (.imm 1)] }

/-- meta/quantized_mul_kernels_arm_64.h:454-536. -/
def q8_1x6 : Prog :=
  { init := [.movi 0, .movi 1, .movi 2, .mov 3 0, .mov 4 1, .mov 5 2]
    skip := false
    body := [.subs .count 8, .ld1 8 [6, 7, 8, 9] .rhs (.imm 32), .ld1 8 [10] .lhs (.imm 8), .op2 .umull 11 6 10,
    .op2 .umull 12 7 10, .op2 .umull 13 8 10, .op2 .umull 14 9 10, .ld1 8 [6, 7] .rhs (.imm 16),
    .op2 .uadalp 0 0 11, .op2 .uadalp 1 1 12, .op2 .uadalp 2 2 13, .op2 .uadalp 3 3 14, .op2 .umull 11 6 10,
    .op2 .umull 12 7 10, .op2 .uadalp 4 4 11, .op2 .uadalp 5 5 12]
    cond := .gt
    tail := [.ld1 16 [6] .lhs (.imm 16), .ld1 16 [7, 8] .rhs (.imm 32), .dupW 9 .mulOffset, .dupW 10 .rounding,
    .dupW 11 .shift, .dupLane 6 6 0, .op2 .addp 0 0 1, .op2 .addp 2 2 3, .op2 .addp 4 4 5, .op2 .addp 0 0 2,
    .op2 .addp 1 4 4, .op2 .add 0 0 6, .op2 .add 1 1 6, .op2 .add 0 0 7, .op2 .add 1 1 8, .op2 .mul 0 0 9,
    .op2 .mul 1 1 9, .op2 .add 0 0 10, .op2 .add 1 1 10, .op2 .sshl 0 0 11, .op2 .sshl 1 1 11, .op1 .sqxtn 0 0,
    .op2 .sqxtn2 0 0 1, .op1 .sqxtun 0 0, .stLane 4 0 0 .result (.imm 4), .stLane 2 2 0 .result (.imm 2)] }

/-- meta/quantized_mul_kernels_arm_64.h:554-641. -/
def q8_1x7 : Prog :=
  { init := [.movi 0, .movi 1, .movi 2, .mov 3 0, .mov 4 1, .mov 5 2, .mov 6 3]
    skip := false
    body := [.subs .count 8, .ld1 8 [7, 8, 9, 10] .rhs (.imm 32), .ld1 8 [11] .lhs (.imm 8), .op2 .umull 12 7 11,
    .op2 .umull 13 8 11, .op2 .umull 14 9 11, .op2 .umull 15 10 11, .ld1 8 [7, 8, 9] .rhs (.imm 24),
    .op2 .uadalp 0 0 12, .op2 .uadalp 1 1 13, .op2 .uadalp 2 2 14, .op2 .uadalp 3 3 15, .op2 .umull 12 7 11,
    .op2 .umull 13 8 11, .op2 .umull 14 9 11, .op2 .uadalp 4 4 12, .op2 .uadalp 5 5 13, .op2 .uadalp 6 6 14]
    cond := .gt
    tail := [.ld1 16 [7] .lhs (.imm 16), .ld1 16 [8, 9] .rhs (.imm 32), .dupW 10 .mulOffset, .dupW 11 .rounding,
    .dupW 12 .shift, .dupLane 7 7 0, .op2 .addp 0 0 1, .op2 .addp 2 2 3, .op2 .addp 4 4 5, .op2 .addp 6 6 6,
    .op2 .addp 0 0 2, .op2 .addp 1 4 6, .op2 .add 0 0 7, .op2 .add 1 1 7, .op2 .add 0 0 8, .op2 .add 1 1 9,
    .op2 .mul 0 0 10, .op2 .mul 1 1 10, .op2 .add 0 0 11, .op2 .add 1 1 11, .op2 .sshl 0 0 12,
    .op2 .sshl 1 1 12, .op1 .sqxtn 0 0, .op2 .sqxtn2 0 0 1, .op1 .sqxtun 0 0, .stLane 4 0 0 .result (.imm 4),
    .stLane 2 2 0 .result (.imm 2), .stLane 1 6 0 .result (.imm 1)] }

/-- meta/quantized_mul_kernels_arm_64.h:659-748. -/
def q8_1x8 : Prog :=
  { init := [.movi 0, .movi 1, .movi 2, .mov 3 0, .mov 4 1, .mov 5 2, .mov 6 3, .mov 7 4]
    skip := false
    body := [.ld1 8 [9, 10, 11, 12] .rhs (.imm 32), .ld1 8 [8] .lhs (.imm 8), .op2 .umull 13 8 9, .op2 .umull 14 8 10,
    .op2 .umull 15 8 11, .op2 .umull 16 8 12, .ld1 8 [9, 10, 11, 12] .rhs (.imm 32), .op2 .uadalp 0 0 13,
    .op2 .uadalp 1 1 14, .op2 .uadalp 2 2 15, .op2 .uadalp 3 3 16, .op2 .umull 17 8 9, .op2 .umull 13 8 10,
    .op2 .umull 14 8 11, .op2 .umull 15 8 12, .subs .count 8, .op2 .uadalp 4 4 17, .op2 .uadalp 5 5 13,
    .op2 .uadalp 6 6 14, .op2 .uadalp 7 7 15]
    cond := .gt
    tail := [.ld1 16 [8] .lhs (.imm 16), .ld1 16 [9, 10] .rhs (.imm 32), .dupW 11 .mulOffset, .dupW 12 .rounding,
    .dupW 13 .shift, .dupLane 8 8 0, .op2 .addp 0 0 1, .op2 .addp 2 2 3, .op2 .addp 4 4 5, .op2 .addp 6 6 7,
    .op2 .addp 0 0 2, .op2 .addp 1 4 6, .op2 .add 0 0 8, .op2 .add 1 1 8, .op2 .add 0 0 9, .op2 .add 1 1 10,
    .op2 .mul 0 0 11, .op2 .mul 1 1 11, .op2 .add 0 0 12, .op2 .add 1 1 12, .op2 .sshl 0 0 13,
    .op2 .sshl 1 1 13, .op1 .sqxtn 0 0, .op2 .sqxtn2 0 0 1, .op1 .sqxtun 0 0, .st1 4 2 [0] .result (.imm 8)] }

/-- meta/quantized_mul_kernels_arm_64.h:766-837. -/
def q8_2x1 : Prog :=
  { init := [.movi 0, .movi 1]
    skip := false
    body := [.subs .count 8, .ld1 8 [2, 3] .lhs (.imm 16), .ld1 8 [4] .rhs (.imm 8), .op2 .umull 5 4 2,
    .op2 .umull 6 4 3, .op2 .uadalp 0 0 5, .op2 .uadalp 1 1 6]
    cond := .gt
    tail := [.ld1 16 [4] .lhs (.imm 16), .ld1 16 [5] .rhs (.imm 16), .dupW 6 .mulOffset, .dupW 7 .rounding,
    .dupW 8 .shift, .dupLane 2 4 0, .dupLane 4 4 1, .addX (.t 0) .result .stride, .op2 .addp 0 0 0,
    .op2 .addp 0 0 0, .op2 .addp 1 1 1, .op2 .addp 1 1 1, .op2 .add 0 0 2, .op2 .add 1 1 4, .op2 .add 0 0 5,
    .op2 .add 1 1 5, .op2 .mul 0 0 6, .op2 .mul 1 1 6, .op2 .add 0 0 7, .op2 .add 1 1 7, .op2 .sshl 0 0 8,
    .op2 .sshl 1 1 8, .op1 .sqxtn 0 0, .op1 .sqxtn 1 1, .op1 .sqxtun 0 0, .op1 .sqxtun 1 1,
    .stLane 1 0 0 .result (.imm 1), .stLane 1 0 1 (.t 0) (.imm 1)] }

/-- meta/quantized_mul_kernels_arm_64.h:855-932. -/
def q8_2x2 : Prog :=
  { init := [.movi 0, .movi 1, .movi 2, .mov 3 0]
    skip := false
    body := [.subs .count 8, .ld1 8 [4, 5] .lhs (.imm 16), .ld1 8 [6, 7] .rhs (.imm 16), .op2 .umull 8 6 4,
    .op2 .umull 9 7 4, .op2 .umull 10 6 5, .op2 .umull 11 7 5, .op2 .uadalp 0 0 8, .op2 .uadalp 1 1 9,
    .op2 .uadalp 2 2 10, .op2 .uadalp 3 3 11]
    cond := .gt
    tail := [.ld1 16 [4] .lhs (.imm 16), .ld1 16 [5] .rhs (.imm 16), .dupW 6 .mulOffset, .dupW 7 .rounding,
    .dupW 8 .shift, .dupLane 9 4 0, .dupLane 4 4 1, .addX (.t 0) .result .stride, .op2 .addp 0 0 1,
    .op2 .addp 0 0 0, .op2 .addp 2 2 3, .op2 .addp 2 2 2, .op2 .add 0 0 9, .op2 .add 2 2 4, .op2 .add 0 0 5,
    .op2 .add 2 2 5, .op2 .mul 0 0 6, .op2 .mul 2 2 6, .op2 .add 0 0 7, .op2 .add 2 2 7, .op2 .sshl 0 0 8,
    .op2 .sshl 2 2 8, .op1 .sqxtn 0 0, .op1 .sqxtn 2 2, .op1 .sqxtun 0 0, .op1 .sqxtun 2 2,
    .stLane 2 0 0 .result (.imm 2), .stLane 2 0 2 (.t 0) (.imm 2)] }

/-- meta/quantized_mul_kernels_arm_64.h:950-1037. -/
def q8_2x3 : Prog :=
  { init := [.movi 0, .movi 1, .movi 2, .mov 3 0, .mov 4 1, .mov 5 2]
    skip := false
    body := [.subs .count 8, .ld1 8 [6, 7] .lhs (.imm 16), .ld1 8 [8, 9, 10] .rhs (.imm 24), .op2 .umull 11 8 6,
    .op2 .umull 12 9 6, .op2 .umull 13 10 6, .op2 .umull 14 8 7, .op2 .umull 15 9 7, .op2 .umull 16 10 7,
    .op2 .uadalp 0 0 11, .op2 .uadalp 1 1 12, .op2 .uadalp 2 2 13, .op2 .uadalp 3 3 14, .op2 .uadalp 4 4 15,
    .op2 .uadalp 5 5 16]
    cond := .gt
    tail := [.ld1 16 [6] .lhs (.imm 16), .ld1 16 [7] .rhs (.imm 16), .dupW 8 .mulOffset, .dupW 9 .rounding,
    .dupW 10 .shift, .dupLane 11 6 0, .dupLane 6 6 1, .addX (.t 0) .result .stride, .op2 .addp 0 0 1,
    .op2 .addp 2 2 2, .op2 .addp 0 0 2, .op2 .addp 3 3 4, .op2 .addp 5 5 5, .op2 .addp 3 3 5, .op2 .add 0 0 11,
    .op2 .add 3 3 6, .op2 .add 0 0 7, .op2 .add 3 3 7, .op2 .mul 0 0 8, .op2 .mul 3 3 8, .op2 .add 0 0 9,
    .op2 .add 3 3 9, .op2 .sshl 0 0 10, .op2 .sshl 3 3 10, .op1 .sqxtn 0 0, .op1 .sqxtn 3 3, .op1 .sqxtun 0 0,
    .op1 .sqxtun 3 3, .stLane 2 0 0 .result (.imm 2), .stLane 1 2 0 .result (.imm 1),
    .stLane 2 0 3 (.t 0) (.imm 2), .stLane 1 2 3 (.t 0) (.imm 1)] }

/-- meta/quantized_mul_kernels_arm_64.h:1055-1148. -/
def q8_2x4 : Prog :=
  { init := [.movi 0, .movi 1, .movi 2, .mov 3 0, .mov 4 1, .mov 5 2, .mov 6 3, .mov 7 4]
    skip := false
    body := [.ld1 8 [10, 11, 12, 13] .rhs (.imm 32), .ld1 8 [8] .lhs (.imm 8), .op2 .umull 14 8 10,
    .ld1 8 [9] .lhs (.imm 8), .op2 .umull 15 8 11, .op2 .umull 16 8 12, .op2 .umull 17 8 13,
    .op2 .umull 18 9 10, .op2 .uadalp 0 0 14, .op2 .uadalp 1 1 15, .op2 .uadalp 2 2 16, .op2 .umull 14 9 11,
    .op2 .umull 15 9 12, .op2 .umull 16 9 13, .subs .count 8, .op2 .uadalp 3 3 17, .op2 .uadalp 4 4 18,
    .op2 .uadalp 5 5 14, .op2 .uadalp 6 6 15, .op2 .uadalp 7 7 16]
    cond := .gt
    tail := [.ld1 16 [8] .lhs (.imm 16), .ld1 16 [9] .rhs (.imm 16), .dupW 10 .mulOffset, .dupW 11 .rounding,
    .dupW 12 .shift, .dupLane 13 8 0, .dupLane 8 8 1, .addX (.t 0) .result .stride, .op2 .addp 0 0 1,
    .op2 .addp 2 2 3, .op2 .addp 0 0 2, .op2 .addp 4 4 5, .op2 .addp 6 6 7, .op2 .addp 4 4 6, .op2 .add 0 0 13,
    .op2 .add 4 4 8, .op2 .add 0 0 9, .op2 .add 4 4 9, .op2 .mul 0 0 10, .op2 .mul 4 4 10, .op2 .add 0 0 11,
    .op2 .add 4 4 11, .op2 .sshl 0 0 12, .op2 .sshl 4 4 12, .op1 .sqxtn 0 0, .op1 .sqxtn 4 4, .op1 .sqxtun 0 0,
    .op1 .sqxtun 4 4, .stLane 4 0 0 .result (.imm 4), .stLane 4 0 4 (.t 0) (.imm 4)] }

/-- meta/quantized_mul_kernels_arm_64.h:1166-1252. -/
def q8_3x1 : Prog :=
  { init := [.movi 0, .movi 1, .movi 2]
    skip := false
    body := [.subs .count 8, .ld1 8 [3, 4, 5] .lhs (.imm 24), .ld1 8 [6] .rhs (.imm 8), .op2 .umull 7 6 3,
    .op2 .umull 8 6 4, .op2 .umull 9 6 5, .op2 .uadalp 0 0 7, .op2 .uadalp 1 1 8, .op2 .uadalp 2 2 9]
    cond := .gt
    tail := [.ld1 16 [4] .lhs (.imm 16), .ld1 16 [5] .rhs (.imm 16), .dupW 6 .mulOffset, .dupW 7 .rounding,
    .dupW 8 .shift, .dupLane 3 4 0, .dupLane 9 4 1, .dupLane 4 4 2, .addX (.t 0) .result .stride,
    .addX (.t 1) (.t 0) .stride, .op2 .addp 0 0 0, .op2 .addp 0 0 0, .op2 .addp 1 1 1, .op2 .addp 1 1 1,
    .op2 .addp 2 2 2, .op2 .addp 2 2 2, .op2 .add 0 0 3, .op2 .add 1 1 9, .op2 .add 2 2 4, .op2 .add 0 0 5,
    .op2 .add 1 1 5, .op2 .add 2 2 5, .op2 .mul 0 0 6, .op2 .mul 1 1 6, .op2 .mul 2 2 6, .op2 .add 0 0 7,
    .op2 .add 1 1 7, .op2 .add 2 2 7, .op2 .sshl 0 0 8, .op2 .sshl 1 1 8, .op2 .sshl 2 2 8, .op1 .sqxtn 0 0,
    .op1 .sqxtn 1 1, .op1 .sqxtn 2 2, .op1 .sqxtun 0 0, .op1 .sqxtun 1 1, .op1 .sqxtun 2 2,
    .stLane 1 0 0 .result (.imm 1), .stLane 1 0 1 (.t 0) (.imm 1), .stLane 1 0 2 (.t 1) (.imm 1)] }

/-- meta/quantized_mul_kernels_arm_64.h:1270-1365. -/
def q8_3x2 : Prog :=
  { init := [.movi 0, .movi 1, .movi 2, .mov 3 0, .mov 4 1, .mov 5 2]
    skip := false
    body := [.subs .count 8, .ld1 8 [6, 7, 8] .lhs (.imm 24), .ld1 8 [9, 10] .rhs (.imm 16), .op2 .umull 11 9 6,
    .op2 .umull 12 10 6, .op2 .umull 13 9 7, .op2 .umull 14 10 7, .op2 .umull 15 9 8, .op2 .umull 16 10 8,
    .op2 .uadalp 0 0 11, .op2 .uadalp 1 1 12, .op2 .uadalp 2 2 13, .op2 .uadalp 3 3 14, .op2 .uadalp 4 4 15,
    .op2 .uadalp 5 5 16]
    cond := .gt
    tail := [.ld1 16 [6] .lhs (.imm 16), .ld1 16 [7] .rhs (.imm 16), .dupW 8 .mulOffset, .dupW 9 .rounding,
    .dupW 10 .shift, .dupLane 11 6 0, .dupLane 12 6 1, .dupLane 6 6 2, .addX (.t 0) .result .stride,
    .addX (.t 1) (.t 0) .stride, .op2 .addp 0 0 1, .op2 .addp 0 0 0, .op2 .addp 2 2 3, .op2 .addp 2 2 2,
    .op2 .addp 4 4 5, .op2 .addp 4 4 4, .op2 .add 0 0 11, .op2 .add 2 2 12, .op2 .add 4 4 6, .op2 .add 0 0 7,
    .op2 .add 2 2 7, .op2 .add 4 4 7, .op2 .mul 0 0 8, .op2 .mul 2 2 8, .op2 .mul 4 4 8, .op2 .add 0 0 9,
    .op2 .add 2 2 9, .op2 .add 4 4 9, .op2 .sshl 0 0 10, .op2 .sshl 2 2 10, .op2 .sshl 4 4 10, .op1 .sqxtn 0 0,
    .op1 .sqxtn 2 2, .op1 .sqxtn 4 4, .op1 .sqxtun 0 0, .op1 .sqxtun 2 2, .op1 .sqxtun 4 4,
    .stLane 2 0 0 .result (.imm 2), .stLane 2 0 2 (.t 0) (.imm 2), .stLane 2 0 4 (.t 1) (.imm 2)] }

/-- meta/quantized_mul_kernels_arm_64.h:1383-1497. -/
def q8_3x3 : Prog :=
  { init := [.movi 0, .movi 1, .movi 2, .mov 3 0, .mov 4 1, .mov 5 2, .mov 6 3, .mov 7 4, .mov 8 5]
    skip := false
    body := [.ld1 8 [12, 13, 14] .rhs (.imm 24), .ld1 8 [9] .lhs (.imm 8), .op2 .umull 15 9 12,
    .ld1 8 [10] .lhs (.imm 8), .op2 .umull 16 9 13, .ld1 8 [11] .lhs (.imm 8), .op2 .umull 17 9 14,
    .op2 .umull 18 10 12, .op2 .uadalp 0 0 15, .op2 .uadalp 1 1 16, .op2 .uadalp 2 2 17, .op2 .uadalp 3 3 18,
    .op2 .umull 15 10 13, .op2 .umull 16 10 14, .op2 .umull 17 11 12, .op2 .umull 18 11 13, .subs .count 8,
    .op2 .umull 9 11 14, .op2 .uadalp 4 4 15, .op2 .uadalp 5 5 16, .op2 .uadalp 6 6 17, .op2 .uadalp 7 7 18,
    .op2 .uadalp 8 8 9]
    cond := .gt
    tail := [.ld1 16 [9] .lhs (.imm 16), .ld1 16 [10] .rhs (.imm 16), .dupW 11 .mulOffset, .dupW 12 .rounding,
    .dupW 13 .shift, .dupLane 14 9 0, .dupLane 15 9 1, .dupLane 9 9 2, .addX (.t 0) .result .stride,
    .addX (.t 1) (.t 0) .stride, .op2 .addp 0 0 1, .op2 .addp 2 2 2, .op2 .addp 0 0 2, .op2 .addp 3 3 4,
    .op2 .addp 5 5 5, .op2 .addp 3 3 5, .op2 .addp 6 6 7, .op2 .addp 8 8 8, .op2 .addp 6 6 8, .op2 .add 0 0 14,
    .op2 .add 3 3 15, .op2 .add 6 6 9, .op2 .add 0 0 10, .op2 .add 3 3 10, .op2 .add 6 6 10, .op2 .mul 0 0 11,
    .op2 .mul 3 3 11, .op2 .mul 6 6 11, .op2 .add 0 0 12, .op2 .add 3 3 12, .op2 .add 6 6 12,
    .op2 .sshl 0 0 13, .op2 .sshl 3 3 13, .op2 .sshl 6 6 13, .op1 .sqxtn 0 0, .op1 .sqxtn 3 3, .op1 .sqxtn 6 6,
    .op1 .sqxtun 0 0, .op1 .sqxtun 3 3, .op1 .sqxtun 6 6, .stLane 2 0 0 .result (.imm 2),
    .stLane 1 2 0 .result (.imm 1), .stLane 2 0 3 (.t 0) (.imm 2), .stLane 1 2 3 (.t 0) (.imm 1),
    .stLane 2 0 6 (.t 1) (.imm 2), .stLane 1 2 6 (.t 1) (.imm 1)] }

/-- meta/quantized_mul_kernels_arm_64.h:1516-1560. -/
def i32_1x1 : Prog :=
  { init := [.movi 0]
    skip := false
    body := [.subs .count 8, .ld1 8 [1] .lhs (.imm 8), .ld1 8 [2] .rhs (.imm 8), .op2 .umull 3 2 1, .op2 .uadalp 0 0 3]
    cond := .gt
    tail := [.ld1 16 [4] .lhs (.imm 16), .ld1 16 [5] .rhs (.imm 16), .dupLane 4 4 0, .op2 .addp 0 0 0, .op2 .addp 0 0 0,
    .op2 .add 0 0 4, .op2 .add 0 0 5, .stLane 4 0 0 .result (.imm 4)] }

/-- meta/quantized_mul_kernels_arm_64.h:1579-1626. -/
def i32_1x2 : Prog :=
  { init := [.movi 0, .movi 1]
    skip := false
    body := [.subs .count 8, .ld1 8 [2] .lhs (.imm 8), .ld1 8 [3, 4] .rhs (.imm 16), .op2 .umull 5 3 2,
    .op2 .umull 6 4 2, .op2 .uadalp 0 0 5, .op2 .uadalp 1 1 6]
    cond := .gt
    tail := [.ld1 16 [4] .lhs (.imm 16), .ld1 16 [5] .rhs (.imm 16), .dupLane 4 4 0, .op2 .addp 0 0 1, .op2 .addp 0 0 0,
    .op2 .add 0 0 4, .op2 .add 0 0 5, .st1 4 2 [0] .result (.imm 8)] }

/-- meta/quantized_mul_kernels_arm_64.h:1645-1698. -/
def i32_1x3 : Prog :=
  { init := [.movi 0, .movi 1, .movi 2]
    skip := false
    body := [.subs .count 8, .ld1 8 [3] .lhs (.imm 8), .ld1 8 [4, 5, 6] .rhs (.imm 24), .op2 .umull 7 4 3,
    .op2 .umull 8 5 3, .op2 .umull 9 6 3, .op2 .uadalp 0 0 7, .op2 .uadalp 1 1 8, .op2 .uadalp 2 2 9]
    cond := .gt
    tail := [.ld1 16 [4] .lhs (.imm 16), .ld1 16 [5] .rhs (.imm 16), .dupLane 4 4 0, .op2 .addp 0 0 1, .op2 .addp 2 2 2,
    .op2 .addp 0 0 2, .op2 .add 0 0 4, .op2 .add 0 0 5, .st1 4 2 [0] .result (.imm 8),
    .stLane 4 2 0 .result (.imm 4)] }

/-- meta/quantized_mul_kernels_arm_64.h:1717-1772. -/
def i32_1x4 : Prog :=
  { init := [.movi 0, .movi 1, .movi 2, .mov 3 0]
    skip := false
    body := [.subs .count 8, .ld1 8 [4] .lhs (.imm 8), .ld1 8 [5, 6, 7, 8] .rhs (.imm 32), .op2 .umull 9 5 4,
    .op2 .umull 10 6 4, .op2 .umull 11 7 4, .op2 .umull 12 8 4, .op2 .uadalp 0 0 9, .op2 .uadalp 1 1 10,
    .op2 .uadalp 2 2 11, .op2 .uadalp 3 3 12]
    cond := .gt
    tail := [.ld1 16 [4] .lhs (.imm 16), .ld1 16 [5] .rhs (.imm 16), .dupLane 4 4 0, .op2 .addp 0 0 1, .op2 .addp 2 2 3,
    .op2 .addp 0 0 2, .op2 .add 0 0 4, .op2 .add 0 0 5, .st1 4 4 [0] .result (.imm 16)] }

/-- meta/quantized_mul_kernels_arm_64.h:1791-1855. -/
def i32_1x5 : Prog :=
  { init := [.movi 0, .movi 1, .movi 2, .mov 3 0, .mov 4 1]
    skip := false
    body := [.subs .count 8, .ld1 8 [5, 6, 7, 8] .rhs (.imm 32), .ld1 8 [9] .lhs (.imm 8), .op2 .umull 10 5 9,
    .op2 .umull 11 6 9, .op2 .umull 12 7 9, .op2 .umull 13 8 9, .ld1 8 [5] .rhs (.imm 8), .op2 .uadalp 0 0 10,
    .op2 .uadalp 1 1 11, .op2 .uadalp 2 2 12, .op2 .uadalp 3 3 13, .op2 .umull 10 5 9, .op2 .uadalp 4 4 10]
    cond := .gt
    tail := [.ld1 16 [5] .lhs (.imm 16), .ld1 16 [6, 7] .rhs (.imm 32), .dupLane 5 5 0, .op2 .addp 0 0 1,
    .op2 .addp 2 2 3, .op2 .addp 4 4 4, .op2 .addp 0 0 2, .op2 .addp 1 4 4, .op2 .add 0 0 5, .op2 .add 1 1 5,
    .op2 .add 0 0 6, .op2 .add 1 1 7, .st1 4 4 [0] .result (.imm 16), .stLane 4 0 1 .result (.imm 4)] }

/-- meta/quantized_mul_kernels_arm_64.h:1874-1941. -/
def i32_1x6 : Prog :=
  { init := [.movi 0, .movi 1, .movi 2, .mov 3 0, .mov 4 1, .mov 5 2]
    skip := false
    body := [.subs .count 8, .ld1 8 [6, 7, 8, 9] .rhs (.imm 32), .ld1 8 [10] .lhs (.imm 8), .op2 .umull 11 6 10,
    .op2 .umull 12 7 10, .op2 .umull 13 8 10, .op2 .umull 14 9 10, .ld1 8 [6, 7] .rhs (.imm 16),
    .op2 .uadalp 0 0 11, .op2 .uadalp 1 1 12, .op2 .uadalp 2 2 13, .op2 .uadalp 3 3 14, .op2 .umull 11 6 10,
    .op2 .umull 12 7 10, .op2 .uadalp 4 4 11, .op2 .uadalp 5 5 12]
    cond := .gt
    tail := [.ld1 16 [6] .lhs (.imm 16), .ld1 16 [7, 8] .rhs (.imm 32), .dupLane 6 6 0, .op2 .addp 0 0 1,
    .op2 .addp 2 2 3, .op2 .addp 4 4 5, .op2 .addp 0 0 2, .op2 .addp 1 4 4, .op2 .add 0 0 6, .op2 .add 1 1 6,
    .op2 .add 0 0 7, .op2 .add 1 1 8, .st1 4 4 [0] .result (.imm 16), .st1 4 2 [1] .result (.imm 8)] }

/-- meta/quantized_mul_kernels_arm_64.h:1960-2032. -/
def i32_1x7 : Prog :=
  { init := [.movi 0, .movi 1, .movi 2, .mov 3 0, .mov 4 1, .mov 5 2, .mov 6 3]
    skip := false
    body := [.subs .count 8, .ld1 8 [7, 8, 9, 10] .rhs (.imm 32), .ld1 8 [11] .lhs (.imm 8), .op2 .umull 12 7 11,
    .op2 .umull 13 8 11, .op2 .umull 14 9 11, .op2 .umull 15 10 11, .ld1 8 [7, 8, 9] .rhs (.imm 24),
    .op2 .uadalp 0 0 12, .op2 .uadalp 1 1 13, .op2 .uadalp 2 2 14, .op2 .uadalp 3 3 15, .op2 .umull 12 7 11,
    .op2 .umull 13 8 11, .op2 .umull 14 9 11, .op2 .uadalp 4 4 12, .op2 .uadalp 5 5 13, .op2 .uadalp 6 6 14]
    cond := .gt
    tail := [.ld1 16 [7] .lhs (.imm 16), .ld1 16 [8, 9] .rhs (.imm 32), .dupLane 7 7 0, .op2 .addp 0 0 1,
    .op2 .addp 2 2 3, .op2 .addp 4 4 5, .op2 .addp 6 6 6, .op2 .addp 0 0 2, .op2 .addp 1 4 6, .op2 .add 0 0 7,
    .op2 .add 1 1 7, .op2 .add 0 0 8, .op2 .add 1 1 9, .st1 4 4 [0] .result (.imm 16),
    .st1 4 2 [1] .result (.imm 8), .stLane 4 2 1 .result (.imm 4)] }

/-- meta/quantized_mul_kernels_arm_64.h:2051-2125. -/
def i32_1x8 : Prog :=
  { init := [.movi 0, .movi 1, .movi 2, .mov 3 0, .mov 4 1, .mov 5 2, .mov 6 3, .mov 7 4]
    skip := false
    body := [.ld1 8 [9, 10, 11, 12] .rhs (.imm 32), .ld1 8 [8] .lhs (.imm 8), .op2 .umull 13 8 9, .op2 .umull 14 8 10,
    .op2 .umull 15 8 11, .op2 .umull 16 8 12, .ld1 8 [9, 10, 11, 12] .rhs (.imm 32), .op2 .uadalp 0 0 13,
    .op2 .uadalp 1 1 14, .op2 .uadalp 2 2 15, .op2 .uadalp 3 3 16, .op2 .umull 17 8 9, .op2 .umull 13 8 10,
    .op2 .umull 14 8 11, .op2 .umull 15 8 12, .subs .count 8, .op2 .uadalp 4 4 17, .op2 .uadalp 5 5 13,
    .op2 .uadalp 6 6 14, .op2 .uadalp 7 7 15]
    cond := .gt
    tail := [.ld1 16 [8] .lhs (.imm 16), .ld1 16 [9, 10] .rhs (.imm 32), .dupLane 8 8 0, .op2 .addp 0 0 1,
    .op2 .addp 2 2 3, .op2 .addp 4 4 5, .op2 .addp 6 6 7, .op2 .addp 0 0 2, .op2 .addp 1 4 6, .op2 .add 0 0 8,
    .op2 .add 1 1 8, .op2 .add 0 0 9, .op2 .add 1 1 10, .st1 4 4 [0, 1] .result (.imm 32)] }

/-- meta/quantized_mul_kernels_arm_64.h:2144-2198. -/
def i32_2x1 : Prog :=
  { init := [.movi 0, .movi 1]
    skip := false
    body := [.subs .count 8, .ld1 8 [2, 3] .lhs (.imm 16), .ld1 8 [4] .rhs (.imm 8), .op2 .umull 5 4 2,
    .op2 .umull 6 4 3, .op2 .uadalp 0 0 5, .op2 .uadalp 1 1 6]
    cond := .gt
    tail := [.ld1 16 [4] .lhs (.imm 16), .ld1 16 [5] .rhs (.imm 16), .dupLane 2 4 0, .dupLane 4 4 1,
    .addX (.t 0) .result .stride, .op2 .addp 0 0 0, .op2 .addp 0 0 0, .op2 .addp 1 1 1, .op2 .addp 1 1 1,
    .op2 .add 0 0 2, .op2 .add 1 1 4, .op2 .add 0 0 5, .op2 .add 1 1 5, .stLane 4 0 0 .result (.imm 4),
    .stLane 4 0 1 (.t 0) (.imm 4)] }

/-- meta/quantized_mul_kernels_arm_64.h:2217-2278. -/
def i32_2x2 : Prog :=
  { init := [.movi 0, .movi 1, .movi 2, .mov 3 0]
    skip := false
    body := [.subs .count 8, .ld1 8 [4, 5] .lhs (.imm 16), .ld1 8 [6, 7] .rhs (.imm 16), .op2 .umull 8 6 4,
    .op2 .umull 9 7 4, .op2 .umull 10 6 5, .op2 .umull 11 7 5, .op2 .uadalp 0 0 8, .op2 .uadalp 1 1 9,
    .op2 .uadalp 2 2 10, .op2 .uadalp 3 3 11]
    cond := .gt
    tail := [.ld1 16 [4] .lhs (.imm 16), .ld1 16 [5] .rhs (.imm 16), .dupLane 6 4 0, .dupLane 4 4 1,
    .addX (.t 0) .result .stride, .op2 .addp 0 0 1, .op2 .addp 0 0 0, .op2 .addp 2 2 3, .op2 .addp 2 2 2,
    .op2 .add 0 0 6, .op2 .add 2 2 4, .op2 .add 0 0 5, .op2 .add 2 2 5, .st1 4 2 [0] .result (.imm 8),
    .st1 4 2 [2] (.t 0) (.imm 8)] }

/-- meta/quantized_mul_kernels_arm_64.h:2297-2368. -/
def i32_2x3 : Prog :=
  { init := [.movi 0, .movi 1, .movi 2, .mov 3 0, .mov 4 1, .mov 5 2]
    skip := false
    body := [.subs .count 8, .ld1 8 [6, 7] .lhs (.imm 16), .ld1 8 [8, 9, 10] .rhs (.imm 24), .op2 .umull 11 8 6,
    .op2 .umull 12 9 6, .op2 .umull 13 10 6, .op2 .umull 14 8 7, .op2 .umull 15 9 7, .op2 .umull 16 10 7,
    .op2 .uadalp 0 0 11, .op2 .uadalp 1 1 12, .op2 .uadalp 2 2 13, .op2 .uadalp 3 3 14, .op2 .uadalp 4 4 15,
    .op2 .uadalp 5 5 16]
    cond := .gt
    tail := [.ld1 16 [6] .lhs (.imm 16), .ld1 16 [7] .rhs (.imm 16), .dupLane 8 6 0, .dupLane 6 6 1,
    .addX (.t 0) .result .stride, .op2 .addp 0 0 1, .op2 .addp 2 2 2, .op2 .addp 0 0 2, .op2 .addp 3 3 4,
    .op2 .addp 5 5 5, .op2 .addp 3 3 5, .op2 .add 0 0 8, .op2 .add 3 3 6, .op2 .add 0 0 7, .op2 .add 3 3 7,
    .st1 4 2 [0] .result (.imm 8), .stLane 4 2 0 .result (.imm 4), .st1 4 2 [3] (.t 0) (.imm 8),
    .stLane 4 2 3 (.t 0) (.imm 4)] }

/-- meta/quantized_mul_kernels_arm_64.h:2387-2464. -/
def i32_2x4 : Prog :=
  { init := [.movi 0, .movi 1, .movi 2, .mov 3 0, .mov 4 1, .mov 5 2, .mov 6 3, .mov 7 4]
    skip := false
    body := [.ld1 8 [10, 11, 12, 13] .rhs (.imm 32), .ld1 8 [8] .lhs (.imm 8), .op2 .umull 14 8 10,
    .ld1 8 [9] .lhs (.imm 8), .op2 .umull 15 8 11, .op2 .umull 16 8 12, .op2 .umull 17 8 13,
    .op2 .umull 18 9 10, .op2 .uadalp 0 0 14, .op2 .uadalp 1 1 15, .op2 .uadalp 2 2 16, .op2 .umull 14 9 11,
    .op2 .umull 15 9 12, .op2 .umull 16 9 13, .subs .count 8, .op2 .uadalp 3 3 17, .op2 .uadalp 4 4 18,
    .op2 .uadalp 5 5 14, .op2 .uadalp 6 6 15, .op2 .uadalp 7 7 16]
    cond := .gt
    tail := [.ld1 16 [8] .lhs (.imm 16), .ld1 16 [9] .rhs (.imm 16), .dupLane 10 8 0, .dupLane 8 8 1,
    .addX (.t 0) .result .stride, .op2 .addp 0 0 1, .op2 .addp 2 2 3, .op2 .addp 0 0 2, .op2 .addp 4 4 5,
    .op2 .addp 6 6 7, .op2 .addp 4 4 6, .op2 .add 0 0 10, .op2 .add 4 4 8, .op2 .add 0 0 9, .op2 .add 4 4 9,
    .st1 4 4 [0] .result (.imm 16), .st1 4 4 [4] (.t 0) (.imm 16)] }

/-- meta/quantized_mul_kernels_arm_64.h:2483-2548. -/
def i32_3x1 : Prog :=
  { init := [.movi 0, .movi 1, .movi 2]
    skip := false
    body := [.subs .count 8, .ld1 8 [3, 4, 5] .lhs (.imm 24), .ld1 8 [6] .rhs (.imm 8), .op2 .umull 7 6 3,
    .op2 .umull 8 6 4, .op2 .umull 9 6 5, .op2 .uadalp 0 0 7, .op2 .uadalp 1 1 8, .op2 .uadalp 2 2 9]
    cond := .gt
    tail := [.ld1 16 [4] .lhs (.imm 16), .ld1 16 [5] .rhs (.imm 16), .dupLane 3 4 0, .dupLane 6 4 1, .dupLane 4 4 2,
    .addX (.t 0) .result .stride, .addX (.t 1) (.t 0) .stride, .op2 .addp 0 0 0, .op2 .addp 0 0 0,
    .op2 .addp 1 1 1, .op2 .addp 1 1 1, .op2 .addp 2 2 2, .op2 .addp 2 2 2, .op2 .add 0 0 3, .op2 .add 1 1 6,
    .op2 .add 2 2 4, .op2 .add 0 0 5, .op2 .add 1 1 5, .op2 .add 2 2 5, .stLane 4 0 0 .result (.imm 4),
    .stLane 4 0 1 (.t 0) (.imm 4), .stLane 4 0 2 (.t 1) (.imm 4)] }

/-- meta/quantized_mul_kernels_arm_64.h:2567-2641. -/
def i32_3x2 : Prog :=
  { init := [.movi 0, .movi 1, .movi 2, .mov 3 0, .mov 4 1, .mov 5 2]
    skip := false
    body := [.subs .count 8, .ld1 8 [6, 7, 8] .lhs (.imm 24), .ld1 8 [9, 10] .rhs (.imm 16), .op2 .umull 11 9 6,
    .op2 .umull 12 10 6, .op2 .umull 13 9 7, .op2 .umull 14 10 7, .op2 .umull 15 9 8, .op2 .umull 16 10 8,
    .op2 .uadalp 0 0 11, .op2 .uadalp 1 1 12, .op2 .uadalp 2 2 13, .op2 .uadalp 3 3 14, .op2 .uadalp 4 4 15,
    .op2 .uadalp 5 5 16]
    cond := .gt
    tail := [.ld1 16 [6] .lhs (.imm 16), .ld1 16 [7] .rhs (.imm 16), .dupLane 8 6 0, .dupLane 9 6 1, .dupLane 6 6 2,
    .addX (.t 0) .result .stride, .addX (.t 1) (.t 0) .stride, .op2 .addp 0 0 1, .op2 .addp 0 0 0,
    .op2 .addp 2 2 3, .op2 .addp 2 2 2, .op2 .addp 4 4 5, .op2 .addp 4 4 4, .op2 .add 0 0 8, .op2 .add 2 2 9,
    .op2 .add 4 4 6, .op2 .add 0 0 7, .op2 .add 2 2 7, .op2 .add 4 4 7, .st1 4 2 [0] .result (.imm 8),
    .st1 4 2 [2] (.t 0) (.imm 8), .st1 4 2 [4] (.t 1) (.imm 8)] }

/-- meta/quantized_mul_kernels_arm_64.h:2660-2753. -/
def i32_3x3 : Prog :=
  { init := [.movi 0, .movi 1, .movi 2, .mov 3 0, .mov 4 1, .mov 5 2, .mov 6 3, .mov 7 4, .mov 8 5]
    skip := false
    body := [.ld1 8 [12, 13, 14] .rhs (.imm 24), .ld1 8 [9] .lhs (.imm 8), .op2 .umull 15 9 12,
    .ld1 8 [10] .lhs (.imm 8), .op2 .umull 16 9 13, .ld1 8 [11] .lhs (.imm 8), .op2 .umull 17 9 14,
    .op2 .umull 18 10 12, .op2 .uadalp 0 0 15, .op2 .uadalp 1 1 16, .op2 .uadalp 2 2 17, .op2 .uadalp 3 3 18,
    .op2 .umull 15 10 13, .op2 .umull 16 10 14, .op2 .umull 17 11 12, .op2 .umull 18 11 13, .subs .count 8,
    .op2 .umull 9 11 14, .op2 .uadalp 4 4 15, .op2 .uadalp 5 5 16, .op2 .uadalp 6 6 17, .op2 .uadalp 7 7 18,
    .op2 .uadalp 8 8 9]
    cond := .gt
    tail := [.ld1 16 [9] .lhs (.imm 16), .ld1 16 [10] .rhs (.imm 16), .dupLane 11 9 0, .dupLane 12 9 1, .dupLane 9 9 2,
    .addX (.t 0) .result .stride, .addX (.t 1) (.t 0) .stride, .op2 .addp 0 0 1, .op2 .addp 2 2 2,
    .op2 .addp 0 0 2, .op2 .addp 3 3 4, .op2 .addp 5 5 5, .op2 .addp 3 3 5, .op2 .addp 6 6 7, .op2 .addp 8 8 8,
    .op2 .addp 6 6 8, .op2 .add 0 0 11, .op2 .add 3 3 12, .op2 .add 6 6 9, .op2 .add 0 0 10, .op2 .add 3 3 10,
    .op2 .add 6 6 10, .st1 4 2 [0] .result (.imm 8), .stLane 4 2 0 .result (.imm 4),
    .st1 4 2 [3] (.t 0) (.imm 8), .stLane 4 2 3 (.t 0) (.imm 4), .st1 4 2 [6] (.t 1) (.imm 8),
    .stLane 4 2 6 (.t 1) (.imm 4)] }

/-- meta/quantized_mul_kernels_arm_64.h:2772-2820. -/
def f32_1x1 : Prog :=
  { init := [.movi 0]
    skip := false
    body := [.subs .count 8, .ld1 8 [1] .lhs (.imm 8), .ld1 8 [2] .rhs (.imm 8), .op2 .umull 3 2 1, .op2 .uadalp 0 0 3]
    cond := .gt
    tail := [.ld1 16 [4] .lhs (.imm 16), .ld1 16 [5] .rhs (.imm 16), .dupW 6 .scale, .dupLane 4 4 0, .op2 .addp 0 0 0,
    .op2 .addp 0 0 0, .op2 .add 0 0 4, .op2 .add 0 0 5, .op1 .scvtf 0 0, .op2 .fmul 0 0 6,
    .stLane 4 0 0 .result (.imm 4)] }

/-- meta/quantized_mul_kernels_arm_64.h:2839-2890. -/
def f32_1x2 : Prog :=
  { init := [.movi 0, .movi 1]
    skip := false
    body := [.subs .count 8, .ld1 8 [2] .lhs (.imm 8), .ld1 8 [3, 4] .rhs (.imm 16), .op2 .umull 5 3 2,
    .op2 .umull 6 4 2, .op2 .uadalp 0 0 5, .op2 .uadalp 1 1 6]
    cond := .gt
    tail := [.ld1 16 [4] .lhs (.imm 16), .ld1 16 [5] .rhs (.imm 16), .dupW 6 .scale, .dupLane 4 4 0, .op2 .addp 0 0 1,
    .op2 .addp 0 0 0, .op2 .add 0 0 4, .op2 .add 0 0 5, .op1 .scvtf 0 0, .op2 .fmul 0 0 6,
    .st1 4 2 [0] .result (.imm 8)] }

/-- meta/quantized_mul_kernels_arm_64.h:2909-2966. -/
def f32_1x3 : Prog :=
  { init := [.movi 0, .movi 1, .movi 2]
    skip := false
    body := [.subs .count 8, .ld1 8 [3] .lhs (.imm 8), .ld1 8 [4, 5, 6] .rhs (.imm 24), .op2 .umull 7 4 3,
    .op2 .umull 8 5 3, .op2 .umull 9 6 3, .op2 .uadalp 0 0 7, .op2 .uadalp 1 1 8, .op2 .uadalp 2 2 9]
    cond := .gt
    tail := [.ld1 16 [4] .lhs (.imm 16), .ld1 16 [5] .rhs (.imm 16), .dupW 6 .scale, .dupLane 4 4 0, .op2 .addp 0 0 1,
    .op2 .addp 2 2 2, .op2 .addp 0 0 2, .op2 .add 0 0 4, .op2 .add 0 0 5, .op1 .scvtf 0 0, .op2 .fmul 0 0 6,
    .st1 4 2 [0] .result (.imm 8), .stLane 4 2 0 .result (.imm 4)] }

/-- meta/quantized_mul_kernels_arm_64.h:2985-3044. -/
def f32_1x4 : Prog :=
  { init := [.movi 0, .movi 1, .movi 2, .mov 3 0]
    skip := false
    body := [.subs .count 8, .ld1 8 [4] .lhs (.imm 8), .ld1 8 [5, 6, 7, 8] .rhs (.imm 32), .op2 .umull 9 5 4,
    .op2 .umull 10 6 4, .op2 .umull 11 7 4, .op2 .umull 12 8 4, .op2 .uadalp 0 0 9, .op2 .uadalp 1 1 10,
    .op2 .uadalp 2 2 11, .op2 .uadalp 3 3 12]
    cond := .gt
    tail := [.ld1 16 [4] .lhs (.imm 16), .ld1 16 [5] .rhs (.imm 16), .dupW 6 .scale, .dupLane 4 4 0, .op2 .addp 0 0 1,
    .op2 .addp 2 2 3, .op2 .addp 0 0 2, .op2 .add 0 0 4, .op2 .add 0 0 5, .op1 .scvtf 0 0, .op2 .fmul 0 0 6,
    .st1 4 4 [0] .result (.imm 16)] }

/-- meta/quantized_mul_kernels_arm_64.h:3063-3133. -/
def f32_1x5 : Prog :=
  { init := [.movi 0, .movi 1, .movi 2, .mov 3 0, .mov 4 1]
    skip := false
    body := [.subs .count 8, .ld1 8 [5, 6, 7, 8] .rhs (.imm 32), .ld1 8 [9] .lhs (.imm 8), .op2 .umull 10 5 9,
    .op2 .umull 11 6 9, .op2 .umull 12 7 9, .op2 .umull 13 8 9, .ld1 8 [5] .rhs (.imm 8), .op2 .uadalp 0 0 10,
    .op2 .uadalp 1 1 11, .op2 .uadalp 2 2 12, .op2 .uadalp 3 3 13, .op2 .umull 10 5 9, .op2 .uadalp 4 4 10]
    cond := .gt
    tail := [.ld1 16 [5] .lhs (.imm 16), .ld1 16 [6, 7] .rhs (.imm 32), .dupW 8 .scale, .dupLane 5 5 0,
    .op2 .addp 0 0 1, .op2 .addp 2 2 3, .op2 .addp 4 4 4, .op2 .addp 0 0 2, .op2 .addp 1 4 4, .op2 .add 0 0 5,
    .op2 .add 1 1 5, .op2 .add 0 0 6, .op2 .add 1 1 7, .op1 .scvtf 0 0, .op1 .scvtf 1 1, .op2 .fmul 0 0 8,
    .op2 .fmul 1 1 8, .st1 4 4 [0] .result (.imm 16), .stLane 4 0 1 .result (.imm 4)] }

/-- meta/quantized_mul_kernels_arm_64.h:3152-3225. -/
def f32_1x6 : Prog :=
  { init := [.movi 0, .movi 1, .movi 2, .mov 3 0, .mov 4 1, .mov 5 2]
    skip := false
    body := [.subs .count 8, .ld1 8 [6, 7, 8, 9] .rhs (.imm 32), .ld1 8 [10] .lhs (.imm 8), .op2 .umull 11 6 10,
    .op2 .umull 12 7 10, .op2 .umull 13 8 10, .op2 .umull 14 9 10, .ld1 8 [6, 7] .rhs (.imm 16),
    .op2 .uadalp 0 0 11, .op2 .uadalp 1 1 12, .op2 .uadalp 2 2 13, .op2 .uadalp 3 3 14, .op2 .umull 11 6 10,
    .op2 .umull 12 7 10, .op2 .uadalp 4 4 11, .op2 .uadalp 5 5 12]
    cond := .gt
    tail := [.ld1 16 [6] .lhs (.imm 16), .ld1 16 [7, 8] .rhs (.imm 32), .dupW 9 .scale, .dupLane 6 6 0,
    .op2 .addp 0 0 1, .op2 .addp 2 2 3, .op2 .addp 4 4 5, .op2 .addp 0 0 2, .op2 .addp 1 4 4, .op2 .add 0 0 6,
    .op2 .add 1 1 6, .op2 .add 0 0 7, .op2 .add 1 1 8, .op1 .scvtf 0 0, .op1 .scvtf 1 1, .op2 .fmul 0 0 9,
    .op2 .fmul 1 1 9, .st1 4 4 [0] .result (.imm 16), .st1 4 2 [1] .result (.imm 8)] }

/-- meta/quantized_mul_kernels_arm_64.h:3244-3322. -/
def f32_1x7 : Prog :=
  { init := [.movi 0, .movi 1, .movi 2, .mov 3 0, .mov 4 1, .mov 5 2, .mov 6 3]
    skip := false
    body := [.subs .count 8, .ld1 8 [7, 8, 9, 10] .rhs (.imm 32), .ld1 8 [11] .lhs (.imm 8), .op2 .umull 12 7 11,
    .op2 .umull 13 8 11, .op2 .umull 14 9 11, .op2 .umull 15 10 11, .ld1 8 [7, 8, 9] .rhs (.imm 24),
    .op2 .uadalp 0 0 12, .op2 .uadalp 1 1 13, .op2 .uadalp 2 2 14, .op2 .uadalp 3 3 15, .op2 .umull 12 7 11,
    .op2 .umull 13 8 11, .op2 .umull 14 9 11, .op2 .uadalp 4 4 12, .op2 .uadalp 5 5 13, .op2 .uadalp 6 6 14]
    cond := .gt
    tail := [.ld1 16 [7] .lhs (.imm 16), .ld1 16 [8, 9] .rhs (.imm 32), .dupW 10 .scale, .dupLane 7 7 0,
    .op2 .addp 0 0 1, .op2 .addp 2 2 3, .op2 .addp 4 4 5, .op2 .addp 6 6 6, .op2 .addp 0 0 2, .op2 .addp 1 4 6,
    .op2 .add 0 0 7, .op2 .add 1 1 7, .op2 .add 0 0 8, .op2 .add 1 1 9, .op1 .scvtf 0 0, .op1 .scvtf 1 1,
    .op2 .fmul 0 0 10, .op2 .fmul 1 1 10, .st1 4 4 [0] .result (.imm 16), .st1 4 2 [1] .result (.imm 8),
    .stLane 4 2 1 .result (.imm 4)] }

/-- meta/quantized_mul_kernels_arm_64.h:3341-3421. -/
def f32_1x8 : Prog :=
  { init := [.movi 0, .movi 1, .movi 2, .mov 3 0, .mov 4 1, .mov 5 2, .mov 6 3, .mov 7 4]
    skip := false
    body := [.ld1 8 [9, 10, 11, 12] .rhs (.imm 32), .ld1 8 [8] .lhs (.imm 8), .op2 .umull 13 8 9, .op2 .umull 14 8 10,
    .op2 .umull 15 8 11, .op2 .umull 16 8 12, .ld1 8 [9, 10, 11, 12] .rhs (.imm 32), .op2 .uadalp 0 0 13,
    .op2 .uadalp 1 1 14, .op2 .uadalp 2 2 15, .op2 .uadalp 3 3 16, .op2 .umull 17 8 9, .op2 .umull 13 8 10,
    .op2 .umull 14 8 11, .op2 .umull 15 8 12, .subs .count 8, .op2 .uadalp 4 4 17, .op2 .uadalp 5 5 13,
    .op2 .uadalp 6 6 14, .op2 .uadalp 7 7 15]
    cond := .gt
    tail := [.ld1 16 [8] .lhs (.imm 16), .ld1 16 [9, 10] .rhs (.imm 32), .dupW 11 .scale, .dupLane 8 8 0,
    .op2 .addp 0 0 1, .op2 .addp 2 2 3, .op2 .addp 4 4 5, .op2 .addp 6 6 7, .op2 .addp 0 0 2, .op2 .addp 1 4 6,
    .op2 .add 0 0 8, .op2 .add 1 1 8, .op2 .add 0 0 9, .op2 .add 1 1 10, .op1 .scvtf 0 0, .op1 .scvtf 1 1,
    .op2 .fmul 0 0 11, .op2 .fmul 1 1 11, .st1 4 4 [0, 1] .result (.imm 32)] }

/-- meta/quantized_mul_kernels_arm_64.h:3440-3500. -/
def f32_2x1 : Prog :=
  { init := [.movi 0, .movi 1]
    skip := false
    body := [.subs .count 8, .ld1 8 [2, 3] .lhs (.imm 16), .ld1 8 [4] .rhs (.imm 8), .op2 .umull 5 4 2,
    .op2 .umull 6 4 3, .op2 .uadalp 0 0 5, .op2 .uadalp 1 1 6]
    cond := .gt
    tail := [.ld1 16 [4] .lhs (.imm 16), .ld1 16 [5] .rhs (.imm 16), .dupW 6 .scale, .dupLane 2 4 0, .dupLane 4 4 1,
    .addX (.t 0) .result .stride, .op2 .addp 0 0 0, .op2 .addp 0 0 0, .op2 .addp 1 1 1, .op2 .addp 1 1 1,
    .op2 .add 0 0 2, .op2 .add 1 1 4, .op2 .add 0 0 5, .op2 .add 1 1 5, .op1 .scvtf 0 0, .op1 .scvtf 1 1,
    .op2 .fmul 0 0 6, .op2 .fmul 1 1 6, .stLane 4 0 0 .result (.imm 4), .stLane 4 0 1 (.t 0) (.imm 4)] }

/-- meta/quantized_mul_kernels_arm_64.h:3519-3586. -/
def f32_2x2 : Prog :=
  { init := [.movi 0, .movi 1, .movi 2, .mov 3 0]
    skip := false
    body := [.subs .count 8, .ld1 8 [4, 5] .lhs (.imm 16), .ld1 8 [6, 7] .rhs (.imm 16), .op2 .umull 8 6 4,
    .op2 .umull 9 7 4, .op2 .umull 10 6 5, .op2 .umull 11 7 5, .op2 .uadalp 0 0 8, .op2 .uadalp 1 1 9,
    .op2 .uadalp 2 2 10, .op2 .uadalp 3 3 11]
    cond := .gt
    tail := [.ld1 16 [4] .lhs (.imm 16), .ld1 16 [5] .rhs (.imm 16), .dupW 6 .scale, .dupLane 7 4 0, .dupLane 4 4 1,
    .addX (.t 0) .result .stride, .op2 .addp 0 0 1, .op2 .addp 0 0 0, .op2 .addp 2 2 3, .op2 .addp 2 2 2,
    .op2 .add 0 0 7, .op2 .add 2 2 4, .op2 .add 0 0 5, .op2 .add 2 2 5, .op1 .scvtf 0 0, .op1 .scvtf 2 2,
    .op2 .fmul 0 0 6, .op2 .fmul 2 2 6, .st1 4 2 [0] .result (.imm 8), .st1 4 2 [2] (.t 0) (.imm 8)] }

/-- meta/quantized_mul_kernels_arm_64.h:3605-3682. -/
def f32_2x3 : Prog :=
  { init := [.movi 0, .movi 1, .movi 2, .mov 3 0, .mov 4 1, .mov 5 2]
    skip := false
    body := [.subs .count 8, .ld1 8 [6, 7] .lhs (.imm 16), .ld1 8 [8, 9, 10] .rhs (.imm 24), .op2 .umull 11 8 6,
    .op2 .umull 12 9 6, .op2 .umull 13 10 6, .op2 .umull 14 8 7, .op2 .umull 15 9 7, .op2 .umull 16 10 7,
    .op2 .uadalp 0 0 11, .op2 .uadalp 1 1 12, .op2 .uadalp 2 2 13, .op2 .uadalp 3 3 14, .op2 .uadalp 4 4 15,
    .op2 .uadalp 5 5 16]
    cond := .gt
    tail := [.ld1 16 [6] .lhs (.imm 16), .ld1 16 [7] .rhs (.imm 16), .dupW 8 .scale, .dupLane 9 6 0, .dupLane 6 6 1,
    .addX (.t 0) .result .stride, .op2 .addp 0 0 1, .op2 .addp 2 2 2, .op2 .addp 0 0 2, .op2 .addp 3 3 4,
    .op2 .addp 5 5 5, .op2 .addp 3 3 5, .op2 .add 0 0 9, .op2 .add 3 3 6, .op2 .add 0 0 7, .op2 .add 3 3 7,
    .op1 .scvtf 0 0, .op1 .scvtf 3 3, .op2 .fmul 0 0 8, .op2 .fmul 3 3 8, .st1 4 2 [0] .result (.imm 8),
    .stLane 4 2 0 .result (.imm 4), .st1 4 2 [3] (.t 0) (.imm 8), .stLane 4 2 3 (.t 0) (.imm 4)] }

/-- meta/quantized_mul_kernels_arm_64.h:3701-3784. -/
def f32_2x4 : Prog :=
  { init := [.movi 0, .movi 1, .movi 2, .mov 3 0, .mov 4 1, .mov 5 2, .mov 6 3, .mov 7 4]
    skip := false
    body := [.ld1 8 [10, 11, 12, 13] .rhs (.imm 32), .ld1 8 [8] .lhs (.imm 8), .op2 .umull 14 8 10,
    .ld1 8 [9] .lhs (.imm 8), .op2 .umull 15 8 11, .op2 .umull 16 8 12, .op2 .umull 17 8 13,
    .op2 .umull 18 9 10, .op2 .uadalp 0 0 14, .op2 .uadalp 1 1 15, .op2 .uadalp 2 2 16, .op2 .umull 14 9 11,
    .op2 .umull 15 9 12, .op2 .umull 16 9 13, .subs .count 8, .op2 .uadalp 3 3 17, .op2 .uadalp 4 4 18,
    .op2 .uadalp 5 5 14, .op2 .uadalp 6 6 15, .op2 .uadalp 7 7 16]
    cond := .gt
    tail := [.ld1 16 [8] .lhs (.imm 16), .ld1 16 [9] .rhs (.imm 16), .dupW 10 .scale, .dupLane 11 8 0, .dupLane 8 8 1,
    .addX (.t 0) .result .stride, .op2 .addp 0 0 1, .op2 .addp 2 2 3, .op2 .addp 0 0 2, .op2 .addp 4 4 5,
    .op2 .addp 6 6 7, .op2 .addp 4 4 6, .op2 .add 0 0 11, .op2 .add 4 4 8, .op2 .add 0 0 9, .op2 .add 4 4 9,
    .op1 .scvtf 0 0, .op1 .scvtf 4 4, .op2 .fmul 0 0 10, .op2 .fmul 4 4 10, .st1 4 4 [0] .result (.imm 16),
    .st1 4 4 [4] (.t 0) (.imm 16)] }

/-- meta/quantized_mul_kernels_arm_64.h:3803-3876. -/
def f32_3x1 : Prog :=
  { init := [.movi 0, .movi 1, .movi 2]
    skip := false
    body := [.subs .count 8, .ld1 8 [3, 4, 5] .lhs (.imm 24), .ld1 8 [6] .rhs (.imm 8), .op2 .umull 7 6 3,
    .op2 .umull 8 6 4, .op2 .umull 9 6 5, .op2 .uadalp 0 0 7, .op2 .uadalp 1 1 8, .op2 .uadalp 2 2 9]
    cond := .gt
    tail := [.ld1 16 [4] .lhs (.imm 16), .ld1 16 [5] .rhs (.imm 16), .dupW 6 .scale, .dupLane 3 4 0, .dupLane 7 4 1,
    .dupLane 4 4 2, .addX (.t 0) .result .stride, .addX (.t 1) (.t 0) .stride, .op2 .addp 0 0 0,
    .op2 .addp 0 0 0, .op2 .addp 1 1 1, .op2 .addp 1 1 1, .op2 .addp 2 2 2, .op2 .addp 2 2 2, .op2 .add 0 0 3,
    .op2 .add 1 1 7, .op2 .add 2 2 4, .op2 .add 0 0 5, .op2 .add 1 1 5, .op2 .add 2 2 5, .op1 .scvtf 0 0,
    .op1 .scvtf 1 1, .op1 .scvtf 2 2, .op2 .fmul 0 0 6, .op2 .fmul 1 1 6, .op2 .fmul 2 2 6,
    .stLane 4 0 0 .result (.imm 4), .stLane 4 0 1 (.t 0) (.imm 4), .stLane 4 0 2 (.t 1) (.imm 4)] }

/-- meta/quantized_mul_kernels_arm_64.h:3895-3977. -/
def f32_3x2 : Prog :=
  { init := [.movi 0, .movi 1, .movi 2, .mov 3 0, .mov 4 1, .mov 5 2]
    skip := false
    body := [.subs .count 8, .ld1 8 [6, 7, 8] .lhs (.imm 24), .ld1 8 [9, 10] .rhs (.imm 16), .op2 .umull 11 9 6,
    .op2 .umull 12 10 6, .op2 .umull 13 9 7, .op2 .umull 14 10 7, .op2 .umull 15 9 8, .op2 .umull 16 10 8,
    .op2 .uadalp 0 0 11, .op2 .uadalp 1 1 12, .op2 .uadalp 2 2 13, .op2 .uadalp 3 3 14, .op2 .uadalp 4 4 15,
    .op2 .uadalp 5 5 16]
    cond := .gt
    tail := [.ld1 16 [6] .lhs (.imm 16), .ld1 16 [7] .rhs (.imm 16), .dupW 8 .scale, .dupLane 9 6 0, .dupLane 10 6 1,
    .dupLane 6 6 2, .addX (.t 0) .result .stride, .addX (.t 1) (.t 0) .stride, .op2 .addp 0 0 1,
    .op2 .addp 0 0 0, .op2 .addp 2 2 3, .op2 .addp 2 2 2, .op2 .addp 4 4 5, .op2 .addp 4 4 4, .op2 .add 0 0 9,
    .op2 .add 2 2 10, .op2 .add 4 4 6, .op2 .add 0 0 7, .op2 .add 2 2 7, .op2 .add 4 4 7, .op1 .scvtf 0 0,
    .op1 .scvtf 2 2, .op1 .scvtf 4 4, .op2 .fmul 0 0 8, .op2 .fmul 2 2 8, .op2 .fmul 4 4 8,
    .st1 4 2 [0] .result (.imm 8), .st1 4 2 [2] (.t 0) (.imm 8), .st1 4 2 [4] (.t 1) (.imm 8)] }

/-- meta/quantized_mul_kernels_arm_64.h:3996-4097. -/
def f32_3x3 : Prog :=
  { init := [.movi 0, .movi 1, .movi 2, .mov 3 0, .mov 4 1, .mov 5 2, .mov 6 3, .mov 7 4, .mov 8 5]
    skip := false
    body := [.ld1 8 [12, 13, 14] .rhs (.imm 24), .ld1 8 [9] .lhs (.imm 8), .op2 .umull 15 9 12,
    .ld1 8 [10] .lhs (.imm 8), .op2 .umull 16 9 13, .ld1 8 [11] .lhs (.imm 8), .op2 .umull 17 9 14,
    .op2 .umull 18 10 12, .op2 .uadalp 0 0 15, .op2 .uadalp 1 1 16, .op2 .uadalp 2 2 17, .op2 .uadalp 3 3 18,
    .op2 .umull 15 10 13, .op2 .umull 16 10 14, .op2 .umull 17 11 12, .op2 .umull 18 11 13, .subs .count 8,
    .op2 .umull 9 11 14, .op2 .uadalp 4 4 15, .op2 .uadalp 5 5 16, .op2 .uadalp 6 6 17, .op2 .uadalp 7 7 18,
    .op2 .uadalp 8 8 9]
    cond := .gt
    tail := [.ld1 16 [9] .lhs (.imm 16), .ld1 16 [10] .rhs (.imm 16), .dupW 11 .scale, .dupLane 12 9 0, .dupLane 13 9 1,
    .dupLane 9 9 2, .addX (.t 0) .result .stride, .addX (.t 1) (.t 0) .stride, .op2 .addp 0 0 1,
    .op2 .addp 2 2 2, .op2 .addp 0 0 2, .op2 .addp 3 3 4, .op2 .addp 5 5 5, .op2 .addp 3 3 5, .op2 .addp 6 6 7,
    .op2 .addp 8 8 8, .op2 .addp 6 6 8, .op2 .add 0 0 12, .op2 .add 3 3 13, .op2 .add 6 6 9, .op2 .add 0 0 10,
    .op2 .add 3 3 10, .op2 .add 6 6 10, .op1 .scvtf 0 0, .op1 .scvtf 3 3, .op1 .scvtf 6 6, .op2 .fmul 0 0 11,
    .op2 .fmul 3 3 11, .op2 .fmul 6 6 11, .st1 4 2 [0] .result (.imm 8), .stLane 4 2 0 .result (.imm 4),
    .st1 4 2 [3] (.t 0) (.imm 8), .stLane 4 2 3 (.t 0) (.imm 4), .st1 4 2 [6] (.t 1) (.imm 8),
    .stLane 4 2 6 (.t 1) (.imm 4)] }

/-- The kernel for a number of rows and columns and results of type `uint8_t`. -/
def q8Prog : Nat → Nat → Option Prog
  | 1, 1 => some q8_1x1
  | 1, 2 => some q8_1x2
  | 1, 3 => some q8_1x3
  | 1, 4 => some q8_1x4
  | 1, 5 => some q8_1x5
  | 1, 6 => some q8_1x6
  | 1, 7 => some q8_1x7
  | 1, 8 => some q8_1x8
  | 2, 1 => some q8_2x1
  | 2, 2 => some q8_2x2
  | 2, 3 => some q8_2x3
  | 2, 4 => some q8_2x4
  | 3, 1 => some q8_3x1
  | 3, 2 => some q8_3x2
  | 3, 3 => some q8_3x3
  | _, _ => none

/-- The kernel for a number of rows and columns and results of type `int32_t`. -/
def i32Prog : Nat → Nat → Option Prog
  | 1, 1 => some i32_1x1
  | 1, 2 => some i32_1x2
  | 1, 3 => some i32_1x3
  | 1, 4 => some i32_1x4
  | 1, 5 => some i32_1x5
  | 1, 6 => some i32_1x6
  | 1, 7 => some i32_1x7
  | 1, 8 => some i32_1x8
  | 2, 1 => some i32_2x1
  | 2, 2 => some i32_2x2
  | 2, 3 => some i32_2x3
  | 2, 4 => some i32_2x4
  | 3, 1 => some i32_3x1
  | 3, 2 => some i32_3x2
  | 3, 3 => some i32_3x3
  | _, _ => none

/-- The kernel for a number of rows and columns and results of type `float`. -/
def f32Prog : Nat → Nat → Option Prog
  | 1, 1 => some f32_1x1
  | 1, 2 => some f32_1x2
  | 1, 3 => some f32_1x3
  | 1, 4 => some f32_1x4
  | 1, 5 => some f32_1x5
  | 1, 6 => some f32_1x6
  | 1, 7 => some f32_1x7
  | 1, 8 => some f32_1x8
  | 2, 1 => some f32_2x1
  | 2, 2 => some f32_2x2
  | 2, 3 => some f32_2x3
  | 2, 4 => some f32_2x4
  | 3, 1 => some f32_3x1
  | 3, 2 => some f32_3x2
  | 3, 3 => some f32_3x3
  | _, _ => none

end Gemmlowp.MetaAsm
