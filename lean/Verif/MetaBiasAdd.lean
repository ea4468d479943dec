import Verif.MetaAsm
/-!
# The transformations of meta/transform_kernels_arm_64.h: adding a bias

`baL` is the code of `Transform1DKernel<uint8_t, int32_t, BiasAdd<uint8_t>, 16, L>::Transform`, line by line.
-/
namespace Gemmlowp.MetaAsm

/-- The shape of this code: `init`; `1:` the code `row` with the labels `2:` and `3:` in place of `1:` and `2:`, which
ends with `subs rows, rows, #1`; `bne 1b`. -/
structure RowsProg where
  init : List Ins
  row : Prog
  deriving DecidableEq, Repr

/-- meta/transform_kernels_arm_64.h:5541-5639. -/
def ba0 : RowsProg :=
  { init := [.ldr (.t 0) (.par .inputMin), .dupW 8 (.t 0), .ldr (.t 0) (.par .inputScale), .dupW 9 (.t 0),
    .ldr (.t 0) (.par .biasMin), .dupW 10 (.t 0), .ldr (.t 0) (.par .biasScale), .dupW 11 (.t 0),
    .ldr (.t 0) (.par .outputMin), .dupW 12 (.t 0), .ldr (.t 0) (.par .outputInvScale), .dupW 13 (.t 0),
    .ldr (.t 0) (.par .outputOffset), .dupW 14 (.t 0)]
    row :=
      { init := [.movX (.t 0) .count, .movX (.t 1) .bias]
        skip := false
        body := [.subs (.t 0) 16, .ld1 16 [0] .inp (.imm 16), .ld1 16 [4] (.t 1) (.imm 16), .op1 .uxtl2 1 0,
        .op1 .uxtl 0 0, .op1 .uxtl2 5 4, .op1 .uxtl 4 4, .op1 .sxtl2 3 1, .op1 .sxtl 2 1, .op1 .sxtl2 7 5,
        .op1 .sxtl 6 5, .op1 .sxtl2 1 0, .op1 .sxtl 0 0, .op1 .sxtl2 5 4, .op1 .sxtl 4 4, .op1 .scvtf 0 0,
        .op1 .scvtf 1 1, .op1 .scvtf 2 2, .op1 .scvtf 3 3, .op1 .scvtf 4 4, .op1 .scvtf 5 5, .op1 .scvtf 6 6,
        .op1 .scvtf 7 7, .op2 .fmul 0 0 9, .op2 .fmul 1 1 9, .op2 .fmul 2 2 9, .op2 .fmul 3 3 9,
        .op2 .fmul 4 4 11, .op2 .fmul 5 5 11, .op2 .fmul 6 6 11, .op2 .fmul 7 7 11, .op2 .fadd 0 0 8,
        .op2 .fadd 1 1 8, .op2 .fadd 2 2 8, .op2 .fadd 3 3 8, .op2 .fadd 4 4 10, .op2 .fadd 5 5 10,
        .op2 .fadd 6 6 10, .op2 .fadd 7 7 10, .op2 .fadd 0 0 4, .op2 .fadd 1 1 5, .op2 .fadd 2 2 6,
        .op2 .fadd 3 3 7, .op2 .fsub 0 0 12, .op2 .fsub 1 1 12, .op2 .fsub 2 2 12, .op2 .fsub 3 3 12,
        .op2 .fmul 0 0 13, .op2 .fmul 1 1 13, .op2 .fmul 2 2 13, .op2 .fmul 3 3 13, .op2 .fadd 0 0 14,
        .op2 .fadd 1 1 14, .op2 .fadd 2 2 14, .op2 .fadd 3 3 14, .op1 .fcvtzs 0 0, .op1 .fcvtzs 1 1,
        .op1 .fcvtzs 2 2, .op1 .fcvtzs 3 3, .st1 4 4 [0, 1, 2, 3] .out (.imm 64)]
        cond := .ne
        tail := [.subs .rows 1] } }

/-- meta/transform_kernels_arm_64.h:5656-5780. -/
def ba1 : RowsProg :=
  { init := [.ldr (.t 0) (.par .inputMin), .dupW 8 (.t 0), .ldr (.t 0) (.par .inputScale), .dupW 9 (.t 0),
    .ldr (.t 0) (.par .biasMin), .dupW 10 (.t 0), .ldr (.t 0) (.par .biasScale), .dupW 11 (.t 0),
    .ldr (.t 0) (.par .outputMin), .dupW 12 (.t 0), .ldr (.t 0) (.par .outputInvScale), .dupW 13 (.t 0),
    .ldr (.t 0) (.par .outputOffset), .dupW 14 (.t 0)]
    row :=
      { init := [.movX (.t 0) .count, .movX (.t 1) .bias, .subs (.t 0) 1]
        skip := true
        body := [.subs (.t 0) 16, .ld1 16 [0] .inp (.imm 16), .ld1 16 [4] (.t 1) (.imm 16), .op1 .uxtl2 1 0,
        .op1 .uxtl 0 0, .op1 .uxtl2 5 4, .op1 .uxtl 4 4, .op1 .sxtl2 3 1, .op1 .sxtl 2 1, .op1 .sxtl2 7 5,
        .op1 .sxtl 6 5, .op1 .sxtl2 1 0, .op1 .sxtl 0 0, .op1 .sxtl2 5 4, .op1 .sxtl 4 4, .op1 .scvtf 0 0,
        .op1 .scvtf 1 1, .op1 .scvtf 2 2, .op1 .scvtf 3 3, .op1 .scvtf 4 4, .op1 .scvtf 5 5, .op1 .scvtf 6 6,
        .op1 .scvtf 7 7, .op2 .fmul 0 0 9, .op2 .fmul 1 1 9, .op2 .fmul 2 2 9, .op2 .fmul 3 3 9,
        .op2 .fmul 4 4 11, .op2 .fmul 5 5 11, .op2 .fmul 6 6 11, .op2 .fmul 7 7 11, .op2 .fadd 0 0 8,
        .op2 .fadd 1 1 8, .op2 .fadd 2 2 8, .op2 .fadd 3 3 8, .op2 .fadd 4 4 10, .op2 .fadd 5 5 10,
        .op2 .fadd 6 6 10, .op2 .fadd 7 7 10, .op2 .fadd 0 0 4, .op2 .fadd 1 1 5, .op2 .fadd 2 2 6,
        .op2 .fadd 3 3 7, .op2 .fsub 0 0 12, .op2 .fsub 1 1 12, .op2 .fsub 2 2 12, .op2 .fsub 3 3 12,
        .op2 .fmul 0 0 13, .op2 .fmul 1 1 13, .op2 .fmul 2 2 13, .op2 .fmul 3 3 13, .op2 .fadd 0 0 14,
        .op2 .fadd 1 1 14, .op2 .fadd 2 2 14, .op2 .fadd 3 3 14, .op1 .fcvtzs 0 0, .op1 .fcvtzs 1 1,
        .op1 .fcvtzs 2 2, .op1 .fcvtzs 3 3, .st1 4 4 [0, 1, 2, 3] .out (.imm 64)]
        cond := .ne
        tail := [.ldLane 1 0 [0] .inp (.imm 1), .ldLane 1 0 [1] (.t 1) (.imm 1), .op1 .uxtl 0 0, .op1 .uxtl 1 1,
        .op1 .sxtl 0 0, .op1 .sxtl 1 1, .op1 .scvtf 0 0, .op1 .scvtf 1 1, .op2 .fmul 0 0 9, .op2 .fmul 1 1 11,
        .op2 .fadd 0 0 8, .op2 .fadd 1 1 10, .op2 .fadd 0 0 1, .op2 .fsub 0 0 12, .op2 .fmul 0 0 13,
        .op2 .fadd 0 0 14, .op1 .fcvtzs 0 0, .stLane 4 0 0 .out (.imm 4), .subs .rows 1] } }

/-- meta/transform_kernels_arm_64.h:5797-5921. -/
def ba2 : RowsProg :=
  { init := [.ldr (.t 0) (.par .inputMin), .dupW 8 (.t 0), .ldr (.t 0) (.par .inputScale), .dupW 9 (.t 0),
    .ldr (.t 0) (.par .biasMin), .dupW 10 (.t 0), .ldr (.t 0) (.par .biasScale), .dupW 11 (.t 0),
    .ldr (.t 0) (.par .outputMin), .dupW 12 (.t 0), .ldr (.t 0) (.par .outputInvScale), .dupW 13 (.t 0),
    .ldr (.t 0) (.par .outputOffset), .dupW 14 (.t 0)]
    row :=
      { init := [.movX (.t 0) .count, .movX (.t 1) .bias, .subs (.t 0) 2]
        skip := true
        body := [.subs (.t 0) 16, .ld1 16 [0] .inp (.imm 16), .ld1 16 [4] (.t 1) (.imm 16), .op1 .uxtl2 1 0,
        .op1 .uxtl 0 0, .op1 .uxtl2 5 4, .op1 .uxtl 4 4, .op1 .sxtl2 3 1, .op1 .sxtl 2 1, .op1 .sxtl2 7 5,
        .op1 .sxtl 6 5, .op1 .sxtl2 1 0, .op1 .sxtl 0 0, .op1 .sxtl2 5 4, .op1 .sxtl 4 4, .op1 .scvtf 0 0,
        .op1 .scvtf 1 1, .op1 .scvtf 2 2, .op1 .scvtf 3 3, .op1 .scvtf 4 4, .op1 .scvtf 5 5, .op1 .scvtf 6 6,
        .op1 .scvtf 7 7, .op2 .fmul 0 0 9, .op2 .fmul 1 1 9, .op2 .fmul 2 2 9, .op2 .fmul 3 3 9,
        .op2 .fmul 4 4 11, .op2 .fmul 5 5 11, .op2 .fmul 6 6 11, .op2 .fmul 7 7 11, .op2 .fadd 0 0 8,
        .op2 .fadd 1 1 8, .op2 .fadd 2 2 8, .op2 .fadd 3 3 8, .op2 .fadd 4 4 10, .op2 .fadd 5 5 10,
        .op2 .fadd 6 6 10, .op2 .fadd 7 7 10, .op2 .fadd 0 0 4, .op2 .fadd 1 1 5, .op2 .fadd 2 2 6,
        .op2 .fadd 3 3 7, .op2 .fsub 0 0 12, .op2 .fsub 1 1 12, .op2 .fsub 2 2 12, .op2 .fsub 3 3 12,
        .op2 .fmul 0 0 13, .op2 .fmul 1 1 13, .op2 .fmul 2 2 13, .op2 .fmul 3 3 13, .op2 .fadd 0 0 14,
        .op2 .fadd 1 1 14, .op2 .fadd 2 2 14, .op2 .fadd 3 3 14, .op1 .fcvtzs 0 0, .op1 .fcvtzs 1 1,
        .op1 .fcvtzs 2 2, .op1 .fcvtzs 3 3, .st1 4 4 [0, 1, 2, 3] .out (.imm 64)]
        cond := .ne
        tail := [.ldLane 2 0 [0] .inp (.imm 2), .ldLane 2 0 [1] (.t 1) (.imm 2), .op1 .uxtl 0 0, .op1 .uxtl 1 1,
        .op1 .sxtl 0 0, .op1 .sxtl 1 1, .op1 .scvtf 0 0, .op1 .scvtf 1 1, .op2 .fmul 0 0 9, .op2 .fmul 1 1 11,
        .op2 .fadd 0 0 8, .op2 .fadd 1 1 10, .op2 .fadd 0 0 1, .op2 .fsub 0 0 12, .op2 .fmul 0 0 13,
        .op2 .fadd 0 0 14, .op1 .fcvtzs 0 0, .st1 4 2 [0] .out (.imm 8), .subs .rows 1] } }

/-- meta/transform_kernels_arm_64.h:5938-6065. -/
def ba3 : RowsProg :=
  { init := [.ldr (.t 0) (.par .inputMin), .dupW 8 (.t 0), .ldr (.t 0) (.par .inputScale), .dupW 9 (.t 0),
    .ldr (.t 0) (.par .biasMin), .dupW 10 (.t 0), .ldr (.t 0) (.par .biasScale), .dupW 11 (.t 0),
    .ldr (.t 0) (.par .outputMin), .dupW 12 (.t 0), .ldr (.t 0) (.par .outputInvScale), .dupW 13 (.t 0),
    .ldr (.t 0) (.par .outputOffset), .dupW 14 (.t 0)]
    row :=
      { init := [.movX (.t 0) .count, .movX (.t 1) .bias, .subs (.t 0) 3]
        skip := true
        body := [.subs (.t 0) 16, .ld1 16 [0] .inp (.imm 16), .ld1 16 [4] (.t 1) (.imm 16), .op1 .uxtl2 1 0,
        .op1 .uxtl 0 0, .op1 .uxtl2 5 4, .op1 .uxtl 4 4, .op1 .sxtl2 3 1, .op1 .sxtl 2 1, .op1 .sxtl2 7 5,
        .op1 .sxtl 6 5, .op1 .sxtl2 1 0, .op1 .sxtl 0 0, .op1 .sxtl2 5 4, .op1 .sxtl 4 4, .op1 .scvtf 0 0,
        .op1 .scvtf 1 1, .op1 .scvtf 2 2, .op1 .scvtf 3 3, .op1 .scvtf 4 4, .op1 .scvtf 5 5, .op1 .scvtf 6 6,
        .op1 .scvtf 7 7, .op2 .fmul 0 0 9, .op2 .fmul 1 1 9, .op2 .fmul 2 2 9, .op2 .fmul 3 3 9,
        .op2 .fmul 4 4 11, .op2 .fmul 5 5 11, .op2 .fmul 6 6 11, .op2 .fmul 7 7 11, .op2 .fadd 0 0 8,
        .op2 .fadd 1 1 8, .op2 .fadd 2 2 8, .op2 .fadd 3 3 8, .op2 .fadd 4 4 10, .op2 .fadd 5 5 10,
        .op2 .fadd 6 6 10, .op2 .fadd 7 7 10, .op2 .fadd 0 0 4, .op2 .fadd 1 1 5, .op2 .fadd 2 2 6,
        .op2 .fadd 3 3 7, .op2 .fsub 0 0 12, .op2 .fsub 1 1 12, .op2 .fsub 2 2 12, .op2 .fsub 3 3 12,
        .op2 .fmul 0 0 13, .op2 .fmul 1 1 13, .op2 .fmul 2 2 13, .op2 .fmul 3 3 13, .op2 .fadd 0 0 14,
        .op2 .fadd 1 1 14, .op2 .fadd 2 2 14, .op2 .fadd 3 3 14, .op1 .fcvtzs 0 0, .op1 .fcvtzs 1 1,
        .op1 .fcvtzs 2 2, .op1 .fcvtzs 3 3, .st1 4 4 [0, 1, 2, 3] .out (.imm 64)]
        cond := .ne
        tail := [.ldLane 2 0 [0] .inp (.imm 2), .ldLane 1 2 [0] .inp (.imm 1), .ldLane 2 0 [1] (.t 1) (.imm 2),
        .ldLane 1 2 [1] (.t 1) (.imm 1), .op1 .uxtl 0 0, .op1 .uxtl 1 1, .op1 .sxtl 0 0, .op1 .sxtl 1 1,
        .op1 .scvtf 0 0, .op1 .scvtf 1 1, .op2 .fmul 0 0 9, .op2 .fmul 1 1 11, .op2 .fadd 0 0 8,
        .op2 .fadd 1 1 10, .op2 .fadd 0 0 1, .op2 .fsub 0 0 12, .op2 .fmul 0 0 13, .op2 .fadd 0 0 14,
        .op1 .fcvtzs 0 0, .st1 4 2 [0] .out (.imm 8), .stLane 4 2 0 .out (.imm 4), .subs .rows 1] } }

/-- meta/transform_kernels_arm_64.h:6082-6206. -/
def ba4 : RowsProg :=
  { init := [.ldr (.t 0) (.par .inputMin), .dupW 8 (.t 0), .ldr (.t 0) (.par .inputScale), .dupW 9 (.t 0),
    .ldr (.t 0) (.par .biasMin), .dupW 10 (.t 0), .ldr (.t 0) (.par .biasScale), .dupW 11 (.t 0),
    .ldr (.t 0) (.par .outputMin), .dupW 12 (.t 0), .ldr (.t 0) (.par .outputInvScale), .dupW 13 (.t 0),
    .ldr (.t 0) (.par .outputOffset), .dupW 14 (.t 0)]
    row :=
      { init := [.movX (.t 0) .count, .movX (.t 1) .bias, .subs (.t 0) 4]
        skip := true
        body := [.subs (.t 0) 16, .ld1 16 [0] .inp (.imm 16), .ld1 16 [4] (.t 1) (.imm 16), .op1 .uxtl2 1 0,
        .op1 .uxtl 0 0, .op1 .uxtl2 5 4, .op1 .uxtl 4 4, .op1 .sxtl2 3 1, .op1 .sxtl 2 1, .op1 .sxtl2 7 5,
        .op1 .sxtl 6 5, .op1 .sxtl2 1 0, .op1 .sxtl 0 0, .op1 .sxtl2 5 4, .op1 .sxtl 4 4, .op1 .scvtf 0 0,
        .op1 .scvtf 1 1, .op1 .scvtf 2 2, .op1 .scvtf 3 3, .op1 .scvtf 4 4, .op1 .scvtf 5 5, .op1 .scvtf 6 6,
        .op1 .scvtf 7 7, .op2 .fmul 0 0 9, .op2 .fmul 1 1 9, .op2 .fmul 2 2 9, .op2 .fmul 3 3 9,
        .op2 .fmul 4 4 11, .op2 .fmul 5 5 11, .op2 .fmul 6 6 11, .op2 .fmul 7 7 11, .op2 .fadd 0 0 8,
        .op2 .fadd 1 1 8, .op2 .fadd 2 2 8, .op2 .fadd 3 3 8, .op2 .fadd 4 4 10, .op2 .fadd 5 5 10,
        .op2 .fadd 6 6 10, .op2 .fadd 7 7 10, .op2 .fadd 0 0 4, .op2 .fadd 1 1 5, .op2 .fadd 2 2 6,
        .op2 .fadd 3 3 7, .op2 .fsub 0 0 12, .op2 .fsub 1 1 12, .op2 .fsub 2 2 12, .op2 .fsub 3 3 12,
        .op2 .fmul 0 0 13, .op2 .fmul 1 1 13, .op2 .fmul 2 2 13, .op2 .fmul 3 3 13, .op2 .fadd 0 0 14,
        .op2 .fadd 1 1 14, .op2 .fadd 2 2 14, .op2 .fadd 3 3 14, .op1 .fcvtzs 0 0, .op1 .fcvtzs 1 1,
        .op1 .fcvtzs 2 2, .op1 .fcvtzs 3 3, .st1 4 4 [0, 1, 2, 3] .out (.imm 64)]
        cond := .ne
        tail := [.ldLane 4 0 [0] .inp (.imm 4), .ldLane 4 0 [1] (.t 1) (.imm 4), .op1 .uxtl 0 0, .op1 .uxtl 1 1,
        .op1 .sxtl 0 0, .op1 .sxtl 1 1, .op1 .scvtf 0 0, .op1 .scvtf 1 1, .op2 .fmul 0 0 9, .op2 .fmul 1 1 11,
        .op2 .fadd 0 0 8, .op2 .fadd 1 1 10, .op2 .fadd 0 0 1, .op2 .fsub 0 0 12, .op2 .fmul 0 0 13,
        .op2 .fadd 0 0 14, .op1 .fcvtzs 0 0, .st1 4 4 [0] .out (.imm 16), .subs .rows 1] } }

/-- meta/transform_kernels_arm_64.h:6223-6363. -/
def ba5 : RowsProg :=
  { init := [.ldr (.t 0) (.par .inputMin), .dupW 8 (.t 0), .ldr (.t 0) (.par .inputScale), .dupW 9 (.t 0),
    .ldr (.t 0) (.par .biasMin), .dupW 10 (.t 0), .ldr (.t 0) (.par .biasScale), .dupW 11 (.t 0),
    .ldr (.t 0) (.par .outputMin), .dupW 12 (.t 0), .ldr (.t 0) (.par .outputInvScale), .dupW 13 (.t 0),
    .ldr (.t 0) (.par .outputOffset), .dupW 14 (.t 0)]
    row :=
      { init := [.movX (.t 0) .count, .movX (.t 1) .bias, .subs (.t 0) 5]
        skip := true
        body := [.subs (.t 0) 16, .ld1 16 [0] .inp (.imm 16), .ld1 16 [4] (.t 1) (.imm 16), .op1 .uxtl2 1 0,
        .op1 .uxtl 0 0, .op1 .uxtl2 5 4, .op1 .uxtl 4 4, .op1 .sxtl2 3 1, .op1 .sxtl 2 1, .op1 .sxtl2 7 5,
        .op1 .sxtl 6 5, .op1 .sxtl2 1 0, .op1 .sxtl 0 0, .op1 .sxtl2 5 4, .op1 .sxtl 4 4, .op1 .scvtf 0 0,
        .op1 .scvtf 1 1, .op1 .scvtf 2 2, .op1 .scvtf 3 3, .op1 .scvtf 4 4, .op1 .scvtf 5 5, .op1 .scvtf 6 6,
        .op1 .scvtf 7 7, .op2 .fmul 0 0 9, .op2 .fmul 1 1 9, .op2 .fmul 2 2 9, .op2 .fmul 3 3 9,
        .op2 .fmul 4 4 11, .op2 .fmul 5 5 11, .op2 .fmul 6 6 11, .op2 .fmul 7 7 11, .op2 .fadd 0 0 8,
        .op2 .fadd 1 1 8, .op2 .fadd 2 2 8, .op2 .fadd 3 3 8, .op2 .fadd 4 4 10, .op2 .fadd 5 5 10,
        .op2 .fadd 6 6 10, .op2 .fadd 7 7 10, .op2 .fadd 0 0 4, .op2 .fadd 1 1 5, .op2 .fadd 2 2 6,
        .op2 .fadd 3 3 7, .op2 .fsub 0 0 12, .op2 .fsub 1 1 12, .op2 .fsub 2 2 12, .op2 .fsub 3 3 12,
        .op2 .fmul 0 0 13, .op2 .fmul 1 1 13, .op2 .fmul 2 2 13, .op2 .fmul 3 3 13, .op2 .fadd 0 0 14,
        .op2 .fadd 1 1 14, .op2 .fadd 2 2 14, .op2 .fadd 3 3 14, .op1 .fcvtzs 0 0, .op1 .fcvtzs 1 1,
        .op1 .fcvtzs 2 2, .op1 .fcvtzs 3 3, .st1 4 4 [0, 1, 2, 3] .out (.imm 64)]
        cond := .ne
        tail := [.ldLane 4 0 [0] .inp (.imm 4), .ldLane 1 4 [0] .inp (.imm 1), .ldLane 4 0 [2] (.t 1) (.imm 4),
        .ldLane 1 4 [2] (.t 1) (.imm 1), .op1 .uxtl 0 0, .op1 .uxtl 2 2, .op1 .sxtl2 1 0, .op1 .sxtl 0 0,
        .op1 .sxtl2 3 2, .op1 .sxtl 2 2, .op1 .scvtf 0 0, .op1 .scvtf 1 1, .op1 .scvtf 2 2, .op1 .scvtf 3 3,
        .op2 .fmul 0 0 9, .op2 .fmul 1 1 9, .op2 .fmul 2 2 11, .op2 .fmul 3 3 11, .op2 .fadd 0 0 8,
        .op2 .fadd 1 1 8, .op2 .fadd 2 2 10, .op2 .fadd 3 3 10, .op2 .fadd 0 0 2, .op2 .fadd 1 1 3,
        .op2 .fsub 0 0 12, .op2 .fsub 1 1 12, .op2 .fmul 0 0 13, .op2 .fmul 1 1 13, .op2 .fadd 0 0 14,
        .op2 .fadd 1 1 14, .op1 .fcvtzs 0 0, .op1 .fcvtzs 1 1, .st1 4 4 [0] .out (.imm 16),
        .stLane 4 0 1 .out (.imm 4), .subs .rows 1] } }

/-- meta/transform_kernels_arm_64.h:6380-6520. -/
def ba6 : RowsProg :=
  { init := [.ldr (.t 0) (.par .inputMin), .dupW 8 (.t 0), .ldr (.t 0) (.par .inputScale), .dupW 9 (.t 0),
    .ldr (.t 0) (.par .biasMin), .dupW 10 (.t 0), .ldr (.t 0) (.par .biasScale), .dupW 11 (.t 0),
    .ldr (.t 0) (.par .outputMin), .dupW 12 (.t 0), .ldr (.t 0) (.par .outputInvScale), .dupW 13 (.t 0),
    .ldr (.t 0) (.par .outputOffset), .dupW 14 (.t 0)]
    row :=
      { init := [.movX (.t 0) .count, .movX (.t 1) .bias, .subs (.t 0) 6]
        skip := true
        body := [.subs (.t 0) 16, .ld1 16 [0] .inp (.imm 16), .ld1 16 [4] (.t 1) (.imm 16), .op1 .uxtl2 1 0,
        .op1 .uxtl 0 0, .op1 .uxtl2 5 4, .op1 .uxtl 4 4, .op1 .sxtl2 3 1, .op1 .sxtl 2 1, .op1 .sxtl2 7 5,
        .op1 .sxtl 6 5, .op1 .sxtl2 1 0, .op1 .sxtl 0 0, .op1 .sxtl2 5 4, .op1 .sxtl 4 4, .op1 .scvtf 0 0,
        .op1 .scvtf 1 1, .op1 .scvtf 2 2, .op1 .scvtf 3 3, .op1 .scvtf 4 4, .op1 .scvtf 5 5, .op1 .scvtf 6 6,
        .op1 .scvtf 7 7, .op2 .fmul 0 0 9, .op2 .fmul 1 1 9, .op2 .fmul 2 2 9, .op2 .fmul 3 3 9,
        .op2 .fmul 4 4 11, .op2 .fmul 5 5 11, .op2 .fmul 6 6 11, .op2 .fmul 7 7 11, .op2 .fadd 0 0 8,
        .op2 .fadd 1 1 8, .op2 .fadd 2 2 8, .op2 .fadd 3 3 8, .op2 .fadd 4 4 10, .op2 .fadd 5 5 10,
        .op2 .fadd 6 6 10, .op2 .fadd 7 7 10, .op2 .fadd 0 0 4, .op2 .fadd 1 1 5, .op2 .fadd 2 2 6,
        .op2 .fadd 3 3 7, .op2 .fsub 0 0 12, .op2 .fsub 1 1 12, .op2 .fsub 2 2 12, .op2 .fsub 3 3 12,
        .op2 .fmul 0 0 13, .op2 .fmul 1 1 13, .op2 .fmul 2 2 13, .op2 .fmul 3 3 13, .op2 .fadd 0 0 14,
        .op2 .fadd 1 1 14, .op2 .fadd 2 2 14, .op2 .fadd 3 3 14, .op1 .fcvtzs 0 0, .op1 .fcvtzs 1 1,
        .op1 .fcvtzs 2 2, .op1 .fcvtzs 3 3, .st1 4 4 [0, 1, 2, 3] .out (.imm 64)]
        cond := .ne
        tail := [.ldLane 4 0 [0] .inp (.imm 4), .ldLane 2 2 [0] .inp (.imm 2), .ldLane 4 0 [2] (.t 1) (.imm 4),
        .ldLane 2 2 [2] (.t 1) (.imm 2), .op1 .uxtl 0 0, .op1 .uxtl 2 2, .op1 .sxtl2 1 0, .op1 .sxtl 0 0,
        .op1 .sxtl2 3 2, .op1 .sxtl 2 2, .op1 .scvtf 0 0, .op1 .scvtf 1 1, .op1 .scvtf 2 2, .op1 .scvtf 3 3,
        .op2 .fmul 0 0 9, .op2 .fmul 1 1 9, .op2 .fmul 2 2 11, .op2 .fmul 3 3 11, .op2 .fadd 0 0 8,
        .op2 .fadd 1 1 8, .op2 .fadd 2 2 10, .op2 .fadd 3 3 10, .op2 .fadd 0 0 2, .op2 .fadd 1 1 3,
        .op2 .fsub 0 0 12, .op2 .fsub 1 1 12, .op2 .fmul 0 0 13, .op2 .fmul 1 1 13, .op2 .fadd 0 0 14,
        .op2 .fadd 1 1 14, .op1 .fcvtzs 0 0, .op1 .fcvtzs 1 1, .st1 4 4 [0] .out (.imm 16),
        .st1 4 2 [1] .out (.imm 8), .subs .rows 1] } }

/-- meta/transform_kernels_arm_64.h:6537-6680. -/
def ba7 : RowsProg :=
  { init := [.ldr (.t 0) (.par .inputMin), .dupW 8 (.t 0), .ldr (.t 0) (.par .inputScale), .dupW 9 (.t 0),
    .ldr (.t 0) (.par .biasMin), .dupW 10 (.t 0), .ldr (.t 0) (.par .biasScale), .dupW 11 (.t 0),
    .ldr (.t 0) (.par .outputMin), .dupW 12 (.t 0), .ldr (.t 0) (.par .outputInvScale), .dupW 13 (.t 0),
    .ldr (.t 0) (.par .outputOffset), .dupW 14 (.t 0)]
    row :=
      { init := [.movX (.t 0) .count, .movX (.t 1) .bias, .subs (.t 0) 7]
        skip := true
        body := [.subs (.t 0) 16, .ld1 16 [0] .inp (.imm 16), .ld1 16 [4] (.t 1) (.imm 16), .op1 .uxtl2 1 0,
        .op1 .uxtl 0 0, .op1 .uxtl2 5 4, .op1 .uxtl 4 4, .op1 .sxtl2 3 1, .op1 .sxtl 2 1, .op1 .sxtl2 7 5,
        .op1 .sxtl 6 5, .op1 .sxtl2 1 0, .op1 .sxtl 0 0, .op1 .sxtl2 5 4, .op1 .sxtl 4 4, .op1 .scvtf 0 0,
        .op1 .scvtf 1 1, .op1 .scvtf 2 2, .op1 .scvtf 3 3, .op1 .scvtf 4 4, .op1 .scvtf 5 5, .op1 .scvtf 6 6,
        .op1 .scvtf 7 7, .op2 .fmul 0 0 9, .op2 .fmul 1 1 9, .op2 .fmul 2 2 9, .op2 .fmul 3 3 9,
        .op2 .fmul 4 4 11, .op2 .fmul 5 5 11, .op2 .fmul 6 6 11, .op2 .fmul 7 7 11, .op2 .fadd 0 0 8,
        .op2 .fadd 1 1 8, .op2 .fadd 2 2 8, .op2 .fadd 3 3 8, .op2 .fadd 4 4 10, .op2 .fadd 5 5 10,
        .op2 .fadd 6 6 10, .op2 .fadd 7 7 10, .op2 .fadd 0 0 4, .op2 .fadd 1 1 5, .op2 .fadd 2 2 6,
        .op2 .fadd 3 3 7, .op2 .fsub 0 0 12, .op2 .fsub 1 1 12, .op2 .fsub 2 2 12, .op2 .fsub 3 3 12,
        .op2 .fmul 0 0 13, .op2 .fmul 1 1 13, .op2 .fmul 2 2 13, .op2 .fmul 3 3 13, .op2 .fadd 0 0 14,
        .op2 .fadd 1 1 14, .op2 .fadd 2 2 14, .op2 .fadd 3 3 14, .op1 .fcvtzs 0 0, .op1 .fcvtzs 1 1,
        .op1 .fcvtzs 2 2, .op1 .fcvtzs 3 3, .st1 4 4 [0, 1, 2, 3] .out (.imm 64)]
        cond := .ne
        tail := [.ldLane 4 0 [0] .inp (.imm 4), .ldLane 2 2 [0] .inp (.imm 2), .ldLane 1 6 [0] .inp (.imm 1),
        .ldLane 4 0 [2] (.t 1) (.imm 4), .ldLane 2 2 [2] (.t 1) (.imm 2), .ldLane 1 6 [2] (.t 1) (.imm 1),
        .op1 .uxtl 0 0, .op1 .uxtl 2 2, .op1 .sxtl2 1 0, .op1 .sxtl 0 0, .op1 .sxtl2 3 2, .op1 .sxtl 2 2,
        .op1 .scvtf 0 0, .op1 .scvtf 1 1, .op1 .scvtf 2 2, .op1 .scvtf 3 3, .op2 .fmul 0 0 9, .op2 .fmul 1 1 9,
        .op2 .fmul 2 2 11, .op2 .fmul 3 3 11, .op2 .fadd 0 0 8, .op2 .fadd 1 1 8, .op2 .fadd 2 2 10,
        .op2 .fadd 3 3 10, .op2 .fadd 0 0 2, .op2 .fadd 1 1 3, .op2 .fsub 0 0 12, .op2 .fsub 1 1 12,
        .op2 .fmul 0 0 13, .op2 .fmul 1 1 13, .op2 .fadd 0 0 14, .op2 .fadd 1 1 14, .op1 .fcvtzs 0 0,
        .op1 .fcvtzs 1 1, .st1 4 4 [0] .out (.imm 16), .st1 4 2 [1] .out (.imm 8), .stLane 4 2 1 .out (.imm 4),
        .subs .rows 1] } }

/-- meta/transform_kernels_arm_64.h:6697-6834. -/
def ba8 : RowsProg :=
  { init := [.ldr (.t 0) (.par .inputMin), .dupW 8 (.t 0), .ldr (.t 0) (.par .inputScale), .dupW 9 (.t 0),
    .ldr (.t 0) (.par .biasMin), .dupW 10 (.t 0), .ldr (.t 0) (.par .biasScale), .dupW 11 (.t 0),
    .ldr (.t 0) (.par .outputMin), .dupW 12 (.t 0), .ldr (.t 0) (.par .outputInvScale), .dupW 13 (.t 0),
    .ldr (.t 0) (.par .outputOffset), .dupW 14 (.t 0)]
    row :=
      { init := [.movX (.t 0) .count, .movX (.t 1) .bias, .subs (.t 0) 8]
        skip := true
        body := [.subs (.t 0) 16, .ld1 16 [0] .inp (.imm 16), .ld1 16 [4] (.t 1) (.imm 16), .op1 .uxtl2 1 0,
        .op1 .uxtl 0 0, .op1 .uxtl2 5 4, .op1 .uxtl 4 4, .op1 .sxtl2 3 1, .op1 .sxtl 2 1, .op1 .sxtl2 7 5,
        .op1 .sxtl 6 5, .op1 .sxtl2 1 0, .op1 .sxtl 0 0, .op1 .sxtl2 5 4, .op1 .sxtl 4 4, .op1 .scvtf 0 0,
        .op1 .scvtf 1 1, .op1 .scvtf 2 2, .op1 .scvtf 3 3, .op1 .scvtf 4 4, .op1 .scvtf 5 5, .op1 .scvtf 6 6,
        .op1 .scvtf 7 7, .op2 .fmul 0 0 9, .op2 .fmul 1 1 9, .op2 .fmul 2 2 9, .op2 .fmul 3 3 9,
        .op2 .fmul 4 4 11, .op2 .fmul 5 5 11, .op2 .fmul 6 6 11, .op2 .fmul 7 7 11, .op2 .fadd 0 0 8,
        .op2 .fadd 1 1 8, .op2 .fadd 2 2 8, .op2 .fadd 3 3 8, .op2 .fadd 4 4 10, .op2 .fadd 5 5 10,
        .op2 .fadd 6 6 10, .op2 .fadd 7 7 10, .op2 .fadd 0 0 4, .op2 .fadd 1 1 5, .op2 .fadd 2 2 6,
        .op2 .fadd 3 3 7, .op2 .fsub 0 0 12, .op2 .fsub 1 1 12, .op2 .fsub 2 2 12, .op2 .fsub 3 3 12,
        .op2 .fmul 0 0 13, .op2 .fmul 1 1 13, .op2 .fmul 2 2 13, .op2 .fmul 3 3 13, .op2 .fadd 0 0 14,
        .op2 .fadd 1 1 14, .op2 .fadd 2 2 14, .op2 .fadd 3 3 14, .op1 .fcvtzs 0 0, .op1 .fcvtzs 1 1,
        .op1 .fcvtzs 2 2, .op1 .fcvtzs 3 3, .st1 4 4 [0, 1, 2, 3] .out (.imm 64)]
        cond := .ne
        tail := [.ld1 8 [0] .inp (.imm 8), .ld1 8 [2] (.t 1) (.imm 8), .op1 .uxtl 0 0, .op1 .uxtl 2 2, .op1 .sxtl2 1 0,
        .op1 .sxtl 0 0, .op1 .sxtl2 3 2, .op1 .sxtl 2 2, .op1 .scvtf 0 0, .op1 .scvtf 1 1, .op1 .scvtf 2 2,
        .op1 .scvtf 3 3, .op2 .fmul 0 0 9, .op2 .fmul 1 1 9, .op2 .fmul 2 2 11, .op2 .fmul 3 3 11,
        .op2 .fadd 0 0 8, .op2 .fadd 1 1 8, .op2 .fadd 2 2 10, .op2 .fadd 3 3 10, .op2 .fadd 0 0 2,
        .op2 .fadd 1 1 3, .op2 .fsub 0 0 12, .op2 .fsub 1 1 12, .op2 .fmul 0 0 13, .op2 .fmul 1 1 13,
        .op2 .fadd 0 0 14, .op2 .fadd 1 1 14, .op1 .fcvtzs 0 0, .op1 .fcvtzs 1 1,
        .st1 4 4 [0, 1] .out (.imm 32), .subs .rows 1] } }

/-- meta/transform_kernels_arm_64.h:6851-7006. -/
def ba9 : RowsProg :=
  { init := [.ldr (.t 0) (.par .inputMin), .dupW 8 (.t 0), .ldr (.t 0) (.par .inputScale), .dupW 9 (.t 0),
    .ldr (.t 0) (.par .biasMin), .dupW 10 (.t 0), .ldr (.t 0) (.par .biasScale), .dupW 11 (.t 0),
    .ldr (.t 0) (.par .outputMin), .dupW 12 (.t 0), .ldr (.t 0) (.par .outputInvScale), .dupW 13 (.t 0),
    .ldr (.t 0) (.par .outputOffset), .dupW 14 (.t 0)]
    row :=
      { init := [.movX (.t 0) .count, .movX (.t 1) .bias, .subs (.t 0) 9]
        skip := true
        body := [.subs (.t 0) 16, .ld1 16 [0] .inp (.imm 16), .ld1 16 [4] (.t 1) (.imm 16), .op1 .uxtl2 1 0,
        .op1 .uxtl 0 0, .op1 .uxtl2 5 4, .op1 .uxtl 4 4, .op1 .sxtl2 3 1, .op1 .sxtl 2 1, .op1 .sxtl2 7 5,
        .op1 .sxtl 6 5, .op1 .sxtl2 1 0, .op1 .sxtl 0 0, .op1 .sxtl2 5 4, .op1 .sxtl 4 4, .op1 .scvtf 0 0,
        .op1 .scvtf 1 1, .op1 .scvtf 2 2, .op1 .scvtf 3 3, .op1 .scvtf 4 4, .op1 .scvtf 5 5, .op1 .scvtf 6 6,
        .op1 .scvtf 7 7, .op2 .fmul 0 0 9, .op2 .fmul 1 1 9, .op2 .fmul 2 2 9, .op2 .fmul 3 3 9,
        .op2 .fmul 4 4 11, .op2 .fmul 5 5 11, .op2 .fmul 6 6 11, .op2 .fmul 7 7 11, .op2 .fadd 0 0 8,
        .op2 .fadd 1 1 8, .op2 .fadd 2 2 8, .op2 .fadd 3 3 8, .op2 .fadd 4 4 10, .op2 .fadd 5 5 10,
        .op2 .fadd 6 6 10, .op2 .fadd 7 7 10, .op2 .fadd 0 0 4, .op2 .fadd 1 1 5, .op2 .fadd 2 2 6,
        .op2 .fadd 3 3 7, .op2 .fsub 0 0 12, .op2 .fsub 1 1 12, .op2 .fsub 2 2 12, .op2 .fsub 3 3 12,
        .op2 .fmul 0 0 13, .op2 .fmul 1 1 13, .op2 .fmul 2 2 13, .op2 .fmul 3 3 13, .op2 .fadd 0 0 14,
        .op2 .fadd 1 1 14, .op2 .fadd 2 2 14, .op2 .fadd 3 3 14, .op1 .fcvtzs 0 0, .op1 .fcvtzs 1 1,
        .op1 .fcvtzs 2 2, .op1 .fcvtzs 3 3, .st1 4 4 [0, 1, 2, 3] .out (.imm 64)]
        cond := .ne
        tail := [.ld1 8 [0] .inp (.imm 8), .ldLane 1 8 [0] .inp (.imm 1), .ld1 8 [3] (.t 1) (.imm 8),
        .ldLane 1 8 [3] (.t 1) (.imm 1), .op1 .uxtl2 1 0, .op1 .uxtl 0 0, .op1 .uxtl2 4 3, .op1 .uxtl 3 3,
        .op1 .sxtl 2 1, .op1 .sxtl 5 4, .op1 .sxtl2 1 0, .op1 .sxtl 0 0, .op1 .sxtl2 4 3, .op1 .sxtl 3 3,
        .op1 .scvtf 0 0, .op1 .scvtf 1 1, .op1 .scvtf 2 2, .op1 .scvtf 3 3, .op1 .scvtf 4 4, .op1 .scvtf 5 5,
        .op2 .fmul 0 0 9, .op2 .fmul 1 1 9, .op2 .fmul 2 2 9, .op2 .fmul 3 3 11, .op2 .fmul 4 4 11,
        .op2 .fmul 5 5 11, .op2 .fadd 0 0 8, .op2 .fadd 1 1 8, .op2 .fadd 2 2 8, .op2 .fadd 3 3 10,
        .op2 .fadd 4 4 10, .op2 .fadd 5 5 10, .op2 .fadd 0 0 3, .op2 .fadd 1 1 4, .op2 .fadd 2 2 5,
        .op2 .fsub 0 0 12, .op2 .fsub 1 1 12, .op2 .fsub 2 2 12, .op2 .fmul 0 0 13, .op2 .fmul 1 1 13,
        .op2 .fmul 2 2 13, .op2 .fadd 0 0 14, .op2 .fadd 1 1 14, .op2 .fadd 2 2 14, .op1 .fcvtzs 0 0,
        .op1 .fcvtzs 1 1, .op1 .fcvtzs 2 2, .st1 4 4 [0, 1] .out (.imm 32), .stLane 4 0 2 .out (.imm 4),
        .subs .rows 1] } }

/-- meta/transform_kernels_arm_64.h:7023-7178. -/
def ba10 : RowsProg :=
  { init := [.ldr (.t 0) (.par .inputMin), .dupW 8 (.t 0), .ldr (.t 0) (.par .inputScale), .dupW 9 (.t 0),
    .ldr (.t 0) (.par .biasMin), .dupW 10 (.t 0), .ldr (.t 0) (.par .biasScale), .dupW 11 (.t 0),
    .ldr (.t 0) (.par .outputMin), .dupW 12 (.t 0), .ldr (.t 0) (.par .outputInvScale), .dupW 13 (.t 0),
    .ldr (.t 0) (.par .outputOffset), .dupW 14 (.t 0)]
    row :=
      { init := [.movX (.t 0) .count, .movX (.t 1) .bias, .subs (.t 0) 10]
        skip := true
        body := [.subs (.t 0) 16, .ld1 16 [0] .inp (.imm 16), .ld1 16 [4] (.t 1) (.imm 16), .op1 .uxtl2 1 0,
        .op1 .uxtl 0 0, .op1 .uxtl2 5 4, .op1 .uxtl 4 4, .op1 .sxtl2 3 1, .op1 .sxtl 2 1, .op1 .sxtl2 7 5,
        .op1 .sxtl 6 5, .op1 .sxtl2 1 0, .op1 .sxtl 0 0, .op1 .sxtl2 5 4, .op1 .sxtl 4 4, .op1 .scvtf 0 0,
        .op1 .scvtf 1 1, .op1 .scvtf 2 2, .op1 .scvtf 3 3, .op1 .scvtf 4 4, .op1 .scvtf 5 5, .op1 .scvtf 6 6,
        .op1 .scvtf 7 7, .op2 .fmul 0 0 9, .op2 .fmul 1 1 9, .op2 .fmul 2 2 9, .op2 .fmul 3 3 9,
        .op2 .fmul 4 4 11, .op2 .fmul 5 5 11, .op2 .fmul 6 6 11, .op2 .fmul 7 7 11, .op2 .fadd 0 0 8,
        .op2 .fadd 1 1 8, .op2 .fadd 2 2 8, .op2 .fadd 3 3 8, .op2 .fadd 4 4 10, .op2 .fadd 5 5 10,
        .op2 .fadd 6 6 10, .op2 .fadd 7 7 10, .op2 .fadd 0 0 4, .op2 .fadd 1 1 5, .op2 .fadd 2 2 6,
        .op2 .fadd 3 3 7, .op2 .fsub 0 0 12, .op2 .fsub 1 1 12, .op2 .fsub 2 2 12, .op2 .fsub 3 3 12,
        .op2 .fmul 0 0 13, .op2 .fmul 1 1 13, .op2 .fmul 2 2 13, .op2 .fmul 3 3 13, .op2 .fadd 0 0 14,
        .op2 .fadd 1 1 14, .op2 .fadd 2 2 14, .op2 .fadd 3 3 14, .op1 .fcvtzs 0 0, .op1 .fcvtzs 1 1,
        .op1 .fcvtzs 2 2, .op1 .fcvtzs 3 3, .st1 4 4 [0, 1, 2, 3] .out (.imm 64)]
        cond := .ne
        tail := [.ld1 8 [0] .inp (.imm 8), .ldLane 2 4 [0] .inp (.imm 2), .ld1 8 [3] (.t 1) (.imm 8),
        .ldLane 2 4 [3] (.t 1) (.imm 2), .op1 .uxtl2 1 0, .op1 .uxtl 0 0, .op1 .uxtl2 4 3, .op1 .uxtl 3 3,
        .op1 .sxtl 2 1, .op1 .sxtl 5 4, .op1 .sxtl2 1 0, .op1 .sxtl 0 0, .op1 .sxtl2 4 3, .op1 .sxtl 3 3,
        .op1 .scvtf 0 0, .op1 .scvtf 1 1, .op1 .scvtf 2 2, .op1 .scvtf 3 3, .op1 .scvtf 4 4, .op1 .scvtf 5 5,
        .op2 .fmul 0 0 9, .op2 .fmul 1 1 9, .op2 .fmul 2 2 9, .op2 .fmul 3 3 11, .op2 .fmul 4 4 11,
        .op2 .fmul 5 5 11, .op2 .fadd 0 0 8, .op2 .fadd 1 1 8, .op2 .fadd 2 2 8, .op2 .fadd 3 3 10,
        .op2 .fadd 4 4 10, .op2 .fadd 5 5 10, .op2 .fadd 0 0 3, .op2 .fadd 1 1 4, .op2 .fadd 2 2 5,
        .op2 .fsub 0 0 12, .op2 .fsub 1 1 12, .op2 .fsub 2 2 12, .op2 .fmul 0 0 13, .op2 .fmul 1 1 13,
        .op2 .fmul 2 2 13, .op2 .fadd 0 0 14, .op2 .fadd 1 1 14, .op2 .fadd 2 2 14, .op1 .fcvtzs 0 0,
        .op1 .fcvtzs 1 1, .op1 .fcvtzs 2 2, .st1 4 4 [0, 1] .out (.imm 32), .st1 4 2 [2] .out (.imm 8),
        .subs .rows 1] } }

/-- meta/transform_kernels_arm_64.h:7195-7353. -/
def ba11 : RowsProg :=
  { init := [.ldr (.t 0) (.par .inputMin), .dupW 8 (.t 0), .ldr (.t 0) (.par .inputScale), .dupW 9 (.t 0),
    .ldr (.t 0) (.par .biasMin), .dupW 10 (.t 0), .ldr (.t 0) (.par .biasScale), .dupW 11 (.t 0),
    .ldr (.t 0) (.par .outputMin), .dupW 12 (.t 0), .ldr (.t 0) (.par .outputInvScale), .dupW 13 (.t 0),
    .ldr (.t 0) (.par .outputOffset), .dupW 14 (.t 0)]
    row :=
      { init := [.movX (.t 0) .count, .movX (.t 1) .bias, .subs (.t 0) 11]
        skip := true
        body := [.subs (.t 0) 16, .ld1 16 [0] .inp (.imm 16), .ld1 16 [4] (.t 1) (.imm 16), .op1 .uxtl2 1 0,
        .op1 .uxtl 0 0, .op1 .uxtl2 5 4, .op1 .uxtl 4 4, .op1 .sxtl2 3 1, .op1 .sxtl 2 1, .op1 .sxtl2 7 5,
        .op1 .sxtl 6 5, .op1 .sxtl2 1 0, .op1 .sxtl 0 0, .op1 .sxtl2 5 4, .op1 .sxtl 4 4, .op1 .scvtf 0 0,
        .op1 .scvtf 1 1, .op1 .scvtf 2 2, .op1 .scvtf 3 3, .op1 .scvtf 4 4, .op1 .scvtf 5 5, .op1 .scvtf 6 6,
        .op1 .scvtf 7 7, .op2 .fmul 0 0 9, .op2 .fmul 1 1 9, .op2 .fmul 2 2 9, .op2 .fmul 3 3 9,
        .op2 .fmul 4 4 11, .op2 .fmul 5 5 11, .op2 .fmul 6 6 11, .op2 .fmul 7 7 11, .op2 .fadd 0 0 8,
        .op2 .fadd 1 1 8, .op2 .fadd 2 2 8, .op2 .fadd 3 3 8, .op2 .fadd 4 4 10, .op2 .fadd 5 5 10,
        .op2 .fadd 6 6 10, .op2 .fadd 7 7 10, .op2 .fadd 0 0 4, .op2 .fadd 1 1 5, .op2 .fadd 2 2 6,
        .op2 .fadd 3 3 7, .op2 .fsub 0 0 12, .op2 .fsub 1 1 12, .op2 .fsub 2 2 12, .op2 .fsub 3 3 12,
        .op2 .fmul 0 0 13, .op2 .fmul 1 1 13, .op2 .fmul 2 2 13, .op2 .fmul 3 3 13, .op2 .fadd 0 0 14,
        .op2 .fadd 1 1 14, .op2 .fadd 2 2 14, .op2 .fadd 3 3 14, .op1 .fcvtzs 0 0, .op1 .fcvtzs 1 1,
        .op1 .fcvtzs 2 2, .op1 .fcvtzs 3 3, .st1 4 4 [0, 1, 2, 3] .out (.imm 64)]
        cond := .ne
        tail := [.ld1 8 [0] .inp (.imm 8), .ldLane 2 4 [0] .inp (.imm 2), .ldLane 1 10 [0] .inp (.imm 1),
        .ld1 8 [3] (.t 1) (.imm 8), .ldLane 2 4 [3] (.t 1) (.imm 2), .ldLane 1 10 [3] (.t 1) (.imm 1),
        .op1 .uxtl2 1 0, .op1 .uxtl 0 0, .op1 .uxtl2 4 3, .op1 .uxtl 3 3, .op1 .sxtl 2 1, .op1 .sxtl 5 4,
        .op1 .sxtl2 1 0, .op1 .sxtl 0 0, .op1 .sxtl2 4 3, .op1 .sxtl 3 3, .op1 .scvtf 0 0, .op1 .scvtf 1 1,
        .op1 .scvtf 2 2, .op1 .scvtf 3 3, .op1 .scvtf 4 4, .op1 .scvtf 5 5, .op2 .fmul 0 0 9, .op2 .fmul 1 1 9,
        .op2 .fmul 2 2 9, .op2 .fmul 3 3 11, .op2 .fmul 4 4 11, .op2 .fmul 5 5 11, .op2 .fadd 0 0 8,
        .op2 .fadd 1 1 8, .op2 .fadd 2 2 8, .op2 .fadd 3 3 10, .op2 .fadd 4 4 10, .op2 .fadd 5 5 10,
        .op2 .fadd 0 0 3, .op2 .fadd 1 1 4, .op2 .fadd 2 2 5, .op2 .fsub 0 0 12, .op2 .fsub 1 1 12,
        .op2 .fsub 2 2 12, .op2 .fmul 0 0 13, .op2 .fmul 1 1 13, .op2 .fmul 2 2 13, .op2 .fadd 0 0 14,
        .op2 .fadd 1 1 14, .op2 .fadd 2 2 14, .op1 .fcvtzs 0 0, .op1 .fcvtzs 1 1, .op1 .fcvtzs 2 2,
        .st1 4 4 [0, 1] .out (.imm 32), .st1 4 2 [2] .out (.imm 8), .stLane 4 2 2 .out (.imm 4), .subs .rows 1] } }

/-- meta/transform_kernels_arm_64.h:7370-7524. -/
def ba12 : RowsProg :=
  { init := [.ldr (.t 0) (.par .inputMin), .dupW 8 (.t 0), .ldr (.t 0) (.par .inputScale), .dupW 9 (.t 0),
    .ldr (.t 0) (.par .biasMin), .dupW 10 (.t 0), .ldr (.t 0) (.par .biasScale), .dupW 11 (.t 0),
    .ldr (.t 0) (.par .outputMin), .dupW 12 (.t 0), .ldr (.t 0) (.par .outputInvScale), .dupW 13 (.t 0),
    .ldr (.t 0) (.par .outputOffset), .dupW 14 (.t 0)]
    row :=
      { init := [.movX (.t 0) .count, .movX (.t 1) .bias, .subs (.t 0) 12]
        skip := true
        body := [.subs (.t 0) 16, .ld1 16 [0] .inp (.imm 16), .ld1 16 [4] (.t 1) (.imm 16), .op1 .uxtl2 1 0,
        .op1 .uxtl 0 0, .op1 .uxtl2 5 4, .op1 .uxtl 4 4, .op1 .sxtl2 3 1, .op1 .sxtl 2 1, .op1 .sxtl2 7 5,
        .op1 .sxtl 6 5, .op1 .sxtl2 1 0, .op1 .sxtl 0 0, .op1 .sxtl2 5 4, .op1 .sxtl 4 4, .op1 .scvtf 0 0,
        .op1 .scvtf 1 1, .op1 .scvtf 2 2, .op1 .scvtf 3 3, .op1 .scvtf 4 4, .op1 .scvtf 5 5, .op1 .scvtf 6 6,
        .op1 .scvtf 7 7, .op2 .fmul 0 0 9, .op2 .fmul 1 1 9, .op2 .fmul 2 2 9, .op2 .fmul 3 3 9,
        .op2 .fmul 4 4 11, .op2 .fmul 5 5 11, .op2 .fmul 6 6 11, .op2 .fmul 7 7 11, .op2 .fadd 0 0 8,
        .op2 .fadd 1 1 8, .op2 .fadd 2 2 8, .op2 .fadd 3 3 8, .op2 .fadd 4 4 10, .op2 .fadd 5 5 10,
        .op2 .fadd 6 6 10, .op2 .fadd 7 7 10, .op2 .fadd 0 0 4, .op2 .fadd 1 1 5, .op2 .fadd 2 2 6,
        .op2 .fadd 3 3 7, .op2 .fsub 0 0 12, .op2 .fsub 1 1 12, .op2 .fsub 2 2 12, .op2 .fsub 3 3 12,
        .op2 .fmul 0 0 13, .op2 .fmul 1 1 13, .op2 .fmul 2 2 13, .op2 .fmul 3 3 13, .op2 .fadd 0 0 14,
        .op2 .fadd 1 1 14, .op2 .fadd 2 2 14, .op2 .fadd 3 3 14, .op1 .fcvtzs 0 0, .op1 .fcvtzs 1 1,
        .op1 .fcvtzs 2 2, .op1 .fcvtzs 3 3, .st1 4 4 [0, 1, 2, 3] .out (.imm 64)]
        cond := .ne
        tail := [.ld1 8 [0] .inp (.imm 8), .ldLane 4 2 [0] .inp (.imm 4), .ld1 8 [3] (.t 1) (.imm 8),
        .ldLane 4 2 [3] (.t 1) (.imm 4), .op1 .uxtl2 1 0, .op1 .uxtl 0 0, .op1 .uxtl2 4 3, .op1 .uxtl 3 3,
        .op1 .sxtl 2 1, .op1 .sxtl 5 4, .op1 .sxtl2 1 0, .op1 .sxtl 0 0, .op1 .sxtl2 4 3, .op1 .sxtl 3 3,
        .op1 .scvtf 0 0, .op1 .scvtf 1 1, .op1 .scvtf 2 2, .op1 .scvtf 3 3, .op1 .scvtf 4 4, .op1 .scvtf 5 5,
        .op2 .fmul 0 0 9, .op2 .fmul 1 1 9, .op2 .fmul 2 2 9, .op2 .fmul 3 3 11, .op2 .fmul 4 4 11,
        .op2 .fmul 5 5 11, .op2 .fadd 0 0 8, .op2 .fadd 1 1 8, .op2 .fadd 2 2 8, .op2 .fadd 3 3 10,
        .op2 .fadd 4 4 10, .op2 .fadd 5 5 10, .op2 .fadd 0 0 3, .op2 .fadd 1 1 4, .op2 .fadd 2 2 5,
        .op2 .fsub 0 0 12, .op2 .fsub 1 1 12, .op2 .fsub 2 2 12, .op2 .fmul 0 0 13, .op2 .fmul 1 1 13,
        .op2 .fmul 2 2 13, .op2 .fadd 0 0 14, .op2 .fadd 1 1 14, .op2 .fadd 2 2 14, .op1 .fcvtzs 0 0,
        .op1 .fcvtzs 1 1, .op1 .fcvtzs 2 2, .st1 4 4 [0, 1, 2] .out (.imm 48), .subs .rows 1] } }

/-- meta/transform_kernels_arm_64.h:7541-7711. -/
def ba13 : RowsProg :=
  { init := [.ldr (.t 0) (.par .inputMin), .dupW 8 (.t 0), .ldr (.t 0) (.par .inputScale), .dupW 9 (.t 0),
    .ldr (.t 0) (.par .biasMin), .dupW 10 (.t 0), .ldr (.t 0) (.par .biasScale), .dupW 11 (.t 0),
    .ldr (.t 0) (.par .outputMin), .dupW 12 (.t 0), .ldr (.t 0) (.par .outputInvScale), .dupW 13 (.t 0),
    .ldr (.t 0) (.par .outputOffset), .dupW 14 (.t 0)]
    row :=
      { init := [.movX (.t 0) .count, .movX (.t 1) .bias, .subs (.t 0) 13]
        skip := true
        body := [.subs (.t 0) 16, .ld1 16 [0] .inp (.imm 16), .ld1 16 [4] (.t 1) (.imm 16), .op1 .uxtl2 1 0,
        .op1 .uxtl 0 0, .op1 .uxtl2 5 4, .op1 .uxtl 4 4, .op1 .sxtl2 3 1, .op1 .sxtl 2 1, .op1 .sxtl2 7 5,
        .op1 .sxtl 6 5, .op1 .sxtl2 1 0, .op1 .sxtl 0 0, .op1 .sxtl2 5 4, .op1 .sxtl 4 4, .op1 .scvtf 0 0,
        .op1 .scvtf 1 1, .op1 .scvtf 2 2, .op1 .scvtf 3 3, .op1 .scvtf 4 4, .op1 .scvtf 5 5, .op1 .scvtf 6 6,
        .op1 .scvtf 7 7, .op2 .fmul 0 0 9, .op2 .fmul 1 1 9, .op2 .fmul 2 2 9, .op2 .fmul 3 3 9,
        .op2 .fmul 4 4 11, .op2 .fmul 5 5 11, .op2 .fmul 6 6 11, .op2 .fmul 7 7 11, .op2 .fadd 0 0 8,
        .op2 .fadd 1 1 8, .op2 .fadd 2 2 8, .op2 .fadd 3 3 8, .op2 .fadd 4 4 10, .op2 .fadd 5 5 10,
        .op2 .fadd 6 6 10, .op2 .fadd 7 7 10, .op2 .fadd 0 0 4, .op2 .fadd 1 1 5, .op2 .fadd 2 2 6,
        .op2 .fadd 3 3 7, .op2 .fsub 0 0 12, .op2 .fsub 1 1 12, .op2 .fsub 2 2 12, .op2 .fsub 3 3 12,
        .op2 .fmul 0 0 13, .op2 .fmul 1 1 13, .op2 .fmul 2 2 13, .op2 .fmul 3 3 13, .op2 .fadd 0 0 14,
        .op2 .fadd 1 1 14, .op2 .fadd 2 2 14, .op2 .fadd 3 3 14, .op1 .fcvtzs 0 0, .op1 .fcvtzs 1 1,
        .op1 .fcvtzs 2 2, .op1 .fcvtzs 3 3, .st1 4 4 [0, 1, 2, 3] .out (.imm 64)]
        cond := .ne
        tail := [.ld1 8 [0] .inp (.imm 8), .ldLane 4 2 [0] .inp (.imm 4), .ldLane 1 12 [0] .inp (.imm 1),
        .ld1 8 [4] (.t 1) (.imm 8), .ldLane 4 2 [4] (.t 1) (.imm 4), .ldLane 1 12 [4] (.t 1) (.imm 1),
        .op1 .uxtl2 1 0, .op1 .uxtl 0 0, .op1 .uxtl2 5 4, .op1 .uxtl 4 4, .op1 .sxtl2 3 1, .op1 .sxtl 2 1,
        .op1 .sxtl2 7 5, .op1 .sxtl 6 5, .op1 .sxtl2 1 0, .op1 .sxtl 0 0, .op1 .sxtl2 5 4, .op1 .sxtl 4 4,
        .op1 .scvtf 0 0, .op1 .scvtf 1 1, .op1 .scvtf 2 2, .op1 .scvtf 3 3, .op1 .scvtf 4 4, .op1 .scvtf 5 5,
        .op1 .scvtf 6 6, .op1 .scvtf 7 7, .op2 .fmul 0 0 9, .op2 .fmul 1 1 9, .op2 .fmul 2 2 9,
        .op2 .fmul 3 3 9, .op2 .fmul 4 4 11, .op2 .fmul 5 5 11, .op2 .fmul 6 6 11, .op2 .fmul 7 7 11,
        .op2 .fadd 0 0 8, .op2 .fadd 1 1 8, .op2 .fadd 2 2 8, .op2 .fadd 3 3 8, .op2 .fadd 4 4 10,
        .op2 .fadd 5 5 10, .op2 .fadd 6 6 10, .op2 .fadd 7 7 10, .op2 .fadd 0 0 4, .op2 .fadd 1 1 5,
        .op2 .fadd 2 2 6, .op2 .fadd 3 3 7, .op2 .fsub 0 0 12, .op2 .fsub 1 1 12, .op2 .fsub 2 2 12,
        .op2 .fsub 3 3 12, .op2 .fmul 0 0 13, .op2 .fmul 1 1 13, .op2 .fmul 2 2 13, .op2 .fmul 3 3 13,
        .op2 .fadd 0 0 14, .op2 .fadd 1 1 14, .op2 .fadd 2 2 14, .op2 .fadd 3 3 14, .op1 .fcvtzs 0 0,
        .op1 .fcvtzs 1 1, .op1 .fcvtzs 2 2, .op1 .fcvtzs 3 3, .st1 4 4 [0, 1, 2] .out (.imm 48),
        .stLane 4 0 3 .out (.imm 4), .subs .rows 1] } }

/-- meta/transform_kernels_arm_64.h:7728-7898. -/
def ba14 : RowsProg :=
  { init := [.ldr (.t 0) (.par .inputMin), .dupW 8 (.t 0), .ldr (.t 0) (.par .inputScale), .dupW 9 (.t 0),
    .ldr (.t 0) (.par .biasMin), .dupW 10 (.t 0), .ldr (.t 0) (.par .biasScale), .dupW 11 (.t 0),
    .ldr (.t 0) (.par .outputMin), .dupW 12 (.t 0), .ldr (.t 0) (.par .outputInvScale), .dupW 13 (.t 0),
    .ldr (.t 0) (.par .outputOffset), .dupW 14 (.t 0)]
    row :=
      { init := [.movX (.t 0) .count, .movX (.t 1) .bias, .subs (.t 0) 14]
        skip := true
        body := [.subs (.t 0) 16, .ld1 16 [0] .inp (.imm 16), .ld1 16 [4] (.t 1) (.imm 16), .op1 .uxtl2 1 0,
        .op1 .uxtl 0 0, .op1 .uxtl2 5 4, .op1 .uxtl 4 4, .op1 .sxtl2 3 1, .op1 .sxtl 2 1, .op1 .sxtl2 7 5,
        .op1 .sxtl 6 5, .op1 .sxtl2 1 0, .op1 .sxtl 0 0, .op1 .sxtl2 5 4, .op1 .sxtl 4 4, .op1 .scvtf 0 0,
        .op1 .scvtf 1 1, .op1 .scvtf 2 2, .op1 .scvtf 3 3, .op1 .scvtf 4 4, .op1 .scvtf 5 5, .op1 .scvtf 6 6,
        .op1 .scvtf 7 7, .op2 .fmul 0 0 9, .op2 .fmul 1 1 9, .op2 .fmul 2 2 9, .op2 .fmul 3 3 9,
        .op2 .fmul 4 4 11, .op2 .fmul 5 5 11, .op2 .fmul 6 6 11, .op2 .fmul 7 7 11, .op2 .fadd 0 0 8,
        .op2 .fadd 1 1 8, .op2 .fadd 2 2 8, .op2 .fadd 3 3 8, .op2 .fadd 4 4 10, .op2 .fadd 5 5 10,
        .op2 .fadd 6 6 10, .op2 .fadd 7 7 10, .op2 .fadd 0 0 4, .op2 .fadd 1 1 5, .op2 .fadd 2 2 6,
        .op2 .fadd 3 3 7, .op2 .fsub 0 0 12, .op2 .fsub 1 1 12, .op2 .fsub 2 2 12, .op2 .fsub 3 3 12,
        .op2 .fmul 0 0 13, .op2 .fmul 1 1 13, .op2 .fmul 2 2 13, .op2 .fmul 3 3 13, .op2 .fadd 0 0 14,
        .op2 .fadd 1 1 14, .op2 .fadd 2 2 14, .op2 .fadd 3 3 14, .op1 .fcvtzs 0 0, .op1 .fcvtzs 1 1,
        .op1 .fcvtzs 2 2, .op1 .fcvtzs 3 3, .st1 4 4 [0, 1, 2, 3] .out (.imm 64)]
        cond := .ne
        tail := [.ld1 8 [0] .inp (.imm 8), .ldLane 4 2 [0] .inp (.imm 4), .ldLane 2 6 [0] .inp (.imm 2),
        .ld1 8 [4] (.t 1) (.imm 8), .ldLane 4 2 [4] (.t 1) (.imm 4), .ldLane 2 6 [4] (.t 1) (.imm 2),
        .op1 .uxtl2 1 0, .op1 .uxtl 0 0, .op1 .uxtl2 5 4, .op1 .uxtl 4 4, .op1 .sxtl2 3 1, .op1 .sxtl 2 1,
        .op1 .sxtl2 7 5, .op1 .sxtl 6 5, .op1 .sxtl2 1 0, .op1 .sxtl 0 0, .op1 .sxtl2 5 4, .op1 .sxtl 4 4,
        .op1 .scvtf 0 0, .op1 .scvtf 1 1, .op1 .scvtf 2 2, .op1 .scvtf 3 3, .op1 .scvtf 4 4, .op1 .scvtf 5 5,
        .op1 .scvtf 6 6, .op1 .scvtf 7 7, .op2 .fmul 0 0 9, .op2 .fmul 1 1 9, .op2 .fmul 2 2 9,
        .op2 .fmul 3 3 9, .op2 .fmul 4 4 11, .op2 .fmul 5 5 11, .op2 .fmul 6 6 11, .op2 .fmul 7 7 11,
        .op2 .fadd 0 0 8, .op2 .fadd 1 1 8, .op2 .fadd 2 2 8, .op2 .fadd 3 3 8, .op2 .fadd 4 4 10,
        .op2 .fadd 5 5 10, .op2 .fadd 6 6 10, .op2 .fadd 7 7 10, .op2 .fadd 0 0 4, .op2 .fadd 1 1 5,
        .op2 .fadd 2 2 6, .op2 .fadd 3 3 7, .op2 .fsub 0 0 12, .op2 .fsub 1 1 12, .op2 .fsub 2 2 12,
        .op2 .fsub 3 3 12, .op2 .fmul 0 0 13, .op2 .fmul 1 1 13, .op2 .fmul 2 2 13, .op2 .fmul 3 3 13,
        .op2 .fadd 0 0 14, .op2 .fadd 1 1 14, .op2 .fadd 2 2 14, .op2 .fadd 3 3 14, .op1 .fcvtzs 0 0,
        .op1 .fcvtzs 1 1, .op1 .fcvtzs 2 2, .op1 .fcvtzs 3 3, .st1 4 4 [0, 1, 2] .out (.imm 48),
        .st1 4 2 [3] .out (.imm 8), .subs .rows 1] } }

/-- meta/transform_kernels_arm_64.h:7915-8088. -/
def ba15 : RowsProg :=
  { init := [.ldr (.t 0) (.par .inputMin), .dupW 8 (.t 0), .ldr (.t 0) (.par .inputScale), .dupW 9 (.t 0),
    .ldr (.t 0) (.par .biasMin), .dupW 10 (.t 0), .ldr (.t 0) (.par .biasScale), .dupW 11 (.t 0),
    .ldr (.t 0) (.par .outputMin), .dupW 12 (.t 0), .ldr (.t 0) (.par .outputInvScale), .dupW 13 (.t 0),
    .ldr (.t 0) (.par .outputOffset), .dupW 14 (.t 0)]
    row :=
      { init := [.movX (.t 0) .count, .movX (.t 1) .bias, .subs (.t 0) 15]
        skip := true
        body := [.subs (.t 0) 16, .ld1 16 [0] .inp (.imm 16), .ld1 16 [4] (.t 1) (.imm 16), .op1 .uxtl2 1 0,
        .op1 .uxtl 0 0, .op1 .uxtl2 5 4, .op1 .uxtl 4 4, .op1 .sxtl2 3 1, .op1 .sxtl 2 1, .op1 .sxtl2 7 5,
        .op1 .sxtl 6 5, .op1 .sxtl2 1 0, .op1 .sxtl 0 0, .op1 .sxtl2 5 4, .op1 .sxtl 4 4, .op1 .scvtf 0 0,
        .op1 .scvtf 1 1, .op1 .scvtf 2 2, .op1 .scvtf 3 3, .op1 .scvtf 4 4, .op1 .scvtf 5 5, .op1 .scvtf 6 6,
        .op1 .scvtf 7 7, .op2 .fmul 0 0 9, .op2 .fmul 1 1 9, .op2 .fmul 2 2 9, .op2 .fmul 3 3 9,
        .op2 .fmul 4 4 11, .op2 .fmul 5 5 11, .op2 .fmul 6 6 11, .op2 .fmul 7 7 11, .op2 .fadd 0 0 8,
        .op2 .fadd 1 1 8, .op2 .fadd 2 2 8, .op2 .fadd 3 3 8, .op2 .fadd 4 4 10, .op2 .fadd 5 5 10,
        .op2 .fadd 6 6 10, .op2 .fadd 7 7 10, .op2 .fadd 0 0 4, .op2 .fadd 1 1 5, .op2 .fadd 2 2 6,
        .op2 .fadd 3 3 7, .op2 .fsub 0 0 12, .op2 .fsub 1 1 12, .op2 .fsub 2 2 12, .op2 .fsub 3 3 12,
        .op2 .fmul 0 0 13, .op2 .fmul 1 1 13, .op2 .fmul 2 2 13, .op2 .fmul 3 3 13, .op2 .fadd 0 0 14,
        .op2 .fadd 1 1 14, .op2 .fadd 2 2 14, .op2 .fadd 3 3 14, .op1 .fcvtzs 0 0, .op1 .fcvtzs 1 1,
        .op1 .fcvtzs 2 2, .op1 .fcvtzs 3 3, .st1 4 4 [0, 1, 2, 3] .out (.imm 64)]
        cond := .ne
        tail := [.ld1 8 [0] .inp (.imm 8), .ldLane 4 2 [0] .inp (.imm 4), .ldLane 2 6 [0] .inp (.imm 2),
        .ldLane 1 14 [0] .inp (.imm 1), .ld1 8 [4] (.t 1) (.imm 8), .ldLane 4 2 [4] (.t 1) (.imm 4),
        .ldLane 2 6 [4] (.t 1) (.imm 2), .ldLane 1 14 [4] (.t 1) (.imm 1), .op1 .uxtl2 1 0, .op1 .uxtl 0 0,
        .op1 .uxtl2 5 4, .op1 .uxtl 4 4, .op1 .sxtl2 3 1, .op1 .sxtl 2 1, .op1 .sxtl2 7 5, .op1 .sxtl 6 5,
        .op1 .sxtl2 1 0, .op1 .sxtl 0 0, .op1 .sxtl2 5 4, .op1 .sxtl 4 4, .op1 .scvtf 0 0, .op1 .scvtf 1 1,
        .op1 .scvtf 2 2, .op1 .scvtf 3 3, .op1 .scvtf 4 4, .op1 .scvtf 5 5, .op1 .scvtf 6 6, .op1 .scvtf 7 7,
        .op2 .fmul 0 0 9, .op2 .fmul 1 1 9, .op2 .fmul 2 2 9, .op2 .fmul 3 3 9, .op2 .fmul 4 4 11,
        .op2 .fmul 5 5 11, .op2 .fmul 6 6 11, .op2 .fmul 7 7 11, .op2 .fadd 0 0 8, .op2 .fadd 1 1 8,
        .op2 .fadd 2 2 8, .op2 .fadd 3 3 8, .op2 .fadd 4 4 10, .op2 .fadd 5 5 10, .op2 .fadd 6 6 10,
        .op2 .fadd 7 7 10, .op2 .fadd 0 0 4, .op2 .fadd 1 1 5, .op2 .fadd 2 2 6, .op2 .fadd 3 3 7,
        .op2 .fsub 0 0 12, .op2 .fsub 1 1 12, .op2 .fsub 2 2 12, .op2 .fsub 3 3 12, .op2 .fmul 0 0 13,
        .op2 .fmul 1 1 13, .op2 .fmul 2 2 13, .op2 .fmul 3 3 13, .op2 .fadd 0 0 14, .op2 .fadd 1 1 14,
        .op2 .fadd 2 2 14, .op2 .fadd 3 3 14, .op1 .fcvtzs 0 0, .op1 .fcvtzs 1 1, .op1 .fcvtzs 2 2,
        .op1 .fcvtzs 3 3, .st1 4 4 [0, 1, 2] .out (.imm 48), .st1 4 2 [3] .out (.imm 8),
        .stLane 4 2 3 .out (.imm 4), .subs .rows 1] } }

/-- The code for a number of leftovers: the specialisations of `Transform1DKernel` for `BiasAdd<uint8_t>`. -/
def baProg : Nat → Option RowsProg
  | 0 => some ba0
  | 1 => some ba1
  | 2 => some ba2
  | 3 => some ba3
  | 4 => some ba4
  | 5 => some ba5
  | 6 => some ba6
  | 7 => some ba7
  | 8 => some ba8
  | 9 => some ba9
  | 10 => some ba10
  | 11 => some ba11
  | 12 => some ba12
  | 13 => some ba13
  | 14 => some ba14
  | 15 => some ba15
  | _ => none

end Gemmlowp.MetaAsm
