import Verif.MetaAsm32
import Verif.MetaBiasAdd
/-!
# The transformations of meta/transform_kernels_arm_32.h: adding a bias

`ba32_L` is the code of `Transform1DKernel<uint8_t, int32_t, BiasAdd<uint8_t>, 16, L>::Transform`, line by line.
-/
namespace Gemmlowp.MetaAsm

/-- The shape of this code, as `RowsProg`. -/
structure RowsProg32 where
  init : List Ins32
  row : Prog32
  deriving DecidableEq, Repr

def RowsProg32.code (p : RowsProg32) : RowsProg where
  init := p.init.flatMap Ins32.code
  row := p.row.code

/-- meta/transform_kernels_arm_32.h:5505-5606. -/
def ba32_0 : RowsProg32 :=
  { init := [.ldr (.t 0) (.par .inputMin), .dupW 8 (.t 0), .ldr (.t 0) (.par .inputScale), .dupW 9 (.t 0),
    .ldr (.t 0) (.par .biasMin), .dupW 10 (.t 0), .ldr (.t 0) (.par .biasScale), .dupW 11 (.t 0),
    .ldr (.t 0) (.par .outputMin), .dupW 12 (.t 0), .ldr (.t 0) (.par .outputInvScale), .dupW 13 (.t 0),
    .ldr (.t 0) (.par .outputOffset), .dupW 14 (.t 0)]
    row :=
      { init := [.movX (.t 0) .count, .movX (.t 1) .bias]
        skip := false
        body := [.subs (.t 0) 16, .vld1 [0, 1] .inp 0 (.imm 16), .vld1 [8, 9] (.t 1) 0 (.imm 16), .qd .uxtl 1 1,
        .qd .uxtl 0 0, .qd .uxtl 5 9, .qd .uxtl 4 8, .qd .sxtl 3 3, .qd .sxtl 2 2, .qd .sxtl 7 11,
        .qd .sxtl 6 10, .qd .sxtl 1 1, .qd .sxtl 0 0, .qd .sxtl 5 9, .qd .sxtl 4 8, .qq .scvtf 0 0,
        .qq .scvtf 1 1, .qq .scvtf 2 2, .qq .scvtf 3 3, .qq .scvtf 4 4, .qq .scvtf 5 5, .qq .scvtf 6 6,
        .qq .scvtf 7 7, .qqq .fmul 0 0 9, .qqq .fmul 1 1 9, .qqq .fmul 2 2 9, .qqq .fmul 3 3 9,
        .qqq .fmul 4 4 11, .qqq .fmul 5 5 11, .qqq .fmul 6 6 11, .qqq .fmul 7 7 11, .qqq .fadd 0 0 8,
        .qqq .fadd 1 1 8, .qqq .fadd 2 2 8, .qqq .fadd 3 3 8, .qqq .fadd 4 4 10, .qqq .fadd 5 5 10,
        .qqq .fadd 6 6 10, .qqq .fadd 7 7 10, .qqq .fadd 0 0 4, .qqq .fadd 1 1 5, .qqq .fadd 2 2 6,
        .qqq .fadd 3 3 7, .qqq .fsub 0 0 12, .qqq .fsub 1 1 12, .qqq .fsub 2 2 12, .qqq .fsub 3 3 12,
        .qqq .fmul 0 0 13, .qqq .fmul 1 1 13, .qqq .fmul 2 2 13, .qqq .fmul 3 3 13, .qqq .fadd 0 0 14,
        .qqq .fadd 1 1 14, .qqq .fadd 2 2 14, .qqq .fadd 3 3 14, .qq .fcvtzs 0 0, .qq .fcvtzs 1 1,
        .qq .fcvtzs 2 2, .qq .fcvtzs 3 3, .vst1 4 [0, 1, 2, 3] .out 0 (.imm 32),
        .vst1 4 [4, 5, 6, 7] .out 0 (.imm 32)]
        cond := .ne
        tail := [.subs .rows 1] } }

/-- meta/transform_kernels_arm_32.h:5623-5750. -/
def ba32_1 : RowsProg32 :=
  { init := [.ldr (.t 0) (.par .inputMin), .dupW 8 (.t 0), .ldr (.t 0) (.par .inputScale), .dupW 9 (.t 0),
    .ldr (.t 0) (.par .biasMin), .dupW 10 (.t 0), .ldr (.t 0) (.par .biasScale), .dupW 11 (.t 0),
    .ldr (.t 0) (.par .outputMin), .dupW 12 (.t 0), .ldr (.t 0) (.par .outputInvScale), .dupW 13 (.t 0),
    .ldr (.t 0) (.par .outputOffset), .dupW 14 (.t 0)]
    row :=
      { init := [.movX (.t 0) .count, .movX (.t 1) .bias, .subs (.t 0) 1]
        skip := true
        body := [.subs (.t 0) 16, .vld1 [0, 1] .inp 0 (.imm 16), .vld1 [8, 9] (.t 1) 0 (.imm 16), .qd .uxtl 1 1,
        .qd .uxtl 0 0, .qd .uxtl 5 9, .qd .uxtl 4 8, .qd .sxtl 3 3, .qd .sxtl 2 2, .qd .sxtl 7 11,
        .qd .sxtl 6 10, .qd .sxtl 1 1, .qd .sxtl 0 0, .qd .sxtl 5 9, .qd .sxtl 4 8, .qq .scvtf 0 0,
        .qq .scvtf 1 1, .qq .scvtf 2 2, .qq .scvtf 3 3, .qq .scvtf 4 4, .qq .scvtf 5 5, .qq .scvtf 6 6,
        .qq .scvtf 7 7, .qqq .fmul 0 0 9, .qqq .fmul 1 1 9, .qqq .fmul 2 2 9, .qqq .fmul 3 3 9,
        .qqq .fmul 4 4 11, .qqq .fmul 5 5 11, .qqq .fmul 6 6 11, .qqq .fmul 7 7 11, .qqq .fadd 0 0 8,
        .qqq .fadd 1 1 8, .qqq .fadd 2 2 8, .qqq .fadd 3 3 8, .qqq .fadd 4 4 10, .qqq .fadd 5 5 10,
        .qqq .fadd 6 6 10, .qqq .fadd 7 7 10, .qqq .fadd 0 0 4, .qqq .fadd 1 1 5, .qqq .fadd 2 2 6,
        .qqq .fadd 3 3 7, .qqq .fsub 0 0 12, .qqq .fsub 1 1 12, .qqq .fsub 2 2 12, .qqq .fsub 3 3 12,
        .qqq .fmul 0 0 13, .qqq .fmul 1 1 13, .qqq .fmul 2 2 13, .qqq .fmul 3 3 13, .qqq .fadd 0 0 14,
        .qqq .fadd 1 1 14, .qqq .fadd 2 2 14, .qqq .fadd 3 3 14, .qq .fcvtzs 0 0, .qq .fcvtzs 1 1,
        .qq .fcvtzs 2 2, .qq .fcvtzs 3 3, .vst1 4 [0, 1, 2, 3] .out 0 (.imm 32),
        .vst1 4 [4, 5, 6, 7] .out 0 (.imm 32)]
        cond := .ne
        tail := [.vldLane 1 0 [0] .inp (.imm 1), .vldLane 1 0 [2] (.t 1) (.imm 1), .qd .uxtl 0 0, .qd .uxtl 1 2,
        .qd .sxtl 0 0, .qd .sxtl 1 2, .qq .scvtf 0 0, .qq .scvtf 1 1, .qqq .fmul 0 0 9, .qqq .fmul 1 1 11,
        .qqq .fadd 0 0 8, .qqq .fadd 1 1 10, .qqq .fadd 0 0 1, .qqq .fsub 0 0 12, .qqq .fmul 0 0 13,
        .qqq .fadd 0 0 14, .qq .fcvtzs 0 0, .vstLane 4 0 0 .out (.imm 4), .subs .rows 1] } }

/-- meta/transform_kernels_arm_32.h:5767-5894. -/
def ba32_2 : RowsProg32 :=
  { init := [.ldr (.t 0) (.par .inputMin), .dupW 8 (.t 0), .ldr (.t 0) (.par .inputScale), .dupW 9 (.t 0),
    .ldr (.t 0) (.par .biasMin), .dupW 10 (.t 0), .ldr (.t 0) (.par .biasScale), .dupW 11 (.t 0),
    .ldr (.t 0) (.par .outputMin), .dupW 12 (.t 0), .ldr (.t 0) (.par .outputInvScale), .dupW 13 (.t 0),
    .ldr (.t 0) (.par .outputOffset), .dupW 14 (.t 0)]
    row :=
      { init := [.movX (.t 0) .count, .movX (.t 1) .bias, .subs (.t 0) 2]
        skip := true
        body := [.subs (.t 0) 16, .vld1 [0, 1] .inp 0 (.imm 16), .vld1 [8, 9] (.t 1) 0 (.imm 16), .qd .uxtl 1 1,
        .qd .uxtl 0 0, .qd .uxtl 5 9, .qd .uxtl 4 8, .qd .sxtl 3 3, .qd .sxtl 2 2, .qd .sxtl 7 11,
        .qd .sxtl 6 10, .qd .sxtl 1 1, .qd .sxtl 0 0, .qd .sxtl 5 9, .qd .sxtl 4 8, .qq .scvtf 0 0,
        .qq .scvtf 1 1, .qq .scvtf 2 2, .qq .scvtf 3 3, .qq .scvtf 4 4, .qq .scvtf 5 5, .qq .scvtf 6 6,
        .qq .scvtf 7 7, .qqq .fmul 0 0 9, .qqq .fmul 1 1 9, .qqq .fmul 2 2 9, .qqq .fmul 3 3 9,
        .qqq .fmul 4 4 11, .qqq .fmul 5 5 11, .qqq .fmul 6 6 11, .qqq .fmul 7 7 11, .qqq .fadd 0 0 8,
        .qqq .fadd 1 1 8, .qqq .fadd 2 2 8, .qqq .fadd 3 3 8, .qqq .fadd 4 4 10, .qqq .fadd 5 5 10,
        .qqq .fadd 6 6 10, .qqq .fadd 7 7 10, .qqq .fadd 0 0 4, .qqq .fadd 1 1 5, .qqq .fadd 2 2 6,
        .qqq .fadd 3 3 7, .qqq .fsub 0 0 12, .qqq .fsub 1 1 12, .qqq .fsub 2 2 12, .qqq .fsub 3 3 12,
        .qqq .fmul 0 0 13, .qqq .fmul 1 1 13, .qqq .fmul 2 2 13, .qqq .fmul 3 3 13, .qqq .fadd 0 0 14,
        .qqq .fadd 1 1 14, .qqq .fadd 2 2 14, .qqq .fadd 3 3 14, .qq .fcvtzs 0 0, .qq .fcvtzs 1 1,
        .qq .fcvtzs 2 2, .qq .fcvtzs 3 3, .vst1 4 [0, 1, 2, 3] .out 0 (.imm 32),
        .vst1 4 [4, 5, 6, 7] .out 0 (.imm 32)]
        cond := .ne
        tail := [.vldLane 2 0 [0] .inp (.imm 2), .vldLane 2 0 [2] (.t 1) (.imm 2), .qd .uxtl 0 0, .qd .uxtl 1 2,
        .qd .sxtl 0 0, .qd .sxtl 1 2, .qq .scvtf 0 0, .qq .scvtf 1 1, .qqq .fmul 0 0 9, .qqq .fmul 1 1 11,
        .qqq .fadd 0 0 8, .qqq .fadd 1 1 10, .qqq .fadd 0 0 1, .qqq .fsub 0 0 12, .qqq .fmul 0 0 13,
        .qqq .fadd 0 0 14, .qq .fcvtzs 0 0, .vst1 4 [0] .out 0 (.imm 8), .subs .rows 1] } }

/-- meta/transform_kernels_arm_32.h:5911-6041. -/
def ba32_3 : RowsProg32 :=
  { init := [.ldr (.t 0) (.par .inputMin), .dupW 8 (.t 0), .ldr (.t 0) (.par .inputScale), .dupW 9 (.t 0),
    .ldr (.t 0) (.par .biasMin), .dupW 10 (.t 0), .ldr (.t 0) (.par .biasScale), .dupW 11 (.t 0),
    .ldr (.t 0) (.par .outputMin), .dupW 12 (.t 0), .ldr (.t 0) (.par .outputInvScale), .dupW 13 (.t 0),
    .ldr (.t 0) (.par .outputOffset), .dupW 14 (.t 0)]
    row :=
      { init := [.movX (.t 0) .count, .movX (.t 1) .bias, .subs (.t 0) 3]
        skip := true
        body := [.subs (.t 0) 16, .vld1 [0, 1] .inp 0 (.imm 16), .vld1 [8, 9] (.t 1) 0 (.imm 16), .qd .uxtl 1 1,
        .qd .uxtl 0 0, .qd .uxtl 5 9, .qd .uxtl 4 8, .qd .sxtl 3 3, .qd .sxtl 2 2, .qd .sxtl 7 11,
        .qd .sxtl 6 10, .qd .sxtl 1 1, .qd .sxtl 0 0, .qd .sxtl 5 9, .qd .sxtl 4 8, .qq .scvtf 0 0,
        .qq .scvtf 1 1, .qq .scvtf 2 2, .qq .scvtf 3 3, .qq .scvtf 4 4, .qq .scvtf 5 5, .qq .scvtf 6 6,
        .qq .scvtf 7 7, .qqq .fmul 0 0 9, .qqq .fmul 1 1 9, .qqq .fmul 2 2 9, .qqq .fmul 3 3 9,
        .qqq .fmul 4 4 11, .qqq .fmul 5 5 11, .qqq .fmul 6 6 11, .qqq .fmul 7 7 11, .qqq .fadd 0 0 8,
        .qqq .fadd 1 1 8, .qqq .fadd 2 2 8, .qqq .fadd 3 3 8, .qqq .fadd 4 4 10, .qqq .fadd 5 5 10,
        .qqq .fadd 6 6 10, .qqq .fadd 7 7 10, .qqq .fadd 0 0 4, .qqq .fadd 1 1 5, .qqq .fadd 2 2 6,
        .qqq .fadd 3 3 7, .qqq .fsub 0 0 12, .qqq .fsub 1 1 12, .qqq .fsub 2 2 12, .qqq .fsub 3 3 12,
        .qqq .fmul 0 0 13, .qqq .fmul 1 1 13, .qqq .fmul 2 2 13, .qqq .fmul 3 3 13, .qqq .fadd 0 0 14,
        .qqq .fadd 1 1 14, .qqq .fadd 2 2 14, .qqq .fadd 3 3 14, .qq .fcvtzs 0 0, .qq .fcvtzs 1 1,
        .qq .fcvtzs 2 2, .qq .fcvtzs 3 3, .vst1 4 [0, 1, 2, 3] .out 0 (.imm 32),
        .vst1 4 [4, 5, 6, 7] .out 0 (.imm 32)]
        cond := .ne
        tail := [.vldLane 2 0 [0] .inp (.imm 2), .vldLane 1 2 [0] .inp (.imm 1), .vldLane 2 0 [2] (.t 1) (.imm 2),
        .vldLane 1 2 [2] (.t 1) (.imm 1), .qd .uxtl 0 0, .qd .uxtl 1 2, .qd .sxtl 0 0, .qd .sxtl 1 2,
        .qq .scvtf 0 0, .qq .scvtf 1 1, .qqq .fmul 0 0 9, .qqq .fmul 1 1 11, .qqq .fadd 0 0 8,
        .qqq .fadd 1 1 10, .qqq .fadd 0 0 1, .qqq .fsub 0 0 12, .qqq .fmul 0 0 13, .qqq .fadd 0 0 14,
        .qq .fcvtzs 0 0, .vst1 4 [0] .out 0 (.imm 8), .vstLane 4 0 1 .out (.imm 4), .subs .rows 1] } }

/-- meta/transform_kernels_arm_32.h:6058-6185. -/
def ba32_4 : RowsProg32 :=
  { init := [.ldr (.t 0) (.par .inputMin), .dupW 8 (.t 0), .ldr (.t 0) (.par .inputScale), .dupW 9 (.t 0),
    .ldr (.t 0) (.par .biasMin), .dupW 10 (.t 0), .ldr (.t 0) (.par .biasScale), .dupW 11 (.t 0),
    .ldr (.t 0) (.par .outputMin), .dupW 12 (.t 0), .ldr (.t 0) (.par .outputInvScale), .dupW 13 (.t 0),
    .ldr (.t 0) (.par .outputOffset), .dupW 14 (.t 0)]
    row :=
      { init := [.movX (.t 0) .count, .movX (.t 1) .bias, .subs (.t 0) 4]
        skip := true
        body := [.subs (.t 0) 16, .vld1 [0, 1] .inp 0 (.imm 16), .vld1 [8, 9] (.t 1) 0 (.imm 16), .qd .uxtl 1 1,
        .qd .uxtl 0 0, .qd .uxtl 5 9, .qd .uxtl 4 8, .qd .sxtl 3 3, .qd .sxtl 2 2, .qd .sxtl 7 11,
        .qd .sxtl 6 10, .qd .sxtl 1 1, .qd .sxtl 0 0, .qd .sxtl 5 9, .qd .sxtl 4 8, .qq .scvtf 0 0,
        .qq .scvtf 1 1, .qq .scvtf 2 2, .qq .scvtf 3 3, .qq .scvtf 4 4, .qq .scvtf 5 5, .qq .scvtf 6 6,
        .qq .scvtf 7 7, .qqq .fmul 0 0 9, .qqq .fmul 1 1 9, .qqq .fmul 2 2 9, .qqq .fmul 3 3 9,
        .qqq .fmul 4 4 11, .qqq .fmul 5 5 11, .qqq .fmul 6 6 11, .qqq .fmul 7 7 11, .qqq .fadd 0 0 8,
        .qqq .fadd 1 1 8, .qqq .fadd 2 2 8, .qqq .fadd 3 3 8, .qqq .fadd 4 4 10, .qqq .fadd 5 5 10,
        .qqq .fadd 6 6 10, .qqq .fadd 7 7 10, .qqq .fadd 0 0 4, .qqq .fadd 1 1 5, .qqq .fadd 2 2 6,
        .qqq .fadd 3 3 7, .qqq .fsub 0 0 12, .qqq .fsub 1 1 12, .qqq .fsub 2 2 12, .qqq .fsub 3 3 12,
        .qqq .fmul 0 0 13, .qqq .fmul 1 1 13, .qqq .fmul 2 2 13, .qqq .fmul 3 3 13, .qqq .fadd 0 0 14,
        .qqq .fadd 1 1 14, .qqq .fadd 2 2 14, .qqq .fadd 3 3 14, .qq .fcvtzs 0 0, .qq .fcvtzs 1 1,
        .qq .fcvtzs 2 2, .qq .fcvtzs 3 3, .vst1 4 [0, 1, 2, 3] .out 0 (.imm 32),
        .vst1 4 [4, 5, 6, 7] .out 0 (.imm 32)]
        cond := .ne
        tail := [.vldLane 4 0 [0] .inp (.imm 4), .vldLane 4 0 [2] (.t 1) (.imm 4), .qd .uxtl 0 0, .qd .uxtl 1 2,
        .qd .sxtl 0 0, .qd .sxtl 1 2, .qq .scvtf 0 0, .qq .scvtf 1 1, .qqq .fmul 0 0 9, .qqq .fmul 1 1 11,
        .qqq .fadd 0 0 8, .qqq .fadd 1 1 10, .qqq .fadd 0 0 1, .qqq .fsub 0 0 12, .qqq .fmul 0 0 13,
        .qqq .fadd 0 0 14, .qq .fcvtzs 0 0, .vst1 4 [0, 1] .out 0 (.imm 16), .subs .rows 1] } }

/-- meta/transform_kernels_arm_32.h:6202-6345. -/
def ba32_5 : RowsProg32 :=
  { init := [.ldr (.t 0) (.par .inputMin), .dupW 8 (.t 0), .ldr (.t 0) (.par .inputScale), .dupW 9 (.t 0),
    .ldr (.t 0) (.par .biasMin), .dupW 10 (.t 0), .ldr (.t 0) (.par .biasScale), .dupW 11 (.t 0),
    .ldr (.t 0) (.par .outputMin), .dupW 12 (.t 0), .ldr (.t 0) (.par .outputInvScale), .dupW 13 (.t 0),
    .ldr (.t 0) (.par .outputOffset), .dupW 14 (.t 0)]
    row :=
      { init := [.movX (.t 0) .count, .movX (.t 1) .bias, .subs (.t 0) 5]
        skip := true
        body := [.subs (.t 0) 16, .vld1 [0, 1] .inp 0 (.imm 16), .vld1 [8, 9] (.t 1) 0 (.imm 16), .qd .uxtl 1 1,
        .qd .uxtl 0 0, .qd .uxtl 5 9, .qd .uxtl 4 8, .qd .sxtl 3 3, .qd .sxtl 2 2, .qd .sxtl 7 11,
        .qd .sxtl 6 10, .qd .sxtl 1 1, .qd .sxtl 0 0, .qd .sxtl 5 9, .qd .sxtl 4 8, .qq .scvtf 0 0,
        .qq .scvtf 1 1, .qq .scvtf 2 2, .qq .scvtf 3 3, .qq .scvtf 4 4, .qq .scvtf 5 5, .qq .scvtf 6 6,
        .qq .scvtf 7 7, .qqq .fmul 0 0 9, .qqq .fmul 1 1 9, .qqq .fmul 2 2 9, .qqq .fmul 3 3 9,
        .qqq .fmul 4 4 11, .qqq .fmul 5 5 11, .qqq .fmul 6 6 11, .qqq .fmul 7 7 11, .qqq .fadd 0 0 8,
        .qqq .fadd 1 1 8, .qqq .fadd 2 2 8, .qqq .fadd 3 3 8, .qqq .fadd 4 4 10, .qqq .fadd 5 5 10,
        .qqq .fadd 6 6 10, .qqq .fadd 7 7 10, .qqq .fadd 0 0 4, .qqq .fadd 1 1 5, .qqq .fadd 2 2 6,
        .qqq .fadd 3 3 7, .qqq .fsub 0 0 12, .qqq .fsub 1 1 12, .qqq .fsub 2 2 12, .qqq .fsub 3 3 12,
        .qqq .fmul 0 0 13, .qqq .fmul 1 1 13, .qqq .fmul 2 2 13, .qqq .fmul 3 3 13, .qqq .fadd 0 0 14,
        .qqq .fadd 1 1 14, .qqq .fadd 2 2 14, .qqq .fadd 3 3 14, .qq .fcvtzs 0 0, .qq .fcvtzs 1 1,
        .qq .fcvtzs 2 2, .qq .fcvtzs 3 3, .vst1 4 [0, 1, 2, 3] .out 0 (.imm 32),
        .vst1 4 [4, 5, 6, 7] .out 0 (.imm 32)]
        cond := .ne
        tail := [.vldLane 4 0 [0] .inp (.imm 4), .vldLane 1 4 [0] .inp (.imm 1), .vldLane 4 0 [4] (.t 1) (.imm 4),
        .vldLane 1 4 [4] (.t 1) (.imm 1), .qd .uxtl 0 0, .qd .uxtl 2 4, .qd .sxtl 1 1, .qd .sxtl 0 0,
        .qd .sxtl 3 5, .qd .sxtl 2 4, .qq .scvtf 0 0, .qq .scvtf 1 1, .qq .scvtf 2 2, .qq .scvtf 3 3,
        .qqq .fmul 0 0 9, .qqq .fmul 1 1 9, .qqq .fmul 2 2 11, .qqq .fmul 3 3 11, .qqq .fadd 0 0 8,
        .qqq .fadd 1 1 8, .qqq .fadd 2 2 10, .qqq .fadd 3 3 10, .qqq .fadd 0 0 2, .qqq .fadd 1 1 3,
        .qqq .fsub 0 0 12, .qqq .fsub 1 1 12, .qqq .fmul 0 0 13, .qqq .fmul 1 1 13, .qqq .fadd 0 0 14,
        .qqq .fadd 1 1 14, .qq .fcvtzs 0 0, .qq .fcvtzs 1 1, .vst1 4 [0, 1] .out 0 (.imm 16),
        .vstLane 4 0 2 .out (.imm 4), .subs .rows 1] } }

/-- meta/transform_kernels_arm_32.h:6362-6504. -/
def ba32_6 : RowsProg32 :=
  { init := [.ldr (.t 0) (.par .inputMin), .dupW 8 (.t 0), .ldr (.t 0) (.par .inputScale), .dupW 9 (.t 0),
    .ldr (.t 0) (.par .biasMin), .dupW 10 (.t 0), .ldr (.t 0) (.par .biasScale), .dupW 11 (.t 0),
    .ldr (.t 0) (.par .outputMin), .dupW 12 (.t 0), .ldr (.t 0) (.par .outputInvScale), .dupW 13 (.t 0),
    .ldr (.t 0) (.par .outputOffset), .dupW 14 (.t 0)]
    row :=
      { init := [.movX (.t 0) .count, .movX (.t 1) .bias, .subs (.t 0) 6]
        skip := true
        body := [.subs (.t 0) 16, .vld1 [0, 1] .inp 0 (.imm 16), .vld1 [8, 9] (.t 1) 0 (.imm 16), .qd .uxtl 1 1,
        .qd .uxtl 0 0, .qd .uxtl 5 9, .qd .uxtl 4 8, .qd .sxtl 3 3, .qd .sxtl 2 2, .qd .sxtl 7 11,
        .qd .sxtl 6 10, .qd .sxtl 1 1, .qd .sxtl 0 0, .qd .sxtl 5 9, .qd .sxtl 4 8, .qq .scvtf 0 0,
        .qq .scvtf 1 1, .qq .scvtf 2 2, .qq .scvtf 3 3, .qq .scvtf 4 4, .qq .scvtf 5 5, .qq .scvtf 6 6,
        .qq .scvtf 7 7, .qqq .fmul 0 0 9, .qqq .fmul 1 1 9, .qqq .fmul 2 2 9, .qqq .fmul 3 3 9,
        .qqq .fmul 4 4 11, .qqq .fmul 5 5 11, .qqq .fmul 6 6 11, .qqq .fmul 7 7 11, .qqq .fadd 0 0 8,
        .qqq .fadd 1 1 8, .qqq .fadd 2 2 8, .qqq .fadd 3 3 8, .qqq .fadd 4 4 10, .qqq .fadd 5 5 10,
        .qqq .fadd 6 6 10, .qqq .fadd 7 7 10, .qqq .fadd 0 0 4, .qqq .fadd 1 1 5, .qqq .fadd 2 2 6,
        .qqq .fadd 3 3 7, .qqq .fsub 0 0 12, .qqq .fsub 1 1 12, .qqq .fsub 2 2 12, .qqq .fsub 3 3 12,
        .qqq .fmul 0 0 13, .qqq .fmul 1 1 13, .qqq .fmul 2 2 13, .qqq .fmul 3 3 13, .qqq .fadd 0 0 14,
        .qqq .fadd 1 1 14, .qqq .fadd 2 2 14, .qqq .fadd 3 3 14, .qq .fcvtzs 0 0, .qq .fcvtzs 1 1,
        .qq .fcvtzs 2 2, .qq .fcvtzs 3 3, .vst1 4 [0, 1, 2, 3] .out 0 (.imm 32),
        .vst1 4 [4, 5, 6, 7] .out 0 (.imm 32)]
        cond := .ne
        tail := [.vldLane 4 0 [0] .inp (.imm 4), .vldLane 2 2 [0] .inp (.imm 2), .vldLane 4 0 [4] (.t 1) (.imm 4),
        .vldLane 2 2 [4] (.t 1) (.imm 2), .qd .uxtl 0 0, .qd .uxtl 2 4, .qd .sxtl 1 1, .qd .sxtl 0 0,
        .qd .sxtl 3 5, .qd .sxtl 2 4, .qq .scvtf 0 0, .qq .scvtf 1 1, .qq .scvtf 2 2, .qq .scvtf 3 3,
        .qqq .fmul 0 0 9, .qqq .fmul 1 1 9, .qqq .fmul 2 2 11, .qqq .fmul 3 3 11, .qqq .fadd 0 0 8,
        .qqq .fadd 1 1 8, .qqq .fadd 2 2 10, .qqq .fadd 3 3 10, .qqq .fadd 0 0 2, .qqq .fadd 1 1 3,
        .qqq .fsub 0 0 12, .qqq .fsub 1 1 12, .qqq .fmul 0 0 13, .qqq .fmul 1 1 13, .qqq .fadd 0 0 14,
        .qqq .fadd 1 1 14, .qq .fcvtzs 0 0, .qq .fcvtzs 1 1, .vst1 4 [0, 1, 2] .out 0 (.imm 24), .subs .rows 1] } }

/-- meta/transform_kernels_arm_32.h:6521-6666. -/
def ba32_7 : RowsProg32 :=
  { init := [.ldr (.t 0) (.par .inputMin), .dupW 8 (.t 0), .ldr (.t 0) (.par .inputScale), .dupW 9 (.t 0),
    .ldr (.t 0) (.par .biasMin), .dupW 10 (.t 0), .ldr (.t 0) (.par .biasScale), .dupW 11 (.t 0),
    .ldr (.t 0) (.par .outputMin), .dupW 12 (.t 0), .ldr (.t 0) (.par .outputInvScale), .dupW 13 (.t 0),
    .ldr (.t 0) (.par .outputOffset), .dupW 14 (.t 0)]
    row :=
      { init := [.movX (.t 0) .count, .movX (.t 1) .bias, .subs (.t 0) 7]
        skip := true
        body := [.subs (.t 0) 16, .vld1 [0, 1] .inp 0 (.imm 16), .vld1 [8, 9] (.t 1) 0 (.imm 16), .qd .uxtl 1 1,
        .qd .uxtl 0 0, .qd .uxtl 5 9, .qd .uxtl 4 8, .qd .sxtl 3 3, .qd .sxtl 2 2, .qd .sxtl 7 11,
        .qd .sxtl 6 10, .qd .sxtl 1 1, .qd .sxtl 0 0, .qd .sxtl 5 9, .qd .sxtl 4 8, .qq .scvtf 0 0,
        .qq .scvtf 1 1, .qq .scvtf 2 2, .qq .scvtf 3 3, .qq .scvtf 4 4, .qq .scvtf 5 5, .qq .scvtf 6 6,
        .qq .scvtf 7 7, .qqq .fmul 0 0 9, .qqq .fmul 1 1 9, .qqq .fmul 2 2 9, .qqq .fmul 3 3 9,
        .qqq .fmul 4 4 11, .qqq .fmul 5 5 11, .qqq .fmul 6 6 11, .qqq .fmul 7 7 11, .qqq .fadd 0 0 8,
        .qqq .fadd 1 1 8, .qqq .fadd 2 2 8, .qqq .fadd 3 3 8, .qqq .fadd 4 4 10, .qqq .fadd 5 5 10,
        .qqq .fadd 6 6 10, .qqq .fadd 7 7 10, .qqq .fadd 0 0 4, .qqq .fadd 1 1 5, .qqq .fadd 2 2 6,
        .qqq .fadd 3 3 7, .qqq .fsub 0 0 12, .qqq .fsub 1 1 12, .qqq .fsub 2 2 12, .qqq .fsub 3 3 12,
        .qqq .fmul 0 0 13, .qqq .fmul 1 1 13, .qqq .fmul 2 2 13, .qqq .fmul 3 3 13, .qqq .fadd 0 0 14,
        .qqq .fadd 1 1 14, .qqq .fadd 2 2 14, .qqq .fadd 3 3 14, .qq .fcvtzs 0 0, .qq .fcvtzs 1 1,
        .qq .fcvtzs 2 2, .qq .fcvtzs 3 3, .vst1 4 [0, 1, 2, 3] .out 0 (.imm 32),
        .vst1 4 [4, 5, 6, 7] .out 0 (.imm 32)]
        cond := .ne
        tail := [.vldLane 4 0 [0] .inp (.imm 4), .vldLane 2 2 [0] .inp (.imm 2), .vldLane 1 6 [0] .inp (.imm 1),
        .vldLane 4 0 [4] (.t 1) (.imm 4), .vldLane 2 2 [4] (.t 1) (.imm 2), .vldLane 1 6 [4] (.t 1) (.imm 1),
        .qd .uxtl 0 0, .qd .uxtl 2 4, .qd .sxtl 1 1, .qd .sxtl 0 0, .qd .sxtl 3 5, .qd .sxtl 2 4,
        .qq .scvtf 0 0, .qq .scvtf 1 1, .qq .scvtf 2 2, .qq .scvtf 3 3, .qqq .fmul 0 0 9, .qqq .fmul 1 1 9,
        .qqq .fmul 2 2 11, .qqq .fmul 3 3 11, .qqq .fadd 0 0 8, .qqq .fadd 1 1 8, .qqq .fadd 2 2 10,
        .qqq .fadd 3 3 10, .qqq .fadd 0 0 2, .qqq .fadd 1 1 3, .qqq .fsub 0 0 12, .qqq .fsub 1 1 12,
        .qqq .fmul 0 0 13, .qqq .fmul 1 1 13, .qqq .fadd 0 0 14, .qqq .fadd 1 1 14, .qq .fcvtzs 0 0,
        .qq .fcvtzs 1 1, .vst1 4 [0, 1, 2] .out 0 (.imm 24), .vstLane 4 0 3 .out (.imm 4), .subs .rows 1] } }

/-- meta/transform_kernels_arm_32.h:6683-6823. -/
def ba32_8 : RowsProg32 :=
  { init := [.ldr (.t 0) (.par .inputMin), .dupW 8 (.t 0), .ldr (.t 0) (.par .inputScale), .dupW 9 (.t 0),
    .ldr (.t 0) (.par .biasMin), .dupW 10 (.t 0), .ldr (.t 0) (.par .biasScale), .dupW 11 (.t 0),
    .ldr (.t 0) (.par .outputMin), .dupW 12 (.t 0), .ldr (.t 0) (.par .outputInvScale), .dupW 13 (.t 0),
    .ldr (.t 0) (.par .outputOffset), .dupW 14 (.t 0)]
    row :=
      { init := [.movX (.t 0) .count, .movX (.t 1) .bias, .subs (.t 0) 8]
        skip := true
        body := [.subs (.t 0) 16, .vld1 [0, 1] .inp 0 (.imm 16), .vld1 [8, 9] (.t 1) 0 (.imm 16), .qd .uxtl 1 1,
        .qd .uxtl 0 0, .qd .uxtl 5 9, .qd .uxtl 4 8, .qd .sxtl 3 3, .qd .sxtl 2 2, .qd .sxtl 7 11,
        .qd .sxtl 6 10, .qd .sxtl 1 1, .qd .sxtl 0 0, .qd .sxtl 5 9, .qd .sxtl 4 8, .qq .scvtf 0 0,
        .qq .scvtf 1 1, .qq .scvtf 2 2, .qq .scvtf 3 3, .qq .scvtf 4 4, .qq .scvtf 5 5, .qq .scvtf 6 6,
        .qq .scvtf 7 7, .qqq .fmul 0 0 9, .qqq .fmul 1 1 9, .qqq .fmul 2 2 9, .qqq .fmul 3 3 9,
        .qqq .fmul 4 4 11, .qqq .fmul 5 5 11, .qqq .fmul 6 6 11, .qqq .fmul 7 7 11, .qqq .fadd 0 0 8,
        .qqq .fadd 1 1 8, .qqq .fadd 2 2 8, .qqq .fadd 3 3 8, .qqq .fadd 4 4 10, .qqq .fadd 5 5 10,
        .qqq .fadd 6 6 10, .qqq .fadd 7 7 10, .qqq .fadd 0 0 4, .qqq .fadd 1 1 5, .qqq .fadd 2 2 6,
        .qqq .fadd 3 3 7, .qqq .fsub 0 0 12, .qqq .fsub 1 1 12, .qqq .fsub 2 2 12, .qqq .fsub 3 3 12,
        .qqq .fmul 0 0 13, .qqq .fmul 1 1 13, .qqq .fmul 2 2 13, .qqq .fmul 3 3 13, .qqq .fadd 0 0 14,
        .qqq .fadd 1 1 14, .qqq .fadd 2 2 14, .qqq .fadd 3 3 14, .qq .fcvtzs 0 0, .qq .fcvtzs 1 1,
        .qq .fcvtzs 2 2, .qq .fcvtzs 3 3, .vst1 4 [0, 1, 2, 3] .out 0 (.imm 32),
        .vst1 4 [4, 5, 6, 7] .out 0 (.imm 32)]
        cond := .ne
        tail := [.vld1 [0] .inp 0 (.imm 8), .vld1 [4] (.t 1) 0 (.imm 8), .qd .uxtl 0 0, .qd .uxtl 2 4, .qd .sxtl 1 1,
        .qd .sxtl 0 0, .qd .sxtl 3 5, .qd .sxtl 2 4, .qq .scvtf 0 0, .qq .scvtf 1 1, .qq .scvtf 2 2,
        .qq .scvtf 3 3, .qqq .fmul 0 0 9, .qqq .fmul 1 1 9, .qqq .fmul 2 2 11, .qqq .fmul 3 3 11,
        .qqq .fadd 0 0 8, .qqq .fadd 1 1 8, .qqq .fadd 2 2 10, .qqq .fadd 3 3 10, .qqq .fadd 0 0 2,
        .qqq .fadd 1 1 3, .qqq .fsub 0 0 12, .qqq .fsub 1 1 12, .qqq .fmul 0 0 13, .qqq .fmul 1 1 13,
        .qqq .fadd 0 0 14, .qqq .fadd 1 1 14, .qq .fcvtzs 0 0, .qq .fcvtzs 1 1,
        .vst1 4 [0, 1, 2, 3] .out 0 (.imm 32), .subs .rows 1] } }

/-- meta/transform_kernels_arm_32.h:6840-6998. -/
def ba32_9 : RowsProg32 :=
  { init := [.ldr (.t 0) (.par .inputMin), .dupW 8 (.t 0), .ldr (.t 0) (.par .inputScale), .dupW 9 (.t 0),
    .ldr (.t 0) (.par .biasMin), .dupW 10 (.t 0), .ldr (.t 0) (.par .biasScale), .dupW 11 (.t 0),
    .ldr (.t 0) (.par .outputMin), .dupW 12 (.t 0), .ldr (.t 0) (.par .outputInvScale), .dupW 13 (.t 0),
    .ldr (.t 0) (.par .outputOffset), .dupW 14 (.t 0)]
    row :=
      { init := [.movX (.t 0) .count, .movX (.t 1) .bias, .subs (.t 0) 9]
        skip := true
        body := [.subs (.t 0) 16, .vld1 [0, 1] .inp 0 (.imm 16), .vld1 [8, 9] (.t 1) 0 (.imm 16), .qd .uxtl 1 1,
        .qd .uxtl 0 0, .qd .uxtl 5 9, .qd .uxtl 4 8, .qd .sxtl 3 3, .qd .sxtl 2 2, .qd .sxtl 7 11,
        .qd .sxtl 6 10, .qd .sxtl 1 1, .qd .sxtl 0 0, .qd .sxtl 5 9, .qd .sxtl 4 8, .qq .scvtf 0 0,
        .qq .scvtf 1 1, .qq .scvtf 2 2, .qq .scvtf 3 3, .qq .scvtf 4 4, .qq .scvtf 5 5, .qq .scvtf 6 6,
        .qq .scvtf 7 7, .qqq .fmul 0 0 9, .qqq .fmul 1 1 9, .qqq .fmul 2 2 9, .qqq .fmul 3 3 9,
        .qqq .fmul 4 4 11, .qqq .fmul 5 5 11, .qqq .fmul 6 6 11, .qqq .fmul 7 7 11, .qqq .fadd 0 0 8,
        .qqq .fadd 1 1 8, .qqq .fadd 2 2 8, .qqq .fadd 3 3 8, .qqq .fadd 4 4 10, .qqq .fadd 5 5 10,
        .qqq .fadd 6 6 10, .qqq .fadd 7 7 10, .qqq .fadd 0 0 4, .qqq .fadd 1 1 5, .qqq .fadd 2 2 6,
        .qqq .fadd 3 3 7, .qqq .fsub 0 0 12, .qqq .fsub 1 1 12, .qqq .fsub 2 2 12, .qqq .fsub 3 3 12,
        .qqq .fmul 0 0 13, .qqq .fmul 1 1 13, .qqq .fmul 2 2 13, .qqq .fmul 3 3 13, .qqq .fadd 0 0 14,
        .qqq .fadd 1 1 14, .qqq .fadd 2 2 14, .qqq .fadd 3 3 14, .qq .fcvtzs 0 0, .qq .fcvtzs 1 1,
        .qq .fcvtzs 2 2, .qq .fcvtzs 3 3, .vst1 4 [0, 1, 2, 3] .out 0 (.imm 32),
        .vst1 4 [4, 5, 6, 7] .out 0 (.imm 32)]
        cond := .ne
        tail := [.vld1 [0] .inp 0 (.imm 8), .vldLane 1 0 [1] .inp (.imm 1), .vld1 [6] (.t 1) 0 (.imm 8),
        .vldLane 1 0 [7] (.t 1) (.imm 1), .qd .uxtl 1 1, .qd .uxtl 0 0, .qd .uxtl 4 7, .qd .uxtl 3 6,
        .qd .sxtl 2 2, .qd .sxtl 5 8, .qd .sxtl 1 1, .qd .sxtl 0 0, .qd .sxtl 4 7, .qd .sxtl 3 6,
        .qq .scvtf 0 0, .qq .scvtf 1 1, .qq .scvtf 2 2, .qq .scvtf 3 3, .qq .scvtf 4 4, .qq .scvtf 5 5,
        .qqq .fmul 0 0 9, .qqq .fmul 1 1 9, .qqq .fmul 2 2 9, .qqq .fmul 3 3 11, .qqq .fmul 4 4 11,
        .qqq .fmul 5 5 11, .qqq .fadd 0 0 8, .qqq .fadd 1 1 8, .qqq .fadd 2 2 8, .qqq .fadd 3 3 10,
        .qqq .fadd 4 4 10, .qqq .fadd 5 5 10, .qqq .fadd 0 0 3, .qqq .fadd 1 1 4, .qqq .fadd 2 2 5,
        .qqq .fsub 0 0 12, .qqq .fsub 1 1 12, .qqq .fsub 2 2 12, .qqq .fmul 0 0 13, .qqq .fmul 1 1 13,
        .qqq .fmul 2 2 13, .qqq .fadd 0 0 14, .qqq .fadd 1 1 14, .qqq .fadd 2 2 14, .qq .fcvtzs 0 0,
        .qq .fcvtzs 1 1, .qq .fcvtzs 2 2, .vst1 4 [0, 1, 2, 3] .out 0 (.imm 32), .vstLane 4 0 4 .out (.imm 4),
        .subs .rows 1] } }

/-- meta/transform_kernels_arm_32.h:7015-7173. -/
def ba32_10 : RowsProg32 :=
  { init := [.ldr (.t 0) (.par .inputMin), .dupW 8 (.t 0), .ldr (.t 0) (.par .inputScale), .dupW 9 (.t 0),
    .ldr (.t 0) (.par .biasMin), .dupW 10 (.t 0), .ldr (.t 0) (.par .biasScale), .dupW 11 (.t 0),
    .ldr (.t 0) (.par .outputMin), .dupW 12 (.t 0), .ldr (.t 0) (.par .outputInvScale), .dupW 13 (.t 0),
    .ldr (.t 0) (.par .outputOffset), .dupW 14 (.t 0)]
    row :=
      { init := [.movX (.t 0) .count, .movX (.t 1) .bias, .subs (.t 0) 10]
        skip := true
        body := [.subs (.t 0) 16, .vld1 [0, 1] .inp 0 (.imm 16), .vld1 [8, 9] (.t 1) 0 (.imm 16), .qd .uxtl 1 1,
        .qd .uxtl 0 0, .qd .uxtl 5 9, .qd .uxtl 4 8, .qd .sxtl 3 3, .qd .sxtl 2 2, .qd .sxtl 7 11,
        .qd .sxtl 6 10, .qd .sxtl 1 1, .qd .sxtl 0 0, .qd .sxtl 5 9, .qd .sxtl 4 8, .qq .scvtf 0 0,
        .qq .scvtf 1 1, .qq .scvtf 2 2, .qq .scvtf 3 3, .qq .scvtf 4 4, .qq .scvtf 5 5, .qq .scvtf 6 6,
        .qq .scvtf 7 7, .qqq .fmul 0 0 9, .qqq .fmul 1 1 9, .qqq .fmul 2 2 9, .qqq .fmul 3 3 9,
        .qqq .fmul 4 4 11, .qqq .fmul 5 5 11, .qqq .fmul 6 6 11, .qqq .fmul 7 7 11, .qqq .fadd 0 0 8,
        .qqq .fadd 1 1 8, .qqq .fadd 2 2 8, .qqq .fadd 3 3 8, .qqq .fadd 4 4 10, .qqq .fadd 5 5 10,
        .qqq .fadd 6 6 10, .qqq .fadd 7 7 10, .qqq .fadd 0 0 4, .qqq .fadd 1 1 5, .qqq .fadd 2 2 6,
        .qqq .fadd 3 3 7, .qqq .fsub 0 0 12, .qqq .fsub 1 1 12, .qqq .fsub 2 2 12, .qqq .fsub 3 3 12,
        .qqq .fmul 0 0 13, .qqq .fmul 1 1 13, .qqq .fmul 2 2 13, .qqq .fmul 3 3 13, .qqq .fadd 0 0 14,
        .qqq .fadd 1 1 14, .qqq .fadd 2 2 14, .qqq .fadd 3 3 14, .qq .fcvtzs 0 0, .qq .fcvtzs 1 1,
        .qq .fcvtzs 2 2, .qq .fcvtzs 3 3, .vst1 4 [0, 1, 2, 3] .out 0 (.imm 32),
        .vst1 4 [4, 5, 6, 7] .out 0 (.imm 32)]
        cond := .ne
        tail := [.vld1 [0] .inp 0 (.imm 8), .vldLane 2 0 [1] .inp (.imm 2), .vld1 [6] (.t 1) 0 (.imm 8),
        .vldLane 2 0 [7] (.t 1) (.imm 2), .qd .uxtl 1 1, .qd .uxtl 0 0, .qd .uxtl 4 7, .qd .uxtl 3 6,
        .qd .sxtl 2 2, .qd .sxtl 5 8, .qd .sxtl 1 1, .qd .sxtl 0 0, .qd .sxtl 4 7, .qd .sxtl 3 6,
        .qq .scvtf 0 0, .qq .scvtf 1 1, .qq .scvtf 2 2, .qq .scvtf 3 3, .qq .scvtf 4 4, .qq .scvtf 5 5,
        .qqq .fmul 0 0 9, .qqq .fmul 1 1 9, .qqq .fmul 2 2 9, .qqq .fmul 3 3 11, .qqq .fmul 4 4 11,
        .qqq .fmul 5 5 11, .qqq .fadd 0 0 8, .qqq .fadd 1 1 8, .qqq .fadd 2 2 8, .qqq .fadd 3 3 10,
        .qqq .fadd 4 4 10, .qqq .fadd 5 5 10, .qqq .fadd 0 0 3, .qqq .fadd 1 1 4, .qqq .fadd 2 2 5,
        .qqq .fsub 0 0 12, .qqq .fsub 1 1 12, .qqq .fsub 2 2 12, .qqq .fmul 0 0 13, .qqq .fmul 1 1 13,
        .qqq .fmul 2 2 13, .qqq .fadd 0 0 14, .qqq .fadd 1 1 14, .qqq .fadd 2 2 14, .qq .fcvtzs 0 0,
        .qq .fcvtzs 1 1, .qq .fcvtzs 2 2, .vst1 4 [0, 1, 2, 3] .out 0 (.imm 32), .vst1 4 [4] .out 0 (.imm 8),
        .subs .rows 1] } }

/-- meta/transform_kernels_arm_32.h:7190-7351. -/
def ba32_11 : RowsProg32 :=
  { init := [.ldr (.t 0) (.par .inputMin), .dupW 8 (.t 0), .ldr (.t 0) (.par .inputScale), .dupW 9 (.t 0),
    .ldr (.t 0) (.par .biasMin), .dupW 10 (.t 0), .ldr (.t 0) (.par .biasScale), .dupW 11 (.t 0),
    .ldr (.t 0) (.par .outputMin), .dupW 12 (.t 0), .ldr (.t 0) (.par .outputInvScale), .dupW 13 (.t 0),
    .ldr (.t 0) (.par .outputOffset), .dupW 14 (.t 0)]
    row :=
      { init := [.movX (.t 0) .count, .movX (.t 1) .bias, .subs (.t 0) 11]
        skip := true
        body := [.subs (.t 0) 16, .vld1 [0, 1] .inp 0 (.imm 16), .vld1 [8, 9] (.t 1) 0 (.imm 16), .qd .uxtl 1 1,
        .qd .uxtl 0 0, .qd .uxtl 5 9, .qd .uxtl 4 8, .qd .sxtl 3 3, .qd .sxtl 2 2, .qd .sxtl 7 11,
        .qd .sxtl 6 10, .qd .sxtl 1 1, .qd .sxtl 0 0, .qd .sxtl 5 9, .qd .sxtl 4 8, .qq .scvtf 0 0,
        .qq .scvtf 1 1, .qq .scvtf 2 2, .qq .scvtf 3 3, .qq .scvtf 4 4, .qq .scvtf 5 5, .qq .scvtf 6 6,
        .qq .scvtf 7 7, .qqq .fmul 0 0 9, .qqq .fmul 1 1 9, .qqq .fmul 2 2 9, .qqq .fmul 3 3 9,
        .qqq .fmul 4 4 11, .qqq .fmul 5 5 11, .qqq .fmul 6 6 11, .qqq .fmul 7 7 11, .qqq .fadd 0 0 8,
        .qqq .fadd 1 1 8, .qqq .fadd 2 2 8, .qqq .fadd 3 3 8, .qqq .fadd 4 4 10, .qqq .fadd 5 5 10,
        .qqq .fadd 6 6 10, .qqq .fadd 7 7 10, .qqq .fadd 0 0 4, .qqq .fadd 1 1 5, .qqq .fadd 2 2 6,
        .qqq .fadd 3 3 7, .qqq .fsub 0 0 12, .qqq .fsub 1 1 12, .qqq .fsub 2 2 12, .qqq .fsub 3 3 12,
        .qqq .fmul 0 0 13, .qqq .fmul 1 1 13, .qqq .fmul 2 2 13, .qqq .fmul 3 3 13, .qqq .fadd 0 0 14,
        .qqq .fadd 1 1 14, .qqq .fadd 2 2 14, .qqq .fadd 3 3 14, .qq .fcvtzs 0 0, .qq .fcvtzs 1 1,
        .qq .fcvtzs 2 2, .qq .fcvtzs 3 3, .vst1 4 [0, 1, 2, 3] .out 0 (.imm 32),
        .vst1 4 [4, 5, 6, 7] .out 0 (.imm 32)]
        cond := .ne
        tail := [.vld1 [0] .inp 0 (.imm 8), .vldLane 2 0 [1] .inp (.imm 2), .vldLane 1 2 [1] .inp (.imm 1),
        .vld1 [6] (.t 1) 0 (.imm 8), .vldLane 2 0 [7] (.t 1) (.imm 2), .vldLane 1 2 [7] (.t 1) (.imm 1),
        .qd .uxtl 1 1, .qd .uxtl 0 0, .qd .uxtl 4 7, .qd .uxtl 3 6, .qd .sxtl 2 2, .qd .sxtl 5 8,
        .qd .sxtl 1 1, .qd .sxtl 0 0, .qd .sxtl 4 7, .qd .sxtl 3 6, .qq .scvtf 0 0, .qq .scvtf 1 1,
        .qq .scvtf 2 2, .qq .scvtf 3 3, .qq .scvtf 4 4, .qq .scvtf 5 5, .qqq .fmul 0 0 9, .qqq .fmul 1 1 9,
        .qqq .fmul 2 2 9, .qqq .fmul 3 3 11, .qqq .fmul 4 4 11, .qqq .fmul 5 5 11, .qqq .fadd 0 0 8,
        .qqq .fadd 1 1 8, .qqq .fadd 2 2 8, .qqq .fadd 3 3 10, .qqq .fadd 4 4 10, .qqq .fadd 5 5 10,
        .qqq .fadd 0 0 3, .qqq .fadd 1 1 4, .qqq .fadd 2 2 5, .qqq .fsub 0 0 12, .qqq .fsub 1 1 12,
        .qqq .fsub 2 2 12, .qqq .fmul 0 0 13, .qqq .fmul 1 1 13, .qqq .fmul 2 2 13, .qqq .fadd 0 0 14,
        .qqq .fadd 1 1 14, .qqq .fadd 2 2 14, .qq .fcvtzs 0 0, .qq .fcvtzs 1 1, .qq .fcvtzs 2 2,
        .vst1 4 [0, 1, 2, 3] .out 0 (.imm 32), .vst1 4 [4] .out 0 (.imm 8), .vstLane 4 0 5 .out (.imm 4),
        .subs .rows 1] } }

/-- meta/transform_kernels_arm_32.h:7368-7526. -/
def ba32_12 : RowsProg32 :=
  { init := [.ldr (.t 0) (.par .inputMin), .dupW 8 (.t 0), .ldr (.t 0) (.par .inputScale), .dupW 9 (.t 0),
    .ldr (.t 0) (.par .biasMin), .dupW 10 (.t 0), .ldr (.t 0) (.par .biasScale), .dupW 11 (.t 0),
    .ldr (.t 0) (.par .outputMin), .dupW 12 (.t 0), .ldr (.t 0) (.par .outputInvScale), .dupW 13 (.t 0),
    .ldr (.t 0) (.par .outputOffset), .dupW 14 (.t 0)]
    row :=
      { init := [.movX (.t 0) .count, .movX (.t 1) .bias, .subs (.t 0) 12]
        skip := true
        body := [.subs (.t 0) 16, .vld1 [0, 1] .inp 0 (.imm 16), .vld1 [8, 9] (.t 1) 0 (.imm 16), .qd .uxtl 1 1,
        .qd .uxtl 0 0, .qd .uxtl 5 9, .qd .uxtl 4 8, .qd .sxtl 3 3, .qd .sxtl 2 2, .qd .sxtl 7 11,
        .qd .sxtl 6 10, .qd .sxtl 1 1, .qd .sxtl 0 0, .qd .sxtl 5 9, .qd .sxtl 4 8, .qq .scvtf 0 0,
        .qq .scvtf 1 1, .qq .scvtf 2 2, .qq .scvtf 3 3, .qq .scvtf 4 4, .qq .scvtf 5 5, .qq .scvtf 6 6,
        .qq .scvtf 7 7, .qqq .fmul 0 0 9, .qqq .fmul 1 1 9, .qqq .fmul 2 2 9, .qqq .fmul 3 3 9,
        .qqq .fmul 4 4 11, .qqq .fmul 5 5 11, .qqq .fmul 6 6 11, .qqq .fmul 7 7 11, .qqq .fadd 0 0 8,
        .qqq .fadd 1 1 8, .qqq .fadd 2 2 8, .qqq .fadd 3 3 8, .qqq .fadd 4 4 10, .qqq .fadd 5 5 10,
        .qqq .fadd 6 6 10, .qqq .fadd 7 7 10, .qqq .fadd 0 0 4, .qqq .fadd 1 1 5, .qqq .fadd 2 2 6,
        .qqq .fadd 3 3 7, .qqq .fsub 0 0 12, .qqq .fsub 1 1 12, .qqq .fsub 2 2 12, .qqq .fsub 3 3 12,
        .qqq .fmul 0 0 13, .qqq .fmul 1 1 13, .qqq .fmul 2 2 13, .qqq .fmul 3 3 13, .qqq .fadd 0 0 14,
        .qqq .fadd 1 1 14, .qqq .fadd 2 2 14, .qqq .fadd 3 3 14, .qq .fcvtzs 0 0, .qq .fcvtzs 1 1,
        .qq .fcvtzs 2 2, .qq .fcvtzs 3 3, .vst1 4 [0, 1, 2, 3] .out 0 (.imm 32),
        .vst1 4 [4, 5, 6, 7] .out 0 (.imm 32)]
        cond := .ne
        tail := [.vld1 [0] .inp 0 (.imm 8), .vldLane 4 0 [1] .inp (.imm 4), .vld1 [6] (.t 1) 0 (.imm 8),
        .vldLane 4 0 [7] (.t 1) (.imm 4), .qd .uxtl 1 1, .qd .uxtl 0 0, .qd .uxtl 4 7, .qd .uxtl 3 6,
        .qd .sxtl 2 2, .qd .sxtl 5 8, .qd .sxtl 1 1, .qd .sxtl 0 0, .qd .sxtl 4 7, .qd .sxtl 3 6,
        .qq .scvtf 0 0, .qq .scvtf 1 1, .qq .scvtf 2 2, .qq .scvtf 3 3, .qq .scvtf 4 4, .qq .scvtf 5 5,
        .qqq .fmul 0 0 9, .qqq .fmul 1 1 9, .qqq .fmul 2 2 9, .qqq .fmul 3 3 11, .qqq .fmul 4 4 11,
        .qqq .fmul 5 5 11, .qqq .fadd 0 0 8, .qqq .fadd 1 1 8, .qqq .fadd 2 2 8, .qqq .fadd 3 3 10,
        .qqq .fadd 4 4 10, .qqq .fadd 5 5 10, .qqq .fadd 0 0 3, .qqq .fadd 1 1 4, .qqq .fadd 2 2 5,
        .qqq .fsub 0 0 12, .qqq .fsub 1 1 12, .qqq .fsub 2 2 12, .qqq .fmul 0 0 13, .qqq .fmul 1 1 13,
        .qqq .fmul 2 2 13, .qqq .fadd 0 0 14, .qqq .fadd 1 1 14, .qqq .fadd 2 2 14, .qq .fcvtzs 0 0,
        .qq .fcvtzs 1 1, .qq .fcvtzs 2 2, .vst1 4 [0, 1, 2, 3] .out 0 (.imm 32),
        .vst1 4 [4, 5] .out 0 (.imm 16), .subs .rows 1] } }

/-- meta/transform_kernels_arm_32.h:7543-7717. -/
def ba32_13 : RowsProg32 :=
  { init := [.ldr (.t 0) (.par .inputMin), .dupW 8 (.t 0), .ldr (.t 0) (.par .inputScale), .dupW 9 (.t 0),
    .ldr (.t 0) (.par .biasMin), .dupW 10 (.t 0), .ldr (.t 0) (.par .biasScale), .dupW 11 (.t 0),
    .ldr (.t 0) (.par .outputMin), .dupW 12 (.t 0), .ldr (.t 0) (.par .outputInvScale), .dupW 13 (.t 0),
    .ldr (.t 0) (.par .outputOffset), .dupW 14 (.t 0)]
    row :=
      { init := [.movX (.t 0) .count, .movX (.t 1) .bias, .subs (.t 0) 13]
        skip := true
        body := [.subs (.t 0) 16, .vld1 [0, 1] .inp 0 (.imm 16), .vld1 [8, 9] (.t 1) 0 (.imm 16), .qd .uxtl 1 1,
        .qd .uxtl 0 0, .qd .uxtl 5 9, .qd .uxtl 4 8, .qd .sxtl 3 3, .qd .sxtl 2 2, .qd .sxtl 7 11,
        .qd .sxtl 6 10, .qd .sxtl 1 1, .qd .sxtl 0 0, .qd .sxtl 5 9, .qd .sxtl 4 8, .qq .scvtf 0 0,
        .qq .scvtf 1 1, .qq .scvtf 2 2, .qq .scvtf 3 3, .qq .scvtf 4 4, .qq .scvtf 5 5, .qq .scvtf 6 6,
        .qq .scvtf 7 7, .qqq .fmul 0 0 9, .qqq .fmul 1 1 9, .qqq .fmul 2 2 9, .qqq .fmul 3 3 9,
        .qqq .fmul 4 4 11, .qqq .fmul 5 5 11, .qqq .fmul 6 6 11, .qqq .fmul 7 7 11, .qqq .fadd 0 0 8,
        .qqq .fadd 1 1 8, .qqq .fadd 2 2 8, .qqq .fadd 3 3 8, .qqq .fadd 4 4 10, .qqq .fadd 5 5 10,
        .qqq .fadd 6 6 10, .qqq .fadd 7 7 10, .qqq .fadd 0 0 4, .qqq .fadd 1 1 5, .qqq .fadd 2 2 6,
        .qqq .fadd 3 3 7, .qqq .fsub 0 0 12, .qqq .fsub 1 1 12, .qqq .fsub 2 2 12, .qqq .fsub 3 3 12,
        .qqq .fmul 0 0 13, .qqq .fmul 1 1 13, .qqq .fmul 2 2 13, .qqq .fmul 3 3 13, .qqq .fadd 0 0 14,
        .qqq .fadd 1 1 14, .qqq .fadd 2 2 14, .qqq .fadd 3 3 14, .qq .fcvtzs 0 0, .qq .fcvtzs 1 1,
        .qq .fcvtzs 2 2, .qq .fcvtzs 3 3, .vst1 4 [0, 1, 2, 3] .out 0 (.imm 32),
        .vst1 4 [4, 5, 6, 7] .out 0 (.imm 32)]
        cond := .ne
        tail := [.vld1 [0] .inp 0 (.imm 8), .vldLane 4 0 [1] .inp (.imm 4), .vldLane 1 4 [1] .inp (.imm 1),
        .vld1 [8] (.t 1) 0 (.imm 8), .vldLane 4 0 [9] (.t 1) (.imm 4), .vldLane 1 4 [9] (.t 1) (.imm 1),
        .qd .uxtl 1 1, .qd .uxtl 0 0, .qd .uxtl 5 9, .qd .uxtl 4 8, .qd .sxtl 3 3, .qd .sxtl 2 2,
        .qd .sxtl 7 11, .qd .sxtl 6 10, .qd .sxtl 1 1, .qd .sxtl 0 0, .qd .sxtl 5 9, .qd .sxtl 4 8,
        .qq .scvtf 0 0, .qq .scvtf 1 1, .qq .scvtf 2 2, .qq .scvtf 3 3, .qq .scvtf 4 4, .qq .scvtf 5 5,
        .qq .scvtf 6 6, .qq .scvtf 7 7, .qqq .fmul 0 0 9, .qqq .fmul 1 1 9, .qqq .fmul 2 2 9, .qqq .fmul 3 3 9,
        .qqq .fmul 4 4 11, .qqq .fmul 5 5 11, .qqq .fmul 6 6 11, .qqq .fmul 7 7 11, .qqq .fadd 0 0 8,
        .qqq .fadd 1 1 8, .qqq .fadd 2 2 8, .qqq .fadd 3 3 8, .qqq .fadd 4 4 10, .qqq .fadd 5 5 10,
        .qqq .fadd 6 6 10, .qqq .fadd 7 7 10, .qqq .fadd 0 0 4, .qqq .fadd 1 1 5, .qqq .fadd 2 2 6,
        .qqq .fadd 3 3 7, .qqq .fsub 0 0 12, .qqq .fsub 1 1 12, .qqq .fsub 2 2 12, .qqq .fsub 3 3 12,
        .qqq .fmul 0 0 13, .qqq .fmul 1 1 13, .qqq .fmul 2 2 13, .qqq .fmul 3 3 13, .qqq .fadd 0 0 14,
        .qqq .fadd 1 1 14, .qqq .fadd 2 2 14, .qqq .fadd 3 3 14, .qq .fcvtzs 0 0, .qq .fcvtzs 1 1,
        .qq .fcvtzs 2 2, .qq .fcvtzs 3 3, .vst1 4 [0, 1, 2, 3] .out 0 (.imm 32),
        .vst1 4 [4, 5] .out 0 (.imm 16), .vstLane 4 0 6 .out (.imm 4), .subs .rows 1] } }

/-- meta/transform_kernels_arm_32.h:7734-7907. -/
def ba32_14 : RowsProg32 :=
  { init := [.ldr (.t 0) (.par .inputMin), .dupW 8 (.t 0), .ldr (.t 0) (.par .inputScale), .dupW 9 (.t 0),
    .ldr (.t 0) (.par .biasMin), .dupW 10 (.t 0), .ldr (.t 0) (.par .biasScale), .dupW 11 (.t 0),
    .ldr (.t 0) (.par .outputMin), .dupW 12 (.t 0), .ldr (.t 0) (.par .outputInvScale), .dupW 13 (.t 0),
    .ldr (.t 0) (.par .outputOffset), .dupW 14 (.t 0)]
    row :=
      { init := [.movX (.t 0) .count, .movX (.t 1) .bias, .subs (.t 0) 14]
        skip := true
        body := [.subs (.t 0) 16, .vld1 [0, 1] .inp 0 (.imm 16), .vld1 [8, 9] (.t 1) 0 (.imm 16), .qd .uxtl 1 1,
        .qd .uxtl 0 0, .qd .uxtl 5 9, .qd .uxtl 4 8, .qd .sxtl 3 3, .qd .sxtl 2 2, .qd .sxtl 7 11,
        .qd .sxtl 6 10, .qd .sxtl 1 1, .qd .sxtl 0 0, .qd .sxtl 5 9, .qd .sxtl 4 8, .qq .scvtf 0 0,
        .qq .scvtf 1 1, .qq .scvtf 2 2, .qq .scvtf 3 3, .qq .scvtf 4 4, .qq .scvtf 5 5, .qq .scvtf 6 6,
        .qq .scvtf 7 7, .qqq .fmul 0 0 9, .qqq .fmul 1 1 9, .qqq .fmul 2 2 9, .qqq .fmul 3 3 9,
        .qqq .fmul 4 4 11, .qqq .fmul 5 5 11, .qqq .fmul 6 6 11, .qqq .fmul 7 7 11, .qqq .fadd 0 0 8,
        .qqq .fadd 1 1 8, .qqq .fadd 2 2 8, .qqq .fadd 3 3 8, .qqq .fadd 4 4 10, .qqq .fadd 5 5 10,
        .qqq .fadd 6 6 10, .qqq .fadd 7 7 10, .qqq .fadd 0 0 4, .qqq .fadd 1 1 5, .qqq .fadd 2 2 6,
        .qqq .fadd 3 3 7, .qqq .fsub 0 0 12, .qqq .fsub 1 1 12, .qqq .fsub 2 2 12, .qqq .fsub 3 3 12,
        .qqq .fmul 0 0 13, .qqq .fmul 1 1 13, .qqq .fmul 2 2 13, .qqq .fmul 3 3 13, .qqq .fadd 0 0 14,
        .qqq .fadd 1 1 14, .qqq .fadd 2 2 14, .qqq .fadd 3 3 14, .qq .fcvtzs 0 0, .qq .fcvtzs 1 1,
        .qq .fcvtzs 2 2, .qq .fcvtzs 3 3, .vst1 4 [0, 1, 2, 3] .out 0 (.imm 32),
        .vst1 4 [4, 5, 6, 7] .out 0 (.imm 32)]
        cond := .ne
        tail := [.vld1 [0] .inp 0 (.imm 8), .vldLane 4 0 [1] .inp (.imm 4), .vldLane 2 2 [1] .inp (.imm 2),
        .vld1 [8] (.t 1) 0 (.imm 8), .vldLane 4 0 [9] (.t 1) (.imm 4), .vldLane 2 2 [9] (.t 1) (.imm 2),
        .qd .uxtl 1 1, .qd .uxtl 0 0, .qd .uxtl 5 9, .qd .uxtl 4 8, .qd .sxtl 3 3, .qd .sxtl 2 2,
        .qd .sxtl 7 11, .qd .sxtl 6 10, .qd .sxtl 1 1, .qd .sxtl 0 0, .qd .sxtl 5 9, .qd .sxtl 4 8,
        .qq .scvtf 0 0, .qq .scvtf 1 1, .qq .scvtf 2 2, .qq .scvtf 3 3, .qq .scvtf 4 4, .qq .scvtf 5 5,
        .qq .scvtf 6 6, .qq .scvtf 7 7, .qqq .fmul 0 0 9, .qqq .fmul 1 1 9, .qqq .fmul 2 2 9, .qqq .fmul 3 3 9,
        .qqq .fmul 4 4 11, .qqq .fmul 5 5 11, .qqq .fmul 6 6 11, .qqq .fmul 7 7 11, .qqq .fadd 0 0 8,
        .qqq .fadd 1 1 8, .qqq .fadd 2 2 8, .qqq .fadd 3 3 8, .qqq .fadd 4 4 10, .qqq .fadd 5 5 10,
        .qqq .fadd 6 6 10, .qqq .fadd 7 7 10, .qqq .fadd 0 0 4, .qqq .fadd 1 1 5, .qqq .fadd 2 2 6,
        .qqq .fadd 3 3 7, .qqq .fsub 0 0 12, .qqq .fsub 1 1 12, .qqq .fsub 2 2 12, .qqq .fsub 3 3 12,
        .qqq .fmul 0 0 13, .qqq .fmul 1 1 13, .qqq .fmul 2 2 13, .qqq .fmul 3 3 13, .qqq .fadd 0 0 14,
        .qqq .fadd 1 1 14, .qqq .fadd 2 2 14, .qqq .fadd 3 3 14, .qq .fcvtzs 0 0, .qq .fcvtzs 1 1,
        .qq .fcvtzs 2 2, .qq .fcvtzs 3 3, .vst1 4 [0, 1, 2, 3] .out 0 (.imm 32),
        .vst1 4 [4, 5, 6] .out 0 (.imm 24), .subs .rows 1] } }

/-- meta/transform_kernels_arm_32.h:7924-8100. -/
def ba32_15 : RowsProg32 :=
  { init := [.ldr (.t 0) (.par .inputMin), .dupW 8 (.t 0), .ldr (.t 0) (.par .inputScale), .dupW 9 (.t 0),
    .ldr (.t 0) (.par .biasMin), .dupW 10 (.t 0), .ldr (.t 0) (.par .biasScale), .dupW 11 (.t 0),
    .ldr (.t 0) (.par .outputMin), .dupW 12 (.t 0), .ldr (.t 0) (.par .outputInvScale), .dupW 13 (.t 0),
    .ldr (.t 0) (.par .outputOffset), .dupW 14 (.t 0)]
    row :=
      { init := [.movX (.t 0) .count, .movX (.t 1) .bias, .subs (.t 0) 15]
        skip := true
        body := [.subs (.t 0) 16, .vld1 [0, 1] .inp 0 (.imm 16), .vld1 [8, 9] (.t 1) 0 (.imm 16), .qd .uxtl 1 1,
        .qd .uxtl 0 0, .qd .uxtl 5 9, .qd .uxtl 4 8, .qd .sxtl 3 3, .qd .sxtl 2 2, .qd .sxtl 7 11,
        .qd .sxtl 6 10, .qd .sxtl 1 1, .qd .sxtl 0 0, .qd .sxtl 5 9, .qd .sxtl 4 8, .qq .scvtf 0 0,
        .qq .scvtf 1 1, .qq .scvtf 2 2, .qq .scvtf 3 3, .qq .scvtf 4 4, .qq .scvtf 5 5, .qq .scvtf 6 6,
        .qq .scvtf 7 7, .qqq .fmul 0 0 9, .qqq .fmul 1 1 9, .qqq .fmul 2 2 9, .qqq .fmul 3 3 9,
        .qqq .fmul 4 4 11, .qqq .fmul 5 5 11, .qqq .fmul 6 6 11, .qqq .fmul 7 7 11, .qqq .fadd 0 0 8,
        .qqq .fadd 1 1 8, .qqq .fadd 2 2 8, .qqq .fadd 3 3 8, .qqq .fadd 4 4 10, .qqq .fadd 5 5 10,
        .qqq .fadd 6 6 10, .qqq .fadd 7 7 10, .qqq .fadd 0 0 4, .qqq .fadd 1 1 5, .qqq .fadd 2 2 6,
        .qqq .fadd 3 3 7, .qqq .fsub 0 0 12, .qqq .fsub 1 1 12, .qqq .fsub 2 2 12, .qqq .fsub 3 3 12,
        .qqq .fmul 0 0 13, .qqq .fmul 1 1 13, .qqq .fmul 2 2 13, .qqq .fmul 3 3 13, .qqq .fadd 0 0 14,
        .qqq .fadd 1 1 14, .qqq .fadd 2 2 14, .qqq .fadd 3 3 14, .qq .fcvtzs 0 0, .qq .fcvtzs 1 1,
        .qq .fcvtzs 2 2, .qq .fcvtzs 3 3, .vst1 4 [0, 1, 2, 3] .out 0 (.imm 32),
        .vst1 4 [4, 5, 6, 7] .out 0 (.imm 32)]
        cond := .ne
        tail := [.vld1 [0] .inp 0 (.imm 8), .vldLane 4 0 [1] .inp (.imm 4), .vldLane 2 2 [1] .inp (.imm 2),
        .vldLane 1 6 [1] .inp (.imm 1), .vld1 [8] (.t 1) 0 (.imm 8), .vldLane 4 0 [9] (.t 1) (.imm 4),
        .vldLane 2 2 [9] (.t 1) (.imm 2), .vldLane 1 6 [9] (.t 1) (.imm 1), .qd .uxtl 1 1, .qd .uxtl 0 0,
        .qd .uxtl 5 9, .qd .uxtl 4 8, .qd .sxtl 3 3, .qd .sxtl 2 2, .qd .sxtl 7 11, .qd .sxtl 6 10,
        .qd .sxtl 1 1, .qd .sxtl 0 0, .qd .sxtl 5 9, .qd .sxtl 4 8, .qq .scvtf 0 0, .qq .scvtf 1 1,
        .qq .scvtf 2 2, .qq .scvtf 3 3, .qq .scvtf 4 4, .qq .scvtf 5 5, .qq .scvtf 6 6, .qq .scvtf 7 7,
        .qqq .fmul 0 0 9, .qqq .fmul 1 1 9, .qqq .fmul 2 2 9, .qqq .fmul 3 3 9, .qqq .fmul 4 4 11,
        .qqq .fmul 5 5 11, .qqq .fmul 6 6 11, .qqq .fmul 7 7 11, .qqq .fadd 0 0 8, .qqq .fadd 1 1 8,
        .qqq .fadd 2 2 8, .qqq .fadd 3 3 8, .qqq .fadd 4 4 10, .qqq .fadd 5 5 10, .qqq .fadd 6 6 10,
        .qqq .fadd 7 7 10, .qqq .fadd 0 0 4, .qqq .fadd 1 1 5, .qqq .fadd 2 2 6, .qqq .fadd 3 3 7,
        .qqq .fsub 0 0 12, .qqq .fsub 1 1 12, .qqq .fsub 2 2 12, .qqq .fsub 3 3 12, .qqq .fmul 0 0 13,
        .qqq .fmul 1 1 13, .qqq .fmul 2 2 13, .qqq .fmul 3 3 13, .qqq .fadd 0 0 14, .qqq .fadd 1 1 14,
        .qqq .fadd 2 2 14, .qqq .fadd 3 3 14, .qq .fcvtzs 0 0, .qq .fcvtzs 1 1, .qq .fcvtzs 2 2,
        .qq .fcvtzs 3 3, .vst1 4 [0, 1, 2, 3] .out 0 (.imm 32), .vst1 4 [4, 5, 6] .out 0 (.imm 24),
        .vstLane 4 0 7 .out (.imm 4), .subs .rows 1] } }

/-- The code for a number of leftovers: the specialisations of `Transform1DKernel` for `BiasAdd<uint8_t>`. -/
def ba32Prog : Nat → Option RowsProg32
  | 0 => some ba32_0
  | 1 => some ba32_1
  | 2 => some ba32_2
  | 3 => some ba32_3
  | 4 => some ba32_4
  | 5 => some ba32_5
  | 6 => some ba32_6
  | 7 => some ba32_7
  | 8 => some ba32_8
  | 9 => some ba32_9
  | 10 => some ba32_10
  | 11 => some ba32_11
  | 12 => some ba32_12
  | 13 => some ba32_13
  | 14 => some ba32_14
  | 15 => some ba32_15
  | _ => none

end Gemmlowp.MetaAsm
