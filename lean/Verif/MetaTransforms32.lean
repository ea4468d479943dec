import Verif.MetaAsm32
/-!
# The transformations of meta/transform_kernels_arm_32.h

`rq32_L`, `qz32_L`, `dq32_L` and `mm32_L` are the code of `Transform1DKernel<I, O, K, 16, L>::Transform` for `I`, `O`,
`K` = `int32_t`, `uint8_t`, `Requantize`; `float`, `uint8_t`, `Quantize`; `uint8_t`, `float`, `Dequantize`; and
`uint8_t`, `uint8_t`, `MinMax<uint8_t>`, line by line.
-/
namespace Gemmlowp.MetaAsm

/-- meta/transform_kernels_arm_32.h:38-99. -/
def rq32_0 : Prog32 :=
  { init := [.dupW 4 (.par .inputMin), .dupW 5 (.par .outputMin), .dupW 6 (.par .inputOffset),
    .dupW 7 (.par .inputScale), .dupW 8 (.par .outputInvScale), .qqq .fsub 4 4 5]
    skip := false
    body := [.subs .count 16, .vld1 [0, 1, 2, 3] .inp 0 (.imm 32), .vld1 [4, 5, 6, 7] .inp 0 (.imm 32), .qq .scvtf 0 0,
    .qq .scvtf 1 1, .qq .scvtf 2 2, .qq .scvtf 3 3, .qqq .fsub 0 0 6, .qqq .fsub 1 1 6, .qqq .fsub 2 2 6,
    .qqq .fsub 3 3 6, .qqq .fmul 0 0 7, .qqq .fmul 1 1 7, .qqq .fmul 2 2 7, .qqq .fmul 3 3 7, .qqq .fadd 0 0 4,
    .qqq .fadd 1 1 4, .qqq .fadd 2 2 4, .qqq .fadd 3 3 4, .qqq .fmul 0 0 8, .qqq .fmul 1 1 8, .qqq .fmul 2 2 8,
    .qqq .fmul 3 3 8, .qq .fcvtzs 0 0, .qq .fcvtzs 1 1, .qq .fcvtzs 2 2, .qq .fcvtzs 3 3, .dq .sqxtn 0 0,
    .dq .sqxtn 1 1, .dq .sqxtn 4 2, .dq .sqxtn 5 3, .dq .sqxtun 0 0, .dq .sqxtun 1 2,
    .vst1 4 [0, 1] .out 0 (.imm 16)]
    cond := .ne
    tail := [] }

/-- meta/transform_kernels_arm_32.h:113-196. -/
def rq32_1 : Prog32 :=
  { init := [.dupW 4 (.par .inputMin), .dupW 5 (.par .outputMin), .dupW 6 (.par .inputOffset),
    .dupW 7 (.par .inputScale), .dupW 8 (.par .outputInvScale), .qqq .fsub 4 4 5, .subs .count 1]
    skip := true
    body := [.subs .count 16, .vld1 [0, 1, 2, 3] .inp 0 (.imm 32), .vld1 [4, 5, 6, 7] .inp 0 (.imm 32), .qq .scvtf 0 0,
    .qq .scvtf 1 1, .qq .scvtf 2 2, .qq .scvtf 3 3, .qqq .fsub 0 0 6, .qqq .fsub 1 1 6, .qqq .fsub 2 2 6,
    .qqq .fsub 3 3 6, .qqq .fmul 0 0 7, .qqq .fmul 1 1 7, .qqq .fmul 2 2 7, .qqq .fmul 3 3 7, .qqq .fadd 0 0 4,
    .qqq .fadd 1 1 4, .qqq .fadd 2 2 4, .qqq .fadd 3 3 4, .qqq .fmul 0 0 8, .qqq .fmul 1 1 8, .qqq .fmul 2 2 8,
    .qqq .fmul 3 3 8, .qq .fcvtzs 0 0, .qq .fcvtzs 1 1, .qq .fcvtzs 2 2, .qq .fcvtzs 3 3, .dq .sqxtn 0 0,
    .dq .sqxtn 1 1, .dq .sqxtn 4 2, .dq .sqxtn 5 3, .dq .sqxtun 0 0, .dq .sqxtun 1 2,
    .vst1 4 [0, 1] .out 0 (.imm 16)]
    cond := .ne
    tail := [.vldLane 4 0 [0] .inp (.imm 4), .qq .scvtf 0 0, .qqq .fsub 0 0 6, .qqq .fmul 0 0 7, .qqq .fadd 0 0 4,
    .qqq .fmul 0 0 8, .qq .fcvtzs 0 0, .dq .sqxtn 0 0, .dq .sqxtun 0 0, .vstLane 1 0 0 .out (.imm 1)] }

/-- meta/transform_kernels_arm_32.h:210-293. -/
def rq32_2 : Prog32 :=
  { init := [.dupW 4 (.par .inputMin), .dupW 5 (.par .outputMin), .dupW 6 (.par .inputOffset),
    .dupW 7 (.par .inputScale), .dupW 8 (.par .outputInvScale), .qqq .fsub 4 4 5, .subs .count 2]
    skip := true
    body := [.subs .count 16, .vld1 [0, 1, 2, 3] .inp 0 (.imm 32), .vld1 [4, 5, 6, 7] .inp 0 (.imm 32), .qq .scvtf 0 0,
    .qq .scvtf 1 1, .qq .scvtf 2 2, .qq .scvtf 3 3, .qqq .fsub 0 0 6, .qqq .fsub 1 1 6, .qqq .fsub 2 2 6,
    .qqq .fsub 3 3 6, .qqq .fmul 0 0 7, .qqq .fmul 1 1 7, .qqq .fmul 2 2 7, .qqq .fmul 3 3 7, .qqq .fadd 0 0 4,
    .qqq .fadd 1 1 4, .qqq .fadd 2 2 4, .qqq .fadd 3 3 4, .qqq .fmul 0 0 8, .qqq .fmul 1 1 8, .qqq .fmul 2 2 8,
    .qqq .fmul 3 3 8, .qq .fcvtzs 0 0, .qq .fcvtzs 1 1, .qq .fcvtzs 2 2, .qq .fcvtzs 3 3, .dq .sqxtn 0 0,
    .dq .sqxtn 1 1, .dq .sqxtn 4 2, .dq .sqxtn 5 3, .dq .sqxtun 0 0, .dq .sqxtun 1 2,
    .vst1 4 [0, 1] .out 0 (.imm 16)]
    cond := .ne
    tail := [.vld1 [0] .inp 0 (.imm 8), .qq .scvtf 0 0, .qqq .fsub 0 0 6, .qqq .fmul 0 0 7, .qqq .fadd 0 0 4,
    .qqq .fmul 0 0 8, .qq .fcvtzs 0 0, .dq .sqxtn 0 0, .dq .sqxtun 0 0, .vstLane 2 0 0 .out (.imm 2)] }

/-- meta/transform_kernels_arm_32.h:307-392. -/
def rq32_3 : Prog32 :=
  { init := [.dupW 4 (.par .inputMin), .dupW 5 (.par .outputMin), .dupW 6 (.par .inputOffset),
    .dupW 7 (.par .inputScale), .dupW 8 (.par .outputInvScale), .qqq .fsub 4 4 5, .subs .count 3]
    skip := true
    body := [.subs .count 16, .vld1 [0, 1, 2, 3] .inp 0 (.imm 32), .vld1 [4, 5, 6, 7] .inp 0 (.imm 32), .qq .scvtf 0 0,
    .qq .scvtf 1 1, .qq .scvtf 2 2, .qq .scvtf 3 3, .qqq .fsub 0 0 6, .qqq .fsub 1 1 6, .qqq .fsub 2 2 6,
    .qqq .fsub 3 3 6, .qqq .fmul 0 0 7, .qqq .fmul 1 1 7, .qqq .fmul 2 2 7, .qqq .fmul 3 3 7, .qqq .fadd 0 0 4,
    .qqq .fadd 1 1 4, .qqq .fadd 2 2 4, .qqq .fadd 3 3 4, .qqq .fmul 0 0 8, .qqq .fmul 1 1 8, .qqq .fmul 2 2 8,
    .qqq .fmul 3 3 8, .qq .fcvtzs 0 0, .qq .fcvtzs 1 1, .qq .fcvtzs 2 2, .qq .fcvtzs 3 3, .dq .sqxtn 0 0,
    .dq .sqxtn 1 1, .dq .sqxtn 4 2, .dq .sqxtn 5 3, .dq .sqxtun 0 0, .dq .sqxtun 1 2,
    .vst1 4 [0, 1] .out 0 (.imm 16)]
    cond := .ne
    tail := [.vld1 [0] .inp 0 (.imm 8), .vldLane 4 0 [1] .inp (.imm 4), .qq .scvtf 0 0, .qqq .fsub 0 0 6,
    .qqq .fmul 0 0 7, .qqq .fadd 0 0 4, .qqq .fmul 0 0 8, .qq .fcvtzs 0 0, .dq .sqxtn 0 0, .dq .sqxtun 0 0,
    .vstLane 2 0 0 .out (.imm 2), .vstLane 1 2 0 .out (.imm 1)] }

/-- meta/transform_kernels_arm_32.h:406-489. -/
def rq32_4 : Prog32 :=
  { init := [.dupW 4 (.par .inputMin), .dupW 5 (.par .outputMin), .dupW 6 (.par .inputOffset),
    .dupW 7 (.par .inputScale), .dupW 8 (.par .outputInvScale), .qqq .fsub 4 4 5, .subs .count 4]
    skip := true
    body := [.subs .count 16, .vld1 [0, 1, 2, 3] .inp 0 (.imm 32), .vld1 [4, 5, 6, 7] .inp 0 (.imm 32), .qq .scvtf 0 0,
    .qq .scvtf 1 1, .qq .scvtf 2 2, .qq .scvtf 3 3, .qqq .fsub 0 0 6, .qqq .fsub 1 1 6, .qqq .fsub 2 2 6,
    .qqq .fsub 3 3 6, .qqq .fmul 0 0 7, .qqq .fmul 1 1 7, .qqq .fmul 2 2 7, .qqq .fmul 3 3 7, .qqq .fadd 0 0 4,
    .qqq .fadd 1 1 4, .qqq .fadd 2 2 4, .qqq .fadd 3 3 4, .qqq .fmul 0 0 8, .qqq .fmul 1 1 8, .qqq .fmul 2 2 8,
    .qqq .fmul 3 3 8, .qq .fcvtzs 0 0, .qq .fcvtzs 1 1, .qq .fcvtzs 2 2, .qq .fcvtzs 3 3, .dq .sqxtn 0 0,
    .dq .sqxtn 1 1, .dq .sqxtn 4 2, .dq .sqxtn 5 3, .dq .sqxtun 0 0, .dq .sqxtun 1 2,
    .vst1 4 [0, 1] .out 0 (.imm 16)]
    cond := .ne
    tail := [.vld1 [0, 1] .inp 0 (.imm 16), .qq .scvtf 0 0, .qqq .fsub 0 0 6, .qqq .fmul 0 0 7, .qqq .fadd 0 0 4,
    .qqq .fmul 0 0 8, .qq .fcvtzs 0 0, .dq .sqxtn 0 0, .dq .sqxtun 0 0, .vstLane 4 0 0 .out (.imm 4)] }

/-- meta/transform_kernels_arm_32.h:503-595. -/
def rq32_5 : Prog32 :=
  { init := [.dupW 4 (.par .inputMin), .dupW 5 (.par .outputMin), .dupW 6 (.par .inputOffset),
    .dupW 7 (.par .inputScale), .dupW 8 (.par .outputInvScale), .qqq .fsub 4 4 5, .subs .count 5]
    skip := true
    body := [.subs .count 16, .vld1 [0, 1, 2, 3] .inp 0 (.imm 32), .vld1 [4, 5, 6, 7] .inp 0 (.imm 32), .qq .scvtf 0 0,
    .qq .scvtf 1 1, .qq .scvtf 2 2, .qq .scvtf 3 3, .qqq .fsub 0 0 6, .qqq .fsub 1 1 6, .qqq .fsub 2 2 6,
    .qqq .fsub 3 3 6, .qqq .fmul 0 0 7, .qqq .fmul 1 1 7, .qqq .fmul 2 2 7, .qqq .fmul 3 3 7, .qqq .fadd 0 0 4,
    .qqq .fadd 1 1 4, .qqq .fadd 2 2 4, .qqq .fadd 3 3 4, .qqq .fmul 0 0 8, .qqq .fmul 1 1 8, .qqq .fmul 2 2 8,
    .qqq .fmul 3 3 8, .qq .fcvtzs 0 0, .qq .fcvtzs 1 1, .qq .fcvtzs 2 2, .qq .fcvtzs 3 3, .dq .sqxtn 0 0,
    .dq .sqxtn 1 1, .dq .sqxtn 4 2, .dq .sqxtn 5 3, .dq .sqxtun 0 0, .dq .sqxtun 1 2,
    .vst1 4 [0, 1] .out 0 (.imm 16)]
    cond := .ne
    tail := [.vld1 [0, 1] .inp 0 (.imm 16), .vldLane 4 0 [2] .inp (.imm 4), .qq .scvtf 0 0, .qq .scvtf 1 1,
    .qqq .fsub 0 0 6, .qqq .fsub 1 1 6, .qqq .fmul 0 0 7, .qqq .fmul 1 1 7, .qqq .fadd 0 0 4, .qqq .fadd 1 1 4,
    .qqq .fmul 0 0 8, .qqq .fmul 1 1 8, .qq .fcvtzs 0 0, .qq .fcvtzs 1 1, .dq .sqxtn 0 0, .dq .sqxtn 1 1,
    .dq .sqxtun 0 0, .vstLane 4 0 0 .out (.imm 4), .vstLane 1 4 0 .out (.imm 1)] }

/-- meta/transform_kernels_arm_32.h:609-700. -/
def rq32_6 : Prog32 :=
  { init := [.dupW 4 (.par .inputMin), .dupW 5 (.par .outputMin), .dupW 6 (.par .inputOffset),
    .dupW 7 (.par .inputScale), .dupW 8 (.par .outputInvScale), .qqq .fsub 4 4 5, .subs .count 6]
    skip := true
    body := [.subs .count 16, .vld1 [0, 1, 2, 3] .inp 0 (.imm 32), .vld1 [4, 5, 6, 7] .inp 0 (.imm 32), .qq .scvtf 0 0,
    .qq .scvtf 1 1, .qq .scvtf 2 2, .qq .scvtf 3 3, .qqq .fsub 0 0 6, .qqq .fsub 1 1 6, .qqq .fsub 2 2 6,
    .qqq .fsub 3 3 6, .qqq .fmul 0 0 7, .qqq .fmul 1 1 7, .qqq .fmul 2 2 7, .qqq .fmul 3 3 7, .qqq .fadd 0 0 4,
    .qqq .fadd 1 1 4, .qqq .fadd 2 2 4, .qqq .fadd 3 3 4, .qqq .fmul 0 0 8, .qqq .fmul 1 1 8, .qqq .fmul 2 2 8,
    .qqq .fmul 3 3 8, .qq .fcvtzs 0 0, .qq .fcvtzs 1 1, .qq .fcvtzs 2 2, .qq .fcvtzs 3 3, .dq .sqxtn 0 0,
    .dq .sqxtn 1 1, .dq .sqxtn 4 2, .dq .sqxtn 5 3, .dq .sqxtun 0 0, .dq .sqxtun 1 2,
    .vst1 4 [0, 1] .out 0 (.imm 16)]
    cond := .ne
    tail := [.vld1 [0, 1, 2] .inp 0 (.imm 24), .qq .scvtf 0 0, .qq .scvtf 1 1, .qqq .fsub 0 0 6, .qqq .fsub 1 1 6,
    .qqq .fmul 0 0 7, .qqq .fmul 1 1 7, .qqq .fadd 0 0 4, .qqq .fadd 1 1 4, .qqq .fmul 0 0 8, .qqq .fmul 1 1 8,
    .qq .fcvtzs 0 0, .qq .fcvtzs 1 1, .dq .sqxtn 0 0, .dq .sqxtn 1 1, .dq .sqxtun 0 0,
    .vstLane 4 0 0 .out (.imm 4), .vstLane 2 2 0 .out (.imm 2)] }

/-- meta/transform_kernels_arm_32.h:714-807. -/
def rq32_7 : Prog32 :=
  { init := [.dupW 4 (.par .inputMin), .dupW 5 (.par .outputMin), .dupW 6 (.par .inputOffset),
    .dupW 7 (.par .inputScale), .dupW 8 (.par .outputInvScale), .qqq .fsub 4 4 5, .subs .count 7]
    skip := true
    body := [.subs .count 16, .vld1 [0, 1, 2, 3] .inp 0 (.imm 32), .vld1 [4, 5, 6, 7] .inp 0 (.imm 32), .qq .scvtf 0 0,
    .qq .scvtf 1 1, .qq .scvtf 2 2, .qq .scvtf 3 3, .qqq .fsub 0 0 6, .qqq .fsub 1 1 6, .qqq .fsub 2 2 6,
    .qqq .fsub 3 3 6, .qqq .fmul 0 0 7, .qqq .fmul 1 1 7, .qqq .fmul 2 2 7, .qqq .fmul 3 3 7, .qqq .fadd 0 0 4,
    .qqq .fadd 1 1 4, .qqq .fadd 2 2 4, .qqq .fadd 3 3 4, .qqq .fmul 0 0 8, .qqq .fmul 1 1 8, .qqq .fmul 2 2 8,
    .qqq .fmul 3 3 8, .qq .fcvtzs 0 0, .qq .fcvtzs 1 1, .qq .fcvtzs 2 2, .qq .fcvtzs 3 3, .dq .sqxtn 0 0,
    .dq .sqxtn 1 1, .dq .sqxtn 4 2, .dq .sqxtn 5 3, .dq .sqxtun 0 0, .dq .sqxtun 1 2,
    .vst1 4 [0, 1] .out 0 (.imm 16)]
    cond := .ne
    tail := [.vld1 [0, 1, 2] .inp 0 (.imm 24), .vldLane 4 0 [3] .inp (.imm 4), .qq .scvtf 0 0, .qq .scvtf 1 1,
    .qqq .fsub 0 0 6, .qqq .fsub 1 1 6, .qqq .fmul 0 0 7, .qqq .fmul 1 1 7, .qqq .fadd 0 0 4, .qqq .fadd 1 1 4,
    .qqq .fmul 0 0 8, .qqq .fmul 1 1 8, .qq .fcvtzs 0 0, .qq .fcvtzs 1 1, .dq .sqxtn 0 0, .dq .sqxtn 1 1,
    .dq .sqxtun 0 0, .vstLane 4 0 0 .out (.imm 4), .vstLane 2 2 0 .out (.imm 2), .vstLane 1 6 0 .out (.imm 1)] }

/-- meta/transform_kernels_arm_32.h:821-911. -/
def rq32_8 : Prog32 :=
  { init := [.dupW 4 (.par .inputMin), .dupW 5 (.par .outputMin), .dupW 6 (.par .inputOffset),
    .dupW 7 (.par .inputScale), .dupW 8 (.par .outputInvScale), .qqq .fsub 4 4 5, .subs .count 8]
    skip := true
    body := [.subs .count 16, .vld1 [0, 1, 2, 3] .inp 0 (.imm 32), .vld1 [4, 5, 6, 7] .inp 0 (.imm 32), .qq .scvtf 0 0,
    .qq .scvtf 1 1, .qq .scvtf 2 2, .qq .scvtf 3 3, .qqq .fsub 0 0 6, .qqq .fsub 1 1 6, .qqq .fsub 2 2 6,
    .qqq .fsub 3 3 6, .qqq .fmul 0 0 7, .qqq .fmul 1 1 7, .qqq .fmul 2 2 7, .qqq .fmul 3 3 7, .qqq .fadd 0 0 4,
    .qqq .fadd 1 1 4, .qqq .fadd 2 2 4, .qqq .fadd 3 3 4, .qqq .fmul 0 0 8, .qqq .fmul 1 1 8, .qqq .fmul 2 2 8,
    .qqq .fmul 3 3 8, .qq .fcvtzs 0 0, .qq .fcvtzs 1 1, .qq .fcvtzs 2 2, .qq .fcvtzs 3 3, .dq .sqxtn 0 0,
    .dq .sqxtn 1 1, .dq .sqxtn 4 2, .dq .sqxtn 5 3, .dq .sqxtun 0 0, .dq .sqxtun 1 2,
    .vst1 4 [0, 1] .out 0 (.imm 16)]
    cond := .ne
    tail := [.vld1 [0, 1, 2, 3] .inp 0 (.imm 32), .qq .scvtf 0 0, .qq .scvtf 1 1, .qqq .fsub 0 0 6, .qqq .fsub 1 1 6,
    .qqq .fmul 0 0 7, .qqq .fmul 1 1 7, .qqq .fadd 0 0 4, .qqq .fadd 1 1 4, .qqq .fmul 0 0 8, .qqq .fmul 1 1 8,
    .qq .fcvtzs 0 0, .qq .fcvtzs 1 1, .dq .sqxtn 0 0, .dq .sqxtn 1 1, .dq .sqxtun 0 0,
    .vst1 4 [0] .out 0 (.imm 8)] }

/-- meta/transform_kernels_arm_32.h:925-1025. -/
def rq32_9 : Prog32 :=
  { init := [.dupW 4 (.par .inputMin), .dupW 5 (.par .outputMin), .dupW 6 (.par .inputOffset),
    .dupW 7 (.par .inputScale), .dupW 8 (.par .outputInvScale), .qqq .fsub 4 4 5, .subs .count 9]
    skip := true
    body := [.subs .count 16, .vld1 [0, 1, 2, 3] .inp 0 (.imm 32), .vld1 [4, 5, 6, 7] .inp 0 (.imm 32), .qq .scvtf 0 0,
    .qq .scvtf 1 1, .qq .scvtf 2 2, .qq .scvtf 3 3, .qqq .fsub 0 0 6, .qqq .fsub 1 1 6, .qqq .fsub 2 2 6,
    .qqq .fsub 3 3 6, .qqq .fmul 0 0 7, .qqq .fmul 1 1 7, .qqq .fmul 2 2 7, .qqq .fmul 3 3 7, .qqq .fadd 0 0 4,
    .qqq .fadd 1 1 4, .qqq .fadd 2 2 4, .qqq .fadd 3 3 4, .qqq .fmul 0 0 8, .qqq .fmul 1 1 8, .qqq .fmul 2 2 8,
    .qqq .fmul 3 3 8, .qq .fcvtzs 0 0, .qq .fcvtzs 1 1, .qq .fcvtzs 2 2, .qq .fcvtzs 3 3, .dq .sqxtn 0 0,
    .dq .sqxtn 1 1, .dq .sqxtn 4 2, .dq .sqxtn 5 3, .dq .sqxtun 0 0, .dq .sqxtun 1 2,
    .vst1 4 [0, 1] .out 0 (.imm 16)]
    cond := .ne
    tail := [.vld1 [0, 1, 2, 3] .inp 0 (.imm 32), .vldLane 4 0 [4] .inp (.imm 4), .qq .scvtf 0 0, .qq .scvtf 1 1,
    .qq .scvtf 2 2, .qqq .fsub 0 0 6, .qqq .fsub 1 1 6, .qqq .fsub 2 2 6, .qqq .fmul 0 0 7, .qqq .fmul 1 1 7,
    .qqq .fmul 2 2 7, .qqq .fadd 0 0 4, .qqq .fadd 1 1 4, .qqq .fadd 2 2 4, .qqq .fmul 0 0 8, .qqq .fmul 1 1 8,
    .qqq .fmul 2 2 8, .qq .fcvtzs 0 0, .qq .fcvtzs 1 1, .qq .fcvtzs 2 2, .dq .sqxtn 0 0, .dq .sqxtn 1 1,
    .dq .sqxtn 4 2, .dq .sqxtun 0 0, .dq .sqxtun 1 2, .vst1 4 [0] .out 0 (.imm 8), .vstLane 1 0 1 .out (.imm 1)] }

/-- meta/transform_kernels_arm_32.h:1039-1139. -/
def rq32_10 : Prog32 :=
  { init := [.dupW 4 (.par .inputMin), .dupW 5 (.par .outputMin), .dupW 6 (.par .inputOffset),
    .dupW 7 (.par .inputScale), .dupW 8 (.par .outputInvScale), .qqq .fsub 4 4 5, .subs .count 10]
    skip := true
    body := [.subs .count 16, .vld1 [0, 1, 2, 3] .inp 0 (.imm 32), .vld1 [4, 5, 6, 7] .inp 0 (.imm 32), .qq .scvtf 0 0,
    .qq .scvtf 1 1, .qq .scvtf 2 2, .qq .scvtf 3 3, .qqq .fsub 0 0 6, .qqq .fsub 1 1 6, .qqq .fsub 2 2 6,
    .qqq .fsub 3 3 6, .qqq .fmul 0 0 7, .qqq .fmul 1 1 7, .qqq .fmul 2 2 7, .qqq .fmul 3 3 7, .qqq .fadd 0 0 4,
    .qqq .fadd 1 1 4, .qqq .fadd 2 2 4, .qqq .fadd 3 3 4, .qqq .fmul 0 0 8, .qqq .fmul 1 1 8, .qqq .fmul 2 2 8,
    .qqq .fmul 3 3 8, .qq .fcvtzs 0 0, .qq .fcvtzs 1 1, .qq .fcvtzs 2 2, .qq .fcvtzs 3 3, .dq .sqxtn 0 0,
    .dq .sqxtn 1 1, .dq .sqxtn 4 2, .dq .sqxtn 5 3, .dq .sqxtun 0 0, .dq .sqxtun 1 2,
    .vst1 4 [0, 1] .out 0 (.imm 16)]
    cond := .ne
    tail := [.vld1 [0, 1, 2, 3] .inp 0 (.imm 32), .vld1 [4] .inp 0 (.imm 8), .qq .scvtf 0 0, .qq .scvtf 1 1,
    .qq .scvtf 2 2, .qqq .fsub 0 0 6, .qqq .fsub 1 1 6, .qqq .fsub 2 2 6, .qqq .fmul 0 0 7, .qqq .fmul 1 1 7,
    .qqq .fmul 2 2 7, .qqq .fadd 0 0 4, .qqq .fadd 1 1 4, .qqq .fadd 2 2 4, .qqq .fmul 0 0 8, .qqq .fmul 1 1 8,
    .qqq .fmul 2 2 8, .qq .fcvtzs 0 0, .qq .fcvtzs 1 1, .qq .fcvtzs 2 2, .dq .sqxtn 0 0, .dq .sqxtn 1 1,
    .dq .sqxtn 4 2, .dq .sqxtun 0 0, .dq .sqxtun 1 2, .vst1 4 [0] .out 0 (.imm 8), .vstLane 2 0 1 .out (.imm 2)] }

/-- meta/transform_kernels_arm_32.h:1153-1255. -/
def rq32_11 : Prog32 :=
  { init := [.dupW 4 (.par .inputMin), .dupW 5 (.par .outputMin), .dupW 6 (.par .inputOffset),
    .dupW 7 (.par .inputScale), .dupW 8 (.par .outputInvScale), .qqq .fsub 4 4 5, .subs .count 11]
    skip := true
    body := [.subs .count 16, .vld1 [0, 1, 2, 3] .inp 0 (.imm 32), .vld1 [4, 5, 6, 7] .inp 0 (.imm 32), .qq .scvtf 0 0,
    .qq .scvtf 1 1, .qq .scvtf 2 2, .qq .scvtf 3 3, .qqq .fsub 0 0 6, .qqq .fsub 1 1 6, .qqq .fsub 2 2 6,
    .qqq .fsub 3 3 6, .qqq .fmul 0 0 7, .qqq .fmul 1 1 7, .qqq .fmul 2 2 7, .qqq .fmul 3 3 7, .qqq .fadd 0 0 4,
    .qqq .fadd 1 1 4, .qqq .fadd 2 2 4, .qqq .fadd 3 3 4, .qqq .fmul 0 0 8, .qqq .fmul 1 1 8, .qqq .fmul 2 2 8,
    .qqq .fmul 3 3 8, .qq .fcvtzs 0 0, .qq .fcvtzs 1 1, .qq .fcvtzs 2 2, .qq .fcvtzs 3 3, .dq .sqxtn 0 0,
    .dq .sqxtn 1 1, .dq .sqxtn 4 2, .dq .sqxtn 5 3, .dq .sqxtun 0 0, .dq .sqxtun 1 2,
    .vst1 4 [0, 1] .out 0 (.imm 16)]
    cond := .ne
    tail := [.vld1 [0, 1, 2, 3] .inp 0 (.imm 32), .vld1 [4] .inp 0 (.imm 8), .vldLane 4 0 [5] .inp (.imm 4),
    .qq .scvtf 0 0, .qq .scvtf 1 1, .qq .scvtf 2 2, .qqq .fsub 0 0 6, .qqq .fsub 1 1 6, .qqq .fsub 2 2 6,
    .qqq .fmul 0 0 7, .qqq .fmul 1 1 7, .qqq .fmul 2 2 7, .qqq .fadd 0 0 4, .qqq .fadd 1 1 4, .qqq .fadd 2 2 4,
    .qqq .fmul 0 0 8, .qqq .fmul 1 1 8, .qqq .fmul 2 2 8, .qq .fcvtzs 0 0, .qq .fcvtzs 1 1, .qq .fcvtzs 2 2,
    .dq .sqxtn 0 0, .dq .sqxtn 1 1, .dq .sqxtn 4 2, .dq .sqxtun 0 0, .dq .sqxtun 1 2,
    .vst1 4 [0] .out 0 (.imm 8), .vstLane 2 0 1 .out (.imm 2), .vstLane 1 2 1 .out (.imm 1)] }

/-- meta/transform_kernels_arm_32.h:1269-1369. -/
def rq32_12 : Prog32 :=
  { init := [.dupW 4 (.par .inputMin), .dupW 5 (.par .outputMin), .dupW 6 (.par .inputOffset),
    .dupW 7 (.par .inputScale), .dupW 8 (.par .outputInvScale), .qqq .fsub 4 4 5, .subs .count 12]
    skip := true
    body := [.subs .count 16, .vld1 [0, 1, 2, 3] .inp 0 (.imm 32), .vld1 [4, 5, 6, 7] .inp 0 (.imm 32), .qq .scvtf 0 0,
    .qq .scvtf 1 1, .qq .scvtf 2 2, .qq .scvtf 3 3, .qqq .fsub 0 0 6, .qqq .fsub 1 1 6, .qqq .fsub 2 2 6,
    .qqq .fsub 3 3 6, .qqq .fmul 0 0 7, .qqq .fmul 1 1 7, .qqq .fmul 2 2 7, .qqq .fmul 3 3 7, .qqq .fadd 0 0 4,
    .qqq .fadd 1 1 4, .qqq .fadd 2 2 4, .qqq .fadd 3 3 4, .qqq .fmul 0 0 8, .qqq .fmul 1 1 8, .qqq .fmul 2 2 8,
    .qqq .fmul 3 3 8, .qq .fcvtzs 0 0, .qq .fcvtzs 1 1, .qq .fcvtzs 2 2, .qq .fcvtzs 3 3, .dq .sqxtn 0 0,
    .dq .sqxtn 1 1, .dq .sqxtn 4 2, .dq .sqxtn 5 3, .dq .sqxtun 0 0, .dq .sqxtun 1 2,
    .vst1 4 [0, 1] .out 0 (.imm 16)]
    cond := .ne
    tail := [.vld1 [0, 1, 2, 3] .inp 0 (.imm 32), .vld1 [4, 5] .inp 0 (.imm 16), .qq .scvtf 0 0, .qq .scvtf 1 1,
    .qq .scvtf 2 2, .qqq .fsub 0 0 6, .qqq .fsub 1 1 6, .qqq .fsub 2 2 6, .qqq .fmul 0 0 7, .qqq .fmul 1 1 7,
    .qqq .fmul 2 2 7, .qqq .fadd 0 0 4, .qqq .fadd 1 1 4, .qqq .fadd 2 2 4, .qqq .fmul 0 0 8, .qqq .fmul 1 1 8,
    .qqq .fmul 2 2 8, .qq .fcvtzs 0 0, .qq .fcvtzs 1 1, .qq .fcvtzs 2 2, .dq .sqxtn 0 0, .dq .sqxtn 1 1,
    .dq .sqxtn 4 2, .dq .sqxtun 0 0, .dq .sqxtun 1 2, .vst1 4 [0] .out 0 (.imm 8), .vstLane 4 0 1 .out (.imm 4)] }

/-- meta/transform_kernels_arm_32.h:1383-1492. -/
def rq32_13 : Prog32 :=
  { init := [.dupW 4 (.par .inputMin), .dupW 5 (.par .outputMin), .dupW 6 (.par .inputOffset),
    .dupW 7 (.par .inputScale), .dupW 8 (.par .outputInvScale), .qqq .fsub 4 4 5, .subs .count 13]
    skip := true
    body := [.subs .count 16, .vld1 [0, 1, 2, 3] .inp 0 (.imm 32), .vld1 [4, 5, 6, 7] .inp 0 (.imm 32), .qq .scvtf 0 0,
    .qq .scvtf 1 1, .qq .scvtf 2 2, .qq .scvtf 3 3, .qqq .fsub 0 0 6, .qqq .fsub 1 1 6, .qqq .fsub 2 2 6,
    .qqq .fsub 3 3 6, .qqq .fmul 0 0 7, .qqq .fmul 1 1 7, .qqq .fmul 2 2 7, .qqq .fmul 3 3 7, .qqq .fadd 0 0 4,
    .qqq .fadd 1 1 4, .qqq .fadd 2 2 4, .qqq .fadd 3 3 4, .qqq .fmul 0 0 8, .qqq .fmul 1 1 8, .qqq .fmul 2 2 8,
    .qqq .fmul 3 3 8, .qq .fcvtzs 0 0, .qq .fcvtzs 1 1, .qq .fcvtzs 2 2, .qq .fcvtzs 3 3, .dq .sqxtn 0 0,
    .dq .sqxtn 1 1, .dq .sqxtn 4 2, .dq .sqxtn 5 3, .dq .sqxtun 0 0, .dq .sqxtun 1 2,
    .vst1 4 [0, 1] .out 0 (.imm 16)]
    cond := .ne
    tail := [.vld1 [0, 1, 2, 3] .inp 0 (.imm 32), .vld1 [4, 5] .inp 0 (.imm 16), .vldLane 4 0 [6] .inp (.imm 4),
    .qq .scvtf 0 0, .qq .scvtf 1 1, .qq .scvtf 2 2, .qq .scvtf 3 3, .qqq .fsub 0 0 6, .qqq .fsub 1 1 6,
    .qqq .fsub 2 2 6, .qqq .fsub 3 3 6, .qqq .fmul 0 0 7, .qqq .fmul 1 1 7, .qqq .fmul 2 2 7, .qqq .fmul 3 3 7,
    .qqq .fadd 0 0 4, .qqq .fadd 1 1 4, .qqq .fadd 2 2 4, .qqq .fadd 3 3 4, .qqq .fmul 0 0 8, .qqq .fmul 1 1 8,
    .qqq .fmul 2 2 8, .qqq .fmul 3 3 8, .qq .fcvtzs 0 0, .qq .fcvtzs 1 1, .qq .fcvtzs 2 2, .qq .fcvtzs 3 3,
    .dq .sqxtn 0 0, .dq .sqxtn 1 1, .dq .sqxtn 4 2, .dq .sqxtn 5 3, .dq .sqxtun 0 0, .dq .sqxtun 1 2,
    .vst1 4 [0] .out 0 (.imm 8), .vstLane 4 0 1 .out (.imm 4), .vstLane 1 4 1 .out (.imm 1)] }

/-- meta/transform_kernels_arm_32.h:1506-1614. -/
def rq32_14 : Prog32 :=
  { init := [.dupW 4 (.par .inputMin), .dupW 5 (.par .outputMin), .dupW 6 (.par .inputOffset),
    .dupW 7 (.par .inputScale), .dupW 8 (.par .outputInvScale), .qqq .fsub 4 4 5, .subs .count 14]
    skip := true
    body := [.subs .count 16, .vld1 [0, 1, 2, 3] .inp 0 (.imm 32), .vld1 [4, 5, 6, 7] .inp 0 (.imm 32), .qq .scvtf 0 0,
    .qq .scvtf 1 1, .qq .scvtf 2 2, .qq .scvtf 3 3, .qqq .fsub 0 0 6, .qqq .fsub 1 1 6, .qqq .fsub 2 2 6,
    .qqq .fsub 3 3 6, .qqq .fmul 0 0 7, .qqq .fmul 1 1 7, .qqq .fmul 2 2 7, .qqq .fmul 3 3 7, .qqq .fadd 0 0 4,
    .qqq .fadd 1 1 4, .qqq .fadd 2 2 4, .qqq .fadd 3 3 4, .qqq .fmul 0 0 8, .qqq .fmul 1 1 8, .qqq .fmul 2 2 8,
    .qqq .fmul 3 3 8, .qq .fcvtzs 0 0, .qq .fcvtzs 1 1, .qq .fcvtzs 2 2, .qq .fcvtzs 3 3, .dq .sqxtn 0 0,
    .dq .sqxtn 1 1, .dq .sqxtn 4 2, .dq .sqxtn 5 3, .dq .sqxtun 0 0, .dq .sqxtun 1 2,
    .vst1 4 [0, 1] .out 0 (.imm 16)]
    cond := .ne
    tail := [.vld1 [0, 1, 2, 3] .inp 0 (.imm 32), .vld1 [4, 5, 6] .inp 0 (.imm 24), .qq .scvtf 0 0, .qq .scvtf 1 1,
    .qq .scvtf 2 2, .qq .scvtf 3 3, .qqq .fsub 0 0 6, .qqq .fsub 1 1 6, .qqq .fsub 2 2 6, .qqq .fsub 3 3 6,
    .qqq .fmul 0 0 7, .qqq .fmul 1 1 7, .qqq .fmul 2 2 7, .qqq .fmul 3 3 7, .qqq .fadd 0 0 4, .qqq .fadd 1 1 4,
    .qqq .fadd 2 2 4, .qqq .fadd 3 3 4, .qqq .fmul 0 0 8, .qqq .fmul 1 1 8, .qqq .fmul 2 2 8, .qqq .fmul 3 3 8,
    .qq .fcvtzs 0 0, .qq .fcvtzs 1 1, .qq .fcvtzs 2 2, .qq .fcvtzs 3 3, .dq .sqxtn 0 0, .dq .sqxtn 1 1,
    .dq .sqxtn 4 2, .dq .sqxtn 5 3, .dq .sqxtun 0 0, .dq .sqxtun 1 2, .vst1 4 [0] .out 0 (.imm 8),
    .vstLane 4 0 1 .out (.imm 4), .vstLane 2 2 1 .out (.imm 2)] }

/-- meta/transform_kernels_arm_32.h:1628-1738. -/
def rq32_15 : Prog32 :=
  { init := [.dupW 4 (.par .inputMin), .dupW 5 (.par .outputMin), .dupW 6 (.par .inputOffset),
    .dupW 7 (.par .inputScale), .dupW 8 (.par .outputInvScale), .qqq .fsub 4 4 5, .subs .count 15]
    skip := true
    body := [.subs .count 16, .vld1 [0, 1, 2, 3] .inp 0 (.imm 32), .vld1 [4, 5, 6, 7] .inp 0 (.imm 32), .qq .scvtf 0 0,
    .qq .scvtf 1 1, .qq .scvtf 2 2, .qq .scvtf 3 3, .qqq .fsub 0 0 6, .qqq .fsub 1 1 6, .qqq .fsub 2 2 6,
    .qqq .fsub 3 3 6, .qqq .fmul 0 0 7, .qqq .fmul 1 1 7, .qqq .fmul 2 2 7, .qqq .fmul 3 3 7, .qqq .fadd 0 0 4,
    .qqq .fadd 1 1 4, .qqq .fadd 2 2 4, .qqq .fadd 3 3 4, .qqq .fmul 0 0 8, .qqq .fmul 1 1 8, .qqq .fmul 2 2 8,
    .qqq .fmul 3 3 8, .qq .fcvtzs 0 0, .qq .fcvtzs 1 1, .qq .fcvtzs 2 2, .qq .fcvtzs 3 3, .dq .sqxtn 0 0,
    .dq .sqxtn 1 1, .dq .sqxtn 4 2, .dq .sqxtn 5 3, .dq .sqxtun 0 0, .dq .sqxtun 1 2,
    .vst1 4 [0, 1] .out 0 (.imm 16)]
    cond := .ne
    tail := [.vld1 [0, 1, 2, 3] .inp 0 (.imm 32), .vld1 [4, 5, 6] .inp 0 (.imm 24), .vldLane 4 0 [7] .inp (.imm 4),
    .qq .scvtf 0 0, .qq .scvtf 1 1, .qq .scvtf 2 2, .qq .scvtf 3 3, .qqq .fsub 0 0 6, .qqq .fsub 1 1 6,
    .qqq .fsub 2 2 6, .qqq .fsub 3 3 6, .qqq .fmul 0 0 7, .qqq .fmul 1 1 7, .qqq .fmul 2 2 7, .qqq .fmul 3 3 7,
    .qqq .fadd 0 0 4, .qqq .fadd 1 1 4, .qqq .fadd 2 2 4, .qqq .fadd 3 3 4, .qqq .fmul 0 0 8, .qqq .fmul 1 1 8,
    .qqq .fmul 2 2 8, .qqq .fmul 3 3 8, .qq .fcvtzs 0 0, .qq .fcvtzs 1 1, .qq .fcvtzs 2 2, .qq .fcvtzs 3 3,
    .dq .sqxtn 0 0, .dq .sqxtn 1 1, .dq .sqxtn 4 2, .dq .sqxtn 5 3, .dq .sqxtun 0 0, .dq .sqxtun 1 2,
    .vst1 4 [0] .out 0 (.imm 8), .vstLane 4 0 1 .out (.imm 4), .vstLane 2 2 1 .out (.imm 2),
    .vstLane 1 6 1 .out (.imm 1)] }

/-- The code for a number of leftovers: the specialisations of `Transform1DKernel` for `Requantize`. -/
def rq32Prog : Nat → Option Prog32
  | 0 => some rq32_0
  | 1 => some rq32_1
  | 2 => some rq32_2
  | 3 => some rq32_3
  | 4 => some rq32_4
  | 5 => some rq32_5
  | 6 => some rq32_6
  | 7 => some rq32_7
  | 8 => some rq32_8
  | 9 => some rq32_9
  | 10 => some rq32_10
  | 11 => some rq32_11
  | 12 => some rq32_12
  | 13 => some rq32_13
  | 14 => some rq32_14
  | 15 => some rq32_15
  | _ => none

/-- meta/transform_kernels_arm_32.h:1752-1799. -/
def qz32_0 : Prog32 :=
  { init := [.dupW 4 (.par .rangeMin), .dupW 5 (.par .rangeOffset), .dupW 6 (.par .rangeScale)]
    skip := false
    body := [.subs .count 16, .vld1 [0, 1, 2, 3] .inp 0 (.imm 32), .vld1 [4, 5, 6, 7] .inp 0 (.imm 32),
    .qqq .fsub 0 0 4, .qqq .fsub 1 1 4, .qqq .fsub 2 2 4, .qqq .fsub 3 3 4, .qqq .fmul 0 0 6, .qqq .fmul 1 1 6,
    .qqq .fmul 2 2 6, .qqq .fmul 3 3 6, .qqq .fadd 0 0 5, .qqq .fadd 1 1 5, .qqq .fadd 2 2 5, .qqq .fadd 3 3 5,
    .qq .fcvtzs 0 0, .qq .fcvtzs 1 1, .qq .fcvtzs 2 2, .qq .fcvtzs 3 3, .dq .sqxtn 0 0, .dq .sqxtn 1 1,
    .dq .sqxtn 4 2, .dq .sqxtn 5 3, .dq .sqxtun 0 0, .dq .sqxtun 1 2, .vst1 4 [0, 1] .out 0 (.imm 16)]
    cond := .ne
    tail := [] }

/-- meta/transform_kernels_arm_32.h:1813-1880. -/
def qz32_1 : Prog32 :=
  { init := [.dupW 4 (.par .rangeMin), .dupW 5 (.par .rangeOffset), .dupW 6 (.par .rangeScale), .subs .count 1]
    skip := true
    body := [.subs .count 16, .vld1 [0, 1, 2, 3] .inp 0 (.imm 32), .vld1 [4, 5, 6, 7] .inp 0 (.imm 32),
    .qqq .fsub 0 0 4, .qqq .fsub 1 1 4, .qqq .fsub 2 2 4, .qqq .fsub 3 3 4, .qqq .fmul 0 0 6, .qqq .fmul 1 1 6,
    .qqq .fmul 2 2 6, .qqq .fmul 3 3 6, .qqq .fadd 0 0 5, .qqq .fadd 1 1 5, .qqq .fadd 2 2 5, .qqq .fadd 3 3 5,
    .qq .fcvtzs 0 0, .qq .fcvtzs 1 1, .qq .fcvtzs 2 2, .qq .fcvtzs 3 3, .dq .sqxtn 0 0, .dq .sqxtn 1 1,
    .dq .sqxtn 4 2, .dq .sqxtn 5 3, .dq .sqxtun 0 0, .dq .sqxtun 1 2, .vst1 4 [0, 1] .out 0 (.imm 16)]
    cond := .ne
    tail := [.vldLane 4 0 [0] .inp (.imm 4), .qqq .fsub 0 0 4, .qqq .fmul 0 0 6, .qqq .fadd 0 0 5, .qq .fcvtzs 0 0,
    .dq .sqxtn 0 0, .dq .sqxtun 0 0, .vstLane 1 0 0 .out (.imm 1)] }

/-- meta/transform_kernels_arm_32.h:1894-1961. -/
def qz32_2 : Prog32 :=
  { init := [.dupW 4 (.par .rangeMin), .dupW 5 (.par .rangeOffset), .dupW 6 (.par .rangeScale), .subs .count 2]
    skip := true
    body := [.subs .count 16, .vld1 [0, 1, 2, 3] .inp 0 (.imm 32), .vld1 [4, 5, 6, 7] .inp 0 (.imm 32),
    .qqq .fsub 0 0 4, .qqq .fsub 1 1 4, .qqq .fsub 2 2 4, .qqq .fsub 3 3 4, .qqq .fmul 0 0 6, .qqq .fmul 1 1 6,
    .qqq .fmul 2 2 6, .qqq .fmul 3 3 6, .qqq .fadd 0 0 5, .qqq .fadd 1 1 5, .qqq .fadd 2 2 5, .qqq .fadd 3 3 5,
    .qq .fcvtzs 0 0, .qq .fcvtzs 1 1, .qq .fcvtzs 2 2, .qq .fcvtzs 3 3, .dq .sqxtn 0 0, .dq .sqxtn 1 1,
    .dq .sqxtn 4 2, .dq .sqxtn 5 3, .dq .sqxtun 0 0, .dq .sqxtun 1 2, .vst1 4 [0, 1] .out 0 (.imm 16)]
    cond := .ne
    tail := [.vld1 [0] .inp 0 (.imm 8), .qqq .fsub 0 0 4, .qqq .fmul 0 0 6, .qqq .fadd 0 0 5, .qq .fcvtzs 0 0,
    .dq .sqxtn 0 0, .dq .sqxtun 0 0, .vstLane 2 0 0 .out (.imm 2)] }

/-- meta/transform_kernels_arm_32.h:1975-2044. -/
def qz32_3 : Prog32 :=
  { init := [.dupW 4 (.par .rangeMin), .dupW 5 (.par .rangeOffset), .dupW 6 (.par .rangeScale), .subs .count 3]
    skip := true
    body := [.subs .count 16, .vld1 [0, 1, 2, 3] .inp 0 (.imm 32), .vld1 [4, 5, 6, 7] .inp 0 (.imm 32),
    .qqq .fsub 0 0 4, .qqq .fsub 1 1 4, .qqq .fsub 2 2 4, .qqq .fsub 3 3 4, .qqq .fmul 0 0 6, .qqq .fmul 1 1 6,
    .qqq .fmul 2 2 6, .qqq .fmul 3 3 6, .qqq .fadd 0 0 5, .qqq .fadd 1 1 5, .qqq .fadd 2 2 5, .qqq .fadd 3 3 5,
    .qq .fcvtzs 0 0, .qq .fcvtzs 1 1, .qq .fcvtzs 2 2, .qq .fcvtzs 3 3, .dq .sqxtn 0 0, .dq .sqxtn 1 1,
    .dq .sqxtn 4 2, .dq .sqxtn 5 3, .dq .sqxtun 0 0, .dq .sqxtun 1 2, .vst1 4 [0, 1] .out 0 (.imm 16)]
    cond := .ne
    tail := [.vld1 [0] .inp 0 (.imm 8), .vldLane 4 0 [1] .inp (.imm 4), .qqq .fsub 0 0 4, .qqq .fmul 0 0 6,
    .qqq .fadd 0 0 5, .qq .fcvtzs 0 0, .dq .sqxtn 0 0, .dq .sqxtun 0 0, .vstLane 2 0 0 .out (.imm 2),
    .vstLane 1 2 0 .out (.imm 1)] }

/-- meta/transform_kernels_arm_32.h:2058-2125. -/
def qz32_4 : Prog32 :=
  { init := [.dupW 4 (.par .rangeMin), .dupW 5 (.par .rangeOffset), .dupW 6 (.par .rangeScale), .subs .count 4]
    skip := true
    body := [.subs .count 16, .vld1 [0, 1, 2, 3] .inp 0 (.imm 32), .vld1 [4, 5, 6, 7] .inp 0 (.imm 32),
    .qqq .fsub 0 0 4, .qqq .fsub 1 1 4, .qqq .fsub 2 2 4, .qqq .fsub 3 3 4, .qqq .fmul 0 0 6, .qqq .fmul 1 1 6,
    .qqq .fmul 2 2 6, .qqq .fmul 3 3 6, .qqq .fadd 0 0 5, .qqq .fadd 1 1 5, .qqq .fadd 2 2 5, .qqq .fadd 3 3 5,
    .qq .fcvtzs 0 0, .qq .fcvtzs 1 1, .qq .fcvtzs 2 2, .qq .fcvtzs 3 3, .dq .sqxtn 0 0, .dq .sqxtn 1 1,
    .dq .sqxtn 4 2, .dq .sqxtn 5 3, .dq .sqxtun 0 0, .dq .sqxtun 1 2, .vst1 4 [0, 1] .out 0 (.imm 16)]
    cond := .ne
    tail := [.vld1 [0, 1] .inp 0 (.imm 16), .qqq .fsub 0 0 4, .qqq .fmul 0 0 6, .qqq .fadd 0 0 5, .qq .fcvtzs 0 0,
    .dq .sqxtn 0 0, .dq .sqxtun 0 0, .vstLane 4 0 0 .out (.imm 4)] }

/-- meta/transform_kernels_arm_32.h:2139-2213. -/
def qz32_5 : Prog32 :=
  { init := [.dupW 4 (.par .rangeMin), .dupW 5 (.par .rangeOffset), .dupW 6 (.par .rangeScale), .subs .count 5]
    skip := true
    body := [.subs .count 16, .vld1 [0, 1, 2, 3] .inp 0 (.imm 32), .vld1 [4, 5, 6, 7] .inp 0 (.imm 32),
    .qqq .fsub 0 0 4, .qqq .fsub 1 1 4, .qqq .fsub 2 2 4, .qqq .fsub 3 3 4, .qqq .fmul 0 0 6, .qqq .fmul 1 1 6,
    .qqq .fmul 2 2 6, .qqq .fmul 3 3 6, .qqq .fadd 0 0 5, .qqq .fadd 1 1 5, .qqq .fadd 2 2 5, .qqq .fadd 3 3 5,
    .qq .fcvtzs 0 0, .qq .fcvtzs 1 1, .qq .fcvtzs 2 2, .qq .fcvtzs 3 3, .dq .sqxtn 0 0, .dq .sqxtn 1 1,
    .dq .sqxtn 4 2, .dq .sqxtn 5 3, .dq .sqxtun 0 0, .dq .sqxtun 1 2, .vst1 4 [0, 1] .out 0 (.imm 16)]
    cond := .ne
    tail := [.vld1 [0, 1] .inp 0 (.imm 16), .vldLane 4 0 [2] .inp (.imm 4), .qqq .fsub 0 0 4, .qqq .fsub 1 1 4,
    .qqq .fmul 0 0 6, .qqq .fmul 1 1 6, .qqq .fadd 0 0 5, .qqq .fadd 1 1 5, .qq .fcvtzs 0 0, .qq .fcvtzs 1 1,
    .dq .sqxtn 0 0, .dq .sqxtn 1 1, .dq .sqxtun 0 0, .vstLane 4 0 0 .out (.imm 4), .vstLane 1 4 0 .out (.imm 1)] }

/-- meta/transform_kernels_arm_32.h:2227-2300. -/
def qz32_6 : Prog32 :=
  { init := [.dupW 4 (.par .rangeMin), .dupW 5 (.par .rangeOffset), .dupW 6 (.par .rangeScale), .subs .count 6]
    skip := true
    body := [.subs .count 16, .vld1 [0, 1, 2, 3] .inp 0 (.imm 32), .vld1 [4, 5, 6, 7] .inp 0 (.imm 32),
    .qqq .fsub 0 0 4, .qqq .fsub 1 1 4, .qqq .fsub 2 2 4, .qqq .fsub 3 3 4, .qqq .fmul 0 0 6, .qqq .fmul 1 1 6,
    .qqq .fmul 2 2 6, .qqq .fmul 3 3 6, .qqq .fadd 0 0 5, .qqq .fadd 1 1 5, .qqq .fadd 2 2 5, .qqq .fadd 3 3 5,
    .qq .fcvtzs 0 0, .qq .fcvtzs 1 1, .qq .fcvtzs 2 2, .qq .fcvtzs 3 3, .dq .sqxtn 0 0, .dq .sqxtn 1 1,
    .dq .sqxtn 4 2, .dq .sqxtn 5 3, .dq .sqxtun 0 0, .dq .sqxtun 1 2, .vst1 4 [0, 1] .out 0 (.imm 16)]
    cond := .ne
    tail := [.vld1 [0, 1, 2] .inp 0 (.imm 24), .qqq .fsub 0 0 4, .qqq .fsub 1 1 4, .qqq .fmul 0 0 6, .qqq .fmul 1 1 6,
    .qqq .fadd 0 0 5, .qqq .fadd 1 1 5, .qq .fcvtzs 0 0, .qq .fcvtzs 1 1, .dq .sqxtn 0 0, .dq .sqxtn 1 1,
    .dq .sqxtun 0 0, .vstLane 4 0 0 .out (.imm 4), .vstLane 2 2 0 .out (.imm 2)] }

/-- meta/transform_kernels_arm_32.h:2314-2389. -/
def qz32_7 : Prog32 :=
  { init := [.dupW 4 (.par .rangeMin), .dupW 5 (.par .rangeOffset), .dupW 6 (.par .rangeScale), .subs .count 7]
    skip := true
    body := [.subs .count 16, .vld1 [0, 1, 2, 3] .inp 0 (.imm 32), .vld1 [4, 5, 6, 7] .inp 0 (.imm 32),
    .qqq .fsub 0 0 4, .qqq .fsub 1 1 4, .qqq .fsub 2 2 4, .qqq .fsub 3 3 4, .qqq .fmul 0 0 6, .qqq .fmul 1 1 6,
    .qqq .fmul 2 2 6, .qqq .fmul 3 3 6, .qqq .fadd 0 0 5, .qqq .fadd 1 1 5, .qqq .fadd 2 2 5, .qqq .fadd 3 3 5,
    .qq .fcvtzs 0 0, .qq .fcvtzs 1 1, .qq .fcvtzs 2 2, .qq .fcvtzs 3 3, .dq .sqxtn 0 0, .dq .sqxtn 1 1,
    .dq .sqxtn 4 2, .dq .sqxtn 5 3, .dq .sqxtun 0 0, .dq .sqxtun 1 2, .vst1 4 [0, 1] .out 0 (.imm 16)]
    cond := .ne
    tail := [.vld1 [0, 1, 2] .inp 0 (.imm 24), .vldLane 4 0 [3] .inp (.imm 4), .qqq .fsub 0 0 4, .qqq .fsub 1 1 4,
    .qqq .fmul 0 0 6, .qqq .fmul 1 1 6, .qqq .fadd 0 0 5, .qqq .fadd 1 1 5, .qq .fcvtzs 0 0, .qq .fcvtzs 1 1,
    .dq .sqxtn 0 0, .dq .sqxtn 1 1, .dq .sqxtun 0 0, .vstLane 4 0 0 .out (.imm 4),
    .vstLane 2 2 0 .out (.imm 2), .vstLane 1 6 0 .out (.imm 1)] }

/-- meta/transform_kernels_arm_32.h:2403-2475. -/
def qz32_8 : Prog32 :=
  { init := [.dupW 4 (.par .rangeMin), .dupW 5 (.par .rangeOffset), .dupW 6 (.par .rangeScale), .subs .count 8]
    skip := true
    body := [.subs .count 16, .vld1 [0, 1, 2, 3] .inp 0 (.imm 32), .vld1 [4, 5, 6, 7] .inp 0 (.imm 32),
    .qqq .fsub 0 0 4, .qqq .fsub 1 1 4, .qqq .fsub 2 2 4, .qqq .fsub 3 3 4, .qqq .fmul 0 0 6, .qqq .fmul 1 1 6,
    .qqq .fmul 2 2 6, .qqq .fmul 3 3 6, .qqq .fadd 0 0 5, .qqq .fadd 1 1 5, .qqq .fadd 2 2 5, .qqq .fadd 3 3 5,
    .qq .fcvtzs 0 0, .qq .fcvtzs 1 1, .qq .fcvtzs 2 2, .qq .fcvtzs 3 3, .dq .sqxtn 0 0, .dq .sqxtn 1 1,
    .dq .sqxtn 4 2, .dq .sqxtn 5 3, .dq .sqxtun 0 0, .dq .sqxtun 1 2, .vst1 4 [0, 1] .out 0 (.imm 16)]
    cond := .ne
    tail := [.vld1 [0, 1, 2, 3] .inp 0 (.imm 32), .qqq .fsub 0 0 4, .qqq .fsub 1 1 4, .qqq .fmul 0 0 6,
    .qqq .fmul 1 1 6, .qqq .fadd 0 0 5, .qqq .fadd 1 1 5, .qq .fcvtzs 0 0, .qq .fcvtzs 1 1, .dq .sqxtn 0 0,
    .dq .sqxtn 1 1, .dq .sqxtun 0 0, .vst1 4 [0] .out 0 (.imm 8)] }

/-- meta/transform_kernels_arm_32.h:2489-2569. -/
def qz32_9 : Prog32 :=
  { init := [.dupW 4 (.par .rangeMin), .dupW 5 (.par .rangeOffset), .dupW 6 (.par .rangeScale), .subs .count 9]
    skip := true
    body := [.subs .count 16, .vld1 [0, 1, 2, 3] .inp 0 (.imm 32), .vld1 [4, 5, 6, 7] .inp 0 (.imm 32),
    .qqq .fsub 0 0 4, .qqq .fsub 1 1 4, .qqq .fsub 2 2 4, .qqq .fsub 3 3 4, .qqq .fmul 0 0 6, .qqq .fmul 1 1 6,
    .qqq .fmul 2 2 6, .qqq .fmul 3 3 6, .qqq .fadd 0 0 5, .qqq .fadd 1 1 5, .qqq .fadd 2 2 5, .qqq .fadd 3 3 5,
    .qq .fcvtzs 0 0, .qq .fcvtzs 1 1, .qq .fcvtzs 2 2, .qq .fcvtzs 3 3, .dq .sqxtn 0 0, .dq .sqxtn 1 1,
    .dq .sqxtn 4 2, .dq .sqxtn 5 3, .dq .sqxtun 0 0, .dq .sqxtun 1 2, .vst1 4 [0, 1] .out 0 (.imm 16)]
    cond := .ne
    tail := [.vld1 [0, 1, 2, 3] .inp 0 (.imm 32), .vldLane 4 0 [4] .inp (.imm 4), .qqq .fsub 0 0 4, .qqq .fsub 1 1 4,
    .qqq .fsub 2 2 4, .qqq .fmul 0 0 6, .qqq .fmul 1 1 6, .qqq .fmul 2 2 6, .qqq .fadd 0 0 5, .qqq .fadd 1 1 5,
    .qqq .fadd 2 2 5, .qq .fcvtzs 0 0, .qq .fcvtzs 1 1, .qq .fcvtzs 2 2, .dq .sqxtn 0 0, .dq .sqxtn 1 1,
    .dq .sqxtn 4 2, .dq .sqxtun 0 0, .dq .sqxtun 1 2, .vst1 4 [0] .out 0 (.imm 8), .vstLane 1 0 1 .out (.imm 1)] }

/-- meta/transform_kernels_arm_32.h:2583-2663. -/
def qz32_10 : Prog32 :=
  { init := [.dupW 4 (.par .rangeMin), .dupW 5 (.par .rangeOffset), .dupW 6 (.par .rangeScale), .subs .count 10]
    skip := true
    body := [.subs .count 16, .vld1 [0, 1, 2, 3] .inp 0 (.imm 32), .vld1 [4, 5, 6, 7] .inp 0 (.imm 32),
    .qqq .fsub 0 0 4, .qqq .fsub 1 1 4, .qqq .fsub 2 2 4, .qqq .fsub 3 3 4, .qqq .fmul 0 0 6, .qqq .fmul 1 1 6,
    .qqq .fmul 2 2 6, .qqq .fmul 3 3 6, .qqq .fadd 0 0 5, .qqq .fadd 1 1 5, .qqq .fadd 2 2 5, .qqq .fadd 3 3 5,
    .qq .fcvtzs 0 0, .qq .fcvtzs 1 1, .qq .fcvtzs 2 2, .qq .fcvtzs 3 3, .dq .sqxtn 0 0, .dq .sqxtn 1 1,
    .dq .sqxtn 4 2, .dq .sqxtn 5 3, .dq .sqxtun 0 0, .dq .sqxtun 1 2, .vst1 4 [0, 1] .out 0 (.imm 16)]
    cond := .ne
    tail := [.vld1 [0, 1, 2, 3] .inp 0 (.imm 32), .vld1 [4] .inp 0 (.imm 8), .qqq .fsub 0 0 4, .qqq .fsub 1 1 4,
    .qqq .fsub 2 2 4, .qqq .fmul 0 0 6, .qqq .fmul 1 1 6, .qqq .fmul 2 2 6, .qqq .fadd 0 0 5, .qqq .fadd 1 1 5,
    .qqq .fadd 2 2 5, .qq .fcvtzs 0 0, .qq .fcvtzs 1 1, .qq .fcvtzs 2 2, .dq .sqxtn 0 0, .dq .sqxtn 1 1,
    .dq .sqxtn 4 2, .dq .sqxtun 0 0, .dq .sqxtun 1 2, .vst1 4 [0] .out 0 (.imm 8), .vstLane 2 0 1 .out (.imm 2)] }

/-- meta/transform_kernels_arm_32.h:2677-2759. -/
def qz32_11 : Prog32 :=
  { init := [.dupW 4 (.par .rangeMin), .dupW 5 (.par .rangeOffset), .dupW 6 (.par .rangeScale), .subs .count 11]
    skip := true
    body := [.subs .count 16, .vld1 [0, 1, 2, 3] .inp 0 (.imm 32), .vld1 [4, 5, 6, 7] .inp 0 (.imm 32),
    .qqq .fsub 0 0 4, .qqq .fsub 1 1 4, .qqq .fsub 2 2 4, .qqq .fsub 3 3 4, .qqq .fmul 0 0 6, .qqq .fmul 1 1 6,
    .qqq .fmul 2 2 6, .qqq .fmul 3 3 6, .qqq .fadd 0 0 5, .qqq .fadd 1 1 5, .qqq .fadd 2 2 5, .qqq .fadd 3 3 5,
    .qq .fcvtzs 0 0, .qq .fcvtzs 1 1, .qq .fcvtzs 2 2, .qq .fcvtzs 3 3, .dq .sqxtn 0 0, .dq .sqxtn 1 1,
    .dq .sqxtn 4 2, .dq .sqxtn 5 3, .dq .sqxtun 0 0, .dq .sqxtun 1 2, .vst1 4 [0, 1] .out 0 (.imm 16)]
    cond := .ne
    tail := [.vld1 [0, 1, 2, 3] .inp 0 (.imm 32), .vld1 [4] .inp 0 (.imm 8), .vldLane 4 0 [5] .inp (.imm 4),
    .qqq .fsub 0 0 4, .qqq .fsub 1 1 4, .qqq .fsub 2 2 4, .qqq .fmul 0 0 6, .qqq .fmul 1 1 6, .qqq .fmul 2 2 6,
    .qqq .fadd 0 0 5, .qqq .fadd 1 1 5, .qqq .fadd 2 2 5, .qq .fcvtzs 0 0, .qq .fcvtzs 1 1, .qq .fcvtzs 2 2,
    .dq .sqxtn 0 0, .dq .sqxtn 1 1, .dq .sqxtn 4 2, .dq .sqxtun 0 0, .dq .sqxtun 1 2,
    .vst1 4 [0] .out 0 (.imm 8), .vstLane 2 0 1 .out (.imm 2), .vstLane 1 2 1 .out (.imm 1)] }

/-- meta/transform_kernels_arm_32.h:2773-2853. -/
def qz32_12 : Prog32 :=
  { init := [.dupW 4 (.par .rangeMin), .dupW 5 (.par .rangeOffset), .dupW 6 (.par .rangeScale), .subs .count 12]
    skip := true
    body := [.subs .count 16, .vld1 [0, 1, 2, 3] .inp 0 (.imm 32), .vld1 [4, 5, 6, 7] .inp 0 (.imm 32),
    .qqq .fsub 0 0 4, .qqq .fsub 1 1 4, .qqq .fsub 2 2 4, .qqq .fsub 3 3 4, .qqq .fmul 0 0 6, .qqq .fmul 1 1 6,
    .qqq .fmul 2 2 6, .qqq .fmul 3 3 6, .qqq .fadd 0 0 5, .qqq .fadd 1 1 5, .qqq .fadd 2 2 5, .qqq .fadd 3 3 5,
    .qq .fcvtzs 0 0, .qq .fcvtzs 1 1, .qq .fcvtzs 2 2, .qq .fcvtzs 3 3, .dq .sqxtn 0 0, .dq .sqxtn 1 1,
    .dq .sqxtn 4 2, .dq .sqxtn 5 3, .dq .sqxtun 0 0, .dq .sqxtun 1 2, .vst1 4 [0, 1] .out 0 (.imm 16)]
    cond := .ne
    tail := [.vld1 [0, 1, 2, 3] .inp 0 (.imm 32), .vld1 [4, 5] .inp 0 (.imm 16), .qqq .fsub 0 0 4, .qqq .fsub 1 1 4,
    .qqq .fsub 2 2 4, .qqq .fmul 0 0 6, .qqq .fmul 1 1 6, .qqq .fmul 2 2 6, .qqq .fadd 0 0 5, .qqq .fadd 1 1 5,
    .qqq .fadd 2 2 5, .qq .fcvtzs 0 0, .qq .fcvtzs 1 1, .qq .fcvtzs 2 2, .dq .sqxtn 0 0, .dq .sqxtn 1 1,
    .dq .sqxtn 4 2, .dq .sqxtun 0 0, .dq .sqxtun 1 2, .vst1 4 [0] .out 0 (.imm 8), .vstLane 4 0 1 .out (.imm 4)] }

/-- meta/transform_kernels_arm_32.h:2867-2954. -/
def qz32_13 : Prog32 :=
  { init := [.dupW 4 (.par .rangeMin), .dupW 5 (.par .rangeOffset), .dupW 6 (.par .rangeScale), .subs .count 13]
    skip := true
    body := [.subs .count 16, .vld1 [0, 1, 2, 3] .inp 0 (.imm 32), .vld1 [4, 5, 6, 7] .inp 0 (.imm 32),
    .qqq .fsub 0 0 4, .qqq .fsub 1 1 4, .qqq .fsub 2 2 4, .qqq .fsub 3 3 4, .qqq .fmul 0 0 6, .qqq .fmul 1 1 6,
    .qqq .fmul 2 2 6, .qqq .fmul 3 3 6, .qqq .fadd 0 0 5, .qqq .fadd 1 1 5, .qqq .fadd 2 2 5, .qqq .fadd 3 3 5,
    .qq .fcvtzs 0 0, .qq .fcvtzs 1 1, .qq .fcvtzs 2 2, .qq .fcvtzs 3 3, .dq .sqxtn 0 0, .dq .sqxtn 1 1,
    .dq .sqxtn 4 2, .dq .sqxtn 5 3, .dq .sqxtun 0 0, .dq .sqxtun 1 2, .vst1 4 [0, 1] .out 0 (.imm 16)]
    cond := .ne
    tail := [.vld1 [0, 1, 2, 3] .inp 0 (.imm 32), .vld1 [4, 5] .inp 0 (.imm 16), .vldLane 4 0 [6] .inp (.imm 4),
    .qqq .fsub 0 0 4, .qqq .fsub 1 1 4, .qqq .fsub 2 2 4, .qqq .fsub 3 3 4, .qqq .fmul 0 0 6, .qqq .fmul 1 1 6,
    .qqq .fmul 2 2 6, .qqq .fmul 3 3 6, .qqq .fadd 0 0 5, .qqq .fadd 1 1 5, .qqq .fadd 2 2 5, .qqq .fadd 3 3 5,
    .qq .fcvtzs 0 0, .qq .fcvtzs 1 1, .qq .fcvtzs 2 2, .qq .fcvtzs 3 3, .dq .sqxtn 0 0, .dq .sqxtn 1 1,
    .dq .sqxtn 4 2, .dq .sqxtn 5 3, .dq .sqxtun 0 0, .dq .sqxtun 1 2, .vst1 4 [0] .out 0 (.imm 8),
    .vstLane 4 0 1 .out (.imm 4), .vstLane 1 4 1 .out (.imm 1)] }

/-- meta/transform_kernels_arm_32.h:2968-3054. -/
def qz32_14 : Prog32 :=
  { init := [.dupW 4 (.par .rangeMin), .dupW 5 (.par .rangeOffset), .dupW 6 (.par .rangeScale), .subs .count 14]
    skip := true
    body := [.subs .count 16, .vld1 [0, 1, 2, 3] .inp 0 (.imm 32), .vld1 [4, 5, 6, 7] .inp 0 (.imm 32),
    .qqq .fsub 0 0 4, .qqq .fsub 1 1 4, .qqq .fsub 2 2 4, .qqq .fsub 3 3 4, .qqq .fmul 0 0 6, .qqq .fmul 1 1 6,
    .qqq .fmul 2 2 6, .qqq .fmul 3 3 6, .qqq .fadd 0 0 5, .qqq .fadd 1 1 5, .qqq .fadd 2 2 5, .qqq .fadd 3 3 5,
    .qq .fcvtzs 0 0, .qq .fcvtzs 1 1, .qq .fcvtzs 2 2, .qq .fcvtzs 3 3, .dq .sqxtn 0 0, .dq .sqxtn 1 1,
    .dq .sqxtn 4 2, .dq .sqxtn 5 3, .dq .sqxtun 0 0, .dq .sqxtun 1 2, .vst1 4 [0, 1] .out 0 (.imm 16)]
    cond := .ne
    tail := [.vld1 [0, 1, 2, 3] .inp 0 (.imm 32), .vld1 [4, 5, 6] .inp 0 (.imm 24), .qqq .fsub 0 0 4, .qqq .fsub 1 1 4,
    .qqq .fsub 2 2 4, .qqq .fsub 3 3 4, .qqq .fmul 0 0 6, .qqq .fmul 1 1 6, .qqq .fmul 2 2 6, .qqq .fmul 3 3 6,
    .qqq .fadd 0 0 5, .qqq .fadd 1 1 5, .qqq .fadd 2 2 5, .qqq .fadd 3 3 5, .qq .fcvtzs 0 0, .qq .fcvtzs 1 1,
    .qq .fcvtzs 2 2, .qq .fcvtzs 3 3, .dq .sqxtn 0 0, .dq .sqxtn 1 1, .dq .sqxtn 4 2, .dq .sqxtn 5 3,
    .dq .sqxtun 0 0, .dq .sqxtun 1 2, .vst1 4 [0] .out 0 (.imm 8), .vstLane 4 0 1 .out (.imm 4),
    .vstLane 2 2 1 .out (.imm 2)] }

/-- meta/transform_kernels_arm_32.h:3068-3156. -/
def qz32_15 : Prog32 :=
  { init := [.dupW 4 (.par .rangeMin), .dupW 5 (.par .rangeOffset), .dupW 6 (.par .rangeScale), .subs .count 15]
    skip := true
    body := [.subs .count 16, .vld1 [0, 1, 2, 3] .inp 0 (.imm 32), .vld1 [4, 5, 6, 7] .inp 0 (.imm 32),
    .qqq .fsub 0 0 4, .qqq .fsub 1 1 4, .qqq .fsub 2 2 4, .qqq .fsub 3 3 4, .qqq .fmul 0 0 6, .qqq .fmul 1 1 6,
    .qqq .fmul 2 2 6, .qqq .fmul 3 3 6, .qqq .fadd 0 0 5, .qqq .fadd 1 1 5, .qqq .fadd 2 2 5, .qqq .fadd 3 3 5,
    .qq .fcvtzs 0 0, .qq .fcvtzs 1 1, .qq .fcvtzs 2 2, .qq .fcvtzs 3 3, .dq .sqxtn 0 0, .dq .sqxtn 1 1,
    .dq .sqxtn 4 2, .dq .sqxtn 5 3, .dq .sqxtun 0 0, .dq .sqxtun 1 2, .vst1 4 [0, 1] .out 0 (.imm 16)]
    cond := .ne
    tail := [.vld1 [0, 1, 2, 3] .inp 0 (.imm 32), .vld1 [4, 5, 6] .inp 0 (.imm 24), .vldLane 4 0 [7] .inp (.imm 4),
    .qqq .fsub 0 0 4, .qqq .fsub 1 1 4, .qqq .fsub 2 2 4, .qqq .fsub 3 3 4, .qqq .fmul 0 0 6, .qqq .fmul 1 1 6,
    .qqq .fmul 2 2 6, .qqq .fmul 3 3 6, .qqq .fadd 0 0 5, .qqq .fadd 1 1 5, .qqq .fadd 2 2 5, .qqq .fadd 3 3 5,
    .qq .fcvtzs 0 0, .qq .fcvtzs 1 1, .qq .fcvtzs 2 2, .qq .fcvtzs 3 3, .dq .sqxtn 0 0, .dq .sqxtn 1 1,
    .dq .sqxtn 4 2, .dq .sqxtn 5 3, .dq .sqxtun 0 0, .dq .sqxtun 1 2, .vst1 4 [0] .out 0 (.imm 8),
    .vstLane 4 0 1 .out (.imm 4), .vstLane 2 2 1 .out (.imm 2), .vstLane 1 6 1 .out (.imm 1)] }

/-- The code for a number of leftovers: the specialisations of `Transform1DKernel` for `Quantize`. -/
def qz32Prog : Nat → Option Prog32
  | 0 => some qz32_0
  | 1 => some qz32_1
  | 2 => some qz32_2
  | 3 => some qz32_3
  | 4 => some qz32_4
  | 5 => some qz32_5
  | 6 => some qz32_6
  | 7 => some qz32_7
  | 8 => some qz32_8
  | 9 => some qz32_9
  | 10 => some qz32_10
  | 11 => some qz32_11
  | 12 => some qz32_12
  | 13 => some qz32_13
  | 14 => some qz32_14
  | 15 => some qz32_15
  | _ => none

/-- meta/transform_kernels_arm_32.h:3170-3217. -/
def dq32_0 : Prog32 :=
  { init := [.dupW 4 (.par .rangeMin), .dupW 5 (.par .rangeOffset), .dupW 6 (.par .rangeScale)]
    skip := false
    body := [.subs .count 16, .vld1 [0, 1] .inp 0 (.imm 16), .qd .uxtl 1 1, .qd .uxtl 0 0, .qd .sxtl 3 3, .qd .sxtl 2 2,
    .qd .sxtl 1 1, .qd .sxtl 0 0, .qq .scvtf 0 0, .qq .scvtf 1 1, .qq .scvtf 2 2, .qq .scvtf 3 3,
    .qqq .fsub 0 0 5, .qqq .fsub 1 1 5, .qqq .fsub 2 2 5, .qqq .fsub 3 3 5, .qqq .fmul 0 0 6, .qqq .fmul 1 1 6,
    .qqq .fmul 2 2 6, .qqq .fmul 3 3 6, .qqq .fadd 0 0 4, .qqq .fadd 1 1 4, .qqq .fadd 2 2 4, .qqq .fadd 3 3 4,
    .vst1 4 [0, 1, 2, 3] .out 0 (.imm 32), .vst1 4 [4, 5, 6, 7] .out 0 (.imm 32)]
    cond := .ne
    tail := [] }

/-- meta/transform_kernels_arm_32.h:3231-3298. -/
def dq32_1 : Prog32 :=
  { init := [.dupW 4 (.par .rangeMin), .dupW 5 (.par .rangeOffset), .dupW 6 (.par .rangeScale), .subs .count 1]
    skip := true
    body := [.subs .count 16, .vld1 [0, 1] .inp 0 (.imm 16), .qd .uxtl 1 1, .qd .uxtl 0 0, .qd .sxtl 3 3, .qd .sxtl 2 2,
    .qd .sxtl 1 1, .qd .sxtl 0 0, .qq .scvtf 0 0, .qq .scvtf 1 1, .qq .scvtf 2 2, .qq .scvtf 3 3,
    .qqq .fsub 0 0 5, .qqq .fsub 1 1 5, .qqq .fsub 2 2 5, .qqq .fsub 3 3 5, .qqq .fmul 0 0 6, .qqq .fmul 1 1 6,
    .qqq .fmul 2 2 6, .qqq .fmul 3 3 6, .qqq .fadd 0 0 4, .qqq .fadd 1 1 4, .qqq .fadd 2 2 4, .qqq .fadd 3 3 4,
    .vst1 4 [0, 1, 2, 3] .out 0 (.imm 32), .vst1 4 [4, 5, 6, 7] .out 0 (.imm 32)]
    cond := .ne
    tail := [.vldLane 1 0 [0] .inp (.imm 1), .qd .uxtl 0 0, .qd .sxtl 0 0, .qq .scvtf 0 0, .qqq .fsub 0 0 5,
    .qqq .fmul 0 0 6, .qqq .fadd 0 0 4, .vstLane 4 0 0 .out (.imm 4)] }

/-- meta/transform_kernels_arm_32.h:3312-3379. -/
def dq32_2 : Prog32 :=
  { init := [.dupW 4 (.par .rangeMin), .dupW 5 (.par .rangeOffset), .dupW 6 (.par .rangeScale), .subs .count 2]
    skip := true
    body := [.subs .count 16, .vld1 [0, 1] .inp 0 (.imm 16), .qd .uxtl 1 1, .qd .uxtl 0 0, .qd .sxtl 3 3, .qd .sxtl 2 2,
    .qd .sxtl 1 1, .qd .sxtl 0 0, .qq .scvtf 0 0, .qq .scvtf 1 1, .qq .scvtf 2 2, .qq .scvtf 3 3,
    .qqq .fsub 0 0 5, .qqq .fsub 1 1 5, .qqq .fsub 2 2 5, .qqq .fsub 3 3 5, .qqq .fmul 0 0 6, .qqq .fmul 1 1 6,
    .qqq .fmul 2 2 6, .qqq .fmul 3 3 6, .qqq .fadd 0 0 4, .qqq .fadd 1 1 4, .qqq .fadd 2 2 4, .qqq .fadd 3 3 4,
    .vst1 4 [0, 1, 2, 3] .out 0 (.imm 32), .vst1 4 [4, 5, 6, 7] .out 0 (.imm 32)]
    cond := .ne
    tail := [.vldLane 2 0 [0] .inp (.imm 2), .qd .uxtl 0 0, .qd .sxtl 0 0, .qq .scvtf 0 0, .qqq .fsub 0 0 5,
    .qqq .fmul 0 0 6, .qqq .fadd 0 0 4, .vst1 4 [0] .out 0 (.imm 8)] }

/-- meta/transform_kernels_arm_32.h:3393-3462. -/
def dq32_3 : Prog32 :=
  { init := [.dupW 4 (.par .rangeMin), .dupW 5 (.par .rangeOffset), .dupW 6 (.par .rangeScale), .subs .count 3]
    skip := true
    body := [.subs .count 16, .vld1 [0, 1] .inp 0 (.imm 16), .qd .uxtl 1 1, .qd .uxtl 0 0, .qd .sxtl 3 3, .qd .sxtl 2 2,
    .qd .sxtl 1 1, .qd .sxtl 0 0, .qq .scvtf 0 0, .qq .scvtf 1 1, .qq .scvtf 2 2, .qq .scvtf 3 3,
    .qqq .fsub 0 0 5, .qqq .fsub 1 1 5, .qqq .fsub 2 2 5, .qqq .fsub 3 3 5, .qqq .fmul 0 0 6, .qqq .fmul 1 1 6,
    .qqq .fmul 2 2 6, .qqq .fmul 3 3 6, .qqq .fadd 0 0 4, .qqq .fadd 1 1 4, .qqq .fadd 2 2 4, .qqq .fadd 3 3 4,
    .vst1 4 [0, 1, 2, 3] .out 0 (.imm 32), .vst1 4 [4, 5, 6, 7] .out 0 (.imm 32)]
    cond := .ne
    tail := [.vldLane 2 0 [0] .inp (.imm 2), .vldLane 1 2 [0] .inp (.imm 1), .qd .uxtl 0 0, .qd .sxtl 0 0,
    .qq .scvtf 0 0, .qqq .fsub 0 0 5, .qqq .fmul 0 0 6, .qqq .fadd 0 0 4, .vst1 4 [0] .out 0 (.imm 8),
    .vstLane 4 0 1 .out (.imm 4)] }

/-- meta/transform_kernels_arm_32.h:3476-3543. -/
def dq32_4 : Prog32 :=
  { init := [.dupW 4 (.par .rangeMin), .dupW 5 (.par .rangeOffset), .dupW 6 (.par .rangeScale), .subs .count 4]
    skip := true
    body := [.subs .count 16, .vld1 [0, 1] .inp 0 (.imm 16), .qd .uxtl 1 1, .qd .uxtl 0 0, .qd .sxtl 3 3, .qd .sxtl 2 2,
    .qd .sxtl 1 1, .qd .sxtl 0 0, .qq .scvtf 0 0, .qq .scvtf 1 1, .qq .scvtf 2 2, .qq .scvtf 3 3,
    .qqq .fsub 0 0 5, .qqq .fsub 1 1 5, .qqq .fsub 2 2 5, .qqq .fsub 3 3 5, .qqq .fmul 0 0 6, .qqq .fmul 1 1 6,
    .qqq .fmul 2 2 6, .qqq .fmul 3 3 6, .qqq .fadd 0 0 4, .qqq .fadd 1 1 4, .qqq .fadd 2 2 4, .qqq .fadd 3 3 4,
    .vst1 4 [0, 1, 2, 3] .out 0 (.imm 32), .vst1 4 [4, 5, 6, 7] .out 0 (.imm 32)]
    cond := .ne
    tail := [.vldLane 4 0 [0] .inp (.imm 4), .qd .uxtl 0 0, .qd .sxtl 0 0, .qq .scvtf 0 0, .qqq .fsub 0 0 5,
    .qqq .fmul 0 0 6, .qqq .fadd 0 0 4, .vst1 4 [0, 1] .out 0 (.imm 16)] }

/-- meta/transform_kernels_arm_32.h:3557-3631. -/
def dq32_5 : Prog32 :=
  { init := [.dupW 4 (.par .rangeMin), .dupW 5 (.par .rangeOffset), .dupW 6 (.par .rangeScale), .subs .count 5]
    skip := true
    body := [.subs .count 16, .vld1 [0, 1] .inp 0 (.imm 16), .qd .uxtl 1 1, .qd .uxtl 0 0, .qd .sxtl 3 3, .qd .sxtl 2 2,
    .qd .sxtl 1 1, .qd .sxtl 0 0, .qq .scvtf 0 0, .qq .scvtf 1 1, .qq .scvtf 2 2, .qq .scvtf 3 3,
    .qqq .fsub 0 0 5, .qqq .fsub 1 1 5, .qqq .fsub 2 2 5, .qqq .fsub 3 3 5, .qqq .fmul 0 0 6, .qqq .fmul 1 1 6,
    .qqq .fmul 2 2 6, .qqq .fmul 3 3 6, .qqq .fadd 0 0 4, .qqq .fadd 1 1 4, .qqq .fadd 2 2 4, .qqq .fadd 3 3 4,
    .vst1 4 [0, 1, 2, 3] .out 0 (.imm 32), .vst1 4 [4, 5, 6, 7] .out 0 (.imm 32)]
    cond := .ne
    tail := [.vldLane 4 0 [0] .inp (.imm 4), .vldLane 1 4 [0] .inp (.imm 1), .qd .uxtl 0 0, .qd .sxtl 1 1,
    .qd .sxtl 0 0, .qq .scvtf 0 0, .qq .scvtf 1 1, .qqq .fsub 0 0 5, .qqq .fsub 1 1 5, .qqq .fmul 0 0 6,
    .qqq .fmul 1 1 6, .qqq .fadd 0 0 4, .qqq .fadd 1 1 4, .vst1 4 [0, 1] .out 0 (.imm 16),
    .vstLane 4 0 2 .out (.imm 4)] }

/-- meta/transform_kernels_arm_32.h:3645-3718. -/
def dq32_6 : Prog32 :=
  { init := [.dupW 4 (.par .rangeMin), .dupW 5 (.par .rangeOffset), .dupW 6 (.par .rangeScale), .subs .count 6]
    skip := true
    body := [.subs .count 16, .vld1 [0, 1] .inp 0 (.imm 16), .qd .uxtl 1 1, .qd .uxtl 0 0, .qd .sxtl 3 3, .qd .sxtl 2 2,
    .qd .sxtl 1 1, .qd .sxtl 0 0, .qq .scvtf 0 0, .qq .scvtf 1 1, .qq .scvtf 2 2, .qq .scvtf 3 3,
    .qqq .fsub 0 0 5, .qqq .fsub 1 1 5, .qqq .fsub 2 2 5, .qqq .fsub 3 3 5, .qqq .fmul 0 0 6, .qqq .fmul 1 1 6,
    .qqq .fmul 2 2 6, .qqq .fmul 3 3 6, .qqq .fadd 0 0 4, .qqq .fadd 1 1 4, .qqq .fadd 2 2 4, .qqq .fadd 3 3 4,
    .vst1 4 [0, 1, 2, 3] .out 0 (.imm 32), .vst1 4 [4, 5, 6, 7] .out 0 (.imm 32)]
    cond := .ne
    tail := [.vldLane 4 0 [0] .inp (.imm 4), .vldLane 2 2 [0] .inp (.imm 2), .qd .uxtl 0 0, .qd .sxtl 1 1,
    .qd .sxtl 0 0, .qq .scvtf 0 0, .qq .scvtf 1 1, .qqq .fsub 0 0 5, .qqq .fsub 1 1 5, .qqq .fmul 0 0 6,
    .qqq .fmul 1 1 6, .qqq .fadd 0 0 4, .qqq .fadd 1 1 4, .vst1 4 [0, 1, 2] .out 0 (.imm 24)] }

/-- meta/transform_kernels_arm_32.h:3732-3807. -/
def dq32_7 : Prog32 :=
  { init := [.dupW 4 (.par .rangeMin), .dupW 5 (.par .rangeOffset), .dupW 6 (.par .rangeScale), .subs .count 7]
    skip := true
    body := [.subs .count 16, .vld1 [0, 1] .inp 0 (.imm 16), .qd .uxtl 1 1, .qd .uxtl 0 0, .qd .sxtl 3 3, .qd .sxtl 2 2,
    .qd .sxtl 1 1, .qd .sxtl 0 0, .qq .scvtf 0 0, .qq .scvtf 1 1, .qq .scvtf 2 2, .qq .scvtf 3 3,
    .qqq .fsub 0 0 5, .qqq .fsub 1 1 5, .qqq .fsub 2 2 5, .qqq .fsub 3 3 5, .qqq .fmul 0 0 6, .qqq .fmul 1 1 6,
    .qqq .fmul 2 2 6, .qqq .fmul 3 3 6, .qqq .fadd 0 0 4, .qqq .fadd 1 1 4, .qqq .fadd 2 2 4, .qqq .fadd 3 3 4,
    .vst1 4 [0, 1, 2, 3] .out 0 (.imm 32), .vst1 4 [4, 5, 6, 7] .out 0 (.imm 32)]
    cond := .ne
    tail := [.vldLane 4 0 [0] .inp (.imm 4), .vldLane 2 2 [0] .inp (.imm 2), .vldLane 1 6 [0] .inp (.imm 1),
    .qd .uxtl 0 0, .qd .sxtl 1 1, .qd .sxtl 0 0, .qq .scvtf 0 0, .qq .scvtf 1 1, .qqq .fsub 0 0 5,
    .qqq .fsub 1 1 5, .qqq .fmul 0 0 6, .qqq .fmul 1 1 6, .qqq .fadd 0 0 4, .qqq .fadd 1 1 4,
    .vst1 4 [0, 1, 2] .out 0 (.imm 24), .vstLane 4 0 3 .out (.imm 4)] }

/-- meta/transform_kernels_arm_32.h:3821-3893. -/
def dq32_8 : Prog32 :=
  { init := [.dupW 4 (.par .rangeMin), .dupW 5 (.par .rangeOffset), .dupW 6 (.par .rangeScale), .subs .count 8]
    skip := true
    body := [.subs .count 16, .vld1 [0, 1] .inp 0 (.imm 16), .qd .uxtl 1 1, .qd .uxtl 0 0, .qd .sxtl 3 3, .qd .sxtl 2 2,
    .qd .sxtl 1 1, .qd .sxtl 0 0, .qq .scvtf 0 0, .qq .scvtf 1 1, .qq .scvtf 2 2, .qq .scvtf 3 3,
    .qqq .fsub 0 0 5, .qqq .fsub 1 1 5, .qqq .fsub 2 2 5, .qqq .fsub 3 3 5, .qqq .fmul 0 0 6, .qqq .fmul 1 1 6,
    .qqq .fmul 2 2 6, .qqq .fmul 3 3 6, .qqq .fadd 0 0 4, .qqq .fadd 1 1 4, .qqq .fadd 2 2 4, .qqq .fadd 3 3 4,
    .vst1 4 [0, 1, 2, 3] .out 0 (.imm 32), .vst1 4 [4, 5, 6, 7] .out 0 (.imm 32)]
    cond := .ne
    tail := [.vld1 [0] .inp 0 (.imm 8), .qd .uxtl 0 0, .qd .sxtl 1 1, .qd .sxtl 0 0, .qq .scvtf 0 0, .qq .scvtf 1 1,
    .qqq .fsub 0 0 5, .qqq .fsub 1 1 5, .qqq .fmul 0 0 6, .qqq .fmul 1 1 6, .qqq .fadd 0 0 4, .qqq .fadd 1 1 4,
    .vst1 4 [0, 1, 2, 3] .out 0 (.imm 32)] }

/-- meta/transform_kernels_arm_32.h:3907-3987. -/
def dq32_9 : Prog32 :=
  { init := [.dupW 4 (.par .rangeMin), .dupW 5 (.par .rangeOffset), .dupW 6 (.par .rangeScale), .subs .count 9]
    skip := true
    body := [.subs .count 16, .vld1 [0, 1] .inp 0 (.imm 16), .qd .uxtl 1 1, .qd .uxtl 0 0, .qd .sxtl 3 3, .qd .sxtl 2 2,
    .qd .sxtl 1 1, .qd .sxtl 0 0, .qq .scvtf 0 0, .qq .scvtf 1 1, .qq .scvtf 2 2, .qq .scvtf 3 3,
    .qqq .fsub 0 0 5, .qqq .fsub 1 1 5, .qqq .fsub 2 2 5, .qqq .fsub 3 3 5, .qqq .fmul 0 0 6, .qqq .fmul 1 1 6,
    .qqq .fmul 2 2 6, .qqq .fmul 3 3 6, .qqq .fadd 0 0 4, .qqq .fadd 1 1 4, .qqq .fadd 2 2 4, .qqq .fadd 3 3 4,
    .vst1 4 [0, 1, 2, 3] .out 0 (.imm 32), .vst1 4 [4, 5, 6, 7] .out 0 (.imm 32)]
    cond := .ne
    tail := [.vld1 [0] .inp 0 (.imm 8), .vldLane 1 0 [1] .inp (.imm 1), .qd .uxtl 1 1, .qd .uxtl 0 0, .qd .sxtl 2 2,
    .qd .sxtl 1 1, .qd .sxtl 0 0, .qq .scvtf 0 0, .qq .scvtf 1 1, .qq .scvtf 2 2, .qqq .fsub 0 0 5,
    .qqq .fsub 1 1 5, .qqq .fsub 2 2 5, .qqq .fmul 0 0 6, .qqq .fmul 1 1 6, .qqq .fmul 2 2 6, .qqq .fadd 0 0 4,
    .qqq .fadd 1 1 4, .qqq .fadd 2 2 4, .vst1 4 [0, 1, 2, 3] .out 0 (.imm 32), .vstLane 4 0 4 .out (.imm 4)] }

/-- meta/transform_kernels_arm_32.h:4001-4081. -/
def dq32_10 : Prog32 :=
  { init := [.dupW 4 (.par .rangeMin), .dupW 5 (.par .rangeOffset), .dupW 6 (.par .rangeScale), .subs .count 10]
    skip := true
    body := [.subs .count 16, .vld1 [0, 1] .inp 0 (.imm 16), .qd .uxtl 1 1, .qd .uxtl 0 0, .qd .sxtl 3 3, .qd .sxtl 2 2,
    .qd .sxtl 1 1, .qd .sxtl 0 0, .qq .scvtf 0 0, .qq .scvtf 1 1, .qq .scvtf 2 2, .qq .scvtf 3 3,
    .qqq .fsub 0 0 5, .qqq .fsub 1 1 5, .qqq .fsub 2 2 5, .qqq .fsub 3 3 5, .qqq .fmul 0 0 6, .qqq .fmul 1 1 6,
    .qqq .fmul 2 2 6, .qqq .fmul 3 3 6, .qqq .fadd 0 0 4, .qqq .fadd 1 1 4, .qqq .fadd 2 2 4, .qqq .fadd 3 3 4,
    .vst1 4 [0, 1, 2, 3] .out 0 (.imm 32), .vst1 4 [4, 5, 6, 7] .out 0 (.imm 32)]
    cond := .ne
    tail := [.vld1 [0] .inp 0 (.imm 8), .vldLane 2 0 [1] .inp (.imm 2), .qd .uxtl 1 1, .qd .uxtl 0 0, .qd .sxtl 2 2,
    .qd .sxtl 1 1, .qd .sxtl 0 0, .qq .scvtf 0 0, .qq .scvtf 1 1, .qq .scvtf 2 2, .qqq .fsub 0 0 5,
    .qqq .fsub 1 1 5, .qqq .fsub 2 2 5, .qqq .fmul 0 0 6, .qqq .fmul 1 1 6, .qqq .fmul 2 2 6, .qqq .fadd 0 0 4,
    .qqq .fadd 1 1 4, .qqq .fadd 2 2 4, .vst1 4 [0, 1, 2, 3] .out 0 (.imm 32), .vst1 4 [4] .out 0 (.imm 8)] }

/-- meta/transform_kernels_arm_32.h:4095-4177. -/
def dq32_11 : Prog32 :=
  { init := [.dupW 4 (.par .rangeMin), .dupW 5 (.par .rangeOffset), .dupW 6 (.par .rangeScale), .subs .count 11]
    skip := true
    body := [.subs .count 16, .vld1 [0, 1] .inp 0 (.imm 16), .qd .uxtl 1 1, .qd .uxtl 0 0, .qd .sxtl 3 3, .qd .sxtl 2 2,
    .qd .sxtl 1 1, .qd .sxtl 0 0, .qq .scvtf 0 0, .qq .scvtf 1 1, .qq .scvtf 2 2, .qq .scvtf 3 3,
    .qqq .fsub 0 0 5, .qqq .fsub 1 1 5, .qqq .fsub 2 2 5, .qqq .fsub 3 3 5, .qqq .fmul 0 0 6, .qqq .fmul 1 1 6,
    .qqq .fmul 2 2 6, .qqq .fmul 3 3 6, .qqq .fadd 0 0 4, .qqq .fadd 1 1 4, .qqq .fadd 2 2 4, .qqq .fadd 3 3 4,
    .vst1 4 [0, 1, 2, 3] .out 0 (.imm 32), .vst1 4 [4, 5, 6, 7] .out 0 (.imm 32)]
    cond := .ne
    tail := [.vld1 [0] .inp 0 (.imm 8), .vldLane 2 0 [1] .inp (.imm 2), .vldLane 1 2 [1] .inp (.imm 1), .qd .uxtl 1 1,
    .qd .uxtl 0 0, .qd .sxtl 2 2, .qd .sxtl 1 1, .qd .sxtl 0 0, .qq .scvtf 0 0, .qq .scvtf 1 1, .qq .scvtf 2 2,
    .qqq .fsub 0 0 5, .qqq .fsub 1 1 5, .qqq .fsub 2 2 5, .qqq .fmul 0 0 6, .qqq .fmul 1 1 6, .qqq .fmul 2 2 6,
    .qqq .fadd 0 0 4, .qqq .fadd 1 1 4, .qqq .fadd 2 2 4, .vst1 4 [0, 1, 2, 3] .out 0 (.imm 32),
    .vst1 4 [4] .out 0 (.imm 8), .vstLane 4 0 5 .out (.imm 4)] }

/-- meta/transform_kernels_arm_32.h:4191-4271. -/
def dq32_12 : Prog32 :=
  { init := [.dupW 4 (.par .rangeMin), .dupW 5 (.par .rangeOffset), .dupW 6 (.par .rangeScale), .subs .count 12]
    skip := true
    body := [.subs .count 16, .vld1 [0, 1] .inp 0 (.imm 16), .qd .uxtl 1 1, .qd .uxtl 0 0, .qd .sxtl 3 3, .qd .sxtl 2 2,
    .qd .sxtl 1 1, .qd .sxtl 0 0, .qq .scvtf 0 0, .qq .scvtf 1 1, .qq .scvtf 2 2, .qq .scvtf 3 3,
    .qqq .fsub 0 0 5, .qqq .fsub 1 1 5, .qqq .fsub 2 2 5, .qqq .fsub 3 3 5, .qqq .fmul 0 0 6, .qqq .fmul 1 1 6,
    .qqq .fmul 2 2 6, .qqq .fmul 3 3 6, .qqq .fadd 0 0 4, .qqq .fadd 1 1 4, .qqq .fadd 2 2 4, .qqq .fadd 3 3 4,
    .vst1 4 [0, 1, 2, 3] .out 0 (.imm 32), .vst1 4 [4, 5, 6, 7] .out 0 (.imm 32)]
    cond := .ne
    tail := [.vld1 [0] .inp 0 (.imm 8), .vldLane 4 0 [1] .inp (.imm 4), .qd .uxtl 1 1, .qd .uxtl 0 0, .qd .sxtl 2 2,
    .qd .sxtl 1 1, .qd .sxtl 0 0, .qq .scvtf 0 0, .qq .scvtf 1 1, .qq .scvtf 2 2, .qqq .fsub 0 0 5,
    .qqq .fsub 1 1 5, .qqq .fsub 2 2 5, .qqq .fmul 0 0 6, .qqq .fmul 1 1 6, .qqq .fmul 2 2 6, .qqq .fadd 0 0 4,
    .qqq .fadd 1 1 4, .qqq .fadd 2 2 4, .vst1 4 [0, 1, 2, 3] .out 0 (.imm 32), .vst1 4 [4, 5] .out 0 (.imm 16)] }

/-- meta/transform_kernels_arm_32.h:4285-4372. -/
def dq32_13 : Prog32 :=
  { init := [.dupW 4 (.par .rangeMin), .dupW 5 (.par .rangeOffset), .dupW 6 (.par .rangeScale), .subs .count 13]
    skip := true
    body := [.subs .count 16, .vld1 [0, 1] .inp 0 (.imm 16), .qd .uxtl 1 1, .qd .uxtl 0 0, .qd .sxtl 3 3, .qd .sxtl 2 2,
    .qd .sxtl 1 1, .qd .sxtl 0 0, .qq .scvtf 0 0, .qq .scvtf 1 1, .qq .scvtf 2 2, .qq .scvtf 3 3,
    .qqq .fsub 0 0 5, .qqq .fsub 1 1 5, .qqq .fsub 2 2 5, .qqq .fsub 3 3 5, .qqq .fmul 0 0 6, .qqq .fmul 1 1 6,
    .qqq .fmul 2 2 6, .qqq .fmul 3 3 6, .qqq .fadd 0 0 4, .qqq .fadd 1 1 4, .qqq .fadd 2 2 4, .qqq .fadd 3 3 4,
    .vst1 4 [0, 1, 2, 3] .out 0 (.imm 32), .vst1 4 [4, 5, 6, 7] .out 0 (.imm 32)]
    cond := .ne
    tail := [.vld1 [0] .inp 0 (.imm 8), .vldLane 4 0 [1] .inp (.imm 4), .vldLane 1 4 [1] .inp (.imm 1), .qd .uxtl 1 1,
    .qd .uxtl 0 0, .qd .sxtl 3 3, .qd .sxtl 2 2, .qd .sxtl 1 1, .qd .sxtl 0 0, .qq .scvtf 0 0, .qq .scvtf 1 1,
    .qq .scvtf 2 2, .qq .scvtf 3 3, .qqq .fsub 0 0 5, .qqq .fsub 1 1 5, .qqq .fsub 2 2 5, .qqq .fsub 3 3 5,
    .qqq .fmul 0 0 6, .qqq .fmul 1 1 6, .qqq .fmul 2 2 6, .qqq .fmul 3 3 6, .qqq .fadd 0 0 4, .qqq .fadd 1 1 4,
    .qqq .fadd 2 2 4, .qqq .fadd 3 3 4, .vst1 4 [0, 1, 2, 3] .out 0 (.imm 32), .vst1 4 [4, 5] .out 0 (.imm 16),
    .vstLane 4 0 6 .out (.imm 4)] }

/-- meta/transform_kernels_arm_32.h:4386-4472. -/
def dq32_14 : Prog32 :=
  { init := [.dupW 4 (.par .rangeMin), .dupW 5 (.par .rangeOffset), .dupW 6 (.par .rangeScale), .subs .count 14]
    skip := true
    body := [.subs .count 16, .vld1 [0, 1] .inp 0 (.imm 16), .qd .uxtl 1 1, .qd .uxtl 0 0, .qd .sxtl 3 3, .qd .sxtl 2 2,
    .qd .sxtl 1 1, .qd .sxtl 0 0, .qq .scvtf 0 0, .qq .scvtf 1 1, .qq .scvtf 2 2, .qq .scvtf 3 3,
    .qqq .fsub 0 0 5, .qqq .fsub 1 1 5, .qqq .fsub 2 2 5, .qqq .fsub 3 3 5, .qqq .fmul 0 0 6, .qqq .fmul 1 1 6,
    .qqq .fmul 2 2 6, .qqq .fmul 3 3 6, .qqq .fadd 0 0 4, .qqq .fadd 1 1 4, .qqq .fadd 2 2 4, .qqq .fadd 3 3 4,
    .vst1 4 [0, 1, 2, 3] .out 0 (.imm 32), .vst1 4 [4, 5, 6, 7] .out 0 (.imm 32)]
    cond := .ne
    tail := [.vld1 [0] .inp 0 (.imm 8), .vldLane 4 0 [1] .inp (.imm 4), .vldLane 2 2 [1] .inp (.imm 2), .qd .uxtl 1 1,
    .qd .uxtl 0 0, .qd .sxtl 3 3, .qd .sxtl 2 2, .qd .sxtl 1 1, .qd .sxtl 0 0, .qq .scvtf 0 0, .qq .scvtf 1 1,
    .qq .scvtf 2 2, .qq .scvtf 3 3, .qqq .fsub 0 0 5, .qqq .fsub 1 1 5, .qqq .fsub 2 2 5, .qqq .fsub 3 3 5,
    .qqq .fmul 0 0 6, .qqq .fmul 1 1 6, .qqq .fmul 2 2 6, .qqq .fmul 3 3 6, .qqq .fadd 0 0 4, .qqq .fadd 1 1 4,
    .qqq .fadd 2 2 4, .qqq .fadd 3 3 4, .vst1 4 [0, 1, 2, 3] .out 0 (.imm 32),
    .vst1 4 [4, 5, 6] .out 0 (.imm 24)] }

/-- meta/transform_kernels_arm_32.h:4486-4574. -/
def dq32_15 : Prog32 :=
  { init := [.dupW 4 (.par .rangeMin), .dupW 5 (.par .rangeOffset), .dupW 6 (.par .rangeScale), .subs .count 15]
    skip := true
    body := [.subs .count 16, .vld1 [0, 1] .inp 0 (.imm 16), .qd .uxtl 1 1, .qd .uxtl 0 0, .qd .sxtl 3 3, .qd .sxtl 2 2,
    .qd .sxtl 1 1, .qd .sxtl 0 0, .qq .scvtf 0 0, .qq .scvtf 1 1, .qq .scvtf 2 2, .qq .scvtf 3 3,
    .qqq .fsub 0 0 5, .qqq .fsub 1 1 5, .qqq .fsub 2 2 5, .qqq .fsub 3 3 5, .qqq .fmul 0 0 6, .qqq .fmul 1 1 6,
    .qqq .fmul 2 2 6, .qqq .fmul 3 3 6, .qqq .fadd 0 0 4, .qqq .fadd 1 1 4, .qqq .fadd 2 2 4, .qqq .fadd 3 3 4,
    .vst1 4 [0, 1, 2, 3] .out 0 (.imm 32), .vst1 4 [4, 5, 6, 7] .out 0 (.imm 32)]
    cond := .ne
    tail := [.vld1 [0] .inp 0 (.imm 8), .vldLane 4 0 [1] .inp (.imm 4), .vldLane 2 2 [1] .inp (.imm 2),
    .vldLane 1 6 [1] .inp (.imm 1), .qd .uxtl 1 1, .qd .uxtl 0 0, .qd .sxtl 3 3, .qd .sxtl 2 2, .qd .sxtl 1 1,
    .qd .sxtl 0 0, .qq .scvtf 0 0, .qq .scvtf 1 1, .qq .scvtf 2 2, .qq .scvtf 3 3, .qqq .fsub 0 0 5,
    .qqq .fsub 1 1 5, .qqq .fsub 2 2 5, .qqq .fsub 3 3 5, .qqq .fmul 0 0 6, .qqq .fmul 1 1 6, .qqq .fmul 2 2 6,
    .qqq .fmul 3 3 6, .qqq .fadd 0 0 4, .qqq .fadd 1 1 4, .qqq .fadd 2 2 4, .qqq .fadd 3 3 4,
    .vst1 4 [0, 1, 2, 3] .out 0 (.imm 32), .vst1 4 [4, 5, 6] .out 0 (.imm 24), .vstLane 4 0 7 .out (.imm 4)] }

/-- The code for a number of leftovers: the specialisations of `Transform1DKernel` for `Dequantize`. -/
def dq32Prog : Nat → Option Prog32
  | 0 => some dq32_0
  | 1 => some dq32_1
  | 2 => some dq32_2
  | 3 => some dq32_3
  | 4 => some dq32_4
  | 5 => some dq32_5
  | 6 => some dq32_6
  | 7 => some dq32_7
  | 8 => some dq32_8
  | 9 => some dq32_9
  | 10 => some dq32_10
  | 11 => some dq32_11
  | 12 => some dq32_12
  | 13 => some dq32_13
  | 14 => some dq32_14
  | 15 => some dq32_15
  | _ => none

/-- meta/transform_kernels_arm_32.h:4591-4614. -/
def mm32_0 : Prog32 :=
  { init := [.dupB 4 (.par .min), .dupB 5 (.par .max)]
    skip := false
    body := [.subs .count 16, .vld1 [0, 1] .inp 0 (.imm 16), .qqq .umax 0 0 4, .qqq .umin 0 0 5,
    .vst1 4 [0, 1] .out 0 (.imm 16)]
    cond := .ne
    tail := [] }

/-- meta/transform_kernels_arm_32.h:4631-4670. -/
def mm32_1 : Prog32 :=
  { init := [.dupB 4 (.par .min), .dupB 5 (.par .max), .subs .count 1]
    skip := true
    body := [.subs .count 16, .vld1 [0, 1] .inp 0 (.imm 16), .qqq .umax 0 0 4, .qqq .umin 0 0 5,
    .vst1 4 [0, 1] .out 0 (.imm 16)]
    cond := .ne
    tail := [.vldLane 1 0 [0] .inp (.imm 1), .qqq .umax 0 0 4, .qqq .umin 0 0 5, .vstLane 1 0 0 .out (.imm 1)] }

/-- meta/transform_kernels_arm_32.h:4687-4726. -/
def mm32_2 : Prog32 :=
  { init := [.dupB 4 (.par .min), .dupB 5 (.par .max), .subs .count 2]
    skip := true
    body := [.subs .count 16, .vld1 [0, 1] .inp 0 (.imm 16), .qqq .umax 0 0 4, .qqq .umin 0 0 5,
    .vst1 4 [0, 1] .out 0 (.imm 16)]
    cond := .ne
    tail := [.vldLane 2 0 [0] .inp (.imm 2), .qqq .umax 0 0 4, .qqq .umin 0 0 5, .vstLane 2 0 0 .out (.imm 2)] }

/-- meta/transform_kernels_arm_32.h:4743-4784. -/
def mm32_3 : Prog32 :=
  { init := [.dupB 4 (.par .min), .dupB 5 (.par .max), .subs .count 3]
    skip := true
    body := [.subs .count 16, .vld1 [0, 1] .inp 0 (.imm 16), .qqq .umax 0 0 4, .qqq .umin 0 0 5,
    .vst1 4 [0, 1] .out 0 (.imm 16)]
    cond := .ne
    tail := [.vldLane 2 0 [0] .inp (.imm 2), .vldLane 1 2 [0] .inp (.imm 1), .qqq .umax 0 0 4, .qqq .umin 0 0 5,
    .vstLane 2 0 0 .out (.imm 2), .vstLane 1 2 0 .out (.imm 1)] }

/-- meta/transform_kernels_arm_32.h:4801-4840. -/
def mm32_4 : Prog32 :=
  { init := [.dupB 4 (.par .min), .dupB 5 (.par .max), .subs .count 4]
    skip := true
    body := [.subs .count 16, .vld1 [0, 1] .inp 0 (.imm 16), .qqq .umax 0 0 4, .qqq .umin 0 0 5,
    .vst1 4 [0, 1] .out 0 (.imm 16)]
    cond := .ne
    tail := [.vldLane 4 0 [0] .inp (.imm 4), .qqq .umax 0 0 4, .qqq .umin 0 0 5, .vstLane 4 0 0 .out (.imm 4)] }

/-- meta/transform_kernels_arm_32.h:4857-4898. -/
def mm32_5 : Prog32 :=
  { init := [.dupB 4 (.par .min), .dupB 5 (.par .max), .subs .count 5]
    skip := true
    body := [.subs .count 16, .vld1 [0, 1] .inp 0 (.imm 16), .qqq .umax 0 0 4, .qqq .umin 0 0 5,
    .vst1 4 [0, 1] .out 0 (.imm 16)]
    cond := .ne
    tail := [.vldLane 4 0 [0] .inp (.imm 4), .vldLane 1 4 [0] .inp (.imm 1), .qqq .umax 0 0 4, .qqq .umin 0 0 5,
    .vstLane 4 0 0 .out (.imm 4), .vstLane 1 4 0 .out (.imm 1)] }

/-- meta/transform_kernels_arm_32.h:4915-4956. -/
def mm32_6 : Prog32 :=
  { init := [.dupB 4 (.par .min), .dupB 5 (.par .max), .subs .count 6]
    skip := true
    body := [.subs .count 16, .vld1 [0, 1] .inp 0 (.imm 16), .qqq .umax 0 0 4, .qqq .umin 0 0 5,
    .vst1 4 [0, 1] .out 0 (.imm 16)]
    cond := .ne
    tail := [.vldLane 4 0 [0] .inp (.imm 4), .vldLane 2 2 [0] .inp (.imm 2), .qqq .umax 0 0 4, .qqq .umin 0 0 5,
    .vstLane 4 0 0 .out (.imm 4), .vstLane 2 2 0 .out (.imm 2)] }

/-- meta/transform_kernels_arm_32.h:4973-5016. -/
def mm32_7 : Prog32 :=
  { init := [.dupB 4 (.par .min), .dupB 5 (.par .max), .subs .count 7]
    skip := true
    body := [.subs .count 16, .vld1 [0, 1] .inp 0 (.imm 16), .qqq .umax 0 0 4, .qqq .umin 0 0 5,
    .vst1 4 [0, 1] .out 0 (.imm 16)]
    cond := .ne
    tail := [.vldLane 4 0 [0] .inp (.imm 4), .vldLane 2 2 [0] .inp (.imm 2), .vldLane 1 6 [0] .inp (.imm 1),
    .qqq .umax 0 0 4, .qqq .umin 0 0 5, .vstLane 4 0 0 .out (.imm 4), .vstLane 2 2 0 .out (.imm 2),
    .vstLane 1 6 0 .out (.imm 1)] }

/-- meta/transform_kernels_arm_32.h:5033-5072. -/
def mm32_8 : Prog32 :=
  { init := [.dupB 4 (.par .min), .dupB 5 (.par .max), .subs .count 8]
    skip := true
    body := [.subs .count 16, .vld1 [0, 1] .inp 0 (.imm 16), .qqq .umax 0 0 4, .qqq .umin 0 0 5,
    .vst1 4 [0, 1] .out 0 (.imm 16)]
    cond := .ne
    tail := [.vld1 [0] .inp 0 (.imm 8), .qqq .umax 0 0 4, .qqq .umin 0 0 5, .vst1 4 [0] .out 0 (.imm 8)] }

/-- meta/transform_kernels_arm_32.h:5089-5130. -/
def mm32_9 : Prog32 :=
  { init := [.dupB 4 (.par .min), .dupB 5 (.par .max), .subs .count 9]
    skip := true
    body := [.subs .count 16, .vld1 [0, 1] .inp 0 (.imm 16), .qqq .umax 0 0 4, .qqq .umin 0 0 5,
    .vst1 4 [0, 1] .out 0 (.imm 16)]
    cond := .ne
    tail := [.vld1 [0] .inp 0 (.imm 8), .vldLane 1 0 [1] .inp (.imm 1), .qqq .umax 0 0 4, .qqq .umin 0 0 5,
    .vst1 4 [0] .out 0 (.imm 8), .vstLane 1 0 1 .out (.imm 1)] }

/-- meta/transform_kernels_arm_32.h:5147-5188. -/
def mm32_10 : Prog32 :=
  { init := [.dupB 4 (.par .min), .dupB 5 (.par .max), .subs .count 10]
    skip := true
    body := [.subs .count 16, .vld1 [0, 1] .inp 0 (.imm 16), .qqq .umax 0 0 4, .qqq .umin 0 0 5,
    .vst1 4 [0, 1] .out 0 (.imm 16)]
    cond := .ne
    tail := [.vld1 [0] .inp 0 (.imm 8), .vldLane 2 0 [1] .inp (.imm 2), .qqq .umax 0 0 4, .qqq .umin 0 0 5,
    .vst1 4 [0] .out 0 (.imm 8), .vstLane 2 0 1 .out (.imm 2)] }

/-- meta/transform_kernels_arm_32.h:5205-5248. -/
def mm32_11 : Prog32 :=
  { init := [.dupB 4 (.par .min), .dupB 5 (.par .max), .subs .count 11]
    skip := true
    body := [.subs .count 16, .vld1 [0, 1] .inp 0 (.imm 16), .qqq .umax 0 0 4, .qqq .umin 0 0 5,
    .vst1 4 [0, 1] .out 0 (.imm 16)]
    cond := .ne
    tail := [.vld1 [0] .inp 0 (.imm 8), .vldLane 2 0 [1] .inp (.imm 2), .vldLane 1 2 [1] .inp (.imm 1),
    .qqq .umax 0 0 4, .qqq .umin 0 0 5, .vst1 4 [0] .out 0 (.imm 8), .vstLane 2 0 1 .out (.imm 2),
    .vstLane 1 2 1 .out (.imm 1)] }

/-- meta/transform_kernels_arm_32.h:5265-5306. -/
def mm32_12 : Prog32 :=
  { init := [.dupB 4 (.par .min), .dupB 5 (.par .max), .subs .count 12]
    skip := true
    body := [.subs .count 16, .vld1 [0, 1] .inp 0 (.imm 16), .qqq .umax 0 0 4, .qqq .umin 0 0 5,
    .vst1 4 [0, 1] .out 0 (.imm 16)]
    cond := .ne
    tail := [.vld1 [0] .inp 0 (.imm 8), .vldLane 4 0 [1] .inp (.imm 4), .qqq .umax 0 0 4, .qqq .umin 0 0 5,
    .vst1 4 [0] .out 0 (.imm 8), .vstLane 4 0 1 .out (.imm 4)] }

/-- meta/transform_kernels_arm_32.h:5323-5366. -/
def mm32_13 : Prog32 :=
  { init := [.dupB 4 (.par .min), .dupB 5 (.par .max), .subs .count 13]
    skip := true
    body := [.subs .count 16, .vld1 [0, 1] .inp 0 (.imm 16), .qqq .umax 0 0 4, .qqq .umin 0 0 5,
    .vst1 4 [0, 1] .out 0 (.imm 16)]
    cond := .ne
    tail := [.vld1 [0] .inp 0 (.imm 8), .vldLane 4 0 [1] .inp (.imm 4), .vldLane 1 4 [1] .inp (.imm 1),
    .qqq .umax 0 0 4, .qqq .umin 0 0 5, .vst1 4 [0] .out 0 (.imm 8), .vstLane 4 0 1 .out (.imm 4),
    .vstLane 1 4 1 .out (.imm 1)] }

/-- meta/transform_kernels_arm_32.h:5383-5426. -/
def mm32_14 : Prog32 :=
  { init := [.dupB 4 (.par .min), .dupB 5 (.par .max), .subs .count 14]
    skip := true
    body := [.subs .count 16, .vld1 [0, 1] .inp 0 (.imm 16), .qqq .umax 0 0 4, .qqq .umin 0 0 5,
    .vst1 4 [0, 1] .out 0 (.imm 16)]
    cond := .ne
    tail := [.vld1 [0] .inp 0 (.imm 8), .vldLane 4 0 [1] .inp (.imm 4), .vldLane 2 2 [1] .inp (.imm 2),
    .qqq .umax 0 0 4, .qqq .umin 0 0 5, .vst1 4 [0] .out 0 (.imm 8), .vstLane 4 0 1 .out (.imm 4),
    .vstLane 2 2 1 .out (.imm 2)] }

/-- meta/transform_kernels_arm_32.h:5443-5488. -/
def mm32_15 : Prog32 :=
  { init := [.dupB 4 (.par .min), .dupB 5 (.par .max), .subs .count 15]
    skip := true
    body := [.subs .count 16, .vld1 [0, 1] .inp 0 (.imm 16), .qqq .umax 0 0 4, .qqq .umin 0 0 5,
    .vst1 4 [0, 1] .out 0 (.imm 16)]
    cond := .ne
    tail := [.vld1 [0] .inp 0 (.imm 8), .vldLane 4 0 [1] .inp (.imm 4), .vldLane 2 2 [1] .inp (.imm 2),
    .vldLane 1 6 [1] .inp (.imm 1), .qqq .umax 0 0 4, .qqq .umin 0 0 5, .vst1 4 [0] .out 0 (.imm 8),
    .vstLane 4 0 1 .out (.imm 4), .vstLane 2 2 1 .out (.imm 2), .vstLane 1 6 1 .out (.imm 1)] }

/-- The code for a number of leftovers: the specialisations of `Transform1DKernel` for `MinMax<uint8_t>`. -/
def mm32Prog : Nat → Option Prog32
  | 0 => some mm32_0
  | 1 => some mm32_1
  | 2 => some mm32_2
  | 3 => some mm32_3
  | 4 => some mm32_4
  | 5 => some mm32_5
  | 6 => some mm32_6
  | 7 => some mm32_7
  | 8 => some mm32_8
  | 9 => some mm32_9
  | 10 => some mm32_10
  | 11 => some mm32_11
  | 12 => some mm32_12
  | 13 => some mm32_13
  | 14 => some mm32_14
  | 15 => some mm32_15
  | _ => none

end Gemmlowp.MetaAsm
