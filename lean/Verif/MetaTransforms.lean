import Verif.MetaAsm
/-!
# The transformations of meta/transform_kernels_arm_64.h

`rqL`, `qzL`, `dqL` and `mmL` are the code of `Transform1DKernel<I, O, K, 16, L>::Transform` for `I`, `O`, `K` = `int32_t`,
`uint8_t`, `Requantize`; `float`, `uint8_t`, `Quantize`; `uint8_t`, `float`, `Dequantize`; and `uint8_t`, `uint8_t`,
`MinMax<uint8_t>`, line by line.
-/
namespace Gemmlowp.MetaAsm

/-- meta/transform_kernels_arm_64.h:38-103. -/
def rq0 : Prog :=
  { init := [.dupW 4 (.par .inputMin), .dupW 5 (.par .outputMin), .dupW 6 (.par .inputOffset),
    .dupW 7 (.par .inputScale), .dupW 8 (.par .outputInvScale), .dupW 9 (.par .outputOffset), .op2 .fsub 4 4 5]
    skip := false
    body := [.subs .count 16, .ld1 16 [0, 1, 2, 3] .inp (.imm 64), .op1 .scvtf 0 0, .op1 .scvtf 1 1, .op1 .scvtf 2 2,
    .op1 .scvtf 3 3, .op2 .fsub 0 0 6, .op2 .fsub 1 1 6, .op2 .fsub 2 2 6, .op2 .fsub 3 3 6, .op2 .fmul 0 0 7,
    .op2 .fmul 1 1 7, .op2 .fmul 2 2 7, .op2 .fmul 3 3 7, .op2 .fadd 0 0 4, .op2 .fadd 1 1 4, .op2 .fadd 2 2 4,
    .op2 .fadd 3 3 4, .op2 .fmul 0 0 8, .op2 .fmul 1 1 8, .op2 .fmul 2 2 8, .op2 .fmul 3 3 8, .op2 .fadd 0 0 9,
    .op2 .fadd 1 1 9, .op2 .fadd 2 2 9, .op2 .fadd 3 3 9, .op1 .fcvtns 0 0, .op1 .fcvtns 1 1, .op1 .fcvtns 2 2,
    .op1 .fcvtns 3 3, .op1 .sqxtn 0 0, .op2 .sqxtn2 0 0 1, .op1 .sqxtn 2 2, .op2 .sqxtn2 2 2 3,
    .op1 .sqxtun 0 0, .op2 .sqxtun2 0 0 2, .st1 4 4 [0] .out (.imm 16)]
    cond := .ne
    tail := [] }

/-- meta/transform_kernels_arm_64.h:117-205. -/
def rq1 : Prog :=
  { init := [.dupW 4 (.par .inputMin), .dupW 5 (.par .outputMin), .dupW 6 (.par .inputOffset),
    .dupW 7 (.par .inputScale), .dupW 8 (.par .outputInvScale), .dupW 9 (.par .outputOffset), .op2 .fsub 4 4 5,
    .subs .count 1]
    skip := true
    body := [.subs .count 16, .ld1 16 [0, 1, 2, 3] .inp (.imm 64), .op1 .scvtf 0 0, .op1 .scvtf 1 1, .op1 .scvtf 2 2,
    .op1 .scvtf 3 3, .op2 .fsub 0 0 6, .op2 .fsub 1 1 6, .op2 .fsub 2 2 6, .op2 .fsub 3 3 6, .op2 .fmul 0 0 7,
    .op2 .fmul 1 1 7, .op2 .fmul 2 2 7, .op2 .fmul 3 3 7, .op2 .fadd 0 0 4, .op2 .fadd 1 1 4, .op2 .fadd 2 2 4,
    .op2 .fadd 3 3 4, .op2 .fmul 0 0 8, .op2 .fmul 1 1 8, .op2 .fmul 2 2 8, .op2 .fmul 3 3 8, .op2 .fadd 0 0 9,
    .op2 .fadd 1 1 9, .op2 .fadd 2 2 9, .op2 .fadd 3 3 9, .op1 .fcvtns 0 0, .op1 .fcvtns 1 1, .op1 .fcvtns 2 2,
    .op1 .fcvtns 3 3, .op1 .sqxtn 0 0, .op2 .sqxtn2 0 0 1, .op1 .sqxtn 2 2, .op2 .sqxtn2 2 2 3,
    .op1 .sqxtun 0 0, .op2 .sqxtun2 0 0 2, .st1 4 4 [0] .out (.imm 16)]
    cond := .ne
    tail := [.ldLane 4 0 [0] .inp (.imm 4), .op1 .scvtf 0 0, .op2 .fsub 0 0 6, .op2 .fmul 0 0 7, .op2 .fadd 0 0 4,
    .op2 .fmul 0 0 8, .op2 .fadd 0 0 9, .op1 .fcvtns 0 0, .op1 .sqxtn 0 0, .op1 .sqxtun 0 0,
    .stLane 1 0 0 .out (.imm 1)] }

/-- meta/transform_kernels_arm_64.h:219-307. -/
def rq2 : Prog :=
  { init := [.dupW 4 (.par .inputMin), .dupW 5 (.par .outputMin), .dupW 6 (.par .inputOffset),
    .dupW 7 (.par .inputScale), .dupW 8 (.par .outputInvScale), .dupW 9 (.par .outputOffset), .op2 .fsub 4 4 5,
    .subs .count 2]
    skip := true
    body := [.subs .count 16, .ld1 16 [0, 1, 2, 3] .inp (.imm 64), .op1 .scvtf 0 0, .op1 .scvtf 1 1, .op1 .scvtf 2 2,
    .op1 .scvtf 3 3, .op2 .fsub 0 0 6, .op2 .fsub 1 1 6, .op2 .fsub 2 2 6, .op2 .fsub 3 3 6, .op2 .fmul 0 0 7,
    .op2 .fmul 1 1 7, .op2 .fmul 2 2 7, .op2 .fmul 3 3 7, .op2 .fadd 0 0 4, .op2 .fadd 1 1 4, .op2 .fadd 2 2 4,
    .op2 .fadd 3 3 4, .op2 .fmul 0 0 8, .op2 .fmul 1 1 8, .op2 .fmul 2 2 8, .op2 .fmul 3 3 8, .op2 .fadd 0 0 9,
    .op2 .fadd 1 1 9, .op2 .fadd 2 2 9, .op2 .fadd 3 3 9, .op1 .fcvtns 0 0, .op1 .fcvtns 1 1, .op1 .fcvtns 2 2,
    .op1 .fcvtns 3 3, .op1 .sqxtn 0 0, .op2 .sqxtn2 0 0 1, .op1 .sqxtn 2 2, .op2 .sqxtn2 2 2 3,
    .op1 .sqxtun 0 0, .op2 .sqxtun2 0 0 2, .st1 4 4 [0] .out (.imm 16)]
    cond := .ne
    tail := [.ld1 8 [0] .inp (.imm 8), .op1 .scvtf 0 0, .op2 .fsub 0 0 6, .op2 .fmul 0 0 7, .op2 .fadd 0 0 4,
    .op2 .fmul 0 0 8, .op2 .fadd 0 0 9, .op1 .fcvtns 0 0, .op1 .sqxtn 0 0, .op1 .sqxtun 0 0,
    .stLane 2 0 0 .out (.imm 2)] }

/-- meta/transform_kernels_arm_64.h:321-411. -/
def rq3 : Prog :=
  { init := [.dupW 4 (.par .inputMin), .dupW 5 (.par .outputMin), .dupW 6 (.par .inputOffset),
    .dupW 7 (.par .inputScale), .dupW 8 (.par .outputInvScale), .dupW 9 (.par .outputOffset), .op2 .fsub 4 4 5,
    .subs .count 3]
    skip := true
    body := [.subs .count 16, .ld1 16 [0, 1, 2, 3] .inp (.imm 64), .op1 .scvtf 0 0, .op1 .scvtf 1 1, .op1 .scvtf 2 2,
    .op1 .scvtf 3 3, .op2 .fsub 0 0 6, .op2 .fsub 1 1 6, .op2 .fsub 2 2 6, .op2 .fsub 3 3 6, .op2 .fmul 0 0 7,
    .op2 .fmul 1 1 7, .op2 .fmul 2 2 7, .op2 .fmul 3 3 7, .op2 .fadd 0 0 4, .op2 .fadd 1 1 4, .op2 .fadd 2 2 4,
    .op2 .fadd 3 3 4, .op2 .fmul 0 0 8, .op2 .fmul 1 1 8, .op2 .fmul 2 2 8, .op2 .fmul 3 3 8, .op2 .fadd 0 0 9,
    .op2 .fadd 1 1 9, .op2 .fadd 2 2 9, .op2 .fadd 3 3 9, .op1 .fcvtns 0 0, .op1 .fcvtns 1 1, .op1 .fcvtns 2 2,
    .op1 .fcvtns 3 3, .op1 .sqxtn 0 0, .op2 .sqxtn2 0 0 1, .op1 .sqxtn 2 2, .op2 .sqxtn2 2 2 3,
    .op1 .sqxtun 0 0, .op2 .sqxtun2 0 0 2, .st1 4 4 [0] .out (.imm 16)]
    cond := .ne
    tail := [.ld1 8 [0] .inp (.imm 8), .ldLane 4 2 [0] .inp (.imm 4), .op1 .scvtf 0 0, .op2 .fsub 0 0 6,
    .op2 .fmul 0 0 7, .op2 .fadd 0 0 4, .op2 .fmul 0 0 8, .op2 .fadd 0 0 9, .op1 .fcvtns 0 0, .op1 .sqxtn 0 0,
    .op1 .sqxtun 0 0, .stLane 2 0 0 .out (.imm 2), .stLane 1 2 0 .out (.imm 1)] }

/-- meta/transform_kernels_arm_64.h:425-513. -/
def rq4 : Prog :=
  { init := [.dupW 4 (.par .inputMin), .dupW 5 (.par .outputMin), .dupW 6 (.par .inputOffset),
    .dupW 7 (.par .inputScale), .dupW 8 (.par .outputInvScale), .dupW 9 (.par .outputOffset), .op2 .fsub 4 4 5,
    .subs .count 4]
    skip := true
    body := [.subs .count 16, .ld1 16 [0, 1, 2, 3] .inp (.imm 64), .op1 .scvtf 0 0, .op1 .scvtf 1 1, .op1 .scvtf 2 2,
    .op1 .scvtf 3 3, .op2 .fsub 0 0 6, .op2 .fsub 1 1 6, .op2 .fsub 2 2 6, .op2 .fsub 3 3 6, .op2 .fmul 0 0 7,
    .op2 .fmul 1 1 7, .op2 .fmul 2 2 7, .op2 .fmul 3 3 7, .op2 .fadd 0 0 4, .op2 .fadd 1 1 4, .op2 .fadd 2 2 4,
    .op2 .fadd 3 3 4, .op2 .fmul 0 0 8, .op2 .fmul 1 1 8, .op2 .fmul 2 2 8, .op2 .fmul 3 3 8, .op2 .fadd 0 0 9,
    .op2 .fadd 1 1 9, .op2 .fadd 2 2 9, .op2 .fadd 3 3 9, .op1 .fcvtns 0 0, .op1 .fcvtns 1 1, .op1 .fcvtns 2 2,
    .op1 .fcvtns 3 3, .op1 .sqxtn 0 0, .op2 .sqxtn2 0 0 1, .op1 .sqxtn 2 2, .op2 .sqxtn2 2 2 3,
    .op1 .sqxtun 0 0, .op2 .sqxtun2 0 0 2, .st1 4 4 [0] .out (.imm 16)]
    cond := .ne
    tail := [.ld1 16 [0] .inp (.imm 16), .op1 .scvtf 0 0, .op2 .fsub 0 0 6, .op2 .fmul 0 0 7, .op2 .fadd 0 0 4,
    .op2 .fmul 0 0 8, .op2 .fadd 0 0 9, .op1 .fcvtns 0 0, .op1 .sqxtn 0 0, .op1 .sqxtun 0 0,
    .stLane 4 0 0 .out (.imm 4)] }

/-- meta/transform_kernels_arm_64.h:527-625. -/
def rq5 : Prog :=
  { init := [.dupW 4 (.par .inputMin), .dupW 5 (.par .outputMin), .dupW 6 (.par .inputOffset),
    .dupW 7 (.par .inputScale), .dupW 8 (.par .outputInvScale), .dupW 9 (.par .outputOffset), .op2 .fsub 4 4 5,
    .subs .count 5]
    skip := true
    body := [.subs .count 16, .ld1 16 [0, 1, 2, 3] .inp (.imm 64), .op1 .scvtf 0 0, .op1 .scvtf 1 1, .op1 .scvtf 2 2,
    .op1 .scvtf 3 3, .op2 .fsub 0 0 6, .op2 .fsub 1 1 6, .op2 .fsub 2 2 6, .op2 .fsub 3 3 6, .op2 .fmul 0 0 7,
    .op2 .fmul 1 1 7, .op2 .fmul 2 2 7, .op2 .fmul 3 3 7, .op2 .fadd 0 0 4, .op2 .fadd 1 1 4, .op2 .fadd 2 2 4,
    .op2 .fadd 3 3 4, .op2 .fmul 0 0 8, .op2 .fmul 1 1 8, .op2 .fmul 2 2 8, .op2 .fmul 3 3 8, .op2 .fadd 0 0 9,
    .op2 .fadd 1 1 9, .op2 .fadd 2 2 9, .op2 .fadd 3 3 9, .op1 .fcvtns 0 0, .op1 .fcvtns 1 1, .op1 .fcvtns 2 2,
    .op1 .fcvtns 3 3, .op1 .sqxtn 0 0, .op2 .sqxtn2 0 0 1, .op1 .sqxtn 2 2, .op2 .sqxtn2 2 2 3,
    .op1 .sqxtun 0 0, .op2 .sqxtun2 0 0 2, .st1 4 4 [0] .out (.imm 16)]
    cond := .ne
    tail := [.ld1 16 [0] .inp (.imm 16), .ldLane 4 0 [1] .inp (.imm 4), .op1 .scvtf 0 0, .op1 .scvtf 1 1,
    .op2 .fsub 0 0 6, .op2 .fsub 1 1 6, .op2 .fmul 0 0 7, .op2 .fmul 1 1 7, .op2 .fadd 0 0 4, .op2 .fadd 1 1 4,
    .op2 .fmul 0 0 8, .op2 .fmul 1 1 8, .op2 .fadd 0 0 9, .op2 .fadd 1 1 9, .op1 .fcvtns 0 0, .op1 .fcvtns 1 1,
    .op1 .sqxtn 0 0, .op2 .sqxtn2 0 0 1, .op1 .sqxtun 0 0, .stLane 4 0 0 .out (.imm 4),
    .stLane 1 4 0 .out (.imm 1)] }

/-- meta/transform_kernels_arm_64.h:639-737. -/
def rq6 : Prog :=
  { init := [.dupW 4 (.par .inputMin), .dupW 5 (.par .outputMin), .dupW 6 (.par .inputOffset),
    .dupW 7 (.par .inputScale), .dupW 8 (.par .outputInvScale), .dupW 9 (.par .outputOffset), .op2 .fsub 4 4 5,
    .subs .count 6]
    skip := true
    body := [.subs .count 16, .ld1 16 [0, 1, 2, 3] .inp (.imm 64), .op1 .scvtf 0 0, .op1 .scvtf 1 1, .op1 .scvtf 2 2,
    .op1 .scvtf 3 3, .op2 .fsub 0 0 6, .op2 .fsub 1 1 6, .op2 .fsub 2 2 6, .op2 .fsub 3 3 6, .op2 .fmul 0 0 7,
    .op2 .fmul 1 1 7, .op2 .fmul 2 2 7, .op2 .fmul 3 3 7, .op2 .fadd 0 0 4, .op2 .fadd 1 1 4, .op2 .fadd 2 2 4,
    .op2 .fadd 3 3 4, .op2 .fmul 0 0 8, .op2 .fmul 1 1 8, .op2 .fmul 2 2 8, .op2 .fmul 3 3 8, .op2 .fadd 0 0 9,
    .op2 .fadd 1 1 9, .op2 .fadd 2 2 9, .op2 .fadd 3 3 9, .op1 .fcvtns 0 0, .op1 .fcvtns 1 1, .op1 .fcvtns 2 2,
    .op1 .fcvtns 3 3, .op1 .sqxtn 0 0, .op2 .sqxtn2 0 0 1, .op1 .sqxtn 2 2, .op2 .sqxtn2 2 2 3,
    .op1 .sqxtun 0 0, .op2 .sqxtun2 0 0 2, .st1 4 4 [0] .out (.imm 16)]
    cond := .ne
    tail := [.ld1 16 [0] .inp (.imm 16), .ld1 8 [1] .inp (.imm 8), .op1 .scvtf 0 0, .op1 .scvtf 1 1, .op2 .fsub 0 0 6,
    .op2 .fsub 1 1 6, .op2 .fmul 0 0 7, .op2 .fmul 1 1 7, .op2 .fadd 0 0 4, .op2 .fadd 1 1 4, .op2 .fmul 0 0 8,
    .op2 .fmul 1 1 8, .op2 .fadd 0 0 9, .op2 .fadd 1 1 9, .op1 .fcvtns 0 0, .op1 .fcvtns 1 1, .op1 .sqxtn 0 0,
    .op2 .sqxtn2 0 0 1, .op1 .sqxtun 0 0, .stLane 4 0 0 .out (.imm 4), .stLane 2 2 0 .out (.imm 2)] }

/-- meta/transform_kernels_arm_64.h:751-851. -/
def rq7 : Prog :=
  { init := [.dupW 4 (.par .inputMin), .dupW 5 (.par .outputMin), .dupW 6 (.par .inputOffset),
    .dupW 7 (.par .inputScale), .dupW 8 (.par .outputInvScale), .dupW 9 (.par .outputOffset), .op2 .fsub 4 4 5,
    .subs .count 7]
    skip := true
    body := [.subs .count 16, .ld1 16 [0, 1, 2, 3] .inp (.imm 64), .op1 .scvtf 0 0, .op1 .scvtf 1 1, .op1 .scvtf 2 2,
    .op1 .scvtf 3 3, .op2 .fsub 0 0 6, .op2 .fsub 1 1 6, .op2 .fsub 2 2 6, .op2 .fsub 3 3 6, .op2 .fmul 0 0 7,
    .op2 .fmul 1 1 7, .op2 .fmul 2 2 7, .op2 .fmul 3 3 7, .op2 .fadd 0 0 4, .op2 .fadd 1 1 4, .op2 .fadd 2 2 4,
    .op2 .fadd 3 3 4, .op2 .fmul 0 0 8, .op2 .fmul 1 1 8, .op2 .fmul 2 2 8, .op2 .fmul 3 3 8, .op2 .fadd 0 0 9,
    .op2 .fadd 1 1 9, .op2 .fadd 2 2 9, .op2 .fadd 3 3 9, .op1 .fcvtns 0 0, .op1 .fcvtns 1 1, .op1 .fcvtns 2 2,
    .op1 .fcvtns 3 3, .op1 .sqxtn 0 0, .op2 .sqxtn2 0 0 1, .op1 .sqxtn 2 2, .op2 .sqxtn2 2 2 3,
    .op1 .sqxtun 0 0, .op2 .sqxtun2 0 0 2, .st1 4 4 [0] .out (.imm 16)]
    cond := .ne
    tail := [.ld1 16 [0] .inp (.imm 16), .ld1 8 [1] .inp (.imm 8), .ldLane 4 2 [1] .inp (.imm 4), .op1 .scvtf 0 0,
    .op1 .scvtf 1 1, .op2 .fsub 0 0 6, .op2 .fsub 1 1 6, .op2 .fmul 0 0 7, .op2 .fmul 1 1 7, .op2 .fadd 0 0 4,
    .op2 .fadd 1 1 4, .op2 .fmul 0 0 8, .op2 .fmul 1 1 8, .op2 .fadd 0 0 9, .op2 .fadd 1 1 9, .op1 .fcvtns 0 0,
    .op1 .fcvtns 1 1, .op1 .sqxtn 0 0, .op2 .sqxtn2 0 0 1, .op1 .sqxtun 0 0, .stLane 4 0 0 .out (.imm 4),
    .stLane 2 2 0 .out (.imm 2), .stLane 1 6 0 .out (.imm 1)] }

/-- meta/transform_kernels_arm_64.h:865-961. -/
def rq8 : Prog :=
  { init := [.dupW 4 (.par .inputMin), .dupW 5 (.par .outputMin), .dupW 6 (.par .inputOffset),
    .dupW 7 (.par .inputScale), .dupW 8 (.par .outputInvScale), .dupW 9 (.par .outputOffset), .op2 .fsub 4 4 5,
    .subs .count 8]
    skip := true
    body := [.subs .count 16, .ld1 16 [0, 1, 2, 3] .inp (.imm 64), .op1 .scvtf 0 0, .op1 .scvtf 1 1, .op1 .scvtf 2 2,
    .op1 .scvtf 3 3, .op2 .fsub 0 0 6, .op2 .fsub 1 1 6, .op2 .fsub 2 2 6, .op2 .fsub 3 3 6, .op2 .fmul 0 0 7,
    .op2 .fmul 1 1 7, .op2 .fmul 2 2 7, .op2 .fmul 3 3 7, .op2 .fadd 0 0 4, .op2 .fadd 1 1 4, .op2 .fadd 2 2 4,
    .op2 .fadd 3 3 4, .op2 .fmul 0 0 8, .op2 .fmul 1 1 8, .op2 .fmul 2 2 8, .op2 .fmul 3 3 8, .op2 .fadd 0 0 9,
    .op2 .fadd 1 1 9, .op2 .fadd 2 2 9, .op2 .fadd 3 3 9, .op1 .fcvtns 0 0, .op1 .fcvtns 1 1, .op1 .fcvtns 2 2,
    .op1 .fcvtns 3 3, .op1 .sqxtn 0 0, .op2 .sqxtn2 0 0 1, .op1 .sqxtn 2 2, .op2 .sqxtn2 2 2 3,
    .op1 .sqxtun 0 0, .op2 .sqxtun2 0 0 2, .st1 4 4 [0] .out (.imm 16)]
    cond := .ne
    tail := [.ld1 16 [0, 1] .inp (.imm 32), .op1 .scvtf 0 0, .op1 .scvtf 1 1, .op2 .fsub 0 0 6, .op2 .fsub 1 1 6,
    .op2 .fmul 0 0 7, .op2 .fmul 1 1 7, .op2 .fadd 0 0 4, .op2 .fadd 1 1 4, .op2 .fmul 0 0 8, .op2 .fmul 1 1 8,
    .op2 .fadd 0 0 9, .op2 .fadd 1 1 9, .op1 .fcvtns 0 0, .op1 .fcvtns 1 1, .op1 .sqxtn 0 0,
    .op2 .sqxtn2 0 0 1, .op1 .sqxtun 0 0, .st1 4 2 [0] .out (.imm 8)] }

/-- meta/transform_kernels_arm_64.h:975-1082. -/
def rq9 : Prog :=
  { init := [.dupW 4 (.par .inputMin), .dupW 5 (.par .outputMin), .dupW 6 (.par .inputOffset),
    .dupW 7 (.par .inputScale), .dupW 8 (.par .outputInvScale), .dupW 9 (.par .outputOffset), .op2 .fsub 4 4 5,
    .subs .count 9]
    skip := true
    body := [.subs .count 16, .ld1 16 [0, 1, 2, 3] .inp (.imm 64), .op1 .scvtf 0 0, .op1 .scvtf 1 1, .op1 .scvtf 2 2,
    .op1 .scvtf 3 3, .op2 .fsub 0 0 6, .op2 .fsub 1 1 6, .op2 .fsub 2 2 6, .op2 .fsub 3 3 6, .op2 .fmul 0 0 7,
    .op2 .fmul 1 1 7, .op2 .fmul 2 2 7, .op2 .fmul 3 3 7, .op2 .fadd 0 0 4, .op2 .fadd 1 1 4, .op2 .fadd 2 2 4,
    .op2 .fadd 3 3 4, .op2 .fmul 0 0 8, .op2 .fmul 1 1 8, .op2 .fmul 2 2 8, .op2 .fmul 3 3 8, .op2 .fadd 0 0 9,
    .op2 .fadd 1 1 9, .op2 .fadd 2 2 9, .op2 .fadd 3 3 9, .op1 .fcvtns 0 0, .op1 .fcvtns 1 1, .op1 .fcvtns 2 2,
    .op1 .fcvtns 3 3, .op1 .sqxtn 0 0, .op2 .sqxtn2 0 0 1, .op1 .sqxtn 2 2, .op2 .sqxtn2 2 2 3,
    .op1 .sqxtun 0 0, .op2 .sqxtun2 0 0 2, .st1 4 4 [0] .out (.imm 16)]
    cond := .ne
    tail := [.ld1 16 [0, 1] .inp (.imm 32), .ldLane 4 0 [2] .inp (.imm 4), .op1 .scvtf 0 0, .op1 .scvtf 1 1,
    .op1 .scvtf 2 2, .op2 .fsub 0 0 6, .op2 .fsub 1 1 6, .op2 .fsub 2 2 6, .op2 .fmul 0 0 7, .op2 .fmul 1 1 7,
    .op2 .fmul 2 2 7, .op2 .fadd 0 0 4, .op2 .fadd 1 1 4, .op2 .fadd 2 2 4, .op2 .fmul 0 0 8, .op2 .fmul 1 1 8,
    .op2 .fmul 2 2 8, .op2 .fadd 0 0 9, .op2 .fadd 1 1 9, .op2 .fadd 2 2 9, .op1 .fcvtns 0 0, .op1 .fcvtns 1 1,
    .op1 .fcvtns 2 2, .op1 .sqxtn 0 0, .op2 .sqxtn2 0 0 1, .op1 .sqxtn 2 2, .op1 .sqxtun 0 0,
    .op2 .sqxtun2 0 0 2, .st1 4 2 [0] .out (.imm 8), .stLane 1 8 0 .out (.imm 1)] }

/-- meta/transform_kernels_arm_64.h:1096-1203. -/
def rq10 : Prog :=
  { init := [.dupW 4 (.par .inputMin), .dupW 5 (.par .outputMin), .dupW 6 (.par .inputOffset),
    .dupW 7 (.par .inputScale), .dupW 8 (.par .outputInvScale), .dupW 9 (.par .outputOffset), .op2 .fsub 4 4 5,
    .subs .count 10]
    skip := true
    body := [.subs .count 16, .ld1 16 [0, 1, 2, 3] .inp (.imm 64), .op1 .scvtf 0 0, .op1 .scvtf 1 1, .op1 .scvtf 2 2,
    .op1 .scvtf 3 3, .op2 .fsub 0 0 6, .op2 .fsub 1 1 6, .op2 .fsub 2 2 6, .op2 .fsub 3 3 6, .op2 .fmul 0 0 7,
    .op2 .fmul 1 1 7, .op2 .fmul 2 2 7, .op2 .fmul 3 3 7, .op2 .fadd 0 0 4, .op2 .fadd 1 1 4, .op2 .fadd 2 2 4,
    .op2 .fadd 3 3 4, .op2 .fmul 0 0 8, .op2 .fmul 1 1 8, .op2 .fmul 2 2 8, .op2 .fmul 3 3 8, .op2 .fadd 0 0 9,
    .op2 .fadd 1 1 9, .op2 .fadd 2 2 9, .op2 .fadd 3 3 9, .op1 .fcvtns 0 0, .op1 .fcvtns 1 1, .op1 .fcvtns 2 2,
    .op1 .fcvtns 3 3, .op1 .sqxtn 0 0, .op2 .sqxtn2 0 0 1, .op1 .sqxtn 2 2, .op2 .sqxtn2 2 2 3,
    .op1 .sqxtun 0 0, .op2 .sqxtun2 0 0 2, .st1 4 4 [0] .out (.imm 16)]
    cond := .ne
    tail := [.ld1 16 [0, 1] .inp (.imm 32), .ld1 8 [2] .inp (.imm 8), .op1 .scvtf 0 0, .op1 .scvtf 1 1, .op1 .scvtf 2 2,
    .op2 .fsub 0 0 6, .op2 .fsub 1 1 6, .op2 .fsub 2 2 6, .op2 .fmul 0 0 7, .op2 .fmul 1 1 7, .op2 .fmul 2 2 7,
    .op2 .fadd 0 0 4, .op2 .fadd 1 1 4, .op2 .fadd 2 2 4, .op2 .fmul 0 0 8, .op2 .fmul 1 1 8, .op2 .fmul 2 2 8,
    .op2 .fadd 0 0 9, .op2 .fadd 1 1 9, .op2 .fadd 2 2 9, .op1 .fcvtns 0 0, .op1 .fcvtns 1 1, .op1 .fcvtns 2 2,
    .op1 .sqxtn 0 0, .op2 .sqxtn2 0 0 1, .op1 .sqxtn 2 2, .op1 .sqxtun 0 0, .op2 .sqxtun2 0 0 2,
    .st1 4 2 [0] .out (.imm 8), .stLane 2 4 0 .out (.imm 2)] }

/-- meta/transform_kernels_arm_64.h:1217-1326. -/
def rq11 : Prog :=
  { init := [.dupW 4 (.par .inputMin), .dupW 5 (.par .outputMin), .dupW 6 (.par .inputOffset),
    .dupW 7 (.par .inputScale), .dupW 8 (.par .outputInvScale), .dupW 9 (.par .outputOffset), .op2 .fsub 4 4 5,
    .subs .count 11]
    skip := true
    body := [.subs .count 16, .ld1 16 [0, 1, 2, 3] .inp (.imm 64), .op1 .scvtf 0 0, .op1 .scvtf 1 1, .op1 .scvtf 2 2,
    .op1 .scvtf 3 3, .op2 .fsub 0 0 6, .op2 .fsub 1 1 6, .op2 .fsub 2 2 6, .op2 .fsub 3 3 6, .op2 .fmul 0 0 7,
    .op2 .fmul 1 1 7, .op2 .fmul 2 2 7, .op2 .fmul 3 3 7, .op2 .fadd 0 0 4, .op2 .fadd 1 1 4, .op2 .fadd 2 2 4,
    .op2 .fadd 3 3 4, .op2 .fmul 0 0 8, .op2 .fmul 1 1 8, .op2 .fmul 2 2 8, .op2 .fmul 3 3 8, .op2 .fadd 0 0 9,
    .op2 .fadd 1 1 9, .op2 .fadd 2 2 9, .op2 .fadd 3 3 9, .op1 .fcvtns 0 0, .op1 .fcvtns 1 1, .op1 .fcvtns 2 2,
    .op1 .fcvtns 3 3, .op1 .sqxtn 0 0, .op2 .sqxtn2 0 0 1, .op1 .sqxtn 2 2, .op2 .sqxtn2 2 2 3,
    .op1 .sqxtun 0 0, .op2 .sqxtun2 0 0 2, .st1 4 4 [0] .out (.imm 16)]
    cond := .ne
    tail := [.ld1 16 [0, 1] .inp (.imm 32), .ld1 8 [2] .inp (.imm 8), .ldLane 4 2 [2] .inp (.imm 4), .op1 .scvtf 0 0,
    .op1 .scvtf 1 1, .op1 .scvtf 2 2, .op2 .fsub 0 0 6, .op2 .fsub 1 1 6, .op2 .fsub 2 2 6, .op2 .fmul 0 0 7,
    .op2 .fmul 1 1 7, .op2 .fmul 2 2 7, .op2 .fadd 0 0 4, .op2 .fadd 1 1 4, .op2 .fadd 2 2 4, .op2 .fmul 0 0 8,
    .op2 .fmul 1 1 8, .op2 .fmul 2 2 8, .op2 .fadd 0 0 9, .op2 .fadd 1 1 9, .op2 .fadd 2 2 9, .op1 .fcvtns 0 0,
    .op1 .fcvtns 1 1, .op1 .fcvtns 2 2, .op1 .sqxtn 0 0, .op2 .sqxtn2 0 0 1, .op1 .sqxtn 2 2, .op1 .sqxtun 0 0,
    .op2 .sqxtun2 0 0 2, .st1 4 2 [0] .out (.imm 8), .stLane 2 4 0 .out (.imm 2), .stLane 1 10 0 .out (.imm 1)] }

/-- meta/transform_kernels_arm_64.h:1340-1446. -/
def rq12 : Prog :=
  { init := [.dupW 4 (.par .inputMin), .dupW 5 (.par .outputMin), .dupW 6 (.par .inputOffset),
    .dupW 7 (.par .inputScale), .dupW 8 (.par .outputInvScale), .dupW 9 (.par .outputOffset), .op2 .fsub 4 4 5,
    .subs .count 12]
    skip := true
    body := [.subs .count 16, .ld1 16 [0, 1, 2, 3] .inp (.imm 64), .op1 .scvtf 0 0, .op1 .scvtf 1 1, .op1 .scvtf 2 2,
    .op1 .scvtf 3 3, .op2 .fsub 0 0 6, .op2 .fsub 1 1 6, .op2 .fsub 2 2 6, .op2 .fsub 3 3 6, .op2 .fmul 0 0 7,
    .op2 .fmul 1 1 7, .op2 .fmul 2 2 7, .op2 .fmul 3 3 7, .op2 .fadd 0 0 4, .op2 .fadd 1 1 4, .op2 .fadd 2 2 4,
    .op2 .fadd 3 3 4, .op2 .fmul 0 0 8, .op2 .fmul 1 1 8, .op2 .fmul 2 2 8, .op2 .fmul 3 3 8, .op2 .fadd 0 0 9,
    .op2 .fadd 1 1 9, .op2 .fadd 2 2 9, .op2 .fadd 3 3 9, .op1 .fcvtns 0 0, .op1 .fcvtns 1 1, .op1 .fcvtns 2 2,
    .op1 .fcvtns 3 3, .op1 .sqxtn 0 0, .op2 .sqxtn2 0 0 1, .op1 .sqxtn 2 2, .op2 .sqxtn2 2 2 3,
    .op1 .sqxtun 0 0, .op2 .sqxtun2 0 0 2, .st1 4 4 [0] .out (.imm 16)]
    cond := .ne
    tail := [.ld1 16 [0, 1, 2] .inp (.imm 48), .op1 .scvtf 0 0, .op1 .scvtf 1 1, .op1 .scvtf 2 2, .op2 .fsub 0 0 6,
    .op2 .fsub 1 1 6, .op2 .fsub 2 2 6, .op2 .fmul 0 0 7, .op2 .fmul 1 1 7, .op2 .fmul 2 2 7, .op2 .fadd 0 0 4,
    .op2 .fadd 1 1 4, .op2 .fadd 2 2 4, .op2 .fmul 0 0 8, .op2 .fmul 1 1 8, .op2 .fmul 2 2 8, .op2 .fadd 0 0 9,
    .op2 .fadd 1 1 9, .op2 .fadd 2 2 9, .op1 .fcvtns 0 0, .op1 .fcvtns 1 1, .op1 .fcvtns 2 2, .op1 .sqxtn 0 0,
    .op2 .sqxtn2 0 0 1, .op1 .sqxtn 2 2, .op1 .sqxtun 0 0, .op2 .sqxtun2 0 0 2, .st1 4 2 [0] .out (.imm 8),
    .stLane 4 2 0 .out (.imm 4)] }

/-- meta/transform_kernels_arm_64.h:1460-1576. -/
def rq13 : Prog :=
  { init := [.dupW 4 (.par .inputMin), .dupW 5 (.par .outputMin), .dupW 6 (.par .inputOffset),
    .dupW 7 (.par .inputScale), .dupW 8 (.par .outputInvScale), .dupW 9 (.par .outputOffset), .op2 .fsub 4 4 5,
    .subs .count 13]
    skip := true
    body := [.subs .count 16, .ld1 16 [0, 1, 2, 3] .inp (.imm 64), .op1 .scvtf 0 0, .op1 .scvtf 1 1, .op1 .scvtf 2 2,
    .op1 .scvtf 3 3, .op2 .fsub 0 0 6, .op2 .fsub 1 1 6, .op2 .fsub 2 2 6, .op2 .fsub 3 3 6, .op2 .fmul 0 0 7,
    .op2 .fmul 1 1 7, .op2 .fmul 2 2 7, .op2 .fmul 3 3 7, .op2 .fadd 0 0 4, .op2 .fadd 1 1 4, .op2 .fadd 2 2 4,
    .op2 .fadd 3 3 4, .op2 .fmul 0 0 8, .op2 .fmul 1 1 8, .op2 .fmul 2 2 8, .op2 .fmul 3 3 8, .op2 .fadd 0 0 9,
    .op2 .fadd 1 1 9, .op2 .fadd 2 2 9, .op2 .fadd 3 3 9, .op1 .fcvtns 0 0, .op1 .fcvtns 1 1, .op1 .fcvtns 2 2,
    .op1 .fcvtns 3 3, .op1 .sqxtn 0 0, .op2 .sqxtn2 0 0 1, .op1 .sqxtn 2 2, .op2 .sqxtn2 2 2 3,
    .op1 .sqxtun 0 0, .op2 .sqxtun2 0 0 2, .st1 4 4 [0] .out (.imm 16)]
    cond := .ne
    tail := [.ld1 16 [0, 1, 2] .inp (.imm 48), .ldLane 4 0 [3] .inp (.imm 4), .op1 .scvtf 0 0, .op1 .scvtf 1 1,
    .op1 .scvtf 2 2, .op1 .scvtf 3 3, .op2 .fsub 0 0 6, .op2 .fsub 1 1 6, .op2 .fsub 2 2 6, .op2 .fsub 3 3 6,
    .op2 .fmul 0 0 7, .op2 .fmul 1 1 7, .op2 .fmul 2 2 7, .op2 .fmul 3 3 7, .op2 .fadd 0 0 4, .op2 .fadd 1 1 4,
    .op2 .fadd 2 2 4, .op2 .fadd 3 3 4, .op2 .fmul 0 0 8, .op2 .fmul 1 1 8, .op2 .fmul 2 2 8, .op2 .fmul 3 3 8,
    .op2 .fadd 0 0 9, .op2 .fadd 1 1 9, .op2 .fadd 2 2 9, .op2 .fadd 3 3 9, .op1 .fcvtns 0 0, .op1 .fcvtns 1 1,
    .op1 .fcvtns 2 2, .op1 .fcvtns 3 3, .op1 .sqxtn 0 0, .op2 .sqxtn2 0 0 1, .op1 .sqxtn 2 2,
    .op2 .sqxtn2 2 2 3, .op1 .sqxtun 0 0, .op2 .sqxtun2 0 0 2, .st1 4 2 [0] .out (.imm 8),
    .stLane 4 2 0 .out (.imm 4), .stLane 1 12 0 .out (.imm 1)] }

/-- meta/transform_kernels_arm_64.h:1590-1706. -/
def rq14 : Prog :=
  { init := [.dupW 4 (.par .inputMin), .dupW 5 (.par .outputMin), .dupW 6 (.par .inputOffset),
    .dupW 7 (.par .inputScale), .dupW 8 (.par .outputInvScale), .dupW 9 (.par .outputOffset), .op2 .fsub 4 4 5,
    .subs .count 14]
    skip := true
    body := [.subs .count 16, .ld1 16 [0, 1, 2, 3] .inp (.imm 64), .op1 .scvtf 0 0, .op1 .scvtf 1 1, .op1 .scvtf 2 2,
    .op1 .scvtf 3 3, .op2 .fsub 0 0 6, .op2 .fsub 1 1 6, .op2 .fsub 2 2 6, .op2 .fsub 3 3 6, .op2 .fmul 0 0 7,
    .op2 .fmul 1 1 7, .op2 .fmul 2 2 7, .op2 .fmul 3 3 7, .op2 .fadd 0 0 4, .op2 .fadd 1 1 4, .op2 .fadd 2 2 4,
    .op2 .fadd 3 3 4, .op2 .fmul 0 0 8, .op2 .fmul 1 1 8, .op2 .fmul 2 2 8, .op2 .fmul 3 3 8, .op2 .fadd 0 0 9,
    .op2 .fadd 1 1 9, .op2 .fadd 2 2 9, .op2 .fadd 3 3 9, .op1 .fcvtns 0 0, .op1 .fcvtns 1 1, .op1 .fcvtns 2 2,
    .op1 .fcvtns 3 3, .op1 .sqxtn 0 0, .op2 .sqxtn2 0 0 1, .op1 .sqxtn 2 2, .op2 .sqxtn2 2 2 3,
    .op1 .sqxtun 0 0, .op2 .sqxtun2 0 0 2, .st1 4 4 [0] .out (.imm 16)]
    cond := .ne
    tail := [.ld1 16 [0, 1, 2] .inp (.imm 48), .ld1 8 [3] .inp (.imm 8), .op1 .scvtf 0 0, .op1 .scvtf 1 1,
    .op1 .scvtf 2 2, .op1 .scvtf 3 3, .op2 .fsub 0 0 6, .op2 .fsub 1 1 6, .op2 .fsub 2 2 6, .op2 .fsub 3 3 6,
    .op2 .fmul 0 0 7, .op2 .fmul 1 1 7, .op2 .fmul 2 2 7, .op2 .fmul 3 3 7, .op2 .fadd 0 0 4, .op2 .fadd 1 1 4,
    .op2 .fadd 2 2 4, .op2 .fadd 3 3 4, .op2 .fmul 0 0 8, .op2 .fmul 1 1 8, .op2 .fmul 2 2 8, .op2 .fmul 3 3 8,
    .op2 .fadd 0 0 9, .op2 .fadd 1 1 9, .op2 .fadd 2 2 9, .op2 .fadd 3 3 9, .op1 .fcvtns 0 0, .op1 .fcvtns 1 1,
    .op1 .fcvtns 2 2, .op1 .fcvtns 3 3, .op1 .sqxtn 0 0, .op2 .sqxtn2 0 0 1, .op1 .sqxtn 2 2,
    .op2 .sqxtn2 2 2 3, .op1 .sqxtun 0 0, .op2 .sqxtun2 0 0 2, .st1 4 2 [0] .out (.imm 8),
    .stLane 4 2 0 .out (.imm 4), .stLane 2 6 0 .out (.imm 2)] }

/-- meta/transform_kernels_arm_64.h:1720-1838. -/
def rq15 : Prog :=
  { init := [.dupW 4 (.par .inputMin), .dupW 5 (.par .outputMin), .dupW 6 (.par .inputOffset),
    .dupW 7 (.par .inputScale), .dupW 8 (.par .outputInvScale), .dupW 9 (.par .outputOffset), .op2 .fsub 4 4 5,
    .subs .count 15]
    skip := true
    body := [.subs .count 16, .ld1 16 [0, 1, 2, 3] .inp (.imm 64), .op1 .scvtf 0 0, .op1 .scvtf 1 1, .op1 .scvtf 2 2,
    .op1 .scvtf 3 3, .op2 .fsub 0 0 6, .op2 .fsub 1 1 6, .op2 .fsub 2 2 6, .op2 .fsub 3 3 6, .op2 .fmul 0 0 7,
    .op2 .fmul 1 1 7, .op2 .fmul 2 2 7, .op2 .fmul 3 3 7, .op2 .fadd 0 0 4, .op2 .fadd 1 1 4, .op2 .fadd 2 2 4,
    .op2 .fadd 3 3 4, .op2 .fmul 0 0 8, .op2 .fmul 1 1 8, .op2 .fmul 2 2 8, .op2 .fmul 3 3 8, .op2 .fadd 0 0 9,
    .op2 .fadd 1 1 9, .op2 .fadd 2 2 9, .op2 .fadd 3 3 9, .op1 .fcvtns 0 0, .op1 .fcvtns 1 1, .op1 .fcvtns 2 2,
    .op1 .fcvtns 3 3, .op1 .sqxtn 0 0, .op2 .sqxtn2 0 0 1, .op1 .sqxtn 2 2, .op2 .sqxtn2 2 2 3,
    .op1 .sqxtun 0 0, .op2 .sqxtun2 0 0 2, .st1 4 4 [0] .out (.imm 16)]
    cond := .ne
    tail := [.ld1 16 [0, 1, 2] .inp (.imm 48), .ld1 8 [3] .inp (.imm 8), .ldLane 4 2 [3] .inp (.imm 4), .op1 .scvtf 0 0,
    .op1 .scvtf 1 1, .op1 .scvtf 2 2, .op1 .scvtf 3 3, .op2 .fsub 0 0 6, .op2 .fsub 1 1 6, .op2 .fsub 2 2 6,
    .op2 .fsub 3 3 6, .op2 .fmul 0 0 7, .op2 .fmul 1 1 7, .op2 .fmul 2 2 7, .op2 .fmul 3 3 7, .op2 .fadd 0 0 4,
    .op2 .fadd 1 1 4, .op2 .fadd 2 2 4, .op2 .fadd 3 3 4, .op2 .fmul 0 0 8, .op2 .fmul 1 1 8, .op2 .fmul 2 2 8,
    .op2 .fmul 3 3 8, .op2 .fadd 0 0 9, .op2 .fadd 1 1 9, .op2 .fadd 2 2 9, .op2 .fadd 3 3 9, .op1 .fcvtns 0 0,
    .op1 .fcvtns 1 1, .op1 .fcvtns 2 2, .op1 .fcvtns 3 3, .op1 .sqxtn 0 0, .op2 .sqxtn2 0 0 1, .op1 .sqxtn 2 2,
    .op2 .sqxtn2 2 2 3, .op1 .sqxtun 0 0, .op2 .sqxtun2 0 0 2, .st1 4 2 [0] .out (.imm 8),
    .stLane 4 2 0 .out (.imm 4), .stLane 2 6 0 .out (.imm 2), .stLane 1 14 0 .out (.imm 1)] }

/-- The code for a number of leftovers: the specialisations of `Transform1DKernel` for `Requantize`. -/
def rqProg : Nat → Option Prog
  | 0 => some rq0
  | 1 => some rq1
  | 2 => some rq2
  | 3 => some rq3
  | 4 => some rq4
  | 5 => some rq5
  | 6 => some rq6
  | 7 => some rq7
  | 8 => some rq8
  | 9 => some rq9
  | 10 => some rq10
  | 11 => some rq11
  | 12 => some rq12
  | 13 => some rq13
  | 14 => some rq14
  | 15 => some rq15
  | _ => none

/-- meta/transform_kernels_arm_64.h:1852-1897. -/
def qz0 : Prog :=
  { init := [.dupW 4 (.par .rangeMin), .dupW 5 (.par .rangeOffset), .dupW 6 (.par .rangeScale)]
    skip := false
    body := [.subs .count 16, .ld1 16 [0, 1, 2, 3] .inp (.imm 64), .op2 .fsub 0 0 4, .op2 .fsub 1 1 4, .op2 .fsub 2 2 4,
    .op2 .fsub 3 3 4, .op2 .fmul 0 0 6, .op2 .fmul 1 1 6, .op2 .fmul 2 2 6, .op2 .fmul 3 3 6, .op2 .fadd 0 0 5,
    .op2 .fadd 1 1 5, .op2 .fadd 2 2 5, .op2 .fadd 3 3 5, .op1 .fcvtzs 0 0, .op1 .fcvtzs 1 1, .op1 .fcvtzs 2 2,
    .op1 .fcvtzs 3 3, .op1 .sqxtn 0 0, .op2 .sqxtn2 0 0 1, .op1 .sqxtn 2 2, .op2 .sqxtn2 2 2 3,
    .op1 .sqxtun 0 0, .op2 .sqxtun2 0 0 2, .st1 4 4 [0] .out (.imm 16)]
    cond := .ne
    tail := [] }

/-- meta/transform_kernels_arm_64.h:1911-1976. -/
def qz1 : Prog :=
  { init := [.dupW 4 (.par .rangeMin), .dupW 5 (.par .rangeOffset), .dupW 6 (.par .rangeScale), .subs .count 1]
    skip := true
    body := [.subs .count 16, .ld1 16 [0, 1, 2, 3] .inp (.imm 64), .op2 .fsub 0 0 4, .op2 .fsub 1 1 4, .op2 .fsub 2 2 4,
    .op2 .fsub 3 3 4, .op2 .fmul 0 0 6, .op2 .fmul 1 1 6, .op2 .fmul 2 2 6, .op2 .fmul 3 3 6, .op2 .fadd 0 0 5,
    .op2 .fadd 1 1 5, .op2 .fadd 2 2 5, .op2 .fadd 3 3 5, .op1 .fcvtzs 0 0, .op1 .fcvtzs 1 1, .op1 .fcvtzs 2 2,
    .op1 .fcvtzs 3 3, .op1 .sqxtn 0 0, .op2 .sqxtn2 0 0 1, .op1 .sqxtn 2 2, .op2 .sqxtn2 2 2 3,
    .op1 .sqxtun 0 0, .op2 .sqxtun2 0 0 2, .st1 4 4 [0] .out (.imm 16)]
    cond := .ne
    tail := [.ldLane 4 0 [0] .inp (.imm 4), .op2 .fsub 0 0 4, .op2 .fmul 0 0 6, .op2 .fadd 0 0 5, .op1 .fcvtzs 0 0,
    .op1 .sqxtn 0 0, .op1 .sqxtun 0 0, .stLane 1 0 0 .out (.imm 1)] }

/-- meta/transform_kernels_arm_64.h:1990-2055. -/
def qz2 : Prog :=
  { init := [.dupW 4 (.par .rangeMin), .dupW 5 (.par .rangeOffset), .dupW 6 (.par .rangeScale), .subs .count 2]
    skip := true
    body := [.subs .count 16, .ld1 16 [0, 1, 2, 3] .inp (.imm 64), .op2 .fsub 0 0 4, .op2 .fsub 1 1 4, .op2 .fsub 2 2 4,
    .op2 .fsub 3 3 4, .op2 .fmul 0 0 6, .op2 .fmul 1 1 6, .op2 .fmul 2 2 6, .op2 .fmul 3 3 6, .op2 .fadd 0 0 5,
    .op2 .fadd 1 1 5, .op2 .fadd 2 2 5, .op2 .fadd 3 3 5, .op1 .fcvtzs 0 0, .op1 .fcvtzs 1 1, .op1 .fcvtzs 2 2,
    .op1 .fcvtzs 3 3, .op1 .sqxtn 0 0, .op2 .sqxtn2 0 0 1, .op1 .sqxtn 2 2, .op2 .sqxtn2 2 2 3,
    .op1 .sqxtun 0 0, .op2 .sqxtun2 0 0 2, .st1 4 4 [0] .out (.imm 16)]
    cond := .ne
    tail := [.ld1 8 [0] .inp (.imm 8), .op2 .fsub 0 0 4, .op2 .fmul 0 0 6, .op2 .fadd 0 0 5, .op1 .fcvtzs 0 0,
    .op1 .sqxtn 0 0, .op1 .sqxtun 0 0, .stLane 2 0 0 .out (.imm 2)] }

/-- meta/transform_kernels_arm_64.h:2069-2136. -/
def qz3 : Prog :=
  { init := [.dupW 4 (.par .rangeMin), .dupW 5 (.par .rangeOffset), .dupW 6 (.par .rangeScale), .subs .count 3]
    skip := true
    body := [.subs .count 16, .ld1 16 [0, 1, 2, 3] .inp (.imm 64), .op2 .fsub 0 0 4, .op2 .fsub 1 1 4, .op2 .fsub 2 2 4,
    .op2 .fsub 3 3 4, .op2 .fmul 0 0 6, .op2 .fmul 1 1 6, .op2 .fmul 2 2 6, .op2 .fmul 3 3 6, .op2 .fadd 0 0 5,
    .op2 .fadd 1 1 5, .op2 .fadd 2 2 5, .op2 .fadd 3 3 5, .op1 .fcvtzs 0 0, .op1 .fcvtzs 1 1, .op1 .fcvtzs 2 2,
    .op1 .fcvtzs 3 3, .op1 .sqxtn 0 0, .op2 .sqxtn2 0 0 1, .op1 .sqxtn 2 2, .op2 .sqxtn2 2 2 3,
    .op1 .sqxtun 0 0, .op2 .sqxtun2 0 0 2, .st1 4 4 [0] .out (.imm 16)]
    cond := .ne
    tail := [.ld1 8 [0] .inp (.imm 8), .ldLane 4 2 [0] .inp (.imm 4), .op2 .fsub 0 0 4, .op2 .fmul 0 0 6,
    .op2 .fadd 0 0 5, .op1 .fcvtzs 0 0, .op1 .sqxtn 0 0, .op1 .sqxtun 0 0, .stLane 2 0 0 .out (.imm 2),
    .stLane 1 2 0 .out (.imm 1)] }

/-- meta/transform_kernels_arm_64.h:2150-2215. -/
def qz4 : Prog :=
  { init := [.dupW 4 (.par .rangeMin), .dupW 5 (.par .rangeOffset), .dupW 6 (.par .rangeScale), .subs .count 4]
    skip := true
    body := [.subs .count 16, .ld1 16 [0, 1, 2, 3] .inp (.imm 64), .op2 .fsub 0 0 4, .op2 .fsub 1 1 4, .op2 .fsub 2 2 4,
    .op2 .fsub 3 3 4, .op2 .fmul 0 0 6, .op2 .fmul 1 1 6, .op2 .fmul 2 2 6, .op2 .fmul 3 3 6, .op2 .fadd 0 0 5,
    .op2 .fadd 1 1 5, .op2 .fadd 2 2 5, .op2 .fadd 3 3 5, .op1 .fcvtzs 0 0, .op1 .fcvtzs 1 1, .op1 .fcvtzs 2 2,
    .op1 .fcvtzs 3 3, .op1 .sqxtn 0 0, .op2 .sqxtn2 0 0 1, .op1 .sqxtn 2 2, .op2 .sqxtn2 2 2 3,
    .op1 .sqxtun 0 0, .op2 .sqxtun2 0 0 2, .st1 4 4 [0] .out (.imm 16)]
    cond := .ne
    tail := [.ld1 16 [0] .inp (.imm 16), .op2 .fsub 0 0 4, .op2 .fmul 0 0 6, .op2 .fadd 0 0 5, .op1 .fcvtzs 0 0,
    .op1 .sqxtn 0 0, .op1 .sqxtun 0 0, .stLane 4 0 0 .out (.imm 4)] }

/-- meta/transform_kernels_arm_64.h:2229-2301. -/
def qz5 : Prog :=
  { init := [.dupW 4 (.par .rangeMin), .dupW 5 (.par .rangeOffset), .dupW 6 (.par .rangeScale), .subs .count 5]
    skip := true
    body := [.subs .count 16, .ld1 16 [0, 1, 2, 3] .inp (.imm 64), .op2 .fsub 0 0 4, .op2 .fsub 1 1 4, .op2 .fsub 2 2 4,
    .op2 .fsub 3 3 4, .op2 .fmul 0 0 6, .op2 .fmul 1 1 6, .op2 .fmul 2 2 6, .op2 .fmul 3 3 6, .op2 .fadd 0 0 5,
    .op2 .fadd 1 1 5, .op2 .fadd 2 2 5, .op2 .fadd 3 3 5, .op1 .fcvtzs 0 0, .op1 .fcvtzs 1 1, .op1 .fcvtzs 2 2,
    .op1 .fcvtzs 3 3, .op1 .sqxtn 0 0, .op2 .sqxtn2 0 0 1, .op1 .sqxtn 2 2, .op2 .sqxtn2 2 2 3,
    .op1 .sqxtun 0 0, .op2 .sqxtun2 0 0 2, .st1 4 4 [0] .out (.imm 16)]
    cond := .ne
    tail := [.ld1 16 [0] .inp (.imm 16), .ldLane 4 0 [1] .inp (.imm 4), .op2 .fsub 0 0 4, .op2 .fsub 1 1 4,
    .op2 .fmul 0 0 6, .op2 .fmul 1 1 6, .op2 .fadd 0 0 5, .op2 .fadd 1 1 5, .op1 .fcvtzs 0 0, .op1 .fcvtzs 1 1,
    .op1 .sqxtn 0 0, .op2 .sqxtn2 0 0 1, .op1 .sqxtun 0 0, .stLane 4 0 0 .out (.imm 4),
    .stLane 1 4 0 .out (.imm 1)] }

/-- meta/transform_kernels_arm_64.h:2315-2387. -/
def qz6 : Prog :=
  { init := [.dupW 4 (.par .rangeMin), .dupW 5 (.par .rangeOffset), .dupW 6 (.par .rangeScale), .subs .count 6]
    skip := true
    body := [.subs .count 16, .ld1 16 [0, 1, 2, 3] .inp (.imm 64), .op2 .fsub 0 0 4, .op2 .fsub 1 1 4, .op2 .fsub 2 2 4,
    .op2 .fsub 3 3 4, .op2 .fmul 0 0 6, .op2 .fmul 1 1 6, .op2 .fmul 2 2 6, .op2 .fmul 3 3 6, .op2 .fadd 0 0 5,
    .op2 .fadd 1 1 5, .op2 .fadd 2 2 5, .op2 .fadd 3 3 5, .op1 .fcvtzs 0 0, .op1 .fcvtzs 1 1, .op1 .fcvtzs 2 2,
    .op1 .fcvtzs 3 3, .op1 .sqxtn 0 0, .op2 .sqxtn2 0 0 1, .op1 .sqxtn 2 2, .op2 .sqxtn2 2 2 3,
    .op1 .sqxtun 0 0, .op2 .sqxtun2 0 0 2, .st1 4 4 [0] .out (.imm 16)]
    cond := .ne
    tail := [.ld1 16 [0] .inp (.imm 16), .ld1 8 [1] .inp (.imm 8), .op2 .fsub 0 0 4, .op2 .fsub 1 1 4, .op2 .fmul 0 0 6,
    .op2 .fmul 1 1 6, .op2 .fadd 0 0 5, .op2 .fadd 1 1 5, .op1 .fcvtzs 0 0, .op1 .fcvtzs 1 1, .op1 .sqxtn 0 0,
    .op2 .sqxtn2 0 0 1, .op1 .sqxtun 0 0, .stLane 4 0 0 .out (.imm 4), .stLane 2 2 0 .out (.imm 2)] }

/-- meta/transform_kernels_arm_64.h:2401-2475. -/
def qz7 : Prog :=
  { init := [.dupW 4 (.par .rangeMin), .dupW 5 (.par .rangeOffset), .dupW 6 (.par .rangeScale), .subs .count 7]
    skip := true
    body := [.subs .count 16, .ld1 16 [0, 1, 2, 3] .inp (.imm 64), .op2 .fsub 0 0 4, .op2 .fsub 1 1 4, .op2 .fsub 2 2 4,
    .op2 .fsub 3 3 4, .op2 .fmul 0 0 6, .op2 .fmul 1 1 6, .op2 .fmul 2 2 6, .op2 .fmul 3 3 6, .op2 .fadd 0 0 5,
    .op2 .fadd 1 1 5, .op2 .fadd 2 2 5, .op2 .fadd 3 3 5, .op1 .fcvtzs 0 0, .op1 .fcvtzs 1 1, .op1 .fcvtzs 2 2,
    .op1 .fcvtzs 3 3, .op1 .sqxtn 0 0, .op2 .sqxtn2 0 0 1, .op1 .sqxtn 2 2, .op2 .sqxtn2 2 2 3,
    .op1 .sqxtun 0 0, .op2 .sqxtun2 0 0 2, .st1 4 4 [0] .out (.imm 16)]
    cond := .ne
    tail := [.ld1 16 [0] .inp (.imm 16), .ld1 8 [1] .inp (.imm 8), .ldLane 4 2 [1] .inp (.imm 4), .op2 .fsub 0 0 4,
    .op2 .fsub 1 1 4, .op2 .fmul 0 0 6, .op2 .fmul 1 1 6, .op2 .fadd 0 0 5, .op2 .fadd 1 1 5, .op1 .fcvtzs 0 0,
    .op1 .fcvtzs 1 1, .op1 .sqxtn 0 0, .op2 .sqxtn2 0 0 1, .op1 .sqxtun 0 0, .stLane 4 0 0 .out (.imm 4),
    .stLane 2 2 0 .out (.imm 2), .stLane 1 6 0 .out (.imm 1)] }

/-- meta/transform_kernels_arm_64.h:2489-2559. -/
def qz8 : Prog :=
  { init := [.dupW 4 (.par .rangeMin), .dupW 5 (.par .rangeOffset), .dupW 6 (.par .rangeScale), .subs .count 8]
    skip := true
    body := [.subs .count 16, .ld1 16 [0, 1, 2, 3] .inp (.imm 64), .op2 .fsub 0 0 4, .op2 .fsub 1 1 4, .op2 .fsub 2 2 4,
    .op2 .fsub 3 3 4, .op2 .fmul 0 0 6, .op2 .fmul 1 1 6, .op2 .fmul 2 2 6, .op2 .fmul 3 3 6, .op2 .fadd 0 0 5,
    .op2 .fadd 1 1 5, .op2 .fadd 2 2 5, .op2 .fadd 3 3 5, .op1 .fcvtzs 0 0, .op1 .fcvtzs 1 1, .op1 .fcvtzs 2 2,
    .op1 .fcvtzs 3 3, .op1 .sqxtn 0 0, .op2 .sqxtn2 0 0 1, .op1 .sqxtn 2 2, .op2 .sqxtn2 2 2 3,
    .op1 .sqxtun 0 0, .op2 .sqxtun2 0 0 2, .st1 4 4 [0] .out (.imm 16)]
    cond := .ne
    tail := [.ld1 16 [0, 1] .inp (.imm 32), .op2 .fsub 0 0 4, .op2 .fsub 1 1 4, .op2 .fmul 0 0 6, .op2 .fmul 1 1 6,
    .op2 .fadd 0 0 5, .op2 .fadd 1 1 5, .op1 .fcvtzs 0 0, .op1 .fcvtzs 1 1, .op1 .sqxtn 0 0,
    .op2 .sqxtn2 0 0 1, .op1 .sqxtun 0 0, .st1 4 2 [0] .out (.imm 8)] }

/-- meta/transform_kernels_arm_64.h:2573-2651. -/
def qz9 : Prog :=
  { init := [.dupW 4 (.par .rangeMin), .dupW 5 (.par .rangeOffset), .dupW 6 (.par .rangeScale), .subs .count 9]
    skip := true
    body := [.subs .count 16, .ld1 16 [0, 1, 2, 3] .inp (.imm 64), .op2 .fsub 0 0 4, .op2 .fsub 1 1 4, .op2 .fsub 2 2 4,
    .op2 .fsub 3 3 4, .op2 .fmul 0 0 6, .op2 .fmul 1 1 6, .op2 .fmul 2 2 6, .op2 .fmul 3 3 6, .op2 .fadd 0 0 5,
    .op2 .fadd 1 1 5, .op2 .fadd 2 2 5, .op2 .fadd 3 3 5, .op1 .fcvtzs 0 0, .op1 .fcvtzs 1 1, .op1 .fcvtzs 2 2,
    .op1 .fcvtzs 3 3, .op1 .sqxtn 0 0, .op2 .sqxtn2 0 0 1, .op1 .sqxtn 2 2, .op2 .sqxtn2 2 2 3,
    .op1 .sqxtun 0 0, .op2 .sqxtun2 0 0 2, .st1 4 4 [0] .out (.imm 16)]
    cond := .ne
    tail := [.ld1 16 [0, 1] .inp (.imm 32), .ldLane 4 0 [2] .inp (.imm 4), .op2 .fsub 0 0 4, .op2 .fsub 1 1 4,
    .op2 .fsub 2 2 4, .op2 .fmul 0 0 6, .op2 .fmul 1 1 6, .op2 .fmul 2 2 6, .op2 .fadd 0 0 5, .op2 .fadd 1 1 5,
    .op2 .fadd 2 2 5, .op1 .fcvtzs 0 0, .op1 .fcvtzs 1 1, .op1 .fcvtzs 2 2, .op1 .sqxtn 0 0,
    .op2 .sqxtn2 0 0 1, .op1 .sqxtn 2 2, .op1 .sqxtun 0 0, .op2 .sqxtun2 0 0 2, .st1 4 2 [0] .out (.imm 8),
    .stLane 1 8 0 .out (.imm 1)] }

/-- meta/transform_kernels_arm_64.h:2665-2743. -/
def qz10 : Prog :=
  { init := [.dupW 4 (.par .rangeMin), .dupW 5 (.par .rangeOffset), .dupW 6 (.par .rangeScale), .subs .count 10]
    skip := true
    body := [.subs .count 16, .ld1 16 [0, 1, 2, 3] .inp (.imm 64), .op2 .fsub 0 0 4, .op2 .fsub 1 1 4, .op2 .fsub 2 2 4,
    .op2 .fsub 3 3 4, .op2 .fmul 0 0 6, .op2 .fmul 1 1 6, .op2 .fmul 2 2 6, .op2 .fmul 3 3 6, .op2 .fadd 0 0 5,
    .op2 .fadd 1 1 5, .op2 .fadd 2 2 5, .op2 .fadd 3 3 5, .op1 .fcvtzs 0 0, .op1 .fcvtzs 1 1, .op1 .fcvtzs 2 2,
    .op1 .fcvtzs 3 3, .op1 .sqxtn 0 0, .op2 .sqxtn2 0 0 1, .op1 .sqxtn 2 2, .op2 .sqxtn2 2 2 3,
    .op1 .sqxtun 0 0, .op2 .sqxtun2 0 0 2, .st1 4 4 [0] .out (.imm 16)]
    cond := .ne
    tail := [.ld1 16 [0, 1] .inp (.imm 32), .ld1 8 [2] .inp (.imm 8), .op2 .fsub 0 0 4, .op2 .fsub 1 1 4,
    .op2 .fsub 2 2 4, .op2 .fmul 0 0 6, .op2 .fmul 1 1 6, .op2 .fmul 2 2 6, .op2 .fadd 0 0 5, .op2 .fadd 1 1 5,
    .op2 .fadd 2 2 5, .op1 .fcvtzs 0 0, .op1 .fcvtzs 1 1, .op1 .fcvtzs 2 2, .op1 .sqxtn 0 0,
    .op2 .sqxtn2 0 0 1, .op1 .sqxtn 2 2, .op1 .sqxtun 0 0, .op2 .sqxtun2 0 0 2, .st1 4 2 [0] .out (.imm 8),
    .stLane 2 4 0 .out (.imm 2)] }

/-- meta/transform_kernels_arm_64.h:2757-2837. -/
def qz11 : Prog :=
  { init := [.dupW 4 (.par .rangeMin), .dupW 5 (.par .rangeOffset), .dupW 6 (.par .rangeScale), .subs .count 11]
    skip := true
    body := [.subs .count 16, .ld1 16 [0, 1, 2, 3] .inp (.imm 64), .op2 .fsub 0 0 4, .op2 .fsub 1 1 4, .op2 .fsub 2 2 4,
    .op2 .fsub 3 3 4, .op2 .fmul 0 0 6, .op2 .fmul 1 1 6, .op2 .fmul 2 2 6, .op2 .fmul 3 3 6, .op2 .fadd 0 0 5,
    .op2 .fadd 1 1 5, .op2 .fadd 2 2 5, .op2 .fadd 3 3 5, .op1 .fcvtzs 0 0, .op1 .fcvtzs 1 1, .op1 .fcvtzs 2 2,
    .op1 .fcvtzs 3 3, .op1 .sqxtn 0 0, .op2 .sqxtn2 0 0 1, .op1 .sqxtn 2 2, .op2 .sqxtn2 2 2 3,
    .op1 .sqxtun 0 0, .op2 .sqxtun2 0 0 2, .st1 4 4 [0] .out (.imm 16)]
    cond := .ne
    tail := [.ld1 16 [0, 1] .inp (.imm 32), .ld1 8 [2] .inp (.imm 8), .ldLane 4 2 [2] .inp (.imm 4), .op2 .fsub 0 0 4,
    .op2 .fsub 1 1 4, .op2 .fsub 2 2 4, .op2 .fmul 0 0 6, .op2 .fmul 1 1 6, .op2 .fmul 2 2 6, .op2 .fadd 0 0 5,
    .op2 .fadd 1 1 5, .op2 .fadd 2 2 5, .op1 .fcvtzs 0 0, .op1 .fcvtzs 1 1, .op1 .fcvtzs 2 2, .op1 .sqxtn 0 0,
    .op2 .sqxtn2 0 0 1, .op1 .sqxtn 2 2, .op1 .sqxtun 0 0, .op2 .sqxtun2 0 0 2, .st1 4 2 [0] .out (.imm 8),
    .stLane 2 4 0 .out (.imm 2), .stLane 1 10 0 .out (.imm 1)] }

/-- meta/transform_kernels_arm_64.h:2851-2928. -/
def qz12 : Prog :=
  { init := [.dupW 4 (.par .rangeMin), .dupW 5 (.par .rangeOffset), .dupW 6 (.par .rangeScale), .subs .count 12]
    skip := true
    body := [.subs .count 16, .ld1 16 [0, 1, 2, 3] .inp (.imm 64), .op2 .fsub 0 0 4, .op2 .fsub 1 1 4, .op2 .fsub 2 2 4,
    .op2 .fsub 3 3 4, .op2 .fmul 0 0 6, .op2 .fmul 1 1 6, .op2 .fmul 2 2 6, .op2 .fmul 3 3 6, .op2 .fadd 0 0 5,
    .op2 .fadd 1 1 5, .op2 .fadd 2 2 5, .op2 .fadd 3 3 5, .op1 .fcvtzs 0 0, .op1 .fcvtzs 1 1, .op1 .fcvtzs 2 2,
    .op1 .fcvtzs 3 3, .op1 .sqxtn 0 0, .op2 .sqxtn2 0 0 1, .op1 .sqxtn 2 2, .op2 .sqxtn2 2 2 3,
    .op1 .sqxtun 0 0, .op2 .sqxtun2 0 0 2, .st1 4 4 [0] .out (.imm 16)]
    cond := .ne
    tail := [.ld1 16 [0, 1, 2] .inp (.imm 48), .op2 .fsub 0 0 4, .op2 .fsub 1 1 4, .op2 .fsub 2 2 4, .op2 .fmul 0 0 6,
    .op2 .fmul 1 1 6, .op2 .fmul 2 2 6, .op2 .fadd 0 0 5, .op2 .fadd 1 1 5, .op2 .fadd 2 2 5, .op1 .fcvtzs 0 0,
    .op1 .fcvtzs 1 1, .op1 .fcvtzs 2 2, .op1 .sqxtn 0 0, .op2 .sqxtn2 0 0 1, .op1 .sqxtn 2 2, .op1 .sqxtun 0 0,
    .op2 .sqxtun2 0 0 2, .st1 4 2 [0] .out (.imm 8), .stLane 4 2 0 .out (.imm 4)] }

/-- meta/transform_kernels_arm_64.h:2942-3026. -/
def qz13 : Prog :=
  { init := [.dupW 4 (.par .rangeMin), .dupW 5 (.par .rangeOffset), .dupW 6 (.par .rangeScale), .subs .count 13]
    skip := true
    body := [.subs .count 16, .ld1 16 [0, 1, 2, 3] .inp (.imm 64), .op2 .fsub 0 0 4, .op2 .fsub 1 1 4, .op2 .fsub 2 2 4,
    .op2 .fsub 3 3 4, .op2 .fmul 0 0 6, .op2 .fmul 1 1 6, .op2 .fmul 2 2 6, .op2 .fmul 3 3 6, .op2 .fadd 0 0 5,
    .op2 .fadd 1 1 5, .op2 .fadd 2 2 5, .op2 .fadd 3 3 5, .op1 .fcvtzs 0 0, .op1 .fcvtzs 1 1, .op1 .fcvtzs 2 2,
    .op1 .fcvtzs 3 3, .op1 .sqxtn 0 0, .op2 .sqxtn2 0 0 1, .op1 .sqxtn 2 2, .op2 .sqxtn2 2 2 3,
    .op1 .sqxtun 0 0, .op2 .sqxtun2 0 0 2, .st1 4 4 [0] .out (.imm 16)]
    cond := .ne
    tail := [.ld1 16 [0, 1, 2] .inp (.imm 48), .ldLane 4 0 [3] .inp (.imm 4), .op2 .fsub 0 0 4, .op2 .fsub 1 1 4,
    .op2 .fsub 2 2 4, .op2 .fsub 3 3 4, .op2 .fmul 0 0 6, .op2 .fmul 1 1 6, .op2 .fmul 2 2 6, .op2 .fmul 3 3 6,
    .op2 .fadd 0 0 5, .op2 .fadd 1 1 5, .op2 .fadd 2 2 5, .op2 .fadd 3 3 5, .op1 .fcvtzs 0 0, .op1 .fcvtzs 1 1,
    .op1 .fcvtzs 2 2, .op1 .fcvtzs 3 3, .op1 .sqxtn 0 0, .op2 .sqxtn2 0 0 1, .op1 .sqxtn 2 2,
    .op2 .sqxtn2 2 2 3, .op1 .sqxtun 0 0, .op2 .sqxtun2 0 0 2, .st1 4 2 [0] .out (.imm 8),
    .stLane 4 2 0 .out (.imm 4), .stLane 1 12 0 .out (.imm 1)] }

/-- meta/transform_kernels_arm_64.h:3040-3124. -/
def qz14 : Prog :=
  { init := [.dupW 4 (.par .rangeMin), .dupW 5 (.par .rangeOffset), .dupW 6 (.par .rangeScale), .subs .count 14]
    skip := true
    body := [.subs .count 16, .ld1 16 [0, 1, 2, 3] .inp (.imm 64), .op2 .fsub 0 0 4, .op2 .fsub 1 1 4, .op2 .fsub 2 2 4,
    .op2 .fsub 3 3 4, .op2 .fmul 0 0 6, .op2 .fmul 1 1 6, .op2 .fmul 2 2 6, .op2 .fmul 3 3 6, .op2 .fadd 0 0 5,
    .op2 .fadd 1 1 5, .op2 .fadd 2 2 5, .op2 .fadd 3 3 5, .op1 .fcvtzs 0 0, .op1 .fcvtzs 1 1, .op1 .fcvtzs 2 2,
    .op1 .fcvtzs 3 3, .op1 .sqxtn 0 0, .op2 .sqxtn2 0 0 1, .op1 .sqxtn 2 2, .op2 .sqxtn2 2 2 3,
    .op1 .sqxtun 0 0, .op2 .sqxtun2 0 0 2, .st1 4 4 [0] .out (.imm 16)]
    cond := .ne
    tail := [.ld1 16 [0, 1, 2] .inp (.imm 48), .ld1 8 [3] .inp (.imm 8), .op2 .fsub 0 0 4, .op2 .fsub 1 1 4,
    .op2 .fsub 2 2 4, .op2 .fsub 3 3 4, .op2 .fmul 0 0 6, .op2 .fmul 1 1 6, .op2 .fmul 2 2 6, .op2 .fmul 3 3 6,
    .op2 .fadd 0 0 5, .op2 .fadd 1 1 5, .op2 .fadd 2 2 5, .op2 .fadd 3 3 5, .op1 .fcvtzs 0 0, .op1 .fcvtzs 1 1,
    .op1 .fcvtzs 2 2, .op1 .fcvtzs 3 3, .op1 .sqxtn 0 0, .op2 .sqxtn2 0 0 1, .op1 .sqxtn 2 2,
    .op2 .sqxtn2 2 2 3, .op1 .sqxtun 0 0, .op2 .sqxtun2 0 0 2, .st1 4 2 [0] .out (.imm 8),
    .stLane 4 2 0 .out (.imm 4), .stLane 2 6 0 .out (.imm 2)] }

/-- meta/transform_kernels_arm_64.h:3138-3224. -/
def qz15 : Prog :=
  { init := [.dupW 4 (.par .rangeMin), .dupW 5 (.par .rangeOffset), .dupW 6 (.par .rangeScale), .subs .count 15]
    skip := true
    body := [.subs .count 16, .ld1 16 [0, 1, 2, 3] .inp (.imm 64), .op2 .fsub 0 0 4, .op2 .fsub 1 1 4, .op2 .fsub 2 2 4,
    .op2 .fsub 3 3 4, .op2 .fmul 0 0 6, .op2 .fmul 1 1 6, .op2 .fmul 2 2 6, .op2 .fmul 3 3 6, .op2 .fadd 0 0 5,
    .op2 .fadd 1 1 5, .op2 .fadd 2 2 5, .op2 .fadd 3 3 5, .op1 .fcvtzs 0 0, .op1 .fcvtzs 1 1, .op1 .fcvtzs 2 2,
    .op1 .fcvtzs 3 3, .op1 .sqxtn 0 0, .op2 .sqxtn2 0 0 1, .op1 .sqxtn 2 2, .op2 .sqxtn2 2 2 3,
    .op1 .sqxtun 0 0, .op2 .sqxtun2 0 0 2, .st1 4 4 [0] .out (.imm 16)]
    cond := .ne
    tail := [.ld1 16 [0, 1, 2] .inp (.imm 48), .ld1 8 [3] .inp (.imm 8), .ldLane 4 2 [3] .inp (.imm 4),
    .op2 .fsub 0 0 4, .op2 .fsub 1 1 4, .op2 .fsub 2 2 4, .op2 .fsub 3 3 4, .op2 .fmul 0 0 6, .op2 .fmul 1 1 6,
    .op2 .fmul 2 2 6, .op2 .fmul 3 3 6, .op2 .fadd 0 0 5, .op2 .fadd 1 1 5, .op2 .fadd 2 2 5, .op2 .fadd 3 3 5,
    .op1 .fcvtzs 0 0, .op1 .fcvtzs 1 1, .op1 .fcvtzs 2 2, .op1 .fcvtzs 3 3, .op1 .sqxtn 0 0,
    .op2 .sqxtn2 0 0 1, .op1 .sqxtn 2 2, .op2 .sqxtn2 2 2 3, .op1 .sqxtun 0 0, .op2 .sqxtun2 0 0 2,
    .st1 4 2 [0] .out (.imm 8), .stLane 4 2 0 .out (.imm 4), .stLane 2 6 0 .out (.imm 2),
    .stLane 1 14 0 .out (.imm 1)] }

/-- The code for a number of leftovers: the specialisations of `Transform1DKernel` for `Quantize`. -/
def qzProg : Nat → Option Prog
  | 0 => some qz0
  | 1 => some qz1
  | 2 => some qz2
  | 3 => some qz3
  | 4 => some qz4
  | 5 => some qz5
  | 6 => some qz6
  | 7 => some qz7
  | 8 => some qz8
  | 9 => some qz9
  | 10 => some qz10
  | 11 => some qz11
  | 12 => some qz12
  | 13 => some qz13
  | 14 => some qz14
  | 15 => some qz15
  | _ => none

/-- meta/transform_kernels_arm_64.h:3238-3283. -/
def dq0 : Prog :=
  { init := [.dupW 4 (.par .rangeMin), .dupW 5 (.par .rangeOffset), .dupW 6 (.par .rangeScale)]
    skip := false
    body := [.subs .count 16, .ld1 16 [0] .inp (.imm 16), .op1 .uxtl2 1 0, .op1 .uxtl 0 0, .op1 .sxtl2 3 1,
    .op1 .sxtl 2 1, .op1 .sxtl2 1 0, .op1 .sxtl 0 0, .op1 .scvtf 0 0, .op1 .scvtf 1 1, .op1 .scvtf 2 2,
    .op1 .scvtf 3 3, .op2 .fsub 0 0 5, .op2 .fsub 1 1 5, .op2 .fsub 2 2 5, .op2 .fsub 3 3 5, .op2 .fmul 0 0 6,
    .op2 .fmul 1 1 6, .op2 .fmul 2 2 6, .op2 .fmul 3 3 6, .op2 .fadd 0 0 4, .op2 .fadd 1 1 4, .op2 .fadd 2 2 4,
    .op2 .fadd 3 3 4, .st1 4 4 [0, 1, 2, 3] .out (.imm 64)]
    cond := .ne
    tail := [] }

/-- meta/transform_kernels_arm_64.h:3297-3362. -/
def dq1 : Prog :=
  { init := [.dupW 4 (.par .rangeMin), .dupW 5 (.par .rangeOffset), .dupW 6 (.par .rangeScale), .subs .count 1]
    skip := true
    body := [.subs .count 16, .ld1 16 [0] .inp (.imm 16), .op1 .uxtl2 1 0, .op1 .uxtl 0 0, .op1 .sxtl2 3 1,
    .op1 .sxtl 2 1, .op1 .sxtl2 1 0, .op1 .sxtl 0 0, .op1 .scvtf 0 0, .op1 .scvtf 1 1, .op1 .scvtf 2 2,
    .op1 .scvtf 3 3, .op2 .fsub 0 0 5, .op2 .fsub 1 1 5, .op2 .fsub 2 2 5, .op2 .fsub 3 3 5, .op2 .fmul 0 0 6,
    .op2 .fmul 1 1 6, .op2 .fmul 2 2 6, .op2 .fmul 3 3 6, .op2 .fadd 0 0 4, .op2 .fadd 1 1 4, .op2 .fadd 2 2 4,
    .op2 .fadd 3 3 4, .st1 4 4 [0, 1, 2, 3] .out (.imm 64)]
    cond := .ne
    tail := [.ldLane 1 0 [0] .inp (.imm 1), .op1 .uxtl 0 0, .op1 .sxtl 0 0, .op1 .scvtf 0 0, .op2 .fsub 0 0 5,
    .op2 .fmul 0 0 6, .op2 .fadd 0 0 4, .stLane 4 0 0 .out (.imm 4)] }

/-- meta/transform_kernels_arm_64.h:3376-3441. -/
def dq2 : Prog :=
  { init := [.dupW 4 (.par .rangeMin), .dupW 5 (.par .rangeOffset), .dupW 6 (.par .rangeScale), .subs .count 2]
    skip := true
    body := [.subs .count 16, .ld1 16 [0] .inp (.imm 16), .op1 .uxtl2 1 0, .op1 .uxtl 0 0, .op1 .sxtl2 3 1,
    .op1 .sxtl 2 1, .op1 .sxtl2 1 0, .op1 .sxtl 0 0, .op1 .scvtf 0 0, .op1 .scvtf 1 1, .op1 .scvtf 2 2,
    .op1 .scvtf 3 3, .op2 .fsub 0 0 5, .op2 .fsub 1 1 5, .op2 .fsub 2 2 5, .op2 .fsub 3 3 5, .op2 .fmul 0 0 6,
    .op2 .fmul 1 1 6, .op2 .fmul 2 2 6, .op2 .fmul 3 3 6, .op2 .fadd 0 0 4, .op2 .fadd 1 1 4, .op2 .fadd 2 2 4,
    .op2 .fadd 3 3 4, .st1 4 4 [0, 1, 2, 3] .out (.imm 64)]
    cond := .ne
    tail := [.ldLane 2 0 [0] .inp (.imm 2), .op1 .uxtl 0 0, .op1 .sxtl 0 0, .op1 .scvtf 0 0, .op2 .fsub 0 0 5,
    .op2 .fmul 0 0 6, .op2 .fadd 0 0 4, .st1 4 2 [0] .out (.imm 8)] }

/-- meta/transform_kernels_arm_64.h:3455-3522. -/
def dq3 : Prog :=
  { init := [.dupW 4 (.par .rangeMin), .dupW 5 (.par .rangeOffset), .dupW 6 (.par .rangeScale), .subs .count 3]
    skip := true
    body := [.subs .count 16, .ld1 16 [0] .inp (.imm 16), .op1 .uxtl2 1 0, .op1 .uxtl 0 0, .op1 .sxtl2 3 1,
    .op1 .sxtl 2 1, .op1 .sxtl2 1 0, .op1 .sxtl 0 0, .op1 .scvtf 0 0, .op1 .scvtf 1 1, .op1 .scvtf 2 2,
    .op1 .scvtf 3 3, .op2 .fsub 0 0 5, .op2 .fsub 1 1 5, .op2 .fsub 2 2 5, .op2 .fsub 3 3 5, .op2 .fmul 0 0 6,
    .op2 .fmul 1 1 6, .op2 .fmul 2 2 6, .op2 .fmul 3 3 6, .op2 .fadd 0 0 4, .op2 .fadd 1 1 4, .op2 .fadd 2 2 4,
    .op2 .fadd 3 3 4, .st1 4 4 [0, 1, 2, 3] .out (.imm 64)]
    cond := .ne
    tail := [.ldLane 2 0 [0] .inp (.imm 2), .ldLane 1 2 [0] .inp (.imm 1), .op1 .uxtl 0 0, .op1 .sxtl 0 0,
    .op1 .scvtf 0 0, .op2 .fsub 0 0 5, .op2 .fmul 0 0 6, .op2 .fadd 0 0 4, .st1 4 2 [0] .out (.imm 8),
    .stLane 4 2 0 .out (.imm 4)] }

/-- meta/transform_kernels_arm_64.h:3536-3601. -/
def dq4 : Prog :=
  { init := [.dupW 4 (.par .rangeMin), .dupW 5 (.par .rangeOffset), .dupW 6 (.par .rangeScale), .subs .count 4]
    skip := true
    body := [.subs .count 16, .ld1 16 [0] .inp (.imm 16), .op1 .uxtl2 1 0, .op1 .uxtl 0 0, .op1 .sxtl2 3 1,
    .op1 .sxtl 2 1, .op1 .sxtl2 1 0, .op1 .sxtl 0 0, .op1 .scvtf 0 0, .op1 .scvtf 1 1, .op1 .scvtf 2 2,
    .op1 .scvtf 3 3, .op2 .fsub 0 0 5, .op2 .fsub 1 1 5, .op2 .fsub 2 2 5, .op2 .fsub 3 3 5, .op2 .fmul 0 0 6,
    .op2 .fmul 1 1 6, .op2 .fmul 2 2 6, .op2 .fmul 3 3 6, .op2 .fadd 0 0 4, .op2 .fadd 1 1 4, .op2 .fadd 2 2 4,
    .op2 .fadd 3 3 4, .st1 4 4 [0, 1, 2, 3] .out (.imm 64)]
    cond := .ne
    tail := [.ldLane 4 0 [0] .inp (.imm 4), .op1 .uxtl 0 0, .op1 .sxtl 0 0, .op1 .scvtf 0 0, .op2 .fsub 0 0 5,
    .op2 .fmul 0 0 6, .op2 .fadd 0 0 4, .st1 4 4 [0] .out (.imm 16)] }

/-- meta/transform_kernels_arm_64.h:3615-3687. -/
def dq5 : Prog :=
  { init := [.dupW 4 (.par .rangeMin), .dupW 5 (.par .rangeOffset), .dupW 6 (.par .rangeScale), .subs .count 5]
    skip := true
    body := [.subs .count 16, .ld1 16 [0] .inp (.imm 16), .op1 .uxtl2 1 0, .op1 .uxtl 0 0, .op1 .sxtl2 3 1,
    .op1 .sxtl 2 1, .op1 .sxtl2 1 0, .op1 .sxtl 0 0, .op1 .scvtf 0 0, .op1 .scvtf 1 1, .op1 .scvtf 2 2,
    .op1 .scvtf 3 3, .op2 .fsub 0 0 5, .op2 .fsub 1 1 5, .op2 .fsub 2 2 5, .op2 .fsub 3 3 5, .op2 .fmul 0 0 6,
    .op2 .fmul 1 1 6, .op2 .fmul 2 2 6, .op2 .fmul 3 3 6, .op2 .fadd 0 0 4, .op2 .fadd 1 1 4, .op2 .fadd 2 2 4,
    .op2 .fadd 3 3 4, .st1 4 4 [0, 1, 2, 3] .out (.imm 64)]
    cond := .ne
    tail := [.ldLane 4 0 [0] .inp (.imm 4), .ldLane 1 4 [0] .inp (.imm 1), .op1 .uxtl 0 0, .op1 .sxtl2 1 0,
    .op1 .sxtl 0 0, .op1 .scvtf 0 0, .op1 .scvtf 1 1, .op2 .fsub 0 0 5, .op2 .fsub 1 1 5, .op2 .fmul 0 0 6,
    .op2 .fmul 1 1 6, .op2 .fadd 0 0 4, .op2 .fadd 1 1 4, .st1 4 4 [0] .out (.imm 16),
    .stLane 4 0 1 .out (.imm 4)] }

/-- meta/transform_kernels_arm_64.h:3701-3773. -/
def dq6 : Prog :=
  { init := [.dupW 4 (.par .rangeMin), .dupW 5 (.par .rangeOffset), .dupW 6 (.par .rangeScale), .subs .count 6]
    skip := true
    body := [.subs .count 16, .ld1 16 [0] .inp (.imm 16), .op1 .uxtl2 1 0, .op1 .uxtl 0 0, .op1 .sxtl2 3 1,
    .op1 .sxtl 2 1, .op1 .sxtl2 1 0, .op1 .sxtl 0 0, .op1 .scvtf 0 0, .op1 .scvtf 1 1, .op1 .scvtf 2 2,
    .op1 .scvtf 3 3, .op2 .fsub 0 0 5, .op2 .fsub 1 1 5, .op2 .fsub 2 2 5, .op2 .fsub 3 3 5, .op2 .fmul 0 0 6,
    .op2 .fmul 1 1 6, .op2 .fmul 2 2 6, .op2 .fmul 3 3 6, .op2 .fadd 0 0 4, .op2 .fadd 1 1 4, .op2 .fadd 2 2 4,
    .op2 .fadd 3 3 4, .st1 4 4 [0, 1, 2, 3] .out (.imm 64)]
    cond := .ne
    tail := [.ldLane 4 0 [0] .inp (.imm 4), .ldLane 2 2 [0] .inp (.imm 2), .op1 .uxtl 0 0, .op1 .sxtl2 1 0,
    .op1 .sxtl 0 0, .op1 .scvtf 0 0, .op1 .scvtf 1 1, .op2 .fsub 0 0 5, .op2 .fsub 1 1 5, .op2 .fmul 0 0 6,
    .op2 .fmul 1 1 6, .op2 .fadd 0 0 4, .op2 .fadd 1 1 4, .st1 4 4 [0] .out (.imm 16),
    .st1 4 2 [1] .out (.imm 8)] }

/-- meta/transform_kernels_arm_64.h:3787-3861. -/
def dq7 : Prog :=
  { init := [.dupW 4 (.par .rangeMin), .dupW 5 (.par .rangeOffset), .dupW 6 (.par .rangeScale), .subs .count 7]
    skip := true
    body := [.subs .count 16, .ld1 16 [0] .inp (.imm 16), .op1 .uxtl2 1 0, .op1 .uxtl 0 0, .op1 .sxtl2 3 1,
    .op1 .sxtl 2 1, .op1 .sxtl2 1 0, .op1 .sxtl 0 0, .op1 .scvtf 0 0, .op1 .scvtf 1 1, .op1 .scvtf 2 2,
    .op1 .scvtf 3 3, .op2 .fsub 0 0 5, .op2 .fsub 1 1 5, .op2 .fsub 2 2 5, .op2 .fsub 3 3 5, .op2 .fmul 0 0 6,
    .op2 .fmul 1 1 6, .op2 .fmul 2 2 6, .op2 .fmul 3 3 6, .op2 .fadd 0 0 4, .op2 .fadd 1 1 4, .op2 .fadd 2 2 4,
    .op2 .fadd 3 3 4, .st1 4 4 [0, 1, 2, 3] .out (.imm 64)]
    cond := .ne
    tail := [.ldLane 4 0 [0] .inp (.imm 4), .ldLane 2 2 [0] .inp (.imm 2), .ldLane 1 6 [0] .inp (.imm 1),
    .op1 .uxtl 0 0, .op1 .sxtl2 1 0, .op1 .sxtl 0 0, .op1 .scvtf 0 0, .op1 .scvtf 1 1, .op2 .fsub 0 0 5,
    .op2 .fsub 1 1 5, .op2 .fmul 0 0 6, .op2 .fmul 1 1 6, .op2 .fadd 0 0 4, .op2 .fadd 1 1 4,
    .st1 4 4 [0] .out (.imm 16), .st1 4 2 [1] .out (.imm 8), .stLane 4 2 1 .out (.imm 4)] }

/-- meta/transform_kernels_arm_64.h:3875-3945. -/
def dq8 : Prog :=
  { init := [.dupW 4 (.par .rangeMin), .dupW 5 (.par .rangeOffset), .dupW 6 (.par .rangeScale), .subs .count 8]
    skip := true
    body := [.subs .count 16, .ld1 16 [0] .inp (.imm 16), .op1 .uxtl2 1 0, .op1 .uxtl 0 0, .op1 .sxtl2 3 1,
    .op1 .sxtl 2 1, .op1 .sxtl2 1 0, .op1 .sxtl 0 0, .op1 .scvtf 0 0, .op1 .scvtf 1 1, .op1 .scvtf 2 2,
    .op1 .scvtf 3 3, .op2 .fsub 0 0 5, .op2 .fsub 1 1 5, .op2 .fsub 2 2 5, .op2 .fsub 3 3 5, .op2 .fmul 0 0 6,
    .op2 .fmul 1 1 6, .op2 .fmul 2 2 6, .op2 .fmul 3 3 6, .op2 .fadd 0 0 4, .op2 .fadd 1 1 4, .op2 .fadd 2 2 4,
    .op2 .fadd 3 3 4, .st1 4 4 [0, 1, 2, 3] .out (.imm 64)]
    cond := .ne
    tail := [.ld1 8 [0] .inp (.imm 8), .op1 .uxtl 0 0, .op1 .sxtl2 1 0, .op1 .sxtl 0 0, .op1 .scvtf 0 0,
    .op1 .scvtf 1 1, .op2 .fsub 0 0 5, .op2 .fsub 1 1 5, .op2 .fmul 0 0 6, .op2 .fmul 1 1 6, .op2 .fadd 0 0 4,
    .op2 .fadd 1 1 4, .st1 4 4 [0, 1] .out (.imm 32)] }

/-- meta/transform_kernels_arm_64.h:3959-4037. -/
def dq9 : Prog :=
  { init := [.dupW 4 (.par .rangeMin), .dupW 5 (.par .rangeOffset), .dupW 6 (.par .rangeScale), .subs .count 9]
    skip := true
    body := [.subs .count 16, .ld1 16 [0] .inp (.imm 16), .op1 .uxtl2 1 0, .op1 .uxtl 0 0, .op1 .sxtl2 3 1,
    .op1 .sxtl 2 1, .op1 .sxtl2 1 0, .op1 .sxtl 0 0, .op1 .scvtf 0 0, .op1 .scvtf 1 1, .op1 .scvtf 2 2,
    .op1 .scvtf 3 3, .op2 .fsub 0 0 5, .op2 .fsub 1 1 5, .op2 .fsub 2 2 5, .op2 .fsub 3 3 5, .op2 .fmul 0 0 6,
    .op2 .fmul 1 1 6, .op2 .fmul 2 2 6, .op2 .fmul 3 3 6, .op2 .fadd 0 0 4, .op2 .fadd 1 1 4, .op2 .fadd 2 2 4,
    .op2 .fadd 3 3 4, .st1 4 4 [0, 1, 2, 3] .out (.imm 64)]
    cond := .ne
    tail := [.ld1 8 [0] .inp (.imm 8), .ldLane 1 8 [0] .inp (.imm 1), .op1 .uxtl2 1 0, .op1 .uxtl 0 0, .op1 .sxtl 2 1,
    .op1 .sxtl2 1 0, .op1 .sxtl 0 0, .op1 .scvtf 0 0, .op1 .scvtf 1 1, .op1 .scvtf 2 2, .op2 .fsub 0 0 5,
    .op2 .fsub 1 1 5, .op2 .fsub 2 2 5, .op2 .fmul 0 0 6, .op2 .fmul 1 1 6, .op2 .fmul 2 2 6, .op2 .fadd 0 0 4,
    .op2 .fadd 1 1 4, .op2 .fadd 2 2 4, .st1 4 4 [0, 1] .out (.imm 32), .stLane 4 0 2 .out (.imm 4)] }

/-- meta/transform_kernels_arm_64.h:4051-4129. -/
def dq10 : Prog :=
  { init := [.dupW 4 (.par .rangeMin), .dupW 5 (.par .rangeOffset), .dupW 6 (.par .rangeScale), .subs .count 10]
    skip := true
    body := [.subs .count 16, .ld1 16 [0] .inp (.imm 16), .op1 .uxtl2 1 0, .op1 .uxtl 0 0, .op1 .sxtl2 3 1,
    .op1 .sxtl 2 1, .op1 .sxtl2 1 0, .op1 .sxtl 0 0, .op1 .scvtf 0 0, .op1 .scvtf 1 1, .op1 .scvtf 2 2,
    .op1 .scvtf 3 3, .op2 .fsub 0 0 5, .op2 .fsub 1 1 5, .op2 .fsub 2 2 5, .op2 .fsub 3 3 5, .op2 .fmul 0 0 6,
    .op2 .fmul 1 1 6, .op2 .fmul 2 2 6, .op2 .fmul 3 3 6, .op2 .fadd 0 0 4, .op2 .fadd 1 1 4, .op2 .fadd 2 2 4,
    .op2 .fadd 3 3 4, .st1 4 4 [0, 1, 2, 3] .out (.imm 64)]
    cond := .ne
    tail := [.ld1 8 [0] .inp (.imm 8), .ldLane 2 4 [0] .inp (.imm 2), .op1 .uxtl2 1 0, .op1 .uxtl 0 0, .op1 .sxtl 2 1,
    .op1 .sxtl2 1 0, .op1 .sxtl 0 0, .op1 .scvtf 0 0, .op1 .scvtf 1 1, .op1 .scvtf 2 2, .op2 .fsub 0 0 5,
    .op2 .fsub 1 1 5, .op2 .fsub 2 2 5, .op2 .fmul 0 0 6, .op2 .fmul 1 1 6, .op2 .fmul 2 2 6, .op2 .fadd 0 0 4,
    .op2 .fadd 1 1 4, .op2 .fadd 2 2 4, .st1 4 4 [0, 1] .out (.imm 32), .st1 4 2 [2] .out (.imm 8)] }

/-- meta/transform_kernels_arm_64.h:4143-4223. -/
def dq11 : Prog :=
  { init := [.dupW 4 (.par .rangeMin), .dupW 5 (.par .rangeOffset), .dupW 6 (.par .rangeScale), .subs .count 11]
    skip := true
    body := [.subs .count 16, .ld1 16 [0] .inp (.imm 16), .op1 .uxtl2 1 0, .op1 .uxtl 0 0, .op1 .sxtl2 3 1,
    .op1 .sxtl 2 1, .op1 .sxtl2 1 0, .op1 .sxtl 0 0, .op1 .scvtf 0 0, .op1 .scvtf 1 1, .op1 .scvtf 2 2,
    .op1 .scvtf 3 3, .op2 .fsub 0 0 5, .op2 .fsub 1 1 5, .op2 .fsub 2 2 5, .op2 .fsub 3 3 5, .op2 .fmul 0 0 6,
    .op2 .fmul 1 1 6, .op2 .fmul 2 2 6, .op2 .fmul 3 3 6, .op2 .fadd 0 0 4, .op2 .fadd 1 1 4, .op2 .fadd 2 2 4,
    .op2 .fadd 3 3 4, .st1 4 4 [0, 1, 2, 3] .out (.imm 64)]
    cond := .ne
    tail := [.ld1 8 [0] .inp (.imm 8), .ldLane 2 4 [0] .inp (.imm 2), .ldLane 1 10 [0] .inp (.imm 1), .op1 .uxtl2 1 0,
    .op1 .uxtl 0 0, .op1 .sxtl 2 1, .op1 .sxtl2 1 0, .op1 .sxtl 0 0, .op1 .scvtf 0 0, .op1 .scvtf 1 1,
    .op1 .scvtf 2 2, .op2 .fsub 0 0 5, .op2 .fsub 1 1 5, .op2 .fsub 2 2 5, .op2 .fmul 0 0 6, .op2 .fmul 1 1 6,
    .op2 .fmul 2 2 6, .op2 .fadd 0 0 4, .op2 .fadd 1 1 4, .op2 .fadd 2 2 4, .st1 4 4 [0, 1] .out (.imm 32),
    .st1 4 2 [2] .out (.imm 8), .stLane 4 2 2 .out (.imm 4)] }

/-- meta/transform_kernels_arm_64.h:4237-4314. -/
def dq12 : Prog :=
  { init := [.dupW 4 (.par .rangeMin), .dupW 5 (.par .rangeOffset), .dupW 6 (.par .rangeScale), .subs .count 12]
    skip := true
    body := [.subs .count 16, .ld1 16 [0] .inp (.imm 16), .op1 .uxtl2 1 0, .op1 .uxtl 0 0, .op1 .sxtl2 3 1,
    .op1 .sxtl 2 1, .op1 .sxtl2 1 0, .op1 .sxtl 0 0, .op1 .scvtf 0 0, .op1 .scvtf 1 1, .op1 .scvtf 2 2,
    .op1 .scvtf 3 3, .op2 .fsub 0 0 5, .op2 .fsub 1 1 5, .op2 .fsub 2 2 5, .op2 .fsub 3 3 5, .op2 .fmul 0 0 6,
    .op2 .fmul 1 1 6, .op2 .fmul 2 2 6, .op2 .fmul 3 3 6, .op2 .fadd 0 0 4, .op2 .fadd 1 1 4, .op2 .fadd 2 2 4,
    .op2 .fadd 3 3 4, .st1 4 4 [0, 1, 2, 3] .out (.imm 64)]
    cond := .ne
    tail := [.ld1 8 [0] .inp (.imm 8), .ldLane 4 2 [0] .inp (.imm 4), .op1 .uxtl2 1 0, .op1 .uxtl 0 0, .op1 .sxtl 2 1,
    .op1 .sxtl2 1 0, .op1 .sxtl 0 0, .op1 .scvtf 0 0, .op1 .scvtf 1 1, .op1 .scvtf 2 2, .op2 .fsub 0 0 5,
    .op2 .fsub 1 1 5, .op2 .fsub 2 2 5, .op2 .fmul 0 0 6, .op2 .fmul 1 1 6, .op2 .fmul 2 2 6, .op2 .fadd 0 0 4,
    .op2 .fadd 1 1 4, .op2 .fadd 2 2 4, .st1 4 4 [0, 1, 2] .out (.imm 48)] }

/-- meta/transform_kernels_arm_64.h:4328-4412. -/
def dq13 : Prog :=
  { init := [.dupW 4 (.par .rangeMin), .dupW 5 (.par .rangeOffset), .dupW 6 (.par .rangeScale), .subs .count 13]
    skip := true
    body := [.subs .count 16, .ld1 16 [0] .inp (.imm 16), .op1 .uxtl2 1 0, .op1 .uxtl 0 0, .op1 .sxtl2 3 1,
    .op1 .sxtl 2 1, .op1 .sxtl2 1 0, .op1 .sxtl 0 0, .op1 .scvtf 0 0, .op1 .scvtf 1 1, .op1 .scvtf 2 2,
    .op1 .scvtf 3 3, .op2 .fsub 0 0 5, .op2 .fsub 1 1 5, .op2 .fsub 2 2 5, .op2 .fsub 3 3 5, .op2 .fmul 0 0 6,
    .op2 .fmul 1 1 6, .op2 .fmul 2 2 6, .op2 .fmul 3 3 6, .op2 .fadd 0 0 4, .op2 .fadd 1 1 4, .op2 .fadd 2 2 4,
    .op2 .fadd 3 3 4, .st1 4 4 [0, 1, 2, 3] .out (.imm 64)]
    cond := .ne
    tail := [.ld1 8 [0] .inp (.imm 8), .ldLane 4 2 [0] .inp (.imm 4), .ldLane 1 12 [0] .inp (.imm 1), .op1 .uxtl2 1 0,
    .op1 .uxtl 0 0, .op1 .sxtl2 3 1, .op1 .sxtl 2 1, .op1 .sxtl2 1 0, .op1 .sxtl 0 0, .op1 .scvtf 0 0,
    .op1 .scvtf 1 1, .op1 .scvtf 2 2, .op1 .scvtf 3 3, .op2 .fsub 0 0 5, .op2 .fsub 1 1 5, .op2 .fsub 2 2 5,
    .op2 .fsub 3 3 5, .op2 .fmul 0 0 6, .op2 .fmul 1 1 6, .op2 .fmul 2 2 6, .op2 .fmul 3 3 6, .op2 .fadd 0 0 4,
    .op2 .fadd 1 1 4, .op2 .fadd 2 2 4, .op2 .fadd 3 3 4, .st1 4 4 [0, 1, 2] .out (.imm 48),
    .stLane 4 0 3 .out (.imm 4)] }

/-- meta/transform_kernels_arm_64.h:4426-4510. -/
def dq14 : Prog :=
  { init := [.dupW 4 (.par .rangeMin), .dupW 5 (.par .rangeOffset), .dupW 6 (.par .rangeScale), .subs .count 14]
    skip := true
    body := [.subs .count 16, .ld1 16 [0] .inp (.imm 16), .op1 .uxtl2 1 0, .op1 .uxtl 0 0, .op1 .sxtl2 3 1,
    .op1 .sxtl 2 1, .op1 .sxtl2 1 0, .op1 .sxtl 0 0, .op1 .scvtf 0 0, .op1 .scvtf 1 1, .op1 .scvtf 2 2,
    .op1 .scvtf 3 3, .op2 .fsub 0 0 5, .op2 .fsub 1 1 5, .op2 .fsub 2 2 5, .op2 .fsub 3 3 5, .op2 .fmul 0 0 6,
    .op2 .fmul 1 1 6, .op2 .fmul 2 2 6, .op2 .fmul 3 3 6, .op2 .fadd 0 0 4, .op2 .fadd 1 1 4, .op2 .fadd 2 2 4,
    .op2 .fadd 3 3 4, .st1 4 4 [0, 1, 2, 3] .out (.imm 64)]
    cond := .ne
    tail := [.ld1 8 [0] .inp (.imm 8), .ldLane 4 2 [0] .inp (.imm 4), .ldLane 2 6 [0] .inp (.imm 2), .op1 .uxtl2 1 0,
    .op1 .uxtl 0 0, .op1 .sxtl2 3 1, .op1 .sxtl 2 1, .op1 .sxtl2 1 0, .op1 .sxtl 0 0, .op1 .scvtf 0 0,
    .op1 .scvtf 1 1, .op1 .scvtf 2 2, .op1 .scvtf 3 3, .op2 .fsub 0 0 5, .op2 .fsub 1 1 5, .op2 .fsub 2 2 5,
    .op2 .fsub 3 3 5, .op2 .fmul 0 0 6, .op2 .fmul 1 1 6, .op2 .fmul 2 2 6, .op2 .fmul 3 3 6, .op2 .fadd 0 0 4,
    .op2 .fadd 1 1 4, .op2 .fadd 2 2 4, .op2 .fadd 3 3 4, .st1 4 4 [0, 1, 2] .out (.imm 48),
    .st1 4 2 [3] .out (.imm 8)] }

/-- meta/transform_kernels_arm_64.h:4524-4610. -/
def dq15 : Prog :=
  { init := [.dupW 4 (.par .rangeMin), .dupW 5 (.par .rangeOffset), .dupW 6 (.par .rangeScale), .subs .count 15]
    skip := true
    body := [.subs .count 16, .ld1 16 [0] .inp (.imm 16), .op1 .uxtl2 1 0, .op1 .uxtl 0 0, .op1 .sxtl2 3 1,
    .op1 .sxtl 2 1, .op1 .sxtl2 1 0, .op1 .sxtl 0 0, .op1 .scvtf 0 0, .op1 .scvtf 1 1, .op1 .scvtf 2 2,
    .op1 .scvtf 3 3, .op2 .fsub 0 0 5, .op2 .fsub 1 1 5, .op2 .fsub 2 2 5, .op2 .fsub 3 3 5, .op2 .fmul 0 0 6,
    .op2 .fmul 1 1 6, .op2 .fmul 2 2 6, .op2 .fmul 3 3 6, .op2 .fadd 0 0 4, .op2 .fadd 1 1 4, .op2 .fadd 2 2 4,
    .op2 .fadd 3 3 4, .st1 4 4 [0, 1, 2, 3] .out (.imm 64)]
    cond := .ne
    tail := [.ld1 8 [0] .inp (.imm 8), .ldLane 4 2 [0] .inp (.imm 4), .ldLane 2 6 [0] .inp (.imm 2),
    .ldLane 1 14 [0] .inp (.imm 1), .op1 .uxtl2 1 0, .op1 .uxtl 0 0, .op1 .sxtl2 3 1, .op1 .sxtl 2 1,
    .op1 .sxtl2 1 0, .op1 .sxtl 0 0, .op1 .scvtf 0 0, .op1 .scvtf 1 1, .op1 .scvtf 2 2, .op1 .scvtf 3 3,
    .op2 .fsub 0 0 5, .op2 .fsub 1 1 5, .op2 .fsub 2 2 5, .op2 .fsub 3 3 5, .op2 .fmul 0 0 6, .op2 .fmul 1 1 6,
    .op2 .fmul 2 2 6, .op2 .fmul 3 3 6, .op2 .fadd 0 0 4, .op2 .fadd 1 1 4, .op2 .fadd 2 2 4, .op2 .fadd 3 3 4,
    .st1 4 4 [0, 1, 2] .out (.imm 48), .st1 4 2 [3] .out (.imm 8), .stLane 4 2 3 .out (.imm 4)] }

/-- The code for a number of leftovers: the specialisations of `Transform1DKernel` for `Dequantize`. -/
def dqProg : Nat → Option Prog
  | 0 => some dq0
  | 1 => some dq1
  | 2 => some dq2
  | 3 => some dq3
  | 4 => some dq4
  | 5 => some dq5
  | 6 => some dq6
  | 7 => some dq7
  | 8 => some dq8
  | 9 => some dq9
  | 10 => some dq10
  | 11 => some dq11
  | 12 => some dq12
  | 13 => some dq13
  | 14 => some dq14
  | 15 => some dq15
  | _ => none

/-- meta/transform_kernels_arm_64.h:4627-4650. -/
def mm0 : Prog :=
  { init := [.dupB 4 (.par .min), .dupB 5 (.par .max)]
    skip := false
    body := [.subs .count 16, .ld1 16 [0] .inp (.imm 16), .op2 .umax 0 0 4, .op2 .umin 0 0 5, .st1 4 4 [0] .out (.imm 16)]
    cond := .ne
    tail := [] }

/-- meta/transform_kernels_arm_64.h:4667-4706. -/
def mm1 : Prog :=
  { init := [.dupB 4 (.par .min), .dupB 5 (.par .max), .subs .count 1]
    skip := true
    body := [.subs .count 16, .ld1 16 [0] .inp (.imm 16), .op2 .umax 0 0 4, .op2 .umin 0 0 5, .st1 4 4 [0] .out (.imm 16)]
    cond := .ne
    tail := [.ldLane 1 0 [0] .inp (.imm 1), .op2 .umax 0 0 4, .op2 .umin 0 0 5, .stLane 1 0 0 .out (.imm 1)] }

/-- meta/transform_kernels_arm_64.h:4723-4762. -/
def mm2 : Prog :=
  { init := [.dupB 4 (.par .min), .dupB 5 (.par .max), .subs .count 2]
    skip := true
    body := [.subs .count 16, .ld1 16 [0] .inp (.imm 16), .op2 .umax 0 0 4, .op2 .umin 0 0 5, .st1 4 4 [0] .out (.imm 16)]
    cond := .ne
    tail := [.ldLane 2 0 [0] .inp (.imm 2), .op2 .umax 0 0 4, .op2 .umin 0 0 5, .stLane 2 0 0 .out (.imm 2)] }

/-- meta/transform_kernels_arm_64.h:4779-4820. -/
def mm3 : Prog :=
  { init := [.dupB 4 (.par .min), .dupB 5 (.par .max), .subs .count 3]
    skip := true
    body := [.subs .count 16, .ld1 16 [0] .inp (.imm 16), .op2 .umax 0 0 4, .op2 .umin 0 0 5, .st1 4 4 [0] .out (.imm 16)]
    cond := .ne
    tail := [.ldLane 2 0 [0] .inp (.imm 2), .ldLane 1 2 [0] .inp (.imm 1), .op2 .umax 0 0 4, .op2 .umin 0 0 5,
    .stLane 2 0 0 .out (.imm 2), .stLane 1 2 0 .out (.imm 1)] }

/-- meta/transform_kernels_arm_64.h:4837-4876. -/
def mm4 : Prog :=
  { init := [.dupB 4 (.par .min), .dupB 5 (.par .max), .subs .count 4]
    skip := true
    body := [.subs .count 16, .ld1 16 [0] .inp (.imm 16), .op2 .umax 0 0 4, .op2 .umin 0 0 5, .st1 4 4 [0] .out (.imm 16)]
    cond := .ne
    tail := [.ldLane 4 0 [0] .inp (.imm 4), .op2 .umax 0 0 4, .op2 .umin 0 0 5, .stLane 4 0 0 .out (.imm 4)] }

/-- meta/transform_kernels_arm_64.h:4893-4934. -/
def mm5 : Prog :=
  { init := [.dupB 4 (.par .min), .dupB 5 (.par .max), .subs .count 5]
    skip := true
    body := [.subs .count 16, .ld1 16 [0] .inp (.imm 16), .op2 .umax 0 0 4, .op2 .umin 0 0 5, .st1 4 4 [0] .out (.imm 16)]
    cond := .ne
    tail := [.ldLane 4 0 [0] .inp (.imm 4), .ldLane 1 4 [0] .inp (.imm 1), .op2 .umax 0 0 4, .op2 .umin 0 0 5,
    .stLane 4 0 0 .out (.imm 4), .stLane 1 4 0 .out (.imm 1)] }

/-- meta/transform_kernels_arm_64.h:4951-4992. -/
def mm6 : Prog :=
  { init := [.dupB 4 (.par .min), .dupB 5 (.par .max), .subs .count 6]
    skip := true
    body := [.subs .count 16, .ld1 16 [0] .inp (.imm 16), .op2 .umax 0 0 4, .op2 .umin 0 0 5, .st1 4 4 [0] .out (.imm 16)]
    cond := .ne
    tail := [.ldLane 4 0 [0] .inp (.imm 4), .ldLane 2 2 [0] .inp (.imm 2), .op2 .umax 0 0 4, .op2 .umin 0 0 5,
    .stLane 4 0 0 .out (.imm 4), .stLane 2 2 0 .out (.imm 2)] }

/-- meta/transform_kernels_arm_64.h:5009-5052. -/
def mm7 : Prog :=
  { init := [.dupB 4 (.par .min), .dupB 5 (.par .max), .subs .count 7]
    skip := true
    body := [.subs .count 16, .ld1 16 [0] .inp (.imm 16), .op2 .umax 0 0 4, .op2 .umin 0 0 5, .st1 4 4 [0] .out (.imm 16)]
    cond := .ne
    tail := [.ldLane 4 0 [0] .inp (.imm 4), .ldLane 2 2 [0] .inp (.imm 2), .ldLane 1 6 [0] .inp (.imm 1),
    .op2 .umax 0 0 4, .op2 .umin 0 0 5, .stLane 4 0 0 .out (.imm 4), .stLane 2 2 0 .out (.imm 2),
    .stLane 1 6 0 .out (.imm 1)] }

/-- meta/transform_kernels_arm_64.h:5069-5108. -/
def mm8 : Prog :=
  { init := [.dupB 4 (.par .min), .dupB 5 (.par .max), .subs .count 8]
    skip := true
    body := [.subs .count 16, .ld1 16 [0] .inp (.imm 16), .op2 .umax 0 0 4, .op2 .umin 0 0 5, .st1 4 4 [0] .out (.imm 16)]
    cond := .ne
    tail := [.ld1 8 [0] .inp (.imm 8), .op2 .umax 0 0 4, .op2 .umin 0 0 5, .st1 4 2 [0] .out (.imm 8)] }

/-- meta/transform_kernels_arm_64.h:5125-5166. -/
def mm9 : Prog :=
  { init := [.dupB 4 (.par .min), .dupB 5 (.par .max), .subs .count 9]
    skip := true
    body := [.subs .count 16, .ld1 16 [0] .inp (.imm 16), .op2 .umax 0 0 4, .op2 .umin 0 0 5, .st1 4 4 [0] .out (.imm 16)]
    cond := .ne
    tail := [.ld1 8 [0] .inp (.imm 8), .ldLane 1 8 [0] .inp (.imm 1), .op2 .umax 0 0 4, .op2 .umin 0 0 5,
    .st1 4 2 [0] .out (.imm 8), .stLane 1 8 0 .out (.imm 1)] }

/-- meta/transform_kernels_arm_64.h:5183-5224. -/
def mm10 : Prog :=
  { init := [.dupB 4 (.par .min), .dupB 5 (.par .max), .subs .count 10]
    skip := true
    body := [.subs .count 16, .ld1 16 [0] .inp (.imm 16), .op2 .umax 0 0 4, .op2 .umin 0 0 5, .st1 4 4 [0] .out (.imm 16)]
    cond := .ne
    tail := [.ld1 8 [0] .inp (.imm 8), .ldLane 2 4 [0] .inp (.imm 2), .op2 .umax 0 0 4, .op2 .umin 0 0 5,
    .st1 4 2 [0] .out (.imm 8), .stLane 2 4 0 .out (.imm 2)] }

/-- meta/transform_kernels_arm_64.h:5241-5284. -/
def mm11 : Prog :=
  { init := [.dupB 4 (.par .min), .dupB 5 (.par .max), .subs .count 11]
    skip := true
    body := [.subs .count 16, .ld1 16 [0] .inp (.imm 16), .op2 .umax 0 0 4, .op2 .umin 0 0 5, .st1 4 4 [0] .out (.imm 16)]
    cond := .ne
    tail := [.ld1 8 [0] .inp (.imm 8), .ldLane 2 4 [0] .inp (.imm 2), .ldLane 1 10 [0] .inp (.imm 1), .op2 .umax 0 0 4,
    .op2 .umin 0 0 5, .st1 4 2 [0] .out (.imm 8), .stLane 2 4 0 .out (.imm 2), .stLane 1 10 0 .out (.imm 1)] }

/-- meta/transform_kernels_arm_64.h:5301-5342. -/
def mm12 : Prog :=
  { init := [.dupB 4 (.par .min), .dupB 5 (.par .max), .subs .count 12]
    skip := true
    body := [.subs .count 16, .ld1 16 [0] .inp (.imm 16), .op2 .umax 0 0 4, .op2 .umin 0 0 5, .st1 4 4 [0] .out (.imm 16)]
    cond := .ne
    tail := [.ld1 8 [0] .inp (.imm 8), .ldLane 4 2 [0] .inp (.imm 4), .op2 .umax 0 0 4, .op2 .umin 0 0 5,
    .st1 4 2 [0] .out (.imm 8), .stLane 4 2 0 .out (.imm 4)] }

/-- meta/transform_kernels_arm_64.h:5359-5402. -/
def mm13 : Prog :=
  { init := [.dupB 4 (.par .min), .dupB 5 (.par .max), .subs .count 13]
    skip := true
    body := [.subs .count 16, .ld1 16 [0] .inp (.imm 16), .op2 .umax 0 0 4, .op2 .umin 0 0 5, .st1 4 4 [0] .out (.imm 16)]
    cond := .ne
    tail := [.ld1 8 [0] .inp (.imm 8), .ldLane 4 2 [0] .inp (.imm 4), .ldLane 1 12 [0] .inp (.imm 1), .op2 .umax 0 0 4,
    .op2 .umin 0 0 5, .st1 4 2 [0] .out (.imm 8), .stLane 4 2 0 .out (.imm 4), .stLane 1 12 0 .out (.imm 1)] }

/-- meta/transform_kernels_arm_64.h:5419-5462. -/
def mm14 : Prog :=
  { init := [.dupB 4 (.par .min), .dupB 5 (.par .max), .subs .count 14]
    skip := true
    body := [.subs .count 16, .ld1 16 [0] .inp (.imm 16), .op2 .umax 0 0 4, .op2 .umin 0 0 5, .st1 4 4 [0] .out (.imm 16)]
    cond := .ne
    tail := [.ld1 8 [0] .inp (.imm 8), .ldLane 4 2 [0] .inp (.imm 4), .ldLane 2 6 [0] .inp (.imm 2), .op2 .umax 0 0 4,
    .op2 .umin 0 0 5, .st1 4 2 [0] .out (.imm 8), .stLane 4 2 0 .out (.imm 4), .stLane 2 6 0 .out (.imm 2)] }

/-- meta/transform_kernels_arm_64.h:5479-5524. -/
def mm15 : Prog :=
  { init := [.dupB 4 (.par .min), .dupB 5 (.par .max), .subs .count 15]
    skip := true
    body := [.subs .count 16, .ld1 16 [0] .inp (.imm 16), .op2 .umax 0 0 4, .op2 .umin 0 0 5, .st1 4 4 [0] .out (.imm 16)]
    cond := .ne
    tail := [.ld1 8 [0] .inp (.imm 8), .ldLane 4 2 [0] .inp (.imm 4), .ldLane 2 6 [0] .inp (.imm 2),
    .ldLane 1 14 [0] .inp (.imm 1), .op2 .umax 0 0 4, .op2 .umin 0 0 5, .st1 4 2 [0] .out (.imm 8),
    .stLane 4 2 0 .out (.imm 4), .stLane 2 6 0 .out (.imm 2), .stLane 1 14 0 .out (.imm 1)] }

/-- The code for a number of leftovers: the specialisations of `Transform1DKernel` for `MinMax<uint8_t>`. -/
def mmProg : Nat → Option Prog
  | 0 => some mm0
  | 1 => some mm1
  | 2 => some mm2
  | 3 => some mm3
  | 4 => some mm4
  | 5 => some mm5
  | 6 => some mm6
  | 7 => some mm7
  | 8 => some mm8
  | 9 => some mm9
  | 10 => some mm10
  | 11 => some mm11
  | 12 => some mm12
  | 13 => some mm13
  | 14 => some mm14
  | 15 => some mm15
  | _ => none

end Gemmlowp.MetaAsm
