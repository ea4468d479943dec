import Verif.MetaAsm32
/-!
# The RowMajorWithSum packing code of meta/streams_arm_32.h

`row32_NxL` is the code of `Stream<uint8_t, N, 8, L, RowMajorWithSum>::Pack`, line by line.
-/
namespace Gemmlowp.MetaAsm

/-- meta/streams_arm_32.h:38-65. -/
def row32_1x0 : Prog32 :=
  { init := [.zeroQ 8]
    skip := false
    body := [.subs .count 8, .vld1 [0] .inp 0 (.imm 8), .qqd .uaddw 8 8 0, .vst1 4 [0] .out 8 (.imm 8)]
    cond := .ne
    tail := [.ins 0 .mulSum, .dupW 1 .addSum, .qq .uaddlp 8 8, .ddd .vpadd 16 16 17, .ddd .vpadd 16 16 16,
    .mulLane 8 8 0 0, .qqq .add 8 8 1, .vst1 4 [16, 17] .out 8 (.imm 0)] }

/-- meta/streams_arm_32.h:79-118. -/
def row32_1x1 : Prog32 :=
  { init := [.zeroQ 8, .subs .count 1]
    skip := true
    body := [.subs .count 8, .vld1 [0] .inp 0 (.imm 8), .qqd .uaddw 8 8 0, .vst1 4 [0] .out 8 (.imm 8)]
    cond := .ne
    tail := [.zeroD 0, .vldLane 1 0 [0] .inp (.imm 1), .qqd .uaddw 8 8 0, .vst1 4 [0] .out 8 (.imm 8), .ins 0 .mulSum,
    .dupW 1 .addSum, .qq .uaddlp 8 8, .ddd .vpadd 16 16 17, .ddd .vpadd 16 16 16, .mulLane 8 8 0 0,
    .qqq .add 8 8 1, .vst1 4 [16, 17] .out 8 (.imm 0)] }

/-- meta/streams_arm_32.h:132-171. -/
def row32_1x2 : Prog32 :=
  { init := [.zeroQ 8, .subs .count 2]
    skip := true
    body := [.subs .count 8, .vld1 [0] .inp 0 (.imm 8), .qqd .uaddw 8 8 0, .vst1 4 [0] .out 8 (.imm 8)]
    cond := .ne
    tail := [.zeroD 0, .vldLane 2 0 [0] .inp (.imm 2), .qqd .uaddw 8 8 0, .vst1 4 [0] .out 8 (.imm 8), .ins 0 .mulSum,
    .dupW 1 .addSum, .qq .uaddlp 8 8, .ddd .vpadd 16 16 17, .ddd .vpadd 16 16 16, .mulLane 8 8 0 0,
    .qqq .add 8 8 1, .vst1 4 [16, 17] .out 8 (.imm 0)] }

/-- meta/streams_arm_32.h:185-225. -/
def row32_1x3 : Prog32 :=
  { init := [.zeroQ 8, .subs .count 3]
    skip := true
    body := [.subs .count 8, .vld1 [0] .inp 0 (.imm 8), .qqd .uaddw 8 8 0, .vst1 4 [0] .out 8 (.imm 8)]
    cond := .ne
    tail := [.zeroD 0, .vldLane 2 0 [0] .inp (.imm 2), .vldLane 1 2 [0] .inp (.imm 1), .qqd .uaddw 8 8 0,
    .vst1 4 [0] .out 8 (.imm 8), .ins 0 .mulSum, .dupW 1 .addSum, .qq .uaddlp 8 8, .ddd .vpadd 16 16 17,
    .ddd .vpadd 16 16 16, .mulLane 8 8 0 0, .qqq .add 8 8 1, .vst1 4 [16, 17] .out 8 (.imm 0)] }

/-- meta/streams_arm_32.h:239-278. -/
def row32_1x4 : Prog32 :=
  { init := [.zeroQ 8, .subs .count 4]
    skip := true
    body := [.subs .count 8, .vld1 [0] .inp 0 (.imm 8), .qqd .uaddw 8 8 0, .vst1 4 [0] .out 8 (.imm 8)]
    cond := .ne
    tail := [.zeroD 0, .vldLane 4 0 [0] .inp (.imm 4), .qqd .uaddw 8 8 0, .vst1 4 [0] .out 8 (.imm 8), .ins 0 .mulSum,
    .dupW 1 .addSum, .qq .uaddlp 8 8, .ddd .vpadd 16 16 17, .ddd .vpadd 16 16 16, .mulLane 8 8 0 0,
    .qqq .add 8 8 1, .vst1 4 [16, 17] .out 8 (.imm 0)] }

/-- meta/streams_arm_32.h:292-332. -/
def row32_1x5 : Prog32 :=
  { init := [.zeroQ 8, .subs .count 5]
    skip := true
    body := [.subs .count 8, .vld1 [0] .inp 0 (.imm 8), .qqd .uaddw 8 8 0, .vst1 4 [0] .out 8 (.imm 8)]
    cond := .ne
    tail := [.zeroD 0, .vldLane 4 0 [0] .inp (.imm 4), .vldLane 1 4 [0] .inp (.imm 1), .qqd .uaddw 8 8 0,
    .vst1 4 [0] .out 8 (.imm 8), .ins 0 .mulSum, .dupW 1 .addSum, .qq .uaddlp 8 8, .ddd .vpadd 16 16 17,
    .ddd .vpadd 16 16 16, .mulLane 8 8 0 0, .qqq .add 8 8 1, .vst1 4 [16, 17] .out 8 (.imm 0)] }

/-- meta/streams_arm_32.h:346-386. -/
def row32_1x6 : Prog32 :=
  { init := [.zeroQ 8, .subs .count 6]
    skip := true
    body := [.subs .count 8, .vld1 [0] .inp 0 (.imm 8), .qqd .uaddw 8 8 0, .vst1 4 [0] .out 8 (.imm 8)]
    cond := .ne
    tail := [.zeroD 0, .vldLane 4 0 [0] .inp (.imm 4), .vldLane 2 2 [0] .inp (.imm 2), .qqd .uaddw 8 8 0,
    .vst1 4 [0] .out 8 (.imm 8), .ins 0 .mulSum, .dupW 1 .addSum, .qq .uaddlp 8 8, .ddd .vpadd 16 16 17,
    .ddd .vpadd 16 16 16, .mulLane 8 8 0 0, .qqq .add 8 8 1, .vst1 4 [16, 17] .out 8 (.imm 0)] }

/-- meta/streams_arm_32.h:400-441. -/
def row32_1x7 : Prog32 :=
  { init := [.zeroQ 8, .subs .count 7]
    skip := true
    body := [.subs .count 8, .vld1 [0] .inp 0 (.imm 8), .qqd .uaddw 8 8 0, .vst1 4 [0] .out 8 (.imm 8)]
    cond := .ne
    tail := [.zeroD 0, .vldLane 4 0 [0] .inp (.imm 4), .vldLane 2 2 [0] .inp (.imm 2), .vldLane 1 6 [0] .inp (.imm 1),
    .qqd .uaddw 8 8 0, .vst1 4 [0] .out 8 (.imm 8), .ins 0 .mulSum, .dupW 1 .addSum, .qq .uaddlp 8 8,
    .ddd .vpadd 16 16 17, .ddd .vpadd 16 16 16, .mulLane 8 8 0 0, .qqq .add 8 8 1,
    .vst1 4 [16, 17] .out 8 (.imm 0)] }

/-- meta/streams_arm_32.h:455-489. -/
def row32_2x0 : Prog32 :=
  { init := [.addX (.t 0) .inp .stride, .zeroQ 8, .zeroQ 9]
    skip := false
    body := [.subs .count 8, .vld1 [0] .inp 0 (.imm 8), .vld1 [1] (.t 0) 0 (.imm 8), .qqd .uaddw 8 8 0,
    .qqd .uaddw 9 9 1, .vst1 4 [0, 1] .out 16 (.imm 16)]
    cond := .ne
    tail := [.ins 0 .mulSum, .dupW 1 .addSum, .qq .uaddlp 8 8, .qq .uaddlp 9 9, .ddd .vpadd 16 16 17,
    .ddd .vpadd 18 18 19, .ddd .vpadd 16 16 18, .mulLane 8 8 0 0, .qqq .add 8 8 1,
    .vst1 4 [16, 17] .out 16 (.imm 0)] }

/-- meta/streams_arm_32.h:503-552. -/
def row32_2x1 : Prog32 :=
  { init := [.addX (.t 0) .inp .stride, .zeroQ 8, .zeroQ 9, .subs .count 1]
    skip := true
    body := [.subs .count 8, .vld1 [0] .inp 0 (.imm 8), .vld1 [1] (.t 0) 0 (.imm 8), .qqd .uaddw 8 8 0,
    .qqd .uaddw 9 9 1, .vst1 4 [0, 1] .out 16 (.imm 16)]
    cond := .ne
    tail := [.zeroD 0, .zeroD 1, .vldLane 1 0 [0] .inp (.imm 1), .vldLane 1 0 [1] (.t 0) (.imm 1), .qqd .uaddw 8 8 0,
    .qqd .uaddw 9 9 1, .vst1 4 [0, 1] .out 16 (.imm 16), .ins 0 .mulSum, .dupW 1 .addSum, .qq .uaddlp 8 8,
    .qq .uaddlp 9 9, .ddd .vpadd 16 16 17, .ddd .vpadd 18 18 19, .ddd .vpadd 16 16 18, .mulLane 8 8 0 0,
    .qqq .add 8 8 1, .vst1 4 [16, 17] .out 16 (.imm 0)] }

/-- meta/streams_arm_32.h:566-615. -/
def row32_2x2 : Prog32 :=
  { init := [.addX (.t 0) .inp .stride, .zeroQ 8, .zeroQ 9, .subs .count 2]
    skip := true
    body := [.subs .count 8, .vld1 [0] .inp 0 (.imm 8), .vld1 [1] (.t 0) 0 (.imm 8), .qqd .uaddw 8 8 0,
    .qqd .uaddw 9 9 1, .vst1 4 [0, 1] .out 16 (.imm 16)]
    cond := .ne
    tail := [.zeroD 0, .zeroD 1, .vldLane 2 0 [0] .inp (.imm 2), .vldLane 2 0 [1] (.t 0) (.imm 2), .qqd .uaddw 8 8 0,
    .qqd .uaddw 9 9 1, .vst1 4 [0, 1] .out 16 (.imm 16), .ins 0 .mulSum, .dupW 1 .addSum, .qq .uaddlp 8 8,
    .qq .uaddlp 9 9, .ddd .vpadd 16 16 17, .ddd .vpadd 18 18 19, .ddd .vpadd 16 16 18, .mulLane 8 8 0 0,
    .qqq .add 8 8 1, .vst1 4 [16, 17] .out 16 (.imm 0)] }

/-- meta/streams_arm_32.h:629-680. -/
def row32_2x3 : Prog32 :=
  { init := [.addX (.t 0) .inp .stride, .zeroQ 8, .zeroQ 9, .subs .count 3]
    skip := true
    body := [.subs .count 8, .vld1 [0] .inp 0 (.imm 8), .vld1 [1] (.t 0) 0 (.imm 8), .qqd .uaddw 8 8 0,
    .qqd .uaddw 9 9 1, .vst1 4 [0, 1] .out 16 (.imm 16)]
    cond := .ne
    tail := [.zeroD 0, .zeroD 1, .vldLane 2 0 [0] .inp (.imm 2), .vldLane 1 2 [0] .inp (.imm 1),
    .vldLane 2 0 [1] (.t 0) (.imm 2), .vldLane 1 2 [1] (.t 0) (.imm 1), .qqd .uaddw 8 8 0, .qqd .uaddw 9 9 1,
    .vst1 4 [0, 1] .out 16 (.imm 16), .ins 0 .mulSum, .dupW 1 .addSum, .qq .uaddlp 8 8, .qq .uaddlp 9 9,
    .ddd .vpadd 16 16 17, .ddd .vpadd 18 18 19, .ddd .vpadd 16 16 18, .mulLane 8 8 0 0, .qqq .add 8 8 1,
    .vst1 4 [16, 17] .out 16 (.imm 0)] }

/-- meta/streams_arm_32.h:694-743. -/
def row32_2x4 : Prog32 :=
  { init := [.addX (.t 0) .inp .stride, .zeroQ 8, .zeroQ 9, .subs .count 4]
    skip := true
    body := [.subs .count 8, .vld1 [0] .inp 0 (.imm 8), .vld1 [1] (.t 0) 0 (.imm 8), .qqd .uaddw 8 8 0,
    .qqd .uaddw 9 9 1, .vst1 4 [0, 1] .out 16 (.imm 16)]
    cond := .ne
    tail := [.zeroD 0, .zeroD 1, .vldLane 4 0 [0] .inp (.imm 4), .vldLane 4 0 [1] (.t 0) (.imm 4), .qqd .uaddw 8 8 0,
    .qqd .uaddw 9 9 1, .vst1 4 [0, 1] .out 16 (.imm 16), .ins 0 .mulSum, .dupW 1 .addSum, .qq .uaddlp 8 8,
    .qq .uaddlp 9 9, .ddd .vpadd 16 16 17, .ddd .vpadd 18 18 19, .ddd .vpadd 16 16 18, .mulLane 8 8 0 0,
    .qqq .add 8 8 1, .vst1 4 [16, 17] .out 16 (.imm 0)] }

/-- meta/streams_arm_32.h:757-808. -/
def row32_2x5 : Prog32 :=
  { init := [.addX (.t 0) .inp .stride, .zeroQ 8, .zeroQ 9, .subs .count 5]
    skip := true
    body := [.subs .count 8, .vld1 [0] .inp 0 (.imm 8), .vld1 [1] (.t 0) 0 (.imm 8), .qqd .uaddw 8 8 0,
    .qqd .uaddw 9 9 1, .vst1 4 [0, 1] .out 16 (.imm 16)]
    cond := .ne
    tail := [.zeroD 0, .zeroD 1, .vldLane 4 0 [0] .inp (.imm 4), .vldLane 1 4 [0] .inp (.imm 1),
    .vldLane 4 0 [1] (.t 0) (.imm 4), .vldLane 1 4 [1] (.t 0) (.imm 1), .qqd .uaddw 8 8 0, .qqd .uaddw 9 9 1,
    .vst1 4 [0, 1] .out 16 (.imm 16), .ins 0 .mulSum, .dupW 1 .addSum, .qq .uaddlp 8 8, .qq .uaddlp 9 9,
    .ddd .vpadd 16 16 17, .ddd .vpadd 18 18 19, .ddd .vpadd 16 16 18, .mulLane 8 8 0 0, .qqq .add 8 8 1,
    .vst1 4 [16, 17] .out 16 (.imm 0)] }

/-- meta/streams_arm_32.h:822-873. -/
def row32_2x6 : Prog32 :=
  { init := [.addX (.t 0) .inp .stride, .zeroQ 8, .zeroQ 9, .subs .count 6]
    skip := true
    body := [.subs .count 8, .vld1 [0] .inp 0 (.imm 8), .vld1 [1] (.t 0) 0 (.imm 8), .qqd .uaddw 8 8 0,
    .qqd .uaddw 9 9 1, .vst1 4 [0, 1] .out 16 (.imm 16)]
    cond := .ne
    tail := [.zeroD 0, .zeroD 1, .vldLane 4 0 [0] .inp (.imm 4), .vldLane 2 2 [0] .inp (.imm 2),
    .vldLane 4 0 [1] (.t 0) (.imm 4), .vldLane 2 2 [1] (.t 0) (.imm 2), .qqd .uaddw 8 8 0, .qqd .uaddw 9 9 1,
    .vst1 4 [0, 1] .out 16 (.imm 16), .ins 0 .mulSum, .dupW 1 .addSum, .qq .uaddlp 8 8, .qq .uaddlp 9 9,
    .ddd .vpadd 16 16 17, .ddd .vpadd 18 18 19, .ddd .vpadd 16 16 18, .mulLane 8 8 0 0, .qqq .add 8 8 1,
    .vst1 4 [16, 17] .out 16 (.imm 0)] }

/-- meta/streams_arm_32.h:887-940. -/
def row32_2x7 : Prog32 :=
  { init := [.addX (.t 0) .inp .stride, .zeroQ 8, .zeroQ 9, .subs .count 7]
    skip := true
    body := [.subs .count 8, .vld1 [0] .inp 0 (.imm 8), .vld1 [1] (.t 0) 0 (.imm 8), .qqd .uaddw 8 8 0,
    .qqd .uaddw 9 9 1, .vst1 4 [0, 1] .out 16 (.imm 16)]
    cond := .ne
    tail := [.zeroD 0, .zeroD 1, .vldLane 4 0 [0] .inp (.imm 4), .vldLane 2 2 [0] .inp (.imm 2),
    .vldLane 1 6 [0] .inp (.imm 1), .vldLane 4 0 [1] (.t 0) (.imm 4), .vldLane 2 2 [1] (.t 0) (.imm 2),
    .vldLane 1 6 [1] (.t 0) (.imm 1), .qqd .uaddw 8 8 0, .qqd .uaddw 9 9 1, .vst1 4 [0, 1] .out 16 (.imm 16),
    .ins 0 .mulSum, .dupW 1 .addSum, .qq .uaddlp 8 8, .qq .uaddlp 9 9, .ddd .vpadd 16 16 17,
    .ddd .vpadd 18 18 19, .ddd .vpadd 16 16 18, .mulLane 8 8 0 0, .qqq .add 8 8 1,
    .vst1 4 [16, 17] .out 16 (.imm 0)] }

/-- meta/streams_arm_32.h:954-995. -/
def row32_3x0 : Prog32 :=
  { init := [.addX (.t 0) .inp .stride, .addX (.t 1) (.t 0) .stride, .zeroQ 8, .zeroQ 9, .zeroQ 10]
    skip := false
    body := [.subs .count 8, .vld1 [0] .inp 0 (.imm 8), .vld1 [1] (.t 0) 0 (.imm 8), .vld1 [2] (.t 1) 0 (.imm 8),
    .qqd .uaddw 8 8 0, .qqd .uaddw 9 9 1, .qqd .uaddw 10 10 2, .vst1 4 [0, 1, 2] .out 8 (.imm 24)]
    cond := .ne
    tail := [.ins 0 .mulSum, .dupW 1 .addSum, .qq .uaddlp 8 8, .qq .uaddlp 9 9, .qq .uaddlp 10 10, .ddd .vpadd 16 16 17,
    .ddd .vpadd 18 18 19, .ddd .vpadd 20 20 21, .ddd .vpadd 16 16 18, .ddd .vpadd 17 20 20, .mulLane 8 8 0 0,
    .qqq .add 8 8 1, .vst1 4 [16, 17] .out 8 (.imm 0)] }

/-- meta/streams_arm_32.h:1009-1068. -/
def row32_3x1 : Prog32 :=
  { init := [.addX (.t 0) .inp .stride, .addX (.t 1) (.t 0) .stride, .zeroQ 8, .zeroQ 9, .zeroQ 10, .subs .count 1]
    skip := true
    body := [.subs .count 8, .vld1 [0] .inp 0 (.imm 8), .vld1 [1] (.t 0) 0 (.imm 8), .vld1 [2] (.t 1) 0 (.imm 8),
    .qqd .uaddw 8 8 0, .qqd .uaddw 9 9 1, .qqd .uaddw 10 10 2, .vst1 4 [0, 1, 2] .out 8 (.imm 24)]
    cond := .ne
    tail := [.zeroD 0, .zeroD 1, .zeroD 2, .vldLane 1 0 [0] .inp (.imm 1), .vldLane 1 0 [1] (.t 0) (.imm 1),
    .vldLane 1 0 [2] (.t 1) (.imm 1), .qqd .uaddw 8 8 0, .qqd .uaddw 9 9 1, .qqd .uaddw 10 10 2,
    .vst1 4 [0, 1, 2] .out 8 (.imm 24), .ins 0 .mulSum, .dupW 1 .addSum, .qq .uaddlp 8 8, .qq .uaddlp 9 9,
    .qq .uaddlp 10 10, .ddd .vpadd 16 16 17, .ddd .vpadd 18 18 19, .ddd .vpadd 20 20 21, .ddd .vpadd 16 16 18,
    .ddd .vpadd 17 20 20, .mulLane 8 8 0 0, .qqq .add 8 8 1, .vst1 4 [16, 17] .out 8 (.imm 0)] }

/-- meta/streams_arm_32.h:1082-1141. -/
def row32_3x2 : Prog32 :=
  { init := [.addX (.t 0) .inp .stride, .addX (.t 1) (.t 0) .stride, .zeroQ 8, .zeroQ 9, .zeroQ 10, .subs .count 2]
    skip := true
    body := [.subs .count 8, .vld1 [0] .inp 0 (.imm 8), .vld1 [1] (.t 0) 0 (.imm 8), .vld1 [2] (.t 1) 0 (.imm 8),
    .qqd .uaddw 8 8 0, .qqd .uaddw 9 9 1, .qqd .uaddw 10 10 2, .vst1 4 [0, 1, 2] .out 8 (.imm 24)]
    cond := .ne
    tail := [.zeroD 0, .zeroD 1, .zeroD 2, .vldLane 2 0 [0] .inp (.imm 2), .vldLane 2 0 [1] (.t 0) (.imm 2),
    .vldLane 2 0 [2] (.t 1) (.imm 2), .qqd .uaddw 8 8 0, .qqd .uaddw 9 9 1, .qqd .uaddw 10 10 2,
    .vst1 4 [0, 1, 2] .out 8 (.imm 24), .ins 0 .mulSum, .dupW 1 .addSum, .qq .uaddlp 8 8, .qq .uaddlp 9 9,
    .qq .uaddlp 10 10, .ddd .vpadd 16 16 17, .ddd .vpadd 18 18 19, .ddd .vpadd 20 20 21, .ddd .vpadd 16 16 18,
    .ddd .vpadd 17 20 20, .mulLane 8 8 0 0, .qqq .add 8 8 1, .vst1 4 [16, 17] .out 8 (.imm 0)] }

/-- meta/streams_arm_32.h:1155-1217. -/
def row32_3x3 : Prog32 :=
  { init := [.addX (.t 0) .inp .stride, .addX (.t 1) (.t 0) .stride, .zeroQ 8, .zeroQ 9, .zeroQ 10, .subs .count 3]
    skip := true
    body := [.subs .count 8, .vld1 [0] .inp 0 (.imm 8), .vld1 [1] (.t 0) 0 (.imm 8), .vld1 [2] (.t 1) 0 (.imm 8),
    .qqd .uaddw 8 8 0, .qqd .uaddw 9 9 1, .qqd .uaddw 10 10 2, .vst1 4 [0, 1, 2] .out 8 (.imm 24)]
    cond := .ne
    tail := [.zeroD 0, .zeroD 1, .zeroD 2, .vldLane 2 0 [0] .inp (.imm 2), .vldLane 1 2 [0] .inp (.imm 1),
    .vldLane 2 0 [1] (.t 0) (.imm 2), .vldLane 1 2 [1] (.t 0) (.imm 1), .vldLane 2 0 [2] (.t 1) (.imm 2),
    .vldLane 1 2 [2] (.t 1) (.imm 1), .qqd .uaddw 8 8 0, .qqd .uaddw 9 9 1, .qqd .uaddw 10 10 2,
    .vst1 4 [0, 1, 2] .out 8 (.imm 24), .ins 0 .mulSum, .dupW 1 .addSum, .qq .uaddlp 8 8, .qq .uaddlp 9 9,
    .qq .uaddlp 10 10, .ddd .vpadd 16 16 17, .ddd .vpadd 18 18 19, .ddd .vpadd 20 20 21, .ddd .vpadd 16 16 18,
    .ddd .vpadd 17 20 20, .mulLane 8 8 0 0, .qqq .add 8 8 1, .vst1 4 [16, 17] .out 8 (.imm 0)] }

/-- meta/streams_arm_32.h:1231-1290. -/
def row32_3x4 : Prog32 :=
  { init := [.addX (.t 0) .inp .stride, .addX (.t 1) (.t 0) .stride, .zeroQ 8, .zeroQ 9, .zeroQ 10, .subs .count 4]
    skip := true
    body := [.subs .count 8, .vld1 [0] .inp 0 (.imm 8), .vld1 [1] (.t 0) 0 (.imm 8), .vld1 [2] (.t 1) 0 (.imm 8),
    .qqd .uaddw 8 8 0, .qqd .uaddw 9 9 1, .qqd .uaddw 10 10 2, .vst1 4 [0, 1, 2] .out 8 (.imm 24)]
    cond := .ne
    tail := [.zeroD 0, .zeroD 1, .zeroD 2, .vldLane 4 0 [0] .inp (.imm 4), .vldLane 4 0 [1] (.t 0) (.imm 4),
    .vldLane 4 0 [2] (.t 1) (.imm 4), .qqd .uaddw 8 8 0, .qqd .uaddw 9 9 1, .qqd .uaddw 10 10 2,
    .vst1 4 [0, 1, 2] .out 8 (.imm 24), .ins 0 .mulSum, .dupW 1 .addSum, .qq .uaddlp 8 8, .qq .uaddlp 9 9,
    .qq .uaddlp 10 10, .ddd .vpadd 16 16 17, .ddd .vpadd 18 18 19, .ddd .vpadd 20 20 21, .ddd .vpadd 16 16 18,
    .ddd .vpadd 17 20 20, .mulLane 8 8 0 0, .qqq .add 8 8 1, .vst1 4 [16, 17] .out 8 (.imm 0)] }

/-- meta/streams_arm_32.h:1304-1366. -/
def row32_3x5 : Prog32 :=
  { init := [.addX (.t 0) .inp .stride, .addX (.t 1) (.t 0) .stride, .zeroQ 8, .zeroQ 9, .zeroQ 10, .subs .count 5]
    skip := true
    body := [.subs .count 8, .vld1 [0] .inp 0 (.imm 8), .vld1 [1] (.t 0) 0 (.imm 8), .vld1 [2] (.t 1) 0 (.imm 8),
    .qqd .uaddw 8 8 0, .qqd .uaddw 9 9 1, .qqd .uaddw 10 10 2, .vst1 4 [0, 1, 2] .out 8 (.imm 24)]
    cond := .ne
    tail := [.zeroD 0, .zeroD 1, .zeroD 2, .vldLane 4 0 [0] .inp (.imm 4), .vldLane 1 4 [0] .inp (.imm 1),
    .vldLane 4 0 [1] (.t 0) (.imm 4), .vldLane 1 4 [1] (.t 0) (.imm 1), .vldLane 4 0 [2] (.t 1) (.imm 4),
    .vldLane 1 4 [2] (.t 1) (.imm 1), .qqd .uaddw 8 8 0, .qqd .uaddw 9 9 1, .qqd .uaddw 10 10 2,
    .vst1 4 [0, 1, 2] .out 8 (.imm 24), .ins 0 .mulSum, .dupW 1 .addSum, .qq .uaddlp 8 8, .qq .uaddlp 9 9,
    .qq .uaddlp 10 10, .ddd .vpadd 16 16 17, .ddd .vpadd 18 18 19, .ddd .vpadd 20 20 21, .ddd .vpadd 16 16 18,
    .ddd .vpadd 17 20 20, .mulLane 8 8 0 0, .qqq .add 8 8 1, .vst1 4 [16, 17] .out 8 (.imm 0)] }

/-- meta/streams_arm_32.h:1380-1442. -/
def row32_3x6 : Prog32 :=
  { init := [.addX (.t 0) .inp .stride, .addX (.t 1) (.t 0) .stride, .zeroQ 8, .zeroQ 9, .zeroQ 10, .subs .count 6]
    skip := true
    body := [.subs .count 8, .vld1 [0] .inp 0 (.imm 8), .vld1 [1] (.t 0) 0 (.imm 8), .vld1 [2] (.t 1) 0 (.imm 8),
    .qqd .uaddw 8 8 0, .qqd .uaddw 9 9 1, .qqd .uaddw 10 10 2, .vst1 4 [0, 1, 2] .out 8 (.imm 24)]
    cond := .ne
    tail := [.zeroD 0, .zeroD 1, .zeroD 2, .vldLane 4 0 [0] .inp (.imm 4), .vldLane 2 2 [0] .inp (.imm 2),
    .vldLane 4 0 [1] (.t 0) (.imm 4), .vldLane 2 2 [1] (.t 0) (.imm 2), .vldLane 4 0 [2] (.t 1) (.imm 4),
    .vldLane 2 2 [2] (.t 1) (.imm 2), .qqd .uaddw 8 8 0, .qqd .uaddw 9 9 1, .qqd .uaddw 10 10 2,
    .vst1 4 [0, 1, 2] .out 8 (.imm 24), .ins 0 .mulSum, .dupW 1 .addSum, .qq .uaddlp 8 8, .qq .uaddlp 9 9,
    .qq .uaddlp 10 10, .ddd .vpadd 16 16 17, .ddd .vpadd 18 18 19, .ddd .vpadd 20 20 21, .ddd .vpadd 16 16 18,
    .ddd .vpadd 17 20 20, .mulLane 8 8 0 0, .qqq .add 8 8 1, .vst1 4 [16, 17] .out 8 (.imm 0)] }

/-- meta/streams_arm_32.h:1456-1521. -/
def row32_3x7 : Prog32 :=
  { init := [.addX (.t 0) .inp .stride, .addX (.t 1) (.t 0) .stride, .zeroQ 8, .zeroQ 9, .zeroQ 10, .subs .count 7]
    skip := true
    body := [.subs .count 8, .vld1 [0] .inp 0 (.imm 8), .vld1 [1] (.t 0) 0 (.imm 8), .vld1 [2] (.t 1) 0 (.imm 8),
    .qqd .uaddw 8 8 0, .qqd .uaddw 9 9 1, .qqd .uaddw 10 10 2, .vst1 4 [0, 1, 2] .out 8 (.imm 24)]
    cond := .ne
    tail := [.zeroD 0, .zeroD 1, .zeroD 2, .vldLane 4 0 [0] .inp (.imm 4), .vldLane 2 2 [0] .inp (.imm 2),
    .vldLane 1 6 [0] .inp (.imm 1), .vldLane 4 0 [1] (.t 0) (.imm 4), .vldLane 2 2 [1] (.t 0) (.imm 2),
    .vldLane 1 6 [1] (.t 0) (.imm 1), .vldLane 4 0 [2] (.t 1) (.imm 4), .vldLane 2 2 [2] (.t 1) (.imm 2),
    .vldLane 1 6 [2] (.t 1) (.imm 1), .qqd .uaddw 8 8 0, .qqd .uaddw 9 9 1, .qqd .uaddw 10 10 2,
    .vst1 4 [0, 1, 2] .out 8 (.imm 24), .ins 0 .mulSum, .dupW 1 .addSum, .qq .uaddlp 8 8, .qq .uaddlp 9 9,
    .qq .uaddlp 10 10, .ddd .vpadd 16 16 17, .ddd .vpadd 18 18 19, .ddd .vpadd 20 20 21, .ddd .vpadd 16 16 18,
    .ddd .vpadd 17 20 20, .mulLane 8 8 0 0, .qqq .add 8 8 1, .vst1 4 [16, 17] .out 8 (.imm 0)] }

/-- meta/streams_arm_32.h:1535-1582. -/
def row32_4x0 : Prog32 :=
  { init := [.addX (.t 0) .inp .stride, .addX (.t 1) (.t 0) .stride, .addX (.t 2) (.t 1) .stride, .zeroQ 8, .zeroQ 9,
    .zeroQ 10, .zeroQ 11]
    skip := false
    body := [.subs .count 8, .vld1 [0] .inp 0 (.imm 8), .vld1 [1] (.t 0) 0 (.imm 8), .vld1 [2] (.t 1) 0 (.imm 8),
    .vld1 [3] (.t 2) 0 (.imm 8), .qqd .uaddw 8 8 0, .qqd .uaddw 9 9 1, .qqd .uaddw 10 10 2,
    .qqd .uaddw 11 11 3, .vst1 4 [0, 1, 2, 3] .out 32 (.imm 32)]
    cond := .ne
    tail := [.ins 0 .mulSum, .dupW 1 .addSum, .qq .uaddlp 8 8, .qq .uaddlp 9 9, .qq .uaddlp 10 10, .qq .uaddlp 11 11,
    .ddd .vpadd 16 16 17, .ddd .vpadd 18 18 19, .ddd .vpadd 20 20 21, .ddd .vpadd 22 22 23,
    .ddd .vpadd 16 16 18, .ddd .vpadd 17 20 22, .mulLane 8 8 0 0, .qqq .add 8 8 1,
    .vst1 4 [16, 17] .out 16 (.imm 0)] }

/-- meta/streams_arm_32.h:1596-1664. -/
def row32_4x1 : Prog32 :=
  { init := [.addX (.t 0) .inp .stride, .addX (.t 1) (.t 0) .stride, .addX (.t 2) (.t 1) .stride, .zeroQ 8, .zeroQ 9,
    .zeroQ 10, .zeroQ 11, .subs .count 1]
    skip := true
    body := [.subs .count 8, .vld1 [0] .inp 0 (.imm 8), .vld1 [1] (.t 0) 0 (.imm 8), .vld1 [2] (.t 1) 0 (.imm 8),
    .vld1 [3] (.t 2) 0 (.imm 8), .qqd .uaddw 8 8 0, .qqd .uaddw 9 9 1, .qqd .uaddw 10 10 2,
    .qqd .uaddw 11 11 3, .vst1 4 [0, 1, 2, 3] .out 32 (.imm 32)]
    cond := .ne
    tail := [.zeroD 0, .zeroD 1, .zeroD 2, .zeroD 3, .vldLane 1 0 [0] .inp (.imm 1), .vldLane 1 0 [1] (.t 0) (.imm 1),
    .vldLane 1 0 [2] (.t 1) (.imm 1), .vldLane 1 0 [3] (.t 2) (.imm 1), .qqd .uaddw 8 8 0, .qqd .uaddw 9 9 1,
    .qqd .uaddw 10 10 2, .qqd .uaddw 11 11 3, .vst1 4 [0, 1, 2, 3] .out 32 (.imm 32), .ins 0 .mulSum,
    .dupW 1 .addSum, .qq .uaddlp 8 8, .qq .uaddlp 9 9, .qq .uaddlp 10 10, .qq .uaddlp 11 11,
    .ddd .vpadd 16 16 17, .ddd .vpadd 18 18 19, .ddd .vpadd 20 20 21, .ddd .vpadd 22 22 23,
    .ddd .vpadd 16 16 18, .ddd .vpadd 17 20 22, .mulLane 8 8 0 0, .qqq .add 8 8 1,
    .vst1 4 [16, 17] .out 16 (.imm 0)] }

/-- meta/streams_arm_32.h:1678-1746. -/
def row32_4x2 : Prog32 :=
  { init := [.addX (.t 0) .inp .stride, .addX (.t 1) (.t 0) .stride, .addX (.t 2) (.t 1) .stride, .zeroQ 8, .zeroQ 9,
    .zeroQ 10, .zeroQ 11, .subs .count 2]
    skip := true
    body := [.subs .count 8, .vld1 [0] .inp 0 (.imm 8), .vld1 [1] (.t 0) 0 (.imm 8), .vld1 [2] (.t 1) 0 (.imm 8),
    .vld1 [3] (.t 2) 0 (.imm 8), .qqd .uaddw 8 8 0, .qqd .uaddw 9 9 1, .qqd .uaddw 10 10 2,
    .qqd .uaddw 11 11 3, .vst1 4 [0, 1, 2, 3] .out 32 (.imm 32)]
    cond := .ne
    tail := [.zeroD 0, .zeroD 1, .zeroD 2, .zeroD 3, .vldLane 2 0 [0] .inp (.imm 2), .vldLane 2 0 [1] (.t 0) (.imm 2),
    .vldLane 2 0 [2] (.t 1) (.imm 2), .vldLane 2 0 [3] (.t 2) (.imm 2), .qqd .uaddw 8 8 0, .qqd .uaddw 9 9 1,
    .qqd .uaddw 10 10 2, .qqd .uaddw 11 11 3, .vst1 4 [0, 1, 2, 3] .out 32 (.imm 32), .ins 0 .mulSum,
    .dupW 1 .addSum, .qq .uaddlp 8 8, .qq .uaddlp 9 9, .qq .uaddlp 10 10, .qq .uaddlp 11 11,
    .ddd .vpadd 16 16 17, .ddd .vpadd 18 18 19, .ddd .vpadd 20 20 21, .ddd .vpadd 22 22 23,
    .ddd .vpadd 16 16 18, .ddd .vpadd 17 20 22, .mulLane 8 8 0 0, .qqq .add 8 8 1,
    .vst1 4 [16, 17] .out 16 (.imm 0)] }

/-- meta/streams_arm_32.h:1760-1832. -/
def row32_4x3 : Prog32 :=
  { init := [.addX (.t 0) .inp .stride, .addX (.t 1) (.t 0) .stride, .addX (.t 2) (.t 1) .stride, .zeroQ 8, .zeroQ 9,
    .zeroQ 10, .zeroQ 11, .subs .count 3]
    skip := true
    body := [.subs .count 8, .vld1 [0] .inp 0 (.imm 8), .vld1 [1] (.t 0) 0 (.imm 8), .vld1 [2] (.t 1) 0 (.imm 8),
    .vld1 [3] (.t 2) 0 (.imm 8), .qqd .uaddw 8 8 0, .qqd .uaddw 9 9 1, .qqd .uaddw 10 10 2,
    .qqd .uaddw 11 11 3, .vst1 4 [0, 1, 2, 3] .out 32 (.imm 32)]
    cond := .ne
    tail := [.zeroD 0, .zeroD 1, .zeroD 2, .zeroD 3, .vldLane 2 0 [0] .inp (.imm 2), .vldLane 1 2 [0] .inp (.imm 1),
    .vldLane 2 0 [1] (.t 0) (.imm 2), .vldLane 1 2 [1] (.t 0) (.imm 1), .vldLane 2 0 [2] (.t 1) (.imm 2),
    .vldLane 1 2 [2] (.t 1) (.imm 1), .vldLane 2 0 [3] (.t 2) (.imm 2), .vldLane 1 2 [3] (.t 2) (.imm 1),
    .qqd .uaddw 8 8 0, .qqd .uaddw 9 9 1, .qqd .uaddw 10 10 2, .qqd .uaddw 11 11 3,
    .vst1 4 [0, 1, 2, 3] .out 32 (.imm 32), .ins 0 .mulSum, .dupW 1 .addSum, .qq .uaddlp 8 8, .qq .uaddlp 9 9,
    .qq .uaddlp 10 10, .qq .uaddlp 11 11, .ddd .vpadd 16 16 17, .ddd .vpadd 18 18 19, .ddd .vpadd 20 20 21,
    .ddd .vpadd 22 22 23, .ddd .vpadd 16 16 18, .ddd .vpadd 17 20 22, .mulLane 8 8 0 0, .qqq .add 8 8 1,
    .vst1 4 [16, 17] .out 16 (.imm 0)] }

/-- meta/streams_arm_32.h:1846-1914. -/
def row32_4x4 : Prog32 :=
  { init := [.addX (.t 0) .inp .stride, .addX (.t 1) (.t 0) .stride, .addX (.t 2) (.t 1) .stride, .zeroQ 8, .zeroQ 9,
    .zeroQ 10, .zeroQ 11, .subs .count 4]
    skip := true
    body := [.subs .count 8, .vld1 [0] .inp 0 (.imm 8), .vld1 [1] (.t 0) 0 (.imm 8), .vld1 [2] (.t 1) 0 (.imm 8),
    .vld1 [3] (.t 2) 0 (.imm 8), .qqd .uaddw 8 8 0, .qqd .uaddw 9 9 1, .qqd .uaddw 10 10 2,
    .qqd .uaddw 11 11 3, .vst1 4 [0, 1, 2, 3] .out 32 (.imm 32)]
    cond := .ne
    tail := [.zeroD 0, .zeroD 1, .zeroD 2, .zeroD 3, .vldLane 4 0 [0] .inp (.imm 4), .vldLane 4 0 [1] (.t 0) (.imm 4),
    .vldLane 4 0 [2] (.t 1) (.imm 4), .vldLane 4 0 [3] (.t 2) (.imm 4), .qqd .uaddw 8 8 0, .qqd .uaddw 9 9 1,
    .qqd .uaddw 10 10 2, .qqd .uaddw 11 11 3, .vst1 4 [0, 1, 2, 3] .out 32 (.imm 32), .ins 0 .mulSum,
    .dupW 1 .addSum, .qq .uaddlp 8 8, .qq .uaddlp 9 9, .qq .uaddlp 10 10, .qq .uaddlp 11 11,
    .ddd .vpadd 16 16 17, .ddd .vpadd 18 18 19, .ddd .vpadd 20 20 21, .ddd .vpadd 22 22 23,
    .ddd .vpadd 16 16 18, .ddd .vpadd 17 20 22, .mulLane 8 8 0 0, .qqq .add 8 8 1,
    .vst1 4 [16, 17] .out 16 (.imm 0)] }

/-- meta/streams_arm_32.h:1928-2000. -/
def row32_4x5 : Prog32 :=
  { init := [.addX (.t 0) .inp .stride, .addX (.t 1) (.t 0) .stride, .addX (.t 2) (.t 1) .stride, .zeroQ 8, .zeroQ 9,
    .zeroQ 10, .zeroQ 11, .subs .count 5]
    skip := true
    body := [.subs .count 8, .vld1 [0] .inp 0 (.imm 8), .vld1 [1] (.t 0) 0 (.imm 8), .vld1 [2] (.t 1) 0 (.imm 8),
    .vld1 [3] (.t 2) 0 (.imm 8), .qqd .uaddw 8 8 0, .qqd .uaddw 9 9 1, .qqd .uaddw 10 10 2,
    .qqd .uaddw 11 11 3, .vst1 4 [0, 1, 2, 3] .out 32 (.imm 32)]
    cond := .ne
    tail := [.zeroD 0, .zeroD 1, .zeroD 2, .zeroD 3, .vldLane 4 0 [0] .inp (.imm 4), .vldLane 1 4 [0] .inp (.imm 1),
    .vldLane 4 0 [1] (.t 0) (.imm 4), .vldLane 1 4 [1] (.t 0) (.imm 1), .vldLane 4 0 [2] (.t 1) (.imm 4),
    .vldLane 1 4 [2] (.t 1) (.imm 1), .vldLane 4 0 [3] (.t 2) (.imm 4), .vldLane 1 4 [3] (.t 2) (.imm 1),
    .qqd .uaddw 8 8 0, .qqd .uaddw 9 9 1, .qqd .uaddw 10 10 2, .qqd .uaddw 11 11 3,
    .vst1 4 [0, 1, 2, 3] .out 32 (.imm 32), .ins 0 .mulSum, .dupW 1 .addSum, .qq .uaddlp 8 8, .qq .uaddlp 9 9,
    .qq .uaddlp 10 10, .qq .uaddlp 11 11, .ddd .vpadd 16 16 17, .ddd .vpadd 18 18 19, .ddd .vpadd 20 20 21,
    .ddd .vpadd 22 22 23, .ddd .vpadd 16 16 18, .ddd .vpadd 17 20 22, .mulLane 8 8 0 0, .qqq .add 8 8 1,
    .vst1 4 [16, 17] .out 16 (.imm 0)] }

/-- meta/streams_arm_32.h:2014-2086. -/
def row32_4x6 : Prog32 :=
  { init := [.addX (.t 0) .inp .stride, .addX (.t 1) (.t 0) .stride, .addX (.t 2) (.t 1) .stride, .zeroQ 8, .zeroQ 9,
    .zeroQ 10, .zeroQ 11, .subs .count 6]
    skip := true
    body := [.subs .count 8, .vld1 [0] .inp 0 (.imm 8), .vld1 [1] (.t 0) 0 (.imm 8), .vld1 [2] (.t 1) 0 (.imm 8),
    .vld1 [3] (.t 2) 0 (.imm 8), .qqd .uaddw 8 8 0, .qqd .uaddw 9 9 1, .qqd .uaddw 10 10 2,
    .qqd .uaddw 11 11 3, .vst1 4 [0, 1, 2, 3] .out 32 (.imm 32)]
    cond := .ne
    tail := [.zeroD 0, .zeroD 1, .zeroD 2, .zeroD 3, .vldLane 4 0 [0] .inp (.imm 4), .vldLane 2 2 [0] .inp (.imm 2),
    .vldLane 4 0 [1] (.t 0) (.imm 4), .vldLane 2 2 [1] (.t 0) (.imm 2), .vldLane 4 0 [2] (.t 1) (.imm 4),
    .vldLane 2 2 [2] (.t 1) (.imm 2), .vldLane 4 0 [3] (.t 2) (.imm 4), .vldLane 2 2 [3] (.t 2) (.imm 2),
    .qqd .uaddw 8 8 0, .qqd .uaddw 9 9 1, .qqd .uaddw 10 10 2, .qqd .uaddw 11 11 3,
    .vst1 4 [0, 1, 2, 3] .out 32 (.imm 32), .ins 0 .mulSum, .dupW 1 .addSum, .qq .uaddlp 8 8, .qq .uaddlp 9 9,
    .qq .uaddlp 10 10, .qq .uaddlp 11 11, .ddd .vpadd 16 16 17, .ddd .vpadd 18 18 19, .ddd .vpadd 20 20 21,
    .ddd .vpadd 22 22 23, .ddd .vpadd 16 16 18, .ddd .vpadd 17 20 22, .mulLane 8 8 0 0, .qqq .add 8 8 1,
    .vst1 4 [16, 17] .out 16 (.imm 0)] }

/-- meta/streams_arm_32.h:2100-2176. -/
def row32_4x7 : Prog32 :=
  { init := [.addX (.t 0) .inp .stride, .addX (.t 1) (.t 0) .stride, .addX (.t 2) (.t 1) .stride, .zeroQ 8, .zeroQ 9,
    .zeroQ 10, .zeroQ 11, .subs .count 7]
    skip := true
    body := [.subs .count 8, .vld1 [0] .inp 0 (.imm 8), .vld1 [1] (.t 0) 0 (.imm 8), .vld1 [2] (.t 1) 0 (.imm 8),
    .vld1 [3] (.t 2) 0 (.imm 8), .qqd .uaddw 8 8 0, .qqd .uaddw 9 9 1, .qqd .uaddw 10 10 2,
    .qqd .uaddw 11 11 3, .vst1 4 [0, 1, 2, 3] .out 32 (.imm 32)]
    cond := .ne
    tail := [.zeroD 0, .zeroD 1, .zeroD 2, .zeroD 3, .vldLane 4 0 [0] .inp (.imm 4), .vldLane 2 2 [0] .inp (.imm 2),
    .vldLane 1 6 [0] .inp (.imm 1), .vldLane 4 0 [1] (.t 0) (.imm 4), .vldLane 2 2 [1] (.t 0) (.imm 2),
    .vldLane 1 6 [1] (.t 0) (.imm 1), .vldLane 4 0 [2] (.t 1) (.imm 4), .vldLane 2 2 [2] (.t 1) (.imm 2),
    .vldLane 1 6 [2] (.t 1) (.imm 1), .vldLane 4 0 [3] (.t 2) (.imm 4), .vldLane 2 2 [3] (.t 2) (.imm 2),
    .vldLane 1 6 [3] (.t 2) (.imm 1), .qqd .uaddw 8 8 0, .qqd .uaddw 9 9 1, .qqd .uaddw 10 10 2,
    .qqd .uaddw 11 11 3, .vst1 4 [0, 1, 2, 3] .out 32 (.imm 32), .ins 0 .mulSum, .dupW 1 .addSum,
    .qq .uaddlp 8 8, .qq .uaddlp 9 9, .qq .uaddlp 10 10, .qq .uaddlp 11 11, .ddd .vpadd 16 16 17,
    .ddd .vpadd 18 18 19, .ddd .vpadd 20 20 21, .ddd .vpadd 22 22 23, .ddd .vpadd 16 16 18,
    .ddd .vpadd 17 20 22, .mulLane 8 8 0 0, .qqq .add 8 8 1, .vst1 4 [16, 17] .out 16 (.imm 0)] }

/-- meta/streams_arm_32.h:2190-2247. -/
def row32_5x0 : Prog32 :=
  { init := [.addX (.t 0) .inp .stride, .addX (.t 1) (.t 0) .stride, .addX (.t 2) (.t 1) .stride,
    .addX (.t 3) (.t 2) .stride, .zeroQ 8, .zeroQ 9, .zeroQ 10, .zeroQ 11, .zeroQ 12]
    skip := false
    body := [.subs .count 8, .vld1 [0] .inp 0 (.imm 8), .vld1 [1] (.t 0) 0 (.imm 8), .vld1 [2] (.t 1) 0 (.imm 8),
    .vld1 [3] (.t 2) 0 (.imm 8), .vld1 [4] (.t 3) 0 (.imm 8), .qqd .uaddw 8 8 0, .qqd .uaddw 9 9 1,
    .qqd .uaddw 10 10 2, .qqd .uaddw 11 11 3, .qqd .uaddw 12 12 4, .vst1 4 [0, 1, 2, 3] .out 8 (.imm 32),
    .vst1 4 [4] .out 8 (.imm 8)]
    cond := .ne
    tail := [.ins 0 .mulSum, .dupW 1 .addSum, .qq .uaddlp 8 8, .qq .uaddlp 9 9, .qq .uaddlp 10 10, .qq .uaddlp 11 11,
    .qq .uaddlp 12 12, .ddd .vpadd 16 16 17, .ddd .vpadd 18 18 19, .ddd .vpadd 20 20 21, .ddd .vpadd 22 22 23,
    .ddd .vpadd 24 24 25, .ddd .vpadd 16 16 18, .ddd .vpadd 17 20 22, .ddd .vpadd 18 24 24, .mulLane 8 8 0 0,
    .mulLane 9 9 0 0, .qqq .add 8 8 1, .qqq .add 9 9 1, .vst1 4 [16, 17, 18, 19] .out 8 (.imm 0)] }

/-- meta/streams_arm_32.h:2261-2343. -/
def row32_5x1 : Prog32 :=
  { init := [.addX (.t 0) .inp .stride, .addX (.t 1) (.t 0) .stride, .addX (.t 2) (.t 1) .stride,
    .addX (.t 3) (.t 2) .stride, .zeroQ 8, .zeroQ 9, .zeroQ 10, .zeroQ 11, .zeroQ 12, .subs .count 1]
    skip := true
    body := [.subs .count 8, .vld1 [0] .inp 0 (.imm 8), .vld1 [1] (.t 0) 0 (.imm 8), .vld1 [2] (.t 1) 0 (.imm 8),
    .vld1 [3] (.t 2) 0 (.imm 8), .vld1 [4] (.t 3) 0 (.imm 8), .qqd .uaddw 8 8 0, .qqd .uaddw 9 9 1,
    .qqd .uaddw 10 10 2, .qqd .uaddw 11 11 3, .qqd .uaddw 12 12 4, .vst1 4 [0, 1, 2, 3] .out 8 (.imm 32),
    .vst1 4 [4] .out 8 (.imm 8)]
    cond := .ne
    tail := [.zeroD 0, .zeroD 1, .zeroD 2, .zeroD 3, .zeroD 4, .vldLane 1 0 [0] .inp (.imm 1),
    .vldLane 1 0 [1] (.t 0) (.imm 1), .vldLane 1 0 [2] (.t 1) (.imm 1), .vldLane 1 0 [3] (.t 2) (.imm 1),
    .vldLane 1 0 [4] (.t 3) (.imm 1), .qqd .uaddw 8 8 0, .qqd .uaddw 9 9 1, .qqd .uaddw 10 10 2,
    .qqd .uaddw 11 11 3, .qqd .uaddw 12 12 4, .vst1 4 [0, 1, 2, 3] .out 8 (.imm 32),
    .vst1 4 [4] .out 8 (.imm 8), .ins 0 .mulSum, .dupW 1 .addSum, .qq .uaddlp 8 8, .qq .uaddlp 9 9,
    .qq .uaddlp 10 10, .qq .uaddlp 11 11, .qq .uaddlp 12 12, .ddd .vpadd 16 16 17, .ddd .vpadd 18 18 19,
    .ddd .vpadd 20 20 21, .ddd .vpadd 22 22 23, .ddd .vpadd 24 24 25, .ddd .vpadd 16 16 18,
    .ddd .vpadd 17 20 22, .ddd .vpadd 18 24 24, .mulLane 8 8 0 0, .mulLane 9 9 0 0, .qqq .add 8 8 1,
    .qqq .add 9 9 1, .vst1 4 [16, 17, 18, 19] .out 8 (.imm 0)] }

/-- meta/streams_arm_32.h:2357-2439. -/
def row32_5x2 : Prog32 :=
  { init := [.addX (.t 0) .inp .stride, .addX (.t 1) (.t 0) .stride, .addX (.t 2) (.t 1) .stride,
    .addX (.t 3) (.t 2) .stride, .zeroQ 8, .zeroQ 9, .zeroQ 10, .zeroQ 11, .zeroQ 12, .subs .count 2]
    skip := true
    body := [.subs .count 8, .vld1 [0] .inp 0 (.imm 8), .vld1 [1] (.t 0) 0 (.imm 8), .vld1 [2] (.t 1) 0 (.imm 8),
    .vld1 [3] (.t 2) 0 (.imm 8), .vld1 [4] (.t 3) 0 (.imm 8), .qqd .uaddw 8 8 0, .qqd .uaddw 9 9 1,
    .qqd .uaddw 10 10 2, .qqd .uaddw 11 11 3, .qqd .uaddw 12 12 4, .vst1 4 [0, 1, 2, 3] .out 8 (.imm 32),
    .vst1 4 [4] .out 8 (.imm 8)]
    cond := .ne
    tail := [.zeroD 0, .zeroD 1, .zeroD 2, .zeroD 3, .zeroD 4, .vldLane 2 0 [0] .inp (.imm 2),
    .vldLane 2 0 [1] (.t 0) (.imm 2), .vldLane 2 0 [2] (.t 1) (.imm 2), .vldLane 2 0 [3] (.t 2) (.imm 2),
    .vldLane 2 0 [4] (.t 3) (.imm 2), .qqd .uaddw 8 8 0, .qqd .uaddw 9 9 1, .qqd .uaddw 10 10 2,
    .qqd .uaddw 11 11 3, .qqd .uaddw 12 12 4, .vst1 4 [0, 1, 2, 3] .out 8 (.imm 32),
    .vst1 4 [4] .out 8 (.imm 8), .ins 0 .mulSum, .dupW 1 .addSum, .qq .uaddlp 8 8, .qq .uaddlp 9 9,
    .qq .uaddlp 10 10, .qq .uaddlp 11 11, .qq .uaddlp 12 12, .ddd .vpadd 16 16 17, .ddd .vpadd 18 18 19,
    .ddd .vpadd 20 20 21, .ddd .vpadd 22 22 23, .ddd .vpadd 24 24 25, .ddd .vpadd 16 16 18,
    .ddd .vpadd 17 20 22, .ddd .vpadd 18 24 24, .mulLane 8 8 0 0, .mulLane 9 9 0 0, .qqq .add 8 8 1,
    .qqq .add 9 9 1, .vst1 4 [16, 17, 18, 19] .out 8 (.imm 0)] }

/-- meta/streams_arm_32.h:2453-2540. -/
def row32_5x3 : Prog32 :=
  { init := [.addX (.t 0) .inp .stride, .addX (.t 1) (.t 0) .stride, .addX (.t 2) (.t 1) .stride,
    .addX (.t 3) (.t 2) .stride, .zeroQ 8, .zeroQ 9, .zeroQ 10, .zeroQ 11, .zeroQ 12, .subs .count 3]
    skip := true
    body := [.subs .count 8, .vld1 [0] .inp 0 (.imm 8), .vld1 [1] (.t 0) 0 (.imm 8), .vld1 [2] (.t 1) 0 (.imm 8),
    .vld1 [3] (.t 2) 0 (.imm 8), .vld1 [4] (.t 3) 0 (.imm 8), .qqd .uaddw 8 8 0, .qqd .uaddw 9 9 1,
    .qqd .uaddw 10 10 2, .qqd .uaddw 11 11 3, .qqd .uaddw 12 12 4, .vst1 4 [0, 1, 2, 3] .out 8 (.imm 32),
    .vst1 4 [4] .out 8 (.imm 8)]
    cond := .ne
    tail := [.zeroD 0, .zeroD 1, .zeroD 2, .zeroD 3, .zeroD 4, .vldLane 2 0 [0] .inp (.imm 2),
    .vldLane 1 2 [0] .inp (.imm 1), .vldLane 2 0 [1] (.t 0) (.imm 2), .vldLane 1 2 [1] (.t 0) (.imm 1),
    .vldLane 2 0 [2] (.t 1) (.imm 2), .vldLane 1 2 [2] (.t 1) (.imm 1), .vldLane 2 0 [3] (.t 2) (.imm 2),
    .vldLane 1 2 [3] (.t 2) (.imm 1), .vldLane 2 0 [4] (.t 3) (.imm 2), .vldLane 1 2 [4] (.t 3) (.imm 1),
    .qqd .uaddw 8 8 0, .qqd .uaddw 9 9 1, .qqd .uaddw 10 10 2, .qqd .uaddw 11 11 3, .qqd .uaddw 12 12 4,
    .vst1 4 [0, 1, 2, 3] .out 8 (.imm 32), .vst1 4 [4] .out 8 (.imm 8), .ins 0 .mulSum, .dupW 1 .addSum,
    .qq .uaddlp 8 8, .qq .uaddlp 9 9, .qq .uaddlp 10 10, .qq .uaddlp 11 11, .qq .uaddlp 12 12,
    .ddd .vpadd 16 16 17, .ddd .vpadd 18 18 19, .ddd .vpadd 20 20 21, .ddd .vpadd 22 22 23,
    .ddd .vpadd 24 24 25, .ddd .vpadd 16 16 18, .ddd .vpadd 17 20 22, .ddd .vpadd 18 24 24, .mulLane 8 8 0 0,
    .mulLane 9 9 0 0, .qqq .add 8 8 1, .qqq .add 9 9 1, .vst1 4 [16, 17, 18, 19] .out 8 (.imm 0)] }

/-- meta/streams_arm_32.h:2554-2636. -/
def row32_5x4 : Prog32 :=
  { init := [.addX (.t 0) .inp .stride, .addX (.t 1) (.t 0) .stride, .addX (.t 2) (.t 1) .stride,
    .addX (.t 3) (.t 2) .stride, .zeroQ 8, .zeroQ 9, .zeroQ 10, .zeroQ 11, .zeroQ 12, .subs .count 4]
    skip := true
    body := [.subs .count 8, .vld1 [0] .inp 0 (.imm 8), .vld1 [1] (.t 0) 0 (.imm 8), .vld1 [2] (.t 1) 0 (.imm 8),
    .vld1 [3] (.t 2) 0 (.imm 8), .vld1 [4] (.t 3) 0 (.imm 8), .qqd .uaddw 8 8 0, .qqd .uaddw 9 9 1,
    .qqd .uaddw 10 10 2, .qqd .uaddw 11 11 3, .qqd .uaddw 12 12 4, .vst1 4 [0, 1, 2, 3] .out 8 (.imm 32),
    .vst1 4 [4] .out 8 (.imm 8)]
    cond := .ne
    tail := [.zeroD 0, .zeroD 1, .zeroD 2, .zeroD 3, .zeroD 4, .vldLane 4 0 [0] .inp (.imm 4),
    .vldLane 4 0 [1] (.t 0) (.imm 4), .vldLane 4 0 [2] (.t 1) (.imm 4), .vldLane 4 0 [3] (.t 2) (.imm 4),
    .vldLane 4 0 [4] (.t 3) (.imm 4), .qqd .uaddw 8 8 0, .qqd .uaddw 9 9 1, .qqd .uaddw 10 10 2,
    .qqd .uaddw 11 11 3, .qqd .uaddw 12 12 4, .vst1 4 [0, 1, 2, 3] .out 8 (.imm 32),
    .vst1 4 [4] .out 8 (.imm 8), .ins 0 .mulSum, .dupW 1 .addSum, .qq .uaddlp 8 8, .qq .uaddlp 9 9,
    .qq .uaddlp 10 10, .qq .uaddlp 11 11, .qq .uaddlp 12 12, .ddd .vpadd 16 16 17, .ddd .vpadd 18 18 19,
    .ddd .vpadd 20 20 21, .ddd .vpadd 22 22 23, .ddd .vpadd 24 24 25, .ddd .vpadd 16 16 18,
    .ddd .vpadd 17 20 22, .ddd .vpadd 18 24 24, .mulLane 8 8 0 0, .mulLane 9 9 0 0, .qqq .add 8 8 1,
    .qqq .add 9 9 1, .vst1 4 [16, 17, 18, 19] .out 8 (.imm 0)] }

/-- meta/streams_arm_32.h:2650-2737. -/
def row32_5x5 : Prog32 :=
  { init := [.addX (.t 0) .inp .stride, .addX (.t 1) (.t 0) .stride, .addX (.t 2) (.t 1) .stride,
    .addX (.t 3) (.t 2) .stride, .zeroQ 8, .zeroQ 9, .zeroQ 10, .zeroQ 11, .zeroQ 12, .subs .count 5]
    skip := true
    body := [.subs .count 8, .vld1 [0] .inp 0 (.imm 8), .vld1 [1] (.t 0) 0 (.imm 8), .vld1 [2] (.t 1) 0 (.imm 8),
    .vld1 [3] (.t 2) 0 (.imm 8), .vld1 [4] (.t 3) 0 (.imm 8), .qqd .uaddw 8 8 0, .qqd .uaddw 9 9 1,
    .qqd .uaddw 10 10 2, .qqd .uaddw 11 11 3, .qqd .uaddw 12 12 4, .vst1 4 [0, 1, 2, 3] .out 8 (.imm 32),
    .vst1 4 [4] .out 8 (.imm 8)]
    cond := .ne
    tail := [.zeroD 0, .zeroD 1, .zeroD 2, .zeroD 3, .zeroD 4, .vldLane 4 0 [0] .inp (.imm 4),
    .vldLane 1 4 [0] .inp (.imm 1), .vldLane 4 0 [1] (.t 0) (.imm 4), .vldLane 1 4 [1] (.t 0) (.imm 1),
    .vldLane 4 0 [2] (.t 1) (.imm 4), .vldLane 1 4 [2] (.t 1) (.imm 1), .vldLane 4 0 [3] (.t 2) (.imm 4),
    .vldLane 1 4 [3] (.t 2) (.imm 1), .vldLane 4 0 [4] (.t 3) (.imm 4), .vldLane 1 4 [4] (.t 3) (.imm 1),
    .qqd .uaddw 8 8 0, .qqd .uaddw 9 9 1, .qqd .uaddw 10 10 2, .qqd .uaddw 11 11 3, .qqd .uaddw 12 12 4,
    .vst1 4 [0, 1, 2, 3] .out 8 (.imm 32), .vst1 4 [4] .out 8 (.imm 8), .ins 0 .mulSum, .dupW 1 .addSum,
    .qq .uaddlp 8 8, .qq .uaddlp 9 9, .qq .uaddlp 10 10, .qq .uaddlp 11 11, .qq .uaddlp 12 12,
    .ddd .vpadd 16 16 17, .ddd .vpadd 18 18 19, .ddd .vpadd 20 20 21, .ddd .vpadd 22 22 23,
    .ddd .vpadd 24 24 25, .ddd .vpadd 16 16 18, .ddd .vpadd 17 20 22, .ddd .vpadd 18 24 24, .mulLane 8 8 0 0,
    .mulLane 9 9 0 0, .qqq .add 8 8 1, .qqq .add 9 9 1, .vst1 4 [16, 17, 18, 19] .out 8 (.imm 0)] }

/-- meta/streams_arm_32.h:2751-2838. -/
def row32_5x6 : Prog32 :=
  { init := [.addX (.t 0) .inp .stride, .addX (.t 1) (.t 0) .stride, .addX (.t 2) (.t 1) .stride,
    .addX (.t 3) (.t 2) .stride, .zeroQ 8, .zeroQ 9, .zeroQ 10, .zeroQ 11, .zeroQ 12, .subs .count 6]
    skip := true
    body := [.subs .count 8, .vld1 [0] .inp 0 (.imm 8), .vld1 [1] (.t 0) 0 (.imm 8), .vld1 [2] (.t 1) 0 (.imm 8),
    .vld1 [3] (.t 2) 0 (.imm 8), .vld1 [4] (.t 3) 0 (.imm 8), .qqd .uaddw 8 8 0, .qqd .uaddw 9 9 1,
    .qqd .uaddw 10 10 2, .qqd .uaddw 11 11 3, .qqd .uaddw 12 12 4, .vst1 4 [0, 1, 2, 3] .out 8 (.imm 32),
    .vst1 4 [4] .out 8 (.imm 8)]
    cond := .ne
    tail := [.zeroD 0, .zeroD 1, .zeroD 2, .zeroD 3, .zeroD 4, .vldLane 4 0 [0] .inp (.imm 4),
    .vldLane 2 2 [0] .inp (.imm 2), .vldLane 4 0 [1] (.t 0) (.imm 4), .vldLane 2 2 [1] (.t 0) (.imm 2),
    .vldLane 4 0 [2] (.t 1) (.imm 4), .vldLane 2 2 [2] (.t 1) (.imm 2), .vldLane 4 0 [3] (.t 2) (.imm 4),
    .vldLane 2 2 [3] (.t 2) (.imm 2), .vldLane 4 0 [4] (.t 3) (.imm 4), .vldLane 2 2 [4] (.t 3) (.imm 2),
    .qqd .uaddw 8 8 0, .qqd .uaddw 9 9 1, .qqd .uaddw 10 10 2, .qqd .uaddw 11 11 3, .qqd .uaddw 12 12 4,
    .vst1 4 [0, 1, 2, 3] .out 8 (.imm 32), .vst1 4 [4] .out 8 (.imm 8), .ins 0 .mulSum, .dupW 1 .addSum,
    .qq .uaddlp 8 8, .qq .uaddlp 9 9, .qq .uaddlp 10 10, .qq .uaddlp 11 11, .qq .uaddlp 12 12,
    .ddd .vpadd 16 16 17, .ddd .vpadd 18 18 19, .ddd .vpadd 20 20 21, .ddd .vpadd 22 22 23,
    .ddd .vpadd 24 24 25, .ddd .vpadd 16 16 18, .ddd .vpadd 17 20 22, .ddd .vpadd 18 24 24, .mulLane 8 8 0 0,
    .mulLane 9 9 0 0, .qqq .add 8 8 1, .qqq .add 9 9 1, .vst1 4 [16, 17, 18, 19] .out 8 (.imm 0)] }

/-- meta/streams_arm_32.h:2852-2944. -/
def row32_5x7 : Prog32 :=
  { init := [.addX (.t 0) .inp .stride, .addX (.t 1) (.t 0) .stride, .addX (.t 2) (.t 1) .stride,
    .addX (.t 3) (.t 2) .stride, .zeroQ 8, .zeroQ 9, .zeroQ 10, .zeroQ 11, .zeroQ 12, .subs .count 7]
    skip := true
    body := [.subs .count 8, .vld1 [0] .inp 0 (.imm 8), .vld1 [1] (.t 0) 0 (.imm 8), .vld1 [2] (.t 1) 0 (.imm 8),
    .vld1 [3] (.t 2) 0 (.imm 8), .vld1 [4] (.t 3) 0 (.imm 8), .qqd .uaddw 8 8 0, .qqd .uaddw 9 9 1,
    .qqd .uaddw 10 10 2, .qqd .uaddw 11 11 3, .qqd .uaddw 12 12 4, .vst1 4 [0, 1, 2, 3] .out 8 (.imm 32),
    .vst1 4 [4] .out 8 (.imm 8)]
    cond := .ne
    tail := [.zeroD 0, .zeroD 1, .zeroD 2, .zeroD 3, .zeroD 4, .vldLane 4 0 [0] .inp (.imm 4),
    .vldLane 2 2 [0] .inp (.imm 2), .vldLane 1 6 [0] .inp (.imm 1), .vldLane 4 0 [1] (.t 0) (.imm 4),
    .vldLane 2 2 [1] (.t 0) (.imm 2), .vldLane 1 6 [1] (.t 0) (.imm 1), .vldLane 4 0 [2] (.t 1) (.imm 4),
    .vldLane 2 2 [2] (.t 1) (.imm 2), .vldLane 1 6 [2] (.t 1) (.imm 1), .vldLane 4 0 [3] (.t 2) (.imm 4),
    .vldLane 2 2 [3] (.t 2) (.imm 2), .vldLane 1 6 [3] (.t 2) (.imm 1), .vldLane 4 0 [4] (.t 3) (.imm 4),
    .vldLane 2 2 [4] (.t 3) (.imm 2), .vldLane 1 6 [4] (.t 3) (.imm 1), .qqd .uaddw 8 8 0, .qqd .uaddw 9 9 1,
    .qqd .uaddw 10 10 2, .qqd .uaddw 11 11 3, .qqd .uaddw 12 12 4, .vst1 4 [0, 1, 2, 3] .out 8 (.imm 32),
    .vst1 4 [4] .out 8 (.imm 8), .ins 0 .mulSum, .dupW 1 .addSum, .qq .uaddlp 8 8, .qq .uaddlp 9 9,
    .qq .uaddlp 10 10, .qq .uaddlp 11 11, .qq .uaddlp 12 12, .ddd .vpadd 16 16 17, .ddd .vpadd 18 18 19,
    .ddd .vpadd 20 20 21, .ddd .vpadd 22 22 23, .ddd .vpadd 24 24 25, .ddd .vpadd 16 16 18,
    .ddd .vpadd 17 20 22, .ddd .vpadd 18 24 24, .mulLane 8 8 0 0, .mulLane 9 9 0 0, .qqq .add 8 8 1,
    .qqq .add 9 9 1, .vst1 4 [16, 17, 18, 19] .out 8 (.imm 0)] }

/-- meta/streams_arm_32.h:2958-3022. -/
def row32_6x0 : Prog32 :=
  { init := [.addX (.t 0) .inp .stride, .addX (.t 1) (.t 0) .stride, .addX (.t 2) (.t 1) .stride,
    .addX (.t 3) (.t 2) .stride, .addX (.t 4) (.t 3) .stride, .zeroQ 8, .zeroQ 9, .zeroQ 10, .zeroQ 11,
    .zeroQ 12, .zeroQ 13]
    skip := false
    body := [.subs .count 8, .vld1 [0] .inp 0 (.imm 8), .vld1 [1] (.t 0) 0 (.imm 8), .vld1 [2] (.t 1) 0 (.imm 8),
    .vld1 [3] (.t 2) 0 (.imm 8), .vld1 [4] (.t 3) 0 (.imm 8), .vld1 [5] (.t 4) 0 (.imm 8), .qqd .uaddw 8 8 0,
    .qqd .uaddw 9 9 1, .qqd .uaddw 10 10 2, .qqd .uaddw 11 11 3, .qqd .uaddw 12 12 4, .qqd .uaddw 13 13 5,
    .vst1 4 [0, 1, 2, 3] .out 16 (.imm 32), .vst1 4 [4, 5] .out 16 (.imm 16)]
    cond := .ne
    tail := [.ins 0 .mulSum, .dupW 1 .addSum, .qq .uaddlp 8 8, .qq .uaddlp 9 9, .qq .uaddlp 10 10, .qq .uaddlp 11 11,
    .qq .uaddlp 12 12, .qq .uaddlp 13 13, .ddd .vpadd 16 16 17, .ddd .vpadd 18 18 19, .ddd .vpadd 20 20 21,
    .ddd .vpadd 22 22 23, .ddd .vpadd 24 24 25, .ddd .vpadd 26 26 27, .ddd .vpadd 16 16 18,
    .ddd .vpadd 17 20 22, .ddd .vpadd 18 24 26, .mulLane 8 8 0 0, .mulLane 9 9 0 0, .qqq .add 8 8 1,
    .qqq .add 9 9 1, .vst1 4 [16, 17, 18, 19] .out 16 (.imm 0)] }

/-- meta/streams_arm_32.h:3036-3128. -/
def row32_6x1 : Prog32 :=
  { init := [.addX (.t 0) .inp .stride, .addX (.t 1) (.t 0) .stride, .addX (.t 2) (.t 1) .stride,
    .addX (.t 3) (.t 2) .stride, .addX (.t 4) (.t 3) .stride, .zeroQ 8, .zeroQ 9, .zeroQ 10, .zeroQ 11,
    .zeroQ 12, .zeroQ 13, .subs .count 1]
    skip := true
    body := [.subs .count 8, .vld1 [0] .inp 0 (.imm 8), .vld1 [1] (.t 0) 0 (.imm 8), .vld1 [2] (.t 1) 0 (.imm 8),
    .vld1 [3] (.t 2) 0 (.imm 8), .vld1 [4] (.t 3) 0 (.imm 8), .vld1 [5] (.t 4) 0 (.imm 8), .qqd .uaddw 8 8 0,
    .qqd .uaddw 9 9 1, .qqd .uaddw 10 10 2, .qqd .uaddw 11 11 3, .qqd .uaddw 12 12 4, .qqd .uaddw 13 13 5,
    .vst1 4 [0, 1, 2, 3] .out 16 (.imm 32), .vst1 4 [4, 5] .out 16 (.imm 16)]
    cond := .ne
    tail := [.zeroD 0, .zeroD 1, .zeroD 2, .zeroD 3, .zeroD 4, .zeroD 5, .vldLane 1 0 [0] .inp (.imm 1),
    .vldLane 1 0 [1] (.t 0) (.imm 1), .vldLane 1 0 [2] (.t 1) (.imm 1), .vldLane 1 0 [3] (.t 2) (.imm 1),
    .vldLane 1 0 [4] (.t 3) (.imm 1), .vldLane 1 0 [5] (.t 4) (.imm 1), .qqd .uaddw 8 8 0, .qqd .uaddw 9 9 1,
    .qqd .uaddw 10 10 2, .qqd .uaddw 11 11 3, .qqd .uaddw 12 12 4, .qqd .uaddw 13 13 5,
    .vst1 4 [0, 1, 2, 3] .out 16 (.imm 32), .vst1 4 [4, 5] .out 16 (.imm 16), .ins 0 .mulSum, .dupW 1 .addSum,
    .qq .uaddlp 8 8, .qq .uaddlp 9 9, .qq .uaddlp 10 10, .qq .uaddlp 11 11, .qq .uaddlp 12 12,
    .qq .uaddlp 13 13, .ddd .vpadd 16 16 17, .ddd .vpadd 18 18 19, .ddd .vpadd 20 20 21, .ddd .vpadd 22 22 23,
    .ddd .vpadd 24 24 25, .ddd .vpadd 26 26 27, .ddd .vpadd 16 16 18, .ddd .vpadd 17 20 22,
    .ddd .vpadd 18 24 26, .mulLane 8 8 0 0, .mulLane 9 9 0 0, .qqq .add 8 8 1, .qqq .add 9 9 1,
    .vst1 4 [16, 17, 18, 19] .out 16 (.imm 0)] }

/-- meta/streams_arm_32.h:3142-3234. -/
def row32_6x2 : Prog32 :=
  { init := [.addX (.t 0) .inp .stride, .addX (.t 1) (.t 0) .stride, .addX (.t 2) (.t 1) .stride,
    .addX (.t 3) (.t 2) .stride, .addX (.t 4) (.t 3) .stride, .zeroQ 8, .zeroQ 9, .zeroQ 10, .zeroQ 11,
    .zeroQ 12, .zeroQ 13, .subs .count 2]
    skip := true
    body := [.subs .count 8, .vld1 [0] .inp 0 (.imm 8), .vld1 [1] (.t 0) 0 (.imm 8), .vld1 [2] (.t 1) 0 (.imm 8),
    .vld1 [3] (.t 2) 0 (.imm 8), .vld1 [4] (.t 3) 0 (.imm 8), .vld1 [5] (.t 4) 0 (.imm 8), .qqd .uaddw 8 8 0,
    .qqd .uaddw 9 9 1, .qqd .uaddw 10 10 2, .qqd .uaddw 11 11 3, .qqd .uaddw 12 12 4, .qqd .uaddw 13 13 5,
    .vst1 4 [0, 1, 2, 3] .out 16 (.imm 32), .vst1 4 [4, 5] .out 16 (.imm 16)]
    cond := .ne
    tail := [.zeroD 0, .zeroD 1, .zeroD 2, .zeroD 3, .zeroD 4, .zeroD 5, .vldLane 2 0 [0] .inp (.imm 2),
    .vldLane 2 0 [1] (.t 0) (.imm 2), .vldLane 2 0 [2] (.t 1) (.imm 2), .vldLane 2 0 [3] (.t 2) (.imm 2),
    .vldLane 2 0 [4] (.t 3) (.imm 2), .vldLane 2 0 [5] (.t 4) (.imm 2), .qqd .uaddw 8 8 0, .qqd .uaddw 9 9 1,
    .qqd .uaddw 10 10 2, .qqd .uaddw 11 11 3, .qqd .uaddw 12 12 4, .qqd .uaddw 13 13 5,
    .vst1 4 [0, 1, 2, 3] .out 16 (.imm 32), .vst1 4 [4, 5] .out 16 (.imm 16), .ins 0 .mulSum, .dupW 1 .addSum,
    .qq .uaddlp 8 8, .qq .uaddlp 9 9, .qq .uaddlp 10 10, .qq .uaddlp 11 11, .qq .uaddlp 12 12,
    .qq .uaddlp 13 13, .ddd .vpadd 16 16 17, .ddd .vpadd 18 18 19, .ddd .vpadd 20 20 21, .ddd .vpadd 22 22 23,
    .ddd .vpadd 24 24 25, .ddd .vpadd 26 26 27, .ddd .vpadd 16 16 18, .ddd .vpadd 17 20 22,
    .ddd .vpadd 18 24 26, .mulLane 8 8 0 0, .mulLane 9 9 0 0, .qqq .add 8 8 1, .qqq .add 9 9 1,
    .vst1 4 [16, 17, 18, 19] .out 16 (.imm 0)] }

/-- meta/streams_arm_32.h:3248-3346. -/
def row32_6x3 : Prog32 :=
  { init := [.addX (.t 0) .inp .stride, .addX (.t 1) (.t 0) .stride, .addX (.t 2) (.t 1) .stride,
    .addX (.t 3) (.t 2) .stride, .addX (.t 4) (.t 3) .stride, .zeroQ 8, .zeroQ 9, .zeroQ 10, .zeroQ 11,
    .zeroQ 12, .zeroQ 13, .subs .count 3]
    skip := true
    body := [.subs .count 8, .vld1 [0] .inp 0 (.imm 8), .vld1 [1] (.t 0) 0 (.imm 8), .vld1 [2] (.t 1) 0 (.imm 8),
    .vld1 [3] (.t 2) 0 (.imm 8), .vld1 [4] (.t 3) 0 (.imm 8), .vld1 [5] (.t 4) 0 (.imm 8), .qqd .uaddw 8 8 0,
    .qqd .uaddw 9 9 1, .qqd .uaddw 10 10 2, .qqd .uaddw 11 11 3, .qqd .uaddw 12 12 4, .qqd .uaddw 13 13 5,
    .vst1 4 [0, 1, 2, 3] .out 16 (.imm 32), .vst1 4 [4, 5] .out 16 (.imm 16)]
    cond := .ne
    tail := [.zeroD 0, .zeroD 1, .zeroD 2, .zeroD 3, .zeroD 4, .zeroD 5, .vldLane 2 0 [0] .inp (.imm 2),
    .vldLane 1 2 [0] .inp (.imm 1), .vldLane 2 0 [1] (.t 0) (.imm 2), .vldLane 1 2 [1] (.t 0) (.imm 1),
    .vldLane 2 0 [2] (.t 1) (.imm 2), .vldLane 1 2 [2] (.t 1) (.imm 1), .vldLane 2 0 [3] (.t 2) (.imm 2),
    .vldLane 1 2 [3] (.t 2) (.imm 1), .vldLane 2 0 [4] (.t 3) (.imm 2), .vldLane 1 2 [4] (.t 3) (.imm 1),
    .vldLane 2 0 [5] (.t 4) (.imm 2), .vldLane 1 2 [5] (.t 4) (.imm 1), .qqd .uaddw 8 8 0, .qqd .uaddw 9 9 1,
    .qqd .uaddw 10 10 2, .qqd .uaddw 11 11 3, .qqd .uaddw 12 12 4, .qqd .uaddw 13 13 5,
    .vst1 4 [0, 1, 2, 3] .out 16 (.imm 32), .vst1 4 [4, 5] .out 16 (.imm 16), .ins 0 .mulSum, .dupW 1 .addSum,
    .qq .uaddlp 8 8, .qq .uaddlp 9 9, .qq .uaddlp 10 10, .qq .uaddlp 11 11, .qq .uaddlp 12 12,
    .qq .uaddlp 13 13, .ddd .vpadd 16 16 17, .ddd .vpadd 18 18 19, .ddd .vpadd 20 20 21, .ddd .vpadd 22 22 23,
    .ddd .vpadd 24 24 25, .ddd .vpadd 26 26 27, .ddd .vpadd 16 16 18, .ddd .vpadd 17 20 22,
    .ddd .vpadd 18 24 26, .mulLane 8 8 0 0, .mulLane 9 9 0 0, .qqq .add 8 8 1, .qqq .add 9 9 1,
    .vst1 4 [16, 17, 18, 19] .out 16 (.imm 0)] }

/-- meta/streams_arm_32.h:3360-3452. -/
def row32_6x4 : Prog32 :=
  { init := [.addX (.t 0) .inp .stride, .addX (.t 1) (.t 0) .stride, .addX (.t 2) (.t 1) .stride,
    .addX (.t 3) (.t 2) .stride, .addX (.t 4) (.t 3) .stride, .zeroQ 8, .zeroQ 9, .zeroQ 10, .zeroQ 11,
    .zeroQ 12, .zeroQ 13, .subs .count 4]
    skip := true
    body := [.subs .count 8, .vld1 [0] .inp 0 (.imm 8), .vld1 [1] (.t 0) 0 (.imm 8), .vld1 [2] (.t 1) 0 (.imm 8),
    .vld1 [3] (.t 2) 0 (.imm 8), .vld1 [4] (.t 3) 0 (.imm 8), .vld1 [5] (.t 4) 0 (.imm 8), .qqd .uaddw 8 8 0,
    .qqd .uaddw 9 9 1, .qqd .uaddw 10 10 2, .qqd .uaddw 11 11 3, .qqd .uaddw 12 12 4, .qqd .uaddw 13 13 5,
    .vst1 4 [0, 1, 2, 3] .out 16 (.imm 32), .vst1 4 [4, 5] .out 16 (.imm 16)]
    cond := .ne
    tail := [.zeroD 0, .zeroD 1, .zeroD 2, .zeroD 3, .zeroD 4, .zeroD 5, .vldLane 4 0 [0] .inp (.imm 4),
    .vldLane 4 0 [1] (.t 0) (.imm 4), .vldLane 4 0 [2] (.t 1) (.imm 4), .vldLane 4 0 [3] (.t 2) (.imm 4),
    .vldLane 4 0 [4] (.t 3) (.imm 4), .vldLane 4 0 [5] (.t 4) (.imm 4), .qqd .uaddw 8 8 0, .qqd .uaddw 9 9 1,
    .qqd .uaddw 10 10 2, .qqd .uaddw 11 11 3, .qqd .uaddw 12 12 4, .qqd .uaddw 13 13 5,
    .vst1 4 [0, 1, 2, 3] .out 16 (.imm 32), .vst1 4 [4, 5] .out 16 (.imm 16), .ins 0 .mulSum, .dupW 1 .addSum,
    .qq .uaddlp 8 8, .qq .uaddlp 9 9, .qq .uaddlp 10 10, .qq .uaddlp 11 11, .qq .uaddlp 12 12,
    .qq .uaddlp 13 13, .ddd .vpadd 16 16 17, .ddd .vpadd 18 18 19, .ddd .vpadd 20 20 21, .ddd .vpadd 22 22 23,
    .ddd .vpadd 24 24 25, .ddd .vpadd 26 26 27, .ddd .vpadd 16 16 18, .ddd .vpadd 17 20 22,
    .ddd .vpadd 18 24 26, .mulLane 8 8 0 0, .mulLane 9 9 0 0, .qqq .add 8 8 1, .qqq .add 9 9 1,
    .vst1 4 [16, 17, 18, 19] .out 16 (.imm 0)] }

/-- meta/streams_arm_32.h:3466-3564. -/
def row32_6x5 : Prog32 :=
  { init := [.addX (.t 0) .inp .stride, .addX (.t 1) (.t 0) .stride, .addX (.t 2) (.t 1) .stride,
    .addX (.t 3) (.t 2) .stride, .addX (.t 4) (.t 3) .stride, .zeroQ 8, .zeroQ 9, .zeroQ 10, .zeroQ 11,
    .zeroQ 12, .zeroQ 13, .subs .count 5]
    skip := true
    body := [.subs .count 8, .vld1 [0] .inp 0 (.imm 8), .vld1 [1] (.t 0) 0 (.imm 8), .vld1 [2] (.t 1) 0 (.imm 8),
    .vld1 [3] (.t 2) 0 (.imm 8), .vld1 [4] (.t 3) 0 (.imm 8), .vld1 [5] (.t 4) 0 (.imm 8), .qqd .uaddw 8 8 0,
    .qqd .uaddw 9 9 1, .qqd .uaddw 10 10 2, .qqd .uaddw 11 11 3, .qqd .uaddw 12 12 4, .qqd .uaddw 13 13 5,
    .vst1 4 [0, 1, 2, 3] .out 16 (.imm 32), .vst1 4 [4, 5] .out 16 (.imm 16)]
    cond := .ne
    tail := [.zeroD 0, .zeroD 1, .zeroD 2, .zeroD 3, .zeroD 4, .zeroD 5, .vldLane 4 0 [0] .inp (.imm 4),
    .vldLane 1 4 [0] .inp (.imm 1), .vldLane 4 0 [1] (.t 0) (.imm 4), .vldLane 1 4 [1] (.t 0) (.imm 1),
    .vldLane 4 0 [2] (.t 1) (.imm 4), .vldLane 1 4 [2] (.t 1) (.imm 1), .vldLane 4 0 [3] (.t 2) (.imm 4),
    .vldLane 1 4 [3] (.t 2) (.imm 1), .vldLane 4 0 [4] (.t 3) (.imm 4), .vldLane 1 4 [4] (.t 3) (.imm 1),
    .vldLane 4 0 [5] (.t 4) (.imm 4), .vldLane 1 4 [5] (.t 4) (.imm 1), .qqd .uaddw 8 8 0, .qqd .uaddw 9 9 1,
    .qqd .uaddw 10 10 2, .qqd .uaddw 11 11 3, .qqd .uaddw 12 12 4, .qqd .uaddw 13 13 5,
    .vst1 4 [0, 1, 2, 3] .out 16 (.imm 32), .vst1 4 [4, 5] .out 16 (.imm 16), .ins 0 .mulSum, .dupW 1 .addSum,
    .qq .uaddlp 8 8, .qq .uaddlp 9 9, .qq .uaddlp 10 10, .qq .uaddlp 11 11, .qq .uaddlp 12 12,
    .qq .uaddlp 13 13, .ddd .vpadd 16 16 17, .ddd .vpadd 18 18 19, .ddd .vpadd 20 20 21, .ddd .vpadd 22 22 23,
    .ddd .vpadd 24 24 25, .ddd .vpadd 26 26 27, .ddd .vpadd 16 16 18, .ddd .vpadd 17 20 22,
    .ddd .vpadd 18 24 26, .mulLane 8 8 0 0, .mulLane 9 9 0 0, .qqq .add 8 8 1, .qqq .add 9 9 1,
    .vst1 4 [16, 17, 18, 19] .out 16 (.imm 0)] }

/-- meta/streams_arm_32.h:3578-3676. -/
def row32_6x6 : Prog32 :=
  { init := [.addX (.t 0) .inp .stride, .addX (.t 1) (.t 0) .stride, .addX (.t 2) (.t 1) .stride,
    .addX (.t 3) (.t 2) .stride, .addX (.t 4) (.t 3) .stride, .zeroQ 8, .zeroQ 9, .zeroQ 10, .zeroQ 11,
    .zeroQ 12, .zeroQ 13, .subs .count 6]
    skip := true
    body := [.subs .count 8, .vld1 [0] .inp 0 (.imm 8), .vld1 [1] (.t 0) 0 (.imm 8), .vld1 [2] (.t 1) 0 (.imm 8),
    .vld1 [3] (.t 2) 0 (.imm 8), .vld1 [4] (.t 3) 0 (.imm 8), .vld1 [5] (.t 4) 0 (.imm 8), .qqd .uaddw 8 8 0,
    .qqd .uaddw 9 9 1, .qqd .uaddw 10 10 2, .qqd .uaddw 11 11 3, .qqd .uaddw 12 12 4, .qqd .uaddw 13 13 5,
    .vst1 4 [0, 1, 2, 3] .out 16 (.imm 32), .vst1 4 [4, 5] .out 16 (.imm 16)]
    cond := .ne
    tail := [.zeroD 0, .zeroD 1, .zeroD 2, .zeroD 3, .zeroD 4, .zeroD 5, .vldLane 4 0 [0] .inp (.imm 4),
    .vldLane 2 2 [0] .inp (.imm 2), .vldLane 4 0 [1] (.t 0) (.imm 4), .vldLane 2 2 [1] (.t 0) (.imm 2),
    .vldLane 4 0 [2] (.t 1) (.imm 4), .vldLane 2 2 [2] (.t 1) (.imm 2), .vldLane 4 0 [3] (.t 2) (.imm 4),
    .vldLane 2 2 [3] (.t 2) (.imm 2), .vldLane 4 0 [4] (.t 3) (.imm 4), .vldLane 2 2 [4] (.t 3) (.imm 2),
    .vldLane 4 0 [5] (.t 4) (.imm 4), .vldLane 2 2 [5] (.t 4) (.imm 2), .qqd .uaddw 8 8 0, .qqd .uaddw 9 9 1,
    .qqd .uaddw 10 10 2, .qqd .uaddw 11 11 3, .qqd .uaddw 12 12 4, .qqd .uaddw 13 13 5,
    .vst1 4 [0, 1, 2, 3] .out 16 (.imm 32), .vst1 4 [4, 5] .out 16 (.imm 16), .ins 0 .mulSum, .dupW 1 .addSum,
    .qq .uaddlp 8 8, .qq .uaddlp 9 9, .qq .uaddlp 10 10, .qq .uaddlp 11 11, .qq .uaddlp 12 12,
    .qq .uaddlp 13 13, .ddd .vpadd 16 16 17, .ddd .vpadd 18 18 19, .ddd .vpadd 20 20 21, .ddd .vpadd 22 22 23,
    .ddd .vpadd 24 24 25, .ddd .vpadd 26 26 27, .ddd .vpadd 16 16 18, .ddd .vpadd 17 20 22,
    .ddd .vpadd 18 24 26, .mulLane 8 8 0 0, .mulLane 9 9 0 0, .qqq .add 8 8 1, .qqq .add 9 9 1,
    .vst1 4 [16, 17, 18, 19] .out 16 (.imm 0)] }

/-- meta/streams_arm_32.h:3690-3794. -/
def row32_6x7 : Prog32 :=
  { init := [.addX (.t 0) .inp .stride, .addX (.t 1) (.t 0) .stride, .addX (.t 2) (.t 1) .stride,
    .addX (.t 3) (.t 2) .stride, .addX (.t 4) (.t 3) .stride, .zeroQ 8, .zeroQ 9, .zeroQ 10, .zeroQ 11,
    .zeroQ 12, .zeroQ 13, .subs .count 7]
    skip := true
    body := [.subs .count 8, .vld1 [0] .inp 0 (.imm 8), .vld1 [1] (.t 0) 0 (.imm 8), .vld1 [2] (.t 1) 0 (.imm 8),
    .vld1 [3] (.t 2) 0 (.imm 8), .vld1 [4] (.t 3) 0 (.imm 8), .vld1 [5] (.t 4) 0 (.imm 8), .qqd .uaddw 8 8 0,
    .qqd .uaddw 9 9 1, .qqd .uaddw 10 10 2, .qqd .uaddw 11 11 3, .qqd .uaddw 12 12 4, .qqd .uaddw 13 13 5,
    .vst1 4 [0, 1, 2, 3] .out 16 (.imm 32), .vst1 4 [4, 5] .out 16 (.imm 16)]
    cond := .ne
    tail := [.zeroD 0, .zeroD 1, .zeroD 2, .zeroD 3, .zeroD 4, .zeroD 5, .vldLane 4 0 [0] .inp (.imm 4),
    .vldLane 2 2 [0] .inp (.imm 2), .vldLane 1 6 [0] .inp (.imm 1), .vldLane 4 0 [1] (.t 0) (.imm 4),
    .vldLane 2 2 [1] (.t 0) (.imm 2), .vldLane 1 6 [1] (.t 0) (.imm 1), .vldLane 4 0 [2] (.t 1) (.imm 4),
    .vldLane 2 2 [2] (.t 1) (.imm 2), .vldLane 1 6 [2] (.t 1) (.imm 1), .vldLane 4 0 [3] (.t 2) (.imm 4),
    .vldLane 2 2 [3] (.t 2) (.imm 2), .vldLane 1 6 [3] (.t 2) (.imm 1), .vldLane 4 0 [4] (.t 3) (.imm 4),
    .vldLane 2 2 [4] (.t 3) (.imm 2), .vldLane 1 6 [4] (.t 3) (.imm 1), .vldLane 4 0 [5] (.t 4) (.imm 4),
    .vldLane 2 2 [5] (.t 4) (.imm 2), .vldLane 1 6 [5] (.t 4) (.imm 1), .qqd .uaddw 8 8 0, .qqd .uaddw 9 9 1,
    .qqd .uaddw 10 10 2, .qqd .uaddw 11 11 3, .qqd .uaddw 12 12 4, .qqd .uaddw 13 13 5,
    .vst1 4 [0, 1, 2, 3] .out 16 (.imm 32), .vst1 4 [4, 5] .out 16 (.imm 16), .ins 0 .mulSum, .dupW 1 .addSum,
    .qq .uaddlp 8 8, .qq .uaddlp 9 9, .qq .uaddlp 10 10, .qq .uaddlp 11 11, .qq .uaddlp 12 12,
    .qq .uaddlp 13 13, .ddd .vpadd 16 16 17, .ddd .vpadd 18 18 19, .ddd .vpadd 20 20 21, .ddd .vpadd 22 22 23,
    .ddd .vpadd 24 24 25, .ddd .vpadd 26 26 27, .ddd .vpadd 16 16 18, .ddd .vpadd 17 20 22,
    .ddd .vpadd 18 24 26, .mulLane 8 8 0 0, .mulLane 9 9 0 0, .qqq .add 8 8 1, .qqq .add 9 9 1,
    .vst1 4 [16, 17, 18, 19] .out 16 (.imm 0)] }

/-- meta/streams_arm_32.h:3808-3881. -/
def row32_7x0 : Prog32 :=
  { init := [.addX (.t 0) .inp .stride, .addX (.t 1) (.t 0) .stride, .addX (.t 2) (.t 1) .stride,
    .addX (.t 3) (.t 2) .stride, .addX (.t 4) (.t 3) .stride, .addX (.t 5) (.t 4) .stride, .zeroQ 8, .zeroQ 9,
    .zeroQ 10, .zeroQ 11, .zeroQ 12, .zeroQ 13, .zeroQ 14]
    skip := false
    body := [.subs .count 8, .vld1 [0] .inp 0 (.imm 8), .vld1 [1] (.t 0) 0 (.imm 8), .vld1 [2] (.t 1) 0 (.imm 8),
    .vld1 [3] (.t 2) 0 (.imm 8), .vld1 [4] (.t 3) 0 (.imm 8), .vld1 [5] (.t 4) 0 (.imm 8),
    .vld1 [6] (.t 5) 0 (.imm 8), .qqd .uaddw 8 8 0, .qqd .uaddw 9 9 1, .qqd .uaddw 10 10 2,
    .qqd .uaddw 11 11 3, .qqd .uaddw 12 12 4, .qqd .uaddw 13 13 5, .qqd .uaddw 14 14 6,
    .vst1 4 [0, 1, 2, 3] .out 8 (.imm 32), .vst1 4 [4, 5, 6] .out 8 (.imm 24)]
    cond := .ne
    tail := [.ldr (.t 0) .mulSum, .ldr (.t 1) .addSum, .ins 0 (.t 0), .dupW 1 (.t 1), .qq .uaddlp 8 8, .qq .uaddlp 9 9,
    .qq .uaddlp 10 10, .qq .uaddlp 11 11, .qq .uaddlp 12 12, .qq .uaddlp 13 13, .qq .uaddlp 14 14,
    .ddd .vpadd 16 16 17, .ddd .vpadd 18 18 19, .ddd .vpadd 20 20 21, .ddd .vpadd 22 22 23,
    .ddd .vpadd 24 24 25, .ddd .vpadd 26 26 27, .ddd .vpadd 28 28 29, .ddd .vpadd 16 16 18,
    .ddd .vpadd 17 20 22, .ddd .vpadd 18 24 26, .ddd .vpadd 19 28 28, .mulLane 8 8 0 0, .mulLane 9 9 0 0,
    .qqq .add 8 8 1, .qqq .add 9 9 1, .vst1 4 [16, 17, 18, 19] .out 8 (.imm 0)] }

/-- meta/streams_arm_32.h:3895-3999. -/
def row32_7x1 : Prog32 :=
  { init := [.addX (.t 0) .inp .stride, .addX (.t 1) (.t 0) .stride, .addX (.t 2) (.t 1) .stride,
    .addX (.t 3) (.t 2) .stride, .addX (.t 4) (.t 3) .stride, .addX (.t 5) (.t 4) .stride, .zeroQ 8, .zeroQ 9,
    .zeroQ 10, .zeroQ 11, .zeroQ 12, .zeroQ 13, .zeroQ 14, .subs .count 1]
    skip := true
    body := [.subs .count 8, .vld1 [0] .inp 0 (.imm 8), .vld1 [1] (.t 0) 0 (.imm 8), .vld1 [2] (.t 1) 0 (.imm 8),
    .vld1 [3] (.t 2) 0 (.imm 8), .vld1 [4] (.t 3) 0 (.imm 8), .vld1 [5] (.t 4) 0 (.imm 8),
    .vld1 [6] (.t 5) 0 (.imm 8), .qqd .uaddw 8 8 0, .qqd .uaddw 9 9 1, .qqd .uaddw 10 10 2,
    .qqd .uaddw 11 11 3, .qqd .uaddw 12 12 4, .qqd .uaddw 13 13 5, .qqd .uaddw 14 14 6,
    .vst1 4 [0, 1, 2, 3] .out 8 (.imm 32), .vst1 4 [4, 5, 6] .out 8 (.imm 24)]
    cond := .ne
    tail := [.zeroD 0, .zeroD 1, .zeroD 2, .zeroD 3, .zeroD 4, .zeroD 5, .zeroD 6, .vldLane 1 0 [0] .inp (.imm 1),
    .vldLane 1 0 [1] (.t 0) (.imm 1), .vldLane 1 0 [2] (.t 1) (.imm 1), .vldLane 1 0 [3] (.t 2) (.imm 1),
    .vldLane 1 0 [4] (.t 3) (.imm 1), .vldLane 1 0 [5] (.t 4) (.imm 1), .vldLane 1 0 [6] (.t 5) (.imm 1),
    .qqd .uaddw 8 8 0, .qqd .uaddw 9 9 1, .qqd .uaddw 10 10 2, .qqd .uaddw 11 11 3, .qqd .uaddw 12 12 4,
    .qqd .uaddw 13 13 5, .qqd .uaddw 14 14 6, .vst1 4 [0, 1, 2, 3] .out 8 (.imm 32),
    .vst1 4 [4, 5, 6] .out 8 (.imm 24), .ldr (.t 0) .mulSum, .ldr (.t 1) .addSum, .ins 0 (.t 0),
    .dupW 1 (.t 1), .qq .uaddlp 8 8, .qq .uaddlp 9 9, .qq .uaddlp 10 10, .qq .uaddlp 11 11, .qq .uaddlp 12 12,
    .qq .uaddlp 13 13, .qq .uaddlp 14 14, .ddd .vpadd 16 16 17, .ddd .vpadd 18 18 19, .ddd .vpadd 20 20 21,
    .ddd .vpadd 22 22 23, .ddd .vpadd 24 24 25, .ddd .vpadd 26 26 27, .ddd .vpadd 28 28 29,
    .ddd .vpadd 16 16 18, .ddd .vpadd 17 20 22, .ddd .vpadd 18 24 26, .ddd .vpadd 19 28 28, .mulLane 8 8 0 0,
    .mulLane 9 9 0 0, .qqq .add 8 8 1, .qqq .add 9 9 1, .vst1 4 [16, 17, 18, 19] .out 8 (.imm 0)] }

/-- meta/streams_arm_32.h:4013-4117. -/
def row32_7x2 : Prog32 :=
  { init := [.addX (.t 0) .inp .stride, .addX (.t 1) (.t 0) .stride, .addX (.t 2) (.t 1) .stride,
    .addX (.t 3) (.t 2) .stride, .addX (.t 4) (.t 3) .stride, .addX (.t 5) (.t 4) .stride, .zeroQ 8, .zeroQ 9,
    .zeroQ 10, .zeroQ 11, .zeroQ 12, .zeroQ 13, .zeroQ 14, .subs .count 2]
    skip := true
    body := [.subs .count 8, .vld1 [0] .inp 0 (.imm 8), .vld1 [1] (.t 0) 0 (.imm 8), .vld1 [2] (.t 1) 0 (.imm 8),
    .vld1 [3] (.t 2) 0 (.imm 8), .vld1 [4] (.t 3) 0 (.imm 8), .vld1 [5] (.t 4) 0 (.imm 8),
    .vld1 [6] (.t 5) 0 (.imm 8), .qqd .uaddw 8 8 0, .qqd .uaddw 9 9 1, .qqd .uaddw 10 10 2,
    .qqd .uaddw 11 11 3, .qqd .uaddw 12 12 4, .qqd .uaddw 13 13 5, .qqd .uaddw 14 14 6,
    .vst1 4 [0, 1, 2, 3] .out 8 (.imm 32), .vst1 4 [4, 5, 6] .out 8 (.imm 24)]
    cond := .ne
    tail := [.zeroD 0, .zeroD 1, .zeroD 2, .zeroD 3, .zeroD 4, .zeroD 5, .zeroD 6, .vldLane 2 0 [0] .inp (.imm 2),
    .vldLane 2 0 [1] (.t 0) (.imm 2), .vldLane 2 0 [2] (.t 1) (.imm 2), .vldLane 2 0 [3] (.t 2) (.imm 2),
    .vldLane 2 0 [4] (.t 3) (.imm 2), .vldLane 2 0 [5] (.t 4) (.imm 2), .vldLane 2 0 [6] (.t 5) (.imm 2),
    .qqd .uaddw 8 8 0, .qqd .uaddw 9 9 1, .qqd .uaddw 10 10 2, .qqd .uaddw 11 11 3, .qqd .uaddw 12 12 4,
    .qqd .uaddw 13 13 5, .qqd .uaddw 14 14 6, .vst1 4 [0, 1, 2, 3] .out 8 (.imm 32),
    .vst1 4 [4, 5, 6] .out 8 (.imm 24), .ldr (.t 0) .mulSum, .ldr (.t 1) .addSum, .ins 0 (.t 0),
    .dupW 1 (.t 1), .qq .uaddlp 8 8, .qq .uaddlp 9 9, .qq .uaddlp 10 10, .qq .uaddlp 11 11, .qq .uaddlp 12 12,
    .qq .uaddlp 13 13, .qq .uaddlp 14 14, .ddd .vpadd 16 16 17, .ddd .vpadd 18 18 19, .ddd .vpadd 20 20 21,
    .ddd .vpadd 22 22 23, .ddd .vpadd 24 24 25, .ddd .vpadd 26 26 27, .ddd .vpadd 28 28 29,
    .ddd .vpadd 16 16 18, .ddd .vpadd 17 20 22, .ddd .vpadd 18 24 26, .ddd .vpadd 19 28 28, .mulLane 8 8 0 0,
    .mulLane 9 9 0 0, .qqq .add 8 8 1, .qqq .add 9 9 1, .vst1 4 [16, 17, 18, 19] .out 8 (.imm 0)] }

/-- meta/streams_arm_32.h:4131-4242. -/
def row32_7x3 : Prog32 :=
  { init := [.addX (.t 0) .inp .stride, .addX (.t 1) (.t 0) .stride, .addX (.t 2) (.t 1) .stride,
    .addX (.t 3) (.t 2) .stride, .addX (.t 4) (.t 3) .stride, .addX (.t 5) (.t 4) .stride, .zeroQ 8, .zeroQ 9,
    .zeroQ 10, .zeroQ 11, .zeroQ 12, .zeroQ 13, .zeroQ 14, .subs .count 3]
    skip := true
    body := [.subs .count 8, .vld1 [0] .inp 0 (.imm 8), .vld1 [1] (.t 0) 0 (.imm 8), .vld1 [2] (.t 1) 0 (.imm 8),
    .vld1 [3] (.t 2) 0 (.imm 8), .vld1 [4] (.t 3) 0 (.imm 8), .vld1 [5] (.t 4) 0 (.imm 8),
    .vld1 [6] (.t 5) 0 (.imm 8), .qqd .uaddw 8 8 0, .qqd .uaddw 9 9 1, .qqd .uaddw 10 10 2,
    .qqd .uaddw 11 11 3, .qqd .uaddw 12 12 4, .qqd .uaddw 13 13 5, .qqd .uaddw 14 14 6,
    .vst1 4 [0, 1, 2, 3] .out 8 (.imm 32), .vst1 4 [4, 5, 6] .out 8 (.imm 24)]
    cond := .ne
    tail := [.zeroD 0, .zeroD 1, .zeroD 2, .zeroD 3, .zeroD 4, .zeroD 5, .zeroD 6, .vldLane 2 0 [0] .inp (.imm 2),
    .vldLane 1 2 [0] .inp (.imm 1), .vldLane 2 0 [1] (.t 0) (.imm 2), .vldLane 1 2 [1] (.t 0) (.imm 1),
    .vldLane 2 0 [2] (.t 1) (.imm 2), .vldLane 1 2 [2] (.t 1) (.imm 1), .vldLane 2 0 [3] (.t 2) (.imm 2),
    .vldLane 1 2 [3] (.t 2) (.imm 1), .vldLane 2 0 [4] (.t 3) (.imm 2), .vldLane 1 2 [4] (.t 3) (.imm 1),
    .vldLane 2 0 [5] (.t 4) (.imm 2), .vldLane 1 2 [5] (.t 4) (.imm 1), .vldLane 2 0 [6] (.t 5) (.imm 2),
    .vldLane 1 2 [6] (.t 5) (.imm 1), .qqd .uaddw 8 8 0, .qqd .uaddw 9 9 1, .qqd .uaddw 10 10 2,
    .qqd .uaddw 11 11 3, .qqd .uaddw 12 12 4, .qqd .uaddw 13 13 5, .qqd .uaddw 14 14 6,
    .vst1 4 [0, 1, 2, 3] .out 8 (.imm 32), .vst1 4 [4, 5, 6] .out 8 (.imm 24), .ldr (.t 0) .mulSum,
    .ldr (.t 1) .addSum, .ins 0 (.t 0), .dupW 1 (.t 1), .qq .uaddlp 8 8, .qq .uaddlp 9 9, .qq .uaddlp 10 10,
    .qq .uaddlp 11 11, .qq .uaddlp 12 12, .qq .uaddlp 13 13, .qq .uaddlp 14 14, .ddd .vpadd 16 16 17,
    .ddd .vpadd 18 18 19, .ddd .vpadd 20 20 21, .ddd .vpadd 22 22 23, .ddd .vpadd 24 24 25,
    .ddd .vpadd 26 26 27, .ddd .vpadd 28 28 29, .ddd .vpadd 16 16 18, .ddd .vpadd 17 20 22,
    .ddd .vpadd 18 24 26, .ddd .vpadd 19 28 28, .mulLane 8 8 0 0, .mulLane 9 9 0 0, .qqq .add 8 8 1,
    .qqq .add 9 9 1, .vst1 4 [16, 17, 18, 19] .out 8 (.imm 0)] }

/-- meta/streams_arm_32.h:4256-4360. -/
def row32_7x4 : Prog32 :=
  { init := [.addX (.t 0) .inp .stride, .addX (.t 1) (.t 0) .stride, .addX (.t 2) (.t 1) .stride,
    .addX (.t 3) (.t 2) .stride, .addX (.t 4) (.t 3) .stride, .addX (.t 5) (.t 4) .stride, .zeroQ 8, .zeroQ 9,
    .zeroQ 10, .zeroQ 11, .zeroQ 12, .zeroQ 13, .zeroQ 14, .subs .count 4]
    skip := true
    body := [.subs .count 8, .vld1 [0] .inp 0 (.imm 8), .vld1 [1] (.t 0) 0 (.imm 8), .vld1 [2] (.t 1) 0 (.imm 8),
    .vld1 [3] (.t 2) 0 (.imm 8), .vld1 [4] (.t 3) 0 (.imm 8), .vld1 [5] (.t 4) 0 (.imm 8),
    .vld1 [6] (.t 5) 0 (.imm 8), .qqd .uaddw 8 8 0, .qqd .uaddw 9 9 1, .qqd .uaddw 10 10 2,
    .qqd .uaddw 11 11 3, .qqd .uaddw 12 12 4, .qqd .uaddw 13 13 5, .qqd .uaddw 14 14 6,
    .vst1 4 [0, 1, 2, 3] .out 8 (.imm 32), .vst1 4 [4, 5, 6] .out 8 (.imm 24)]
    cond := .ne
    tail := [.zeroD 0, .zeroD 1, .zeroD 2, .zeroD 3, .zeroD 4, .zeroD 5, .zeroD 6, .vldLane 4 0 [0] .inp (.imm 4),
    .vldLane 4 0 [1] (.t 0) (.imm 4), .vldLane 4 0 [2] (.t 1) (.imm 4), .vldLane 4 0 [3] (.t 2) (.imm 4),
    .vldLane 4 0 [4] (.t 3) (.imm 4), .vldLane 4 0 [5] (.t 4) (.imm 4), .vldLane 4 0 [6] (.t 5) (.imm 4),
    .qqd .uaddw 8 8 0, .qqd .uaddw 9 9 1, .qqd .uaddw 10 10 2, .qqd .uaddw 11 11 3, .qqd .uaddw 12 12 4,
    .qqd .uaddw 13 13 5, .qqd .uaddw 14 14 6, .vst1 4 [0, 1, 2, 3] .out 8 (.imm 32),
    .vst1 4 [4, 5, 6] .out 8 (.imm 24), .ldr (.t 0) .mulSum, .ldr (.t 1) .addSum, .ins 0 (.t 0),
    .dupW 1 (.t 1), .qq .uaddlp 8 8, .qq .uaddlp 9 9, .qq .uaddlp 10 10, .qq .uaddlp 11 11, .qq .uaddlp 12 12,
    .qq .uaddlp 13 13, .qq .uaddlp 14 14, .ddd .vpadd 16 16 17, .ddd .vpadd 18 18 19, .ddd .vpadd 20 20 21,
    .ddd .vpadd 22 22 23, .ddd .vpadd 24 24 25, .ddd .vpadd 26 26 27, .ddd .vpadd 28 28 29,
    .ddd .vpadd 16 16 18, .ddd .vpadd 17 20 22, .ddd .vpadd 18 24 26, .ddd .vpadd 19 28 28, .mulLane 8 8 0 0,
    .mulLane 9 9 0 0, .qqq .add 8 8 1, .qqq .add 9 9 1, .vst1 4 [16, 17, 18, 19] .out 8 (.imm 0)] }

/-- meta/streams_arm_32.h:4374-4485. -/
def row32_7x5 : Prog32 :=
  { init := [.addX (.t 0) .inp .stride, .addX (.t 1) (.t 0) .stride, .addX (.t 2) (.t 1) .stride,
    .addX (.t 3) (.t 2) .stride, .addX (.t 4) (.t 3) .stride, .addX (.t 5) (.t 4) .stride, .zeroQ 8, .zeroQ 9,
    .zeroQ 10, .zeroQ 11, .zeroQ 12, .zeroQ 13, .zeroQ 14, .subs .count 5]
    skip := true
    body := [.subs .count 8, .vld1 [0] .inp 0 (.imm 8), .vld1 [1] (.t 0) 0 (.imm 8), .vld1 [2] (.t 1) 0 (.imm 8),
    .vld1 [3] (.t 2) 0 (.imm 8), .vld1 [4] (.t 3) 0 (.imm 8), .vld1 [5] (.t 4) 0 (.imm 8),
    .vld1 [6] (.t 5) 0 (.imm 8), .qqd .uaddw 8 8 0, .qqd .uaddw 9 9 1, .qqd .uaddw 10 10 2,
    .qqd .uaddw 11 11 3, .qqd .uaddw 12 12 4, .qqd .uaddw 13 13 5, .qqd .uaddw 14 14 6,
    .vst1 4 [0, 1, 2, 3] .out 8 (.imm 32), .vst1 4 [4, 5, 6] .out 8 (.imm 24)]
    cond := .ne
    tail := [.zeroD 0, .zeroD 1, .zeroD 2, .zeroD 3, .zeroD 4, .zeroD 5, .zeroD 6, .vldLane 4 0 [0] .inp (.imm 4),
    .vldLane 1 4 [0] .inp (.imm 1), .vldLane 4 0 [1] (.t 0) (.imm 4), .vldLane 1 4 [1] (.t 0) (.imm 1),
    .vldLane 4 0 [2] (.t 1) (.imm 4), .vldLane 1 4 [2] (.t 1) (.imm 1), .vldLane 4 0 [3] (.t 2) (.imm 4),
    .vldLane 1 4 [3] (.t 2) (.imm 1), .vldLane 4 0 [4] (.t 3) (.imm 4), .vldLane 1 4 [4] (.t 3) (.imm 1),
    .vldLane 4 0 [5] (.t 4) (.imm 4), .vldLane 1 4 [5] (.t 4) (.imm 1), .vldLane 4 0 [6] (.t 5) (.imm 4),
    .vldLane 1 4 [6] (.t 5) (.imm 1), .qqd .uaddw 8 8 0, .qqd .uaddw 9 9 1, .qqd .uaddw 10 10 2,
    .qqd .uaddw 11 11 3, .qqd .uaddw 12 12 4, .qqd .uaddw 13 13 5, .qqd .uaddw 14 14 6,
    .vst1 4 [0, 1, 2, 3] .out 8 (.imm 32), .vst1 4 [4, 5, 6] .out 8 (.imm 24), .ldr (.t 0) .mulSum,
    .ldr (.t 1) .addSum, .ins 0 (.t 0), .dupW 1 (.t 1), .qq .uaddlp 8 8, .qq .uaddlp 9 9, .qq .uaddlp 10 10,
    .qq .uaddlp 11 11, .qq .uaddlp 12 12, .qq .uaddlp 13 13, .qq .uaddlp 14 14, .ddd .vpadd 16 16 17,
    .ddd .vpadd 18 18 19, .ddd .vpadd 20 20 21, .ddd .vpadd 22 22 23, .ddd .vpadd 24 24 25,
    .ddd .vpadd 26 26 27, .ddd .vpadd 28 28 29, .ddd .vpadd 16 16 18, .ddd .vpadd 17 20 22,
    .ddd .vpadd 18 24 26, .ddd .vpadd 19 28 28, .mulLane 8 8 0 0, .mulLane 9 9 0 0, .qqq .add 8 8 1,
    .qqq .add 9 9 1, .vst1 4 [16, 17, 18, 19] .out 8 (.imm 0)] }

/-- meta/streams_arm_32.h:4499-4610. -/
def row32_7x6 : Prog32 :=
  { init := [.addX (.t 0) .inp .stride, .addX (.t 1) (.t 0) .stride, .addX (.t 2) (.t 1) .stride,
    .addX (.t 3) (.t 2) .stride, .addX (.t 4) (.t 3) .stride, .addX (.t 5) (.t 4) .stride, .zeroQ 8, .zeroQ 9,
    .zeroQ 10, .zeroQ 11, .zeroQ 12, .zeroQ 13, .zeroQ 14, .subs .count 6]
    skip := true
    body := [.subs .count 8, .vld1 [0] .inp 0 (.imm 8), .vld1 [1] (.t 0) 0 (.imm 8), .vld1 [2] (.t 1) 0 (.imm 8),
    .vld1 [3] (.t 2) 0 (.imm 8), .vld1 [4] (.t 3) 0 (.imm 8), .vld1 [5] (.t 4) 0 (.imm 8),
    .vld1 [6] (.t 5) 0 (.imm 8), .qqd .uaddw 8 8 0, .qqd .uaddw 9 9 1, .qqd .uaddw 10 10 2,
    .qqd .uaddw 11 11 3, .qqd .uaddw 12 12 4, .qqd .uaddw 13 13 5, .qqd .uaddw 14 14 6,
    .vst1 4 [0, 1, 2, 3] .out 8 (.imm 32), .vst1 4 [4, 5, 6] .out 8 (.imm 24)]
    cond := .ne
    tail := [.zeroD 0, .zeroD 1, .zeroD 2, .zeroD 3, .zeroD 4, .zeroD 5, .zeroD 6, .vldLane 4 0 [0] .inp (.imm 4),
    .vldLane 2 2 [0] .inp (.imm 2), .vldLane 4 0 [1] (.t 0) (.imm 4), .vldLane 2 2 [1] (.t 0) (.imm 2),
    .vldLane 4 0 [2] (.t 1) (.imm 4), .vldLane 2 2 [2] (.t 1) (.imm 2), .vldLane 4 0 [3] (.t 2) (.imm 4),
    .vldLane 2 2 [3] (.t 2) (.imm 2), .vldLane 4 0 [4] (.t 3) (.imm 4), .vldLane 2 2 [4] (.t 3) (.imm 2),
    .vldLane 4 0 [5] (.t 4) (.imm 4), .vldLane 2 2 [5] (.t 4) (.imm 2), .vldLane 4 0 [6] (.t 5) (.imm 4),
    .vldLane 2 2 [6] (.t 5) (.imm 2), .qqd .uaddw 8 8 0, .qqd .uaddw 9 9 1, .qqd .uaddw 10 10 2,
    .qqd .uaddw 11 11 3, .qqd .uaddw 12 12 4, .qqd .uaddw 13 13 5, .qqd .uaddw 14 14 6,
    .vst1 4 [0, 1, 2, 3] .out 8 (.imm 32), .vst1 4 [4, 5, 6] .out 8 (.imm 24), .ldr (.t 0) .mulSum,
    .ldr (.t 1) .addSum, .ins 0 (.t 0), .dupW 1 (.t 1), .qq .uaddlp 8 8, .qq .uaddlp 9 9, .qq .uaddlp 10 10,
    .qq .uaddlp 11 11, .qq .uaddlp 12 12, .qq .uaddlp 13 13, .qq .uaddlp 14 14, .ddd .vpadd 16 16 17,
    .ddd .vpadd 18 18 19, .ddd .vpadd 20 20 21, .ddd .vpadd 22 22 23, .ddd .vpadd 24 24 25,
    .ddd .vpadd 26 26 27, .ddd .vpadd 28 28 29, .ddd .vpadd 16 16 18, .ddd .vpadd 17 20 22,
    .ddd .vpadd 18 24 26, .ddd .vpadd 19 28 28, .mulLane 8 8 0 0, .mulLane 9 9 0 0, .qqq .add 8 8 1,
    .qqq .add 9 9 1, .vst1 4 [16, 17, 18, 19] .out 8 (.imm 0)] }

/-- meta/streams_arm_32.h:4624-4742. -/
def row32_7x7 : Prog32 :=
  { init := [.addX (.t 0) .inp .stride, .addX (.t 1) (.t 0) .stride, .addX (.t 2) (.t 1) .stride,
    .addX (.t 3) (.t 2) .stride, .addX (.t 4) (.t 3) .stride, .addX (.t 5) (.t 4) .stride, .zeroQ 8, .zeroQ 9,
    .zeroQ 10, .zeroQ 11, .zeroQ 12, .zeroQ 13, .zeroQ 14, .subs .count 7]
    skip := true
    body := [.subs .count 8, .vld1 [0] .inp 0 (.imm 8), .vld1 [1] (.t 0) 0 (.imm 8), .vld1 [2] (.t 1) 0 (.imm 8),
    .vld1 [3] (.t 2) 0 (.imm 8), .vld1 [4] (.t 3) 0 (.imm 8), .vld1 [5] (.t 4) 0 (.imm 8),
    .vld1 [6] (.t 5) 0 (.imm 8), .qqd .uaddw 8 8 0, .qqd .uaddw 9 9 1, .qqd .uaddw 10 10 2,
    .qqd .uaddw 11 11 3, .qqd .uaddw 12 12 4, .qqd .uaddw 13 13 5, .qqd .uaddw 14 14 6,
    .vst1 4 [0, 1, 2, 3] .out 8 (.imm 32), .vst1 4 [4, 5, 6] .out 8 (.imm 24)]
    cond := .ne
    tail := [.zeroD 0, .zeroD 1, .zeroD 2, .zeroD 3, .zeroD 4, .zeroD 5, .zeroD 6, .vldLane 4 0 [0] .inp (.imm 4),
    .vldLane 2 2 [0] .inp (.imm 2), .vldLane 1 6 [0] .inp (.imm 1), .vldLane 4 0 [1] (.t 0) (.imm 4),
    .vldLane 2 2 [1] (.t 0) (.imm 2), .vldLane 1 6 [1] (.t 0) (.imm 1), .vldLane 4 0 [2] (.t 1) (.imm 4),
    .vldLane 2 2 [2] (.t 1) (.imm 2), .vldLane 1 6 [2] (.t 1) (.imm 1), .vldLane 4 0 [3] (.t 2) (.imm 4),
    .vldLane 2 2 [3] (.t 2) (.imm 2), .vldLane 1 6 [3] (.t 2) (.imm 1), .vldLane 4 0 [4] (.t 3) (.imm 4),
    .vldLane 2 2 [4] (.t 3) (.imm 2), .vldLane 1 6 [4] (.t 3) (.imm 1), .vldLane 4 0 [5] (.t 4) (.imm 4),
    .vldLane 2 2 [5] (.t 4) (.imm 2), .vldLane 1 6 [5] (.t 4) (.imm 1), .vldLane 4 0 [6] (.t 5) (.imm 4),
    .vldLane 2 2 [6] (.t 5) (.imm 2), .vldLane 1 6 [6] (.t 5) (.imm 1), .qqd .uaddw 8 8 0, .qqd .uaddw 9 9 1,
    .qqd .uaddw 10 10 2, .qqd .uaddw 11 11 3, .qqd .uaddw 12 12 4, .qqd .uaddw 13 13 5, .qqd .uaddw 14 14 6,
    .vst1 4 [0, 1, 2, 3] .out 8 (.imm 32), .vst1 4 [4, 5, 6] .out 8 (.imm 24), .ldr (.t 0) .mulSum,
    .ldr (.t 1) .addSum, .ins 0 (.t 0), .dupW 1 (.t 1), .qq .uaddlp 8 8, .qq .uaddlp 9 9, .qq .uaddlp 10 10,
    .qq .uaddlp 11 11, .qq .uaddlp 12 12, .qq .uaddlp 13 13, .qq .uaddlp 14 14, .ddd .vpadd 16 16 17,
    .ddd .vpadd 18 18 19, .ddd .vpadd 20 20 21, .ddd .vpadd 22 22 23, .ddd .vpadd 24 24 25,
    .ddd .vpadd 26 26 27, .ddd .vpadd 28 28 29, .ddd .vpadd 16 16 18, .ddd .vpadd 17 20 22,
    .ddd .vpadd 18 24 26, .ddd .vpadd 19 28 28, .mulLane 8 8 0 0, .mulLane 9 9 0 0, .qqq .add 8 8 1,
    .qqq .add 9 9 1, .vst1 4 [16, 17, 18, 19] .out 8 (.imm 0)] }

/-- meta/streams_arm_32.h:4756-4836. -/
def row32_8x0 : Prog32 :=
  { init := [.addX (.t 0) .inp .stride, .addX (.t 1) (.t 0) .stride, .addX (.t 2) (.t 1) .stride,
    .addX (.t 3) (.t 2) .stride, .addX (.t 4) (.t 3) .stride, .addX (.t 5) (.t 4) .stride,
    .addX (.t 6) (.t 5) .stride, .zeroQ 8, .zeroQ 9, .zeroQ 10, .zeroQ 11, .zeroQ 12, .zeroQ 13, .zeroQ 14,
    .zeroQ 15]
    skip := false
    body := [.subs .count 8, .vld1 [0] .inp 0 (.imm 8), .vld1 [1] (.t 0) 0 (.imm 8), .vld1 [2] (.t 1) 0 (.imm 8),
    .vld1 [3] (.t 2) 0 (.imm 8), .vld1 [4] (.t 3) 0 (.imm 8), .vld1 [5] (.t 4) 0 (.imm 8),
    .vld1 [6] (.t 5) 0 (.imm 8), .vld1 [7] (.t 6) 0 (.imm 8), .qqd .uaddw 8 8 0, .qqd .uaddw 9 9 1,
    .qqd .uaddw 10 10 2, .qqd .uaddw 11 11 3, .qqd .uaddw 12 12 4, .qqd .uaddw 13 13 5, .qqd .uaddw 14 14 6,
    .qqd .uaddw 15 15 7, .vst1 4 [0, 1, 2, 3] .out 32 (.imm 32), .vst1 4 [4, 5, 6, 7] .out 32 (.imm 32)]
    cond := .ne
    tail := [.ldr (.t 0) .mulSum, .ldr (.t 1) .addSum, .ins 0 (.t 0), .dupW 1 (.t 1), .qq .uaddlp 8 8, .qq .uaddlp 9 9,
    .qq .uaddlp 10 10, .qq .uaddlp 11 11, .qq .uaddlp 12 12, .qq .uaddlp 13 13, .qq .uaddlp 14 14,
    .qq .uaddlp 15 15, .ddd .vpadd 16 16 17, .ddd .vpadd 18 18 19, .ddd .vpadd 20 20 21, .ddd .vpadd 22 22 23,
    .ddd .vpadd 24 24 25, .ddd .vpadd 26 26 27, .ddd .vpadd 28 28 29, .ddd .vpadd 30 30 31,
    .ddd .vpadd 16 16 18, .ddd .vpadd 17 20 22, .ddd .vpadd 18 24 26, .ddd .vpadd 19 28 30, .mulLane 8 8 0 0,
    .mulLane 9 9 0 0, .qqq .add 8 8 1, .qqq .add 9 9 1, .vst1 4 [16, 17, 18, 19] .out 32 (.imm 0)] }

/-- meta/streams_arm_32.h:4850-4964. -/
def row32_8x1 : Prog32 :=
  { init := [.addX (.t 0) .inp .stride, .addX (.t 1) (.t 0) .stride, .addX (.t 2) (.t 1) .stride,
    .addX (.t 3) (.t 2) .stride, .addX (.t 4) (.t 3) .stride, .addX (.t 5) (.t 4) .stride,
    .addX (.t 6) (.t 5) .stride, .zeroQ 8, .zeroQ 9, .zeroQ 10, .zeroQ 11, .zeroQ 12, .zeroQ 13, .zeroQ 14,
    .zeroQ 15, .subs .count 1]
    skip := true
    body := [.subs .count 8, .vld1 [0] .inp 0 (.imm 8), .vld1 [1] (.t 0) 0 (.imm 8), .vld1 [2] (.t 1) 0 (.imm 8),
    .vld1 [3] (.t 2) 0 (.imm 8), .vld1 [4] (.t 3) 0 (.imm 8), .vld1 [5] (.t 4) 0 (.imm 8),
    .vld1 [6] (.t 5) 0 (.imm 8), .vld1 [7] (.t 6) 0 (.imm 8), .qqd .uaddw 8 8 0, .qqd .uaddw 9 9 1,
    .qqd .uaddw 10 10 2, .qqd .uaddw 11 11 3, .qqd .uaddw 12 12 4, .qqd .uaddw 13 13 5, .qqd .uaddw 14 14 6,
    .qqd .uaddw 15 15 7, .vst1 4 [0, 1, 2, 3] .out 32 (.imm 32), .vst1 4 [4, 5, 6, 7] .out 32 (.imm 32)]
    cond := .ne
    tail := [.zeroD 0, .zeroD 1, .zeroD 2, .zeroD 3, .zeroD 4, .zeroD 5, .zeroD 6, .zeroD 7,
    .vldLane 1 0 [0] .inp (.imm 1), .vldLane 1 0 [1] (.t 0) (.imm 1), .vldLane 1 0 [2] (.t 1) (.imm 1),
    .vldLane 1 0 [3] (.t 2) (.imm 1), .vldLane 1 0 [4] (.t 3) (.imm 1), .vldLane 1 0 [5] (.t 4) (.imm 1),
    .vldLane 1 0 [6] (.t 5) (.imm 1), .vldLane 1 0 [7] (.t 6) (.imm 1), .qqd .uaddw 8 8 0, .qqd .uaddw 9 9 1,
    .qqd .uaddw 10 10 2, .qqd .uaddw 11 11 3, .qqd .uaddw 12 12 4, .qqd .uaddw 13 13 5, .qqd .uaddw 14 14 6,
    .qqd .uaddw 15 15 7, .vst1 4 [0, 1, 2, 3] .out 32 (.imm 32), .vst1 4 [4, 5, 6, 7] .out 32 (.imm 32),
    .ldr (.t 0) .mulSum, .ldr (.t 1) .addSum, .ins 0 (.t 0), .dupW 1 (.t 1), .qq .uaddlp 8 8, .qq .uaddlp 9 9,
    .qq .uaddlp 10 10, .qq .uaddlp 11 11, .qq .uaddlp 12 12, .qq .uaddlp 13 13, .qq .uaddlp 14 14,
    .qq .uaddlp 15 15, .ddd .vpadd 16 16 17, .ddd .vpadd 18 18 19, .ddd .vpadd 20 20 21, .ddd .vpadd 22 22 23,
    .ddd .vpadd 24 24 25, .ddd .vpadd 26 26 27, .ddd .vpadd 28 28 29, .ddd .vpadd 30 30 31,
    .ddd .vpadd 16 16 18, .ddd .vpadd 17 20 22, .ddd .vpadd 18 24 26, .ddd .vpadd 19 28 30, .mulLane 8 8 0 0,
    .mulLane 9 9 0 0, .qqq .add 8 8 1, .qqq .add 9 9 1, .vst1 4 [16, 17, 18, 19] .out 32 (.imm 0)] }

/-- meta/streams_arm_32.h:4978-5092. -/
def row32_8x2 : Prog32 :=
  { init := [.addX (.t 0) .inp .stride, .addX (.t 1) (.t 0) .stride, .addX (.t 2) (.t 1) .stride,
    .addX (.t 3) (.t 2) .stride, .addX (.t 4) (.t 3) .stride, .addX (.t 5) (.t 4) .stride,
    .addX (.t 6) (.t 5) .stride, .zeroQ 8, .zeroQ 9, .zeroQ 10, .zeroQ 11, .zeroQ 12, .zeroQ 13, .zeroQ 14,
    .zeroQ 15, .subs .count 2]
    skip := true
    body := [.subs .count 8, .vld1 [0] .inp 0 (.imm 8), .vld1 [1] (.t 0) 0 (.imm 8), .vld1 [2] (.t 1) 0 (.imm 8),
    .vld1 [3] (.t 2) 0 (.imm 8), .vld1 [4] (.t 3) 0 (.imm 8), .vld1 [5] (.t 4) 0 (.imm 8),
    .vld1 [6] (.t 5) 0 (.imm 8), .vld1 [7] (.t 6) 0 (.imm 8), .qqd .uaddw 8 8 0, .qqd .uaddw 9 9 1,
    .qqd .uaddw 10 10 2, .qqd .uaddw 11 11 3, .qqd .uaddw 12 12 4, .qqd .uaddw 13 13 5, .qqd .uaddw 14 14 6,
    .qqd .uaddw 15 15 7, .vst1 4 [0, 1, 2, 3] .out 32 (.imm 32), .vst1 4 [4, 5, 6, 7] .out 32 (.imm 32)]
    cond := .ne
    tail := [.zeroD 0, .zeroD 1, .zeroD 2, .zeroD 3, .zeroD 4, .zeroD 5, .zeroD 6, .zeroD 7,
    .vldLane 2 0 [0] .inp (.imm 2), .vldLane 2 0 [1] (.t 0) (.imm 2), .vldLane 2 0 [2] (.t 1) (.imm 2),
    .vldLane 2 0 [3] (.t 2) (.imm 2), .vldLane 2 0 [4] (.t 3) (.imm 2), .vldLane 2 0 [5] (.t 4) (.imm 2),
    .vldLane 2 0 [6] (.t 5) (.imm 2), .vldLane 2 0 [7] (.t 6) (.imm 2), .qqd .uaddw 8 8 0, .qqd .uaddw 9 9 1,
    .qqd .uaddw 10 10 2, .qqd .uaddw 11 11 3, .qqd .uaddw 12 12 4, .qqd .uaddw 13 13 5, .qqd .uaddw 14 14 6,
    .qqd .uaddw 15 15 7, .vst1 4 [0, 1, 2, 3] .out 32 (.imm 32), .vst1 4 [4, 5, 6, 7] .out 32 (.imm 32),
    .ldr (.t 0) .mulSum, .ldr (.t 1) .addSum, .ins 0 (.t 0), .dupW 1 (.t 1), .qq .uaddlp 8 8, .qq .uaddlp 9 9,
    .qq .uaddlp 10 10, .qq .uaddlp 11 11, .qq .uaddlp 12 12, .qq .uaddlp 13 13, .qq .uaddlp 14 14,
    .qq .uaddlp 15 15, .ddd .vpadd 16 16 17, .ddd .vpadd 18 18 19, .ddd .vpadd 20 20 21, .ddd .vpadd 22 22 23,
    .ddd .vpadd 24 24 25, .ddd .vpadd 26 26 27, .ddd .vpadd 28 28 29, .ddd .vpadd 30 30 31,
    .ddd .vpadd 16 16 18, .ddd .vpadd 17 20 22, .ddd .vpadd 18 24 26, .ddd .vpadd 19 28 30, .mulLane 8 8 0 0,
    .mulLane 9 9 0 0, .qqq .add 8 8 1, .qqq .add 9 9 1, .vst1 4 [16, 17, 18, 19] .out 32 (.imm 0)] }

/-- meta/streams_arm_32.h:5106-5228. -/
def row32_8x3 : Prog32 :=
  { init := [.addX (.t 0) .inp .stride, .addX (.t 1) (.t 0) .stride, .addX (.t 2) (.t 1) .stride,
    .addX (.t 3) (.t 2) .stride, .addX (.t 4) (.t 3) .stride, .addX (.t 5) (.t 4) .stride,
    .addX (.t 6) (.t 5) .stride, .zeroQ 8, .zeroQ 9, .zeroQ 10, .zeroQ 11, .zeroQ 12, .zeroQ 13, .zeroQ 14,
    .zeroQ 15, .subs .count 3]
    skip := true
    body := [.subs .count 8, .vld1 [0] .inp 0 (.imm 8), .vld1 [1] (.t 0) 0 (.imm 8), .vld1 [2] (.t 1) 0 (.imm 8),
    .vld1 [3] (.t 2) 0 (.imm 8), .vld1 [4] (.t 3) 0 (.imm 8), .vld1 [5] (.t 4) 0 (.imm 8),
    .vld1 [6] (.t 5) 0 (.imm 8), .vld1 [7] (.t 6) 0 (.imm 8), .qqd .uaddw 8 8 0, .qqd .uaddw 9 9 1,
    .qqd .uaddw 10 10 2, .qqd .uaddw 11 11 3, .qqd .uaddw 12 12 4, .qqd .uaddw 13 13 5, .qqd .uaddw 14 14 6,
    .qqd .uaddw 15 15 7, .vst1 4 [0, 1, 2, 3] .out 32 (.imm 32), .vst1 4 [4, 5, 6, 7] .out 32 (.imm 32)]
    cond := .ne
    tail := [.zeroD 0, .zeroD 1, .zeroD 2, .zeroD 3, .zeroD 4, .zeroD 5, .zeroD 6, .zeroD 7,
    .vldLane 2 0 [0] .inp (.imm 2), .vldLane 1 2 [0] .inp (.imm 1), .vldLane 2 0 [1] (.t 0) (.imm 2),
    .vldLane 1 2 [1] (.t 0) (.imm 1), .vldLane 2 0 [2] (.t 1) (.imm 2), .vldLane 1 2 [2] (.t 1) (.imm 1),
    .vldLane 2 0 [3] (.t 2) (.imm 2), .vldLane 1 2 [3] (.t 2) (.imm 1), .vldLane 2 0 [4] (.t 3) (.imm 2),
    .vldLane 1 2 [4] (.t 3) (.imm 1), .vldLane 2 0 [5] (.t 4) (.imm 2), .vldLane 1 2 [5] (.t 4) (.imm 1),
    .vldLane 2 0 [6] (.t 5) (.imm 2), .vldLane 1 2 [6] (.t 5) (.imm 1), .vldLane 2 0 [7] (.t 6) (.imm 2),
    .vldLane 1 2 [7] (.t 6) (.imm 1), .qqd .uaddw 8 8 0, .qqd .uaddw 9 9 1, .qqd .uaddw 10 10 2,
    .qqd .uaddw 11 11 3, .qqd .uaddw 12 12 4, .qqd .uaddw 13 13 5, .qqd .uaddw 14 14 6, .qqd .uaddw 15 15 7,
    .vst1 4 [0, 1, 2, 3] .out 32 (.imm 32), .vst1 4 [4, 5, 6, 7] .out 32 (.imm 32), .ldr (.t 0) .mulSum,
    .ldr (.t 1) .addSum, .ins 0 (.t 0), .dupW 1 (.t 1), .qq .uaddlp 8 8, .qq .uaddlp 9 9, .qq .uaddlp 10 10,
    .qq .uaddlp 11 11, .qq .uaddlp 12 12, .qq .uaddlp 13 13, .qq .uaddlp 14 14, .qq .uaddlp 15 15,
    .ddd .vpadd 16 16 17, .ddd .vpadd 18 18 19, .ddd .vpadd 20 20 21, .ddd .vpadd 22 22 23,
    .ddd .vpadd 24 24 25, .ddd .vpadd 26 26 27, .ddd .vpadd 28 28 29, .ddd .vpadd 30 30 31,
    .ddd .vpadd 16 16 18, .ddd .vpadd 17 20 22, .ddd .vpadd 18 24 26, .ddd .vpadd 19 28 30, .mulLane 8 8 0 0,
    .mulLane 9 9 0 0, .qqq .add 8 8 1, .qqq .add 9 9 1, .vst1 4 [16, 17, 18, 19] .out 32 (.imm 0)] }

/-- meta/streams_arm_32.h:5242-5356. -/
def row32_8x4 : Prog32 :=
  { init := [.addX (.t 0) .inp .stride, .addX (.t 1) (.t 0) .stride, .addX (.t 2) (.t 1) .stride,
    .addX (.t 3) (.t 2) .stride, .addX (.t 4) (.t 3) .stride, .addX (.t 5) (.t 4) .stride,
    .addX (.t 6) (.t 5) .stride, .zeroQ 8, .zeroQ 9, .zeroQ 10, .zeroQ 11, .zeroQ 12, .zeroQ 13, .zeroQ 14,
    .zeroQ 15, .subs .count 4]
    skip := true
    body := [.subs .count 8, .vld1 [0] .inp 0 (.imm 8), .vld1 [1] (.t 0) 0 (.imm 8), .vld1 [2] (.t 1) 0 (.imm 8),
    .vld1 [3] (.t 2) 0 (.imm 8), .vld1 [4] (.t 3) 0 (.imm 8), .vld1 [5] (.t 4) 0 (.imm 8),
    .vld1 [6] (.t 5) 0 (.imm 8), .vld1 [7] (.t 6) 0 (.imm 8), .qqd .uaddw 8 8 0, .qqd .uaddw 9 9 1,
    .qqd .uaddw 10 10 2, .qqd .uaddw 11 11 3, .qqd .uaddw 12 12 4, .qqd .uaddw 13 13 5, .qqd .uaddw 14 14 6,
    .qqd .uaddw 15 15 7, .vst1 4 [0, 1, 2, 3] .out 32 (.imm 32), .vst1 4 [4, 5, 6, 7] .out 32 (.imm 32)]
    cond := .ne
    tail := [.zeroD 0, .zeroD 1, .zeroD 2, .zeroD 3, .zeroD 4, .zeroD 5, .zeroD 6, .zeroD 7,
    .vldLane 4 0 [0] .inp (.imm 4), .vldLane 4 0 [1] (.t 0) (.imm 4), .vldLane 4 0 [2] (.t 1) (.imm 4),
    .vldLane 4 0 [3] (.t 2) (.imm 4), .vldLane 4 0 [4] (.t 3) (.imm 4), .vldLane 4 0 [5] (.t 4) (.imm 4),
    .vldLane 4 0 [6] (.t 5) (.imm 4), .vldLane 4 0 [7] (.t 6) (.imm 4), .qqd .uaddw 8 8 0, .qqd .uaddw 9 9 1,
    .qqd .uaddw 10 10 2, .qqd .uaddw 11 11 3, .qqd .uaddw 12 12 4, .qqd .uaddw 13 13 5, .qqd .uaddw 14 14 6,
    .qqd .uaddw 15 15 7, .vst1 4 [0, 1, 2, 3] .out 32 (.imm 32), .vst1 4 [4, 5, 6, 7] .out 32 (.imm 32),
    .ldr (.t 0) .mulSum, .ldr (.t 1) .addSum, .ins 0 (.t 0), .dupW 1 (.t 1), .qq .uaddlp 8 8, .qq .uaddlp 9 9,
    .qq .uaddlp 10 10, .qq .uaddlp 11 11, .qq .uaddlp 12 12, .qq .uaddlp 13 13, .qq .uaddlp 14 14,
    .qq .uaddlp 15 15, .ddd .vpadd 16 16 17, .ddd .vpadd 18 18 19, .ddd .vpadd 20 20 21, .ddd .vpadd 22 22 23,
    .ddd .vpadd 24 24 25, .ddd .vpadd 26 26 27, .ddd .vpadd 28 28 29, .ddd .vpadd 30 30 31,
    .ddd .vpadd 16 16 18, .ddd .vpadd 17 20 22, .ddd .vpadd 18 24 26, .ddd .vpadd 19 28 30, .mulLane 8 8 0 0,
    .mulLane 9 9 0 0, .qqq .add 8 8 1, .qqq .add 9 9 1, .vst1 4 [16, 17, 18, 19] .out 32 (.imm 0)] }

/-- meta/streams_arm_32.h:5370-5492. -/
def row32_8x5 : Prog32 :=
  { init := [.addX (.t 0) .inp .stride, .addX (.t 1) (.t 0) .stride, .addX (.t 2) (.t 1) .stride,
    .addX (.t 3) (.t 2) .stride, .addX (.t 4) (.t 3) .stride, .addX (.t 5) (.t 4) .stride,
    .addX (.t 6) (.t 5) .stride, .zeroQ 8, .zeroQ 9, .zeroQ 10, .zeroQ 11, .zeroQ 12, .zeroQ 13, .zeroQ 14,
    .zeroQ 15, .subs .count 5]
    skip := true
    body := [.subs .count 8, .vld1 [0] .inp 0 (.imm 8), .vld1 [1] (.t 0) 0 (.imm 8), .vld1 [2] (.t 1) 0 (.imm 8),
    .vld1 [3] (.t 2) 0 (.imm 8), .vld1 [4] (.t 3) 0 (.imm 8), .vld1 [5] (.t 4) 0 (.imm 8),
    .vld1 [6] (.t 5) 0 (.imm 8), .vld1 [7] (.t 6) 0 (.imm 8), .qqd .uaddw 8 8 0, .qqd .uaddw 9 9 1,
    .qqd .uaddw 10 10 2, .qqd .uaddw 11 11 3, .qqd .uaddw 12 12 4, .qqd .uaddw 13 13 5, .qqd .uaddw 14 14 6,
    .qqd .uaddw 15 15 7, .vst1 4 [0, 1, 2, 3] .out 32 (.imm 32), .vst1 4 [4, 5, 6, 7] .out 32 (.imm 32)]
    cond := .ne
    tail := [.zeroD 0, .zeroD 1, .zeroD 2, .zeroD 3, .zeroD 4, .zeroD 5, .zeroD 6, .zeroD 7,
    .vldLane 4 0 [0] .inp (.imm 4), .vldLane 1 4 [0] .inp (.imm 1), .vldLane 4 0 [1] (.t 0) (.imm 4),
    .vldLane 1 4 [1] (.t 0) (.imm 1), .vldLane 4 0 [2] (.t 1) (.imm 4), .vldLane 1 4 [2] (.t 1) (.imm 1),
    .vldLane 4 0 [3] (.t 2) (.imm 4), .vldLane 1 4 [3] (.t 2) (.imm 1), .vldLane 4 0 [4] (.t 3) (.imm 4),
    .vldLane 1 4 [4] (.t 3) (.imm 1), .vldLane 4 0 [5] (.t 4) (.imm 4), .vldLane 1 4 [5] (.t 4) (.imm 1),
    .vldLane 4 0 [6] (.t 5) (.imm 4), .vldLane 1 4 [6] (.t 5) (.imm 1), .vldLane 4 0 [7] (.t 6) (.imm 4),
    .vldLane 1 4 [7] (.t 6) (.imm 1), .qqd .uaddw 8 8 0, .qqd .uaddw 9 9 1, .qqd .uaddw 10 10 2,
    .qqd .uaddw 11 11 3, .qqd .uaddw 12 12 4, .qqd .uaddw 13 13 5, .qqd .uaddw 14 14 6, .qqd .uaddw 15 15 7,
    .vst1 4 [0, 1, 2, 3] .out 32 (.imm 32), .vst1 4 [4, 5, 6, 7] .out 32 (.imm 32), .ldr (.t 0) .mulSum,
    .ldr (.t 1) .addSum, .ins 0 (.t 0), .dupW 1 (.t 1), .qq .uaddlp 8 8, .qq .uaddlp 9 9, .qq .uaddlp 10 10,
    .qq .uaddlp 11 11, .qq .uaddlp 12 12, .qq .uaddlp 13 13, .qq .uaddlp 14 14, .qq .uaddlp 15 15,
    .ddd .vpadd 16 16 17, .ddd .vpadd 18 18 19, .ddd .vpadd 20 20 21, .ddd .vpadd 22 22 23,
    .ddd .vpadd 24 24 25, .ddd .vpadd 26 26 27, .ddd .vpadd 28 28 29, .ddd .vpadd 30 30 31,
    .ddd .vpadd 16 16 18, .ddd .vpadd 17 20 22, .ddd .vpadd 18 24 26, .ddd .vpadd 19 28 30, .mulLane 8 8 0 0,
    .mulLane 9 9 0 0, .qqq .add 8 8 1, .qqq .add 9 9 1, .vst1 4 [16, 17, 18, 19] .out 32 (.imm 0)] }

/-- meta/streams_arm_32.h:5506-5628. -/
def row32_8x6 : Prog32 :=
  { init := [.addX (.t 0) .inp .stride, .addX (.t 1) (.t 0) .stride, .addX (.t 2) (.t 1) .stride,
    .addX (.t 3) (.t 2) .stride, .addX (.t 4) (.t 3) .stride, .addX (.t 5) (.t 4) .stride,
    .addX (.t 6) (.t 5) .stride, .zeroQ 8, .zeroQ 9, .zeroQ 10, .zeroQ 11, .zeroQ 12, .zeroQ 13, .zeroQ 14,
    .zeroQ 15, .subs .count 6]
    skip := true
    body := [.subs .count 8, .vld1 [0] .inp 0 (.imm 8), .vld1 [1] (.t 0) 0 (.imm 8), .vld1 [2] (.t 1) 0 (.imm 8),
    .vld1 [3] (.t 2) 0 (.imm 8), .vld1 [4] (.t 3) 0 (.imm 8), .vld1 [5] (.t 4) 0 (.imm 8),
    .vld1 [6] (.t 5) 0 (.imm 8), .vld1 [7] (.t 6) 0 (.imm 8), .qqd .uaddw 8 8 0, .qqd .uaddw 9 9 1,
    .qqd .uaddw 10 10 2, .qqd .uaddw 11 11 3, .qqd .uaddw 12 12 4, .qqd .uaddw 13 13 5, .qqd .uaddw 14 14 6,
    .qqd .uaddw 15 15 7, .vst1 4 [0, 1, 2, 3] .out 32 (.imm 32), .vst1 4 [4, 5, 6, 7] .out 32 (.imm 32)]
    cond := .ne
    tail := [.zeroD 0, .zeroD 1, .zeroD 2, .zeroD 3, .zeroD 4, .zeroD 5, .zeroD 6, .zeroD 7,
    .vldLane 4 0 [0] .inp (.imm 4), .vldLane 2 2 [0] .inp (.imm 2), .vldLane 4 0 [1] (.t 0) (.imm 4),
    .vldLane 2 2 [1] (.t 0) (.imm 2), .vldLane 4 0 [2] (.t 1) (.imm 4), .vldLane 2 2 [2] (.t 1) (.imm 2),
    .vldLane 4 0 [3] (.t 2) (.imm 4), .vldLane 2 2 [3] (.t 2) (.imm 2), .vldLane 4 0 [4] (.t 3) (.imm 4),
    .vldLane 2 2 [4] (.t 3) (.imm 2), .vldLane 4 0 [5] (.t 4) (.imm 4), .vldLane 2 2 [5] (.t 4) (.imm 2),
    .vldLane 4 0 [6] (.t 5) (.imm 4), .vldLane 2 2 [6] (.t 5) (.imm 2), .vldLane 4 0 [7] (.t 6) (.imm 4),
    .vldLane 2 2 [7] (.t 6) (.imm 2), .qqd .uaddw 8 8 0, .qqd .uaddw 9 9 1, .qqd .uaddw 10 10 2,
    .qqd .uaddw 11 11 3, .qqd .uaddw 12 12 4, .qqd .uaddw 13 13 5, .qqd .uaddw 14 14 6, .qqd .uaddw 15 15 7,
    .vst1 4 [0, 1, 2, 3] .out 32 (.imm 32), .vst1 4 [4, 5, 6, 7] .out 32 (.imm 32), .ldr (.t 0) .mulSum,
    .ldr (.t 1) .addSum, .ins 0 (.t 0), .dupW 1 (.t 1), .qq .uaddlp 8 8, .qq .uaddlp 9 9, .qq .uaddlp 10 10,
    .qq .uaddlp 11 11, .qq .uaddlp 12 12, .qq .uaddlp 13 13, .qq .uaddlp 14 14, .qq .uaddlp 15 15,
    .ddd .vpadd 16 16 17, .ddd .vpadd 18 18 19, .ddd .vpadd 20 20 21, .ddd .vpadd 22 22 23,
    .ddd .vpadd 24 24 25, .ddd .vpadd 26 26 27, .ddd .vpadd 28 28 29, .ddd .vpadd 30 30 31,
    .ddd .vpadd 16 16 18, .ddd .vpadd 17 20 22, .ddd .vpadd 18 24 26, .ddd .vpadd 19 28 30, .mulLane 8 8 0 0,
    .mulLane 9 9 0 0, .qqq .add 8 8 1, .qqq .add 9 9 1, .vst1 4 [16, 17, 18, 19] .out 32 (.imm 0)] }

/-- meta/streams_arm_32.h:5642-5772. -/
def row32_8x7 : Prog32 :=
  { init := [.addX (.t 0) .inp .stride, .addX (.t 1) (.t 0) .stride, .addX (.t 2) (.t 1) .stride,
    .addX (.t 3) (.t 2) .stride, .addX (.t 4) (.t 3) .stride, .addX (.t 5) (.t 4) .stride,
    .addX (.t 6) (.t 5) .stride, .zeroQ 8, .zeroQ 9, .zeroQ 10, .zeroQ 11, .zeroQ 12, .zeroQ 13, .zeroQ 14,
    .zeroQ 15, .subs .count 7]
    skip := true
    body := [.subs .count 8, .vld1 [0] .inp 0 (.imm 8), .vld1 [1] (.t 0) 0 (.imm 8), .vld1 [2] (.t 1) 0 (.imm 8),
    .vld1 [3] (.t 2) 0 (.imm 8), .vld1 [4] (.t 3) 0 (.imm 8), .vld1 [5] (.t 4) 0 (.imm 8),
    .vld1 [6] (.t 5) 0 (.imm 8), .vld1 [7] (.t 6) 0 (.imm 8), .qqd .uaddw 8 8 0, .qqd .uaddw 9 9 1,
    .qqd .uaddw 10 10 2, .qqd .uaddw 11 11 3, .qqd .uaddw 12 12 4, .qqd .uaddw 13 13 5, .qqd .uaddw 14 14 6,
    .qqd .uaddw 15 15 7, .vst1 4 [0, 1, 2, 3] .out 32 (.imm 32), .vst1 4 [4, 5, 6, 7] .out 32 (.imm 32)]
    cond := .ne
    tail := [.zeroD 0, .zeroD 1, .zeroD 2, .zeroD 3, .zeroD 4, .zeroD 5, .zeroD 6, .zeroD 7,
    .vldLane 4 0 [0] .inp (.imm 4), .vldLane 2 2 [0] .inp (.imm 2), .vldLane 1 6 [0] .inp (.imm 1),
    .vldLane 4 0 [1] (.t 0) (.imm 4), .vldLane 2 2 [1] (.t 0) (.imm 2), .vldLane 1 6 [1] (.t 0) (.imm 1),
    .vldLane 4 0 [2] (.t 1) (.imm 4), .vldLane 2 2 [2] (.t 1) (.imm 2), .vldLane 1 6 [2] (.t 1) (.imm 1),
    .vldLane 4 0 [3] (.t 2) (.imm 4), .vldLane 2 2 [3] (.t 2) (.imm 2), .vldLane 1 6 [3] (.t 2) (.imm 1),
    .vldLane 4 0 [4] (.t 3) (.imm 4), .vldLane 2 2 [4] (.t 3) (.imm 2), .vldLane 1 6 [4] (.t 3) (.imm 1),
    .vldLane 4 0 [5] (.t 4) (.imm 4), .vldLane 2 2 [5] (.t 4) (.imm 2), .vldLane 1 6 [5] (.t 4) (.imm 1),
    .vldLane 4 0 [6] (.t 5) (.imm 4), .vldLane 2 2 [6] (.t 5) (.imm 2), .vldLane 1 6 [6] (.t 5) (.imm 1),
    .vldLane 4 0 [7] (.t 6) (.imm 4), .vldLane 2 2 [7] (.t 6) (.imm 2), .vldLane 1 6 [7] (.t 6) (.imm 1),
    .qqd .uaddw 8 8 0, .qqd .uaddw 9 9 1, .qqd .uaddw 10 10 2, .qqd .uaddw 11 11 3, .qqd .uaddw 12 12 4,
    .qqd .uaddw 13 13 5, .qqd .uaddw 14 14 6, .qqd .uaddw 15 15 7, .vst1 4 [0, 1, 2, 3] .out 32 (.imm 32),
    .vst1 4 [4, 5, 6, 7] .out 32 (.imm 32), .ldr (.t 0) .mulSum, .ldr (.t 1) .addSum, .ins 0 (.t 0),
    .dupW 1 (.t 1), .qq .uaddlp 8 8, .qq .uaddlp 9 9, .qq .uaddlp 10 10, .qq .uaddlp 11 11, .qq .uaddlp 12 12,
    .qq .uaddlp 13 13, .qq .uaddlp 14 14, .qq .uaddlp 15 15, .ddd .vpadd 16 16 17, .ddd .vpadd 18 18 19,
    .ddd .vpadd 20 20 21, .ddd .vpadd 22 22 23, .ddd .vpadd 24 24 25, .ddd .vpadd 26 26 27,
    .ddd .vpadd 28 28 29, .ddd .vpadd 30 30 31, .ddd .vpadd 16 16 18, .ddd .vpadd 17 20 22,
    .ddd .vpadd 18 24 26, .ddd .vpadd 19 28 30, .mulLane 8 8 0 0, .mulLane 9 9 0 0, .qqq .add 8 8 1,
    .qqq .add 9 9 1, .vst1 4 [16, 17, 18, 19] .out 32 (.imm 0)] }

/-- The code for a number of lanes and of leftovers (0 to 7): the specialisations of `Stream` for `RowMajorWithSum`. -/
def row32Prog : Nat → Nat → Option Prog32
  | 1, 0 => some row32_1x0
  | 1, 1 => some row32_1x1
  | 1, 2 => some row32_1x2
  | 1, 3 => some row32_1x3
  | 1, 4 => some row32_1x4
  | 1, 5 => some row32_1x5
  | 1, 6 => some row32_1x6
  | 1, 7 => some row32_1x7
  | 2, 0 => some row32_2x0
  | 2, 1 => some row32_2x1
  | 2, 2 => some row32_2x2
  | 2, 3 => some row32_2x3
  | 2, 4 => some row32_2x4
  | 2, 5 => some row32_2x5
  | 2, 6 => some row32_2x6
  | 2, 7 => some row32_2x7
  | 3, 0 => some row32_3x0
  | 3, 1 => some row32_3x1
  | 3, 2 => some row32_3x2
  | 3, 3 => some row32_3x3
  | 3, 4 => some row32_3x4
  | 3, 5 => some row32_3x5
  | 3, 6 => some row32_3x6
  | 3, 7 => some row32_3x7
  | 4, 0 => some row32_4x0
  | 4, 1 => some row32_4x1
  | 4, 2 => some row32_4x2
  | 4, 3 => some row32_4x3
  | 4, 4 => some row32_4x4
  | 4, 5 => some row32_4x5
  | 4, 6 => some row32_4x6
  | 4, 7 => some row32_4x7
  | 5, 0 => some row32_5x0
  | 5, 1 => some row32_5x1
  | 5, 2 => some row32_5x2
  | 5, 3 => some row32_5x3
  | 5, 4 => some row32_5x4
  | 5, 5 => some row32_5x5
  | 5, 6 => some row32_5x6
  | 5, 7 => some row32_5x7
  | 6, 0 => some row32_6x0
  | 6, 1 => some row32_6x1
  | 6, 2 => some row32_6x2
  | 6, 3 => some row32_6x3
  | 6, 4 => some row32_6x4
  | 6, 5 => some row32_6x5
  | 6, 6 => some row32_6x6
  | 6, 7 => some row32_6x7
  | 7, 0 => some row32_7x0
  | 7, 1 => some row32_7x1
  | 7, 2 => some row32_7x2
  | 7, 3 => some row32_7x3
  | 7, 4 => some row32_7x4
  | 7, 5 => some row32_7x5
  | 7, 6 => some row32_7x6
  | 7, 7 => some row32_7x7
  | 8, 0 => some row32_8x0
  | 8, 1 => some row32_8x1
  | 8, 2 => some row32_8x2
  | 8, 3 => some row32_8x3
  | 8, 4 => some row32_8x4
  | 8, 5 => some row32_8x5
  | 8, 6 => some row32_8x6
  | 8, 7 => some row32_8x7
  | _, _ => none

end Gemmlowp.MetaAsm
