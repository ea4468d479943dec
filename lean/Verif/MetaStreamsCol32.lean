import Verif.MetaAsm32
/-!
# The ColumnMajorWithSum packing code of meta/streams_arm_32.h

`col32_NxL` is the code of `Stream<uint8_t, N, 8, L, ColumnMajorWithSum>::Pack`, line by line.
-/
namespace Gemmlowp.MetaAsm

/-- meta/streams_arm_32.h:5788-5823. -/
def col32_1x0 : Prog32 :=
  { init := [.zeroQ 8]
    skip := false
    body := [.subs .count 8, .vldLane 1 0 [0] .inp (.reg .stride), .vldLane 1 1 [0] .inp (.reg .stride),
    .vldLane 1 2 [0] .inp (.reg .stride), .vldLane 1 3 [0] .inp (.reg .stride),
    .vldLane 1 4 [0] .inp (.reg .stride), .vldLane 1 5 [0] .inp (.reg .stride),
    .vldLane 1 6 [0] .inp (.reg .stride), .vldLane 1 7 [0] .inp (.reg .stride), .qqd .uaddw 8 8 0,
    .vst1 4 [0] .out 8 (.imm 8)]
    cond := .ne
    tail := [.ins 0 .mulSum, .dupW 1 .addSum, .qq .uaddlp 8 8, .ddd .vpadd 16 16 17, .ddd .vpadd 16 16 16,
    .mulLane 8 8 0 0, .qqq .add 8 8 1, .vst1 4 [16, 17] .out 8 (.imm 0)] }

/-- meta/streams_arm_32.h:5839-5887. -/
def col32_1x1 : Prog32 :=
  { init := [.zeroQ 8, .subs .count 1]
    skip := true
    body := [.subs .count 8, .vldLane 1 0 [0] .inp (.reg .stride), .vldLane 1 1 [0] .inp (.reg .stride),
    .vldLane 1 2 [0] .inp (.reg .stride), .vldLane 1 3 [0] .inp (.reg .stride),
    .vldLane 1 4 [0] .inp (.reg .stride), .vldLane 1 5 [0] .inp (.reg .stride),
    .vldLane 1 6 [0] .inp (.reg .stride), .vldLane 1 7 [0] .inp (.reg .stride), .qqd .uaddw 8 8 0,
    .vst1 4 [0] .out 8 (.imm 8)]
    cond := .ne
    tail := [.zeroD 0, .vldLane 1 0 [0] .inp (.reg .stride), .qqd .uaddw 8 8 0, .vst1 4 [0] .out 8 (.imm 8),
    .ins 0 .mulSum, .dupW 1 .addSum, .qq .uaddlp 8 8, .ddd .vpadd 16 16 17, .ddd .vpadd 16 16 16,
    .mulLane 8 8 0 0, .qqq .add 8 8 1, .vst1 4 [16, 17] .out 8 (.imm 0)] }

/-- meta/streams_arm_32.h:5903-5952. -/
def col32_1x2 : Prog32 :=
  { init := [.zeroQ 8, .subs .count 2]
    skip := true
    body := [.subs .count 8, .vldLane 1 0 [0] .inp (.reg .stride), .vldLane 1 1 [0] .inp (.reg .stride),
    .vldLane 1 2 [0] .inp (.reg .stride), .vldLane 1 3 [0] .inp (.reg .stride),
    .vldLane 1 4 [0] .inp (.reg .stride), .vldLane 1 5 [0] .inp (.reg .stride),
    .vldLane 1 6 [0] .inp (.reg .stride), .vldLane 1 7 [0] .inp (.reg .stride), .qqd .uaddw 8 8 0,
    .vst1 4 [0] .out 8 (.imm 8)]
    cond := .ne
    tail := [.zeroD 0, .vldLane 1 0 [0] .inp (.reg .stride), .vldLane 1 1 [0] .inp (.reg .stride), .qqd .uaddw 8 8 0,
    .vst1 4 [0] .out 8 (.imm 8), .ins 0 .mulSum, .dupW 1 .addSum, .qq .uaddlp 8 8, .ddd .vpadd 16 16 17,
    .ddd .vpadd 16 16 16, .mulLane 8 8 0 0, .qqq .add 8 8 1, .vst1 4 [16, 17] .out 8 (.imm 0)] }

/-- meta/streams_arm_32.h:5968-6018. -/
def col32_1x3 : Prog32 :=
  { init := [.zeroQ 8, .subs .count 3]
    skip := true
    body := [.subs .count 8, .vldLane 1 0 [0] .inp (.reg .stride), .vldLane 1 1 [0] .inp (.reg .stride),
    .vldLane 1 2 [0] .inp (.reg .stride), .vldLane 1 3 [0] .inp (.reg .stride),
    .vldLane 1 4 [0] .inp (.reg .stride), .vldLane 1 5 [0] .inp (.reg .stride),
    .vldLane 1 6 [0] .inp (.reg .stride), .vldLane 1 7 [0] .inp (.reg .stride), .qqd .uaddw 8 8 0,
    .vst1 4 [0] .out 8 (.imm 8)]
    cond := .ne
    tail := [.zeroD 0, .vldLane 1 0 [0] .inp (.reg .stride), .vldLane 1 1 [0] .inp (.reg .stride),
    .vldLane 1 2 [0] .inp (.reg .stride), .qqd .uaddw 8 8 0, .vst1 4 [0] .out 8 (.imm 8), .ins 0 .mulSum,
    .dupW 1 .addSum, .qq .uaddlp 8 8, .ddd .vpadd 16 16 17, .ddd .vpadd 16 16 16, .mulLane 8 8 0 0,
    .qqq .add 8 8 1, .vst1 4 [16, 17] .out 8 (.imm 0)] }

/-- meta/streams_arm_32.h:6034-6085. -/
def col32_1x4 : Prog32 :=
  { init := [.zeroQ 8, .subs .count 4]
    skip := true
    body := [.subs .count 8, .vldLane 1 0 [0] .inp (.reg .stride), .vldLane 1 1 [0] .inp (.reg .stride),
    .vldLane 1 2 [0] .inp (.reg .stride), .vldLane 1 3 [0] .inp (.reg .stride),
    .vldLane 1 4 [0] .inp (.reg .stride), .vldLane 1 5 [0] .inp (.reg .stride),
    .vldLane 1 6 [0] .inp (.reg .stride), .vldLane 1 7 [0] .inp (.reg .stride), .qqd .uaddw 8 8 0,
    .vst1 4 [0] .out 8 (.imm 8)]
    cond := .ne
    tail := [.zeroD 0, .vldLane 1 0 [0] .inp (.reg .stride), .vldLane 1 1 [0] .inp (.reg .stride),
    .vldLane 1 2 [0] .inp (.reg .stride), .vldLane 1 3 [0] .inp (.reg .stride), .qqd .uaddw 8 8 0,
    .vst1 4 [0] .out 8 (.imm 8), .ins 0 .mulSum, .dupW 1 .addSum, .qq .uaddlp 8 8, .ddd .vpadd 16 16 17,
    .ddd .vpadd 16 16 16, .mulLane 8 8 0 0, .qqq .add 8 8 1, .vst1 4 [16, 17] .out 8 (.imm 0)] }

/-- meta/streams_arm_32.h:6101-6153. -/
def col32_1x5 : Prog32 :=
  { init := [.zeroQ 8, .subs .count 5]
    skip := true
    body := [.subs .count 8, .vldLane 1 0 [0] .inp (.reg .stride), .vldLane 1 1 [0] .inp (.reg .stride),
    .vldLane 1 2 [0] .inp (.reg .stride), .vldLane 1 3 [0] .inp (.reg .stride),
    .vldLane 1 4 [0] .inp (.reg .stride), .vldLane 1 5 [0] .inp (.reg .stride),
    .vldLane 1 6 [0] .inp (.reg .stride), .vldLane 1 7 [0] .inp (.reg .stride), .qqd .uaddw 8 8 0,
    .vst1 4 [0] .out 8 (.imm 8)]
    cond := .ne
    tail := [.zeroD 0, .vldLane 1 0 [0] .inp (.reg .stride), .vldLane 1 1 [0] .inp (.reg .stride),
    .vldLane 1 2 [0] .inp (.reg .stride), .vldLane 1 3 [0] .inp (.reg .stride),
    .vldLane 1 4 [0] .inp (.reg .stride), .qqd .uaddw 8 8 0, .vst1 4 [0] .out 8 (.imm 8), .ins 0 .mulSum,
    .dupW 1 .addSum, .qq .uaddlp 8 8, .ddd .vpadd 16 16 17, .ddd .vpadd 16 16 16, .mulLane 8 8 0 0,
    .qqq .add 8 8 1, .vst1 4 [16, 17] .out 8 (.imm 0)] }

/-- meta/streams_arm_32.h:6169-6222. -/
def col32_1x6 : Prog32 :=
  { init := [.zeroQ 8, .subs .count 6]
    skip := true
    body := [.subs .count 8, .vldLane 1 0 [0] .inp (.reg .stride), .vldLane 1 1 [0] .inp (.reg .stride),
    .vldLane 1 2 [0] .inp (.reg .stride), .vldLane 1 3 [0] .inp (.reg .stride),
    .vldLane 1 4 [0] .inp (.reg .stride), .vldLane 1 5 [0] .inp (.reg .stride),
    .vldLane 1 6 [0] .inp (.reg .stride), .vldLane 1 7 [0] .inp (.reg .stride), .qqd .uaddw 8 8 0,
    .vst1 4 [0] .out 8 (.imm 8)]
    cond := .ne
    tail := [.zeroD 0, .vldLane 1 0 [0] .inp (.reg .stride), .vldLane 1 1 [0] .inp (.reg .stride),
    .vldLane 1 2 [0] .inp (.reg .stride), .vldLane 1 3 [0] .inp (.reg .stride),
    .vldLane 1 4 [0] .inp (.reg .stride), .vldLane 1 5 [0] .inp (.reg .stride), .qqd .uaddw 8 8 0,
    .vst1 4 [0] .out 8 (.imm 8), .ins 0 .mulSum, .dupW 1 .addSum, .qq .uaddlp 8 8, .ddd .vpadd 16 16 17,
    .ddd .vpadd 16 16 16, .mulLane 8 8 0 0, .qqq .add 8 8 1, .vst1 4 [16, 17] .out 8 (.imm 0)] }

/-- meta/streams_arm_32.h:6238-6292. -/
def col32_1x7 : Prog32 :=
  { init := [.zeroQ 8, .subs .count 7]
    skip := true
    body := [.subs .count 8, .vldLane 1 0 [0] .inp (.reg .stride), .vldLane 1 1 [0] .inp (.reg .stride),
    .vldLane 1 2 [0] .inp (.reg .stride), .vldLane 1 3 [0] .inp (.reg .stride),
    .vldLane 1 4 [0] .inp (.reg .stride), .vldLane 1 5 [0] .inp (.reg .stride),
    .vldLane 1 6 [0] .inp (.reg .stride), .vldLane 1 7 [0] .inp (.reg .stride), .qqd .uaddw 8 8 0,
    .vst1 4 [0] .out 8 (.imm 8)]
    cond := .ne
    tail := [.zeroD 0, .vldLane 1 0 [0] .inp (.reg .stride), .vldLane 1 1 [0] .inp (.reg .stride),
    .vldLane 1 2 [0] .inp (.reg .stride), .vldLane 1 3 [0] .inp (.reg .stride),
    .vldLane 1 4 [0] .inp (.reg .stride), .vldLane 1 5 [0] .inp (.reg .stride),
    .vldLane 1 6 [0] .inp (.reg .stride), .qqd .uaddw 8 8 0, .vst1 4 [0] .out 8 (.imm 8), .ins 0 .mulSum,
    .dupW 1 .addSum, .qq .uaddlp 8 8, .ddd .vpadd 16 16 17, .ddd .vpadd 16 16 16, .mulLane 8 8 0 0,
    .qqq .add 8 8 1, .vst1 4 [16, 17] .out 8 (.imm 0)] }

/-- meta/streams_arm_32.h:6308-6348. -/
def col32_2x0 : Prog32 :=
  { init := [.zeroQ 8, .zeroQ 9]
    skip := false
    body := [.subs .count 8, .vldLane 2 0 [0] .inp (.reg .stride), .vldLane 2 1 [0] .inp (.reg .stride),
    .vldLane 2 2 [0] .inp (.reg .stride), .vldLane 2 3 [0] .inp (.reg .stride),
    .vldLane 2 0 [1] .inp (.reg .stride), .vldLane 2 1 [1] .inp (.reg .stride),
    .vldLane 2 2 [1] .inp (.reg .stride), .vldLane 2 3 [1] .inp (.reg .stride), .perm .uzp1b .uzp2b 0 1,
    .qqd .uaddw 8 8 0, .qqd .uaddw 9 9 1, .vst1 4 [0, 1] .out 16 (.imm 16)]
    cond := .ne
    tail := [.ins 0 .mulSum, .dupW 1 .addSum, .qq .uaddlp 8 8, .qq .uaddlp 9 9, .ddd .vpadd 16 16 17,
    .ddd .vpadd 18 18 19, .ddd .vpadd 16 16 18, .mulLane 8 8 0 0, .qqq .add 8 8 1,
    .vst1 4 [16, 17] .out 16 (.imm 0)] }

/-- meta/streams_arm_32.h:6364-6420. -/
def col32_2x1 : Prog32 :=
  { init := [.zeroQ 8, .zeroQ 9, .subs .count 1]
    skip := true
    body := [.subs .count 8, .vldLane 2 0 [0] .inp (.reg .stride), .vldLane 2 1 [0] .inp (.reg .stride),
    .vldLane 2 2 [0] .inp (.reg .stride), .vldLane 2 3 [0] .inp (.reg .stride),
    .vldLane 2 0 [1] .inp (.reg .stride), .vldLane 2 1 [1] .inp (.reg .stride),
    .vldLane 2 2 [1] .inp (.reg .stride), .vldLane 2 3 [1] .inp (.reg .stride), .perm .uzp1b .uzp2b 0 1,
    .qqd .uaddw 8 8 0, .qqd .uaddw 9 9 1, .vst1 4 [0, 1] .out 16 (.imm 16)]
    cond := .ne
    tail := [.zeroD 0, .zeroD 1, .vldLane 2 0 [0] .inp (.reg .stride), .perm .uzp1b .uzp2b 0 1, .qqd .uaddw 8 8 0,
    .qqd .uaddw 9 9 1, .vst1 4 [0, 1] .out 16 (.imm 16), .ins 0 .mulSum, .dupW 1 .addSum, .qq .uaddlp 8 8,
    .qq .uaddlp 9 9, .ddd .vpadd 16 16 17, .ddd .vpadd 18 18 19, .ddd .vpadd 16 16 18, .mulLane 8 8 0 0,
    .qqq .add 8 8 1, .vst1 4 [16, 17] .out 16 (.imm 0)] }

/-- meta/streams_arm_32.h:6436-6493. -/
def col32_2x2 : Prog32 :=
  { init := [.zeroQ 8, .zeroQ 9, .subs .count 2]
    skip := true
    body := [.subs .count 8, .vldLane 2 0 [0] .inp (.reg .stride), .vldLane 2 1 [0] .inp (.reg .stride),
    .vldLane 2 2 [0] .inp (.reg .stride), .vldLane 2 3 [0] .inp (.reg .stride),
    .vldLane 2 0 [1] .inp (.reg .stride), .vldLane 2 1 [1] .inp (.reg .stride),
    .vldLane 2 2 [1] .inp (.reg .stride), .vldLane 2 3 [1] .inp (.reg .stride), .perm .uzp1b .uzp2b 0 1,
    .qqd .uaddw 8 8 0, .qqd .uaddw 9 9 1, .vst1 4 [0, 1] .out 16 (.imm 16)]
    cond := .ne
    tail := [.zeroD 0, .zeroD 1, .vldLane 2 0 [0] .inp (.reg .stride), .vldLane 2 1 [0] .inp (.reg .stride),
    .perm .uzp1b .uzp2b 0 1, .qqd .uaddw 8 8 0, .qqd .uaddw 9 9 1, .vst1 4 [0, 1] .out 16 (.imm 16),
    .ins 0 .mulSum, .dupW 1 .addSum, .qq .uaddlp 8 8, .qq .uaddlp 9 9, .ddd .vpadd 16 16 17,
    .ddd .vpadd 18 18 19, .ddd .vpadd 16 16 18, .mulLane 8 8 0 0, .qqq .add 8 8 1,
    .vst1 4 [16, 17] .out 16 (.imm 0)] }

/-- meta/streams_arm_32.h:6509-6567. -/
def col32_2x3 : Prog32 :=
  { init := [.zeroQ 8, .zeroQ 9, .subs .count 3]
    skip := true
    body := [.subs .count 8, .vldLane 2 0 [0] .inp (.reg .stride), .vldLane 2 1 [0] .inp (.reg .stride),
    .vldLane 2 2 [0] .inp (.reg .stride), .vldLane 2 3 [0] .inp (.reg .stride),
    .vldLane 2 0 [1] .inp (.reg .stride), .vldLane 2 1 [1] .inp (.reg .stride),
    .vldLane 2 2 [1] .inp (.reg .stride), .vldLane 2 3 [1] .inp (.reg .stride), .perm .uzp1b .uzp2b 0 1,
    .qqd .uaddw 8 8 0, .qqd .uaddw 9 9 1, .vst1 4 [0, 1] .out 16 (.imm 16)]
    cond := .ne
    tail := [.zeroD 0, .zeroD 1, .vldLane 2 0 [0] .inp (.reg .stride), .vldLane 2 1 [0] .inp (.reg .stride),
    .vldLane 2 2 [0] .inp (.reg .stride), .perm .uzp1b .uzp2b 0 1, .qqd .uaddw 8 8 0, .qqd .uaddw 9 9 1,
    .vst1 4 [0, 1] .out 16 (.imm 16), .ins 0 .mulSum, .dupW 1 .addSum, .qq .uaddlp 8 8, .qq .uaddlp 9 9,
    .ddd .vpadd 16 16 17, .ddd .vpadd 18 18 19, .ddd .vpadd 16 16 18, .mulLane 8 8 0 0, .qqq .add 8 8 1,
    .vst1 4 [16, 17] .out 16 (.imm 0)] }

/-- meta/streams_arm_32.h:6583-6642. -/
def col32_2x4 : Prog32 :=
  { init := [.zeroQ 8, .zeroQ 9, .subs .count 4]
    skip := true
    body := [.subs .count 8, .vldLane 2 0 [0] .inp (.reg .stride), .vldLane 2 1 [0] .inp (.reg .stride),
    .vldLane 2 2 [0] .inp (.reg .stride), .vldLane 2 3 [0] .inp (.reg .stride),
    .vldLane 2 0 [1] .inp (.reg .stride), .vldLane 2 1 [1] .inp (.reg .stride),
    .vldLane 2 2 [1] .inp (.reg .stride), .vldLane 2 3 [1] .inp (.reg .stride), .perm .uzp1b .uzp2b 0 1,
    .qqd .uaddw 8 8 0, .qqd .uaddw 9 9 1, .vst1 4 [0, 1] .out 16 (.imm 16)]
    cond := .ne
    tail := [.zeroD 0, .zeroD 1, .vldLane 2 0 [0] .inp (.reg .stride), .vldLane 2 1 [0] .inp (.reg .stride),
    .vldLane 2 2 [0] .inp (.reg .stride), .vldLane 2 3 [0] .inp (.reg .stride), .perm .uzp1b .uzp2b 0 1,
    .qqd .uaddw 8 8 0, .qqd .uaddw 9 9 1, .vst1 4 [0, 1] .out 16 (.imm 16), .ins 0 .mulSum, .dupW 1 .addSum,
    .qq .uaddlp 8 8, .qq .uaddlp 9 9, .ddd .vpadd 16 16 17, .ddd .vpadd 18 18 19, .ddd .vpadd 16 16 18,
    .mulLane 8 8 0 0, .qqq .add 8 8 1, .vst1 4 [16, 17] .out 16 (.imm 0)] }

/-- meta/streams_arm_32.h:6658-6718. -/
def col32_2x5 : Prog32 :=
  { init := [.zeroQ 8, .zeroQ 9, .subs .count 5]
    skip := true
    body := [.subs .count 8, .vldLane 2 0 [0] .inp (.reg .stride), .vldLane 2 1 [0] .inp (.reg .stride),
    .vldLane 2 2 [0] .inp (.reg .stride), .vldLane 2 3 [0] .inp (.reg .stride),
    .vldLane 2 0 [1] .inp (.reg .stride), .vldLane 2 1 [1] .inp (.reg .stride),
    .vldLane 2 2 [1] .inp (.reg .stride), .vldLane 2 3 [1] .inp (.reg .stride), .perm .uzp1b .uzp2b 0 1,
    .qqd .uaddw 8 8 0, .qqd .uaddw 9 9 1, .vst1 4 [0, 1] .out 16 (.imm 16)]
    cond := .ne
    tail := [.zeroD 0, .zeroD 1, .vldLane 2 0 [0] .inp (.reg .stride), .vldLane 2 1 [0] .inp (.reg .stride),
    .vldLane 2 2 [0] .inp (.reg .stride), .vldLane 2 3 [0] .inp (.reg .stride),
    .vldLane 2 0 [1] .inp (.reg .stride), .perm .uzp1b .uzp2b 0 1, .qqd .uaddw 8 8 0, .qqd .uaddw 9 9 1,
    .vst1 4 [0, 1] .out 16 (.imm 16), .ins 0 .mulSum, .dupW 1 .addSum, .qq .uaddlp 8 8, .qq .uaddlp 9 9,
    .ddd .vpadd 16 16 17, .ddd .vpadd 18 18 19, .ddd .vpadd 16 16 18, .mulLane 8 8 0 0, .qqq .add 8 8 1,
    .vst1 4 [16, 17] .out 16 (.imm 0)] }

/-- meta/streams_arm_32.h:6734-6795. -/
def col32_2x6 : Prog32 :=
  { init := [.zeroQ 8, .zeroQ 9, .subs .count 6]
    skip := true
    body := [.subs .count 8, .vldLane 2 0 [0] .inp (.reg .stride), .vldLane 2 1 [0] .inp (.reg .stride),
    .vldLane 2 2 [0] .inp (.reg .stride), .vldLane 2 3 [0] .inp (.reg .stride),
    .vldLane 2 0 [1] .inp (.reg .stride), .vldLane 2 1 [1] .inp (.reg .stride),
    .vldLane 2 2 [1] .inp (.reg .stride), .vldLane 2 3 [1] .inp (.reg .stride), .perm .uzp1b .uzp2b 0 1,
    .qqd .uaddw 8 8 0, .qqd .uaddw 9 9 1, .vst1 4 [0, 1] .out 16 (.imm 16)]
    cond := .ne
    tail := [.zeroD 0, .zeroD 1, .vldLane 2 0 [0] .inp (.reg .stride), .vldLane 2 1 [0] .inp (.reg .stride),
    .vldLane 2 2 [0] .inp (.reg .stride), .vldLane 2 3 [0] .inp (.reg .stride),
    .vldLane 2 0 [1] .inp (.reg .stride), .vldLane 2 1 [1] .inp (.reg .stride), .perm .uzp1b .uzp2b 0 1,
    .qqd .uaddw 8 8 0, .qqd .uaddw 9 9 1, .vst1 4 [0, 1] .out 16 (.imm 16), .ins 0 .mulSum, .dupW 1 .addSum,
    .qq .uaddlp 8 8, .qq .uaddlp 9 9, .ddd .vpadd 16 16 17, .ddd .vpadd 18 18 19, .ddd .vpadd 16 16 18,
    .mulLane 8 8 0 0, .qqq .add 8 8 1, .vst1 4 [16, 17] .out 16 (.imm 0)] }

/-- meta/streams_arm_32.h:6811-6873. -/
def col32_2x7 : Prog32 :=
  { init := [.zeroQ 8, .zeroQ 9, .subs .count 7]
    skip := true
    body := [.subs .count 8, .vldLane 2 0 [0] .inp (.reg .stride), .vldLane 2 1 [0] .inp (.reg .stride),
    .vldLane 2 2 [0] .inp (.reg .stride), .vldLane 2 3 [0] .inp (.reg .stride),
    .vldLane 2 0 [1] .inp (.reg .stride), .vldLane 2 1 [1] .inp (.reg .stride),
    .vldLane 2 2 [1] .inp (.reg .stride), .vldLane 2 3 [1] .inp (.reg .stride), .perm .uzp1b .uzp2b 0 1,
    .qqd .uaddw 8 8 0, .qqd .uaddw 9 9 1, .vst1 4 [0, 1] .out 16 (.imm 16)]
    cond := .ne
    tail := [.zeroD 0, .zeroD 1, .vldLane 2 0 [0] .inp (.reg .stride), .vldLane 2 1 [0] .inp (.reg .stride),
    .vldLane 2 2 [0] .inp (.reg .stride), .vldLane 2 3 [0] .inp (.reg .stride),
    .vldLane 2 0 [1] .inp (.reg .stride), .vldLane 2 1 [1] .inp (.reg .stride),
    .vldLane 2 2 [1] .inp (.reg .stride), .perm .uzp1b .uzp2b 0 1, .qqd .uaddw 8 8 0, .qqd .uaddw 9 9 1,
    .vst1 4 [0, 1] .out 16 (.imm 16), .ins 0 .mulSum, .dupW 1 .addSum, .qq .uaddlp 8 8, .qq .uaddlp 9 9,
    .ddd .vpadd 16 16 17, .ddd .vpadd 18 18 19, .ddd .vpadd 16 16 18, .mulLane 8 8 0 0, .qqq .add 8 8 1,
    .vst1 4 [16, 17] .out 16 (.imm 0)] }

/-- meta/streams_arm_32.h:6889-6933. -/
def col32_3x0 : Prog32 :=
  { init := [.zeroQ 8, .zeroQ 9, .zeroQ 10]
    skip := false
    body := [.subs .count 8, .vldLane 1 0 [0, 1, 2] .inp (.reg .stride), .vldLane 1 1 [0, 1, 2] .inp (.reg .stride),
    .vldLane 1 2 [0, 1, 2] .inp (.reg .stride), .vldLane 1 3 [0, 1, 2] .inp (.reg .stride),
    .vldLane 1 4 [0, 1, 2] .inp (.reg .stride), .vldLane 1 5 [0, 1, 2] .inp (.reg .stride),
    .vldLane 1 6 [0, 1, 2] .inp (.reg .stride), .vldLane 1 7 [0, 1, 2] .inp (.reg .stride), .qqd .uaddw 8 8 0,
    .qqd .uaddw 9 9 1, .qqd .uaddw 10 10 2, .vst1 4 [0, 1, 2] .out 8 (.imm 24)]
    cond := .ne
    tail := [.ins 0 .mulSum, .dupW 1 .addSum, .qq .uaddlp 8 8, .qq .uaddlp 9 9, .qq .uaddlp 10 10, .ddd .vpadd 16 16 17,
    .ddd .vpadd 18 18 19, .ddd .vpadd 20 20 21, .ddd .vpadd 16 16 18, .ddd .vpadd 17 20 20, .mulLane 8 8 0 0,
    .qqq .add 8 8 1, .vst1 4 [16, 17] .out 8 (.imm 0)] }

/-- meta/streams_arm_32.h:6949-7009. -/
def col32_3x1 : Prog32 :=
  { init := [.zeroQ 8, .zeroQ 9, .zeroQ 10, .subs .count 1]
    skip := true
    body := [.subs .count 8, .vldLane 1 0 [0, 1, 2] .inp (.reg .stride), .vldLane 1 1 [0, 1, 2] .inp (.reg .stride),
    .vldLane 1 2 [0, 1, 2] .inp (.reg .stride), .vldLane 1 3 [0, 1, 2] .inp (.reg .stride),
    .vldLane 1 4 [0, 1, 2] .inp (.reg .stride), .vldLane 1 5 [0, 1, 2] .inp (.reg .stride),
    .vldLane 1 6 [0, 1, 2] .inp (.reg .stride), .vldLane 1 7 [0, 1, 2] .inp (.reg .stride), .qqd .uaddw 8 8 0,
    .qqd .uaddw 9 9 1, .qqd .uaddw 10 10 2, .vst1 4 [0, 1, 2] .out 8 (.imm 24)]
    cond := .ne
    tail := [.zeroD 0, .zeroD 1, .zeroD 2, .vldLane 1 0 [0, 1, 2] .inp (.reg .stride), .qqd .uaddw 8 8 0,
    .qqd .uaddw 9 9 1, .qqd .uaddw 10 10 2, .vst1 4 [0, 1, 2] .out 8 (.imm 24), .ins 0 .mulSum,
    .dupW 1 .addSum, .qq .uaddlp 8 8, .qq .uaddlp 9 9, .qq .uaddlp 10 10, .ddd .vpadd 16 16 17,
    .ddd .vpadd 18 18 19, .ddd .vpadd 20 20 21, .ddd .vpadd 16 16 18, .ddd .vpadd 17 20 20, .mulLane 8 8 0 0,
    .qqq .add 8 8 1, .vst1 4 [16, 17] .out 8 (.imm 0)] }

/-- meta/streams_arm_32.h:7025-7086. -/
def col32_3x2 : Prog32 :=
  { init := [.zeroQ 8, .zeroQ 9, .zeroQ 10, .subs .count 2]
    skip := true
    body := [.subs .count 8, .vldLane 1 0 [0, 1, 2] .inp (.reg .stride), .vldLane 1 1 [0, 1, 2] .inp (.reg .stride),
    .vldLane 1 2 [0, 1, 2] .inp (.reg .stride), .vldLane 1 3 [0, 1, 2] .inp (.reg .stride),
    .vldLane 1 4 [0, 1, 2] .inp (.reg .stride), .vldLane 1 5 [0, 1, 2] .inp (.reg .stride),
    .vldLane 1 6 [0, 1, 2] .inp (.reg .stride), .vldLane 1 7 [0, 1, 2] .inp (.reg .stride), .qqd .uaddw 8 8 0,
    .qqd .uaddw 9 9 1, .qqd .uaddw 10 10 2, .vst1 4 [0, 1, 2] .out 8 (.imm 24)]
    cond := .ne
    tail := [.zeroD 0, .zeroD 1, .zeroD 2, .vldLane 1 0 [0, 1, 2] .inp (.reg .stride),
    .vldLane 1 1 [0, 1, 2] .inp (.reg .stride), .qqd .uaddw 8 8 0, .qqd .uaddw 9 9 1, .qqd .uaddw 10 10 2,
    .vst1 4 [0, 1, 2] .out 8 (.imm 24), .ins 0 .mulSum, .dupW 1 .addSum, .qq .uaddlp 8 8, .qq .uaddlp 9 9,
    .qq .uaddlp 10 10, .ddd .vpadd 16 16 17, .ddd .vpadd 18 18 19, .ddd .vpadd 20 20 21, .ddd .vpadd 16 16 18,
    .ddd .vpadd 17 20 20, .mulLane 8 8 0 0, .qqq .add 8 8 1, .vst1 4 [16, 17] .out 8 (.imm 0)] }

/-- meta/streams_arm_32.h:7102-7164. -/
def col32_3x3 : Prog32 :=
  { init := [.zeroQ 8, .zeroQ 9, .zeroQ 10, .subs .count 3]
    skip := true
    body := [.subs .count 8, .vldLane 1 0 [0, 1, 2] .inp (.reg .stride), .vldLane 1 1 [0, 1, 2] .inp (.reg .stride),
    .vldLane 1 2 [0, 1, 2] .inp (.reg .stride), .vldLane 1 3 [0, 1, 2] .inp (.reg .stride),
    .vldLane 1 4 [0, 1, 2] .inp (.reg .stride), .vldLane 1 5 [0, 1, 2] .inp (.reg .stride),
    .vldLane 1 6 [0, 1, 2] .inp (.reg .stride), .vldLane 1 7 [0, 1, 2] .inp (.reg .stride), .qqd .uaddw 8 8 0,
    .qqd .uaddw 9 9 1, .qqd .uaddw 10 10 2, .vst1 4 [0, 1, 2] .out 8 (.imm 24)]
    cond := .ne
    tail := [.zeroD 0, .zeroD 1, .zeroD 2, .vldLane 1 0 [0, 1, 2] .inp (.reg .stride),
    .vldLane 1 1 [0, 1, 2] .inp (.reg .stride), .vldLane 1 2 [0, 1, 2] .inp (.reg .stride), .qqd .uaddw 8 8 0,
    .qqd .uaddw 9 9 1, .qqd .uaddw 10 10 2, .vst1 4 [0, 1, 2] .out 8 (.imm 24), .ins 0 .mulSum,
    .dupW 1 .addSum, .qq .uaddlp 8 8, .qq .uaddlp 9 9, .qq .uaddlp 10 10, .ddd .vpadd 16 16 17,
    .ddd .vpadd 18 18 19, .ddd .vpadd 20 20 21, .ddd .vpadd 16 16 18, .ddd .vpadd 17 20 20, .mulLane 8 8 0 0,
    .qqq .add 8 8 1, .vst1 4 [16, 17] .out 8 (.imm 0)] }

/-- meta/streams_arm_32.h:7180-7243. -/
def col32_3x4 : Prog32 :=
  { init := [.zeroQ 8, .zeroQ 9, .zeroQ 10, .subs .count 4]
    skip := true
    body := [.subs .count 8, .vldLane 1 0 [0, 1, 2] .inp (.reg .stride), .vldLane 1 1 [0, 1, 2] .inp (.reg .stride),
    .vldLane 1 2 [0, 1, 2] .inp (.reg .stride), .vldLane 1 3 [0, 1, 2] .inp (.reg .stride),
    .vldLane 1 4 [0, 1, 2] .inp (.reg .stride), .vldLane 1 5 [0, 1, 2] .inp (.reg .stride),
    .vldLane 1 6 [0, 1, 2] .inp (.reg .stride), .vldLane 1 7 [0, 1, 2] .inp (.reg .stride), .qqd .uaddw 8 8 0,
    .qqd .uaddw 9 9 1, .qqd .uaddw 10 10 2, .vst1 4 [0, 1, 2] .out 8 (.imm 24)]
    cond := .ne
    tail := [.zeroD 0, .zeroD 1, .zeroD 2, .vldLane 1 0 [0, 1, 2] .inp (.reg .stride),
    .vldLane 1 1 [0, 1, 2] .inp (.reg .stride), .vldLane 1 2 [0, 1, 2] .inp (.reg .stride),
    .vldLane 1 3 [0, 1, 2] .inp (.reg .stride), .qqd .uaddw 8 8 0, .qqd .uaddw 9 9 1, .qqd .uaddw 10 10 2,
    .vst1 4 [0, 1, 2] .out 8 (.imm 24), .ins 0 .mulSum, .dupW 1 .addSum, .qq .uaddlp 8 8, .qq .uaddlp 9 9,
    .qq .uaddlp 10 10, .ddd .vpadd 16 16 17, .ddd .vpadd 18 18 19, .ddd .vpadd 20 20 21, .ddd .vpadd 16 16 18,
    .ddd .vpadd 17 20 20, .mulLane 8 8 0 0, .qqq .add 8 8 1, .vst1 4 [16, 17] .out 8 (.imm 0)] }

/-- meta/streams_arm_32.h:7259-7323. -/
def col32_3x5 : Prog32 :=
  { init := [.zeroQ 8, .zeroQ 9, .zeroQ 10, .subs .count 5]
    skip := true
    body := [.subs .count 8, .vldLane 1 0 [0, 1, 2] .inp (.reg .stride), .vldLane 1 1 [0, 1, 2] .inp (.reg .stride),
    .vldLane 1 2 [0, 1, 2] .inp (.reg .stride), .vldLane 1 3 [0, 1, 2] .inp (.reg .stride),
    .vldLane 1 4 [0, 1, 2] .inp (.reg .stride), .vldLane 1 5 [0, 1, 2] .inp (.reg .stride),
    .vldLane 1 6 [0, 1, 2] .inp (.reg .stride), .vldLane 1 7 [0, 1, 2] .inp (.reg .stride), .qqd .uaddw 8 8 0,
    .qqd .uaddw 9 9 1, .qqd .uaddw 10 10 2, .vst1 4 [0, 1, 2] .out 8 (.imm 24)]
    cond := .ne
    tail := [.zeroD 0, .zeroD 1, .zeroD 2, .vldLane 1 0 [0, 1, 2] .inp (.reg .stride),
    .vldLane 1 1 [0, 1, 2] .inp (.reg .stride), .vldLane 1 2 [0, 1, 2] .inp (.reg .stride),
    .vldLane 1 3 [0, 1, 2] .inp (.reg .stride), .vldLane 1 4 [0, 1, 2] .inp (.reg .stride), .qqd .uaddw 8 8 0,
    .qqd .uaddw 9 9 1, .qqd .uaddw 10 10 2, .vst1 4 [0, 1, 2] .out 8 (.imm 24), .ins 0 .mulSum,
    .dupW 1 .addSum, .qq .uaddlp 8 8, .qq .uaddlp 9 9, .qq .uaddlp 10 10, .ddd .vpadd 16 16 17,
    .ddd .vpadd 18 18 19, .ddd .vpadd 20 20 21, .ddd .vpadd 16 16 18, .ddd .vpadd 17 20 20, .mulLane 8 8 0 0,
    .qqq .add 8 8 1, .vst1 4 [16, 17] .out 8 (.imm 0)] }

/-- meta/streams_arm_32.h:7339-7404. -/
def col32_3x6 : Prog32 :=
  { init := [.zeroQ 8, .zeroQ 9, .zeroQ 10, .subs .count 6]
    skip := true
    body := [.subs .count 8, .vldLane 1 0 [0, 1, 2] .inp (.reg .stride), .vldLane 1 1 [0, 1, 2] .inp (.reg .stride),
    .vldLane 1 2 [0, 1, 2] .inp (.reg .stride), .vldLane 1 3 [0, 1, 2] .inp (.reg .stride),
    .vldLane 1 4 [0, 1, 2] .inp (.reg .stride), .vldLane 1 5 [0, 1, 2] .inp (.reg .stride),
    .vldLane 1 6 [0, 1, 2] .inp (.reg .stride), .vldLane 1 7 [0, 1, 2] .inp (.reg .stride), .qqd .uaddw 8 8 0,
    .qqd .uaddw 9 9 1, .qqd .uaddw 10 10 2, .vst1 4 [0, 1, 2] .out 8 (.imm 24)]
    cond := .ne
    tail := [.zeroD 0, .zeroD 1, .zeroD 2, .vldLane 1 0 [0, 1, 2] .inp (.reg .stride),
    .vldLane 1 1 [0, 1, 2] .inp (.reg .stride), .vldLane 1 2 [0, 1, 2] .inp (.reg .stride),
    .vldLane 1 3 [0, 1, 2] .inp (.reg .stride), .vldLane 1 4 [0, 1, 2] .inp (.reg .stride),
    .vldLane 1 5 [0, 1, 2] .inp (.reg .stride), .qqd .uaddw 8 8 0, .qqd .uaddw 9 9 1, .qqd .uaddw 10 10 2,
    .vst1 4 [0, 1, 2] .out 8 (.imm 24), .ins 0 .mulSum, .dupW 1 .addSum, .qq .uaddlp 8 8, .qq .uaddlp 9 9,
    .qq .uaddlp 10 10, .ddd .vpadd 16 16 17, .ddd .vpadd 18 18 19, .ddd .vpadd 20 20 21, .ddd .vpadd 16 16 18,
    .ddd .vpadd 17 20 20, .mulLane 8 8 0 0, .qqq .add 8 8 1, .vst1 4 [16, 17] .out 8 (.imm 0)] }

/-- meta/streams_arm_32.h:7420-7486. -/
def col32_3x7 : Prog32 :=
  { init := [.zeroQ 8, .zeroQ 9, .zeroQ 10, .subs .count 7]
    skip := true
    body := [.subs .count 8, .vldLane 1 0 [0, 1, 2] .inp (.reg .stride), .vldLane 1 1 [0, 1, 2] .inp (.reg .stride),
    .vldLane 1 2 [0, 1, 2] .inp (.reg .stride), .vldLane 1 3 [0, 1, 2] .inp (.reg .stride),
    .vldLane 1 4 [0, 1, 2] .inp (.reg .stride), .vldLane 1 5 [0, 1, 2] .inp (.reg .stride),
    .vldLane 1 6 [0, 1, 2] .inp (.reg .stride), .vldLane 1 7 [0, 1, 2] .inp (.reg .stride), .qqd .uaddw 8 8 0,
    .qqd .uaddw 9 9 1, .qqd .uaddw 10 10 2, .vst1 4 [0, 1, 2] .out 8 (.imm 24)]
    cond := .ne
    tail := [.zeroD 0, .zeroD 1, .zeroD 2, .vldLane 1 0 [0, 1, 2] .inp (.reg .stride),
    .vldLane 1 1 [0, 1, 2] .inp (.reg .stride), .vldLane 1 2 [0, 1, 2] .inp (.reg .stride),
    .vldLane 1 3 [0, 1, 2] .inp (.reg .stride), .vldLane 1 4 [0, 1, 2] .inp (.reg .stride),
    .vldLane 1 5 [0, 1, 2] .inp (.reg .stride), .vldLane 1 6 [0, 1, 2] .inp (.reg .stride), .qqd .uaddw 8 8 0,
    .qqd .uaddw 9 9 1, .qqd .uaddw 10 10 2, .vst1 4 [0, 1, 2] .out 8 (.imm 24), .ins 0 .mulSum,
    .dupW 1 .addSum, .qq .uaddlp 8 8, .qq .uaddlp 9 9, .qq .uaddlp 10 10, .ddd .vpadd 16 16 17,
    .ddd .vpadd 18 18 19, .ddd .vpadd 20 20 21, .ddd .vpadd 16 16 18, .ddd .vpadd 17 20 20, .mulLane 8 8 0 0,
    .qqq .add 8 8 1, .vst1 4 [16, 17] .out 8 (.imm 0)] }

/-- meta/streams_arm_32.h:7502-7555. -/
def col32_4x0 : Prog32 :=
  { init := [.zeroQ 8, .zeroQ 9, .zeroQ 10, .zeroQ 11]
    skip := false
    body := [.subs .count 8, .vldLane 4 0 [0] .inp (.reg .stride), .vldLane 4 0 [1] .inp (.reg .stride),
    .vldLane 4 0 [2] .inp (.reg .stride), .vldLane 4 0 [3] .inp (.reg .stride),
    .vldLane 4 1 [0] .inp (.reg .stride), .vldLane 4 1 [1] .inp (.reg .stride),
    .vldLane 4 1 [2] .inp (.reg .stride), .vldLane 4 1 [3] .inp (.reg .stride), .perm .trn1h .trn2h 0 2,
    .perm .trn1h .trn2h 1 3, .perm .trn1b .trn2b 0 1, .perm .trn1b .trn2b 2 3, .qqd .uaddw 8 8 0,
    .qqd .uaddw 9 9 1, .qqd .uaddw 10 10 2, .qqd .uaddw 11 11 3, .vst1 4 [0, 1, 2, 3] .out 32 (.imm 32)]
    cond := .ne
    tail := [.ins 0 .mulSum, .dupW 1 .addSum, .qq .uaddlp 8 8, .qq .uaddlp 9 9, .qq .uaddlp 10 10, .qq .uaddlp 11 11,
    .ddd .vpadd 16 16 17, .ddd .vpadd 18 18 19, .ddd .vpadd 20 20 21, .ddd .vpadd 22 22 23,
    .ddd .vpadd 16 16 18, .ddd .vpadd 17 20 22, .mulLane 8 8 0 0, .qqq .add 8 8 1,
    .vst1 4 [16, 17] .out 16 (.imm 0)] }

/-- meta/streams_arm_32.h:7571-7647. -/
def col32_4x1 : Prog32 :=
  { init := [.zeroQ 8, .zeroQ 9, .zeroQ 10, .zeroQ 11, .subs .count 1]
    skip := true
    body := [.subs .count 8, .vldLane 4 0 [0] .inp (.reg .stride), .vldLane 4 0 [1] .inp (.reg .stride),
    .vldLane 4 0 [2] .inp (.reg .stride), .vldLane 4 0 [3] .inp (.reg .stride),
    .vldLane 4 1 [0] .inp (.reg .stride), .vldLane 4 1 [1] .inp (.reg .stride),
    .vldLane 4 1 [2] .inp (.reg .stride), .vldLane 4 1 [3] .inp (.reg .stride), .perm .trn1h .trn2h 0 2,
    .perm .trn1h .trn2h 1 3, .perm .trn1b .trn2b 0 1, .perm .trn1b .trn2b 2 3, .qqd .uaddw 8 8 0,
    .qqd .uaddw 9 9 1, .qqd .uaddw 10 10 2, .qqd .uaddw 11 11 3, .vst1 4 [0, 1, 2, 3] .out 32 (.imm 32)]
    cond := .ne
    tail := [.zeroD 0, .zeroD 1, .zeroD 2, .zeroD 3, .vldLane 4 0 [0] .inp (.reg .stride), .perm .trn1h .trn2h 0 2,
    .perm .trn1h .trn2h 1 3, .perm .trn1b .trn2b 0 1, .perm .trn1b .trn2b 2 3, .qqd .uaddw 8 8 0,
    .qqd .uaddw 9 9 1, .qqd .uaddw 10 10 2, .qqd .uaddw 11 11 3, .vst1 4 [0, 1, 2, 3] .out 32 (.imm 32),
    .ins 0 .mulSum, .dupW 1 .addSum, .qq .uaddlp 8 8, .qq .uaddlp 9 9, .qq .uaddlp 10 10, .qq .uaddlp 11 11,
    .ddd .vpadd 16 16 17, .ddd .vpadd 18 18 19, .ddd .vpadd 20 20 21, .ddd .vpadd 22 22 23,
    .ddd .vpadd 16 16 18, .ddd .vpadd 17 20 22, .mulLane 8 8 0 0, .qqq .add 8 8 1,
    .vst1 4 [16, 17] .out 16 (.imm 0)] }

/-- meta/streams_arm_32.h:7663-7740. -/
def col32_4x2 : Prog32 :=
  { init := [.zeroQ 8, .zeroQ 9, .zeroQ 10, .zeroQ 11, .subs .count 2]
    skip := true
    body := [.subs .count 8, .vldLane 4 0 [0] .inp (.reg .stride), .vldLane 4 0 [1] .inp (.reg .stride),
    .vldLane 4 0 [2] .inp (.reg .stride), .vldLane 4 0 [3] .inp (.reg .stride),
    .vldLane 4 1 [0] .inp (.reg .stride), .vldLane 4 1 [1] .inp (.reg .stride),
    .vldLane 4 1 [2] .inp (.reg .stride), .vldLane 4 1 [3] .inp (.reg .stride), .perm .trn1h .trn2h 0 2,
    .perm .trn1h .trn2h 1 3, .perm .trn1b .trn2b 0 1, .perm .trn1b .trn2b 2 3, .qqd .uaddw 8 8 0,
    .qqd .uaddw 9 9 1, .qqd .uaddw 10 10 2, .qqd .uaddw 11 11 3, .vst1 4 [0, 1, 2, 3] .out 32 (.imm 32)]
    cond := .ne
    tail := [.zeroD 0, .zeroD 1, .zeroD 2, .zeroD 3, .vldLane 4 0 [0] .inp (.reg .stride),
    .vldLane 4 0 [1] .inp (.reg .stride), .perm .trn1h .trn2h 0 2, .perm .trn1h .trn2h 1 3,
    .perm .trn1b .trn2b 0 1, .perm .trn1b .trn2b 2 3, .qqd .uaddw 8 8 0, .qqd .uaddw 9 9 1,
    .qqd .uaddw 10 10 2, .qqd .uaddw 11 11 3, .vst1 4 [0, 1, 2, 3] .out 32 (.imm 32), .ins 0 .mulSum,
    .dupW 1 .addSum, .qq .uaddlp 8 8, .qq .uaddlp 9 9, .qq .uaddlp 10 10, .qq .uaddlp 11 11,
    .ddd .vpadd 16 16 17, .ddd .vpadd 18 18 19, .ddd .vpadd 20 20 21, .ddd .vpadd 22 22 23,
    .ddd .vpadd 16 16 18, .ddd .vpadd 17 20 22, .mulLane 8 8 0 0, .qqq .add 8 8 1,
    .vst1 4 [16, 17] .out 16 (.imm 0)] }

/-- meta/streams_arm_32.h:7756-7834. -/
def col32_4x3 : Prog32 :=
  { init := [.zeroQ 8, .zeroQ 9, .zeroQ 10, .zeroQ 11, .subs .count 3]
    skip := true
    body := [.subs .count 8, .vldLane 4 0 [0] .inp (.reg .stride), .vldLane 4 0 [1] .inp (.reg .stride),
    .vldLane 4 0 [2] .inp (.reg .stride), .vldLane 4 0 [3] .inp (.reg .stride),
    .vldLane 4 1 [0] .inp (.reg .stride), .vldLane 4 1 [1] .inp (.reg .stride),
    .vldLane 4 1 [2] .inp (.reg .stride), .vldLane 4 1 [3] .inp (.reg .stride), .perm .trn1h .trn2h 0 2,
    .perm .trn1h .trn2h 1 3, .perm .trn1b .trn2b 0 1, .perm .trn1b .trn2b 2 3, .qqd .uaddw 8 8 0,
    .qqd .uaddw 9 9 1, .qqd .uaddw 10 10 2, .qqd .uaddw 11 11 3, .vst1 4 [0, 1, 2, 3] .out 32 (.imm 32)]
    cond := .ne
    tail := [.zeroD 0, .zeroD 1, .zeroD 2, .zeroD 3, .vldLane 4 0 [0] .inp (.reg .stride),
    .vldLane 4 0 [1] .inp (.reg .stride), .vldLane 4 0 [2] .inp (.reg .stride), .perm .trn1h .trn2h 0 2,
    .perm .trn1h .trn2h 1 3, .perm .trn1b .trn2b 0 1, .perm .trn1b .trn2b 2 3, .qqd .uaddw 8 8 0,
    .qqd .uaddw 9 9 1, .qqd .uaddw 10 10 2, .qqd .uaddw 11 11 3, .vst1 4 [0, 1, 2, 3] .out 32 (.imm 32),
    .ins 0 .mulSum, .dupW 1 .addSum, .qq .uaddlp 8 8, .qq .uaddlp 9 9, .qq .uaddlp 10 10, .qq .uaddlp 11 11,
    .ddd .vpadd 16 16 17, .ddd .vpadd 18 18 19, .ddd .vpadd 20 20 21, .ddd .vpadd 22 22 23,
    .ddd .vpadd 16 16 18, .ddd .vpadd 17 20 22, .mulLane 8 8 0 0, .qqq .add 8 8 1,
    .vst1 4 [16, 17] .out 16 (.imm 0)] }

/-- meta/streams_arm_32.h:7850-7929. -/
def col32_4x4 : Prog32 :=
  { init := [.zeroQ 8, .zeroQ 9, .zeroQ 10, .zeroQ 11, .subs .count 4]
    skip := true
    body := [.subs .count 8, .vldLane 4 0 [0] .inp (.reg .stride), .vldLane 4 0 [1] .inp (.reg .stride),
    .vldLane 4 0 [2] .inp (.reg .stride), .vldLane 4 0 [3] .inp (.reg .stride),
    .vldLane 4 1 [0] .inp (.reg .stride), .vldLane 4 1 [1] .inp (.reg .stride),
    .vldLane 4 1 [2] .inp (.reg .stride), .vldLane 4 1 [3] .inp (.reg .stride), .perm .trn1h .trn2h 0 2,
    .perm .trn1h .trn2h 1 3, .perm .trn1b .trn2b 0 1, .perm .trn1b .trn2b 2 3, .qqd .uaddw 8 8 0,
    .qqd .uaddw 9 9 1, .qqd .uaddw 10 10 2, .qqd .uaddw 11 11 3, .vst1 4 [0, 1, 2, 3] .out 32 (.imm 32)]
    cond := .ne
    tail := [.zeroD 0, .zeroD 1, .zeroD 2, .zeroD 3, .vldLane 4 0 [0] .inp (.reg .stride),
    .vldLane 4 0 [1] .inp (.reg .stride), .vldLane 4 0 [2] .inp (.reg .stride),
    .vldLane 4 0 [3] .inp (.reg .stride), .perm .trn1h .trn2h 0 2, .perm .trn1h .trn2h 1 3,
    .perm .trn1b .trn2b 0 1, .perm .trn1b .trn2b 2 3, .qqd .uaddw 8 8 0, .qqd .uaddw 9 9 1,
    .qqd .uaddw 10 10 2, .qqd .uaddw 11 11 3, .vst1 4 [0, 1, 2, 3] .out 32 (.imm 32), .ins 0 .mulSum,
    .dupW 1 .addSum, .qq .uaddlp 8 8, .qq .uaddlp 9 9, .qq .uaddlp 10 10, .qq .uaddlp 11 11,
    .ddd .vpadd 16 16 17, .ddd .vpadd 18 18 19, .ddd .vpadd 20 20 21, .ddd .vpadd 22 22 23,
    .ddd .vpadd 16 16 18, .ddd .vpadd 17 20 22, .mulLane 8 8 0 0, .qqq .add 8 8 1,
    .vst1 4 [16, 17] .out 16 (.imm 0)] }

/-- meta/streams_arm_32.h:7945-8025. -/
def col32_4x5 : Prog32 :=
  { init := [.zeroQ 8, .zeroQ 9, .zeroQ 10, .zeroQ 11, .subs .count 5]
    skip := true
    body := [.subs .count 8, .vldLane 4 0 [0] .inp (.reg .stride), .vldLane 4 0 [1] .inp (.reg .stride),
    .vldLane 4 0 [2] .inp (.reg .stride), .vldLane 4 0 [3] .inp (.reg .stride),
    .vldLane 4 1 [0] .inp (.reg .stride), .vldLane 4 1 [1] .inp (.reg .stride),
    .vldLane 4 1 [2] .inp (.reg .stride), .vldLane 4 1 [3] .inp (.reg .stride), .perm .trn1h .trn2h 0 2,
    .perm .trn1h .trn2h 1 3, .perm .trn1b .trn2b 0 1, .perm .trn1b .trn2b 2 3, .qqd .uaddw 8 8 0,
    .qqd .uaddw 9 9 1, .qqd .uaddw 10 10 2, .qqd .uaddw 11 11 3, .vst1 4 [0, 1, 2, 3] .out 32 (.imm 32)]
    cond := .ne
    tail := [.zeroD 0, .zeroD 1, .zeroD 2, .zeroD 3, .vldLane 4 0 [0] .inp (.reg .stride),
    .vldLane 4 0 [1] .inp (.reg .stride), .vldLane 4 0 [2] .inp (.reg .stride),
    .vldLane 4 0 [3] .inp (.reg .stride), .vldLane 4 1 [0] .inp (.reg .stride), .perm .trn1h .trn2h 0 2,
    .perm .trn1h .trn2h 1 3, .perm .trn1b .trn2b 0 1, .perm .trn1b .trn2b 2 3, .qqd .uaddw 8 8 0,
    .qqd .uaddw 9 9 1, .qqd .uaddw 10 10 2, .qqd .uaddw 11 11 3, .vst1 4 [0, 1, 2, 3] .out 32 (.imm 32),
    .ins 0 .mulSum, .dupW 1 .addSum, .qq .uaddlp 8 8, .qq .uaddlp 9 9, .qq .uaddlp 10 10, .qq .uaddlp 11 11,
    .ddd .vpadd 16 16 17, .ddd .vpadd 18 18 19, .ddd .vpadd 20 20 21, .ddd .vpadd 22 22 23,
    .ddd .vpadd 16 16 18, .ddd .vpadd 17 20 22, .mulLane 8 8 0 0, .qqq .add 8 8 1,
    .vst1 4 [16, 17] .out 16 (.imm 0)] }

/-- meta/streams_arm_32.h:8041-8122. -/
def col32_4x6 : Prog32 :=
  { init := [.zeroQ 8, .zeroQ 9, .zeroQ 10, .zeroQ 11, .subs .count 6]
    skip := true
    body := [.subs .count 8, .vldLane 4 0 [0] .inp (.reg .stride), .vldLane 4 0 [1] .inp (.reg .stride),
    .vldLane 4 0 [2] .inp (.reg .stride), .vldLane 4 0 [3] .inp (.reg .stride),
    .vldLane 4 1 [0] .inp (.reg .stride), .vldLane 4 1 [1] .inp (.reg .stride),
    .vldLane 4 1 [2] .inp (.reg .stride), .vldLane 4 1 [3] .inp (.reg .stride), .perm .trn1h .trn2h 0 2,
    .perm .trn1h .trn2h 1 3, .perm .trn1b .trn2b 0 1, .perm .trn1b .trn2b 2 3, .qqd .uaddw 8 8 0,
    .qqd .uaddw 9 9 1, .qqd .uaddw 10 10 2, .qqd .uaddw 11 11 3, .vst1 4 [0, 1, 2, 3] .out 32 (.imm 32)]
    cond := .ne
    tail := [.zeroD 0, .zeroD 1, .zeroD 2, .zeroD 3, .vldLane 4 0 [0] .inp (.reg .stride),
    .vldLane 4 0 [1] .inp (.reg .stride), .vldLane 4 0 [2] .inp (.reg .stride),
    .vldLane 4 0 [3] .inp (.reg .stride), .vldLane 4 1 [0] .inp (.reg .stride),
    .vldLane 4 1 [1] .inp (.reg .stride), .perm .trn1h .trn2h 0 2, .perm .trn1h .trn2h 1 3,
    .perm .trn1b .trn2b 0 1, .perm .trn1b .trn2b 2 3, .qqd .uaddw 8 8 0, .qqd .uaddw 9 9 1,
    .qqd .uaddw 10 10 2, .qqd .uaddw 11 11 3, .vst1 4 [0, 1, 2, 3] .out 32 (.imm 32), .ins 0 .mulSum,
    .dupW 1 .addSum, .qq .uaddlp 8 8, .qq .uaddlp 9 9, .qq .uaddlp 10 10, .qq .uaddlp 11 11,
    .ddd .vpadd 16 16 17, .ddd .vpadd 18 18 19, .ddd .vpadd 20 20 21, .ddd .vpadd 22 22 23,
    .ddd .vpadd 16 16 18, .ddd .vpadd 17 20 22, .mulLane 8 8 0 0, .qqq .add 8 8 1,
    .vst1 4 [16, 17] .out 16 (.imm 0)] }

/-- meta/streams_arm_32.h:8138-8220. -/
def col32_4x7 : Prog32 :=
  { init := [.zeroQ 8, .zeroQ 9, .zeroQ 10, .zeroQ 11, .subs .count 7]
    skip := true
    body := [.subs .count 8, .vldLane 4 0 [0] .inp (.reg .stride), .vldLane 4 0 [1] .inp (.reg .stride),
    .vldLane 4 0 [2] .inp (.reg .stride), .vldLane 4 0 [3] .inp (.reg .stride),
    .vldLane 4 1 [0] .inp (.reg .stride), .vldLane 4 1 [1] .inp (.reg .stride),
    .vldLane 4 1 [2] .inp (.reg .stride), .vldLane 4 1 [3] .inp (.reg .stride), .perm .trn1h .trn2h 0 2,
    .perm .trn1h .trn2h 1 3, .perm .trn1b .trn2b 0 1, .perm .trn1b .trn2b 2 3, .qqd .uaddw 8 8 0,
    .qqd .uaddw 9 9 1, .qqd .uaddw 10 10 2, .qqd .uaddw 11 11 3, .vst1 4 [0, 1, 2, 3] .out 32 (.imm 32)]
    cond := .ne
    tail := [.zeroD 0, .zeroD 1, .zeroD 2, .zeroD 3, .vldLane 4 0 [0] .inp (.reg .stride),
    .vldLane 4 0 [1] .inp (.reg .stride), .vldLane 4 0 [2] .inp (.reg .stride),
    .vldLane 4 0 [3] .inp (.reg .stride), .vldLane 4 1 [0] .inp (.reg .stride),
    .vldLane 4 1 [1] .inp (.reg .stride), .vldLane 4 1 [2] .inp (.reg .stride), .perm .trn1h .trn2h 0 2,
    .perm .trn1h .trn2h 1 3, .perm .trn1b .trn2b 0 1, .perm .trn1b .trn2b 2 3, .qqd .uaddw 8 8 0,
    .qqd .uaddw 9 9 1, .qqd .uaddw 10 10 2, .qqd .uaddw 11 11 3, .vst1 4 [0, 1, 2, 3] .out 32 (.imm 32),
    .ins 0 .mulSum, .dupW 1 .addSum, .qq .uaddlp 8 8, .qq .uaddlp 9 9, .qq .uaddlp 10 10, .qq .uaddlp 11 11,
    .ddd .vpadd 16 16 17, .ddd .vpadd 18 18 19, .ddd .vpadd 20 20 21, .ddd .vpadd 22 22 23,
    .ddd .vpadd 16 16 18, .ddd .vpadd 17 20 22, .mulLane 8 8 0 0, .qqq .add 8 8 1,
    .vst1 4 [16, 17] .out 16 (.imm 0)] }

/-- meta/streams_arm_32.h:8236-8306. -/
def col32_5x0 : Prog32 :=
  { init := [.sub .stride 4, .zeroQ 8, .zeroQ 9, .zeroQ 10, .zeroQ 11, .zeroQ 12]
    skip := false
    body := [.subs .count 8, .vldLane 4 0 [0] .inp (.imm 4), .vldLane 1 0 [4] .inp (.reg .stride),
    .vldLane 4 0 [1] .inp (.imm 4), .vldLane 1 1 [4] .inp (.reg .stride), .vldLane 4 0 [2] .inp (.imm 4),
    .vldLane 1 2 [4] .inp (.reg .stride), .vldLane 4 0 [3] .inp (.imm 4), .vldLane 1 3 [4] .inp (.reg .stride),
    .vldLane 4 1 [0] .inp (.imm 4), .vldLane 1 4 [4] .inp (.reg .stride), .vldLane 4 1 [1] .inp (.imm 4),
    .vldLane 1 5 [4] .inp (.reg .stride), .vldLane 4 1 [2] .inp (.imm 4), .vldLane 1 6 [4] .inp (.reg .stride),
    .vldLane 4 1 [3] .inp (.imm 4), .vldLane 1 7 [4] .inp (.reg .stride), .perm .trn1h .trn2h 0 2,
    .perm .trn1h .trn2h 1 3, .perm .trn1b .trn2b 0 1, .perm .trn1b .trn2b 2 3, .qqd .uaddw 8 8 0,
    .qqd .uaddw 9 9 1, .qqd .uaddw 10 10 2, .qqd .uaddw 11 11 3, .qqd .uaddw 12 12 4,
    .vst1 4 [0, 1, 2, 3] .out 8 (.imm 32), .vst1 4 [4] .out 8 (.imm 8)]
    cond := .ne
    tail := [.ins 0 .mulSum, .dupW 1 .addSum, .qq .uaddlp 8 8, .qq .uaddlp 9 9, .qq .uaddlp 10 10, .qq .uaddlp 11 11,
    .qq .uaddlp 12 12, .ddd .vpadd 16 16 17, .ddd .vpadd 18 18 19, .ddd .vpadd 20 20 21, .ddd .vpadd 22 22 23,
    .ddd .vpadd 24 24 25, .ddd .vpadd 16 16 18, .ddd .vpadd 17 20 22, .ddd .vpadd 18 24 24, .mulLane 8 8 0 0,
    .mulLane 9 9 0 0, .qqq .add 8 8 1, .qqq .add 9 9 1, .vst1 4 [16, 17, 18, 19] .out 8 (.imm 0)] }

/-- meta/streams_arm_32.h:8322-8419. -/
def col32_5x1 : Prog32 :=
  { init := [.sub .stride 4, .zeroQ 8, .zeroQ 9, .zeroQ 10, .zeroQ 11, .zeroQ 12, .subs .count 1]
    skip := true
    body := [.subs .count 8, .vldLane 4 0 [0] .inp (.imm 4), .vldLane 1 0 [4] .inp (.reg .stride),
    .vldLane 4 0 [1] .inp (.imm 4), .vldLane 1 1 [4] .inp (.reg .stride), .vldLane 4 0 [2] .inp (.imm 4),
    .vldLane 1 2 [4] .inp (.reg .stride), .vldLane 4 0 [3] .inp (.imm 4), .vldLane 1 3 [4] .inp (.reg .stride),
    .vldLane 4 1 [0] .inp (.imm 4), .vldLane 1 4 [4] .inp (.reg .stride), .vldLane 4 1 [1] .inp (.imm 4),
    .vldLane 1 5 [4] .inp (.reg .stride), .vldLane 4 1 [2] .inp (.imm 4), .vldLane 1 6 [4] .inp (.reg .stride),
    .vldLane 4 1 [3] .inp (.imm 4), .vldLane 1 7 [4] .inp (.reg .stride), .perm .trn1h .trn2h 0 2,
    .perm .trn1h .trn2h 1 3, .perm .trn1b .trn2b 0 1, .perm .trn1b .trn2b 2 3, .qqd .uaddw 8 8 0,
    .qqd .uaddw 9 9 1, .qqd .uaddw 10 10 2, .qqd .uaddw 11 11 3, .qqd .uaddw 12 12 4,
    .vst1 4 [0, 1, 2, 3] .out 8 (.imm 32), .vst1 4 [4] .out 8 (.imm 8)]
    cond := .ne
    tail := [.zeroD 0, .zeroD 1, .zeroD 2, .zeroD 3, .zeroD 4, .vldLane 4 0 [0] .inp (.imm 4),
    .vldLane 1 0 [4] .inp (.reg .stride), .perm .trn1h .trn2h 0 2, .perm .trn1h .trn2h 1 3,
    .perm .trn1b .trn2b 0 1, .perm .trn1b .trn2b 2 3, .qqd .uaddw 8 8 0, .qqd .uaddw 9 9 1,
    .qqd .uaddw 10 10 2, .qqd .uaddw 11 11 3, .qqd .uaddw 12 12 4, .vst1 4 [0, 1, 2, 3] .out 8 (.imm 32),
    .vst1 4 [4] .out 8 (.imm 8), .ins 0 .mulSum, .dupW 1 .addSum, .qq .uaddlp 8 8, .qq .uaddlp 9 9,
    .qq .uaddlp 10 10, .qq .uaddlp 11 11, .qq .uaddlp 12 12, .ddd .vpadd 16 16 17, .ddd .vpadd 18 18 19,
    .ddd .vpadd 20 20 21, .ddd .vpadd 22 22 23, .ddd .vpadd 24 24 25, .ddd .vpadd 16 16 18,
    .ddd .vpadd 17 20 22, .ddd .vpadd 18 24 24, .mulLane 8 8 0 0, .mulLane 9 9 0 0, .qqq .add 8 8 1,
    .qqq .add 9 9 1, .vst1 4 [16, 17, 18, 19] .out 8 (.imm 0)] }

/-- meta/streams_arm_32.h:8435-8534. -/
def col32_5x2 : Prog32 :=
  { init := [.sub .stride 4, .zeroQ 8, .zeroQ 9, .zeroQ 10, .zeroQ 11, .zeroQ 12, .subs .count 2]
    skip := true
    body := [.subs .count 8, .vldLane 4 0 [0] .inp (.imm 4), .vldLane 1 0 [4] .inp (.reg .stride),
    .vldLane 4 0 [1] .inp (.imm 4), .vldLane 1 1 [4] .inp (.reg .stride), .vldLane 4 0 [2] .inp (.imm 4),
    .vldLane 1 2 [4] .inp (.reg .stride), .vldLane 4 0 [3] .inp (.imm 4), .vldLane 1 3 [4] .inp (.reg .stride),
    .vldLane 4 1 [0] .inp (.imm 4), .vldLane 1 4 [4] .inp (.reg .stride), .vldLane 4 1 [1] .inp (.imm 4),
    .vldLane 1 5 [4] .inp (.reg .stride), .vldLane 4 1 [2] .inp (.imm 4), .vldLane 1 6 [4] .inp (.reg .stride),
    .vldLane 4 1 [3] .inp (.imm 4), .vldLane 1 7 [4] .inp (.reg .stride), .perm .trn1h .trn2h 0 2,
    .perm .trn1h .trn2h 1 3, .perm .trn1b .trn2b 0 1, .perm .trn1b .trn2b 2 3, .qqd .uaddw 8 8 0,
    .qqd .uaddw 9 9 1, .qqd .uaddw 10 10 2, .qqd .uaddw 11 11 3, .qqd .uaddw 12 12 4,
    .vst1 4 [0, 1, 2, 3] .out 8 (.imm 32), .vst1 4 [4] .out 8 (.imm 8)]
    cond := .ne
    tail := [.zeroD 0, .zeroD 1, .zeroD 2, .zeroD 3, .zeroD 4, .vldLane 4 0 [0] .inp (.imm 4),
    .vldLane 1 0 [4] .inp (.reg .stride), .vldLane 4 0 [1] .inp (.imm 4), .vldLane 1 1 [4] .inp (.reg .stride),
    .perm .trn1h .trn2h 0 2, .perm .trn1h .trn2h 1 3, .perm .trn1b .trn2b 0 1, .perm .trn1b .trn2b 2 3,
    .qqd .uaddw 8 8 0, .qqd .uaddw 9 9 1, .qqd .uaddw 10 10 2, .qqd .uaddw 11 11 3, .qqd .uaddw 12 12 4,
    .vst1 4 [0, 1, 2, 3] .out 8 (.imm 32), .vst1 4 [4] .out 8 (.imm 8), .ins 0 .mulSum, .dupW 1 .addSum,
    .qq .uaddlp 8 8, .qq .uaddlp 9 9, .qq .uaddlp 10 10, .qq .uaddlp 11 11, .qq .uaddlp 12 12,
    .ddd .vpadd 16 16 17, .ddd .vpadd 18 18 19, .ddd .vpadd 20 20 21, .ddd .vpadd 22 22 23,
    .ddd .vpadd 24 24 25, .ddd .vpadd 16 16 18, .ddd .vpadd 17 20 22, .ddd .vpadd 18 24 24, .mulLane 8 8 0 0,
    .mulLane 9 9 0 0, .qqq .add 8 8 1, .qqq .add 9 9 1, .vst1 4 [16, 17, 18, 19] .out 8 (.imm 0)] }

/-- meta/streams_arm_32.h:8550-8651. -/
def col32_5x3 : Prog32 :=
  { init := [.sub .stride 4, .zeroQ 8, .zeroQ 9, .zeroQ 10, .zeroQ 11, .zeroQ 12, .subs .count 3]
    skip := true
    body := [.subs .count 8, .vldLane 4 0 [0] .inp (.imm 4), .vldLane 1 0 [4] .inp (.reg .stride),
    .vldLane 4 0 [1] .inp (.imm 4), .vldLane 1 1 [4] .inp (.reg .stride), .vldLane 4 0 [2] .inp (.imm 4),
    .vldLane 1 2 [4] .inp (.reg .stride), .vldLane 4 0 [3] .inp (.imm 4), .vldLane 1 3 [4] .inp (.reg .stride),
    .vldLane 4 1 [0] .inp (.imm 4), .vldLane 1 4 [4] .inp (.reg .stride), .vldLane 4 1 [1] .inp (.imm 4),
    .vldLane 1 5 [4] .inp (.reg .stride), .vldLane 4 1 [2] .inp (.imm 4), .vldLane 1 6 [4] .inp (.reg .stride),
    .vldLane 4 1 [3] .inp (.imm 4), .vldLane 1 7 [4] .inp (.reg .stride), .perm .trn1h .trn2h 0 2,
    .perm .trn1h .trn2h 1 3, .perm .trn1b .trn2b 0 1, .perm .trn1b .trn2b 2 3, .qqd .uaddw 8 8 0,
    .qqd .uaddw 9 9 1, .qqd .uaddw 10 10 2, .qqd .uaddw 11 11 3, .qqd .uaddw 12 12 4,
    .vst1 4 [0, 1, 2, 3] .out 8 (.imm 32), .vst1 4 [4] .out 8 (.imm 8)]
    cond := .ne
    tail := [.zeroD 0, .zeroD 1, .zeroD 2, .zeroD 3, .zeroD 4, .vldLane 4 0 [0] .inp (.imm 4),
    .vldLane 1 0 [4] .inp (.reg .stride), .vldLane 4 0 [1] .inp (.imm 4), .vldLane 1 1 [4] .inp (.reg .stride),
    .vldLane 4 0 [2] .inp (.imm 4), .vldLane 1 2 [4] .inp (.reg .stride), .perm .trn1h .trn2h 0 2,
    .perm .trn1h .trn2h 1 3, .perm .trn1b .trn2b 0 1, .perm .trn1b .trn2b 2 3, .qqd .uaddw 8 8 0,
    .qqd .uaddw 9 9 1, .qqd .uaddw 10 10 2, .qqd .uaddw 11 11 3, .qqd .uaddw 12 12 4,
    .vst1 4 [0, 1, 2, 3] .out 8 (.imm 32), .vst1 4 [4] .out 8 (.imm 8), .ins 0 .mulSum, .dupW 1 .addSum,
    .qq .uaddlp 8 8, .qq .uaddlp 9 9, .qq .uaddlp 10 10, .qq .uaddlp 11 11, .qq .uaddlp 12 12,
    .ddd .vpadd 16 16 17, .ddd .vpadd 18 18 19, .ddd .vpadd 20 20 21, .ddd .vpadd 22 22 23,
    .ddd .vpadd 24 24 25, .ddd .vpadd 16 16 18, .ddd .vpadd 17 20 22, .ddd .vpadd 18 24 24, .mulLane 8 8 0 0,
    .mulLane 9 9 0 0, .qqq .add 8 8 1, .qqq .add 9 9 1, .vst1 4 [16, 17, 18, 19] .out 8 (.imm 0)] }

/-- meta/streams_arm_32.h:8667-8770. -/
def col32_5x4 : Prog32 :=
  { init := [.sub .stride 4, .zeroQ 8, .zeroQ 9, .zeroQ 10, .zeroQ 11, .zeroQ 12, .subs .count 4]
    skip := true
    body := [.subs .count 8, .vldLane 4 0 [0] .inp (.imm 4), .vldLane 1 0 [4] .inp (.reg .stride),
    .vldLane 4 0 [1] .inp (.imm 4), .vldLane 1 1 [4] .inp (.reg .stride), .vldLane 4 0 [2] .inp (.imm 4),
    .vldLane 1 2 [4] .inp (.reg .stride), .vldLane 4 0 [3] .inp (.imm 4), .vldLane 1 3 [4] .inp (.reg .stride),
    .vldLane 4 1 [0] .inp (.imm 4), .vldLane 1 4 [4] .inp (.reg .stride), .vldLane 4 1 [1] .inp (.imm 4),
    .vldLane 1 5 [4] .inp (.reg .stride), .vldLane 4 1 [2] .inp (.imm 4), .vldLane 1 6 [4] .inp (.reg .stride),
    .vldLane 4 1 [3] .inp (.imm 4), .vldLane 1 7 [4] .inp (.reg .stride), .perm .trn1h .trn2h 0 2,
    .perm .trn1h .trn2h 1 3, .perm .trn1b .trn2b 0 1, .perm .trn1b .trn2b 2 3, .qqd .uaddw 8 8 0,
    .qqd .uaddw 9 9 1, .qqd .uaddw 10 10 2, .qqd .uaddw 11 11 3, .qqd .uaddw 12 12 4,
    .vst1 4 [0, 1, 2, 3] .out 8 (.imm 32), .vst1 4 [4] .out 8 (.imm 8)]
    cond := .ne
    tail := [.zeroD 0, .zeroD 1, .zeroD 2, .zeroD 3, .zeroD 4, .vldLane 4 0 [0] .inp (.imm 4),
    .vldLane 1 0 [4] .inp (.reg .stride), .vldLane 4 0 [1] .inp (.imm 4), .vldLane 1 1 [4] .inp (.reg .stride),
    .vldLane 4 0 [2] .inp (.imm 4), .vldLane 1 2 [4] .inp (.reg .stride), .vldLane 4 0 [3] .inp (.imm 4),
    .vldLane 1 3 [4] .inp (.reg .stride), .perm .trn1h .trn2h 0 2, .perm .trn1h .trn2h 1 3,
    .perm .trn1b .trn2b 0 1, .perm .trn1b .trn2b 2 3, .qqd .uaddw 8 8 0, .qqd .uaddw 9 9 1,
    .qqd .uaddw 10 10 2, .qqd .uaddw 11 11 3, .qqd .uaddw 12 12 4, .vst1 4 [0, 1, 2, 3] .out 8 (.imm 32),
    .vst1 4 [4] .out 8 (.imm 8), .ins 0 .mulSum, .dupW 1 .addSum, .qq .uaddlp 8 8, .qq .uaddlp 9 9,
    .qq .uaddlp 10 10, .qq .uaddlp 11 11, .qq .uaddlp 12 12, .ddd .vpadd 16 16 17, .ddd .vpadd 18 18 19,
    .ddd .vpadd 20 20 21, .ddd .vpadd 22 22 23, .ddd .vpadd 24 24 25, .ddd .vpadd 16 16 18,
    .ddd .vpadd 17 20 22, .ddd .vpadd 18 24 24, .mulLane 8 8 0 0, .mulLane 9 9 0 0, .qqq .add 8 8 1,
    .qqq .add 9 9 1, .vst1 4 [16, 17, 18, 19] .out 8 (.imm 0)] }

/-- meta/streams_arm_32.h:8786-8891. -/
def col32_5x5 : Prog32 :=
  { init := [.sub .stride 4, .zeroQ 8, .zeroQ 9, .zeroQ 10, .zeroQ 11, .zeroQ 12, .subs .count 5]
    skip := true
    body := [.subs .count 8, .vldLane 4 0 [0] .inp (.imm 4), .vldLane 1 0 [4] .inp (.reg .stride),
    .vldLane 4 0 [1] .inp (.imm 4), .vldLane 1 1 [4] .inp (.reg .stride), .vldLane 4 0 [2] .inp (.imm 4),
    .vldLane 1 2 [4] .inp (.reg .stride), .vldLane 4 0 [3] .inp (.imm 4), .vldLane 1 3 [4] .inp (.reg .stride),
    .vldLane 4 1 [0] .inp (.imm 4), .vldLane 1 4 [4] .inp (.reg .stride), .vldLane 4 1 [1] .inp (.imm 4),
    .vldLane 1 5 [4] .inp (.reg .stride), .vldLane 4 1 [2] .inp (.imm 4), .vldLane 1 6 [4] .inp (.reg .stride),
    .vldLane 4 1 [3] .inp (.imm 4), .vldLane 1 7 [4] .inp (.reg .stride), .perm .trn1h .trn2h 0 2,
    .perm .trn1h .trn2h 1 3, .perm .trn1b .trn2b 0 1, .perm .trn1b .trn2b 2 3, .qqd .uaddw 8 8 0,
    .qqd .uaddw 9 9 1, .qqd .uaddw 10 10 2, .qqd .uaddw 11 11 3, .qqd .uaddw 12 12 4,
    .vst1 4 [0, 1, 2, 3] .out 8 (.imm 32), .vst1 4 [4] .out 8 (.imm 8)]
    cond := .ne
    tail := [.zeroD 0, .zeroD 1, .zeroD 2, .zeroD 3, .zeroD 4, .vldLane 4 0 [0] .inp (.imm 4),
    .vldLane 1 0 [4] .inp (.reg .stride), .vldLane 4 0 [1] .inp (.imm 4), .vldLane 1 1 [4] .inp (.reg .stride),
    .vldLane 4 0 [2] .inp (.imm 4), .vldLane 1 2 [4] .inp (.reg .stride), .vldLane 4 0 [3] .inp (.imm 4),
    .vldLane 1 3 [4] .inp (.reg .stride), .vldLane 4 1 [0] .inp (.imm 4), .vldLane 1 4 [4] .inp (.reg .stride),
    .perm .trn1h .trn2h 0 2, .perm .trn1h .trn2h 1 3, .perm .trn1b .trn2b 0 1, .perm .trn1b .trn2b 2 3,
    .qqd .uaddw 8 8 0, .qqd .uaddw 9 9 1, .qqd .uaddw 10 10 2, .qqd .uaddw 11 11 3, .qqd .uaddw 12 12 4,
    .vst1 4 [0, 1, 2, 3] .out 8 (.imm 32), .vst1 4 [4] .out 8 (.imm 8), .ins 0 .mulSum, .dupW 1 .addSum,
    .qq .uaddlp 8 8, .qq .uaddlp 9 9, .qq .uaddlp 10 10, .qq .uaddlp 11 11, .qq .uaddlp 12 12,
    .ddd .vpadd 16 16 17, .ddd .vpadd 18 18 19, .ddd .vpadd 20 20 21, .ddd .vpadd 22 22 23,
    .ddd .vpadd 24 24 25, .ddd .vpadd 16 16 18, .ddd .vpadd 17 20 22, .ddd .vpadd 18 24 24, .mulLane 8 8 0 0,
    .mulLane 9 9 0 0, .qqq .add 8 8 1, .qqq .add 9 9 1, .vst1 4 [16, 17, 18, 19] .out 8 (.imm 0)] }

/-- meta/streams_arm_32.h:8907-9014. -/
def col32_5x6 : Prog32 :=
  { init := [.sub .stride 4, .zeroQ 8, .zeroQ 9, .zeroQ 10, .zeroQ 11, .zeroQ 12, .subs .count 6]
    skip := true
    body := [.subs .count 8, .vldLane 4 0 [0] .inp (.imm 4), .vldLane 1 0 [4] .inp (.reg .stride),
    .vldLane 4 0 [1] .inp (.imm 4), .vldLane 1 1 [4] .inp (.reg .stride), .vldLane 4 0 [2] .inp (.imm 4),
    .vldLane 1 2 [4] .inp (.reg .stride), .vldLane 4 0 [3] .inp (.imm 4), .vldLane 1 3 [4] .inp (.reg .stride),
    .vldLane 4 1 [0] .inp (.imm 4), .vldLane 1 4 [4] .inp (.reg .stride), .vldLane 4 1 [1] .inp (.imm 4),
    .vldLane 1 5 [4] .inp (.reg .stride), .vldLane 4 1 [2] .inp (.imm 4), .vldLane 1 6 [4] .inp (.reg .stride),
    .vldLane 4 1 [3] .inp (.imm 4), .vldLane 1 7 [4] .inp (.reg .stride), .perm .trn1h .trn2h 0 2,
    .perm .trn1h .trn2h 1 3, .perm .trn1b .trn2b 0 1, .perm .trn1b .trn2b 2 3, .qqd .uaddw 8 8 0,
    .qqd .uaddw 9 9 1, .qqd .uaddw 10 10 2, .qqd .uaddw 11 11 3, .qqd .uaddw 12 12 4,
    .vst1 4 [0, 1, 2, 3] .out 8 (.imm 32), .vst1 4 [4] .out 8 (.imm 8)]
    cond := .ne
    tail := [.zeroD 0, .zeroD 1, .zeroD 2, .zeroD 3, .zeroD 4, .vldLane 4 0 [0] .inp (.imm 4),
    .vldLane 1 0 [4] .inp (.reg .stride), .vldLane 4 0 [1] .inp (.imm 4), .vldLane 1 1 [4] .inp (.reg .stride),
    .vldLane 4 0 [2] .inp (.imm 4), .vldLane 1 2 [4] .inp (.reg .stride), .vldLane 4 0 [3] .inp (.imm 4),
    .vldLane 1 3 [4] .inp (.reg .stride), .vldLane 4 1 [0] .inp (.imm 4), .vldLane 1 4 [4] .inp (.reg .stride),
    .vldLane 4 1 [1] .inp (.imm 4), .vldLane 1 5 [4] .inp (.reg .stride), .perm .trn1h .trn2h 0 2,
    .perm .trn1h .trn2h 1 3, .perm .trn1b .trn2b 0 1, .perm .trn1b .trn2b 2 3, .qqd .uaddw 8 8 0,
    .qqd .uaddw 9 9 1, .qqd .uaddw 10 10 2, .qqd .uaddw 11 11 3, .qqd .uaddw 12 12 4,
    .vst1 4 [0, 1, 2, 3] .out 8 (.imm 32), .vst1 4 [4] .out 8 (.imm 8), .ins 0 .mulSum, .dupW 1 .addSum,
    .qq .uaddlp 8 8, .qq .uaddlp 9 9, .qq .uaddlp 10 10, .qq .uaddlp 11 11, .qq .uaddlp 12 12,
    .ddd .vpadd 16 16 17, .ddd .vpadd 18 18 19, .ddd .vpadd 20 20 21, .ddd .vpadd 22 22 23,
    .ddd .vpadd 24 24 25, .ddd .vpadd 16 16 18, .ddd .vpadd 17 20 22, .ddd .vpadd 18 24 24, .mulLane 8 8 0 0,
    .mulLane 9 9 0 0, .qqq .add 8 8 1, .qqq .add 9 9 1, .vst1 4 [16, 17, 18, 19] .out 8 (.imm 0)] }

/-- meta/streams_arm_32.h:9030-9139. -/
def col32_5x7 : Prog32 :=
  { init := [.sub .stride 4, .zeroQ 8, .zeroQ 9, .zeroQ 10, .zeroQ 11, .zeroQ 12, .subs .count 7]
    skip := true
    body := [.subs .count 8, .vldLane 4 0 [0] .inp (.imm 4), .vldLane 1 0 [4] .inp (.reg .stride),
    .vldLane 4 0 [1] .inp (.imm 4), .vldLane 1 1 [4] .inp (.reg .stride), .vldLane 4 0 [2] .inp (.imm 4),
    .vldLane 1 2 [4] .inp (.reg .stride), .vldLane 4 0 [3] .inp (.imm 4), .vldLane 1 3 [4] .inp (.reg .stride),
    .vldLane 4 1 [0] .inp (.imm 4), .vldLane 1 4 [4] .inp (.reg .stride), .vldLane 4 1 [1] .inp (.imm 4),
    .vldLane 1 5 [4] .inp (.reg .stride), .vldLane 4 1 [2] .inp (.imm 4), .vldLane 1 6 [4] .inp (.reg .stride),
    .vldLane 4 1 [3] .inp (.imm 4), .vldLane 1 7 [4] .inp (.reg .stride), .perm .trn1h .trn2h 0 2,
    .perm .trn1h .trn2h 1 3, .perm .trn1b .trn2b 0 1, .perm .trn1b .trn2b 2 3, .qqd .uaddw 8 8 0,
    .qqd .uaddw 9 9 1, .qqd .uaddw 10 10 2, .qqd .uaddw 11 11 3, .qqd .uaddw 12 12 4,
    .vst1 4 [0, 1, 2, 3] .out 8 (.imm 32), .vst1 4 [4] .out 8 (.imm 8)]
    cond := .ne
    tail := [.zeroD 0, .zeroD 1, .zeroD 2, .zeroD 3, .zeroD 4, .vldLane 4 0 [0] .inp (.imm 4),
    .vldLane 1 0 [4] .inp (.reg .stride), .vldLane 4 0 [1] .inp (.imm 4), .vldLane 1 1 [4] .inp (.reg .stride),
    .vldLane 4 0 [2] .inp (.imm 4), .vldLane 1 2 [4] .inp (.reg .stride), .vldLane 4 0 [3] .inp (.imm 4),
    .vldLane 1 3 [4] .inp (.reg .stride), .vldLane 4 1 [0] .inp (.imm 4), .vldLane 1 4 [4] .inp (.reg .stride),
    .vldLane 4 1 [1] .inp (.imm 4), .vldLane 1 5 [4] .inp (.reg .stride), .vldLane 4 1 [2] .inp (.imm 4),
    .vldLane 1 6 [4] .inp (.reg .stride), .perm .trn1h .trn2h 0 2, .perm .trn1h .trn2h 1 3,
    .perm .trn1b .trn2b 0 1, .perm .trn1b .trn2b 2 3, .qqd .uaddw 8 8 0, .qqd .uaddw 9 9 1,
    .qqd .uaddw 10 10 2, .qqd .uaddw 11 11 3, .qqd .uaddw 12 12 4, .vst1 4 [0, 1, 2, 3] .out 8 (.imm 32),
    .vst1 4 [4] .out 8 (.imm 8), .ins 0 .mulSum, .dupW 1 .addSum, .qq .uaddlp 8 8, .qq .uaddlp 9 9,
    .qq .uaddlp 10 10, .qq .uaddlp 11 11, .qq .uaddlp 12 12, .ddd .vpadd 16 16 17, .ddd .vpadd 18 18 19,
    .ddd .vpadd 20 20 21, .ddd .vpadd 22 22 23, .ddd .vpadd 24 24 25, .ddd .vpadd 16 16 18,
    .ddd .vpadd 17 20 22, .ddd .vpadd 18 24 24, .mulLane 8 8 0 0, .mulLane 9 9 0 0, .qqq .add 8 8 1,
    .qqq .add 9 9 1, .vst1 4 [16, 17, 18, 19] .out 8 (.imm 0)] }

/-- meta/streams_arm_32.h:9155-9230. -/
def col32_6x0 : Prog32 :=
  { init := [.sub .stride 4, .zeroQ 8, .zeroQ 9, .zeroQ 10, .zeroQ 11, .zeroQ 12, .zeroQ 13]
    skip := false
    body := [.subs .count 8, .vldLane 4 0 [0] .inp (.imm 4), .vldLane 2 0 [4] .inp (.reg .stride),
    .vldLane 4 0 [1] .inp (.imm 4), .vldLane 2 1 [4] .inp (.reg .stride), .vldLane 4 0 [2] .inp (.imm 4),
    .vldLane 2 2 [4] .inp (.reg .stride), .vldLane 4 0 [3] .inp (.imm 4), .vldLane 2 3 [4] .inp (.reg .stride),
    .vldLane 4 1 [0] .inp (.imm 4), .vldLane 2 0 [5] .inp (.reg .stride), .vldLane 4 1 [1] .inp (.imm 4),
    .vldLane 2 1 [5] .inp (.reg .stride), .vldLane 4 1 [2] .inp (.imm 4), .vldLane 2 2 [5] .inp (.reg .stride),
    .vldLane 4 1 [3] .inp (.imm 4), .vldLane 2 3 [5] .inp (.reg .stride), .perm .trn1h .trn2h 0 2,
    .perm .trn1h .trn2h 1 3, .perm .uzp1b .uzp2b 4 5, .perm .trn1b .trn2b 0 1, .perm .trn1b .trn2b 2 3,
    .qqd .uaddw 8 8 0, .qqd .uaddw 9 9 1, .qqd .uaddw 10 10 2, .qqd .uaddw 11 11 3, .qqd .uaddw 12 12 4,
    .qqd .uaddw 13 13 5, .vst1 4 [0, 1, 2, 3] .out 16 (.imm 32), .vst1 4 [4, 5] .out 16 (.imm 16)]
    cond := .ne
    tail := [.ins 0 .mulSum, .dupW 1 .addSum, .qq .uaddlp 8 8, .qq .uaddlp 9 9, .qq .uaddlp 10 10, .qq .uaddlp 11 11,
    .qq .uaddlp 12 12, .qq .uaddlp 13 13, .ddd .vpadd 16 16 17, .ddd .vpadd 18 18 19, .ddd .vpadd 20 20 21,
    .ddd .vpadd 22 22 23, .ddd .vpadd 24 24 25, .ddd .vpadd 26 26 27, .ddd .vpadd 16 16 18,
    .ddd .vpadd 17 20 22, .ddd .vpadd 18 24 26, .mulLane 8 8 0 0, .mulLane 9 9 0 0, .qqq .add 8 8 1,
    .qqq .add 9 9 1, .vst1 4 [16, 17, 18, 19] .out 16 (.imm 0)] }

/-- meta/streams_arm_32.h:9246-9351. -/
def col32_6x1 : Prog32 :=
  { init := [.sub .stride 4, .zeroQ 8, .zeroQ 9, .zeroQ 10, .zeroQ 11, .zeroQ 12, .zeroQ 13, .subs .count 1]
    skip := true
    body := [.subs .count 8, .vldLane 4 0 [0] .inp (.imm 4), .vldLane 2 0 [4] .inp (.reg .stride),
    .vldLane 4 0 [1] .inp (.imm 4), .vldLane 2 1 [4] .inp (.reg .stride), .vldLane 4 0 [2] .inp (.imm 4),
    .vldLane 2 2 [4] .inp (.reg .stride), .vldLane 4 0 [3] .inp (.imm 4), .vldLane 2 3 [4] .inp (.reg .stride),
    .vldLane 4 1 [0] .inp (.imm 4), .vldLane 2 0 [5] .inp (.reg .stride), .vldLane 4 1 [1] .inp (.imm 4),
    .vldLane 2 1 [5] .inp (.reg .stride), .vldLane 4 1 [2] .inp (.imm 4), .vldLane 2 2 [5] .inp (.reg .stride),
    .vldLane 4 1 [3] .inp (.imm 4), .vldLane 2 3 [5] .inp (.reg .stride), .perm .trn1h .trn2h 0 2,
    .perm .trn1h .trn2h 1 3, .perm .uzp1b .uzp2b 4 5, .perm .trn1b .trn2b 0 1, .perm .trn1b .trn2b 2 3,
    .qqd .uaddw 8 8 0, .qqd .uaddw 9 9 1, .qqd .uaddw 10 10 2, .qqd .uaddw 11 11 3, .qqd .uaddw 12 12 4,
    .qqd .uaddw 13 13 5, .vst1 4 [0, 1, 2, 3] .out 16 (.imm 32), .vst1 4 [4, 5] .out 16 (.imm 16)]
    cond := .ne
    tail := [.zeroD 0, .zeroD 1, .zeroD 2, .zeroD 3, .zeroD 4, .zeroD 5, .vldLane 4 0 [0] .inp (.imm 4),
    .vldLane 2 0 [4] .inp (.reg .stride), .perm .trn1h .trn2h 0 2, .perm .trn1h .trn2h 1 3,
    .perm .uzp1b .uzp2b 4 5, .perm .trn1b .trn2b 0 1, .perm .trn1b .trn2b 2 3, .qqd .uaddw 8 8 0,
    .qqd .uaddw 9 9 1, .qqd .uaddw 10 10 2, .qqd .uaddw 11 11 3, .qqd .uaddw 12 12 4, .qqd .uaddw 13 13 5,
    .vst1 4 [0, 1, 2, 3] .out 16 (.imm 32), .vst1 4 [4, 5] .out 16 (.imm 16), .ins 0 .mulSum, .dupW 1 .addSum,
    .qq .uaddlp 8 8, .qq .uaddlp 9 9, .qq .uaddlp 10 10, .qq .uaddlp 11 11, .qq .uaddlp 12 12,
    .qq .uaddlp 13 13, .ddd .vpadd 16 16 17, .ddd .vpadd 18 18 19, .ddd .vpadd 20 20 21, .ddd .vpadd 22 22 23,
    .ddd .vpadd 24 24 25, .ddd .vpadd 26 26 27, .ddd .vpadd 16 16 18, .ddd .vpadd 17 20 22,
    .ddd .vpadd 18 24 26, .mulLane 8 8 0 0, .mulLane 9 9 0 0, .qqq .add 8 8 1, .qqq .add 9 9 1,
    .vst1 4 [16, 17, 18, 19] .out 16 (.imm 0)] }

/-- meta/streams_arm_32.h:9367-9474. -/
def col32_6x2 : Prog32 :=
  { init := [.sub .stride 4, .zeroQ 8, .zeroQ 9, .zeroQ 10, .zeroQ 11, .zeroQ 12, .zeroQ 13, .subs .count 2]
    skip := true
    body := [.subs .count 8, .vldLane 4 0 [0] .inp (.imm 4), .vldLane 2 0 [4] .inp (.reg .stride),
    .vldLane 4 0 [1] .inp (.imm 4), .vldLane 2 1 [4] .inp (.reg .stride), .vldLane 4 0 [2] .inp (.imm 4),
    .vldLane 2 2 [4] .inp (.reg .stride), .vldLane 4 0 [3] .inp (.imm 4), .vldLane 2 3 [4] .inp (.reg .stride),
    .vldLane 4 1 [0] .inp (.imm 4), .vldLane 2 0 [5] .inp (.reg .stride), .vldLane 4 1 [1] .inp (.imm 4),
    .vldLane 2 1 [5] .inp (.reg .stride), .vldLane 4 1 [2] .inp (.imm 4), .vldLane 2 2 [5] .inp (.reg .stride),
    .vldLane 4 1 [3] .inp (.imm 4), .vldLane 2 3 [5] .inp (.reg .stride), .perm .trn1h .trn2h 0 2,
    .perm .trn1h .trn2h 1 3, .perm .uzp1b .uzp2b 4 5, .perm .trn1b .trn2b 0 1, .perm .trn1b .trn2b 2 3,
    .qqd .uaddw 8 8 0, .qqd .uaddw 9 9 1, .qqd .uaddw 10 10 2, .qqd .uaddw 11 11 3, .qqd .uaddw 12 12 4,
    .qqd .uaddw 13 13 5, .vst1 4 [0, 1, 2, 3] .out 16 (.imm 32), .vst1 4 [4, 5] .out 16 (.imm 16)]
    cond := .ne
    tail := [.zeroD 0, .zeroD 1, .zeroD 2, .zeroD 3, .zeroD 4, .zeroD 5, .vldLane 4 0 [0] .inp (.imm 4),
    .vldLane 2 0 [4] .inp (.reg .stride), .vldLane 4 0 [1] .inp (.imm 4), .vldLane 2 1 [4] .inp (.reg .stride),
    .perm .trn1h .trn2h 0 2, .perm .trn1h .trn2h 1 3, .perm .uzp1b .uzp2b 4 5, .perm .trn1b .trn2b 0 1,
    .perm .trn1b .trn2b 2 3, .qqd .uaddw 8 8 0, .qqd .uaddw 9 9 1, .qqd .uaddw 10 10 2, .qqd .uaddw 11 11 3,
    .qqd .uaddw 12 12 4, .qqd .uaddw 13 13 5, .vst1 4 [0, 1, 2, 3] .out 16 (.imm 32),
    .vst1 4 [4, 5] .out 16 (.imm 16), .ins 0 .mulSum, .dupW 1 .addSum, .qq .uaddlp 8 8, .qq .uaddlp 9 9,
    .qq .uaddlp 10 10, .qq .uaddlp 11 11, .qq .uaddlp 12 12, .qq .uaddlp 13 13, .ddd .vpadd 16 16 17,
    .ddd .vpadd 18 18 19, .ddd .vpadd 20 20 21, .ddd .vpadd 22 22 23, .ddd .vpadd 24 24 25,
    .ddd .vpadd 26 26 27, .ddd .vpadd 16 16 18, .ddd .vpadd 17 20 22, .ddd .vpadd 18 24 26, .mulLane 8 8 0 0,
    .mulLane 9 9 0 0, .qqq .add 8 8 1, .qqq .add 9 9 1, .vst1 4 [16, 17, 18, 19] .out 16 (.imm 0)] }

/-- meta/streams_arm_32.h:9490-9599. -/
def col32_6x3 : Prog32 :=
  { init := [.sub .stride 4, .zeroQ 8, .zeroQ 9, .zeroQ 10, .zeroQ 11, .zeroQ 12, .zeroQ 13, .subs .count 3]
    skip := true
    body := [.subs .count 8, .vldLane 4 0 [0] .inp (.imm 4), .vldLane 2 0 [4] .inp (.reg .stride),
    .vldLane 4 0 [1] .inp (.imm 4), .vldLane 2 1 [4] .inp (.reg .stride), .vldLane 4 0 [2] .inp (.imm 4),
    .vldLane 2 2 [4] .inp (.reg .stride), .vldLane 4 0 [3] .inp (.imm 4), .vldLane 2 3 [4] .inp (.reg .stride),
    .vldLane 4 1 [0] .inp (.imm 4), .vldLane 2 0 [5] .inp (.reg .stride), .vldLane 4 1 [1] .inp (.imm 4),
    .vldLane 2 1 [5] .inp (.reg .stride), .vldLane 4 1 [2] .inp (.imm 4), .vldLane 2 2 [5] .inp (.reg .stride),
    .vldLane 4 1 [3] .inp (.imm 4), .vldLane 2 3 [5] .inp (.reg .stride), .perm .trn1h .trn2h 0 2,
    .perm .trn1h .trn2h 1 3, .perm .uzp1b .uzp2b 4 5, .perm .trn1b .trn2b 0 1, .perm .trn1b .trn2b 2 3,
    .qqd .uaddw 8 8 0, .qqd .uaddw 9 9 1, .qqd .uaddw 10 10 2, .qqd .uaddw 11 11 3, .qqd .uaddw 12 12 4,
    .qqd .uaddw 13 13 5, .vst1 4 [0, 1, 2, 3] .out 16 (.imm 32), .vst1 4 [4, 5] .out 16 (.imm 16)]
    cond := .ne
    tail := [.zeroD 0, .zeroD 1, .zeroD 2, .zeroD 3, .zeroD 4, .zeroD 5, .vldLane 4 0 [0] .inp (.imm 4),
    .vldLane 2 0 [4] .inp (.reg .stride), .vldLane 4 0 [1] .inp (.imm 4), .vldLane 2 1 [4] .inp (.reg .stride),
    .vldLane 4 0 [2] .inp (.imm 4), .vldLane 2 2 [4] .inp (.reg .stride), .perm .trn1h .trn2h 0 2,
    .perm .trn1h .trn2h 1 3, .perm .uzp1b .uzp2b 4 5, .perm .trn1b .trn2b 0 1, .perm .trn1b .trn2b 2 3,
    .qqd .uaddw 8 8 0, .qqd .uaddw 9 9 1, .qqd .uaddw 10 10 2, .qqd .uaddw 11 11 3, .qqd .uaddw 12 12 4,
    .qqd .uaddw 13 13 5, .vst1 4 [0, 1, 2, 3] .out 16 (.imm 32), .vst1 4 [4, 5] .out 16 (.imm 16),
    .ins 0 .mulSum, .dupW 1 .addSum, .qq .uaddlp 8 8, .qq .uaddlp 9 9, .qq .uaddlp 10 10, .qq .uaddlp 11 11,
    .qq .uaddlp 12 12, .qq .uaddlp 13 13, .ddd .vpadd 16 16 17, .ddd .vpadd 18 18 19, .ddd .vpadd 20 20 21,
    .ddd .vpadd 22 22 23, .ddd .vpadd 24 24 25, .ddd .vpadd 26 26 27, .ddd .vpadd 16 16 18,
    .ddd .vpadd 17 20 22, .ddd .vpadd 18 24 26, .mulLane 8 8 0 0, .mulLane 9 9 0 0, .qqq .add 8 8 1,
    .qqq .add 9 9 1, .vst1 4 [16, 17, 18, 19] .out 16 (.imm 0)] }

/-- meta/streams_arm_32.h:9615-9726. -/
def col32_6x4 : Prog32 :=
  { init := [.sub .stride 4, .zeroQ 8, .zeroQ 9, .zeroQ 10, .zeroQ 11, .zeroQ 12, .zeroQ 13, .subs .count 4]
    skip := true
    body := [.subs .count 8, .vldLane 4 0 [0] .inp (.imm 4), .vldLane 2 0 [4] .inp (.reg .stride),
    .vldLane 4 0 [1] .inp (.imm 4), .vldLane 2 1 [4] .inp (.reg .stride), .vldLane 4 0 [2] .inp (.imm 4),
    .vldLane 2 2 [4] .inp (.reg .stride), .vldLane 4 0 [3] .inp (.imm 4), .vldLane 2 3 [4] .inp (.reg .stride),
    .vldLane 4 1 [0] .inp (.imm 4), .vldLane 2 0 [5] .inp (.reg .stride), .vldLane 4 1 [1] .inp (.imm 4),
    .vldLane 2 1 [5] .inp (.reg .stride), .vldLane 4 1 [2] .inp (.imm 4), .vldLane 2 2 [5] .inp (.reg .stride),
    .vldLane 4 1 [3] .inp (.imm 4), .vldLane 2 3 [5] .inp (.reg .stride), .perm .trn1h .trn2h 0 2,
    .perm .trn1h .trn2h 1 3, .perm .uzp1b .uzp2b 4 5, .perm .trn1b .trn2b 0 1, .perm .trn1b .trn2b 2 3,
    .qqd .uaddw 8 8 0, .qqd .uaddw 9 9 1, .qqd .uaddw 10 10 2, .qqd .uaddw 11 11 3, .qqd .uaddw 12 12 4,
    .qqd .uaddw 13 13 5, .vst1 4 [0, 1, 2, 3] .out 16 (.imm 32), .vst1 4 [4, 5] .out 16 (.imm 16)]
    cond := .ne
    tail := [.zeroD 0, .zeroD 1, .zeroD 2, .zeroD 3, .zeroD 4, .zeroD 5, .vldLane 4 0 [0] .inp (.imm 4),
    .vldLane 2 0 [4] .inp (.reg .stride), .vldLane 4 0 [1] .inp (.imm 4), .vldLane 2 1 [4] .inp (.reg .stride),
    .vldLane 4 0 [2] .inp (.imm 4), .vldLane 2 2 [4] .inp (.reg .stride), .vldLane 4 0 [3] .inp (.imm 4),
    .vldLane 2 3 [4] .inp (.reg .stride), .perm .trn1h .trn2h 0 2, .perm .trn1h .trn2h 1 3,
    .perm .uzp1b .uzp2b 4 5, .perm .trn1b .trn2b 0 1, .perm .trn1b .trn2b 2 3, .qqd .uaddw 8 8 0,
    .qqd .uaddw 9 9 1, .qqd .uaddw 10 10 2, .qqd .uaddw 11 11 3, .qqd .uaddw 12 12 4, .qqd .uaddw 13 13 5,
    .vst1 4 [0, 1, 2, 3] .out 16 (.imm 32), .vst1 4 [4, 5] .out 16 (.imm 16), .ins 0 .mulSum, .dupW 1 .addSum,
    .qq .uaddlp 8 8, .qq .uaddlp 9 9, .qq .uaddlp 10 10, .qq .uaddlp 11 11, .qq .uaddlp 12 12,
    .qq .uaddlp 13 13, .ddd .vpadd 16 16 17, .ddd .vpadd 18 18 19, .ddd .vpadd 20 20 21, .ddd .vpadd 22 22 23,
    .ddd .vpadd 24 24 25, .ddd .vpadd 26 26 27, .ddd .vpadd 16 16 18, .ddd .vpadd 17 20 22,
    .ddd .vpadd 18 24 26, .mulLane 8 8 0 0, .mulLane 9 9 0 0, .qqq .add 8 8 1, .qqq .add 9 9 1,
    .vst1 4 [16, 17, 18, 19] .out 16 (.imm 0)] }

/-- meta/streams_arm_32.h:9742-9855. -/
def col32_6x5 : Prog32 :=
  { init := [.sub .stride 4, .zeroQ 8, .zeroQ 9, .zeroQ 10, .zeroQ 11, .zeroQ 12, .zeroQ 13, .subs .count 5]
    skip := true
    body := [.subs .count 8, .vldLane 4 0 [0] .inp (.imm 4), .vldLane 2 0 [4] .inp (.reg .stride),
    .vldLane 4 0 [1] .inp (.imm 4), .vldLane 2 1 [4] .inp (.reg .stride), .vldLane 4 0 [2] .inp (.imm 4),
    .vldLane 2 2 [4] .inp (.reg .stride), .vldLane 4 0 [3] .inp (.imm 4), .vldLane 2 3 [4] .inp (.reg .stride),
    .vldLane 4 1 [0] .inp (.imm 4), .vldLane 2 0 [5] .inp (.reg .stride), .vldLane 4 1 [1] .inp (.imm 4),
    .vldLane 2 1 [5] .inp (.reg .stride), .vldLane 4 1 [2] .inp (.imm 4), .vldLane 2 2 [5] .inp (.reg .stride),
    .vldLane 4 1 [3] .inp (.imm 4), .vldLane 2 3 [5] .inp (.reg .stride), .perm .trn1h .trn2h 0 2,
    .perm .trn1h .trn2h 1 3, .perm .uzp1b .uzp2b 4 5, .perm .trn1b .trn2b 0 1, .perm .trn1b .trn2b 2 3,
    .qqd .uaddw 8 8 0, .qqd .uaddw 9 9 1, .qqd .uaddw 10 10 2, .qqd .uaddw 11 11 3, .qqd .uaddw 12 12 4,
    .qqd .uaddw 13 13 5, .vst1 4 [0, 1, 2, 3] .out 16 (.imm 32), .vst1 4 [4, 5] .out 16 (.imm 16)]
    cond := .ne
    tail := [.zeroD 0, .zeroD 1, .zeroD 2, .zeroD 3, .zeroD 4, .zeroD 5, .vldLane 4 0 [0] .inp (.imm 4),
    .vldLane 2 0 [4] .inp (.reg .stride), .vldLane 4 0 [1] .inp (.imm 4), .vldLane 2 1 [4] .inp (.reg .stride),
    .vldLane 4 0 [2] .inp (.imm 4), .vldLane 2 2 [4] .inp (.reg .stride), .vldLane 4 0 [3] .inp (.imm 4),
    .vldLane 2 3 [4] .inp (.reg .stride), .vldLane 4 1 [0] .inp (.imm 4), .vldLane 2 0 [5] .inp (.reg .stride),
    .perm .trn1h .trn2h 0 2, .perm .trn1h .trn2h 1 3, .perm .uzp1b .uzp2b 4 5, .perm .trn1b .trn2b 0 1,
    .perm .trn1b .trn2b 2 3, .qqd .uaddw 8 8 0, .qqd .uaddw 9 9 1, .qqd .uaddw 10 10 2, .qqd .uaddw 11 11 3,
    .qqd .uaddw 12 12 4, .qqd .uaddw 13 13 5, .vst1 4 [0, 1, 2, 3] .out 16 (.imm 32),
    .vst1 4 [4, 5] .out 16 (.imm 16), .ins 0 .mulSum, .dupW 1 .addSum, .qq .uaddlp 8 8, .qq .uaddlp 9 9,
    .qq .uaddlp 10 10, .qq .uaddlp 11 11, .qq .uaddlp 12 12, .qq .uaddlp 13 13, .ddd .vpadd 16 16 17,
    .ddd .vpadd 18 18 19, .ddd .vpadd 20 20 21, .ddd .vpadd 22 22 23, .ddd .vpadd 24 24 25,
    .ddd .vpadd 26 26 27, .ddd .vpadd 16 16 18, .ddd .vpadd 17 20 22, .ddd .vpadd 18 24 26, .mulLane 8 8 0 0,
    .mulLane 9 9 0 0, .qqq .add 8 8 1, .qqq .add 9 9 1, .vst1 4 [16, 17, 18, 19] .out 16 (.imm 0)] }

/-- meta/streams_arm_32.h:9871-9986. -/
def col32_6x6 : Prog32 :=
  { init := [.sub .stride 4, .zeroQ 8, .zeroQ 9, .zeroQ 10, .zeroQ 11, .zeroQ 12, .zeroQ 13, .subs .count 6]
    skip := true
    body := [.subs .count 8, .vldLane 4 0 [0] .inp (.imm 4), .vldLane 2 0 [4] .inp (.reg .stride),
    .vldLane 4 0 [1] .inp (.imm 4), .vldLane 2 1 [4] .inp (.reg .stride), .vldLane 4 0 [2] .inp (.imm 4),
    .vldLane 2 2 [4] .inp (.reg .stride), .vldLane 4 0 [3] .inp (.imm 4), .vldLane 2 3 [4] .inp (.reg .stride),
    .vldLane 4 1 [0] .inp (.imm 4), .vldLane 2 0 [5] .inp (.reg .stride), .vldLane 4 1 [1] .inp (.imm 4),
    .vldLane 2 1 [5] .inp (.reg .stride), .vldLane 4 1 [2] .inp (.imm 4), .vldLane 2 2 [5] .inp (.reg .stride),
    .vldLane 4 1 [3] .inp (.imm 4), .vldLane 2 3 [5] .inp (.reg .stride), .perm .trn1h .trn2h 0 2,
    .perm .trn1h .trn2h 1 3, .perm .uzp1b .uzp2b 4 5, .perm .trn1b .trn2b 0 1, .perm .trn1b .trn2b 2 3,
    .qqd .uaddw 8 8 0, .qqd .uaddw 9 9 1, .qqd .uaddw 10 10 2, .qqd .uaddw 11 11 3, .qqd .uaddw 12 12 4,
    .qqd .uaddw 13 13 5, .vst1 4 [0, 1, 2, 3] .out 16 (.imm 32), .vst1 4 [4, 5] .out 16 (.imm 16)]
    cond := .ne
    tail := [.zeroD 0, .zeroD 1, .zeroD 2, .zeroD 3, .zeroD 4, .zeroD 5, .vldLane 4 0 [0] .inp (.imm 4),
    .vldLane 2 0 [4] .inp (.reg .stride), .vldLane 4 0 [1] .inp (.imm 4), .vldLane 2 1 [4] .inp (.reg .stride),
    .vldLane 4 0 [2] .inp (.imm 4), .vldLane 2 2 [4] .inp (.reg .stride), .vldLane 4 0 [3] .inp (.imm 4),
    .vldLane 2 3 [4] .inp (.reg .stride), .vldLane 4 1 [0] .inp (.imm 4), .vldLane 2 0 [5] .inp (.reg .stride),
    .vldLane 4 1 [1] .inp (.imm 4), .vldLane 2 1 [5] .inp (.reg .stride), .perm .trn1h .trn2h 0 2,
    .perm .trn1h .trn2h 1 3, .perm .uzp1b .uzp2b 4 5, .perm .trn1b .trn2b 0 1, .perm .trn1b .trn2b 2 3,
    .qqd .uaddw 8 8 0, .qqd .uaddw 9 9 1, .qqd .uaddw 10 10 2, .qqd .uaddw 11 11 3, .qqd .uaddw 12 12 4,
    .qqd .uaddw 13 13 5, .vst1 4 [0, 1, 2, 3] .out 16 (.imm 32), .vst1 4 [4, 5] .out 16 (.imm 16),
    .ins 0 .mulSum, .dupW 1 .addSum, .qq .uaddlp 8 8, .qq .uaddlp 9 9, .qq .uaddlp 10 10, .qq .uaddlp 11 11,
    .qq .uaddlp 12 12, .qq .uaddlp 13 13, .ddd .vpadd 16 16 17, .ddd .vpadd 18 18 19, .ddd .vpadd 20 20 21,
    .ddd .vpadd 22 22 23, .ddd .vpadd 24 24 25, .ddd .vpadd 26 26 27, .ddd .vpadd 16 16 18,
    .ddd .vpadd 17 20 22, .ddd .vpadd 18 24 26, .mulLane 8 8 0 0, .mulLane 9 9 0 0, .qqq .add 8 8 1,
    .qqq .add 9 9 1, .vst1 4 [16, 17, 18, 19] .out 16 (.imm 0)] }

/-- meta/streams_arm_32.h:10002-10119. -/
def col32_6x7 : Prog32 :=
  { init := [.sub .stride 4, .zeroQ 8, .zeroQ 9, .zeroQ 10, .zeroQ 11, .zeroQ 12, .zeroQ 13, .subs .count 7]
    skip := true
    body := [.subs .count 8, .vldLane 4 0 [0] .inp (.imm 4), .vldLane 2 0 [4] .inp (.reg .stride),
    .vldLane 4 0 [1] .inp (.imm 4), .vldLane 2 1 [4] .inp (.reg .stride), .vldLane 4 0 [2] .inp (.imm 4),
    .vldLane 2 2 [4] .inp (.reg .stride), .vldLane 4 0 [3] .inp (.imm 4), .vldLane 2 3 [4] .inp (.reg .stride),
    .vldLane 4 1 [0] .inp (.imm 4), .vldLane 2 0 [5] .inp (.reg .stride), .vldLane 4 1 [1] .inp (.imm 4),
    .vldLane 2 1 [5] .inp (.reg .stride), .vldLane 4 1 [2] .inp (.imm 4), .vldLane 2 2 [5] .inp (.reg .stride),
    .vldLane 4 1 [3] .inp (.imm 4), .vldLane 2 3 [5] .inp (.reg .stride), .perm .trn1h .trn2h 0 2,
    .perm .trn1h .trn2h 1 3, .perm .uzp1b .uzp2b 4 5, .perm .trn1b .trn2b 0 1, .perm .trn1b .trn2b 2 3,
    .qqd .uaddw 8 8 0, .qqd .uaddw 9 9 1, .qqd .uaddw 10 10 2, .qqd .uaddw 11 11 3, .qqd .uaddw 12 12 4,
    .qqd .uaddw 13 13 5, .vst1 4 [0, 1, 2, 3] .out 16 (.imm 32), .vst1 4 [4, 5] .out 16 (.imm 16)]
    cond := .ne
    tail := [.zeroD 0, .zeroD 1, .zeroD 2, .zeroD 3, .zeroD 4, .zeroD 5, .vldLane 4 0 [0] .inp (.imm 4),
    .vldLane 2 0 [4] .inp (.reg .stride), .vldLane 4 0 [1] .inp (.imm 4), .vldLane 2 1 [4] .inp (.reg .stride),
    .vldLane 4 0 [2] .inp (.imm 4), .vldLane 2 2 [4] .inp (.reg .stride), .vldLane 4 0 [3] .inp (.imm 4),
    .vldLane 2 3 [4] .inp (.reg .stride), .vldLane 4 1 [0] .inp (.imm 4), .vldLane 2 0 [5] .inp (.reg .stride),
    .vldLane 4 1 [1] .inp (.imm 4), .vldLane 2 1 [5] .inp (.reg .stride), .vldLane 4 1 [2] .inp (.imm 4),
    .vldLane 2 2 [5] .inp (.reg .stride), .perm .trn1h .trn2h 0 2, .perm .trn1h .trn2h 1 3,
    .perm .uzp1b .uzp2b 4 5, .perm .trn1b .trn2b 0 1, .perm .trn1b .trn2b 2 3, .qqd .uaddw 8 8 0,
    .qqd .uaddw 9 9 1, .qqd .uaddw 10 10 2, .qqd .uaddw 11 11 3, .qqd .uaddw 12 12 4, .qqd .uaddw 13 13 5,
    .vst1 4 [0, 1, 2, 3] .out 16 (.imm 32), .vst1 4 [4, 5] .out 16 (.imm 16), .ins 0 .mulSum, .dupW 1 .addSum,
    .qq .uaddlp 8 8, .qq .uaddlp 9 9, .qq .uaddlp 10 10, .qq .uaddlp 11 11, .qq .uaddlp 12 12,
    .qq .uaddlp 13 13, .ddd .vpadd 16 16 17, .ddd .vpadd 18 18 19, .ddd .vpadd 20 20 21, .ddd .vpadd 22 22 23,
    .ddd .vpadd 24 24 25, .ddd .vpadd 26 26 27, .ddd .vpadd 16 16 18, .ddd .vpadd 17 20 22,
    .ddd .vpadd 18 24 26, .mulLane 8 8 0 0, .mulLane 9 9 0 0, .qqq .add 8 8 1, .qqq .add 9 9 1,
    .vst1 4 [16, 17, 18, 19] .out 16 (.imm 0)] }

/-- meta/streams_arm_32.h:10135-10215. -/
def col32_7x0 : Prog32 :=
  { init := [.sub .stride 4, .zeroQ 8, .zeroQ 9, .zeroQ 10, .zeroQ 11, .zeroQ 12, .zeroQ 13, .zeroQ 14]
    skip := false
    body := [.subs .count 8, .vldLane 4 0 [0] .inp (.imm 4), .vldLane 1 0 [4, 5, 6] .inp (.reg .stride),
    .vldLane 4 0 [1] .inp (.imm 4), .vldLane 1 1 [4, 5, 6] .inp (.reg .stride), .vldLane 4 0 [2] .inp (.imm 4),
    .vldLane 1 2 [4, 5, 6] .inp (.reg .stride), .vldLane 4 0 [3] .inp (.imm 4),
    .vldLane 1 3 [4, 5, 6] .inp (.reg .stride), .vldLane 4 1 [0] .inp (.imm 4),
    .vldLane 1 4 [4, 5, 6] .inp (.reg .stride), .vldLane 4 1 [1] .inp (.imm 4),
    .vldLane 1 5 [4, 5, 6] .inp (.reg .stride), .vldLane 4 1 [2] .inp (.imm 4),
    .vldLane 1 6 [4, 5, 6] .inp (.reg .stride), .vldLane 4 1 [3] .inp (.imm 4),
    .vldLane 1 7 [4, 5, 6] .inp (.reg .stride), .perm .trn1h .trn2h 0 2, .perm .trn1h .trn2h 1 3,
    .perm .trn1b .trn2b 0 1, .perm .trn1b .trn2b 2 3, .qqd .uaddw 8 8 0, .qqd .uaddw 9 9 1,
    .qqd .uaddw 10 10 2, .qqd .uaddw 11 11 3, .qqd .uaddw 12 12 4, .qqd .uaddw 13 13 5, .qqd .uaddw 14 14 6,
    .vst1 4 [0, 1, 2, 3] .out 8 (.imm 32), .vst1 4 [4, 5, 6] .out 8 (.imm 24)]
    cond := .ne
    tail := [.ins 0 .mulSum, .dupW 1 .addSum, .qq .uaddlp 8 8, .qq .uaddlp 9 9, .qq .uaddlp 10 10, .qq .uaddlp 11 11,
    .qq .uaddlp 12 12, .qq .uaddlp 13 13, .qq .uaddlp 14 14, .ddd .vpadd 16 16 17, .ddd .vpadd 18 18 19,
    .ddd .vpadd 20 20 21, .ddd .vpadd 22 22 23, .ddd .vpadd 24 24 25, .ddd .vpadd 26 26 27,
    .ddd .vpadd 28 28 29, .ddd .vpadd 16 16 18, .ddd .vpadd 17 20 22, .ddd .vpadd 18 24 26,
    .ddd .vpadd 19 28 28, .mulLane 8 8 0 0, .mulLane 9 9 0 0, .qqq .add 8 8 1, .qqq .add 9 9 1,
    .vst1 4 [16, 17, 18, 19] .out 8 (.imm 0)] }

/-- meta/streams_arm_32.h:10231-10342. -/
def col32_7x1 : Prog32 :=
  { init := [.sub .stride 4, .zeroQ 8, .zeroQ 9, .zeroQ 10, .zeroQ 11, .zeroQ 12, .zeroQ 13, .zeroQ 14, .subs .count 1]
    skip := true
    body := [.subs .count 8, .vldLane 4 0 [0] .inp (.imm 4), .vldLane 1 0 [4, 5, 6] .inp (.reg .stride),
    .vldLane 4 0 [1] .inp (.imm 4), .vldLane 1 1 [4, 5, 6] .inp (.reg .stride), .vldLane 4 0 [2] .inp (.imm 4),
    .vldLane 1 2 [4, 5, 6] .inp (.reg .stride), .vldLane 4 0 [3] .inp (.imm 4),
    .vldLane 1 3 [4, 5, 6] .inp (.reg .stride), .vldLane 4 1 [0] .inp (.imm 4),
    .vldLane 1 4 [4, 5, 6] .inp (.reg .stride), .vldLane 4 1 [1] .inp (.imm 4),
    .vldLane 1 5 [4, 5, 6] .inp (.reg .stride), .vldLane 4 1 [2] .inp (.imm 4),
    .vldLane 1 6 [4, 5, 6] .inp (.reg .stride), .vldLane 4 1 [3] .inp (.imm 4),
    .vldLane 1 7 [4, 5, 6] .inp (.reg .stride), .perm .trn1h .trn2h 0 2, .perm .trn1h .trn2h 1 3,
    .perm .trn1b .trn2b 0 1, .perm .trn1b .trn2b 2 3, .qqd .uaddw 8 8 0, .qqd .uaddw 9 9 1,
    .qqd .uaddw 10 10 2, .qqd .uaddw 11 11 3, .qqd .uaddw 12 12 4, .qqd .uaddw 13 13 5, .qqd .uaddw 14 14 6,
    .vst1 4 [0, 1, 2, 3] .out 8 (.imm 32), .vst1 4 [4, 5, 6] .out 8 (.imm 24)]
    cond := .ne
    tail := [.zeroD 0, .zeroD 1, .zeroD 2, .zeroD 3, .zeroD 4, .zeroD 5, .zeroD 6, .vldLane 4 0 [0] .inp (.imm 4),
    .vldLane 1 0 [4, 5, 6] .inp (.reg .stride), .perm .trn1h .trn2h 0 2, .perm .trn1h .trn2h 1 3,
    .perm .trn1b .trn2b 0 1, .perm .trn1b .trn2b 2 3, .qqd .uaddw 8 8 0, .qqd .uaddw 9 9 1,
    .qqd .uaddw 10 10 2, .qqd .uaddw 11 11 3, .qqd .uaddw 12 12 4, .qqd .uaddw 13 13 5, .qqd .uaddw 14 14 6,
    .vst1 4 [0, 1, 2, 3] .out 8 (.imm 32), .vst1 4 [4, 5, 6] .out 8 (.imm 24), .ins 0 .mulSum, .dupW 1 .addSum,
    .qq .uaddlp 8 8, .qq .uaddlp 9 9, .qq .uaddlp 10 10, .qq .uaddlp 11 11, .qq .uaddlp 12 12,
    .qq .uaddlp 13 13, .qq .uaddlp 14 14, .ddd .vpadd 16 16 17, .ddd .vpadd 18 18 19, .ddd .vpadd 20 20 21,
    .ddd .vpadd 22 22 23, .ddd .vpadd 24 24 25, .ddd .vpadd 26 26 27, .ddd .vpadd 28 28 29,
    .ddd .vpadd 16 16 18, .ddd .vpadd 17 20 22, .ddd .vpadd 18 24 26, .ddd .vpadd 19 28 28, .mulLane 8 8 0 0,
    .mulLane 9 9 0 0, .qqq .add 8 8 1, .qqq .add 9 9 1, .vst1 4 [16, 17, 18, 19] .out 8 (.imm 0)] }

/-- meta/streams_arm_32.h:10358-10471. -/
def col32_7x2 : Prog32 :=
  { init := [.sub .stride 4, .zeroQ 8, .zeroQ 9, .zeroQ 10, .zeroQ 11, .zeroQ 12, .zeroQ 13, .zeroQ 14, .subs .count 2]
    skip := true
    body := [.subs .count 8, .vldLane 4 0 [0] .inp (.imm 4), .vldLane 1 0 [4, 5, 6] .inp (.reg .stride),
    .vldLane 4 0 [1] .inp (.imm 4), .vldLane 1 1 [4, 5, 6] .inp (.reg .stride), .vldLane 4 0 [2] .inp (.imm 4),
    .vldLane 1 2 [4, 5, 6] .inp (.reg .stride), .vldLane 4 0 [3] .inp (.imm 4),
    .vldLane 1 3 [4, 5, 6] .inp (.reg .stride), .vldLane 4 1 [0] .inp (.imm 4),
    .vldLane 1 4 [4, 5, 6] .inp (.reg .stride), .vldLane 4 1 [1] .inp (.imm 4),
    .vldLane 1 5 [4, 5, 6] .inp (.reg .stride), .vldLane 4 1 [2] .inp (.imm 4),
    .vldLane 1 6 [4, 5, 6] .inp (.reg .stride), .vldLane 4 1 [3] .inp (.imm 4),
    .vldLane 1 7 [4, 5, 6] .inp (.reg .stride), .perm .trn1h .trn2h 0 2, .perm .trn1h .trn2h 1 3,
    .perm .trn1b .trn2b 0 1, .perm .trn1b .trn2b 2 3, .qqd .uaddw 8 8 0, .qqd .uaddw 9 9 1,
    .qqd .uaddw 10 10 2, .qqd .uaddw 11 11 3, .qqd .uaddw 12 12 4, .qqd .uaddw 13 13 5, .qqd .uaddw 14 14 6,
    .vst1 4 [0, 1, 2, 3] .out 8 (.imm 32), .vst1 4 [4, 5, 6] .out 8 (.imm 24)]
    cond := .ne
    tail := [.zeroD 0, .zeroD 1, .zeroD 2, .zeroD 3, .zeroD 4, .zeroD 5, .zeroD 6, .vldLane 4 0 [0] .inp (.imm 4),
    .vldLane 1 0 [4, 5, 6] .inp (.reg .stride), .vldLane 4 0 [1] .inp (.imm 4),
    .vldLane 1 1 [4, 5, 6] .inp (.reg .stride), .perm .trn1h .trn2h 0 2, .perm .trn1h .trn2h 1 3,
    .perm .trn1b .trn2b 0 1, .perm .trn1b .trn2b 2 3, .qqd .uaddw 8 8 0, .qqd .uaddw 9 9 1,
    .qqd .uaddw 10 10 2, .qqd .uaddw 11 11 3, .qqd .uaddw 12 12 4, .qqd .uaddw 13 13 5, .qqd .uaddw 14 14 6,
    .vst1 4 [0, 1, 2, 3] .out 8 (.imm 32), .vst1 4 [4, 5, 6] .out 8 (.imm 24), .ins 0 .mulSum, .dupW 1 .addSum,
    .qq .uaddlp 8 8, .qq .uaddlp 9 9, .qq .uaddlp 10 10, .qq .uaddlp 11 11, .qq .uaddlp 12 12,
    .qq .uaddlp 13 13, .qq .uaddlp 14 14, .ddd .vpadd 16 16 17, .ddd .vpadd 18 18 19, .ddd .vpadd 20 20 21,
    .ddd .vpadd 22 22 23, .ddd .vpadd 24 24 25, .ddd .vpadd 26 26 27, .ddd .vpadd 28 28 29,
    .ddd .vpadd 16 16 18, .ddd .vpadd 17 20 22, .ddd .vpadd 18 24 26, .ddd .vpadd 19 28 28, .mulLane 8 8 0 0,
    .mulLane 9 9 0 0, .qqq .add 8 8 1, .qqq .add 9 9 1, .vst1 4 [16, 17, 18, 19] .out 8 (.imm 0)] }

/-- meta/streams_arm_32.h:10487-10602. -/
def col32_7x3 : Prog32 :=
  { init := [.sub .stride 4, .zeroQ 8, .zeroQ 9, .zeroQ 10, .zeroQ 11, .zeroQ 12, .zeroQ 13, .zeroQ 14, .subs .count 3]
    skip := true
    body := [.subs .count 8, .vldLane 4 0 [0] .inp (.imm 4), .vldLane 1 0 [4, 5, 6] .inp (.reg .stride),
    .vldLane 4 0 [1] .inp (.imm 4), .vldLane 1 1 [4, 5, 6] .inp (.reg .stride), .vldLane 4 0 [2] .inp (.imm 4),
    .vldLane 1 2 [4, 5, 6] .inp (.reg .stride), .vldLane 4 0 [3] .inp (.imm 4),
    .vldLane 1 3 [4, 5, 6] .inp (.reg .stride), .vldLane 4 1 [0] .inp (.imm 4),
    .vldLane 1 4 [4, 5, 6] .inp (.reg .stride), .vldLane 4 1 [1] .inp (.imm 4),
    .vldLane 1 5 [4, 5, 6] .inp (.reg .stride), .vldLane 4 1 [2] .inp (.imm 4),
    .vldLane 1 6 [4, 5, 6] .inp (.reg .stride), .vldLane 4 1 [3] .inp (.imm 4),
    .vldLane 1 7 [4, 5, 6] .inp (.reg .stride), .perm .trn1h .trn2h 0 2, .perm .trn1h .trn2h 1 3,
    .perm .trn1b .trn2b 0 1, .perm .trn1b .trn2b 2 3, .qqd .uaddw 8 8 0, .qqd .uaddw 9 9 1,
    .qqd .uaddw 10 10 2, .qqd .uaddw 11 11 3, .qqd .uaddw 12 12 4, .qqd .uaddw 13 13 5, .qqd .uaddw 14 14 6,
    .vst1 4 [0, 1, 2, 3] .out 8 (.imm 32), .vst1 4 [4, 5, 6] .out 8 (.imm 24)]
    cond := .ne
    tail := [.zeroD 0, .zeroD 1, .zeroD 2, .zeroD 3, .zeroD 4, .zeroD 5, .zeroD 6, .vldLane 4 0 [0] .inp (.imm 4),
    .vldLane 1 0 [4, 5, 6] .inp (.reg .stride), .vldLane 4 0 [1] .inp (.imm 4),
    .vldLane 1 1 [4, 5, 6] .inp (.reg .stride), .vldLane 4 0 [2] .inp (.imm 4),
    .vldLane 1 2 [4, 5, 6] .inp (.reg .stride), .perm .trn1h .trn2h 0 2, .perm .trn1h .trn2h 1 3,
    .perm .trn1b .trn2b 0 1, .perm .trn1b .trn2b 2 3, .qqd .uaddw 8 8 0, .qqd .uaddw 9 9 1,
    .qqd .uaddw 10 10 2, .qqd .uaddw 11 11 3, .qqd .uaddw 12 12 4, .qqd .uaddw 13 13 5, .qqd .uaddw 14 14 6,
    .vst1 4 [0, 1, 2, 3] .out 8 (.imm 32), .vst1 4 [4, 5, 6] .out 8 (.imm 24), .ins 0 .mulSum, .dupW 1 .addSum,
    .qq .uaddlp 8 8, .qq .uaddlp 9 9, .qq .uaddlp 10 10, .qq .uaddlp 11 11, .qq .uaddlp 12 12,
    .qq .uaddlp 13 13, .qq .uaddlp 14 14, .ddd .vpadd 16 16 17, .ddd .vpadd 18 18 19, .ddd .vpadd 20 20 21,
    .ddd .vpadd 22 22 23, .ddd .vpadd 24 24 25, .ddd .vpadd 26 26 27, .ddd .vpadd 28 28 29,
    .ddd .vpadd 16 16 18, .ddd .vpadd 17 20 22, .ddd .vpadd 18 24 26, .ddd .vpadd 19 28 28, .mulLane 8 8 0 0,
    .mulLane 9 9 0 0, .qqq .add 8 8 1, .qqq .add 9 9 1, .vst1 4 [16, 17, 18, 19] .out 8 (.imm 0)] }

/-- meta/streams_arm_32.h:10618-10735. -/
def col32_7x4 : Prog32 :=
  { init := [.sub .stride 4, .zeroQ 8, .zeroQ 9, .zeroQ 10, .zeroQ 11, .zeroQ 12, .zeroQ 13, .zeroQ 14, .subs .count 4]
    skip := true
    body := [.subs .count 8, .vldLane 4 0 [0] .inp (.imm 4), .vldLane 1 0 [4, 5, 6] .inp (.reg .stride),
    .vldLane 4 0 [1] .inp (.imm 4), .vldLane 1 1 [4, 5, 6] .inp (.reg .stride), .vldLane 4 0 [2] .inp (.imm 4),
    .vldLane 1 2 [4, 5, 6] .inp (.reg .stride), .vldLane 4 0 [3] .inp (.imm 4),
    .vldLane 1 3 [4, 5, 6] .inp (.reg .stride), .vldLane 4 1 [0] .inp (.imm 4),
    .vldLane 1 4 [4, 5, 6] .inp (.reg .stride), .vldLane 4 1 [1] .inp (.imm 4),
    .vldLane 1 5 [4, 5, 6] .inp (.reg .stride), .vldLane 4 1 [2] .inp (.imm 4),
    .vldLane 1 6 [4, 5, 6] .inp (.reg .stride), .vldLane 4 1 [3] .inp (.imm 4),
    .vldLane 1 7 [4, 5, 6] .inp (.reg .stride), .perm .trn1h .trn2h 0 2, .perm .trn1h .trn2h 1 3,
    .perm .trn1b .trn2b 0 1, .perm .trn1b .trn2b 2 3, .qqd .uaddw 8 8 0, .qqd .uaddw 9 9 1,
    .qqd .uaddw 10 10 2, .qqd .uaddw 11 11 3, .qqd .uaddw 12 12 4, .qqd .uaddw 13 13 5, .qqd .uaddw 14 14 6,
    .vst1 4 [0, 1, 2, 3] .out 8 (.imm 32), .vst1 4 [4, 5, 6] .out 8 (.imm 24)]
    cond := .ne
    tail := [.zeroD 0, .zeroD 1, .zeroD 2, .zeroD 3, .zeroD 4, .zeroD 5, .zeroD 6, .vldLane 4 0 [0] .inp (.imm 4),
    .vldLane 1 0 [4, 5, 6] .inp (.reg .stride), .vldLane 4 0 [1] .inp (.imm 4),
    .vldLane 1 1 [4, 5, 6] .inp (.reg .stride), .vldLane 4 0 [2] .inp (.imm 4),
    .vldLane 1 2 [4, 5, 6] .inp (.reg .stride), .vldLane 4 0 [3] .inp (.imm 4),
    .vldLane 1 3 [4, 5, 6] .inp (.reg .stride), .perm .trn1h .trn2h 0 2, .perm .trn1h .trn2h 1 3,
    .perm .trn1b .trn2b 0 1, .perm .trn1b .trn2b 2 3, .qqd .uaddw 8 8 0, .qqd .uaddw 9 9 1,
    .qqd .uaddw 10 10 2, .qqd .uaddw 11 11 3, .qqd .uaddw 12 12 4, .qqd .uaddw 13 13 5, .qqd .uaddw 14 14 6,
    .vst1 4 [0, 1, 2, 3] .out 8 (.imm 32), .vst1 4 [4, 5, 6] .out 8 (.imm 24), .ins 0 .mulSum, .dupW 1 .addSum,
    .qq .uaddlp 8 8, .qq .uaddlp 9 9, .qq .uaddlp 10 10, .qq .uaddlp 11 11, .qq .uaddlp 12 12,
    .qq .uaddlp 13 13, .qq .uaddlp 14 14, .ddd .vpadd 16 16 17, .ddd .vpadd 18 18 19, .ddd .vpadd 20 20 21,
    .ddd .vpadd 22 22 23, .ddd .vpadd 24 24 25, .ddd .vpadd 26 26 27, .ddd .vpadd 28 28 29,
    .ddd .vpadd 16 16 18, .ddd .vpadd 17 20 22, .ddd .vpadd 18 24 26, .ddd .vpadd 19 28 28, .mulLane 8 8 0 0,
    .mulLane 9 9 0 0, .qqq .add 8 8 1, .qqq .add 9 9 1, .vst1 4 [16, 17, 18, 19] .out 8 (.imm 0)] }

/-- meta/streams_arm_32.h:10751-10870. -/
def col32_7x5 : Prog32 :=
  { init := [.sub .stride 4, .zeroQ 8, .zeroQ 9, .zeroQ 10, .zeroQ 11, .zeroQ 12, .zeroQ 13, .zeroQ 14, .subs .count 5]
    skip := true
    body := [.subs .count 8, .vldLane 4 0 [0] .inp (.imm 4), .vldLane 1 0 [4, 5, 6] .inp (.reg .stride),
    .vldLane 4 0 [1] .inp (.imm 4), .vldLane 1 1 [4, 5, 6] .inp (.reg .stride), .vldLane 4 0 [2] .inp (.imm 4),
    .vldLane 1 2 [4, 5, 6] .inp (.reg .stride), .vldLane 4 0 [3] .inp (.imm 4),
    .vldLane 1 3 [4, 5, 6] .inp (.reg .stride), .vldLane 4 1 [0] .inp (.imm 4),
    .vldLane 1 4 [4, 5, 6] .inp (.reg .stride), .vldLane 4 1 [1] .inp (.imm 4),
    .vldLane 1 5 [4, 5, 6] .inp (.reg .stride), .vldLane 4 1 [2] .inp (.imm 4),
    .vldLane 1 6 [4, 5, 6] .inp (.reg .stride), .vldLane 4 1 [3] .inp (.imm 4),
    .vldLane 1 7 [4, 5, 6] .inp (.reg .stride), .perm .trn1h .trn2h 0 2, .perm .trn1h .trn2h 1 3,
    .perm .trn1b .trn2b 0 1, .perm .trn1b .trn2b 2 3, .qqd .uaddw 8 8 0, .qqd .uaddw 9 9 1,
    .qqd .uaddw 10 10 2, .qqd .uaddw 11 11 3, .qqd .uaddw 12 12 4, .qqd .uaddw 13 13 5, .qqd .uaddw 14 14 6,
    .vst1 4 [0, 1, 2, 3] .out 8 (.imm 32), .vst1 4 [4, 5, 6] .out 8 (.imm 24)]
    cond := .ne
    tail := [.zeroD 0, .zeroD 1, .zeroD 2, .zeroD 3, .zeroD 4, .zeroD 5, .zeroD 6, .vldLane 4 0 [0] .inp (.imm 4),
    .vldLane 1 0 [4, 5, 6] .inp (.reg .stride), .vldLane 4 0 [1] .inp (.imm 4),
    .vldLane 1 1 [4, 5, 6] .inp (.reg .stride), .vldLane 4 0 [2] .inp (.imm 4),
    .vldLane 1 2 [4, 5, 6] .inp (.reg .stride), .vldLane 4 0 [3] .inp (.imm 4),
    .vldLane 1 3 [4, 5, 6] .inp (.reg .stride), .vldLane 4 1 [0] .inp (.imm 4),
    .vldLane 1 4 [4, 5, 6] .inp (.reg .stride), .perm .trn1h .trn2h 0 2, .perm .trn1h .trn2h 1 3,
    .perm .trn1b .trn2b 0 1, .perm .trn1b .trn2b 2 3, .qqd .uaddw 8 8 0, .qqd .uaddw 9 9 1,
    .qqd .uaddw 10 10 2, .qqd .uaddw 11 11 3, .qqd .uaddw 12 12 4, .qqd .uaddw 13 13 5, .qqd .uaddw 14 14 6,
    .vst1 4 [0, 1, 2, 3] .out 8 (.imm 32), .vst1 4 [4, 5, 6] .out 8 (.imm 24), .ins 0 .mulSum, .dupW 1 .addSum,
    .qq .uaddlp 8 8, .qq .uaddlp 9 9, .qq .uaddlp 10 10, .qq .uaddlp 11 11, .qq .uaddlp 12 12,
    .qq .uaddlp 13 13, .qq .uaddlp 14 14, .ddd .vpadd 16 16 17, .ddd .vpadd 18 18 19, .ddd .vpadd 20 20 21,
    .ddd .vpadd 22 22 23, .ddd .vpadd 24 24 25, .ddd .vpadd 26 26 27, .ddd .vpadd 28 28 29,
    .ddd .vpadd 16 16 18, .ddd .vpadd 17 20 22, .ddd .vpadd 18 24 26, .ddd .vpadd 19 28 28, .mulLane 8 8 0 0,
    .mulLane 9 9 0 0, .qqq .add 8 8 1, .qqq .add 9 9 1, .vst1 4 [16, 17, 18, 19] .out 8 (.imm 0)] }

/-- meta/streams_arm_32.h:10886-11007. -/
def col32_7x6 : Prog32 :=
  { init := [.sub .stride 4, .zeroQ 8, .zeroQ 9, .zeroQ 10, .zeroQ 11, .zeroQ 12, .zeroQ 13, .zeroQ 14, .subs .count 6]
    skip := true
    body := [.subs .count 8, .vldLane 4 0 [0] .inp (.imm 4), .vldLane 1 0 [4, 5, 6] .inp (.reg .stride),
    .vldLane 4 0 [1] .inp (.imm 4), .vldLane 1 1 [4, 5, 6] .inp (.reg .stride), .vldLane 4 0 [2] .inp (.imm 4),
    .vldLane 1 2 [4, 5, 6] .inp (.reg .stride), .vldLane 4 0 [3] .inp (.imm 4),
    .vldLane 1 3 [4, 5, 6] .inp (.reg .stride), .vldLane 4 1 [0] .inp (.imm 4),
    .vldLane 1 4 [4, 5, 6] .inp (.reg .stride), .vldLane 4 1 [1] .inp (.imm 4),
    .vldLane 1 5 [4, 5, 6] .inp (.reg .stride), .vldLane 4 1 [2] .inp (.imm 4),
    .vldLane 1 6 [4, 5, 6] .inp (.reg .stride), .vldLane 4 1 [3] .inp (.imm 4),
    .vldLane 1 7 [4, 5, 6] .inp (.reg .stride), .perm .trn1h .trn2h 0 2, .perm .trn1h .trn2h 1 3,
    .perm .trn1b .trn2b 0 1, .perm .trn1b .trn2b 2 3, .qqd .uaddw 8 8 0, .qqd .uaddw 9 9 1,
    .qqd .uaddw 10 10 2, .qqd .uaddw 11 11 3, .qqd .uaddw 12 12 4, .qqd .uaddw 13 13 5, .qqd .uaddw 14 14 6,
    .vst1 4 [0, 1, 2, 3] .out 8 (.imm 32), .vst1 4 [4, 5, 6] .out 8 (.imm 24)]
    cond := .ne
    tail := [.zeroD 0, .zeroD 1, .zeroD 2, .zeroD 3, .zeroD 4, .zeroD 5, .zeroD 6, .vldLane 4 0 [0] .inp (.imm 4),
    .vldLane 1 0 [4, 5, 6] .inp (.reg .stride), .vldLane 4 0 [1] .inp (.imm 4),
    .vldLane 1 1 [4, 5, 6] .inp (.reg .stride), .vldLane 4 0 [2] .inp (.imm 4),
    .vldLane 1 2 [4, 5, 6] .inp (.reg .stride), .vldLane 4 0 [3] .inp (.imm 4),
    .vldLane 1 3 [4, 5, 6] .inp (.reg .stride), .vldLane 4 1 [0] .inp (.imm 4),
    .vldLane 1 4 [4, 5, 6] .inp (.reg .stride), .vldLane 4 1 [1] .inp (.imm 4),
    .vldLane 1 5 [4, 5, 6] .inp (.reg .stride), .perm .trn1h .trn2h 0 2, .perm .trn1h .trn2h 1 3,
    .perm .trn1b .trn2b 0 1, .perm .trn1b .trn2b 2 3, .qqd .uaddw 8 8 0, .qqd .uaddw 9 9 1,
    .qqd .uaddw 10 10 2, .qqd .uaddw 11 11 3, .qqd .uaddw 12 12 4, .qqd .uaddw 13 13 5, .qqd .uaddw 14 14 6,
    .vst1 4 [0, 1, 2, 3] .out 8 (.imm 32), .vst1 4 [4, 5, 6] .out 8 (.imm 24), .ins 0 .mulSum, .dupW 1 .addSum,
    .qq .uaddlp 8 8, .qq .uaddlp 9 9, .qq .uaddlp 10 10, .qq .uaddlp 11 11, .qq .uaddlp 12 12,
    .qq .uaddlp 13 13, .qq .uaddlp 14 14, .ddd .vpadd 16 16 17, .ddd .vpadd 18 18 19, .ddd .vpadd 20 20 21,
    .ddd .vpadd 22 22 23, .ddd .vpadd 24 24 25, .ddd .vpadd 26 26 27, .ddd .vpadd 28 28 29,
    .ddd .vpadd 16 16 18, .ddd .vpadd 17 20 22, .ddd .vpadd 18 24 26, .ddd .vpadd 19 28 28, .mulLane 8 8 0 0,
    .mulLane 9 9 0 0, .qqq .add 8 8 1, .qqq .add 9 9 1, .vst1 4 [16, 17, 18, 19] .out 8 (.imm 0)] }

/-- meta/streams_arm_32.h:11023-11146. -/
def col32_7x7 : Prog32 :=
  { init := [.sub .stride 4, .zeroQ 8, .zeroQ 9, .zeroQ 10, .zeroQ 11, .zeroQ 12, .zeroQ 13, .zeroQ 14, .subs .count 7]
    skip := true
    body := [.subs .count 8, .vldLane 4 0 [0] .inp (.imm 4), .vldLane 1 0 [4, 5, 6] .inp (.reg .stride),
    .vldLane 4 0 [1] .inp (.imm 4), .vldLane 1 1 [4, 5, 6] .inp (.reg .stride), .vldLane 4 0 [2] .inp (.imm 4),
    .vldLane 1 2 [4, 5, 6] .inp (.reg .stride), .vldLane 4 0 [3] .inp (.imm 4),
    .vldLane 1 3 [4, 5, 6] .inp (.reg .stride), .vldLane 4 1 [0] .inp (.imm 4),
    .vldLane 1 4 [4, 5, 6] .inp (.reg .stride), .vldLane 4 1 [1] .inp (.imm 4),
    .vldLane 1 5 [4, 5, 6] .inp (.reg .stride), .vldLane 4 1 [2] .inp (.imm 4),
    .vldLane 1 6 [4, 5, 6] .inp (.reg .stride), .vldLane 4 1 [3] .inp (.imm 4),
    .vldLane 1 7 [4, 5, 6] .inp (.reg .stride), .perm .trn1h .trn2h 0 2, .perm .trn1h .trn2h 1 3,
    .perm .trn1b .trn2b 0 1, .perm .trn1b .trn2b 2 3, .qqd .uaddw 8 8 0, .qqd .uaddw 9 9 1,
    .qqd .uaddw 10 10 2, .qqd .uaddw 11 11 3, .qqd .uaddw 12 12 4, .qqd .uaddw 13 13 5, .qqd .uaddw 14 14 6,
    .vst1 4 [0, 1, 2, 3] .out 8 (.imm 32), .vst1 4 [4, 5, 6] .out 8 (.imm 24)]
    cond := .ne
    tail := [.zeroD 0, .zeroD 1, .zeroD 2, .zeroD 3, .zeroD 4, .zeroD 5, .zeroD 6, .vldLane 4 0 [0] .inp (.imm 4),
    .vldLane 1 0 [4, 5, 6] .inp (.reg .stride), .vldLane 4 0 [1] .inp (.imm 4),
    .vldLane 1 1 [4, 5, 6] .inp (.reg .stride), .vldLane 4 0 [2] .inp (.imm 4),
    .vldLane 1 2 [4, 5, 6] .inp (.reg .stride), .vldLane 4 0 [3] .inp (.imm 4),
    .vldLane 1 3 [4, 5, 6] .inp (.reg .stride), .vldLane 4 1 [0] .inp (.imm 4),
    .vldLane 1 4 [4, 5, 6] .inp (.reg .stride), .vldLane 4 1 [1] .inp (.imm 4),
    .vldLane 1 5 [4, 5, 6] .inp (.reg .stride), .vldLane 4 1 [2] .inp (.imm 4),
    .vldLane 1 6 [4, 5, 6] .inp (.reg .stride), .perm .trn1h .trn2h 0 2, .perm .trn1h .trn2h 1 3,
    .perm .trn1b .trn2b 0 1, .perm .trn1b .trn2b 2 3, .qqd .uaddw 8 8 0, .qqd .uaddw 9 9 1,
    .qqd .uaddw 10 10 2, .qqd .uaddw 11 11 3, .qqd .uaddw 12 12 4, .qqd .uaddw 13 13 5, .qqd .uaddw 14 14 6,
    .vst1 4 [0, 1, 2, 3] .out 8 (.imm 32), .vst1 4 [4, 5, 6] .out 8 (.imm 24), .ins 0 .mulSum, .dupW 1 .addSum,
    .qq .uaddlp 8 8, .qq .uaddlp 9 9, .qq .uaddlp 10 10, .qq .uaddlp 11 11, .qq .uaddlp 12 12,
    .qq .uaddlp 13 13, .qq .uaddlp 14 14, .ddd .vpadd 16 16 17, .ddd .vpadd 18 18 19, .ddd .vpadd 20 20 21,
    .ddd .vpadd 22 22 23, .ddd .vpadd 24 24 25, .ddd .vpadd 26 26 27, .ddd .vpadd 28 28 29,
    .ddd .vpadd 16 16 18, .ddd .vpadd 17 20 22, .ddd .vpadd 18 24 26, .ddd .vpadd 19 28 28, .mulLane 8 8 0 0,
    .mulLane 9 9 0 0, .qqq .add 8 8 1, .qqq .add 9 9 1, .vst1 4 [16, 17, 18, 19] .out 8 (.imm 0)] }

/-- meta/streams_arm_32.h:11162-11245. -/
def col32_8x0 : Prog32 :=
  { init := [.zeroQ 8, .zeroQ 9, .zeroQ 10, .zeroQ 11, .zeroQ 12, .zeroQ 13, .zeroQ 14, .zeroQ 15]
    skip := false
    body := [.subs .count 8, .vld1 [0] .inp 0 (.reg .stride), .vld1 [1] .inp 0 (.reg .stride),
    .vld1 [2] .inp 0 (.reg .stride), .vld1 [3] .inp 0 (.reg .stride), .vld1 [4] .inp 0 (.reg .stride),
    .vld1 [5] .inp 0 (.reg .stride), .vld1 [6] .inp 0 (.reg .stride), .vld1 [7] .inp 0 (.reg .stride),
    .perm .trn1b .trn2b 0 1, .perm .trn1b .trn2b 2 3, .perm .trn1b .trn2b 4 5, .perm .trn1b .trn2b 6 7,
    .perm .trn1h .trn2h 0 2, .perm .trn1h .trn2h 1 3, .perm .trn1h .trn2h 4 6, .perm .trn1h .trn2h 5 7,
    .perm .trn1s .trn2s 0 4, .perm .trn1s .trn2s 1 5, .perm .trn1s .trn2s 2 6, .perm .trn1s .trn2s 3 7,
    .qqd .uaddw 8 8 0, .qqd .uaddw 9 9 1, .qqd .uaddw 10 10 2, .qqd .uaddw 11 11 3, .qqd .uaddw 12 12 4,
    .qqd .uaddw 13 13 5, .qqd .uaddw 14 14 6, .qqd .uaddw 15 15 7, .vst1 4 [0, 1, 2, 3] .out 32 (.imm 32),
    .vst1 4 [4, 5, 6, 7] .out 32 (.imm 32)]
    cond := .ne
    tail := [.ins 0 .mulSum, .dupW 1 .addSum, .qq .uaddlp 8 8, .qq .uaddlp 9 9, .qq .uaddlp 10 10, .qq .uaddlp 11 11,
    .qq .uaddlp 12 12, .qq .uaddlp 13 13, .qq .uaddlp 14 14, .qq .uaddlp 15 15, .ddd .vpadd 16 16 17,
    .ddd .vpadd 18 18 19, .ddd .vpadd 20 20 21, .ddd .vpadd 22 22 23, .ddd .vpadd 24 24 25,
    .ddd .vpadd 26 26 27, .ddd .vpadd 28 28 29, .ddd .vpadd 30 30 31, .ddd .vpadd 16 16 18,
    .ddd .vpadd 17 20 22, .ddd .vpadd 18 24 26, .ddd .vpadd 19 28 30, .mulLane 8 8 0 0, .mulLane 9 9 0 0,
    .qqq .add 8 8 1, .qqq .add 9 9 1, .vst1 4 [16, 17, 18, 19] .out 32 (.imm 0)] }

/-- meta/streams_arm_32.h:11261-11384. -/
def col32_8x1 : Prog32 :=
  { init := [.zeroQ 8, .zeroQ 9, .zeroQ 10, .zeroQ 11, .zeroQ 12, .zeroQ 13, .zeroQ 14, .zeroQ 15, .subs .count 1]
    skip := true
    body := [.subs .count 8, .vld1 [0] .inp 0 (.reg .stride), .vld1 [1] .inp 0 (.reg .stride),
    .vld1 [2] .inp 0 (.reg .stride), .vld1 [3] .inp 0 (.reg .stride), .vld1 [4] .inp 0 (.reg .stride),
    .vld1 [5] .inp 0 (.reg .stride), .vld1 [6] .inp 0 (.reg .stride), .vld1 [7] .inp 0 (.reg .stride),
    .perm .trn1b .trn2b 0 1, .perm .trn1b .trn2b 2 3, .perm .trn1b .trn2b 4 5, .perm .trn1b .trn2b 6 7,
    .perm .trn1h .trn2h 0 2, .perm .trn1h .trn2h 1 3, .perm .trn1h .trn2h 4 6, .perm .trn1h .trn2h 5 7,
    .perm .trn1s .trn2s 0 4, .perm .trn1s .trn2s 1 5, .perm .trn1s .trn2s 2 6, .perm .trn1s .trn2s 3 7,
    .qqd .uaddw 8 8 0, .qqd .uaddw 9 9 1, .qqd .uaddw 10 10 2, .qqd .uaddw 11 11 3, .qqd .uaddw 12 12 4,
    .qqd .uaddw 13 13 5, .qqd .uaddw 14 14 6, .qqd .uaddw 15 15 7, .vst1 4 [0, 1, 2, 3] .out 32 (.imm 32),
    .vst1 4 [4, 5, 6, 7] .out 32 (.imm 32)]
    cond := .ne
    tail := [.zeroD 0, .zeroD 1, .zeroD 2, .zeroD 3, .zeroD 4, .zeroD 5, .zeroD 6, .zeroD 7,
    .vld1 [0] .inp 0 (.reg .stride), .perm .trn1b .trn2b 0 1, .perm .trn1b .trn2b 2 3, .perm .trn1b .trn2b 4 5,
    .perm .trn1b .trn2b 6 7, .perm .trn1h .trn2h 0 2, .perm .trn1h .trn2h 1 3, .perm .trn1h .trn2h 4 6,
    .perm .trn1h .trn2h 5 7, .perm .trn1s .trn2s 0 4, .perm .trn1s .trn2s 1 5, .perm .trn1s .trn2s 2 6,
    .perm .trn1s .trn2s 3 7, .qqd .uaddw 8 8 0, .qqd .uaddw 9 9 1, .qqd .uaddw 10 10 2, .qqd .uaddw 11 11 3,
    .qqd .uaddw 12 12 4, .qqd .uaddw 13 13 5, .qqd .uaddw 14 14 6, .qqd .uaddw 15 15 7,
    .vst1 4 [0, 1, 2, 3] .out 32 (.imm 32), .vst1 4 [4, 5, 6, 7] .out 32 (.imm 32), .ins 0 .mulSum,
    .dupW 1 .addSum, .qq .uaddlp 8 8, .qq .uaddlp 9 9, .qq .uaddlp 10 10, .qq .uaddlp 11 11, .qq .uaddlp 12 12,
    .qq .uaddlp 13 13, .qq .uaddlp 14 14, .qq .uaddlp 15 15, .ddd .vpadd 16 16 17, .ddd .vpadd 18 18 19,
    .ddd .vpadd 20 20 21, .ddd .vpadd 22 22 23, .ddd .vpadd 24 24 25, .ddd .vpadd 26 26 27,
    .ddd .vpadd 28 28 29, .ddd .vpadd 30 30 31, .ddd .vpadd 16 16 18, .ddd .vpadd 17 20 22,
    .ddd .vpadd 18 24 26, .ddd .vpadd 19 28 30, .mulLane 8 8 0 0, .mulLane 9 9 0 0, .qqq .add 8 8 1,
    .qqq .add 9 9 1, .vst1 4 [16, 17, 18, 19] .out 32 (.imm 0)] }

/-- meta/streams_arm_32.h:11400-11524. -/
def col32_8x2 : Prog32 :=
  { init := [.zeroQ 8, .zeroQ 9, .zeroQ 10, .zeroQ 11, .zeroQ 12, .zeroQ 13, .zeroQ 14, .zeroQ 15, .subs .count 2]
    skip := true
    body := [.subs .count 8, .vld1 [0] .inp 0 (.reg .stride), .vld1 [1] .inp 0 (.reg .stride),
    .vld1 [2] .inp 0 (.reg .stride), .vld1 [3] .inp 0 (.reg .stride), .vld1 [4] .inp 0 (.reg .stride),
    .vld1 [5] .inp 0 (.reg .stride), .vld1 [6] .inp 0 (.reg .stride), .vld1 [7] .inp 0 (.reg .stride),
    .perm .trn1b .trn2b 0 1, .perm .trn1b .trn2b 2 3, .perm .trn1b .trn2b 4 5, .perm .trn1b .trn2b 6 7,
    .perm .trn1h .trn2h 0 2, .perm .trn1h .trn2h 1 3, .perm .trn1h .trn2h 4 6, .perm .trn1h .trn2h 5 7,
    .perm .trn1s .trn2s 0 4, .perm .trn1s .trn2s 1 5, .perm .trn1s .trn2s 2 6, .perm .trn1s .trn2s 3 7,
    .qqd .uaddw 8 8 0, .qqd .uaddw 9 9 1, .qqd .uaddw 10 10 2, .qqd .uaddw 11 11 3, .qqd .uaddw 12 12 4,
    .qqd .uaddw 13 13 5, .qqd .uaddw 14 14 6, .qqd .uaddw 15 15 7, .vst1 4 [0, 1, 2, 3] .out 32 (.imm 32),
    .vst1 4 [4, 5, 6, 7] .out 32 (.imm 32)]
    cond := .ne
    tail := [.zeroD 0, .zeroD 1, .zeroD 2, .zeroD 3, .zeroD 4, .zeroD 5, .zeroD 6, .zeroD 7,
    .vld1 [0] .inp 0 (.reg .stride), .vld1 [1] .inp 0 (.reg .stride), .perm .trn1b .trn2b 0 1,
    .perm .trn1b .trn2b 2 3, .perm .trn1b .trn2b 4 5, .perm .trn1b .trn2b 6 7, .perm .trn1h .trn2h 0 2,
    .perm .trn1h .trn2h 1 3, .perm .trn1h .trn2h 4 6, .perm .trn1h .trn2h 5 7, .perm .trn1s .trn2s 0 4,
    .perm .trn1s .trn2s 1 5, .perm .trn1s .trn2s 2 6, .perm .trn1s .trn2s 3 7, .qqd .uaddw 8 8 0,
    .qqd .uaddw 9 9 1, .qqd .uaddw 10 10 2, .qqd .uaddw 11 11 3, .qqd .uaddw 12 12 4, .qqd .uaddw 13 13 5,
    .qqd .uaddw 14 14 6, .qqd .uaddw 15 15 7, .vst1 4 [0, 1, 2, 3] .out 32 (.imm 32),
    .vst1 4 [4, 5, 6, 7] .out 32 (.imm 32), .ins 0 .mulSum, .dupW 1 .addSum, .qq .uaddlp 8 8, .qq .uaddlp 9 9,
    .qq .uaddlp 10 10, .qq .uaddlp 11 11, .qq .uaddlp 12 12, .qq .uaddlp 13 13, .qq .uaddlp 14 14,
    .qq .uaddlp 15 15, .ddd .vpadd 16 16 17, .ddd .vpadd 18 18 19, .ddd .vpadd 20 20 21, .ddd .vpadd 22 22 23,
    .ddd .vpadd 24 24 25, .ddd .vpadd 26 26 27, .ddd .vpadd 28 28 29, .ddd .vpadd 30 30 31,
    .ddd .vpadd 16 16 18, .ddd .vpadd 17 20 22, .ddd .vpadd 18 24 26, .ddd .vpadd 19 28 30, .mulLane 8 8 0 0,
    .mulLane 9 9 0 0, .qqq .add 8 8 1, .qqq .add 9 9 1, .vst1 4 [16, 17, 18, 19] .out 32 (.imm 0)] }

/-- meta/streams_arm_32.h:11540-11665. -/
def col32_8x3 : Prog32 :=
  { init := [.zeroQ 8, .zeroQ 9, .zeroQ 10, .zeroQ 11, .zeroQ 12, .zeroQ 13, .zeroQ 14, .zeroQ 15, .subs .count 3]
    skip := true
    body := [.subs .count 8, .vld1 [0] .inp 0 (.reg .stride), .vld1 [1] .inp 0 (.reg .stride),
    .vld1 [2] .inp 0 (.reg .stride), .vld1 [3] .inp 0 (.reg .stride), .vld1 [4] .inp 0 (.reg .stride),
    .vld1 [5] .inp 0 (.reg .stride), .vld1 [6] .inp 0 (.reg .stride), .vld1 [7] .inp 0 (.reg .stride),
    .perm .trn1b .trn2b 0 1, .perm .trn1b .trn2b 2 3, .perm .trn1b .trn2b 4 5, .perm .trn1b .trn2b 6 7,
    .perm .trn1h .trn2h 0 2, .perm .trn1h .trn2h 1 3, .perm .trn1h .trn2h 4 6, .perm .trn1h .trn2h 5 7,
    .perm .trn1s .trn2s 0 4, .perm .trn1s .trn2s 1 5, .perm .trn1s .trn2s 2 6, .perm .trn1s .trn2s 3 7,
    .qqd .uaddw 8 8 0, .qqd .uaddw 9 9 1, .qqd .uaddw 10 10 2, .qqd .uaddw 11 11 3, .qqd .uaddw 12 12 4,
    .qqd .uaddw 13 13 5, .qqd .uaddw 14 14 6, .qqd .uaddw 15 15 7, .vst1 4 [0, 1, 2, 3] .out 32 (.imm 32),
    .vst1 4 [4, 5, 6, 7] .out 32 (.imm 32)]
    cond := .ne
    tail := [.zeroD 0, .zeroD 1, .zeroD 2, .zeroD 3, .zeroD 4, .zeroD 5, .zeroD 6, .zeroD 7,
    .vld1 [0] .inp 0 (.reg .stride), .vld1 [1] .inp 0 (.reg .stride), .vld1 [2] .inp 0 (.reg .stride),
    .perm .trn1b .trn2b 0 1, .perm .trn1b .trn2b 2 3, .perm .trn1b .trn2b 4 5, .perm .trn1b .trn2b 6 7,
    .perm .trn1h .trn2h 0 2, .perm .trn1h .trn2h 1 3, .perm .trn1h .trn2h 4 6, .perm .trn1h .trn2h 5 7,
    .perm .trn1s .trn2s 0 4, .perm .trn1s .trn2s 1 5, .perm .trn1s .trn2s 2 6, .perm .trn1s .trn2s 3 7,
    .qqd .uaddw 8 8 0, .qqd .uaddw 9 9 1, .qqd .uaddw 10 10 2, .qqd .uaddw 11 11 3, .qqd .uaddw 12 12 4,
    .qqd .uaddw 13 13 5, .qqd .uaddw 14 14 6, .qqd .uaddw 15 15 7, .vst1 4 [0, 1, 2, 3] .out 32 (.imm 32),
    .vst1 4 [4, 5, 6, 7] .out 32 (.imm 32), .ins 0 .mulSum, .dupW 1 .addSum, .qq .uaddlp 8 8, .qq .uaddlp 9 9,
    .qq .uaddlp 10 10, .qq .uaddlp 11 11, .qq .uaddlp 12 12, .qq .uaddlp 13 13, .qq .uaddlp 14 14,
    .qq .uaddlp 15 15, .ddd .vpadd 16 16 17, .ddd .vpadd 18 18 19, .ddd .vpadd 20 20 21, .ddd .vpadd 22 22 23,
    .ddd .vpadd 24 24 25, .ddd .vpadd 26 26 27, .ddd .vpadd 28 28 29, .ddd .vpadd 30 30 31,
    .ddd .vpadd 16 16 18, .ddd .vpadd 17 20 22, .ddd .vpadd 18 24 26, .ddd .vpadd 19 28 30, .mulLane 8 8 0 0,
    .mulLane 9 9 0 0, .qqq .add 8 8 1, .qqq .add 9 9 1, .vst1 4 [16, 17, 18, 19] .out 32 (.imm 0)] }

/-- meta/streams_arm_32.h:11681-11807. -/
def col32_8x4 : Prog32 :=
  { init := [.zeroQ 8, .zeroQ 9, .zeroQ 10, .zeroQ 11, .zeroQ 12, .zeroQ 13, .zeroQ 14, .zeroQ 15, .subs .count 4]
    skip := true
    body := [.subs .count 8, .vld1 [0] .inp 0 (.reg .stride), .vld1 [1] .inp 0 (.reg .stride),
    .vld1 [2] .inp 0 (.reg .stride), .vld1 [3] .inp 0 (.reg .stride), .vld1 [4] .inp 0 (.reg .stride),
    .vld1 [5] .inp 0 (.reg .stride), .vld1 [6] .inp 0 (.reg .stride), .vld1 [7] .inp 0 (.reg .stride),
    .perm .trn1b .trn2b 0 1, .perm .trn1b .trn2b 2 3, .perm .trn1b .trn2b 4 5, .perm .trn1b .trn2b 6 7,
    .perm .trn1h .trn2h 0 2, .perm .trn1h .trn2h 1 3, .perm .trn1h .trn2h 4 6, .perm .trn1h .trn2h 5 7,
    .perm .trn1s .trn2s 0 4, .perm .trn1s .trn2s 1 5, .perm .trn1s .trn2s 2 6, .perm .trn1s .trn2s 3 7,
    .qqd .uaddw 8 8 0, .qqd .uaddw 9 9 1, .qqd .uaddw 10 10 2, .qqd .uaddw 11 11 3, .qqd .uaddw 12 12 4,
    .qqd .uaddw 13 13 5, .qqd .uaddw 14 14 6, .qqd .uaddw 15 15 7, .vst1 4 [0, 1, 2, 3] .out 32 (.imm 32),
    .vst1 4 [4, 5, 6, 7] .out 32 (.imm 32)]
    cond := .ne
    tail := [.zeroD 0, .zeroD 1, .zeroD 2, .zeroD 3, .zeroD 4, .zeroD 5, .zeroD 6, .zeroD 7,
    .vld1 [0] .inp 0 (.reg .stride), .vld1 [1] .inp 0 (.reg .stride), .vld1 [2] .inp 0 (.reg .stride),
    .vld1 [3] .inp 0 (.reg .stride), .perm .trn1b .trn2b 0 1, .perm .trn1b .trn2b 2 3, .perm .trn1b .trn2b 4 5,
    .perm .trn1b .trn2b 6 7, .perm .trn1h .trn2h 0 2, .perm .trn1h .trn2h 1 3, .perm .trn1h .trn2h 4 6,
    .perm .trn1h .trn2h 5 7, .perm .trn1s .trn2s 0 4, .perm .trn1s .trn2s 1 5, .perm .trn1s .trn2s 2 6,
    .perm .trn1s .trn2s 3 7, .qqd .uaddw 8 8 0, .qqd .uaddw 9 9 1, .qqd .uaddw 10 10 2, .qqd .uaddw 11 11 3,
    .qqd .uaddw 12 12 4, .qqd .uaddw 13 13 5, .qqd .uaddw 14 14 6, .qqd .uaddw 15 15 7,
    .vst1 4 [0, 1, 2, 3] .out 32 (.imm 32), .vst1 4 [4, 5, 6, 7] .out 32 (.imm 32), .ins 0 .mulSum,
    .dupW 1 .addSum, .qq .uaddlp 8 8, .qq .uaddlp 9 9, .qq .uaddlp 10 10, .qq .uaddlp 11 11, .qq .uaddlp 12 12,
    .qq .uaddlp 13 13, .qq .uaddlp 14 14, .qq .uaddlp 15 15, .ddd .vpadd 16 16 17, .ddd .vpadd 18 18 19,
    .ddd .vpadd 20 20 21, .ddd .vpadd 22 22 23, .ddd .vpadd 24 24 25, .ddd .vpadd 26 26 27,
    .ddd .vpadd 28 28 29, .ddd .vpadd 30 30 31, .ddd .vpadd 16 16 18, .ddd .vpadd 17 20 22,
    .ddd .vpadd 18 24 26, .ddd .vpadd 19 28 30, .mulLane 8 8 0 0, .mulLane 9 9 0 0, .qqq .add 8 8 1,
    .qqq .add 9 9 1, .vst1 4 [16, 17, 18, 19] .out 32 (.imm 0)] }

/-- meta/streams_arm_32.h:11823-11950. -/
def col32_8x5 : Prog32 :=
  { init := [.zeroQ 8, .zeroQ 9, .zeroQ 10, .zeroQ 11, .zeroQ 12, .zeroQ 13, .zeroQ 14, .zeroQ 15, .subs .count 5]
    skip := true
    body := [.subs .count 8, .vld1 [0] .inp 0 (.reg .stride), .vld1 [1] .inp 0 (.reg .stride),
    .vld1 [2] .inp 0 (.reg .stride), .vld1 [3] .inp 0 (.reg .stride), .vld1 [4] .inp 0 (.reg .stride),
    .vld1 [5] .inp 0 (.reg .stride), .vld1 [6] .inp 0 (.reg .stride), .vld1 [7] .inp 0 (.reg .stride),
    .perm .trn1b .trn2b 0 1, .perm .trn1b .trn2b 2 3, .perm .trn1b .trn2b 4 5, .perm .trn1b .trn2b 6 7,
    .perm .trn1h .trn2h 0 2, .perm .trn1h .trn2h 1 3, .perm .trn1h .trn2h 4 6, .perm .trn1h .trn2h 5 7,
    .perm .trn1s .trn2s 0 4, .perm .trn1s .trn2s 1 5, .perm .trn1s .trn2s 2 6, .perm .trn1s .trn2s 3 7,
    .qqd .uaddw 8 8 0, .qqd .uaddw 9 9 1, .qqd .uaddw 10 10 2, .qqd .uaddw 11 11 3, .qqd .uaddw 12 12 4,
    .qqd .uaddw 13 13 5, .qqd .uaddw 14 14 6, .qqd .uaddw 15 15 7, .vst1 4 [0, 1, 2, 3] .out 32 (.imm 32),
    .vst1 4 [4, 5, 6, 7] .out 32 (.imm 32)]
    cond := .ne
    tail := [.zeroD 0, .zeroD 1, .zeroD 2, .zeroD 3, .zeroD 4, .zeroD 5, .zeroD 6, .zeroD 7,
    .vld1 [0] .inp 0 (.reg .stride), .vld1 [1] .inp 0 (.reg .stride), .vld1 [2] .inp 0 (.reg .stride),
    .vld1 [3] .inp 0 (.reg .stride), .vld1 [4] .inp 0 (.reg .stride), .perm .trn1b .trn2b 0 1,
    .perm .trn1b .trn2b 2 3, .perm .trn1b .trn2b 4 5, .perm .trn1b .trn2b 6 7, .perm .trn1h .trn2h 0 2,
    .perm .trn1h .trn2h 1 3, .perm .trn1h .trn2h 4 6, .perm .trn1h .trn2h 5 7, .perm .trn1s .trn2s 0 4,
    .perm .trn1s .trn2s 1 5, .perm .trn1s .trn2s 2 6, .perm .trn1s .trn2s 3 7, .qqd .uaddw 8 8 0,
    .qqd .uaddw 9 9 1, .qqd .uaddw 10 10 2, .qqd .uaddw 11 11 3, .qqd .uaddw 12 12 4, .qqd .uaddw 13 13 5,
    .qqd .uaddw 14 14 6, .qqd .uaddw 15 15 7, .vst1 4 [0, 1, 2, 3] .out 32 (.imm 32),
    .vst1 4 [4, 5, 6, 7] .out 32 (.imm 32), .ins 0 .mulSum, .dupW 1 .addSum, .qq .uaddlp 8 8, .qq .uaddlp 9 9,
    .qq .uaddlp 10 10, .qq .uaddlp 11 11, .qq .uaddlp 12 12, .qq .uaddlp 13 13, .qq .uaddlp 14 14,
    .qq .uaddlp 15 15, .ddd .vpadd 16 16 17, .ddd .vpadd 18 18 19, .ddd .vpadd 20 20 21, .ddd .vpadd 22 22 23,
    .ddd .vpadd 24 24 25, .ddd .vpadd 26 26 27, .ddd .vpadd 28 28 29, .ddd .vpadd 30 30 31,
    .ddd .vpadd 16 16 18, .ddd .vpadd 17 20 22, .ddd .vpadd 18 24 26, .ddd .vpadd 19 28 30, .mulLane 8 8 0 0,
    .mulLane 9 9 0 0, .qqq .add 8 8 1, .qqq .add 9 9 1, .vst1 4 [16, 17, 18, 19] .out 32 (.imm 0)] }

/-- meta/streams_arm_32.h:11966-12094. -/
def col32_8x6 : Prog32 :=
  { init := [.zeroQ 8, .zeroQ 9, .zeroQ 10, .zeroQ 11, .zeroQ 12, .zeroQ 13, .zeroQ 14, .zeroQ 15, .subs .count 6]
    skip := true
    body := [.subs .count 8, .vld1 [0] .inp 0 (.reg .stride), .vld1 [1] .inp 0 (.reg .stride),
    .vld1 [2] .inp 0 (.reg .stride), .vld1 [3] .inp 0 (.reg .stride), .vld1 [4] .inp 0 (.reg .stride),
    .vld1 [5] .inp 0 (.reg .stride), .vld1 [6] .inp 0 (.reg .stride), .vld1 [7] .inp 0 (.reg .stride),
    .perm .trn1b .trn2b 0 1, .perm .trn1b .trn2b 2 3, .perm .trn1b .trn2b 4 5, .perm .trn1b .trn2b 6 7,
    .perm .trn1h .trn2h 0 2, .perm .trn1h .trn2h 1 3, .perm .trn1h .trn2h 4 6, .perm .trn1h .trn2h 5 7,
    .perm .trn1s .trn2s 0 4, .perm .trn1s .trn2s 1 5, .perm .trn1s .trn2s 2 6, .perm .trn1s .trn2s 3 7,
    .qqd .uaddw 8 8 0, .qqd .uaddw 9 9 1, .qqd .uaddw 10 10 2, .qqd .uaddw 11 11 3, .qqd .uaddw 12 12 4,
    .qqd .uaddw 13 13 5, .qqd .uaddw 14 14 6, .qqd .uaddw 15 15 7, .vst1 4 [0, 1, 2, 3] .out 32 (.imm 32),
    .vst1 4 [4, 5, 6, 7] .out 32 (.imm 32)]
    cond := .ne
    tail := [.zeroD 0, .zeroD 1, .zeroD 2, .zeroD 3, .zeroD 4, .zeroD 5, .zeroD 6, .zeroD 7,
    .vld1 [0] .inp 0 (.reg .stride), .vld1 [1] .inp 0 (.reg .stride), .vld1 [2] .inp 0 (.reg .stride),
    .vld1 [3] .inp 0 (.reg .stride), .vld1 [4] .inp 0 (.reg .stride), .vld1 [5] .inp 0 (.reg .stride),
    .perm .trn1b .trn2b 0 1, .perm .trn1b .trn2b 2 3, .perm .trn1b .trn2b 4 5, .perm .trn1b .trn2b 6 7,
    .perm .trn1h .trn2h 0 2, .perm .trn1h .trn2h 1 3, .perm .trn1h .trn2h 4 6, .perm .trn1h .trn2h 5 7,
    .perm .trn1s .trn2s 0 4, .perm .trn1s .trn2s 1 5, .perm .trn1s .trn2s 2 6, .perm .trn1s .trn2s 3 7,
    .qqd .uaddw 8 8 0, .qqd .uaddw 9 9 1, .qqd .uaddw 10 10 2, .qqd .uaddw 11 11 3, .qqd .uaddw 12 12 4,
    .qqd .uaddw 13 13 5, .qqd .uaddw 14 14 6, .qqd .uaddw 15 15 7, .vst1 4 [0, 1, 2, 3] .out 32 (.imm 32),
    .vst1 4 [4, 5, 6, 7] .out 32 (.imm 32), .ins 0 .mulSum, .dupW 1 .addSum, .qq .uaddlp 8 8, .qq .uaddlp 9 9,
    .qq .uaddlp 10 10, .qq .uaddlp 11 11, .qq .uaddlp 12 12, .qq .uaddlp 13 13, .qq .uaddlp 14 14,
    .qq .uaddlp 15 15, .ddd .vpadd 16 16 17, .ddd .vpadd 18 18 19, .ddd .vpadd 20 20 21, .ddd .vpadd 22 22 23,
    .ddd .vpadd 24 24 25, .ddd .vpadd 26 26 27, .ddd .vpadd 28 28 29, .ddd .vpadd 30 30 31,
    .ddd .vpadd 16 16 18, .ddd .vpadd 17 20 22, .ddd .vpadd 18 24 26, .ddd .vpadd 19 28 30, .mulLane 8 8 0 0,
    .mulLane 9 9 0 0, .qqq .add 8 8 1, .qqq .add 9 9 1, .vst1 4 [16, 17, 18, 19] .out 32 (.imm 0)] }

/-- meta/streams_arm_32.h:12110-12239. -/
def col32_8x7 : Prog32 :=
  { init := [.zeroQ 8, .zeroQ 9, .zeroQ 10, .zeroQ 11, .zeroQ 12, .zeroQ 13, .zeroQ 14, .zeroQ 15, .subs .count 7]
    skip := true
    body := [.subs .count 8, .vld1 [0] .inp 0 (.reg .stride), .vld1 [1] .inp 0 (.reg .stride),
    .vld1 [2] .inp 0 (.reg .stride), .vld1 [3] .inp 0 (.reg .stride), .vld1 [4] .inp 0 (.reg .stride),
    .vld1 [5] .inp 0 (.reg .stride), .vld1 [6] .inp 0 (.reg .stride), .vld1 [7] .inp 0 (.reg .stride),
    .perm .trn1b .trn2b 0 1, .perm .trn1b .trn2b 2 3, .perm .trn1b .trn2b 4 5, .perm .trn1b .trn2b 6 7,
    .perm .trn1h .trn2h 0 2, .perm .trn1h .trn2h 1 3, .perm .trn1h .trn2h 4 6, .perm .trn1h .trn2h 5 7,
    .perm .trn1s .trn2s 0 4, .perm .trn1s .trn2s 1 5, .perm .trn1s .trn2s 2 6, .perm .trn1s .trn2s 3 7,
    .qqd .uaddw 8 8 0, .qqd .uaddw 9 9 1, .qqd .uaddw 10 10 2, .qqd .uaddw 11 11 3, .qqd .uaddw 12 12 4,
    .qqd .uaddw 13 13 5, .qqd .uaddw 14 14 6, .qqd .uaddw 15 15 7, .vst1 4 [0, 1, 2, 3] .out 32 (.imm 32),
    .vst1 4 [4, 5, 6, 7] .out 32 (.imm 32)]
    cond := .ne
    tail := [.zeroD 0, .zeroD 1, .zeroD 2, .zeroD 3, .zeroD 4, .zeroD 5, .zeroD 6, .zeroD 7,
    .vld1 [0] .inp 0 (.reg .stride), .vld1 [1] .inp 0 (.reg .stride), .vld1 [2] .inp 0 (.reg .stride),
    .vld1 [3] .inp 0 (.reg .stride), .vld1 [4] .inp 0 (.reg .stride), .vld1 [5] .inp 0 (.reg .stride),
    .vld1 [6] .inp 0 (.reg .stride), .perm .trn1b .trn2b 0 1, .perm .trn1b .trn2b 2 3, .perm .trn1b .trn2b 4 5,
    .perm .trn1b .trn2b 6 7, .perm .trn1h .trn2h 0 2, .perm .trn1h .trn2h 1 3, .perm .trn1h .trn2h 4 6,
    .perm .trn1h .trn2h 5 7, .perm .trn1s .trn2s 0 4, .perm .trn1s .trn2s 1 5, .perm .trn1s .trn2s 2 6,
    .perm .trn1s .trn2s 3 7, .qqd .uaddw 8 8 0, .qqd .uaddw 9 9 1, .qqd .uaddw 10 10 2, .qqd .uaddw 11 11 3,
    .qqd .uaddw 12 12 4, .qqd .uaddw 13 13 5, .qqd .uaddw 14 14 6, .qqd .uaddw 15 15 7,
    .vst1 4 [0, 1, 2, 3] .out 32 (.imm 32), .vst1 4 [4, 5, 6, 7] .out 32 (.imm 32), .ins 0 .mulSum,
    .dupW 1 .addSum, .qq .uaddlp 8 8, .qq .uaddlp 9 9, .qq .uaddlp 10 10, .qq .uaddlp 11 11, .qq .uaddlp 12 12,
    .qq .uaddlp 13 13, .qq .uaddlp 14 14, .qq .uaddlp 15 15, .ddd .vpadd 16 16 17, .ddd .vpadd 18 18 19,
    .ddd .vpadd 20 20 21, .ddd .vpadd 22 22 23, .ddd .vpadd 24 24 25, .ddd .vpadd 26 26 27,
    .ddd .vpadd 28 28 29, .ddd .vpadd 30 30 31, .ddd .vpadd 16 16 18, .ddd .vpadd 17 20 22,
    .ddd .vpadd 18 24 26, .ddd .vpadd 19 28 30, .mulLane 8 8 0 0, .mulLane 9 9 0 0, .qqq .add 8 8 1,
    .qqq .add 9 9 1, .vst1 4 [16, 17, 18, 19] .out 32 (.imm 0)] }

/-- The code for a number of lanes and of leftovers (0 to 7): the specialisations of `Stream` for `ColumnMajorWithSum`. -/
def col32Prog : Nat → Nat → Option Prog32
  | 1, 0 => some col32_1x0
  | 1, 1 => some col32_1x1
  | 1, 2 => some col32_1x2
  | 1, 3 => some col32_1x3
  | 1, 4 => some col32_1x4
  | 1, 5 => some col32_1x5
  | 1, 6 => some col32_1x6
  | 1, 7 => some col32_1x7
  | 2, 0 => some col32_2x0
  | 2, 1 => some col32_2x1
  | 2, 2 => some col32_2x2
  | 2, 3 => some col32_2x3
  | 2, 4 => some col32_2x4
  | 2, 5 => some col32_2x5
  | 2, 6 => some col32_2x6
  | 2, 7 => some col32_2x7
  | 3, 0 => some col32_3x0
  | 3, 1 => some col32_3x1
  | 3, 2 => some col32_3x2
  | 3, 3 => some col32_3x3
  | 3, 4 => some col32_3x4
  | 3, 5 => some col32_3x5
  | 3, 6 => some col32_3x6
  | 3, 7 => some col32_3x7
  | 4, 0 => some col32_4x0
  | 4, 1 => some col32_4x1
  | 4, 2 => some col32_4x2
  | 4, 3 => some col32_4x3
  | 4, 4 => some col32_4x4
  | 4, 5 => some col32_4x5
  | 4, 6 => some col32_4x6
  | 4, 7 => some col32_4x7
  | 5, 0 => some col32_5x0
  | 5, 1 => some col32_5x1
  | 5, 2 => some col32_5x2
  | 5, 3 => some col32_5x3
  | 5, 4 => some col32_5x4
  | 5, 5 => some col32_5x5
  | 5, 6 => some col32_5x6
  | 5, 7 => some col32_5x7
  | 6, 0 => some col32_6x0
  | 6, 1 => some col32_6x1
  | 6, 2 => some col32_6x2
  | 6, 3 => some col32_6x3
  | 6, 4 => some col32_6x4
  | 6, 5 => some col32_6x5
  | 6, 6 => some col32_6x6
  | 6, 7 => some col32_6x7
  | 7, 0 => some col32_7x0
  | 7, 1 => some col32_7x1
  | 7, 2 => some col32_7x2
  | 7, 3 => some col32_7x3
  | 7, 4 => some col32_7x4
  | 7, 5 => some col32_7x5
  | 7, 6 => some col32_7x6
  | 7, 7 => some col32_7x7
  | 8, 0 => some col32_8x0
  | 8, 1 => some col32_8x1
  | 8, 2 => some col32_8x2
  | 8, 3 => some col32_8x3
  | 8, 4 => some col32_8x4
  | 8, 5 => some col32_8x5
  | 8, 6 => some col32_8x6
  | 8, 7 => some col32_8x7
  | _, _ => none

end Gemmlowp.MetaAsm
