import Verif.MetaAsm
/-!
# The RowMajorWithSum packing code of meta/streams_arm_64.h

`rowNxL` is the code of `Stream<uint8_t, N, 8, L, RowMajorWithSum>::Pack`, line by line.
-/
namespace Gemmlowp.MetaAsm

/-- meta/streams_arm_64.h:38-65. -/
def row1x0 : Prog :=
  { init := [.movi 8]
    skip := false
    body := [.subs .count 8, .ld1 8 [0] .inp (.imm 8), .op2 .uaddw 8 8 0, .st1 4 2 [0] .out (.imm 8)]
    cond := .ne
    tail := [.ins 0 .mulSum, .dupW 1 .addSum, .op1 .uaddlp 8 8, .op2 .addp 8 8 8, .op2 .addp 8 8 8, .mulLane 8 8 0 0,
    .op2 .add 8 8 1, .st1 4 4 [8] .out (.imm 0)] }

/-- meta/streams_arm_64.h:79-118. -/
def row1x1 : Prog :=
  { init := [.movi 8, .subs .count 1]
    skip := true
    body := [.subs .count 8, .ld1 8 [0] .inp (.imm 8), .op2 .uaddw 8 8 0, .st1 4 2 [0] .out (.imm 8)]
    cond := .ne
    tail := [.movi 0, .ldLane 1 0 [0] .inp (.imm 1), .op2 .uaddw 8 8 0, .st1 4 2 [0] .out (.imm 8), .ins 0 .mulSum,
    .dupW 1 .addSum, .op1 .uaddlp 8 8, .op2 .addp 8 8 8, .op2 .addp 8 8 8, .mulLane 8 8 0 0, .op2 .add 8 8 1,
    .st1 4 4 [8] .out (.imm 0)] }

/-- meta/streams_arm_64.h:132-171. -/
def row1x2 : Prog :=
  { init := [.movi 8, .subs .count 2]
    skip := true
    body := [.subs .count 8, .ld1 8 [0] .inp (.imm 8), .op2 .uaddw 8 8 0, .st1 4 2 [0] .out (.imm 8)]
    cond := .ne
    tail := [.movi 0, .ldLane 2 0 [0] .inp (.imm 2), .op2 .uaddw 8 8 0, .st1 4 2 [0] .out (.imm 8), .ins 0 .mulSum,
    .dupW 1 .addSum, .op1 .uaddlp 8 8, .op2 .addp 8 8 8, .op2 .addp 8 8 8, .mulLane 8 8 0 0, .op2 .add 8 8 1,
    .st1 4 4 [8] .out (.imm 0)] }

/-- meta/streams_arm_64.h:185-225. -/
def row1x3 : Prog :=
  { init := [.movi 8, .subs .count 3]
    skip := true
    body := [.subs .count 8, .ld1 8 [0] .inp (.imm 8), .op2 .uaddw 8 8 0, .st1 4 2 [0] .out (.imm 8)]
    cond := .ne
    tail := [.movi 0, .ldLane 2 0 [0] .inp (.imm 2), .ldLane 1 2 [0] .inp (.imm 1), .op2 .uaddw 8 8 0,
    .st1 4 2 [0] .out (.imm 8), .ins 0 .mulSum, .dupW 1 .addSum, .op1 .uaddlp 8 8, .op2 .addp 8 8 8,
    .op2 .addp 8 8 8, .mulLane 8 8 0 0, .op2 .add 8 8 1, .st1 4 4 [8] .out (.imm 0)] }

/-- meta/streams_arm_64.h:239-278. -/
def row1x4 : Prog :=
  { init := [.movi 8, .subs .count 4]
    skip := true
    body := [.subs .count 8, .ld1 8 [0] .inp (.imm 8), .op2 .uaddw 8 8 0, .st1 4 2 [0] .out (.imm 8)]
    cond := .ne
    tail := [.movi 0, .ldLane 4 0 [0] .inp (.imm 4), .op2 .uaddw 8 8 0, .st1 4 2 [0] .out (.imm 8), .ins 0 .mulSum,
    .dupW 1 .addSum, .op1 .uaddlp 8 8, .op2 .addp 8 8 8, .op2 .addp 8 8 8, .mulLane 8 8 0 0, .op2 .add 8 8 1,
    .st1 4 4 [8] .out (.imm 0)] }

/-- meta/streams_arm_64.h:292-332. -/
def row1x5 : Prog :=
  { init := [.movi 8, .subs .count 5]
    skip := true
    body := [.subs .count 8, .ld1 8 [0] .inp (.imm 8), .op2 .uaddw 8 8 0, .st1 4 2 [0] .out (.imm 8)]
    cond := .ne
    tail := [.movi 0, .ldLane 4 0 [0] .inp (.imm 4), .ldLane 1 4 [0] .inp (.imm 1), .op2 .uaddw 8 8 0,
    .st1 4 2 [0] .out (.imm 8), .ins 0 .mulSum, .dupW 1 .addSum, .op1 .uaddlp 8 8, .op2 .addp 8 8 8,
    .op2 .addp 8 8 8, .mulLane 8 8 0 0, .op2 .add 8 8 1, .st1 4 4 [8] .out (.imm 0)] }

/-- meta/streams_arm_64.h:346-386. -/
def row1x6 : Prog :=
  { init := [.movi 8, .subs .count 6]
    skip := true
    body := [.subs .count 8, .ld1 8 [0] .inp (.imm 8), .op2 .uaddw 8 8 0, .st1 4 2 [0] .out (.imm 8)]
    cond := .ne
    tail := [.movi 0, .ldLane 4 0 [0] .inp (.imm 4), .ldLane 2 2 [0] .inp (.imm 2), .op2 .uaddw 8 8 0,
    .st1 4 2 [0] .out (.imm 8), .ins 0 .mulSum, .dupW 1 .addSum, .op1 .uaddlp 8 8, .op2 .addp 8 8 8,
    .op2 .addp 8 8 8, .mulLane 8 8 0 0, .op2 .add 8 8 1, .st1 4 4 [8] .out (.imm 0)] }

/-- meta/streams_arm_64.h:400-441. -/
def row1x7 : Prog :=
  { init := [.movi 8, .subs .count 7]
    skip := true
    body := [.subs .count 8, .ld1 8 [0] .inp (.imm 8), .op2 .uaddw 8 8 0, .st1 4 2 [0] .out (.imm 8)]
    cond := .ne
    tail := [.movi 0, .ldLane 4 0 [0] .inp (.imm 4), .ldLane 2 2 [0] .inp (.imm 2), .ldLane 1 6 [0] .inp (.imm 1),
    .op2 .uaddw 8 8 0, .st1 4 2 [0] .out (.imm 8), .ins 0 .mulSum, .dupW 1 .addSum, .op1 .uaddlp 8 8,
    .op2 .addp 8 8 8, .op2 .addp 8 8 8, .mulLane 8 8 0 0, .op2 .add 8 8 1, .st1 4 4 [8] .out (.imm 0)] }

/-- meta/streams_arm_64.h:455-487. -/
def row2x0 : Prog :=
  { init := [.addX (.t 0) .inp .stride, .movi 8, .movi 9]
    skip := false
    body := [.subs .count 8, .ld1 8 [0] .inp (.imm 8), .ld1 8 [1] (.t 0) (.imm 8), .op2 .uaddw 8 8 0, .op2 .uaddw 9 9 1,
    .st1 4 2 [0, 1] .out (.imm 16)]
    cond := .ne
    tail := [.ins 0 .mulSum, .dupW 1 .addSum, .op1 .uaddlp 8 8, .op1 .uaddlp 9 9, .op2 .addp 8 8 9, .op2 .addp 8 8 8,
    .mulLane 8 8 0 0, .op2 .add 8 8 1, .st1 4 4 [8] .out (.imm 0)] }

/-- meta/streams_arm_64.h:501-548. -/
def row2x1 : Prog :=
  { init := [.addX (.t 0) .inp .stride, .movi 8, .movi 9, .subs .count 1]
    skip := true
    body := [.subs .count 8, .ld1 8 [0] .inp (.imm 8), .ld1 8 [1] (.t 0) (.imm 8), .op2 .uaddw 8 8 0, .op2 .uaddw 9 9 1,
    .st1 4 2 [0, 1] .out (.imm 16)]
    cond := .ne
    tail := [.movi 0, .movi 1, .ldLane 1 0 [0] .inp (.imm 1), .ldLane 1 0 [1] (.t 0) (.imm 1), .op2 .uaddw 8 8 0,
    .op2 .uaddw 9 9 1, .st1 4 2 [0, 1] .out (.imm 16), .ins 0 .mulSum, .dupW 1 .addSum, .op1 .uaddlp 8 8,
    .op1 .uaddlp 9 9, .op2 .addp 8 8 9, .op2 .addp 8 8 8, .mulLane 8 8 0 0, .op2 .add 8 8 1,
    .st1 4 4 [8] .out (.imm 0)] }

/-- meta/streams_arm_64.h:562-609. -/
def row2x2 : Prog :=
  { init := [.addX (.t 0) .inp .stride, .movi 8, .movi 9, .subs .count 2]
    skip := true
    body := [.subs .count 8, .ld1 8 [0] .inp (.imm 8), .ld1 8 [1] (.t 0) (.imm 8), .op2 .uaddw 8 8 0, .op2 .uaddw 9 9 1,
    .st1 4 2 [0, 1] .out (.imm 16)]
    cond := .ne
    tail := [.movi 0, .movi 1, .ldLane 2 0 [0] .inp (.imm 2), .ldLane 2 0 [1] (.t 0) (.imm 2), .op2 .uaddw 8 8 0,
    .op2 .uaddw 9 9 1, .st1 4 2 [0, 1] .out (.imm 16), .ins 0 .mulSum, .dupW 1 .addSum, .op1 .uaddlp 8 8,
    .op1 .uaddlp 9 9, .op2 .addp 8 8 9, .op2 .addp 8 8 8, .mulLane 8 8 0 0, .op2 .add 8 8 1,
    .st1 4 4 [8] .out (.imm 0)] }

/-- meta/streams_arm_64.h:623-672. -/
def row2x3 : Prog :=
  { init := [.addX (.t 0) .inp .stride, .movi 8, .movi 9, .subs .count 3]
    skip := true
    body := [.subs .count 8, .ld1 8 [0] .inp (.imm 8), .ld1 8 [1] (.t 0) (.imm 8), .op2 .uaddw 8 8 0, .op2 .uaddw 9 9 1,
    .st1 4 2 [0, 1] .out (.imm 16)]
    cond := .ne
    tail := [.movi 0, .movi 1, .ldLane 2 0 [0] .inp (.imm 2), .ldLane 1 2 [0] .inp (.imm 1),
    .ldLane 2 0 [1] (.t 0) (.imm 2), .ldLane 1 2 [1] (.t 0) (.imm 1), .op2 .uaddw 8 8 0, .op2 .uaddw 9 9 1,
    .st1 4 2 [0, 1] .out (.imm 16), .ins 0 .mulSum, .dupW 1 .addSum, .op1 .uaddlp 8 8, .op1 .uaddlp 9 9,
    .op2 .addp 8 8 9, .op2 .addp 8 8 8, .mulLane 8 8 0 0, .op2 .add 8 8 1, .st1 4 4 [8] .out (.imm 0)] }

/-- meta/streams_arm_64.h:686-733. -/
def row2x4 : Prog :=
  { init := [.addX (.t 0) .inp .stride, .movi 8, .movi 9, .subs .count 4]
    skip := true
    body := [.subs .count 8, .ld1 8 [0] .inp (.imm 8), .ld1 8 [1] (.t 0) (.imm 8), .op2 .uaddw 8 8 0, .op2 .uaddw 9 9 1,
    .st1 4 2 [0, 1] .out (.imm 16)]
    cond := .ne
    tail := [.movi 0, .movi 1, .ldLane 4 0 [0] .inp (.imm 4), .ldLane 4 0 [1] (.t 0) (.imm 4), .op2 .uaddw 8 8 0,
    .op2 .uaddw 9 9 1, .st1 4 2 [0, 1] .out (.imm 16), .ins 0 .mulSum, .dupW 1 .addSum, .op1 .uaddlp 8 8,
    .op1 .uaddlp 9 9, .op2 .addp 8 8 9, .op2 .addp 8 8 8, .mulLane 8 8 0 0, .op2 .add 8 8 1,
    .st1 4 4 [8] .out (.imm 0)] }

/-- meta/streams_arm_64.h:747-796. -/
def row2x5 : Prog :=
  { init := [.addX (.t 0) .inp .stride, .movi 8, .movi 9, .subs .count 5]
    skip := true
    body := [.subs .count 8, .ld1 8 [0] .inp (.imm 8), .ld1 8 [1] (.t 0) (.imm 8), .op2 .uaddw 8 8 0, .op2 .uaddw 9 9 1,
    .st1 4 2 [0, 1] .out (.imm 16)]
    cond := .ne
    tail := [.movi 0, .movi 1, .ldLane 4 0 [0] .inp (.imm 4), .ldLane 1 4 [0] .inp (.imm 1),
    .ldLane 4 0 [1] (.t 0) (.imm 4), .ldLane 1 4 [1] (.t 0) (.imm 1), .op2 .uaddw 8 8 0, .op2 .uaddw 9 9 1,
    .st1 4 2 [0, 1] .out (.imm 16), .ins 0 .mulSum, .dupW 1 .addSum, .op1 .uaddlp 8 8, .op1 .uaddlp 9 9,
    .op2 .addp 8 8 9, .op2 .addp 8 8 8, .mulLane 8 8 0 0, .op2 .add 8 8 1, .st1 4 4 [8] .out (.imm 0)] }

/-- meta/streams_arm_64.h:810-859. -/
def row2x6 : Prog :=
  { init := [.addX (.t 0) .inp .stride, .movi 8, .movi 9, .subs .count 6]
    skip := true
    body := [.subs .count 8, .ld1 8 [0] .inp (.imm 8), .ld1 8 [1] (.t 0) (.imm 8), .op2 .uaddw 8 8 0, .op2 .uaddw 9 9 1,
    .st1 4 2 [0, 1] .out (.imm 16)]
    cond := .ne
    tail := [.movi 0, .movi 1, .ldLane 4 0 [0] .inp (.imm 4), .ldLane 2 2 [0] .inp (.imm 2),
    .ldLane 4 0 [1] (.t 0) (.imm 4), .ldLane 2 2 [1] (.t 0) (.imm 2), .op2 .uaddw 8 8 0, .op2 .uaddw 9 9 1,
    .st1 4 2 [0, 1] .out (.imm 16), .ins 0 .mulSum, .dupW 1 .addSum, .op1 .uaddlp 8 8, .op1 .uaddlp 9 9,
    .op2 .addp 8 8 9, .op2 .addp 8 8 8, .mulLane 8 8 0 0, .op2 .add 8 8 1, .st1 4 4 [8] .out (.imm 0)] }

/-- meta/streams_arm_64.h:873-924. -/
def row2x7 : Prog :=
  { init := [.addX (.t 0) .inp .stride, .movi 8, .movi 9, .subs .count 7]
    skip := true
    body := [.subs .count 8, .ld1 8 [0] .inp (.imm 8), .ld1 8 [1] (.t 0) (.imm 8), .op2 .uaddw 8 8 0, .op2 .uaddw 9 9 1,
    .st1 4 2 [0, 1] .out (.imm 16)]
    cond := .ne
    tail := [.movi 0, .movi 1, .ldLane 4 0 [0] .inp (.imm 4), .ldLane 2 2 [0] .inp (.imm 2),
    .ldLane 1 6 [0] .inp (.imm 1), .ldLane 4 0 [1] (.t 0) (.imm 4), .ldLane 2 2 [1] (.t 0) (.imm 2),
    .ldLane 1 6 [1] (.t 0) (.imm 1), .op2 .uaddw 8 8 0, .op2 .uaddw 9 9 1, .st1 4 2 [0, 1] .out (.imm 16),
    .ins 0 .mulSum, .dupW 1 .addSum, .op1 .uaddlp 8 8, .op1 .uaddlp 9 9, .op2 .addp 8 8 9, .op2 .addp 8 8 8,
    .mulLane 8 8 0 0, .op2 .add 8 8 1, .st1 4 4 [8] .out (.imm 0)] }

/-- meta/streams_arm_64.h:938-976. -/
def row3x0 : Prog :=
  { init := [.addX (.t 0) .inp .stride, .addX (.t 1) (.t 0) .stride, .movi 8, .movi 9, .movi 10]
    skip := false
    body := [.subs .count 8, .ld1 8 [0] .inp (.imm 8), .ld1 8 [1] (.t 0) (.imm 8), .ld1 8 [2] (.t 1) (.imm 8),
    .op2 .uaddw 8 8 0, .op2 .uaddw 9 9 1, .op2 .uaddw 10 10 2, .st1 4 2 [0, 1, 2] .out (.imm 24)]
    cond := .ne
    tail := [.ins 0 .mulSum, .dupW 1 .addSum, .op1 .uaddlp 8 8, .op1 .uaddlp 9 9, .op1 .uaddlp 10 10, .op2 .addp 8 8 9,
    .op2 .addp 10 10 10, .op2 .addp 8 8 10, .mulLane 8 8 0 0, .op2 .add 8 8 1, .st1 4 4 [8] .out (.imm 0)] }

/-- meta/streams_arm_64.h:990-1046. -/
def row3x1 : Prog :=
  { init := [.addX (.t 0) .inp .stride, .addX (.t 1) (.t 0) .stride, .movi 8, .movi 9, .movi 10, .subs .count 1]
    skip := true
    body := [.subs .count 8, .ld1 8 [0] .inp (.imm 8), .ld1 8 [1] (.t 0) (.imm 8), .ld1 8 [2] (.t 1) (.imm 8),
    .op2 .uaddw 8 8 0, .op2 .uaddw 9 9 1, .op2 .uaddw 10 10 2, .st1 4 2 [0, 1, 2] .out (.imm 24)]
    cond := .ne
    tail := [.movi 0, .movi 1, .movi 2, .ldLane 1 0 [0] .inp (.imm 1), .ldLane 1 0 [1] (.t 0) (.imm 1),
    .ldLane 1 0 [2] (.t 1) (.imm 1), .op2 .uaddw 8 8 0, .op2 .uaddw 9 9 1, .op2 .uaddw 10 10 2,
    .st1 4 2 [0, 1, 2] .out (.imm 24), .ins 0 .mulSum, .dupW 1 .addSum, .op1 .uaddlp 8 8, .op1 .uaddlp 9 9,
    .op1 .uaddlp 10 10, .op2 .addp 8 8 9, .op2 .addp 10 10 10, .op2 .addp 8 8 10, .mulLane 8 8 0 0,
    .op2 .add 8 8 1, .st1 4 4 [8] .out (.imm 0)] }

/-- meta/streams_arm_64.h:1060-1116. -/
def row3x2 : Prog :=
  { init := [.addX (.t 0) .inp .stride, .addX (.t 1) (.t 0) .stride, .movi 8, .movi 9, .movi 10, .subs .count 2]
    skip := true
    body := [.subs .count 8, .ld1 8 [0] .inp (.imm 8), .ld1 8 [1] (.t 0) (.imm 8), .ld1 8 [2] (.t 1) (.imm 8),
    .op2 .uaddw 8 8 0, .op2 .uaddw 9 9 1, .op2 .uaddw 10 10 2, .st1 4 2 [0, 1, 2] .out (.imm 24)]
    cond := .ne
    tail := [.movi 0, .movi 1, .movi 2, .ldLane 2 0 [0] .inp (.imm 2), .ldLane 2 0 [1] (.t 0) (.imm 2),
    .ldLane 2 0 [2] (.t 1) (.imm 2), .op2 .uaddw 8 8 0, .op2 .uaddw 9 9 1, .op2 .uaddw 10 10 2,
    .st1 4 2 [0, 1, 2] .out (.imm 24), .ins 0 .mulSum, .dupW 1 .addSum, .op1 .uaddlp 8 8, .op1 .uaddlp 9 9,
    .op1 .uaddlp 10 10, .op2 .addp 8 8 9, .op2 .addp 10 10 10, .op2 .addp 8 8 10, .mulLane 8 8 0 0,
    .op2 .add 8 8 1, .st1 4 4 [8] .out (.imm 0)] }

/-- meta/streams_arm_64.h:1130-1189. -/
def row3x3 : Prog :=
  { init := [.addX (.t 0) .inp .stride, .addX (.t 1) (.t 0) .stride, .movi 8, .movi 9, .movi 10, .subs .count 3]
    skip := true
    body := [.subs .count 8, .ld1 8 [0] .inp (.imm 8), .ld1 8 [1] (.t 0) (.imm 8), .ld1 8 [2] (.t 1) (.imm 8),
    .op2 .uaddw 8 8 0, .op2 .uaddw 9 9 1, .op2 .uaddw 10 10 2, .st1 4 2 [0, 1, 2] .out (.imm 24)]
    cond := .ne
    tail := [.movi 0, .movi 1, .movi 2, .ldLane 2 0 [0] .inp (.imm 2), .ldLane 1 2 [0] .inp (.imm 1),
    .ldLane 2 0 [1] (.t 0) (.imm 2), .ldLane 1 2 [1] (.t 0) (.imm 1), .ldLane 2 0 [2] (.t 1) (.imm 2),
    .ldLane 1 2 [2] (.t 1) (.imm 1), .op2 .uaddw 8 8 0, .op2 .uaddw 9 9 1, .op2 .uaddw 10 10 2,
    .st1 4 2 [0, 1, 2] .out (.imm 24), .ins 0 .mulSum, .dupW 1 .addSum, .op1 .uaddlp 8 8, .op1 .uaddlp 9 9,
    .op1 .uaddlp 10 10, .op2 .addp 8 8 9, .op2 .addp 10 10 10, .op2 .addp 8 8 10, .mulLane 8 8 0 0,
    .op2 .add 8 8 1, .st1 4 4 [8] .out (.imm 0)] }

/-- meta/streams_arm_64.h:1203-1259. -/
def row3x4 : Prog :=
  { init := [.addX (.t 0) .inp .stride, .addX (.t 1) (.t 0) .stride, .movi 8, .movi 9, .movi 10, .subs .count 4]
    skip := true
    body := [.subs .count 8, .ld1 8 [0] .inp (.imm 8), .ld1 8 [1] (.t 0) (.imm 8), .ld1 8 [2] (.t 1) (.imm 8),
    .op2 .uaddw 8 8 0, .op2 .uaddw 9 9 1, .op2 .uaddw 10 10 2, .st1 4 2 [0, 1, 2] .out (.imm 24)]
    cond := .ne
    tail := [.movi 0, .movi 1, .movi 2, .ldLane 4 0 [0] .inp (.imm 4), .ldLane 4 0 [1] (.t 0) (.imm 4),
    .ldLane 4 0 [2] (.t 1) (.imm 4), .op2 .uaddw 8 8 0, .op2 .uaddw 9 9 1, .op2 .uaddw 10 10 2,
    .st1 4 2 [0, 1, 2] .out (.imm 24), .ins 0 .mulSum, .dupW 1 .addSum, .op1 .uaddlp 8 8, .op1 .uaddlp 9 9,
    .op1 .uaddlp 10 10, .op2 .addp 8 8 9, .op2 .addp 10 10 10, .op2 .addp 8 8 10, .mulLane 8 8 0 0,
    .op2 .add 8 8 1, .st1 4 4 [8] .out (.imm 0)] }

/-- meta/streams_arm_64.h:1273-1332. -/
def row3x5 : Prog :=
  { init := [.addX (.t 0) .inp .stride, .addX (.t 1) (.t 0) .stride, .movi 8, .movi 9, .movi 10, .subs .count 5]
    skip := true
    body := [.subs .count 8, .ld1 8 [0] .inp (.imm 8), .ld1 8 [1] (.t 0) (.imm 8), .ld1 8 [2] (.t 1) (.imm 8),
    .op2 .uaddw 8 8 0, .op2 .uaddw 9 9 1, .op2 .uaddw 10 10 2, .st1 4 2 [0, 1, 2] .out (.imm 24)]
    cond := .ne
    tail := [.movi 0, .movi 1, .movi 2, .ldLane 4 0 [0] .inp (.imm 4), .ldLane 1 4 [0] .inp (.imm 1),
    .ldLane 4 0 [1] (.t 0) (.imm 4), .ldLane 1 4 [1] (.t 0) (.imm 1), .ldLane 4 0 [2] (.t 1) (.imm 4),
    .ldLane 1 4 [2] (.t 1) (.imm 1), .op2 .uaddw 8 8 0, .op2 .uaddw 9 9 1, .op2 .uaddw 10 10 2,
    .st1 4 2 [0, 1, 2] .out (.imm 24), .ins 0 .mulSum, .dupW 1 .addSum, .op1 .uaddlp 8 8, .op1 .uaddlp 9 9,
    .op1 .uaddlp 10 10, .op2 .addp 8 8 9, .op2 .addp 10 10 10, .op2 .addp 8 8 10, .mulLane 8 8 0 0,
    .op2 .add 8 8 1, .st1 4 4 [8] .out (.imm 0)] }

/-- meta/streams_arm_64.h:1346-1405. -/
def row3x6 : Prog :=
  { init := [.addX (.t 0) .inp .stride, .addX (.t 1) (.t 0) .stride, .movi 8, .movi 9, .movi 10, .subs .count 6]
    skip := true
    body := [.subs .count 8, .ld1 8 [0] .inp (.imm 8), .ld1 8 [1] (.t 0) (.imm 8), .ld1 8 [2] (.t 1) (.imm 8),
    .op2 .uaddw 8 8 0, .op2 .uaddw 9 9 1, .op2 .uaddw 10 10 2, .st1 4 2 [0, 1, 2] .out (.imm 24)]
    cond := .ne
    tail := [.movi 0, .movi 1, .movi 2, .ldLane 4 0 [0] .inp (.imm 4), .ldLane 2 2 [0] .inp (.imm 2),
    .ldLane 4 0 [1] (.t 0) (.imm 4), .ldLane 2 2 [1] (.t 0) (.imm 2), .ldLane 4 0 [2] (.t 1) (.imm 4),
    .ldLane 2 2 [2] (.t 1) (.imm 2), .op2 .uaddw 8 8 0, .op2 .uaddw 9 9 1, .op2 .uaddw 10 10 2,
    .st1 4 2 [0, 1, 2] .out (.imm 24), .ins 0 .mulSum, .dupW 1 .addSum, .op1 .uaddlp 8 8, .op1 .uaddlp 9 9,
    .op1 .uaddlp 10 10, .op2 .addp 8 8 9, .op2 .addp 10 10 10, .op2 .addp 8 8 10, .mulLane 8 8 0 0,
    .op2 .add 8 8 1, .st1 4 4 [8] .out (.imm 0)] }

/-- meta/streams_arm_64.h:1419-1481. -/
def row3x7 : Prog :=
  { init := [.addX (.t 0) .inp .stride, .addX (.t 1) (.t 0) .stride, .movi 8, .movi 9, .movi 10, .subs .count 7]
    skip := true
    body := [.subs .count 8, .ld1 8 [0] .inp (.imm 8), .ld1 8 [1] (.t 0) (.imm 8), .ld1 8 [2] (.t 1) (.imm 8),
    .op2 .uaddw 8 8 0, .op2 .uaddw 9 9 1, .op2 .uaddw 10 10 2, .st1 4 2 [0, 1, 2] .out (.imm 24)]
    cond := .ne
    tail := [.movi 0, .movi 1, .movi 2, .ldLane 4 0 [0] .inp (.imm 4), .ldLane 2 2 [0] .inp (.imm 2),
    .ldLane 1 6 [0] .inp (.imm 1), .ldLane 4 0 [1] (.t 0) (.imm 4), .ldLane 2 2 [1] (.t 0) (.imm 2),
    .ldLane 1 6 [1] (.t 0) (.imm 1), .ldLane 4 0 [2] (.t 1) (.imm 4), .ldLane 2 2 [2] (.t 1) (.imm 2),
    .ldLane 1 6 [2] (.t 1) (.imm 1), .op2 .uaddw 8 8 0, .op2 .uaddw 9 9 1, .op2 .uaddw 10 10 2,
    .st1 4 2 [0, 1, 2] .out (.imm 24), .ins 0 .mulSum, .dupW 1 .addSum, .op1 .uaddlp 8 8, .op1 .uaddlp 9 9,
    .op1 .uaddlp 10 10, .op2 .addp 8 8 9, .op2 .addp 10 10 10, .op2 .addp 8 8 10, .mulLane 8 8 0 0,
    .op2 .add 8 8 1, .st1 4 4 [8] .out (.imm 0)] }

/-- meta/streams_arm_64.h:1495-1539. -/
def row4x0 : Prog :=
  { init := [.addX (.t 0) .inp .stride, .addX (.t 1) (.t 0) .stride, .addX (.t 2) (.t 1) .stride, .movi 8, .movi 9,
    .movi 10, .movi 11]
    skip := false
    body := [.subs .count 8, .ld1 8 [0] .inp (.imm 8), .ld1 8 [1] (.t 0) (.imm 8), .ld1 8 [2] (.t 1) (.imm 8),
    .ld1 8 [3] (.t 2) (.imm 8), .op2 .uaddw 8 8 0, .op2 .uaddw 9 9 1, .op2 .uaddw 10 10 2, .op2 .uaddw 11 11 3,
    .st1 4 2 [0, 1, 2, 3] .out (.imm 32)]
    cond := .ne
    tail := [.ins 0 .mulSum, .dupW 1 .addSum, .op1 .uaddlp 8 8, .op1 .uaddlp 9 9, .op1 .uaddlp 10 10,
    .op1 .uaddlp 11 11, .op2 .addp 8 8 9, .op2 .addp 10 10 11, .op2 .addp 8 8 10, .mulLane 8 8 0 0,
    .op2 .add 8 8 1, .st1 4 4 [8] .out (.imm 0)] }

/-- meta/streams_arm_64.h:1553-1618. -/
def row4x1 : Prog :=
  { init := [.addX (.t 0) .inp .stride, .addX (.t 1) (.t 0) .stride, .addX (.t 2) (.t 1) .stride, .movi 8, .movi 9,
    .movi 10, .movi 11, .subs .count 1]
    skip := true
    body := [.subs .count 8, .ld1 8 [0] .inp (.imm 8), .ld1 8 [1] (.t 0) (.imm 8), .ld1 8 [2] (.t 1) (.imm 8),
    .ld1 8 [3] (.t 2) (.imm 8), .op2 .uaddw 8 8 0, .op2 .uaddw 9 9 1, .op2 .uaddw 10 10 2, .op2 .uaddw 11 11 3,
    .st1 4 2 [0, 1, 2, 3] .out (.imm 32)]
    cond := .ne
    tail := [.movi 0, .movi 1, .movi 2, .movi 3, .ldLane 1 0 [0] .inp (.imm 1), .ldLane 1 0 [1] (.t 0) (.imm 1),
    .ldLane 1 0 [2] (.t 1) (.imm 1), .ldLane 1 0 [3] (.t 2) (.imm 1), .op2 .uaddw 8 8 0, .op2 .uaddw 9 9 1,
    .op2 .uaddw 10 10 2, .op2 .uaddw 11 11 3, .st1 4 2 [0, 1, 2, 3] .out (.imm 32), .ins 0 .mulSum,
    .dupW 1 .addSum, .op1 .uaddlp 8 8, .op1 .uaddlp 9 9, .op1 .uaddlp 10 10, .op1 .uaddlp 11 11,
    .op2 .addp 8 8 9, .op2 .addp 10 10 11, .op2 .addp 8 8 10, .mulLane 8 8 0 0, .op2 .add 8 8 1,
    .st1 4 4 [8] .out (.imm 0)] }

/-- meta/streams_arm_64.h:1632-1697. -/
def row4x2 : Prog :=
  { init := [.addX (.t 0) .inp .stride, .addX (.t 1) (.t 0) .stride, .addX (.t 2) (.t 1) .stride, .movi 8, .movi 9,
    .movi 10, .movi 11, .subs .count 2]
    skip := true
    body := [.subs .count 8, .ld1 8 [0] .inp (.imm 8), .ld1 8 [1] (.t 0) (.imm 8), .ld1 8 [2] (.t 1) (.imm 8),
    .ld1 8 [3] (.t 2) (.imm 8), .op2 .uaddw 8 8 0, .op2 .uaddw 9 9 1, .op2 .uaddw 10 10 2, .op2 .uaddw 11 11 3,
    .st1 4 2 [0, 1, 2, 3] .out (.imm 32)]
    cond := .ne
    tail := [.movi 0, .movi 1, .movi 2, .movi 3, .ldLane 2 0 [0] .inp (.imm 2), .ldLane 2 0 [1] (.t 0) (.imm 2),
    .ldLane 2 0 [2] (.t 1) (.imm 2), .ldLane 2 0 [3] (.t 2) (.imm 2), .op2 .uaddw 8 8 0, .op2 .uaddw 9 9 1,
    .op2 .uaddw 10 10 2, .op2 .uaddw 11 11 3, .st1 4 2 [0, 1, 2, 3] .out (.imm 32), .ins 0 .mulSum,
    .dupW 1 .addSum, .op1 .uaddlp 8 8, .op1 .uaddlp 9 9, .op1 .uaddlp 10 10, .op1 .uaddlp 11 11,
    .op2 .addp 8 8 9, .op2 .addp 10 10 11, .op2 .addp 8 8 10, .mulLane 8 8 0 0, .op2 .add 8 8 1,
    .st1 4 4 [8] .out (.imm 0)] }

/-- meta/streams_arm_64.h:1711-1780. -/
def row4x3 : Prog :=
  { init := [.addX (.t 0) .inp .stride, .addX (.t 1) (.t 0) .stride, .addX (.t 2) (.t 1) .stride, .movi 8, .movi 9,
    .movi 10, .movi 11, .subs .count 3]
    skip := true
    body := [.subs .count 8, .ld1 8 [0] .inp (.imm 8), .ld1 8 [1] (.t 0) (.imm 8), .ld1 8 [2] (.t 1) (.imm 8),
    .ld1 8 [3] (.t 2) (.imm 8), .op2 .uaddw 8 8 0, .op2 .uaddw 9 9 1, .op2 .uaddw 10 10 2, .op2 .uaddw 11 11 3,
    .st1 4 2 [0, 1, 2, 3] .out (.imm 32)]
    cond := .ne
    tail := [.movi 0, .movi 1, .movi 2, .movi 3, .ldLane 2 0 [0] .inp (.imm 2), .ldLane 1 2 [0] .inp (.imm 1),
    .ldLane 2 0 [1] (.t 0) (.imm 2), .ldLane 1 2 [1] (.t 0) (.imm 1), .ldLane 2 0 [2] (.t 1) (.imm 2),
    .ldLane 1 2 [2] (.t 1) (.imm 1), .ldLane 2 0 [3] (.t 2) (.imm 2), .ldLane 1 2 [3] (.t 2) (.imm 1),
    .op2 .uaddw 8 8 0, .op2 .uaddw 9 9 1, .op2 .uaddw 10 10 2, .op2 .uaddw 11 11 3,
    .st1 4 2 [0, 1, 2, 3] .out (.imm 32), .ins 0 .mulSum, .dupW 1 .addSum, .op1 .uaddlp 8 8, .op1 .uaddlp 9 9,
    .op1 .uaddlp 10 10, .op1 .uaddlp 11 11, .op2 .addp 8 8 9, .op2 .addp 10 10 11, .op2 .addp 8 8 10,
    .mulLane 8 8 0 0, .op2 .add 8 8 1, .st1 4 4 [8] .out (.imm 0)] }

/-- meta/streams_arm_64.h:1794-1859. -/
def row4x4 : Prog :=
  { init := [.addX (.t 0) .inp .stride, .addX (.t 1) (.t 0) .stride, .addX (.t 2) (.t 1) .stride, .movi 8, .movi 9,
    .movi 10, .movi 11, .subs .count 4]
    skip := true
    body := [.subs .count 8, .ld1 8 [0] .inp (.imm 8), .ld1 8 [1] (.t 0) (.imm 8), .ld1 8 [2] (.t 1) (.imm 8),
    .ld1 8 [3] (.t 2) (.imm 8), .op2 .uaddw 8 8 0, .op2 .uaddw 9 9 1, .op2 .uaddw 10 10 2, .op2 .uaddw 11 11 3,
    .st1 4 2 [0, 1, 2, 3] .out (.imm 32)]
    cond := .ne
    tail := [.movi 0, .movi 1, .movi 2, .movi 3, .ldLane 4 0 [0] .inp (.imm 4), .ldLane 4 0 [1] (.t 0) (.imm 4),
    .ldLane 4 0 [2] (.t 1) (.imm 4), .ldLane 4 0 [3] (.t 2) (.imm 4), .op2 .uaddw 8 8 0, .op2 .uaddw 9 9 1,
    .op2 .uaddw 10 10 2, .op2 .uaddw 11 11 3, .st1 4 2 [0, 1, 2, 3] .out (.imm 32), .ins 0 .mulSum,
    .dupW 1 .addSum, .op1 .uaddlp 8 8, .op1 .uaddlp 9 9, .op1 .uaddlp 10 10, .op1 .uaddlp 11 11,
    .op2 .addp 8 8 9, .op2 .addp 10 10 11, .op2 .addp 8 8 10, .mulLane 8 8 0 0, .op2 .add 8 8 1,
    .st1 4 4 [8] .out (.imm 0)] }

/-- meta/streams_arm_64.h:1873-1942. -/
def row4x5 : Prog :=
  { init := [.addX (.t 0) .inp .stride, .addX (.t 1) (.t 0) .stride, .addX (.t 2) (.t 1) .stride, .movi 8, .movi 9,
    .movi 10, .movi 11, .subs .count 5]
    skip := true
    body := [.subs .count 8, .ld1 8 [0] .inp (.imm 8), .ld1 8 [1] (.t 0) (.imm 8), .ld1 8 [2] (.t 1) (.imm 8),
    .ld1 8 [3] (.t 2) (.imm 8), .op2 .uaddw 8 8 0, .op2 .uaddw 9 9 1, .op2 .uaddw 10 10 2, .op2 .uaddw 11 11 3,
    .st1 4 2 [0, 1, 2, 3] .out (.imm 32)]
    cond := .ne
    tail := [.movi 0, .movi 1, .movi 2, .movi 3, .ldLane 4 0 [0] .inp (.imm 4), .ldLane 1 4 [0] .inp (.imm 1),
    .ldLane 4 0 [1] (.t 0) (.imm 4), .ldLane 1 4 [1] (.t 0) (.imm 1), .ldLane 4 0 [2] (.t 1) (.imm 4),
    .ldLane 1 4 [2] (.t 1) (.imm 1), .ldLane 4 0 [3] (.t 2) (.imm 4), .ldLane 1 4 [3] (.t 2) (.imm 1),
    .op2 .uaddw 8 8 0, .op2 .uaddw 9 9 1, .op2 .uaddw 10 10 2, .op2 .uaddw 11 11 3,
    .st1 4 2 [0, 1, 2, 3] .out (.imm 32), .ins 0 .mulSum, .dupW 1 .addSum, .op1 .uaddlp 8 8, .op1 .uaddlp 9 9,
    .op1 .uaddlp 10 10, .op1 .uaddlp 11 11, .op2 .addp 8 8 9, .op2 .addp 10 10 11, .op2 .addp 8 8 10,
    .mulLane 8 8 0 0, .op2 .add 8 8 1, .st1 4 4 [8] .out (.imm 0)] }

/-- meta/streams_arm_64.h:1956-2025. -/
def row4x6 : Prog :=
  { init := [.addX (.t 0) .inp .stride, .addX (.t 1) (.t 0) .stride, .addX (.t 2) (.t 1) .stride, .movi 8, .movi 9,
    .movi 10, .movi 11, .subs .count 6]
    skip := true
    body := [.subs .count 8, .ld1 8 [0] .inp (.imm 8), .ld1 8 [1] (.t 0) (.imm 8), .ld1 8 [2] (.t 1) (.imm 8),
    .ld1 8 [3] (.t 2) (.imm 8), .op2 .uaddw 8 8 0, .op2 .uaddw 9 9 1, .op2 .uaddw 10 10 2, .op2 .uaddw 11 11 3,
    .st1 4 2 [0, 1, 2, 3] .out (.imm 32)]
    cond := .ne
    tail := [.movi 0, .movi 1, .movi 2, .movi 3, .ldLane 4 0 [0] .inp (.imm 4), .ldLane 2 2 [0] .inp (.imm 2),
    .ldLane 4 0 [1] (.t 0) (.imm 4), .ldLane 2 2 [1] (.t 0) (.imm 2), .ldLane 4 0 [2] (.t 1) (.imm 4),
    .ldLane 2 2 [2] (.t 1) (.imm 2), .ldLane 4 0 [3] (.t 2) (.imm 4), .ldLane 2 2 [3] (.t 2) (.imm 2),
    .op2 .uaddw 8 8 0, .op2 .uaddw 9 9 1, .op2 .uaddw 10 10 2, .op2 .uaddw 11 11 3,
    .st1 4 2 [0, 1, 2, 3] .out (.imm 32), .ins 0 .mulSum, .dupW 1 .addSum, .op1 .uaddlp 8 8, .op1 .uaddlp 9 9,
    .op1 .uaddlp 10 10, .op1 .uaddlp 11 11, .op2 .addp 8 8 9, .op2 .addp 10 10 11, .op2 .addp 8 8 10,
    .mulLane 8 8 0 0, .op2 .add 8 8 1, .st1 4 4 [8] .out (.imm 0)] }

/-- meta/streams_arm_64.h:2039-2112. -/
def row4x7 : Prog :=
  { init := [.addX (.t 0) .inp .stride, .addX (.t 1) (.t 0) .stride, .addX (.t 2) (.t 1) .stride, .movi 8, .movi 9,
    .movi 10, .movi 11, .subs .count 7]
    skip := true
    body := [.subs .count 8, .ld1 8 [0] .inp (.imm 8), .ld1 8 [1] (.t 0) (.imm 8), .ld1 8 [2] (.t 1) (.imm 8),
    .ld1 8 [3] (.t 2) (.imm 8), .op2 .uaddw 8 8 0, .op2 .uaddw 9 9 1, .op2 .uaddw 10 10 2, .op2 .uaddw 11 11 3,
    .st1 4 2 [0, 1, 2, 3] .out (.imm 32)]
    cond := .ne
    tail := [.movi 0, .movi 1, .movi 2, .movi 3, .ldLane 4 0 [0] .inp (.imm 4), .ldLane 2 2 [0] .inp (.imm 2),
    .ldLane 1 6 [0] .inp (.imm 1), .ldLane 4 0 [1] (.t 0) (.imm 4), .ldLane 2 2 [1] (.t 0) (.imm 2),
    .ldLane 1 6 [1] (.t 0) (.imm 1), .ldLane 4 0 [2] (.t 1) (.imm 4), .ldLane 2 2 [2] (.t 1) (.imm 2),
    .ldLane 1 6 [2] (.t 1) (.imm 1), .ldLane 4 0 [3] (.t 2) (.imm 4), .ldLane 2 2 [3] (.t 2) (.imm 2),
    .ldLane 1 6 [3] (.t 2) (.imm 1), .op2 .uaddw 8 8 0, .op2 .uaddw 9 9 1, .op2 .uaddw 10 10 2,
    .op2 .uaddw 11 11 3, .st1 4 2 [0, 1, 2, 3] .out (.imm 32), .ins 0 .mulSum, .dupW 1 .addSum,
    .op1 .uaddlp 8 8, .op1 .uaddlp 9 9, .op1 .uaddlp 10 10, .op1 .uaddlp 11 11, .op2 .addp 8 8 9,
    .op2 .addp 10 10 11, .op2 .addp 8 8 10, .mulLane 8 8 0 0, .op2 .add 8 8 1, .st1 4 4 [8] .out (.imm 0)] }

/-- meta/streams_arm_64.h:2126-2180. -/
def row5x0 : Prog :=
  { init := [.addX (.t 0) .inp .stride, .addX (.t 1) (.t 0) .stride, .addX (.t 2) (.t 1) .stride,
    .addX (.t 3) (.t 2) .stride, .movi 8, .movi 9, .movi 10, .movi 11, .movi 12]
    skip := false
    body := [.subs .count 8, .ld1 8 [0] .inp (.imm 8), .ld1 8 [1] (.t 0) (.imm 8), .ld1 8 [2] (.t 1) (.imm 8),
    .ld1 8 [3] (.t 2) (.imm 8), .ld1 8 [4] (.t 3) (.imm 8), .op2 .uaddw 8 8 0, .op2 .uaddw 9 9 1,
    .op2 .uaddw 10 10 2, .op2 .uaddw 11 11 3, .op2 .uaddw 12 12 4, .st1 4 2 [0, 1, 2, 3] .out (.imm 32),
    .st1 4 2 [4] .out (.imm 8)]
    cond := .ne
    tail := [.ins 0 .mulSum, .dupW 1 .addSum, .op1 .uaddlp 8 8, .op1 .uaddlp 9 9, .op1 .uaddlp 10 10,
    .op1 .uaddlp 11 11, .op1 .uaddlp 12 12, .op2 .addp 8 8 9, .op2 .addp 10 10 11, .op2 .addp 12 12 12,
    .op2 .addp 8 8 10, .op2 .addp 9 12 12, .mulLane 8 8 0 0, .mulLane 9 9 0 0, .op2 .add 8 8 1,
    .op2 .add 9 9 1, .st1 4 4 [8, 9] .out (.imm 0)] }

/-- meta/streams_arm_64.h:2194-2273. -/
def row5x1 : Prog :=
  { init := [.addX (.t 0) .inp .stride, .addX (.t 1) (.t 0) .stride, .addX (.t 2) (.t 1) .stride,
    .addX (.t 3) (.t 2) .stride, .movi 8, .movi 9, .movi 10, .movi 11, .movi 12, .subs .count 1]
    skip := true
    body := [.subs .count 8, .ld1 8 [0] .inp (.imm 8), .ld1 8 [1] (.t 0) (.imm 8), .ld1 8 [2] (.t 1) (.imm 8),
    .ld1 8 [3] (.t 2) (.imm 8), .ld1 8 [4] (.t 3) (.imm 8), .op2 .uaddw 8 8 0, .op2 .uaddw 9 9 1,
    .op2 .uaddw 10 10 2, .op2 .uaddw 11 11 3, .op2 .uaddw 12 12 4, .st1 4 2 [0, 1, 2, 3] .out (.imm 32),
    .st1 4 2 [4] .out (.imm 8)]
    cond := .ne
    tail := [.movi 0, .movi 1, .movi 2, .movi 3, .movi 4, .ldLane 1 0 [0] .inp (.imm 1),
    .ldLane 1 0 [1] (.t 0) (.imm 1), .ldLane 1 0 [2] (.t 1) (.imm 1), .ldLane 1 0 [3] (.t 2) (.imm 1),
    .ldLane 1 0 [4] (.t 3) (.imm 1), .op2 .uaddw 8 8 0, .op2 .uaddw 9 9 1, .op2 .uaddw 10 10 2,
    .op2 .uaddw 11 11 3, .op2 .uaddw 12 12 4, .st1 4 2 [0, 1, 2, 3] .out (.imm 32), .st1 4 2 [4] .out (.imm 8),
    .ins 0 .mulSum, .dupW 1 .addSum, .op1 .uaddlp 8 8, .op1 .uaddlp 9 9, .op1 .uaddlp 10 10,
    .op1 .uaddlp 11 11, .op1 .uaddlp 12 12, .op2 .addp 8 8 9, .op2 .addp 10 10 11, .op2 .addp 12 12 12,
    .op2 .addp 8 8 10, .op2 .addp 9 12 12, .mulLane 8 8 0 0, .mulLane 9 9 0 0, .op2 .add 8 8 1,
    .op2 .add 9 9 1, .st1 4 4 [8, 9] .out (.imm 0)] }

/-- meta/streams_arm_64.h:2287-2366. -/
def row5x2 : Prog :=
  { init := [.addX (.t 0) .inp .stride, .addX (.t 1) (.t 0) .stride, .addX (.t 2) (.t 1) .stride,
    .addX (.t 3) (.t 2) .stride, .movi 8, .movi 9, .movi 10, .movi 11, .movi 12, .subs .count 2]
    skip := true
    body := [.subs .count 8, .ld1 8 [0] .inp (.imm 8), .ld1 8 [1] (.t 0) (.imm 8), .ld1 8 [2] (.t 1) (.imm 8),
    .ld1 8 [3] (.t 2) (.imm 8), .ld1 8 [4] (.t 3) (.imm 8), .op2 .uaddw 8 8 0, .op2 .uaddw 9 9 1,
    .op2 .uaddw 10 10 2, .op2 .uaddw 11 11 3, .op2 .uaddw 12 12 4, .st1 4 2 [0, 1, 2, 3] .out (.imm 32),
    .st1 4 2 [4] .out (.imm 8)]
    cond := .ne
    tail := [.movi 0, .movi 1, .movi 2, .movi 3, .movi 4, .ldLane 2 0 [0] .inp (.imm 2),
    .ldLane 2 0 [1] (.t 0) (.imm 2), .ldLane 2 0 [2] (.t 1) (.imm 2), .ldLane 2 0 [3] (.t 2) (.imm 2),
    .ldLane 2 0 [4] (.t 3) (.imm 2), .op2 .uaddw 8 8 0, .op2 .uaddw 9 9 1, .op2 .uaddw 10 10 2,
    .op2 .uaddw 11 11 3, .op2 .uaddw 12 12 4, .st1 4 2 [0, 1, 2, 3] .out (.imm 32), .st1 4 2 [4] .out (.imm 8),
    .ins 0 .mulSum, .dupW 1 .addSum, .op1 .uaddlp 8 8, .op1 .uaddlp 9 9, .op1 .uaddlp 10 10,
    .op1 .uaddlp 11 11, .op1 .uaddlp 12 12, .op2 .addp 8 8 9, .op2 .addp 10 10 11, .op2 .addp 12 12 12,
    .op2 .addp 8 8 10, .op2 .addp 9 12 12, .mulLane 8 8 0 0, .mulLane 9 9 0 0, .op2 .add 8 8 1,
    .op2 .add 9 9 1, .st1 4 4 [8, 9] .out (.imm 0)] }

/-- meta/streams_arm_64.h:2380-2464. -/
def row5x3 : Prog :=
  { init := [.addX (.t 0) .inp .stride, .addX (.t 1) (.t 0) .stride, .addX (.t 2) (.t 1) .stride,
    .addX (.t 3) (.t 2) .stride, .movi 8, .movi 9, .movi 10, .movi 11, .movi 12, .subs .count 3]
    skip := true
    body := [.subs .count 8, .ld1 8 [0] .inp (.imm 8), .ld1 8 [1] (.t 0) (.imm 8), .ld1 8 [2] (.t 1) (.imm 8),
    .ld1 8 [3] (.t 2) (.imm 8), .ld1 8 [4] (.t 3) (.imm 8), .op2 .uaddw 8 8 0, .op2 .uaddw 9 9 1,
    .op2 .uaddw 10 10 2, .op2 .uaddw 11 11 3, .op2 .uaddw 12 12 4, .st1 4 2 [0, 1, 2, 3] .out (.imm 32),
    .st1 4 2 [4] .out (.imm 8)]
    cond := .ne
    tail := [.movi 0, .movi 1, .movi 2, .movi 3, .movi 4, .ldLane 2 0 [0] .inp (.imm 2), .ldLane 1 2 [0] .inp (.imm 1),
    .ldLane 2 0 [1] (.t 0) (.imm 2), .ldLane 1 2 [1] (.t 0) (.imm 1), .ldLane 2 0 [2] (.t 1) (.imm 2),
    .ldLane 1 2 [2] (.t 1) (.imm 1), .ldLane 2 0 [3] (.t 2) (.imm 2), .ldLane 1 2 [3] (.t 2) (.imm 1),
    .ldLane 2 0 [4] (.t 3) (.imm 2), .ldLane 1 2 [4] (.t 3) (.imm 1), .op2 .uaddw 8 8 0, .op2 .uaddw 9 9 1,
    .op2 .uaddw 10 10 2, .op2 .uaddw 11 11 3, .op2 .uaddw 12 12 4, .st1 4 2 [0, 1, 2, 3] .out (.imm 32),
    .st1 4 2 [4] .out (.imm 8), .ins 0 .mulSum, .dupW 1 .addSum, .op1 .uaddlp 8 8, .op1 .uaddlp 9 9,
    .op1 .uaddlp 10 10, .op1 .uaddlp 11 11, .op1 .uaddlp 12 12, .op2 .addp 8 8 9, .op2 .addp 10 10 11,
    .op2 .addp 12 12 12, .op2 .addp 8 8 10, .op2 .addp 9 12 12, .mulLane 8 8 0 0, .mulLane 9 9 0 0,
    .op2 .add 8 8 1, .op2 .add 9 9 1, .st1 4 4 [8, 9] .out (.imm 0)] }

/-- meta/streams_arm_64.h:2478-2557. -/
def row5x4 : Prog :=
  { init := [.addX (.t 0) .inp .stride, .addX (.t 1) (.t 0) .stride, .addX (.t 2) (.t 1) .stride,
    .addX (.t 3) (.t 2) .stride, .movi 8, .movi 9, .movi 10, .movi 11, .movi 12, .subs .count 4]
    skip := true
    body := [.subs .count 8, .ld1 8 [0] .inp (.imm 8), .ld1 8 [1] (.t 0) (.imm 8), .ld1 8 [2] (.t 1) (.imm 8),
    .ld1 8 [3] (.t 2) (.imm 8), .ld1 8 [4] (.t 3) (.imm 8), .op2 .uaddw 8 8 0, .op2 .uaddw 9 9 1,
    .op2 .uaddw 10 10 2, .op2 .uaddw 11 11 3, .op2 .uaddw 12 12 4, .st1 4 2 [0, 1, 2, 3] .out (.imm 32),
    .st1 4 2 [4] .out (.imm 8)]
    cond := .ne
    tail := [.movi 0, .movi 1, .movi 2, .movi 3, .movi 4, .ldLane 4 0 [0] .inp (.imm 4),
    .ldLane 4 0 [1] (.t 0) (.imm 4), .ldLane 4 0 [2] (.t 1) (.imm 4), .ldLane 4 0 [3] (.t 2) (.imm 4),
    .ldLane 4 0 [4] (.t 3) (.imm 4), .op2 .uaddw 8 8 0, .op2 .uaddw 9 9 1, .op2 .uaddw 10 10 2,
    .op2 .uaddw 11 11 3, .op2 .uaddw 12 12 4, .st1 4 2 [0, 1, 2, 3] .out (.imm 32), .st1 4 2 [4] .out (.imm 8),
    .ins 0 .mulSum, .dupW 1 .addSum, .op1 .uaddlp 8 8, .op1 .uaddlp 9 9, .op1 .uaddlp 10 10,
    .op1 .uaddlp 11 11, .op1 .uaddlp 12 12, .op2 .addp 8 8 9, .op2 .addp 10 10 11, .op2 .addp 12 12 12,
    .op2 .addp 8 8 10, .op2 .addp 9 12 12, .mulLane 8 8 0 0, .mulLane 9 9 0 0, .op2 .add 8 8 1,
    .op2 .add 9 9 1, .st1 4 4 [8, 9] .out (.imm 0)] }

/-- meta/streams_arm_64.h:2571-2655. -/
def row5x5 : Prog :=
  { init := [.addX (.t 0) .inp .stride, .addX (.t 1) (.t 0) .stride, .addX (.t 2) (.t 1) .stride,
    .addX (.t 3) (.t 2) .stride, .movi 8, .movi 9, .movi 10, .movi 11, .movi 12, .subs .count 5]
    skip := true
    body := [.subs .count 8, .ld1 8 [0] .inp (.imm 8), .ld1 8 [1] (.t 0) (.imm 8), .ld1 8 [2] (.t 1) (.imm 8),
    .ld1 8 [3] (.t 2) (.imm 8), .ld1 8 [4] (.t 3) (.imm 8), .op2 .uaddw 8 8 0, .op2 .uaddw 9 9 1,
    .op2 .uaddw 10 10 2, .op2 .uaddw 11 11 3, .op2 .uaddw 12 12 4, .st1 4 2 [0, 1, 2, 3] .out (.imm 32),
    .st1 4 2 [4] .out (.imm 8)]
    cond := .ne
    tail := [.movi 0, .movi 1, .movi 2, .movi 3, .movi 4, .ldLane 4 0 [0] .inp (.imm 4), .ldLane 1 4 [0] .inp (.imm 1),
    .ldLane 4 0 [1] (.t 0) (.imm 4), .ldLane 1 4 [1] (.t 0) (.imm 1), .ldLane 4 0 [2] (.t 1) (.imm 4),
    .ldLane 1 4 [2] (.t 1) (.imm 1), .ldLane 4 0 [3] (.t 2) (.imm 4), .ldLane 1 4 [3] (.t 2) (.imm 1),
    .ldLane 4 0 [4] (.t 3) (.imm 4), .ldLane 1 4 [4] (.t 3) (.imm 1), .op2 .uaddw 8 8 0, .op2 .uaddw 9 9 1,
    .op2 .uaddw 10 10 2, .op2 .uaddw 11 11 3, .op2 .uaddw 12 12 4, .st1 4 2 [0, 1, 2, 3] .out (.imm 32),
    .st1 4 2 [4] .out (.imm 8), .ins 0 .mulSum, .dupW 1 .addSum, .op1 .uaddlp 8 8, .op1 .uaddlp 9 9,
    .op1 .uaddlp 10 10, .op1 .uaddlp 11 11, .op1 .uaddlp 12 12, .op2 .addp 8 8 9, .op2 .addp 10 10 11,
    .op2 .addp 12 12 12, .op2 .addp 8 8 10, .op2 .addp 9 12 12, .mulLane 8 8 0 0, .mulLane 9 9 0 0,
    .op2 .add 8 8 1, .op2 .add 9 9 1, .st1 4 4 [8, 9] .out (.imm 0)] }

/-- meta/streams_arm_64.h:2669-2753. -/
def row5x6 : Prog :=
  { init := [.addX (.t 0) .inp .stride, .addX (.t 1) (.t 0) .stride, .addX (.t 2) (.t 1) .stride,
    .addX (.t 3) (.t 2) .stride, .movi 8, .movi 9, .movi 10, .movi 11, .movi 12, .subs .count 6]
    skip := true
    body := [.subs .count 8, .ld1 8 [0] .inp (.imm 8), .ld1 8 [1] (.t 0) (.imm 8), .ld1 8 [2] (.t 1) (.imm 8),
    .ld1 8 [3] (.t 2) (.imm 8), .ld1 8 [4] (.t 3) (.imm 8), .op2 .uaddw 8 8 0, .op2 .uaddw 9 9 1,
    .op2 .uaddw 10 10 2, .op2 .uaddw 11 11 3, .op2 .uaddw 12 12 4, .st1 4 2 [0, 1, 2, 3] .out (.imm 32),
    .st1 4 2 [4] .out (.imm 8)]
    cond := .ne
    tail := [.movi 0, .movi 1, .movi 2, .movi 3, .movi 4, .ldLane 4 0 [0] .inp (.imm 4), .ldLane 2 2 [0] .inp (.imm 2),
    .ldLane 4 0 [1] (.t 0) (.imm 4), .ldLane 2 2 [1] (.t 0) (.imm 2), .ldLane 4 0 [2] (.t 1) (.imm 4),
    .ldLane 2 2 [2] (.t 1) (.imm 2), .ldLane 4 0 [3] (.t 2) (.imm 4), .ldLane 2 2 [3] (.t 2) (.imm 2),
    .ldLane 4 0 [4] (.t 3) (.imm 4), .ldLane 2 2 [4] (.t 3) (.imm 2), .op2 .uaddw 8 8 0, .op2 .uaddw 9 9 1,
    .op2 .uaddw 10 10 2, .op2 .uaddw 11 11 3, .op2 .uaddw 12 12 4, .st1 4 2 [0, 1, 2, 3] .out (.imm 32),
    .st1 4 2 [4] .out (.imm 8), .ins 0 .mulSum, .dupW 1 .addSum, .op1 .uaddlp 8 8, .op1 .uaddlp 9 9,
    .op1 .uaddlp 10 10, .op1 .uaddlp 11 11, .op1 .uaddlp 12 12, .op2 .addp 8 8 9, .op2 .addp 10 10 11,
    .op2 .addp 12 12 12, .op2 .addp 8 8 10, .op2 .addp 9 12 12, .mulLane 8 8 0 0, .mulLane 9 9 0 0,
    .op2 .add 8 8 1, .op2 .add 9 9 1, .st1 4 4 [8, 9] .out (.imm 0)] }

/-- meta/streams_arm_64.h:2767-2856. -/
def row5x7 : Prog :=
  { init := [.addX (.t 0) .inp .stride, .addX (.t 1) (.t 0) .stride, .addX (.t 2) (.t 1) .stride,
    .addX (.t 3) (.t 2) .stride, .movi 8, .movi 9, .movi 10, .movi 11, .movi 12, .subs .count 7]
    skip := true
    body := [.subs .count 8, .ld1 8 [0] .inp (.imm 8), .ld1 8 [1] (.t 0) (.imm 8), .ld1 8 [2] (.t 1) (.imm 8),
    .ld1 8 [3] (.t 2) (.imm 8), .ld1 8 [4] (.t 3) (.imm 8), .op2 .uaddw 8 8 0, .op2 .uaddw 9 9 1,
    .op2 .uaddw 10 10 2, .op2 .uaddw 11 11 3, .op2 .uaddw 12 12 4, .st1 4 2 [0, 1, 2, 3] .out (.imm 32),
    .st1 4 2 [4] .out (.imm 8)]
    cond := .ne
    tail := [.movi 0, .movi 1, .movi 2, .movi 3, .movi 4, .ldLane 4 0 [0] .inp (.imm 4), .ldLane 2 2 [0] .inp (.imm 2),
    .ldLane 1 6 [0] .inp (.imm 1), .ldLane 4 0 [1] (.t 0) (.imm 4), .ldLane 2 2 [1] (.t 0) (.imm 2),
    .ldLane 1 6 [1] (.t 0) (.imm 1), .ldLane 4 0 [2] (.t 1) (.imm 4), .ldLane 2 2 [2] (.t 1) (.imm 2),
    .ldLane 1 6 [2] (.t 1) (.imm 1), .ldLane 4 0 [3] (.t 2) (.imm 4), .ldLane 2 2 [3] (.t 2) (.imm 2),
    .ldLane 1 6 [3] (.t 2) (.imm 1), .ldLane 4 0 [4] (.t 3) (.imm 4), .ldLane 2 2 [4] (.t 3) (.imm 2),
    .ldLane 1 6 [4] (.t 3) (.imm 1), .op2 .uaddw 8 8 0, .op2 .uaddw 9 9 1, .op2 .uaddw 10 10 2,
    .op2 .uaddw 11 11 3, .op2 .uaddw 12 12 4, .st1 4 2 [0, 1, 2, 3] .out (.imm 32), .st1 4 2 [4] .out (.imm 8),
    .ins 0 .mulSum, .dupW 1 .addSum, .op1 .uaddlp 8 8, .op1 .uaddlp 9 9, .op1 .uaddlp 10 10,
    .op1 .uaddlp 11 11, .op1 .uaddlp 12 12, .op2 .addp 8 8 9, .op2 .addp 10 10 11, .op2 .addp 12 12 12,
    .op2 .addp 8 8 10, .op2 .addp 9 12 12, .mulLane 8 8 0 0, .mulLane 9 9 0 0, .op2 .add 8 8 1,
    .op2 .add 9 9 1, .st1 4 4 [8, 9] .out (.imm 0)] }

/-- meta/streams_arm_64.h:2870-2929. -/
def row6x0 : Prog :=
  { init := [.addX (.t 0) .inp .stride, .addX (.t 1) (.t 0) .stride, .addX (.t 2) (.t 1) .stride,
    .addX (.t 3) (.t 2) .stride, .addX (.t 4) (.t 3) .stride, .movi 8, .movi 9, .movi 10, .movi 11, .movi 12,
    .movi 13]
    skip := false
    body := [.subs .count 8, .ld1 8 [0] .inp (.imm 8), .ld1 8 [1] (.t 0) (.imm 8), .ld1 8 [2] (.t 1) (.imm 8),
    .ld1 8 [3] (.t 2) (.imm 8), .ld1 8 [4] (.t 3) (.imm 8), .ld1 8 [5] (.t 4) (.imm 8), .op2 .uaddw 8 8 0,
    .op2 .uaddw 9 9 1, .op2 .uaddw 10 10 2, .op2 .uaddw 11 11 3, .op2 .uaddw 12 12 4, .op2 .uaddw 13 13 5,
    .st1 4 2 [0, 1, 2, 3] .out (.imm 32), .st1 4 2 [4, 5] .out (.imm 16)]
    cond := .ne
    tail := [.ins 0 .mulSum, .dupW 1 .addSum, .op1 .uaddlp 8 8, .op1 .uaddlp 9 9, .op1 .uaddlp 10 10,
    .op1 .uaddlp 11 11, .op1 .uaddlp 12 12, .op1 .uaddlp 13 13, .op2 .addp 8 8 9, .op2 .addp 10 10 11,
    .op2 .addp 12 12 13, .op2 .addp 8 8 10, .op2 .addp 9 12 12, .mulLane 8 8 0 0, .mulLane 9 9 0 0,
    .op2 .add 8 8 1, .op2 .add 9 9 1, .st1 4 4 [8, 9] .out (.imm 0)] }

/-- meta/streams_arm_64.h:2943-3030. -/
def row6x1 : Prog :=
  { init := [.addX (.t 0) .inp .stride, .addX (.t 1) (.t 0) .stride, .addX (.t 2) (.t 1) .stride,
    .addX (.t 3) (.t 2) .stride, .addX (.t 4) (.t 3) .stride, .movi 8, .movi 9, .movi 10, .movi 11, .movi 12,
    .movi 13, .subs .count 1]
    skip := true
    body := [.subs .count 8, .ld1 8 [0] .inp (.imm 8), .ld1 8 [1] (.t 0) (.imm 8), .ld1 8 [2] (.t 1) (.imm 8),
    .ld1 8 [3] (.t 2) (.imm 8), .ld1 8 [4] (.t 3) (.imm 8), .ld1 8 [5] (.t 4) (.imm 8), .op2 .uaddw 8 8 0,
    .op2 .uaddw 9 9 1, .op2 .uaddw 10 10 2, .op2 .uaddw 11 11 3, .op2 .uaddw 12 12 4, .op2 .uaddw 13 13 5,
    .st1 4 2 [0, 1, 2, 3] .out (.imm 32), .st1 4 2 [4, 5] .out (.imm 16)]
    cond := .ne
    tail := [.movi 0, .movi 1, .movi 2, .movi 3, .movi 4, .movi 5, .ldLane 1 0 [0] .inp (.imm 1),
    .ldLane 1 0 [1] (.t 0) (.imm 1), .ldLane 1 0 [2] (.t 1) (.imm 1), .ldLane 1 0 [3] (.t 2) (.imm 1),
    .ldLane 1 0 [4] (.t 3) (.imm 1), .ldLane 1 0 [5] (.t 4) (.imm 1), .op2 .uaddw 8 8 0, .op2 .uaddw 9 9 1,
    .op2 .uaddw 10 10 2, .op2 .uaddw 11 11 3, .op2 .uaddw 12 12 4, .op2 .uaddw 13 13 5,
    .st1 4 2 [0, 1, 2, 3] .out (.imm 32), .st1 4 2 [4, 5] .out (.imm 16), .ins 0 .mulSum, .dupW 1 .addSum,
    .op1 .uaddlp 8 8, .op1 .uaddlp 9 9, .op1 .uaddlp 10 10, .op1 .uaddlp 11 11, .op1 .uaddlp 12 12,
    .op1 .uaddlp 13 13, .op2 .addp 8 8 9, .op2 .addp 10 10 11, .op2 .addp 12 12 13, .op2 .addp 8 8 10,
    .op2 .addp 9 12 12, .mulLane 8 8 0 0, .mulLane 9 9 0 0, .op2 .add 8 8 1, .op2 .add 9 9 1,
    .st1 4 4 [8, 9] .out (.imm 0)] }

/-- meta/streams_arm_64.h:3044-3131. -/
def row6x2 : Prog :=
  { init := [.addX (.t 0) .inp .stride, .addX (.t 1) (.t 0) .stride, .addX (.t 2) (.t 1) .stride,
    .addX (.t 3) (.t 2) .stride, .addX (.t 4) (.t 3) .stride, .movi 8, .movi 9, .movi 10, .movi 11, .movi 12,
    .movi 13, .subs .count 2]
    skip := true
    body := [.subs .count 8, .ld1 8 [0] .inp (.imm 8), .ld1 8 [1] (.t 0) (.imm 8), .ld1 8 [2] (.t 1) (.imm 8),
    .ld1 8 [3] (.t 2) (.imm 8), .ld1 8 [4] (.t 3) (.imm 8), .ld1 8 [5] (.t 4) (.imm 8), .op2 .uaddw 8 8 0,
    .op2 .uaddw 9 9 1, .op2 .uaddw 10 10 2, .op2 .uaddw 11 11 3, .op2 .uaddw 12 12 4, .op2 .uaddw 13 13 5,
    .st1 4 2 [0, 1, 2, 3] .out (.imm 32), .st1 4 2 [4, 5] .out (.imm 16)]
    cond := .ne
    tail := [.movi 0, .movi 1, .movi 2, .movi 3, .movi 4, .movi 5, .ldLane 2 0 [0] .inp (.imm 2),
    .ldLane 2 0 [1] (.t 0) (.imm 2), .ldLane 2 0 [2] (.t 1) (.imm 2), .ldLane 2 0 [3] (.t 2) (.imm 2),
    .ldLane 2 0 [4] (.t 3) (.imm 2), .ldLane 2 0 [5] (.t 4) (.imm 2), .op2 .uaddw 8 8 0, .op2 .uaddw 9 9 1,
    .op2 .uaddw 10 10 2, .op2 .uaddw 11 11 3, .op2 .uaddw 12 12 4, .op2 .uaddw 13 13 5,
    .st1 4 2 [0, 1, 2, 3] .out (.imm 32), .st1 4 2 [4, 5] .out (.imm 16), .ins 0 .mulSum, .dupW 1 .addSum,
    .op1 .uaddlp 8 8, .op1 .uaddlp 9 9, .op1 .uaddlp 10 10, .op1 .uaddlp 11 11, .op1 .uaddlp 12 12,
    .op1 .uaddlp 13 13, .op2 .addp 8 8 9, .op2 .addp 10 10 11, .op2 .addp 12 12 13, .op2 .addp 8 8 10,
    .op2 .addp 9 12 12, .mulLane 8 8 0 0, .mulLane 9 9 0 0, .op2 .add 8 8 1, .op2 .add 9 9 1,
    .st1 4 4 [8, 9] .out (.imm 0)] }

/-- meta/streams_arm_64.h:3145-3238. -/
def row6x3 : Prog :=
  { init := [.addX (.t 0) .inp .stride, .addX (.t 1) (.t 0) .stride, .addX (.t 2) (.t 1) .stride,
    .addX (.t 3) (.t 2) .stride, .addX (.t 4) (.t 3) .stride, .movi 8, .movi 9, .movi 10, .movi 11, .movi 12,
    .movi 13, .subs .count 3]
    skip := true
    body := [.subs .count 8, .ld1 8 [0] .inp (.imm 8), .ld1 8 [1] (.t 0) (.imm 8), .ld1 8 [2] (.t 1) (.imm 8),
    .ld1 8 [3] (.t 2) (.imm 8), .ld1 8 [4] (.t 3) (.imm 8), .ld1 8 [5] (.t 4) (.imm 8), .op2 .uaddw 8 8 0,
    .op2 .uaddw 9 9 1, .op2 .uaddw 10 10 2, .op2 .uaddw 11 11 3, .op2 .uaddw 12 12 4, .op2 .uaddw 13 13 5,
    .st1 4 2 [0, 1, 2, 3] .out (.imm 32), .st1 4 2 [4, 5] .out (.imm 16)]
    cond := .ne
    tail := [.movi 0, .movi 1, .movi 2, .movi 3, .movi 4, .movi 5, .ldLane 2 0 [0] .inp (.imm 2),
    .ldLane 1 2 [0] .inp (.imm 1), .ldLane 2 0 [1] (.t 0) (.imm 2), .ldLane 1 2 [1] (.t 0) (.imm 1),
    .ldLane 2 0 [2] (.t 1) (.imm 2), .ldLane 1 2 [2] (.t 1) (.imm 1), .ldLane 2 0 [3] (.t 2) (.imm 2),
    .ldLane 1 2 [3] (.t 2) (.imm 1), .ldLane 2 0 [4] (.t 3) (.imm 2), .ldLane 1 2 [4] (.t 3) (.imm 1),
    .ldLane 2 0 [5] (.t 4) (.imm 2), .ldLane 1 2 [5] (.t 4) (.imm 1), .op2 .uaddw 8 8 0, .op2 .uaddw 9 9 1,
    .op2 .uaddw 10 10 2, .op2 .uaddw 11 11 3, .op2 .uaddw 12 12 4, .op2 .uaddw 13 13 5,
    .st1 4 2 [0, 1, 2, 3] .out (.imm 32), .st1 4 2 [4, 5] .out (.imm 16), .ins 0 .mulSum, .dupW 1 .addSum,
    .op1 .uaddlp 8 8, .op1 .uaddlp 9 9, .op1 .uaddlp 10 10, .op1 .uaddlp 11 11, .op1 .uaddlp 12 12,
    .op1 .uaddlp 13 13, .op2 .addp 8 8 9, .op2 .addp 10 10 11, .op2 .addp 12 12 13, .op2 .addp 8 8 10,
    .op2 .addp 9 12 12, .mulLane 8 8 0 0, .mulLane 9 9 0 0, .op2 .add 8 8 1, .op2 .add 9 9 1,
    .st1 4 4 [8, 9] .out (.imm 0)] }

/-- meta/streams_arm_64.h:3252-3339. -/
def row6x4 : Prog :=
  { init := [.addX (.t 0) .inp .stride, .addX (.t 1) (.t 0) .stride, .addX (.t 2) (.t 1) .stride,
    .addX (.t 3) (.t 2) .stride, .addX (.t 4) (.t 3) .stride, .movi 8, .movi 9, .movi 10, .movi 11, .movi 12,
    .movi 13, .subs .count 4]
    skip := true
    body := [.subs .count 8, .ld1 8 [0] .inp (.imm 8), .ld1 8 [1] (.t 0) (.imm 8), .ld1 8 [2] (.t 1) (.imm 8),
    .ld1 8 [3] (.t 2) (.imm 8), .ld1 8 [4] (.t 3) (.imm 8), .ld1 8 [5] (.t 4) (.imm 8), .op2 .uaddw 8 8 0,
    .op2 .uaddw 9 9 1, .op2 .uaddw 10 10 2, .op2 .uaddw 11 11 3, .op2 .uaddw 12 12 4, .op2 .uaddw 13 13 5,
    .st1 4 2 [0, 1, 2, 3] .out (.imm 32), .st1 4 2 [4, 5] .out (.imm 16)]
    cond := .ne
    tail := [.movi 0, .movi 1, .movi 2, .movi 3, .movi 4, .movi 5, .ldLane 4 0 [0] .inp (.imm 4),
    .ldLane 4 0 [1] (.t 0) (.imm 4), .ldLane 4 0 [2] (.t 1) (.imm 4), .ldLane 4 0 [3] (.t 2) (.imm 4),
    .ldLane 4 0 [4] (.t 3) (.imm 4), .ldLane 4 0 [5] (.t 4) (.imm 4), .op2 .uaddw 8 8 0, .op2 .uaddw 9 9 1,
    .op2 .uaddw 10 10 2, .op2 .uaddw 11 11 3, .op2 .uaddw 12 12 4, .op2 .uaddw 13 13 5,
    .st1 4 2 [0, 1, 2, 3] .out (.imm 32), .st1 4 2 [4, 5] .out (.imm 16), .ins 0 .mulSum, .dupW 1 .addSum,
    .op1 .uaddlp 8 8, .op1 .uaddlp 9 9, .op1 .uaddlp 10 10, .op1 .uaddlp 11 11, .op1 .uaddlp 12 12,
    .op1 .uaddlp 13 13, .op2 .addp 8 8 9, .op2 .addp 10 10 11, .op2 .addp 12 12 13, .op2 .addp 8 8 10,
    .op2 .addp 9 12 12, .mulLane 8 8 0 0, .mulLane 9 9 0 0, .op2 .add 8 8 1, .op2 .add 9 9 1,
    .st1 4 4 [8, 9] .out (.imm 0)] }

/-- meta/streams_arm_64.h:3353-3446. -/
def row6x5 : Prog :=
  { init := [.addX (.t 0) .inp .stride, .addX (.t 1) (.t 0) .stride, .addX (.t 2) (.t 1) .stride,
    .addX (.t 3) (.t 2) .stride, .addX (.t 4) (.t 3) .stride, .movi 8, .movi 9, .movi 10, .movi 11, .movi 12,
    .movi 13, .subs .count 5]
    skip := true
    body := [.subs .count 8, .ld1 8 [0] .inp (.imm 8), .ld1 8 [1] (.t 0) (.imm 8), .ld1 8 [2] (.t 1) (.imm 8),
    .ld1 8 [3] (.t 2) (.imm 8), .ld1 8 [4] (.t 3) (.imm 8), .ld1 8 [5] (.t 4) (.imm 8), .op2 .uaddw 8 8 0,
    .op2 .uaddw 9 9 1, .op2 .uaddw 10 10 2, .op2 .uaddw 11 11 3, .op2 .uaddw 12 12 4, .op2 .uaddw 13 13 5,
    .st1 4 2 [0, 1, 2, 3] .out (.imm 32), .st1 4 2 [4, 5] .out (.imm 16)]
    cond := .ne
    tail := [.movi 0, .movi 1, .movi 2, .movi 3, .movi 4, .movi 5, .ldLane 4 0 [0] .inp (.imm 4),
    .ldLane 1 4 [0] .inp (.imm 1), .ldLane 4 0 [1] (.t 0) (.imm 4), .ldLane 1 4 [1] (.t 0) (.imm 1),
    .ldLane 4 0 [2] (.t 1) (.imm 4), .ldLane 1 4 [2] (.t 1) (.imm 1), .ldLane 4 0 [3] (.t 2) (.imm 4),
    .ldLane 1 4 [3] (.t 2) (.imm 1), .ldLane 4 0 [4] (.t 3) (.imm 4), .ldLane 1 4 [4] (.t 3) (.imm 1),
    .ldLane 4 0 [5] (.t 4) (.imm 4), .ldLane 1 4 [5] (.t 4) (.imm 1), .op2 .uaddw 8 8 0, .op2 .uaddw 9 9 1,
    .op2 .uaddw 10 10 2, .op2 .uaddw 11 11 3, .op2 .uaddw 12 12 4, .op2 .uaddw 13 13 5,
    .st1 4 2 [0, 1, 2, 3] .out (.imm 32), .st1 4 2 [4, 5] .out (.imm 16), .ins 0 .mulSum, .dupW 1 .addSum,
    .op1 .uaddlp 8 8, .op1 .uaddlp 9 9, .op1 .uaddlp 10 10, .op1 .uaddlp 11 11, .op1 .uaddlp 12 12,
    .op1 .uaddlp 13 13, .op2 .addp 8 8 9, .op2 .addp 10 10 11, .op2 .addp 12 12 13, .op2 .addp 8 8 10,
    .op2 .addp 9 12 12, .mulLane 8 8 0 0, .mulLane 9 9 0 0, .op2 .add 8 8 1, .op2 .add 9 9 1,
    .st1 4 4 [8, 9] .out (.imm 0)] }

/-- meta/streams_arm_64.h:3460-3553. -/
def row6x6 : Prog :=
  { init := [.addX (.t 0) .inp .stride, .addX (.t 1) (.t 0) .stride, .addX (.t 2) (.t 1) .stride,
    .addX (.t 3) (.t 2) .stride, .addX (.t 4) (.t 3) .stride, .movi 8, .movi 9, .movi 10, .movi 11, .movi 12,
    .movi 13, .subs .count 6]
    skip := true
    body := [.subs .count 8, .ld1 8 [0] .inp (.imm 8), .ld1 8 [1] (.t 0) (.imm 8), .ld1 8 [2] (.t 1) (.imm 8),
    .ld1 8 [3] (.t 2) (.imm 8), .ld1 8 [4] (.t 3) (.imm 8), .ld1 8 [5] (.t 4) (.imm 8), .op2 .uaddw 8 8 0,
    .op2 .uaddw 9 9 1, .op2 .uaddw 10 10 2, .op2 .uaddw 11 11 3, .op2 .uaddw 12 12 4, .op2 .uaddw 13 13 5,
    .st1 4 2 [0, 1, 2, 3] .out (.imm 32), .st1 4 2 [4, 5] .out (.imm 16)]
    cond := .ne
    tail := [.movi 0, .movi 1, .movi 2, .movi 3, .movi 4, .movi 5, .ldLane 4 0 [0] .inp (.imm 4),
    .ldLane 2 2 [0] .inp (.imm 2), .ldLane 4 0 [1] (.t 0) (.imm 4), .ldLane 2 2 [1] (.t 0) (.imm 2),
    .ldLane 4 0 [2] (.t 1) (.imm 4), .ldLane 2 2 [2] (.t 1) (.imm 2), .ldLane 4 0 [3] (.t 2) (.imm 4),
    .ldLane 2 2 [3] (.t 2) (.imm 2), .ldLane 4 0 [4] (.t 3) (.imm 4), .ldLane 2 2 [4] (.t 3) (.imm 2),
    .ldLane 4 0 [5] (.t 4) (.imm 4), .ldLane 2 2 [5] (.t 4) (.imm 2), .op2 .uaddw 8 8 0, .op2 .uaddw 9 9 1,
    .op2 .uaddw 10 10 2, .op2 .uaddw 11 11 3, .op2 .uaddw 12 12 4, .op2 .uaddw 13 13 5,
    .st1 4 2 [0, 1, 2, 3] .out (.imm 32), .st1 4 2 [4, 5] .out (.imm 16), .ins 0 .mulSum, .dupW 1 .addSum,
    .op1 .uaddlp 8 8, .op1 .uaddlp 9 9, .op1 .uaddlp 10 10, .op1 .uaddlp 11 11, .op1 .uaddlp 12 12,
    .op1 .uaddlp 13 13, .op2 .addp 8 8 9, .op2 .addp 10 10 11, .op2 .addp 12 12 13, .op2 .addp 8 8 10,
    .op2 .addp 9 12 12, .mulLane 8 8 0 0, .mulLane 9 9 0 0, .op2 .add 8 8 1, .op2 .add 9 9 1,
    .st1 4 4 [8, 9] .out (.imm 0)] }

/-- meta/streams_arm_64.h:3567-3666. -/
def row6x7 : Prog :=
  { init := [.addX (.t 0) .inp .stride, .addX (.t 1) (.t 0) .stride, .addX (.t 2) (.t 1) .stride,
    .addX (.t 3) (.t 2) .stride, .addX (.t 4) (.t 3) .stride, .movi 8, .movi 9, .movi 10, .movi 11, .movi 12,
    .movi 13, .subs .count 7]
    skip := true
    body := [.subs .count 8, .ld1 8 [0] .inp (.imm 8), .ld1 8 [1] (.t 0) (.imm 8), .ld1 8 [2] (.t 1) (.imm 8),
    .ld1 8 [3] (.t 2) (.imm 8), .ld1 8 [4] (.t 3) (.imm 8), .ld1 8 [5] (.t 4) (.imm 8), .op2 .uaddw 8 8 0,
    .op2 .uaddw 9 9 1, .op2 .uaddw 10 10 2, .op2 .uaddw 11 11 3, .op2 .uaddw 12 12 4, .op2 .uaddw 13 13 5,
    .st1 4 2 [0, 1, 2, 3] .out (.imm 32), .st1 4 2 [4, 5] .out (.imm 16)]
    cond := .ne
    tail := [.movi 0, .movi 1, .movi 2, .movi 3, .movi 4, .movi 5, .ldLane 4 0 [0] .inp (.imm 4),
    .ldLane 2 2 [0] .inp (.imm 2), .ldLane 1 6 [0] .inp (.imm 1), .ldLane 4 0 [1] (.t 0) (.imm 4),
    .ldLane 2 2 [1] (.t 0) (.imm 2), .ldLane 1 6 [1] (.t 0) (.imm 1), .ldLane 4 0 [2] (.t 1) (.imm 4),
    .ldLane 2 2 [2] (.t 1) (.imm 2), .ldLane 1 6 [2] (.t 1) (.imm 1), .ldLane 4 0 [3] (.t 2) (.imm 4),
    .ldLane 2 2 [3] (.t 2) (.imm 2), .ldLane 1 6 [3] (.t 2) (.imm 1), .ldLane 4 0 [4] (.t 3) (.imm 4),
    .ldLane 2 2 [4] (.t 3) (.imm 2), .ldLane 1 6 [4] (.t 3) (.imm 1), .ldLane 4 0 [5] (.t 4) (.imm 4),
    .ldLane 2 2 [5] (.t 4) (.imm 2), .ldLane 1 6 [5] (.t 4) (.imm 1), .op2 .uaddw 8 8 0, .op2 .uaddw 9 9 1,
    .op2 .uaddw 10 10 2, .op2 .uaddw 11 11 3, .op2 .uaddw 12 12 4, .op2 .uaddw 13 13 5,
    .st1 4 2 [0, 1, 2, 3] .out (.imm 32), .st1 4 2 [4, 5] .out (.imm 16), .ins 0 .mulSum, .dupW 1 .addSum,
    .op1 .uaddlp 8 8, .op1 .uaddlp 9 9, .op1 .uaddlp 10 10, .op1 .uaddlp 11 11, .op1 .uaddlp 12 12,
    .op1 .uaddlp 13 13, .op2 .addp 8 8 9, .op2 .addp 10 10 11, .op2 .addp 12 12 13, .op2 .addp 8 8 10,
    .op2 .addp 9 12 12, .mulLane 8 8 0 0, .mulLane 9 9 0 0, .op2 .add 8 8 1, .op2 .add 9 9 1,
    .st1 4 4 [8, 9] .out (.imm 0)] }

/-- meta/streams_arm_64.h:3680-3747. -/
def row7x0 : Prog :=
  { init := [.addX (.t 0) .inp .stride, .addX (.t 1) (.t 0) .stride, .addX (.t 2) (.t 1) .stride,
    .addX (.t 3) (.t 2) .stride, .addX (.t 4) (.t 3) .stride, .addX (.t 5) (.t 4) .stride, .movi 8, .movi 9,
    .movi 10, .movi 11, .movi 12, .movi 13, .movi 14]
    skip := false
    body := [.subs .count 8, .ld1 8 [0] .inp (.imm 8), .ld1 8 [1] (.t 0) (.imm 8), .ld1 8 [2] (.t 1) (.imm 8),
    .ld1 8 [3] (.t 2) (.imm 8), .ld1 8 [4] (.t 3) (.imm 8), .ld1 8 [5] (.t 4) (.imm 8),
    .ld1 8 [6] (.t 5) (.imm 8), .op2 .uaddw 8 8 0, .op2 .uaddw 9 9 1, .op2 .uaddw 10 10 2, .op2 .uaddw 11 11 3,
    .op2 .uaddw 12 12 4, .op2 .uaddw 13 13 5, .op2 .uaddw 14 14 6, .st1 4 2 [0, 1, 2, 3] .out (.imm 32),
    .st1 4 2 [4, 5, 6] .out (.imm 24)]
    cond := .ne
    tail := [.ldr (.t 0) .mulSum, .ldr (.t 1) .addSum, .ins 0 (.t 0), .dupW 1 (.t 1), .op1 .uaddlp 8 8,
    .op1 .uaddlp 9 9, .op1 .uaddlp 10 10, .op1 .uaddlp 11 11, .op1 .uaddlp 12 12, .op1 .uaddlp 13 13,
    .op1 .uaddlp 14 14, .op2 .addp 8 8 9, .op2 .addp 10 10 11, .op2 .addp 12 12 13, .op2 .addp 14 14 14,
    .op2 .addp 8 8 10, .op2 .addp 9 12 14, .mulLane 8 8 0 0, .mulLane 9 9 0 0, .op2 .add 8 8 1,
    .op2 .add 9 9 1, .st1 4 4 [8, 9] .out (.imm 0)] }

/-- meta/streams_arm_64.h:3761-3859. -/
def row7x1 : Prog :=
  { init := [.addX (.t 0) .inp .stride, .addX (.t 1) (.t 0) .stride, .addX (.t 2) (.t 1) .stride,
    .addX (.t 3) (.t 2) .stride, .addX (.t 4) (.t 3) .stride, .addX (.t 5) (.t 4) .stride, .movi 8, .movi 9,
    .movi 10, .movi 11, .movi 12, .movi 13, .movi 14, .subs .count 1]
    skip := true
    body := [.subs .count 8, .ld1 8 [0] .inp (.imm 8), .ld1 8 [1] (.t 0) (.imm 8), .ld1 8 [2] (.t 1) (.imm 8),
    .ld1 8 [3] (.t 2) (.imm 8), .ld1 8 [4] (.t 3) (.imm 8), .ld1 8 [5] (.t 4) (.imm 8),
    .ld1 8 [6] (.t 5) (.imm 8), .op2 .uaddw 8 8 0, .op2 .uaddw 9 9 1, .op2 .uaddw 10 10 2, .op2 .uaddw 11 11 3,
    .op2 .uaddw 12 12 4, .op2 .uaddw 13 13 5, .op2 .uaddw 14 14 6, .st1 4 2 [0, 1, 2, 3] .out (.imm 32),
    .st1 4 2 [4, 5, 6] .out (.imm 24)]
    cond := .ne
    tail := [.movi 0, .movi 1, .movi 2, .movi 3, .movi 4, .movi 5, .movi 6, .ldLane 1 0 [0] .inp (.imm 1),
    .ldLane 1 0 [1] (.t 0) (.imm 1), .ldLane 1 0 [2] (.t 1) (.imm 1), .ldLane 1 0 [3] (.t 2) (.imm 1),
    .ldLane 1 0 [4] (.t 3) (.imm 1), .ldLane 1 0 [5] (.t 4) (.imm 1), .ldLane 1 0 [6] (.t 5) (.imm 1),
    .op2 .uaddw 8 8 0, .op2 .uaddw 9 9 1, .op2 .uaddw 10 10 2, .op2 .uaddw 11 11 3, .op2 .uaddw 12 12 4,
    .op2 .uaddw 13 13 5, .op2 .uaddw 14 14 6, .st1 4 2 [0, 1, 2, 3] .out (.imm 32),
    .st1 4 2 [4, 5, 6] .out (.imm 24), .ldr (.t 0) .mulSum, .ldr (.t 1) .addSum, .ins 0 (.t 0), .dupW 1 (.t 1),
    .op1 .uaddlp 8 8, .op1 .uaddlp 9 9, .op1 .uaddlp 10 10, .op1 .uaddlp 11 11, .op1 .uaddlp 12 12,
    .op1 .uaddlp 13 13, .op1 .uaddlp 14 14, .op2 .addp 8 8 9, .op2 .addp 10 10 11, .op2 .addp 12 12 13,
    .op2 .addp 14 14 14, .op2 .addp 8 8 10, .op2 .addp 9 12 14, .mulLane 8 8 0 0, .mulLane 9 9 0 0,
    .op2 .add 8 8 1, .op2 .add 9 9 1, .st1 4 4 [8, 9] .out (.imm 0)] }

/-- meta/streams_arm_64.h:3873-3971. -/
def row7x2 : Prog :=
  { init := [.addX (.t 0) .inp .stride, .addX (.t 1) (.t 0) .stride, .addX (.t 2) (.t 1) .stride,
    .addX (.t 3) (.t 2) .stride, .addX (.t 4) (.t 3) .stride, .addX (.t 5) (.t 4) .stride, .movi 8, .movi 9,
    .movi 10, .movi 11, .movi 12, .movi 13, .movi 14, .subs .count 2]
    skip := true
    body := [.subs .count 8, .ld1 8 [0] .inp (.imm 8), .ld1 8 [1] (.t 0) (.imm 8), .ld1 8 [2] (.t 1) (.imm 8),
    .ld1 8 [3] (.t 2) (.imm 8), .ld1 8 [4] (.t 3) (.imm 8), .ld1 8 [5] (.t 4) (.imm 8),
    .ld1 8 [6] (.t 5) (.imm 8), .op2 .uaddw 8 8 0, .op2 .uaddw 9 9 1, .op2 .uaddw 10 10 2, .op2 .uaddw 11 11 3,
    .op2 .uaddw 12 12 4, .op2 .uaddw 13 13 5, .op2 .uaddw 14 14 6, .st1 4 2 [0, 1, 2, 3] .out (.imm 32),
    .st1 4 2 [4, 5, 6] .out (.imm 24)]
    cond := .ne
    tail := [.movi 0, .movi 1, .movi 2, .movi 3, .movi 4, .movi 5, .movi 6, .ldLane 2 0 [0] .inp (.imm 2),
    .ldLane 2 0 [1] (.t 0) (.imm 2), .ldLane 2 0 [2] (.t 1) (.imm 2), .ldLane 2 0 [3] (.t 2) (.imm 2),
    .ldLane 2 0 [4] (.t 3) (.imm 2), .ldLane 2 0 [5] (.t 4) (.imm 2), .ldLane 2 0 [6] (.t 5) (.imm 2),
    .op2 .uaddw 8 8 0, .op2 .uaddw 9 9 1, .op2 .uaddw 10 10 2, .op2 .uaddw 11 11 3, .op2 .uaddw 12 12 4,
    .op2 .uaddw 13 13 5, .op2 .uaddw 14 14 6, .st1 4 2 [0, 1, 2, 3] .out (.imm 32),
    .st1 4 2 [4, 5, 6] .out (.imm 24), .ldr (.t 0) .mulSum, .ldr (.t 1) .addSum, .ins 0 (.t 0), .dupW 1 (.t 1),
    .op1 .uaddlp 8 8, .op1 .uaddlp 9 9, .op1 .uaddlp 10 10, .op1 .uaddlp 11 11, .op1 .uaddlp 12 12,
    .op1 .uaddlp 13 13, .op1 .uaddlp 14 14, .op2 .addp 8 8 9, .op2 .addp 10 10 11, .op2 .addp 12 12 13,
    .op2 .addp 14 14 14, .op2 .addp 8 8 10, .op2 .addp 9 12 14, .mulLane 8 8 0 0, .mulLane 9 9 0 0,
    .op2 .add 8 8 1, .op2 .add 9 9 1, .st1 4 4 [8, 9] .out (.imm 0)] }

/-- meta/streams_arm_64.h:3985-4090. -/
def row7x3 : Prog :=
  { init := [.addX (.t 0) .inp .stride, .addX (.t 1) (.t 0) .stride, .addX (.t 2) (.t 1) .stride,
    .addX (.t 3) (.t 2) .stride, .addX (.t 4) (.t 3) .stride, .addX (.t 5) (.t 4) .stride, .movi 8, .movi 9,
    .movi 10, .movi 11, .movi 12, .movi 13, .movi 14, .subs .count 3]
    skip := true
    body := [.subs .count 8, .ld1 8 [0] .inp (.imm 8), .ld1 8 [1] (.t 0) (.imm 8), .ld1 8 [2] (.t 1) (.imm 8),
    .ld1 8 [3] (.t 2) (.imm 8), .ld1 8 [4] (.t 3) (.imm 8), .ld1 8 [5] (.t 4) (.imm 8),
    .ld1 8 [6] (.t 5) (.imm 8), .op2 .uaddw 8 8 0, .op2 .uaddw 9 9 1, .op2 .uaddw 10 10 2, .op2 .uaddw 11 11 3,
    .op2 .uaddw 12 12 4, .op2 .uaddw 13 13 5, .op2 .uaddw 14 14 6, .st1 4 2 [0, 1, 2, 3] .out (.imm 32),
    .st1 4 2 [4, 5, 6] .out (.imm 24)]
    cond := .ne
    tail := [.movi 0, .movi 1, .movi 2, .movi 3, .movi 4, .movi 5, .movi 6, .ldLane 2 0 [0] .inp (.imm 2),
    .ldLane 1 2 [0] .inp (.imm 1), .ldLane 2 0 [1] (.t 0) (.imm 2), .ldLane 1 2 [1] (.t 0) (.imm 1),
    .ldLane 2 0 [2] (.t 1) (.imm 2), .ldLane 1 2 [2] (.t 1) (.imm 1), .ldLane 2 0 [3] (.t 2) (.imm 2),
    .ldLane 1 2 [3] (.t 2) (.imm 1), .ldLane 2 0 [4] (.t 3) (.imm 2), .ldLane 1 2 [4] (.t 3) (.imm 1),
    .ldLane 2 0 [5] (.t 4) (.imm 2), .ldLane 1 2 [5] (.t 4) (.imm 1), .ldLane 2 0 [6] (.t 5) (.imm 2),
    .ldLane 1 2 [6] (.t 5) (.imm 1), .op2 .uaddw 8 8 0, .op2 .uaddw 9 9 1, .op2 .uaddw 10 10 2,
    .op2 .uaddw 11 11 3, .op2 .uaddw 12 12 4, .op2 .uaddw 13 13 5, .op2 .uaddw 14 14 6,
    .st1 4 2 [0, 1, 2, 3] .out (.imm 32), .st1 4 2 [4, 5, 6] .out (.imm 24), .ldr (.t 0) .mulSum,
    .ldr (.t 1) .addSum, .ins 0 (.t 0), .dupW 1 (.t 1), .op1 .uaddlp 8 8, .op1 .uaddlp 9 9, .op1 .uaddlp 10 10,
    .op1 .uaddlp 11 11, .op1 .uaddlp 12 12, .op1 .uaddlp 13 13, .op1 .uaddlp 14 14, .op2 .addp 8 8 9,
    .op2 .addp 10 10 11, .op2 .addp 12 12 13, .op2 .addp 14 14 14, .op2 .addp 8 8 10, .op2 .addp 9 12 14,
    .mulLane 8 8 0 0, .mulLane 9 9 0 0, .op2 .add 8 8 1, .op2 .add 9 9 1, .st1 4 4 [8, 9] .out (.imm 0)] }

/-- meta/streams_arm_64.h:4104-4202. -/
def row7x4 : Prog :=
  { init := [.addX (.t 0) .inp .stride, .addX (.t 1) (.t 0) .stride, .addX (.t 2) (.t 1) .stride,
    .addX (.t 3) (.t 2) .stride, .addX (.t 4) (.t 3) .stride, .addX (.t 5) (.t 4) .stride, .movi 8, .movi 9,
    .movi 10, .movi 11, .movi 12, .movi 13, .movi 14, .subs .count 4]
    skip := true
    body := [.subs .count 8, .ld1 8 [0] .inp (.imm 8), .ld1 8 [1] (.t 0) (.imm 8), .ld1 8 [2] (.t 1) (.imm 8),
    .ld1 8 [3] (.t 2) (.imm 8), .ld1 8 [4] (.t 3) (.imm 8), .ld1 8 [5] (.t 4) (.imm 8),
    .ld1 8 [6] (.t 5) (.imm 8), .op2 .uaddw 8 8 0, .op2 .uaddw 9 9 1, .op2 .uaddw 10 10 2, .op2 .uaddw 11 11 3,
    .op2 .uaddw 12 12 4, .op2 .uaddw 13 13 5, .op2 .uaddw 14 14 6, .st1 4 2 [0, 1, 2, 3] .out (.imm 32),
    .st1 4 2 [4, 5, 6] .out (.imm 24)]
    cond := .ne
    tail := [.movi 0, .movi 1, .movi 2, .movi 3, .movi 4, .movi 5, .movi 6, .ldLane 4 0 [0] .inp (.imm 4),
    .ldLane 4 0 [1] (.t 0) (.imm 4), .ldLane 4 0 [2] (.t 1) (.imm 4), .ldLane 4 0 [3] (.t 2) (.imm 4),
    .ldLane 4 0 [4] (.t 3) (.imm 4), .ldLane 4 0 [5] (.t 4) (.imm 4), .ldLane 4 0 [6] (.t 5) (.imm 4),
    .op2 .uaddw 8 8 0, .op2 .uaddw 9 9 1, .op2 .uaddw 10 10 2, .op2 .uaddw 11 11 3, .op2 .uaddw 12 12 4,
    .op2 .uaddw 13 13 5, .op2 .uaddw 14 14 6, .st1 4 2 [0, 1, 2, 3] .out (.imm 32),
    .st1 4 2 [4, 5, 6] .out (.imm 24), .ldr (.t 0) .mulSum, .ldr (.t 1) .addSum, .ins 0 (.t 0), .dupW 1 (.t 1),
    .op1 .uaddlp 8 8, .op1 .uaddlp 9 9, .op1 .uaddlp 10 10, .op1 .uaddlp 11 11, .op1 .uaddlp 12 12,
    .op1 .uaddlp 13 13, .op1 .uaddlp 14 14, .op2 .addp 8 8 9, .op2 .addp 10 10 11, .op2 .addp 12 12 13,
    .op2 .addp 14 14 14, .op2 .addp 8 8 10, .op2 .addp 9 12 14, .mulLane 8 8 0 0, .mulLane 9 9 0 0,
    .op2 .add 8 8 1, .op2 .add 9 9 1, .st1 4 4 [8, 9] .out (.imm 0)] }

/-- meta/streams_arm_64.h:4216-4321. -/
def row7x5 : Prog :=
  { init := [.addX (.t 0) .inp .stride, .addX (.t 1) (.t 0) .stride, .addX (.t 2) (.t 1) .stride,
    .addX (.t 3) (.t 2) .stride, .addX (.t 4) (.t 3) .stride, .addX (.t 5) (.t 4) .stride, .movi 8, .movi 9,
    .movi 10, .movi 11, .movi 12, .movi 13, .movi 14, .subs .count 5]
    skip := true
    body := [.subs .count 8, .ld1 8 [0] .inp (.imm 8), .ld1 8 [1] (.t 0) (.imm 8), .ld1 8 [2] (.t 1) (.imm 8),
    .ld1 8 [3] (.t 2) (.imm 8), .ld1 8 [4] (.t 3) (.imm 8), .ld1 8 [5] (.t 4) (.imm 8),
    .ld1 8 [6] (.t 5) (.imm 8), .op2 .uaddw 8 8 0, .op2 .uaddw 9 9 1, .op2 .uaddw 10 10 2, .op2 .uaddw 11 11 3,
    .op2 .uaddw 12 12 4, .op2 .uaddw 13 13 5, .op2 .uaddw 14 14 6, .st1 4 2 [0, 1, 2, 3] .out (.imm 32),
    .st1 4 2 [4, 5, 6] .out (.imm 24)]
    cond := .ne
    tail := [.movi 0, .movi 1, .movi 2, .movi 3, .movi 4, .movi 5, .movi 6, .ldLane 4 0 [0] .inp (.imm 4),
    .ldLane 1 4 [0] .inp (.imm 1), .ldLane 4 0 [1] (.t 0) (.imm 4), .ldLane 1 4 [1] (.t 0) (.imm 1),
    .ldLane 4 0 [2] (.t 1) (.imm 4), .ldLane 1 4 [2] (.t 1) (.imm 1), .ldLane 4 0 [3] (.t 2) (.imm 4),
    .ldLane 1 4 [3] (.t 2) (.imm 1), .ldLane 4 0 [4] (.t 3) (.imm 4), .ldLane 1 4 [4] (.t 3) (.imm 1),
    .ldLane 4 0 [5] (.t 4) (.imm 4), .ldLane 1 4 [5] (.t 4) (.imm 1), .ldLane 4 0 [6] (.t 5) (.imm 4),
    .ldLane 1 4 [6] (.t 5) (.imm 1), .op2 .uaddw 8 8 0, .op2 .uaddw 9 9 1, .op2 .uaddw 10 10 2,
    .op2 .uaddw 11 11 3, .op2 .uaddw 12 12 4, .op2 .uaddw 13 13 5, .op2 .uaddw 14 14 6,
    .st1 4 2 [0, 1, 2, 3] .out (.imm 32), .st1 4 2 [4, 5, 6] .out (.imm 24), .ldr (.t 0) .mulSum,
    .ldr (.t 1) .addSum, .ins 0 (.t 0), .dupW 1 (.t 1), .op1 .uaddlp 8 8, .op1 .uaddlp 9 9, .op1 .uaddlp 10 10,
    .op1 .uaddlp 11 11, .op1 .uaddlp 12 12, .op1 .uaddlp 13 13, .op1 .uaddlp 14 14, .op2 .addp 8 8 9,
    .op2 .addp 10 10 11, .op2 .addp 12 12 13, .op2 .addp 14 14 14, .op2 .addp 8 8 10, .op2 .addp 9 12 14,
    .mulLane 8 8 0 0, .mulLane 9 9 0 0, .op2 .add 8 8 1, .op2 .add 9 9 1, .st1 4 4 [8, 9] .out (.imm 0)] }

/-- meta/streams_arm_64.h:4335-4440. -/
def row7x6 : Prog :=
  { init := [.addX (.t 0) .inp .stride, .addX (.t 1) (.t 0) .stride, .addX (.t 2) (.t 1) .stride,
    .addX (.t 3) (.t 2) .stride, .addX (.t 4) (.t 3) .stride, .addX (.t 5) (.t 4) .stride, .movi 8, .movi 9,
    .movi 10, .movi 11, .movi 12, .movi 13, .movi 14, .subs .count 6]
    skip := true
    body := [.subs .count 8, .ld1 8 [0] .inp (.imm 8), .ld1 8 [1] (.t 0) (.imm 8), .ld1 8 [2] (.t 1) (.imm 8),
    .ld1 8 [3] (.t 2) (.imm 8), .ld1 8 [4] (.t 3) (.imm 8), .ld1 8 [5] (.t 4) (.imm 8),
    .ld1 8 [6] (.t 5) (.imm 8), .op2 .uaddw 8 8 0, .op2 .uaddw 9 9 1, .op2 .uaddw 10 10 2, .op2 .uaddw 11 11 3,
    .op2 .uaddw 12 12 4, .op2 .uaddw 13 13 5, .op2 .uaddw 14 14 6, .st1 4 2 [0, 1, 2, 3] .out (.imm 32),
    .st1 4 2 [4, 5, 6] .out (.imm 24)]
    cond := .ne
    tail := [.movi 0, .movi 1, .movi 2, .movi 3, .movi 4, .movi 5, .movi 6, .ldLane 4 0 [0] .inp (.imm 4),
    .ldLane 2 2 [0] .inp (.imm 2), .ldLane 4 0 [1] (.t 0) (.imm 4), .ldLane 2 2 [1] (.t 0) (.imm 2),
    .ldLane 4 0 [2] (.t 1) (.imm 4), .ldLane 2 2 [2] (.t 1) (.imm 2), .ldLane 4 0 [3] (.t 2) (.imm 4),
    .ldLane 2 2 [3] (.t 2) (.imm 2), .ldLane 4 0 [4] (.t 3) (.imm 4), .ldLane 2 2 [4] (.t 3) (.imm 2),
    .ldLane 4 0 [5] (.t 4) (.imm 4), .ldLane 2 2 [5] (.t 4) (.imm 2), .ldLane 4 0 [6] (.t 5) (.imm 4),
    .ldLane 2 2 [6] (.t 5) (.imm 2), .op2 .uaddw 8 8 0, .op2 .uaddw 9 9 1, .op2 .uaddw 10 10 2,
    .op2 .uaddw 11 11 3, .op2 .uaddw 12 12 4, .op2 .uaddw 13 13 5, .op2 .uaddw 14 14 6,
    .st1 4 2 [0, 1, 2, 3] .out (.imm 32), .st1 4 2 [4, 5, 6] .out (.imm 24), .ldr (.t 0) .mulSum,
    .ldr (.t 1) .addSum, .ins 0 (.t 0), .dupW 1 (.t 1), .op1 .uaddlp 8 8, .op1 .uaddlp 9 9, .op1 .uaddlp 10 10,
    .op1 .uaddlp 11 11, .op1 .uaddlp 12 12, .op1 .uaddlp 13 13, .op1 .uaddlp 14 14, .op2 .addp 8 8 9,
    .op2 .addp 10 10 11, .op2 .addp 12 12 13, .op2 .addp 14 14 14, .op2 .addp 8 8 10, .op2 .addp 9 12 14,
    .mulLane 8 8 0 0, .mulLane 9 9 0 0, .op2 .add 8 8 1, .op2 .add 9 9 1, .st1 4 4 [8, 9] .out (.imm 0)] }

/-- meta/streams_arm_64.h:4454-4566. -/
def row7x7 : Prog :=
  { init := [.addX (.t 0) .inp .stride, .addX (.t 1) (.t 0) .stride, .addX (.t 2) (.t 1) .stride,
    .addX (.t 3) (.t 2) .stride, .addX (.t 4) (.t 3) .stride, .addX (.t 5) (.t 4) .stride, .movi 8, .movi 9,
    .movi 10, .movi 11, .movi 12, .movi 13, .movi 14, .subs .count 7]
    skip := true
    body := [.subs .count 8, .ld1 8 [0] .inp (.imm 8), .ld1 8 [1] (.t 0) (.imm 8), .ld1 8 [2] (.t 1) (.imm 8),
    .ld1 8 [3] (.t 2) (.imm 8), .ld1 8 [4] (.t 3) (.imm 8), .ld1 8 [5] (.t 4) (.imm 8),
    .ld1 8 [6] (.t 5) (.imm 8), .op2 .uaddw 8 8 0, .op2 .uaddw 9 9 1, .op2 .uaddw 10 10 2, .op2 .uaddw 11 11 3,
    .op2 .uaddw 12 12 4, .op2 .uaddw 13 13 5, .op2 .uaddw 14 14 6, .st1 4 2 [0, 1, 2, 3] .out (.imm 32),
    .st1 4 2 [4, 5, 6] .out (.imm 24)]
    cond := .ne
    tail := [.movi 0, .movi 1, .movi 2, .movi 3, .movi 4, .movi 5, .movi 6, .ldLane 4 0 [0] .inp (.imm 4),
    .ldLane 2 2 [0] .inp (.imm 2), .ldLane 1 6 [0] .inp (.imm 1), .ldLane 4 0 [1] (.t 0) (.imm 4),
    .ldLane 2 2 [1] (.t 0) (.imm 2), .ldLane 1 6 [1] (.t 0) (.imm 1), .ldLane 4 0 [2] (.t 1) (.imm 4),
    .ldLane 2 2 [2] (.t 1) (.imm 2), .ldLane 1 6 [2] (.t 1) (.imm 1), .ldLane 4 0 [3] (.t 2) (.imm 4),
    .ldLane 2 2 [3] (.t 2) (.imm 2), .ldLane 1 6 [3] (.t 2) (.imm 1), .ldLane 4 0 [4] (.t 3) (.imm 4),
    .ldLane 2 2 [4] (.t 3) (.imm 2), .ldLane 1 6 [4] (.t 3) (.imm 1), .ldLane 4 0 [5] (.t 4) (.imm 4),
    .ldLane 2 2 [5] (.t 4) (.imm 2), .ldLane 1 6 [5] (.t 4) (.imm 1), .ldLane 4 0 [6] (.t 5) (.imm 4),
    .ldLane 2 2 [6] (.t 5) (.imm 2), .ldLane 1 6 [6] (.t 5) (.imm 1), .op2 .uaddw 8 8 0, .op2 .uaddw 9 9 1,
    .op2 .uaddw 10 10 2, .op2 .uaddw 11 11 3, .op2 .uaddw 12 12 4, .op2 .uaddw 13 13 5, .op2 .uaddw 14 14 6,
    .st1 4 2 [0, 1, 2, 3] .out (.imm 32), .st1 4 2 [4, 5, 6] .out (.imm 24), .ldr (.t 0) .mulSum,
    .ldr (.t 1) .addSum, .ins 0 (.t 0), .dupW 1 (.t 1), .op1 .uaddlp 8 8, .op1 .uaddlp 9 9, .op1 .uaddlp 10 10,
    .op1 .uaddlp 11 11, .op1 .uaddlp 12 12, .op1 .uaddlp 13 13, .op1 .uaddlp 14 14, .op2 .addp 8 8 9,
    .op2 .addp 10 10 11, .op2 .addp 12 12 13, .op2 .addp 14 14 14, .op2 .addp 8 8 10, .op2 .addp 9 12 14,
    .mulLane 8 8 0 0, .mulLane 9 9 0 0, .op2 .add 8 8 1, .op2 .add 9 9 1, .st1 4 4 [8, 9] .out (.imm 0)] }

/-- meta/streams_arm_64.h:4580-4653. -/
def row8x0 : Prog :=
  { init := [.addX (.t 0) .inp .stride, .addX (.t 1) (.t 0) .stride, .addX (.t 2) (.t 1) .stride,
    .addX (.t 3) (.t 2) .stride, .addX (.t 4) (.t 3) .stride, .addX (.t 5) (.t 4) .stride,
    .addX (.t 6) (.t 5) .stride, .movi 8, .movi 9, .movi 10, .movi 11, .movi 12, .movi 13, .movi 14, .movi 15]
    skip := false
    body := [.subs .count 8, .ld1 8 [0] .inp (.imm 8), .ld1 8 [1] (.t 0) (.imm 8), .ld1 8 [2] (.t 1) (.imm 8),
    .ld1 8 [3] (.t 2) (.imm 8), .ld1 8 [4] (.t 3) (.imm 8), .ld1 8 [5] (.t 4) (.imm 8),
    .ld1 8 [6] (.t 5) (.imm 8), .ld1 8 [7] (.t 6) (.imm 8), .op2 .uaddw 8 8 0, .op2 .uaddw 9 9 1,
    .op2 .uaddw 10 10 2, .op2 .uaddw 11 11 3, .op2 .uaddw 12 12 4, .op2 .uaddw 13 13 5, .op2 .uaddw 14 14 6,
    .op2 .uaddw 15 15 7, .st1 4 2 [0, 1, 2, 3] .out (.imm 32), .st1 4 2 [4, 5, 6, 7] .out (.imm 32)]
    cond := .ne
    tail := [.ldr (.t 0) .mulSum, .ldr (.t 1) .addSum, .ins 0 (.t 0), .dupW 1 (.t 1), .op1 .uaddlp 8 8,
    .op1 .uaddlp 9 9, .op1 .uaddlp 10 10, .op1 .uaddlp 11 11, .op1 .uaddlp 12 12, .op1 .uaddlp 13 13,
    .op1 .uaddlp 14 14, .op1 .uaddlp 15 15, .op2 .addp 8 8 9, .op2 .addp 10 10 11, .op2 .addp 12 12 13,
    .op2 .addp 14 14 15, .op2 .addp 8 8 10, .op2 .addp 9 12 14, .mulLane 8 8 0 0, .mulLane 9 9 0 0,
    .op2 .add 8 8 1, .op2 .add 9 9 1, .st1 4 4 [8, 9] .out (.imm 0)] }

/-- meta/streams_arm_64.h:4667-4774. -/
def row8x1 : Prog :=
  { init := [.addX (.t 0) .inp .stride, .addX (.t 1) (.t 0) .stride, .addX (.t 2) (.t 1) .stride,
    .addX (.t 3) (.t 2) .stride, .addX (.t 4) (.t 3) .stride, .addX (.t 5) (.t 4) .stride,
    .addX (.t 6) (.t 5) .stride, .movi 8, .movi 9, .movi 10, .movi 11, .movi 12, .movi 13, .movi 14, .movi 15,
    .subs .count 1]
    skip := true
    body := [.subs .count 8, .ld1 8 [0] .inp (.imm 8), .ld1 8 [1] (.t 0) (.imm 8), .ld1 8 [2] (.t 1) (.imm 8),
    .ld1 8 [3] (.t 2) (.imm 8), .ld1 8 [4] (.t 3) (.imm 8), .ld1 8 [5] (.t 4) (.imm 8),
    .ld1 8 [6] (.t 5) (.imm 8), .ld1 8 [7] (.t 6) (.imm 8), .op2 .uaddw 8 8 0, .op2 .uaddw 9 9 1,
    .op2 .uaddw 10 10 2, .op2 .uaddw 11 11 3, .op2 .uaddw 12 12 4, .op2 .uaddw 13 13 5, .op2 .uaddw 14 14 6,
    .op2 .uaddw 15 15 7, .st1 4 2 [0, 1, 2, 3] .out (.imm 32), .st1 4 2 [4, 5, 6, 7] .out (.imm 32)]
    cond := .ne
    tail := [.movi 0, .movi 1, .movi 2, .movi 3, .movi 4, .movi 5, .movi 6, .movi 7, .ldLane 1 0 [0] .inp (.imm 1),
    .ldLane 1 0 [1] (.t 0) (.imm 1), .ldLane 1 0 [2] (.t 1) (.imm 1), .ldLane 1 0 [3] (.t 2) (.imm 1),
    .ldLane 1 0 [4] (.t 3) (.imm 1), .ldLane 1 0 [5] (.t 4) (.imm 1), .ldLane 1 0 [6] (.t 5) (.imm 1),
    .ldLane 1 0 [7] (.t 6) (.imm 1), .op2 .uaddw 8 8 0, .op2 .uaddw 9 9 1, .op2 .uaddw 10 10 2,
    .op2 .uaddw 11 11 3, .op2 .uaddw 12 12 4, .op2 .uaddw 13 13 5, .op2 .uaddw 14 14 6, .op2 .uaddw 15 15 7,
    .st1 4 2 [0, 1, 2, 3] .out (.imm 32), .st1 4 2 [4, 5, 6, 7] .out (.imm 32), .ldr (.t 0) .mulSum,
    .ldr (.t 1) .addSum, .ins 0 (.t 0), .dupW 1 (.t 1), .op1 .uaddlp 8 8, .op1 .uaddlp 9 9, .op1 .uaddlp 10 10,
    .op1 .uaddlp 11 11, .op1 .uaddlp 12 12, .op1 .uaddlp 13 13, .op1 .uaddlp 14 14, .op1 .uaddlp 15 15,
    .op2 .addp 8 8 9, .op2 .addp 10 10 11, .op2 .addp 12 12 13, .op2 .addp 14 14 15, .op2 .addp 8 8 10,
    .op2 .addp 9 12 14, .mulLane 8 8 0 0, .mulLane 9 9 0 0, .op2 .add 8 8 1, .op2 .add 9 9 1,
    .st1 4 4 [8, 9] .out (.imm 0)] }

/-- meta/streams_arm_64.h:4788-4895. -/
def row8x2 : Prog :=
  { init := [.addX (.t 0) .inp .stride, .addX (.t 1) (.t 0) .stride, .addX (.t 2) (.t 1) .stride,
    .addX (.t 3) (.t 2) .stride, .addX (.t 4) (.t 3) .stride, .addX (.t 5) (.t 4) .stride,
    .addX (.t 6) (.t 5) .stride, .movi 8, .movi 9, .movi 10, .movi 11, .movi 12, .movi 13, .movi 14, .movi 15,
    .subs .count 2]
    skip := true
    body := [.subs .count 8, .ld1 8 [0] .inp (.imm 8), .ld1 8 [1] (.t 0) (.imm 8), .ld1 8 [2] (.t 1) (.imm 8),
    .ld1 8 [3] (.t 2) (.imm 8), .ld1 8 [4] (.t 3) (.imm 8), .ld1 8 [5] (.t 4) (.imm 8),
    .ld1 8 [6] (.t 5) (.imm 8), .ld1 8 [7] (.t 6) (.imm 8), .op2 .uaddw 8 8 0, .op2 .uaddw 9 9 1,
    .op2 .uaddw 10 10 2, .op2 .uaddw 11 11 3, .op2 .uaddw 12 12 4, .op2 .uaddw 13 13 5, .op2 .uaddw 14 14 6,
    .op2 .uaddw 15 15 7, .st1 4 2 [0, 1, 2, 3] .out (.imm 32), .st1 4 2 [4, 5, 6, 7] .out (.imm 32)]
    cond := .ne
    tail := [.movi 0, .movi 1, .movi 2, .movi 3, .movi 4, .movi 5, .movi 6, .movi 7, .ldLane 2 0 [0] .inp (.imm 2),
    .ldLane 2 0 [1] (.t 0) (.imm 2), .ldLane 2 0 [2] (.t 1) (.imm 2), .ldLane 2 0 [3] (.t 2) (.imm 2),
    .ldLane 2 0 [4] (.t 3) (.imm 2), .ldLane 2 0 [5] (.t 4) (.imm 2), .ldLane 2 0 [6] (.t 5) (.imm 2),
    .ldLane 2 0 [7] (.t 6) (.imm 2), .op2 .uaddw 8 8 0, .op2 .uaddw 9 9 1, .op2 .uaddw 10 10 2,
    .op2 .uaddw 11 11 3, .op2 .uaddw 12 12 4, .op2 .uaddw 13 13 5, .op2 .uaddw 14 14 6, .op2 .uaddw 15 15 7,
    .st1 4 2 [0, 1, 2, 3] .out (.imm 32), .st1 4 2 [4, 5, 6, 7] .out (.imm 32), .ldr (.t 0) .mulSum,
    .ldr (.t 1) .addSum, .ins 0 (.t 0), .dupW 1 (.t 1), .op1 .uaddlp 8 8, .op1 .uaddlp 9 9, .op1 .uaddlp 10 10,
    .op1 .uaddlp 11 11, .op1 .uaddlp 12 12, .op1 .uaddlp 13 13, .op1 .uaddlp 14 14, .op1 .uaddlp 15 15,
    .op2 .addp 8 8 9, .op2 .addp 10 10 11, .op2 .addp 12 12 13, .op2 .addp 14 14 15, .op2 .addp 8 8 10,
    .op2 .addp 9 12 14, .mulLane 8 8 0 0, .mulLane 9 9 0 0, .op2 .add 8 8 1, .op2 .add 9 9 1,
    .st1 4 4 [8, 9] .out (.imm 0)] }

/-- meta/streams_arm_64.h:4909-5024. -/
def row8x3 : Prog :=
  { init := [.addX (.t 0) .inp .stride, .addX (.t 1) (.t 0) .stride, .addX (.t 2) (.t 1) .stride,
    .addX (.t 3) (.t 2) .stride, .addX (.t 4) (.t 3) .stride, .addX (.t 5) (.t 4) .stride,
    .addX (.t 6) (.t 5) .stride, .movi 8, .movi 9, .movi 10, .movi 11, .movi 12, .movi 13, .movi 14, .movi 15,
    .subs .count 3]
    skip := true
    body := [.subs .count 8, .ld1 8 [0] .inp (.imm 8), .ld1 8 [1] (.t 0) (.imm 8), .ld1 8 [2] (.t 1) (.imm 8),
    .ld1 8 [3] (.t 2) (.imm 8), .ld1 8 [4] (.t 3) (.imm 8), .ld1 8 [5] (.t 4) (.imm 8),
    .ld1 8 [6] (.t 5) (.imm 8), .ld1 8 [7] (.t 6) (.imm 8), .op2 .uaddw 8 8 0, .op2 .uaddw 9 9 1,
    .op2 .uaddw 10 10 2, .op2 .uaddw 11 11 3, .op2 .uaddw 12 12 4, .op2 .uaddw 13 13 5, .op2 .uaddw 14 14 6,
    .op2 .uaddw 15 15 7, .st1 4 2 [0, 1, 2, 3] .out (.imm 32), .st1 4 2 [4, 5, 6, 7] .out (.imm 32)]
    cond := .ne
    tail := [.movi 0, .movi 1, .movi 2, .movi 3, .movi 4, .movi 5, .movi 6, .movi 7, .ldLane 2 0 [0] .inp (.imm 2),
    .ldLane 1 2 [0] .inp (.imm 1), .ldLane 2 0 [1] (.t 0) (.imm 2), .ldLane 1 2 [1] (.t 0) (.imm 1),
    .ldLane 2 0 [2] (.t 1) (.imm 2), .ldLane 1 2 [2] (.t 1) (.imm 1), .ldLane 2 0 [3] (.t 2) (.imm 2),
    .ldLane 1 2 [3] (.t 2) (.imm 1), .ldLane 2 0 [4] (.t 3) (.imm 2), .ldLane 1 2 [4] (.t 3) (.imm 1),
    .ldLane 2 0 [5] (.t 4) (.imm 2), .ldLane 1 2 [5] (.t 4) (.imm 1), .ldLane 2 0 [6] (.t 5) (.imm 2),
    .ldLane 1 2 [6] (.t 5) (.imm 1), .ldLane 2 0 [7] (.t 6) (.imm 2), .ldLane 1 2 [7] (.t 6) (.imm 1),
    .op2 .uaddw 8 8 0, .op2 .uaddw 9 9 1, .op2 .uaddw 10 10 2, .op2 .uaddw 11 11 3, .op2 .uaddw 12 12 4,
    .op2 .uaddw 13 13 5, .op2 .uaddw 14 14 6, .op2 .uaddw 15 15 7, .st1 4 2 [0, 1, 2, 3] .out (.imm 32),
    .st1 4 2 [4, 5, 6, 7] .out (.imm 32), .ldr (.t 0) .mulSum, .ldr (.t 1) .addSum, .ins 0 (.t 0),
    .dupW 1 (.t 1), .op1 .uaddlp 8 8, .op1 .uaddlp 9 9, .op1 .uaddlp 10 10, .op1 .uaddlp 11 11,
    .op1 .uaddlp 12 12, .op1 .uaddlp 13 13, .op1 .uaddlp 14 14, .op1 .uaddlp 15 15, .op2 .addp 8 8 9,
    .op2 .addp 10 10 11, .op2 .addp 12 12 13, .op2 .addp 14 14 15, .op2 .addp 8 8 10, .op2 .addp 9 12 14,
    .mulLane 8 8 0 0, .mulLane 9 9 0 0, .op2 .add 8 8 1, .op2 .add 9 9 1, .st1 4 4 [8, 9] .out (.imm 0)] }

/-- meta/streams_arm_64.h:5038-5145. -/
def row8x4 : Prog :=
  { init := [.addX (.t 0) .inp .stride, .addX (.t 1) (.t 0) .stride, .addX (.t 2) (.t 1) .stride,
    .addX (.t 3) (.t 2) .stride, .addX (.t 4) (.t 3) .stride, .addX (.t 5) (.t 4) .stride,
    .addX (.t 6) (.t 5) .stride, .movi 8, .movi 9, .movi 10, .movi 11, .movi 12, .movi 13, .movi 14, .movi 15,
    .subs .count 4]
    skip := true
    body := [.subs .count 8, .ld1 8 [0] .inp (.imm 8), .ld1 8 [1] (.t 0) (.imm 8), .ld1 8 [2] (.t 1) (.imm 8),
    .ld1 8 [3] (.t 2) (.imm 8), .ld1 8 [4] (.t 3) (.imm 8), .ld1 8 [5] (.t 4) (.imm 8),
    .ld1 8 [6] (.t 5) (.imm 8), .ld1 8 [7] (.t 6) (.imm 8), .op2 .uaddw 8 8 0, .op2 .uaddw 9 9 1,
    .op2 .uaddw 10 10 2, .op2 .uaddw 11 11 3, .op2 .uaddw 12 12 4, .op2 .uaddw 13 13 5, .op2 .uaddw 14 14 6,
    .op2 .uaddw 15 15 7, .st1 4 2 [0, 1, 2, 3] .out (.imm 32), .st1 4 2 [4, 5, 6, 7] .out (.imm 32)]
    cond := .ne
    tail := [.movi 0, .movi 1, .movi 2, .movi 3, .movi 4, .movi 5, .movi 6, .movi 7, .ldLane 4 0 [0] .inp (.imm 4),
    .ldLane 4 0 [1] (.t 0) (.imm 4), .ldLane 4 0 [2] (.t 1) (.imm 4), .ldLane 4 0 [3] (.t 2) (.imm 4),
    .ldLane 4 0 [4] (.t 3) (.imm 4), .ldLane 4 0 [5] (.t 4) (.imm 4), .ldLane 4 0 [6] (.t 5) (.imm 4),
    .ldLane 4 0 [7] (.t 6) (.imm 4), .op2 .uaddw 8 8 0, .op2 .uaddw 9 9 1, .op2 .uaddw 10 10 2,
    .op2 .uaddw 11 11 3, .op2 .uaddw 12 12 4, .op2 .uaddw 13 13 5, .op2 .uaddw 14 14 6, .op2 .uaddw 15 15 7,
    .st1 4 2 [0, 1, 2, 3] .out (.imm 32), .st1 4 2 [4, 5, 6, 7] .out (.imm 32), .ldr (.t 0) .mulSum,
    .ldr (.t 1) .addSum, .ins 0 (.t 0), .dupW 1 (.t 1), .op1 .uaddlp 8 8, .op1 .uaddlp 9 9, .op1 .uaddlp 10 10,
    .op1 .uaddlp 11 11, .op1 .uaddlp 12 12, .op1 .uaddlp 13 13, .op1 .uaddlp 14 14, .op1 .uaddlp 15 15,
    .op2 .addp 8 8 9, .op2 .addp 10 10 11, .op2 .addp 12 12 13, .op2 .addp 14 14 15, .op2 .addp 8 8 10,
    .op2 .addp 9 12 14, .mulLane 8 8 0 0, .mulLane 9 9 0 0, .op2 .add 8 8 1, .op2 .add 9 9 1,
    .st1 4 4 [8, 9] .out (.imm 0)] }

/-- meta/streams_arm_64.h:5159-5274. -/
def row8x5 : Prog :=
  { init := [.addX (.t 0) .inp .stride, .addX (.t 1) (.t 0) .stride, .addX (.t 2) (.t 1) .stride,
    .addX (.t 3) (.t 2) .stride, .addX (.t 4) (.t 3) .stride, .addX (.t 5) (.t 4) .stride,
    .addX (.t 6) (.t 5) .stride, .movi 8, .movi 9, .movi 10, .movi 11, .movi 12, .movi 13, .movi 14, .movi 15,
    .subs .count 5]
    skip := true
    body := [.subs .count 8, .ld1 8 [0] .inp (.imm 8), .ld1 8 [1] (.t 0) (.imm 8), .ld1 8 [2] (.t 1) (.imm 8),
    .ld1 8 [3] (.t 2) (.imm 8), .ld1 8 [4] (.t 3) (.imm 8), .ld1 8 [5] (.t 4) (.imm 8),
    .ld1 8 [6] (.t 5) (.imm 8), .ld1 8 [7] (.t 6) (.imm 8), .op2 .uaddw 8 8 0, .op2 .uaddw 9 9 1,
    .op2 .uaddw 10 10 2, .op2 .uaddw 11 11 3, .op2 .uaddw 12 12 4, .op2 .uaddw 13 13 5, .op2 .uaddw 14 14 6,
    .op2 .uaddw 15 15 7, .st1 4 2 [0, 1, 2, 3] .out (.imm 32), .st1 4 2 [4, 5, 6, 7] .out (.imm 32)]
    cond := .ne
    tail := [.movi 0, .movi 1, .movi 2, .movi 3, .movi 4, .movi 5, .movi 6, .movi 7, .ldLane 4 0 [0] .inp (.imm 4),
    .ldLane 1 4 [0] .inp (.imm 1), .ldLane 4 0 [1] (.t 0) (.imm 4), .ldLane 1 4 [1] (.t 0) (.imm 1),
    .ldLane 4 0 [2] (.t 1) (.imm 4), .ldLane 1 4 [2] (.t 1) (.imm 1), .ldLane 4 0 [3] (.t 2) (.imm 4),
    .ldLane 1 4 [3] (.t 2) (.imm 1), .ldLane 4 0 [4] (.t 3) (.imm 4), .ldLane 1 4 [4] (.t 3) (.imm 1),
    .ldLane 4 0 [5] (.t 4) (.imm 4), .ldLane 1 4 [5] (.t 4) (.imm 1), .ldLane 4 0 [6] (.t 5) (.imm 4),
    .ldLane 1 4 [6] (.t 5) (.imm 1), .ldLane 4 0 [7] (.t 6) (.imm 4), .ldLane 1 4 [7] (.t 6) (.imm 1),
    .op2 .uaddw 8 8 0, .op2 .uaddw 9 9 1, .op2 .uaddw 10 10 2, .op2 .uaddw 11 11 3, .op2 .uaddw 12 12 4,
    .op2 .uaddw 13 13 5, .op2 .uaddw 14 14 6, .op2 .uaddw 15 15 7, .st1 4 2 [0, 1, 2, 3] .out (.imm 32),
    .st1 4 2 [4, 5, 6, 7] .out (.imm 32), .ldr (.t 0) .mulSum, .ldr (.t 1) .addSum, .ins 0 (.t 0),
    .dupW 1 (.t 1), .op1 .uaddlp 8 8, .op1 .uaddlp 9 9, .op1 .uaddlp 10 10, .op1 .uaddlp 11 11,
    .op1 .uaddlp 12 12, .op1 .uaddlp 13 13, .op1 .uaddlp 14 14, .op1 .uaddlp 15 15, .op2 .addp 8 8 9,
    .op2 .addp 10 10 11, .op2 .addp 12 12 13, .op2 .addp 14 14 15, .op2 .addp 8 8 10, .op2 .addp 9 12 14,
    .mulLane 8 8 0 0, .mulLane 9 9 0 0, .op2 .add 8 8 1, .op2 .add 9 9 1, .st1 4 4 [8, 9] .out (.imm 0)] }

/-- meta/streams_arm_64.h:5288-5403. -/
def row8x6 : Prog :=
  { init := [.addX (.t 0) .inp .stride, .addX (.t 1) (.t 0) .stride, .addX (.t 2) (.t 1) .stride,
    .addX (.t 3) (.t 2) .stride, .addX (.t 4) (.t 3) .stride, .addX (.t 5) (.t 4) .stride,
    .addX (.t 6) (.t 5) .stride, .movi 8, .movi 9, .movi 10, .movi 11, .movi 12, .movi 13, .movi 14, .movi 15,
    .subs .count 6]
    skip := true
    body := [.subs .count 8, .ld1 8 [0] .inp (.imm 8), .ld1 8 [1] (.t 0) (.imm 8), .ld1 8 [2] (.t 1) (.imm 8),
    .ld1 8 [3] (.t 2) (.imm 8), .ld1 8 [4] (.t 3) (.imm 8), .ld1 8 [5] (.t 4) (.imm 8),
    .ld1 8 [6] (.t 5) (.imm 8), .ld1 8 [7] (.t 6) (.imm 8), .op2 .uaddw 8 8 0, .op2 .uaddw 9 9 1,
    .op2 .uaddw 10 10 2, .op2 .uaddw 11 11 3, .op2 .uaddw 12 12 4, .op2 .uaddw 13 13 5, .op2 .uaddw 14 14 6,
    .op2 .uaddw 15 15 7, .st1 4 2 [0, 1, 2, 3] .out (.imm 32), .st1 4 2 [4, 5, 6, 7] .out (.imm 32)]
    cond := .ne
    tail := [.movi 0, .movi 1, .movi 2, .movi 3, .movi 4, .movi 5, .movi 6, .movi 7, .ldLane 4 0 [0] .inp (.imm 4),
    .ldLane 2 2 [0] .inp (.imm 2), .ldLane 4 0 [1] (.t 0) (.imm 4), .ldLane 2 2 [1] (.t 0) (.imm 2),
    .ldLane 4 0 [2] (.t 1) (.imm 4), .ldLane 2 2 [2] (.t 1) (.imm 2), .ldLane 4 0 [3] (.t 2) (.imm 4),
    .ldLane 2 2 [3] (.t 2) (.imm 2), .ldLane 4 0 [4] (.t 3) (.imm 4), .ldLane 2 2 [4] (.t 3) (.imm 2),
    .ldLane 4 0 [5] (.t 4) (.imm 4), .ldLane 2 2 [5] (.t 4) (.imm 2), .ldLane 4 0 [6] (.t 5) (.imm 4),
    .ldLane 2 2 [6] (.t 5) (.imm 2), .ldLane 4 0 [7] (.t 6) (.imm 4), .ldLane 2 2 [7] (.t 6) (.imm 2),
    .op2 .uaddw 8 8 0, .op2 .uaddw 9 9 1, .op2 .uaddw 10 10 2, .op2 .uaddw 11 11 3, .op2 .uaddw 12 12 4,
    .op2 .uaddw 13 13 5, .op2 .uaddw 14 14 6, .op2 .uaddw 15 15 7, .st1 4 2 [0, 1, 2, 3] .out (.imm 32),
    .st1 4 2 [4, 5, 6, 7] .out (.imm 32), .ldr (.t 0) .mulSum, .ldr (.t 1) .addSum, .ins 0 (.t 0),
    .dupW 1 (.t 1), .op1 .uaddlp 8 8, .op1 .uaddlp 9 9, .op1 .uaddlp 10 10, .op1 .uaddlp 11 11,
    .op1 .uaddlp 12 12, .op1 .uaddlp 13 13, .op1 .uaddlp 14 14, .op1 .uaddlp 15 15, .op2 .addp 8 8 9,
    .op2 .addp 10 10 11, .op2 .addp 12 12 13, .op2 .addp 14 14 15, .op2 .addp 8 8 10, .op2 .addp 9 12 14,
    .mulLane 8 8 0 0, .mulLane 9 9 0 0, .op2 .add 8 8 1, .op2 .add 9 9 1, .st1 4 4 [8, 9] .out (.imm 0)] }

/-- meta/streams_arm_64.h:5417-5540. -/
def row8x7 : Prog :=
  { init := [.addX (.t 0) .inp .stride, .addX (.t 1) (.t 0) .stride, .addX (.t 2) (.t 1) .stride,
    .addX (.t 3) (.t 2) .stride, .addX (.t 4) (.t 3) .stride, .addX (.t 5) (.t 4) .stride,
    .addX (.t 6) (.t 5) .stride, .movi 8, .movi 9, .movi 10, .movi 11, .movi 12, .movi 13, .movi 14, .movi 15,
    .subs .count 7]
    skip := true
    body := [.subs .count 8, .ld1 8 [0] .inp (.imm 8), .ld1 8 [1] (.t 0) (.imm 8), .ld1 8 [2] (.t 1) (.imm 8),
    .ld1 8 [3] (.t 2) (.imm 8), .ld1 8 [4] (.t 3) (.imm 8), .ld1 8 [5] (.t 4) (.imm 8),
    .ld1 8 [6] (.t 5) (.imm 8), .ld1 8 [7] (.t 6) (.imm 8), .op2 .uaddw 8 8 0, .op2 .uaddw 9 9 1,
    .op2 .uaddw 10 10 2, .op2 .uaddw 11 11 3, .op2 .uaddw 12 12 4, .op2 .uaddw 13 13 5, .op2 .uaddw 14 14 6,
    .op2 .uaddw 15 15 7, .st1 4 2 [0, 1, 2, 3] .out (.imm 32), .st1 4 2 [4, 5, 6, 7] .out (.imm 32)]
    cond := .ne
    tail := [.movi 0, .movi 1, .movi 2, .movi 3, .movi 4, .movi 5, .movi 6, .movi 7, .ldLane 4 0 [0] .inp (.imm 4),
    .ldLane 2 2 [0] .inp (.imm 2), .ldLane 1 6 [0] .inp (.imm 1), .ldLane 4 0 [1] (.t 0) (.imm 4),
    .ldLane 2 2 [1] (.t 0) (.imm 2), .ldLane 1 6 [1] (.t 0) (.imm 1), .ldLane 4 0 [2] (.t 1) (.imm 4),
    .ldLane 2 2 [2] (.t 1) (.imm 2), .ldLane 1 6 [2] (.t 1) (.imm 1), .ldLane 4 0 [3] (.t 2) (.imm 4),
    .ldLane 2 2 [3] (.t 2) (.imm 2), .ldLane 1 6 [3] (.t 2) (.imm 1), .ldLane 4 0 [4] (.t 3) (.imm 4),
    .ldLane 2 2 [4] (.t 3) (.imm 2), .ldLane 1 6 [4] (.t 3) (.imm 1), .ldLane 4 0 [5] (.t 4) (.imm 4),
    .ldLane 2 2 [5] (.t 4) (.imm 2), .ldLane 1 6 [5] (.t 4) (.imm 1), .ldLane 4 0 [6] (.t 5) (.imm 4),
    .ldLane 2 2 [6] (.t 5) (.imm 2), .ldLane 1 6 [6] (.t 5) (.imm 1), .ldLane 4 0 [7] (.t 6) (.imm 4),
    .ldLane 2 2 [7] (.t 6) (.imm 2), .ldLane 1 6 [7] (.t 6) (.imm 1), .op2 .uaddw 8 8 0, .op2 .uaddw 9 9 1,
    .op2 .uaddw 10 10 2, .op2 .uaddw 11 11 3, .op2 .uaddw 12 12 4, .op2 .uaddw 13 13 5, .op2 .uaddw 14 14 6,
    .op2 .uaddw 15 15 7, .st1 4 2 [0, 1, 2, 3] .out (.imm 32), .st1 4 2 [4, 5, 6, 7] .out (.imm 32),
    .ldr (.t 0) .mulSum, .ldr (.t 1) .addSum, .ins 0 (.t 0), .dupW 1 (.t 1), .op1 .uaddlp 8 8,
    .op1 .uaddlp 9 9, .op1 .uaddlp 10 10, .op1 .uaddlp 11 11, .op1 .uaddlp 12 12, .op1 .uaddlp 13 13,
    .op1 .uaddlp 14 14, .op1 .uaddlp 15 15, .op2 .addp 8 8 9, .op2 .addp 10 10 11, .op2 .addp 12 12 13,
    .op2 .addp 14 14 15, .op2 .addp 8 8 10, .op2 .addp 9 12 14, .mulLane 8 8 0 0, .mulLane 9 9 0 0,
    .op2 .add 8 8 1, .op2 .add 9 9 1, .st1 4 4 [8, 9] .out (.imm 0)] }

/-- The code for a number of lanes and of leftovers (0 to 7): the specialisations of `Stream` for `RowMajorWithSum`. -/
def rowProg : Nat → Nat → Option Prog
  | 1, 0 => some row1x0
  | 1, 1 => some row1x1
  | 1, 2 => some row1x2
  | 1, 3 => some row1x3
  | 1, 4 => some row1x4
  | 1, 5 => some row1x5
  | 1, 6 => some row1x6
  | 1, 7 => some row1x7
  | 2, 0 => some row2x0
  | 2, 1 => some row2x1
  | 2, 2 => some row2x2
  | 2, 3 => some row2x3
  | 2, 4 => some row2x4
  | 2, 5 => some row2x5
  | 2, 6 => some row2x6
  | 2, 7 => some row2x7
  | 3, 0 => some row3x0
  | 3, 1 => some row3x1
  | 3, 2 => some row3x2
  | 3, 3 => some row3x3
  | 3, 4 => some row3x4
  | 3, 5 => some row3x5
  | 3, 6 => some row3x6
  | 3, 7 => some row3x7
  | 4, 0 => some row4x0
  | 4, 1 => some row4x1
  | 4, 2 => some row4x2
  | 4, 3 => some row4x3
  | 4, 4 => some row4x4
  | 4, 5 => some row4x5
  | 4, 6 => some row4x6
  | 4, 7 => some row4x7
  | 5, 0 => some row5x0
  | 5, 1 => some row5x1
  | 5, 2 => some row5x2
  | 5, 3 => some row5x3
  | 5, 4 => some row5x4
  | 5, 5 => some row5x5
  | 5, 6 => some row5x6
  | 5, 7 => some row5x7
  | 6, 0 => some row6x0
  | 6, 1 => some row6x1
  | 6, 2 => some row6x2
  | 6, 3 => some row6x3
  | 6, 4 => some row6x4
  | 6, 5 => some row6x5
  | 6, 6 => some row6x6
  | 6, 7 => some row6x7
  | 7, 0 => some row7x0
  | 7, 1 => some row7x1
  | 7, 2 => some row7x2
  | 7, 3 => some row7x3
  | 7, 4 => some row7x4
  | 7, 5 => some row7x5
  | 7, 6 => some row7x6
  | 7, 7 => some row7x7
  | 8, 0 => some row8x0
  | 8, 1 => some row8x1
  | 8, 2 => some row8x2
  | 8, 3 => some row8x3
  | 8, 4 => some row8x4
  | 8, 5 => some row8x5
  | 8, 6 => some row8x6
  | 8, 7 => some row8x7
  | _, _ => none

end Gemmlowp.MetaAsm
