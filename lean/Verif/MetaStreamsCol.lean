import Verif.MetaAsm
/-!
# The ColumnMajorWithSum packing code of meta/streams_arm_64.h

`colNxL` is the code of `Stream<uint8_t, N, 8, L, ColumnMajorWithSum>::Pack`, line by line.
-/
namespace Gemmlowp.MetaAsm

/-- meta/streams_arm_64.h:5556-5591. -/
def col1x0 : Prog :=
  { init := [.movi 8]
    skip := false
    body := [.subs .count 8, .ldLane 1 0 [0] .inp (.reg .stride), .ldLane 1 1 [0] .inp (.reg .stride),
    .ldLane 1 2 [0] .inp (.reg .stride), .ldLane 1 3 [0] .inp (.reg .stride),
    .ldLane 1 4 [0] .inp (.reg .stride), .ldLane 1 5 [0] .inp (.reg .stride),
    .ldLane 1 6 [0] .inp (.reg .stride), .ldLane 1 7 [0] .inp (.reg .stride), .op2 .uaddw 8 8 0,
    .st1 4 2 [0] .out (.imm 8)]
    cond := .ne
    tail := [.ins 0 .mulSum, .dupW 1 .addSum, .op1 .uaddlp 8 8, .op2 .addp 8 8 8, .op2 .addp 8 8 8, .mulLane 8 8 0 0,
    .op2 .add 8 8 1, .st1 4 4 [8] .out (.imm 0)] }

/-- meta/streams_arm_64.h:5607-5655. -/
def col1x1 : Prog :=
  { init := [.movi 8, .subs .count 1]
    skip := true
    body := [.subs .count 8, .ldLane 1 0 [0] .inp (.reg .stride), .ldLane 1 1 [0] .inp (.reg .stride),
    .ldLane 1 2 [0] .inp (.reg .stride), .ldLane 1 3 [0] .inp (.reg .stride),
    .ldLane 1 4 [0] .inp (.reg .stride), .ldLane 1 5 [0] .inp (.reg .stride),
    .ldLane 1 6 [0] .inp (.reg .stride), .ldLane 1 7 [0] .inp (.reg .stride), .op2 .uaddw 8 8 0,
    .st1 4 2 [0] .out (.imm 8)]
    cond := .ne
    tail := [.movi 0, .ldLane 1 0 [0] .inp (.reg .stride), .op2 .uaddw 8 8 0, .st1 4 2 [0] .out (.imm 8),
    .ins 0 .mulSum, .dupW 1 .addSum, .op1 .uaddlp 8 8, .op2 .addp 8 8 8, .op2 .addp 8 8 8, .mulLane 8 8 0 0,
    .op2 .add 8 8 1, .st1 4 4 [8] .out (.imm 0)] }

/-- meta/streams_arm_64.h:5671-5720. -/
def col1x2 : Prog :=
  { init := [.movi 8, .subs .count 2]
    skip := true
    body := [.subs .count 8, .ldLane 1 0 [0] .inp (.reg .stride), .ldLane 1 1 [0] .inp (.reg .stride),
    .ldLane 1 2 [0] .inp (.reg .stride), .ldLane 1 3 [0] .inp (.reg .stride),
    .ldLane 1 4 [0] .inp (.reg .stride), .ldLane 1 5 [0] .inp (.reg .stride),
    .ldLane 1 6 [0] .inp (.reg .stride), .ldLane 1 7 [0] .inp (.reg .stride), .op2 .uaddw 8 8 0,
    .st1 4 2 [0] .out (.imm 8)]
    cond := .ne
    tail := [.movi 0, .ldLane 1 0 [0] .inp (.reg .stride), .ldLane 1 1 [0] .inp (.reg .stride), .op2 .uaddw 8 8 0,
    .st1 4 2 [0] .out (.imm 8), .ins 0 .mulSum, .dupW 1 .addSum, .op1 .uaddlp 8 8, .op2 .addp 8 8 8,
    .op2 .addp 8 8 8, .mulLane 8 8 0 0, .op2 .add 8 8 1, .st1 4 4 [8] .out (.imm 0)] }

/-- meta/streams_arm_64.h:5736-5786. -/
def col1x3 : Prog :=
  { init := [.movi 8, .subs .count 3]
    skip := true
    body := [.subs .count 8, .ldLane 1 0 [0] .inp (.reg .stride), .ldLane 1 1 [0] .inp (.reg .stride),
    .ldLane 1 2 [0] .inp (.reg .stride), .ldLane 1 3 [0] .inp (.reg .stride),
    .ldLane 1 4 [0] .inp (.reg .stride), .ldLane 1 5 [0] .inp (.reg .stride),
    .ldLane 1 6 [0] .inp (.reg .stride), .ldLane 1 7 [0] .inp (.reg .stride), .op2 .uaddw 8 8 0,
    .st1 4 2 [0] .out (.imm 8)]
    cond := .ne
    tail := [.movi 0, .ldLane 1 0 [0] .inp (.reg .stride), .ldLane 1 1 [0] .inp (.reg .stride),
    .ldLane 1 2 [0] .inp (.reg .stride), .op2 .uaddw 8 8 0, .st1 4 2 [0] .out (.imm 8), .ins 0 .mulSum,
    .dupW 1 .addSum, .op1 .uaddlp 8 8, .op2 .addp 8 8 8, .op2 .addp 8 8 8, .mulLane 8 8 0 0, .op2 .add 8 8 1,
    .st1 4 4 [8] .out (.imm 0)] }

/-- meta/streams_arm_64.h:5802-5853. -/
def col1x4 : Prog :=
  { init := [.movi 8, .subs .count 4]
    skip := true
    body := [.subs .count 8, .ldLane 1 0 [0] .inp (.reg .stride), .ldLane 1 1 [0] .inp (.reg .stride),
    .ldLane 1 2 [0] .inp (.reg .stride), .ldLane 1 3 [0] .inp (.reg .stride),
    .ldLane 1 4 [0] .inp (.reg .stride), .ldLane 1 5 [0] .inp (.reg .stride),
    .ldLane 1 6 [0] .inp (.reg .stride), .ldLane 1 7 [0] .inp (.reg .stride), .op2 .uaddw 8 8 0,
    .st1 4 2 [0] .out (.imm 8)]
    cond := .ne
    tail := [.movi 0, .ldLane 1 0 [0] .inp (.reg .stride), .ldLane 1 1 [0] .inp (.reg .stride),
    .ldLane 1 2 [0] .inp (.reg .stride), .ldLane 1 3 [0] .inp (.reg .stride), .op2 .uaddw 8 8 0,
    .st1 4 2 [0] .out (.imm 8), .ins 0 .mulSum, .dupW 1 .addSum, .op1 .uaddlp 8 8, .op2 .addp 8 8 8,
    .op2 .addp 8 8 8, .mulLane 8 8 0 0, .op2 .add 8 8 1, .st1 4 4 [8] .out (.imm 0)] }

/-- meta/streams_arm_64.h:5869-5921. -/
def col1x5 : Prog :=
  { init := [.movi 8, .subs .count 5]
    skip := true
    body := [.subs .count 8, .ldLane 1 0 [0] .inp (.reg .stride), .ldLane 1 1 [0] .inp (.reg .stride),
    .ldLane 1 2 [0] .inp (.reg .stride), .ldLane 1 3 [0] .inp (.reg .stride),
    .ldLane 1 4 [0] .inp (.reg .stride), .ldLane 1 5 [0] .inp (.reg .stride),
    .ldLane 1 6 [0] .inp (.reg .stride), .ldLane 1 7 [0] .inp (.reg .stride), .op2 .uaddw 8 8 0,
    .st1 4 2 [0] .out (.imm 8)]
    cond := .ne
    tail := [.movi 0, .ldLane 1 0 [0] .inp (.reg .stride), .ldLane 1 1 [0] .inp (.reg .stride),
    .ldLane 1 2 [0] .inp (.reg .stride), .ldLane 1 3 [0] .inp (.reg .stride),
    .ldLane 1 4 [0] .inp (.reg .stride), .op2 .uaddw 8 8 0, .st1 4 2 [0] .out (.imm 8), .ins 0 .mulSum,
    .dupW 1 .addSum, .op1 .uaddlp 8 8, .op2 .addp 8 8 8, .op2 .addp 8 8 8, .mulLane 8 8 0 0, .op2 .add 8 8 1,
    .st1 4 4 [8] .out (.imm 0)] }

/-- meta/streams_arm_64.h:5937-5990. -/
def col1x6 : Prog :=
  { init := [.movi 8, .subs .count 6]
    skip := true
    body := [.subs .count 8, .ldLane 1 0 [0] .inp (.reg .stride), .ldLane 1 1 [0] .inp (.reg .stride),
    .ldLane 1 2 [0] .inp (.reg .stride), .ldLane 1 3 [0] .inp (.reg .stride),
    .ldLane 1 4 [0] .inp (.reg .stride), .ldLane 1 5 [0] .inp (.reg .stride),
    .ldLane 1 6 [0] .inp (.reg .stride), .ldLane 1 7 [0] .inp (.reg .stride), .op2 .uaddw 8 8 0,
    .st1 4 2 [0] .out (.imm 8)]
    cond := .ne
    tail := [.movi 0, .ldLane 1 0 [0] .inp (.reg .stride), .ldLane 1 1 [0] .inp (.reg .stride),
    .ldLane 1 2 [0] .inp (.reg .stride), .ldLane 1 3 [0] .inp (.reg .stride),
    .ldLane 1 4 [0] .inp (.reg .stride), .ldLane 1 5 [0] .inp (.reg .stride), .op2 .uaddw 8 8 0,
    .st1 4 2 [0] .out (.imm 8), .ins 0 .mulSum, .dupW 1 .addSum, .op1 .uaddlp 8 8, .op2 .addp 8 8 8,
    .op2 .addp 8 8 8, .mulLane 8 8 0 0, .op2 .add 8 8 1, .st1 4 4 [8] .out (.imm 0)] }

/-- meta/streams_arm_64.h:6006-6060. -/
def col1x7 : Prog :=
  { init := [.movi 8, .subs .count 7]
    skip := true
    body := [.subs .count 8, .ldLane 1 0 [0] .inp (.reg .stride), .ldLane 1 1 [0] .inp (.reg .stride),
    .ldLane 1 2 [0] .inp (.reg .stride), .ldLane 1 3 [0] .inp (.reg .stride),
    .ldLane 1 4 [0] .inp (.reg .stride), .ldLane 1 5 [0] .inp (.reg .stride),
    .ldLane 1 6 [0] .inp (.reg .stride), .ldLane 1 7 [0] .inp (.reg .stride), .op2 .uaddw 8 8 0,
    .st1 4 2 [0] .out (.imm 8)]
    cond := .ne
    tail := [.movi 0, .ldLane 1 0 [0] .inp (.reg .stride), .ldLane 1 1 [0] .inp (.reg .stride),
    .ldLane 1 2 [0] .inp (.reg .stride), .ldLane 1 3 [0] .inp (.reg .stride),
    .ldLane 1 4 [0] .inp (.reg .stride), .ldLane 1 5 [0] .inp (.reg .stride),
    .ldLane 1 6 [0] .inp (.reg .stride), .op2 .uaddw 8 8 0, .st1 4 2 [0] .out (.imm 8), .ins 0 .mulSum,
    .dupW 1 .addSum, .op1 .uaddlp 8 8, .op2 .addp 8 8 8, .op2 .addp 8 8 8, .mulLane 8 8 0 0, .op2 .add 8 8 1,
    .st1 4 4 [8] .out (.imm 0)] }

/-- meta/streams_arm_64.h:6076-6116. -/
def col2x0 : Prog :=
  { init := [.movi 8, .movi 9]
    skip := false
    body := [.subs .count 8, .ldLane 2 0 [0] .inp (.reg .stride), .ldLane 2 1 [0] .inp (.reg .stride),
    .ldLane 2 2 [0] .inp (.reg .stride), .ldLane 2 3 [0] .inp (.reg .stride),
    .ldLane 2 0 [1] .inp (.reg .stride), .ldLane 2 1 [1] .inp (.reg .stride),
    .ldLane 2 2 [1] .inp (.reg .stride), .ldLane 2 3 [1] .inp (.reg .stride), .op2 .uzp1b 2 0 1,
    .op2 .uzp2b 3 0 1, .op2 .uaddw 8 8 2, .op2 .uaddw 9 9 3, .st1 4 2 [2, 3] .out (.imm 16)]
    cond := .ne
    tail := [.ins 0 .mulSum, .dupW 1 .addSum, .op1 .uaddlp 8 8, .op1 .uaddlp 9 9, .op2 .addp 8 8 9, .op2 .addp 8 8 8,
    .mulLane 8 8 0 0, .op2 .add 8 8 1, .st1 4 4 [8] .out (.imm 0)] }

/-- meta/streams_arm_64.h:6132-6189. -/
def col2x1 : Prog :=
  { init := [.movi 8, .movi 9, .subs .count 1]
    skip := true
    body := [.subs .count 8, .ldLane 2 0 [0] .inp (.reg .stride), .ldLane 2 1 [0] .inp (.reg .stride),
    .ldLane 2 2 [0] .inp (.reg .stride), .ldLane 2 3 [0] .inp (.reg .stride),
    .ldLane 2 0 [1] .inp (.reg .stride), .ldLane 2 1 [1] .inp (.reg .stride),
    .ldLane 2 2 [1] .inp (.reg .stride), .ldLane 2 3 [1] .inp (.reg .stride), .op2 .uzp1b 2 0 1,
    .op2 .uzp2b 3 0 1, .op2 .uaddw 8 8 2, .op2 .uaddw 9 9 3, .st1 4 2 [2, 3] .out (.imm 16)]
    cond := .ne
    tail := [.movi 0, .movi 1, .ldLane 2 0 [0] .inp (.reg .stride), .op2 .uzp1b 2 0 1, .op2 .uzp2b 3 0 1,
    .op2 .uaddw 8 8 2, .op2 .uaddw 9 9 3, .st1 4 2 [2, 3] .out (.imm 16), .ins 0 .mulSum, .dupW 1 .addSum,
    .op1 .uaddlp 8 8, .op1 .uaddlp 9 9, .op2 .addp 8 8 9, .op2 .addp 8 8 8, .mulLane 8 8 0 0, .op2 .add 8 8 1,
    .st1 4 4 [8] .out (.imm 0)] }

/-- meta/streams_arm_64.h:6205-6263. -/
def col2x2 : Prog :=
  { init := [.movi 8, .movi 9, .subs .count 2]
    skip := true
    body := [.subs .count 8, .ldLane 2 0 [0] .inp (.reg .stride), .ldLane 2 1 [0] .inp (.reg .stride),
    .ldLane 2 2 [0] .inp (.reg .stride), .ldLane 2 3 [0] .inp (.reg .stride),
    .ldLane 2 0 [1] .inp (.reg .stride), .ldLane 2 1 [1] .inp (.reg .stride),
    .ldLane 2 2 [1] .inp (.reg .stride), .ldLane 2 3 [1] .inp (.reg .stride), .op2 .uzp1b 2 0 1,
    .op2 .uzp2b 3 0 1, .op2 .uaddw 8 8 2, .op2 .uaddw 9 9 3, .st1 4 2 [2, 3] .out (.imm 16)]
    cond := .ne
    tail := [.movi 0, .movi 1, .ldLane 2 0 [0] .inp (.reg .stride), .ldLane 2 1 [0] .inp (.reg .stride),
    .op2 .uzp1b 2 0 1, .op2 .uzp2b 3 0 1, .op2 .uaddw 8 8 2, .op2 .uaddw 9 9 3, .st1 4 2 [2, 3] .out (.imm 16),
    .ins 0 .mulSum, .dupW 1 .addSum, .op1 .uaddlp 8 8, .op1 .uaddlp 9 9, .op2 .addp 8 8 9, .op2 .addp 8 8 8,
    .mulLane 8 8 0 0, .op2 .add 8 8 1, .st1 4 4 [8] .out (.imm 0)] }

/-- meta/streams_arm_64.h:6279-6338. -/
def col2x3 : Prog :=
  { init := [.movi 8, .movi 9, .subs .count 3]
    skip := true
    body := [.subs .count 8, .ldLane 2 0 [0] .inp (.reg .stride), .ldLane 2 1 [0] .inp (.reg .stride),
    .ldLane 2 2 [0] .inp (.reg .stride), .ldLane 2 3 [0] .inp (.reg .stride),
    .ldLane 2 0 [1] .inp (.reg .stride), .ldLane 2 1 [1] .inp (.reg .stride),
    .ldLane 2 2 [1] .inp (.reg .stride), .ldLane 2 3 [1] .inp (.reg .stride), .op2 .uzp1b 2 0 1,
    .op2 .uzp2b 3 0 1, .op2 .uaddw 8 8 2, .op2 .uaddw 9 9 3, .st1 4 2 [2, 3] .out (.imm 16)]
    cond := .ne
    tail := [.movi 0, .movi 1, .ldLane 2 0 [0] .inp (.reg .stride), .ldLane 2 1 [0] .inp (.reg .stride),
    .ldLane 2 2 [0] .inp (.reg .stride), .op2 .uzp1b 2 0 1, .op2 .uzp2b 3 0 1, .op2 .uaddw 8 8 2,
    .op2 .uaddw 9 9 3, .st1 4 2 [2, 3] .out (.imm 16), .ins 0 .mulSum, .dupW 1 .addSum, .op1 .uaddlp 8 8,
    .op1 .uaddlp 9 9, .op2 .addp 8 8 9, .op2 .addp 8 8 8, .mulLane 8 8 0 0, .op2 .add 8 8 1,
    .st1 4 4 [8] .out (.imm 0)] }

/-- meta/streams_arm_64.h:6354-6414. -/
def col2x4 : Prog :=
  { init := [.movi 8, .movi 9, .subs .count 4]
    skip := true
    body := [.subs .count 8, .ldLane 2 0 [0] .inp (.reg .stride), .ldLane 2 1 [0] .inp (.reg .stride),
    .ldLane 2 2 [0] .inp (.reg .stride), .ldLane 2 3 [0] .inp (.reg .stride),
    .ldLane 2 0 [1] .inp (.reg .stride), .ldLane 2 1 [1] .inp (.reg .stride),
    .ldLane 2 2 [1] .inp (.reg .stride), .ldLane 2 3 [1] .inp (.reg .stride), .op2 .uzp1b 2 0 1,
    .op2 .uzp2b 3 0 1, .op2 .uaddw 8 8 2, .op2 .uaddw 9 9 3, .st1 4 2 [2, 3] .out (.imm 16)]
    cond := .ne
    tail := [.movi 0, .movi 1, .ldLane 2 0 [0] .inp (.reg .stride), .ldLane 2 1 [0] .inp (.reg .stride),
    .ldLane 2 2 [0] .inp (.reg .stride), .ldLane 2 3 [0] .inp (.reg .stride), .op2 .uzp1b 2 0 1,
    .op2 .uzp2b 3 0 1, .op2 .uaddw 8 8 2, .op2 .uaddw 9 9 3, .st1 4 2 [2, 3] .out (.imm 16), .ins 0 .mulSum,
    .dupW 1 .addSum, .op1 .uaddlp 8 8, .op1 .uaddlp 9 9, .op2 .addp 8 8 9, .op2 .addp 8 8 8, .mulLane 8 8 0 0,
    .op2 .add 8 8 1, .st1 4 4 [8] .out (.imm 0)] }

/-- meta/streams_arm_64.h:6430-6491. -/
def col2x5 : Prog :=
  { init := [.movi 8, .movi 9, .subs .count 5]
    skip := true
    body := [.subs .count 8, .ldLane 2 0 [0] .inp (.reg .stride), .ldLane 2 1 [0] .inp (.reg .stride),
    .ldLane 2 2 [0] .inp (.reg .stride), .ldLane 2 3 [0] .inp (.reg .stride),
    .ldLane 2 0 [1] .inp (.reg .stride), .ldLane 2 1 [1] .inp (.reg .stride),
    .ldLane 2 2 [1] .inp (.reg .stride), .ldLane 2 3 [1] .inp (.reg .stride), .op2 .uzp1b 2 0 1,
    .op2 .uzp2b 3 0 1, .op2 .uaddw 8 8 2, .op2 .uaddw 9 9 3, .st1 4 2 [2, 3] .out (.imm 16)]
    cond := .ne
    tail := [.movi 0, .movi 1, .ldLane 2 0 [0] .inp (.reg .stride), .ldLane 2 1 [0] .inp (.reg .stride),
    .ldLane 2 2 [0] .inp (.reg .stride), .ldLane 2 3 [0] .inp (.reg .stride),
    .ldLane 2 0 [1] .inp (.reg .stride), .op2 .uzp1b 2 0 1, .op2 .uzp2b 3 0 1, .op2 .uaddw 8 8 2,
    .op2 .uaddw 9 9 3, .st1 4 2 [2, 3] .out (.imm 16), .ins 0 .mulSum, .dupW 1 .addSum, .op1 .uaddlp 8 8,
    .op1 .uaddlp 9 9, .op2 .addp 8 8 9, .op2 .addp 8 8 8, .mulLane 8 8 0 0, .op2 .add 8 8 1,
    .st1 4 4 [8] .out (.imm 0)] }

/-- meta/streams_arm_64.h:6507-6569. -/
def col2x6 : Prog :=
  { init := [.movi 8, .movi 9, .subs .count 6]
    skip := true
    body := [.subs .count 8, .ldLane 2 0 [0] .inp (.reg .stride), .ldLane 2 1 [0] .inp (.reg .stride),
    .ldLane 2 2 [0] .inp (.reg .stride), .ldLane 2 3 [0] .inp (.reg .stride),
    .ldLane 2 0 [1] .inp (.reg .stride), .ldLane 2 1 [1] .inp (.reg .stride),
    .ldLane 2 2 [1] .inp (.reg .stride), .ldLane 2 3 [1] .inp (.reg .stride), .op2 .uzp1b 2 0 1,
    .op2 .uzp2b 3 0 1, .op2 .uaddw 8 8 2, .op2 .uaddw 9 9 3, .st1 4 2 [2, 3] .out (.imm 16)]
    cond := .ne
    tail := [.movi 0, .movi 1, .ldLane 2 0 [0] .inp (.reg .stride), .ldLane 2 1 [0] .inp (.reg .stride),
    .ldLane 2 2 [0] .inp (.reg .stride), .ldLane 2 3 [0] .inp (.reg .stride),
    .ldLane 2 0 [1] .inp (.reg .stride), .ldLane 2 1 [1] .inp (.reg .stride), .op2 .uzp1b 2 0 1,
    .op2 .uzp2b 3 0 1, .op2 .uaddw 8 8 2, .op2 .uaddw 9 9 3, .st1 4 2 [2, 3] .out (.imm 16), .ins 0 .mulSum,
    .dupW 1 .addSum, .op1 .uaddlp 8 8, .op1 .uaddlp 9 9, .op2 .addp 8 8 9, .op2 .addp 8 8 8, .mulLane 8 8 0 0,
    .op2 .add 8 8 1, .st1 4 4 [8] .out (.imm 0)] }

/-- meta/streams_arm_64.h:6585-6648. -/
def col2x7 : Prog :=
  { init := [.movi 8, .movi 9, .subs .count 7]
    skip := true
    body := [.subs .count 8, .ldLane 2 0 [0] .inp (.reg .stride), .ldLane 2 1 [0] .inp (.reg .stride),
    .ldLane 2 2 [0] .inp (.reg .stride), .ldLane 2 3 [0] .inp (.reg .stride),
    .ldLane 2 0 [1] .inp (.reg .stride), .ldLane 2 1 [1] .inp (.reg .stride),
    .ldLane 2 2 [1] .inp (.reg .stride), .ldLane 2 3 [1] .inp (.reg .stride), .op2 .uzp1b 2 0 1,
    .op2 .uzp2b 3 0 1, .op2 .uaddw 8 8 2, .op2 .uaddw 9 9 3, .st1 4 2 [2, 3] .out (.imm 16)]
    cond := .ne
    tail := [.movi 0, .movi 1, .ldLane 2 0 [0] .inp (.reg .stride), .ldLane 2 1 [0] .inp (.reg .stride),
    .ldLane 2 2 [0] .inp (.reg .stride), .ldLane 2 3 [0] .inp (.reg .stride),
    .ldLane 2 0 [1] .inp (.reg .stride), .ldLane 2 1 [1] .inp (.reg .stride),
    .ldLane 2 2 [1] .inp (.reg .stride), .op2 .uzp1b 2 0 1, .op2 .uzp2b 3 0 1, .op2 .uaddw 8 8 2,
    .op2 .uaddw 9 9 3, .st1 4 2 [2, 3] .out (.imm 16), .ins 0 .mulSum, .dupW 1 .addSum, .op1 .uaddlp 8 8,
    .op1 .uaddlp 9 9, .op2 .addp 8 8 9, .op2 .addp 8 8 8, .mulLane 8 8 0 0, .op2 .add 8 8 1,
    .st1 4 4 [8] .out (.imm 0)] }

/-- meta/streams_arm_64.h:6664-6706. -/
def col3x0 : Prog :=
  { init := [.movi 8, .movi 9, .movi 10]
    skip := false
    body := [.subs .count 8, .ldLane 1 0 [0, 1, 2] .inp (.reg .stride), .ldLane 1 1 [0, 1, 2] .inp (.reg .stride),
    .ldLane 1 2 [0, 1, 2] .inp (.reg .stride), .ldLane 1 3 [0, 1, 2] .inp (.reg .stride),
    .ldLane 1 4 [0, 1, 2] .inp (.reg .stride), .ldLane 1 5 [0, 1, 2] .inp (.reg .stride),
    .ldLane 1 6 [0, 1, 2] .inp (.reg .stride), .ldLane 1 7 [0, 1, 2] .inp (.reg .stride), .op2 .uaddw 8 8 0,
    .op2 .uaddw 9 9 1, .op2 .uaddw 10 10 2, .st1 4 2 [0, 1, 2] .out (.imm 24)]
    cond := .ne
    tail := [.ins 0 .mulSum, .dupW 1 .addSum, .op1 .uaddlp 8 8, .op1 .uaddlp 9 9, .op1 .uaddlp 10 10, .op2 .addp 8 8 9,
    .op2 .addp 10 10 10, .op2 .addp 8 8 10, .mulLane 8 8 0 0, .op2 .add 8 8 1, .st1 4 4 [8] .out (.imm 0)] }

/-- meta/streams_arm_64.h:6722-6781. -/
def col3x1 : Prog :=
  { init := [.movi 8, .movi 9, .movi 10, .subs .count 1]
    skip := true
    body := [.subs .count 8, .ldLane 1 0 [0, 1, 2] .inp (.reg .stride), .ldLane 1 1 [0, 1, 2] .inp (.reg .stride),
    .ldLane 1 2 [0, 1, 2] .inp (.reg .stride), .ldLane 1 3 [0, 1, 2] .inp (.reg .stride),
    .ldLane 1 4 [0, 1, 2] .inp (.reg .stride), .ldLane 1 5 [0, 1, 2] .inp (.reg .stride),
    .ldLane 1 6 [0, 1, 2] .inp (.reg .stride), .ldLane 1 7 [0, 1, 2] .inp (.reg .stride), .op2 .uaddw 8 8 0,
    .op2 .uaddw 9 9 1, .op2 .uaddw 10 10 2, .st1 4 2 [0, 1, 2] .out (.imm 24)]
    cond := .ne
    tail := [.movi 0, .movi 1, .movi 2, .ldLane 1 0 [0, 1, 2] .inp (.reg .stride), .op2 .uaddw 8 8 0, .op2 .uaddw 9 9 1,
    .op2 .uaddw 10 10 2, .st1 4 2 [0, 1, 2] .out (.imm 24), .ins 0 .mulSum, .dupW 1 .addSum, .op1 .uaddlp 8 8,
    .op1 .uaddlp 9 9, .op1 .uaddlp 10 10, .op2 .addp 8 8 9, .op2 .addp 10 10 10, .op2 .addp 8 8 10,
    .mulLane 8 8 0 0, .op2 .add 8 8 1, .st1 4 4 [8] .out (.imm 0)] }

/-- meta/streams_arm_64.h:6797-6857. -/
def col3x2 : Prog :=
  { init := [.movi 8, .movi 9, .movi 10, .subs .count 2]
    skip := true
    body := [.subs .count 8, .ldLane 1 0 [0, 1, 2] .inp (.reg .stride), .ldLane 1 1 [0, 1, 2] .inp (.reg .stride),
    .ldLane 1 2 [0, 1, 2] .inp (.reg .stride), .ldLane 1 3 [0, 1, 2] .inp (.reg .stride),
    .ldLane 1 4 [0, 1, 2] .inp (.reg .stride), .ldLane 1 5 [0, 1, 2] .inp (.reg .stride),
    .ldLane 1 6 [0, 1, 2] .inp (.reg .stride), .ldLane 1 7 [0, 1, 2] .inp (.reg .stride), .op2 .uaddw 8 8 0,
    .op2 .uaddw 9 9 1, .op2 .uaddw 10 10 2, .st1 4 2 [0, 1, 2] .out (.imm 24)]
    cond := .ne
    tail := [.movi 0, .movi 1, .movi 2, .ldLane 1 0 [0, 1, 2] .inp (.reg .stride),
    .ldLane 1 1 [0, 1, 2] .inp (.reg .stride), .op2 .uaddw 8 8 0, .op2 .uaddw 9 9 1, .op2 .uaddw 10 10 2,
    .st1 4 2 [0, 1, 2] .out (.imm 24), .ins 0 .mulSum, .dupW 1 .addSum, .op1 .uaddlp 8 8, .op1 .uaddlp 9 9,
    .op1 .uaddlp 10 10, .op2 .addp 8 8 9, .op2 .addp 10 10 10, .op2 .addp 8 8 10, .mulLane 8 8 0 0,
    .op2 .add 8 8 1, .st1 4 4 [8] .out (.imm 0)] }

/-- meta/streams_arm_64.h:6873-6934. -/
def col3x3 : Prog :=
  { init := [.movi 8, .movi 9, .movi 10, .subs .count 3]
    skip := true
    body := [.subs .count 8, .ldLane 1 0 [0, 1, 2] .inp (.reg .stride), .ldLane 1 1 [0, 1, 2] .inp (.reg .stride),
    .ldLane 1 2 [0, 1, 2] .inp (.reg .stride), .ldLane 1 3 [0, 1, 2] .inp (.reg .stride),
    .ldLane 1 4 [0, 1, 2] .inp (.reg .stride), .ldLane 1 5 [0, 1, 2] .inp (.reg .stride),
    .ldLane 1 6 [0, 1, 2] .inp (.reg .stride), .ldLane 1 7 [0, 1, 2] .inp (.reg .stride), .op2 .uaddw 8 8 0,
    .op2 .uaddw 9 9 1, .op2 .uaddw 10 10 2, .st1 4 2 [0, 1, 2] .out (.imm 24)]
    cond := .ne
    tail := [.movi 0, .movi 1, .movi 2, .ldLane 1 0 [0, 1, 2] .inp (.reg .stride),
    .ldLane 1 1 [0, 1, 2] .inp (.reg .stride), .ldLane 1 2 [0, 1, 2] .inp (.reg .stride), .op2 .uaddw 8 8 0,
    .op2 .uaddw 9 9 1, .op2 .uaddw 10 10 2, .st1 4 2 [0, 1, 2] .out (.imm 24), .ins 0 .mulSum, .dupW 1 .addSum,
    .op1 .uaddlp 8 8, .op1 .uaddlp 9 9, .op1 .uaddlp 10 10, .op2 .addp 8 8 9, .op2 .addp 10 10 10,
    .op2 .addp 8 8 10, .mulLane 8 8 0 0, .op2 .add 8 8 1, .st1 4 4 [8] .out (.imm 0)] }

/-- meta/streams_arm_64.h:6950-7012. -/
def col3x4 : Prog :=
  { init := [.movi 8, .movi 9, .movi 10, .subs .count 4]
    skip := true
    body := [.subs .count 8, .ldLane 1 0 [0, 1, 2] .inp (.reg .stride), .ldLane 1 1 [0, 1, 2] .inp (.reg .stride),
    .ldLane 1 2 [0, 1, 2] .inp (.reg .stride), .ldLane 1 3 [0, 1, 2] .inp (.reg .stride),
    .ldLane 1 4 [0, 1, 2] .inp (.reg .stride), .ldLane 1 5 [0, 1, 2] .inp (.reg .stride),
    .ldLane 1 6 [0, 1, 2] .inp (.reg .stride), .ldLane 1 7 [0, 1, 2] .inp (.reg .stride), .op2 .uaddw 8 8 0,
    .op2 .uaddw 9 9 1, .op2 .uaddw 10 10 2, .st1 4 2 [0, 1, 2] .out (.imm 24)]
    cond := .ne
    tail := [.movi 0, .movi 1, .movi 2, .ldLane 1 0 [0, 1, 2] .inp (.reg .stride),
    .ldLane 1 1 [0, 1, 2] .inp (.reg .stride), .ldLane 1 2 [0, 1, 2] .inp (.reg .stride),
    .ldLane 1 3 [0, 1, 2] .inp (.reg .stride), .op2 .uaddw 8 8 0, .op2 .uaddw 9 9 1, .op2 .uaddw 10 10 2,
    .st1 4 2 [0, 1, 2] .out (.imm 24), .ins 0 .mulSum, .dupW 1 .addSum, .op1 .uaddlp 8 8, .op1 .uaddlp 9 9,
    .op1 .uaddlp 10 10, .op2 .addp 8 8 9, .op2 .addp 10 10 10, .op2 .addp 8 8 10, .mulLane 8 8 0 0,
    .op2 .add 8 8 1, .st1 4 4 [8] .out (.imm 0)] }

/-- meta/streams_arm_64.h:7028-7091. -/
def col3x5 : Prog :=
  { init := [.movi 8, .movi 9, .movi 10, .subs .count 5]
    skip := true
    body := [.subs .count 8, .ldLane 1 0 [0, 1, 2] .inp (.reg .stride), .ldLane 1 1 [0, 1, 2] .inp (.reg .stride),
    .ldLane 1 2 [0, 1, 2] .inp (.reg .stride), .ldLane 1 3 [0, 1, 2] .inp (.reg .stride),
    .ldLane 1 4 [0, 1, 2] .inp (.reg .stride), .ldLane 1 5 [0, 1, 2] .inp (.reg .stride),
    .ldLane 1 6 [0, 1, 2] .inp (.reg .stride), .ldLane 1 7 [0, 1, 2] .inp (.reg .stride), .op2 .uaddw 8 8 0,
    .op2 .uaddw 9 9 1, .op2 .uaddw 10 10 2, .st1 4 2 [0, 1, 2] .out (.imm 24)]
    cond := .ne
    tail := [.movi 0, .movi 1, .movi 2, .ldLane 1 0 [0, 1, 2] .inp (.reg .stride),
    .ldLane 1 1 [0, 1, 2] .inp (.reg .stride), .ldLane 1 2 [0, 1, 2] .inp (.reg .stride),
    .ldLane 1 3 [0, 1, 2] .inp (.reg .stride), .ldLane 1 4 [0, 1, 2] .inp (.reg .stride), .op2 .uaddw 8 8 0,
    .op2 .uaddw 9 9 1, .op2 .uaddw 10 10 2, .st1 4 2 [0, 1, 2] .out (.imm 24), .ins 0 .mulSum, .dupW 1 .addSum,
    .op1 .uaddlp 8 8, .op1 .uaddlp 9 9, .op1 .uaddlp 10 10, .op2 .addp 8 8 9, .op2 .addp 10 10 10,
    .op2 .addp 8 8 10, .mulLane 8 8 0 0, .op2 .add 8 8 1, .st1 4 4 [8] .out (.imm 0)] }

/-- meta/streams_arm_64.h:7107-7171. -/
def col3x6 : Prog :=
  { init := [.movi 8, .movi 9, .movi 10, .subs .count 6]
    skip := true
    body := [.subs .count 8, .ldLane 1 0 [0, 1, 2] .inp (.reg .stride), .ldLane 1 1 [0, 1, 2] .inp (.reg .stride),
    .ldLane 1 2 [0, 1, 2] .inp (.reg .stride), .ldLane 1 3 [0, 1, 2] .inp (.reg .stride),
    .ldLane 1 4 [0, 1, 2] .inp (.reg .stride), .ldLane 1 5 [0, 1, 2] .inp (.reg .stride),
    .ldLane 1 6 [0, 1, 2] .inp (.reg .stride), .ldLane 1 7 [0, 1, 2] .inp (.reg .stride), .op2 .uaddw 8 8 0,
    .op2 .uaddw 9 9 1, .op2 .uaddw 10 10 2, .st1 4 2 [0, 1, 2] .out (.imm 24)]
    cond := .ne
    tail := [.movi 0, .movi 1, .movi 2, .ldLane 1 0 [0, 1, 2] .inp (.reg .stride),
    .ldLane 1 1 [0, 1, 2] .inp (.reg .stride), .ldLane 1 2 [0, 1, 2] .inp (.reg .stride),
    .ldLane 1 3 [0, 1, 2] .inp (.reg .stride), .ldLane 1 4 [0, 1, 2] .inp (.reg .stride),
    .ldLane 1 5 [0, 1, 2] .inp (.reg .stride), .op2 .uaddw 8 8 0, .op2 .uaddw 9 9 1, .op2 .uaddw 10 10 2,
    .st1 4 2 [0, 1, 2] .out (.imm 24), .ins 0 .mulSum, .dupW 1 .addSum, .op1 .uaddlp 8 8, .op1 .uaddlp 9 9,
    .op1 .uaddlp 10 10, .op2 .addp 8 8 9, .op2 .addp 10 10 10, .op2 .addp 8 8 10, .mulLane 8 8 0 0,
    .op2 .add 8 8 1, .st1 4 4 [8] .out (.imm 0)] }

/-- meta/streams_arm_64.h:7187-7252. -/
def col3x7 : Prog :=
  { init := [.movi 8, .movi 9, .movi 10, .subs .count 7]
    skip := true
    body := [.subs .count 8, .ldLane 1 0 [0, 1, 2] .inp (.reg .stride), .ldLane 1 1 [0, 1, 2] .inp (.reg .stride),
    .ldLane 1 2 [0, 1, 2] .inp (.reg .stride), .ldLane 1 3 [0, 1, 2] .inp (.reg .stride),
    .ldLane 1 4 [0, 1, 2] .inp (.reg .stride), .ldLane 1 5 [0, 1, 2] .inp (.reg .stride),
    .ldLane 1 6 [0, 1, 2] .inp (.reg .stride), .ldLane 1 7 [0, 1, 2] .inp (.reg .stride), .op2 .uaddw 8 8 0,
    .op2 .uaddw 9 9 1, .op2 .uaddw 10 10 2, .st1 4 2 [0, 1, 2] .out (.imm 24)]
    cond := .ne
    tail := [.movi 0, .movi 1, .movi 2, .ldLane 1 0 [0, 1, 2] .inp (.reg .stride),
    .ldLane 1 1 [0, 1, 2] .inp (.reg .stride), .ldLane 1 2 [0, 1, 2] .inp (.reg .stride),
    .ldLane 1 3 [0, 1, 2] .inp (.reg .stride), .ldLane 1 4 [0, 1, 2] .inp (.reg .stride),
    .ldLane 1 5 [0, 1, 2] .inp (.reg .stride), .ldLane 1 6 [0, 1, 2] .inp (.reg .stride), .op2 .uaddw 8 8 0,
    .op2 .uaddw 9 9 1, .op2 .uaddw 10 10 2, .st1 4 2 [0, 1, 2] .out (.imm 24), .ins 0 .mulSum, .dupW 1 .addSum,
    .op1 .uaddlp 8 8, .op1 .uaddlp 9 9, .op1 .uaddlp 10 10, .op2 .addp 8 8 9, .op2 .addp 10 10 10,
    .op2 .addp 8 8 10, .mulLane 8 8 0 0, .op2 .add 8 8 1, .st1 4 4 [8] .out (.imm 0)] }

/-- meta/streams_arm_64.h:7268-7322. -/
def col4x0 : Prog :=
  { init := [.movi 8, .movi 9, .movi 10, .movi 11]
    skip := false
    body := [.subs .count 8, .ldLane 4 0 [0] .inp (.reg .stride), .ldLane 4 0 [1] .inp (.reg .stride),
    .ldLane 4 0 [2] .inp (.reg .stride), .ldLane 4 0 [3] .inp (.reg .stride),
    .ldLane 4 1 [0] .inp (.reg .stride), .ldLane 4 1 [1] .inp (.reg .stride),
    .ldLane 4 1 [2] .inp (.reg .stride), .ldLane 4 1 [3] .inp (.reg .stride), .op2 .trn1h 4 0 2,
    .op2 .trn2h 6 0 2, .op2 .trn1h 5 1 3, .op2 .trn2h 7 1 3, .op2 .trn1b 0 4 5, .op2 .trn2b 1 4 5,
    .op2 .trn1b 2 6 7, .op2 .trn2b 3 6 7, .op2 .uaddw 8 8 0, .op2 .uaddw 9 9 1, .op2 .uaddw 10 10 2,
    .op2 .uaddw 11 11 3, .st1 4 2 [0, 1, 2, 3] .out (.imm 32)]
    cond := .ne
    tail := [.ins 0 .mulSum, .dupW 1 .addSum, .op1 .uaddlp 8 8, .op1 .uaddlp 9 9, .op1 .uaddlp 10 10,
    .op1 .uaddlp 11 11, .op2 .addp 8 8 9, .op2 .addp 10 10 11, .op2 .addp 8 8 10, .mulLane 8 8 0 0,
    .op2 .add 8 8 1, .st1 4 4 [8] .out (.imm 0)] }

/-- meta/streams_arm_64.h:7338-7419. -/
def col4x1 : Prog :=
  { init := [.movi 8, .movi 9, .movi 10, .movi 11, .subs .count 1]
    skip := true
    body := [.subs .count 8, .ldLane 4 0 [0] .inp (.reg .stride), .ldLane 4 0 [1] .inp (.reg .stride),
    .ldLane 4 0 [2] .inp (.reg .stride), .ldLane 4 0 [3] .inp (.reg .stride),
    .ldLane 4 1 [0] .inp (.reg .stride), .ldLane 4 1 [1] .inp (.reg .stride),
    .ldLane 4 1 [2] .inp (.reg .stride), .ldLane 4 1 [3] .inp (.reg .stride), .op2 .trn1h 4 0 2,
    .op2 .trn2h 6 0 2, .op2 .trn1h 5 1 3, .op2 .trn2h 7 1 3, .op2 .trn1b 0 4 5, .op2 .trn2b 1 4 5,
    .op2 .trn1b 2 6 7, .op2 .trn2b 3 6 7, .op2 .uaddw 8 8 0, .op2 .uaddw 9 9 1, .op2 .uaddw 10 10 2,
    .op2 .uaddw 11 11 3, .st1 4 2 [0, 1, 2, 3] .out (.imm 32)]
    cond := .ne
    tail := [.movi 0, .movi 1, .movi 2, .movi 3, .ldLane 4 0 [0] .inp (.reg .stride), .op2 .trn1h 4 0 2,
    .op2 .trn2h 6 0 2, .op2 .trn1h 5 1 3, .op2 .trn2h 7 1 3, .op2 .trn1b 0 4 5, .op2 .trn2b 1 4 5,
    .op2 .trn1b 2 6 7, .op2 .trn2b 3 6 7, .op2 .uaddw 8 8 0, .op2 .uaddw 9 9 1, .op2 .uaddw 10 10 2,
    .op2 .uaddw 11 11 3, .st1 4 2 [0, 1, 2, 3] .out (.imm 32), .ins 0 .mulSum, .dupW 1 .addSum,
    .op1 .uaddlp 8 8, .op1 .uaddlp 9 9, .op1 .uaddlp 10 10, .op1 .uaddlp 11 11, .op2 .addp 8 8 9,
    .op2 .addp 10 10 11, .op2 .addp 8 8 10, .mulLane 8 8 0 0, .op2 .add 8 8 1, .st1 4 4 [8] .out (.imm 0)] }

/-- meta/streams_arm_64.h:7435-7517. -/
def col4x2 : Prog :=
  { init := [.movi 8, .movi 9, .movi 10, .movi 11, .subs .count 2]
    skip := true
    body := [.subs .count 8, .ldLane 4 0 [0] .inp (.reg .stride), .ldLane 4 0 [1] .inp (.reg .stride),
    .ldLane 4 0 [2] .inp (.reg .stride), .ldLane 4 0 [3] .inp (.reg .stride),
    .ldLane 4 1 [0] .inp (.reg .stride), .ldLane 4 1 [1] .inp (.reg .stride),
    .ldLane 4 1 [2] .inp (.reg .stride), .ldLane 4 1 [3] .inp (.reg .stride), .op2 .trn1h 4 0 2,
    .op2 .trn2h 6 0 2, .op2 .trn1h 5 1 3, .op2 .trn2h 7 1 3, .op2 .trn1b 0 4 5, .op2 .trn2b 1 4 5,
    .op2 .trn1b 2 6 7, .op2 .trn2b 3 6 7, .op2 .uaddw 8 8 0, .op2 .uaddw 9 9 1, .op2 .uaddw 10 10 2,
    .op2 .uaddw 11 11 3, .st1 4 2 [0, 1, 2, 3] .out (.imm 32)]
    cond := .ne
    tail := [.movi 0, .movi 1, .movi 2, .movi 3, .ldLane 4 0 [0] .inp (.reg .stride),
    .ldLane 4 0 [1] .inp (.reg .stride), .op2 .trn1h 4 0 2, .op2 .trn2h 6 0 2, .op2 .trn1h 5 1 3,
    .op2 .trn2h 7 1 3, .op2 .trn1b 0 4 5, .op2 .trn2b 1 4 5, .op2 .trn1b 2 6 7, .op2 .trn2b 3 6 7,
    .op2 .uaddw 8 8 0, .op2 .uaddw 9 9 1, .op2 .uaddw 10 10 2, .op2 .uaddw 11 11 3,
    .st1 4 2 [0, 1, 2, 3] .out (.imm 32), .ins 0 .mulSum, .dupW 1 .addSum, .op1 .uaddlp 8 8, .op1 .uaddlp 9 9,
    .op1 .uaddlp 10 10, .op1 .uaddlp 11 11, .op2 .addp 8 8 9, .op2 .addp 10 10 11, .op2 .addp 8 8 10,
    .mulLane 8 8 0 0, .op2 .add 8 8 1, .st1 4 4 [8] .out (.imm 0)] }

/-- meta/streams_arm_64.h:7533-7616. -/
def col4x3 : Prog :=
  { init := [.movi 8, .movi 9, .movi 10, .movi 11, .subs .count 3]
    skip := true
    body := [.subs .count 8, .ldLane 4 0 [0] .inp (.reg .stride), .ldLane 4 0 [1] .inp (.reg .stride),
    .ldLane 4 0 [2] .inp (.reg .stride), .ldLane 4 0 [3] .inp (.reg .stride),
    .ldLane 4 1 [0] .inp (.reg .stride), .ldLane 4 1 [1] .inp (.reg .stride),
    .ldLane 4 1 [2] .inp (.reg .stride), .ldLane 4 1 [3] .inp (.reg .stride), .op2 .trn1h 4 0 2,
    .op2 .trn2h 6 0 2, .op2 .trn1h 5 1 3, .op2 .trn2h 7 1 3, .op2 .trn1b 0 4 5, .op2 .trn2b 1 4 5,
    .op2 .trn1b 2 6 7, .op2 .trn2b 3 6 7, .op2 .uaddw 8 8 0, .op2 .uaddw 9 9 1, .op2 .uaddw 10 10 2,
    .op2 .uaddw 11 11 3, .st1 4 2 [0, 1, 2, 3] .out (.imm 32)]
    cond := .ne
    tail := [.movi 0, .movi 1, .movi 2, .movi 3, .ldLane 4 0 [0] .inp (.reg .stride),
    .ldLane 4 0 [1] .inp (.reg .stride), .ldLane 4 0 [2] .inp (.reg .stride), .op2 .trn1h 4 0 2,
    .op2 .trn2h 6 0 2, .op2 .trn1h 5 1 3, .op2 .trn2h 7 1 3, .op2 .trn1b 0 4 5, .op2 .trn2b 1 4 5,
    .op2 .trn1b 2 6 7, .op2 .trn2b 3 6 7, .op2 .uaddw 8 8 0, .op2 .uaddw 9 9 1, .op2 .uaddw 10 10 2,
    .op2 .uaddw 11 11 3, .st1 4 2 [0, 1, 2, 3] .out (.imm 32), .ins 0 .mulSum, .dupW 1 .addSum,
    .op1 .uaddlp 8 8, .op1 .uaddlp 9 9, .op1 .uaddlp 10 10, .op1 .uaddlp 11 11, .op2 .addp 8 8 9,
    .op2 .addp 10 10 11, .op2 .addp 8 8 10, .mulLane 8 8 0 0, .op2 .add 8 8 1, .st1 4 4 [8] .out (.imm 0)] }

/-- meta/streams_arm_64.h:7632-7716. -/
def col4x4 : Prog :=
  { init := [.movi 8, .movi 9, .movi 10, .movi 11, .subs .count 4]
    skip := true
    body := [.subs .count 8, .ldLane 4 0 [0] .inp (.reg .stride), .ldLane 4 0 [1] .inp (.reg .stride),
    .ldLane 4 0 [2] .inp (.reg .stride), .ldLane 4 0 [3] .inp (.reg .stride),
    .ldLane 4 1 [0] .inp (.reg .stride), .ldLane 4 1 [1] .inp (.reg .stride),
    .ldLane 4 1 [2] .inp (.reg .stride), .ldLane 4 1 [3] .inp (.reg .stride), .op2 .trn1h 4 0 2,
    .op2 .trn2h 6 0 2, .op2 .trn1h 5 1 3, .op2 .trn2h 7 1 3, .op2 .trn1b 0 4 5, .op2 .trn2b 1 4 5,
    .op2 .trn1b 2 6 7, .op2 .trn2b 3 6 7, .op2 .uaddw 8 8 0, .op2 .uaddw 9 9 1, .op2 .uaddw 10 10 2,
    .op2 .uaddw 11 11 3, .st1 4 2 [0, 1, 2, 3] .out (.imm 32)]
    cond := .ne
    tail := [.movi 0, .movi 1, .movi 2, .movi 3, .ldLane 4 0 [0] .inp (.reg .stride),
    .ldLane 4 0 [1] .inp (.reg .stride), .ldLane 4 0 [2] .inp (.reg .stride),
    .ldLane 4 0 [3] .inp (.reg .stride), .op2 .trn1h 4 0 2, .op2 .trn2h 6 0 2, .op2 .trn1h 5 1 3,
    .op2 .trn2h 7 1 3, .op2 .trn1b 0 4 5, .op2 .trn2b 1 4 5, .op2 .trn1b 2 6 7, .op2 .trn2b 3 6 7,
    .op2 .uaddw 8 8 0, .op2 .uaddw 9 9 1, .op2 .uaddw 10 10 2, .op2 .uaddw 11 11 3,
    .st1 4 2 [0, 1, 2, 3] .out (.imm 32), .ins 0 .mulSum, .dupW 1 .addSum, .op1 .uaddlp 8 8, .op1 .uaddlp 9 9,
    .op1 .uaddlp 10 10, .op1 .uaddlp 11 11, .op2 .addp 8 8 9, .op2 .addp 10 10 11, .op2 .addp 8 8 10,
    .mulLane 8 8 0 0, .op2 .add 8 8 1, .st1 4 4 [8] .out (.imm 0)] }

/-- meta/streams_arm_64.h:7732-7817. -/
def col4x5 : Prog :=
  { init := [.movi 8, .movi 9, .movi 10, .movi 11, .subs .count 5]
    skip := true
    body := [.subs .count 8, .ldLane 4 0 [0] .inp (.reg .stride), .ldLane 4 0 [1] .inp (.reg .stride),
    .ldLane 4 0 [2] .inp (.reg .stride), .ldLane 4 0 [3] .inp (.reg .stride),
    .ldLane 4 1 [0] .inp (.reg .stride), .ldLane 4 1 [1] .inp (.reg .stride),
    .ldLane 4 1 [2] .inp (.reg .stride), .ldLane 4 1 [3] .inp (.reg .stride), .op2 .trn1h 4 0 2,
    .op2 .trn2h 6 0 2, .op2 .trn1h 5 1 3, .op2 .trn2h 7 1 3, .op2 .trn1b 0 4 5, .op2 .trn2b 1 4 5,
    .op2 .trn1b 2 6 7, .op2 .trn2b 3 6 7, .op2 .uaddw 8 8 0, .op2 .uaddw 9 9 1, .op2 .uaddw 10 10 2,
    .op2 .uaddw 11 11 3, .st1 4 2 [0, 1, 2, 3] .out (.imm 32)]
    cond := .ne
    tail := [.movi 0, .movi 1, .movi 2, .movi 3, .ldLane 4 0 [0] .inp (.reg .stride),
    .ldLane 4 0 [1] .inp (.reg .stride), .ldLane 4 0 [2] .inp (.reg .stride),
    .ldLane 4 0 [3] .inp (.reg .stride), .ldLane 4 1 [0] .inp (.reg .stride), .op2 .trn1h 4 0 2,
    .op2 .trn2h 6 0 2, .op2 .trn1h 5 1 3, .op2 .trn2h 7 1 3, .op2 .trn1b 0 4 5, .op2 .trn2b 1 4 5,
    .op2 .trn1b 2 6 7, .op2 .trn2b 3 6 7, .op2 .uaddw 8 8 0, .op2 .uaddw 9 9 1, .op2 .uaddw 10 10 2,
    .op2 .uaddw 11 11 3, .st1 4 2 [0, 1, 2, 3] .out (.imm 32), .ins 0 .mulSum, .dupW 1 .addSum,
    .op1 .uaddlp 8 8, .op1 .uaddlp 9 9, .op1 .uaddlp 10 10, .op1 .uaddlp 11 11, .op2 .addp 8 8 9,
    .op2 .addp 10 10 11, .op2 .addp 8 8 10, .mulLane 8 8 0 0, .op2 .add 8 8 1, .st1 4 4 [8] .out (.imm 0)] }

/-- meta/streams_arm_64.h:7833-7919. -/
def col4x6 : Prog :=
  { init := [.movi 8, .movi 9, .movi 10, .movi 11, .subs .count 6]
    skip := true
    body := [.subs .count 8, .ldLane 4 0 [0] .inp (.reg .stride), .ldLane 4 0 [1] .inp (.reg .stride),
    .ldLane 4 0 [2] .inp (.reg .stride), .ldLane 4 0 [3] .inp (.reg .stride),
    .ldLane 4 1 [0] .inp (.reg .stride), .ldLane 4 1 [1] .inp (.reg .stride),
    .ldLane 4 1 [2] .inp (.reg .stride), .ldLane 4 1 [3] .inp (.reg .stride), .op2 .trn1h 4 0 2,
    .op2 .trn2h 6 0 2, .op2 .trn1h 5 1 3, .op2 .trn2h 7 1 3, .op2 .trn1b 0 4 5, .op2 .trn2b 1 4 5,
    .op2 .trn1b 2 6 7, .op2 .trn2b 3 6 7, .op2 .uaddw 8 8 0, .op2 .uaddw 9 9 1, .op2 .uaddw 10 10 2,
    .op2 .uaddw 11 11 3, .st1 4 2 [0, 1, 2, 3] .out (.imm 32)]
    cond := .ne
    tail := [.movi 0, .movi 1, .movi 2, .movi 3, .ldLane 4 0 [0] .inp (.reg .stride),
    .ldLane 4 0 [1] .inp (.reg .stride), .ldLane 4 0 [2] .inp (.reg .stride),
    .ldLane 4 0 [3] .inp (.reg .stride), .ldLane 4 1 [0] .inp (.reg .stride),
    .ldLane 4 1 [1] .inp (.reg .stride), .op2 .trn1h 4 0 2, .op2 .trn2h 6 0 2, .op2 .trn1h 5 1 3,
    .op2 .trn2h 7 1 3, .op2 .trn1b 0 4 5, .op2 .trn2b 1 4 5, .op2 .trn1b 2 6 7, .op2 .trn2b 3 6 7,
    .op2 .uaddw 8 8 0, .op2 .uaddw 9 9 1, .op2 .uaddw 10 10 2, .op2 .uaddw 11 11 3,
    .st1 4 2 [0, 1, 2, 3] .out (.imm 32), .ins 0 .mulSum, .dupW 1 .addSum, .op1 .uaddlp 8 8, .op1 .uaddlp 9 9,
    .op1 .uaddlp 10 10, .op1 .uaddlp 11 11, .op2 .addp 8 8 9, .op2 .addp 10 10 11, .op2 .addp 8 8 10,
    .mulLane 8 8 0 0, .op2 .add 8 8 1, .st1 4 4 [8] .out (.imm 0)] }

/-- meta/streams_arm_64.h:7935-8022. -/
def col4x7 : Prog :=
  { init := [.movi 8, .movi 9, .movi 10, .movi 11, .subs .count 7]
    skip := true
    body := [.subs .count 8, .ldLane 4 0 [0] .inp (.reg .stride), .ldLane 4 0 [1] .inp (.reg .stride),
    .ldLane 4 0 [2] .inp (.reg .stride), .ldLane 4 0 [3] .inp (.reg .stride),
    .ldLane 4 1 [0] .inp (.reg .stride), .ldLane 4 1 [1] .inp (.reg .stride),
    .ldLane 4 1 [2] .inp (.reg .stride), .ldLane 4 1 [3] .inp (.reg .stride), .op2 .trn1h 4 0 2,
    .op2 .trn2h 6 0 2, .op2 .trn1h 5 1 3, .op2 .trn2h 7 1 3, .op2 .trn1b 0 4 5, .op2 .trn2b 1 4 5,
    .op2 .trn1b 2 6 7, .op2 .trn2b 3 6 7, .op2 .uaddw 8 8 0, .op2 .uaddw 9 9 1, .op2 .uaddw 10 10 2,
    .op2 .uaddw 11 11 3, .st1 4 2 [0, 1, 2, 3] .out (.imm 32)]
    cond := .ne
    tail := [.movi 0, .movi 1, .movi 2, .movi 3, .ldLane 4 0 [0] .inp (.reg .stride),
    .ldLane 4 0 [1] .inp (.reg .stride), .ldLane 4 0 [2] .inp (.reg .stride),
    .ldLane 4 0 [3] .inp (.reg .stride), .ldLane 4 1 [0] .inp (.reg .stride),
    .ldLane 4 1 [1] .inp (.reg .stride), .ldLane 4 1 [2] .inp (.reg .stride), .op2 .trn1h 4 0 2,
    .op2 .trn2h 6 0 2, .op2 .trn1h 5 1 3, .op2 .trn2h 7 1 3, .op2 .trn1b 0 4 5, .op2 .trn2b 1 4 5,
    .op2 .trn1b 2 6 7, .op2 .trn2b 3 6 7, .op2 .uaddw 8 8 0, .op2 .uaddw 9 9 1, .op2 .uaddw 10 10 2,
    .op2 .uaddw 11 11 3, .st1 4 2 [0, 1, 2, 3] .out (.imm 32), .ins 0 .mulSum, .dupW 1 .addSum,
    .op1 .uaddlp 8 8, .op1 .uaddlp 9 9, .op1 .uaddlp 10 10, .op1 .uaddlp 11 11, .op2 .addp 8 8 9,
    .op2 .addp 10 10 11, .op2 .addp 8 8 10, .mulLane 8 8 0 0, .op2 .add 8 8 1, .st1 4 4 [8] .out (.imm 0)] }

/-- meta/streams_arm_64.h:8038-8109. -/
def col5x0 : Prog :=
  { init := [.sub .stride 4, .movi 8, .movi 9, .movi 10, .movi 11, .movi 12]
    skip := false
    body := [.subs .count 8, .ldLane 4 0 [0] .inp (.imm 4), .ldLane 1 0 [4] .inp (.reg .stride),
    .ldLane 4 0 [1] .inp (.imm 4), .ldLane 1 1 [4] .inp (.reg .stride), .ldLane 4 0 [2] .inp (.imm 4),
    .ldLane 1 2 [4] .inp (.reg .stride), .ldLane 4 0 [3] .inp (.imm 4), .ldLane 1 3 [4] .inp (.reg .stride),
    .ldLane 4 1 [0] .inp (.imm 4), .ldLane 1 4 [4] .inp (.reg .stride), .ldLane 4 1 [1] .inp (.imm 4),
    .ldLane 1 5 [4] .inp (.reg .stride), .ldLane 4 1 [2] .inp (.imm 4), .ldLane 1 6 [4] .inp (.reg .stride),
    .ldLane 4 1 [3] .inp (.imm 4), .ldLane 1 7 [4] .inp (.reg .stride), .op2 .trn1h 5 0 2, .op2 .trn2h 7 0 2,
    .op2 .trn1h 6 1 3, .op2 .trn2h 13 1 3, .op2 .trn1b 0 5 6, .op2 .trn2b 1 5 6, .op2 .trn1b 2 7 13,
    .op2 .trn2b 3 7 13, .op2 .uaddw 8 8 0, .op2 .uaddw 9 9 1, .op2 .uaddw 10 10 2, .op2 .uaddw 11 11 3,
    .op2 .uaddw 12 12 4, .st1 4 2 [0, 1, 2, 3] .out (.imm 32), .st1 4 2 [4] .out (.imm 8)]
    cond := .ne
    tail := [.ins 0 .mulSum, .dupW 1 .addSum, .op1 .uaddlp 8 8, .op1 .uaddlp 9 9, .op1 .uaddlp 10 10,
    .op1 .uaddlp 11 11, .op1 .uaddlp 12 12, .op2 .addp 8 8 9, .op2 .addp 10 10 11, .op2 .addp 12 12 12,
    .op2 .addp 8 8 10, .op2 .addp 9 12 12, .mulLane 8 8 0 0, .mulLane 9 9 0 0, .op2 .add 8 8 1,
    .op2 .add 9 9 1, .st1 4 4 [8, 9] .out (.imm 0)] }

/-- meta/streams_arm_64.h:8125-8227. -/
def col5x1 : Prog :=
  { init := [.sub .stride 4, .movi 8, .movi 9, .movi 10, .movi 11, .movi 12, .subs .count 1]
    skip := true
    body := [.subs .count 8, .ldLane 4 0 [0] .inp (.imm 4), .ldLane 1 0 [4] .inp (.reg .stride),
    .ldLane 4 0 [1] .inp (.imm 4), .ldLane 1 1 [4] .inp (.reg .stride), .ldLane 4 0 [2] .inp (.imm 4),
    .ldLane 1 2 [4] .inp (.reg .stride), .ldLane 4 0 [3] .inp (.imm 4), .ldLane 1 3 [4] .inp (.reg .stride),
    .ldLane 4 1 [0] .inp (.imm 4), .ldLane 1 4 [4] .inp (.reg .stride), .ldLane 4 1 [1] .inp (.imm 4),
    .ldLane 1 5 [4] .inp (.reg .stride), .ldLane 4 1 [2] .inp (.imm 4), .ldLane 1 6 [4] .inp (.reg .stride),
    .ldLane 4 1 [3] .inp (.imm 4), .ldLane 1 7 [4] .inp (.reg .stride), .op2 .trn1h 5 0 2, .op2 .trn2h 7 0 2,
    .op2 .trn1h 6 1 3, .op2 .trn2h 13 1 3, .op2 .trn1b 0 5 6, .op2 .trn2b 1 5 6, .op2 .trn1b 2 7 13,
    .op2 .trn2b 3 7 13, .op2 .uaddw 8 8 0, .op2 .uaddw 9 9 1, .op2 .uaddw 10 10 2, .op2 .uaddw 11 11 3,
    .op2 .uaddw 12 12 4, .st1 4 2 [0, 1, 2, 3] .out (.imm 32), .st1 4 2 [4] .out (.imm 8)]
    cond := .ne
    tail := [.movi 0, .movi 1, .movi 2, .movi 3, .movi 4, .ldLane 4 0 [0] .inp (.imm 4),
    .ldLane 1 0 [4] .inp (.reg .stride), .op2 .trn1h 5 0 2, .op2 .trn2h 7 0 2, .op2 .trn1h 6 1 3,
    .op2 .trn2h 13 1 3, .op2 .trn1b 0 5 6, .op2 .trn2b 1 5 6, .op2 .trn1b 2 7 13, .op2 .trn2b 3 7 13,
    .op2 .uaddw 8 8 0, .op2 .uaddw 9 9 1, .op2 .uaddw 10 10 2, .op2 .uaddw 11 11 3, .op2 .uaddw 12 12 4,
    .st1 4 2 [0, 1, 2, 3] .out (.imm 32), .st1 4 2 [4] .out (.imm 8), .ins 0 .mulSum, .dupW 1 .addSum,
    .op1 .uaddlp 8 8, .op1 .uaddlp 9 9, .op1 .uaddlp 10 10, .op1 .uaddlp 11 11, .op1 .uaddlp 12 12,
    .op2 .addp 8 8 9, .op2 .addp 10 10 11, .op2 .addp 12 12 12, .op2 .addp 8 8 10, .op2 .addp 9 12 12,
    .mulLane 8 8 0 0, .mulLane 9 9 0 0, .op2 .add 8 8 1, .op2 .add 9 9 1, .st1 4 4 [8, 9] .out (.imm 0)] }

/-- meta/streams_arm_64.h:8243-8347. -/
def col5x2 : Prog :=
  { init := [.sub .stride 4, .movi 8, .movi 9, .movi 10, .movi 11, .movi 12, .subs .count 2]
    skip := true
    body := [.subs .count 8, .ldLane 4 0 [0] .inp (.imm 4), .ldLane 1 0 [4] .inp (.reg .stride),
    .ldLane 4 0 [1] .inp (.imm 4), .ldLane 1 1 [4] .inp (.reg .stride), .ldLane 4 0 [2] .inp (.imm 4),
    .ldLane 1 2 [4] .inp (.reg .stride), .ldLane 4 0 [3] .inp (.imm 4), .ldLane 1 3 [4] .inp (.reg .stride),
    .ldLane 4 1 [0] .inp (.imm 4), .ldLane 1 4 [4] .inp (.reg .stride), .ldLane 4 1 [1] .inp (.imm 4),
    .ldLane 1 5 [4] .inp (.reg .stride), .ldLane 4 1 [2] .inp (.imm 4), .ldLane 1 6 [4] .inp (.reg .stride),
    .ldLane 4 1 [3] .inp (.imm 4), .ldLane 1 7 [4] .inp (.reg .stride), .op2 .trn1h 5 0 2, .op2 .trn2h 7 0 2,
    .op2 .trn1h 6 1 3, .op2 .trn2h 13 1 3, .op2 .trn1b 0 5 6, .op2 .trn2b 1 5 6, .op2 .trn1b 2 7 13,
    .op2 .trn2b 3 7 13, .op2 .uaddw 8 8 0, .op2 .uaddw 9 9 1, .op2 .uaddw 10 10 2, .op2 .uaddw 11 11 3,
    .op2 .uaddw 12 12 4, .st1 4 2 [0, 1, 2, 3] .out (.imm 32), .st1 4 2 [4] .out (.imm 8)]
    cond := .ne
    tail := [.movi 0, .movi 1, .movi 2, .movi 3, .movi 4, .ldLane 4 0 [0] .inp (.imm 4),
    .ldLane 1 0 [4] .inp (.reg .stride), .ldLane 4 0 [1] .inp (.imm 4), .ldLane 1 1 [4] .inp (.reg .stride),
    .op2 .trn1h 5 0 2, .op2 .trn2h 7 0 2, .op2 .trn1h 6 1 3, .op2 .trn2h 13 1 3, .op2 .trn1b 0 5 6,
    .op2 .trn2b 1 5 6, .op2 .trn1b 2 7 13, .op2 .trn2b 3 7 13, .op2 .uaddw 8 8 0, .op2 .uaddw 9 9 1,
    .op2 .uaddw 10 10 2, .op2 .uaddw 11 11 3, .op2 .uaddw 12 12 4, .st1 4 2 [0, 1, 2, 3] .out (.imm 32),
    .st1 4 2 [4] .out (.imm 8), .ins 0 .mulSum, .dupW 1 .addSum, .op1 .uaddlp 8 8, .op1 .uaddlp 9 9,
    .op1 .uaddlp 10 10, .op1 .uaddlp 11 11, .op1 .uaddlp 12 12, .op2 .addp 8 8 9, .op2 .addp 10 10 11,
    .op2 .addp 12 12 12, .op2 .addp 8 8 10, .op2 .addp 9 12 12, .mulLane 8 8 0 0, .mulLane 9 9 0 0,
    .op2 .add 8 8 1, .op2 .add 9 9 1, .st1 4 4 [8, 9] .out (.imm 0)] }

/-- meta/streams_arm_64.h:8363-8469. -/
def col5x3 : Prog :=
  { init := [.sub .stride 4, .movi 8, .movi 9, .movi 10, .movi 11, .movi 12, .subs .count 3]
    skip := true
    body := [.subs .count 8, .ldLane 4 0 [0] .inp (.imm 4), .ldLane 1 0 [4] .inp (.reg .stride),
    .ldLane 4 0 [1] .inp (.imm 4), .ldLane 1 1 [4] .inp (.reg .stride), .ldLane 4 0 [2] .inp (.imm 4),
    .ldLane 1 2 [4] .inp (.reg .stride), .ldLane 4 0 [3] .inp (.imm 4), .ldLane 1 3 [4] .inp (.reg .stride),
    .ldLane 4 1 [0] .inp (.imm 4), .ldLane 1 4 [4] .inp (.reg .stride), .ldLane 4 1 [1] .inp (.imm 4),
    .ldLane 1 5 [4] .inp (.reg .stride), .ldLane 4 1 [2] .inp (.imm 4), .ldLane 1 6 [4] .inp (.reg .stride),
    .ldLane 4 1 [3] .inp (.imm 4), .ldLane 1 7 [4] .inp (.reg .stride), .op2 .trn1h 5 0 2, .op2 .trn2h 7 0 2,
    .op2 .trn1h 6 1 3, .op2 .trn2h 13 1 3, .op2 .trn1b 0 5 6, .op2 .trn2b 1 5 6, .op2 .trn1b 2 7 13,
    .op2 .trn2b 3 7 13, .op2 .uaddw 8 8 0, .op2 .uaddw 9 9 1, .op2 .uaddw 10 10 2, .op2 .uaddw 11 11 3,
    .op2 .uaddw 12 12 4, .st1 4 2 [0, 1, 2, 3] .out (.imm 32), .st1 4 2 [4] .out (.imm 8)]
    cond := .ne
    tail := [.movi 0, .movi 1, .movi 2, .movi 3, .movi 4, .ldLane 4 0 [0] .inp (.imm 4),
    .ldLane 1 0 [4] .inp (.reg .stride), .ldLane 4 0 [1] .inp (.imm 4), .ldLane 1 1 [4] .inp (.reg .stride),
    .ldLane 4 0 [2] .inp (.imm 4), .ldLane 1 2 [4] .inp (.reg .stride), .op2 .trn1h 5 0 2, .op2 .trn2h 7 0 2,
    .op2 .trn1h 6 1 3, .op2 .trn2h 13 1 3, .op2 .trn1b 0 5 6, .op2 .trn2b 1 5 6, .op2 .trn1b 2 7 13,
    .op2 .trn2b 3 7 13, .op2 .uaddw 8 8 0, .op2 .uaddw 9 9 1, .op2 .uaddw 10 10 2, .op2 .uaddw 11 11 3,
    .op2 .uaddw 12 12 4, .st1 4 2 [0, 1, 2, 3] .out (.imm 32), .st1 4 2 [4] .out (.imm 8), .ins 0 .mulSum,
    .dupW 1 .addSum, .op1 .uaddlp 8 8, .op1 .uaddlp 9 9, .op1 .uaddlp 10 10, .op1 .uaddlp 11 11,
    .op1 .uaddlp 12 12, .op2 .addp 8 8 9, .op2 .addp 10 10 11, .op2 .addp 12 12 12, .op2 .addp 8 8 10,
    .op2 .addp 9 12 12, .mulLane 8 8 0 0, .mulLane 9 9 0 0, .op2 .add 8 8 1, .op2 .add 9 9 1,
    .st1 4 4 [8, 9] .out (.imm 0)] }

/-- meta/streams_arm_64.h:8485-8593. -/
def col5x4 : Prog :=
  { init := [.sub .stride 4, .movi 8, .movi 9, .movi 10, .movi 11, .movi 12, .subs .count 4]
    skip := true
    body := [.subs .count 8, .ldLane 4 0 [0] .inp (.imm 4), .ldLane 1 0 [4] .inp (.reg .stride),
    .ldLane 4 0 [1] .inp (.imm 4), .ldLane 1 1 [4] .inp (.reg .stride), .ldLane 4 0 [2] .inp (.imm 4),
    .ldLane 1 2 [4] .inp (.reg .stride), .ldLane 4 0 [3] .inp (.imm 4), .ldLane 1 3 [4] .inp (.reg .stride),
    .ldLane 4 1 [0] .inp (.imm 4), .ldLane 1 4 [4] .inp (.reg .stride), .ldLane 4 1 [1] .inp (.imm 4),
    .ldLane 1 5 [4] .inp (.reg .stride), .ldLane 4 1 [2] .inp (.imm 4), .ldLane 1 6 [4] .inp (.reg .stride),
    .ldLane 4 1 [3] .inp (.imm 4), .ldLane 1 7 [4] .inp (.reg .stride), .op2 .trn1h 5 0 2, .op2 .trn2h 7 0 2,
    .op2 .trn1h 6 1 3, .op2 .trn2h 13 1 3, .op2 .trn1b 0 5 6, .op2 .trn2b 1 5 6, .op2 .trn1b 2 7 13,
    .op2 .trn2b 3 7 13, .op2 .uaddw 8 8 0, .op2 .uaddw 9 9 1, .op2 .uaddw 10 10 2, .op2 .uaddw 11 11 3,
    .op2 .uaddw 12 12 4, .st1 4 2 [0, 1, 2, 3] .out (.imm 32), .st1 4 2 [4] .out (.imm 8)]
    cond := .ne
    tail := [.movi 0, .movi 1, .movi 2, .movi 3, .movi 4, .ldLane 4 0 [0] .inp (.imm 4),
    .ldLane 1 0 [4] .inp (.reg .stride), .ldLane 4 0 [1] .inp (.imm 4), .ldLane 1 1 [4] .inp (.reg .stride),
    .ldLane 4 0 [2] .inp (.imm 4), .ldLane 1 2 [4] .inp (.reg .stride), .ldLane 4 0 [3] .inp (.imm 4),
    .ldLane 1 3 [4] .inp (.reg .stride), .op2 .trn1h 5 0 2, .op2 .trn2h 7 0 2, .op2 .trn1h 6 1 3,
    .op2 .trn2h 13 1 3, .op2 .trn1b 0 5 6, .op2 .trn2b 1 5 6, .op2 .trn1b 2 7 13, .op2 .trn2b 3 7 13,
    .op2 .uaddw 8 8 0, .op2 .uaddw 9 9 1, .op2 .uaddw 10 10 2, .op2 .uaddw 11 11 3, .op2 .uaddw 12 12 4,
    .st1 4 2 [0, 1, 2, 3] .out (.imm 32), .st1 4 2 [4] .out (.imm 8), .ins 0 .mulSum, .dupW 1 .addSum,
    .op1 .uaddlp 8 8, .op1 .uaddlp 9 9, .op1 .uaddlp 10 10, .op1 .uaddlp 11 11, .op1 .uaddlp 12 12,
    .op2 .addp 8 8 9, .op2 .addp 10 10 11, .op2 .addp 12 12 12, .op2 .addp 8 8 10, .op2 .addp 9 12 12,
    .mulLane 8 8 0 0, .mulLane 9 9 0 0, .op2 .add 8 8 1, .op2 .add 9 9 1, .st1 4 4 [8, 9] .out (.imm 0)] }

/-- meta/streams_arm_64.h:8609-8719. -/
def col5x5 : Prog :=
  { init := [.sub .stride 4, .movi 8, .movi 9, .movi 10, .movi 11, .movi 12, .subs .count 5]
    skip := true
    body := [.subs .count 8, .ldLane 4 0 [0] .inp (.imm 4), .ldLane 1 0 [4] .inp (.reg .stride),
    .ldLane 4 0 [1] .inp (.imm 4), .ldLane 1 1 [4] .inp (.reg .stride), .ldLane 4 0 [2] .inp (.imm 4),
    .ldLane 1 2 [4] .inp (.reg .stride), .ldLane 4 0 [3] .inp (.imm 4), .ldLane 1 3 [4] .inp (.reg .stride),
    .ldLane 4 1 [0] .inp (.imm 4), .ldLane 1 4 [4] .inp (.reg .stride), .ldLane 4 1 [1] .inp (.imm 4),
    .ldLane 1 5 [4] .inp (.reg .stride), .ldLane 4 1 [2] .inp (.imm 4), .ldLane 1 6 [4] .inp (.reg .stride),
    .ldLane 4 1 [3] .inp (.imm 4), .ldLane 1 7 [4] .inp (.reg .stride), .op2 .trn1h 5 0 2, .op2 .trn2h 7 0 2,
    .op2 .trn1h 6 1 3, .op2 .trn2h 13 1 3, .op2 .trn1b 0 5 6, .op2 .trn2b 1 5 6, .op2 .trn1b 2 7 13,
    .op2 .trn2b 3 7 13, .op2 .uaddw 8 8 0, .op2 .uaddw 9 9 1, .op2 .uaddw 10 10 2, .op2 .uaddw 11 11 3,
    .op2 .uaddw 12 12 4, .st1 4 2 [0, 1, 2, 3] .out (.imm 32), .st1 4 2 [4] .out (.imm 8)]
    cond := .ne
    tail := [.movi 0, .movi 1, .movi 2, .movi 3, .movi 4, .ldLane 4 0 [0] .inp (.imm 4),
    .ldLane 1 0 [4] .inp (.reg .stride), .ldLane 4 0 [1] .inp (.imm 4), .ldLane 1 1 [4] .inp (.reg .stride),
    .ldLane 4 0 [2] .inp (.imm 4), .ldLane 1 2 [4] .inp (.reg .stride), .ldLane 4 0 [3] .inp (.imm 4),
    .ldLane 1 3 [4] .inp (.reg .stride), .ldLane 4 1 [0] .inp (.imm 4), .ldLane 1 4 [4] .inp (.reg .stride),
    .op2 .trn1h 5 0 2, .op2 .trn2h 7 0 2, .op2 .trn1h 6 1 3, .op2 .trn2h 13 1 3, .op2 .trn1b 0 5 6,
    .op2 .trn2b 1 5 6, .op2 .trn1b 2 7 13, .op2 .trn2b 3 7 13, .op2 .uaddw 8 8 0, .op2 .uaddw 9 9 1,
    .op2 .uaddw 10 10 2, .op2 .uaddw 11 11 3, .op2 .uaddw 12 12 4, .st1 4 2 [0, 1, 2, 3] .out (.imm 32),
    .st1 4 2 [4] .out (.imm 8), .ins 0 .mulSum, .dupW 1 .addSum, .op1 .uaddlp 8 8, .op1 .uaddlp 9 9,
    .op1 .uaddlp 10 10, .op1 .uaddlp 11 11, .op1 .uaddlp 12 12, .op2 .addp 8 8 9, .op2 .addp 10 10 11,
    .op2 .addp 12 12 12, .op2 .addp 8 8 10, .op2 .addp 9 12 12, .mulLane 8 8 0 0, .mulLane 9 9 0 0,
    .op2 .add 8 8 1, .op2 .add 9 9 1, .st1 4 4 [8, 9] .out (.imm 0)] }

/-- meta/streams_arm_64.h:8735-8847. -/
def col5x6 : Prog :=
  { init := [.sub .stride 4, .movi 8, .movi 9, .movi 10, .movi 11, .movi 12, .subs .count 6]
    skip := true
    body := [.subs .count 8, .ldLane 4 0 [0] .inp (.imm 4), .ldLane 1 0 [4] .inp (.reg .stride),
    .ldLane 4 0 [1] .inp (.imm 4), .ldLane 1 1 [4] .inp (.reg .stride), .ldLane 4 0 [2] .inp (.imm 4),
    .ldLane 1 2 [4] .inp (.reg .stride), .ldLane 4 0 [3] .inp (.imm 4), .ldLane 1 3 [4] .inp (.reg .stride),
    .ldLane 4 1 [0] .inp (.imm 4), .ldLane 1 4 [4] .inp (.reg .stride), .ldLane 4 1 [1] .inp (.imm 4),
    .ldLane 1 5 [4] .inp (.reg .stride), .ldLane 4 1 [2] .inp (.imm 4), .ldLane 1 6 [4] .inp (.reg .stride),
    .ldLane 4 1 [3] .inp (.imm 4), .ldLane 1 7 [4] .inp (.reg .stride), .op2 .trn1h 5 0 2, .op2 .trn2h 7 0 2,
    .op2 .trn1h 6 1 3, .op2 .trn2h 13 1 3, .op2 .trn1b 0 5 6, .op2 .trn2b 1 5 6, .op2 .trn1b 2 7 13,
    .op2 .trn2b 3 7 13, .op2 .uaddw 8 8 0, .op2 .uaddw 9 9 1, .op2 .uaddw 10 10 2, .op2 .uaddw 11 11 3,
    .op2 .uaddw 12 12 4, .st1 4 2 [0, 1, 2, 3] .out (.imm 32), .st1 4 2 [4] .out (.imm 8)]
    cond := .ne
    tail := [.movi 0, .movi 1, .movi 2, .movi 3, .movi 4, .ldLane 4 0 [0] .inp (.imm 4),
    .ldLane 1 0 [4] .inp (.reg .stride), .ldLane 4 0 [1] .inp (.imm 4), .ldLane 1 1 [4] .inp (.reg .stride),
    .ldLane 4 0 [2] .inp (.imm 4), .ldLane 1 2 [4] .inp (.reg .stride), .ldLane 4 0 [3] .inp (.imm 4),
    .ldLane 1 3 [4] .inp (.reg .stride), .ldLane 4 1 [0] .inp (.imm 4), .ldLane 1 4 [4] .inp (.reg .stride),
    .ldLane 4 1 [1] .inp (.imm 4), .ldLane 1 5 [4] .inp (.reg .stride), .op2 .trn1h 5 0 2, .op2 .trn2h 7 0 2,
    .op2 .trn1h 6 1 3, .op2 .trn2h 13 1 3, .op2 .trn1b 0 5 6, .op2 .trn2b 1 5 6, .op2 .trn1b 2 7 13,
    .op2 .trn2b 3 7 13, .op2 .uaddw 8 8 0, .op2 .uaddw 9 9 1, .op2 .uaddw 10 10 2, .op2 .uaddw 11 11 3,
    .op2 .uaddw 12 12 4, .st1 4 2 [0, 1, 2, 3] .out (.imm 32), .st1 4 2 [4] .out (.imm 8), .ins 0 .mulSum,
    .dupW 1 .addSum, .op1 .uaddlp 8 8, .op1 .uaddlp 9 9, .op1 .uaddlp 10 10, .op1 .uaddlp 11 11,
    .op1 .uaddlp 12 12, .op2 .addp 8 8 9, .op2 .addp 10 10 11, .op2 .addp 12 12 12, .op2 .addp 8 8 10,
    .op2 .addp 9 12 12, .mulLane 8 8 0 0, .mulLane 9 9 0 0, .op2 .add 8 8 1, .op2 .add 9 9 1,
    .st1 4 4 [8, 9] .out (.imm 0)] }

/-- meta/streams_arm_64.h:8863-8977. -/
def col5x7 : Prog :=
  { init := [.sub .stride 4, .movi 8, .movi 9, .movi 10, .movi 11, .movi 12, .subs .count 7]
    skip := true
    body := [.subs .count 8, .ldLane 4 0 [0] .inp (.imm 4), .ldLane 1 0 [4] .inp (.reg .stride),
    .ldLane 4 0 [1] .inp (.imm 4), .ldLane 1 1 [4] .inp (.reg .stride), .ldLane 4 0 [2] .inp (.imm 4),
    .ldLane 1 2 [4] .inp (.reg .stride), .ldLane 4 0 [3] .inp (.imm 4), .ldLane 1 3 [4] .inp (.reg .stride),
    .ldLane 4 1 [0] .inp (.imm 4), .ldLane 1 4 [4] .inp (.reg .stride), .ldLane 4 1 [1] .inp (.imm 4),
    .ldLane 1 5 [4] .inp (.reg .stride), .ldLane 4 1 [2] .inp (.imm 4), .ldLane 1 6 [4] .inp (.reg .stride),
    .ldLane 4 1 [3] .inp (.imm 4), .ldLane 1 7 [4] .inp (.reg .stride), .op2 .trn1h 5 0 2, .op2 .trn2h 7 0 2,
    .op2 .trn1h 6 1 3, .op2 .trn2h 13 1 3, .op2 .trn1b 0 5 6, .op2 .trn2b 1 5 6, .op2 .trn1b 2 7 13,
    .op2 .trn2b 3 7 13, .op2 .uaddw 8 8 0, .op2 .uaddw 9 9 1, .op2 .uaddw 10 10 2, .op2 .uaddw 11 11 3,
    .op2 .uaddw 12 12 4, .st1 4 2 [0, 1, 2, 3] .out (.imm 32), .st1 4 2 [4] .out (.imm 8)]
    cond := .ne
    tail := [.movi 0, .movi 1, .movi 2, .movi 3, .movi 4, .ldLane 4 0 [0] .inp (.imm 4),
    .ldLane 1 0 [4] .inp (.reg .stride), .ldLane 4 0 [1] .inp (.imm 4), .ldLane 1 1 [4] .inp (.reg .stride),
    .ldLane 4 0 [2] .inp (.imm 4), .ldLane 1 2 [4] .inp (.reg .stride), .ldLane 4 0 [3] .inp (.imm 4),
    .ldLane 1 3 [4] .inp (.reg .stride), .ldLane 4 1 [0] .inp (.imm 4), .ldLane 1 4 [4] .inp (.reg .stride),
    .ldLane 4 1 [1] .inp (.imm 4), .ldLane 1 5 [4] .inp (.reg .stride), .ldLane 4 1 [2] .inp (.imm 4),
    .ldLane 1 6 [4] .inp (.reg .stride), .op2 .trn1h 5 0 2, .op2 .trn2h 7 0 2, .op2 .trn1h 6 1 3,
    .op2 .trn2h 13 1 3, .op2 .trn1b 0 5 6, .op2 .trn2b 1 5 6, .op2 .trn1b 2 7 13, .op2 .trn2b 3 7 13,
    .op2 .uaddw 8 8 0, .op2 .uaddw 9 9 1, .op2 .uaddw 10 10 2, .op2 .uaddw 11 11 3, .op2 .uaddw 12 12 4,
    .st1 4 2 [0, 1, 2, 3] .out (.imm 32), .st1 4 2 [4] .out (.imm 8), .ins 0 .mulSum, .dupW 1 .addSum,
    .op1 .uaddlp 8 8, .op1 .uaddlp 9 9, .op1 .uaddlp 10 10, .op1 .uaddlp 11 11, .op1 .uaddlp 12 12,
    .op2 .addp 8 8 9, .op2 .addp 10 10 11, .op2 .addp 12 12 12, .op2 .addp 8 8 10, .op2 .addp 9 12 12,
    .mulLane 8 8 0 0, .mulLane 9 9 0 0, .op2 .add 8 8 1, .op2 .add 9 9 1, .st1 4 4 [8, 9] .out (.imm 0)] }

/-- meta/streams_arm_64.h:8993-9069. -/
def col6x0 : Prog :=
  { init := [.sub .stride 4, .movi 8, .movi 9, .movi 10, .movi 11, .movi 12, .movi 13]
    skip := false
    body := [.subs .count 8, .ldLane 4 0 [0] .inp (.imm 4), .ldLane 2 0 [4] .inp (.reg .stride),
    .ldLane 4 0 [1] .inp (.imm 4), .ldLane 2 1 [4] .inp (.reg .stride), .ldLane 4 0 [2] .inp (.imm 4),
    .ldLane 2 2 [4] .inp (.reg .stride), .ldLane 4 0 [3] .inp (.imm 4), .ldLane 2 3 [4] .inp (.reg .stride),
    .ldLane 4 1 [0] .inp (.imm 4), .ldLane 2 0 [5] .inp (.reg .stride), .ldLane 4 1 [1] .inp (.imm 4),
    .ldLane 2 1 [5] .inp (.reg .stride), .ldLane 4 1 [2] .inp (.imm 4), .ldLane 2 2 [5] .inp (.reg .stride),
    .ldLane 4 1 [3] .inp (.imm 4), .ldLane 2 3 [5] .inp (.reg .stride), .op2 .trn1h 6 0 2, .op2 .trn2h 14 0 2,
    .op2 .trn1h 7 1 3, .op2 .trn2h 15 1 3, .op2 .uzp1b 16 4 5, .op2 .uzp2b 17 4 5, .op2 .trn1b 0 6 7,
    .op2 .trn2b 1 6 7, .op2 .trn1b 2 14 15, .op2 .trn2b 3 14 15, .op2 .uaddw 8 8 0, .op2 .uaddw 9 9 1,
    .op2 .uaddw 10 10 2, .op2 .uaddw 11 11 3, .op2 .uaddw 12 12 16, .op2 .uaddw 13 13 17,
    .st1 4 2 [0, 1, 2, 3] .out (.imm 32), .st1 4 2 [16, 17] .out (.imm 16)]
    cond := .ne
    tail := [.ins 0 .mulSum, .dupW 1 .addSum, .op1 .uaddlp 8 8, .op1 .uaddlp 9 9, .op1 .uaddlp 10 10,
    .op1 .uaddlp 11 11, .op1 .uaddlp 12 12, .op1 .uaddlp 13 13, .op2 .addp 8 8 9, .op2 .addp 10 10 11,
    .op2 .addp 12 12 13, .op2 .addp 8 8 10, .op2 .addp 9 12 12, .mulLane 8 8 0 0, .mulLane 9 9 0 0,
    .op2 .add 8 8 1, .op2 .add 9 9 1, .st1 4 4 [8, 9] .out (.imm 0)] }

/-- meta/streams_arm_64.h:9085-9196. -/
def col6x1 : Prog :=
  { init := [.sub .stride 4, .movi 8, .movi 9, .movi 10, .movi 11, .movi 12, .movi 13, .subs .count 1]
    skip := true
    body := [.subs .count 8, .ldLane 4 0 [0] .inp (.imm 4), .ldLane 2 0 [4] .inp (.reg .stride),
    .ldLane 4 0 [1] .inp (.imm 4), .ldLane 2 1 [4] .inp (.reg .stride), .ldLane 4 0 [2] .inp (.imm 4),
    .ldLane 2 2 [4] .inp (.reg .stride), .ldLane 4 0 [3] .inp (.imm 4), .ldLane 2 3 [4] .inp (.reg .stride),
    .ldLane 4 1 [0] .inp (.imm 4), .ldLane 2 0 [5] .inp (.reg .stride), .ldLane 4 1 [1] .inp (.imm 4),
    .ldLane 2 1 [5] .inp (.reg .stride), .ldLane 4 1 [2] .inp (.imm 4), .ldLane 2 2 [5] .inp (.reg .stride),
    .ldLane 4 1 [3] .inp (.imm 4), .ldLane 2 3 [5] .inp (.reg .stride), .op2 .trn1h 6 0 2, .op2 .trn2h 14 0 2,
    .op2 .trn1h 7 1 3, .op2 .trn2h 15 1 3, .op2 .uzp1b 16 4 5, .op2 .uzp2b 17 4 5, .op2 .trn1b 0 6 7,
    .op2 .trn2b 1 6 7, .op2 .trn1b 2 14 15, .op2 .trn2b 3 14 15, .op2 .uaddw 8 8 0, .op2 .uaddw 9 9 1,
    .op2 .uaddw 10 10 2, .op2 .uaddw 11 11 3, .op2 .uaddw 12 12 16, .op2 .uaddw 13 13 17,
    .st1 4 2 [0, 1, 2, 3] .out (.imm 32), .st1 4 2 [16, 17] .out (.imm 16)]
    cond := .ne
    tail := [.movi 0, .movi 1, .movi 2, .movi 3, .movi 4, .movi 5, .ldLane 4 0 [0] .inp (.imm 4),
    .ldLane 2 0 [4] .inp (.reg .stride), .op2 .trn1h 6 0 2, .op2 .trn2h 14 0 2, .op2 .trn1h 7 1 3,
    .op2 .trn2h 15 1 3, .op2 .uzp1b 16 4 5, .op2 .uzp2b 17 4 5, .op2 .trn1b 0 6 7, .op2 .trn2b 1 6 7,
    .op2 .trn1b 2 14 15, .op2 .trn2b 3 14 15, .op2 .uaddw 8 8 0, .op2 .uaddw 9 9 1, .op2 .uaddw 10 10 2,
    .op2 .uaddw 11 11 3, .op2 .uaddw 12 12 16, .op2 .uaddw 13 13 17, .st1 4 2 [0, 1, 2, 3] .out (.imm 32),
    .st1 4 2 [16, 17] .out (.imm 16), .ins 0 .mulSum, .dupW 1 .addSum, .op1 .uaddlp 8 8, .op1 .uaddlp 9 9,
    .op1 .uaddlp 10 10, .op1 .uaddlp 11 11, .op1 .uaddlp 12 12, .op1 .uaddlp 13 13, .op2 .addp 8 8 9,
    .op2 .addp 10 10 11, .op2 .addp 12 12 13, .op2 .addp 8 8 10, .op2 .addp 9 12 12, .mulLane 8 8 0 0,
    .mulLane 9 9 0 0, .op2 .add 8 8 1, .op2 .add 9 9 1, .st1 4 4 [8, 9] .out (.imm 0)] }

/-- meta/streams_arm_64.h:9212-9325. -/
def col6x2 : Prog :=
  { init := [.sub .stride 4, .movi 8, .movi 9, .movi 10, .movi 11, .movi 12, .movi 13, .subs .count 2]
    skip := true
    body := [.subs .count 8, .ldLane 4 0 [0] .inp (.imm 4), .ldLane 2 0 [4] .inp (.reg .stride),
    .ldLane 4 0 [1] .inp (.imm 4), .ldLane 2 1 [4] .inp (.reg .stride), .ldLane 4 0 [2] .inp (.imm 4),
    .ldLane 2 2 [4] .inp (.reg .stride), .ldLane 4 0 [3] .inp (.imm 4), .ldLane 2 3 [4] .inp (.reg .stride),
    .ldLane 4 1 [0] .inp (.imm 4), .ldLane 2 0 [5] .inp (.reg .stride), .ldLane 4 1 [1] .inp (.imm 4),
    .ldLane 2 1 [5] .inp (.reg .stride), .ldLane 4 1 [2] .inp (.imm 4), .ldLane 2 2 [5] .inp (.reg .stride),
    .ldLane 4 1 [3] .inp (.imm 4), .ldLane 2 3 [5] .inp (.reg .stride), .op2 .trn1h 6 0 2, .op2 .trn2h 14 0 2,
    .op2 .trn1h 7 1 3, .op2 .trn2h 15 1 3, .op2 .uzp1b 16 4 5, .op2 .uzp2b 17 4 5, .op2 .trn1b 0 6 7,
    .op2 .trn2b 1 6 7, .op2 .trn1b 2 14 15, .op2 .trn2b 3 14 15, .op2 .uaddw 8 8 0, .op2 .uaddw 9 9 1,
    .op2 .uaddw 10 10 2, .op2 .uaddw 11 11 3, .op2 .uaddw 12 12 16, .op2 .uaddw 13 13 17,
    .st1 4 2 [0, 1, 2, 3] .out (.imm 32), .st1 4 2 [16, 17] .out (.imm 16)]
    cond := .ne
    tail := [.movi 0, .movi 1, .movi 2, .movi 3, .movi 4, .movi 5, .ldLane 4 0 [0] .inp (.imm 4),
    .ldLane 2 0 [4] .inp (.reg .stride), .ldLane 4 0 [1] .inp (.imm 4), .ldLane 2 1 [4] .inp (.reg .stride),
    .op2 .trn1h 6 0 2, .op2 .trn2h 14 0 2, .op2 .trn1h 7 1 3, .op2 .trn2h 15 1 3, .op2 .uzp1b 16 4 5,
    .op2 .uzp2b 17 4 5, .op2 .trn1b 0 6 7, .op2 .trn2b 1 6 7, .op2 .trn1b 2 14 15, .op2 .trn2b 3 14 15,
    .op2 .uaddw 8 8 0, .op2 .uaddw 9 9 1, .op2 .uaddw 10 10 2, .op2 .uaddw 11 11 3, .op2 .uaddw 12 12 16,
    .op2 .uaddw 13 13 17, .st1 4 2 [0, 1, 2, 3] .out (.imm 32), .st1 4 2 [16, 17] .out (.imm 16),
    .ins 0 .mulSum, .dupW 1 .addSum, .op1 .uaddlp 8 8, .op1 .uaddlp 9 9, .op1 .uaddlp 10 10,
    .op1 .uaddlp 11 11, .op1 .uaddlp 12 12, .op1 .uaddlp 13 13, .op2 .addp 8 8 9, .op2 .addp 10 10 11,
    .op2 .addp 12 12 13, .op2 .addp 8 8 10, .op2 .addp 9 12 12, .mulLane 8 8 0 0, .mulLane 9 9 0 0,
    .op2 .add 8 8 1, .op2 .add 9 9 1, .st1 4 4 [8, 9] .out (.imm 0)] }

/-- meta/streams_arm_64.h:9341-9456. -/
def col6x3 : Prog :=
  { init := [.sub .stride 4, .movi 8, .movi 9, .movi 10, .movi 11, .movi 12, .movi 13, .subs .count 3]
    skip := true
    body := [.subs .count 8, .ldLane 4 0 [0] .inp (.imm 4), .ldLane 2 0 [4] .inp (.reg .stride),
    .ldLane 4 0 [1] .inp (.imm 4), .ldLane 2 1 [4] .inp (.reg .stride), .ldLane 4 0 [2] .inp (.imm 4),
    .ldLane 2 2 [4] .inp (.reg .stride), .ldLane 4 0 [3] .inp (.imm 4), .ldLane 2 3 [4] .inp (.reg .stride),
    .ldLane 4 1 [0] .inp (.imm 4), .ldLane 2 0 [5] .inp (.reg .stride), .ldLane 4 1 [1] .inp (.imm 4),
    .ldLane 2 1 [5] .inp (.reg .stride), .ldLane 4 1 [2] .inp (.imm 4), .ldLane 2 2 [5] .inp (.reg .stride),
    .ldLane 4 1 [3] .inp (.imm 4), .ldLane 2 3 [5] .inp (.reg .stride), .op2 .trn1h 6 0 2, .op2 .trn2h 14 0 2,
    .op2 .trn1h 7 1 3, .op2 .trn2h 15 1 3, .op2 .uzp1b 16 4 5, .op2 .uzp2b 17 4 5, .op2 .trn1b 0 6 7,
    .op2 .trn2b 1 6 7, .op2 .trn1b 2 14 15, .op2 .trn2b 3 14 15, .op2 .uaddw 8 8 0, .op2 .uaddw 9 9 1,
    .op2 .uaddw 10 10 2, .op2 .uaddw 11 11 3, .op2 .uaddw 12 12 16, .op2 .uaddw 13 13 17,
    .st1 4 2 [0, 1, 2, 3] .out (.imm 32), .st1 4 2 [16, 17] .out (.imm 16)]
    cond := .ne
    tail := [.movi 0, .movi 1, .movi 2, .movi 3, .movi 4, .movi 5, .ldLane 4 0 [0] .inp (.imm 4),
    .ldLane 2 0 [4] .inp (.reg .stride), .ldLane 4 0 [1] .inp (.imm 4), .ldLane 2 1 [4] .inp (.reg .stride),
    .ldLane 4 0 [2] .inp (.imm 4), .ldLane 2 2 [4] .inp (.reg .stride), .op2 .trn1h 6 0 2, .op2 .trn2h 14 0 2,
    .op2 .trn1h 7 1 3, .op2 .trn2h 15 1 3, .op2 .uzp1b 16 4 5, .op2 .uzp2b 17 4 5, .op2 .trn1b 0 6 7,
    .op2 .trn2b 1 6 7, .op2 .trn1b 2 14 15, .op2 .trn2b 3 14 15, .op2 .uaddw 8 8 0, .op2 .uaddw 9 9 1,
    .op2 .uaddw 10 10 2, .op2 .uaddw 11 11 3, .op2 .uaddw 12 12 16, .op2 .uaddw 13 13 17,
    .st1 4 2 [0, 1, 2, 3] .out (.imm 32), .st1 4 2 [16, 17] .out (.imm 16), .ins 0 .mulSum, .dupW 1 .addSum,
    .op1 .uaddlp 8 8, .op1 .uaddlp 9 9, .op1 .uaddlp 10 10, .op1 .uaddlp 11 11, .op1 .uaddlp 12 12,
    .op1 .uaddlp 13 13, .op2 .addp 8 8 9, .op2 .addp 10 10 11, .op2 .addp 12 12 13, .op2 .addp 8 8 10,
    .op2 .addp 9 12 12, .mulLane 8 8 0 0, .mulLane 9 9 0 0, .op2 .add 8 8 1, .op2 .add 9 9 1,
    .st1 4 4 [8, 9] .out (.imm 0)] }

/-- meta/streams_arm_64.h:9472-9589. -/
def col6x4 : Prog :=
  { init := [.sub .stride 4, .movi 8, .movi 9, .movi 10, .movi 11, .movi 12, .movi 13, .subs .count 4]
    skip := true
    body := [.subs .count 8, .ldLane 4 0 [0] .inp (.imm 4), .ldLane 2 0 [4] .inp (.reg .stride),
    .ldLane 4 0 [1] .inp (.imm 4), .ldLane 2 1 [4] .inp (.reg .stride), .ldLane 4 0 [2] .inp (.imm 4),
    .ldLane 2 2 [4] .inp (.reg .stride), .ldLane 4 0 [3] .inp (.imm 4), .ldLane 2 3 [4] .inp (.reg .stride),
    .ldLane 4 1 [0] .inp (.imm 4), .ldLane 2 0 [5] .inp (.reg .stride), .ldLane 4 1 [1] .inp (.imm 4),
    .ldLane 2 1 [5] .inp (.reg .stride), .ldLane 4 1 [2] .inp (.imm 4), .ldLane 2 2 [5] .inp (.reg .stride),
    .ldLane 4 1 [3] .inp (.imm 4), .ldLane 2 3 [5] .inp (.reg .stride), .op2 .trn1h 6 0 2, .op2 .trn2h 14 0 2,
    .op2 .trn1h 7 1 3, .op2 .trn2h 15 1 3, .op2 .uzp1b 16 4 5, .op2 .uzp2b 17 4 5, .op2 .trn1b 0 6 7,
    .op2 .trn2b 1 6 7, .op2 .trn1b 2 14 15, .op2 .trn2b 3 14 15, .op2 .uaddw 8 8 0, .op2 .uaddw 9 9 1,
    .op2 .uaddw 10 10 2, .op2 .uaddw 11 11 3, .op2 .uaddw 12 12 16, .op2 .uaddw 13 13 17,
    .st1 4 2 [0, 1, 2, 3] .out (.imm 32), .st1 4 2 [16, 17] .out (.imm 16)]
    cond := .ne
    tail := [.movi 0, .movi 1, .movi 2, .movi 3, .movi 4, .movi 5, .ldLane 4 0 [0] .inp (.imm 4),
    .ldLane 2 0 [4] .inp (.reg .stride), .ldLane 4 0 [1] .inp (.imm 4), .ldLane 2 1 [4] .inp (.reg .stride),
    .ldLane 4 0 [2] .inp (.imm 4), .ldLane 2 2 [4] .inp (.reg .stride), .ldLane 4 0 [3] .inp (.imm 4),
    .ldLane 2 3 [4] .inp (.reg .stride), .op2 .trn1h 6 0 2, .op2 .trn2h 14 0 2, .op2 .trn1h 7 1 3,
    .op2 .trn2h 15 1 3, .op2 .uzp1b 16 4 5, .op2 .uzp2b 17 4 5, .op2 .trn1b 0 6 7, .op2 .trn2b 1 6 7,
    .op2 .trn1b 2 14 15, .op2 .trn2b 3 14 15, .op2 .uaddw 8 8 0, .op2 .uaddw 9 9 1, .op2 .uaddw 10 10 2,
    .op2 .uaddw 11 11 3, .op2 .uaddw 12 12 16, .op2 .uaddw 13 13 17, .st1 4 2 [0, 1, 2, 3] .out (.imm 32),
    .st1 4 2 [16, 17] .out (.imm 16), .ins 0 .mulSum, .dupW 1 .addSum, .op1 .uaddlp 8 8, .op1 .uaddlp 9 9,
    .op1 .uaddlp 10 10, .op1 .uaddlp 11 11, .op1 .uaddlp 12 12, .op1 .uaddlp 13 13, .op2 .addp 8 8 9,
    .op2 .addp 10 10 11, .op2 .addp 12 12 13, .op2 .addp 8 8 10, .op2 .addp 9 12 12, .mulLane 8 8 0 0,
    .mulLane 9 9 0 0, .op2 .add 8 8 1, .op2 .add 9 9 1, .st1 4 4 [8, 9] .out (.imm 0)] }

/-- meta/streams_arm_64.h:9605-9724. -/
def col6x5 : Prog :=
  { init := [.sub .stride 4, .movi 8, .movi 9, .movi 10, .movi 11, .movi 12, .movi 13, .subs .count 5]
    skip := true
    body := [.subs .count 8, .ldLane 4 0 [0] .inp (.imm 4), .ldLane 2 0 [4] .inp (.reg .stride),
    .ldLane 4 0 [1] .inp (.imm 4), .ldLane 2 1 [4] .inp (.reg .stride), .ldLane 4 0 [2] .inp (.imm 4),
    .ldLane 2 2 [4] .inp (.reg .stride), .ldLane 4 0 [3] .inp (.imm 4), .ldLane 2 3 [4] .inp (.reg .stride),
    .ldLane 4 1 [0] .inp (.imm 4), .ldLane 2 0 [5] .inp (.reg .stride), .ldLane 4 1 [1] .inp (.imm 4),
    .ldLane 2 1 [5] .inp (.reg .stride), .ldLane 4 1 [2] .inp (.imm 4), .ldLane 2 2 [5] .inp (.reg .stride),
    .ldLane 4 1 [3] .inp (.imm 4), .ldLane 2 3 [5] .inp (.reg .stride), .op2 .trn1h 6 0 2, .op2 .trn2h 14 0 2,
    .op2 .trn1h 7 1 3, .op2 .trn2h 15 1 3, .op2 .uzp1b 16 4 5, .op2 .uzp2b 17 4 5, .op2 .trn1b 0 6 7,
    .op2 .trn2b 1 6 7, .op2 .trn1b 2 14 15, .op2 .trn2b 3 14 15, .op2 .uaddw 8 8 0, .op2 .uaddw 9 9 1,
    .op2 .uaddw 10 10 2, .op2 .uaddw 11 11 3, .op2 .uaddw 12 12 16, .op2 .uaddw 13 13 17,
    .st1 4 2 [0, 1, 2, 3] .out (.imm 32), .st1 4 2 [16, 17] .out (.imm 16)]
    cond := .ne
    tail := [.movi 0, .movi 1, .movi 2, .movi 3, .movi 4, .movi 5, .ldLane 4 0 [0] .inp (.imm 4),
    .ldLane 2 0 [4] .inp (.reg .stride), .ldLane 4 0 [1] .inp (.imm 4), .ldLane 2 1 [4] .inp (.reg .stride),
    .ldLane 4 0 [2] .inp (.imm 4), .ldLane 2 2 [4] .inp (.reg .stride), .ldLane 4 0 [3] .inp (.imm 4),
    .ldLane 2 3 [4] .inp (.reg .stride), .ldLane 4 1 [0] .inp (.imm 4), .ldLane 2 0 [5] .inp (.reg .stride),
    .op2 .trn1h 6 0 2, .op2 .trn2h 14 0 2, .op2 .trn1h 7 1 3, .op2 .trn2h 15 1 3, .op2 .uzp1b 16 4 5,
    .op2 .uzp2b 17 4 5, .op2 .trn1b 0 6 7, .op2 .trn2b 1 6 7, .op2 .trn1b 2 14 15, .op2 .trn2b 3 14 15,
    .op2 .uaddw 8 8 0, .op2 .uaddw 9 9 1, .op2 .uaddw 10 10 2, .op2 .uaddw 11 11 3, .op2 .uaddw 12 12 16,
    .op2 .uaddw 13 13 17, .st1 4 2 [0, 1, 2, 3] .out (.imm 32), .st1 4 2 [16, 17] .out (.imm 16),
    .ins 0 .mulSum, .dupW 1 .addSum, .op1 .uaddlp 8 8, .op1 .uaddlp 9 9, .op1 .uaddlp 10 10,
    .op1 .uaddlp 11 11, .op1 .uaddlp 12 12, .op1 .uaddlp 13 13, .op2 .addp 8 8 9, .op2 .addp 10 10 11,
    .op2 .addp 12 12 13, .op2 .addp 8 8 10, .op2 .addp 9 12 12, .mulLane 8 8 0 0, .mulLane 9 9 0 0,
    .op2 .add 8 8 1, .op2 .add 9 9 1, .st1 4 4 [8, 9] .out (.imm 0)] }

/-- meta/streams_arm_64.h:9740-9861. -/
def col6x6 : Prog :=
  { init := [.sub .stride 4, .movi 8, .movi 9, .movi 10, .movi 11, .movi 12, .movi 13, .subs .count 6]
    skip := true
    body := [.subs .count 8, .ldLane 4 0 [0] .inp (.imm 4), .ldLane 2 0 [4] .inp (.reg .stride),
    .ldLane 4 0 [1] .inp (.imm 4), .ldLane 2 1 [4] .inp (.reg .stride), .ldLane 4 0 [2] .inp (.imm 4),
    .ldLane 2 2 [4] .inp (.reg .stride), .ldLane 4 0 [3] .inp (.imm 4), .ldLane 2 3 [4] .inp (.reg .stride),
    .ldLane 4 1 [0] .inp (.imm 4), .ldLane 2 0 [5] .inp (.reg .stride), .ldLane 4 1 [1] .inp (.imm 4),
    .ldLane 2 1 [5] .inp (.reg .stride), .ldLane 4 1 [2] .inp (.imm 4), .ldLane 2 2 [5] .inp (.reg .stride),
    .ldLane 4 1 [3] .inp (.imm 4), .ldLane 2 3 [5] .inp (.reg .stride), .op2 .trn1h 6 0 2, .op2 .trn2h 14 0 2,
    .op2 .trn1h 7 1 3, .op2 .trn2h 15 1 3, .op2 .uzp1b 16 4 5, .op2 .uzp2b 17 4 5, .op2 .trn1b 0 6 7,
    .op2 .trn2b 1 6 7, .op2 .trn1b 2 14 15, .op2 .trn2b 3 14 15, .op2 .uaddw 8 8 0, .op2 .uaddw 9 9 1,
    .op2 .uaddw 10 10 2, .op2 .uaddw 11 11 3, .op2 .uaddw 12 12 16, .op2 .uaddw 13 13 17,
    .st1 4 2 [0, 1, 2, 3] .out (.imm 32), .st1 4 2 [16, 17] .out (.imm 16)]
    cond := .ne
    tail := [.movi 0, .movi 1, .movi 2, .movi 3, .movi 4, .movi 5, .ldLane 4 0 [0] .inp (.imm 4),
    .ldLane 2 0 [4] .inp (.reg .stride), .ldLane 4 0 [1] .inp (.imm 4), .ldLane 2 1 [4] .inp (.reg .stride),
    .ldLane 4 0 [2] .inp (.imm 4), .ldLane 2 2 [4] .inp (.reg .stride), .ldLane 4 0 [3] .inp (.imm 4),
    .ldLane 2 3 [4] .inp (.reg .stride), .ldLane 4 1 [0] .inp (.imm 4), .ldLane 2 0 [5] .inp (.reg .stride),
    .ldLane 4 1 [1] .inp (.imm 4), .ldLane 2 1 [5] .inp (.reg .stride), .op2 .trn1h 6 0 2, .op2 .trn2h 14 0 2,
    .op2 .trn1h 7 1 3, .op2 .trn2h 15 1 3, .op2 .uzp1b 16 4 5, .op2 .uzp2b 17 4 5, .op2 .trn1b 0 6 7,
    .op2 .trn2b 1 6 7, .op2 .trn1b 2 14 15, .op2 .trn2b 3 14 15, .op2 .uaddw 8 8 0, .op2 .uaddw 9 9 1,
    .op2 .uaddw 10 10 2, .op2 .uaddw 11 11 3, .op2 .uaddw 12 12 16, .op2 .uaddw 13 13 17,
    .st1 4 2 [0, 1, 2, 3] .out (.imm 32), .st1 4 2 [16, 17] .out (.imm 16), .ins 0 .mulSum, .dupW 1 .addSum,
    .op1 .uaddlp 8 8, .op1 .uaddlp 9 9, .op1 .uaddlp 10 10, .op1 .uaddlp 11 11, .op1 .uaddlp 12 12,
    .op1 .uaddlp 13 13, .op2 .addp 8 8 9, .op2 .addp 10 10 11, .op2 .addp 12 12 13, .op2 .addp 8 8 10,
    .op2 .addp 9 12 12, .mulLane 8 8 0 0, .mulLane 9 9 0 0, .op2 .add 8 8 1, .op2 .add 9 9 1,
    .st1 4 4 [8, 9] .out (.imm 0)] }

/-- meta/streams_arm_64.h:9877-10000. -/
def col6x7 : Prog :=
  { init := [.sub .stride 4, .movi 8, .movi 9, .movi 10, .movi 11, .movi 12, .movi 13, .subs .count 7]
    skip := true
    body := [.subs .count 8, .ldLane 4 0 [0] .inp (.imm 4), .ldLane 2 0 [4] .inp (.reg .stride),
    .ldLane 4 0 [1] .inp (.imm 4), .ldLane 2 1 [4] .inp (.reg .stride), .ldLane 4 0 [2] .inp (.imm 4),
    .ldLane 2 2 [4] .inp (.reg .stride), .ldLane 4 0 [3] .inp (.imm 4), .ldLane 2 3 [4] .inp (.reg .stride),
    .ldLane 4 1 [0] .inp (.imm 4), .ldLane 2 0 [5] .inp (.reg .stride), .ldLane 4 1 [1] .inp (.imm 4),
    .ldLane 2 1 [5] .inp (.reg .stride), .ldLane 4 1 [2] .inp (.imm 4), .ldLane 2 2 [5] .inp (.reg .stride),
    .ldLane 4 1 [3] .inp (.imm 4), .ldLane 2 3 [5] .inp (.reg .stride), .op2 .trn1h 6 0 2, .op2 .trn2h 14 0 2,
    .op2 .trn1h 7 1 3, .op2 .trn2h 15 1 3, .op2 .uzp1b 16 4 5, .op2 .uzp2b 17 4 5, .op2 .trn1b 0 6 7,
    .op2 .trn2b 1 6 7, .op2 .trn1b 2 14 15, .op2 .trn2b 3 14 15, .op2 .uaddw 8 8 0, .op2 .uaddw 9 9 1,
    .op2 .uaddw 10 10 2, .op2 .uaddw 11 11 3, .op2 .uaddw 12 12 16, .op2 .uaddw 13 13 17,
    .st1 4 2 [0, 1, 2, 3] .out (.imm 32), .st1 4 2 [16, 17] .out (.imm 16)]
    cond := .ne
    tail := [.movi 0, .movi 1, .movi 2, .movi 3, .movi 4, .movi 5, .ldLane 4 0 [0] .inp (.imm 4),
    .ldLane 2 0 [4] .inp (.reg .stride), .ldLane 4 0 [1] .inp (.imm 4), .ldLane 2 1 [4] .inp (.reg .stride),
    .ldLane 4 0 [2] .inp (.imm 4), .ldLane 2 2 [4] .inp (.reg .stride), .ldLane 4 0 [3] .inp (.imm 4),
    .ldLane 2 3 [4] .inp (.reg .stride), .ldLane 4 1 [0] .inp (.imm 4), .ldLane 2 0 [5] .inp (.reg .stride),
    .ldLane 4 1 [1] .inp (.imm 4), .ldLane 2 1 [5] .inp (.reg .stride), .ldLane 4 1 [2] .inp (.imm 4),
    .ldLane 2 2 [5] .inp (.reg .stride), .op2 .trn1h 6 0 2, .op2 .trn2h 14 0 2, .op2 .trn1h 7 1 3,
    .op2 .trn2h 15 1 3, .op2 .uzp1b 16 4 5, .op2 .uzp2b 17 4 5, .op2 .trn1b 0 6 7, .op2 .trn2b 1 6 7,
    .op2 .trn1b 2 14 15, .op2 .trn2b 3 14 15, .op2 .uaddw 8 8 0, .op2 .uaddw 9 9 1, .op2 .uaddw 10 10 2,
    .op2 .uaddw 11 11 3, .op2 .uaddw 12 12 16, .op2 .uaddw 13 13 17, .st1 4 2 [0, 1, 2, 3] .out (.imm 32),
    .st1 4 2 [16, 17] .out (.imm 16), .ins 0 .mulSum, .dupW 1 .addSum, .op1 .uaddlp 8 8, .op1 .uaddlp 9 9,
    .op1 .uaddlp 10 10, .op1 .uaddlp 11 11, .op1 .uaddlp 12 12, .op1 .uaddlp 13 13, .op2 .addp 8 8 9,
    .op2 .addp 10 10 11, .op2 .addp 12 12 13, .op2 .addp 8 8 10, .op2 .addp 9 12 12, .mulLane 8 8 0 0,
    .mulLane 9 9 0 0, .op2 .add 8 8 1, .op2 .add 9 9 1, .st1 4 4 [8, 9] .out (.imm 0)] }

/-- meta/streams_arm_64.h:10016-10094. -/
def col7x0 : Prog :=
  { init := [.sub .stride 4, .movi 8, .movi 9, .movi 10, .movi 11, .movi 12, .movi 13, .movi 14]
    skip := false
    body := [.subs .count 8, .ldLane 4 0 [0] .inp (.imm 4), .ldLane 1 0 [4, 5, 6] .inp (.reg .stride),
    .ldLane 4 0 [1] .inp (.imm 4), .ldLane 1 1 [4, 5, 6] .inp (.reg .stride), .ldLane 4 0 [2] .inp (.imm 4),
    .ldLane 1 2 [4, 5, 6] .inp (.reg .stride), .ldLane 4 0 [3] .inp (.imm 4),
    .ldLane 1 3 [4, 5, 6] .inp (.reg .stride), .ldLane 4 1 [0] .inp (.imm 4),
    .ldLane 1 4 [4, 5, 6] .inp (.reg .stride), .ldLane 4 1 [1] .inp (.imm 4),
    .ldLane 1 5 [4, 5, 6] .inp (.reg .stride), .ldLane 4 1 [2] .inp (.imm 4),
    .ldLane 1 6 [4, 5, 6] .inp (.reg .stride), .ldLane 4 1 [3] .inp (.imm 4),
    .ldLane 1 7 [4, 5, 6] .inp (.reg .stride), .op2 .trn1h 7 0 2, .op2 .trn2h 16 0 2, .op2 .trn1h 15 1 3,
    .op2 .trn2h 17 1 3, .op2 .trn1b 0 7 15, .op2 .trn2b 1 7 15, .op2 .trn1b 2 16 17, .op2 .trn2b 3 16 17,
    .op2 .uaddw 8 8 0, .op2 .uaddw 9 9 1, .op2 .uaddw 10 10 2, .op2 .uaddw 11 11 3, .op2 .uaddw 12 12 4,
    .op2 .uaddw 13 13 5, .op2 .uaddw 14 14 6, .st1 4 2 [0, 1, 2, 3] .out (.imm 32),
    .st1 4 2 [4, 5, 6] .out (.imm 24)]
    cond := .ne
    tail := [.ins 0 .mulSum, .dupW 1 .addSum, .op1 .uaddlp 8 8, .op1 .uaddlp 9 9, .op1 .uaddlp 10 10,
    .op1 .uaddlp 11 11, .op1 .uaddlp 12 12, .op1 .uaddlp 13 13, .op1 .uaddlp 14 14, .op2 .addp 8 8 9,
    .op2 .addp 10 10 11, .op2 .addp 12 12 13, .op2 .addp 14 14 14, .op2 .addp 8 8 10, .op2 .addp 9 12 14,
    .mulLane 8 8 0 0, .mulLane 9 9 0 0, .op2 .add 8 8 1, .op2 .add 9 9 1, .st1 4 4 [8, 9] .out (.imm 0)] }

/-- meta/streams_arm_64.h:10110-10223. -/
def col7x1 : Prog :=
  { init := [.sub .stride 4, .movi 8, .movi 9, .movi 10, .movi 11, .movi 12, .movi 13, .movi 14, .subs .count 1]
    skip := true
    body := [.subs .count 8, .ldLane 4 0 [0] .inp (.imm 4), .ldLane 1 0 [4, 5, 6] .inp (.reg .stride),
    .ldLane 4 0 [1] .inp (.imm 4), .ldLane 1 1 [4, 5, 6] .inp (.reg .stride), .ldLane 4 0 [2] .inp (.imm 4),
    .ldLane 1 2 [4, 5, 6] .inp (.reg .stride), .ldLane 4 0 [3] .inp (.imm 4),
    .ldLane 1 3 [4, 5, 6] .inp (.reg .stride), .ldLane 4 1 [0] .inp (.imm 4),
    .ldLane 1 4 [4, 5, 6] .inp (.reg .stride), .ldLane 4 1 [1] .inp (.imm 4),
    .ldLane 1 5 [4, 5, 6] .inp (.reg .stride), .ldLane 4 1 [2] .inp (.imm 4),
    .ldLane 1 6 [4, 5, 6] .inp (.reg .stride), .ldLane 4 1 [3] .inp (.imm 4),
    .ldLane 1 7 [4, 5, 6] .inp (.reg .stride), .op2 .trn1h 7 0 2, .op2 .trn2h 16 0 2, .op2 .trn1h 15 1 3,
    .op2 .trn2h 17 1 3, .op2 .trn1b 0 7 15, .op2 .trn2b 1 7 15, .op2 .trn1b 2 16 17, .op2 .trn2b 3 16 17,
    .op2 .uaddw 8 8 0, .op2 .uaddw 9 9 1, .op2 .uaddw 10 10 2, .op2 .uaddw 11 11 3, .op2 .uaddw 12 12 4,
    .op2 .uaddw 13 13 5, .op2 .uaddw 14 14 6, .st1 4 2 [0, 1, 2, 3] .out (.imm 32),
    .st1 4 2 [4, 5, 6] .out (.imm 24)]
    cond := .ne
    tail := [.movi 0, .movi 1, .movi 2, .movi 3, .movi 4, .movi 5, .movi 6, .ldLane 4 0 [0] .inp (.imm 4),
    .ldLane 1 0 [4, 5, 6] .inp (.reg .stride), .op2 .trn1h 7 0 2, .op2 .trn2h 16 0 2, .op2 .trn1h 15 1 3,
    .op2 .trn2h 17 1 3, .op2 .trn1b 0 7 15, .op2 .trn2b 1 7 15, .op2 .trn1b 2 16 17, .op2 .trn2b 3 16 17,
    .op2 .uaddw 8 8 0, .op2 .uaddw 9 9 1, .op2 .uaddw 10 10 2, .op2 .uaddw 11 11 3, .op2 .uaddw 12 12 4,
    .op2 .uaddw 13 13 5, .op2 .uaddw 14 14 6, .st1 4 2 [0, 1, 2, 3] .out (.imm 32),
    .st1 4 2 [4, 5, 6] .out (.imm 24), .ins 0 .mulSum, .dupW 1 .addSum, .op1 .uaddlp 8 8, .op1 .uaddlp 9 9,
    .op1 .uaddlp 10 10, .op1 .uaddlp 11 11, .op1 .uaddlp 12 12, .op1 .uaddlp 13 13, .op1 .uaddlp 14 14,
    .op2 .addp 8 8 9, .op2 .addp 10 10 11, .op2 .addp 12 12 13, .op2 .addp 14 14 14, .op2 .addp 8 8 10,
    .op2 .addp 9 12 14, .mulLane 8 8 0 0, .mulLane 9 9 0 0, .op2 .add 8 8 1, .op2 .add 9 9 1,
    .st1 4 4 [8, 9] .out (.imm 0)] }

/-- meta/streams_arm_64.h:10239-10354. -/
def col7x2 : Prog :=
  { init := [.sub .stride 4, .movi 8, .movi 9, .movi 10, .movi 11, .movi 12, .movi 13, .movi 14, .subs .count 2]
    skip := true
    body := [.subs .count 8, .ldLane 4 0 [0] .inp (.imm 4), .ldLane 1 0 [4, 5, 6] .inp (.reg .stride),
    .ldLane 4 0 [1] .inp (.imm 4), .ldLane 1 1 [4, 5, 6] .inp (.reg .stride), .ldLane 4 0 [2] .inp (.imm 4),
    .ldLane 1 2 [4, 5, 6] .inp (.reg .stride), .ldLane 4 0 [3] .inp (.imm 4),
    .ldLane 1 3 [4, 5, 6] .inp (.reg .stride), .ldLane 4 1 [0] .inp (.imm 4),
    .ldLane 1 4 [4, 5, 6] .inp (.reg .stride), .ldLane 4 1 [1] .inp (.imm 4),
    .ldLane 1 5 [4, 5, 6] .inp (.reg .stride), .ldLane 4 1 [2] .inp (.imm 4),
    .ldLane 1 6 [4, 5, 6] .inp (.reg .stride), .ldLane 4 1 [3] .inp (.imm 4),
    .ldLane 1 7 [4, 5, 6] .inp (.reg .stride), .op2 .trn1h 7 0 2, .op2 .trn2h 16 0 2, .op2 .trn1h 15 1 3,
    .op2 .trn2h 17 1 3, .op2 .trn1b 0 7 15, .op2 .trn2b 1 7 15, .op2 .trn1b 2 16 17, .op2 .trn2b 3 16 17,
    .op2 .uaddw 8 8 0, .op2 .uaddw 9 9 1, .op2 .uaddw 10 10 2, .op2 .uaddw 11 11 3, .op2 .uaddw 12 12 4,
    .op2 .uaddw 13 13 5, .op2 .uaddw 14 14 6, .st1 4 2 [0, 1, 2, 3] .out (.imm 32),
    .st1 4 2 [4, 5, 6] .out (.imm 24)]
    cond := .ne
    tail := [.movi 0, .movi 1, .movi 2, .movi 3, .movi 4, .movi 5, .movi 6, .ldLane 4 0 [0] .inp (.imm 4),
    .ldLane 1 0 [4, 5, 6] .inp (.reg .stride), .ldLane 4 0 [1] .inp (.imm 4),
    .ldLane 1 1 [4, 5, 6] .inp (.reg .stride), .op2 .trn1h 7 0 2, .op2 .trn2h 16 0 2, .op2 .trn1h 15 1 3,
    .op2 .trn2h 17 1 3, .op2 .trn1b 0 7 15, .op2 .trn2b 1 7 15, .op2 .trn1b 2 16 17, .op2 .trn2b 3 16 17,
    .op2 .uaddw 8 8 0, .op2 .uaddw 9 9 1, .op2 .uaddw 10 10 2, .op2 .uaddw 11 11 3, .op2 .uaddw 12 12 4,
    .op2 .uaddw 13 13 5, .op2 .uaddw 14 14 6, .st1 4 2 [0, 1, 2, 3] .out (.imm 32),
    .st1 4 2 [4, 5, 6] .out (.imm 24), .ins 0 .mulSum, .dupW 1 .addSum, .op1 .uaddlp 8 8, .op1 .uaddlp 9 9,
    .op1 .uaddlp 10 10, .op1 .uaddlp 11 11, .op1 .uaddlp 12 12, .op1 .uaddlp 13 13, .op1 .uaddlp 14 14,
    .op2 .addp 8 8 9, .op2 .addp 10 10 11, .op2 .addp 12 12 13, .op2 .addp 14 14 14, .op2 .addp 8 8 10,
    .op2 .addp 9 12 14, .mulLane 8 8 0 0, .mulLane 9 9 0 0, .op2 .add 8 8 1, .op2 .add 9 9 1,
    .st1 4 4 [8, 9] .out (.imm 0)] }

/-- meta/streams_arm_64.h:10370-10487. -/
def col7x3 : Prog :=
  { init := [.sub .stride 4, .movi 8, .movi 9, .movi 10, .movi 11, .movi 12, .movi 13, .movi 14, .subs .count 3]
    skip := true
    body := [.subs .count 8, .ldLane 4 0 [0] .inp (.imm 4), .ldLane 1 0 [4, 5, 6] .inp (.reg .stride),
    .ldLane 4 0 [1] .inp (.imm 4), .ldLane 1 1 [4, 5, 6] .inp (.reg .stride), .ldLane 4 0 [2] .inp (.imm 4),
    .ldLane 1 2 [4, 5, 6] .inp (.reg .stride), .ldLane 4 0 [3] .inp (.imm 4),
    .ldLane 1 3 [4, 5, 6] .inp (.reg .stride), .ldLane 4 1 [0] .inp (.imm 4),
    .ldLane 1 4 [4, 5, 6] .inp (.reg .stride), .ldLane 4 1 [1] .inp (.imm 4),
    .ldLane 1 5 [4, 5, 6] .inp (.reg .stride), .ldLane 4 1 [2] .inp (.imm 4),
    .ldLane 1 6 [4, 5, 6] .inp (.reg .stride), .ldLane 4 1 [3] .inp (.imm 4),
    .ldLane 1 7 [4, 5, 6] .inp (.reg .stride), .op2 .trn1h 7 0 2, .op2 .trn2h 16 0 2, .op2 .trn1h 15 1 3,
    .op2 .trn2h 17 1 3, .op2 .trn1b 0 7 15, .op2 .trn2b 1 7 15, .op2 .trn1b 2 16 17, .op2 .trn2b 3 16 17,
    .op2 .uaddw 8 8 0, .op2 .uaddw 9 9 1, .op2 .uaddw 10 10 2, .op2 .uaddw 11 11 3, .op2 .uaddw 12 12 4,
    .op2 .uaddw 13 13 5, .op2 .uaddw 14 14 6, .st1 4 2 [0, 1, 2, 3] .out (.imm 32),
    .st1 4 2 [4, 5, 6] .out (.imm 24)]
    cond := .ne
    tail := [.movi 0, .movi 1, .movi 2, .movi 3, .movi 4, .movi 5, .movi 6, .ldLane 4 0 [0] .inp (.imm 4),
    .ldLane 1 0 [4, 5, 6] .inp (.reg .stride), .ldLane 4 0 [1] .inp (.imm 4),
    .ldLane 1 1 [4, 5, 6] .inp (.reg .stride), .ldLane 4 0 [2] .inp (.imm 4),
    .ldLane 1 2 [4, 5, 6] .inp (.reg .stride), .op2 .trn1h 7 0 2, .op2 .trn2h 16 0 2, .op2 .trn1h 15 1 3,
    .op2 .trn2h 17 1 3, .op2 .trn1b 0 7 15, .op2 .trn2b 1 7 15, .op2 .trn1b 2 16 17, .op2 .trn2b 3 16 17,
    .op2 .uaddw 8 8 0, .op2 .uaddw 9 9 1, .op2 .uaddw 10 10 2, .op2 .uaddw 11 11 3, .op2 .uaddw 12 12 4,
    .op2 .uaddw 13 13 5, .op2 .uaddw 14 14 6, .st1 4 2 [0, 1, 2, 3] .out (.imm 32),
    .st1 4 2 [4, 5, 6] .out (.imm 24), .ins 0 .mulSum, .dupW 1 .addSum, .op1 .uaddlp 8 8, .op1 .uaddlp 9 9,
    .op1 .uaddlp 10 10, .op1 .uaddlp 11 11, .op1 .uaddlp 12 12, .op1 .uaddlp 13 13, .op1 .uaddlp 14 14,
    .op2 .addp 8 8 9, .op2 .addp 10 10 11, .op2 .addp 12 12 13, .op2 .addp 14 14 14, .op2 .addp 8 8 10,
    .op2 .addp 9 12 14, .mulLane 8 8 0 0, .mulLane 9 9 0 0, .op2 .add 8 8 1, .op2 .add 9 9 1,
    .st1 4 4 [8, 9] .out (.imm 0)] }

/-- meta/streams_arm_64.h:10503-10622. -/
def col7x4 : Prog :=
  { init := [.sub .stride 4, .movi 8, .movi 9, .movi 10, .movi 11, .movi 12, .movi 13, .movi 14, .subs .count 4]
    skip := true
    body := [.subs .count 8, .ldLane 4 0 [0] .inp (.imm 4), .ldLane 1 0 [4, 5, 6] .inp (.reg .stride),
    .ldLane 4 0 [1] .inp (.imm 4), .ldLane 1 1 [4, 5, 6] .inp (.reg .stride), .ldLane 4 0 [2] .inp (.imm 4),
    .ldLane 1 2 [4, 5, 6] .inp (.reg .stride), .ldLane 4 0 [3] .inp (.imm 4),
    .ldLane 1 3 [4, 5, 6] .inp (.reg .stride), .ldLane 4 1 [0] .inp (.imm 4),
    .ldLane 1 4 [4, 5, 6] .inp (.reg .stride), .ldLane 4 1 [1] .inp (.imm 4),
    .ldLane 1 5 [4, 5, 6] .inp (.reg .stride), .ldLane 4 1 [2] .inp (.imm 4),
    .ldLane 1 6 [4, 5, 6] .inp (.reg .stride), .ldLane 4 1 [3] .inp (.imm 4),
    .ldLane 1 7 [4, 5, 6] .inp (.reg .stride), .op2 .trn1h 7 0 2, .op2 .trn2h 16 0 2, .op2 .trn1h 15 1 3,
    .op2 .trn2h 17 1 3, .op2 .trn1b 0 7 15, .op2 .trn2b 1 7 15, .op2 .trn1b 2 16 17, .op2 .trn2b 3 16 17,
    .op2 .uaddw 8 8 0, .op2 .uaddw 9 9 1, .op2 .uaddw 10 10 2, .op2 .uaddw 11 11 3, .op2 .uaddw 12 12 4,
    .op2 .uaddw 13 13 5, .op2 .uaddw 14 14 6, .st1 4 2 [0, 1, 2, 3] .out (.imm 32),
    .st1 4 2 [4, 5, 6] .out (.imm 24)]
    cond := .ne
    tail := [.movi 0, .movi 1, .movi 2, .movi 3, .movi 4, .movi 5, .movi 6, .ldLane 4 0 [0] .inp (.imm 4),
    .ldLane 1 0 [4, 5, 6] .inp (.reg .stride), .ldLane 4 0 [1] .inp (.imm 4),
    .ldLane 1 1 [4, 5, 6] .inp (.reg .stride), .ldLane 4 0 [2] .inp (.imm 4),
    .ldLane 1 2 [4, 5, 6] .inp (.reg .stride), .ldLane 4 0 [3] .inp (.imm 4),
    .ldLane 1 3 [4, 5, 6] .inp (.reg .stride), .op2 .trn1h 7 0 2, .op2 .trn2h 16 0 2, .op2 .trn1h 15 1 3,
    .op2 .trn2h 17 1 3, .op2 .trn1b 0 7 15, .op2 .trn2b 1 7 15, .op2 .trn1b 2 16 17, .op2 .trn2b 3 16 17,
    .op2 .uaddw 8 8 0, .op2 .uaddw 9 9 1, .op2 .uaddw 10 10 2, .op2 .uaddw 11 11 3, .op2 .uaddw 12 12 4,
    .op2 .uaddw 13 13 5, .op2 .uaddw 14 14 6, .st1 4 2 [0, 1, 2, 3] .out (.imm 32),
    .st1 4 2 [4, 5, 6] .out (.imm 24), .ins 0 .mulSum, .dupW 1 .addSum, .op1 .uaddlp 8 8, .op1 .uaddlp 9 9,
    .op1 .uaddlp 10 10, .op1 .uaddlp 11 11, .op1 .uaddlp 12 12, .op1 .uaddlp 13 13, .op1 .uaddlp 14 14,
    .op2 .addp 8 8 9, .op2 .addp 10 10 11, .op2 .addp 12 12 13, .op2 .addp 14 14 14, .op2 .addp 8 8 10,
    .op2 .addp 9 12 14, .mulLane 8 8 0 0, .mulLane 9 9 0 0, .op2 .add 8 8 1, .op2 .add 9 9 1,
    .st1 4 4 [8, 9] .out (.imm 0)] }

/-- meta/streams_arm_64.h:10638-10759. -/
def col7x5 : Prog :=
  { init := [.sub .stride 4, .movi 8, .movi 9, .movi 10, .movi 11, .movi 12, .movi 13, .movi 14, .subs .count 5]
    skip := true
    body := [.subs .count 8, .ldLane 4 0 [0] .inp (.imm 4), .ldLane 1 0 [4, 5, 6] .inp (.reg .stride),
    .ldLane 4 0 [1] .inp (.imm 4), .ldLane 1 1 [4, 5, 6] .inp (.reg .stride), .ldLane 4 0 [2] .inp (.imm 4),
    .ldLane 1 2 [4, 5, 6] .inp (.reg .stride), .ldLane 4 0 [3] .inp (.imm 4),
    .ldLane 1 3 [4, 5, 6] .inp (.reg .stride), .ldLane 4 1 [0] .inp (.imm 4),
    .ldLane 1 4 [4, 5, 6] .inp (.reg .stride), .ldLane 4 1 [1] .inp (.imm 4),
    .ldLane 1 5 [4, 5, 6] .inp (.reg .stride), .ldLane 4 1 [2] .inp (.imm 4),
    .ldLane 1 6 [4, 5, 6] .inp (.reg .stride), .ldLane 4 1 [3] .inp (.imm 4),
    .ldLane 1 7 [4, 5, 6] .inp (.reg .stride), .op2 .trn1h 7 0 2, .op2 .trn2h 16 0 2, .op2 .trn1h 15 1 3,
    .op2 .trn2h 17 1 3, .op2 .trn1b 0 7 15, .op2 .trn2b 1 7 15, .op2 .trn1b 2 16 17, .op2 .trn2b 3 16 17,
    .op2 .uaddw 8 8 0, .op2 .uaddw 9 9 1, .op2 .uaddw 10 10 2, .op2 .uaddw 11 11 3, .op2 .uaddw 12 12 4,
    .op2 .uaddw 13 13 5, .op2 .uaddw 14 14 6, .st1 4 2 [0, 1, 2, 3] .out (.imm 32),
    .st1 4 2 [4, 5, 6] .out (.imm 24)]
    cond := .ne
    tail := [.movi 0, .movi 1, .movi 2, .movi 3, .movi 4, .movi 5, .movi 6, .ldLane 4 0 [0] .inp (.imm 4),
    .ldLane 1 0 [4, 5, 6] .inp (.reg .stride), .ldLane 4 0 [1] .inp (.imm 4),
    .ldLane 1 1 [4, 5, 6] .inp (.reg .stride), .ldLane 4 0 [2] .inp (.imm 4),
    .ldLane 1 2 [4, 5, 6] .inp (.reg .stride), .ldLane 4 0 [3] .inp (.imm 4),
    .ldLane 1 3 [4, 5, 6] .inp (.reg .stride), .ldLane 4 1 [0] .inp (.imm 4),
    .ldLane 1 4 [4, 5, 6] .inp (.reg .stride), .op2 .trn1h 7 0 2, .op2 .trn2h 16 0 2, .op2 .trn1h 15 1 3,
    .op2 .trn2h 17 1 3, .op2 .trn1b 0 7 15, .op2 .trn2b 1 7 15, .op2 .trn1b 2 16 17, .op2 .trn2b 3 16 17,
    .op2 .uaddw 8 8 0, .op2 .uaddw 9 9 1, .op2 .uaddw 10 10 2, .op2 .uaddw 11 11 3, .op2 .uaddw 12 12 4,
    .op2 .uaddw 13 13 5, .op2 .uaddw 14 14 6, .st1 4 2 [0, 1, 2, 3] .out (.imm 32),
    .st1 4 2 [4, 5, 6] .out (.imm 24), .ins 0 .mulSum, .dupW 1 .addSum, .op1 .uaddlp 8 8, .op1 .uaddlp 9 9,
    .op1 .uaddlp 10 10, .op1 .uaddlp 11 11, .op1 .uaddlp 12 12, .op1 .uaddlp 13 13, .op1 .uaddlp 14 14,
    .op2 .addp 8 8 9, .op2 .addp 10 10 11, .op2 .addp 12 12 13, .op2 .addp 14 14 14, .op2 .addp 8 8 10,
    .op2 .addp 9 12 14, .mulLane 8 8 0 0, .mulLane 9 9 0 0, .op2 .add 8 8 1, .op2 .add 9 9 1,
    .st1 4 4 [8, 9] .out (.imm 0)] }

/-- meta/streams_arm_64.h:10775-10898. -/
def col7x6 : Prog :=
  { init := [.sub .stride 4, .movi 8, .movi 9, .movi 10, .movi 11, .movi 12, .movi 13, .movi 14, .subs .count 6]
    skip := true
    body := [.subs .count 8, .ldLane 4 0 [0] .inp (.imm 4), .ldLane 1 0 [4, 5, 6] .inp (.reg .stride),
    .ldLane 4 0 [1] .inp (.imm 4), .ldLane 1 1 [4, 5, 6] .inp (.reg .stride), .ldLane 4 0 [2] .inp (.imm 4),
    .ldLane 1 2 [4, 5, 6] .inp (.reg .stride), .ldLane 4 0 [3] .inp (.imm 4),
    .ldLane 1 3 [4, 5, 6] .inp (.reg .stride), .ldLane 4 1 [0] .inp (.imm 4),
    .ldLane 1 4 [4, 5, 6] .inp (.reg .stride), .ldLane 4 1 [1] .inp (.imm 4),
    .ldLane 1 5 [4, 5, 6] .inp (.reg .stride), .ldLane 4 1 [2] .inp (.imm 4),
    .ldLane 1 6 [4, 5, 6] .inp (.reg .stride), .ldLane 4 1 [3] .inp (.imm 4),
    .ldLane 1 7 [4, 5, 6] .inp (.reg .stride), .op2 .trn1h 7 0 2, .op2 .trn2h 16 0 2, .op2 .trn1h 15 1 3,
    .op2 .trn2h 17 1 3, .op2 .trn1b 0 7 15, .op2 .trn2b 1 7 15, .op2 .trn1b 2 16 17, .op2 .trn2b 3 16 17,
    .op2 .uaddw 8 8 0, .op2 .uaddw 9 9 1, .op2 .uaddw 10 10 2, .op2 .uaddw 11 11 3, .op2 .uaddw 12 12 4,
    .op2 .uaddw 13 13 5, .op2 .uaddw 14 14 6, .st1 4 2 [0, 1, 2, 3] .out (.imm 32),
    .st1 4 2 [4, 5, 6] .out (.imm 24)]
    cond := .ne
    tail := [.movi 0, .movi 1, .movi 2, .movi 3, .movi 4, .movi 5, .movi 6, .ldLane 4 0 [0] .inp (.imm 4),
    .ldLane 1 0 [4, 5, 6] .inp (.reg .stride), .ldLane 4 0 [1] .inp (.imm 4),
    .ldLane 1 1 [4, 5, 6] .inp (.reg .stride), .ldLane 4 0 [2] .inp (.imm 4),
    .ldLane 1 2 [4, 5, 6] .inp (.reg .stride), .ldLane 4 0 [3] .inp (.imm 4),
    .ldLane 1 3 [4, 5, 6] .inp (.reg .stride), .ldLane 4 1 [0] .inp (.imm 4),
    .ldLane 1 4 [4, 5, 6] .inp (.reg .stride), .ldLane 4 1 [1] .inp (.imm 4),
    .ldLane 1 5 [4, 5, 6] .inp (.reg .stride), .op2 .trn1h 7 0 2, .op2 .trn2h 16 0 2, .op2 .trn1h 15 1 3,
    .op2 .trn2h 17 1 3, .op2 .trn1b 0 7 15, .op2 .trn2b 1 7 15, .op2 .trn1b 2 16 17, .op2 .trn2b 3 16 17,
    .op2 .uaddw 8 8 0, .op2 .uaddw 9 9 1, .op2 .uaddw 10 10 2, .op2 .uaddw 11 11 3, .op2 .uaddw 12 12 4,
    .op2 .uaddw 13 13 5, .op2 .uaddw 14 14 6, .st1 4 2 [0, 1, 2, 3] .out (.imm 32),
    .st1 4 2 [4, 5, 6] .out (.imm 24), .ins 0 .mulSum, .dupW 1 .addSum, .op1 .uaddlp 8 8, .op1 .uaddlp 9 9,
    .op1 .uaddlp 10 10, .op1 .uaddlp 11 11, .op1 .uaddlp 12 12, .op1 .uaddlp 13 13, .op1 .uaddlp 14 14,
    .op2 .addp 8 8 9, .op2 .addp 10 10 11, .op2 .addp 12 12 13, .op2 .addp 14 14 14, .op2 .addp 8 8 10,
    .op2 .addp 9 12 14, .mulLane 8 8 0 0, .mulLane 9 9 0 0, .op2 .add 8 8 1, .op2 .add 9 9 1,
    .st1 4 4 [8, 9] .out (.imm 0)] }

/-- meta/streams_arm_64.h:10914-11039. -/
def col7x7 : Prog :=
  { init := [.sub .stride 4, .movi 8, .movi 9, .movi 10, .movi 11, .movi 12, .movi 13, .movi 14, .subs .count 7]
    skip := true
    body := [.subs .count 8, .ldLane 4 0 [0] .inp (.imm 4), .ldLane 1 0 [4, 5, 6] .inp (.reg .stride),
    .ldLane 4 0 [1] .inp (.imm 4), .ldLane 1 1 [4, 5, 6] .inp (.reg .stride), .ldLane 4 0 [2] .inp (.imm 4),
    .ldLane 1 2 [4, 5, 6] .inp (.reg .stride), .ldLane 4 0 [3] .inp (.imm 4),
    .ldLane 1 3 [4, 5, 6] .inp (.reg .stride), .ldLane 4 1 [0] .inp (.imm 4),
    .ldLane 1 4 [4, 5, 6] .inp (.reg .stride), .ldLane 4 1 [1] .inp (.imm 4),
    .ldLane 1 5 [4, 5, 6] .inp (.reg .stride), .ldLane 4 1 [2] .inp (.imm 4),
    .ldLane 1 6 [4, 5, 6] .inp (.reg .stride), .ldLane 4 1 [3] .inp (.imm 4),
    .ldLane 1 7 [4, 5, 6] .inp (.reg .stride), .op2 .trn1h 7 0 2, .op2 .trn2h 16 0 2, .op2 .trn1h 15 1 3,
    .op2 .trn2h 17 1 3, .op2 .trn1b 0 7 15, .op2 .trn2b 1 7 15, .op2 .trn1b 2 16 17, .op2 .trn2b 3 16 17,
    .op2 .uaddw 8 8 0, .op2 .uaddw 9 9 1, .op2 .uaddw 10 10 2, .op2 .uaddw 11 11 3, .op2 .uaddw 12 12 4,
    .op2 .uaddw 13 13 5, .op2 .uaddw 14 14 6, .st1 4 2 [0, 1, 2, 3] .out (.imm 32),
    .st1 4 2 [4, 5, 6] .out (.imm 24)]
    cond := .ne
    tail := [.movi 0, .movi 1, .movi 2, .movi 3, .movi 4, .movi 5, .movi 6, .ldLane 4 0 [0] .inp (.imm 4),
    .ldLane 1 0 [4, 5, 6] .inp (.reg .stride), .ldLane 4 0 [1] .inp (.imm 4),
    .ldLane 1 1 [4, 5, 6] .inp (.reg .stride), .ldLane 4 0 [2] .inp (.imm 4),
    .ldLane 1 2 [4, 5, 6] .inp (.reg .stride), .ldLane 4 0 [3] .inp (.imm 4),
    .ldLane 1 3 [4, 5, 6] .inp (.reg .stride), .ldLane 4 1 [0] .inp (.imm 4),
    .ldLane 1 4 [4, 5, 6] .inp (.reg .stride), .ldLane 4 1 [1] .inp (.imm 4),
    .ldLane 1 5 [4, 5, 6] .inp (.reg .stride), .ldLane 4 1 [2] .inp (.imm 4),
    .ldLane 1 6 [4, 5, 6] .inp (.reg .stride), .op2 .trn1h 7 0 2, .op2 .trn2h 16 0 2, .op2 .trn1h 15 1 3,
    .op2 .trn2h 17 1 3, .op2 .trn1b 0 7 15, .op2 .trn2b 1 7 15, .op2 .trn1b 2 16 17, .op2 .trn2b 3 16 17,
    .op2 .uaddw 8 8 0, .op2 .uaddw 9 9 1, .op2 .uaddw 10 10 2, .op2 .uaddw 11 11 3, .op2 .uaddw 12 12 4,
    .op2 .uaddw 13 13 5, .op2 .uaddw 14 14 6, .st1 4 2 [0, 1, 2, 3] .out (.imm 32),
    .st1 4 2 [4, 5, 6] .out (.imm 24), .ins 0 .mulSum, .dupW 1 .addSum, .op1 .uaddlp 8 8, .op1 .uaddlp 9 9,
    .op1 .uaddlp 10 10, .op1 .uaddlp 11 11, .op1 .uaddlp 12 12, .op1 .uaddlp 13 13, .op1 .uaddlp 14 14,
    .op2 .addp 8 8 9, .op2 .addp 10 10 11, .op2 .addp 12 12 13, .op2 .addp 14 14 14, .op2 .addp 8 8 10,
    .op2 .addp 9 12 14, .mulLane 8 8 0 0, .mulLane 9 9 0 0, .op2 .add 8 8 1, .op2 .add 9 9 1,
    .st1 4 4 [8, 9] .out (.imm 0)] }

/-- meta/streams_arm_64.h:11055-11144. -/
def col8x0 : Prog :=
  { init := [.movi 8, .movi 9, .movi 10, .movi 11, .movi 12, .movi 13, .movi 14, .movi 15]
    skip := false
    body := [.subs .count 8, .ld1 8 [0] .inp (.reg .stride), .ld1 8 [1] .inp (.reg .stride),
    .ld1 8 [2] .inp (.reg .stride), .ld1 8 [3] .inp (.reg .stride), .ld1 8 [4] .inp (.reg .stride),
    .ld1 8 [5] .inp (.reg .stride), .ld1 8 [6] .inp (.reg .stride), .ld1 8 [7] .inp (.reg .stride),
    .op2 .trn1b 16 0 1, .op2 .trn2b 17 0 1, .op2 .trn1b 18 2 3, .op2 .trn2b 19 2 3, .op2 .trn1b 20 4 5,
    .op2 .trn2b 21 4 5, .op2 .trn1b 22 6 7, .op2 .trn2b 23 6 7, .op2 .trn1h 0 16 18, .op2 .trn2h 2 16 18,
    .op2 .trn1h 1 17 19, .op2 .trn2h 3 17 19, .op2 .trn1h 4 20 22, .op2 .trn2h 6 20 22, .op2 .trn1h 5 21 23,
    .op2 .trn2h 7 21 23, .op2 .trn1s 16 0 4, .op2 .trn2s 20 0 4, .op2 .trn1s 17 1 5, .op2 .trn2s 21 1 5,
    .op2 .trn1s 18 2 6, .op2 .trn2s 22 2 6, .op2 .trn1s 19 3 7, .op2 .trn2s 23 3 7, .op2 .uaddw 8 8 16,
    .op2 .uaddw 9 9 17, .op2 .uaddw 10 10 18, .op2 .uaddw 11 11 19, .op2 .uaddw 12 12 20, .op2 .uaddw 13 13 21,
    .op2 .uaddw 14 14 22, .op2 .uaddw 15 15 23, .st1 4 2 [16, 17, 18, 19] .out (.imm 32),
    .st1 4 2 [20, 21, 22, 23] .out (.imm 32)]
    cond := .ne
    tail := [.ins 0 .mulSum, .dupW 1 .addSum, .op1 .uaddlp 8 8, .op1 .uaddlp 9 9, .op1 .uaddlp 10 10,
    .op1 .uaddlp 11 11, .op1 .uaddlp 12 12, .op1 .uaddlp 13 13, .op1 .uaddlp 14 14, .op1 .uaddlp 15 15,
    .op2 .addp 8 8 9, .op2 .addp 10 10 11, .op2 .addp 12 12 13, .op2 .addp 14 14 15, .op2 .addp 8 8 10,
    .op2 .addp 9 12 14, .mulLane 8 8 0 0, .mulLane 9 9 0 0, .op2 .add 8 8 1, .op2 .add 9 9 1,
    .st1 4 4 [8, 9] .out (.imm 0)] }

/-- meta/streams_arm_64.h:11160-11301. -/
def col8x1 : Prog :=
  { init := [.movi 8, .movi 9, .movi 10, .movi 11, .movi 12, .movi 13, .movi 14, .movi 15, .subs .count 1]
    skip := true
    body := [.subs .count 8, .ld1 8 [0] .inp (.reg .stride), .ld1 8 [1] .inp (.reg .stride),
    .ld1 8 [2] .inp (.reg .stride), .ld1 8 [3] .inp (.reg .stride), .ld1 8 [4] .inp (.reg .stride),
    .ld1 8 [5] .inp (.reg .stride), .ld1 8 [6] .inp (.reg .stride), .ld1 8 [7] .inp (.reg .stride),
    .op2 .trn1b 16 0 1, .op2 .trn2b 17 0 1, .op2 .trn1b 18 2 3, .op2 .trn2b 19 2 3, .op2 .trn1b 20 4 5,
    .op2 .trn2b 21 4 5, .op2 .trn1b 22 6 7, .op2 .trn2b 23 6 7, .op2 .trn1h 0 16 18, .op2 .trn2h 2 16 18,
    .op2 .trn1h 1 17 19, .op2 .trn2h 3 17 19, .op2 .trn1h 4 20 22, .op2 .trn2h 6 20 22, .op2 .trn1h 5 21 23,
    .op2 .trn2h 7 21 23, .op2 .trn1s 16 0 4, .op2 .trn2s 20 0 4, .op2 .trn1s 17 1 5, .op2 .trn2s 21 1 5,
    .op2 .trn1s 18 2 6, .op2 .trn2s 22 2 6, .op2 .trn1s 19 3 7, .op2 .trn2s 23 3 7, .op2 .uaddw 8 8 16,
    .op2 .uaddw 9 9 17, .op2 .uaddw 10 10 18, .op2 .uaddw 11 11 19, .op2 .uaddw 12 12 20, .op2 .uaddw 13 13 21,
    .op2 .uaddw 14 14 22, .op2 .uaddw 15 15 23, .st1 4 2 [16, 17, 18, 19] .out (.imm 32),
    .st1 4 2 [20, 21, 22, 23] .out (.imm 32)]
    cond := .ne
    tail := [.movi 0, .movi 1, .movi 2, .movi 3, .movi 4, .movi 5, .movi 6, .movi 7, .ld1 8 [0] .inp (.reg .stride),
    .op2 .trn1b 16 0 1, .op2 .trn2b 17 0 1, .op2 .trn1b 18 2 3, .op2 .trn2b 19 2 3, .op2 .trn1b 20 4 5,
    .op2 .trn2b 21 4 5, .op2 .trn1b 22 6 7, .op2 .trn2b 23 6 7, .op2 .trn1h 0 16 18, .op2 .trn2h 2 16 18,
    .op2 .trn1h 1 17 19, .op2 .trn2h 3 17 19, .op2 .trn1h 4 20 22, .op2 .trn2h 6 20 22, .op2 .trn1h 5 21 23,
    .op2 .trn2h 7 21 23, .op2 .trn1s 16 0 4, .op2 .trn2s 20 0 4, .op2 .trn1s 17 1 5, .op2 .trn2s 21 1 5,
    .op2 .trn1s 18 2 6, .op2 .trn2s 22 2 6, .op2 .trn1s 19 3 7, .op2 .trn2s 23 3 7, .op2 .uaddw 8 8 16,
    .op2 .uaddw 9 9 17, .op2 .uaddw 10 10 18, .op2 .uaddw 11 11 19, .op2 .uaddw 12 12 20, .op2 .uaddw 13 13 21,
    .op2 .uaddw 14 14 22, .op2 .uaddw 15 15 23, .st1 4 2 [16, 17, 18, 19] .out (.imm 32),
    .st1 4 2 [20, 21, 22, 23] .out (.imm 32), .ins 0 .mulSum, .dupW 1 .addSum, .op1 .uaddlp 8 8,
    .op1 .uaddlp 9 9, .op1 .uaddlp 10 10, .op1 .uaddlp 11 11, .op1 .uaddlp 12 12, .op1 .uaddlp 13 13,
    .op1 .uaddlp 14 14, .op1 .uaddlp 15 15, .op2 .addp 8 8 9, .op2 .addp 10 10 11, .op2 .addp 12 12 13,
    .op2 .addp 14 14 15, .op2 .addp 8 8 10, .op2 .addp 9 12 14, .mulLane 8 8 0 0, .mulLane 9 9 0 0,
    .op2 .add 8 8 1, .op2 .add 9 9 1, .st1 4 4 [8, 9] .out (.imm 0)] }

/-- meta/streams_arm_64.h:11317-11459. -/
def col8x2 : Prog :=
  { init := [.movi 8, .movi 9, .movi 10, .movi 11, .movi 12, .movi 13, .movi 14, .movi 15, .subs .count 2]
    skip := true
    body := [.subs .count 8, .ld1 8 [0] .inp (.reg .stride), .ld1 8 [1] .inp (.reg .stride),
    .ld1 8 [2] .inp (.reg .stride), .ld1 8 [3] .inp (.reg .stride), .ld1 8 [4] .inp (.reg .stride),
    .ld1 8 [5] .inp (.reg .stride), .ld1 8 [6] .inp (.reg .stride), .ld1 8 [7] .inp (.reg .stride),
    .op2 .trn1b 16 0 1, .op2 .trn2b 17 0 1, .op2 .trn1b 18 2 3, .op2 .trn2b 19 2 3, .op2 .trn1b 20 4 5,
    .op2 .trn2b 21 4 5, .op2 .trn1b 22 6 7, .op2 .trn2b 23 6 7, .op2 .trn1h 0 16 18, .op2 .trn2h 2 16 18,
    .op2 .trn1h 1 17 19, .op2 .trn2h 3 17 19, .op2 .trn1h 4 20 22, .op2 .trn2h 6 20 22, .op2 .trn1h 5 21 23,
    .op2 .trn2h 7 21 23, .op2 .trn1s 16 0 4, .op2 .trn2s 20 0 4, .op2 .trn1s 17 1 5, .op2 .trn2s 21 1 5,
    .op2 .trn1s 18 2 6, .op2 .trn2s 22 2 6, .op2 .trn1s 19 3 7, .op2 .trn2s 23 3 7, .op2 .uaddw 8 8 16,
    .op2 .uaddw 9 9 17, .op2 .uaddw 10 10 18, .op2 .uaddw 11 11 19, .op2 .uaddw 12 12 20, .op2 .uaddw 13 13 21,
    .op2 .uaddw 14 14 22, .op2 .uaddw 15 15 23, .st1 4 2 [16, 17, 18, 19] .out (.imm 32),
    .st1 4 2 [20, 21, 22, 23] .out (.imm 32)]
    cond := .ne
    tail := [.movi 0, .movi 1, .movi 2, .movi 3, .movi 4, .movi 5, .movi 6, .movi 7, .ld1 8 [0] .inp (.reg .stride),
    .ld1 8 [1] .inp (.reg .stride), .op2 .trn1b 16 0 1, .op2 .trn2b 17 0 1, .op2 .trn1b 18 2 3,
    .op2 .trn2b 19 2 3, .op2 .trn1b 20 4 5, .op2 .trn2b 21 4 5, .op2 .trn1b 22 6 7, .op2 .trn2b 23 6 7,
    .op2 .trn1h 0 16 18, .op2 .trn2h 2 16 18, .op2 .trn1h 1 17 19, .op2 .trn2h 3 17 19, .op2 .trn1h 4 20 22,
    .op2 .trn2h 6 20 22, .op2 .trn1h 5 21 23, .op2 .trn2h 7 21 23, .op2 .trn1s 16 0 4, .op2 .trn2s 20 0 4,
    .op2 .trn1s 17 1 5, .op2 .trn2s 21 1 5, .op2 .trn1s 18 2 6, .op2 .trn2s 22 2 6, .op2 .trn1s 19 3 7,
    .op2 .trn2s 23 3 7, .op2 .uaddw 8 8 16, .op2 .uaddw 9 9 17, .op2 .uaddw 10 10 18, .op2 .uaddw 11 11 19,
    .op2 .uaddw 12 12 20, .op2 .uaddw 13 13 21, .op2 .uaddw 14 14 22, .op2 .uaddw 15 15 23,
    .st1 4 2 [16, 17, 18, 19] .out (.imm 32), .st1 4 2 [20, 21, 22, 23] .out (.imm 32), .ins 0 .mulSum,
    .dupW 1 .addSum, .op1 .uaddlp 8 8, .op1 .uaddlp 9 9, .op1 .uaddlp 10 10, .op1 .uaddlp 11 11,
    .op1 .uaddlp 12 12, .op1 .uaddlp 13 13, .op1 .uaddlp 14 14, .op1 .uaddlp 15 15, .op2 .addp 8 8 9,
    .op2 .addp 10 10 11, .op2 .addp 12 12 13, .op2 .addp 14 14 15, .op2 .addp 8 8 10, .op2 .addp 9 12 14,
    .mulLane 8 8 0 0, .mulLane 9 9 0 0, .op2 .add 8 8 1, .op2 .add 9 9 1, .st1 4 4 [8, 9] .out (.imm 0)] }

/-- meta/streams_arm_64.h:11475-11618. -/
def col8x3 : Prog :=
  { init := [.movi 8, .movi 9, .movi 10, .movi 11, .movi 12, .movi 13, .movi 14, .movi 15, .subs .count 3]
    skip := true
    body := [.subs .count 8, .ld1 8 [0] .inp (.reg .stride), .ld1 8 [1] .inp (.reg .stride),
    .ld1 8 [2] .inp (.reg .stride), .ld1 8 [3] .inp (.reg .stride), .ld1 8 [4] .inp (.reg .stride),
    .ld1 8 [5] .inp (.reg .stride), .ld1 8 [6] .inp (.reg .stride), .ld1 8 [7] .inp (.reg .stride),
    .op2 .trn1b 16 0 1, .op2 .trn2b 17 0 1, .op2 .trn1b 18 2 3, .op2 .trn2b 19 2 3, .op2 .trn1b 20 4 5,
    .op2 .trn2b 21 4 5, .op2 .trn1b 22 6 7, .op2 .trn2b 23 6 7, .op2 .trn1h 0 16 18, .op2 .trn2h 2 16 18,
    .op2 .trn1h 1 17 19, .op2 .trn2h 3 17 19, .op2 .trn1h 4 20 22, .op2 .trn2h 6 20 22, .op2 .trn1h 5 21 23,
    .op2 .trn2h 7 21 23, .op2 .trn1s 16 0 4, .op2 .trn2s 20 0 4, .op2 .trn1s 17 1 5, .op2 .trn2s 21 1 5,
    .op2 .trn1s 18 2 6, .op2 .trn2s 22 2 6, .op2 .trn1s 19 3 7, .op2 .trn2s 23 3 7, .op2 .uaddw 8 8 16,
    .op2 .uaddw 9 9 17, .op2 .uaddw 10 10 18, .op2 .uaddw 11 11 19, .op2 .uaddw 12 12 20, .op2 .uaddw 13 13 21,
    .op2 .uaddw 14 14 22, .op2 .uaddw 15 15 23, .st1 4 2 [16, 17, 18, 19] .out (.imm 32),
    .st1 4 2 [20, 21, 22, 23] .out (.imm 32)]
    cond := .ne
    tail := [.movi 0, .movi 1, .movi 2, .movi 3, .movi 4, .movi 5, .movi 6, .movi 7, .ld1 8 [0] .inp (.reg .stride),
    .ld1 8 [1] .inp (.reg .stride), .ld1 8 [2] .inp (.reg .stride), .op2 .trn1b 16 0 1, .op2 .trn2b 17 0 1,
    .op2 .trn1b 18 2 3, .op2 .trn2b 19 2 3, .op2 .trn1b 20 4 5, .op2 .trn2b 21 4 5, .op2 .trn1b 22 6 7,
    .op2 .trn2b 23 6 7, .op2 .trn1h 0 16 18, .op2 .trn2h 2 16 18, .op2 .trn1h 1 17 19, .op2 .trn2h 3 17 19,
    .op2 .trn1h 4 20 22, .op2 .trn2h 6 20 22, .op2 .trn1h 5 21 23, .op2 .trn2h 7 21 23, .op2 .trn1s 16 0 4,
    .op2 .trn2s 20 0 4, .op2 .trn1s 17 1 5, .op2 .trn2s 21 1 5, .op2 .trn1s 18 2 6, .op2 .trn2s 22 2 6,
    .op2 .trn1s 19 3 7, .op2 .trn2s 23 3 7, .op2 .uaddw 8 8 16, .op2 .uaddw 9 9 17, .op2 .uaddw 10 10 18,
    .op2 .uaddw 11 11 19, .op2 .uaddw 12 12 20, .op2 .uaddw 13 13 21, .op2 .uaddw 14 14 22,
    .op2 .uaddw 15 15 23, .st1 4 2 [16, 17, 18, 19] .out (.imm 32), .st1 4 2 [20, 21, 22, 23] .out (.imm 32),
    .ins 0 .mulSum, .dupW 1 .addSum, .op1 .uaddlp 8 8, .op1 .uaddlp 9 9, .op1 .uaddlp 10 10,
    .op1 .uaddlp 11 11, .op1 .uaddlp 12 12, .op1 .uaddlp 13 13, .op1 .uaddlp 14 14, .op1 .uaddlp 15 15,
    .op2 .addp 8 8 9, .op2 .addp 10 10 11, .op2 .addp 12 12 13, .op2 .addp 14 14 15, .op2 .addp 8 8 10,
    .op2 .addp 9 12 14, .mulLane 8 8 0 0, .mulLane 9 9 0 0, .op2 .add 8 8 1, .op2 .add 9 9 1,
    .st1 4 4 [8, 9] .out (.imm 0)] }

/-- meta/streams_arm_64.h:11634-11778. -/
def col8x4 : Prog :=
  { init := [.movi 8, .movi 9, .movi 10, .movi 11, .movi 12, .movi 13, .movi 14, .movi 15, .subs .count 4]
    skip := true
    body := [.subs .count 8, .ld1 8 [0] .inp (.reg .stride), .ld1 8 [1] .inp (.reg .stride),
    .ld1 8 [2] .inp (.reg .stride), .ld1 8 [3] .inp (.reg .stride), .ld1 8 [4] .inp (.reg .stride),
    .ld1 8 [5] .inp (.reg .stride), .ld1 8 [6] .inp (.reg .stride), .ld1 8 [7] .inp (.reg .stride),
    .op2 .trn1b 16 0 1, .op2 .trn2b 17 0 1, .op2 .trn1b 18 2 3, .op2 .trn2b 19 2 3, .op2 .trn1b 20 4 5,
    .op2 .trn2b 21 4 5, .op2 .trn1b 22 6 7, .op2 .trn2b 23 6 7, .op2 .trn1h 0 16 18, .op2 .trn2h 2 16 18,
    .op2 .trn1h 1 17 19, .op2 .trn2h 3 17 19, .op2 .trn1h 4 20 22, .op2 .trn2h 6 20 22, .op2 .trn1h 5 21 23,
    .op2 .trn2h 7 21 23, .op2 .trn1s 16 0 4, .op2 .trn2s 20 0 4, .op2 .trn1s 17 1 5, .op2 .trn2s 21 1 5,
    .op2 .trn1s 18 2 6, .op2 .trn2s 22 2 6, .op2 .trn1s 19 3 7, .op2 .trn2s 23 3 7, .op2 .uaddw 8 8 16,
    .op2 .uaddw 9 9 17, .op2 .uaddw 10 10 18, .op2 .uaddw 11 11 19, .op2 .uaddw 12 12 20, .op2 .uaddw 13 13 21,
    .op2 .uaddw 14 14 22, .op2 .uaddw 15 15 23, .st1 4 2 [16, 17, 18, 19] .out (.imm 32),
    .st1 4 2 [20, 21, 22, 23] .out (.imm 32)]
    cond := .ne
    tail := [.movi 0, .movi 1, .movi 2, .movi 3, .movi 4, .movi 5, .movi 6, .movi 7, .ld1 8 [0] .inp (.reg .stride),
    .ld1 8 [1] .inp (.reg .stride), .ld1 8 [2] .inp (.reg .stride), .ld1 8 [3] .inp (.reg .stride),
    .op2 .trn1b 16 0 1, .op2 .trn2b 17 0 1, .op2 .trn1b 18 2 3, .op2 .trn2b 19 2 3, .op2 .trn1b 20 4 5,
    .op2 .trn2b 21 4 5, .op2 .trn1b 22 6 7, .op2 .trn2b 23 6 7, .op2 .trn1h 0 16 18, .op2 .trn2h 2 16 18,
    .op2 .trn1h 1 17 19, .op2 .trn2h 3 17 19, .op2 .trn1h 4 20 22, .op2 .trn2h 6 20 22, .op2 .trn1h 5 21 23,
    .op2 .trn2h 7 21 23, .op2 .trn1s 16 0 4, .op2 .trn2s 20 0 4, .op2 .trn1s 17 1 5, .op2 .trn2s 21 1 5,
    .op2 .trn1s 18 2 6, .op2 .trn2s 22 2 6, .op2 .trn1s 19 3 7, .op2 .trn2s 23 3 7, .op2 .uaddw 8 8 16,
    .op2 .uaddw 9 9 17, .op2 .uaddw 10 10 18, .op2 .uaddw 11 11 19, .op2 .uaddw 12 12 20, .op2 .uaddw 13 13 21,
    .op2 .uaddw 14 14 22, .op2 .uaddw 15 15 23, .st1 4 2 [16, 17, 18, 19] .out (.imm 32),
    .st1 4 2 [20, 21, 22, 23] .out (.imm 32), .ins 0 .mulSum, .dupW 1 .addSum, .op1 .uaddlp 8 8,
    .op1 .uaddlp 9 9, .op1 .uaddlp 10 10, .op1 .uaddlp 11 11, .op1 .uaddlp 12 12, .op1 .uaddlp 13 13,
    .op1 .uaddlp 14 14, .op1 .uaddlp 15 15, .op2 .addp 8 8 9, .op2 .addp 10 10 11, .op2 .addp 12 12 13,
    .op2 .addp 14 14 15, .op2 .addp 8 8 10, .op2 .addp 9 12 14, .mulLane 8 8 0 0, .mulLane 9 9 0 0,
    .op2 .add 8 8 1, .op2 .add 9 9 1, .st1 4 4 [8, 9] .out (.imm 0)] }

/-- meta/streams_arm_64.h:11794-11939. -/
def col8x5 : Prog :=
  { init := [.movi 8, .movi 9, .movi 10, .movi 11, .movi 12, .movi 13, .movi 14, .movi 15, .subs .count 5]
    skip := true
    body := [.subs .count 8, .ld1 8 [0] .inp (.reg .stride), .ld1 8 [1] .inp (.reg .stride),
    .ld1 8 [2] .inp (.reg .stride), .ld1 8 [3] .inp (.reg .stride), .ld1 8 [4] .inp (.reg .stride),
    .ld1 8 [5] .inp (.reg .stride), .ld1 8 [6] .inp (.reg .stride), .ld1 8 [7] .inp (.reg .stride),
    .op2 .trn1b 16 0 1, .op2 .trn2b 17 0 1, .op2 .trn1b 18 2 3, .op2 .trn2b 19 2 3, .op2 .trn1b 20 4 5,
    .op2 .trn2b 21 4 5, .op2 .trn1b 22 6 7, .op2 .trn2b 23 6 7, .op2 .trn1h 0 16 18, .op2 .trn2h 2 16 18,
    .op2 .trn1h 1 17 19, .op2 .trn2h 3 17 19, .op2 .trn1h 4 20 22, .op2 .trn2h 6 20 22, .op2 .trn1h 5 21 23,
    .op2 .trn2h 7 21 23, .op2 .trn1s 16 0 4, .op2 .trn2s 20 0 4, .op2 .trn1s 17 1 5, .op2 .trn2s 21 1 5,
    .op2 .trn1s 18 2 6, .op2 .trn2s 22 2 6, .op2 .trn1s 19 3 7, .op2 .trn2s 23 3 7, .op2 .uaddw 8 8 16,
    .op2 .uaddw 9 9 17, .op2 .uaddw 10 10 18, .op2 .uaddw 11 11 19, .op2 .uaddw 12 12 20, .op2 .uaddw 13 13 21,
    .op2 .uaddw 14 14 22, .op2 .uaddw 15 15 23, .st1 4 2 [16, 17, 18, 19] .out (.imm 32),
    .st1 4 2 [20, 21, 22, 23] .out (.imm 32)]
    cond := .ne
    tail := [.movi 0, .movi 1, .movi 2, .movi 3, .movi 4, .movi 5, .movi 6, .movi 7, .ld1 8 [0] .inp (.reg .stride),
    .ld1 8 [1] .inp (.reg .stride), .ld1 8 [2] .inp (.reg .stride), .ld1 8 [3] .inp (.reg .stride),
    .ld1 8 [4] .inp (.reg .stride), .op2 .trn1b 16 0 1, .op2 .trn2b 17 0 1, .op2 .trn1b 18 2 3,
    .op2 .trn2b 19 2 3, .op2 .trn1b 20 4 5, .op2 .trn2b 21 4 5, .op2 .trn1b 22 6 7, .op2 .trn2b 23 6 7,
    .op2 .trn1h 0 16 18, .op2 .trn2h 2 16 18, .op2 .trn1h 1 17 19, .op2 .trn2h 3 17 19, .op2 .trn1h 4 20 22,
    .op2 .trn2h 6 20 22, .op2 .trn1h 5 21 23, .op2 .trn2h 7 21 23, .op2 .trn1s 16 0 4, .op2 .trn2s 20 0 4,
    .op2 .trn1s 17 1 5, .op2 .trn2s 21 1 5, .op2 .trn1s 18 2 6, .op2 .trn2s 22 2 6, .op2 .trn1s 19 3 7,
    .op2 .trn2s 23 3 7, .op2 .uaddw 8 8 16, .op2 .uaddw 9 9 17, .op2 .uaddw 10 10 18, .op2 .uaddw 11 11 19,
    .op2 .uaddw 12 12 20, .op2 .uaddw 13 13 21, .op2 .uaddw 14 14 22, .op2 .uaddw 15 15 23,
    .st1 4 2 [16, 17, 18, 19] .out (.imm 32), .st1 4 2 [20, 21, 22, 23] .out (.imm 32), .ins 0 .mulSum,
    .dupW 1 .addSum, .op1 .uaddlp 8 8, .op1 .uaddlp 9 9, .op1 .uaddlp 10 10, .op1 .uaddlp 11 11,
    .op1 .uaddlp 12 12, .op1 .uaddlp 13 13, .op1 .uaddlp 14 14, .op1 .uaddlp 15 15, .op2 .addp 8 8 9,
    .op2 .addp 10 10 11, .op2 .addp 12 12 13, .op2 .addp 14 14 15, .op2 .addp 8 8 10, .op2 .addp 9 12 14,
    .mulLane 8 8 0 0, .mulLane 9 9 0 0, .op2 .add 8 8 1, .op2 .add 9 9 1, .st1 4 4 [8, 9] .out (.imm 0)] }

/-- meta/streams_arm_64.h:11955-12101. -/
def col8x6 : Prog :=
  { init := [.movi 8, .movi 9, .movi 10, .movi 11, .movi 12, .movi 13, .movi 14, .movi 15, .subs .count 6]
    skip := true
    body := [.subs .count 8, .ld1 8 [0] .inp (.reg .stride), .ld1 8 [1] .inp (.reg .stride),
    .ld1 8 [2] .inp (.reg .stride), .ld1 8 [3] .inp (.reg .stride), .ld1 8 [4] .inp (.reg .stride),
    .ld1 8 [5] .inp (.reg .stride), .ld1 8 [6] .inp (.reg .stride), .ld1 8 [7] .inp (.reg .stride),
    .op2 .trn1b 16 0 1, .op2 .trn2b 17 0 1, .op2 .trn1b 18 2 3, .op2 .trn2b 19 2 3, .op2 .trn1b 20 4 5,
    .op2 .trn2b 21 4 5, .op2 .trn1b 22 6 7, .op2 .trn2b 23 6 7, .op2 .trn1h 0 16 18, .op2 .trn2h 2 16 18,
    .op2 .trn1h 1 17 19, .op2 .trn2h 3 17 19, .op2 .trn1h 4 20 22, .op2 .trn2h 6 20 22, .op2 .trn1h 5 21 23,
    .op2 .trn2h 7 21 23, .op2 .trn1s 16 0 4, .op2 .trn2s 20 0 4, .op2 .trn1s 17 1 5, .op2 .trn2s 21 1 5,
    .op2 .trn1s 18 2 6, .op2 .trn2s 22 2 6, .op2 .trn1s 19 3 7, .op2 .trn2s 23 3 7, .op2 .uaddw 8 8 16,
    .op2 .uaddw 9 9 17, .op2 .uaddw 10 10 18, .op2 .uaddw 11 11 19, .op2 .uaddw 12 12 20, .op2 .uaddw 13 13 21,
    .op2 .uaddw 14 14 22, .op2 .uaddw 15 15 23, .st1 4 2 [16, 17, 18, 19] .out (.imm 32),
    .st1 4 2 [20, 21, 22, 23] .out (.imm 32)]
    cond := .ne
    tail := [.movi 0, .movi 1, .movi 2, .movi 3, .movi 4, .movi 5, .movi 6, .movi 7, .ld1 8 [0] .inp (.reg .stride),
    .ld1 8 [1] .inp (.reg .stride), .ld1 8 [2] .inp (.reg .stride), .ld1 8 [3] .inp (.reg .stride),
    .ld1 8 [4] .inp (.reg .stride), .ld1 8 [5] .inp (.reg .stride), .op2 .trn1b 16 0 1, .op2 .trn2b 17 0 1,
    .op2 .trn1b 18 2 3, .op2 .trn2b 19 2 3, .op2 .trn1b 20 4 5, .op2 .trn2b 21 4 5, .op2 .trn1b 22 6 7,
    .op2 .trn2b 23 6 7, .op2 .trn1h 0 16 18, .op2 .trn2h 2 16 18, .op2 .trn1h 1 17 19, .op2 .trn2h 3 17 19,
    .op2 .trn1h 4 20 22, .op2 .trn2h 6 20 22, .op2 .trn1h 5 21 23, .op2 .trn2h 7 21 23, .op2 .trn1s 16 0 4,
    .op2 .trn2s 20 0 4, .op2 .trn1s 17 1 5, .op2 .trn2s 21 1 5, .op2 .trn1s 18 2 6, .op2 .trn2s 22 2 6,
    .op2 .trn1s 19 3 7, .op2 .trn2s 23 3 7, .op2 .uaddw 8 8 16, .op2 .uaddw 9 9 17, .op2 .uaddw 10 10 18,
    .op2 .uaddw 11 11 19, .op2 .uaddw 12 12 20, .op2 .uaddw 13 13 21, .op2 .uaddw 14 14 22,
    .op2 .uaddw 15 15 23, .st1 4 2 [16, 17, 18, 19] .out (.imm 32), .st1 4 2 [20, 21, 22, 23] .out (.imm 32),
    .ins 0 .mulSum, .dupW 1 .addSum, .op1 .uaddlp 8 8, .op1 .uaddlp 9 9, .op1 .uaddlp 10 10,
    .op1 .uaddlp 11 11, .op1 .uaddlp 12 12, .op1 .uaddlp 13 13, .op1 .uaddlp 14 14, .op1 .uaddlp 15 15,
    .op2 .addp 8 8 9, .op2 .addp 10 10 11, .op2 .addp 12 12 13, .op2 .addp 14 14 15, .op2 .addp 8 8 10,
    .op2 .addp 9 12 14, .mulLane 8 8 0 0, .mulLane 9 9 0 0, .op2 .add 8 8 1, .op2 .add 9 9 1,
    .st1 4 4 [8, 9] .out (.imm 0)] }

/-- meta/streams_arm_64.h:12117-12264. -/
def col8x7 : Prog :=
  { init := [.movi 8, .movi 9, .movi 10, .movi 11, .movi 12, .movi 13, .movi 14, .movi 15, .subs .count 7]
    skip := true
    body := [.subs .count 8, .ld1 8 [0] .inp (.reg .stride), .ld1 8 [1] .inp (.reg .stride),
    .ld1 8 [2] .inp (.reg .stride), .ld1 8 [3] .inp (.reg .stride), .ld1 8 [4] .inp (.reg .stride),
    .ld1 8 [5] .inp (.reg .stride), .ld1 8 [6] .inp (.reg .stride), .ld1 8 [7] .inp (.reg .stride),
    .op2 .trn1b 16 0 1, .op2 .trn2b 17 0 1, .op2 .trn1b 18 2 3, .op2 .trn2b 19 2 3, .op2 .trn1b 20 4 5,
    .op2 .trn2b 21 4 5, .op2 .trn1b 22 6 7, .op2 .trn2b 23 6 7, .op2 .trn1h 0 16 18, .op2 .trn2h 2 16 18,
    .op2 .trn1h 1 17 19, .op2 .trn2h 3 17 19, .op2 .trn1h 4 20 22, .op2 .trn2h 6 20 22, .op2 .trn1h 5 21 23,
    .op2 .trn2h 7 21 23, .op2 .trn1s 16 0 4, .op2 .trn2s 20 0 4, .op2 .trn1s 17 1 5, .op2 .trn2s 21 1 5,
    .op2 .trn1s 18 2 6, .op2 .trn2s 22 2 6, .op2 .trn1s 19 3 7, .op2 .trn2s 23 3 7, .op2 .uaddw 8 8 16,
    .op2 .uaddw 9 9 17, .op2 .uaddw 10 10 18, .op2 .uaddw 11 11 19, .op2 .uaddw 12 12 20, .op2 .uaddw 13 13 21,
    .op2 .uaddw 14 14 22, .op2 .uaddw 15 15 23, .st1 4 2 [16, 17, 18, 19] .out (.imm 32),
    .st1 4 2 [20, 21, 22, 23] .out (.imm 32)]
    cond := .ne
    tail := [.movi 0, .movi 1, .movi 2, .movi 3, .movi 4, .movi 5, .movi 6, .movi 7, .ld1 8 [0] .inp (.reg .stride),
    .ld1 8 [1] .inp (.reg .stride), .ld1 8 [2] .inp (.reg .stride), .ld1 8 [3] .inp (.reg .stride),
    .ld1 8 [4] .inp (.reg .stride), .ld1 8 [5] .inp (.reg .stride), .ld1 8 [6] .inp (.reg .stride),
    .op2 .trn1b 16 0 1, .op2 .trn2b 17 0 1, .op2 .trn1b 18 2 3, .op2 .trn2b 19 2 3, .op2 .trn1b 20 4 5,
    .op2 .trn2b 21 4 5, .op2 .trn1b 22 6 7, .op2 .trn2b 23 6 7, .op2 .trn1h 0 16 18, .op2 .trn2h 2 16 18,
    .op2 .trn1h 1 17 19, .op2 .trn2h 3 17 19, .op2 .trn1h 4 20 22, .op2 .trn2h 6 20 22, .op2 .trn1h 5 21 23,
    .op2 .trn2h 7 21 23, .op2 .trn1s 16 0 4, .op2 .trn2s 20 0 4, .op2 .trn1s 17 1 5, .op2 .trn2s 21 1 5,
    .op2 .trn1s 18 2 6, .op2 .trn2s 22 2 6, .op2 .trn1s 19 3 7, .op2 .trn2s 23 3 7, .op2 .uaddw 8 8 16,
    .op2 .uaddw 9 9 17, .op2 .uaddw 10 10 18, .op2 .uaddw 11 11 19, .op2 .uaddw 12 12 20, .op2 .uaddw 13 13 21,
    .op2 .uaddw 14 14 22, .op2 .uaddw 15 15 23, .st1 4 2 [16, 17, 18, 19] .out (.imm 32),
    .st1 4 2 [20, 21, 22, 23] .out (.imm 32), .ins 0 .mulSum, .dupW 1 .addSum, .op1 .uaddlp 8 8,
    .op1 .uaddlp 9 9, .op1 .uaddlp 10 10, .op1 .uaddlp 11 11, .op1 .uaddlp 12 12, .op1 .uaddlp 13 13,
    .op1 .uaddlp 14 14, .op1 .uaddlp 15 15, .op2 .addp 8 8 9, .op2 .addp 10 10 11, .op2 .addp 12 12 13,
    .op2 .addp 14 14 15, .op2 .addp 8 8 10, .op2 .addp 9 12 14, .mulLane 8 8 0 0, .mulLane 9 9 0 0,
    .op2 .add 8 8 1, .op2 .add 9 9 1, .st1 4 4 [8, 9] .out (.imm 0)] }

/-- The code for a number of lanes and of leftovers (0 to 7): the specialisations of `Stream` for `ColumnMajorWithSum`. -/
def colProg : Nat → Nat → Option Prog
  | 1, 0 => some col1x0
  | 1, 1 => some col1x1
  | 1, 2 => some col1x2
  | 1, 3 => some col1x3
  | 1, 4 => some col1x4
  | 1, 5 => some col1x5
  | 1, 6 => some col1x6
  | 1, 7 => some col1x7
  | 2, 0 => some col2x0
  | 2, 1 => some col2x1
  | 2, 2 => some col2x2
  | 2, 3 => some col2x3
  | 2, 4 => some col2x4
  | 2, 5 => some col2x5
  | 2, 6 => some col2x6
  | 2, 7 => some col2x7
  | 3, 0 => some col3x0
  | 3, 1 => some col3x1
  | 3, 2 => some col3x2
  | 3, 3 => some col3x3
  | 3, 4 => some col3x4
  | 3, 5 => some col3x5
  | 3, 6 => some col3x6
  | 3, 7 => some col3x7
  | 4, 0 => some col4x0
  | 4, 1 => some col4x1
  | 4, 2 => some col4x2
  | 4, 3 => some col4x3
  | 4, 4 => some col4x4
  | 4, 5 => some col4x5
  | 4, 6 => some col4x6
  | 4, 7 => some col4x7
  | 5, 0 => some col5x0
  | 5, 1 => some col5x1
  | 5, 2 => some col5x2
  | 5, 3 => some col5x3
  | 5, 4 => some col5x4
  | 5, 5 => some col5x5
  | 5, 6 => some col5x6
  | 5, 7 => some col5x7
  | 6, 0 => some col6x0
  | 6, 1 => some col6x1
  | 6, 2 => some col6x2
  | 6, 3 => some col6x3
  | 6, 4 => some col6x4
  | 6, 5 => some col6x5
  | 6, 6 => some col6x6
  | 6, 7 => some col6x7
  | 7, 0 => some col7x0
  | 7, 1 => some col7x1
  | 7, 2 => some col7x2
  | 7, 3 => some col7x3
  | 7, 4 => some col7x4
  | 7, 5 => some col7x5
  | 7, 6 => some col7x6
  | 7, 7 => some col7x7
  | 8, 0 => some col8x0
  | 8, 1 => some col8x1
  | 8, 2 => some col8x2
  | 8, 3 => some col8x3
  | 8, 4 => some col8x4
  | 8, 5 => some col8x5
  | 8, 6 => some col8x6
  | 8, 7 => some col8x7
  | _, _ => none

end Gemmlowp.MetaAsm
