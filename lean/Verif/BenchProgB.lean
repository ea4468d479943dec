import Verif.BenchKern
/-!
# standalone/neon-gemm-kernel-benchmark.cc: kernels for 8-bit operands, part B
-/
namespace Gemmlowp.Bench

/-- lines 1784-2045, up to the loop -/
def a64u8Pre : List Ins := [
  ld1_8b 5 .rhs, ld1_8b 6 .rhs, ld1_8b 2 .lhs, ld1_8b 3 .lhs, ld1_8b 4 .lhs, ld_acc 8 0, ld_acc 16 4,
  ld_acc 24 8, ld_acc 9 12, ld_acc 17 16, ld_acc 25 20, ld_acc 10 24, ld_acc 18 28, ld_acc 26 32,
  ld_acc 11 36, ld_acc 19 40, ld_acc 27 44, ld_acc 12 48, ld_acc 20 52, ld_acc 28 56, ld_acc 13 60,
  ld_acc 21 64, ld_acc 29 68, ld_acc 14 72, ld_acc 22 76, ld_acc 30 80, ld_acc 15 84, ld_acc 23 88,
  ld_acc 31 92].flatten

/-- lines 1784-2045, the loop -/
def a64u8Body : List Ins := [
  uxtl 0 5, ld1_8b 5 .rhs, uxtl 1 6, ld1_8b 6 .rhs, uxtl 2 2, uxtl 3 3, uxtl 4 4, umlal 8 2 0 0,
  umlal 9 2 0 1, umlal 10 2 0 2, umlal 11 2 0 3, umlal 12 2 1 0, umlal 13 2 1 1, umlal 14 2 1 2,
  umlal 15 2 1 3, umlal2 8 2 0 4, umlal2 9 2 0 5, umlal2 10 2 0 6, umlal2 11 2 0 7, umlal2 12 2 1 4,
  umlal2 13 2 1 5, umlal2 14 2 1 6, umlal2 15 2 1 7, ld1_8b 2 .lhs, umlal 16 3 0 0, umlal 17 3 0 1,
  umlal 18 3 0 2, umlal 19 3 0 3, umlal 20 3 1 0, umlal 21 3 1 1, umlal 22 3 1 2, umlal 23 3 1 3,
  umlal2 16 3 0 4, umlal2 17 3 0 5, umlal2 18 3 0 6, umlal2 19 3 0 7, umlal2 20 3 1 4, umlal2 21 3 1 5,
  umlal2 22 3 1 6, umlal2 23 3 1 7, ld1_8b 3 .lhs, umlal 24 4 0 0, umlal 25 4 0 1, umlal 26 4 0 2,
  umlal 27 4 0 3, umlal 28 4 1 0, umlal 29 4 1 1, umlal 30 4 1 2, umlal 31 4 1 3, umlal2 24 4 0 4,
  umlal2 25 4 0 5, umlal2 26 4 0 6, umlal2 27 4 0 7, umlal2 28 4 1 4, umlal2 29 4 1 5, umlal2 30 4 1 6,
  umlal2 31 4 1 7, ld1_8b 4 .lhs].flatten

/-- lines 1784-2045, after the loop -/
def a64u8Last : List Ins := [
  uxtl 0 5, uxtl 1 6, uxtl 2 2, uxtl 3 3, uxtl 4 4, umlal 8 2 0 0, umlal 9 2 0 1, umlal 10 2 0 2,
  umlal 11 2 0 3, umlal 12 2 1 0, umlal 13 2 1 1, umlal 14 2 1 2, umlal 15 2 1 3, umlal 16 3 0 0,
  umlal 17 3 0 1, umlal 18 3 0 2, umlal 19 3 0 3, umlal 20 3 1 0, umlal 21 3 1 1, umlal 22 3 1 2,
  umlal 23 3 1 3, umlal 24 4 0 0, umlal 25 4 0 1, umlal 26 4 0 2, umlal 27 4 0 3, umlal 28 4 1 0,
  umlal 29 4 1 1, umlal 30 4 1 2, umlal 31 4 1 3, umlal2 8 2 0 4, umlal2 9 2 0 5, umlal2 10 2 0 6,
  umlal2 11 2 0 7, umlal2 12 2 1 4, umlal2 13 2 1 5, umlal2 14 2 1 6, umlal2 15 2 1 7, umlal2 16 3 0 4,
  umlal2 17 3 0 5, umlal2 18 3 0 6, umlal2 19 3 0 7, umlal2 20 3 1 4, umlal2 21 3 1 5, umlal2 22 3 1 6,
  umlal2 23 3 1 7, umlal2 24 4 0 4, umlal2 25 4 0 5, umlal2 26 4 0 6, umlal2 27 4 0 7, umlal2 28 4 1 4,
  umlal2 29 4 1 5, umlal2 30 4 1 6, umlal2 31 4 1 7].flatten

/-- NEON_64bit_GEMM_Uint8Operands_Uint32Accumulators (lines 1784-2046). -/
def a64u8 : Kern where
  F := ⟨⟨4, 2, .depthMajor, 3, .uint8⟩, ⟨4, 2, .depthMajor, 2, .uint8⟩⟩
  lr := (0, 255)
  rr := (0, 255)
  pre := a64u8Pre
  preStep := 2
  wide := none
  body := a64u8Body
  step := 2
  ge := false
  last := a64u8Last
  outs :=
    [(16, 0), (16, 1), (17, 0), (17, 1), (32, 0), (32, 1), (33, 0), (33, 1), (48, 0), (48, 1), (49, 0),
      (49, 1), (18, 0), (18, 1), (19, 0), (19, 1), (34, 0), (34, 1), (35, 0), (35, 1), (50, 0), (50, 1),
      (51, 0), (51, 1), (20, 0), (20, 1), (21, 0), (21, 1), (36, 0), (36, 1), (37, 0), (37, 1), (52, 0),
      (52, 1), (53, 0), (53, 1), (22, 0), (22, 1), (23, 0), (23, 1), (38, 0), (38, 1), (39, 0), (39, 1),
      (54, 0), (54, 1), (55, 0), (55, 1), (24, 0), (24, 1), (25, 0), (25, 1), (40, 0), (40, 1), (41, 0),
      (41, 1), (56, 0), (56, 1), (57, 0), (57, 1), (26, 0), (26, 1), (27, 0), (27, 1), (42, 0), (42, 1),
      (43, 0), (43, 1), (58, 0), (58, 1), (59, 0), (59, 1), (28, 0), (28, 1), (29, 0), (29, 1), (44, 0),
      (44, 1), (45, 0), (45, 1), (60, 0), (60, 1), (61, 0), (61, 1), (30, 0), (30, 1), (31, 0), (31, 1),
      (46, 0), (46, 1), (47, 0), (47, 1), (62, 0), (62, 1), (63, 0), (63, 1)]
  accs :=
    [⟨16, 4, none⟩, ⟨17, 4, none⟩, ⟨18, 4, none⟩, ⟨19, 4, none⟩, ⟨20, 4, none⟩, ⟨21, 4, none⟩, ⟨22, 4,
      none⟩, ⟨23, 4, none⟩, ⟨24, 4, none⟩, ⟨25, 4, none⟩, ⟨26, 4, none⟩, ⟨27, 4, none⟩, ⟨28, 4, none⟩,
      ⟨29, 4, none⟩, ⟨30, 4, none⟩, ⟨31, 4, none⟩, ⟨32, 4, none⟩, ⟨33, 4, none⟩, ⟨34, 4, none⟩, ⟨35, 4,
      none⟩, ⟨36, 4, none⟩, ⟨37, 4, none⟩, ⟨38, 4, none⟩, ⟨39, 4, none⟩, ⟨40, 4, none⟩, ⟨41, 4, none⟩,
      ⟨42, 4, none⟩, ⟨43, 4, none⟩, ⟨44, 4, none⟩, ⟨45, 4, none⟩, ⟨46, 4, none⟩, ⟨47, 4, none⟩, ⟨48, 4,
      none⟩, ⟨49, 4, none⟩, ⟨50, 4, none⟩, ⟨51, 4, none⟩, ⟨52, 4, none⟩, ⟨53, 4, none⟩, ⟨54, 4, none⟩,
      ⟨55, 4, none⟩, ⟨56, 4, none⟩, ⟨57, 4, none⟩, ⟨58, 4, none⟩, ⟨59, 4, none⟩, ⟨60, 4, none⟩, ⟨61, 4,
      none⟩, ⟨62, 4, none⟩, ⟨63, 4, none⟩]
  keep :=
    [4, 5, 6, 7, 8, 9, 10, 11, 12, 13]
  c0 := 0
  cl := 1
  padL := 0
  padR := 0

/-- lines 2047-2296, up to the loop (with its first pass) -/
def a64NoexpandPre : List Ins := [
  dup_wzr 12, dup_wzr 13, dup_wzr 14, dup_wzr 15, dup_wzr 16, dup_wzr 17, dup_wzr 18, dup_wzr 19,
  dup_wzr 20, dup_wzr 21, dup_wzr 22, dup_wzr 23, dup_wzr 24, dup_wzr 25, dup_wzr 26, dup_wzr 27,
  dup_wzr 28, dup_wzr 29, dup_wzr 30, dup_wzr 31, ld1_16b 0 .rhs, ld1_16b 4 .lhs, umull 6 0 4,
  ld1_16b 1 .rhs, umull 7 1 4, ld1_16b 2 .rhs, umull 8 2 4, ld1_16b 3 .rhs, umull 9 3 4, umull2 10 0 4,
  umull2 11 1 4, ld1_16b 5 .lhs, uadalp 12 6, umull2 6 2 4, uadalp 13 7, umull2 7 3 4, ld1_16b 4 .lhs,
  uadalp 14 8, umull 8 0 5, uadalp 15 9, umull 9 1 5, uadalp 12 10, umull 10 2 5, uadalp 13 11,
  umull 11 3 5, uadalp 14 6, umull2 6 0 5, uadalp 15 7, umull2 7 1 5, uadalp 16 8, umull2 8 2 5,
  uadalp 17 9, umull2 9 3 5, ld1_16b 5 .lhs, uadalp 18 10, umull 10 0 4, uadalp 19 11, umull 11 1 4,
  uadalp 16 6, umull 6 2 4, uadalp 17 7, umull 7 3 4, uadalp 18 8, umull2 8 0 4, uadalp 19 9,
  umull2 9 1 4, uadalp 20 10, umull2 10 2 4, uadalp 21 11, umull2 11 3 4, ld1_16b 4 .lhs, uadalp 22 6,
  umull 6 0 5, uadalp 23 7, umull 7 1 5, uadalp 20 8, umull 8 2 5, uadalp 21 9, umull 9 3 5,
  uadalp 22 10, umull2 10 0 5, uadalp 23 11, umull2 11 1 5, uadalp 24 6, umull2 6 2 5, uadalp 25 7,
  umull2 7 3 5, uadalp 26 8, umull 8 0 4, uadalp 27 9, umull 9 1 4, uadalp 24 10, umull 10 2 4,
  uadalp 25 11, umull 11 3 4, uadalp 26 6, umull2 6 0 4, uadalp 27 7, umull2 7 1 4, uadalp 28 8,
  umull2 8 2 4, uadalp 29 9, umull2 9 3 4, uadalp 30 10, uadalp 31 11, uadalp 28 6, uadalp 29 7,
  uadalp 30 8, uadalp 31 9].flatten

/-- lines 2047-2296, the loop -/
def a64NoexpandBody : List Ins := [
  ld1_16b 0 .rhs, ld1_16b 4 .lhs, umull 6 0 4, ld1_16b 1 .rhs, umull 7 1 4, ld1_16b 2 .rhs,
  umull 8 2 4, ld1_16b 3 .rhs, umull 9 3 4, umull2 10 0 4, umull2 11 1 4, ld1_16b 5 .lhs, uadalp 12 6,
  umull2 6 2 4, uadalp 13 7, umull2 7 3 4, ld1_16b 4 .lhs, uadalp 14 8, umull 8 0 5, uadalp 15 9,
  umull 9 1 5, uadalp 12 10, umull 10 2 5, uadalp 13 11, umull 11 3 5, uadalp 14 6, umull2 6 0 5,
  uadalp 15 7, umull2 7 1 5, uadalp 16 8, umull2 8 2 5, uadalp 17 9, umull2 9 3 5, ld1_16b 5 .lhs,
  uadalp 18 10, umull 10 0 4, uadalp 19 11, umull 11 1 4, uadalp 16 6, umull 6 2 4, uadalp 17 7,
  umull 7 3 4, uadalp 18 8, umull2 8 0 4, uadalp 19 9, umull2 9 1 4, uadalp 20 10, umull2 10 2 4,
  uadalp 21 11, umull2 11 3 4, ld1_16b 4 .lhs, uadalp 22 6, umull 6 0 5, uadalp 23 7, umull 7 1 5,
  uadalp 20 8, umull 8 2 5, uadalp 21 9, umull 9 3 5, uadalp 22 10, umull2 10 0 5, uadalp 23 11,
  umull2 11 1 5, uadalp 24 6, umull2 6 2 5, uadalp 25 7, umull2 7 3 5, uadalp 26 8, umull 8 0 4,
  uadalp 27 9, umull 9 1 4, uadalp 24 10, umull 10 2 4, uadalp 25 11, umull 11 3 4, uadalp 26 6,
  umull2 6 0 4, uadalp 27 7, umull2 7 1 4, uadalp 28 8, umull2 8 2 4, uadalp 29 9, umull2 9 3 4,
  uadalp 30 10, uadalp 31 11, uadalp 28 6, uadalp 29 7, uadalp 30 8, uadalp 31 9].flatten

/-- lines 2047-2296, after the loop -/
def a64NoexpandLast : List Ins := [
  addp 0 12 13, addp 1 14 15, addp 2 16 17, addp 3 18 19, addp 4 20 21, addp 5 22 23, addp 6 24 25,
  addp 7 26 27, addp 8 28 29, addp 9 30 31, addp 10 0 1, addp 11 2 3, addp 12 4 5, addp 13 6 7,
  addp 14 8 9, rowmajorAdd].flatten

/-- NEON_64bit_GEMM_Uint8Operands_Uint32Accumulators_noexpand_A57 (lines 2047-2302). -/
def a64Noexpand : Kern where
  F := ⟨⟨5, 16, .widthMajor, 1, .uint8⟩, ⟨4, 16, .widthMajor, 1, .uint8⟩⟩
  lr := (0, 255)
  rr := (0, 255)
  pre := a64NoexpandPre
  preStep := 16
  wide := none
  body := a64NoexpandBody
  step := 16
  ge := false
  last := a64NoexpandLast
  outs :=
    [(200, 0), (201, 0), (202, 0), (203, 0), (204, 0), (205, 0), (206, 0), (207, 0), (208, 0), (209, 0),
      (210, 0), (211, 0), (212, 0), (213, 0), (214, 0), (215, 0), (216, 0), (217, 0), (218, 0), (219,
      0)]
  accs :=
    [⟨24, 4, none⟩, ⟨25, 4, none⟩, ⟨26, 4, none⟩, ⟨27, 4, none⟩, ⟨28, 4, none⟩, ⟨29, 4, none⟩, ⟨30, 4,
      none⟩, ⟨31, 4, none⟩, ⟨32, 4, none⟩, ⟨33, 4, none⟩, ⟨34, 4, none⟩, ⟨35, 4, none⟩, ⟨36, 4, none⟩,
      ⟨37, 4, none⟩, ⟨38, 4, none⟩, ⟨39, 4, none⟩, ⟨40, 4, none⟩, ⟨41, 4, none⟩, ⟨42, 4, none⟩, ⟨43, 4,
      none⟩, ⟨44, 4, none⟩, ⟨45, 4, none⟩, ⟨46, 4, none⟩, ⟨47, 4, none⟩, ⟨48, 4, none⟩, ⟨49, 4, none⟩,
      ⟨50, 4, none⟩, ⟨51, 4, none⟩, ⟨52, 4, none⟩, ⟨53, 4, none⟩, ⟨54, 4, none⟩, ⟨55, 4, none⟩, ⟨56, 4,
      none⟩, ⟨57, 4, none⟩, ⟨58, 4, none⟩, ⟨59, 4, none⟩, ⟨60, 4, none⟩, ⟨61, 4, none⟩, ⟨62, 4, none⟩,
      ⟨63, 4, none⟩]
  keep :=
    []
  c0 := 1
  cl := 0
  padL := 0
  padR := 0

/-- lines 2303-2561, up to the loop -/
def a64TwoPre : List Ins := [
  ld1_16b 0 .rhs, dup_wzr 16, ld1_16b 1 .rhs, dup_wzr 17, ld1_16b 4 .lhs, dup_wzr 18, ld1_16b 5 .lhs,
  dup_wzr 19, ld1_16b 6 .lhs, dup_wzr 20, ld1_16b 7 .lhs, dup_wzr 21, ld1_16b 2 .rhs, dup_wzr 22,
  ld1_16b 3 .rhs, dup_wzr 23, dup_wzr 24, dup_wzr 25, dup_wzr 26, dup_wzr 27, dup_wzr 28, dup_wzr 29,
  dup_wzr 30, dup_wzr 31, smull 12 0 4, smull 13 1 4, smull 14 0 5, smull 15 1 5, smlal2 12 0 4,
  smlal2 13 1 4, smlal2 14 0 5, smlal2 15 1 5].flatten

/-- lines 2303-2561, the loop -/
def a64TwoBody : List Ins := [
  sadalp 16 12, smull 12 0 6, sadalp 17 13, smull 13 0 7, sadalp 20 14, smull 14 1 6, sadalp 21 15,
  smull 15 1 7, smlal2 12 0 6, smlal2 13 0 7, ld1_16b 0 .rhs, smlal2 14 1 6, smlal2 15 1 7,
  ld1_16b 1 .rhs, sadalp 24 12, smull 12 2 4, sadalp 28 13, smull 13 3 4, sadalp 25 14, smull 14 2 5,
  sadalp 29 15, smull 15 3 5, smlal2 12 2 4, smlal2 13 3 4, ld1_16b 4 .lhs, smlal2 14 2 5,
  smlal2 15 3 5, ld1_16b 5 .lhs, sadalp 18 12, smull 12 2 6, sadalp 19 13, smull 13 2 7, sadalp 22 14,
  smull 14 3 6, sadalp 23 15, smull 15 3 7, smlal2 12 2 6, smlal2 13 2 7, ld1_16b 2 .rhs,
  smlal2 14 3 6, ld1_16b 6 .lhs, smlal2 15 3 7, ld1_16b 7 .lhs, sadalp 26 12, ld1_16b 3 .rhs,
  smull 12 0 4, sadalp 30 13, smull 13 1 4, sadalp 27 14, smull 14 0 5, sadalp 31 15, smull 15 1 5,
  smlal2 12 0 4, smlal2 13 1 4, smlal2 14 0 5, smlal2 15 1 5].flatten

/-- lines 2303-2561, after the loop -/
def a64TwoLast : List Ins := [
  ld_acc 8 0, ld_acc 9 4, ld_acc 10 8, ld_acc 11 12, sadalp 16 12, smull 12 0 6, sadalp 17 13,
  smull 13 0 7, sadalp 20 14, smull 14 1 6, sadalp 21 15, smull 15 1 7, smlal2 12 0 6, smlal2 13 0 7,
  smlal2 14 1 6, smlal2 15 1 7, sadalp 24 12, smull 12 2 4, sadalp 28 13, smull 13 3 4, sadalp 25 14,
  smull 14 2 5, sadalp 29 15, smull 15 3 5, smlal2 12 2 4, smlal2 13 3 4, smlal2 14 2 5, smlal2 15 3 5,
  sadalp 18 12, smull 12 2 6, sadalp 19 13, smull 13 2 7, sadalp 22 14, smull 14 3 6, sadalp 23 15,
  smull 15 3 7, smlal2 12 2 6, smlal2 13 2 7, smlal2 14 3 6, smlal2 15 3 7, sadalp 26 12, sadalp 30 13,
  sadalp 27 14, sadalp 31 15, addp 0 16 20, addp 1 17 21, addp 2 18 22, addp 3 19 23, addp 4 24 28,
  addp 5 25 29, addp 6 26 30, addp 7 27 31, addp 12 0 4, addp 13 1 5, addp 14 2 6, addp 15 3 7,
  add_4s 8 8 12, add_4s 9 9 13, add_4s 10 10 14, add_4s 11 11 15].flatten

/-- NEON_64bit_GEMM_Int8Operands_AccumTwoWithin16Bits (lines 2303-2562). -/
def a64Two : Kern where
  F := ⟨⟨4, 16, .widthMajor, 1, .int8Inputs⟩, ⟨4, 16, .widthMajor, 1, .int8Inputs⟩⟩
  lr := (-128, 127)
  rr := (-127, 127)
  pre := a64TwoPre
  preStep := 16
  wide := none
  body := a64TwoBody
  step := 16
  ge := false
  last := a64TwoLast
  outs :=
    [(16, 0), (16, 1), (17, 0), (17, 1), (18, 0), (18, 1), (19, 0), (19, 1), (20, 0), (20, 1), (21, 0),
      (21, 1), (22, 0), (22, 1), (23, 0), (23, 1)]
  accs :=
    [⟨32, 4, none⟩, ⟨33, 4, none⟩, ⟨34, 4, none⟩, ⟨35, 4, none⟩, ⟨36, 4, none⟩, ⟨37, 4, none⟩, ⟨38, 4,
      none⟩, ⟨39, 4, none⟩, ⟨40, 4, none⟩, ⟨41, 4, none⟩, ⟨42, 4, none⟩, ⟨43, 4, none⟩, ⟨44, 4, none⟩,
      ⟨45, 4, none⟩, ⟨46, 4, none⟩, ⟨47, 4, none⟩, ⟨48, 4, none⟩, ⟨49, 4, none⟩, ⟨50, 4, none⟩, ⟨51, 4,
      none⟩, ⟨52, 4, none⟩, ⟨53, 4, none⟩, ⟨54, 4, none⟩, ⟨55, 4, none⟩, ⟨56, 4, none⟩, ⟨57, 4, none⟩,
      ⟨58, 4, none⟩, ⟨59, 4, none⟩, ⟨60, 4, none⟩, ⟨61, 4, none⟩, ⟨62, 4, none⟩, ⟨63, 4, none⟩]
  keep :=
    [0, 1, 2, 3, 4, 5, 6, 7, 8, 9, 10, 11, 12, 13, 14, 15, 24, 25, 26, 27, 28, 29, 30, 31]
  c0 := 0
  cl := 1
  padL := 0
  padR := 0

end Gemmlowp.Bench
