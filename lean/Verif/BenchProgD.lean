import Verif.BenchKern
/-!
# standalone/neon-gemm-kernel-benchmark.cc: kernels for 8-bit operands, part D
-/
namespace Gemmlowp.Bench

/-- lines 4911-5123, up to the loop (with its first pass) -/
def msa1Pre : List Ins := [
  ld_acc 0 0, ld_acc 4 4, ld_acc 8 8, ld_acc 1 12, ld_acc 5 16, ld_acc 9 20, ld_acc 2 24, ld_acc 6 28,
  ld_acc 10 32, ld_acc 3 36, ld_acc 7 40, ld_acc 11 44, ld_acc 12 48, ld_acc 16 52, ld_acc 20 56,
  ld_acc 13 60, ld_acc 17 64, ld_acc 21 68, ld_acc 14 72, ld_acc 18 76, ld_acc 22 80, ld_acc 15 84,
  ld_acc 19 88, ld_acc 23 92, ldi0 31, ld_b 24 0 .lhs, ld_b 25 8 .lhs, lbu 4 0 .rhs, lbu 5 1 .rhs,
  lbu 6 2 .rhs, lbu 7 3 .rhs, lbu 2 4 .rhs, lbu 3 5 .rhs, lbu 24 6 .rhs, lbu 25 7 .rhs,
  ilvr_b 24 31 24, ilvl_b 26 31 25, ilvr_b 25 31 25, ilvl_d 27 31 24, ilvl_d 28 31 25, ilvl_d 29 31 26,
  ilvr_h 24 27 24, ilvr_h 25 28 25, ilvr_h 26 29 26, ins_16_8 4 2, ins_16_8 5 3, ins_16_8 6 24,
  ins_16_8 7 25, fill_w 27 4, fill_w 28 5, fill_w 29 6, fill_w 30 7, lbu 4 8 .rhs, lbu 5 9 .rhs,
  lbu 6 10 .rhs, lbu 7 11 .rhs, lbu 2 12 .rhs, lbu 3 13 .rhs, lbu 24 14 .rhs, lbu 25 15 .rhs,
  dpadd_u 0 24 27, dpadd_u 4 25 27, dpadd_u 8 26 27, dpadd_u 1 24 28, dpadd_u 5 25 28, dpadd_u 9 26 28,
  dpadd_u 2 24 29, dpadd_u 6 25 29, dpadd_u 10 26 29, dpadd_u 3 24 30, dpadd_u 7 25 30,
  dpadd_u 11 26 30, ins_16_8 4 2, ins_16_8 5 3, ins_16_8 6 24, ins_16_8 7 25, fill_w 27 4, fill_w 28 5,
  fill_w 29 6, fill_w 30 7, dpadd_u 12 24 27, dpadd_u 16 25 27, dpadd_u 20 26 27, dpadd_u 13 24 28,
  dpadd_u 17 25 28, dpadd_u 21 26 28, dpadd_u 14 24 29, dpadd_u 18 25 29, dpadd_u 22 26 29,
  dpadd_u 15 24 30, dpadd_u 19 25 30, dpadd_u 23 26 30, add_ptr .lhs 24, add_ptr .rhs 16].flatten

/-- lines 4911-5123, the loop -/
def msa1Body : List Ins := [
  ld_b 24 0 .lhs, ld_b 25 8 .lhs, lbu 4 0 .rhs, lbu 5 1 .rhs, lbu 6 2 .rhs, lbu 7 3 .rhs, lbu 2 4 .rhs,
  lbu 3 5 .rhs, lbu 24 6 .rhs, lbu 25 7 .rhs, ilvr_b 24 31 24, ilvl_b 26 31 25, ilvr_b 25 31 25,
  ilvl_d 27 31 24, ilvl_d 28 31 25, ilvl_d 29 31 26, ilvr_h 24 27 24, ilvr_h 25 28 25, ilvr_h 26 29 26,
  ins_16_8 4 2, ins_16_8 5 3, ins_16_8 6 24, ins_16_8 7 25, fill_w 27 4, fill_w 28 5, fill_w 29 6,
  fill_w 30 7, lbu 4 8 .rhs, lbu 5 9 .rhs, lbu 6 10 .rhs, lbu 7 11 .rhs, lbu 2 12 .rhs, lbu 3 13 .rhs,
  lbu 24 14 .rhs, lbu 25 15 .rhs, dpadd_u 0 24 27, dpadd_u 4 25 27, dpadd_u 8 26 27, dpadd_u 1 24 28,
  dpadd_u 5 25 28, dpadd_u 9 26 28, dpadd_u 2 24 29, dpadd_u 6 25 29, dpadd_u 10 26 29,
  dpadd_u 3 24 30, dpadd_u 7 25 30, dpadd_u 11 26 30, ins_16_8 4 2, ins_16_8 5 3, ins_16_8 6 24,
  ins_16_8 7 25, fill_w 27 4, fill_w 28 5, fill_w 29 6, fill_w 30 7, dpadd_u 12 24 27,
  dpadd_u 16 25 27, dpadd_u 20 26 27, dpadd_u 13 24 28, dpadd_u 17 25 28, dpadd_u 21 26 28,
  dpadd_u 14 24 29, dpadd_u 18 25 29, dpadd_u 22 26 29, dpadd_u 15 24 30, dpadd_u 19 25 30,
  dpadd_u 23 26 30, add_ptr .lhs 24, add_ptr .rhs 16].flatten

/-- lines 4911-5123, after the loop -/
def msa1Last : List Ins := [
  ].flatten

/-- MSA_GEMM_12x8_Uint8Operands_Uint32Accumulators1 (lines 4911-5124). -/
def msa1 : Kern where
  F := ⟨⟨4, 2, .depthMajor, 3, .uint8⟩, ⟨4, 2, .depthMajor, 2, .uint8⟩⟩
  lr := (0, 255)
  rr := (0, 255)
  pre := msa1Pre
  preStep := 2
  wide := none
  body := msa1Body
  step := 2
  ge := false
  last := msa1Last
  outs :=
    [(0, 0), (0, 1), (1, 0), (1, 1), (8, 0), (8, 1), (9, 0), (9, 1), (16, 0), (16, 1), (17, 0), (17, 1),
      (2, 0), (2, 1), (3, 0), (3, 1), (10, 0), (10, 1), (11, 0), (11, 1), (18, 0), (18, 1), (19, 0),
      (19, 1), (4, 0), (4, 1), (5, 0), (5, 1), (12, 0), (12, 1), (13, 0), (13, 1), (20, 0), (20, 1),
      (21, 0), (21, 1), (6, 0), (6, 1), (7, 0), (7, 1), (14, 0), (14, 1), (15, 0), (15, 1), (22, 0),
      (22, 1), (23, 0), (23, 1), (24, 0), (24, 1), (25, 0), (25, 1), (32, 0), (32, 1), (33, 0), (33, 1),
      (40, 0), (40, 1), (41, 0), (41, 1), (26, 0), (26, 1), (27, 0), (27, 1), (34, 0), (34, 1), (35, 0),
      (35, 1), (42, 0), (42, 1), (43, 0), (43, 1), (28, 0), (28, 1), (29, 0), (29, 1), (36, 0), (36, 1),
      (37, 0), (37, 1), (44, 0), (44, 1), (45, 0), (45, 1), (30, 0), (30, 1), (31, 0), (31, 1), (38, 0),
      (38, 1), (39, 0), (39, 1), (46, 0), (46, 1), (47, 0), (47, 1)]
  accs :=
    [⟨0, 4, none⟩, ⟨1, 4, none⟩, ⟨2, 4, none⟩, ⟨3, 4, none⟩, ⟨4, 4, none⟩, ⟨5, 4, none⟩, ⟨6, 4, none⟩,
      ⟨7, 4, none⟩, ⟨8, 4, none⟩, ⟨9, 4, none⟩, ⟨10, 4, none⟩, ⟨11, 4, none⟩, ⟨12, 4, none⟩, ⟨13, 4,
      none⟩, ⟨14, 4, none⟩, ⟨15, 4, none⟩, ⟨16, 4, none⟩, ⟨17, 4, none⟩, ⟨18, 4, none⟩, ⟨19, 4, none⟩,
      ⟨20, 4, none⟩, ⟨21, 4, none⟩, ⟨22, 4, none⟩, ⟨23, 4, none⟩, ⟨24, 4, none⟩, ⟨25, 4, none⟩, ⟨26, 4,
      none⟩, ⟨27, 4, none⟩, ⟨28, 4, none⟩, ⟨29, 4, none⟩, ⟨30, 4, none⟩, ⟨31, 4, none⟩, ⟨32, 4, none⟩,
      ⟨33, 4, none⟩, ⟨34, 4, none⟩, ⟨35, 4, none⟩, ⟨36, 4, none⟩, ⟨37, 4, none⟩, ⟨38, 4, none⟩, ⟨39, 4,
      none⟩, ⟨40, 4, none⟩, ⟨41, 4, none⟩, ⟨42, 4, none⟩, ⟨43, 4, none⟩, ⟨44, 4, none⟩, ⟨45, 4, none⟩,
      ⟨46, 4, none⟩, ⟨47, 4, none⟩]
  keep :=
    [62, 63]
  c0 := 1
  cl := 0
  padL := 0
  padR := 0

/-- lines 5125-5304, up to the loop (with its first pass) -/
def msa2Pre : List Ins := [
  ld_acc 0 0, ld_acc 4 4, ld_acc 8 8, ld_acc 1 12, ld_acc 5 16, ld_acc 9 20, ld_acc 2 24, ld_acc 6 28,
  ld_acc 10 32, ld_acc 3 36, ld_acc 7 40, ld_acc 11 44, ld_acc 12 48, ld_acc 16 52, ld_acc 20 56,
  ld_acc 13 60, ld_acc 17 64, ld_acc 21 68, ld_acc 14 72, ld_acc 18 76, ld_acc 22 80, ld_acc 15 84,
  ld_acc 19 88, ld_acc 23 92, ld_b 24 0 .lhs, ld_b 25 8 .lhs, ld_b 27 0 .rhs, ldi0 31, ilvr_b 24 31 24,
  ilvl_b 26 31 25, ilvr_b 25 31 25, ilvr_b 31 31 27, splati_w 28 31 0, splati_w 29 31 1,
  splati_w 30 31 2, splati_w 31 31 3, dpadd_u 0 24 28, dpadd_u 4 25 28, dpadd_u 8 26 28,
  dpadd_u 1 24 29, dpadd_u 5 25 29, dpadd_u 9 26 29, dpadd_u 2 24 30, dpadd_u 6 25 30,
  dpadd_u 10 26 30, dpadd_u 3 24 31, dpadd_u 7 25 31, dpadd_u 11 26 31, ldi0 31, ilvl_b 31 31 27,
  splati_w 28 31 0, splati_w 29 31 1, splati_w 30 31 2, splati_w 31 31 3, dpadd_u 12 24 28,
  dpadd_u 16 25 28, dpadd_u 20 26 28, dpadd_u 13 24 29, dpadd_u 17 25 29, dpadd_u 21 26 29,
  dpadd_u 14 24 30, dpadd_u 18 25 30, dpadd_u 22 26 30, dpadd_u 15 24 31, dpadd_u 19 25 31,
  dpadd_u 23 26 31, add_ptr .lhs 24, add_ptr .rhs 16].flatten

/-- lines 5125-5304, the loop -/
def msa2Body : List Ins := [
  ld_b 24 0 .lhs, ld_b 25 8 .lhs, ld_b 27 0 .rhs, ldi0 31, ilvr_b 24 31 24, ilvl_b 26 31 25,
  ilvr_b 25 31 25, ilvr_b 31 31 27, splati_w 28 31 0, splati_w 29 31 1, splati_w 30 31 2,
  splati_w 31 31 3, dpadd_u 0 24 28, dpadd_u 4 25 28, dpadd_u 8 26 28, dpadd_u 1 24 29,
  dpadd_u 5 25 29, dpadd_u 9 26 29, dpadd_u 2 24 30, dpadd_u 6 25 30, dpadd_u 10 26 30,
  dpadd_u 3 24 31, dpadd_u 7 25 31, dpadd_u 11 26 31, ldi0 31, ilvl_b 31 31 27, splati_w 28 31 0,
  splati_w 29 31 1, splati_w 30 31 2, splati_w 31 31 3, dpadd_u 12 24 28, dpadd_u 16 25 28,
  dpadd_u 20 26 28, dpadd_u 13 24 29, dpadd_u 17 25 29, dpadd_u 21 26 29, dpadd_u 14 24 30,
  dpadd_u 18 25 30, dpadd_u 22 26 30, dpadd_u 15 24 31, dpadd_u 19 25 31, dpadd_u 23 26 31,
  add_ptr .lhs 24, add_ptr .rhs 16].flatten

/-- lines 5125-5304, after the loop -/
def msa2Last : List Ins := [
  ].flatten

/-- MSA_GEMM_12x8_Uint8Operands_Uint32Accumulators2 (lines 5125-5305). -/
def msa2 : Kern where
  F := ⟨⟨4, 2, .widthMajor, 3, .uint8⟩, ⟨4, 2, .widthMajor, 2, .uint8⟩⟩
  lr := (0, 255)
  rr := (0, 255)
  pre := msa2Pre
  preStep := 2
  wide := none
  body := msa2Body
  step := 2
  ge := false
  last := msa2Last
  outs :=
    [(0, 0), (0, 1), (1, 0), (1, 1), (8, 0), (8, 1), (9, 0), (9, 1), (16, 0), (16, 1), (17, 0), (17, 1),
      (2, 0), (2, 1), (3, 0), (3, 1), (10, 0), (10, 1), (11, 0), (11, 1), (18, 0), (18, 1), (19, 0),
      (19, 1), (4, 0), (4, 1), (5, 0), (5, 1), (12, 0), (12, 1), (13, 0), (13, 1), (20, 0), (20, 1),
      (21, 0), (21, 1), (6, 0), (6, 1), (7, 0), (7, 1), (14, 0), (14, 1), (15, 0), (15, 1), (22, 0),
      (22, 1), (23, 0), (23, 1), (24, 0), (24, 1), (25, 0), (25, 1), (32, 0), (32, 1), (33, 0), (33, 1),
      (40, 0), (40, 1), (41, 0), (41, 1), (26, 0), (26, 1), (27, 0), (27, 1), (34, 0), (34, 1), (35, 0),
      (35, 1), (42, 0), (42, 1), (43, 0), (43, 1), (28, 0), (28, 1), (29, 0), (29, 1), (36, 0), (36, 1),
      (37, 0), (37, 1), (44, 0), (44, 1), (45, 0), (45, 1), (30, 0), (30, 1), (31, 0), (31, 1), (38, 0),
      (38, 1), (39, 0), (39, 1), (46, 0), (46, 1), (47, 0), (47, 1)]
  accs :=
    [⟨0, 4, none⟩, ⟨1, 4, none⟩, ⟨2, 4, none⟩, ⟨3, 4, none⟩, ⟨4, 4, none⟩, ⟨5, 4, none⟩, ⟨6, 4, none⟩,
      ⟨7, 4, none⟩, ⟨8, 4, none⟩, ⟨9, 4, none⟩, ⟨10, 4, none⟩, ⟨11, 4, none⟩, ⟨12, 4, none⟩, ⟨13, 4,
      none⟩, ⟨14, 4, none⟩, ⟨15, 4, none⟩, ⟨16, 4, none⟩, ⟨17, 4, none⟩, ⟨18, 4, none⟩, ⟨19, 4, none⟩,
      ⟨20, 4, none⟩, ⟨21, 4, none⟩, ⟨22, 4, none⟩, ⟨23, 4, none⟩, ⟨24, 4, none⟩, ⟨25, 4, none⟩, ⟨26, 4,
      none⟩, ⟨27, 4, none⟩, ⟨28, 4, none⟩, ⟨29, 4, none⟩, ⟨30, 4, none⟩, ⟨31, 4, none⟩, ⟨32, 4, none⟩,
      ⟨33, 4, none⟩, ⟨34, 4, none⟩, ⟨35, 4, none⟩, ⟨36, 4, none⟩, ⟨37, 4, none⟩, ⟨38, 4, none⟩, ⟨39, 4,
      none⟩, ⟨40, 4, none⟩, ⟨41, 4, none⟩, ⟨42, 4, none⟩, ⟨43, 4, none⟩, ⟨44, 4, none⟩, ⟨45, 4, none⟩,
      ⟨46, 4, none⟩, ⟨47, 4, none⟩]
  keep :=
    []
  c0 := 1
  cl := 0
  padL := 0
  padR := 0

end Gemmlowp.Bench
