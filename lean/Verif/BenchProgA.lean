import Verif.BenchKern
/-!
# standalone/neon-gemm-kernel-benchmark.cc: kernels for 8-bit operands, part A
-/
namespace Gemmlowp.Bench

/-- lines 326-513, up to the loop -/
def arm8Pre : List Ins := [
  vld1_8 [0] .rhs, vld1_8 [2] .lhs, vld1_8 [4] .lhs, vld1_8 [6] .lhs, ld_acc 4 0, ld_acc 8 4,
  ld_acc 12 8, ld_acc 5 12, ld_acc 9 16, ld_acc 13 20, ld_acc 6 24, ld_acc 10 28, ld_acc 14 32,
  ld_acc 7 36, ld_acc 11 40, ld_acc 15 44].flatten

/-- lines 326-513, the loop -/
def arm8Body : List Ins := [
  vmovl_u8 0 0, vmovl_u8 1 2, vmovl_u8 2 4, vmovl_u8 3 6, vmlal_u16 4 2 0 0, vmlal_u16 5 2 0 1,
  vmlal_u16 6 2 0 2, vmlal_u16 7 2 0 3, vldr 2 .lhs 0, vmlal_u16 8 4 0 0, vmlal_u16 9 4 0 1,
  vmlal_u16 10 4 0 2, vmlal_u16 11 4 0 3, vldr 4 .lhs 8, vmlal_u16 12 6 0 0, vmlal_u16 13 6 0 1,
  vmlal_u16 14 6 0 2, vmlal_u16 15 6 0 3, vldr 6 .lhs 16, vldr 0 .rhs 0, vmlal_u16 4 3 1 0,
  vmlal_u16 5 3 1 1, add_ptr .lhs 24, vmlal_u16 6 3 1 2, vmlal_u16 7 3 1 3, add_ptr .rhs 8,
  vmlal_u16 8 5 1 0, vmlal_u16 9 5 1 1, vmlal_u16 10 5 1 2, vmlal_u16 11 5 1 3, vmlal_u16 12 7 1 0,
  vmlal_u16 13 7 1 1, vmlal_u16 14 7 1 2, vmlal_u16 15 7 1 3].flatten

/-- lines 326-513, after the loop -/
def arm8Last : List Ins := [
  vmovl_u8 0 0, vmovl_u8 1 2, vmovl_u8 2 4, vmovl_u8 3 6, vmlal_u16 4 2 0 0, vmlal_u16 5 2 0 1,
  vmlal_u16 6 2 0 2, vmlal_u16 7 2 0 3, vmlal_u16 8 4 0 0, vmlal_u16 9 4 0 1, vmlal_u16 10 4 0 2,
  vmlal_u16 11 4 0 3, vmlal_u16 12 6 0 0, vmlal_u16 13 6 0 1, vmlal_u16 14 6 0 2, vmlal_u16 15 6 0 3,
  vmlal_u16 4 3 1 0, vmlal_u16 5 3 1 1, vmlal_u16 6 3 1 2, vmlal_u16 7 3 1 3, vmlal_u16 8 5 1 0,
  vmlal_u16 9 5 1 1, vmlal_u16 10 5 1 2, vmlal_u16 11 5 1 3, vmlal_u16 12 7 1 0, vmlal_u16 13 7 1 1,
  vmlal_u16 14 7 1 2, vmlal_u16 15 7 1 3].flatten

/-- NEON_32bit_GEMM_Uint8Operands_Uint32Accumulators (lines 326-514). -/
def arm8 : Kern where
  F := ⟨⟨4, 2, .depthMajor, 3, .uint8⟩, ⟨4, 2, .depthMajor, 1, .uint8⟩⟩
  lr := (0, 255)
  rr := (0, 255)
  pre := arm8Pre
  preStep := 2
  wide := none
  body := arm8Body
  step := 2
  ge := false
  last := arm8Last
  outs :=
    [(8, 0), (8, 1), (9, 0), (9, 1), (16, 0), (16, 1), (17, 0), (17, 1), (24, 0), (24, 1), (25, 0), (25,
      1), (10, 0), (10, 1), (11, 0), (11, 1), (18, 0), (18, 1), (19, 0), (19, 1), (26, 0), (26, 1), (27,
      0), (27, 1), (12, 0), (12, 1), (13, 0), (13, 1), (20, 0), (20, 1), (21, 0), (21, 1), (28, 0), (28,
      1), (29, 0), (29, 1), (14, 0), (14, 1), (15, 0), (15, 1), (22, 0), (22, 1), (23, 0), (23, 1), (30,
      0), (30, 1), (31, 0), (31, 1)]
  accs :=
    [⟨8, 4, none⟩, ⟨9, 4, none⟩, ⟨10, 4, none⟩, ⟨11, 4, none⟩, ⟨12, 4, none⟩, ⟨13, 4, none⟩, ⟨14, 4,
      none⟩, ⟨15, 4, none⟩, ⟨16, 4, none⟩, ⟨17, 4, none⟩, ⟨18, 4, none⟩, ⟨19, 4, none⟩, ⟨20, 4, none⟩,
      ⟨21, 4, none⟩, ⟨22, 4, none⟩, ⟨23, 4, none⟩, ⟨24, 4, none⟩, ⟨25, 4, none⟩, ⟨26, 4, none⟩, ⟨27, 4,
      none⟩, ⟨28, 4, none⟩, ⟨29, 4, none⟩, ⟨30, 4, none⟩, ⟨31, 4, none⟩]
  keep :=
    [0, 2, 4, 6]
  c0 := 0
  cl := 1
  padL := 0
  padR := 0

/-- lines 515-626, up to the loop (with its first pass) -/
def armNoexpandPre : List Ins := [
  vmov0 0, vmov0 1, vmov0 2, vmov 3 0, vmov 4 1, vmov 5 2, vmov 6 3, vmov 7 4, vmov 8 5,
  vld1_8 [18, 19, 20] .rhs, vld1_8 [21, 22, 23] .lhs, vmull_u8 12 18 21, vmull_u8 13 18 22,
  vmull_u8 14 18 23, vmull_u8 15 19 21, vpadal_u16 0 12, vpadal_u16 1 13, vpadal_u16 2 14,
  vpadal_u16 3 15, vmull_u8 12 19 22, vmull_u8 13 19 23, vmull_u8 14 20 21, vmull_u8 15 20 22,
  vmull_u8 9 20 23, vpadal_u16 4 12, vpadal_u16 5 13, vpadal_u16 6 14, vpadal_u16 7 15, vpadal_u16 8 9].flatten

/-- lines 515-626, the loop -/
def armNoexpandBody : List Ins := [
  vld1_8 [18, 19, 20] .rhs, vld1_8 [21, 22, 23] .lhs, vmull_u8 12 18 21, vmull_u8 13 18 22,
  vmull_u8 14 18 23, vmull_u8 15 19 21, vpadal_u16 0 12, vpadal_u16 1 13, vpadal_u16 2 14,
  vpadal_u16 3 15, vmull_u8 12 19 22, vmull_u8 13 19 23, vmull_u8 14 20 21, vmull_u8 15 20 22,
  vmull_u8 9 20 23, vpadal_u16 4 12, vpadal_u16 5 13, vpadal_u16 6 14, vpadal_u16 7 15, vpadal_u16 8 9].flatten

/-- lines 515-626, after the loop -/
def armNoexpandLast : List Ins := [
  vpadd 0 0 1, vpadd 2 2 3, vpadd 4 4 5, vpadd 6 6 7, vpadd 8 8 9, vpadd 10 10 11, vpadd 12 12 13,
  vpadd 14 14 15, vpadd 16 16 17, vpadd 0 0 2, vpadd 1 4 4, vpadd 6 6 8, vpadd 7 10 10, vpadd 12 12 14,
  vpadd 13 16 16, vld_acc 2 0, vld_acc0 3 2, vld_acc 8 3, vld_acc0 9 5, vld_acc 14 6, vld_acc0 15 8,
  vadd 0 0 1, vadd 3 3 4, vadd 6 6 7].flatten

/-- NEON_32bit_GEMM_Uint8Operands_Uint32Accumulators_noexpand (lines 515-632). -/
def armNoexpand : Kern where
  F := ⟨⟨3, 8, .widthMajor, 1, .uint8⟩, ⟨3, 8, .widthMajor, 1, .uint8⟩⟩
  lr := (0, 255)
  rr := (0, 255)
  pre := armNoexpandPre
  preStep := 8
  wide := none
  body := armNoexpandBody
  step := 8
  ge := false
  last := armNoexpandLast
  outs :=
    [(0, 0), (0, 1), (1, 0), (6, 0), (6, 1), (7, 0), (12, 0), (12, 1), (13, 0)]
  accs :=
    [⟨0, 4, none⟩, ⟨1, 4, none⟩, ⟨2, 4, none⟩, ⟨3, 4, none⟩, ⟨4, 4, none⟩, ⟨5, 4, none⟩, ⟨6, 4, none⟩,
      ⟨7, 4, none⟩, ⟨8, 4, none⟩, ⟨9, 4, none⟩, ⟨10, 4, none⟩, ⟨11, 4, none⟩, ⟨12, 4, none⟩, ⟨13, 4,
      none⟩, ⟨14, 4, none⟩, ⟨15, 4, none⟩, ⟨16, 4, none⟩, ⟨17, 4, none⟩]
  keep :=
    []
  c0 := 1
  cl := 0
  padL := 0
  padR := 0

/-- lines 633-878, up to the loop -/
def armTwoPre : List Ins := [
  vldr 0 .rhs 0, vmov0 8, vldr 4 .lhs 0, vmov0 9, vldr 2 .rhs 16, vmov 10 8, vldr 6 .lhs 16, vmov 11 8,
  vldr 1 .rhs 8, vmov 12 8, vldr 5 .lhs 8, vmov 13 8, vldr 3 .rhs 24, vmov 14 8, vldr 7 .lhs 24,
  vmov 15 8, vmull_s8 4 0 4, add_ptr .rhs 32, vmull_s8 5 2 4, vldr 4 .lhs 32, vmull_s8 6 0 6,
  vmull_s8 7 2 6, vldr 6 .lhs 48, vmlal_s8 4 1 5, vmlal_s8 5 3 5, vldr 5 .lhs 40, vmlal_s8 6 1 7,
  vmlal_s8 7 3 7, vldr 7 .lhs 56, vpadal_s16 8 4, add_ptr .lhs 64, vpadal_s16 9 5, vpadal_s16 10 6,
  vpadal_s16 11 7].flatten

/-- lines 633-878, the loop -/
def armTwoBody : List Ins := [
  vmull_s8 4 0 4, vmull_s8 5 2 4, vldr 4 .lhs 0, vmull_s8 6 0 6, vldr 0 .rhs 0, vmull_s8 7 2 6,
  vldr 2 .rhs 16, vmlal_s8 4 1 5, vldr 6 .lhs 16, vmlal_s8 5 3 5, vldr 5 .lhs 8, vmlal_s8 6 1 7,
  vldr 1 .rhs 8, vmlal_s8 7 3 7, vldr 3 .rhs 24, vpadal_s16 12 4, vldr 7 .lhs 24, vpadal_s16 13 5,
  vpadal_s16 14 6, vpadal_s16 15 7, vmull_s8 4 0 4, add_ptr .rhs 32, vmull_s8 5 2 4, vldr 4 .lhs 32,
  vmull_s8 6 0 6, vmull_s8 7 2 6, vldr 6 .lhs 48, vmlal_s8 4 1 5, vmlal_s8 5 3 5, vldr 5 .lhs 40,
  vmlal_s8 6 1 7, vmlal_s8 7 3 7, vldr 7 .lhs 56, vpadal_s16 8 4, add_ptr .lhs 64, vpadal_s16 9 5,
  vpadal_s16 10 6, vpadal_s16 11 7].flatten

/-- lines 633-878, after the loop -/
def armTwoLast : List Ins := [
  vmull_s8 4 0 4, vmull_s8 5 2 4, vmull_s8 6 0 6, vmull_s8 7 2 6, vmlal_s8 4 1 5, vmlal_s8 5 3 5,
  vmlal_s8 6 1 7, vmlal_s8 7 3 7, vpadal_s16 12 4, vpadal_s16 13 5, vpadal_s16 14 6, vpadal_s16 15 7,
  vpadd 0 16 17, vpadd 1 18 19, vpadd 2 20 21, vpadd 3 22 23, vpadd 4 24 25, vpadd 5 26 27,
  vpadd 6 28 29, vpadd 7 30 31, ld_acc 8 0, vpadd 8 0 2, vpadd 9 4 6, ld_acc 9 4, vpadd 10 1 3,
  vpadd 11 5 7, vadd 4 8 4, vadd 5 9 5].flatten

/-- NEON_32bit_GEMM_Int8Operands_AccumTwoWithin16Bits (lines 633-878). -/
def armTwo : Kern where
  F := ⟨⟨4, 16, .widthMajor, 1, .int8Inputs⟩, ⟨2, 16, .widthMajor, 1, .int8Inputs⟩⟩
  lr := (-128, 127)
  rr := (-127, 127)
  pre := armTwoPre
  preStep := 16
  wide := none
  body := armTwoBody
  step := 16
  ge := false
  last := armTwoLast
  outs :=
    [(8, 0), (8, 1), (9, 0), (9, 1), (10, 0), (10, 1), (11, 0), (11, 1)]
  accs :=
    [⟨16, 4, none⟩, ⟨17, 4, none⟩, ⟨18, 4, none⟩, ⟨19, 4, none⟩, ⟨20, 4, none⟩, ⟨21, 4, none⟩, ⟨22, 4,
      none⟩, ⟨23, 4, none⟩, ⟨24, 4, none⟩, ⟨25, 4, none⟩, ⟨26, 4, none⟩, ⟨27, 4, none⟩, ⟨28, 4, none⟩,
      ⟨29, 4, none⟩, ⟨30, 4, none⟩, ⟨31, 4, none⟩]
  keep :=
    [0, 1, 2, 3, 4, 5, 6, 7]
  c0 := 0
  cl := 1
  padL := 0
  padR := 0

end Gemmlowp.Bench
