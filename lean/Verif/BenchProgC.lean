import Verif.BenchKern
/-!
# standalone/neon-gemm-kernel-benchmark.cc: kernels for 8-bit operands, part C
-/
namespace Gemmlowp.Bench

/-- lines 2563-2803, up to the loop -/
def a64NarrowPre : List Ins := [
  ld1_16b 0 .rhs, dup_wzr 16, ld1_16b 1 .rhs, dup_wzr 17, ld1_16b 4 .lhs, dup_wzr 18, ld1_16b 5 .lhs,
  dup_wzr 19, ld1_16b 6 .lhs, dup_wzr 20, ld1_16b 7 .lhs, dup_wzr 21, ld1_16b 2 .rhs, dup_wzr 22,
  ld1_16b 3 .rhs, dup_wzr 23, dup_wzr 24, dup_wzr 25, dup_wzr 26, dup_wzr 27, dup_wzr 28, dup_wzr 29,
  dup_wzr 30, dup_wzr 31].flatten

/-- lines 2563-2803, the first loop -/
def a64NarrowWide : List Ins := [
  ld1_16b 12 .lhs, word 0x6e809490#32, word 0x6e819491#32, ld1_16b 13 .lhs, word 0x6e829492#32,
  word 0x6e839493#32, ld1_16b 8 .rhs, word 0x6e8094b4#32, word 0x6e8194b5#32, ld1_16b 9 .rhs,
  word 0x6e8294b6#32, word 0x6e8394b7#32, ld1_16b 10 .rhs, word 0x6e8094d8#32, word 0x6e8194d9#32,
  ld1_16b 11 .rhs, word 0x6e8294da#32, word 0x6e8394db#32, ld1_16b 14 .lhs, word 0x6e8094fc#32,
  word 0x6e8194fd#32, ld1_16b 15 .lhs, word 0x6e8294fe#32, word 0x6e8394ff#32, ld1_16b 4 .lhs,
  word 0x6e889590#32, word 0x6e899591#32, ld1_16b 5 .lhs, word 0x6e8a9592#32, word 0x6e8b9593#32,
  ld1_16b 6 .lhs, word 0x6e8895b4#32, word 0x6e8995b5#32, ld1_16b 0 .rhs, word 0x6e8a95b6#32,
  word 0x6e8b95b7#32, ld1_16b 1 .rhs, word 0x6e8895d8#32, word 0x6e8995d9#32, ld1_16b 2 .rhs,
  word 0x6e8a95da#32, word 0x6e8b95db#32, ld1_16b 3 .rhs, word 0x6e8895fc#32, word 0x6e8995fd#32,
  ld1_16b 7 .lhs, word 0x6e8a95fe#32, word 0x6e8b95ff#32].flatten

/-- lines 2563-2803, the loop -/
def a64NarrowBody : List Ins := [
  word 0x6e809490#32, word 0x6e819491#32, word 0x6e829492#32, word 0x6e839493#32, ld1_16b 4 .lhs,
  word 0x6e8094b4#32, word 0x6e8194b5#32, word 0x6e8294b6#32, word 0x6e8394b7#32, ld1_16b 5 .lhs,
  word 0x6e8094d8#32, word 0x6e8194d9#32, word 0x6e8294da#32, word 0x6e8394db#32, ld1_16b 6 .lhs,
  word 0x6e8094fc#32, ld1_16b 0 .rhs, word 0x6e8194fd#32, ld1_16b 1 .rhs, word 0x6e8294fe#32,
  ld1_16b 2 .rhs, word 0x6e8394ff#32, ld1_16b 3 .rhs, ld1_16b 7 .lhs].flatten

/-- lines 2563-2803, after the loop -/
def a64NarrowLast : List Ins := [
  word 0x6e809490#32, word 0x6e819491#32, word 0x6e829492#32, word 0x6e839493#32, word 0x6e8094b4#32,
  word 0x6e8194b5#32, word 0x6e8294b6#32, word 0x6e8394b7#32, word 0x6e8094d8#32, word 0x6e8194d9#32,
  word 0x6e8294da#32, word 0x6e8394db#32, word 0x6e8094fc#32, word 0x6e8194fd#32, word 0x6e8294fe#32,
  word 0x6e8394ff#32, ld_acc 8 0, ld_acc 9 4, ld_acc 10 8, ld_acc 11 12, addp 0 16 20, addp 1 17 21,
  addp 2 18 22, addp 3 19 23, addp 4 24 28, addp 5 25 29, addp 6 26 30, addp 7 27 31, addp 12 0 4,
  addp 13 1 5, addp 14 2 6, addp 15 3 7, add_4s 8 8 12, add_4s 9 9 13, add_4s 10 10 14, add_4s 11 11 15].flatten

/-- NEON_64bit_GEMM_Uint8Operands_Uint32Accumulators_dotproduct_narrow (lines 2563-2804). -/
def a64Narrow : Kern where
  F := ⟨⟨4, 16, .widthMajor, 1, .uint8⟩, ⟨4, 16, .widthMajor, 1, .uint8⟩⟩
  lr := (0, 255)
  rr := (0, 255)
  pre := a64NarrowPre
  preStep := 16
  wide := some (a64NarrowWide, 32)
  body := a64NarrowBody
  step := 16
  ge := false
  last := a64NarrowLast
  outs :=
    [(16, 0), (16, 1), (17, 0), (17, 1), (18, 0), (18, 1), (19, 0), (19, 1), (20, 0), (20, 1), (21, 0),
      (21, 1), (22, 0), (22, 1), (23, 0), (23, 1)]
  accs :=
    [⟨32, 4, none⟩, ⟨33, 4, none⟩, ⟨34, 4, none⟩, ⟨35, 4, none⟩, ⟨36, 4, none⟩, ⟨37, 4, none⟩, ⟨38, 4,
      none⟩, ⟨39, 4, none⟩, ⟨40, 4, none⟩, ⟨41, 4, none⟩, ⟨42, 4, none⟩, ⟨43, 4, none⟩, ⟨44, 4, none⟩,
      ⟨45, 4, none⟩, ⟨46, 4, none⟩, ⟨47, 4, none⟩, ⟨48, 4, none⟩, ⟨49, 4, none⟩, ⟨50, 4, none⟩, ⟨51, 4,
      none⟩, ⟨52, 4, none⟩, ⟨53, 4, none⟩, ⟨54, 4, none⟩, ⟨55, 4, none⟩, ⟨56, 4, none⟩, ⟨57, 4, none⟩,
      ⟨58, 4, none⟩, ⟨59, 4, none⟩, ⟨60, 4, none⟩, ⟨61, 4, none⟩, ⟨62, 4, none⟩, ⟨63, 4, none⟩]
  keep :=
    [0, 1, 2, 3, 4, 5, 6, 7, 8, 9, 10, 11, 12, 13, 14, 15]
  c0 := 0
  cl := 1
  padL := 0
  padR := 0

/-- lines 2805-3113, up to the loop -/
def a64SevenPre : List Ins := [
  dup_wzr 16, ld1_16b 0 .lhs, dup_wzr 24, ld1_16b 1 .lhs, dup_wzr 17, ld1_16b 2 .lhs, dup_wzr 25,
  ld1_16b 3 .lhs, dup_wzr 18, ld1_16b 8 .rhs, dup_wzr 26, ld1_16b 9 .rhs, dup_wzr 19, dup_wzr 27,
  dup_wzr 20, dup_wzr 28, dup_wzr 21, dup_wzr 29, dup_wzr 22, dup_wzr 30, dup_wzr 23, dup_wzr 31].flatten

/-- lines 2805-3113, the first loop -/
def a64SevenWide : List Ins := [
  ld1_16b 4 .lhs, sadalp 24 16, smull 16 0 8, ld1_16b 5 .lhs, sadalp 25 17, smull 17 1 8,
  ld1_16b 6 .lhs, sadalp 26 18, smull 18 2 8, ld1_16b 7 .lhs, sadalp 27 19, smull 19 3 8,
  ld1_16b 10 .rhs, sadalp 28 20, smull 20 0 9, ld1_16b 11 .rhs, sadalp 29 21, smull 21 1 9,
  ld1_16b 12 .rhs, sadalp 30 22, smull 22 2 9, ld1_16b 13 .rhs, sadalp 31 23, smull 23 3 9,
  smlal2 16 0 8, ld1_16b 14 .rhs, smlal2 17 1 8, ld1_16b 15 .rhs, smlal2 18 2 8, smlal2 19 3 8,
  smlal2 20 0 9, ld1_16b 0 .lhs, smlal2 21 1 9, ld1_16b 1 .lhs, smlal2 22 2 9, ld1_16b 2 .lhs,
  smlal2 23 3 9, ld1_16b 3 .lhs, smlal 16 4 10, smlal 17 5 10, smlal 18 6 10, smlal 19 7 10,
  smlal 20 4 11, smlal 21 5 11, smlal 22 6 11, smlal 23 7 11, smlal2 16 4 10, ld1_16b 8 .rhs,
  smlal2 17 5 10, ld1_16b 9 .rhs, smlal2 18 6 10, smlal2 19 7 10, smlal2 20 4 11, ld1_16b 4 .lhs,
  smlal2 21 5 11, ld1_16b 5 .lhs, smlal2 22 6 11, ld1_16b 6 .lhs, smlal2 23 7 11, ld1_16b 7 .lhs,
  smlal 16 0 12, smlal 17 1 12, smlal 18 2 12, smlal 19 3 12, smlal 20 0 13, smlal 21 1 13,
  smlal 22 2 13, smlal 23 3 13, smlal2 16 0 12, smlal2 17 1 12, smlal2 18 2 12, smlal2 19 3 12,
  smlal2 20 0 13, ld1_16b 0 .lhs, smlal2 21 1 13, ld1_16b 1 .lhs, smlal2 22 2 13, ld1_16b 2 .lhs,
  smlal2 23 3 13, ld1_16b 3 .lhs, smlal 16 4 14, smlal 17 5 14, smlal 18 6 14, smlal 19 7 14,
  smlal 20 4 15, smlal 21 5 15, smlal 22 6 15, smlal 23 7 15, smlal2 16 4 14, smlal2 17 5 14,
  smlal2 18 6 14, smlal2 19 7 14, smlal2 20 4 15, smlal2 21 5 15, smlal2 22 6 15, smlal2 23 7 15].flatten

/-- lines 2805-3113, the loop -/
def a64SevenBody : List Ins := [
  sadalp 24 16, smull 16 0 8, sadalp 25 17, smull 17 1 8, sadalp 26 18, smull 18 2 8, sadalp 27 19,
  smull 19 3 8, sadalp 28 20, smull 20 0 9, sadalp 29 21, smull 21 1 9, sadalp 30 22, smull 22 2 9,
  sadalp 31 23, smull 23 3 9, smlal2 16 0 8, smlal2 17 1 8, smlal2 18 2 8, smlal2 19 3 8,
  ld1_16b 8 .rhs, smlal2 20 0 9, ld1_16b 0 .lhs, smlal2 21 1 9, ld1_16b 1 .lhs, smlal2 22 2 9,
  ld1_16b 2 .lhs, smlal2 23 3 9, ld1_16b 3 .lhs, ld1_16b 9 .rhs].flatten

/-- lines 2805-3113, after the loop -/
def a64SevenLast : List Ins := [
  sadalp 24 16, sadalp 25 17, sadalp 26 18, sadalp 27 19, sadalp 28 20, sadalp 29 21, sadalp 30 22,
  sadalp 31 23, addp 0 24 25, addp 1 26 27, addp 2 28 29, addp 3 30 31, addp 4 0 1, addp 5 2 3,
  ld_acc 6 0, ld_acc 7 4, add_4s 6 6 4, add_4s 7 7 5].flatten

/-- NEON_64bit_GEMM_Int7Operands_AccumEightWithin16Bits (lines 2805-3116). -/
def a64Seven : Kern where
  F := ⟨⟨4, 16, .widthMajor, 1, .int8Inputs⟩, ⟨2, 16, .widthMajor, 1, .int8Inputs⟩⟩
  lr := (-63, 63)
  rr := (-64, 63)
  pre := a64SevenPre
  preStep := 0
  wide := some (a64SevenWide, 64)
  body := a64SevenBody
  step := 16
  ge := true
  last := a64SevenLast
  outs :=
    [(12, 0), (12, 1), (13, 0), (13, 1), (14, 0), (14, 1), (15, 0), (15, 1)]
  accs :=
    [⟨32, 2, some (-32768, 32767)⟩, ⟨33, 2, some (-32768, 32767)⟩, ⟨34, 2, some (-32768, 32767)⟩, ⟨35,
      2, some (-32768, 32767)⟩, ⟨36, 2, some (-32768, 32767)⟩, ⟨37, 2, some (-32768, 32767)⟩, ⟨38, 2,
      some (-32768, 32767)⟩, ⟨39, 2, some (-32768, 32767)⟩, ⟨40, 2, some (-32768, 32767)⟩, ⟨41, 2, some
      (-32768, 32767)⟩, ⟨42, 2, some (-32768, 32767)⟩, ⟨43, 2, some (-32768, 32767)⟩, ⟨44, 2, some
      (-32768, 32767)⟩, ⟨45, 2, some (-32768, 32767)⟩, ⟨46, 2, some (-32768, 32767)⟩, ⟨47, 2, some
      (-32768, 32767)⟩, ⟨48, 4, none⟩, ⟨49, 4, none⟩, ⟨50, 4, none⟩, ⟨51, 4, none⟩, ⟨52, 4, none⟩, ⟨53,
      4, none⟩, ⟨54, 4, none⟩, ⟨55, 4, none⟩, ⟨56, 4, none⟩, ⟨57, 4, none⟩, ⟨58, 4, none⟩, ⟨59, 4,
      none⟩, ⟨60, 4, none⟩, ⟨61, 4, none⟩, ⟨62, 4, none⟩, ⟨63, 4, none⟩]
  keep :=
    [0, 1, 2, 3, 4, 5, 6, 7, 16, 17, 18, 19]
  c0 := 0
  cl := 0
  padL := 64
  padR := 32

/-- lines 3391-3520, up to the loop (with its first pass) -/
def a64DotPre : List Ins := [
  ld_acc 8 0, ld_acc 16 4, ld_acc 24 8, ld_acc 9 12, ld_acc 17 16, ld_acc 25 20, ld_acc 10 24,
  ld_acc 18 28, ld_acc 26 32, ld_acc 11 36, ld_acc 19 40, ld_acc 27 44, ld_acc 12 48, ld_acc 20 52,
  ld_acc 28 56, ld_acc 13 60, ld_acc 21 64, ld_acc 29 68, ld_acc 14 72, ld_acc 22 76, ld_acc 30 80,
  ld_acc 15 84, ld_acc 23 88, ld_acc 31 92, ld1_16b 0 .rhs, ld1_16b 2 .lhs, word 0x6f80e048#32,
  word 0x6fa0e049#32, ld1_16b 1 .rhs, word 0x6f80e84a#32, word 0x6fa0e84b#32, ld1_16b 3 .lhs,
  word 0x6f81e04c#32, word 0x6fa1e04d#32, ld1_16b 4 .lhs, word 0x6f81e84e#32, word 0x6fa1e84f#32,
  ld1_16b 2 .lhs, word 0x6f80e070#32, word 0x6fa0e071#32, word 0x6f80e872#32, word 0x6fa0e873#32,
  word 0x6f81e074#32, word 0x6fa1e075#32, word 0x6f81e876#32, word 0x6fa1e877#32, word 0x6f80e098#32,
  word 0x6fa0e099#32, word 0x6f80e89a#32, word 0x6fa0e89b#32, ld1_16b 0 .rhs, word 0x6f81e09c#32,
  word 0x6fa1e09d#32, word 0x6f81e89e#32, word 0x6fa1e89f#32].flatten

/-- lines 3391-3520, the loop -/
def a64DotBody : List Ins := [
  word 0x6f80e048#32, word 0x6fa0e049#32, ld1_16b 1 .rhs, word 0x6f80e84a#32, word 0x6fa0e84b#32,
  ld1_16b 3 .lhs, word 0x6f81e04c#32, word 0x6fa1e04d#32, ld1_16b 4 .lhs, word 0x6f81e84e#32,
  word 0x6fa1e84f#32, ld1_16b 2 .lhs, word 0x6f80e070#32, word 0x6fa0e071#32, word 0x6f80e872#32,
  word 0x6fa0e873#32, word 0x6f81e074#32, word 0x6fa1e075#32, word 0x6f81e876#32, word 0x6fa1e877#32,
  word 0x6f80e098#32, word 0x6fa0e099#32, word 0x6f80e89a#32, word 0x6fa0e89b#32, ld1_16b 0 .rhs,
  word 0x6f81e09c#32, word 0x6fa1e09d#32, word 0x6f81e89e#32, word 0x6fa1e89f#32].flatten

/-- lines 3391-3520, after the loop -/
def a64DotLast : List Ins := [
  ].flatten

/-- NEON_64bit_GEMM_Uint8Operands_Uint32Accumulators_dotproduct (lines 3391-3521). -/
def a64Dot : Kern where
  F := ⟨⟨4, 4, .widthMajor, 3, .uint8⟩, ⟨4, 4, .widthMajor, 2, .uint8⟩⟩
  lr := (0, 255)
  rr := (0, 255)
  pre := a64DotPre
  preStep := 4
  wide := none
  body := a64DotBody
  step := 4
  ge := false
  last := a64DotLast
  outs :=
    [(16, 0), (16, 1), (17, 0), (17, 1), (32, 0), (32, 1), (33, 0), (33, 1), (48, 0), (48, 1), (49, 0),
      (49, 1), (18, 0), (18, 1), (19, 0), (19, 1), (34, 0), (34, 1), (35, 0), (35, 1), (50, 0), (50, 1),
      (51, 0), (51, 1), (20, 0), (20, 1), (21, 0), (21, 1), (36, 0), (36, 1), (37, 0), (37, 1), (52, 0),
      (52, 1), (53, 0), (53, 1), (22, 0), (22, 1), (23, 0), (23, 1), (38, 0), (38, 1), (39, 0), (39, 1),
      (54, 0), (54, 1), (55, 0), (55, 1), (24, 0), (24, 1), (25, 0), (25, 1), (40, 0), (40, 1), (41, 0),
      (41, 1), (56, 0), (56, 1), (57, 0), (57, 1), (26, 0), (26, 1), (27, 0), (27, 1), (42, 0), (42, 1),
      (43, 0), (43, 1), (58, 0), (58, 1), (59, 0), (59, 1), (28, 0), (28, 1), (29, 0), (29, 1), (44, 0),
      (44, 1), (45, 0), (45, 1), (60, 0), (60, 1), (61, 0), (61, 1), (30, 0), (30, 1), (31, 0), (31, 1),
      (46, 0), (46, 1), (47, 0), (47, 1), (62, 0), (62, 1), (63, 0), (63, 1)]
  accs :=
    [⟨16, 4, none⟩, ⟨17, 4, none⟩, ⟨18, 4, none⟩, ⟨19, 4, none⟩, ⟨20, 4, none⟩, ⟨21, 4, none⟩, ⟨22, 4,
      none⟩, ⟨23, 4, none⟩, ⟨24, 4, none⟩, ⟨25, 4, none⟩, ⟨26, 4, none⟩, ⟨27, 4, none⟩, ⟨28, 4, none⟩,
      ⟨29, 4, none⟩, ⟨30, 4, none⟩, ⟨31, 4, none⟩, ⟨32, 4, none⟩, ⟨33, 4, none⟩, ⟨34, 4, none⟩, ⟨35, 4,
      none⟩, ⟨36, 4, none⟩, ⟨37, 4, none⟩, ⟨38, 4, none⟩, ⟨39, 4, none⟩, ⟨40, 4, none⟩, ⟨41, 4, none⟩,
      ⟨42, 4, none⟩, ⟨43, 4, none⟩, ⟨44, 4, none⟩, ⟨45, 4, none⟩, ⟨46, 4, none⟩, ⟨47, 4, none⟩, ⟨48, 4,
      none⟩, ⟨49, 4, none⟩, ⟨50, 4, none⟩, ⟨51, 4, none⟩, ⟨52, 4, none⟩, ⟨53, 4, none⟩, ⟨54, 4, none⟩,
      ⟨55, 4, none⟩, ⟨56, 4, none⟩, ⟨57, 4, none⟩, ⟨58, 4, none⟩, ⟨59, 4, none⟩, ⟨60, 4, none⟩, ⟨61, 4,
      none⟩, ⟨62, 4, none⟩, ⟨63, 4, none⟩]
  keep :=
    [0, 1, 4, 5]
  c0 := 1
  cl := 0
  padL := 16
  padR := 16

/-- lines 3522-3671, up to the loop (with its first pass) -/
def a64DotA55Pre : List Ins := [
  ld_acc 8 0, ld_acc 16 4, ld_acc 24 8, ld_acc 9 12, ld_acc 17 16, ld_acc 25 20, ld_acc 10 24,
  ld_acc 18 28, ld_acc 26 32, ld_acc 11 36, ld_acc 19 40, ld_acc 27 44, ld_acc 12 48, ld_acc 20 52,
  ld_acc 28 56, ld_acc 13 60, ld_acc 21 64, ld_acc 29 68, ld_acc 14 72, ld_acc 22 76, ld_acc 30 80,
  ld_acc 15 84, ld_acc 23 88, ld_acc 31 92, ldr_d 0 .rhs 0, ldr_x 18 .rhs 8, ldr_q 2 .lhs 0,
  ldr_q 3 .lhs 16, word 0x6f80e048#32, ldr_d 1 .rhs 16, word 0x6fa0e049#32, ins_d 0 1 18,
  word 0x6f80e070#32, ldr_x 18 .rhs 24, word 0x6fa0e071#32, add_ptr .rhs 32, word 0x6f80e84a#32,
  ldr_d 4 .lhs 32, word 0x6fa0e84b#32, ins_d 1 1 18, word 0x6f81e04c#32, ldr_x 18 .lhs 40,
  word 0x6fa1e04d#32, add_ptr .lhs 48, word 0x6f81e84e#32, word 0x6fa1e84f#32, ldr_d 2 .lhs 0,
  word 0x6f80e872#32, ins_d 4 1 18, word 0x6fa0e873#32, ldr_x 18 .lhs 8, word 0x6f81e074#32,
  word 0x6fa1e075#32, word 0x6f81e876#32, word 0x6fa1e877#32, ldr_d 3 .lhs 16, word 0x6f80e098#32,
  ins_d 2 1 18, word 0x6fa0e099#32, ldr_x 18 .lhs 24, word 0x6f80e89a#32, word 0x6fa0e89b#32,
  ldr_d 0 .rhs 0, word 0x6f81e09c#32, ins_d 3 1 18, word 0x6fa1e09d#32, ldr_x 18 .rhs 8,
  word 0x6f81e89e#32, word 0x6fa1e89f#32].flatten

/-- lines 3522-3671, the loop -/
def a64DotA55Body : List Ins := [
  word 0x6f80e048#32, ldr_d 1 .rhs 16, word 0x6fa0e049#32, ins_d 0 1 18, word 0x6f80e070#32,
  ldr_x 18 .rhs 24, word 0x6fa0e071#32, add_ptr .rhs 32, word 0x6f80e84a#32, ldr_d 4 .lhs 32,
  word 0x6fa0e84b#32, ins_d 1 1 18, word 0x6f81e04c#32, ldr_x 18 .lhs 40, word 0x6fa1e04d#32,
  add_ptr .lhs 48, word 0x6f81e84e#32, word 0x6fa1e84f#32, ldr_d 2 .lhs 0, word 0x6f80e872#32,
  ins_d 4 1 18, word 0x6fa0e873#32, ldr_x 18 .lhs 8, word 0x6f81e074#32, word 0x6fa1e075#32,
  word 0x6f81e876#32, word 0x6fa1e877#32, ldr_d 3 .lhs 16, word 0x6f80e098#32, ins_d 2 1 18,
  word 0x6fa0e099#32, ldr_x 18 .lhs 24, word 0x6f80e89a#32, word 0x6fa0e89b#32, ldr_d 0 .rhs 0,
  word 0x6f81e09c#32, ins_d 3 1 18, word 0x6fa1e09d#32, ldr_x 18 .rhs 8, word 0x6f81e89e#32,
  word 0x6fa1e89f#32].flatten

/-- lines 3522-3671, after the loop -/
def a64DotA55Last : List Ins := [
  ].flatten

/-- NEON_64bit_GEMM_Uint8Operands_Uint32Accumulators_dotproduct_A55r1 (lines 3522-3674). -/
def a64DotA55 : Kern where
  F := ⟨⟨4, 4, .widthMajor, 3, .uint8⟩, ⟨4, 4, .widthMajor, 2, .uint8⟩⟩
  lr := (0, 255)
  rr := (0, 255)
  pre := a64DotA55Pre
  preStep := 4
  wide := none
  body := a64DotA55Body
  step := 4
  ge := false
  last := a64DotA55Last
  outs :=
    [(16, 0), (16, 1), (17, 0), (17, 1), (32, 0), (32, 1), (33, 0), (33, 1), (48, 0), (48, 1), (49, 0),
      (49, 1), (18, 0), (18, 1), (19, 0), (19, 1), (34, 0), (34, 1), (35, 0), (35, 1), (50, 0), (50, 1),
      (51, 0), (51, 1), (20, 0), (20, 1), (21, 0), (21, 1), (36, 0), (36, 1), (37, 0), (37, 1), (52, 0),
      (52, 1), (53, 0), (53, 1), (22, 0), (22, 1), (23, 0), (23, 1), (38, 0), (38, 1), (39, 0), (39, 1),
      (54, 0), (54, 1), (55, 0), (55, 1), (24, 0), (24, 1), (25, 0), (25, 1), (40, 0), (40, 1), (41, 0),
      (41, 1), (56, 0), (56, 1), (57, 0), (57, 1), (26, 0), (26, 1), (27, 0), (27, 1), (42, 0), (42, 1),
      (43, 0), (43, 1), (58, 0), (58, 1), (59, 0), (59, 1), (28, 0), (28, 1), (29, 0), (29, 1), (44, 0),
      (44, 1), (45, 0), (45, 1), (60, 0), (60, 1), (61, 0), (61, 1), (30, 0), (30, 1), (31, 0), (31, 1),
      (46, 0), (46, 1), (47, 0), (47, 1), (62, 0), (62, 1), (63, 0), (63, 1)]
  accs :=
    [⟨16, 4, none⟩, ⟨17, 4, none⟩, ⟨18, 4, none⟩, ⟨19, 4, none⟩, ⟨20, 4, none⟩, ⟨21, 4, none⟩, ⟨22, 4,
      none⟩, ⟨23, 4, none⟩, ⟨24, 4, none⟩, ⟨25, 4, none⟩, ⟨26, 4, none⟩, ⟨27, 4, none⟩, ⟨28, 4, none⟩,
      ⟨29, 4, none⟩, ⟨30, 4, none⟩, ⟨31, 4, none⟩, ⟨32, 4, none⟩, ⟨33, 4, none⟩, ⟨34, 4, none⟩, ⟨35, 4,
      none⟩, ⟨36, 4, none⟩, ⟨37, 4, none⟩, ⟨38, 4, none⟩, ⟨39, 4, none⟩, ⟨40, 4, none⟩, ⟨41, 4, none⟩,
      ⟨42, 4, none⟩, ⟨43, 4, none⟩, ⟨44, 4, none⟩, ⟨45, 4, none⟩, ⟨46, 4, none⟩, ⟨47, 4, none⟩, ⟨48, 4,
      none⟩, ⟨49, 4, none⟩, ⟨50, 4, none⟩, ⟨51, 4, none⟩, ⟨52, 4, none⟩, ⟨53, 4, none⟩, ⟨54, 4, none⟩,
      ⟨55, 4, none⟩, ⟨56, 4, none⟩, ⟨57, 4, none⟩, ⟨58, 4, none⟩, ⟨59, 4, none⟩, ⟨60, 4, none⟩, ⟨61, 4,
      none⟩, ⟨62, 4, none⟩, ⟨63, 4, none⟩]
  keep :=
    [0, 1, 4, 5, 6, 7, 118]
  c0 := 1
  cl := 0
  padL := 32
  padR := 16

end Gemmlowp.Bench
