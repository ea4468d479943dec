import Verif.BenchW
/-!
# standalone/neon-gemm-kernel-benchmark.cc: kernels for int32 and float operands, 64 bit
-/
namespace Gemmlowp.BenchW

/-- Lines 3675-3793 `NEON_64bit_GEMM_Int32_WithScalar`; the loop is lines 3712-3753.  The number format in `F` is not used. -/
def i32Scalar64 : WKern where
  F := ⟨⟨4, 1, .depthMajor, 3, .uint8⟩, ⟨4, 1, .depthMajor, 2, .uint8⟩⟩
  pre := [
    ldacc 8 0, ldacc 16 4, ldacc 24 8, ldacc 9 12, ldacc 17 16, ldacc 25 20, ldacc 10 24, ldacc 18 28,
    ldacc 26 32, ldacc 11 36, ldacc 19 40, ldacc 27 44, ldacc 12 48, ldacc 20 52, ldacc 28 56, ldacc 13 60,
    ldacc 21 64, ldacc 29 68, ldacc 14 72, ldacc 22 76, ldacc 30 80, ldacc 15 84, ldacc 23 88, ldacc 31 92].flatten
  body := [
    ldqa 0 .rhs, ldqa 1 .rhs, ldqa 2 .lhs, ldqa 3 .lhs, ldqa 4 .lhs, macw 8 2 0, macw 9 2 1, macw 10 2 2,
    macw 11 2 3, macw 12 2 4, macw 13 2 5, macw 14 2 6, macw 15 2 7, macw 16 3 0, macw 17 3 1, macw 18 3 2,
    macw 19 3 3, macw 20 3 4, macw 21 3 5, macw 22 3 6, macw 23 3 7, macw 24 4 0, macw 25 4 1, macw 26 4 2,
    macw 27 4 3, macw 28 4 4, macw 29 4 5, macw 30 4 6, macw 31 4 7].flatten
  last := []
  out := [
    32, 33, 34, 35, 64, 65, 66, 67, 96, 97, 98, 99, 36, 37, 38, 39, 68, 69, 70, 71, 100, 101, 102, 103, 40,
    41, 42, 43, 72, 73, 74, 75, 104, 105, 106, 107, 44, 45, 46, 47, 76, 77, 78, 79, 108, 109, 110, 111, 48,
    49, 50, 51, 80, 81, 82, 83, 112, 113, 114, 115, 52, 53, 54, 55, 84, 85, 86, 87, 116, 117, 118, 119, 56,
    57, 58, 59, 88, 89, 90, 91, 120, 121, 122, 123, 60, 61, 62, 63, 92, 93, 94, 95, 124, 125, 126, 127]

/-- Lines 3797-3923 `NEON_64bit_GEMM_Float32_WithVectorDuplicatingScalar`; the loop is lines 3834-3883.  The number format in `F` is not used. -/
def f32Dup64 : WKern where
  F := ⟨⟨4, 1, .depthMajor, 3, .uint8⟩, ⟨4, 1, .depthMajor, 2, .uint8⟩⟩
  pre := [
    ldacc 8 0, ldacc 16 4, ldacc 24 8, ldacc 9 12, ldacc 17 16, ldacc 25 20, ldacc 10 24, ldacc 18 28,
    ldacc 26 32, ldacc 11 36, ldacc 19 40, ldacc 27 44, ldacc 12 48, ldacc 20 52, ldacc 28 56, ldacc 13 60,
    ldacc 21 64, ldacc 29 68, ldacc 14 72, ldacc 22 76, ldacc 30 80, ldacc 15 84, ldacc 23 88, ldacc 31 92].flatten
  body := [
    ldqa 5 .rhs, ldqa 6 .rhs, ldqa 2 .lhs, ldqa 3 .lhs, ldqa 4 .lhs, dupw 0 20, dupw 1 21, macv 8 2 0,
    macv 16 3 0, macv 24 4 0, macv 9 2 1, macv 17 3 1, macv 25 4 1, dupw 0 22, dupw 1 23, macv 10 2 0,
    macv 18 3 0, macv 26 4 0, macv 11 2 1, macv 19 3 1, macv 27 4 1, dupw 0 24, dupw 1 25, macv 12 2 0,
    macv 20 3 0, macv 28 4 0, macv 13 2 1, macv 21 3 1, macv 29 4 1, dupw 0 26, dupw 1 27, macv 14 2 0,
    macv 22 3 0, macv 30 4 0, macv 15 2 1, macv 23 3 1, macv 31 4 1].flatten
  last := []
  out := [
    32, 33, 34, 35, 64, 65, 66, 67, 96, 97, 98, 99, 36, 37, 38, 39, 68, 69, 70, 71, 100, 101, 102, 103, 40,
    41, 42, 43, 72, 73, 74, 75, 104, 105, 106, 107, 44, 45, 46, 47, 76, 77, 78, 79, 108, 109, 110, 111, 48,
    49, 50, 51, 80, 81, 82, 83, 112, 113, 114, 115, 52, 53, 54, 55, 84, 85, 86, 87, 116, 117, 118, 119, 56,
    57, 58, 59, 88, 89, 90, 91, 120, 121, 122, 123, 60, 61, 62, 63, 92, 93, 94, 95, 124, 125, 126, 127]

/-- Lines 3927-4045 `NEON_64bit_GEMM_Float32_WithScalar`; the loop is lines 3964-4005.  The number format in `F` is not used. -/
def f32Scalar64 : WKern where
  F := ⟨⟨4, 1, .depthMajor, 3, .uint8⟩, ⟨4, 1, .depthMajor, 2, .uint8⟩⟩
  pre := [
    ldacc 8 0, ldacc 16 4, ldacc 24 8, ldacc 9 12, ldacc 17 16, ldacc 25 20, ldacc 10 24, ldacc 18 28,
    ldacc 26 32, ldacc 11 36, ldacc 19 40, ldacc 27 44, ldacc 12 48, ldacc 20 52, ldacc 28 56, ldacc 13 60,
    ldacc 21 64, ldacc 29 68, ldacc 14 72, ldacc 22 76, ldacc 30 80, ldacc 15 84, ldacc 23 88, ldacc 31 92].flatten
  body := [
    ldqa 0 .rhs, ldqa 1 .rhs, ldqa 2 .lhs, ldqa 3 .lhs, ldqa 4 .lhs, macw 8 2 0, macw 9 2 1, macw 10 2 2,
    macw 11 2 3, macw 12 2 4, macw 13 2 5, macw 14 2 6, macw 15 2 7, macw 16 3 0, macw 17 3 1, macw 18 3 2,
    macw 19 3 3, macw 20 3 4, macw 21 3 5, macw 22 3 6, macw 23 3 7, macw 24 4 0, macw 25 4 1, macw 26 4 2,
    macw 27 4 3, macw 28 4 4, macw 29 4 5, macw 30 4 6, macw 31 4 7].flatten
  last := []
  out := [
    32, 33, 34, 35, 64, 65, 66, 67, 96, 97, 98, 99, 36, 37, 38, 39, 68, 69, 70, 71, 100, 101, 102, 103, 40,
    41, 42, 43, 72, 73, 74, 75, 104, 105, 106, 107, 44, 45, 46, 47, 76, 77, 78, 79, 108, 109, 110, 111, 48,
    49, 50, 51, 80, 81, 82, 83, 112, 113, 114, 115, 52, 53, 54, 55, 84, 85, 86, 87, 116, 117, 118, 119, 56,
    57, 58, 59, 88, 89, 90, 91, 120, 121, 122, 123, 60, 61, 62, 63, 92, 93, 94, 95, 124, 125, 126, 127]

/-- Lines 4048-4174 `NEON_64bit_GEMM_Float32_WithScalar_A57`; the loop is lines 4092-4134.  The number format in `F` is not used. -/
def f32A57 : WKern where
  F := ⟨⟨4, 1, .depthMajor, 3, .uint8⟩, ⟨4, 1, .depthMajor, 2, .uint8⟩⟩
  pre := [
    ldacc 8 0, ldacc 16 4, ldacc 24 8, ldacc 9 12, ldacc 17 16, ldacc 25 20, ldacc 10 24, ldacc 18 28,
    ldacc 26 32, ldacc 11 36, ldacc 19 40, ldacc 27 44, ldacc 12 48, ldacc 20 52, ldacc 28 56, ldacc 13 60,
    ldacc 21 64, ldacc 29 68, ldacc 14 72, ldacc 22 76, ldacc 30 80, ldacc 15 84, ldacc 23 88, ldacc 31 92,
    ldqa 0 .rhs, ldqa 2 .lhs].flatten
  body := [
    macw 8 2 0, macw 9 2 1, ldqa 1 .rhs, macw 10 2 2, macw 11 2 3, ldqa 3 .lhs, macw 12 2 4, macw 13 2 5,
    ldqa 4 .lhs, macw 14 2 6, macw 15 2 7, ldqa 2 .lhs, macw 16 3 0, macw 17 3 1, macw 18 3 2, macw 19 3 3,
    macw 20 3 4, macw 21 3 5, macw 22 3 6, macw 23 3 7, macw 24 4 0, macw 25 4 1, macw 26 4 2, macw 27 4 3,
    ldqa 0 .rhs, macw 28 4 4, macw 29 4 5, macw 30 4 6, macw 31 4 7].flatten
  last := []
  out := [
    32, 33, 34, 35, 64, 65, 66, 67, 96, 97, 98, 99, 36, 37, 38, 39, 68, 69, 70, 71, 100, 101, 102, 103, 40,
    41, 42, 43, 72, 73, 74, 75, 104, 105, 106, 107, 44, 45, 46, 47, 76, 77, 78, 79, 108, 109, 110, 111, 48,
    49, 50, 51, 80, 81, 82, 83, 112, 113, 114, 115, 52, 53, 54, 55, 84, 85, 86, 87, 116, 117, 118, 119, 56,
    57, 58, 59, 88, 89, 90, 91, 120, 121, 122, 123, 60, 61, 62, 63, 92, 93, 94, 95, 124, 125, 126, 127]

/-- Lines 4178-4371 `NEON_64bit_GEMM_Float32_WithScalar_A53`; the loop is lines 4251-4331.  The number format in `F` is not used. -/
def f32A53_64 : WKern where
  F := ⟨⟨4, 1, .depthMajor, 3, .uint8⟩, ⟨4, 1, .depthMajor, 2, .uint8⟩⟩
  pre := [
    ldacc 8 0, ldacc 16 4, ldacc 24 8, ldacc 9 12, ldacc 17 16, ldacc 25 20, ldacc 10 24, ldacc 18 28,
    ldacc 26 32, ldacc 11 36, ldacc 19 40, ldacc 27 44, ldacc 12 48, ldacc 20 52, ldacc 28 56, ldacc 13 60,
    ldacc 21 64, ldacc 29 68, ldacc 14 72, ldacc 22 76, ldacc 30 80, ldacc 15 84, ldacc 23 88, ldacc 31 92,
    ldv 0 .rhs 0, ldd 128 .rhs 2, add .rhs 4, ldqa 2 .lhs].flatten
  body := [
    ldv 1 .rhs 0, movd 2 128 129, macw 8 2 0, ldd 128 .rhs 2, macw 9 2 1, add .rhs 4, macw 10 2 2,
    ldv 3 .lhs 0, movd 6 128 129, macw 11 2 3, ldd 128 .lhs 2, macw 12 2 4, add .lhs 4, macw 13 2 5,
    ldv 4 .lhs 0, movd 14 128 129, macw 14 2 6, ldd 128 .lhs 2, macw 15 2 7, add .lhs 4, macw 16 3 0,
    ldv 2 .lhs 0, movd 18 128 129, macw 17 3 1, ldd 128 .lhs 2, macw 18 3 2, add .lhs 4, macw 19 3 3,
    movd 10 128 129, macw 20 3 4, macw 21 3 5, macw 22 3 6, macw 23 3 7, macw 24 4 0, macw 25 4 1,
    macw 26 4 2, macw 27 4 3, macw 28 4 4, ldv 0 .rhs 0, macw 29 4 5, ldd 128 .rhs 2, macw 30 4 6,
    add .rhs 4, macw 31 4 7].flatten
  last := []
  out := [
    32, 33, 34, 35, 64, 65, 66, 67, 96, 97, 98, 99, 36, 37, 38, 39, 68, 69, 70, 71, 100, 101, 102, 103, 40,
    41, 42, 43, 72, 73, 74, 75, 104, 105, 106, 107, 44, 45, 46, 47, 76, 77, 78, 79, 108, 109, 110, 111, 48,
    49, 50, 51, 80, 81, 82, 83, 112, 113, 114, 115, 52, 53, 54, 55, 84, 85, 86, 87, 116, 117, 118, 119, 56,
    57, 58, 59, 88, 89, 90, 91, 120, 121, 122, 123, 60, 61, 62, 63, 92, 93, 94, 95, 124, 125, 126, 127]

/-- Lines 4375-4535 `NEON_64bit_GEMM_Float32_WithScalar_A55r1`; the loop is lines 4446-4496.  The number format in `F` is not used. -/
def f32A55r1 : WKern where
  F := ⟨⟨4, 1, .depthMajor, 3, .uint8⟩, ⟨4, 1, .depthMajor, 2, .uint8⟩⟩
  pre := [
    ldacc 8 0, ldacc 16 4, ldacc 24 8, ldacc 9 12, ldacc 17 16, ldacc 25 20, ldacc 10 24, ldacc 18 28,
    ldacc 26 32, ldacc 11 36, ldacc 19 40, ldacc 27 44, ldacc 12 48, ldacc 20 52, ldacc 28 56, ldacc 13 60,
    ldacc 21 64, ldacc 29 68, ldacc 14 72, ldacc 22 76, ldacc 30 80, ldacc 15 84, ldacc 23 88, ldacc 31 92,
    ldv 0 .rhs 0, ldd 128 .rhs 2, ldq 2 .lhs 0, ldq 3 .lhs 4].flatten
  body := [
    macw 8 2 0, ldv 1 .rhs 4, macw 9 2 1, movd 2 128 129, macw 16 3 0, ldd 128 .rhs 6, macw 17 3 1,
    add .rhs 8, macw 10 2 2, ldv 4 .lhs 8, macw 11 2 3, movd 6 128 129, macw 12 2 4, ldd 128 .lhs 10,
    macw 13 2 5, add .lhs 12, macw 14 2 6, macw 15 2 7, ldv 2 .lhs 0, macw 18 3 2, movd 18 128 129,
    macw 19 3 3, ldd 128 .lhs 2, macw 20 3 4, macw 21 3 5, macw 22 3 6, macw 23 3 7, ldv 3 .lhs 4,
    macw 24 4 0, movd 10 128 129, macw 25 4 1, ldd 128 .lhs 6, macw 26 4 2, macw 27 4 3, ldv 0 .rhs 0,
    macw 28 4 4, movd 14 128 129, macw 29 4 5, ldd 128 .rhs 2, macw 30 4 6, macw 31 4 7].flatten
  last := []
  out := [
    32, 33, 34, 35, 64, 65, 66, 67, 96, 97, 98, 99, 36, 37, 38, 39, 68, 69, 70, 71, 100, 101, 102, 103, 40,
    41, 42, 43, 72, 73, 74, 75, 104, 105, 106, 107, 44, 45, 46, 47, 76, 77, 78, 79, 108, 109, 110, 111, 48,
    49, 50, 51, 80, 81, 82, 83, 112, 113, 114, 115, 52, 53, 54, 55, 84, 85, 86, 87, 116, 117, 118, 119, 56,
    57, 58, 59, 88, 89, 90, 91, 120, 121, 122, 123, 60, 61, 62, 63, 92, 93, 94, 95, 124, 125, 126, 127]

/-- Lines 4670-4716 `NEON_GEMM_Float32_WithScalar_intrinsics<c>`, for `c` 1 (32 bit) and 2 (64 bit).  `acc[i][j]` is
register `4 * c * i + j`, `lhs[i]` is `12 * c + i`, `rhs[j]` is `12 * c + 3 + j`. -/
def f32Intr (c : Nat) : WKern where
  F := ⟨⟨4, 1, .depthMajor, 3, .uint8⟩, ⟨4, 1, .depthMajor, c, .uint8⟩⟩
  pre := (List.range 3).flatMap (fun i => (List.range (4 * c)).flatMap (fun j =>
    ldacc (4 * c * i + j) (4 * (i + 3 * j))))
  body := (List.range 3).flatMap (fun i => ldq (12 * c + i) .lhs (4 * i)) ++
    (List.range c).flatMap (fun j => ldq (12 * c + 3 + j) .rhs (4 * j)) ++
    (List.range 3).flatMap (fun i => (List.range c).flatMap (fun j => (List.range 4).flatMap (fun e =>
      macw (4 * c * i + 4 * j + e) (12 * c + i) (4 * (12 * c + 3 + j) + e)))) ++
    add .lhs 12 ++ add .rhs (4 * c)
  last := []
  out := (List.range (4 * c)).flatMap (fun j => (List.range 3).flatMap (fun i => (List.range 4).map (fun e =>
    4 * (4 * c * i + j) + e)))

end Gemmlowp.BenchW
