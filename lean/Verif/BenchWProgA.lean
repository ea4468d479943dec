import Verif.BenchW
/-!
# standalone/neon-gemm-kernel-benchmark.cc: kernels for int32 and float operands, 32 bit
-/
namespace Gemmlowp.BenchW

/-- Lines 879-960 `NEON_32bit_GEMM_Int32_WithScalar`; the loop is lines 904-932.  The number format in `F` is not used. -/
def i32Scalar32 : WKern where
  F := ⟨⟨4, 1, .depthMajor, 3, .uint8⟩, ⟨4, 1, .depthMajor, 1, .uint8⟩⟩
  pre := [
    ldacc 4 0, ldacc 8 4, ldacc 12 8, ldacc 5 12, ldacc 9 16, ldacc 13 20, ldacc 6 24, ldacc 10 28,
    ldacc 14 32, ldacc 7 36, ldacc 11 40, ldacc 15 44].flatten
  body := [
    ldqa 0 .rhs, ldqa 1 .lhs, ldqa 2 .lhs, ldqa 3 .lhs, macw 4 1 0, macw 5 1 1, macw 6 1 2, macw 7 1 3,
    macw 8 2 0, macw 9 2 1, macw 10 2 2, macw 11 2 3, macw 12 3 0, macw 13 3 1, macw 14 3 2, macw 15 3 3].flatten
  last := []
  out := [
    16, 17, 18, 19, 32, 33, 34, 35, 48, 49, 50, 51, 20, 21, 22, 23, 36, 37, 38, 39, 52, 53, 54, 55, 24, 25,
    26, 27, 40, 41, 42, 43, 56, 57, 58, 59, 28, 29, 30, 31, 44, 45, 46, 47, 60, 61, 62, 63]

/-- Lines 964-1046 `NEON_32bit_GEMM_Float32_MLA_WithVectorDuplicatingScalar`; the loop is lines 989-1018.  The number format in `F` is not used. -/
def f32MlaDup32 : WKern where
  F := ⟨⟨4, 1, .depthMajor, 3, .uint8⟩, ⟨4, 1, .depthMajor, 1, .uint8⟩⟩
  pre := [
    ldacc 4 0, ldacc 8 4, ldacc 12 8, ldacc 5 12, ldacc 9 16, ldacc 13 20, ldacc 6 24, ldacc 10 28,
    ldacc 14 32, ldacc 7 36, ldacc 11 40, ldacc 15 44].flatten
  body := [
    ldqa 1 .lhs, ldqa 2 .lhs, ldqa 3 .lhs, ldall 0 .rhs, macv 4 1 0, macv 8 2 0, macv 12 3 0, ldall 0 .rhs,
    macv 5 1 0, macv 9 2 0, macv 13 3 0, ldall 0 .rhs, macv 6 1 0, macv 10 2 0, macv 14 3 0, ldall 0 .rhs,
    macv 7 1 0, macv 11 2 0, macv 15 3 0].flatten
  last := []
  out := [
    16, 17, 18, 19, 32, 33, 34, 35, 48, 49, 50, 51, 20, 21, 22, 23, 36, 37, 38, 39, 52, 53, 54, 55, 24, 25,
    26, 27, 40, 41, 42, 43, 56, 57, 58, 59, 28, 29, 30, 31, 44, 45, 46, 47, 60, 61, 62, 63]

/-- Lines 1051-1133 `NEON_32bit_GEMM_Float32_FMA_WithVectorDuplicatingScalar`; the loop is lines 1076-1105.  The number format in `F` is not used. -/
def f32FmaDup32 : WKern where
  F := ⟨⟨4, 1, .depthMajor, 3, .uint8⟩, ⟨4, 1, .depthMajor, 1, .uint8⟩⟩
  pre := [
    ldacc 4 0, ldacc 8 4, ldacc 12 8, ldacc 5 12, ldacc 9 16, ldacc 13 20, ldacc 6 24, ldacc 10 28,
    ldacc 14 32, ldacc 7 36, ldacc 11 40, ldacc 15 44].flatten
  body := [
    ldqa 1 .lhs, ldqa 2 .lhs, ldqa 3 .lhs, ldall 0 .rhs, macv 4 1 0, macv 8 2 0, macv 12 3 0, ldall 0 .rhs,
    macv 5 1 0, macv 9 2 0, macv 13 3 0, ldall 0 .rhs, macv 6 1 0, macv 10 2 0, macv 14 3 0, ldall 0 .rhs,
    macv 7 1 0, macv 11 2 0, macv 15 3 0].flatten
  last := []
  out := [
    16, 17, 18, 19, 32, 33, 34, 35, 48, 49, 50, 51, 20, 21, 22, 23, 36, 37, 38, 39, 52, 53, 54, 55, 24, 25,
    26, 27, 40, 41, 42, 43, 56, 57, 58, 59, 28, 29, 30, 31, 44, 45, 46, 47, 60, 61, 62, 63]

/-- Lines 1137-1218 `NEON_32bit_GEMM_Float32_MLA_WithScalar`; the loop is lines 1162-1190.  The number format in `F` is not used. -/
def f32MlaScalar32 : WKern where
  F := ⟨⟨4, 1, .depthMajor, 3, .uint8⟩, ⟨4, 1, .depthMajor, 1, .uint8⟩⟩
  pre := [
    ldacc 4 0, ldacc 8 4, ldacc 12 8, ldacc 5 12, ldacc 9 16, ldacc 13 20, ldacc 6 24, ldacc 10 28,
    ldacc 14 32, ldacc 7 36, ldacc 11 40, ldacc 15 44].flatten
  body := [
    ldqa 0 .rhs, ldqa 1 .lhs, ldqa 2 .lhs, ldqa 3 .lhs, macw 4 1 0, macw 5 1 1, macw 6 1 2, macw 7 1 3,
    macw 8 2 0, macw 9 2 1, macw 10 2 2, macw 11 2 3, macw 12 3 0, macw 13 3 1, macw 14 3 2, macw 15 3 3].flatten
  last := []
  out := [
    16, 17, 18, 19, 32, 33, 34, 35, 48, 49, 50, 51, 20, 21, 22, 23, 36, 37, 38, 39, 52, 53, 54, 55, 24, 25,
    26, 27, 40, 41, 42, 43, 56, 57, 58, 59, 28, 29, 30, 31, 44, 45, 46, 47, 60, 61, 62, 63]

/-- Lines 1223-1364 `NEON_32bit_GEMM_Float32_WithScalar_A53`; the loop is lines 1290-1336.  The number format in `F` is not used. -/
def f32A53_32 : WKern where
  F := ⟨⟨4, 1, .depthMajor, 3, .uint8⟩, ⟨4, 1, .depthMajor, 1, .uint8⟩⟩
  pre := [
    ldacc 4 0, ldacc 8 4, ldacc 12 8, ldacc 5 12, ldacc 9 16, ldacc 13 20, ldacc 6 24, ldacc 10 28,
    ldacc 14 32, ldacc 7 36, ldacc 11 40, ldacc 15 44, ldd 0 .rhs 0, ldw 128 .rhs 2, ldw 129 .rhs 3,
    ldq 1 .lhs 0].flatten
  body := [
    ldd 8 .lhs 4, movd 2 128 129, macw 4 1 0, ldw 128 .lhs 6, macw 5 1 1, ldw 129 .lhs 7, macw 6 1 2,
    ldd 12 .lhs 8, movd 10 128 129, macw 7 1 3, ldw 128 .lhs 10, macw 8 2 0, ldw 129 .lhs 11, macw 9 2 1,
    add .rhs 4, ldd 4 .lhs 12, movd 14 128 129, macw 10 2 2, ldw 128 .lhs 14, macw 12 3 0, ldw 129 .lhs 15,
    macw 13 3 1, add .lhs 12, ldd 0 .rhs 0, movd 6 128 129, macw 11 2 3, ldw 128 .rhs 2, macw 14 3 2,
    ldw 129 .rhs 3, macw 15 3 3].flatten
  last := []
  out := [
    16, 17, 18, 19, 32, 33, 34, 35, 48, 49, 50, 51, 20, 21, 22, 23, 36, 37, 38, 39, 52, 53, 54, 55, 24, 25,
    26, 27, 40, 41, 42, 43, 56, 57, 58, 59, 28, 29, 30, 31, 44, 45, 46, 47, 60, 61, 62, 63]

/-- Lines 1366-1551 `NEON_32bit_GEMM_Float32_WithScalar_A53_depth2`; the loop is lines 1434-1523.  The number format in `F` is not used. -/
def f32A53Depth2 : WKern where
  F := ⟨⟨4, 2, .depthMajor, 3, .uint8⟩, ⟨4, 2, .depthMajor, 1, .uint8⟩⟩
  pre := [
    ldacc 4 0, ldacc 8 4, ldacc 12 8, ldacc 5 12, ldacc 9 16, ldacc 13 20, ldacc 6 24, ldacc 10 28,
    ldacc 14 32, ldacc 7 36, ldacc 11 40, ldacc 15 44, ldd 0 .rhs 0, ldw 128 .rhs 2, ldw 129 .rhs 3,
    ldq 1 .lhs 0].flatten
  body := [
    ldd 8 .lhs 8, movd 2 128 129, macw 4 1 0, ldw 128 .lhs 10, macw 5 1 1, ldw 129 .lhs 11, macw 6 1 2,
    ldd 12 .lhs 16, movd 10 128 129, macw 7 1 3, ldw 128 .lhs 18, macw 8 2 0, ldw 129 .lhs 19, macw 9 2 1,
    ldd 4 .lhs 4, movd 14 128 129, macw 10 2 2, ldw 128 .lhs 6, macw 12 3 0, ldw 129 .lhs 7, macw 13 3 1,
    ldd 0 .rhs 4, movd 6 128 129, macw 11 2 3, ldw 128 .rhs 6, macw 14 3 2, ldw 129 .rhs 7, macw 15 3 3,
    ldd 8 .lhs 12, movd 2 128 129, macw 4 1 0, ldw 128 .lhs 14, macw 5 1 1, ldw 129 .lhs 15, macw 6 1 2,
    ldd 12 .lhs 20, movd 10 128 129, macw 7 1 3, ldw 128 .lhs 22, macw 8 2 0, ldw 129 .lhs 23, macw 9 2 1,
    add .rhs 8, ldd 4 .lhs 24, movd 14 128 129, macw 10 2 2, ldw 128 .lhs 26, macw 12 3 0, ldw 129 .lhs 27,
    macw 13 3 1, add .lhs 24, ldd 0 .rhs 0, movd 6 128 129, macw 11 2 3, ldw 128 .rhs 2, macw 14 3 2,
    ldw 129 .rhs 3, macw 15 3 3].flatten
  last := []
  out := [
    16, 17, 18, 19, 32, 33, 34, 35, 48, 49, 50, 51, 20, 21, 22, 23, 36, 37, 38, 39, 52, 53, 54, 55, 24, 25,
    26, 27, 40, 41, 42, 43, 56, 57, 58, 59, 28, 29, 30, 31, 44, 45, 46, 47, 60, 61, 62, 63]

/-- Lines 1555-1681 `NEON_32bit_GEMM_Float32_MLA_Rotating`; the loop is lines 1618-1650.  The number format in `F` is not used. -/
def f32MlaRot : WKern where
  F := ⟨⟨4, 1, .depthMajor, 3, .uint8⟩, ⟨4, 1, .depthMajor, 1, .uint8⟩⟩
  pre := [
    ldacc 4 0, ldacc 8 4, ldacc 12 8, ldacc 5 12, ldacc 9 16, ldacc 13 20, ldacc 6 24, ldacc 10 28,
    ldacc 14 32, ldacc 7 36, ldacc 11 40, ldacc 15 44, vtrn 4 5, vtrn 6 7, vswp 9 12, vswp 11 14, vtrn 8 9,
    vtrn 10 11, vswp 17 20, vswp 19 22, vtrn 12 13, vtrn 14 15, vswp 25 28, vswp 27 30, vext 5 5 1,
    vext 6 6 2, vext 7 7 3, vext 9 9 1, vext 10 10 2, vext 11 11 3, vext 13 13 1, vext 14 14 2,
    vext 15 15 3, vtrn 4 5, vtrn 6 7, vswp 9 12, vswp 11 14, vtrn 8 9, vtrn 10 11, vswp 17 20, vswp 19 22,
    vtrn 12 13, vtrn 14 15, vswp 25 28, vswp 27 30].flatten
  body := [
    ldqa 0 .rhs, ldqa 1 .lhs, ldqa 2 .lhs, ldqa 3 .lhs, macv 4 1 0, macv 8 2 0, macv 12 3 0, vext 0 0 1,
    macv 5 1 0, macv 9 2 0, macv 13 3 0, vext 0 0 1, macv 6 1 0, macv 10 2 0, macv 14 3 0, vext 0 0 1,
    macv 7 1 0, macv 11 2 0, macv 15 3 0].flatten
  last := [
    vtrn 4 5, vtrn 6 7, vswp 9 12, vswp 11 14, vtrn 8 9, vtrn 10 11, vswp 17 20, vswp 19 22, vtrn 12 13,
    vtrn 14 15, vswp 25 28, vswp 27 30, vext 5 5 3, vext 6 6 2, vext 7 7 1, vext 9 9 3, vext 10 10 2,
    vext 11 11 1, vext 13 13 3, vext 14 14 2, vext 15 15 1, vtrn 4 5, vtrn 6 7, vswp 9 12, vswp 11 14,
    vtrn 8 9, vtrn 10 11, vswp 17 20, vswp 19 22, vtrn 12 13, vtrn 14 15, vswp 25 28, vswp 27 30].flatten
  out := [
    16, 17, 18, 19, 32, 33, 34, 35, 48, 49, 50, 51, 20, 21, 22, 23, 36, 37, 38, 39, 52, 53, 54, 55, 24, 25,
    26, 27, 40, 41, 42, 43, 56, 57, 58, 59, 28, 29, 30, 31, 44, 45, 46, 47, 60, 61, 62, 63]

/-- Lines 1687-1776 `NEON_32bit_GEMM_Float32_FMA_Rotating`; the loop is lines 1715-1747.  The number format in `F` is not used. -/
def f32FmaRot : WKern where
  F := ⟨⟨4, 1, .depthMajor, 3, .uint8⟩, ⟨4, 1, .depthMajor, 1, .uint8⟩⟩
  pre := [
    ldacc 4 0, ldacc 8 4, ldacc 12 8, ldacc 5 12, ldacc 9 16, ldacc 13 20, ldacc 6 24, ldacc 10 28,
    ldacc 14 32, ldacc 7 36, ldacc 11 40, ldacc 15 44, vtrn 4 5, vtrn 6 7, vswp 9 12, vswp 11 14, vtrn 8 9,
    vtrn 10 11, vswp 17 20, vswp 19 22, vtrn 12 13, vtrn 14 15, vswp 25 28, vswp 27 30, vext 5 5 1,
    vext 6 6 2, vext 7 7 3, vext 9 9 1, vext 10 10 2, vext 11 11 3, vext 13 13 1, vext 14 14 2,
    vext 15 15 3, vtrn 4 5, vtrn 6 7, vswp 9 12, vswp 11 14, vtrn 8 9, vtrn 10 11, vswp 17 20, vswp 19 22,
    vtrn 12 13, vtrn 14 15, vswp 25 28, vswp 27 30].flatten
  body := [
    ldqa 0 .rhs, ldqa 1 .lhs, ldqa 2 .lhs, ldqa 3 .lhs, macv 4 1 0, macv 8 2 0, macv 12 3 0, vext 0 0 1,
    macv 5 1 0, macv 9 2 0, macv 13 3 0, vext 0 0 1, macv 6 1 0, macv 10 2 0, macv 14 3 0, vext 0 0 1,
    macv 7 1 0, macv 11 2 0, macv 15 3 0].flatten
  last := [
    vtrn 4 5, vtrn 6 7, vswp 9 12, vswp 11 14, vtrn 8 9, vtrn 10 11, vswp 17 20, vswp 19 22, vtrn 12 13,
    vtrn 14 15, vswp 25 28, vswp 27 30, vext 5 5 3, vext 6 6 2, vext 7 7 1, vext 9 9 3, vext 10 10 2,
    vext 11 11 1, vext 13 13 3, vext 14 14 2, vext 15 15 1, vtrn 4 5, vtrn 6 7, vswp 9 12, vswp 11 14,
    vtrn 8 9, vtrn 10 11, vswp 17 20, vswp 19 22, vtrn 12 13, vtrn 14 15, vswp 25 28, vswp 27 30].flatten
  out := [
    16, 17, 18, 19, 32, 33, 34, 35, 48, 49, 50, 51, 20, 21, 22, 23, 36, 37, 38, 39, 52, 53, 54, 55, 24, 25,
    26, 27, 40, 41, 42, 43, 56, 57, 58, 59, 28, 29, 30, 31, 44, 45, 46, 47, 60, 61, 62, 63]

end Gemmlowp.BenchW
