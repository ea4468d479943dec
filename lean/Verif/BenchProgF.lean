import Verif.BenchProgE
/-!
# standalone/neon-gemm-kernel-benchmark.cc: the third kernel for MSA
-/
namespace Gemmlowp.Bench

/-- `dotp_s.h d, s, t` -/
def dotp_s (d s t : Nat) : List Ins :=
  [.op (outQ 2 d (fun i => [.mul (s8 s (2 * i)) (s8 t (2 * i)), .mul (s8 s (2 * i + 1)) (s8 t (2 * i + 1))]))]
/-- `dpadd_s.w d, s, $w31`, where the 16-bit lanes of `w31` are 1 (line 5350; the register is not changed after) -/
def dpadd_s_ones (d s : Nat) : List Ins := sadalp d s
/-- `hadd_s.d d, s, t`: an odd word of `s` plus an even word of `t`, sign-extended to 64 bits.  Only the low words of
the results are modelled; `pckev.w` drops the others. -/
def hadd_s (d s t : Nat) : List Ins :=
  [.op (outQ 4 d (fun i => if i % 2 = 0 then [.src (w32 s (i + 1)), .src (w32 t i)] else []))]
/-- `pckev.w d, s, t`: the even words of `t`, then those of `s` -/
def pckev_w (d s t : Nat) : List Ins :=
  [.op (outQ 4 d (fun i => [.src (if i < 2 then w32 t (2 * i) else w32 s (2 * (i - 2)))]))]

/-- lines 5306-5592, up to the loop -/
def msa3Pre : List Ins := [
  ld_b 16 0 .lhs, ldi0 0, ld_b 20 0 .rhs, ldi0 1, ld_b 17 16 .lhs, ldi0 2, ld_b 21 16 .rhs, ldi0 3,
  ld_b 18 32 .lhs, ldi0 4, ld_b 19 48 .lhs, ldi0 5, ld_b 22 32 .rhs, ldi0 6, ld_b 23 48 .rhs, ldi0 7,
  ldi0 8, ldi0 9, ldi0 10, ldi0 11, ldi0 12, ldi0 13, ldi0 14, ldi0 15].flatten

/-- lines 5306-5592, the loop -/
def msa3Body : List Ins := [
  add_ptr .lhs 64, add_ptr .rhs 64, dotp_s 25 16 20, dotp_s 26 17 20, dotp_s 27 16 21, dotp_s 28 17 21,
  dotp_s 29 18 20, dpadd_s_ones 0 25, dpadd_s_ones 1 26, dpadd_s_ones 4 27, dpadd_s_ones 5 28,
  dpadd_s_ones 2 29, dotp_s 24 16 22, dotp_s 25 19 20, dotp_s 26 16 23, dotp_s 27 17 22,
  ld_b 20 0 .rhs, dotp_s 28 17 23, ld_b 16 0 .lhs, dotp_s 29 18 21, ld_b 17 16 .lhs, dpadd_s_ones 8 24,
  dpadd_s_ones 3 25, dpadd_s_ones 12 26, dpadd_s_ones 9 27, dpadd_s_ones 13 28, dpadd_s_ones 6 29,
  dotp_s 25 19 21, dotp_s 26 18 22, dotp_s 27 18 23, ld_b 21 16 .rhs, dotp_s 28 19 22, ld_b 18 32 .lhs,
  dotp_s 29 19 23, ld_b 22 32 .rhs, dpadd_s_ones 7 25, ld_b 19 48 .lhs, dpadd_s_ones 10 26,
  ld_b 23 48 .rhs, dpadd_s_ones 14 27, dpadd_s_ones 11 28, dpadd_s_ones 15 29].flatten

/-- lines 5306-5592, after the loop (`start_depth` is 123, so the accumulators are loaded) -/
def msa3Last : List Ins := [
  dotp_s 25 16 20, dotp_s 26 17 20, dotp_s 27 16 21, dotp_s 28 17 21, dotp_s 29 18 20,
  dpadd_s_ones 0 25, dpadd_s_ones 1 26, dpadd_s_ones 4 27, dpadd_s_ones 5 28, dpadd_s_ones 2 29,
  dotp_s 24 16 22, dotp_s 25 19 20, dotp_s 26 16 23, dotp_s 27 17 22, dotp_s 28 17 23, dotp_s 29 18 21,
  dpadd_s_ones 8 24, dpadd_s_ones 3 25, dpadd_s_ones 12 26, dpadd_s_ones 9 27, dpadd_s_ones 13 28,
  dpadd_s_ones 6 29, dotp_s 25 19 21, dotp_s 26 18 22, dotp_s 27 18 23, dotp_s 28 19 22,
  dotp_s 29 19 23, dpadd_s_ones 7 25, dpadd_s_ones 10 26, dpadd_s_ones 14 27, dpadd_s_ones 11 28,
  dpadd_s_ones 15 29, hadd_s 0 0 0, hadd_s 1 1 1, hadd_s 2 2 2, hadd_s 3 3 3, hadd_s 4 4 4,
  hadd_s 5 5 5, hadd_s 6 6 6, hadd_s 7 7 7, hadd_s 8 8 8, hadd_s 9 9 9, hadd_s 10 10 10,
  hadd_s 11 11 11, hadd_s 12 12 12, hadd_s 13 13 13, hadd_s 14 14 14, hadd_s 15 15 15, pckev_w 0 1 0,
  pckev_w 2 3 2, pckev_w 4 5 4, pckev_w 6 7 6, pckev_w 8 9 8, pckev_w 10 11 10, pckev_w 12 13 12,
  pckev_w 14 15 14, hadd_s 0 0 0, hadd_s 2 2 2, hadd_s 4 4 4, hadd_s 6 6 6, hadd_s 8 8 8,
  hadd_s 10 10 10, hadd_s 12 12 12, hadd_s 14 14 14, ld_acc 16 0, pckev_w 0 2 0, ld_acc 17 4,
  pckev_w 1 6 4, ld_acc 18 8, pckev_w 2 10 8, ld_acc 19 12, pckev_w 3 14 12, add_4s 0 0 16,
  add_4s 1 1 17, add_4s 2 2 18, add_4s 3 3 19].flatten

/-- MSA_GEMM_Int8Operands_AccumTwoWithin16Bits (lines 5306-5592). -/
def msa3 : Kern where
  F := ⟨⟨4, 16, .widthMajor, 1, .int8Inputs⟩, ⟨4, 16, .widthMajor, 1, .int8Inputs⟩⟩
  lr := (-128, 127)
  rr := (-127, 127)
  pre := msa3Pre
  preStep := 16
  wide := none
  body := msa3Body
  step := 16
  ge := false
  last := msa3Last
  outs := outsFrom 0 16
  accs := accsFrom 0 16
  keep := (List.range 16).map (· + 32)
  c0 := 0
  cl := 1
  padL := 0
  padR := 0

end Gemmlowp.Bench
