import Verif.BenchKern
/-!
# standalone/neon-gemm-kernel-benchmark.cc: kernels written with intrinsics

The variables of a kernel are registers of the machine; an intrinsic is the instruction it stands for, and the loops
over `i`, `j`, `k`, whose bounds are constants, are lists built the same way.
-/
namespace Gemmlowp.Bench

/-- `for (int i = 0; i < n; i++)` -/
abbrev forI (n : Nat) (f : Nat → List Ins) : List Ins := (List.range n).flatMap f

/-- `vmlal_lane_s16(acc, vget_low_s16(l), vget_low_s16(r), k)` -/
def vmlal_low_s16 (v l r k : Nat) : List Ins :=
  [.op (outQ 4 v (fun i => [.src (w32 v i), .mul (s16 l i) (s16 r k)]))]
/-- `vmlal_lane_s16(acc, vget_high_s16(l), vget_high_s16(r), k)` -/
def vmlal_high_s16 (v l r k : Nat) : List Ins :=
  [.op (outQ 4 v (fun i => [.src (w32 v i), .mul (s16 l (i + 4)) (s16 r (k + 4))]))]

/-- Entry `k` of the accumulators is in lane `k % 4` of register `v + k / 4`. -/
def outsFrom (v n : Nat) : List (Nat × Nat) := (List.range n).map (fun k => (2 * (v + k / 4) + k % 4 / 2, k % 2))

/-- The halves of `n` registers from `v` on, with 32-bit lanes. -/
def accsFrom (v n : Nat) : List Acc := (List.range (2 * n)).map (fun i => ⟨2 * v + i, 4, none⟩)

/-- Lines 4574-4579: `acc[i][j]`, in register `va`, gets the products of `lhs[i]` and `rhs[j]`. -/
def accumTwo (va l r : Nat) : List Ins := smull 12 l r ++ smlal2 12 l r ++ sadalp va 12

/-- Lines 4586-4593: `acc[0][i]` to `acc[3][i]` (registers `va` to `va + 3 * cols`) are added up and to the
accumulators. -/
def reduce (va cols i : Nat) : List Ins :=
  addp 13 va (va + cols) ++ addp 14 (va + 2 * cols) (va + 3 * cols) ++ addp 15 13 14 ++ ld_acc (80 + i) (4 * i) ++
  add_4s (80 + i) (80 + i) 15

/-- NEON_GEMM_Int8Operands_AccumTwoWithin16Bits_intrinsics (lines 4549-4595).  `lhs[i]` is in register `i`, `rhs[i]` in
`4 + i`, `acc[i][j]` in `16 + i * Cols + j`, `local_acc` in 12. -/
def intrTwo (cols : Nat) : Kern where
  F := ⟨⟨4, 16, .widthMajor, 1, .int8Inputs⟩, ⟨cols, 16, .widthMajor, 1, .int8Inputs⟩⟩
  lr := (-128, 127)
  rr := (-127, 127)
  pre := forI 4 (fun i => forI cols (fun j => dup_wzr (16 + i * cols + j)))
  preStep := 0
  wide := none
  body := forI 4 (fun i => ldr_q i .lhs (16 * i)) ++ forI cols (fun i => ldr_q (4 + i) .rhs (16 * i)) ++
    forI 4 (fun i => forI cols (fun j => accumTwo (16 + i * cols + j) i (4 + j))) ++
    add_ptr .lhs 64 ++ add_ptr .rhs (16 * cols)
  step := 16
  ge := false
  last := forI cols (fun i => reduce (16 + i) cols i)
  outs := outsFrom 80 (4 * cols)
  accs := accsFrom 16 (4 * cols)
  keep := []
  c0 := 0
  cl := 0
  padL := 0
  padR := 0

/-- NEON_GEMM_Uint8Operands_Uint32Accumulators_intrinsics (lines 4604-4662).  `lhs[i]` is in register `i`, `rhs[i]` in
`4 + i`, `acc[i][j]` in `16 + i + 3 * j`. -/
def intrU8 (cells : Nat) : Kern where
  F := ⟨⟨4, 2, .depthMajor, 3, .uint8⟩, ⟨4, 2, .depthMajor, cells, .uint8⟩⟩
  lr := (0, 255)
  rr := (0, 255)
  pre := forI 3 (fun i => forI (4 * cells) (fun j => ld_acc (16 + i + 3 * j) (4 * (i + 3 * j))))
  preStep := 0
  wide := none
  body := forI 3 (fun i => ldr_d 8 .lhs (8 * i) ++ uxtl i 8) ++ forI cells (fun i => ldr_d 8 .rhs (8 * i) ++ uxtl (4 + i) 8) ++
    forI 3 (fun i => forI cells (fun j =>
      vmlal_low_s16 (16 + i + 3 * (4 * j + 0)) i (4 + j) 0 ++ vmlal_low_s16 (16 + i + 3 * (4 * j + 1)) i (4 + j) 1 ++
      vmlal_low_s16 (16 + i + 3 * (4 * j + 2)) i (4 + j) 2 ++ vmlal_low_s16 (16 + i + 3 * (4 * j + 3)) i (4 + j) 3 ++
      vmlal_high_s16 (16 + i + 3 * (4 * j + 0)) i (4 + j) 0 ++ vmlal_high_s16 (16 + i + 3 * (4 * j + 1)) i (4 + j) 1 ++
      vmlal_high_s16 (16 + i + 3 * (4 * j + 2)) i (4 + j) 2 ++ vmlal_high_s16 (16 + i + 3 * (4 * j + 3)) i (4 + j) 3)) ++
    add_ptr .lhs 24 ++ add_ptr .rhs (8 * cells)
  step := 2
  ge := false
  last := []
  outs := outsFrom 16 (48 * cells)
  accs := accsFrom 16 (12 * cells)
  keep := []
  c0 := 0
  cl := 0
  padL := 0
  padR := 0

/-- Lines 4754-4805: 64 levels of depth.  `lhs[i][h]` is in register `i + 4 * h`, `rhs[i]` in `8 + i`, `local_acc[i][j]`
in `30 + 2 * i + j`, `acc[i][j]` in `16 + 2 * i + j`. -/
def intrSevenWide : List Ins :=
  forI 4 (fun i => forI 2 (fun j => dup_wzr (30 + 2 * i + j))) ++
  forI 2 (fun k =>
    forI 4 (fun i => ldr_q i .lhs (16 * i + 128 * k) ++ ldr_q (i + 4) .lhs (64 + 16 * i + 128 * k)) ++
    forI 4 (fun i => ldr_q (8 + i) .rhs (16 * i + 64 * k)) ++
    forI 4 (fun i =>
      (if k = 0 then
        smull (30 + 2 * i) i 8 ++ smlal (30 + 2 * i) (i + 4) 10 ++
        smull (30 + 2 * i + 1) i 9 ++ smlal (30 + 2 * i + 1) (i + 4) 11
      else
        smlal (30 + 2 * i) i 8 ++ smlal (30 + 2 * i) (i + 4) 10 ++
        smlal (30 + 2 * i + 1) i 9 ++ smlal (30 + 2 * i + 1) (i + 4) 11) ++
      smlal2 (30 + 2 * i) i 8 ++ smlal2 (30 + 2 * i) (i + 4) 10 ++
      smlal2 (30 + 2 * i + 1) i 9 ++ smlal2 (30 + 2 * i + 1) (i + 4) 11)) ++
  forI 4 (fun i => sadalp (16 + 2 * i) (30 + 2 * i) ++ sadalp (16 + 2 * i + 1) (30 + 2 * i + 1)) ++
  add_ptr .lhs 256 ++ add_ptr .rhs 128

/-- NEON_64bit_GEMM_Int7Operands_AccumEightWithin16Bits_intrinsics (lines 4725-4836). -/
def intrSeven : Kern where
  F := ⟨⟨4, 16, .widthMajor, 1, .int8Inputs⟩, ⟨2, 16, .widthMajor, 1, .int8Inputs⟩⟩
  lr := (-63, 63)
  rr := (-64, 63)
  pre := forI 4 (fun i => forI 2 (fun j => dup_wzr (16 + 2 * i + j)))
  preStep := 0
  wide := some (intrSevenWide, 64)
  body := forI 4 (fun i => ldr_q i .lhs (16 * i)) ++ forI 2 (fun i => ldr_q (4 + i) .rhs (16 * i)) ++
    forI 4 (fun i => forI 2 (fun j => accumTwo (16 + i * 2 + j) i (4 + j))) ++
    add_ptr .lhs 64 ++ add_ptr .rhs 32
  step := 16
  ge := true
  last := forI 2 (fun i => reduce (16 + i) 2 i)
  outs := outsFrom 80 8
  accs := accsFrom 16 8
  keep := []
  c0 := 0
  cl := 0
  padL := 0
  padR := 0

end Gemmlowp.Bench
