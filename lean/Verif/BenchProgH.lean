import Verif.BenchProgE
/-!
# standalone/neon-gemm-kernel-benchmark.cc: the kernel for 4.25-bit operands that is written with intrinsics

`lhs[i]` is in register `i`, `rhs[i]` in `8 + i`, `temp_acc` in 12, `acc[i][j]` in `16 + 2 * i + j`, `local_acc[i][j]` in
`30 + 2 * i + j`.
-/
namespace Gemmlowp.Bench

/-- Lines 4850-4855. -/
def intr425Zero : List Ins := forI 4 (fun i => forI 2 (fun j => dup_wzr (16 + 2 * i + j)))

/-- Lines 4860-4865. -/
def intr425Clear : List Ins := forI 4 (fun i => forI 2 (fun j => dup_wzr (30 + 2 * i + j)))

/-- Lines 4867-4885: the body of the inner loop. -/
def intr425Pass : List Ins :=
  forI 8 (fun i => ldr_q i .lhs (16 * i)) ++ forI 4 (fun i => ldr_q (8 + i) .rhs (16 * i)) ++
  forI 4 (fun i => forI 2 (fun j =>
    mul_16b 12 (i * 2) (8 + j * 2) ++ mla_16b 12 (i * 2 + 1) (8 + (j * 2 + 1)) ++ sadalp_8h (30 + 2 * i + j) 12)) ++
  add_ptr .lhs 128 ++ add_ptr .rhs 64

/-- Lines 4888-4892. -/
def intr425Flush : List Ins := forI 4 (fun i => forI 2 (fun j => sadalp (16 + 2 * i + j) (30 + 2 * i + j)))

/-- Lines 4895-4902: `acc[0][i]` to `acc[3][i]` are added up and to the accumulators. -/
def intr425Sum : List Ins := forI 2 (fun i => reduce (16 + i) 2 i)

/-- Line 4866: `for (int k = 0; k < 16 && d <= depth - 32; k++, d += 32)`.  The first argument is `16 - k`, the second
`depth - d`; the second result is what is left of the depth. -/
def intr425Inner (m : Mem) : Nat → Nat → St → St × Nat
  | 0, n, s => (s, n)
  | k + 1, n, s => if 32 ≤ n then intr425Inner m k (n - 32) (exec m intr425Pass s) else (s, n)

/-- Lines 4859-4893: the outer loop, with the number of its passes that are left. -/
def intr425Outer (m : Mem) : Nat → Nat → St → St
  | 0, _, s => s
  | o + 1, n, s =>
    let r := intr425Inner m 16 n (exec m intr425Clear s)
    intr425Outer m o r.2 (exec m intr425Flush r.1)

/-- NEON_64bit_GEMM_Int425Operands_intrinsics (lines 4841-4903), up to its stores. -/
def intr425Run (m : Mem) (depth : Nat) (s : St) : St :=
  exec m intr425Sum (intr425Outer m (depth / 512 + 1) depth (exec m intr425Zero s))

/-- The format of the kernel. -/
def intr425F : KernelFormat :=
  ⟨⟨4, 32, .widthMajor, 1, .int8Inputs⟩, ⟨2, 32, .widthMajor, 1, .int8Inputs⟩⟩

/-- Line 4901: what is stored to accumulator `k`. -/
def intr425Word (s : St) (k : Nat) : BitVec 32 :=
  BitVec.ofNat 32 (lane 4 (s.x (2 * (80 + k / 4) + k % 4 / 2)) (k % 2))

end Gemmlowp.Bench
