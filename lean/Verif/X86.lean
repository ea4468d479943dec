import Verif.AsmStore
/-!
# internal/kernel_sse.h and internal/kernel_avx.h: the x86 assembly kernels

The kernels are inline assembly.  They are modelled instruction by instruction on a small machine
with vector registers; straight-line parts are lists of instructions (`X86`), in the order of the
source, and the jumps between them are written as Lean functions on the loop counter with the flags
the jumps test spelled out.
-/
namespace Gemmlowp.Asm

/-- A vector register as 16-bit words, lowest first.  Only the first 8 (xmm) or 16 (ymm) words
exist; the meaning of all instructions used here is the same for both widths. -/
abbrev VReg := Nat → BitVec 16

/-- 32-bit lane `i`. -/
def VReg.lane (v : VReg) (i : Nat) : BitVec 32 := v (2 * i + 1) ++ v (2 * i)

/-- The register with the given 32-bit lanes. -/
def VReg.ofLanes (f : Nat → BitVec 32) : VReg :=
  fun j => if j % 2 = 0 then (f (j / 2)).extractLsb' 0 16 else (f (j / 2)).extractLsb' 16 16

/-- The operand a memory access goes to. -/
inductive Side2 | lhs | rhs
  deriving DecidableEq

/-- The instructions used by the kernels, sources before destination. -/
inductive X86
  /-- `pxor %x, %x` -/
  | zero (d : Nat)
  /-- `pmovzxbw off(ptr), d` with `n` bytes read: 8 for an xmm, 16 for a ymm destination -/
  | movzx (p : Side2) (off n d : Nat)
  /-- `pshufd $imm, s, d` (on ymm: within each half) -/
  | shuf (imm s d : Nat)
  /-- `vpermq $imm, s, d` -/
  | permq (imm s d : Nat)
  /-- `pmaddwd a, d` (SSE, `b = d`), `vpmaddwd a, b, d` -/
  | madd (a b d : Nat)
  /-- `paddd a, d` (SSE, `b = d`), `vpaddd a, b, d` -/
  | add (a b d : Nat)
  /-- `add $n, ptr` -/
  | addPtr (p : Side2) (n : Nat)

/-- Machine state: vector registers, the two data pointers (as positions in their buffers), and
whether all reads so far were of readable memory.  Simplified: pointers do not wrap around. -/
structure St where
  x : Nat → VReg
  lp : Nat
  rp : Nat
  ok : Bool

/-- The memory the kernel reads: the two packed blocks, and the number of bytes after each that can
be read without a fault (with unspecified content, which `Buf.get` leaves open). -/
structure Mem where
  lhs : Buf UInt8
  rhs : Buf UInt8
  slack : Nat

def St.setX (s : St) (d : Nat) (v : VReg) : St := { s with x := fun r => if r = d then v else s.x r }

/-- `pmovzxbw`: `n` bytes, zero-extended to words. -/
def ldzx (b : Buf UInt8) (pos n : Nat) : VReg :=
  fun j => if j < n then BitVec.ofNat 16 (b.get (pos + j)).toNat else 0#16

/-- `pshufd`. -/
def pshufd (imm : Nat) (v : VReg) : VReg :=
  fun j => v (8 * (j / 8) + (2 * (imm / 4 ^ (j % 8 / 2) % 4) + j % 2))

/-- `vpermq`. -/
def vpermq (imm : Nat) (v : VReg) : VReg := fun j => v (4 * (imm / 4 ^ (j / 4) % 4) + j % 4)

/-- `pmaddwd`: products of signed words, adjacent products added (modulo 2^32). -/
def pmaddwd (a b : VReg) : VReg :=
  VReg.ofLanes fun i => BitVec.ofInt 32
    ((a (2 * i)).toInt * (b (2 * i)).toInt + (a (2 * i + 1)).toInt * (b (2 * i + 1)).toInt)

/-- `paddd`. -/
def paddd (a b : VReg) : VReg := VReg.ofLanes fun i => a.lane i + b.lane i

/-- One instruction. -/
def step (m : Mem) (i : X86) (s : St) : St :=
  match i with
  | .zero d => s.setX d (fun _ => 0#16)
  | .movzx .lhs off n d =>
    { s.setX d (ldzx m.lhs (s.lp + off) n) with
      ok := s.ok && decide (s.lp + off + n ≤ m.lhs.size + m.slack) }
  | .movzx .rhs off n d =>
    { s.setX d (ldzx m.rhs (s.rp + off) n) with
      ok := s.ok && decide (s.rp + off + n ≤ m.rhs.size + m.slack) }
  | .shuf imm a d => s.setX d (pshufd imm (s.x a))
  | .permq imm a d => s.setX d (vpermq imm (s.x a))
  | .madd a b d => s.setX d (pmaddwd (s.x a) (s.x b))
  | .add a b d => s.setX d (paddd (s.x a) (s.x b))
  | .addPtr .lhs n => { s with lp := s.lp + n }
  | .addPtr .rhs n => { s with rp := s.rp + n }

/-- A straight-line part. -/
def exec (m : Mem) (l : List X86) (s : St) : St := l.foldl (fun s i => step m i s) s

/-- `outerLoop2: body; sub $2, cells; ja outerLoop2`.  `ja` jumps if the subtraction neither
borrowed nor gave zero: if `cells > 2` as unsigned numbers.  The result is the state and the counter. -/
def loop2 {w : Nat} (m : Mem) (body : List X86) (cells : BitVec w) (s : St) : St × BitVec w :=
  if _h : 2 < cells.toNat then loop2 m body (cells - BitVec.ofNat w 2) (exec m body s)
  else (exec m body s, cells - BitVec.ofNat w 2)
termination_by cells.toNat
decreasing_by
  have := cells.isLt
  have h2 : (BitVec.ofNat w 2).toNat = 2 := by rw [BitVec.toNat_ofNat]; exact Nat.mod_eq_of_lt (by omega)
  rw [BitVec.toNat_sub, h2]
  have : 2 ^ w - 2 + cells.toNat = (cells.toNat - 2) + 2 ^ w := by omega
  rw [this, Nat.add_mod_right, Nat.mod_eq_of_lt (by omega)]
  omega

/-- `outerLoop1: body; dec cells; jnz outerLoop1`. -/
def loop1 {w : Nat} (m : Mem) (body : List X86) (cells : BitVec w) (s : St) : St :=
  if h : (cells - BitVec.ofNat w 1).toNat ≠ 0 then
    loop1 m body (cells - BitVec.ofNat w 1) (exec m body s)
  else exec m body s
termination_by (cells - BitVec.ofNat w 1).toNat
decreasing_by
  show ((cells - BitVec.ofNat w 1) - BitVec.ofNat w 1).toNat < (cells - BitVec.ofNat w 1).toNat
  generalize cells - BitVec.ofNat w 1 = c at h
  have hc := c.isLt
  have h2 : (BitVec.ofNat w 1).toNat = 1 := by rw [BitVec.toNat_ofNat]; exact Nat.mod_eq_of_lt (by omega)
  rw [BitVec.toNat_sub, h2]
  have : 2 ^ w - 1 + c.toNat = (c.toNat - 1) + 2 ^ w := by omega
  rw [this, Nat.add_mod_right, Nat.mod_eq_of_lt (by omega)]
  omega

/-- The three loops share this skeleton (kernel_sse.h:81-169, 282-467; kernel_avx.h:102-304):
`r = cells - 2; js outerLoop1`, `outerLoop2`, then `r = cells - 1; js finish`, `outerLoop1`. -/
def mainLoop {w : Nat} (m : Mem) (init body2 body1 : List X86) (cells : BitVec w) (s : St) : St :=
  let s := exec m init s
  if (cells - BitVec.ofNat w 2).msb then loop1 m body1 cells s
  else
    let (s, cells) := loop2 m body2 cells s
    if (cells - BitVec.ofNat w 1).msb then s else loop1 m body1 cells s

/-- internal/kernel_sse.h:33-36: the format. -/
def sse32Format : KernelFormat where
  lhs := { cw := 4, cd := 2, order := .widthMajor, cells := 1, scalar := .uint8 }
  rhs := { cw := 4, cd := 2, order := .widthMajor, cells := 1, scalar := .uint8 }

/-- internal/kernel_sse.h:76-79: the accumulators are cleared (prefetches left out). -/
def sse32Init : List X86 := [
  .zero 4, .zero 5, .zero 6, .zero 7]

/-- internal/kernel_sse.h:90-134: the body of `outerLoop2` (prefetches left out). -/
def sse32Loop2 : List X86 := [
  .movzx .rhs 0 8 1, .movzx .lhs 0 8 0, .shuf 0 1 2, .shuf 85 1 3, .madd 0 2 2, .madd 0 3 3,
  .add 2 4 4, .add 3 5 5, .shuf 170 1 2, .madd 0 2 2, .shuf 255 1 3, .madd 0 3 3,
  .movzx .rhs 8 8 1, .add 2 6 6, .add 3 7 7, .movzx .lhs 8 8 0, .shuf 0 1 2, .shuf 85 1 3,
  .madd 0 2 2, .madd 0 3 3, .add 2 4 4, .add 3 5 5, .shuf 170 1 2, .shuf 255 1 3,
  .addPtr .lhs 16, .addPtr .rhs 16, .madd 0 3 3, .add 3 7 7, .madd 0 2 2, .add 2 6 6]

/-- internal/kernel_sse.h:147-166: the body of `outerLoop1` (prefetches left out). -/
def sse32Loop1 : List X86 := [
  .movzx .rhs 0 8 1, .movzx .lhs 0 8 0, .shuf 0 1 2, .madd 0 2 2, .add 2 4 4, .shuf 85 1 3,
  .madd 0 3 3, .add 3 5 5, .shuf 170 1 2, .madd 0 2 2, .add 2 6 6, .shuf 255 1 3, .madd 0 3 3,
  .add 3 7 7, .addPtr .lhs 8, .addPtr .rhs 8]

/-- Order of the result blocks in the stores. -/
def sse32Tiles : List Tile := [
  ⟨4, 0, 0⟩, ⟨5, 0, 1⟩, ⟨6, 0, 2⟩, ⟨7, 0, 3⟩]

/-- internal/kernel_sse.h:40-202 `SSE4_32_Kernel4x4Depth2::Run`; `x0` is what the vector registers hold
before. -/
def sse32Kernel (x0 : Nat → VReg) (slack : Nat) : KernelRun :=
  fun dst dp rs cs lhs lp rhs rp startDepth runDepth => do
    assertM (decide (rs = 1))
    let s := mainLoop { lhs, rhs, slack } sse32Init sse32Loop2 sse32Loop1
      (BitVec.ofNat 32 (runDepth / 2)) { x := x0, lp, rp, ok := true }
    if s.ok then finish 4 4 sse32Tiles dst dp cs startDepth (fun r => (s.x r).lane) else .error .oob

/-- internal/kernel_sse.h:208-211: the format. -/
def sse64Format : KernelFormat where
  lhs := { cw := 4, cd := 2, order := .widthMajor, cells := 3, scalar := .uint8 }
  rhs := { cw := 4, cd := 2, order := .widthMajor, cells := 1, scalar := .uint8 }

/-- internal/kernel_sse.h:269-280: the accumulators are cleared (prefetches left out). -/
def sse64Init : List X86 := [
  .zero 4, .zero 5, .zero 6, .zero 7, .zero 8, .zero 9, .zero 10, .zero 11, .zero 12, .zero 13,
  .zero 14, .zero 15]

/-- internal/kernel_sse.h:292-402: the body of `outerLoop2` (prefetches left out). -/
def sse64Loop2 : List X86 := [
  .movzx .rhs 0 8 1, .movzx .lhs 0 8 0, .shuf 0 1 2, .shuf 85 1 3, .madd 0 2 2, .madd 0 3 3,
  .add 2 4 4, .add 3 5 5, .shuf 170 1 2, .madd 0 2 2, .shuf 255 1 3, .madd 0 3 3,
  .movzx .lhs 8 8 0, .add 2 6 6, .add 3 7 7, .shuf 0 1 2, .shuf 85 1 3, .madd 0 2 2, .madd 0 3 3,
  .add 2 8 8, .add 3 9 9, .shuf 170 1 2, .shuf 255 1 3, .madd 0 2 2, .madd 0 3 3, .add 2 10 10,
  .add 3 11 11, .movzx .lhs 16 8 0, .shuf 0 1 2, .shuf 85 1 3, .madd 0 2 2, .madd 0 3 3,
  .add 2 12 12, .add 3 13 13, .shuf 170 1 2, .shuf 255 1 3, .madd 0 2 2, .madd 0 3 3,
  .add 2 14 14, .add 3 15 15, .movzx .rhs 8 8 1, .movzx .lhs 24 8 0, .shuf 0 1 2, .shuf 85 1 3,
  .madd 0 2 2, .madd 0 3 3, .add 2 4 4, .add 3 5 5, .shuf 170 1 2, .shuf 255 1 3, .madd 0 2 2,
  .madd 0 3 3, .add 2 6 6, .add 3 7 7, .movzx .lhs 32 8 0, .shuf 0 1 2, .shuf 85 1 3,
  .madd 0 2 2, .madd 0 3 3, .add 2 8 8, .add 3 9 9, .shuf 170 1 2, .shuf 255 1 3, .madd 0 2 2,
  .madd 0 3 3, .add 2 10 10, .add 3 11 11, .movzx .lhs 40 8 0, .addPtr .lhs 48, .addPtr .rhs 16,
  .shuf 0 1 2, .shuf 85 1 3, .madd 0 2 2, .madd 0 3 3, .add 2 12 12, .add 3 13 13, .shuf 170 1 2,
  .shuf 255 1 3, .madd 0 2 2, .madd 0 3 3, .add 2 14 14, .add 3 15 15]

/-- internal/kernel_sse.h:415-464: the body of `outerLoop1` (prefetches left out). -/
def sse64Loop1 : List X86 := [
  .movzx .rhs 0 8 1, .movzx .lhs 0 8 0, .shuf 0 1 2, .shuf 85 1 3, .madd 0 2 2, .madd 0 3 3,
  .add 2 4 4, .add 3 5 5, .shuf 170 1 2, .shuf 255 1 3, .madd 0 2 2, .madd 0 3 3, .add 2 6 6,
  .add 3 7 7, .movzx .lhs 8 8 0, .shuf 0 1 2, .shuf 85 1 3, .madd 0 2 2, .madd 0 3 3, .add 2 8 8,
  .add 3 9 9, .shuf 170 1 2, .shuf 255 1 3, .madd 0 2 2, .madd 0 3 3, .add 2 10 10, .add 3 11 11,
  .movzx .lhs 16 8 0, .addPtr .lhs 24, .addPtr .rhs 8, .shuf 0 1 2, .shuf 85 1 3, .madd 0 2 2,
  .madd 0 3 3, .add 2 12 12, .add 3 13 13, .shuf 170 1 2, .shuf 255 1 3, .madd 0 2 2,
  .madd 0 3 3, .add 2 14 14, .add 3 15 15]

/-- Order of the result blocks in the stores. -/
def sse64Tiles : List Tile := [
  ⟨4, 0, 0⟩, ⟨8, 4, 0⟩, ⟨12, 8, 0⟩, ⟨5, 0, 1⟩, ⟨9, 4, 1⟩, ⟨13, 8, 1⟩, ⟨6, 0, 2⟩, ⟨10, 4, 2⟩,
  ⟨14, 8, 2⟩, ⟨7, 0, 3⟩, ⟨11, 4, 3⟩, ⟨15, 8, 3⟩]

/-- internal/kernel_sse.h:215-513 `SSE4_64_Kernel12x4Depth2::Run`. -/
def sse64Kernel (x0 : Nat → VReg) (slack : Nat) : KernelRun :=
  fun dst dp rs cs lhs lp rhs rp startDepth runDepth => do
    assertM (decide (rs = 1))
    let s := mainLoop { lhs, rhs, slack } sse64Init sse64Loop2 sse64Loop1
      (BitVec.ofNat 64 (runDepth / 2)) { x := x0, lp, rp, ok := true }
    if s.ok then finish 4 4 sse64Tiles dst dp cs startDepth (fun r => (s.x r).lane) else .error .oob

/-- internal/kernel_avx.h:32-34: the format. -/
def avx2Format : KernelFormat where
  lhs := { cw := 8, cd := 2, order := .widthMajor, cells := 3, scalar := .uint8 }
  rhs := { cw := 4, cd := 2, order := .widthMajor, cells := 1, scalar := .uint8 }

/-- internal/kernel_avx.h:89-100: the accumulators are cleared (prefetches left out). -/
def avx2Init : List X86 := [
  .zero 4, .zero 5, .zero 6, .zero 7, .zero 8, .zero 9, .zero 10, .zero 11, .zero 12, .zero 13,
  .zero 14, .zero 15]

/-- internal/kernel_avx.h:113-239: the body of `outerLoop2` (prefetches left out). -/
def avx2Loop2 : List X86 := [
  .movzx .rhs 0 16 1, .permq 68 1 1, .movzx .lhs 0 16 0, .shuf 0 1 2, .shuf 85 1 3, .madd 0 2 2,
  .madd 0 3 3, .add 2 4 4, .add 3 5 5, .shuf 170 1 2, .madd 0 2 2, .shuf 255 1 3, .madd 0 3 3,
  .add 2 6 6, .add 3 7 7, .movzx .rhs 0 16 1, .permq 68 1 1, .movzx .lhs 16 16 0, .shuf 0 1 2,
  .shuf 85 1 3, .madd 0 2 2, .madd 0 3 3, .add 2 8 8, .add 3 9 9, .shuf 170 1 2, .shuf 255 1 3,
  .madd 0 2 2, .madd 0 3 3, .add 2 10 10, .add 3 11 11, .movzx .rhs 0 16 1, .permq 68 1 1,
  .movzx .lhs 32 16 0, .shuf 0 1 2, .shuf 85 1 3, .madd 0 2 2, .madd 0 3 3, .add 2 12 12,
  .add 3 13 13, .shuf 170 1 2, .shuf 255 1 3, .madd 0 2 2, .madd 0 3 3, .add 2 14 14,
  .add 3 15 15, .movzx .rhs 8 16 1, .permq 68 1 1, .movzx .lhs 48 16 0, .shuf 0 1 2,
  .shuf 85 1 3, .madd 0 2 2, .madd 0 3 3, .add 2 4 4, .add 3 5 5, .shuf 170 1 2, .shuf 255 1 3,
  .madd 0 2 2, .madd 0 3 3, .add 2 6 6, .add 3 7 7, .movzx .rhs 8 16 1, .permq 68 1 1,
  .movzx .lhs 64 16 0, .shuf 0 1 2, .shuf 85 1 3, .madd 0 2 2, .madd 0 3 3, .add 2 8 8,
  .add 3 9 9, .shuf 170 1 2, .shuf 255 1 3, .madd 0 2 2, .madd 0 3 3, .add 2 10 10, .add 3 11 11,
  .movzx .rhs 8 16 1, .permq 68 1 1, .movzx .lhs 80 16 0, .shuf 0 1 2, .shuf 85 1 3, .madd 0 2 2,
  .madd 0 3 3, .add 2 12 12, .add 3 13 13, .shuf 170 1 2, .shuf 255 1 3, .madd 0 2 2,
  .madd 0 3 3, .add 2 14 14, .add 3 15 15, .addPtr .lhs 96, .addPtr .rhs 16]

/-- internal/kernel_avx.h:252-301: the body of `outerLoop1` (prefetches left out). -/
def avx2Loop1 : List X86 := [
  .movzx .rhs 0 16 1, .permq 68 1 1, .movzx .lhs 0 16 0, .shuf 0 1 2, .shuf 85 1 3, .madd 0 2 2,
  .madd 0 3 3, .add 2 4 4, .add 3 5 5, .shuf 170 1 2, .shuf 255 1 3, .madd 0 2 2, .madd 0 3 3,
  .add 2 6 6, .add 3 7 7, .movzx .lhs 16 16 0, .shuf 0 1 2, .shuf 85 1 3, .madd 0 2 2,
  .madd 0 3 3, .add 2 8 8, .add 3 9 9, .shuf 170 1 2, .shuf 255 1 3, .madd 0 2 2, .madd 0 3 3,
  .add 2 10 10, .add 3 11 11, .movzx .lhs 32 16 0, .shuf 0 1 2, .shuf 85 1 3, .madd 0 2 2,
  .madd 0 3 3, .add 2 12 12, .add 3 13 13, .shuf 170 1 2, .shuf 255 1 3, .madd 0 2 2,
  .madd 0 3 3, .add 2 14 14, .add 3 15 15, .addPtr .lhs 48, .addPtr .rhs 8]

/-- Order of the result blocks in the stores. -/
def avx2Tiles : List Tile := [
  ⟨4, 0, 0⟩, ⟨8, 8, 0⟩, ⟨12, 16, 0⟩, ⟨5, 0, 1⟩, ⟨9, 8, 1⟩, ⟨13, 16, 1⟩, ⟨6, 0, 2⟩, ⟨10, 8, 2⟩,
  ⟨14, 16, 2⟩, ⟨7, 0, 3⟩, ⟨11, 8, 3⟩, ⟨15, 16, 3⟩]

/-- internal/kernel_avx.h:38-356 `AVX2_64_Kernel24x8Depth2::Run`.  The VEX encodings have no alignment
requirement. -/
def avx2Kernel (x0 : Nat → VReg) (slack : Nat) : KernelRun :=
  fun dst dp rs cs lhs lp rhs rp startDepth runDepth => do
    assertM (decide (rs = 1))
    let s := mainLoop { lhs, rhs, slack } avx2Init avx2Loop2 avx2Loop1
      (BitVec.ofNat 64 (runDepth / 2)) { x := x0, lp, rp, ok := true }
    if s.ok then finish 8 1 avx2Tiles dst dp cs startDepth (fun r => (s.x r).lane) else .error .oob

end Gemmlowp.Asm
