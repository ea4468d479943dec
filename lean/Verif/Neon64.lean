import Verif.Vec128
/-!
# internal/kernel_neon.h: the kernels for 64-bit ARM
-/
namespace Gemmlowp.Vec

open Asm (Tile)

/-! ## Instructions -/

/-- `ld1 {vd.16b}, [p], #16` -/
def ld1_16b (d : Nat) (p : Ptr) : Ins := .load p 0 16 16 d (fun new _ => new)

/-- `ld1 {vd.8b}, [p], #8`: the upper half is cleared. -/
def ld1_8b (d : Nat) (p : Ptr) : Ins := .load p 0 8 8 d (fun new _ j => if j < 8 then new j else 0#8)

/-- `dup vd.4s, wzr` -/
def dup0 (d : Nat) : Ins := .op d (fun _ _ => 0#8)

/-- `uxtl vd.8h, vn.8b` -/
def uxtl (d n : Nat) : Ins := .op d (fun x => ofH fun i => (x n i).setWidth 16)

/-- `umlal vd.4s, vn.4h, vm.h[k]` -/
def umlal (d n m k : Nat) : Ins :=
  .op d (fun x => ofS fun i => (x d).s i + ((x n).h i).setWidth 32 * ((x m).h k).setWidth 32)

/-- `umlal2 vd.4s, vn.8h, vm.h[k]` -/
def umlal2 (d n m k : Nat) : Ins :=
  .op d (fun x => ofS fun i => (x d).s i + ((x n).h (4 + i)).setWidth 32 * ((x m).h k).setWidth 32)

/-- `smull vd.8h, vn.8b, vm.8b` -/
def smull (d n m : Nat) : Ins :=
  .op d (fun x => ofH fun i => (x n i).signExtend 16 * (x m i).signExtend 16)

/-- `smlal2 vd.8h, vn.16b, vm.16b` -/
def smlal2 (d n m : Nat) : Ins :=
  .op d (fun x => ofH fun i => (x d).h i + (x n (8 + i)).signExtend 16 * (x m (8 + i)).signExtend 16)

/-- `sadalp vd.4s, vn.8h` -/
def sadalp (d n : Nat) : Ins :=
  .op d (fun x => ofS fun i =>
    (x d).s i + (((x n).h (2 * i)).signExtend 32 + ((x n).h (2 * i + 1)).signExtend 32))

/-- `addp vd.4s, vn.4s, vm.4s` -/
def addp (d n m : Nat) : Ins :=
  .op d (fun x => ofS fun i =>
    if i < 2 then (x n).s (2 * i) + (x n).s (2 * i + 1)
    else (x m).s (2 * (i - 2)) + (x m).s (2 * (i - 2) + 1))

/-- `udot vd.4s, vn.16b, vm.4b[k]` -/
def udot (d n m k : Nat) : Ins :=
  .op d (fun x => ofS fun i => (x d).s i +
    ((x n (4 * i)).setWidth 32 * (x m (4 * k)).setWidth 32 +
     (x n (4 * i + 1)).setWidth 32 * (x m (4 * k + 1)).setWidth 32 +
     (x n (4 * i + 2)).setWidth 32 * (x m (4 * k + 2)).setWidth 32 +
     (x n (4 * i + 3)).setWidth 32 * (x m (4 * k + 3)).setWidth 32))

/-- The instruction an encoding stands for, from the ARM architecture's encoding of UDOT (by element):
`0 Q 1 01111 10 L M Rm 1110 H 0 Rn Rd` with `Q = 1`; the element is `H:L`, the second source `M:Rm`. -/
def decodeUdot (w : BitVec 32) : Option (Nat × Nat × Nat × Nat) :=
  if w.extractLsb' 22 10 = 0b0110111110#10 ∧ w.extractLsb' 12 4 = 0b1110#4 ∧
      w.extractLsb' 10 1 = 0#1 then
    some ((w.extractLsb' 0 5).toNat, (w.extractLsb' 5 5).toNat, (w.extractLsb' 16 5).toNat,
      2 * (w.extractLsb' 11 1).toNat + (w.extractLsb' 21 1).toNat)
  else none

/-- `.word w` -/
def word (w : BitVec 32) : Ins :=
  match decodeUdot w with
  | some (d, n, m, k) => udot d n m k
  | none => .bad

/-! ## `NEON_64_Kernel12x8Depth2` -/

/-- internal/kernel_neon.h:1292-1294: the format. -/
def neon64Format : KernelFormat where
  lhs := { cw := 4, cd := 2, order := .depthMajor, cells := 3, scalar := .uint8 }
  rhs := { cw := 4, cd := 2, order := .depthMajor, cells := 2, scalar := .uint8 }

/-- internal/kernel_neon.h:1313-1320. -/
def neon64Pre : List Ins :=
  [ld1_8b 5 .rhs, ld1_8b 6 .rhs, ld1_8b 2 .lhs, ld1_8b 3 .lhs, ld1_8b 4 .lhs]

/-- internal/kernel_neon.h:1379-1403. -/
def neon64Clear : List Ins :=
  [dup0 8, dup0 9, dup0 10, dup0 11, dup0 12, dup0 13, dup0 14, dup0 15, dup0 16, dup0 17,
   dup0 18, dup0 19, dup0 20, dup0 21, dup0 22, dup0 23, dup0 24, dup0 25, dup0 26, dup0 27,
   dup0 28, dup0 29, dup0 30, dup0 31]

/-- internal/kernel_neon.h:1445-1514. -/
def neon64Loop : List Ins :=
  [uxtl 0 5, ld1_8b 5 .rhs, uxtl 1 6, ld1_8b 6 .rhs, uxtl 2 2, uxtl 3 3, uxtl 4 4,
   umlal 8 2 0 0, umlal 9 2 0 1, umlal 10 2 0 2, umlal 11 2 0 3, umlal 12 2 1 0, umlal 13 2 1 1,
   umlal 14 2 1 2, umlal 15 2 1 3, umlal2 8 2 0 4, umlal2 9 2 0 5, umlal2 10 2 0 6,
   umlal2 11 2 0 7, umlal2 12 2 1 4, umlal2 13 2 1 5, umlal2 14 2 1 6, umlal2 15 2 1 7,
   ld1_8b 2 .lhs, umlal 16 3 0 0, umlal 17 3 0 1, umlal 18 3 0 2, umlal 19 3 0 3,
   umlal 20 3 1 0, umlal 21 3 1 1, umlal 22 3 1 2, umlal 23 3 1 3, umlal2 16 3 0 4,
   umlal2 17 3 0 5, umlal2 18 3 0 6, umlal2 19 3 0 7, umlal2 20 3 1 4, umlal2 21 3 1 5,
   umlal2 22 3 1 6, umlal2 23 3 1 7, ld1_8b 3 .lhs, umlal 24 4 0 0, umlal 25 4 0 1,
   umlal 26 4 0 2, umlal 27 4 0 3, umlal 28 4 1 0, umlal 29 4 1 1, umlal 30 4 1 2,
   umlal 31 4 1 3, umlal2 24 4 0 4, umlal2 25 4 0 5, umlal2 26 4 0 6, umlal2 27 4 0 7,
   umlal2 28 4 1 4, umlal2 29 4 1 5, umlal2 30 4 1 6, umlal2 31 4 1 7, ld1_8b 4 .lhs]

/-- internal/kernel_neon.h:1521-1578. -/
def neon64Last : List Ins :=
  [uxtl 0 5, uxtl 1 6, uxtl 2 2, uxtl 3 3, uxtl 4 4, umlal 8 2 0 0, umlal 9 2 0 1,
   umlal 10 2 0 2, umlal 11 2 0 3, umlal 12 2 1 0, umlal 13 2 1 1, umlal 14 2 1 2,
   umlal 15 2 1 3, umlal 16 3 0 0, umlal 17 3 0 1, umlal 18 3 0 2, umlal 19 3 0 3,
   umlal 20 3 1 0, umlal 21 3 1 1, umlal 22 3 1 2, umlal 23 3 1 3, umlal 24 4 0 0,
   umlal 25 4 0 1, umlal 26 4 0 2, umlal 27 4 0 3, umlal 28 4 1 0, umlal 29 4 1 1,
   umlal 30 4 1 2, umlal 31 4 1 3, umlal2 8 2 0 4, umlal2 9 2 0 5, umlal2 10 2 0 6,
   umlal2 11 2 0 7, umlal2 12 2 1 4, umlal2 13 2 1 5, umlal2 14 2 1 6, umlal2 15 2 1 7,
   umlal2 16 3 0 4, umlal2 17 3 0 5, umlal2 18 3 0 6, umlal2 19 3 0 7, umlal2 20 3 1 4,
   umlal2 21 3 1 5, umlal2 22 3 1 6, umlal2 23 3 1 7, umlal2 24 4 0 4, umlal2 25 4 0 5,
   umlal2 26 4 0 6, umlal2 27 4 0 7, umlal2 28 4 1 4, umlal2 29 4 1 5, umlal2 30 4 1 6,
   umlal2 31 4 1 7]

/-- internal/kernel_neon.h:1331-1371: register, row, column. -/
def neon64Loads : List Tile :=
  [⟨8, 0, 0⟩, ⟨16, 4, 0⟩, ⟨24, 8, 0⟩, ⟨9, 0, 1⟩, ⟨17, 4, 1⟩, ⟨25, 8, 1⟩, ⟨10, 0, 2⟩, ⟨18, 4, 2⟩,
   ⟨26, 8, 2⟩, ⟨11, 0, 3⟩, ⟨19, 4, 3⟩, ⟨27, 8, 3⟩, ⟨12, 0, 4⟩, ⟨20, 4, 4⟩, ⟨28, 8, 4⟩,
   ⟨13, 0, 5⟩, ⟨21, 4, 5⟩, ⟨29, 8, 5⟩, ⟨14, 0, 6⟩, ⟨22, 4, 6⟩, ⟨30, 8, 6⟩, ⟨15, 0, 7⟩,
   ⟨23, 4, 7⟩, ⟨31, 8, 7⟩]

/-- internal/kernel_neon.h:1581-1621. -/
def neon64Stores : List Tile :=
  [⟨8, 0, 0⟩, ⟨16, 4, 0⟩, ⟨24, 8, 0⟩, ⟨9, 0, 1⟩, ⟨17, 4, 1⟩, ⟨25, 8, 1⟩, ⟨10, 0, 2⟩, ⟨18, 4, 2⟩,
   ⟨26, 8, 2⟩, ⟨11, 0, 3⟩, ⟨19, 4, 3⟩, ⟨27, 8, 3⟩, ⟨12, 0, 4⟩, ⟨20, 4, 4⟩, ⟨28, 8, 4⟩,
   ⟨13, 0, 5⟩, ⟨21, 4, 5⟩, ⟨29, 8, 5⟩, ⟨14, 0, 6⟩, ⟨22, 4, 6⟩, ⟨30, 8, 6⟩, ⟨15, 0, 7⟩,
   ⟨23, 4, 7⟩, ⟨31, 8, 7⟩]

/-- internal/kernel_neon.h:1291-1640.  The loads of the first cells (1313-1320) are put after the
setting of the accumulators, which uses other registers. -/
def neon64Kernel (x0 : Nat → VReg) : KernelRun :=
  kernelLoadFirst neon64Loads neon64Stores neon64Clear (fun m rd s =>
    pipe m 2 neon64Loop neon64Last (BitVec.ofNat 64 rd - 2#64) (exec m neon64Pre s)) x0

/-! ## `NEON_64_Kernel12x8Depth4_dotprod` -/

/-- internal/kernel_neon.h:1666-1668: the format. -/
def dotprodFormat : KernelFormat where
  lhs := { cw := 4, cd := 4, order := .widthMajor, cells := 3, scalar := .uint8 }
  rhs := { cw := 4, cd := 4, order := .widthMajor, cells := 2, scalar := .uint8 }

/-- internal/kernel_neon.h:1739-1762. -/
def dotprodClear : List Ins :=
  [dup0 8, dup0 9, dup0 10, dup0 11, dup0 12, dup0 13, dup0 14, dup0 15, dup0 16, dup0 17,
   dup0 18, dup0 19, dup0 20, dup0 21, dup0 22, dup0 23, dup0 24, dup0 25, dup0 26, dup0 27,
   dup0 28, dup0 29, dup0 30, dup0 31]

/-- internal/kernel_neon.h:1768-1773. -/
def dotprodPre : List Ins :=
  [ld1_16b 0 .rhs, ld1_16b 2 .lhs]

/-- internal/kernel_neon.h:1779-1815. -/
def dotprodLoop : List Ins :=
  [word 0x6f80e048#32, word 0x6fa0e049#32, ld1_16b 1 .rhs, word 0x6f80e84a#32,
   word 0x6fa0e84b#32, ld1_16b 3 .lhs, word 0x6f81e04c#32, word 0x6fa1e04d#32, ld1_16b 4 .lhs,
   word 0x6f81e84e#32, word 0x6fa1e84f#32, ld1_16b 2 .lhs, word 0x6f80e070#32,
   word 0x6fa0e071#32, word 0x6f80e872#32, word 0x6fa0e873#32, word 0x6f81e074#32,
   word 0x6fa1e075#32, word 0x6f81e876#32, word 0x6fa1e877#32, word 0x6f80e098#32,
   word 0x6fa0e099#32, word 0x6f80e89a#32, word 0x6fa0e89b#32, ld1_16b 0 .rhs,
   word 0x6f81e09c#32, word 0x6fa1e09d#32, word 0x6f81e89e#32, word 0x6fa1e89f#32]

/-- internal/kernel_neon.h:1821-1853. -/
def dotprodLast : List Ins :=
  [word 0x6f80e048#32, word 0x6fa0e049#32, ld1_16b 1 .rhs, word 0x6f80e84a#32,
   word 0x6fa0e84b#32, ld1_16b 3 .lhs, word 0x6f81e04c#32, word 0x6fa1e04d#32, ld1_16b 4 .lhs,
   word 0x6f81e84e#32, word 0x6fa1e84f#32, word 0x6f80e070#32, word 0x6fa0e071#32,
   word 0x6f80e872#32, word 0x6fa0e873#32, word 0x6f81e074#32, word 0x6fa1e075#32,
   word 0x6f81e876#32, word 0x6fa1e877#32, word 0x6f80e098#32, word 0x6fa0e099#32,
   word 0x6f80e89a#32, word 0x6fa0e89b#32, word 0x6f81e09c#32, word 0x6fa1e09d#32,
   word 0x6f81e89e#32, word 0x6fa1e89f#32]

/-- internal/kernel_neon.h:1693-1732: register, row, column. -/
def dotprodLoads : List Tile :=
  [⟨8, 0, 0⟩, ⟨16, 4, 0⟩, ⟨24, 8, 0⟩, ⟨9, 0, 1⟩, ⟨17, 4, 1⟩, ⟨25, 8, 1⟩, ⟨10, 0, 2⟩, ⟨18, 4, 2⟩,
   ⟨26, 8, 2⟩, ⟨11, 0, 3⟩, ⟨19, 4, 3⟩, ⟨27, 8, 3⟩, ⟨12, 0, 4⟩, ⟨20, 4, 4⟩, ⟨28, 8, 4⟩,
   ⟨13, 0, 5⟩, ⟨21, 4, 5⟩, ⟨29, 8, 5⟩, ⟨14, 0, 6⟩, ⟨22, 4, 6⟩, ⟨30, 8, 6⟩, ⟨15, 0, 7⟩,
   ⟨23, 4, 7⟩, ⟨31, 8, 7⟩]

/-- internal/kernel_neon.h:1857-1895. -/
def dotprodStores : List Tile :=
  [⟨8, 0, 0⟩, ⟨16, 4, 0⟩, ⟨24, 8, 0⟩, ⟨9, 0, 1⟩, ⟨17, 4, 1⟩, ⟨25, 8, 1⟩, ⟨10, 0, 2⟩, ⟨18, 4, 2⟩,
   ⟨26, 8, 2⟩, ⟨11, 0, 3⟩, ⟨19, 4, 3⟩, ⟨27, 8, 3⟩, ⟨12, 0, 4⟩, ⟨20, 4, 4⟩, ⟨28, 8, 4⟩,
   ⟨13, 0, 5⟩, ⟨21, 4, 5⟩, ⟨29, 8, 5⟩, ⟨14, 0, 6⟩, ⟨22, 4, 6⟩, ⟨30, 8, 6⟩, ⟨15, 0, 7⟩,
   ⟨23, 4, 7⟩, ⟨31, 8, 7⟩]

/-- internal/kernel_neon.h:1665-1906.  The counter is the 32-bit register `%w[depth]`. -/
def dotprodKernel (x0 : Nat → VReg) : KernelRun :=
  kernelLoadFirst dotprodLoads dotprodStores dotprodClear (fun m rd s =>
    pipe m 4 dotprodLoop dotprodLast (BitVec.ofNat 32 rd - 4#32) (exec m dotprodPre s)) x0

/-! ## `NEON_64bit_GEMM_Int8Operands_LhsNonzero` -/

/-- internal/kernel_neon.h:944-947: the format. -/
def lnz64Format : KernelFormat where
  lhs := { cw := 4, cd := 16, order := .widthMajor, cells := 1, scalar := .int8 }
  rhs := { cw := 4, cd := 16, order := .widthMajor, cells := 1, scalar := .int8 }

/-- internal/kernel_neon.h:1279-1288 `NEON_64bit_GEMM_Int8Operands_LhsNonzero_Int8Inputs`: the same kernel with
this format. -/
def lnz64Int8Format : KernelFormat where
  lhs := { cw := 4, cd := 16, order := .widthMajor, cells := 1, scalar := .int8Inputs }
  rhs := { cw := 4, cd := 16, order := .widthMajor, cells := 1, scalar := .int8Inputs }

/-- internal/kernel_neon.h:967-1019. -/
def lnz64Pre : List Ins :=
  [ld1_16b 0 .rhs, dup0 16, ld1_16b 4 .lhs, dup0 17, ld1_16b 1 .rhs, dup0 18, ld1_16b 5 .lhs,
   dup0 19, ld1_16b 2 .rhs, dup0 20, ld1_16b 3 .rhs, dup0 21, ld1_16b 6 .lhs, dup0 22,
   ld1_16b 7 .lhs, dup0 23, dup0 24, dup0 25, dup0 26, dup0 27, dup0 28, dup0 29, dup0 30,
   dup0 31, smull 8 0 4, smull 9 1 4, smull 10 2 4, smull 11 3 4, smull 12 0 5, smull 13 1 5,
   smull 14 2 5, smull 15 3 5, smlal2 8 0 4, smlal2 9 1 4, smlal2 10 2 4, smlal2 11 3 4,
   smlal2 12 0 5, smlal2 13 1 5, smlal2 14 2 5, smlal2 15 3 5]

/-- internal/kernel_neon.h:1083-1157. -/
def lnz64Loop : List Ins :=
  [sadalp 16 8, ld1_16b 4 .lhs, smull 8 0 6, sadalp 17 9, ld1_16b 5 .lhs, smull 9 1 6,
   sadalp 18 10, smull 10 2 6, sadalp 19 11, smull 11 3 6, sadalp 20 12, smull 12 0 7,
   sadalp 21 13, smull 13 1 7, sadalp 22 14, smull 14 2 7, sadalp 23 15, smull 15 3 7,
   smlal2 8 0 6, smlal2 9 1 6, smlal2 10 2 6, smlal2 11 3 6, ld1_16b 6 .lhs, smlal2 12 0 7,
   ld1_16b 0 .rhs, smlal2 13 1 7, ld1_16b 1 .rhs, smlal2 14 2 7, ld1_16b 2 .rhs, smlal2 15 3 7,
   ld1_16b 3 .rhs, sadalp 24 8, smull 8 0 4, sadalp 25 9, ld1_16b 7 .lhs, smull 9 1 4,
   sadalp 26 10, smull 10 2 4, sadalp 27 11, smull 11 3 4, sadalp 28 12, smull 12 0 5,
   sadalp 29 13, smull 13 1 5, sadalp 30 14, smull 14 2 5, sadalp 31 15, smull 15 3 5,
   smlal2 8 0 4, smlal2 9 1 4, smlal2 10 2 4, smlal2 11 3 4, smlal2 12 0 5, smlal2 13 1 5,
   smlal2 14 2 5, smlal2 15 3 5]

/-- internal/kernel_neon.h:1168-1215. -/
def lnz64Last : List Ins :=
  [sadalp 16 8, smull 8 0 6, sadalp 17 9, smull 9 1 6, sadalp 18 10, smull 10 2 6, sadalp 19 11,
   smull 11 3 6, sadalp 20 12, smull 12 0 7, sadalp 21 13, smull 13 1 7, sadalp 22 14,
   smull 14 2 7, sadalp 23 15, smull 15 3 7, smlal2 8 0 6, smlal2 9 1 6, smlal2 10 2 6,
   smlal2 11 3 6, smlal2 12 0 7, smlal2 13 1 7, smlal2 14 2 7, smlal2 15 3 7, sadalp 24 8,
   sadalp 25 9, sadalp 26 10, sadalp 27 11, sadalp 28 12, sadalp 29 13, sadalp 30 14,
   sadalp 31 15, addp 0 16 20, addp 2 17 21, addp 4 18 22, addp 6 19 23, addp 1 24 28,
   addp 3 25 29, addp 5 26 30, addp 7 27 31]

/-- internal/kernel_neon.h:1223-1226, for `start_depth = 0`. -/
def lnz64End0 : List Ins :=
  [addp 12 0 1, addp 13 2 3, addp 14 4 5, addp 15 6 7]

/-- internal/kernel_neon.h:1236-1244, the additions, otherwise. -/
def lnz64End1 : List Ins :=
  [addp 8 0 1, addp 9 2 3, addp 10 4 5, addp 11 6 7]

/-- internal/kernel_neon.h:1256-1260: register, row, column. -/
def lnz64Stores : List Tile :=
  [⟨12, 0, 0⟩, ⟨13, 0, 1⟩, ⟨14, 0, 2⟩, ⟨15, 0, 3⟩]

/-- internal/kernel_neon.h:1236-1251, for `start_depth` not 0: the register that is added to the
destination values loaded. -/
def lnz64Adds : List Tile :=
  [⟨8, 0, 0⟩, ⟨9, 0, 1⟩, ⟨10, 0, 2⟩, ⟨11, 0, 3⟩]

/-- internal/kernel_neon.h:943-1278. -/
def lnz64Kernel (x0 : Nat → VReg) : KernelRun :=
  kernelAddLast lnz64Stores lnz64Adds lnz64End0 lnz64End1 (fun m rd s =>
    pipe m 16 lnz64Loop lnz64Last (BitVec.ofNat 64 rd - 16#64) (exec m lnz64Pre s)) x0

end Gemmlowp.Vec
