import Verif.Vec128
/-!
# internal/kernel_neon.h: the kernels for 32-bit ARM

`q` registers are the registers of the machine; `d` register `d` is half `d % 2` of `q` register
`d / 2`.
-/
namespace Gemmlowp.Vec

open Asm (Tile)

/-! ## Instructions -/

/-- Half `k` of a register. -/
def half (v : VReg) (k : Nat) : VReg := fun j => if j < 8 then v (8 * k + j) else 0#8

/-- A register with half `k` replaced. -/
def putD (k : Nat) (new old : VReg) : VReg :=
  if k = 0 then (fun j => if j < 8 then new j else old j)
  else (fun j => if j < 8 then old j else new (j - 8))

/-- A `d` register. -/
def dreg (x : Nat → VReg) (d : Nat) : VReg := half (x (d / 2)) (d % 2)

/-- `vld1.8 {dd}, [p]!` -/
def vld1 (d : Nat) (p : Ptr) : Ins := .load p 0 8 8 (d / 2) (putD (d % 2))

/-- `vldr dd, [p, #off]` -/
def vldr (d : Nat) (p : Ptr) (off : Nat) : Ins := .load p off 8 0 (d / 2) (putD (d % 2))

/-- `vmov.i32 qd, #0` -/
def vmov0 (d : Nat) : Ins := .op d (fun _ _ => 0#8)

/-- `vmov.i32 qd, qm` -/
def vmov (d m : Nat) : Ins := .op d (fun x => x m)

/-- `vmovl.u8 qd, dm` -/
def vmovl_u8 (d m : Nat) : Ins := .op d (fun x => ofH fun i => (dreg x m i).setWidth 16)

/-- `vmlal.u16 qd, dn, dm[k]` -/
def vmlal_u16 (d n m k : Nat) : Ins :=
  .op d (fun x => ofS fun i =>
    (x d).s i + ((dreg x n).h i).setWidth 32 * ((dreg x m).h k).setWidth 32)

/-- `vmull.s8 qd, dn, dm` -/
def vmull_s8 (d n m : Nat) : Ins :=
  .op d (fun x => ofH fun i => (dreg x n i).signExtend 16 * (dreg x m i).signExtend 16)

/-- `vmlal.s8 qd, dn, dm` -/
def vmlal_s8 (d n m : Nat) : Ins :=
  .op d (fun x => ofH fun i => (x d).h i + (dreg x n i).signExtend 16 * (dreg x m i).signExtend 16)

/-- `vpadal.s16 qd, qm` -/
def vpadal_s16 (d m : Nat) : Ins :=
  .op d (fun x => ofS fun i =>
    (x d).s i + (((x m).h (2 * i)).signExtend 32 + ((x m).h (2 * i + 1)).signExtend 32))

/-- `vpadd.s32 dd, dn, dm` -/
def vpadd (d n m : Nat) : Ins :=
  .op (d / 2) (fun x => putD (d % 2)
    (ofS fun i => if i = 0 then (dreg x n).s 0 + (dreg x n).s 1 else (dreg x m).s 0 + (dreg x m).s 1)
    (x (d / 2)))

/-! ## `NEON_32_Kernel12x4Depth2` -/

/-- internal/kernel_neon.h:35-37: the format. -/
def neon32Format : KernelFormat where
  lhs := { cw := 4, cd := 2, order := .depthMajor, cells := 3, scalar := .uint8 }
  rhs := { cw := 4, cd := 2, order := .depthMajor, cells := 1, scalar := .uint8 }

/-- internal/kernel_neon.h:97-101. -/
def neon32Pre : List Ins :=
  [vld1 0 .rhs, vld1 2 .lhs, vld1 4 .lhs, vld1 6 .lhs]

/-- internal/kernel_neon.h:143-155. -/
def neon32Clear : List Ins :=
  [vmov0 4, vmov 8 4, vmov 12 4, vmov 5 4, vmov 9 4, vmov 13 4, vmov 6 4, vmov 10 4, vmov 14 4,
   vmov 7 4, vmov 11 4, vmov 15 4]

/-- internal/kernel_neon.h:170-208. -/
def neon32Loop : List Ins :=
  [vmovl_u8 0 0, vmovl_u8 1 2, vmovl_u8 2 4, vmovl_u8 3 6, vmlal_u16 4 2 0 0, vmlal_u16 5 2 0 1,
   vmlal_u16 6 2 0 2, vmlal_u16 7 2 0 3, vldr 2 .lhs 0, vmlal_u16 8 4 0 0, vmlal_u16 9 4 0 1,
   vmlal_u16 10 4 0 2, vmlal_u16 11 4 0 3, vldr 4 .lhs 8, vmlal_u16 12 6 0 0,
   vmlal_u16 13 6 0 1, vmlal_u16 14 6 0 2, vmlal_u16 15 6 0 3, vldr 6 .lhs 16, vldr 0 .rhs 0,
   vmlal_u16 4 3 1 0, vmlal_u16 5 3 1 1, .addPtr .lhs 24, vmlal_u16 6 3 1 2, vmlal_u16 7 3 1 3,
   .addPtr .rhs 8, vmlal_u16 8 5 1 0, vmlal_u16 9 5 1 1, vmlal_u16 10 5 1 2, vmlal_u16 11 5 1 3,
   vmlal_u16 12 7 1 0, vmlal_u16 13 7 1 1, vmlal_u16 14 7 1 2, vmlal_u16 15 7 1 3]

/-- internal/kernel_neon.h:218-249. -/
def neon32Last : List Ins :=
  [vmovl_u8 0 0, vmovl_u8 1 2, vmovl_u8 2 4, vmovl_u8 3 6, vmlal_u16 4 2 0 0, vmlal_u16 5 2 0 1,
   vmlal_u16 6 2 0 2, vmlal_u16 7 2 0 3, vmlal_u16 8 4 0 0, vmlal_u16 9 4 0 1,
   vmlal_u16 10 4 0 2, vmlal_u16 11 4 0 3, vmlal_u16 12 6 0 0, vmlal_u16 13 6 0 1,
   vmlal_u16 14 6 0 2, vmlal_u16 15 6 0 3, vmlal_u16 4 3 1 0, vmlal_u16 5 3 1 1,
   vmlal_u16 6 3 1 2, vmlal_u16 7 3 1 3, vmlal_u16 8 5 1 0, vmlal_u16 9 5 1 1,
   vmlal_u16 10 5 1 2, vmlal_u16 11 5 1 3, vmlal_u16 12 7 1 0, vmlal_u16 13 7 1 1,
   vmlal_u16 14 7 1 2, vmlal_u16 15 7 1 3]

/-- internal/kernel_neon.h:118-135: register, row, column. -/
def neon32Loads : List Tile :=
  [⟨4, 0, 0⟩, ⟨8, 4, 0⟩, ⟨12, 8, 0⟩, ⟨5, 0, 1⟩, ⟨9, 4, 1⟩, ⟨13, 8, 1⟩, ⟨6, 0, 2⟩, ⟨10, 4, 2⟩,
   ⟨14, 8, 2⟩, ⟨7, 0, 3⟩, ⟨11, 4, 3⟩, ⟨15, 8, 3⟩]

/-- internal/kernel_neon.h:254-271. -/
def neon32Stores : List Tile :=
  [⟨4, 0, 0⟩, ⟨8, 4, 0⟩, ⟨12, 8, 0⟩, ⟨5, 0, 1⟩, ⟨9, 4, 1⟩, ⟨13, 8, 1⟩, ⟨6, 0, 2⟩, ⟨10, 4, 2⟩,
   ⟨14, 8, 2⟩, ⟨7, 0, 3⟩, ⟨11, 4, 3⟩, ⟨15, 8, 3⟩]

/-- internal/kernel_neon.h:34-291.  The loads of the first cells (97-101) are put after the setting of
the accumulators, which uses other registers. -/
def neon32Kernel (x0 : Nat → VReg) : KernelRun :=
  kernelLoadFirst neon32Loads neon32Stores neon32Clear (fun m rd s =>
    pipe m 2 neon32Loop neon32Last (BitVec.ofNat 32 rd - 2#32) (exec m neon32Pre s)) x0

/-! ## `NEON_32bit_GEMM_Int8Operands_LhsNonzero` -/

/-- internal/kernel_neon.h:670-673: the format. -/
def lnz32Format : KernelFormat where
  lhs := { cw := 4, cd := 16, order := .widthMajor, cells := 1, scalar := .int8 }
  rhs := { cw := 2, cd := 16, order := .widthMajor, cells := 1, scalar := .int8 }

/-- internal/kernel_neon.h:927-936 `NEON_32bit_GEMM_Int8Operands_LhsNonzero_Int8Inputs`: the same kernel with
this format. -/
def lnz32Int8Format : KernelFormat where
  lhs := { cw := 4, cd := 16, order := .widthMajor, cells := 1, scalar := .int8Inputs }
  rhs := { cw := 2, cd := 16, order := .widthMajor, cells := 1, scalar := .int8Inputs }

/-- internal/kernel_neon.h:754-769. -/
def lnz32Pre : List Ins :=
  [vldr 0 .rhs 0, vmov0 8, vldr 4 .lhs 0, vmov0 9, vldr 2 .rhs 16, vmov 10 8, vldr 6 .lhs 16,
   vmov 11 8, vldr 1 .rhs 8, vmov 12 8, vldr 5 .lhs 8, vmov 13 8, vldr 3 .rhs 24, vmov 14 8,
   vldr 7 .lhs 24, vmov 15 8]

/-- internal/kernel_neon.h:776-801.  The first half of the loop: rows 0 and 1. -/
def lnz32A : List Ins :=
  [vmull_s8 4 0 4, .addPtr .rhs 32, vmull_s8 5 2 4, vldr 4 .lhs 32, vmull_s8 6 0 6,
   vmull_s8 7 2 6, vldr 6 .lhs 48, vmlal_s8 4 1 5, vmlal_s8 5 3 5, vldr 5 .lhs 40,
   vmlal_s8 6 1 7, vmlal_s8 7 3 7, vldr 7 .lhs 56, vpadal_s16 8 4, .addPtr .lhs 64,
   vpadal_s16 9 5, vpadal_s16 10 6, vpadal_s16 11 7]

/-- internal/kernel_neon.h:807-833.  The second half of the loop: rows 2 and 3. -/
def lnz32B : List Ins :=
  [vmull_s8 4 0 4, vmull_s8 5 2 4, vldr 4 .lhs 0, vmull_s8 6 0 6, vldr 0 .rhs 0, vmull_s8 7 2 6,
   vldr 2 .rhs 16, vmlal_s8 4 1 5, vldr 6 .lhs 16, vmlal_s8 5 3 5, vldr 5 .lhs 8,
   vmlal_s8 6 1 7, vldr 1 .rhs 8, vmlal_s8 7 3 7, vldr 3 .rhs 24, vpadal_s16 12 4,
   vldr 7 .lhs 24, vpadal_s16 13 5, vpadal_s16 14 6, vpadal_s16 15 7]

/-- internal/kernel_neon.h:841-870. -/
def lnz32Last : List Ins :=
  [vmull_s8 4 0 4, vmull_s8 5 2 4, vmull_s8 6 0 6, vmull_s8 7 2 6, vmlal_s8 4 1 5,
   vmlal_s8 5 3 5, vmlal_s8 6 1 7, vmlal_s8 7 3 7, vpadal_s16 12 4, vpadal_s16 13 5,
   vpadal_s16 14 6, vpadal_s16 15 7, vpadd 0 16 17, vpadd 1 18 19, vpadd 2 20 21, vpadd 3 22 23,
   vpadd 4 24 25, vpadd 5 26 27, vpadd 6 28 29, vpadd 7 30 31]

/-- internal/kernel_neon.h:877-880.  The same at 892-896, for `start_depth` not 0. -/
def lnz32End : List Ins :=
  [vpadd 8 0 2, vpadd 9 4 6, vpadd 10 1 3, vpadd 11 5 7]

/-- internal/kernel_neon.h:907-908: register, row, column. -/
def lnz32Stores : List Tile := [⟨4, 0, 0⟩, ⟨5, 0, 1⟩]

/-- internal/kernel_neon.h:669-925.  The loop is left in its middle, if the counter is zero after its
first half; as the first half does not depend on the counter, one may as well decide before. -/
def lnz32Kernel (x0 : Nat → VReg) : KernelRun :=
  kernelAddLast lnz32Stores lnz32Stores lnz32End lnz32End (fun m rd s =>
    pipe m 16 (lnz32A ++ lnz32B) (lnz32A ++ lnz32Last) (BitVec.ofNat 32 rd - 16#32)
      (exec m lnz32Pre s)) x0

end Gemmlowp.Vec
