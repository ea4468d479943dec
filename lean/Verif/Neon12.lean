import Verif.Neon32
/-!
# internal/kernel_neon.h: the kernel for products of at most 12 bits

`NEON_32_Kernel12x4Depth2Assuming12BitProducts` adds products in 16 bits and keeps its 32-bit
accumulators in an array on the stack.  Four words of that array at a time are treated as a register:
words `4 * g` to `4 * g + 3` are register `16 + g`; all accesses are to such groups.
-/
namespace Gemmlowp.Vec

open Asm (Tile)

/-! ## Instructions -/

/-- `vmlal.u8 qd, dn, dm` -/
def vmlal_u8 (d n m : Nat) : Ins :=
  .op d (fun x => ofH fun j => (x d).h j + (dreg x n j).setWidth 16 * (dreg x m j).setWidth 16)

/-- `vpadal.u16 qd, qm` -/
def vpadal_u16 (d m : Nat) : Ins :=
  .op d (fun x => ofS fun i =>
    (x d).s i + (((x m).h (2 * i)).setWidth 32 + ((x m).h (2 * i + 1)).setWidth 32))

/-- `vext.8 dd, dn, dm, #k` -/
def vext_8 (d n m k : Nat) : Ins :=
  .op (d / 2) (fun x => putD (d % 2)
    (fun j => if j + k < 8 then dreg x n (j + k) else dreg x m (j + k - 8)) (x (d / 2)))

/-- `vext.32 qd, qn, qm, #k` -/
def vext_32 (d n m k : Nat) : Ins :=
  .op d (fun x => ofS fun i => if i + k < 4 then (x n).s (i + k) else (x m).s (i + k - 4))

/-- `vtrn.32 qd, qm` -/
def vtrn_32 (d m : Nat) : Ins :=
  .ops (fun x r =>
    if r = d then ofS fun i => if i % 2 = 0 then (x d).s i else (x m).s (i - 1)
    else if r = m then ofS fun i => if i % 2 = 0 then (x d).s (i + 1) else (x m).s i
    else x r)

/-- `vswp dd, dm`, for halves of different registers -/
def vswp (d m : Nat) : Ins :=
  .ops (fun x r =>
    if r = d / 2 then putD (d % 2) (dreg x m) (x r)
    else if r = m / 2 then putD (m % 2) (dreg x d) (x r)
    else x r)

/-- One register's part of `vld1.32 {da, db, dc, dd}, [r]!`, from the array -/
def vld1_q (q g : Nat) : Ins := .op q (fun x => x (16 + g))

/-- One register's part of `vst1.32 {da, db, dc, dd}, [r]!`, to the array -/
def vst1_q (q g : Nat) : Ins := .op (16 + g) (fun x => x q)

/-- Two words each of four `d` registers: `vst4.32 {d0, d1, d2, d3}, [r]!` stores the first words, -/
def vst4_0 (d0 d1 d2 d3 g : Nat) : Ins :=
  .op (16 + g) (fun x => ofS fun i =>
    if i = 0 then (dreg x d0).s 0 else if i = 1 then (dreg x d1).s 0
    else if i = 2 then (dreg x d2).s 0 else (dreg x d3).s 0)

/-- then the second. -/
def vst4_1 (d0 d1 d2 d3 g : Nat) : Ins :=
  .op (16 + (g + 1)) (fun x => ofS fun i =>
    if i = 0 then (dreg x d0).s 1 else if i = 1 then (dreg x d1).s 1
    else if i = 2 then (dreg x d2).s 1 else (dreg x d3).s 1)

/-- One register's part of `vld4.32 {d0, d1, d2, d3}, [r]!`: every fourth word. -/
def vld4_part (d k g : Nat) : Ins :=
  .op (d / 2) (fun x => putD (d % 2)
    (ofS fun i => if i = 0 then (x (16 + g)).s k else (x (16 + (g + 1))).s k) (x (d / 2)))

def vld4_0 (d0 _d1 _d2 _d3 g : Nat) : Ins := vld4_part d0 0 g
def vld4_1 (_d0 d1 _d2 _d3 g : Nat) : Ins := vld4_part d1 1 g
def vld4_2 (_d0 _d1 d2 _d3 g : Nat) : Ins := vld4_part d2 2 g
def vld4_3 (_d0 _d1 _d2 d3 g : Nat) : Ins := vld4_part d3 3 g

/-! ## The kernel -/

/-- internal/kernel_neon.h:295-298: the format. -/
def twelveFormat : KernelFormat where
  lhs := { cw := 4, cd := 2, order := .widthMajor, cells := 3, scalar := .uint8 }
  rhs := { cw := 4, cd := 2, order := .widthMajor, cells := 1, scalar := .uint8 }

/-- internal/kernel_neon.h:351-358. -/
def twelveClear : List Ins :=
  [vmov0 8, vmov 9 8, vst1_q 8 0, vst1_q 9 1, vst1_q 8 2, vst1_q 9 3, vst1_q 8 4, vst1_q 9 5,
   vst1_q 8 6, vst1_q 9 7, vst1_q 8 8, vst1_q 9 9, vst1_q 8 10, vst1_q 9 11]

/-- internal/kernel_neon.h:366-380: register, row, column. -/
def twelveLoads : List Tile :=
  [⟨0, 0, 0⟩, ⟨4, 4, 0⟩, ⟨8, 8, 0⟩, ⟨1, 0, 1⟩, ⟨5, 4, 1⟩, ⟨9, 8, 1⟩, ⟨2, 0, 2⟩, ⟨6, 4, 2⟩,
   ⟨10, 8, 2⟩, ⟨3, 0, 3⟩, ⟨7, 4, 3⟩, ⟨11, 8, 3⟩]

/-- internal/kernel_neon.h:389-400.  The same at 616-627. -/
def twelveTranspose : List Ins :=
  [vtrn_32 0 1, vtrn_32 2 3, vswp 1 4, vswp 3 6, vtrn_32 4 5, vtrn_32 6 7, vswp 9 12,
   vswp 11 14, vtrn_32 8 9, vtrn_32 10 11, vswp 17 20, vswp 19 22]

/-- internal/kernel_neon.h:402-410. -/
def twelveRotateIn : List Ins :=
  [vext_32 1 1 1 1, vext_32 2 2 2 2, vext_32 3 3 3 3, vext_32 5 5 5 1, vext_32 6 6 6 2,
   vext_32 7 7 7 3, vext_32 9 9 9 1, vext_32 10 10 10 2, vext_32 11 11 11 3]

/-- internal/kernel_neon.h:414-419. -/
def twelveStoreIn : List Ins :=
  [vst4_0 0 2 4 6 0, vst4_1 0 2 4 6 0, vst4_0 1 3 5 7 2, vst4_1 1 3 5 7 2, vst4_0 8 10 12 14 4,
   vst4_1 8 10 12 14 4, vst4_0 9 11 13 15 6, vst4_1 9 11 13 15 6, vst4_0 16 18 20 22 8,
   vst4_1 16 18 20 22 8, vst4_0 17 19 21 23 10, vst4_1 17 19 21 23 10]

/-- internal/kernel_neon.h:475-495.  Two levels of depth. -/
def twelve2 : List Ins :=
  [vld1 1 .lhs, vld1 2 .lhs, vld1 3 .lhs, vld1 0 .rhs, vmlal_u8 4 1 0, vmlal_u8 8 2 0,
   vmlal_u8 12 3 0, vext_8 0 0 0 2, vmlal_u8 5 1 0, vmlal_u8 9 2 0, vmlal_u8 13 3 0,
   vext_8 0 0 0 2, vmlal_u8 6 1 0, vmlal_u8 10 2 0, vmlal_u8 14 3 0, vext_8 0 0 0 2,
   vmlal_u8 7 1 0, vmlal_u8 11 2 0, vmlal_u8 15 3 0]

/-- internal/kernel_neon.h:499-503 -/
def twelve8 : List Ins := twelve2 ++ twelve2 ++ twelve2 ++ twelve2

/-- internal/kernel_neon.h:536-543: what follows the labels. -/
def twelveLabel2 : List Ins := twelve2
def twelveLabel8 : List Ins := twelve2 ++ twelve2 ++ twelve2 ++ twelveLabel2
def twelveLabel16 : List Ins := twelve8 ++ twelveLabel8
def twelveLabel24 : List Ins := twelve8 ++ twelveLabel16
def twelveLabel32 : List Ins := twelve8 ++ twelveLabel24

/-- internal/kernel_neon.h:506-517. -/
def twelveLocal : List Ins :=
  [vmov0 4, vmov 5 4, vmov 6 4, vmov 7 4, vmov 8 4, vmov 9 4, vmov 10 4, vmov 11 4, vmov 12 4,
   vmov 13 4, vmov 14 4, vmov 15 4]

/-- internal/kernel_neon.h:550-573. -/
def twelveFlush : List Ins :=
  [vld1_q 0 0, vld1_q 1 1, vld1_q 2 2, vld1_q 3 3, vpadal_u16 0 4, vpadal_u16 1 5,
   vpadal_u16 2 6, vpadal_u16 3 7, vst1_q 0 0, vst1_q 1 1, vst1_q 2 2, vst1_q 3 3, vld1_q 0 4,
   vld1_q 1 5, vld1_q 2 6, vld1_q 3 7, vpadal_u16 0 8, vpadal_u16 1 9, vpadal_u16 2 10,
   vpadal_u16 3 11, vst1_q 0 4, vst1_q 1 5, vst1_q 2 6, vst1_q 3 7, vld1_q 0 8, vld1_q 1 9,
   vld1_q 2 10, vld1_q 3 11, vpadal_u16 0 12, vpadal_u16 1 13, vpadal_u16 2 14, vpadal_u16 3 15,
   vst1_q 0 8, vst1_q 1 9, vst1_q 2 10, vst1_q 3 11]

/-- internal/kernel_neon.h:599-604. -/
def twelveLoadOut : List Ins :=
  [vld4_0 0 2 4 6 0, vld4_1 0 2 4 6 0, vld4_2 0 2 4 6 0, vld4_3 0 2 4 6 0, vld4_0 1 3 5 7 2,
   vld4_1 1 3 5 7 2, vld4_2 1 3 5 7 2, vld4_3 1 3 5 7 2, vld4_0 8 10 12 14 4,
   vld4_1 8 10 12 14 4, vld4_2 8 10 12 14 4, vld4_3 8 10 12 14 4, vld4_0 9 11 13 15 6,
   vld4_1 9 11 13 15 6, vld4_2 9 11 13 15 6, vld4_3 9 11 13 15 6, vld4_0 16 18 20 22 8,
   vld4_1 16 18 20 22 8, vld4_2 16 18 20 22 8, vld4_3 16 18 20 22 8, vld4_0 17 19 21 23 10,
   vld4_1 17 19 21 23 10, vld4_2 17 19 21 23 10, vld4_3 17 19 21 23 10]

/-- internal/kernel_neon.h:606-614. -/
def twelveRotateOut : List Ins :=
  [vext_32 1 1 1 3, vext_32 2 2 2 2, vext_32 3 3 3 1, vext_32 5 5 5 3, vext_32 6 6 6 2,
   vext_32 7 7 7 1, vext_32 9 9 9 3, vext_32 10 10 10 2, vext_32 11 11 11 1]

/-- internal/kernel_neon.h:629-643. -/
def twelveStores : List Tile :=
  [⟨0, 0, 0⟩, ⟨4, 4, 0⟩, ⟨8, 8, 0⟩, ⟨1, 0, 1⟩, ⟨5, 4, 1⟩, ⟨9, 8, 1⟩, ⟨2, 0, 2⟩, ⟨6, 4, 2⟩,
   ⟨10, 8, 2⟩, ⟨3, 0, 3⟩, ⟨7, 4, 3⟩, ⟨11, 8, 3⟩]

/-- internal/kernel_neon.h:423-578: the main loop.  `run_depth` is compared as a signed number; a
counter that is no positive multiple of 2 would run the loop off the buffers, which is modelled as a
fault. -/
def twelveLoop (m : Mem) (depth : BitVec 32) (s : St) : St :=
  let s := exec m twelveLocal s
  let round (code : List Ins) : St := exec m twelveFlush (exec m code s)
  if depth.toNat % 2 = 1 ∨ depth.toNat = 0 ∨ 2 ^ 31 ≤ depth.toNat then { s with ok := false }
  else if _h : 32 ≤ depth.toInt then
    let s := round twelveLabel32
    if depth - 32#32 = 0#32 then s else twelveLoop m (depth - 32#32) s
  else if _h : 24 ≤ depth.toInt then
    let s := round twelveLabel24
    if depth - 24#32 = 0#32 then s else twelveLoop m (depth - 24#32) s
  else if _h : 16 ≤ depth.toInt then
    let s := round twelveLabel16
    if depth - 16#32 = 0#32 then s else twelveLoop m (depth - 16#32) s
  else if _h : 8 ≤ depth.toInt then
    let s := round twelveLabel8
    if depth - 8#32 = 0#32 then s else twelveLoop m (depth - 8#32) s
  else
    let s := round twelveLabel2
    if depth - 2#32 = 0#32 then s else twelveLoop m (depth - 2#32) s
termination_by depth.toNat
decreasing_by
  all_goals
    have h2 := BitVec.toInt_eq_toNat_cond depth
    rw [BitVec.toNat_sub, BitVec.toNat_ofNat]
    split at h2 <;> omega

/-- internal/kernel_neon.h:294-667.  Alignment of the pointers (`:64`) is not modelled. -/
def twelveKernel (x0 : Nat → VReg) : KernelRun :=
  kernelConvFirst twelveLoads twelveStores twelveClear
    (twelveTranspose ++ twelveRotateIn ++ twelveStoreIn)
    (fun m rd s => exec m (twelveLoadOut ++ twelveRotateOut ++ twelveTranspose)
      (twelveLoop m (BitVec.ofNat 32 rd) s)) x0

end Gemmlowp.Vec
