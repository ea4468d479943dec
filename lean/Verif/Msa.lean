import Verif.Vec128
/-!
# internal/kernel_msa.h: the kernels for MIPS SIMD
-/
namespace Gemmlowp.Vec

open Asm (Tile)

/-! ## Instructions -/

/-- `ld.b wd, off(p)` -/
def ld_b (d : Nat) (p : Ptr) (off : Nat) : Ins := .load p off 16 0 d (fun new _ => new)

/-- `ldi.b wd, 0`, `ldi.w wd, 0` -/
def ldi0 (d : Nat) : Ins := .op d (fun _ _ => 0#8)

/-- `ldi.h wd, n` -/
def ldi_h (d n : Nat) : Ins := .op d (fun _ => ofH fun _ => BitVec.ofNat 16 n)

/-- `ilvr.b wd, ws, wt`: interleave the low halves. -/
def ilvr_b (d s t : Nat) : Ins := .op d (fun x j => if j % 2 = 0 then x t (j / 2) else x s (j / 2))

/-- `ilvl.b wd, ws, wt`: interleave the high halves. -/
def ilvl_b (d s t : Nat) : Ins :=
  .op d (fun x j => if j % 2 = 0 then x t (8 + j / 2) else x s (8 + j / 2))

/-- `splati.w wd, ws[k]` -/
def splati_w (d s k : Nat) : Ins := .op d (fun x => ofS fun _ => (x s).s k)

/-- `dpadd_u.w wd, ws, wt` -/
def dpadd_u_w (d s t : Nat) : Ins :=
  .op d (fun x => ofS fun i => (x d).s i +
    (((x s).h (2 * i + 1)).setWidth 32 * ((x t).h (2 * i + 1)).setWidth 32 +
     ((x s).h (2 * i)).setWidth 32 * ((x t).h (2 * i)).setWidth 32))

/-- `dpadd_s.w wd, ws, wt` -/
def dpadd_s_w (d s t : Nat) : Ins :=
  .op d (fun x => ofS fun i => (x d).s i +
    (((x s).h (2 * i + 1)).signExtend 32 * ((x t).h (2 * i + 1)).signExtend 32 +
     ((x s).h (2 * i)).signExtend 32 * ((x t).h (2 * i)).signExtend 32))

/-- `dotp_s.h wd, ws, wt` -/
def dotp_s_h (d s t : Nat) : Ins :=
  .op d (fun x => ofH fun i =>
    (x s (2 * i + 1)).signExtend 16 * (x t (2 * i + 1)).signExtend 16 +
    (x s (2 * i)).signExtend 16 * (x t (2 * i)).signExtend 16)

/-- `hadd_s.d wd, ws, wt`: odd words of `ws` plus even words of `wt`. -/
def hadd_s_d (d s t : Nat) : Ins :=
  .op d (fun x => ofD fun i => ((x s).s (2 * i + 1)).signExtend 64 + ((x t).s (2 * i)).signExtend 64)

/-- `pckev.w wd, ws, wt`: the even words of `wt`, then those of `ws`. -/
def pckev_w (d s t : Nat) : Ins :=
  .op d (fun x => ofS fun i => if i < 2 then (x t).s (2 * i) else (x s).s (2 * (i - 2)))

/-! ## `MSA_Kernel12x8Depth2` -/

/-- internal/kernel_msa.h:45-47: the format. -/
def msaFormat : KernelFormat where
  lhs := { cw := 4, cd := 2, order := .widthMajor, cells := 3, scalar := .uint8 }
  rhs := { cw := 4, cd := 2, order := .widthMajor, cells := 2, scalar := .uint8 }

/-- internal/kernel_msa.h:104-127. -/
def msaClear : List Ins :=
  [ldi0 0, ldi0 4, ldi0 8, ldi0 1, ldi0 5, ldi0 9, ldi0 2, ldi0 6, ldi0 10, ldi0 3, ldi0 7,
   ldi0 11, ldi0 12, ldi0 16, ldi0 20, ldi0 13, ldi0 17, ldi0 21, ldi0 14, ldi0 18, ldi0 22,
   ldi0 15, ldi0 19, ldi0 23]

/-- internal/kernel_msa.h:167-225. -/
def msaLoop : List Ins :=
  [ld_b 24 .lhs 0, ld_b 25 .lhs 8, ld_b 27 .rhs 0, ldi0 31, ilvr_b 24 31 24, ilvl_b 26 31 25,
   ilvr_b 25 31 25, ilvr_b 31 31 27, splati_w 28 31 0, splati_w 29 31 1, splati_w 30 31 2,
   splati_w 31 31 3, dpadd_u_w 0 24 28, dpadd_u_w 4 25 28, dpadd_u_w 8 26 28, dpadd_u_w 1 24 29,
   dpadd_u_w 5 25 29, dpadd_u_w 9 26 29, dpadd_u_w 2 24 30, dpadd_u_w 6 25 30,
   dpadd_u_w 10 26 30, dpadd_u_w 3 24 31, dpadd_u_w 7 25 31, dpadd_u_w 11 26 31, ldi0 31,
   ilvl_b 31 31 27, splati_w 28 31 0, splati_w 29 31 1, splati_w 30 31 2, splati_w 31 31 3,
   dpadd_u_w 12 24 28, dpadd_u_w 16 25 28, dpadd_u_w 20 26 28, dpadd_u_w 13 24 29,
   dpadd_u_w 17 25 29, dpadd_u_w 21 26 29, dpadd_u_w 14 24 30, dpadd_u_w 18 25 30,
   dpadd_u_w 22 26 30, dpadd_u_w 15 24 31, dpadd_u_w 19 25 31, dpadd_u_w 23 26 31,
   .addPtr .lhs 24, .addPtr .rhs 16]

/-- internal/kernel_msa.h:76-99: register, row, column. -/
def msaLoads : List Tile :=
  [⟨0, 0, 0⟩, ⟨4, 4, 0⟩, ⟨8, 8, 0⟩, ⟨1, 0, 1⟩, ⟨5, 4, 1⟩, ⟨9, 8, 1⟩, ⟨2, 0, 2⟩, ⟨6, 4, 2⟩,
   ⟨10, 8, 2⟩, ⟨3, 0, 3⟩, ⟨7, 4, 3⟩, ⟨11, 8, 3⟩, ⟨12, 0, 4⟩, ⟨16, 4, 4⟩, ⟨20, 8, 4⟩, ⟨13, 0, 5⟩,
   ⟨17, 4, 5⟩, ⟨21, 8, 5⟩, ⟨14, 0, 6⟩, ⟨18, 4, 6⟩, ⟨22, 8, 6⟩, ⟨15, 0, 7⟩, ⟨19, 4, 7⟩,
   ⟨23, 8, 7⟩]

/-- internal/kernel_msa.h:232-255. -/
def msaStores : List Tile :=
  [⟨0, 0, 0⟩, ⟨4, 4, 0⟩, ⟨8, 8, 0⟩, ⟨1, 0, 1⟩, ⟨5, 4, 1⟩, ⟨9, 8, 1⟩, ⟨2, 0, 2⟩, ⟨6, 4, 2⟩,
   ⟨10, 8, 2⟩, ⟨3, 0, 3⟩, ⟨7, 4, 3⟩, ⟨11, 8, 3⟩, ⟨12, 0, 4⟩, ⟨16, 4, 4⟩, ⟨20, 8, 4⟩, ⟨13, 0, 5⟩,
   ⟨17, 4, 5⟩, ⟨21, 8, 5⟩, ⟨14, 0, 6⟩, ⟨18, 4, 6⟩, ⟨22, 8, 6⟩, ⟨15, 0, 7⟩, ⟨19, 4, 7⟩,
   ⟨23, 8, 7⟩]

/-- internal/kernel_msa.h:44-271.  The counter is tested after each round (bnez), so the last round is
like the others.  The counter is as wide as a pointer; 32 bits for MIPS32. -/
def msaKernel (x0 : Nat → VReg) : KernelRun :=
  kernelLoadFirst msaLoads msaStores msaClear (fun m rd s =>
    pipe m 2 msaLoop msaLoop (BitVec.ofNat 32 rd - 2#32) s) x0

/-! ## `MSA_GEMM_Int8Operands_LhsNonzero` -/

/-- internal/kernel_msa.h:282-285: the format. -/
def msaLnzFormat : KernelFormat where
  lhs := { cw := 4, cd := 16, order := .widthMajor, cells := 1, scalar := .int8 }
  rhs := { cw := 4, cd := 16, order := .widthMajor, cells := 1, scalar := .int8 }

/-- internal/kernel_msa.h:304-328. -/
def msaLnzPre : List Ins :=
  [ld_b 16 .lhs 0, ldi0 0, ld_b 20 .rhs 0, ldi0 1, ld_b 17 .lhs 16, ldi0 2, ld_b 21 .rhs 16,
   ldi0 3, ld_b 18 .lhs 32, ldi0 4, ld_b 19 .lhs 48, ldi0 5, ld_b 22 .rhs 32, ldi0 6,
   ld_b 23 .rhs 48, ldi0 7, ldi0 8, ldi0 9, ldi0 10, ldi0 11, ldi0 12, ldi0 13, ldi0 14,
   ldi0 15, ldi_h 31 1]

/-- internal/kernel_msa.h:371-428. -/
def msaLnzLoop : List Ins :=
  [.addPtr .lhs 64, .addPtr .rhs 64, dotp_s_h 25 16 20, dotp_s_h 26 17 20, dotp_s_h 27 16 21,
   dotp_s_h 28 17 21, dotp_s_h 29 18 20, dpadd_s_w 0 25 31, dpadd_s_w 1 26 31,
   dpadd_s_w 4 27 31, dpadd_s_w 5 28 31, dpadd_s_w 2 29 31, dotp_s_h 24 16 22,
   dotp_s_h 25 19 20, dotp_s_h 26 16 23, dotp_s_h 27 17 22, ld_b 20 .rhs 0, dotp_s_h 28 17 23,
   ld_b 16 .lhs 0, dotp_s_h 29 18 21, ld_b 17 .lhs 16, dpadd_s_w 8 24 31, dpadd_s_w 3 25 31,
   dpadd_s_w 12 26 31, dpadd_s_w 9 27 31, dpadd_s_w 13 28 31, dpadd_s_w 6 29 31,
   dotp_s_h 25 19 21, dotp_s_h 26 18 22, dotp_s_h 27 18 23, ld_b 21 .rhs 16, dotp_s_h 28 19 22,
   ld_b 18 .lhs 32, dotp_s_h 29 19 23, ld_b 22 .rhs 32, dpadd_s_w 7 25 31, ld_b 19 .lhs 48,
   dpadd_s_w 10 26 31, ld_b 23 .rhs 48, dpadd_s_w 14 27 31, dpadd_s_w 11 28 31,
   dpadd_s_w 15 29 31]

/-- internal/kernel_msa.h:437-514. -/
def msaLnzLast : List Ins :=
  [dotp_s_h 25 16 20, dotp_s_h 26 17 20, dotp_s_h 27 16 21, dotp_s_h 28 17 21,
   dotp_s_h 29 18 20, dpadd_s_w 0 25 31, dpadd_s_w 1 26 31, dpadd_s_w 4 27 31,
   dpadd_s_w 5 28 31, dpadd_s_w 2 29 31, dotp_s_h 24 16 22, dotp_s_h 25 19 20,
   dotp_s_h 26 16 23, dotp_s_h 27 17 22, dotp_s_h 28 17 23, dotp_s_h 29 18 21,
   dpadd_s_w 8 24 31, dpadd_s_w 3 25 31, dpadd_s_w 12 26 31, dpadd_s_w 9 27 31,
   dpadd_s_w 13 28 31, dpadd_s_w 6 29 31, dotp_s_h 25 19 21, dotp_s_h 26 18 22,
   dotp_s_h 27 18 23, dotp_s_h 28 19 22, dotp_s_h 29 19 23, dpadd_s_w 7 25 31,
   dpadd_s_w 10 26 31, dpadd_s_w 14 27 31, dpadd_s_w 11 28 31, dpadd_s_w 15 29 31,
   hadd_s_d 0 0 0, hadd_s_d 1 1 1, hadd_s_d 2 2 2, hadd_s_d 3 3 3, hadd_s_d 4 4 4,
   hadd_s_d 5 5 5, hadd_s_d 6 6 6, hadd_s_d 7 7 7, hadd_s_d 8 8 8, hadd_s_d 9 9 9,
   hadd_s_d 10 10 10, hadd_s_d 11 11 11, hadd_s_d 12 12 12, hadd_s_d 13 13 13,
   hadd_s_d 14 14 14, hadd_s_d 15 15 15, pckev_w 0 1 0, pckev_w 2 3 2, pckev_w 4 5 4,
   pckev_w 6 7 6, pckev_w 8 9 8, pckev_w 10 11 10, pckev_w 12 13 12, pckev_w 14 15 14,
   hadd_s_d 0 0 0, hadd_s_d 2 2 2, hadd_s_d 4 4 4, hadd_s_d 6 6 6, hadd_s_d 8 8 8,
   hadd_s_d 10 10 10, hadd_s_d 12 12 12, hadd_s_d 14 14 14]

/-- internal/kernel_msa.h:521-524.  The same in the other case, with the loads in between. -/
def msaLnzEnd : List Ins :=
  [pckev_w 0 2 0, pckev_w 1 6 4, pckev_w 2 10 8, pckev_w 3 14 12]

/-- internal/kernel_msa.h:547-550: register, row, column. -/
def msaLnzStores : List Tile := [⟨0, 0, 0⟩, ⟨1, 0, 1⟩, ⟨2, 0, 2⟩, ⟨3, 0, 3⟩]

/-- internal/kernel_msa.h:281-569. -/
def msaLnzKernel (x0 : Nat → VReg) : KernelRun :=
  kernelAddLast msaLnzStores msaLnzStores msaLnzEnd msaLnzEnd (fun m rd s =>
    pipe m 16 msaLnzLoop msaLnzLast (BitVec.ofNat 32 rd - 16#32) (exec m msaLnzPre s)) x0

end Gemmlowp.Vec
