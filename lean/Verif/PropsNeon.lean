import Verif.Neon64Proof2
import Verif.Neon12Proof
import Verif.MsaProof
import Verif.PropsX86
/-!
# Property C54: the NEON and MSA assembly kernels

The kernels of internal/kernel_neon.h and internal/kernel_msa.h, instruction by instruction, do what
`KernelBase::Run` asks of a kernel, and with them the public entry points compute the documented
product.  The kernels that add products in 16 bits do so only for operands that are small enough;
it is shown that the restriction cannot be dropped.
-/
namespace Gemmlowp

open Asm (Covers finish_ok)
open Vec
open PackSimd (neonPacker msaPacker neonPacker_meets msaPacker_meets Int8Widths)

/-! ## The formats -/

theorem neon32Format_wf : neon32Format.WF 16 :=
  ⟨⟨by decide, by decide, by decide, by decide, by decide, by decide⟩,
   ⟨by decide, by decide, by decide, by decide, by decide, by decide⟩, by decide⟩

theorem twelveFormat_wf : twelveFormat.WF 16 :=
  ⟨⟨by decide, by decide, by decide, by decide, by decide, by decide⟩,
   ⟨by decide, by decide, by decide, by decide, by decide, by decide⟩, by decide⟩

theorem lnz32Format_wf : lnz32Format.WF 16 :=
  ⟨⟨by decide, by decide, by decide, by decide, by decide, by decide⟩,
   ⟨by decide, by decide, by decide, by decide, by decide, by decide⟩, by decide⟩

theorem neon64Format_wf : neon64Format.WF 16 :=
  ⟨⟨by decide, by decide, by decide, by decide, by decide, by decide⟩,
   ⟨by decide, by decide, by decide, by decide, by decide, by decide⟩, by decide⟩

theorem dotprodFormat_wf : dotprodFormat.WF 16 :=
  ⟨⟨by decide, by decide, by decide, by decide, by decide, by decide⟩,
   ⟨by decide, by decide, by decide, by decide, by decide, by decide⟩, by decide⟩

theorem lnz32Int8Format_wf : lnz32Int8Format.WF 16 :=
  ⟨⟨by decide, by decide, by decide, by decide, by decide, by decide⟩,
   ⟨by decide, by decide, by decide, by decide, by decide, by decide⟩, by decide⟩

theorem lnz64Int8Format_wf : lnz64Int8Format.WF 16 :=
  ⟨⟨by decide, by decide, by decide, by decide, by decide, by decide⟩,
   ⟨by decide, by decide, by decide, by decide, by decide, by decide⟩, by decide⟩

theorem lnz64Format_wf : lnz64Format.WF 16 :=
  ⟨⟨by decide, by decide, by decide, by decide, by decide, by decide⟩,
   ⟨by decide, by decide, by decide, by decide, by decide, by decide⟩, by decide⟩

theorem msaFormat_wf : msaFormat.WF 16 :=
  ⟨⟨by decide, by decide, by decide, by decide, by decide, by decide⟩,
   ⟨by decide, by decide, by decide, by decide, by decide, by decide⟩, by decide⟩

theorem msaLnzFormat_wf : msaLnzFormat.WF 16 :=
  ⟨⟨by decide, by decide, by decide, by decide, by decide, by decide⟩,
   ⟨by decide, by decide, by decide, by decide, by decide, by decide⟩, by decide⟩

/-! ## The kernels -/

/-- **C54.**  The kernels for all operands meet the contract of kernels, whatever the registers hold
before: NEON for 32-bit and for 64-bit machines, -/
theorem C54_neon32_kernel (x0 : Nat → VReg) :
    KernelOk .wrap neon32Format 16 { pair := fun _ _ => True, pad := False, int := True }
      (neon32Kernel x0) := neon32Kernel_ok x0

theorem C54_neon64_kernel (x0 : Nat → VReg) :
    KernelOk .wrap neon64Format 16 { pair := fun _ _ => True, pad := False, int := True }
      (neon64Kernel x0) := neon64Kernel_ok x0

/-- the one with dot-product instructions, -/
theorem C54_dotprod_kernel (x0 : Nat → VReg) :
    KernelOk .wrap dotprodFormat 16 { pair := fun _ _ => True, pad := False, int := True }
      (dotprodKernel x0) := dotprodKernel_ok x0

/-- and MSA. -/
theorem C54_msa_kernel (x0 : Nat → VReg) :
    KernelOk .wrap msaFormat 16 { pair := fun _ _ => True, pad := False, int := True }
      (msaKernel x0) := msaKernel_ok x0

/-- **C54.**  The kernel that adds sixteen products in 16 bits meets the contract if products are less
than 4096. -/
theorem C54_twelve_bit_kernel (x0 : Nat → VReg) :
    KernelOk .wrap twelveFormat 16 { pair := fun x y => x * y < 4096, pad := False, int := True }
      (twelveKernel x0) := twelveKernel_ok x0

/-- **C54.**  The kernels that add two products in 16 bits meet the contract if the operands are not
both −128. -/
theorem C54_neon32_lhs_nonzero_kernel (x0 : Nat → VReg) :
    KernelOk .wrap lnz32Format 16
      { pair := fun x y => ¬ (x = -128 ∧ y = -128), pad := False, int := True }
      (lnz32Kernel x0) := lnz32Kernel_ok x0

theorem C54_neon64_lhs_nonzero_kernel (x0 : Nat → VReg) :
    KernelOk .wrap lnz64Format 16
      { pair := fun x y => ¬ (x = -128 ∧ y = -128), pad := False, int := True }
      (lnz64Kernel x0) := lnz64Kernel_ok x0

/-- The same for int8 inputs. -/
theorem C54_neon32_int8_inputs_kernel (x0 : Nat → VReg) :
    KernelOk .wrap lnz32Int8Format 16
      { pair := fun x y => ¬ (x = -128 ∧ y = -128), pad := False, int := True }
      (lnz32Kernel x0) := lnz32Kernel_ok x0

theorem C54_neon64_int8_inputs_kernel (x0 : Nat → VReg) :
    KernelOk .wrap lnz64Int8Format 16
      { pair := fun x y => ¬ (x = -128 ∧ y = -128), pad := False, int := True }
      (lnz64Kernel x0) := lnz64Kernel_ok x0

theorem C54_msa_lhs_nonzero_kernel (x0 : Nat → VReg) :
    KernelOk .wrap msaLnzFormat 16
      { pair := fun x y => ¬ (x = -128 ∧ y = -128), pad := False, int := True }
      (msaLnzKernel x0) := msaLnzKernel_ok x0

/-! ## The entry points -/

theorem neonMeets (arm32 : Bool) (mode : OvMode) {k : KernelFormat} (hk : k.WF 16)
    (hin : k.lhs.input = .uint8 ∧ k.rhs.input = .uint8) (hi : Int8Widths k.lhs ∧ Int8Widths k.rhs) :
    PackerMeets (neonPacker arm32) mode k.lhs 16 ∧ PackerMeets (neonPacker arm32) mode k.rhs 16 :=
  ⟨neonPacker_meets arm32 mode hk.lhs hin.1 hi.1, neonPacker_meets arm32 mode hk.rhs hin.2 hi.2⟩

theorem msaMeets (mode : OvMode) {k : KernelFormat} (hk : k.WF 16)
    (hin : k.lhs.input = .uint8 ∧ k.rhs.input = .uint8) (hi : Int8Widths k.lhs ∧ Int8Widths k.rhs) :
    PackerMeets msaPacker mode k.lhs 16 ∧ PackerMeets msaPacker mode k.rhs 16 :=
  ⟨msaPacker_meets mode hk.lhs hin.1 hi.1, msaPacker_meets mode hk.rhs hin.2 hi.2⟩

section
variable {e : Env} {c : Call} {L R : Nat → Nat → UInt8} {LO RO : Nat → BitVec 32}
  {val : Nat → Nat → Int} {x0 : Nat → VReg}

/-- The kernels for all operands, their formats, and the packing of the same build. -/
inductive AllOperands (x0 : Nat → VReg) : KernelFormat → KernelRun → BlockPacker → Prop
  | neon32 : AllOperands x0 neon32Format (neon32Kernel x0) (neonPacker true)
  | neon64 : AllOperands x0 neon64Format (neon64Kernel x0) (neonPacker false)
  | dotprod : AllOperands x0 dotprodFormat (dotprodKernel x0) (neonPacker false)
  | msa : AllOperands x0 msaFormat (msaKernel x0) msaPacker

/-- The kernels for a left-hand side without zeros, their formats, and the packing of the same build. -/
inductive NonzeroLhs (x0 : Nat → VReg) : KernelFormat → KernelRun → BlockPacker → Prop
  | neon32 : NonzeroLhs x0 lnz32Format (lnz32Kernel x0) (neonPacker true)
  | neon64 : NonzeroLhs x0 lnz64Format (lnz64Kernel x0) (neonPacker false)
  | msa : NonzeroLhs x0 msaLnzFormat (msaLnzKernel x0) msaPacker

/-- **C54.**  With a kernel for all operands the entry points compute the documented product: for all
shapes, orders, strides, contents, offsets, tunings, scratch contents, thread counts and schedules. -/
theorem C54_gemm (hk : AllOperands x0 e.k e.run e.pack) (hreg : e.reg = 16)
    (h : AsmCall e .uint8 c L R LO RO val) :
    ∃ pl, gemmWithOutputPipelinePC e c = .ok pl ∧ (∃ t, Outcome pl t) ∧
      ∀ t, Outcome pl t → ∀ mem r j, r < c.result.rows → j < c.result.cols →
        applyStores mem t (c.result.addr r j) = val r j := by
  have key : ∀ k run pack, AllOperands x0 k run pack → k.WF 16 ∧
      (PackerMeets pack e.mode k.lhs 16 ∧ PackerMeets pack e.mode k.rhs 16) ∧
      KernelOk .wrap k 16 intNeeds run ∧ k.kRows ≤ 24 ∧ k.lhs.input = .uint8 ∧ k.rhs.input = .uint8 := by
    intro k run pack hk
    cases hk with
    | neon32 => exact ⟨neon32Format_wf, neonMeets _ _ neon32Format_wf (by decide) (by decide), neon32Kernel_ok x0, by decide, rfl, rfl⟩
    | neon64 => exact ⟨neon64Format_wf, neonMeets _ _ neon64Format_wf (by decide) (by decide), neon64Kernel_ok x0, by decide, rfl, rfl⟩
    | dotprod => exact ⟨dotprodFormat_wf, neonMeets _ _ dotprodFormat_wf (by decide) (by decide), dotprodKernel_ok x0, by decide, rfl, rfl⟩
    | msa => exact ⟨msaFormat_wf, msaMeets _ msaFormat_wf (by decide) (by decide), msaKernel_ok x0, by decide, rfl, rfl⟩
  have key := key _ _ _ hk
  exact C01_gemm_with_output_pipeline (h.wellFormed_of (by rw [hreg]; exact key.1)
    key.2.2.2.2 (by rw [hreg]; exact key.2.1) (by rw [hreg]; exact key.2.2.1) (by rw [hreg]; decide) key.2.2.2.1 trivial
    (fun _ _ _ _ _ _ => ⟨trivial, trivial⟩))

/-- **C54.**  With a kernel for a left-hand side without zeros the entry points compute the documented
product if the left-hand side has no zeros - also when `DispatchGemmShape` swaps the sides. -/
theorem C54_lhs_nonzero_gemm (hk : NonzeroLhs x0 e.k e.run e.pack) (hreg : e.reg = 16)
    (hL : ∀ i d, i < c.result.rows → d < c.lhs.cols → L i d ≠ 0) (h : AsmCall e .uint8 c L R LO RO val) :
    ∃ pl, gemmWithOutputPipelinePC e c = .ok pl ∧ (∃ t, Outcome pl t) ∧
      ∀ t, Outcome pl t → ∀ mem r j, r < c.result.rows → j < c.result.cols →
        applyStores mem t (c.result.addr r j) = val r j := by
  have key : ∀ k run pack, NonzeroLhs x0 k run pack → k.WF 16 ∧
      (PackerMeets pack e.mode k.lhs 16 ∧ PackerMeets pack e.mode k.rhs 16) ∧
      KernelOk .wrap k 16 lnzNeeds run ∧
      k.kRows ≤ 24 ∧ (k.lhs.input = .uint8 ∧ k.rhs.input = .uint8) ∧ k.lhs.zp = 128 ∧ k.rhs.zp = 128 := by
    intro k run pack hk
    cases hk with
    | neon32 => exact ⟨lnz32Format_wf, neonMeets _ _ lnz32Format_wf (by decide) (by decide), lnz32Kernel_ok x0, by decide, ⟨rfl, rfl⟩, rfl, rfl⟩
    | neon64 => exact ⟨lnz64Format_wf, neonMeets _ _ lnz64Format_wf (by decide) (by decide), lnz64Kernel_ok x0, by decide, ⟨rfl, rfl⟩, rfl, rfl⟩
    | msa => exact ⟨msaLnzFormat_wf, msaMeets _ msaLnzFormat_wf (by decide) (by decide), msaLnzKernel_ok x0, by decide, ⟨rfl, rfl⟩, rfl, rfl⟩
  have key := key _ _ _ hk
  refine C01_gemm_with_output_pipeline (h.wellFormed_of (by rw [hreg]; exact key.1)
    key.2.2.2.2.1 (by rw [hreg]; exact key.2.1) (by rw [hreg]; exact key.2.2.1) (by rw [hreg]; decide) key.2.2.2.1 (by show ¬ _; omega) ?_)
  intro i j d hi hj hd
  have h1 := hL i d hi hd
  have h2 : (L i d).toNat ≠ 0 := fun h => h1 (UInt8.toNat_inj.1 h)
  rw [key.2.2.2.2.2.1, key.2.2.2.2.2.2]
  have e1 : InputScalar.uint8.val (L i d) = ((L i d).toNat : Int) := rfl
  constructor
  · show ¬ _; omega
  · show ¬ _; omega

/-- **C54.**  With the kernel for products of 12 bits the entry points compute the documented product
if all products are less than 4096. -/
theorem C54_twelve_bit_gemm (hk : e.k = twelveFormat) (hrun : e.run = twelveKernel x0)
    (hpack : e.pack = neonPacker true) (hreg : e.reg = 16)
    (hLR : ∀ i j d, i < c.result.rows → j < c.result.cols → d < c.lhs.cols →
      (L i d).toNat * (R d j).toNat < 4096) (h : AsmCall e .uint8 c L R LO RO val) :
    ∃ pl, gemmWithOutputPipelinePC e c = .ok pl ∧ (∃ t, Outcome pl t) ∧
      ∀ t, Outcome pl t → ∀ mem r j, r < c.result.rows → j < c.result.cols →
        applyStores mem t (c.result.addr r j) = val r j := by
  refine C01_gemm_with_output_pipeline (h.wellFormed_of (N := twelveNeeds)
    (by rw [hk, hreg]; exact twelveFormat_wf) (by rw [hk]; exact ⟨rfl, rfl⟩)
    (by rw [hk, hreg, hpack]; exact neonMeets true _ twelveFormat_wf (by decide) (by decide))
    (by rw [hk, hreg, hrun]; exact twelveKernel_ok x0) (by rw [hreg]; decide) (by rw [hk]; decide)
    (show (0 : Int) * 0 < 4096 by decide) ?_)
  intro i j d hi hj hd
  have h1 := hLR i j d hi hj hd
  have e1 : ((L i d).toNat : Int) * ((R d j).toNat : Int) < 4096 := by
    rw [← Int.natCast_mul]; omega
  rw [hk]
  constructor
  · show (((L i d).toNat : Int) - 0) * (((R d j).toNat : Int) - 0) < 4096
    rw [Int.sub_zero, Int.sub_zero]; exact e1
  · show (((R d j).toNat : Int) - 0) * (((L i d).toNat : Int) - 0) < 4096
    rw [Int.sub_zero, Int.sub_zero, Int.mul_comm]; exact e1

end

/-! ## The restrictions are needed -/

/-- Packed data of one cell, all bytes `v`. -/
def constMem (v : UInt8) : Vec.Mem :=
  { lhs := { size := 1024, get := fun _ => v }, rhs := { size := 1024, get := fun _ => v } }

def zeroSt : St := { x := fun _ _ => 0#8, lp := 0, rp := 0, ok := true }

/-- What a kernel that meets the contract has in the register of entry (0, 0) after
a run of depth `F.kDepth`. -/
theorem addLast_entry {F : KernelFormat} {stores adds : List Asm.Tile} {end0 end1 : List Ins}
    {main : Vec.Mem → Nat → St → St} {r0 : Nat} {v : UInt8} {N : KernelNeeds} (hkr : F.kRows = 4) (hkc : 0 < F.kCols)
    (hkc' : F.kCols ≤ 4)
    (hd : F.kDepth = 16) (hstores : Covers 4 4 F.kCols stores)
    (ht : ⟨r0, 0, 0⟩ ∈ stores)
    (hN : N.Met 16 (runCoeff F.lhs (constMem v).lhs 0 0) (runCoeff F.rhs (constMem v).rhs 0 0) 16)
    (h : KernelOk .wrap F 16 N (kernelAddLast stores adds end0 end1 main (fun _ _ => 0#8))) :
    ((exec (constMem v) end0 (main (constMem v) 16 zeroSt)).x r0).s 0 =
      BitVec.ofInt 32 (sumTo 16 (fun d => runCoeff F.lhs (constMem v).lhs 0 0 d *
        runCoeff F.rhs (constMem v).rhs 0 0 d)) := by
  have hinj : ∀ r c r' c', r < F.kRows → c < F.kCols → r' < F.kRows → c' < F.kCols →
      r * 1 + c * F.kRows = r' * 1 + c' * F.kRows → r = r' ∧ c = c' := by
    rw [hkr]; intro r c r' c' h1 h2 h3 h4 h5; constructor <;> omega
  have hsz : ∀ r c, r < F.kRows → c < F.kCols → 0 + (r * 1 + c * F.kRows) < 64 := by
    rw [hkr]; intros; omega
  have hru : roundUp 16 16 = 16 := rfl
  obtain ⟨d1, a1, -, a3, -⟩ := h { size := 64, get := fun _ => 0#32 } 0 1 F.kRows
    (constMem v).lhs 0 (constMem v).rhs 0 0 16 rfl (Nat.dvd_zero _) (Nat.dvd_refl _) (by decide)
    (by rw [hd]) (fun _ => by decide)
    (by rw [hkr, hru]; show 0 + 4 * 16 ≤ 1024; omega)
    (by rw [hru]; show 0 + F.kCols * 16 ≤ 1024; omega) hsz hinj (fun h => by cases h)
  have e1 := a3 0 0 (by rw [hkr]; decide) hkc hN
  unfold kernelAddLast at a1
  dsimp only at a1
  rw [if_pos rfl, if_pos rfl] at a1
  split at a1
  · obtain ⟨dst', f1, -, f3, -⟩ := finish_ok (n := 4) (align := 1) (dp := 0) (cs := F.kRows) (sd := 0)
      (tiles := stores) (dst := { size := 64, get := fun _ => 0#32 })
      (x := fun r => ((exec (constMem v) end0 (main (constMem v) 16 zeroSt)).x r).s)
      (R := F.kRows) (C := F.kCols) (by omega) (by rw [hkr]; exact hstores) (fun t _ => Nat.mod_one _)
      hsz hinj
    have : d1 = dst' := Except.ok.inj (a1.symm.trans f1)
    subst this
    have f4 := f3 _ ht 0 (by decide)
    rw [if_pos rfl, BitVec.add_zero] at f4
    rw [← f4]
    refine e1.trans ?_
    unfold kernelExact
    rw [if_pos rfl, Int.zero_add]
  · cases a1

/-- **C54**: the kernels for a left-hand side without zeros do not meet the contract for all operands:
if all operands are −128 (packed zeros), a sum of two products is 32768 and does not fit. -/
theorem C54_neon32_lhs_nonzero_restricted :
    ¬ KernelOk .wrap lnz32Format 16 { pair := fun _ _ => True, pad := False, int := True }
      (lnz32Kernel (fun _ _ => 0#8)) := by
  intro h
  have := addLast_entry (F := lnz32Format) (r0 := 4) (v := 0x80) rfl (by decide) (by decide) rfl
    (colTiles (tiles := lnz32Stores) (fun c => 4 + c) (by decide) (by decide) (by decide)).covers
    (by decide) ⟨fun _ _ => trivial, False.elim⟩ h
  rw [pipe, if_pos (by decide)] at this
  revert this
  decide +kernel

theorem C54_neon64_lhs_nonzero_restricted :
    ¬ KernelOk .wrap lnz64Format 16 { pair := fun _ _ => True, pad := False, int := True }
      (lnz64Kernel (fun _ _ => 0#8)) := by
  intro h
  have := addLast_entry (F := lnz64Format) (r0 := 12) (v := 0x80) rfl (by decide) (by decide) rfl
    (colTiles (tiles := lnz64Stores) (fun c => 12 + c) (by decide) (by decide) (by decide)).covers
    (by decide) ⟨fun _ _ => trivial, False.elim⟩ h
  rw [pipe, if_pos (by decide)] at this
  revert this
  decide +kernel

theorem C54_msa_lhs_nonzero_restricted :
    ¬ KernelOk .wrap msaLnzFormat 16 { pair := fun _ _ => True, pad := False, int := True }
      (msaLnzKernel (fun _ _ => 0#8)) := by
  intro h
  have := addLast_entry (F := msaLnzFormat) (r0 := 0) (v := 0x80) rfl (by decide) (by decide) rfl
    (colTiles (tiles := msaLnzStores) (fun c => c) (by decide) (by decide) (by decide)).covers
    (by decide) ⟨fun _ _ => trivial, False.elim⟩ h
  rw [pipe, if_pos (by decide), msaLnz_end _ _ 0 0 (by omega) (by omega)] at this
  revert this
  decide +kernel

/-- **C54**: the kernel for products of 12 bits does not meet the contract if products may be 4096. -/
theorem C54_twelve_bit_restricted :
    ¬ KernelOk .wrap twelveFormat 16 { pair := fun x y => x * y ≤ 4096, pad := False, int := True }
      (twelveKernel (fun _ _ => 0#8)) := by
  intro h
  have hinj : ∀ r c r' c', r < 12 → c < 4 → r' < 12 → c' < 4 →
      r * 1 + c * 12 = r' * 1 + c' * 12 → r = r' ∧ c = c' := by intros; omega
  have hsz : ∀ r c, r < 12 → c < 4 → 0 + (r * 1 + c * 12) < 48 := by intros; omega
  obtain ⟨d1, a1, -, a3, -⟩ := h { size := 48, get := fun _ => 0#32 } 0 1 12
    (constMem 0x40).lhs 0 (constMem 0x40).rhs 0 0 32 rfl (by decide) (by decide) (by decide)
    (by decide) (fun _ => by decide) (by decide) (by decide) hsz hinj (fun h => by cases h)
  have e1 := a3 0 0 (by decide) (by decide) ⟨by
    have : ∀ d, d < 32 → runCoeff twelveFormat.lhs (constMem 0x40).lhs 0 0 d *
      runCoeff twelveFormat.rhs (constMem 0x40).rhs 0 0 d ≤ 4096 := by decide
    exact this, fun h => h.elim⟩
  unfold twelveKernel kernelConvFirst at a1
  rw [decide_eq_true rfl, assertM_true, ok_bind, if_pos rfl, ok_bind] at a1
  dsimp only at a1
  split at a1
  · obtain ⟨dst', f1, -, f3, -⟩ := finish_ok (n := 4) (align := 1) (dp := 0) (cs := 12) (sd := 0)
      (tiles := twelveStores) (dst := { size := 48, get := fun _ => 0#32 })
      (x := fun r => ((exec (constMem 0x40) (twelveLoadOut ++ twelveRotateOut ++ twelveTranspose)
        (twelveLoop (constMem 0x40) (BitVec.ofNat 32 32) (exec (constMem 0x40) twelveClear zeroSt))).x r).s)
      (by omega)
      (tilesIn_of (Q := 3) (C := 4) (tiles := twelveStores) (fun r c => r + c) (by decide) (by decide)
        (by decide)).covers
      (fun t _ => Nat.mod_one _) hsz hinj
    have : d1 = dst' := Except.ok.inj (a1.symm.trans f1)
    subst this
    have f4 := f3 ⟨0, 0, 0⟩ (by decide) 0 (by decide)
    have f5 := twelveOut_obs (constMem 0x40) (twelveLoop (constMem 0x40) 32#32
      (exec (constMem 0x40) twelveClear zeroSt)) 0 0 0 (by omega) (by omega) (by omega)
    have f6 := f4.symm.trans e1
    rw [if_pos rfl, BitVec.add_zero] at f6
    have f7 := f5.symm.trans f6
    rw [show 4 * 0 + 0 = 0 from rfl, twelveLoop_32 _ _ rfl (by decide) (by decide)] at f7
    have z : obs12 (exec (constMem 0x40) twelveClear zeroSt) 0 0 = 0#32 := zero_s 0
    rw [z] at f7
    revert f7
    decide +kernel
  · cases a1

/-! ## Calls that meet the hypotheses -/

def neonSampleEnv (k : KernelFormat) (run : KernelRun) (arm32 : Bool) : Env :=
  { sampleEnv with k := k, run := run, pack := neonPacker arm32, out := .vec .neon }

theorem neon_sample (k : KernelFormat) (run : KernelRun) (arm32 : Bool) (hk : k.kDepth ≤ 16) :
    AsmCall (neonSampleEnv k run arm32) .uint8 sampleCall sampleL sampleR (fun _ => -7) sampleRO sampleVal := by
  obtain ⟨h, -⟩ := sample_wellFormed
  exact ⟨h.describes, h.inRange, h.env.threads, h.env.fits1, by decide, h.depth,
    by show sampleCall.lhs.cols + k.kDepth ≤ _; have : sampleCall.lhs.cols ≤ 1000 := by decide
       omega,
    h.stride, h.pipe, sample_plain.agrees ..⟩

example (x0 : Nat → VReg) : ∃ pl, gemmWithOutputPipelinePC
    (neonSampleEnv dotprodFormat (dotprodKernel x0) false) sampleCall = .ok pl :=
  (C54_gemm .dotprod rfl (neon_sample _ _ _ (by decide))).imp fun _ h => h.1

/-- The left-hand side of this call has no zeros. -/
example (x0 : Nat → VReg) : ∃ pl, gemmWithOutputPipelinePC
    (neonSampleEnv lnz32Format (lnz32Kernel x0) true) sampleCall = .ok pl :=
  (C54_lhs_nonzero_gemm .neon32 rfl
    (forall_lt_lt (n := 2) (m := 3) (P := fun i d => sampleL i d ≠ 0) (by decide))
    (neon_sample _ _ _ (by decide))).imp fun _ h => h.1

end Gemmlowp
