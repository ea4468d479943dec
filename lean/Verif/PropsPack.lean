import Verif.PropsKernelSelect
/-!
# Property C59: packing with vector instructions

internal/pack_sse.h, pack_avx.h, pack_neon.h and pack_msa.h replace the generic packing of a
register-size block for the cell formats of their kernels.  Whatever the build, packing has the effect
that is stated, without reference to any instruction, by `BlockEffect`: each coefficient in its place, the
sums of the columns increased, nothing else changed.
-/
namespace Gemmlowp

section
variable {a : Arch} {mode : OvMode} {f : SideFormat} {reg : Nat} {mem : Mem} {src : SideMap}
  {B : Nat → Nat → UInt8} {sw : Nat} {ps : PackedSide}

/-- **C59.**  In every build, packing a complete block has the stated effect: for all formats that can be
packed in it, all source layouts, strides and contents, all positions and previous contents of the packed
block. -/
theorem C59_block_effect (hf : f.WF reg) (ha : PackableFor a reg f src.order) (hs : SrcIs mem src B)
    (hw : src.width = f.kw) (hd : src.depth = reg) (hdata : ps.pos + f.kw * reg ≤ ps.data.size)
    (hsums : sw + f.kw ≤ ps.sums.size) (hfit : SumsFit mode f reg sw ps.sums) :
    ∃ ps', packerOf a mode f reg mem src sw ps = .ok ps' ∧
      (∀ w d, w < f.kw → d < reg → ps'.data.get (ps.pos + blockOff f w d) = toByte (f.unwrap (B w d))) ∧
      (∀ w, w < f.kw → ps'.sums.get (sw + w) =
        ps.sums.get (sw + w) + BitVec.ofInt 32 (sumTo reg fun d => f.unwrap (B w d))) ∧
      (∀ x, (x < ps.pos ∨ ps.pos + f.kw * reg ≤ x) → ps'.data.get x = ps.data.get x) ∧
      (∀ x, (x < sw ∨ sw + f.kw ≤ x) → ps'.sums.get x = ps.sums.get x) ∧
      ps'.data.size = ps.data.size ∧ ps'.sums.size = ps.sums.size ∧ ps'.pos = ps.pos + f.kw * reg := by
  obtain ⟨ps', h, e⟩ := packerOf_meets_for (mode := mode) hf ha mem src B sw ps hs rfl hw hd hdata hsums hfit
  exact ⟨ps', h, e.data, e.sums, e.dataRest, e.sumsRest, e.dataSize, e.sumsSize, e.pos⟩

/-- **C59.**  Any two builds pack alike; in particular each packs like the portable code, if the portable code is compiled for the format. -/
theorem C59_same_as_generic (hf : f.WF reg) (hin : f.input = .uint8) (ha : PackableFor a reg f src.order) (hs : SrcIs mem src B)
    (hw : src.width = f.kw) (hd : src.depth = reg) (hdata : ps.pos + f.kw * reg ≤ ps.data.size)
    (hsums : sw + f.kw ≤ ps.sums.size) (hfit : SumsFit mode f reg sw ps.sums) :
    packerOf a mode f reg mem src sw ps = packBlock mode f reg mem src sw ps := by
  obtain ⟨p1, h1, e1⟩ := packerOf_meets_for (mode := mode) hf ha mem src B sw ps hs rfl hw hd hdata hsums hfit
  obtain ⟨p2, h2, e2⟩ := packBlock_meets mode hf hin _ mem src B sw ps hs rfl hw hd hdata hsums hfit
  rw [h1, h2, e1.unique hf e2]

/-- **C59.**  `PackSideBlockImpl::PackL2` with the packing of any build: a whole side of any size ends up
in the packed block, padded with zeros, together with the sums over its depth. -/
theorem C59_side {p : SideParams} (ha : PackableFor a reg f src.order) (hp : p.Ok f reg) (hr : PackRange mode p)
    (hs : SrcIs mem src B) (hw : src.width ≤ p.l2_width) (hd : src.depth ≤ p.l2_depth)
    (hds : ps.data.size = p.l2_width * p.l2_depth) (hss : ps.sums.size = p.l2_width) :
    ∃ ps', packL2 (packerOf a) mode f reg p mem src ps = .ok ps' ∧
      (∀ w d, w < roundUp f.kw src.width → d < roundUp reg src.depth →
        ps'.data.get (packAddr p f w d) =
          toByte (if w < src.width ∧ d < src.depth then f.input.val (B w d) - f.zp else 0)) ∧
      ∀ w, w < src.width →
        ps'.sums.get w = BitVec.ofInt 32 (sumTo src.depth fun d => f.input.val (B w d) - f.zp) := by
  obtain ⟨ps', h, e⟩ := packL2_ok (packerOf_meets_for (mode := mode) hp.wf ha) hp hr hs hw hd hds hss
  have g1 := le_roundUp hp.wf.kw_pos src.width
  have g2 := le_roundUp hp.wf.reg_pos src.depth
  refine ⟨ps', h, e.data, fun w hw' => ?_⟩
  rw [e.sums w (by omega), sumTo_zero_tail (a := src.depth) g2 fun d hd' _ =>
    show (if _ then _ else _) = _ from if_neg (by omega)]
  congr 1
  exact sumTo_congr fun d hd' => if_pos ⟨hw', hd'⟩

end

/-- **C59.**  The kernel that the library chooses for a build and the packing of this build fit together,
on both sides: for sources in any order, except that int8 inputs have to be in width-major order. -/
theorem C59_chosen {a : Arch} {p : BitDepthParams} {n : KName} {mode : OvMode} {reg : Nat}
    {k : KernelFormat} {run : KernelRun} {o : SideMapOrder} (hs : selectKernel a p = .kernel n)
    (hk : KernelIs mode n reg k run) (ho : n.int8Inputs = true → o = .widthMajor) :
    PackerMeetsFor (packerOf a) mode k.lhs reg o ∧ PackerMeetsFor (packerOf a) mode k.rhs reg o :=
  chosen_meets_for hs hk (kernelIs_meets hk).1 ho

/-- **C59.**  The replacement of the instruction `vpaddq_s16` on 32-bit machines does what the
instruction does. -/
theorem C59_pairwise_add (x y : Vec.VReg) (i : Nat) :
    (PackSimd.vpaddq_s16_32 x y).h i = (PackSimd.vpaddq_s16 x y).h i := by
  rw [PackSimd.vpaddq_32_ok, PackSimd.vpaddq_ok]

/-! ## Cases that meet the hypotheses -/

/-- The fast paths of the four builds, not only the generic code, are covered. -/
example (src : SideMap) (h : src.order = .widthMajor) :
    PackSimd.isWidthMajor2 4 Asm.sse64Format.lhs src = true ∧
    PackSimd.isWidthMajor2 8 Asm.avx2Format.lhs src = true ∧
    PackSimd.isWidthMajor2 4 Asm.avx2Format.rhs src = true ∧
    PackSimd.isDepthMajor4x2 Vec.neon64Format.lhs src = true ∧
    PackSimd.isWidthMajor2 4 Vec.msaFormat.rhs src = true ∧
    PackSimd.isInt8Fast Vec.lnz64Format.lhs src = true ∧
    PackSimd.isInt8Fast Vec.lnz32Format.rhs src = true ∧
    PackSimd.isInt8Fast Vec.msaLnzFormat.lhs src = true ∧
    PackSimd.isInt8InputsFast Vec.lnz64Int8Format.rhs src = true := by
  simp only [PackSimd.isWidthMajor2, PackSimd.isDepthMajor4x2, PackSimd.isInt8Fast, PackSimd.isInt8InputsFast, h]
  decide

/-- A block of 2 columns of 16 bytes, rows 20 bytes apart. -/
example : ∃ ps', packerOf .neon32 .trap Vec.lnz32Format.rhs 16 (fun p => some (UInt8.ofNat (3 * p)))
      ⟨5, 2, 16, 20, .widthMajor⟩ 1 ⟨⟨40, fun _ => 9⟩, ⟨4, fun _ => 7#32⟩, 3⟩ = .ok ps' ∧
    ps'.data.get (3 + 17) = 0xce := by
  obtain ⟨ps', h, hd, -⟩ := C59_block_effect (a := .neon32) (mode := .trap) (f := Vec.lnz32Format.rhs)
    (reg := 16) (mem := fun p => some (UInt8.ofNat (3 * p))) (src := ⟨5, 2, 16, 20, .widthMajor⟩)
    (B := fun w d => UInt8.ofNat (3 * (5 + w * 20 + d * 1))) (sw := 1)
    (ps := ⟨⟨40, fun _ => 9⟩, ⟨4, fun _ => 7#32⟩, 3⟩) lnz32Format_wf.rhs (by decide)
    (fun _ _ _ _ => rfl) (by decide) rfl (by decide) (by decide) (fun _ w _ => by
      show (-2147483648 : Int) ≤ (7#32).toInt - 255 * (16 : Nat) ∧
        (7#32).toInt + 255 * (16 : Nat) ≤ 2147483647
      decide)
  exact ⟨ps', h, (hd 1 1 (by decide) (by decide)).trans (by decide)⟩

end Gemmlowp
