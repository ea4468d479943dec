import Verif.X86Proof2
import Verif.PropsGemm
import Verif.PackSimdProof3
/-!
# Property C53: the x86 assembly kernels

`sse32Kernel`, `sse64Kernel` and `avx2Kernel` are the inline assembly of internal/kernel_sse.h and
internal/kernel_avx.h, instruction by instruction.  They do what `KernelBase::Run` asks of a kernel
(`KernelOk`, stated without reference to any kernel), and with them the public entry points compute
the documented product.  Two flaws show: the loop over pairs of cells takes one cell too many when
their number is odd, which is harmless only because packed data are padded with zeros; and the AVX2
kernel reads 8 bytes beyond the packed right-hand side.
-/
namespace Gemmlowp

open Asm
open PackSimd (ssePacker avxPacker ssePacker_meets avxPacker_meets)

theorem sse32Format_wf : sse32Format.WF 16 :=
  ⟨⟨by decide, by decide, by decide, by decide, by decide, by decide⟩,
   ⟨by decide, by decide, by decide, by decide, by decide, by decide⟩, by decide⟩

theorem sse64Format_wf : sse64Format.WF 16 :=
  ⟨⟨by decide, by decide, by decide, by decide, by decide, by decide⟩,
   ⟨by decide, by decide, by decide, by decide, by decide, by decide⟩, by decide⟩

theorem avx2Format_wf : avx2Format.WF 32 :=
  ⟨⟨by decide, by decide, by decide, by decide, by decide, by decide⟩,
   ⟨by decide, by decide, by decide, by decide, by decide, by decide⟩, by decide⟩

/-- **C53.**  The SSE4 kernel for 32-bit machines meets the contract of kernels for all packed data
that are padded with zeros, whatever the registers hold before. -/
theorem C53_sse32_kernel (x0 : Nat → VReg) :
    KernelOk .wrap sse32Format 16 { pair := fun _ _ => True, pad := True, int := True }
      (sse32Kernel x0 0) := sse32Kernel_ok x0 0

/-- **C53.**  The SSE4 kernel for 64-bit machines. -/
theorem C53_sse64_kernel (x0 : Nat → VReg) :
    KernelOk .wrap sse64Format 16 { pair := fun _ _ => True, pad := True, int := True }
      (sse64Kernel x0 0) := sse64Kernel_ok x0 0

/-- **C53.**  The AVX2 kernel, if 8 bytes after the packed data can be read (see
`C53_avx2_reads_beyond`). -/
theorem C53_avx2_kernel_partial (x0 : Nat → VReg) {slack : Nat} (hs : 8 ≤ slack) :
    KernelOk .wrap avx2Format 32 { pair := fun _ _ => True, pad := True, int := True }
      (avx2Kernel x0 slack) := avx2Kernel_ok x0 hs

section
variable {e : Env} {ty : InputScalar} {c : Call} {L R : Nat → Nat → UInt8} {LO RO : Nat → BitVec 32}
  {val : Nat → Nat → Int}

/-- What remains to be asked of a call with one of the assembly kernels. -/
structure AsmCall (e : Env) (ty : InputScalar) (c : Call) (L R : Nat → Nat → UInt8) (LO RO : Nat → BitVec 32)
    (val : Nat → Nat → Int) : Prop where
  describes : c.Describes L R LO RO
  inRange : c.InRange ty e.mode LO RO
  threads : 0 < getHardwareConcurrency e.hw e.maxThreads
  fits1 : ((max c.result.rows c.result.cols : Nat) : Int) *
    getHardwareConcurrency e.hw e.maxThreads ≤ 2147483647
  fits2 : ((max c.result.rows c.result.cols : Nat) : Int) + 24 ≤ 2147483647
  depth : 0 < c.lhs.cols
  depthInt : c.lhs.cols + e.k.kDepth ≤ 2147483648
  stride : c.result.StrideOk
  pipe : ∀ r j, r < c.result.rows → j < c.result.cols →
    c.pipe.scalar e.mode r j (c.acc ty L R LO RO r j) = .ok (val r j)
  out : e.out.Agrees e.mode c.pipe c.result.rows c.result.cols (c.acc ty L R LO RO)

theorem AsmCall.wellFormed_meets (h : AsmCall e ty c L R LO RO val) {N : KernelNeeds} (hwf : e.k.WF e.reg)
    (hin : e.k.lhs.input = ty ∧ e.k.rhs.input = ty)
    (hpk : ∀ o, o = c.lhs.order.lhsSide ∨ o = c.rhs.order.rhsSide →
      PackerMeetsFor e.pack e.mode e.k.lhs e.reg o ∧ PackerMeetsFor e.pack e.mode e.k.rhs e.reg o)
    (hk : KernelMeets e.mode e.k e.reg N e.run) (hreg : e.reg ∣ 33024) (hr : e.k.kRows ≤ 24)
    (h0 : N.pair 0 0) (hp : ∀ i j d, i < c.result.rows → j < c.result.cols → d < c.lhs.cols →
      N.pair (ty.val (L i d) - e.k.lhs.zp) (ty.val (R d j) - e.k.rhs.zp) ∧
      N.pair (ty.val (R d j) - e.k.lhs.zp) (ty.val (L i d) - e.k.rhs.zp)) :
    WellFormed e ty c L R LO RO val where
  describes := h.describes
  inRange := h.inRange
  depth := h.depth
  stride := h.stride
  pipe := h.pipe
  out := h.out
  env :=
    { wf := hwf
      run := ⟨N, hk,
        ⟨h0, by
          intro _
          have h1 := h.depthInt
          by_cases h2 : e.k.kDepth = 0
          · rw [h2]
            have : roundUp 0 c.lhs.cols ≤ c.lhs.cols + 0 - 1 := Nat.sub_le _ _
            omega
          · have := roundUp_lt (m := e.k.kDepth) (by omega) c.lhs.cols
            omega, fun _ i j d hi hj hd => (hp i j d hi hj hd).1,
          fun _ i j d hi hj hd => (hp i j d hi hj hd).2⟩⟩
      inputLhs := hin.1
      inputRhs := hin.2
      packLhs := fun o ho => (hpk o ho).1
      packRhs := fun o ho => (hpk o ho).2
      regDvd := hreg
      threads := h.threads
      fits1 := h.fits1
      fits2 := by have := h.fits2; omega }

theorem AsmCall.wellFormed_of (h : AsmCall e ty c L R LO RO val) {N : KernelNeeds} (hwf : e.k.WF e.reg)
    (hin : e.k.lhs.input = ty ∧ e.k.rhs.input = ty)
    (hpk : PackerMeets e.pack e.mode e.k.lhs e.reg ∧ PackerMeets e.pack e.mode e.k.rhs e.reg)
    (hk : KernelOk .wrap e.k e.reg N e.run) (hreg : e.reg ∣ 33024) (hr : e.k.kRows ≤ 24)
    (h0 : N.pair 0 0) (hp : ∀ i j d, i < c.result.rows → j < c.result.cols → d < c.lhs.cols →
      N.pair (ty.val (L i d) - e.k.lhs.zp) (ty.val (R d j) - e.k.rhs.zp) ∧
      N.pair (ty.val (R d j) - e.k.lhs.zp) (ty.val (L i d) - e.k.rhs.zp)) :
    WellFormed e ty c L R LO RO val :=
  h.wellFormed_meets hwf hin (fun o _ => ⟨hpk.1 o, hpk.2 o⟩) ⟨.wrap, hk, fun h => by cases h⟩ hreg hr h0 hp

theorem AsmCall.wellFormed (h : AsmCall e ty c L R LO RO val) (hwf : e.k.WF e.reg)
    (hin : e.k.lhs.input = ty ∧ e.k.rhs.input = ty)
    (hpk : PackerMeets e.pack e.mode e.k.lhs e.reg ∧ PackerMeets e.pack e.mode e.k.rhs e.reg)
    (hk : KernelOk .wrap e.k e.reg x86Needs e.run) (hreg : e.reg ∣ 33024)
    (hr : e.k.kRows ≤ 24) : WellFormed e ty c L R LO RO val :=
  h.wellFormed_of hwf hin hpk hk hreg hr trivial (fun _ _ _ _ _ _ => ⟨trivial, trivial⟩)

/-- **C53.**  With the SSE4 packing and the SSE4 kernel for 64-bit machines the entry points compute the documented
product: for all shapes, orders, strides, contents, offsets, tunings, scratch contents, thread counts
and schedules. -/
theorem C53_sse64_gemm {x0 : Nat → VReg} (hk : e.k = sse64Format) (hreg : e.reg = 16)
    (hrun : e.run = sse64Kernel x0 0) (hpack : e.pack = ssePacker)
    (h : AsmCall e .uint8 c L R LO RO val) :
    ∃ pl, gemmWithOutputPipelinePC e c = .ok pl ∧ (∃ t, Outcome pl t) ∧
      ∀ t, Outcome pl t → ∀ mem r j, r < c.result.rows → j < c.result.cols →
        applyStores mem t (c.result.addr r j) = val r j :=
  C01_gemm_with_output_pipeline (h.wellFormed (by rw [hk, hreg]; exact sse64Format_wf) (by rw [hk]; exact ⟨rfl, rfl⟩)
    (by rw [hk, hreg, hpack]; exact ⟨ssePacker_meets _ sse64Format_wf.lhs rfl, ssePacker_meets _ sse64Format_wf.rhs rfl⟩)
    (by rw [hk, hreg, hrun]; exact sse64Kernel_ok x0 0) (by rw [hreg]; decide)
    (by rw [hk]; decide))

/-- **C53.**  The same for the SSE4 kernel for 32-bit machines. -/
theorem C53_sse32_gemm {x0 : Nat → VReg} (hk : e.k = sse32Format) (hreg : e.reg = 16)
    (hrun : e.run = sse32Kernel x0 0) (hpack : e.pack = ssePacker)
    (h : AsmCall e .uint8 c L R LO RO val) :
    ∃ pl, gemmWithOutputPipelinePC e c = .ok pl ∧ (∃ t, Outcome pl t) ∧
      ∀ t, Outcome pl t → ∀ mem r j, r < c.result.rows → j < c.result.cols →
        applyStores mem t (c.result.addr r j) = val r j :=
  C01_gemm_with_output_pipeline (h.wellFormed (by rw [hk, hreg]; exact sse32Format_wf) (by rw [hk]; exact ⟨rfl, rfl⟩)
    (by rw [hk, hreg, hpack]; exact ⟨ssePacker_meets _ sse32Format_wf.lhs rfl, ssePacker_meets _ sse32Format_wf.rhs rfl⟩)
    (by rw [hk, hreg, hrun]; exact sse32Kernel_ok x0 0) (by rw [hreg]; decide)
    (by rw [hk]; decide))

/-- **C53.**  The same for the AVX2 packing and kernel, if 8 bytes after the packed data can be read; what they
hold does not matter. -/
theorem C53_avx2_gemm_partial {x0 : Nat → VReg} {slack : Nat} (hs : 8 ≤ slack)
    (hk : e.k = avx2Format) (hreg : e.reg = 32)
    (hrun : e.run = avx2Kernel x0 slack) (hpack : e.pack = avxPacker)
    (h : AsmCall e .uint8 c L R LO RO val) :
    ∃ pl, gemmWithOutputPipelinePC e c = .ok pl ∧ (∃ t, Outcome pl t) ∧
      ∀ t, Outcome pl t → ∀ mem r j, r < c.result.rows → j < c.result.cols →
        applyStores mem t (c.result.addr r j) = val r j :=
  C01_gemm_with_output_pipeline (h.wellFormed (by rw [hk, hreg]; exact avx2Format_wf) (by rw [hk]; exact ⟨rfl, rfl⟩)
    (by rw [hk, hreg, hpack]; exact ⟨avxPacker_meets _ avx2Format_wf.lhs rfl, avxPacker_meets _ avx2Format_wf.rhs rfl⟩)
    (by rw [hk, hreg, hrun]; exact avx2Kernel_ok x0 hs) (by rw [hreg]; decide)
    (by rw [hk]; decide))

end

/-! ## The flaws -/

/-- **C53**, finding F20: for an odd number of cells, three or more, the kernel multiplies one cell
too many. -/
theorem C53_sse64_extra_cell (x0 : Nat → VReg) {dst : Buf (BitVec 32)} {dp cs : Nat}
    {lhs : Buf UInt8} {lp : Nat} {rhs : Buf UInt8} {rp sd N : Nat} (hodd : N % 2 = 1) (h3 : 3 ≤ N)
    (hdp : 12 ∣ dp) (hcs : 12 ∣ cs) (hcs0 : 0 < cs) (hNi : 2 * N ≤ 2147483647)
    (hl : lp + 24 * (N + 1) ≤ lhs.size) (hr : rp + 8 * (N + 1) ≤ rhs.size)
    (hd : dp + (11 + 3 * cs) < dst.size) :
    ∃ dst', sse64Kernel x0 0 dst dp 1 cs lhs lp rhs rp sd (2 * N) = .ok dst' ∧
      ∀ r c, r < 12 → c < 4 → dst'.get (dp + (r * 1 + c * cs)) =
        BitVec.ofInt 32 (kernelExact sse64Format dst lhs lp rhs rp sd (2 * N + 2)
          (dp + (r * 1 + c * cs)) r c) := by
  have hcr : cellsRead N = N + 1 := by unfold cellsRead; rw [if_neg (by omega)]; omega
  obtain ⟨k, rfl⟩ := hcs
  obtain ⟨dst', h1, -, h3, -⟩ := x86Kernel_exact (w := 64) (align := 4) (slack := 0) sse64_parts
    sse64Tiles_are (by omega) (by omega) (by decide) x0 (dst := dst) (dp := dp) (cs := 12 * k)
    (lhs := lhs) (lp := lp) (rhs := rhs) (rp := rp) (sd := sd) (N := N) hdp (Nat.dvd_mul_right _ _)
    (by omega) hNi (by rw [hcr]; exact ⟨by dsimp only; omega, by dsimp only; omega⟩)
    (by
      intro r c hr hc
      have : c * (12 * k) ≤ 3 * (12 * k) := Nat.mul_le_mul_right _ (by omega)
      omega)
    (by
      intro r c r' c' hr hc hr' hc' he
      have := mixed_inj (m := 12 * k) (a := r) (a' := r') (b := c) (b' := c') (by omega) (by omega)
        (by omega)
      exact this)
  rw [hcr, Nat.mul_add] at h3
  exact ⟨dst', h1, h3⟩

/-- **C53**, finding F20: the contract is not met without the padding. -/
theorem C53_sse64_needs_padding (x0 : Nat → VReg) :
    ¬ KernelOk .wrap sse64Format 16 { pair := fun _ _ => True, pad := False, int := True }
      (sse64Kernel x0 0) := by
  intro h
  have hinj : ∀ r c r' c', r < 12 → c < 4 → r' < 12 → c' < 4 →
      r * 1 + c * 12 = r' * 1 + c' * 12 → r = r' ∧ c = c' := by intros; omega
  obtain ⟨d1, a1, -, a3, -⟩ := h { size := 48, get := fun _ => 0#32 } 0 1 12
    { size := 192, get := fun _ => 1 } 0 { size := 64, get := fun _ => 1 } 0 0 6 rfl (by decide)
    (by decide) (by decide) (by decide) (fun _ => by decide) (by decide) (by decide)
    (by
      intro r c hr hc
      have hr : r < 12 := hr
      have hc : c < 4 := hc
      dsimp only; omega)
    hinj (fun h => by cases h)
  have e1 := a3 0 0 (by decide) (by decide) ⟨fun _ _ => trivial, fun h => h.elim⟩
  obtain ⟨d2, b1, b3⟩ := C53_sse64_extra_cell x0 (dst := { size := 48, get := fun _ => 0#32 })
    (dp := 0) (cs := 12) (lhs := { size := 192, get := fun _ => 1 }) (lp := 0)
    (rhs := { size := 64, get := fun _ => 1 }) (rp := 0) (sd := 0) (N := 3) rfl (by decide)
    (by decide) (by decide) (by decide) (by decide) (by decide) (by decide) (by decide)
  have e2 := b3 0 0 (by decide) (by decide)
  have : d1 = d2 := Except.ok.inj (a1.symm.trans b1)
  rw [this, e2] at e1
  revert e1
  decide

/-- **C53**, finding F19: a run whose right-hand cells end where readable memory ends makes the AVX2
kernel fault. -/
theorem C53_avx2_reads_beyond (x0 : Nat → VReg) {dst : Buf (BitVec 32)} {dp cs : Nat}
    {lhs : Buf UInt8} {lp : Nat} {rhs : Buf UInt8} {rp sd N : Nat} (hN : 2 ≤ N) (heven : N % 2 = 0)
    (hNi : N < 2 ^ 63) {slack : Nat} (hs : rhs.size + slack < rp + 8 * N + 8) :
    avx2Kernel x0 slack dst dp 1 cs lhs lp rhs rp sd (2 * N) = .error .oob :=
  avx2Kernel_overread x0 hN hNi (by omega)

/-- **C53**, finding F19: the contract is not met if just the packed data can be read. -/
theorem C53_avx2_fails (x0 : Nat → VReg) :
    ¬ KernelOk .wrap avx2Format 32 { pair := fun _ _ => True, pad := True, int := True }
      (avx2Kernel x0 0) := by
  intro h
  have hinj : ∀ r c r' c', r < 24 → c < 4 → r' < 24 → c' < 4 →
      r * 1 + c * 24 = r' * 1 + c' * 24 → r = r' ∧ c = c' := by intros; omega
  obtain ⟨d1, a1, -⟩ := h { size := 96, get := fun _ => 0#32 } 0 1 24
    { size := 768, get := fun _ => 1 } 0 { size := 128, get := fun _ => 1 } 0 0 32 rfl (by decide)
    (by decide) (by decide) (by decide) (fun _ => by decide) (by decide) (by decide)
    (by
      intro r c hr hc
      have hr : r < 24 := hr
      have hc : c < 4 := hc
      dsimp only; omega)
    hinj (fun h => by cases h)
  have := C53_avx2_reads_beyond x0 (dst := { size := 96, get := fun _ => 0#32 }) (dp := 0) (cs := 24)
    (lhs := { size := 768, get := fun _ => 1 }) (lp := 0) (rhs := { size := 128, get := fun _ => 1 })
    (rp := 0) (sd := 0) (N := 16) (slack := 0) (by decide) (by decide) (by decide) (by decide)
  rw [show 2 * 16 = 32 from rfl, a1] at this
  cases this

/-! ## A call that meets the hypotheses -/

def x86SampleEnv : Env := { sampleEnv with k := sse64Format, run := sse64Kernel (fun _ _ => 5#16) 0, pack := ssePacker, out := .vec .sse }

theorem x86_sample : AsmCall x86SampleEnv .uint8 sampleCall sampleL sampleR (fun _ => -7) sampleRO
    sampleVal := by
  obtain ⟨h, -⟩ := sample_wellFormed
  exact ⟨h.describes, h.inRange, h.env.threads, h.env.fits1, by decide, h.depth, by decide, h.stride,
    h.pipe, sample_plain.agrees ..⟩

example : ∃ pl, gemmWithOutputPipelinePC x86SampleEnv sampleCall = .ok pl :=
  (C53_sse64_gemm rfl rfl rfl rfl x86_sample).imp fun _ h => h.1

end Gemmlowp
