import Verif.PropsKernelSelect
/-!
# Property C61: matrices of int8

The library also multiplies matrices of int8 (`KernelSideFormatInt8Inputs`, internal/kernel.h:160-166), in
NEON builds and for declared ranges with a negative lower bound.  Nothing is then subtracted while packing,
and the entries are signed numbers.
-/
namespace Gemmlowp

section
variable {a : Arch} {p : BitDepthParams} {n : KName}
variable {e : Env} {c : Call} {L R : Nat → Nat → UInt8} {LO RO : Nat → BitVec 32}
  {val : Nat → Nat → Int}

theorem int8_wellFormed (hs : selectKernel a p = .kernel n) (hu : p.lhs.lo < 0)
    (hk : KernelIs e.mode n e.reg e.k e.run) (hpack : e.pack = packerOf a)
    (hl : c.lhs.order = .rowMajor) (hr : c.rhs.order = .colMajor)
    (hL : ∀ i d, i < c.result.rows → d < c.lhs.cols → p.lhs.Has (InputScalar.int8.val (L i d)))
    (h : AsmCall e .int8 c L R LO RO val) :
    WellFormed e .int8 c L R LO RO val := by
  have hn : n.int8Inputs = true := (select_int8 hs).2 hu
  have hi : n.input = .int8 := by unfold KName.input; rw [hn]; rfl
  have ha : n.addsTwo = true := by revert hn; cases n <;> decide
  have h12 : n ≠ .neon32Kernel12x4Depth2Assuming12BitProducts := by rintro rfl; cases hn
  have hz : n.zeroPoint = 0 := by unfold KName.zeroPoint; rw [ha, hn]; rfl
  obtain ⟨hwf, hrows, hreg, z1, z2, N, hN, hN0, hNp⟩ := kernelIs_meets hk
  refine h.wellFormed_meets hwf
    ⟨(kernelIs_input hk).1.trans hi, (kernelIs_input hk).2.trans hi⟩ ?_ hN hreg hrows hN0 ?_
  · intro o ho
    rw [hpack]
    refine chosen_meets_for hs hk hwf fun _ => ?_
    rcases ho with h | h
    · rw [h, hl]; rfl
    · rw [h, hr]; rfl
  · intro i j d hi hj hd
    obtain ⟨a1, -⟩ := hL i d hi hd
    have := (select_addsTwo hs ha).1
    rw [z1, z2, hz]
    exact ⟨hNp _ _ ⟨fun _ => by omega, fun h => absurd h h12⟩, hNp _ _ ⟨fun _ => by omega, fun h => absurd h h12⟩⟩

/-- **C61.**  For every declaration of a signed range of the left-hand side for which anything compiles, on
every architecture: with the kernel, the packing and the output stages of the build the entry points compute
the product of all matrices of int8 with a left-hand side in the declared range, row-major times
column-major - also when `DispatchGemmShape` swaps the sides.  The right-hand side can be any. -/
theorem C61_gemm (hs : selectKernel a p = .kernel n) (hu : p.lhs.lo < 0)
    (hk : KernelIs e.mode n e.reg e.k e.run) (hpack : e.pack = packerOf a)
    (hl : c.lhs.order = .rowMajor) (hr : c.rhs.order = .colMajor)
    (hL : ∀ i d, i < c.result.rows → d < c.lhs.cols → p.lhs.Has (InputScalar.int8.val (L i d)))
    (h : AsmCall e .int8 c L R LO RO val) :
    ∃ pl, gemmWithOutputPipelinePC e c = .ok pl ∧ (∃ t, Outcome pl t) ∧
      ∀ t, Outcome pl t → ∀ mem r j, r < c.result.rows → j < c.result.cols →
        applyStores mem t (c.result.addr r j) = val r j :=
  C01_gemm_with_output_pipeline (int8_wellFormed hs hu hk hpack hl hr hL h)

/-- **C61**, with the documented meaning of the stages, and the C++ rule for overflow: the offsets are between
`-127` and `128`, the depth is at most 33024, and what the output stages are documented to make of the sum
of the products `(L i d + LO i) * (R d j + RO j)` of signed numbers is stored. -/
theorem C61_documented (hs : selectKernel a p = .kernel n) (hu : p.lhs.lo < 0)
    (hk : KernelIs e.mode n e.reg e.k e.run) (hpack : e.pack = packerOf a)
    (hl : c.lhs.order = .rowMajor) (hr : c.rhs.order = .colMajor)
    (hL : ∀ i d, i < c.result.rows → d < c.lhs.cols → p.lhs.Has (InputScalar.int8.val (L i d)))
    (hD : c.Describes L R LO RO) (hdepth : 0 < c.lhs.cols ∧ c.lhs.cols ≤ 33024)
    (hlo : ∀ i, i < c.result.rows → -127 ≤ (LO i).toInt ∧ (LO i).toInt ≤ 128)
    (hro : ∀ j, j < c.result.cols → -127 ≤ (RO j).toInt ∧ (RO j).toInt ≤ 128)
    (ht : 0 < getHardwareConcurrency e.hw e.maxThreads)
    (hf : ((max c.result.rows c.result.cols : Nat) : Int) * getHardwareConcurrency e.hw e.maxThreads ≤ 2147483647 ∧
      ((max c.result.rows c.result.cols : Nat) : Int) + 24 ≤ 2147483647)
    (hst : c.result.StrideOk) (hp : c.pipe.Plain)
    (hv : ∀ r j, r < c.result.rows → j < c.result.cols → c.pipe.Maps r j
      (∑ d ∈ Finset.range c.lhs.cols, (InputScalar.int8.val (L r d) + (LO r).toInt) *
        (InputScalar.int8.val (R d j) + (RO j).toInt)) (val r j)) :
    ∃ pl, gemmWithOutputPipelinePC e c = .ok pl ∧ (∃ t, Outcome pl t) ∧
      ∀ t, Outcome pl t → ∀ mem r j, r < c.result.rows → j < c.result.cols →
        applyStores mem t (c.result.addr r j) = val r j := by
  have hI : ∀ m : OvMode, c.InRange .int8 m LO RO := fun m _ => ⟨hdepth.2, hlo, hro⟩
  have hkd : e.k.kDepth ≤ 16 := by
    have key : ∀ n reg k run, KernelIs e.mode n reg k run → k.kDepth ≤ 16 := by
      intro n reg k run h; cases h <;> decide
    exact key _ _ _ _ hk
  refine C61_gemm hs hu hk hpack hl hr hL
    ⟨hD, hI _, ht, hf.1, hf.2, hdepth.1, by omega, hst, fun r j hr hj => ?_, hp.agrees ..⟩
  apply pipeline_maps
  unfold Call.acc
  rw [toInt_ofInt32 (product_fits (hI .trap) hr hj)]
  exact hv r j hr hj

/-- A byte with its highest bit flipped: the unsigned number is the signed number plus 128. -/
theorem val_flip (b : UInt8) : InputScalar.uint8.val (b ^^^ 0x80) = InputScalar.int8.val b + 128 := by
  have key : ∀ x : BitVec 8, ((x ^^^ 0x80#8).toNat : Int) =
      (if x.toNat < 128 then (x.toNat : Int) else (x.toNat : Int) - 256) + 128 := by decide +kernel
  exact key b.toBitVec

/-- **C61.**  A product of matrices of int8 and the product of the matrices of uint8 that result from adding
128 to all entries, with offsets that are less by 128, leave the same memory: in any two environments, whatever
the kernels, builds, tunings and numbers of threads. -/
theorem C61_same_as_uint8 {e' : Env} {c' : Call} {LO' RO' : Nat → BitVec 32} {val' : Nat → Nat → Int}
    (h : WellFormed e .int8 c L R LO RO val)
    (h' : WellFormed e' .uint8 c' (fun i d => L i d ^^^ 0x80) (fun d j => R d j ^^^ 0x80) LO' RO' val')
    (hm : e'.mode = e.mode) (hres : c'.result = c.result) (hp : c'.pipe = c.pipe) (hd : c'.lhs.cols = c.lhs.cols)
    (hlo : ∀ i, i < c.result.rows → (LO' i).toInt = (LO i).toInt - 128)
    (hro : ∀ j, j < c.result.cols → (RO' j).toInt = (RO j).toInt - 128) :
    ∃ pl pl', gemmWithOutputPipelinePC e c = .ok pl ∧ gemmWithOutputPipelinePC e' c' = .ok pl' ∧
      ∀ t t', Outcome pl t → Outcome pl' t' → ∀ mem, applyStores mem t = applyStores mem t' := by
  obtain ⟨pl, a1, -, a3⟩ := h.ok
  obtain ⟨pl', b1, -, b3⟩ := h'.ok
  have hval : ∀ r j, r < c.result.rows → j < c.result.cols → val' r j = val r j := by
    intro r j hr hj
    have e1 := h.pipe r j hr hj
    have e2 := h'.pipe r j (by rw [hres]; exact hr) (by rw [hres]; exact hj)
    have e3 : c'.acc .uint8 (fun i d => L i d ^^^ 0x80) (fun d j => R d j ^^^ 0x80) LO' RO' r j =
        c.acc .int8 L R LO RO r j := by
      unfold Call.acc productEntry
      congr 1
      rw [hd]
      refine Finset.sum_congr rfl fun d _ => ?_
      dsimp only
      rw [val_flip, val_flip, hlo r hr, hro j hj]
      ring
    rw [e3, hp, hm, e1] at e2
    exact (Except.ok.inj e2).symm
  refine ⟨pl, pl', a1, b1, fun t t' ht ht' mem => ?_⟩
  funext x
  have m1 := stores_memory h.stride (a3 t ht) mem
  have m2 := stores_memory h'.stride (b3 t' ht') mem
  rw [hres] at m2
  by_cases hx : ∃ r j, r < c.result.rows ∧ j < c.result.cols ∧ x = c.result.addr r j
  · obtain ⟨r, j, hr, hj, rfl⟩ := hx
    rw [m1.1 r j hr hj, m2.1 r j hr hj, hval r j hr hj]
  · have hx' : ∀ r j, r < c.result.rows → j < c.result.cols → x ≠ c.result.addr r j :=
      fun r j hr hj hh => hx ⟨r, j, hr, hj, hh⟩
    rw [m1.2 x hx', m2.2 x hx']

end

/-! ## A call that meets the hypotheses

The call of `PropsGemm`, its bytes read as int8: some of them are negative. -/

def sampleVal8 (r j : Nat) : Int :=
  okVal (sampleCall.pipe.scalar .trap r j (sampleCall.acc .int8 sampleL sampleR (fun _ => -7) sampleRO r j))

theorem int8_sample (k : KernelFormat) (run : KernelRun) (arm32 : Bool) (hk : k.kDepth ≤ 16) :
    AsmCall (neonSampleEnv k run arm32) .int8 sampleCall sampleL sampleR (fun _ => -7) sampleRO sampleVal8 := by
  obtain ⟨h, -⟩ := sample_wellFormed
  exact ⟨h.describes, fun _ => ⟨by decide, by decide, by decide⟩, h.env.threads, h.env.fits1, by decide, h.depth,
    by show sampleCall.lhs.cols + k.kDepth ≤ _; have : sampleCall.lhs.cols ≤ 1000 := by decide
       omega,
    h.stride, forall_lt_lt (n := 2) (m := 3) (P := fun i j => sampleCall.pipe.scalar .trap i j
      (sampleCall.acc .int8 sampleL sampleR (fun _ => -7) sampleRO i j) = .ok (sampleVal8 i j)) (by decide),
    sample_plain.agrees ..⟩

example (x0 : Nat → Vec.VReg) : ∃ pl, gemmWithOutputPipelinePC
    (neonSampleEnv Vec.lnz64Int8Format (Vec.lnz64Kernel x0) false) sampleCall = .ok pl ∧
    ∀ t, Outcome pl t → ∀ mem, applyStores mem t (sampleCall.result.addr 1 2) = sampleVal8 1 2 := by
  obtain ⟨pl, h1, -, h2⟩ := C61_gemm (a := .neon64) (p := signedL8R8WithLhsNonzero)
    (e := neonSampleEnv Vec.lnz64Int8Format (Vec.lnz64Kernel x0) false) (c := sampleCall)
    (by decide) (by decide) (.lnz64Int8 x0) rfl rfl rfl
    (forall_lt_lt (n := 2) (m := 3)
      (P := fun i d => signedL8R8WithLhsNonzero.lhs.Has (InputScalar.int8.val (sampleL i d)))
      (by unfold OperandRange.Has; decide))
    (int8_sample _ _ _ (by decide))
  exact ⟨pl, h1, fun t ht mem => h2 t ht mem 1 2 (by decide) (by decide)⟩

/-- Read as int8 and as uint8 the bytes of this call have different products. -/
example : sampleVal8 1 2 ≠ sampleVal 1 2 ∧ InputScalar.int8.val (sampleL 1 0) < 0 := by decide

/-- The call with the flipped bytes. -/
def flippedCall : Call :=
  { sampleCall with
    lhsMem := fun a => (sampleCall.lhsMem a).map (· ^^^ 0x80)
    rhsMem := fun a => (sampleCall.rhsMem a).map (· ^^^ 0x80)
    lhsOffset := .dup .col (-135) 2
    rhsOffset := .map .row (fun i => [-129, -130, -131][i]?) 0 3 }

def flippedRO (j : Nat) : BitVec 32 := [(-129 : BitVec 32), -130, -131].getD j 0
def flippedVal (r j : Nat) : Int :=
  okVal (flippedCall.pipe.scalar .trap r j (flippedCall.acc .uint8 (fun i d => sampleL i d ^^^ 0x80)
    (fun d j => sampleR d j ^^^ 0x80) (fun _ => -135) flippedRO r j))

theorem flipped_wellFormed : WellFormed sampleEnv .uint8 flippedCall (fun i d => sampleL i d ^^^ 0x80)
    (fun d j => sampleR d j ^^^ 0x80) (fun _ => -135) flippedRO flippedVal := by
  refine ⟨⟨forall_lt_lt (by decide), forall_lt_lt (by decide), rfl, rfl, rfl, ⟨trivial, rfl, fun _ _ => rfl⟩,
      ⟨rfl, rfl, by decide⟩⟩, ?_, ?_, by decide, by decide,
      forall_lt_lt (by decide), sample_plain.agrees ..⟩
  · exact fun _ => ⟨by decide, by decide, by decide⟩
  · exact ⟨sampleFormat_wf, ⟨_, referenceKernel_meets sampleFormat_wf, flippedCall.within_true _ _ _ _⟩, rfl, rfl,
      fun o _ => packBlock_meets _ sampleFormat_wf.lhs rfl o, fun o _ => packBlock_meets _ sampleFormat_wf.rhs rfl o,
      by decide, by decide, by decide, by decide⟩

example (x0 : Nat → Vec.VReg) : ∃ pl pl', gemmWithOutputPipelinePC
      (neonSampleEnv Vec.lnz64Int8Format (Vec.lnz64Kernel x0) false) sampleCall = .ok pl ∧
    gemmWithOutputPipelinePC sampleEnv flippedCall = .ok pl' ∧
    ∀ t t', Outcome pl t → Outcome pl' t' → ∀ mem, applyStores mem t = applyStores mem t' :=
  C61_same_as_uint8
    (int8_wellFormed (a := .neon64) (p := signedL8R8WithLhsNonzero) (by decide) (by decide) (.lnz64Int8 x0) rfl rfl rfl
      (forall_lt_lt (n := 2) (m := 3)
        (P := fun i d => signedL8R8WithLhsNonzero.lhs.Has (InputScalar.int8.val (sampleL i d)))
        (by unfold OperandRange.Has; decide))
      (int8_sample _ _ _ (by decide)))
    flipped_wellFormed rfl rfl rfl rfl (fun _ _ => by decide) (by decide)

end Gemmlowp
