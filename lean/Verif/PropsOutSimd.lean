import Verif.PropsGemm
import Verif.OutVecProof
/-!
# Property C60: the output stages in vector registers
-/
namespace Gemmlowp.OutSimd

/-! ## Where scalars and vectors differ -/

theorem shl_lane (A : VArch) (a : Reg 4 32) {k : Int} (h : 0 ≤ k ∧ k < 32) (i : Fin 4) :
    A.wrap.O.shiftLeft a k i = a i <<< k.toNat := by
  obtain ⟨n, rfl⟩ := Int.eq_ofNat_of_zero_le h.1
  have hn : n < 32 := by omega
  cases A with
  | sse =>
    show (if 0 ≤ (n : Int) ∧ (n : Int) < (32 : Nat) then a i <<< (n : Int).toNat else 0) = _
    rw [if_pos (by omega)]
  | neon =>
    have key : ∀ n : Fin 32, Isa.neonCount (BitVec.ofInt 32 ((n.val : Nat) : Int)) = n.val := by decide
    have := key ⟨n, hn⟩
    show (if 0 ≤ Isa.neonCount (BitVec.ofInt 32 (n : Int)) then a i <<< (Isa.neonCount (BitVec.ofInt 32 (n : Int))).toNat else _) = _
    rw [this, if_pos (by simp)]
  | msa =>
    show a i <<< ((n : Int) % (32 : Nat)).toNat = _
    rw [Int.emod_eq_of_lt (by omega) (by omega)]


theorem tanhVec_lane (A : VArch) {m : OvMode} {p : TanhParams} {X a8 cm cM om oM t o : BitVec 32}
    (h1 : Fx.mul m 8 p.amplitude = .ok a8) (h2 : Fx.sub m p.zero a8 = .ok cm)
    (h3 : Fx.add m p.zero a8 = .ok cM) (h4 : Fx.sub m p.zero p.amplitude = .ok om)
    (h5 : Fx.add m p.zero p.amplitude = .ok oM) (hmul : MulSafe A (X - p.zero) p.inverseAmplitude)
    (hk : 0 ≤ 28 - p.inverseNegExponent ∧ 28 - p.inverseNegExponent < 32)
    (ht : Fx.tanh .wrap 3 (Fx.srdhm (X - p.zero) p.inverseAmplitude <<< (28 - p.inverseNegExponent).toNat) = .ok t)
    (ho : Fx.shiftRight (Fx.srdhm t p.amplitudeNormalized) (31 - p.amplitudeExponent) = .ok o)
    (hlo : cm.toInt < X.toInt) (hhi : X.toInt < cM.toInt) :
    tanhVec A.wrap m p (fun _ => X) = .ok fun _ => p.zero + o := by
  have hW := wrapOk A
  unfold tanhVec
  rw [h1, ok_bind, h2, ok_bind, h3, ok_bind, h4, ok_bind, h5, ok_bind]
  dsimp only
  obtain ⟨t', et, ht'⟩ := tanh_vec A (A.wrap.O.shiftLeft (A.wrap.O.srdhm (A.wrap.O.sub (fun _ => X)
    (A.wrap.O.dup p.zero)) (A.wrap.O.dup p.inverseAmplitude)) (28 - p.inverseNegExponent))
  rw [et, ok_bind, pure_ok]
  congr 1
  funext i
  have esub : A.wrap.O.sub (fun _ => X) (A.wrap.O.dup p.zero) i = X - p.zero :=
    (fxsub_val (hW.lanes.sub (fun _ => X) (A.wrap.O.dup p.zero) i)).trans (by rw [hW.dup])
  have hti := ht' i
  rw [shl_lane A _ hk, srdhm_vec (by rw [esub, hW.dup]; exact hmul), esub, hW.dup, ht] at hti
  have eti := Except.ok.inj hti
  have m1 : A.wrap.O.maskIfLessThanOrEqual (fun _ => X) (A.wrap.O.dup cm) i = 0 := by
    rw [hW.lanes.maskIfLessThanOrEqual, (Fx.C33_masks (by decide) _ _).2.2.2.2.2.2.2, hW.dup, if_neg (by omega)]
  have m2 : A.wrap.O.maskIfGreaterThanOrEqual (fun _ => X) (A.wrap.O.dup cM) i = 0 := by
    rw [hW.lanes.maskIfGreaterThanOrEqual, (Fx.C33_masks (by decide) _ _).2.2.2.2.2.1, hW.dup, if_neg (by omega)]
  rw [hW.lanes.selectUsingMask _ _ _ _ (Or.inl m1), m1, Fx.select_zero,
    hW.lanes.selectUsingMask _ _ _ _ (Or.inl m2), m2, Fx.select_zero, hW.add, hW.dup]
  congr 1
  refine shr_vec hW ?_
  rw [srdhm_vec (by intro _ hh; rw [← eti] at hh; exact tanh_ne_min ht hh.1), hW.dup, ← eti]
  exact ho

/-- What the constructor internal/output.h:365-392 computes for `real_zero_as_int32 = 0` and
`real_amplitude_as_int32 = 2^k`, `1 ≤ k`: one half, both times, and the exponents. -/
def powTanh (k : Nat) : TanhParams where
  zero := 0
  amplitude := BitVec.ofNat 32 (2 ^ k)
  inverseAmplitude := 0x40000000#32
  inverseNegExponent := k - 1
  amplitudeNormalized := 0x40000000#32
  amplitudeExponent := k + 1

/-- The largest input below the cutoff. -/
def belowCutoff (k : Nat) : BitVec 32 := BitVec.ofNat 32 (2 ^ (k + 3) - 1)

/-- `tanh` of -8, as the vector code computes it. -/
def tanhMin : BitVec 32 := 2147484132#32

theorem tanhMin_eq : Fx.tanh .wrap 3 0x80000000#32 = .ok tanhMin := by decide +kernel

theorem powTanh_table : ∀ k : Fin 27,
    let p := powTanh (k.val + 1)
    let X := belowCutoff (k.val + 1)
    Fx.mul .trap 8 p.amplitude = .ok (8 * p.amplitude) ∧
    Fx.sub .trap p.zero (8 * p.amplitude) = .ok (-(8 * p.amplitude)) ∧
    Fx.add .trap p.zero (8 * p.amplitude) = .ok (8 * p.amplitude) ∧
    Fx.sub .trap p.zero p.amplitude = .ok (-p.amplitude) ∧
    Fx.add .trap p.zero p.amplitude = .ok p.amplitude ∧
    (0 ≤ 28 - p.inverseNegExponent ∧ 28 - p.inverseNegExponent < 32) ∧
    Fx.srdhm (X - p.zero) p.inverseAmplitude <<< (28 - p.inverseNegExponent).toNat = 0x80000000#32 ∧
    Fx.shiftRight (Fx.srdhm tanhMin p.amplitudeNormalized) (31 - p.amplitudeExponent) =
      .ok ((Fx.srdhm tanhMin p.amplitudeNormalized).sshiftRight (30 - (k.val + 1))) ∧
    (-(8 * p.amplitude)).toInt < X.toInt ∧ X.toInt < (8 * p.amplitude).toInt ∧
    2 * (p.zero + (Fx.srdhm tanhMin p.amplitudeNormalized).sshiftRight (30 - (k.val + 1))).toInt ≤ -2 ^ (k.val + 1) := by
  decide +kernel

theorem powTanh_scalar : ∀ k : Fin 27, ∃ z, tanhReg .trap (powTanh (k.val + 1)) (belowCutoff (k.val + 1)) = .ok z ∧
    2 ^ (k.val + 1) ≤ 2 * z.toInt := by
  have key : ∀ k : Fin 27, tanhReg .trap (powTanh (k.val + 1)) (belowCutoff (k.val + 1)) =
      .ok (okVal (tanhReg .trap (powTanh (k.val + 1)) (belowCutoff (k.val + 1)))) ∧
    2 ^ (k.val + 1) ≤ 2 * (okVal (tanhReg .trap (powTanh (k.val + 1)) (belowCutoff (k.val + 1)))).toInt := by
    decide +kernel
  exact fun k => ⟨_, key k⟩

/-- **C60**, finding F33.  The tanh stage with a power of two as amplitude, on the largest input below the
cutoff: in a block of one entry the result is close to the amplitude, in a block of four entries - which is
computed with vectors - it is close to minus the amplitude, since the left shift wraps instead of
saturating. -/
theorem C60_tanh_differs (A : VArch) (k : Nat) (h1 : 1 ≤ k) (h2 : k ≤ 27) :
    ∃ y z : BitVec 32,
      stageEval A.wrap .trap (.tanh (powTanh k)) (lanes 4 1 fun _ _ => belowCutoff k) 0 0 =
        .ok (lanes 4 1 fun _ _ => y) ∧
      stageEval A.wrap .trap (.tanh (powTanh k)) (lanes 1 1 fun _ _ => belowCutoff k) 4 0 =
        .ok (lanes 1 1 fun _ _ => z) ∧
      2 * y.toInt ≤ -2 ^ k ∧ 2 ^ k ≤ 2 * z.toInt := by
  obtain ⟨n, rfl⟩ : ∃ n, k = n + 1 := ⟨k - 1, by omega⟩
  obtain ⟨t1, t2, t3, t4, t5, t6, t7, t8, t9, t10, t11⟩ := powTanh_table ⟨n, by omega⟩
  obtain ⟨z, z1, z2⟩ := powTanh_scalar ⟨n, by omega⟩
  refine ⟨_, z, ?_, ?_, t11, z2⟩
  · have := tanhVec_lane A (p := powTanh (n + 1)) (X := belowCutoff (n + 1)) t1 t2 t3 t4 t5
      (fun _ hh => absurd hh.2 (show ¬ (0x40000000#32).toInt = _ by decide)) t6 (by rw [t7]; exact tanhMin_eq) t8 t9 t10
    show (do
      let x ← [IReg.v fun _ => belowCutoff (n + 1)].mapM
        (onReg (tanhReg .trap (powTanh (n + 1))) (tanhVec A.wrap .trap (powTanh (n + 1))))
      pure ({ rows := 4, cols := 1, reg := x } : RBlock IReg) : M _) = _
    simp only [List.mapM_cons, List.mapM_nil, onReg]
    rw [this]
    rfl
  · show (do
      let x ← [IReg.s (belowCutoff (n + 1))].mapM
        (onReg (tanhReg .trap (powTanh (n + 1))) (tanhVec A.wrap .trap (powTanh (n + 1))))
      pure ({ rows := 1, cols := 1, reg := x } : RBlock IReg) : M _) = _
    simp only [List.mapM_cons, List.mapM_nil, onReg]
    rw [z1]
    rfl

/-- **C60**, finding F32.  A positive exponent and an accumulator that overflows under the left shift:
`2^30`, to be multiplied by 2 and by one half, becomes `2^30` in a block of one entry and `-2^30` in a
block of four entries. -/
theorem C60_left_shift_differs (A : VArch) :
    stageEval A.wrap .trap (.byExponent 0x40000000#32 1 0) (lanes 4 1 fun _ _ => 0x40000000#32) 0 0 =
      .ok (lanes 4 1 fun _ _ => BitVec.ofInt 32 (-2 ^ 30)) ∧
    stageEval A.wrap .trap (.byExponent 0x40000000#32 1 0) (lanes 1 1 fun _ _ => 0x40000000#32) 4 0 =
      .ok (lanes 1 1 fun _ _ => BitVec.ofInt 32 (2 ^ 30)) := by
  have hW := wrapOk A
  have key : byExponentVec A.wrap 1 0 0x40000000#32 0 (fun _ => 0x40000000#32) =
      .ok fun _ => BitVec.ofInt 32 (-2 ^ 30) := by
    unfold byExponentVec
    have hs : A.wrap.srdhmS (A.wrap.O.shiftLeft (fun _ => 0x40000000#32) 1) 0x40000000#32 =
        fun _ => BitVec.ofInt 32 (-2 ^ 30) := by
      funext i
      rw [hW.srdhmS, srdhm_vec (by intro _ hh; rw [hW.dup] at hh; exact absurd hh.2 (by decide)),
        shl_lane A _ (by decide), hW.dup]
      decide
    rw [hs, rdpot_vec hW (m := .wrap) (c := fun _ => BitVec.ofInt 32 (-2 ^ 30)) (fun _ => by decide), ok_bind]
    rw [pure_ok]
    congr 1
    funext i
    rw [hW.add, hW.dup]
    decide
  constructor
  · show (do
      let ne ← Fx.neg .trap 1
      RBlock.mapM' _ (onReg _ (byExponentVec A.wrap (max 0 (1 : BitVec 32).toInt) (max 0 ne.toInt) _ _)) : M _) = _
    rw [show Fx.neg .trap (1 : BitVec 32) = .ok (-1) from by decide, ok_bind]
    show (do
      let x ← [IReg.v fun _ => 0x40000000#32].mapM
        (onReg (byExponentReg .trap 1 0 0x40000000#32 0) (byExponentVec A.wrap 1 0 0x40000000#32 0))
      pure ({ rows := 4, cols := 1, reg := x } : RBlock IReg) : M _) = _
    simp only [List.mapM_cons, List.mapM_nil, onReg]
    rw [key]
    rfl
  · rfl

/-- **C60**: SSE multiplies the least number by itself wrongly, so that the same accumulator and multiplier
give the least number in a block of four entries and the greatest in a block of one. -/
theorem C60_sse_square_differs :
    (∃ f, stageEval VArch.sse.wrap .trap (.byFixedPoint 0x80000000#32 0 0) (lanes 4 1 fun _ _ => 0x80000000#32) 0 0 =
      .ok (lanes 4 1 f) ∧ (f 0 0).toInt = -2 ^ 31) ∧
    stageEval VArch.sse.wrap .trap (.byFixedPoint 0x80000000#32 0 0) (lanes 1 1 fun _ _ => 0x80000000#32) 4 0 =
      .ok (lanes 1 1 fun _ _ => 0x7fffffff#32) := by
  refine ⟨⟨fun _ _ => 0x80000000#32, ?_, by decide⟩, rfl⟩
  have hW := wrapOk .sse
  have key : byFixedPointVec VArch.sse.wrap 0x80000000#32 0 0 (fun _ => 0x80000000#32) =
      .ok fun _ => 0x80000000#32 := by
    unfold byFixedPointVec
    have hs : VArch.sse.wrap.srdhmS (fun _ => 0x80000000#32) 0x80000000#32 = fun _ => 0x80000000#32 := by
      funext i
      revert i
      decide +kernel
    rw [hs]
    rw [rdpot_vec hW (m := .wrap) (c := fun _ => 0x80000000#32) (fun _ => by decide), ok_bind, pure_ok]
    congr 1
  show (do
      let x ← [IReg.v fun _ => 0x80000000#32].mapM
        (onReg (byFixedPointReg .trap 0x80000000#32 0 0) (byFixedPointVec VArch.sse.wrap 0x80000000#32 0 0))
      pure ({ rows := 4, cols := 1, reg := x } : RBlock IReg) : M _) = _
  simp only [List.mapM_cons, List.mapM_nil, onReg]
  rw [key]
  rfl

/-! ## The casts -/

theorem flatten_range (v : Nat → Int) (L : Nat) : ∀ q : Nat,
    ((List.range q).map fun k => (List.range L).map fun l => v (k * L + l)).flatten = (List.range (q * L)).map v := by
  intro q
  induction q with
  | zero => simp
  | succ q ih =>
    rw [List.range_succ, List.map_append, List.flatten_append, ih, Nat.succ_mul, List.range_add, List.map_append]
    simp

/-- **C26** in vector registers: whatever the build, the cast of a register block of any shape leaves in
the lanes of the final registers, from the first to the last, the nearest value of the type (the value modulo
256 for the truncating cast), column by column. -/
theorem C26_vector_casts (A : VArch) (c : Cast) (hc : Cast.Supports A c) {R C : Nat} (hsh : Shape R C)
    (g : Nat → Nat → BitVec 32) :
    ∃ regs, castRegs A c (lanes R C g).reg = .ok regs ∧
      regs.flatten = (List.range (R * C)).map fun k => c.value (g (k % R) (k / R)).toInt := by
  refine ⟨_, castRegs_ok A c hc hsh g, ?_⟩
  unfold finalRegs
  rw [flatten_range fun x => c.reg (g (x % R) (x / R)), Nat.div_mul_cancel]
  · apply List.map_congr_left
    intro k _
    have := castReg_value c (y := (g (k % R) (k / R)).toInt) ⟨by
      have := (g (k % R) (k / R)).le_toInt; norm_num at this; omega, by
      have := (g (k % R) (k / R)).toInt_lt; norm_num at this; omega⟩
    rw [BitVec.ofInt_toInt] at this
    exact this
  · rcases hsh with ⟨rfl | rfl | rfl, rfl | rfl⟩ <;> cases A <;> cases c <;> decide

end Gemmlowp.OutSimd

namespace Gemmlowp

section
variable {e : Env} {ty : InputScalar} {c : Call} {L R : Nat → Nat → UInt8} {LO RO : Nat → BitVec 32}
  {val : Nat → Nat → Int}

/-- **C60.**  A build that evaluates the output stages in vector registers leaves the same memory as one
that evaluates them in scalars, if the pipeline compiles in it and no accumulator meets one of the three
differences above. -/
theorem C60_same_as_scalar_partial (A : OutSimd.VArch) (h : WellFormed e ty c L R LO RO val) (hs : c.pipe.Supports A)
    (ha : ∀ r j, r < c.result.rows → j < c.result.cols → c.pipe.Safe A e.mode r j (c.acc ty L R LO RO r j)) :
    ∃ pl pl', gemmWithOutputPipelinePC { e with out := .scalar } c = .ok pl ∧
      gemmWithOutputPipelinePC { e with out := .vec A } c = .ok pl' ∧
      (∃ t, Outcome pl' t) ∧
      ∀ t t', Outcome pl t → Outcome pl' t' → ∀ mem, applyStores mem t = applyStores mem t' := by
  have h1 : WellFormed { e with out := .scalar } ty c L R LO RO val :=
    ⟨h.describes, h.inRange, ⟨h.env.wf, h.env.run, h.env.inputLhs, h.env.inputRhs, h.env.packLhs, h.env.packRhs, h.env.regDvd, h.env.threads,
      h.env.fits1, h.env.fits2⟩, h.depth, h.stride, h.pipe, ⟨trivial, fun _ _ _ _ => trivial⟩⟩
  have he' : ({ e with out := .vec A } : Env).Ok ty c L R :=
    ⟨h.env.wf, h.env.run, h.env.inputLhs, h.env.inputRhs, h.env.packLhs, h.env.packRhs, h.env.regDvd, h.env.threads,
      h.env.fits1, h.env.fits2⟩
  obtain ⟨pl, pl', a1, a2, a3⟩ := C05_tuning_independent (e' := { e with out := .vec A }) h1 rfl he' ⟨hs, ha⟩
  have h2 : WellFormed { e with out := .vec A } ty c L R LO RO val :=
    ⟨h.describes, h.inRange, he', h.depth, h.stride, h.pipe, ⟨hs, ha⟩⟩
  obtain ⟨pl2, b1, b2, _⟩ := h2.ok
  have : pl2 = pl' := Except.ok.inj (b1.symm.trans a2)
  exact ⟨pl, pl', a1, a2, this ▸ b2, a3⟩

/-- **C60**, for a pipeline of bias vectors, clamps, quantizations with a multiplier other than `-2^31` and
no positive exponent, and a cast to uint8 or int16 or none: all builds leave the same memory, whatever the
accumulators. -/
theorem C60_plain_pipelines (o : OutBuild) (h : WellFormed e ty c L R LO RO val) (hp : c.pipe.Plain) :
    ∃ pl, gemmWithOutputPipelinePC { e with out := o } c = .ok pl ∧ (∃ t, Outcome pl t) ∧
      ∀ t, Outcome pl t → ∀ mem r j, r < c.result.rows → j < c.result.cols →
        applyStores mem t (c.result.addr r j) = val r j := by
  refine C01_gemm_with_output_pipeline (e := { e with out := o }) (L := L) (R := R) (LO := LO) (RO := RO)
    ⟨h.describes, h.inRange, ⟨h.env.wf, h.env.run, h.env.inputLhs, h.env.inputRhs, h.env.packLhs, h.env.packRhs, h.env.regDvd, h.env.threads,
      h.env.fits1, h.env.fits2⟩, h.depth, h.stride, h.pipe, hp.agrees ..⟩
end

/-! ## A call that meets the hypotheses -/

example (A : OutSimd.VArch) : ∃ pl, gemmWithOutputPipelinePC { sampleEnv with out := .vec A } sampleCall = .ok pl :=
  (C60_plain_pipelines (.vec A) sample_wellFormed.1 sample_plain).imp fun _ h => h.1

example (A : OutSimd.VArch) : ∃ pl', gemmWithOutputPipelinePC { sampleEnv with out := .vec A } sampleCall = .ok pl' := by
  obtain ⟨h1, h2⟩ := sample_plain.agrees (.vec A) .trap 2 3 (sampleCall.acc .uint8 sampleL sampleR (fun _ => -7) sampleRO)
  obtain ⟨_, pl', _, h, _⟩ := C60_same_as_scalar_partial A sample_wellFormed.1 h1 h2
  exact ⟨pl', h⟩

/-- A stage with a positive exponent is safe on an accumulator that does not overflow. -/
example : Stage.Safe .sse (.byExponent 0x40000000#32 3 0) 0 0 (BitVec.ofInt 32 (-12345)) :=
  ⟨by unfold ShlSafe; decide, fun _ h => absurd h.2 (by decide)⟩

end Gemmlowp
