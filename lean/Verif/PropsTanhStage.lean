import Verif.TanhStageEval
/-!
# Property C69: the tanh output stage is accurate
-/
namespace Gemmlowp.TanhStage

open Fx Consts OutSimd

/-- `y` is `z + a tanh((x - z) / a)`, computed to less than two units and `a / 2^21`, and between `z - a` and
`z + a`. -/
def Near (z a x y : Int) : Prop :=
  z - a ≤ y ∧ y ≤ z + a ∧
  -(2 + (a : ℝ) / 2 ^ 21) ≤ (y : ℝ) - (z + a * Real.tanh (((x : ℝ) - z) / a)) ∧
  (y : ℝ) - (z + a * Real.tanh (((x : ℝ) - z) / a)) ≤ 1 + (a : ℝ) / 2 ^ 21

/-- The documented parameters: a positive amplitude, and cutoffs that are int32 numbers. -/
structure Good (zero amplitude : BitVec 32) : Prop where
  pos : 0 < amplitude.toInt
  lo : -2 ^ 31 ≤ zero.toInt - 8 * amplitude.toInt
  hi : zero.toInt + 8 * amplitude.toInt < 2 ^ 31

theorem Good.init {zero amp : BitVec 32} (h : Good zero amp) : ∃ (R : Int) (e k : Nat),
    tanhInit zero amp = .ok (params zero.toInt amp.toInt R e k) ∧ Consts amp.toInt R e k := by
  obtain ⟨e, k, R, e1, k1, k2, k3, a1, a2, r1, r2, r3⟩ := tanhInit_ok (z := zero) (A := amp) (by have := h.pos; omega)
  refine ⟨R, e, k, ?_, ⟨by have := h.pos; omega, ?_, k1, k2, a1, a2, r1, by norm_num at r2 ⊢; exact r2, by norm_num at r3 ⊢; exact r3⟩⟩
  · rw [e1]
    unfold params
    rw [BitVec.ofInt_toInt, BitVec.ofInt_toInt]
  · have h1 := h.lo
    have h2 := h.hi
    norm_num at h1 h2
    omega

theorem Good.bounds {zero amp : BitVec 32} (h : Good zero amp) :
    -2147483648 ≤ zero.toInt - 8 * amp.toInt ∧ zero.toInt + 8 * amp.toInt < 2147483648 := by
  have h1 := h.lo
  have h2 := h.hi
  norm_num at h1 h2
  omega

theorem out_near {a R z : Int} {e k : Nat} (h : Consts a R e k) (hz1 : -2147483648 ≤ z - 8 * a) (hz2 : z + 8 * a < 2147483648)
    (x : Int) : Near z a x (BitVec.ofInt 32 (out z a R e k x (x - z))).toInt := by
  have b := out_bounds (z := z) h x (x - z)
  have := h.pos
  rw [toI (in32 (by omega))]
  have c := out_acc (z := z) h x
  push_cast at c
  exact ⟨b.1, b.2, c.1, c.2⟩

/-- **C69.**  On scalars, in arithmetic modulo 2^32: whatever the block and its contents, the stage that the
constructor sets up computes the hyperbolic tangent, scaled by the amplitude and shifted by the zero point. -/
theorem C69_scalar_blocks (zero amp : BitVec 32) (h : Good zero amp) : ∃ p, tanhInit zero amp = .ok p ∧
    ∀ (rows cols row col : Nat) (f : Nat → Nat → BitVec 32), ∃ g : Nat → Nat → BitVec 32,
      Stage.eval .wrap (.tanh p) (RBlock.of rows cols f) row col = .ok (RBlock.of rows cols g) ∧
      ∀ i j, Near zero.toInt amp.toInt (f i j).toInt (g i j).toInt := by
  obtain ⟨R, e, k, e1, hc⟩ := h.init
  refine ⟨_, e1, fun rows cols row col f =>
    ⟨fun i j => BitVec.ofInt 32 (out zero.toInt amp.toInt R e k (f i j).toInt ((f i j).toInt - zero.toInt)), ?_, ?_⟩⟩
  · refine RBlock.mapM'_of fun i j _ _ => ?_
    have := tanhReg_wrap hc h.bounds.1 h.bounds.2 (raw_cases (f i j)).1
    rwa [← (raw_cases (f i j)).2] at this
  · exact fun i j => out_near hc h.bounds.1 h.bounds.2 _

theorem tanhReg_defined {zero amp : BitVec 32} {R : Int} {e k : Nat} {m : OvMode} (hc : Consts amp.toInt R e k)
    (hb : -2147483648 ≤ zero.toInt - 8 * amp.toInt ∧ zero.toInt + 8 * amp.toInt < 2147483648) {x : BitVec 32}
    (h1 : zero.toInt - 8 * amp.toInt + 3 ≤ x.toInt) (h2 : x.toInt - zero.toInt < 2 ^ 31) :
    tanhReg m (params zero.toInt amp.toInt R e k) x =
      .ok (BitVec.ofInt 32 (out zero.toInt amp.toInt R e k x.toInt (x.toInt - zero.toInt))) := by
  have hp := hc.pos
  have hl := hc.lt
  norm_num at h2
  have ci : In32 (x.toInt - zero.toInt) := in32 (by omega)
  have := tanhReg_eval (m := m) hc hb.1 hb.2 (raw_cases x).1 ci (sub_I (raw_cases x).1 (raw_cases zero).1 ci)
    (Or.inr (hc.arg_ne_min (by omega)))
  rwa [← (raw_cases x).2] at this

/-- **C69**, in C++ arithmetic: no signed overflow, and the same result, on every input that is at least three
above the lower cutoff and not too far from the zero point.  Below that it may be undefined, see
`C69_undefined`. -/
theorem C69_scalar_defined_partial (zero amp : BitVec 32) (h : Good zero amp) : ∃ p, tanhInit zero amp = .ok p ∧
    ∀ (x : BitVec 32), zero.toInt - 8 * amp.toInt + 3 ≤ x.toInt → x.toInt - zero.toInt < 2 ^ 31 →
      ∃ y : BitVec 32, tanhReg .trap p x = .ok y ∧ tanhReg .wrap p x = .ok y ∧ Near zero.toInt amp.toInt x.toInt y.toInt := by
  obtain ⟨R, e, k, e1, hc⟩ := h.init
  have hb := h.bounds
  refine ⟨_, e1, fun x h1 h2 =>
    ⟨BitVec.ofInt 32 (out zero.toInt amp.toInt R e k x.toInt (x.toInt - zero.toInt)), ?_, ?_, out_near hc hb.1 hb.2 _⟩⟩
  · exact tanhReg_defined hc hb h1 h2
  · have := tanhReg_wrap hc hb.1 hb.2 (raw_cases x).1
    rwa [← (raw_cases x).2] at this

/-- **C69** fails in C++ arithmetic, finding F43: at and below the lower cutoff, where the result would be the
constant `zero - amp`, `tanh` is evaluated all the same, on the least int32, and negates it. -/
theorem C69_undefined (zero amp : BitVec 32) (h : Good zero amp) (ha : amp.toInt < 2 ^ 27) :
    ∃ p, tanhInit zero amp = .ok p ∧
    ∀ (x : BitVec 32), x.toInt ≤ zero.toInt - 8 * amp.toInt → -2 ^ 31 ≤ x.toInt - zero.toInt →
      tanhReg .trap p x = .error .overflow := by
  obtain ⟨R, e, k, e1, hc⟩ := h.init
  have hb := h.bounds
  refine ⟨_, e1, fun x h1 h2 => ?_⟩
  have hp := hc.pos
  norm_num at h2 ha
  have ci : In32 (x.toInt - zero.toInt) := in32 (by omega)
  have := tanhReg_undefined hc hb.1 hb.2 (raw_cases x).1 ci (hc.arg_min ha (by omega))
  rwa [← (raw_cases x).2] at this

theorem vec_only {R C : Nat} (h4 : 4 ≤ R * C) (fs fs' : BitVec 32 → M (BitVec 32)) (fv : Reg 4 32 → M (Reg 4 32))
    (f : Nat → Nat → BitVec 32) : (lanes R C f).mapM' (onReg fs fv) = (lanes R C f).mapM' (onReg fs' fv) := by
  unfold RBlock.mapM' lanes
  simp only [if_pos h4]
  rw [List.mapM_map, List.mapM_map]
  rfl

/-- **C69** in the vector registers of every build that has them, for all inputs but the two just below the upper
cutoff: the same accuracy, and no undefined behaviour in blocks of four entries and more. -/
theorem C69_vector_partial (A : VArch) (zero amp : BitVec 32) (h : Good zero amp) : ∃ p, tanhInit zero amp = .ok p ∧
    ∀ (m : OvMode) (rows cols row col : Nat) (f : Nat → Nat → BitVec 32), m = .wrap ∨ 4 ≤ rows * cols →
      (∀ i j, i < rows → j < cols → (f i j).toInt ≠ zero.toInt + 8 * amp.toInt - 1 ∧
        (f i j).toInt ≠ zero.toInt + 8 * amp.toInt - 2) →
      ∃ g : Nat → Nat → BitVec 32,
        stageEval A.wrap m (.tanh p) (lanes rows cols f) row col = .ok (lanes rows cols g) ∧
        ∀ i j, Near zero.toInt amp.toInt (f i j).toInt (g i j).toInt := by
  obtain ⟨R, e, k, e1, hc⟩ := h.init
  have hb := h.bounds
  refine ⟨_, e1, fun m rows cols row col f hm hf =>
    ⟨fun i j => BitVec.ofInt 32 (out zero.toInt amp.toInt R e k (f i j).toInt ((f i j).toInt - zero.toInt)), ?_,
      fun i j => out_near hc hb.1 hb.2 _⟩⟩
  have key : (lanes rows cols f).mapM' (onReg (tanhReg .wrap (params zero.toInt amp.toInt R e k))
      (tanhVec A.wrap m (params zero.toInt amp.toInt R e k))) =
      .ok (lanes rows cols fun i j =>
        BitVec.ofInt 32 (out zero.toInt amp.toInt R e k (f i j).toInt ((f i j).toInt - zero.toInt))) := by
    refine map_lanes (S := fun x y => (x.toInt ≤ zero.toInt + 8 * amp.toInt - 3 ∨ zero.toInt + 8 * amp.toInt ≤ x.toInt) ∧
      y = BitVec.ofInt 32 (out zero.toInt amp.toInt R e k x.toInt (x.toInt - zero.toInt))) ⟨?_, ?_⟩ ?_
    · rintro x y ⟨-, rfl⟩
      have := tanhReg_wrap hc hb.1 hb.2 (raw_cases x).1
      rwa [← (raw_cases x).2] at this
    · intro X Y hXY
      exact tanhVec_eval A hc hb.1 hb.2 (fun i => (hXY i).1) (fun i => (hXY i).2)
    · intro i j hi hj
      have := hf i j hi hj
      exact ⟨by omega, rfl⟩
  rcases hm with rfl | h4
  · exact key
  · rw [← key]
    exact vec_only h4 _ _ _ _

/-! ## The parameters for which the constructor does not end or the result is trivial -/

theorem rn64_neg {q : Rat} (h : q < 0) : rn64 q < 0 := by
  unfold rn64
  rw [if_neg h.ne, if_pos h]
  have := rnPos_pos (q := -q) (by linarith)
  linarith

/-- However often the loop has run. -/
theorem grow_negative (n : Nat) : ∀ (x : Rat) (e : Int), x < 0 → grow n x e = .error .diverge := by
  induction n with
  | zero => intro x e _; rfl
  | succ n ih =>
    intro x e h
    unfold grow
    rw [if_pos (by linarith)]
    exact ih _ _ (rn64_neg (by linarith))

/-- **C69** fails for a negative amplitude, finding F43: the loop of the constructor does not end. -/
theorem C69_negative_amplitude (zero amp : BitVec 32) (h : amp.toInt < 0) : tanhInit zero amp = .error .diverge := by
  unfold tanhInit
  rw [if_neg (by omega), grow_negative 64 _ _ (rn64_neg (by
    have : (amp.toInt : Rat) < 0 := by exact_mod_cast h
    exact div_neg_of_pos_of_neg one_pos this))]
  rfl

/-- With amplitude 0 the constructor ends, and the result is the zero point. -/
theorem C69_zero_amplitude (zero : BitVec 32) : ∃ p, tanhInit zero 0 = .ok p ∧ ∀ x, tanhReg .wrap p x = .ok zero := by
  have e1 : tanhInit zero 0 = .ok ⟨zero, 0, 0x7fffffff#32, 0, 0, 0⟩ := by
    have h1 : shrink 64 (((0 : BitVec 32).toInt : Int) : Rat) 0 = .ok (0, 0) := by decide +kernel
    have h2 : fromDouble 32 0 0 = 0 := by decide +kernel
    unfold tanhInit
    rw [if_pos (by decide), h1, pure_ok, ok_bind]
    show (Except.ok _ : M TanhParams) = _
    rw [h2]
  refine ⟨_, e1, fun x => ?_⟩
  have zi := raw_cases zero
  have hs : ∀ a b : BitVec 32, ∃ c, Fx.sub .wrap a b = .ok c := fun a b => ⟨_, rfl⟩
  have ha : Fx.add .wrap zero 0 = .ok zero := by
    rw [zi.2]; exact (add_I (b := 0) zi.1 (in32 (by omega)) (by simpa using zi.1)).trans (by rw [Int.add_zero])
  have hb : Fx.sub .wrap zero 0 = .ok zero := by
    rw [zi.2]; exact (sub_I (b := 0) zi.1 (in32 (by omega)) (by simpa using zi.1)).trans (by rw [Int.sub_zero])
  obtain ⟨c, hc⟩ := hs x zero
  have hl : ∃ f, Fx.shiftLeft (Fx.srdhm c 0x7fffffff#32) (28 - 0) = .ok f := ⟨_, rfl⟩
  obtain ⟨f, hf⟩ := hl
  obtain ⟨t, ht, -⟩ := C38_tanh_partial .wrap 3 (by omega) f (Or.inl rfl)
  have hr : ∃ o, Fx.shiftRight (Fx.srdhm t (0 : BitVec 32)) (31 - 0) = .ok o := ⟨_, rfl⟩
  obtain ⟨o, ho⟩ := hr
  have hd : ∃ y, Fx.add .wrap zero o = .ok y := ⟨_, rfl⟩
  obtain ⟨y, hy⟩ := hd
  unfold tanhReg
  dsimp only
  rw [show Fx.mul .wrap (8 : BitVec 32) 0 = .ok 0 from rfl, ok_bind, hb, ok_bind, ha, ok_bind, ok_bind, ok_bind, hc, ok_bind,
    hf, ok_bind, show Fx.tanh .wrap 3 f = _ from ht, ok_bind, ho, ok_bind, hy, ok_bind, pure_ok]
  rw [(C33_masks (by decide) _ _).2.2.2.2.2.2.2, (C33_masks (by decide) _ _).2.2.2.2.2.1, select_I, select_I]
  split
  · rfl
  · rw [if_pos (by omega)]

/-! ## Concrete cases -/

deriving instance DecidableEq, Inhabited for TanhParams

/-- The parameters that C60 uses are what the constructor computes. -/
theorem C69_powers_of_two (k : Nat) (h1 : 1 ≤ k) (h2 : k ≤ 30) :
    tanhInit 0 (BitVec.ofNat 32 (2 ^ k)) = .ok (powTanh k) := by
  have key : ∀ k : Fin 30, tanhInit 0 (BitVec.ofNat 32 (2 ^ (k.val + 1))) = .ok (powTanh (k.val + 1)) := by
    decide +kernel
  have := key ⟨k - 1, by omega⟩
  rwa [show k - 1 + 1 = k by omega] at this

/-- Amplitude 131069, zero point 1000. -/
def oddTanh : TanhParams := okVal (tanhInit 1000 131069)

theorem oddTanh_eq : tanhInit 1000 131069 = .ok oddTanh := by decide +kernel

/-- **C69** fails in C++ arithmetic, finding F43, also just above the lower cutoff. -/
theorem C69_undefined_inside : tanhReg .trap oddTanh (BitVec.ofInt 32 (1000 - 8 * 131069 + 1)) = .error .overflow := by
  decide +kernel

/-- Amplitude 131027, zero point 1000. -/
def oddTanh' : TanhParams := ⟨1000, 131027, 1074110591#32, 16, 2146746368#32, 17⟩

theorem oddTanh'_eq : tanhInit 1000 131027 = .ok oddTanh' := by decide +kernel

/-- **C69** fails in vector registers on the largest input below the upper cutoff, finding F33, for this amplitude
too: instead of about `1000 + 131027` the result is about `1000 - 131027`. -/
theorem C69_vector_fails (A : VArch) : ∃ y : BitVec 32,
    stageEval A.wrap .trap (.tanh oddTanh') (lanes 4 1 fun _ _ => BitVec.ofInt 32 (1000 + 8 * 131027 - 1)) 0 0 =
      .ok (lanes 4 1 fun _ _ => y) ∧ y.toInt < -130000 := by
  have := tanhVec_lane A (m := .trap) (p := oddTanh') (X := BitVec.ofInt 32 (1000 + 8 * 131027 - 1)) (a8 := 1048216)
    (cm := BitVec.ofInt 32 (-1047216)) (cM := 1049216) (om := BitVec.ofInt 32 (-130027)) (oM := 132027)
    (t := tanhMin) (o := (Fx.srdhm tanhMin oddTanh'.amplitudeNormalized).sshiftRight 14) (by decide) (by decide) (by decide) (by decide)
    (by decide) (fun _ hh => absurd hh.2 (by decide)) (by decide)
    (by
      rw [show Fx.srdhm (BitVec.ofInt 32 (1000 + 8 * 131027 - 1) - oddTanh'.zero) oddTanh'.inverseAmplitude <<<
        (28 - oddTanh'.inverseNegExponent).toNat = 0x80000000#32 by decide +kernel]
      exact tanhMin_eq) (by decide +kernel) (by decide) (by decide)
  refine ⟨oddTanh'.zero + (Fx.srdhm tanhMin oddTanh'.amplitudeNormalized).sshiftRight 14, ?_, by decide +kernel⟩
  show (do
    let x ← [IReg.v fun _ => BitVec.ofInt 32 (1000 + 8 * 131027 - 1)].mapM
      (onReg (tanhReg .trap oddTanh') (tanhVec A.wrap .trap oddTanh'))
    pure ({ rows := 4, cols := 1, reg := x } : RBlock IReg) : M _) = _
  simp only [List.mapM_cons, List.mapM_nil, onReg]
  rw [this]
  rfl

/-- The documented parameters. -/
example : Good 1000 131027 ∧ Good (BitVec.ofInt 32 (-5)) 1 ∧ Good 0 (BitVec.ofInt 32 (2 ^ 28 - 1)) :=
  ⟨⟨by decide, by decide, by decide⟩, ⟨by decide, by decide, by decide⟩, ⟨by decide, by decide, by decide⟩⟩

/-- `1000 + 131027 tanh(1)` is 100789.5. -/
example : tanhReg .trap oddTanh' (1000 + 131027) = .ok 100789 := by decide +kernel

/-! ## The error that test/test.cc:1396-1419 allows -/

/-- **C69.**  Relative to an amplitude of at least 11000, the error is below the 0.0002 of test.cc. -/
theorem C69_test_tolerance {z a x y : Int} (ha : 11000 ≤ a) (h : Near z a x y) :
    |Real.tanh (((x : ℝ) - z) / a) - ((y : ℝ) - z) / a| < 2 / 10000 := by
  obtain ⟨-, -, h3, h4⟩ := h
  have hA : (11000 : ℝ) ≤ a := by exact_mod_cast ha
  have hA0 : (0 : ℝ) < a := by linarith
  generalize Real.tanh (((x : ℝ) - z) / a) = τ at *
  have e : τ - ((y : ℝ) - z) / a = (z + a * τ - y) / a := by field_simp; ring
  rw [e, abs_div, abs_of_pos hA0, div_lt_iff₀ hA0, abs_lt]
  norm_num at h3 h4
  constructor <;> linarith

end Gemmlowp.TanhStage

namespace Gemmlowp
open TanhStage

section
variable {e : Env} {ty : InputScalar} {c : Call} {L R : Nat → Nat → UInt8} {LO RO : Nat → BitVec 32}

/-- **C69** for a multiplication with the tanh stage as its only output stage: every entry of the result is the
scaled hyperbolic tangent of the accumulator.  In C++ arithmetic the accumulators have to stay away from the lower
cutoff, in vector builds from the two numbers below the upper cutoff. -/
theorem C69_gemm_partial (zero amp : BitVec 32) (h : Good zero amp) (p : TanhParams) (hp : tanhInit zero amp = .ok p)
    (hpipe : c.pipe = ⟨[.tanh p], .none⟩)
    (describes : c.Describes L R LO RO) (inRange : c.InRange ty e.mode LO RO) (env : e.Ok ty c L R)
    (depth : 0 < c.lhs.cols) (stride : c.result.StrideOk)
    (hm : e.mode = .wrap ∨ ∀ r j, r < c.result.rows → j < c.result.cols →
      zero.toInt - 8 * amp.toInt + 3 ≤ (c.acc ty L R LO RO r j).toInt ∧
      (c.acc ty L R LO RO r j).toInt - zero.toInt < 2 ^ 31)
    (hv : e.out = .scalar ∨ ∀ r j, r < c.result.rows → j < c.result.cols →
      (c.acc ty L R LO RO r j).toInt ≠ zero.toInt + 8 * amp.toInt - 1 ∧
      (c.acc ty L R LO RO r j).toInt ≠ zero.toInt + 8 * amp.toInt - 2) :
    ∃ pl, gemmWithOutputPipelinePC e c = .ok pl ∧ (∃ t, Outcome pl t) ∧
      ∀ t, Outcome pl t → ∀ mem r j, r < c.result.rows → j < c.result.cols →
        Near zero.toInt amp.toInt (c.acc ty L R LO RO r j).toInt (applyStores mem t (c.result.addr r j)) := by
  obtain ⟨R', e', k, e1, hc⟩ := h.init
  have hb := h.bounds
  obtain rfl : p = _ := Except.ok.inj (hp.symm.trans e1)
  have hreg : ∀ r j, r < c.result.rows → j < c.result.cols →
      tanhReg e.mode (params zero.toInt amp.toInt R' e' k) (c.acc ty L R LO RO r j) =
        .ok (BitVec.ofInt 32 (out zero.toInt amp.toInt R' e' k (c.acc ty L R LO RO r j).toInt
          ((c.acc ty L R LO RO r j).toInt - zero.toInt))) := by
    intro r j hr hj
    rcases hm with hm | hm
    · rw [hm]
      have := tanhReg_wrap hc hb.1 hb.2 (Fx.raw_cases (c.acc ty L R LO RO r j)).1
      rwa [← (Fx.raw_cases (c.acc ty L R LO RO r j)).2] at this
    · exact tanhReg_defined hc hb (hm r j hr hj).1 (hm r j hr hj).2
  have W : WellFormed e ty c L R LO RO (fun r j =>
      (BitVec.ofInt 32 (out zero.toInt amp.toInt R' e' k (c.acc ty L R LO RO r j).toInt
          ((c.acc ty L R LO RO r j).toInt - zero.toInt))).toInt) := by
    refine ⟨describes, inRange, env, depth, stride, ?_, ?_⟩
    · intro r j hr hj
      rw [hpipe]
      unfold Pipeline.scalar
      dsimp only [scalarStages]
      rw [show (Stage.tanh (params zero.toInt amp.toInt R' e' k)).scalar e.mode r j (c.acc ty L R LO RO r j) = _ from
        hreg r j hr hj]
      rfl
    · rw [hpipe]
      rcases hv with hv | hv
      · rw [hv]
        exact ⟨trivial, fun _ _ _ _ => trivial⟩
      · cases e.out with
        | scalar => exact ⟨trivial, fun _ _ _ _ => trivial⟩
        | vec A =>
          refine ⟨⟨fun s hs => ?_, trivial⟩, fun r j hr hj => ⟨?_, fun _ _ => trivial⟩⟩
          · rw [List.mem_singleton.1 hs]; trivial
          · have := hv r j hr hj
            exact tanh_safe A hc hb.1 hb.2 (by omega) r j
  obtain ⟨pl, a1, a2, a3⟩ := C01_gemm_with_output_pipeline W
  refine ⟨pl, a1, a2, fun t ht mem r j hr hj => ?_⟩
  rw [a3 t ht mem r j hr hj]
  exact out_near hc hb.1 hb.2 _
end

/-- A call that meets the hypotheses, in C++ arithmetic, in every build. -/
example (o : OutBuild) : ∃ pl, gemmWithOutputPipelinePC { sampleEnv with out := o }
    { sampleCall with pipe := ⟨[.tanh (OutSimd.powTanh 16)], .none⟩ } = .ok pl := by
  have h := sample_wellFormed.1
  obtain ⟨pl, h1, -⟩ := C69_gemm_partial (e := { sampleEnv with out := o }) (ty := .uint8)
    (c := { sampleCall with pipe := ⟨[.tanh (OutSimd.powTanh 16)], .none⟩ }) (L := sampleL) (R := sampleR) (LO := fun _ => -7)
    (RO := sampleRO) 0 65536 ⟨by decide, by decide, by decide⟩ (OutSimd.powTanh 16)
    (C69_powers_of_two 16 (by decide) (by decide)) rfl
    ⟨h.describes.lhs, h.describes.rhs, h.describes.rows, h.describes.cols, h.describes.depth, h.describes.lhsOffset, h.describes.rhsOffset⟩
    h.inRange ⟨h.env.wf, ⟨_, referenceKernel_meets sampleFormat_wf, Call.within_true _ _ _ _ _⟩, h.env.inputLhs, h.env.inputRhs, h.env.packLhs, h.env.packRhs, h.env.regDvd, h.env.threads,
      h.env.fits1, h.env.fits2⟩ h.depth h.stride (Or.inr (forall_lt_lt (by decide))) (Or.inr (forall_lt_lt (by decide)))
  exact ⟨pl, h1⟩

end Gemmlowp
