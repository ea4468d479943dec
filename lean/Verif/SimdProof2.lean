import Verif.SimdProof
/-!
# The vector primitives of each instruction set agree with the scalar ones
-/
namespace Gemmlowp.Simd

open Isa Fx Spec

variable {n w : Nat}

/-! ## Generic templates -/

theorem two_pow_le {E : Nat} (h : E < w) : (2 : Int) ^ (w - 1 - E) * 2 ^ E = 2 ^ (w - 1) := by
  rw [← Int.pow_add]; congr 1; omega

/-- fixedpoint.h `RoundingDivideByPOT` instantiated for a vector type. -/
theorem gen_rdpot {O : RawOps w (Reg n w)} (hw : 1 < w) (h : LanesSimple O) (a : Reg n w) (e : Nat)
    (he : e < w) (he' : e ≤ 31) :
    ∃ r, Gen.rdpot O a e = .ok r ∧ ∀ i, Fx.rdpot .wrap (a i) e = .ok (r i) := by
  have a1 : assertM (decide ((e : Int) ≥ 0)) = .ok () := by rw [decide_eq_true (by omega)]; rfl
  have a2 : assertM (decide ((e : Int) ≤ 31)) = .ok () := by rw [decide_eq_true (by omega)]; rfl
  refine ⟨_, by unfold Gen.rdpot; rw [a1, ok_bind, a2, ok_bind]; rfl, fun i => ?_⟩
  unfold Fx.rdpot
  rw [a1, ok_bind, a2, ok_bind]
  dsimp only
  have e1 := h.shiftRight (O.dup (BitVec.ofInt w (2 ^ (e : Int).toNat - 1))) 1 i (by omega) (by omega)
  rw [h.dup] at e1
  have e1' : Fx.shiftRight (dup w (2 ^ (e : Int).toNat - 1)) 1 =
    .ok (O.shiftRight (O.dup (BitVec.ofInt w (2 ^ (e : Int).toNat - 1))) 1 i) := e1
  rw [e1', ok_bind]
  have l1 : bitAnd (maskIfLessThan (a i) (dup w 0)) (dup w 1) =
      O.bitAnd (O.maskIfLessThan a (O.dup 0)) (O.dup 1) i := by
    rw [h.bitAnd, h.maskIfLessThan, h.dup, h.dup]
    unfold Fx.dup
    congr 2
  rw [l1, h.add, ok_bind, h.shiftRight a e i he he', ok_bind]
  have l2 : bitAnd (a i) (dup w (2 ^ (e : Int).toNat - 1)) =
      O.bitAnd a (O.dup (BitVec.ofInt w (2 ^ (e : Int).toNat - 1))) i := by
    rw [h.bitAnd, h.dup]; rfl
  have l3 : (dup w 1 : BitVec w) = O.dup 1 i := by
    rw [h.dup]; exact (ofInt_eq_ofNat (k := 1))
  rw [l2, l3, ← h.maskIfGreaterThan, ← h.bitAnd, h.add]

theorem isMask_gt (hw : 0 < w) (a b : BitVec w) : IsMask (Fx.maskIfGreaterThan a b) := by
  unfold Fx.maskIfGreaterThan; rw [maskOf_mask hw]; exact maskOf_isMask _
theorem isMask_lt (hw : 0 < w) (a b : BitVec w) : IsMask (Fx.maskIfLessThan a b) := by
  unfold Fx.maskIfLessThan; rw [maskOf_mask hw]; exact maskOf_isMask _

theorem inW_small {t : Int} (h0 : 0 ≤ t) (h1 : t < 2 ^ (w - 1)) : InW w t ∧ InW w (-t) := by
  unfold InW; omega

/-- fixedpoint.h `SaturatingRoundingMultiplyByPOT` instantiated for a vector type. -/
theorem gen_srmbp {O : RawOps w (Reg n w)} (hw : 1 < w) (h : LanesSimple O) (a : Reg n w) (e : Int)
    (h1 : -w < e) (h2 : e < w) (h3 : -31 ≤ e) (h4 : e ≤ 30) :
    ∃ r, Gen.srmbp O e a = .ok r ∧ ∀ i, Fx.srmbp .wrap e (a i) = .ok (r i) := by
  unfold Gen.srmbp Fx.srmbp
  by_cases h0 : e = 0
  · simp only [if_pos h0]; exact ⟨_, rfl, fun _ => rfl⟩
  simp only [if_neg h0]
  by_cases hp : 0 < e
  · simp only [if_pos hp]
    obtain ⟨E, rfl⟩ : ∃ E : Nat, e = E := ⟨e.toNat, by omega⟩
    rw [if_neg (by omega)]
    refine ⟨_, rfl, fun i => ?_⟩
    have hk : ((w : Int) - 1 - E).toNat = w - 1 - E := by omega
    rw [if_neg (by omega), hk]
    have hE : E < w := by omega
    have hpos := two_pow_pos' (w - 1 - E)
    have hmul := two_pow_le (w := w) hE
    have hE1 := two_pow_pos' E
    have hle := pow_le_pow' (show w - 1 - E ≤ w - 1 by omega)
    obtain ⟨ht1, ht2⟩ := inW_small (w := w) (t := 2 ^ (w - 1 - E) - 1) (by omega) (by omega)
    -- the three cases
    have gpos : O.maskIfGreaterThan a (O.dup (BitVec.ofInt w (2 ^ (w - 1 - E) - 1))) i =
        Fx.maskIfGreaterThan (a i) (dup w (2 ^ (w - 1 - E) - 1)) := by
      rw [h.maskIfGreaterThan, h.dup]; rfl
    have gneg : O.maskIfLessThan a (O.dup (BitVec.ofInt w (-(2 ^ (w - 1 - E) - 1)))) i =
        Fx.maskIfLessThan (a i) (dup w (-(2 ^ (w - 1 - E) - 1))) := by
      rw [h.maskIfLessThan, h.dup]; rfl
    obtain ⟨s, hs⟩ : ∃ s, Fx.shiftLeft (a i) (E : Int) = .ok s := by
      unfold Fx.shiftLeft; rw [if_neg (by omega)]; exact ⟨_, rfl⟩
    rw [hs, ok_bind]
    rw [h.selectUsingMask _ _ _ _ (by rw [gneg]; exact isMask_lt (by omega) _ _),
      h.selectUsingMask _ _ _ _ (by rw [gpos]; exact isMask_gt (by omega) _ _), gneg, gpos, h.dup, h.dup]
    by_cases hin : InW w ((a i).toInt * 2 ^ E)
    · have := h.shiftLeft a E i hE (by omega) hin
      rw [hs] at this
      injection this with this
      rw [this]; rfl
    · -- the shifted value is not selected
      rw [maskGT_eq (by omega), maskLT_eq (by omega), dup_toInt (by omega) ht1, dup_toInt (by omega) ht2]
      have hout : 2 ^ (w - 1 - E) - 1 < (a i).toInt ∨ (a i).toInt < -(2 ^ (w - 1 - E) - 1) := by
        by_contra hc
        apply hin
        have b1 : (a i).toInt * 2 ^ E ≤ (2 ^ (w - 1 - E) - 1) * 2 ^ E :=
          Int.mul_le_mul_of_nonneg_right (by omega) (by omega)
        have b2 : (-(2 ^ (w - 1 - E) - 1)) * 2 ^ E ≤ (a i).toInt * 2 ^ E :=
          Int.mul_le_mul_of_nonneg_right (by omega) (by omega)
        rw [Int.neg_mul, Int.sub_mul] at b2
        rw [Int.sub_mul] at b1
        unfold InW; omega
      rcases hout with hc | hc
      · rw [if_pos hc, if_neg (by omega), select_allOnes, select_zero]
        rw [select_zero, select_allOnes]; rfl
      · rw [if_pos hc, select_allOnes, select_allOnes]
        rfl
  · simp only [if_neg hp]
    obtain ⟨E, hE⟩ : ∃ E : Nat, -e = E := ⟨(-e).toNat, by omega⟩
    rw [hE]
    exact gen_rdpot hw h a E (by omega) (by omega)

/-- A dictionary completed with the generic templates. -/
theorem gen_complete {O : RawOps w (Reg n w)} (hw : 1 < w) (h : LanesSimple O) :
    Lanes (Gen.complete O) :=
  { dup := h.dup, bitAnd := h.bitAnd, bitOr := h.bitOr, bitXor := h.bitXor, bitNot := h.bitNot
    add := h.add, mul := h.mul, sub := h.sub, neg := h.neg, shiftLeft := h.shiftLeft
    shiftRight := h.shiftRight, selectUsingMask := h.selectUsingMask, maskIfEqual := h.maskIfEqual
    maskIfNotEqual := h.maskIfNotEqual, maskIfZero := h.maskIfZero, maskIfNonZero := h.maskIfNonZero
    maskIfGreaterThan := h.maskIfGreaterThan
    maskIfGreaterThanOrEqual := h.maskIfGreaterThanOrEqual
    maskIfLessThan := h.maskIfLessThan, maskIfLessThanOrEqual := h.maskIfLessThanOrEqual
    roundingHalfSum := h.roundingHalfSum, srdhm := h.srdhm, saturatingAdd := h.saturatingAdd
    rdpot := gen_rdpot hw h
    srmbp := gen_srmbp hw h }

/-! ## SSE and AVX -/

theorem sse_bitNot (a : Reg n w) (i : Fin n) : Sse.bitNot a i = ~~~(a i) := by
  show ~~~(a i) &&& (-1) = _
  rw [neg_one_allOnes]; simp

theorem sse_neg (hw : 0 < w) (a : Reg n w) (i : Fin n) : Sse.neg a i = -(a i) := by
  show (if (-1 : BitVec w).slt 0 then -(a i) else _) = _
  rw [if_pos (neg_one_slt hw)]

theorem slli_lane (a : Reg n w) (k : Nat) (i : Fin n) (h : k < w) : slli a k i = a i <<< k := by
  show (if 0 ≤ (k : Int) ∧ (k : Int) < w then a i <<< (k : Int).toNat else 0) = _
  rw [if_pos (by omega), Int.toNat_natCast]

theorem srai_lane (a : Reg n w) (k : Nat) (i : Fin n) (h : k < w) : srai a k i = (a i).sshiftRight k := by
  show (if 0 ≤ (k : Int) ∧ (k : Int) < w then (a i).sshiftRight (k : Int).toNat else _) = _
  rw [if_pos (by omega), Int.toNat_natCast]

theorem beq_zero_mask (hw : 0 < w) (x : BitVec w) : maskOf (x == 0) = Fx.maskIfZero x := by
  unfold Fx.maskIfZero; rw [maskOf_mask hw]

/-- The clauses of `LanesSimple` which do not depend on `RoundingHalfSum` and
`SaturatingRoundingDoublingHighMul`. -/
theorem sse_common (hw : 1 < w) (rhs srd : Reg n w → Reg n w → Reg n w)
    (h1 : ∀ a b i, 0 ≤ (a i).toInt + (b i).toInt ∨ ((a i).toInt + (b i).toInt) % 2 = 0 →
      rhs a b i = Fx.roundingHalfSum (a i) (b i))
    (h2 : ∀ a b i, ¬ ((a i).toInt = minW w ∧ (b i).toInt = minW w) →
      srd a b i = Fx.srdhm (a i) (b i)) :
    LanesSimple { Sse.common n w with roundingHalfSum := rhs, srdhm := srd } where
  dup _ _ := rfl
  bitAnd _ _ _ := rfl
  bitOr _ _ _ := rfl
  bitXor _ _ _ := rfl
  bitNot a i := sse_bitNot a i
  add a b i := add_lane _ _
  mul a b i := mul_lane _ _
  sub a b i := sub_lane _ _
  neg a i := by rw [neg_lane]; exact congrArg _ (sse_neg (by omega) a i).symm
  shiftLeft a k i hk hk' h := by rw [shl_lane _ hk' h]; exact congrArg _ (slli_lane a k i hk).symm
  shiftRight a k i hk hk' := by rw [shr_lane _ hk']; exact congrArg _ (srai_lane a k i hk).symm
  selectUsingMask m a b i _ := select_or _ _ _
  maskIfEqual a b i := by unfold Fx.maskIfEqual; rw [maskOf_mask (by omega)]; rfl
  maskIfNotEqual a b i := by
    unfold Fx.maskIfNotEqual; rw [maskOf_mask (by omega)]
    show Sse.bitNot (Sse.maskIfEqual a b) i = _
    rw [sse_bitNot]; exact not_maskOf _
  maskIfZero a i := beq_zero_mask (by omega) _
  maskIfNonZero a i := by
    rw [maskNonZero_eq]
    show Sse.bitNot (Sse.maskIfEqual a (splat 0)) i = _
    rw [sse_bitNot]; exact not_maskOf _
  maskIfGreaterThan a b i := by unfold Fx.maskIfGreaterThan; rw [maskOf_mask (by omega)]; rfl
  maskIfGreaterThanOrEqual a b i := by
    unfold Fx.maskIfGreaterThanOrEqual; rw [maskOf_mask (by omega)]
    show Sse.bitNot (Sse.maskIfLessThan a b) i = _
    rw [sse_bitNot]
    show ~~~(maskOf _) = _
    rw [not_maskOf, slt_not]
  maskIfLessThan a b i := by unfold Fx.maskIfLessThan; rw [maskOf_mask (by omega)]; rfl
  maskIfLessThanOrEqual a b i := by
    unfold Fx.maskIfLessThanOrEqual; rw [maskOf_mask (by omega)]
    show Sse.bitNot (Sse.maskIfGreaterThan a b) i = _
    rw [sse_bitNot]
    show ~~~(maskOf _) = _
    rw [not_maskOf, slt_not]
  roundingHalfSum := h1
  srdhm := h2
  saturatingAdd _ _ _ _ := rfl

theorem sse_rhs32 (a b : Reg n 32) (i : Fin n) :
    Sse.roundingHalfSum32 a b i = BitVec.ofInt 32 (((a i).toInt + (b i).toInt + 1) / 2) := by
  rw [← rhs32_trick]; rfl

theorem sse_rhs16 (a b : Reg n 16) (i : Fin n) :
    Sse.roundingHalfSum16 a b i = BitVec.ofInt 16 (((a i).toInt + (b i).toInt + 1) / 2) := by
  rw [← avg16]; rfl

theorem sse_srdhm16 (a b : Reg n 16) (i : Fin n) : Sse.srdhm16 a b i = Fx.srdhm (a i) (b i) := by
  rw [← mulhrs16]; rfl

theorem minW32 : minW 32 = -2147483648 := by decide
theorem minW16 : minW 16 = -32768 := by decide

theorem srd32_lanes (hn : n % 4 = 0) {sel : Reg n 32 → Reg n 32 → Reg n 32 → Reg n 32}
    (hsel : ∀ m a b i, IsMask (m i) → sel m a b i = Fx.selectUsingMask (m i) (a i) (b i))
    (a b : Reg n 32) (i : Fin n) (h : ¬ ((a i).toInt = minW 32 ∧ (b i).toInt = minW 32)) :
    Sse.srdhm32 sel a b i = Fx.srdhm (a i) (b i) := by
  rw [sse_srdhm32 hn hsel, srdhm_scalar (by decide) h]
  rw [minW32] at h
  rw [if_neg h]
  norm_num

theorem sse_ops32 : Lanes Sse.ops32 := by
  apply gen_complete (by decide)
  apply sse_common (by decide)
  · intro a b i h; rw [sse_rhs32, rhs_scalar h]
  · exact srd32_lanes (by decide) (fun m a b i _ => select_or _ _ _)

theorem sse_ops16 : Lanes Sse.ops16 := by
  apply gen_complete (by decide)
  apply sse_common (by decide)
  · intro a b i h; rw [sse_rhs16, rhs_scalar h]
  · intro a b i _; exact sse_srdhm16 a b i

theorem cmpgt_swap (a b : Reg n w) : cmpgt b a = cmplt a b := rfl

theorem avx_select (m a b : Reg n 32) (i : Fin n) (h : IsMask (m i)) :
    Avx.selectUsingMask32 m a b i = Fx.selectUsingMask (m i) (a i) (b i) := by
  show (if (m i).msb then a i else b i) = _
  rcases h with h | h
  · rw [h, select_zero]; rfl
  · rw [h, select_allOnes, allOnes_msb (by decide)]; rfl

theorem avx_lanes (hw : 1 < w) (sel : Reg n w → Reg n w → Reg n w → Reg n w)
    (rhs srd : Reg n w → Reg n w → Reg n w)
    (hsel : ∀ m a b i, IsMask (m i) → sel m a b i = Fx.selectUsingMask (m i) (a i) (b i))
    (h1 : ∀ a b i, 0 ≤ (a i).toInt + (b i).toInt ∨ ((a i).toInt + (b i).toInt) % 2 = 0 →
      rhs a b i = Fx.roundingHalfSum (a i) (b i))
    (h2 : ∀ a b i, ¬ ((a i).toInt = minW w ∧ (b i).toInt = minW w) →
      srd a b i = Fx.srdhm (a i) (b i)) :
    LanesSimple { Avx.common n w with selectUsingMask := sel, roundingHalfSum := rhs, srdhm := srd } :=
  let h := sse_common hw rhs srd h1 h2
  { dup := h.dup, bitAnd := h.bitAnd, bitOr := h.bitOr, bitXor := h.bitXor, bitNot := h.bitNot
    add := h.add, mul := h.mul, sub := h.sub, neg := h.neg, shiftLeft := h.shiftLeft
    shiftRight := h.shiftRight, selectUsingMask := hsel, maskIfEqual := h.maskIfEqual
    maskIfNotEqual := h.maskIfNotEqual, maskIfZero := h.maskIfZero, maskIfNonZero := h.maskIfNonZero
    maskIfGreaterThan := h.maskIfGreaterThan
    maskIfGreaterThanOrEqual := h.maskIfGreaterThanOrEqual
    maskIfLessThan := h.maskIfLessThan, maskIfLessThanOrEqual := h.maskIfLessThanOrEqual
    roundingHalfSum := h1, srdhm := h2, saturatingAdd := h.saturatingAdd }

theorem avx_ops32 : Lanes Avx.ops32 :=
  gen_complete (by decide) (avx_lanes (by decide) Avx.selectUsingMask32
    Sse.roundingHalfSum32 (Sse.srdhm32 Avx.selectUsingMask32) avx_select
    (fun a b i h => by rw [sse_rhs32, rhs_scalar h])
    (srd32_lanes (by decide) avx_select))

theorem avx_ops16 : Lanes Avx.ops16 :=
  gen_complete (by decide) (avx_lanes (by decide) Sse.selectUsingMask
    Sse.roundingHalfSum16 Sse.srdhm16 (fun m a b i _ => select_or _ _ _)
    (fun a b i h => by rw [sse_rhs16, rhs_scalar h])
    (fun a b i _ => sse_srdhm16 a b i))

end Gemmlowp.Simd
