import Verif.FixedProof
/-!
# Properties C29, C30, C31, C33 (scalar), C39: integer primitives of fixedpoint/fixedpoint.h

`w` is the width of the integer type: 32 for `int32_t`, 16 for `int16_t`.
-/
namespace Gemmlowp.Fx

variable {w : Nat}

/-! ## C29 -/

/-- **C29.**  `SaturatingRoundingDoublingHighMul(a, b)` is the integer nearest to
`a * b / 2^(w-1)`, ties upwards; only the square of the least number saturates. -/
theorem C29_srdhm (hw : 1 < w) (a b : BitVec w) :
    (if a.toInt = -2 ^ (w - 1) ∧ b.toInt = -2 ^ (w - 1) then (srdhm a b).toInt = 2 ^ (w - 1) - 1
     else Spec.NearestUp (a.toInt * b.toInt) (2 ^ (w - 1)) (srdhm a b).toInt) := by
  have h := srdhm_spec hw a b
  split <;> rename_i hc
  · exact h.1 hc
  · exact h.2 hc

/-- **C29**, commutativity. -/
theorem C29_srdhm_comm (a b : BitVec w) : srdhm a b = srdhm b a := by
  unfold srdhm
  rw [Int.mul_comm b.toInt]
  by_cases h : a = b
  · subst h; rfl
  · simp [h, Ne.symm h]

/-- **C29**, the intermediate values fit in the type of twice the width that the code uses, and
the quotient that is cast back fits in `w` bits unless saturation replaces it. -/
theorem C29_srdhm_no_overflow (hw : 1 < w) (a b : BitVec w) :
    InW (2 * w) (a.toInt * b.toInt) ∧
    (∀ nudge : Int, -2 ^ (w - 2) ≤ nudge → nudge ≤ 2 ^ (w - 2) →
      InW (2 * w) (a.toInt * b.toInt + nudge)) := by
  have ha := inW_toInt (by omega) a
  have hb := inW_toInt (by omega) b
  unfold InW at ha hb
  have h := mul_bound (N := 2 ^ (w - 1)) (a := a.toInt) (b := b.toInt) (by omega) (by omega)
  rw [← Int.pow_add] at h
  have e : (2 : Int) ^ (2 * w - 1) = 2 * 2 ^ (w - 1 + (w - 1)) := by
    rw [← two_pow_succ']; congr 1; omega
  have h3 := two_pow_pos' (w - 1 + (w - 1))
  have h4 := pow_le_pow' (show w - 2 ≤ w - 1 + (w - 1) - 1 by omega)
  have h5 : (2 : Int) ^ (w - 1 + (w - 1)) = 2 * 2 ^ (w - 1 + (w - 1) - 1) := by
    rw [← two_pow_succ']; congr 1; omega
  have h6 := two_pow_pos' (w - 1 + (w - 1) - 1)
  unfold InW
  rw [e]
  refine ⟨by omega, fun n h1 h2 => by omega⟩

/-- Multiplying by one half rounds to nearest, ties upwards: `(x + 1) / 2`. -/
example : srdhm (w := 32) 7 (BitVec.ofInt 32 (2 ^ 30)) = 4 ∧
    srdhm (w := 32) (-7) (BitVec.ofInt 32 (2 ^ 30)) = -3 ∧
    srdhm (w := 32) (BitVec.ofInt 32 (-2 ^ 31)) (BitVec.ofInt 32 (-2 ^ 31)) =
      BitVec.ofInt 32 (2 ^ 31 - 1) := by decide

/-! ## C30 -/

/-- **C30.**  `RoundingDivideByPOT(x, e)` is `x / 2^e` to nearest, ties away from zero, for every
`e` below the width; no assertion fails and nothing overflows. -/
theorem C30_rdpot (m : OvMode) (hw : 1 < w) (e : Nat) (he : e < w) (he' : e ≤ 31) (x : BitVec w) :
    ∃ q, rdpot m x e = .ok q ∧ Spec.NearestAway x.toInt (2 ^ e) q.toInt := rdpot_ok hw he he' x

/-- **C30**, odd symmetry. -/
theorem C30_rdpot_neg (m : OvMode) (hw : 1 < w) (e : Nat) (he : e < w) (he' : e ≤ 31) (x y : BitVec w)
    (hy : y.toInt = -x.toInt) :
    ∃ q q', rdpot m x e = .ok q ∧ rdpot m y e = .ok q' ∧ q'.toInt = -q.toInt := by
  obtain ⟨q, h1, h2⟩ := rdpot_ok (m := m) hw he he' x
  obtain ⟨q', h1', h2'⟩ := rdpot_ok (m := m) hw he he' y
  refine ⟨q, q', h1, h1', ?_⟩
  by_cases hx : x.toInt = 0
  · rw [hy, hx] at h2'
    rw [hx] at h2
    have e0 : Spec.NearestAway 0 (2 ^ e) 0 := by
      have := Spec.NearestAway.exact (q := 0) (two_pow_pos' e)
      rwa [Int.zero_mul] at this
    have a1 := h2.unique e0
    have a2 := h2'.unique (by simpa using e0)
    omega
  · have := (h2.neg hx)
    rw [← hy] at this
    exact h2'.unique this

/-- The assertion of the code admits exponents up to 31 also for 16-bit integers, where the result
is then wrong: 0 divided by 2^16 gives 1. -/
theorem C30_rdpot_int16_large_exponent_fails :
    rdpot .wrap (0 : BitVec 16) 16 = .ok 1 ∧ ¬ Spec.NearestAway 0 (2 ^ 16) 1 := by
  refine ⟨by decide, ?_⟩
  unfold Spec.NearestAway; rw [if_pos (by omega)]; omega

/-- Both sides of a tie. -/
example : rdpot .trap (6 : BitVec 32) 2 = .ok 2 ∧ rdpot .trap (-6 : BitVec 32) 2 = .ok (-2) ∧
    rdpot .trap (BitVec.ofInt 32 (-2 ^ 31)) 31 = .ok (-1) := by decide

/-! ## C39 -/

/-- **C39** (partial).  For offsets up to 30, `ShiftLeft` is multiplication by `2^offset` clamped
to the type, without undefined behaviour. -/
theorem C39_shiftLeft_partial (hw : 0 < w) (offset : Nat) (ho : offset ≤ 30) (a : BitVec w) :
    ∃ r, shiftLeft a offset = .ok r ∧
      r.toInt = Spec.clampTo (-2 ^ (w - 1)) (2 ^ (w - 1) - 1) (a.toInt * 2 ^ offset) := by
  unfold shiftLeft
  rw [if_neg (by omega)]
  refine ⟨_, rfl, ?_⟩
  have h := two_pow_pos' (w - 1)
  unfold Spec.clampTo minW maxW
  rw [Int.toNat_natCast, toInt_ofIntW hw]
  unfold InW
  split <;> (try split) <;> omega

/-- Offset 31 is less than the width of `int32_t`, but `1 << 31` is evaluated in `int`. -/
theorem C39_shiftLeft_31_fails : ∀ a : BitVec 32, shiftLeft a 31 = .error .badOp := by
  intro a; rfl

/-- What a compiler gives that makes `1 << 31` the least `int`: the sign is wrong as well. -/
theorem C39_shiftLeft_31_wraps_wrong :
    Spec.clampTo (-2 ^ 31) (2 ^ 31 - 1) (1 * (-2 ^ 31)) ≠ Spec.clampTo (-2 ^ 31) (2 ^ 31 - 1) (1 * 2 ^ 31) := by
  decide

example : shiftLeft (3 : BitVec 32) 30 = .ok (BitVec.ofInt 32 (2 ^ 31 - 1)) ∧
    shiftLeft (-3 : BitVec 16) 2 = .ok (-12) := by decide

/-! ## C33, scalar part -/

/-- **C33.**  The masks are all ones exactly when the comparison of the signed values holds. -/
theorem C33_masks (hw : 0 < w) (a b : BitVec w) :
    maskIfNonZero a = (if a.toInt ≠ 0 then BitVec.allOnes w else 0) ∧
    maskIfZero a = (if a.toInt = 0 then BitVec.allOnes w else 0) ∧
    maskIfEqual a b = (if a.toInt = b.toInt then BitVec.allOnes w else 0) ∧
    maskIfNotEqual a b = (if a.toInt ≠ b.toInt then BitVec.allOnes w else 0) ∧
    maskIfGreaterThan a b = (if a.toInt > b.toInt then BitVec.allOnes w else 0) ∧
    maskIfGreaterThanOrEqual a b = (if a.toInt ≥ b.toInt then BitVec.allOnes w else 0) ∧
    maskIfLessThan a b = (if a.toInt < b.toInt then BitVec.allOnes w else 0) ∧
    maskIfLessThanOrEqual a b = (if a.toInt ≤ b.toInt then BitVec.allOnes w else 0) := by
  have h0 : ∀ a : BitVec w, a.toInt = 0 ↔ a = 0 := by
    intro a
    constructor
    · intro h; exact BitVec.eq_of_toInt_eq (by rw [h, toInt_zeroW hw])
    · intro h; rw [h, toInt_zeroW hw]
  have heq : a.toInt = b.toInt ↔ a = b := ⟨BitVec.eq_of_toInt_eq, fun h => by rw [h]⟩
  refine ⟨?_, ?_, ?_, ?_, maskGT_eq hw a b, ?_, maskLT_eq hw a b, ?_⟩
  · unfold maskIfNonZero
    simp only [ne_eq, h0]
    unfold bitNot
    rw [← BitVec.not_zero]; rfl
  · unfold maskIfZero; rw [mask_ofBool hw]; simp only [h0, beq_iff_eq]
  · unfold maskIfEqual; rw [mask_ofBool hw]; simp only [heq, beq_iff_eq]
  · unfold maskIfNotEqual; rw [mask_ofBool hw]; simp only [ne_eq, heq, bne_iff_ne]
  · unfold maskIfGreaterThanOrEqual; rw [mask_ofBool hw]; simp only [BitVec.sle, decide_eq_true_eq]
  · unfold maskIfLessThanOrEqual; rw [mask_ofBool hw]; simp only [BitVec.sle, decide_eq_true_eq]

/-- **C33.**  Selection on a mask returns one of the operands; on any mask it picks bit by bit. -/
theorem C33_select (mask a b : BitVec w) :
    (mask = BitVec.allOnes w → selectUsingMask mask a b = a) ∧
    (mask = 0 → selectUsingMask mask a b = b) ∧
    (∀ i, (selectUsingMask mask a b).getLsbD i = if mask.getLsbD i then a.getLsbD i else b.getLsbD i) := by
  refine ⟨fun h => by rw [h, select_allOnes], fun h => by rw [h, select_zero], fun i => ?_⟩
  unfold selectUsingMask bitXor bitAnd bitNot
  simp only [BitVec.getLsbD_xor, BitVec.getLsbD_and, BitVec.getLsbD_not]
  by_cases h : mask.getLsbD i = true
  · simp [h]
  · simp only [h, Bool.false_and, Bool.not_false, Bool.and_true, Bool.false_xor, Bool.false_eq_true,
      if_false]
    by_cases hi : i < w
    · simp [hi]
    · simp [hi, BitVec.getLsbD_of_ge b i (by omega)]

/-- **C33.**  `All` and `Any` of one scalar. -/
theorem C33_all_any (a : BitVec w) : (all a = true ↔ a ≠ 0) ∧ (any a = true ↔ a ≠ 0) := by
  simp [all, any]

example : selectUsingMask (maskIfLessThan (-1 : BitVec 16) 0) 5 9 = 5 ∧
    selectUsingMask (maskIfGreaterThanOrEqual (-1 : BitVec 16) 0) 5 9 = 9 := by decide

/-! ## C31 -/

theorem shiftRange {w : Nat} (_hw : 1 < w) {E : Nat} (hE : E < w) :
    (2 : Int) ^ (w - 1) = 2 ^ (w - 1 - E) * 2 ^ E := by
  rw [← Int.pow_add]; congr 1; omega

/-- **C31**, positive exponents: multiplication by `2^E` clamped to the type.  `E` up to 30 for
int32, up to 15 for int16. -/
theorem C31_multiplyByPOT_pos (m : OvMode) (hw : 1 < w) (E : Nat) (hE0 : 0 < E) (hE : E < w)
    (hE30 : E ≤ 30) (x : BitVec w) :
    ∃ r, srmbp m E x = .ok r ∧
      r.toInt = Spec.clampTo (-2 ^ (w - 1)) (2 ^ (w - 1) - 1) (x.toInt * 2 ^ E) := by
  have hw0 : 0 < w := by omega
  unfold srmbp
  rw [if_neg (by omega), if_pos (by omega)]
  have hk : (w : Int) - 1 - (E : Int) = ((w - 1 - E : Nat) : Int) := by omega
  dsimp only
  rw [hk, if_neg (by omega), Int.toNat_natCast]
  obtain ⟨r, hr1, hr2⟩ := C39_shiftLeft_partial hw0 E hE30 x
  rw [hr1, ok_bind]
  refine ⟨_, rfl, ?_⟩
  have hpow := shiftRange hw hE
  have hT := two_pow_pos' (w - 1 - E)
  have hP := two_pow_pos' E
  have hN := two_pow_pos' (w - 1)
  have hle := pow_le_pow' (show w - 1 - E ≤ w - 1 by omega)
  rw [maskGT_eq hw0, maskLT_eq hw0, dup_toInt hw0 (by unfold InW; omega),
    dup_toInt hw0 (by unfold InW; omega)]
  have hmax : (dup w (maxW w)).toInt = 2 ^ (w - 1) - 1 := by
    apply dup_toInt hw0; unfold InW maxW; omega
  have hmin : (dup w (minW w)).toInt = -2 ^ (w - 1) := by
    apply dup_toInt hw0; unfold InW minW; omega
  generalize hTT : (2 : Int) ^ (w - 1 - E) = T at *
  generalize hPP : (2 : Int) ^ E = P at *
  rw [hpow] at hmax hmin hr2 ⊢
  unfold Spec.clampTo at hr2 ⊢
  have hTP : 0 < T * P := Int.mul_pos hT hP
  by_cases h1 : x.toInt < -(T - 1)
  · rw [if_pos h1, select_allOnes, hmin]
    have : x.toInt * P ≤ (-T) * P := Int.mul_le_mul_of_nonneg_right (by omega) (by omega)
    rw [Int.neg_mul] at this
    split
    · rfl
    · rw [if_neg (by omega)]; omega
  · rw [if_neg h1, select_zero]
    by_cases h2 : T - 1 < x.toInt
    · rw [if_pos h2, select_allOnes, hmax]
      have : T * P ≤ x.toInt * P := Int.mul_le_mul_of_nonneg_right (by omega) (by omega)
      rw [if_neg (by omega), if_pos (by omega)]
    · rw [if_neg h2, select_zero, hr2]

/-- **C31**, exponent 0. -/
theorem C31_multiplyByPOT_zero (m : OvMode) (x : BitVec w) : srmbp m 0 x = .ok x := rfl

/-- **C31**, negative exponents: division by `2^E`, rounded to nearest. -/
theorem C31_multiplyByPOT_neg (m : OvMode) (hw : 1 < w) (E : Nat) (hE0 : 0 < E) (hE : E < w)
    (hE31 : E ≤ 31) (x : BitVec w) :
    ∃ r, srmbp m (-(E : Int)) x = .ok r ∧ Spec.NearestAway x.toInt (2 ^ E) r.toInt := by
  unfold srmbp
  rw [if_neg (by omega), if_neg (by omega), Int.neg_neg]
  exact rdpot_ok hw hE hE31 x

example : srmbp .trap 3 (BitVec.ofInt 32 (2 ^ 28)) = .ok (BitVec.ofInt 32 (2 ^ 31 - 1)) ∧
    srmbp .trap 3 (BitVec.ofInt 32 (-2 ^ 28)) = .ok (BitVec.ofInt 32 (-2 ^ 31)) ∧
    srmbp .wrap 4 (5 : BitVec 16) = .ok 80 ∧ srmbp .trap (-2) (-6 : BitVec 32) = .ok (-2) := by decide

/-! ## C32, scalar part -/

/-- **C32**, the scalar version: `(a + b) / 2` to nearest, ties away from zero; it never leaves the
range of the type. -/
theorem C32_roundingHalfSum (hw : 1 < w) (a b : BitVec w) :
    Spec.NearestAway (a.toInt + b.toInt) 2 (roundingHalfSum a b).toInt := by
  have ha := inW_toInt (by omega) a
  have hb := inW_toInt (by omega) b
  unfold roundingHalfSum
  dsimp only
  generalize a.toInt = x at *
  generalize b.toInt = y at *
  unfold InW at ha hb
  have hd : ((x + y) + (if x + y ≥ 0 then 1 else -1)).tdiv 2 =
      if x + y ≥ 0 then (x + y + 1) / 2 else -((-(x + y) + 1) / 2) := by
    split
    · rw [Int.tdiv_eq_ediv_of_nonneg (by omega)]
    · rw [show x + y + -1 = -(-(x + y) + 1) by omega, Int.neg_tdiv,
        Int.tdiv_eq_ediv_of_nonneg (by omega)]
  rw [hd, toInt_ofIntW (by omega)]
  · unfold Spec.NearestAway
    split <;> omega
  · unfold InW
    split <;> omega

example : roundingHalfSum (3 : BitVec 32) 4 = 4 ∧ roundingHalfSum (-3 : BitVec 32) (-4) = -4 := by
  decide

end Gemmlowp.Fx
