import Verif.AccProof2
/-!
# Properties C35-C38 and C50-C52: Rescale, exp, logistic and tanh

A raw value `a` with `ib` integer bits stands for `a / 2^(31 - ib)`; results with no integer bits
stand for `r / 2^31`.  The scalar functions are meant on `int32_t`; `m = .trap` is C++ arithmetic,
in which signed overflow is a fault, `m = .wrap` the arithmetic of vector instructions.
-/
namespace Gemmlowp.Fx

/-! ## C35 -/

/-- **C35.**  Rescaling from `src` to `dst` integer bits keeps the represented value (in units of
`2^-(w-1)`, `raw * 2^ib`) to half a unit in the last place of the destination, or saturates in the
right direction. -/
theorem C35_rescale {w : Nat} (hw : 1 < w) (hw2 : w ≤ 32) (m : OvMode) (src dst : Nat) (hs : src < w)
    (hd : dst < w) (h30 : src ≤ dst + 30) (x : BitVec w) :
    ∃ r, rescale m src dst x = .ok r ∧
      ((2 * (r.toInt * 2 ^ dst - x.toInt * 2 ^ src) ≤ 2 ^ dst ∧
        2 * (x.toInt * 2 ^ src - r.toInt * 2 ^ dst) ≤ 2 ^ dst) ∨
       (r.toInt = 2 ^ (w - 1) - 1 ∧ r.toInt * 2 ^ dst < x.toInt * 2 ^ src) ∨
       (r.toInt = -2 ^ (w - 1) ∧ x.toInt * 2 ^ src < r.toInt * 2 ^ dst)) := by
  have hdp := two_pow_pos' dst
  unfold rescale
  rcases Nat.lt_trichotomy src dst with h | h | h
  · obtain ⟨r, e, n⟩ := C31_multiplyByPOT_neg m hw (dst - src) (by omega) (by omega) (by omega) x
    rw [show (src : Int) - dst = -((dst - src : Nat) : Int) by omega]
    refine ⟨r, e, Or.inl ?_⟩
    have hsp := two_pow_pos' src
    have ep : (2 : Int) ^ dst = 2 ^ (dst - src) * 2 ^ src := by
      rw [← Int.pow_add, Nat.sub_add_cancel (by omega)]
    rw [ep]
    unfold Spec.NearestAway at n
    generalize (2 : Int) ^ (dst - src) = D at *
    generalize (2 : Int) ^ src = S at *
    have n' : 2 * x.toInt - D ≤ 2 * (r.toInt * D) ∧ 2 * (r.toInt * D) ≤ 2 * x.toInt + D := by
      split at n <;> omega
    constructor <;> nlinarith
  · subst h
    rw [Int.sub_self, C31_multiplyByPOT_zero]
    exact ⟨x, rfl, Or.inl (by omega)⟩
  · obtain ⟨r, e, n⟩ := C31_multiplyByPOT_pos m hw (src - dst) (by omega) (by omega) (by omega) x
    rw [show (src : Int) - dst = ((src - dst : Nat) : Int) by omega]
    refine ⟨r, e, ?_⟩
    have ep : (2 : Int) ^ src = 2 ^ (src - dst) * 2 ^ dst := by
      rw [← Int.pow_add, Nat.sub_add_cancel (by omega)]
    rw [ep, ← Int.mul_assoc]
    generalize x.toInt * 2 ^ (src - dst) = y at *
    unfold Spec.clampTo at n
    split at n
    · rename_i hl
      rw [n]
      exact Or.inr (Or.inr ⟨rfl, by nlinarith⟩)
    · split at n
      · rename_i hl
        rw [n]
        exact Or.inr (Or.inl ⟨rfl, by nlinarith⟩)
      · rw [n]; left; omega

/-- A rescaling that rounds, one that is exact, one that saturates. -/
example : rescale .trap 0 2 (BitVec.ofInt 32 7) = .ok 2 ∧
    rescale .trap 4 2 (BitVec.ofInt 16 (-100)) = .ok (-400) ∧
    rescale .trap 5 0 (BitVec.ofInt 32 (-2 ^ 28)) = .ok (BitVec.ofInt 32 (-2 ^ 31)) := by decide

/-! ## C36, C50: exp -/

/-- A raw value is determined by its number. -/
theorem raw_cases (a : BitVec 32) : In32 a.toInt ∧ a = BitVec.ofInt 32 a.toInt :=
  ⟨inW_toInt (by decide) a, (BitVec.ofInt_toInt).symm⟩

/-- **C36.**  `exp_on_negative_values` for up to 29 integer bits: no fault, a value in `[0, 1]`,
`1` (the largest representable number) exactly at 0, and zero for more than 5 integer bits and
arguments below -32. -/
theorem C36_exp (m : OvMode) (ib : Nat) (hib : ib ≤ 29) (a : BitVec 32) (ha : a.toInt ≤ 0) :
    ∃ r, expNeg m ib a = .ok r ∧ 0 ≤ r.toInt ∧ (r.toInt = 2 ^ 31 - 1 ↔ a.toInt = 0) ∧
      (5 < ib → a.toInt < -32 * 2 ^ (31 - ib) → r.toInt = 0) := by
  obtain ⟨hin, hofi⟩ := raw_cases a
  generalize a.toInt = v at *
  obtain ⟨e, b1, b2, b3⟩ := expNeg_I (m := m) hib hin ha
  refine ⟨_, by rw [hofi]; exact e, ?_⟩
  rw [toI (in32 (by omega))]
  refine ⟨b1, ⟨?_, ?_⟩, ?_⟩
  · intro h
    by_contra hne
    have := b3 (by omega)
    omega
  · intro h; subst h; unfold expN; simp
  · intro h5 hlt
    have ep : (2 : Int) ^ (36 - ib) = 32 * 2 ^ (31 - ib) := by
      rw [show 36 - ib = 5 + (31 - ib) by omega, Int.pow_add]; norm_num
    have hp := two_pow_pos' (31 - ib)
    unfold expN
    dsimp only
    rw [if_neg (by omega), if_pos ⟨h5, by rw [ep]; omega⟩]

/-- Sample values with 5 integer bits: at 0, at -1, at -31. -/
example : expNeg .trap 5 (0 : BitVec 32) = .ok (BitVec.ofInt 32 (2 ^ 31 - 1)) ∧
    expNeg .trap 5 (BitVec.ofInt 32 (-2 ^ 26)) = .ok (BitVec.ofInt 32 790015308) ∧
    expNeg .trap 8 (BitVec.ofInt 32 (-2 ^ 29)) = .ok 0 := by decide

/-- Thirty integer bits are not supported: the quarter is not representable. -/
theorem C36_thirty_bits (m : OvMode) (a : BitVec 32) : expNeg m 30 a = .error .badOp := rfl

/-- **C50.**  `exp_on_negative_values` is within `2^-22` of the exponential function. -/
theorem C50_exp_accuracy (m : OvMode) (ib : Nat) (hib : ib ≤ 29) (a : BitVec 32) (ha : a.toInt ≤ 0) :
    ∃ r, expNeg m ib a = .ok r ∧
      |(r.toInt : ℝ) / 2 ^ 31 - Real.exp ((a.toInt : ℝ) / 2 ^ (31 - ib))| ≤ 1 / 2 ^ 22 := by
  obtain ⟨hin, hofi⟩ := raw_cases a
  generalize a.toInt = v at *
  obtain ⟨e, b1, b2, b3⟩ := expNeg_I (m := m) hib hin ha
  refine ⟨_, by rw [hofi]; exact e, ?_⟩
  rw [toI (in32 (by omega))]
  have := expN_abs hib hin ha
  unfold val rval u at this
  norm_num at this ⊢
  linarith

/-- **C50**, relative accuracy: the error is at most `2^-21.6` of the value plus 8 units. -/
theorem C50_exp_relative (m : OvMode) (ib : Nat) (hib : ib ≤ 29) (a : BitVec 32) (ha : a.toInt ≤ 0) :
    ∃ r, expNeg m ib a = .ok r ∧
      |(r.toInt : ℝ) / 2 ^ 31 - Real.exp ((a.toInt : ℝ) / 2 ^ (31 - ib))| ≤
        645 / 2 ^ 31 * Real.exp ((a.toInt : ℝ) / 2 ^ (31 - ib)) + 8 / 2 ^ 31 := by
  obtain ⟨hin, hofi⟩ := raw_cases a
  generalize a.toInt = v at *
  obtain ⟨e, b1, b2, b3⟩ := expNeg_I (m := m) hib hin ha
  refine ⟨_, by rw [hofi]; exact e, ?_⟩
  rw [toI (in32 (by omega))]
  have := expN_rel hib hin ha
  unfold val rval u at this
  norm_num at this ⊢
  linarith

/-! ## C37, C51: logistic -/

theorem oneOverI_gt {a : Int} (h0 : 0 ≤ a) (ha : a ≤ 2147483155) : 1073741824 < oneOverI a := by
  obtain ⟨-, err⟩ := newton_I (m := .wrap) h0 (by omega)
  have hh1 : 1073741824 ≤ (a + 2147483648) / 2 := by omega
  have hh2 : (a + 2147483648) / 2 ≤ 2147483401 := by omega
  obtain ⟨r1, r2⟩ := newtonI_range hh1 (by omega) err
  unfold oneOverI
  rw [sat_cases]
  generalize (a + 2147483648) / 2 = h at *
  generalize newtonI h = x at *
  have hge : 536870913 ≤ x := by
    rw [abs_le] at err
    by_contra hlt
    have := mul_le_mul hh2 (show x ≤ 536870912 by omega) (by omega) (by omega)
    norm_num at this err
    omega
  rw [if_neg (by omega)]
  split <;> omega

theorem logisticI_bounds {ib : Nat} (hib : ib ≤ 29) {v : Int} (hin : In32 v) :
    0 ≤ logisticI ib v ∧ logisticI ib v ≤ 2147483647 ∧ (0 < v → 1073741824 < logisticI ib v) ∧
      (v < 0 → logisticI ib v < 1073741824 - 1) := by
  have h' := (in32_iff v).1 hin
  unfold logisticI
  by_cases hz : v = 0
  · rw [if_pos hz]; omega
  rw [if_neg hz]
  by_cases hp : 0 < v
  · rw [if_pos hp]
    obtain ⟨-, b1, b2, b3⟩ := expNeg_I (m := .wrap) hib (a := -v) (in32 (by omega)) (by omega)
    have h1 := oneOverI_gt b1 (b3 (by omega))
    have h2 := logisticPosI_bounds hib (a := v) (by omega) (by omega)
    unfold logisticPosI at *
    omega
  · rw [if_neg hp]
    obtain ⟨-, b1, b2, b3⟩ := expNeg_I (m := .wrap) hib hin (by omega)
    have h1 := oneOverI_gt b1 (b3 (by omega))
    have h2 := logisticPosI_bounds hib (a := -v) (by omega) (by omega)
    unfold logisticPosI at *
    rw [Int.neg_neg] at *
    omega

/-- **C37**, except at the least input in C++ arithmetic: no fault, a value in `[0, 1]`, exactly
one half at 0, above one half for positive and below for negative arguments. -/
theorem C37_logistic_partial (m : OvMode) (ib : Nat) (hib : ib ≤ 29) (a : BitVec 32)
    (ha : m = .wrap ∨ a.toInt ≠ -2 ^ 31) :
    ∃ r, logistic m ib a = .ok r ∧ 0 ≤ r.toInt ∧ (a.toInt = 0 → r.toInt = 2 ^ 30) ∧
      (0 < a.toInt → 2 ^ 30 < r.toInt) ∧ (a.toInt < 0 → r.toInt < 2 ^ 30) := by
  obtain ⟨hin, hofi⟩ := raw_cases a
  generalize a.toInt = v at *
  have h' := (in32_iff v).1 hin
  refine ⟨_, by rw [hofi]; exact logistic_I hib hin (ha.imp id (fun h => by omega)), ?_⟩
  obtain ⟨b1, b2, b3, b4⟩ := logisticI_bounds hib hin
  rw [toI (in32 (by omega))]
  refine ⟨b1, ?_, ?_, ?_⟩
  · intro h; unfold logisticI; rw [if_pos h]; rfl
  · intro h; have := b3 h; omega
  · intro h; have := b4 h; omega

/-- **C37**, symmetry: `logistic(-x) = 1 - logistic(x)`, where `1` is the largest representable
number, for every `x ≠ 0` whose negation is representable. -/
theorem C37_symmetry (m : OvMode) (ib : Nat) (hib : ib ≤ 29) (a b : BitVec 32)
    (ha : a.toInt ≠ 0) (hb : b.toInt = -a.toInt) :
    ∃ r s, logistic m ib a = .ok r ∧ logistic m ib b = .ok s ∧ r.toInt + s.toInt = 2 ^ 31 - 1 := by
  obtain ⟨hin, hofi⟩ := raw_cases a
  obtain ⟨hin', hofi'⟩ := raw_cases b
  rw [hb] at hin' hofi'
  generalize a.toInt = v at *
  have h' := (in32_iff v).1 hin
  have h'' := (in32_iff _).1 hin'
  refine ⟨_, _, by rw [hofi]; exact logistic_I hib hin (Or.inr (by omega)),
    by rw [hofi']; exact logistic_I hib hin' (Or.inr (by omega)), ?_⟩
  obtain ⟨b1, b2, -, -⟩ := logisticI_bounds hib hin
  obtain ⟨c1, c2, -, -⟩ := logisticI_bounds hib hin'
  rw [toI (in32 (by omega)), toI (in32 (by omega))]
  unfold logisticI
  rw [if_neg ha, if_neg (show ¬ -v = 0 by omega), Int.neg_neg]
  by_cases hp : 0 < v
  · rw [if_pos hp, if_neg (show ¬ 0 < -v by omega)]; omega
  · rw [if_neg hp, if_pos (show 0 < -v by omega)]; omega

/-- **C37** fails at the least input: the negation overflows, undefined in C++ arithmetic. -/
theorem C37_logistic_undefined (ib : Int) :
    logistic .trap ib (BitVec.ofInt 32 (-2 ^ 31)) = .error .overflow := rfl

example : logistic .trap 4 (BitVec.ofInt 32 (2 ^ 27)) = .ok (BitVec.ofInt 32 1569936226) ∧
    logistic .trap 4 (BitVec.ofInt 32 (-2 ^ 27)) = .ok (BitVec.ofInt 32 577547421) := by decide

/-- **C51.**  `logistic` is within `2^-23` of `1 / (1 + exp(-x))`. -/
theorem C51_logistic_accuracy (m : OvMode) (ib : Nat) (hib : ib ≤ 29) (a : BitVec 32)
    (ha : m = .wrap ∨ a.toInt ≠ -2 ^ 31) :
    ∃ r, logistic m ib a = .ok r ∧
      |(r.toInt : ℝ) / 2 ^ 31 - 1 / (1 + Real.exp (-((a.toInt : ℝ) / 2 ^ (31 - ib))))| ≤ 1 / 2 ^ 23 := by
  obtain ⟨hin, hofi⟩ := raw_cases a
  generalize a.toInt = v at *
  have h' := (in32_iff v).1 hin
  refine ⟨_, by rw [hofi]; exact logistic_I hib hin (ha.imp id (fun h => by omega)), ?_⟩
  obtain ⟨b1, b2, -, -⟩ := logisticI_bounds hib hin
  rw [toI (in32 (by omega))]
  have := logisticI_acc hib hin
  unfold val rval u at this
  norm_num at this ⊢
  linarith

/-! ## C38, C52: tanh -/

theorem tanhI_bounds {ib : Nat} (hib : ib ≤ 28) {v : Int} (hin : In32 v) :
    -2147483647 ≤ tanhI ib v ∧ tanhI ib v ≤ 2147483647 ∧ (0 < v → 0 < tanhI ib v) ∧
      (v < 0 → tanhI ib v < 0) := by
  have h' := (in32_iff v).1 hin
  unfold tanhI
  by_cases hz : v = 0
  · rw [if_pos hz]; omega
  rw [if_neg hz]
  by_cases hp : v < 0
  · rw [if_pos hp]
    obtain ⟨-, b1, b2, b3⟩ := negTanh_I (m := .wrap) hib (a := v) (by omega) (by omega)
    have := b3 hp
    omega
  · rw [if_neg hp]
    obtain ⟨-, b1, b2, b3⟩ := negTanh_I (m := .wrap) hib (a := -v) (by omega) (by omega)
    have := b3 (by omega)
    omega

/-- **C38**, except at the least input in C++ arithmetic: no fault, a value in `[-1, 1]`, exactly 0
at 0, of the sign of the argument elsewhere. -/
theorem C38_tanh_partial (m : OvMode) (ib : Nat) (hib : ib ≤ 28) (a : BitVec 32)
    (ha : m = .wrap ∨ a.toInt ≠ -2 ^ 31) :
    ∃ r, tanh m ib a = .ok r ∧ -(2 ^ 31 - 1) ≤ r.toInt ∧ (a.toInt = 0 → r.toInt = 0) ∧
      (0 < a.toInt → 0 < r.toInt) ∧ (a.toInt < 0 → r.toInt < 0) := by
  obtain ⟨hin, hofi⟩ := raw_cases a
  generalize a.toInt = v at *
  have h' := (in32_iff v).1 hin
  refine ⟨_, by rw [hofi]; exact tanh_I hib hin (ha.imp id (fun h => by omega)), ?_⟩
  obtain ⟨b1, b2, b3, b4⟩ := tanhI_bounds hib hin
  rw [toI (in32 (by omega))]
  refine ⟨by omega, ?_, b3, b4⟩
  intro h; unfold tanhI; rw [if_pos h]

/-- **C38**, oddness: `tanh(-x) = -tanh(x)`. -/
theorem C38_odd (m : OvMode) (ib : Nat) (hib : ib ≤ 28) (a b : BitVec 32)
    (hb : b.toInt = -a.toInt) :
    ∃ r s, tanh m ib a = .ok r ∧ tanh m ib b = .ok s ∧ s.toInt = -r.toInt := by
  obtain ⟨hin, hofi⟩ := raw_cases a
  obtain ⟨hin', hofi'⟩ := raw_cases b
  rw [hb] at hin' hofi'
  generalize a.toInt = v at *
  have h' := (in32_iff v).1 hin
  have h'' := (in32_iff _).1 hin'
  refine ⟨_, _, by rw [hofi]; exact tanh_I hib hin (Or.inr (by omega)),
    by rw [hofi']; exact tanh_I hib hin' (Or.inr (by omega)), ?_⟩
  obtain ⟨b1, b2, -, -⟩ := tanhI_bounds hib hin
  obtain ⟨c1, c2, -, -⟩ := tanhI_bounds hib hin'
  rw [toI (in32 (by omega)), toI (in32 (by omega))]
  unfold tanhI
  by_cases hz : v = 0
  · subst hz; rfl
  rw [if_neg hz, if_neg (show ¬ -v = 0 by omega), Int.neg_neg]
  by_cases hp : v < 0
  · rw [if_pos hp, if_neg (by omega), Int.neg_neg]
  · rw [if_neg hp, if_pos (by omega)]

/-- **C38** fails at the least input: the negation overflows, undefined in C++ arithmetic. -/
theorem C38_tanh_undefined (ib : Int) :
    tanh .trap ib (BitVec.ofInt 32 (-2 ^ 31)) = .error .overflow := rfl

/-- The helper `one_minus_x_over_one_plus_x_for_x_in_0_1` itself may leave `[0, 1]`: it is negative
at the largest argument.  `tanh` is not affected (`C38_tanh_partial`). -/
theorem C38_helper_negative :
    oneMinusOver .trap (BitVec.ofInt 32 (2 ^ 31 - 1)) = .ok (BitVec.ofInt 32 (-8)) := by decide

example : tanh .trap 4 (BitVec.ofInt 32 (2 ^ 26)) = .ok (BitVec.ofInt 32 992388804) ∧
    tanh .trap 4 (BitVec.ofInt 32 (-2 ^ 26)) = .ok (BitVec.ofInt 32 (-992388804)) := by decide

/-- **C52.**  `tanh` is within `2^-22` of the hyperbolic tangent. -/
theorem C52_tanh_accuracy (m : OvMode) (ib : Nat) (hib : ib ≤ 28) (a : BitVec 32)
    (ha : m = .wrap ∨ a.toInt ≠ -2 ^ 31) :
    ∃ r, tanh m ib a = .ok r ∧
      |(r.toInt : ℝ) / 2 ^ 31 - Real.tanh ((a.toInt : ℝ) / 2 ^ (31 - ib))| ≤ 1 / 2 ^ 22 := by
  obtain ⟨hin, hofi⟩ := raw_cases a
  generalize a.toInt = v at *
  have h' := (in32_iff v).1 hin
  refine ⟨_, by rw [hofi]; exact tanh_I hib hin (ha.imp id (fun h => by omega)), ?_⟩
  obtain ⟨b1, b2, -, -⟩ := tanhI_bounds hib hin
  rw [toI (in32 (by omega))]
  have := tanhI_acc hib hin
  unfold val rval u at this
  norm_num at this ⊢
  linarith

end Gemmlowp.Fx
