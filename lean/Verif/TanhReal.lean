import Mathlib.Analysis.SpecialFunctions.Trigonometric.DerivHyp
import Mathlib.Analysis.Calculus.MeanValue
import Mathlib.Analysis.Complex.ExponentialBounds
/-!
# The hyperbolic tangent
-/
namespace Gemmlowp.TanhStage

theorem hasDerivAt_tanh (x : ℝ) : HasDerivAt Real.tanh (1 / Real.cosh x ^ 2) x := by
  have hc : Real.cosh x ≠ 0 := (Real.cosh_pos x).ne'
  have h := (Real.hasDerivAt_sinh x).div (Real.hasDerivAt_cosh x) hc
  have e1 : (Real.cosh x * Real.cosh x - Real.sinh x * Real.sinh x) / Real.cosh x ^ 2 = 1 / Real.cosh x ^ 2 := by
    congr 1
    have := Real.cosh_sq x
    nlinarith
  rw [e1] at h
  have e2 : (fun y => Real.sinh y / Real.cosh y) = Real.tanh := by
    funext y; rw [Real.tanh_eq_sinh_div_cosh]
  exact e2 ▸ h

theorem tanh_mono : Monotone Real.tanh := by
  refine monotone_of_deriv_nonneg (fun x => (hasDerivAt_tanh x).differentiableAt) fun x => ?_
  rw [(hasDerivAt_tanh x).deriv]; positivity

theorem tanh_sub_le {x y : ℝ} (h : x ≤ y) : Real.tanh y - Real.tanh x ≤ y - x := by
  have hm : Monotone fun x => x - Real.tanh x := by
    refine monotone_of_deriv_nonneg (fun x => differentiableAt_id.sub (hasDerivAt_tanh x).differentiableAt) fun x => ?_
    have hd : HasDerivAt (fun x => x - Real.tanh x) (1 - 1 / Real.cosh x ^ 2) x :=
      (hasDerivAt_id x).sub (hasDerivAt_tanh x)
    rw [hd.deriv, sub_nonneg, div_le_one (by positivity)]
    have := Real.one_le_cosh x
    nlinarith
  have := hm h
  dsimp only at this
  linarith

theorem tanh_lip (x y : ℝ) : |Real.tanh x - Real.tanh y| ≤ |x - y| := by
  rcases le_total x y with h | h
  · rw [abs_sub_comm, abs_sub_comm x, abs_of_nonneg (sub_nonneg.2 h), abs_of_nonneg (sub_nonneg.2 (tanh_mono h))]
    exact tanh_sub_le h
  · rw [abs_of_nonneg (sub_nonneg.2 h), abs_of_nonneg (sub_nonneg.2 (tanh_mono h))]
    exact tanh_sub_le h

/-- From 8 on the tangent is almost 1. -/
theorem tanh_eight {x : ℝ} (h : 8 ≤ x) : 1 - 1 / 2 ^ 21 ≤ Real.tanh x := by
  refine le_trans ?_ (tanh_mono h)
  have e1 : Real.exp 16 = Real.exp 1 ^ 16 := by rw [← Real.exp_nat_mul]; norm_num
  have h1 : (2 : ℝ) ^ 22 ≤ Real.exp 16 := by
    rw [e1]
    refine le_trans ?_ (pow_le_pow_left₀ (by norm_num) Real.exp_one_gt_d9.le 16)
    norm_num
  have e2 : Real.tanh 8 = (Real.exp 16 - 1) / (Real.exp 16 + 1) := by
    rw [Real.tanh_eq, div_eq_div_iff (by positivity) (by positivity)]
    have a1 : Real.exp 8 * Real.exp 8 = Real.exp 16 := by rw [← Real.exp_add]; norm_num
    have a2 : Real.exp 8 * Real.exp (-8) = 1 := by rw [← Real.exp_add]; norm_num
    have a3 : Real.exp (-8) * Real.exp 16 = Real.exp 8 := by rw [← Real.exp_add]; norm_num
    nlinarith
  rw [e2, le_div_iff₀ (by positivity)]
  norm_num at h1 ⊢
  linarith

end Gemmlowp.TanhStage
