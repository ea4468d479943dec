import Verif.Quantize
import Verif.PropsGemm
import Mathlib.Tactic.Linarith
import Mathlib.Tactic.Ring
import Mathlib.Tactic.NormNum
import Mathlib.Tactic.FieldSimp
import Mathlib.Tactic.Positivity
import Mathlib.Tactic.IntervalCases
import Mathlib.Algebra.Order.BigOperators.Group.Finset
import Mathlib.Algebra.BigOperators.Ring.Finset

/-!
# Properties C43 and C56: the quantization example
-/

namespace Gemmlowp

/-! ## Rounding -/

theorem roundAway_bounds (x : ℚ) : |(roundAway x : ℚ) - x| ≤ 1 / 2 := by
  unfold roundAway
  split
  · have h1 := Int.floor_le (x + 1 / 2)
    have h2 := Int.lt_floor_add_one (x + 1 / 2)
    rw [abs_le]; constructor <;> linarith
  · have h1 := Int.floor_le (-x + 1 / 2)
    have h2 := Int.lt_floor_add_one (-x + 1 / 2)
    push_cast
    rw [abs_le]; constructor <;> linarith

theorem roundAway_int (n : Int) : roundAway (n : ℚ) = n := by
  have h := roundAway_bounds (n : ℚ)
  rw [abs_le] at h
  have h1 : (roundAway (n : ℚ) : ℚ) < n + 1 := by linarith [h.2]
  have h2 : (n : ℚ) < roundAway (n : ℚ) + 1 := by linarith [h.1]
  have h1' : roundAway (n : ℚ) < n + 1 := by exact_mod_cast h1
  have h2' : n < roundAway (n : ℚ) + 1 := by exact_mod_cast h2
  omega

theorem roundAway_le {x : ℚ} {n : Int} (h : x < n + 1 / 2) : roundAway x ≤ n := by
  unfold roundAway
  split
  · have : ⌊x + 1 / 2⌋ < n + 1 := by
      rw [Int.floor_lt]; push_cast; linarith
    omega
  · have h1 : -n ≤ ⌊-x + 1 / 2⌋ := by
      rw [Int.le_floor]; push_cast; linarith
    omega

theorem le_roundAway {x : ℚ} {n : Int} (h0 : 0 ≤ x) (h : (n : ℚ) - 1 / 2 ≤ x) :
    n ≤ roundAway x := by
  unfold roundAway
  rw [if_pos h0, Int.le_floor]
  linarith

theorem roundAway_mono {x y : ℚ} (h0 : 0 ≤ x) (h : x ≤ y) : roundAway x ≤ roundAway y := by
  unfold roundAway
  rw [if_pos h0, if_pos (le_trans h0 h)]
  exact Int.floor_le_floor (by linarith)

/-! ## The loop -/

theorem bringUp_spec (p q s : Nat) (hp : 0 < p) (hq : p < q) :
    ∃ k, bringUp p q s = (p * 2 ^ k, s + k) ∧ p * 2 ^ k < q ∧ q ≤ 2 * (p * 2 ^ k) := by
  induction hn : q - p using Nat.strong_induction_on generalizing p s with
  | _ n ih =>
    unfold bringUp
    by_cases h : 2 * p < q
    · rw [dif_pos ⟨hp, h⟩]
      obtain ⟨k, e, h1, h2⟩ := ih (q - 2 * p) (by omega) (2 * p) (s + 1) (by omega) h rfl
      have e2 : 2 * p * 2 ^ k = p * 2 ^ (k + 1) := by rw [pow_succ]; ring
      rw [e2] at e h1 h2
      exact ⟨k + 1, by rw [e, show s + 1 + k = s + (k + 1) by omega], h1, h2⟩
    · rw [dif_neg (fun h' => h h'.2)]
      exact ⟨0, by simp, by simpa using hq, by simp; omega⟩

/-- The mantissa of a number between 0 and 1. -/
theorem bringUp_rat (r : ℚ) (h0 : 0 < r) (h1 : r < 1) :
    ∃ k, (bringUp r.num.toNat r.den 0).2 = k ∧
      ((bringUp r.num.toNat r.den 0).1 : ℚ) / r.den = r * 2 ^ k ∧ r * 2 ^ k < 1 ∧
      1 / 2 ≤ r * 2 ^ k := by
  have hn : 0 < r.num := Rat.num_pos.2 h0
  have hd : 0 < r.den := r.den_pos
  have hd' : (0 : ℚ) < r.den := by exact_mod_cast hd
  have hr : r = (r.num : ℚ) / r.den := (Rat.num_div_den r).symm
  have hlt : r.num.toNat < r.den := by
    have : (r.num : ℚ) < r.den := by
      rw [hr, div_lt_one hd'] at h1; exact h1
    have : r.num < r.den := by exact_mod_cast this
    omega
  obtain ⟨k, e, b1, b2⟩ := bringUp_spec r.num.toNat r.den 0 (by omega) hlt
  have hnum : ((r.num.toNat : Nat) : ℚ) = (r.num : ℚ) := by
    have : ((r.num.toNat : Nat) : Int) = r.num := Int.toNat_of_nonneg (by omega)
    exact_mod_cast this
  have hv : ((bringUp r.num.toNat r.den 0).1 : ℚ) / r.den = r * 2 ^ k := by
    rw [e]
    push_cast
    rw [hnum]
    conv_rhs => rw [hr]
    field_simp
  refine ⟨k, by rw [e]; simp, hv, ?_, ?_⟩
  · rw [← hv, div_lt_one hd', e]; exact_mod_cast b1
  · rw [← hv, div_le_div_iff₀ (by norm_num) hd', e]
    have : (r.den : ℚ) ≤ 2 * ((r.num.toNat * 2 ^ k : Nat) : ℚ) := by exact_mod_cast b2
    linarith

/-! ## C43: the multiplier -/

/-- The function after its loop. -/
theorem quantizeMultiplier_eq (r : ℚ) (h0 : 0 < r) (h1 : r < 1) :
    ∃ (k : Nat) (q : Int), 1 / 2 ≤ r * 2 ^ k ∧ r * 2 ^ k < 1 ∧
      q = roundAway (r * 2 ^ k * 2147483648) ∧ 1073741824 ≤ q ∧ q ≤ 2147483648 ∧
      quantizeMultiplierSmallerThanOne r =
        if q = 2147483648 then
          (if 1 ≤ k then .ok (1073741824, (k : Int) - 1) else .error .assertion)
        else .ok (q, (k : Int)) := by
  obtain ⟨k, hk, hv, hlt, hge⟩ := bringUp_rat r h0 h1
  refine ⟨k, roundAway (r * 2 ^ k * 2147483648), hge, hlt, rfl, ?_, ?_, ?_⟩
  · apply le_roundAway <;> push_cast <;> linarith
  · apply roundAway_le; push_cast; linarith
  · have hq1 : 1073741824 ≤ roundAway (r * 2 ^ k * 2147483648) := by
      apply le_roundAway <;> push_cast <;> linarith
    have hq2 : roundAway (r * 2 ^ k * 2147483648) ≤ 2147483648 := by
      apply roundAway_le; push_cast; linarith
    unfold quantizeMultiplierSmallerThanOne
    rw [decide_eq_true h0, decide_eq_true h1]
    dsimp only
    rw [hk, hv, assertM_true, ok_bind, ok_bind]
    generalize roundAway (r * 2 ^ k * 2147483648) = q at hq1 hq2 ⊢
    rw [decide_eq_true hq2, assertM_true, ok_bind]
    by_cases hq : q = 2147483648
    · rw [if_pos hq, if_pos hq]
      dsimp only
      by_cases hk1 : 1 ≤ k
      · rw [if_pos hk1, decide_eq_true (show (0 : Int) ≤ (k : Int) - 1 by omega), assertM_true, ok_bind,
          decide_eq_true (show q / 2 ≤ 2147483647 by omega), assertM_true, ok_bind, pure_ok,
          show q / 2 = 1073741824 by omega]
      · rw [if_neg hk1, decide_eq_false (show ¬ (0 : Int) ≤ (k : Int) - 1 by omega)]
        rfl
    · rw [if_neg hq, if_neg hq]
      dsimp only
      rw [decide_eq_true (show (0 : Int) ≤ (k : Int) by omega), assertM_true, ok_bind,
          decide_eq_true (show q ≤ 2147483647 by omega), assertM_true, ok_bind, pure_ok]

/-- **C43, for all multipliers that are not within 2^-32 of 1.**  The multiplier is normalized, the
shift is not negative, the number they represent is within a relative error of 2^-31 of the real
multiplier, and the shift is the one of the mantissa, or one less. -/
theorem C43_multiplier_partial (r : ℚ) (h0 : 0 < r) (h1 : r < 1 - 1 / 2 ^ 32) :
    ∃ (m : Int) (s : Nat), quantizeMultiplierSmallerThanOne r = .ok (m, (s : Int)) ∧
      2 ^ 30 ≤ m ∧ m < 2 ^ 31 ∧ |(m : ℚ) / 2 ^ 31 / 2 ^ s - r| ≤ r / 2 ^ 31 ∧
      1 / 2 ≤ r * 2 ^ (s + 1) ∧ r * 2 ^ s < 1 := by
  have h1' : r < 1 := by
    have : (0 : ℚ) < 1 / 2 ^ 32 := by norm_num
    linarith
  obtain ⟨k, q, hge, hlt, hq, hq1, hq2, e⟩ := quantizeMultiplier_eq r h0 h1'
  have hb := roundAway_bounds (r * 2 ^ k * 2147483648)
  rw [← hq] at hb
  have hP : (0 : ℚ) < 2 ^ k := by positivity
  -- the number represented, in both cases
  have key : |(q : ℚ) / 2147483648 / 2 ^ k - r| ≤ r / 2147483648 := by
    have e1 : (q : ℚ) / 2147483648 / 2 ^ k - r =
        ((q : ℚ) - r * 2 ^ k * 2147483648) / (2147483648 * 2 ^ k) := by
      field_simp
    rw [e1, abs_div, abs_of_pos (show (0 : ℚ) < 2147483648 * 2 ^ k by positivity),
      div_le_div_iff₀ (by positivity) (by norm_num)]
    have : (1 : ℚ) / 2 * 2147483648 ≤ r * (2147483648 * 2 ^ k) := by linarith
    linarith
  by_cases hc : q = 2147483648
  · have hk : 1 ≤ k := by
      by_contra hk
      have hk0 : k = 0 := by omega
      subst hk0
      have : q ≤ 2147483647 := by
        rw [hq]
        apply roundAway_le
        rw [pow_zero, mul_one]
        norm_num at h1 ⊢
        linarith
      omega
    obtain ⟨s, rfl⟩ : ∃ s, k = s + 1 := ⟨k - 1, by omega⟩
    refine ⟨1073741824, s, ?_, by norm_num, by norm_num, ?_, hge, ?_⟩
    · rw [e, if_pos hc, if_pos hk]; norm_num
    · have e2 : ((1073741824 : Int) : ℚ) / 2 ^ 31 / 2 ^ s = (q : ℚ) / 2147483648 / 2 ^ (s + 1) := by
        rw [hc]; push_cast; rw [pow_succ (2 : ℚ) s]; norm_num
        field_simp
      rw [e2]
      norm_num at key ⊢
      exact key
    · rw [pow_succ (2 : ℚ) s] at hlt
      have : (0 : ℚ) < r * 2 ^ s := by positivity
      linarith
  · refine ⟨q, k, ?_, by norm_num; omega, by norm_num; omega, ?_, ?_, hlt⟩
    · rw [e, if_neg hc]
    · norm_num at key ⊢
      exact key
    · rw [pow_succ]
      have : (0 : ℚ) < r * 2 ^ k := by positivity
      linarith

/-- **C43 fails within 2^-32 of 1** (finding F24): the renormalization would need the shift -1, and the
assertion `s >= 0` fails. -/
theorem C43_multiplier_fails (r : ℚ) (h0 : 1 - 1 / 2 ^ 32 ≤ r) (h1 : r < 1) :
    quantizeMultiplierSmallerThanOne r = .error .assertion := by
  have h : (0 : ℚ) < r := by
    have : (1 : ℚ) / 2 ^ 32 < 1 := by norm_num
    linarith
  obtain ⟨k, q, hge, hlt, hq, hq1, hq2, e⟩ := quantizeMultiplier_eq r h h1
  have hk : k = 0 := by
    by_contra hk
    obtain ⟨s, rfl⟩ : ∃ s, k = s + 1 := ⟨k - 1, by omega⟩
    have h2 : (1 : ℚ) ≤ 2 ^ s := one_le_pow₀ (by norm_num)
    have h3 : r * 1 ≤ r * 2 ^ s := by
      apply mul_le_mul_of_nonneg_left h2 h.le
    rw [pow_succ] at hlt
    norm_num at h0
    linarith
  subst hk
  have : q = 2147483648 := by
    apply le_antisymm hq2
    rw [hq]
    apply le_roundAway
    · positivity
    · push_cast; norm_num at h0 ⊢; linarith
  rw [e, if_pos this, if_neg (by omega)]

/-- **C43.**  The other end of the range: the shift is at most 31, as the output stage demands, if the
multiplier is at least `2^-32`. -/
theorem C43_shift (r : ℚ) (h0 : 1 / 2 ^ 32 ≤ r) (h1 : r < 1 - 1 / 2 ^ 32) :
    ∃ (m : Int) (s : Nat), quantizeMultiplierSmallerThanOne r = .ok (m, (s : Int)) ∧ s ≤ 31 := by
  have hr : (0 : ℚ) < r := lt_of_lt_of_le (by norm_num) h0
  obtain ⟨m, s, e, _, _, _, _, h⟩ := C43_multiplier_partial r hr h1
  refine ⟨m, s, e, ?_⟩
  by_contra hs
  have h2 : (2 : ℚ) ^ 32 ≤ 2 ^ s := pow_le_pow_right₀ (by norm_num) (by omega)
  have h3 : (1 : ℚ) / 2 ^ 32 * 2 ^ 32 ≤ r * 2 ^ s :=
    mul_le_mul h0 h2 (by positivity) hr.le
  norm_num at h3
  linarith

/-- **C43.**  Below `2^-33` the shift is more than 31: the result is as accurate as ever, but no output
stage accepts it. -/
theorem C43_shift_fails (r : ℚ) (h0 : 0 < r) (h1 : r < 1 / 2 ^ 33) :
    ∃ (m : Int) (s : Nat), quantizeMultiplierSmallerThanOne r = .ok (m, (s : Int)) ∧ 32 ≤ s ∧
      ∀ offset x y, ¬ Spec.ByFixedPoint m s offset x y := by
  obtain ⟨m, s, e, _, _, _, h, _⟩ := C43_multiplier_partial r h0
    (lt_trans h1 (by norm_num))
  have hs : 32 ≤ s := by
    by_contra hs
    have h2 : (2 : ℚ) ^ (s + 1) ≤ 2 ^ 32 := pow_le_pow_right₀ (by norm_num) (by omega)
    have h3 : r * 2 ^ (s + 1) ≤ r * 2 ^ 32 := mul_le_mul_of_nonneg_left h2 h0.le
    norm_num at h1 h3
    linarith
  exact ⟨m, s, e, hs, fun _ _ _ hb => absurd hb.2.1 (by omega)⟩

/-- **C43, for the numbers that a `float` can hold.**  For a mantissa of 24 bits nothing is rounded: the
multiplier and the shift represent the real multiplier exactly, and no assertion fails. -/
theorem C43_float_exact (a e : Nat) (ha : 0 < a) (ha' : a < 2 ^ 24) (hlt : a < 2 ^ e) :
    ∃ (m : Int) (s : Nat), quantizeMultiplierSmallerThanOne ((a : ℚ) / 2 ^ e) = .ok (m, (s : Int)) ∧
      2 ^ 30 ≤ m ∧ m < 2 ^ 31 ∧ (m : ℚ) / 2 ^ 31 / 2 ^ s = (a : ℚ) / 2 ^ e := by
  have hE : (0 : ℚ) < 2 ^ e := by positivity
  have h0 : (0 : ℚ) < (a : ℚ) / 2 ^ e := by positivity
  have h1 : (a : ℚ) / 2 ^ e < 1 := by
    rw [div_lt_one hE]; exact_mod_cast hlt
  obtain ⟨k, q, hge, hlt', hq, hq1, hq2, eq⟩ := quantizeMultiplier_eq _ h0 h1
  -- the exponent is large enough for the product to be an integer
  have hk : e ≤ k + 24 := by
    by_contra hk
    have h2 : (2 : ℚ) ^ 24 * 2 ^ k * 2 ≤ 2 ^ e := by
      rw [← pow_add, ← pow_succ]
      exact pow_le_pow_right₀ (by norm_num) (by omega)
    have h3 : (a : ℚ) < 2 ^ 24 := by exact_mod_cast ha'
    rw [div_mul_eq_mul_div, div_le_div_iff₀ (by norm_num) hE] at hge
    have h4 : (a : ℚ) * 2 ^ k < 2 ^ 24 * 2 ^ k := by
      apply mul_lt_mul_of_pos_right h3; positivity
    linarith
  obtain ⟨j, hj⟩ : ∃ j, k + 31 = e + j := ⟨k + 31 - e, by omega⟩
  have hx : (a : ℚ) / 2 ^ e * 2 ^ k * 2147483648 = ((a * 2 ^ j : Int) : ℚ) := by
    have : (2 : ℚ) ^ k * 2147483648 = 2 ^ e * 2 ^ j := by
      rw [← pow_add, ← hj, pow_add]; norm_num
    rw [mul_assoc, this]
    push_cast
    field_simp
  rw [hx, roundAway_int] at hq
  have hne : q < 2147483648 := by
    have h2 : ((a * 2 ^ j : Int) : ℚ) < 2147483648 := by rw [← hx]; linarith
    rw [hq]; exact_mod_cast h2
  refine ⟨q, k, ?_, by norm_num; omega, by norm_num; omega, ?_⟩
  · rw [eq, if_neg (by omega)]
  · have : (q : ℚ) = (a : ℚ) / 2 ^ e * 2 ^ k * 2147483648 := by rw [hq, hx]
    rw [this]
    norm_num

/-- **C43.**  What the decomposition is made for: with this multiplier and shift the output stage
`OutputStageQuantizeDownInt32ByFixedPoint` multiplies by the real multiplier, up to its two roundings
and the relative error of the multiplier. -/
theorem C43_stage (r : ℚ) (h0 : 0 < r) (h1 : r < 1 - 1 / 2 ^ 32) :
    ∃ (m : Int) (s : Nat), quantizeMultiplierSmallerThanOne r = .ok (m, (s : Int)) ∧
      ∀ offset x y : Int, Spec.ByFixedPoint m s offset x y →
        |((y - offset : Int) : ℚ) - x * r| ≤ 1 / 2 + 1 / 2 ^ (s + 1) + |(x : ℚ)| * (r / 2 ^ 31) := by
  obtain ⟨m, s, e, m1, m2, he, _, _⟩ := C43_multiplier_partial r h0 h1
  refine ⟨m, s, e, ?_⟩
  rintro offset x y ⟨_, _, _, h, hh, hn⟩
  unfold Spec.HighMul at hh
  rw [if_neg (by norm_num at m1; omega)] at hh
  rw [Int.toNat_natCast] at hn
  have hP : (0 : ℚ) < 2 ^ s := by positivity
  -- first rounding
  have a1 : |(h : ℚ) - x * m / 2 ^ 31| ≤ 1 / 2 := by
    obtain ⟨u1, u2⟩ := hh
    have v1 : (2 * (x * m) - 2147483648 : ℚ) < 2 * (h * 2147483648) := by exact_mod_cast u1
    have v2 : (2 * (h * 2147483648) : ℚ) ≤ 2 * (x * m) + 2147483648 := by exact_mod_cast u2
    rw [abs_le]; norm_num; constructor <;> linarith
  -- second rounding
  have a2 : |((y - offset : Int) : ℚ) - h / 2 ^ s| ≤ 1 / 2 := by
    have u : 2 * h - (2 : Int) ^ s ≤ 2 * ((y - offset) * 2 ^ s) ∧
        2 * ((y - offset) * 2 ^ s) ≤ 2 * h + (2 : Int) ^ s := by
      unfold Spec.NearestAway at hn
      split at hn
      · exact ⟨hn.1.le, hn.2⟩
      · exact ⟨hn.1, hn.2.le⟩
    have v1 : (2 * h - (2 : ℚ) ^ s) ≤ 2 * (((y - offset : Int) : ℚ) * 2 ^ s) := by exact_mod_cast u.1
    have v2 : 2 * (((y - offset : Int) : ℚ) * 2 ^ s) ≤ 2 * h + (2 : ℚ) ^ s := by exact_mod_cast u.2
    have e1 : ((y - offset : Int) : ℚ) - h / 2 ^ s = (((y - offset : Int) : ℚ) * 2 ^ s - h) / 2 ^ s := by
      field_simp
    rw [e1, abs_div, abs_of_pos hP, div_le_iff₀ hP, abs_le]
    constructor <;> linarith
  have a3 : |(h : ℚ) / 2 ^ s - x * m / 2 ^ 31 / 2 ^ s| ≤ 1 / 2 ^ (s + 1) := by
    rw [← sub_div, abs_div, abs_of_pos hP, pow_succ (2 : ℚ) s, div_le_div_iff₀ hP (by positivity)]
    have : |(h : ℚ) - x * m / 2 ^ 31| * 2 ^ s ≤ 1 / 2 * 2 ^ s :=
      mul_le_mul_of_nonneg_right a1 hP.le
    linarith
  have a4 : |(x : ℚ) * m / 2 ^ 31 / 2 ^ s - x * r| ≤ |(x : ℚ)| * (r / 2 ^ 31) := by
    rw [show (x : ℚ) * m / 2 ^ 31 / 2 ^ s - x * r = x * ((m : ℚ) / 2 ^ 31 / 2 ^ s - r) by ring, abs_mul]
    exact mul_le_mul_of_nonneg_left he (abs_nonneg _)
  have e1 : ((y - offset : Int) : ℚ) - x * r = (((y - offset : Int) : ℚ) - h / 2 ^ s) +
      ((h : ℚ) / 2 ^ s - x * m / 2 ^ 31 / 2 ^ s) + ((x : ℚ) * m / 2 ^ 31 / 2 ^ s - x * r) := by ring
  rw [e1]
  calc _ ≤ |((y - offset : Int) : ℚ) - h / 2 ^ s| + |(h : ℚ) / 2 ^ s - x * m / 2 ^ 31 / 2 ^ s| +
        |(x : ℚ) * m / 2 ^ 31 / 2 ^ s - x * r| := abs_add_three _ _ _
    _ ≤ _ := by linarith

/-! ## C56: the parameters and the conversions -/

/-- The parameters that a range leads to. -/
theorem chooseParams_eq (mn mx : ℚ) (h : min mn 0 < max mx 0) :
    ∃ z : Nat, chooseQuantizationParams mn mx = .ok ⟨(max mx 0 - min mn 0) / 255, z⟩ ∧ z ≤ 255 ∧
      |(z : ℚ) + min mn 0 / ((max mx 0 - min mn 0) / 255)| ≤ 1 / 2 := by
  have hS : (0 : ℚ) < (max mx 0 - min mn 0) / 255 := by
    apply div_pos _ (by norm_num); linarith
  have hmn : min mn 0 ≤ 0 := min_le_right _ _
  have hmx : 0 ≤ max mx 0 := le_max_right _ _
  have hz0 : 0 ≤ 0 - min mn 0 / ((max mx 0 - min mn 0) / 255) := by
    have := div_nonpos_of_nonpos_of_nonneg hmn hS.le
    linarith
  have hz1 : 0 - min mn 0 / ((max mx 0 - min mn 0) / 255) ≤ 255 := by
    have : -255 ≤ min mn 0 / ((max mx 0 - min mn 0) / 255) := by
      rw [le_div_iff₀ hS]; linarith
    linarith
  refine ⟨(roundAway (0 - min mn 0 / ((max mx 0 - min mn 0) / 255))).toNat, ?_, ?_, ?_⟩
  · unfold chooseQuantizationParams
    dsimp only
    rw [sub_zero, if_neg hS.ne', if_neg (not_lt.2 hz0), if_neg (not_lt.2 hz1)]
  · have : roundAway (0 - min mn 0 / ((max mx 0 - min mn 0) / 255)) ≤ 255 := by
      apply roundAway_le; push_cast; linarith
    omega
  · have h1 : 0 ≤ roundAway (0 - min mn 0 / ((max mx 0 - min mn 0) / 255)) := by
      apply le_roundAway hz0; push_cast; linarith
    have h2 := roundAway_bounds (0 - min mn 0 / ((max mx 0 - min mn 0) / 255))
    have h3 : (((roundAway (0 - min mn 0 / ((max mx 0 - min mn 0) / 255))).toNat : Nat) : ℚ) =
        (roundAway (0 - min mn 0 / ((max mx 0 - min mn 0) / 255)) : ℚ) := by
      exact_mod_cast congrArg (fun x : Int => (x : ℚ)) (Int.toNat_of_nonneg h1)
    rw [h3, show ∀ a b : ℚ, a + b = a - (0 - b) from fun a b => by ring]
    exact h2

/-- What the later theorems need of the parameters for a range. -/
structure QuantizationParams.For (p : QuantizationParams) (mn mx : ℚ) : Prop where
  pos : 0 < p.scale
  width : p.scale * 255 = max mx 0 - min mn 0
  zero : p.zeroPoint ≤ 255
  nudge : |(p.zeroPoint : ℚ) + min mn 0 / p.scale| ≤ 1 / 2

/-- **C56.**  The parameters exist for every range that is not `[0, 0]`; the scale spreads the 256 values
over the range, extended to contain 0, and the zero point is a uint8 within 1/2 of the exact one. -/
theorem C56_params (mn mx : ℚ) (h : min mn 0 < max mx 0) :
    ∃ p, chooseQuantizationParams mn mx = .ok p ∧ p.For mn mx := by
  obtain ⟨z, e, hz, hn⟩ := chooseParams_eq mn mx h
  refine ⟨_, e, ?_, ?_, hz, hn⟩
  · apply div_pos _ (by norm_num); linarith
  · show (max mx 0 - min mn 0) / 255 * 255 = _
    norm_num

/-- **C56 fails for the range `[0, 0]`** (finding F25): the parameters of a matrix of zeros are
undefined. -/
theorem C56_zero_range_fails : chooseQuantizationParams 0 0 = .error .badOp := by
  unfold chooseQuantizationParams
  simp

theorem QuantizationParams.For.max_side {p : QuantizationParams} {mn mx : ℚ} (h : p.For mn mx) :
    |(p.zeroPoint : ℚ) + max mx 0 / p.scale - 255| ≤ 1 / 2 := by
  have hS := h.pos
  have e : max mx 0 / p.scale = min mn 0 / p.scale + 255 := by
    have : max mx 0 = min mn 0 + p.scale * 255 := by linarith [h.width]
    rw [this, add_div, mul_div_cancel_left₀ _ hS.ne']
  rw [e]
  have := h.nudge
  rw [show (p.zeroPoint : ℚ) + (min mn 0 / p.scale + 255) - 255 =
    (p.zeroPoint : ℚ) + min mn 0 / p.scale by ring]
  exact this

/-- Quantized values of the range are in `[-1/2, 255 + 1/2]`. -/
theorem QuantizationParams.For.transformed {p : QuantizationParams} {mn mx x : ℚ} (h : p.For mn mx)
    (h1 : min mn 0 ≤ x) (h2 : x ≤ max mx 0) :
    -(1 / 2) ≤ (p.zeroPoint : ℚ) + x / p.scale ∧
      (p.zeroPoint : ℚ) + x / p.scale ≤ 255 + 1 / 2 := by
  have hS := h.pos
  have a1 := (abs_le.1 h.nudge).1
  have a2 := (abs_le.1 h.max_side).2
  have b1 : min mn 0 / p.scale ≤ x / p.scale := div_le_div_of_nonneg_right h1 hS.le
  have b2 : x / p.scale ≤ max mx 0 / p.scale := div_le_div_of_nonneg_right h2 hS.le
  constructor <;> linarith

theorem quantizeOne_eq {p : QuantizationParams} (hS : 0 < p.scale) (x : ℚ) :
    ∃ v : Nat, quantizeOne p x = .ok v ∧ v ≤ 255 ∧
      |(v : ℚ) - max 0 (min 255 ((p.zeroPoint : ℚ) + x / p.scale))| ≤ 1 / 2 := by
  unfold quantizeOne
  rw [if_neg hS.ne']
  dsimp only
  generalize ht : max 0 (min 255 ((p.zeroPoint : ℚ) + x / p.scale)) = t
  have t0 : 0 ≤ t := by rw [← ht]; exact le_max_left _ _
  have t1 : t ≤ 255 := by rw [← ht]; exact max_le (by norm_num) (min_le_left _ _)
  have r0 : 0 ≤ roundAway t := by apply le_roundAway t0; push_cast; linarith
  have r1 : roundAway t ≤ 255 := by apply roundAway_le; push_cast; linarith
  refine ⟨_, rfl, by omega, ?_⟩
  have h3 : (((roundAway t).toNat : Nat) : ℚ) = (roundAway t : ℚ) := by
    exact_mod_cast congrArg (fun x : Int => (x : ℚ)) (Int.toNat_of_nonneg r0)
  rw [h3]
  exact roundAway_bounds t

theorem dequantize_sub {p : QuantizationParams} (hS : 0 < p.scale) (v : Nat) (x : ℚ) :
    dequantizeOne p v - x = p.scale * ((v : ℚ) - ((p.zeroPoint : ℚ) + x / p.scale)) := by
  unfold dequantizeOne
  push_cast
  field_simp
  ring

/-- **C56.**  The real number 0 is represented exactly: it is quantized to the zero point, which is
dequantized to 0. -/
theorem C56_zero_exact (mn mx : ℚ) (p : QuantizationParams) (h : p.For mn mx) :
    quantizeOne p 0 = .ok p.zeroPoint ∧ dequantizeOne p p.zeroPoint = 0 := by
  constructor
  · unfold quantizeOne
    rw [if_neg h.pos.ne']
    dsimp only
    rw [zero_div, add_zero]
    have h1 : (p.zeroPoint : ℚ) ≤ 255 := by exact_mod_cast h.zero
    have h2 : (0 : ℚ) ≤ p.zeroPoint := by positivity
    rw [min_eq_right h1, max_eq_right h2]
    have := roundAway_int (p.zeroPoint : Int)
    push_cast at this
    rw [this]
    rfl
  · unfold dequantizeOne
    simp

/-- **C56.**  Every real number of the range is quantized to a uint8 that is dequantized to within one
step of it, and to within half a step if the number lies between two representable ones. -/
theorem C56_error (mn mx x : ℚ) (p : QuantizationParams) (h : p.For mn mx) (h1 : min mn 0 ≤ x)
    (h2 : x ≤ max mx 0) :
    ∃ v, quantizeOne p x = .ok v ∧ v ≤ 255 ∧ |dequantizeOne p v - x| ≤ p.scale ∧
      (dequantizeOne p 0 ≤ x → x ≤ dequantizeOne p 255 → |dequantizeOne p v - x| ≤ p.scale / 2) := by
  have hS := h.pos
  obtain ⟨v, e, hv, hb⟩ := quantizeOne_eq hS x
  obtain ⟨t1, t2⟩ := h.transformed h1 h2
  refine ⟨v, e, hv, ?_, ?_⟩
  · rw [dequantize_sub hS, abs_mul, abs_of_pos hS]
    have hc : |max 0 (min 255 ((p.zeroPoint : ℚ) + x / p.scale)) -
        ((p.zeroPoint : ℚ) + x / p.scale)| ≤ 1 / 2 := by
      generalize (p.zeroPoint : ℚ) + x / p.scale = t at t1 t2
      rw [abs_le]
      rcases le_total t 255 with h3 | h3
      · rw [min_eq_right h3]
        rcases le_total t 0 with h4 | h4
        · rw [max_eq_left h4]; constructor <;> linarith
        · rw [max_eq_right h4]; constructor <;> linarith
      · rw [min_eq_left h3, max_eq_right (by norm_num)]; constructor <;> linarith
    have h3 : |(v : ℚ) - ((p.zeroPoint : ℚ) + x / p.scale)| ≤ 1 := by
      have := abs_add_le ((v : ℚ) - max 0 (min 255 ((p.zeroPoint : ℚ) + x / p.scale)))
        (max 0 (min 255 ((p.zeroPoint : ℚ) + x / p.scale)) - ((p.zeroPoint : ℚ) + x / p.scale))
      rw [sub_add_sub_cancel] at this
      linarith
    calc _ ≤ p.scale * 1 := mul_le_mul_of_nonneg_left h3 hS.le
      _ = p.scale := mul_one _
  · intro a1 a2
    have b1 : 0 ≤ (p.zeroPoint : ℚ) + x / p.scale := by
      have := dequantize_sub hS 0 x
      have h3 : p.scale * ((0 : ℚ) - ((p.zeroPoint : ℚ) + x / p.scale)) ≤ 0 := by
        have : p.scale * (((0 : Nat) : ℚ) - ((p.zeroPoint : ℚ) + x / p.scale)) ≤ 0 := by linarith
        simpa using this
      nlinarith [(mul_nonpos_iff_neg_imp_nonneg).1 h3]
    have b2 : (p.zeroPoint : ℚ) + x / p.scale ≤ 255 := by
      have h3 := dequantize_sub hS 255 x
      by_contra hc
      have : p.scale * (((255 : Nat) : ℚ) - ((p.zeroPoint : ℚ) + x / p.scale)) < 0 := by
        apply mul_neg_of_pos_of_neg hS
        push_cast; linarith
      linarith
    rw [min_eq_right b2, max_eq_right b1] at hb
    rw [dequantize_sub hS, abs_mul, abs_of_pos hS]
    calc _ ≤ p.scale * (1 / 2) := mul_le_mul_of_nonneg_left hb hS.le
      _ = p.scale / 2 := by ring

/-- **C56.**  Dequantizing and quantizing again gives the same value: the representable numbers are
represented exactly. -/
theorem C56_round_trip (mn mx : ℚ) (p : QuantizationParams) (h : p.For mn mx) (v : Nat)
    (hv : v ≤ 255) : quantizeOne p (dequantizeOne p v) = .ok v := by
  have hS := h.pos
  unfold quantizeOne dequantizeOne
  rw [if_neg hS.ne']
  dsimp only
  rw [mul_div_cancel_left₀ _ hS.ne']
  push_cast
  rw [add_sub_cancel]
  have h1 : (v : ℚ) ≤ 255 := by exact_mod_cast hv
  have h2 : (0 : ℚ) ≤ v := by positivity
  rw [min_eq_right h1, max_eq_right h2]
  have := roundAway_int (v : Int)
  push_cast at this
  rw [this]
  rfl

/-- **C56.**  Quantization is monotone. -/
theorem C56_monotone (p : QuantizationParams) (hS : 0 < p.scale) (x y : ℚ) (hxy : x ≤ y) :
    ∃ u v, quantizeOne p x = .ok u ∧ quantizeOne p y = .ok v ∧ u ≤ v := by
  unfold quantizeOne
  rw [if_neg hS.ne', if_neg hS.ne']
  refine ⟨_, _, rfl, rfl, ?_⟩
  have h1 : x / p.scale ≤ y / p.scale := div_le_div_of_nonneg_right hxy hS.le
  have : roundAway (max 0 (min 255 ((p.zeroPoint : ℚ) + x / p.scale))) ≤
      roundAway (max 0 (min 255 ((p.zeroPoint : ℚ) + y / p.scale))) :=
    roundAway_mono (le_max_left _ _) (max_le_max le_rfl (min_le_min le_rfl (by linarith)))
  omega

/-! ## C56: the whole example -/

/-- **C56.**  `FindMinMax` returns the least and the greatest entry. -/
theorem C56_find_min_max (rows cols : Nat) (m : Nat → Nat → ℚ) (hr : 0 < rows) (hc : 0 < cols) :
    ∃ mn mx, findMinMax rows cols m = .ok (mn, mx) ∧
      (∀ i j, i < rows → j < cols → mn ≤ m i j ∧ m i j ≤ mx) ∧
      (∃ i j, i < rows ∧ j < cols ∧ mn = m i j) ∧ ∃ i j, i < rows ∧ j < cols ∧ mx = m i j := by
  -- what holds of the two variables when the entries in `P` have been seen
  have inner : ∀ (i : Nat) (n : Nat) (s : ℚ × ℚ) (P Q : Nat → Nat → Prop),
      (∀ a b, P a b → s.1 ≤ m a b ∧ m a b ≤ s.2) →
      (∃ a b, Q a b ∧ s.1 = m a b) → (∃ a b, Q a b ∧ s.2 = m a b) → (∀ j, j < n → Q i j) →
      (∀ a b, (P a b ∨ (a = i ∧ b < n)) →
        ((List.range n).foldl (fun s j => (min s.1 (m i j), max s.2 (m i j))) s).1 ≤ m a b ∧
        m a b ≤ ((List.range n).foldl (fun s j => (min s.1 (m i j), max s.2 (m i j))) s).2) ∧
      (∃ a b, Q a b ∧
        ((List.range n).foldl (fun s j => (min s.1 (m i j), max s.2 (m i j))) s).1 = m a b) ∧
      (∃ a b, Q a b ∧
        ((List.range n).foldl (fun s j => (min s.1 (m i j), max s.2 (m i j))) s).2 = m a b) := by
    intro i n
    induction n with
    | zero =>
      intro s P Q h1 h2 h3 _
      refine ⟨?_, h2, h3⟩
      rintro a b (h | ⟨_, h⟩)
      · exact h1 a b h
      · omega
    | succ n ih =>
      intro s P Q h1 h2 h3 h4
      obtain ⟨i1, i2, i3⟩ := ih s P Q h1 h2 h3 (fun j hj => h4 j (by omega))
      rw [List.range_succ, List.foldl_append]
      generalize (List.range n).foldl (fun s j => (min s.1 (m i j), max s.2 (m i j))) s = t at i1 i2 i3
      show (∀ a b, _ → min t.1 (m i n) ≤ m a b ∧ m a b ≤ max t.2 (m i n)) ∧
        (∃ a b, Q a b ∧ min t.1 (m i n) = m a b) ∧ (∃ a b, Q a b ∧ max t.2 (m i n) = m a b)
      refine ⟨?_, ?_, ?_⟩
      · rintro a b h
        by_cases hb : a = i ∧ b = n
        · obtain ⟨rfl, rfl⟩ := hb
          exact ⟨min_le_right _ _, le_max_right _ _⟩
        · have : P a b ∨ (a = i ∧ b < n) := by
            rcases h with h | ⟨h, h'⟩
            · exact Or.inl h
            · exact Or.inr ⟨h, by omega⟩
          exact ⟨le_trans (min_le_left _ _) (i1 a b this).1, le_trans (i1 a b this).2 (le_max_left _ _)⟩
      · rcases le_total t.1 (m i n) with h | h
        · rw [min_eq_left h]; exact i2
        · rw [min_eq_right h]; exact ⟨i, n, h4 n (by omega), rfl⟩
      · rcases le_total t.2 (m i n) with h | h
        · rw [max_eq_right h]; exact ⟨i, n, h4 n (by omega), rfl⟩
        · rw [max_eq_left h]; exact i3
  have outer : ∀ n, n ≤ rows →
      (∀ a b, (a < n ∧ b < cols) →
        ((List.range n).foldl (fun s i => (List.range cols).foldl (fun s j =>
          (min s.1 (m i j), max s.2 (m i j))) s) (m 0 0, m 0 0)).1 ≤ m a b ∧
        m a b ≤ ((List.range n).foldl (fun s i => (List.range cols).foldl (fun s j =>
          (min s.1 (m i j), max s.2 (m i j))) s) (m 0 0, m 0 0)).2) ∧
      (∃ a b, (a < rows ∧ b < cols) ∧ ((List.range n).foldl (fun s i => (List.range cols).foldl (fun s j =>
          (min s.1 (m i j), max s.2 (m i j))) s) (m 0 0, m 0 0)).1 = m a b) ∧
      (∃ a b, (a < rows ∧ b < cols) ∧ ((List.range n).foldl (fun s i => (List.range cols).foldl (fun s j =>
          (min s.1 (m i j), max s.2 (m i j))) s) (m 0 0, m 0 0)).2 = m a b) := by
    intro n
    induction n with
    | zero =>
      intro _
      exact ⟨fun a b h => absurd h.1 (by omega), ⟨0, 0, ⟨hr, hc⟩, rfl⟩, ⟨0, 0, ⟨hr, hc⟩, rfl⟩⟩
    | succ n ih =>
      intro hn
      obtain ⟨i1, i2, i3⟩ := ih (by omega)
      rw [List.range_succ, List.foldl_append]
      generalize (List.range n).foldl (fun s i => (List.range cols).foldl (fun s j =>
          (min s.1 (m i j), max s.2 (m i j))) s) (m 0 0, m 0 0) = t at i1 i2 i3
      obtain ⟨j1, j2, j3⟩ := inner n cols t (fun a b => a < n ∧ b < cols)
        (fun a b => a < rows ∧ b < cols) i1 i2 i3 (fun j hj => ⟨by omega, hj⟩)
      refine ⟨fun a b h => j1 a b ?_, j2, j3⟩
      by_cases ha : a = n
      · exact Or.inr ⟨ha, h.2⟩
      · exact Or.inl ⟨by omega, h.2⟩
  obtain ⟨o1, ⟨a, b, ⟨ha, hb⟩, o2⟩, ⟨a', b', ⟨ha', hb'⟩, o3⟩⟩ := outer rows le_rfl
  refine ⟨_, _, ?_, fun i j hi hj => o1 i j ⟨hi, hj⟩, ⟨a, b, ha, hb, o2⟩, ⟨a', b', ha', hb', o3⟩⟩
  unfold findMinMax
  rw [if_neg (by omega)]

/-- The product of two numbers near two others. -/
theorem product_near {a b a' b' S T : ℚ} (hS : 0 ≤ S) (h1 : |a' - a| ≤ S)
    (h2 : |b' - b| ≤ T) (h3 : |a| ≤ 255 * S) (h4 : |b'| ≤ 255 * T) :
    |a' * b' - a * b| ≤ 510 * (S * T) := by
  have e : a' * b' - a * b = (a' - a) * b' + a * (b' - b) := by ring
  rw [e]
  calc _ ≤ |(a' - a) * b'| + |a * (b' - b)| := abs_add_le _ _
    _ = |a' - a| * |b'| + |a| * |b' - b| := by rw [abs_mul, abs_mul]
    _ ≤ S * (255 * T) + 255 * S * T :=
        add_le_add (mul_le_mul h1 h4 (abs_nonneg _) hS)
          (mul_le_mul h3 h2 (abs_nonneg _) (by positivity))
    _ = _ := by ring

/-- A number of the range is at most 255 steps from 0. -/
theorem QuantizationParams.For.abs_le {p : QuantizationParams} {mn mx x : ℚ} (h : p.For mn mx)
    (h1 : min mn 0 ≤ x) (h2 : x ≤ max mx 0) : |x| ≤ 255 * p.scale := by
  have w := h.width
  have a1 : min mn 0 ≤ 0 := min_le_right _ _
  have a2 : 0 ≤ max mx 0 := le_max_right _ _
  rw [_root_.abs_le]
  constructor <;> linarith

theorem dequantize_abs_le {p : QuantizationParams} {mn mx : ℚ} (h : p.For mn mx) {v : Nat}
    (hv : v ≤ 255) : |dequantizeOne p v| ≤ 255 * p.scale := by
  unfold dequantizeOne
  rw [abs_mul, abs_of_pos h.pos, mul_comm]
  apply mul_le_mul_of_nonneg_right _ h.pos.le
  have h1 := h.zero
  have : |(v : Int) - (p.zeroPoint : Int)| ≤ 255 := by rw [_root_.abs_le]; omega
  exact_mod_cast this

/-- **C56.**  What is lost by the computation with the quantized values, for one entry of the product:
`acc` is the accumulator of the integer computation, `y` the result of the output stage, the entry
stored is `y` clamped to a uint8.  The number that the stored entry stands for differs from the exact
product by at most the rounding steps of the result and 510 products of steps for each term. -/
theorem C56_entry (D : Nat) (a b : Nat → ℚ) {pa pb pc : QuantizationParams}
    {mnA mxA mnB mxB mnC mxC : ℚ} (ha : pa.For mnA mxA) (hb : pb.For mnB mxB) (hc : pc.For mnC mxC)
    (hA : ∀ d, d < D → min mnA 0 ≤ a d ∧ a d ≤ max mxA 0)
    (hB : ∀ d, d < D → min mnB 0 ≤ b d ∧ b d ≤ max mxB 0)
    (hC : min mnC 0 ≤ ∑ d ∈ Finset.range D, a d * b d ∧ ∑ d ∈ Finset.range D, a d * b d ≤ max mxC 0)
    (qa qb : Nat → Nat) (hqa : ∀ d, d < D → quantizeOne pa (a d) = .ok (qa d))
    (hqb : ∀ d, d < D → quantizeOne pb (b d) = .ok (qb d))
    (r : ℚ) (hr : r = pa.scale * pb.scale / pc.scale) (hr1 : r < 1 - 1 / 2 ^ 32) (m : Int) (s : Nat)
    (hm : quantizeMultiplierSmallerThanOne r = .ok (m, (s : Int))) (acc y : Int)
    (hacc : acc = ∑ d ∈ Finset.range D,
      ((qa d : Int) - pa.zeroPoint) * ((qb d : Int) - pb.zeroPoint))
    (hy : Spec.ByFixedPoint m s pc.zeroPoint acc y) :
    |dequantizeOne pc (Spec.clampTo 0 255 y).toNat - ∑ d ∈ Finset.range D, a d * b d| ≤
      pc.scale * (1 + 1 / 2 ^ (s + 1) + |(acc : ℚ)| * (r / 2 ^ 31)) +
        510 * (D * (pa.scale * pb.scale)) := by
  have hSa := ha.pos
  have hSb := hb.pos
  have hSc := hc.pos
  have hr0 : 0 < r := by rw [hr]; positivity
  -- the stage
  obtain ⟨m', s', e', hst⟩ := C43_stage r hr0 hr1
  rw [e'] at hm
  injection hm with hm
  injection hm with hm1 hm2
  have hs' : s' = s := by exact_mod_cast hm2
  subst hm1; subst hs'
  have st := hst _ _ _ hy
  -- the exact product of the quantized numbers
  have hprod : pc.scale * ((acc : ℚ) * r) =
      ∑ d ∈ Finset.range D, dequantizeOne pa (qa d) * dequantizeOne pb (qb d) := by
    rw [hr, hacc]
    push_cast
    have : pc.scale * ((∑ d ∈ Finset.range D, ((qa d : ℚ) - pa.zeroPoint) * ((qb d : ℚ) - pb.zeroPoint)) *
        (pa.scale * pb.scale / pc.scale)) = (pa.scale * pb.scale) *
        ∑ d ∈ Finset.range D, ((qa d : ℚ) - pa.zeroPoint) * ((qb d : ℚ) - pb.zeroPoint) := by
      field_simp
    rw [this, Finset.mul_sum]
    apply Finset.sum_congr rfl
    intro d _
    unfold dequantizeOne
    push_cast
    ring
  have hsum : |(∑ d ∈ Finset.range D, dequantizeOne pa (qa d) * dequantizeOne pb (qb d)) -
      ∑ d ∈ Finset.range D, a d * b d| ≤ 510 * (D * (pa.scale * pb.scale)) := by
    rw [← Finset.sum_sub_distrib]
    calc _ ≤ ∑ d ∈ Finset.range D, |dequantizeOne pa (qa d) * dequantizeOne pb (qb d) - a d * b d| :=
          Finset.abs_sum_le_sum_abs _ _
      _ ≤ ∑ _d ∈ Finset.range D, 510 * (pa.scale * pb.scale) := by
          apply Finset.sum_le_sum
          intro d hd
          rw [Finset.mem_range] at hd
          obtain ⟨va, ea, va1, va2, _⟩ := C56_error mnA mxA (a d) pa ha (hA d hd).1 (hA d hd).2
          obtain ⟨vb, eb, vb1, vb2, _⟩ := C56_error mnB mxB (b d) pb hb (hB d hd).1 (hB d hd).2
          rw [hqa d hd] at ea
          rw [hqb d hd] at eb
          injection ea with ea
          injection eb with eb
          subst ea; subst eb
          exact product_near hSa.le va2 vb2 (ha.abs_le (hA d hd).1 (hA d hd).2)
            (dequantize_abs_le hb vb1)
      _ = _ := by
          rw [Finset.sum_const, Finset.card_range, nsmul_eq_mul]; ring
  generalize hc' : ∑ d ∈ Finset.range D, a d * b d = c at *
  generalize ∑ d ∈ Finset.range D, dequantizeOne pa (qa d) * dequantizeOne pb (qb d) = c' at *
  -- before the clamping
  have hun : |pc.scale * ((y - pc.zeroPoint : Int) : ℚ) - c| ≤
      pc.scale * (1 / 2 + 1 / 2 ^ (s' + 1) + |(acc : ℚ)| * (r / 2 ^ 31)) +
        510 * (D * (pa.scale * pb.scale)) := by
    have e1 : pc.scale * ((y - pc.zeroPoint : Int) : ℚ) - c =
        pc.scale * (((y - pc.zeroPoint : Int) : ℚ) - acc * r) + (c' - c) := by
      rw [← hprod]; ring
    rw [e1]
    calc _ ≤ |pc.scale * (((y - pc.zeroPoint : Int) : ℚ) - acc * r)| + |c' - c| := abs_add_le _ _
      _ ≤ _ := by
        apply add_le_add _ hsum
        rw [abs_mul, abs_of_pos hSc]
        exact mul_le_mul_of_nonneg_left st hSc.le
  -- the clamping
  obtain ⟨t1, t2⟩ := hc.transformed hC.1 hC.2
  have hcl : |((Spec.clampTo 0 255 y).toNat : ℚ) - (pc.zeroPoint + c / pc.scale)| ≤
      |(y : ℚ) - (pc.zeroPoint + c / pc.scale)| + 1 / 2 := by
    generalize (pc.zeroPoint : ℚ) + c / pc.scale = t at t1 t2
    have hab := le_abs_self ((y : ℚ) - t)
    have hab' := neg_le_abs ((y : ℚ) - t)
    unfold Spec.clampTo
    by_cases y1 : y < 0
    · rw [if_pos y1]
      have : (y : ℚ) ≤ 0 := by exact_mod_cast y1.le
      rw [show (0 : Int).toNat = 0 from rfl, _root_.abs_le]
      push_cast
      constructor <;> linarith
    · rw [if_neg y1]
      by_cases y2 : 255 < y
      · rw [if_pos y2]
        have : (255 : ℚ) ≤ y := by exact_mod_cast y2.le
        rw [show (255 : Int).toNat = 255 from rfl, _root_.abs_le]
        push_cast
        constructor <;> linarith
      · rw [if_neg y2]
        have : ((y.toNat : Nat) : ℚ) = (y : ℚ) := by
          exact_mod_cast congrArg (fun x : Int => (x : ℚ)) (Int.toNat_of_nonneg (not_lt.1 y1))
        rw [this]
        linarith
  rw [dequantize_sub hSc, abs_mul, abs_of_pos hSc]
  have e2 : pc.scale * |(y : ℚ) - (pc.zeroPoint + c / pc.scale)| =
      |pc.scale * ((y - pc.zeroPoint : Int) : ℚ) - c| := by
    have : pc.scale * ((y - pc.zeroPoint : Int) : ℚ) - c =
        pc.scale * ((y : ℚ) - (pc.zeroPoint + c / pc.scale)) := by
      push_cast
      field_simp
      ring
    rw [this, abs_mul, abs_of_pos hSc]
  calc _ ≤ pc.scale * (|(y : ℚ) - (pc.zeroPoint + c / pc.scale)| + 1 / 2) :=
        mul_le_mul_of_nonneg_left hcl hSc.le
    _ = |pc.scale * ((y - pc.zeroPoint : Int) : ℚ) - c| + pc.scale * (1 / 2) := by rw [mul_add, e2]
    _ ≤ _ := by linarith

/-! ## C56: the example with the multiplication itself -/

theorem nearestAway_exists (x d : Int) (hd : 0 < d) : ∃ q, Spec.NearestAway x d q := by
  by_cases hx : 0 ≤ x
  · refine ⟨(2 * x + d) / (2 * d), ?_⟩
    have := (Spec.nearestUp_iff hd).2 (rfl : (2 * x + d) / (2 * d) = (2 * x + d) / (2 * d))
    unfold Spec.NearestAway
    rw [if_pos hx]
    exact this
  · have := (Spec.nearestUp_iff (x := -x) hd).2 (rfl : (2 * -x + d) / (2 * d) = _)
    refine ⟨-((2 * -x + d) / (2 * d)), ?_⟩
    unfold Spec.NearestAway
    rw [if_neg hx, Int.neg_mul]
    unfold Spec.NearestUp at this
    omega

/-- The output stage of the example always has a result. -/
theorem byFixedPoint_exists {m acc : Int} {s z : Nat} (hs : s ≤ 31) (hz : z ≤ 255)
    (hm1 : 2 ^ 30 ≤ m) (hm2 : m < 2 ^ 31) (h1 : -2147385600 ≤ acc) (h2 : acc ≤ 2147385600) :
    ∃ y, Spec.ByFixedPoint m s z acc y := by
  norm_num at hm1 hm2
  obtain ⟨h, hh, hi⟩ := highMul_total (x := acc) (mu := m) ⟨by omega, by omega⟩ ⟨by omega, by omega⟩
  have hP : (1 : Int) ≤ 2 ^ s := by exact_mod_cast Nat.one_le_two_pow
  obtain ⟨q, hq⟩ := nearestAway_exists h (2 ^ s) (by omega)
  have hh' : |h| ≤ 2147385601 := by
    unfold Spec.HighMul at hh
    rw [if_neg (by omega)] at hh
    obtain ⟨u1, u2⟩ := hh
    have b1 : acc * m ≤ 2147385600 * 2147483648 := by nlinarith
    have b2 : -(2147385600 * 2147483648) ≤ acc * m := by nlinarith
    rw [_root_.abs_le]
    constructor <;> omega
  have hq' : |q| ≤ 2147385602 := by
    have u : 2 * h - (2 : Int) ^ s ≤ 2 * (q * 2 ^ s) ∧ 2 * (q * 2 ^ s) ≤ 2 * h + (2 : Int) ^ s := by
      unfold Spec.NearestAway at hq
      split at hq
      · exact ⟨hq.1.le, hq.2⟩
      · exact ⟨hq.1, hq.2.le⟩
    rw [_root_.abs_le] at hh' ⊢
    constructor
    · by_contra hc
      nlinarith
    · by_contra hc
      nlinarith
  rw [_root_.abs_le] at hq'
  refine ⟨q + z, by omega, by omega, ⟨by omega, by omega⟩, h, hh, ?_⟩
  rw [Int.toNat_natCast, Int.add_sub_cancel]
  exact hq

/-- The accumulator of the example. -/
theorem example_acc_bound (D : Nat) (x y : Nat → Int) (hD : D ≤ 33024)
    (hx : ∀ d, -255 ≤ x d ∧ x d ≤ 255) (hy : ∀ d, -255 ≤ y d ∧ y d ≤ 255) :
    |∑ d ∈ Finset.range D, x d * y d| ≤ 65025 * D ∧
      -2147385600 ≤ ∑ d ∈ Finset.range D, x d * y d ∧ ∑ d ∈ Finset.range D, x d * y d ≤ 2147385600 := by
  have h : |∑ d ∈ Finset.range D, x d * y d| ≤ 65025 * D := by
    calc _ ≤ ∑ d ∈ Finset.range D, |x d * y d| := Finset.abs_sum_le_sum_abs _ _
      _ ≤ ∑ _d ∈ Finset.range D, (65025 : Int) := by
          apply Finset.sum_le_sum
          intro d _
          rw [abs_mul]
          have a1 : |x d| ≤ 255 := _root_.abs_le.2 (hx d)
          have a2 : |y d| ≤ 255 := _root_.abs_le.2 (hy d)
          calc |x d| * |y d| ≤ 255 * 255 := mul_le_mul a1 a2 (abs_nonneg _) (by norm_num)
            _ = 65025 := by norm_num
      _ = _ := by rw [Finset.sum_const, Finset.card_range, nsmul_eq_mul]; ring
  refine ⟨h, ?_⟩
  rw [_root_.abs_le] at h
  constructor <;> omega

/-- The call of `GemmWithOutputPipeline` in doc/quantization_example.cc:333-365. -/
abbrev exampleCall (lhsMem : Mem) (lhs : MatrixMap) (rhsMem : Mem) (rhs result : MatrixMap)
    (za zb zc : Nat) (m s : Int) : Call :=
  { lhsMem, lhs, rhsMem, rhs, result
    pipe := { stages := [.byFixedPoint (BitVec.ofInt 32 m) (BitVec.ofInt 32 s) (BitVec.ofInt 32 zc)]
              cast := .satUint8 }
    lhsOffset := .dup .col (BitVec.ofInt 32 (-za)) lhs.rows
    rhsOffset := .dup .row (BitVec.ofInt 32 (-zb)) rhs.cols }

/-- **C56, the whole example.**  Two real matrices are quantized with the parameters for ranges that
contain their entries, multiplied by `GemmWithOutputPipeline` with the zero points as offsets and the
fixed-point multiplier for `scaleA * scaleB / scaleC`, and the result is dequantized: for all
environments, thread counts and schedules every entry is within the bound of the exact product, provided
that the result range contains it.  (With the C++ rule for overflow too: nothing overflows.) -/
theorem C56_example {e : Env} {lhsMem rhsMem : Mem} {lhs rhs result : MatrixMap}
    {L R : Nat → Nat → UInt8} (A B : Nat → Nat → ℚ) {pa pb pc : QuantizationParams}
    {mnA mxA mnB mxB mnC mxC : ℚ} (ha : pa.For mnA mxA) (hb : pb.For mnB mxB) (hc : pc.For mnC mxC)
    (hA : ∀ i d, i < result.rows → d < lhs.cols → min mnA 0 ≤ A i d ∧ A i d ≤ max mxA 0)
    (hB : ∀ d j, d < lhs.cols → j < result.cols → min mnB 0 ≤ B d j ∧ B d j ≤ max mxB 0)
    (hC : ∀ i j, i < result.rows → j < result.cols →
      min mnC 0 ≤ ∑ d ∈ Finset.range lhs.cols, A i d * B d j ∧
        ∑ d ∈ Finset.range lhs.cols, A i d * B d j ≤ max mxC 0)
    (hL : ∀ i d, i < result.rows → d < lhs.cols → quantizeOne pa (A i d) = .ok (L i d).toNat)
    (hR : ∀ d j, d < lhs.cols → j < result.cols → quantizeOne pb (B d j) = .ok (R d j).toNat)
    (r : ℚ) (hr : r = pa.scale * pb.scale / pc.scale) (hr0 : 1 / 2 ^ 32 ≤ r)
    (hr1 : r < 1 - 1 / 2 ^ 32) (m s : Int)
    (hm : quantizeMultiplierSmallerThanOne r = .ok (m, s))
    (h1 : ∀ i d, i < result.rows → d < lhs.cols → lhsMem (lhs.addr i d) = some (L i d))
    (h2 : ∀ d j, d < lhs.cols → j < result.cols → rhsMem (rhs.addr d j) = some (R d j))
    (h3 : lhs.rows = result.rows) (h4 : rhs.cols = result.cols) (h5 : lhs.cols = rhs.rows)
    (hd0 : 0 < lhs.cols) (hd1 : lhs.cols ≤ 33024) (hs : result.StrideOk)
    (he : e.Ok .uint8 (exampleCall lhsMem lhs rhsMem rhs result pa.zeroPoint pb.zeroPoint pc.zeroPoint m s)
      L R) :
    ∃ pl, gemmWithOutputPipelinePC e (exampleCall lhsMem lhs rhsMem rhs result pa.zeroPoint
        pb.zeroPoint pc.zeroPoint m s) = .ok pl ∧ (∃ t, Outcome pl t) ∧
      ∀ t, Outcome pl t → ∀ mem i j, i < result.rows → j < result.cols →
        ∃ v : Nat, v ≤ 255 ∧ applyStores mem t (result.addr i j) = v ∧
          |dequantizeOne pc v - ∑ d ∈ Finset.range lhs.cols, A i d * B d j| ≤
            pc.scale * (1 + 1 / 2 ^ (s.toNat + 1) + 65025 * lhs.cols * (r / 2 ^ 31)) +
              510 * (lhs.cols * (pa.scale * pb.scale)) := by
  obtain ⟨m', s', e', hs31⟩ := C43_shift r hr0 hr1
  have hrp : 0 < r := lt_of_lt_of_le (by norm_num) hr0
  obtain ⟨m'', s'', e'', m1, m2, _, _, _⟩ := C43_multiplier_partial r hrp hr1
  rw [e'] at e''
  injection e'' with e''
  injection e'' with e1 e2
  rw [e'] at hm
  injection hm with hm
  injection hm with e3 e4
  subst e1; subst e3; subst e4
  rw [Int.toNat_natCast]
  have hza := ha.zero
  have hzb := hb.zero
  have hzc := hc.zero
  norm_num at m1 m2
  -- the words hold the numbers
  have wm : (BitVec.ofInt 32 m').toInt = m' := toInt_ofInt32 ⟨by omega, by omega⟩
  have ws : (BitVec.ofInt 32 (s' : Int)).toInt = s' := toInt_ofInt32 ⟨by omega, by omega⟩
  have wc : (BitVec.ofInt 32 (pc.zeroPoint : Int)).toInt = pc.zeroPoint :=
    toInt_ofInt32 ⟨by omega, by omega⟩
  have wa : (BitVec.ofInt 32 (-(pa.zeroPoint : Int))).toInt = -pa.zeroPoint :=
    toInt_ofInt32 ⟨by omega, by omega⟩
  have wb : (BitVec.ofInt 32 (-(pb.zeroPoint : Int))).toInt = -pb.zeroPoint :=
    toInt_ofInt32 ⟨by omega, by omega⟩
  -- the accumulators
  have hacc : ∀ i j, |∑ d ∈ Finset.range lhs.cols,
        (((L i d).toNat : Int) - pa.zeroPoint) * (((R d j).toNat : Int) - pb.zeroPoint)| ≤ 65025 * lhs.cols ∧
      -2147385600 ≤ ∑ d ∈ Finset.range lhs.cols,
        (((L i d).toNat : Int) - pa.zeroPoint) * (((R d j).toNat : Int) - pb.zeroPoint) ∧
      ∑ d ∈ Finset.range lhs.cols,
        (((L i d).toNat : Int) - pa.zeroPoint) * (((R d j).toNat : Int) - pb.zeroPoint) ≤ 2147385600 := by
    intro i j
    apply example_acc_bound _ _ _ hd1
    · intro d
      have := (L i d).toNat_lt
      omega
    · intro d
      have := (R d j).toNat_lt
      omega
  choose y hy using fun i j => byFixedPoint_exists (s := s') hs31 hzc (by norm_num; omega)
    (by norm_num; omega) (hacc i j).2.1 (hacc i j).2.2
  have hprod : ∀ i j, productEntry .uint8 lhs.cols L R (fun _ => (BitVec.ofInt 32 (-(pa.zeroPoint : Int))).toInt)
      (fun _ => (BitVec.ofInt 32 (-(pb.zeroPoint : Int))).toInt) i j =
      ∑ d ∈ Finset.range lhs.cols,
        (((L i d).toNat : Int) - pa.zeroPoint) * (((R d j).toNat : Int) - pb.zeroPoint) := by
    intro i j
    unfold productEntry
    rw [wa, wb]
    rfl
  have hplain : (exampleCall lhsMem lhs rhsMem rhs result pa.zeroPoint pb.zeroPoint pc.zeroPoint m' s').pipe.Plain :=
    ⟨fun s hs => by
      rw [List.mem_singleton.1 hs]
      show (BitVec.ofInt 32 m').toInt ≠ _
      rw [wm]; omega, Or.inr (Or.inl rfl)⟩
  obtain ⟨pl, p1, p2, p3⟩ := C01_documented_pipeline (e := e) (L := L) (R := R)
    (LO := fun _ => BitVec.ofInt 32 (-(pa.zeroPoint : Int)))
    (RO := fun _ => BitVec.ofInt 32 (-(pb.zeroPoint : Int)))
    (c := exampleCall lhsMem lhs rhsMem rhs result pa.zeroPoint pb.zeroPoint pc.zeroPoint m' s')
    (val := fun i j => Spec.clampTo 0 255 (y i j))
    { lhs := h1, rhs := h2, rows := h3, cols := h4, depth := h5
      lhsOffset := ⟨trivial, h3, fun _ _ => rfl⟩, rhsOffset := ⟨trivial, h4, fun _ _ => rfl⟩ }
    (fun _ => ⟨hd1, fun _ _ => by rw [wa]; show (-255 : Int) ≤ _ ∧ _ ≤ (0 : Int); omega, fun _ _ => by rw [wb]; show (-255 : Int) ≤ _ ∧ _ ≤ (0 : Int); omega⟩) he hd0 hs (hplain.agrees ..)
    (fun _ i j _ _ => by
      rw [hprod]
      have := (hacc i j).2
      exact ⟨by omega, by omega⟩)
    (fun i j _ _ => by
      refine ⟨y i j, ⟨y i j, ?_, rfl⟩, rfl⟩
      show Spec.ByFixedPoint _ _ _ _ _
      rw [wm, ws, wc, hprod]
      exact hy i j)
  refine ⟨pl, p1, p2, fun t ht mem i j hi hj => ?_⟩
  have hcl : 0 ≤ Spec.clampTo 0 255 (y i j) ∧ Spec.clampTo 0 255 (y i j) ≤ 255 := by
    unfold Spec.clampTo
    split
    · omega
    · split <;> omega
  refine ⟨(Spec.clampTo 0 255 (y i j)).toNat, by omega, ?_, ?_⟩
  · rw [Int.toNat_of_nonneg hcl.1]
    exact p3 t ht mem i j hi hj
  · refine le_trans (C56_entry lhs.cols (fun d => A i d) (fun d => B d j) ha hb hc
      (fun d hd => hA i d hi hd) (fun d hd => hB d j hd hj) (hC i j hi hj) (fun d => (L i d).toNat)
      (fun d => (R d j).toNat) (fun d hd => hL i d hi hd) (fun d hd => hR d j hd hj) r hr hr1 m' s' e' _
      (y i j) rfl (hy i j)) ?_
    have h6 : |((∑ d ∈ Finset.range lhs.cols,
        (((L i d).toNat : Int) - pa.zeroPoint) * (((R d j).toNat : Int) - pb.zeroPoint) : Int) : ℚ)| ≤
        65025 * lhs.cols := by
      exact_mod_cast (hacc i j).1
    have h7 : 0 ≤ r / 2 ^ 31 := by positivity
    have h8 := mul_le_mul_of_nonneg_right h6 h7
    have h9 := mul_le_mul_of_nonneg_left
      (show 1 + 1 / 2 ^ (s' + 1) + |((∑ d ∈ Finset.range lhs.cols,
        (((L i d).toNat : Int) - pa.zeroPoint) * (((R d j).toNat : Int) - pb.zeroPoint) : Int) : ℚ)| *
          (r / 2 ^ 31) ≤ 1 + 1 / 2 ^ (s' + 1) + 65025 * lhs.cols * (r / 2 ^ 31) by linarith) hc.pos.le
    linarith

/-! ## The hypotheses can be met -/

/-- The parameters of the range `[-7, 248]`: scale 1, zero point 7. -/
theorem sampleParams : (QuantizationParams.mk 1 7).For (-7) 248 := by
  refine ⟨by norm_num, ?_, by norm_num, ?_⟩
  · show (1 : ℚ) * 255 = max 248 0 - min (-7) 0
    norm_num
  · show |((7 : Nat) : ℚ) + min (-7) 0 / 1| ≤ 1 / 2
    norm_num

/-- The parameters of the range `[-127500, 127500]` of the result: scale 1000, zero point 128, after a
real rounding of the zero point 127.5. -/
theorem sampleResultParams : (QuantizationParams.mk 1000 128).For (-127500) 127500 := by
  refine ⟨by norm_num, ?_, by norm_num, ?_⟩
  · show (1000 : ℚ) * 255 = max 127500 0 - min (-127500) 0
    norm_num
  · show |((128 : Nat) : ℚ) + min (-127500) 0 / 1000| ≤ 1 / 2
    norm_num [abs_le]

/-- A multiplier with a shift, one next to the failing ones, one that a float holds. -/
example : (0 : ℚ) < 1 / 1000 ∧ (1 / 1000 : ℚ) < 1 - 1 / 2 ^ 32 ∧
    (1 - 1 / 2 ^ 32 : ℚ) ≤ 1 - 1 / 2 ^ 33 ∧ (1 - 1 / 2 ^ 33 : ℚ) < 1 ∧ 16777215 < 2 ^ 24 := by norm_num

/-- The call of `sampleCall` as the call of the example: all hypotheses of `C56_example` are met, with
two operands that are the numbers quantized to `sampleL` and `sampleR`. -/
example : ∃ m s pl, quantizeMultiplierSmallerThanOne (1 * 1 / 1000) = .ok (m, s) ∧
    gemmWithOutputPipelinePC sampleEnv (exampleCall sampleCall.lhsMem sampleCall.lhs sampleCall.rhsMem
      sampleCall.rhs sampleCall.result 7 7 128 m s) = .ok pl := by
  obtain ⟨m, s, e, _⟩ := C43_multiplier_partial (1 * 1 / 1000) (by norm_num) (by norm_num)
  have hq : ∀ x : UInt8, quantizeOne (QuantizationParams.mk 1 7)
      (dequantizeOne (QuantizationParams.mk 1 7) x.toNat) = .ok x.toNat := fun x => by
    have := x.toNat_lt
    exact C56_round_trip _ _ _ sampleParams _ (by omega)
  have hd : ∀ x : UInt8, dequantizeOne (QuantizationParams.mk 1 7) x.toNat = (x.toNat : ℚ) - 7 :=
    fun x => by unfold dequantizeOne; push_cast; ring
  have hb : ∀ x : UInt8, -7 ≤ dequantizeOne (QuantizationParams.mk 1 7) x.toNat ∧
      dequantizeOne (QuantizationParams.mk 1 7) x.toNat ≤ 248 := fun x => by
    rw [hd]
    have h1 : (x.toNat : ℚ) ≤ 255 := by
      have := x.toNat_lt
      exact_mod_cast (by omega : x.toNat ≤ 255)
    have h2 : (0 : ℚ) ≤ x.toNat := by positivity
    constructor <;> linarith
  have hr : ∀ x : UInt8, min (-7 : ℚ) 0 ≤ dequantizeOne (QuantizationParams.mk 1 7) x.toNat ∧
      dequantizeOne (QuantizationParams.mk 1 7) x.toNat ≤ max 248 0 := fun x =>
    ⟨le_trans (min_le_left _ _) (hb x).1, le_trans (hb x).2 (le_max_left _ _)⟩
  obtain ⟨pl, h, _⟩ := C56_example (e := sampleEnv) (lhsMem := sampleCall.lhsMem)
    (rhsMem := sampleCall.rhsMem) (lhs := sampleCall.lhs) (rhs := sampleCall.rhs)
    (result := sampleCall.result) (L := sampleL) (R := sampleR)
    (fun i d => dequantizeOne (QuantizationParams.mk 1 7) (sampleL i d).toNat)
    (fun d j => dequantizeOne (QuantizationParams.mk 1 7) (sampleR d j).toNat)
    sampleParams sampleParams sampleResultParams (fun _ _ _ _ => hr _) (fun _ _ _ _ => hr _)
    (fun i j hi hj => by
      rw [show sampleCall.lhs.cols = 3 from rfl]
      simp only [hd]
      have hi' : i < 2 := hi
      have hj' : j < 3 := hj
      interval_cases i <;> interval_cases j <;>
        (simp only [Finset.sum_range_succ, Finset.sum_range_zero, sampleL, sampleR]; norm_num))
    (fun _ _ _ _ => hq _) (fun _ _ _ _ => hq _) (1 * 1 / 1000) rfl (by norm_num) (by norm_num) m s e
    (forall_lt_lt (by decide)) (forall_lt_lt (by decide)) rfl rfl rfl (by decide) (by decide) (by decide)
    ⟨sampleFormat_wf, ⟨_, referenceKernel_meets sampleFormat_wf, Call.within_true _ _ _ _ _⟩, rfl, rfl,
      fun o _ => packBlock_meets _ sampleFormat_wf.lhs rfl o, fun o _ => packBlock_meets _ sampleFormat_wf.rhs rfl o, by decide,
      by decide, (sampleEnv_ok sampleL sampleR).fits1, (sampleEnv_ok sampleL sampleR).fits2⟩
  exact ⟨m, s, pl, e, h⟩

end Gemmlowp
