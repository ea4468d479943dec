import Verif.TransProof2
import Mathlib.Analysis.Complex.Exponential
import Mathlib.Analysis.Complex.Trigonometric
import Mathlib.Tactic.FieldSimp
import Mathlib.Tactic.Positivity
/-!
# How far exp, logistic and tanh are from the real functions: error analysis

One unit is `u = 2^-31`, the weight of the last bit of the results.
-/
namespace Gemmlowp.Fx

/-- A raw value with no integer bits, as a real number. -/
noncomputable def val (x : Int) : ℝ := (x : ℝ) / 2147483648

/-- One unit in the last place. -/
noncomputable def u : ℝ := 1 / 2147483648

theorem val_add (a b : Int) : val (a + b) = val a + val b := by
  unfold val; push_cast; ring

theorem sm_real (a b : Int) : |val (sm a b) - val a * val b| ≤ u / 2 := by
  obtain ⟨h1, h2⟩ := sm_err a b
  have h1' : ((-1073741824 : Int) : ℝ) ≤ ((2147483648 * sm a b - a * b : Int) : ℝ) := Int.cast_le.2 h1
  have h2' : ((2147483648 * sm a b - a * b : Int) : ℝ) ≤ ((1073741824 : Int) : ℝ) := Int.cast_le.2 h2
  push_cast at h1' h2'
  unfold val u
  rw [abs_le]
  constructor
  · rw [← sub_nonneg]
    have : (sm a b : ℝ) / 2147483648 - a / 2147483648 * (b / 2147483648) - -(1 / 2147483648 / 2) =
        (2147483648 * (sm a b : ℝ) - a * b + 1073741824) / (2147483648 * 2147483648) := by
      field_simp; ring
    rw [this]
    apply div_nonneg <;> linarith
  · rw [← sub_nonneg]
    have : (1 / 2147483648 / 2 : ℝ) - ((sm a b : ℝ) / 2147483648 - a / 2147483648 * (b / 2147483648)) =
        (1073741824 - (2147483648 * (sm a b : ℝ) - a * b)) / (2147483648 * 2147483648) := by
      field_simp; ring
    rw [this]
    apply div_nonneg <;> linarith

theorem rd_err {h x : Int} (hh : 0 < h) : -h ≤ 2 * h * rd h x - x ∧ 2 * h * rd h x - x ≤ h := by
  unfold rd
  split
  · have h1 := Int.emod_add_mul_ediv (x + h) (2 * h)
    have h2 := Int.emod_nonneg (x + h) (show 2 * h ≠ 0 by omega)
    have h3 := Int.emod_lt_of_pos (x + h) (show 0 < 2 * h by omega)
    constructor <;> omega
  · have h1 := Int.emod_add_mul_ediv (-x + h) (2 * h)
    have h2 := Int.emod_nonneg (-x + h) (show 2 * h ≠ 0 by omega)
    have h3 := Int.emod_lt_of_pos (-x + h) (show 0 < 2 * h by omega)
    rw [Int.mul_neg]
    constructor <;> omega

theorem rd2_real (x : Int) : |val (rd 2 x) - val x / 4| ≤ u / 2 := by
  obtain ⟨h1, h2⟩ := rd_err (h := 2) (x := x) (by omega)
  have h1' : ((-2 : Int) : ℝ) ≤ ((2 * 2 * rd 2 x - x : Int) : ℝ) := Int.cast_le.2 h1
  have h2' : ((2 * 2 * rd 2 x - x : Int) : ℝ) ≤ ((2 : Int) : ℝ) := Int.cast_le.2 h2
  push_cast at h1' h2'
  unfold val u
  rw [abs_le]
  constructor <;> linarith

theorem rd1_real (x : Int) : |val (rd 1 x) - val x / 2| ≤ u / 2 := by
  obtain ⟨h1, h2⟩ := rd_err (h := 1) (x := x) (by omega)
  have h1' : ((-1 : Int) : ℝ) ≤ ((2 * 1 * rd 1 x - x : Int) : ℝ) := Int.cast_le.2 h1
  have h2' : ((2 * 1 * rd 1 x - x : Int) : ℝ) ≤ ((1 : Int) : ℝ) := Int.cast_le.2 h2
  push_cast at h1' h2'
  unfold val u
  rw [abs_le]
  constructor <;> linarith

/-- Error of a product. -/
theorem prod_err {a b α β ea eb A B : ℝ} (ha : |a - α| ≤ ea) (hb : |b - β| ≤ eb) (hA : |α| ≤ A)
    (hB : |b| ≤ B) : |a * b - α * β| ≤ ea * B + A * eb := by
  have : a * b - α * β = (a - α) * b + α * (b - β) := by ring
  rw [this]
  refine le_trans (abs_add_le _ _) ?_
  rw [abs_mul, abs_mul]
  have p0 := le_trans (abs_nonneg _) ha
  have p1 := le_trans (abs_nonneg _) hA
  exact add_le_add (mul_le_mul ha hB (abs_nonneg _) p0) (mul_le_mul hA hb (abs_nonneg _) p1)

theorem abs_tri {a b c x y : ℝ} (h1 : |a - b| ≤ x) (h2 : |b - c| ≤ y) : |a - c| ≤ x + y := by
  rw [abs_le] at *; constructor <;> linarith [h1.1, h1.2, h2.1, h2.2]

/-! ## Certified values of the exponential -/

theorem taylor4 {x : ℝ} (hx : |x| ≤ 1 / 8) :
    |Real.exp x - (1 + x + x ^ 2 / 2 + x ^ 3 / 6 + x ^ 4 / 24)| ≤ 560 * u := by
  have hb := Real.exp_bound (x := x) (n := 7) (by linarith) (by norm_num)
  have h1 : |x| ^ 5 ≤ (1 / 8) ^ 5 := pow_le_pow_left₀ (abs_nonneg _) hx 5
  have h2 : |x| ^ 6 ≤ (1 / 8) ^ 6 := pow_le_pow_left₀ (abs_nonneg _) hx 6
  have h3 : |x| ^ 7 ≤ (1 / 8) ^ 7 := pow_le_pow_left₀ (abs_nonneg _) hx 7
  rw [← abs_pow] at h1 h2
  norm_num [Finset.sum_range_succ, Nat.factorial] at hb
  rw [abs_le] at h1 h2 hb
  unfold u
  rw [abs_le]
  norm_num at h1 h2 h3 ⊢
  constructor <;> linarith

theorem exp_eighth : |val 1895147668 - Real.exp (-(1 / 8))| ≤ u := by
  have hb := Real.exp_bound (x := -(1 / 8)) (n := 9) (by norm_num [abs_le]) (by norm_num)
  norm_num [Finset.sum_range_succ, Nat.factorial] at hb
  rw [abs_le] at hb ⊢
  unfold val u
  norm_num
  constructor <;> linarith

/-- A bound on `exp (-x)` gives one on `exp (-2x)`. -/
theorem exp_double {x lo hi lo' hi' : ℝ} (h : lo ≤ Real.exp (-x) ∧ Real.exp (-x) ≤ hi) (h0 : 0 ≤ lo)
    (h1 : lo' ≤ lo * lo) (h2 : hi * hi ≤ hi') :
    lo' ≤ Real.exp (-(2 * x)) ∧ Real.exp (-(2 * x)) ≤ hi' := by
  have e : Real.exp (-(2 * x)) = Real.exp (-x) * Real.exp (-x) := by
    rw [← Real.exp_add]; congr 1; ring
  rw [e]
  have hp := Real.exp_pos (-x)
  constructor
  · exact le_trans h1 (mul_le_mul h.1 h.1 h0 hp.le)
  · exact le_trans (mul_le_mul h.2 h.2 hp.le (le_trans hp.le h.2)) h2

theorem exp_quarter : 7788007830714 / 10 ^ 13 ≤ Real.exp (-(1 / 4)) ∧
    Real.exp (-(1 / 4)) ≤ 7788007830715 / 10 ^ 13 := by
  have hb := Real.exp_bound (x := -(1 / 4)) (n := 11) (by norm_num [abs_le]) (by norm_num)
  norm_num [Finset.sum_range_succ, Nat.factorial] at hb
  rw [abs_le] at hb
  constructor <;> linarith

theorem exp_half : 6065306597124 / 10 ^ 13 ≤ Real.exp (-(1 / 2)) ∧
    Real.exp (-(1 / 2)) ≤ 6065306597128 / 10 ^ 13 := by
  have := exp_double (x := 1 / 4) exp_quarter (by norm_num) (lo' := 6065306597124 / 10 ^ 13)
    (hi' := 6065306597128 / 10 ^ 13) (by norm_num) (by norm_num)
  norm_num at this ⊢; exact this

theorem exp_one' : 3678794411709 / 10 ^ 13 ≤ Real.exp (-1) ∧
    Real.exp (-1) ≤ 3678794411717 / 10 ^ 13 := by
  have := exp_double (x := 1 / 2) exp_half (by norm_num) (lo' := 3678794411709 / 10 ^ 13)
    (hi' := 3678794411717 / 10 ^ 13) (by norm_num) (by norm_num)
  norm_num at this ⊢; exact this

theorem exp_two : 1353352832362 / 10 ^ 13 ≤ Real.exp (-2) ∧
    Real.exp (-2) ≤ 1353352832371 / 10 ^ 13 := by
  have := exp_double (x := 1) exp_one' (by norm_num) (lo' := 1353352832362 / 10 ^ 13)
    (hi' := 1353352832371 / 10 ^ 13) (by norm_num) (by norm_num)
  norm_num at this ⊢; exact this

theorem exp_four : 183156388 / 10 ^ 10 ≤ Real.exp (-4) ∧ Real.exp (-4) ≤ 183156389 / 10 ^ 10 := by
  have := exp_double (x := 2) exp_two (by norm_num) (lo' := 183156388 / 10 ^ 10)
    (hi' := 183156389 / 10 ^ 10) (by norm_num) (by norm_num)
  norm_num at this ⊢; exact this

theorem exp_eight : 3354626 / 10 ^ 10 ≤ Real.exp (-8) ∧ Real.exp (-8) ≤ 3354627 / 10 ^ 10 := by
  have := exp_double (x := 4) exp_four (by norm_num) (lo' := 3354626 / 10 ^ 10)
    (hi' := 3354627 / 10 ^ 10) (by norm_num) (by norm_num)
  norm_num at this ⊢; exact this

theorem exp_sixteen : 11253 / 10 ^ 11 ≤ Real.exp (-16) ∧ Real.exp (-16) ≤ 11254 / 10 ^ 11 := by
  have := exp_double (x := 8) exp_eight (by norm_num) (lo' := 11253 / 10 ^ 11)
    (hi' := 11254 / 10 ^ 11) (by norm_num) (by norm_num)
  norm_num at this ⊢; exact this

/-- The multipliers of the barrel shifter are right to one unit. -/
theorem multipliers :
    |val 1672461947 - Real.exp (-(1 / 4))| ≤ u ∧ |val 1302514674 - Real.exp (-(1 / 2))| ≤ u ∧
    |val 790015084 - Real.exp (-1)| ≤ u ∧ |val 290630308 - Real.exp (-2)| ≤ u ∧
    |val 39332535 - Real.exp (-4)| ≤ u ∧ |val 720401 - Real.exp (-8)| ≤ u ∧
    |val 242 - Real.exp (-16)| ≤ u := by
  have h1 := exp_quarter
  have h2 := exp_half
  have h3 := exp_one'
  have h4 := exp_two
  have h5 := exp_four
  have h6 := exp_eight
  have h7 := exp_sixteen
  simp only [abs_le]
  unfold val u
  norm_num at *
  refine ⟨⟨?_, ?_⟩, ⟨?_, ?_⟩, ⟨?_, ?_⟩, ⟨?_, ?_⟩, ⟨?_, ?_⟩, ⟨?_, ?_⟩, ?_, ?_⟩ <;> linarith

/-! ## exp on the interval -/

theorem u_val : u = 1 / 2147483648 := rfl

theorem expI_acc {a : Int} (h1 : -536870912 ≤ a) (h2 : a < 0) :
    |val (expI a) - Real.exp (val a)| ≤ 499 * u := by
  have h1' : ((-536870912 : Int) : ℝ) ≤ (a : ℝ) := Int.cast_le.2 h1
  have h2' : (a : ℝ) ≤ ((0 : Int) : ℝ) := Int.cast_le.2 (le_of_lt h2)
  push_cast at h1' h2'
  obtain ⟨x, hx⟩ : ∃ x, x = a + 268435456 := ⟨_, rfl⟩
  have ev : val x = val a + 1 / 8 := by rw [hx, val_add]; congr 1; unfold val; norm_num
  have hX : |val x| ≤ 1 / 8 := by
    rw [ev, abs_le]; unfold val; constructor <;> linarith
  have hu := u_val
  have hup : 0 < u := by rw [hu]; norm_num
  have p2 := sm_real x x
  have p3 := sm_real (sm x x) x
  have p4 := sm_real (sm x x) (sm x x)
  have q2 : |val x * val x| ≤ 1 / 64 := by
    rw [abs_mul]
    have := mul_le_mul hX hX (abs_nonneg _) (by norm_num)
    norm_num at this ⊢; exact this
  have hxx : |val (sm x x)| ≤ 1 / 63 := by
    rw [abs_le] at p2 q2 ⊢; constructor <;> linarith
  -- x3
  have e3 : |val (sm (sm x x) x) - val x * val x * val x| ≤ 3 / 4 * u := by
    have := prod_err p2 (le_of_eq (by rw [sub_self, abs_zero]) : |val x - val x| ≤ 0) q2 hX
    have := abs_tri p3 this
    linarith
  -- x4
  have e4 : |val (sm (sm x x) (sm x x)) - val x * val x * (val x * val x)| ≤ 3 / 4 * u := by
    have := prod_err p2 p2 q2 hxx
    have := abs_tri p4 this
    linarith
  have p5 := rd2_real (sm (sm x x) (sm x x))
  obtain ⟨s, hs⟩ : ∃ s, s = rd 2 (sm (sm x x) (sm x x)) + sm (sm x x) x := ⟨_, rfl⟩
  have es : |val s - (val x * val x * (val x * val x) / 4 + val x * val x * val x)| ≤ 2 * u := by
    rw [hs, val_add]
    rw [abs_le] at e3 e4 p5 ⊢
    constructor <;> linarith
  have q3 : |val x * val x * val x| ≤ 1 / 512 := by
    rw [abs_mul]
    have := mul_le_mul q2 hX (abs_nonneg _) (by norm_num)
    norm_num at this ⊢; exact this
  have q4 : |val x * val x * (val x * val x)| ≤ 1 / 4096 := by
    rw [abs_mul]
    have := mul_le_mul q2 q2 (abs_nonneg _) (by norm_num)
    norm_num at this ⊢; exact this
  have p6 := sm_real s 715827883
  have c3 : |val 715827883 - 1 / 3| ≤ u := by
    unfold val u; norm_num [abs_le]
  have qs : |val x * val x * (val x * val x) / 4 + val x * val x * val x| ≤ 1 / 400 := by
    rw [abs_le] at q3 q4 ⊢; constructor <;> linarith
  have e6 := prod_err es c3 qs (show |val 715827883| ≤ 1 / 2 by unfold val; norm_num [abs_le])
  have e6' := abs_tri p6 e6
  obtain ⟨t, ht⟩ : ∃ t, t = sm s 715827883 + sm x x := ⟨_, rfl⟩
  have et : |val t - (val x * val x * (val x * val x) / 12 + val x * val x * val x / 3 + val x * val x)|
      ≤ 3 * u := by
    rw [ht, val_add]
    rw [abs_le] at e6' p2 ⊢
    constructor <;> linarith
  have p7 := rd1_real t
  obtain ⟨v, hv⟩ : ∃ v, v = x + rd 1 t := ⟨_, rfl⟩
  have evv : |val v - (val x + val x ^ 2 / 2 + val x ^ 3 / 6 + val x ^ 4 / 24)| ≤ 2 * u := by
    have e : val x + val x ^ 2 / 2 + val x ^ 3 / 6 + val x ^ 4 / 24 = val x +
      (val x * val x * (val x * val x) / 12 + val x * val x * val x / 3 + val x * val x) / 2 := by ring
    rw [e, hv, val_add]
    rw [abs_le] at et p7 ⊢
    constructor <;> linarith
  have hT := taylor4 hX
  have p8 := sm_real 1895147668 v
  -- v against exp x - 1
  have e8 : |val v - (Real.exp (val x) - 1)| ≤ 562 * u := by
    rw [abs_le] at evv hT ⊢
    constructor <;> linarith
  have hE : |Real.exp (-(1 / 8))| ≤ 8826 / 10000 := by
    have := exp_eighth
    rw [abs_le] at this
    rw [abs_of_pos (Real.exp_pos _)]
    unfold val u at this
    norm_num at this ⊢
    linarith
  have hvb : |val v| ≤ 1 / 2 := by
    have hx2 : val x ^ 2 = val x * val x := by ring
    have hx3 : val x ^ 3 = val x * val x * val x := by ring
    have hx4 : val x ^ 4 = val x * val x * (val x * val x) := by ring
    rw [hx2, hx3, hx4] at evv
    rw [abs_le] at evv hX q2 q3 q4 ⊢
    constructor <;> linarith
  have e9 := prod_err exp_eighth e8 hE hvb
  have e10 := abs_tri p8 e9
  have hres : expI a = 1895147668 + sm 1895147668 v := by
    rw [hv, ht, hs, hx]; rfl
  have hexp : Real.exp (val a) = Real.exp (-(1 / 8)) * Real.exp (val x) := by
    rw [← Real.exp_add, ev]; congr 1; ring
  rw [hres, val_add, hexp]
  have hc := exp_eighth
  rw [abs_le] at hc e10 ⊢
  constructor <;> linarith

end Gemmlowp.Fx
