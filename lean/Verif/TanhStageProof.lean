import Verif.TanhInit
import Verif.TanhReal
import Verif.PropsTrans
/-!
# The tanh output stage: integers and errors
-/
namespace Gemmlowp.TanhStage

open Fx

/-- What is needed of the numbers that the constructor computes. -/
structure Consts (a R : Int) (e k : Nat) : Prop where
  pos : 1 ≤ a
  lt : a < 268435456
  k1 : 2 ^ k ≤ a
  k2 : a < 2 ^ (k + 1)
  e1 : a ≤ 2 ^ (e + 1)
  e2 : 2 ^ e ≤ a
  r1 : |R * a - 2 ^ (31 + e)| ≤ a
  r2 : 1073741824 ≤ R
  r3 : R ≤ 2147483647

theorem pow_split (e : Nat) : (2 : Int) ^ (31 + e) * 8 = 2147483648 * 2 ^ (e + 3) := by
  rw [show e + 3 = 3 + e by omega, pow_add, pow_add]; norm_num; ring

namespace Consts
variable {a R : Int} {e k : Nat}

theorem e_le (h : Consts a R e k) : e ≤ 27 := by
  by_contra hc
  have : (2 : Int) ^ 28 ≤ 2 ^ e := pow_le_pow_right₀ (by norm_num) (by omega)
  have := h.e2; have := h.lt
  norm_num at *
  omega

theorem k_le (h : Consts a R e k) : k ≤ 27 := by
  by_contra hc
  have : (2 : Int) ^ 28 ≤ 2 ^ k := pow_le_pow_right₀ (by norm_num) (by omega)
  have := h.k1; have := h.lt
  norm_num at *
  omega

theorem ra (h : Consts a R e k) : 2 ^ (31 + e) - a ≤ R * a ∧ R * a ≤ 2 ^ (31 + e) + a := by
  have := abs_le.1 h.r1
  omega

/-- `(8a - d) R` for small `d`. -/
theorem prod_le (h : Consts a R e k) {c d : Int} (hd : 0 ≤ d) (hc : c ≤ 8 * a - d) :
    c * R ≤ 2147483648 * 2 ^ (e + 3) + 8 * a - d * 1073741824 := by
  have h1 := h.ra
  have h2 := pow_split e
  have h3 : c * R ≤ (8 * a - d) * R := mul_le_mul_of_nonneg_right hc (by have := h.r2; omega)
  have h4 : d * 1073741824 ≤ d * R := mul_le_mul_of_nonneg_left h.r2 hd
  have h5 : (8 * a - d) * R = 8 * (R * a) - d * R := by ring
  omega

theorem le_prod (h : Consts a R e k) {c d : Int} (hd : 0 ≤ d) (hc : -(8 * a - d) ≤ c) :
    -(2147483648 * 2 ^ (e + 3) + 8 * a - d * 1073741824) ≤ c * R := by
  have := h.prod_le (c := -c) hd (by omega)
  rw [Int.neg_mul] at this
  omega

theorem sm_le (h : Consts a R e k) {c : Int} (hc : c ≤ 8 * a - 1) : sm c R ≤ 2 ^ (e + 3) := by
  have := h.prod_le (d := 1) (by omega) hc
  have := h.lt
  unfold sm
  omega

theorem le_sm (h : Consts a R e k) {c : Int} (hc : -(8 * a - 1) ≤ c) : -2 ^ (e + 3) ≤ sm c R := by
  have := h.le_prod (d := 1) (by omega) hc
  have := h.lt
  unfold sm
  omega

theorem sm_lt (h : Consts a R e k) {c : Int} (hc : c ≤ 8 * a - 3) : sm c R < 2 ^ (e + 3) := by
  have := h.prod_le (d := 3) (by omega) hc
  have := h.lt
  unfold sm
  omega

theorem lt_sm (h : Consts a R e k) {c : Int} (hc : -(8 * a - 3) ≤ c) : -2 ^ (e + 3) < sm c R := by
  have := h.le_prod (d := 3) (by omega) hc
  have := h.lt
  unfold sm
  omega

/-- Below the cutoff everything saturates. -/
theorem sm_cut (h : Consts a R e k) (ha : a < 134217728) {c : Int} (hc : c ≤ -(8 * a)) : sm c R ≤ -2 ^ (e + 3) := by
  have h1 := h.ra
  have h2 := pow_split e
  have h3 : c * R ≤ -(8 * a) * R := mul_le_mul_of_nonneg_right hc (by have := h.r2; omega)
  have h5 : -(8 * a) * R = -(8 * (R * a)) := by ring
  unfold sm
  omega

theorem shl_pow (h : Consts a R e k) : (2 : Int) ^ (e + 3) * 2 ^ (28 - e) = 2147483648 := by
  rw [← pow_add, show e + 3 + (28 - e) = 31 by have := h.e_le; omega]; norm_num

/-- The argument of `tanh`, with 3 integer bits. -/
def arg (R : Int) (e : Nat) (c : Int) : Int := sat (sm c R * 2 ^ (28 - e))

theorem arg_in (c : Int) : In32 (arg R e c) := sat_in _

theorem arg_near (h : Consts a R e k) {c : Int} (h1 : -(8 * a - 1) ≤ c) (h2 : c ≤ 8 * a - 1) :
    arg R e c ≤ sm c R * 2 ^ (28 - e) ∧ sm c R * 2 ^ (28 - e) ≤ arg R e c + 1 := by
  have a1 := mul_le_mul_of_nonneg_right (h.sm_le h2) (show (0 : Int) ≤ 2 ^ (28 - e) by positivity)
  have a2 := mul_le_mul_of_nonneg_right (h.le_sm h1) (show (0 : Int) ≤ 2 ^ (28 - e) by positivity)
  rw [Int.neg_mul, h.shl_pow] at a2
  rw [h.shl_pow] at a1
  unfold arg
  rw [sat_cases]
  split <;> [skip; split] <;> omega

theorem arg_ne_min (h : Consts a R e k) {c : Int} (hc : -(8 * a - 3) ≤ c) : arg R e c ≠ -2147483648 := by
  have a2 : (-2 ^ (e + 3) + 1) * 2 ^ (28 - e) ≤ sm c R * 2 ^ (28 - e) :=
    mul_le_mul_of_nonneg_right (h.lt_sm hc) (by positivity)
  have hp : (0 : Int) < 2 ^ (28 - e) := by positivity
  have e3 : (-2 ^ (e + 3) + 1 : Int) * 2 ^ (28 - e) = -(2 ^ (e + 3) * 2 ^ (28 - e)) + 2 ^ (28 - e) := by ring
  rw [e3, h.shl_pow] at a2
  unfold arg
  rw [sat_cases]
  split <;> [skip; split] <;> omega

theorem arg_min (h : Consts a R e k) (ha : a < 134217728) {c : Int} (hc : c ≤ -(8 * a)) : arg R e c = -2147483648 := by
  have a2 : sm c R * 2 ^ (28 - e) ≤ -2 ^ (e + 3) * 2 ^ (28 - e) :=
    mul_le_mul_of_nonneg_right (h.sm_cut ha hc) (by positivity)
  rw [Int.neg_mul, h.shl_pow] at a2
  unfold arg
  rw [sat_cases]
  split <;> [skip; split] <;> omega

/-- The distance from the zero point. -/
def dist (a : Int) (k : Nat) (t : Int) : Int := sm t (a * 2 ^ (30 - k)) / 2 ^ (30 - k)

theorem n_bounds (h : Consts a R e k) : 1073741824 ≤ a * 2 ^ (30 - k) ∧ a * 2 ^ (30 - k) < 2147483648 := by
  have hp : (0 : Int) < 2 ^ (30 - k) := by positivity
  have a1 := mul_le_mul_of_nonneg_right h.k1 hp.le
  have a2 := mul_lt_mul_of_pos_right h.k2 hp
  rw [← pow_add, show k + (30 - k) = 30 by have := h.k_le; omega] at a1
  rw [← pow_add, show k + 1 + (30 - k) = 31 by have := h.k_le; omega] at a2
  norm_num at a1 a2
  exact ⟨a1, a2⟩

theorem scaled_bounds (h : Consts a R e k) {t : Int} (h1 : -2147483647 ≤ t) (h2 : t ≤ 2147483647) :
    -(a * 2 ^ (30 - k)) ≤ sm t (a * 2 ^ (30 - k)) ∧ sm t (a * 2 ^ (30 - k)) ≤ a * 2 ^ (30 - k) := by
  have hn := h.n_bounds
  generalize a * 2 ^ (30 - k) = N at *
  have b1 := mul_le_mul_of_nonneg_right h1 (show 0 ≤ N by omega)
  have b2 := mul_le_mul_of_nonneg_right h2 (show 0 ≤ N by omega)
  unfold sm
  omega

theorem dist_bounds (h : Consts a R e k) {t : Int} (h1 : -2147483647 ≤ t) (h2 : t ≤ 2147483647) :
    -a ≤ dist a k t ∧ dist a k t ≤ a := by
  have hp : (0 : Int) < 2 ^ (30 - k) := by positivity
  obtain ⟨b1, b2⟩ := h.scaled_bounds h1 h2
  unfold dist
  constructor
  · rw [Int.le_ediv_iff_mul_le hp]; linarith
  · have := Int.ediv_le_ediv hp b2
    rwa [Int.mul_ediv_cancel _ hp.ne'] at this

/-- The error of the stage, between the cutoffs. -/
theorem dist_acc (h : Consts a R e k) {c : Int} (h1 : -(8 * a - 1) ≤ c) (h2 : c ≤ 8 * a - 1) :
    -(2 + (a : ℝ) / 2 ^ 21) ≤ (dist a k (tanhI 3 (arg R e c)) : ℝ) - a * Real.tanh ((c : ℝ) / a) ∧
    (dist a k (tanhI 3 (arg R e c)) : ℝ) - a * Real.tanh ((c : ℝ) / a) ≤ 1 + (a : ℝ) / 2 ^ 21 := by
  have hin : In32 (arg R e c) := arg_in c
  have hacc := tanhI_acc (ib := 3) (by omega) hin
  obtain ⟨n1, n2⟩ := h.arg_near h1 h2
  generalize arg R e c = f at *
  generalize tanhI 3 f = t at *
  have hA : (0 : ℝ) < a := by have := h.pos; exact_mod_cast (by omega : 0 < a)
  have hP : (0 : ℝ) < 2 ^ e := by positivity
  have hK : (0 : ℝ) < 2 ^ (30 - k) := by positivity
  -- the scaled input
  have s1 : |(2147483648 : ℝ) * sm c R - c * R| ≤ 1073741824 := by
    have := sm_err c R
    rw [abs_le]
    exact_mod_cast this
  have s2 : |(R : ℝ) * a - 2147483648 * 2 ^ e| ≤ a := by
    have := h.r1
    rw [pow_add] at this
    exact_mod_cast this
  have s3 : |(c : ℝ)| ≤ 8 * a := by
    rw [abs_le]
    constructor
    · exact_mod_cast (by omega : -(8 * a) ≤ c)
    · exact_mod_cast (by omega : c ≤ 8 * a)
  have q1 : |(sm c R : ℝ) / 2 ^ e - c / a| ≤ (1073741824 + 8 * a) / (2147483648 * 2 ^ e) := by
    rw [div_sub_div _ _ hP.ne' hA.ne', abs_div, abs_of_pos (mul_pos hP hA), div_le_div_iff₀ (by positivity) (by positivity)]
    have e1 : (2147483648 : ℝ) * ((sm c R : ℝ) * a - 2 ^ e * c) =
        a * (2147483648 * sm c R - c * R) + c * (R * a - 2147483648 * 2 ^ e) := by ring
    have e2 : 2147483648 * |(sm c R : ℝ) * a - 2 ^ e * c| ≤ a * (1073741824 + 8 * a) := by
      rw [← abs_of_pos (show (0 : ℝ) < 2147483648 by norm_num), ← abs_mul, e1]
      refine (abs_add_le _ _).trans ?_
      rw [abs_mul, abs_mul, abs_of_pos hA]
      have := mul_le_mul s3 s2 (abs_nonneg _) (by positivity)
      have := mul_le_mul_of_nonneg_left s1 hA.le
      nlinarith
    nlinarith
  have q2 : |(f : ℝ) / 268435456 - (sm c R : ℝ) / 2 ^ e| ≤ 1 / 268435456 := by
    have e3 : (2 : ℝ) ^ (28 - e) * 2 ^ e = 268435456 := by
      rw [← pow_add, show 28 - e + e = 28 by have := h.e_le; omega]; norm_num
    have n1' : (f : ℝ) ≤ sm c R * 2 ^ (28 - e) := by exact_mod_cast n1
    have n2' : (sm c R : ℝ) * 2 ^ (28 - e) ≤ f + 1 := by exact_mod_cast n2
    have e4 : (sm c R : ℝ) / 2 ^ e = sm c R * 2 ^ (28 - e) / 268435456 := by
      rw [← e3]; field_simp
    rw [e4, ← sub_div, abs_div, abs_of_pos (show (0 : ℝ) < 268435456 by norm_num), div_le_div_iff_of_pos_right (by norm_num), abs_le]
    constructor <;> linarith
  have q3 : (a : ℝ) * |(f : ℝ) / 268435456 - c / a| ≤ 1 + a / 2 ^ 26 := by
    have b1 := (abs_sub_le ((f : ℝ) / 268435456) ((sm c R : ℝ) / 2 ^ e) (c / a)).trans (add_le_add q2 q1)
    have b2 := mul_le_mul_of_nonneg_left b1 hA.le
    have b3 : (a : ℝ) ≤ 2 * 2 ^ e := by
      have := h.e1
      rw [pow_succ] at this
      have : (a : ℝ) ≤ 2 ^ e * 2 := by exact_mod_cast this
      linarith
    have b4 : (a : ℝ) * ((1073741824 + 8 * a) / (2147483648 * 2 ^ e)) ≤ 2 * (1073741824 + 8 * a) / 2147483648 := by
      rw [← mul_div_assoc, div_le_div_iff₀ (by positivity) (by norm_num)]
      have := mul_le_mul_of_nonneg_right b3 (show (0 : ℝ) ≤ 1073741824 + 8 * a by positivity)
      nlinarith
    rw [mul_add] at b2
    refine b2.trans ?_
    have : (2 : ℝ) * (1073741824 + 8 * a) / 2147483648 = 1 + a / 2 ^ 27 := by norm_num; ring
    rw [this] at b4
    norm_num at b4 ⊢
    linarith
  -- tanh
  have q4 : |(t : ℝ) / 2147483648 - Real.tanh ((f : ℝ) / 268435456)| ≤ 1 / 2 ^ 22 := by
    unfold val rval u at hacc
    norm_num at hacc ⊢
    linarith
  have q5 := tanh_lip ((f : ℝ) / 268435456) (c / a)
  -- the output
  have o1 : |(2147483648 : ℝ) * sm t (a * 2 ^ (30 - k)) - t * (a * 2 ^ (30 - k))| ≤ 1073741824 := by
    have := sm_err t (a * 2 ^ (30 - k))
    rw [abs_le]
    exact_mod_cast this
  have o2 : (dist a k t : ℝ) * 2 ^ (30 - k) ≤ sm t (a * 2 ^ (30 - k)) := by
    have := Int.ediv_mul_le (sm t (a * 2 ^ (30 - k))) (show (2 : Int) ^ (30 - k) ≠ 0 by positivity)
    exact_mod_cast this
  have o3 : (sm t (a * 2 ^ (30 - k)) : ℝ) < (dist a k t + 1) * 2 ^ (30 - k) := by
    have := Int.lt_ediv_add_one_mul_self (sm t (a * 2 ^ (30 - k))) (show (0 : Int) < 2 ^ (30 - k) by positivity)
    exact_mod_cast this
  have o4 : (1073741824 : ℝ) ≤ a * 2 ^ (30 - k) := by exact_mod_cast h.n_bounds.1
  generalize (sm t (a * 2 ^ (30 - k)) : ℝ) = o at *
  generalize (dist a k t : ℝ) = D at *
  have o5 : |o / 2 ^ (30 - k) - t * a / 2147483648| ≤ a / 2147483648 := by
    rw [div_sub_div _ _ hK.ne' (by norm_num), abs_div, abs_of_pos (show (0 : ℝ) < 2 ^ (30 - k) * 2147483648 by positivity),
      div_le_div_iff₀ (by positivity) (by norm_num)]
    have e5 : o * 2147483648 - 2 ^ (30 - k) * ((t : ℝ) * a) = 2147483648 * o - t * (a * 2 ^ (30 - k)) := by ring
    rw [e5]
    nlinarith
  have o6 : D ≤ o / 2 ^ (30 - k) := by rw [le_div_iff₀ hK]; exact o2
  have o7 : o / 2 ^ (30 - k) ≤ D + 1 := by rw [div_le_iff₀ hK]; exact o3.le
  have w1 := mul_le_mul_of_nonneg_left (q5.trans le_rfl) hA.le
  have w2 := mul_le_mul_of_nonneg_left q4 hA.le
  rw [← abs_of_pos hA, ← abs_mul, ← abs_mul, abs_of_pos hA] at w1
  rw [← abs_of_pos hA, ← abs_mul, abs_of_pos hA] at w2
  rw [← abs_of_pos hA, ← abs_mul, abs_of_pos hA] at q3
  have w3 := abs_le.1 (w1.trans q3)
  rw [abs_le] at w2 o5
  generalize Real.tanh ((f : ℝ) / 268435456) = τ at *
  generalize Real.tanh ((c : ℝ) / a) = θ at *
  generalize o / 2 ^ (30 - k) = Q at *
  norm_num at w2 w3 o5 ⊢
  have z1 : (a : ℝ) * (t / 2147483648 - τ) = t * a / 2147483648 - a * τ := by ring
  have z2 : (a : ℝ) * (τ - θ) = a * τ - a * θ := by ring
  rw [z1] at w2
  rw [z2] at w3
  constructor <;> linarith

end Consts

end Gemmlowp.TanhStage
