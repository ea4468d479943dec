import Verif.TransProof16b
import Verif.AccProof2
/-!
# Error analysis on 16-bit raw values

One unit is `u = 2^-15`, the weight of the last bit of the results.
-/
namespace Gemmlowp.Fx16
open Gemmlowp.Fx (rd rd_err prod_err abs_tri exp_double exp_quarter exp_half exp_one' exp_two exp_four
  exp_eight exp_sixteen exp_eighth taylor4 barrelBit)

/-- A raw value with no integer bits, as a real number. -/
noncomputable def val (x : Int) : ℝ := (x : ℝ) / 32768

/-- One unit in the last place. -/
noncomputable def u : ℝ := 1 / 32768

theorem val_add (a b : Int) : val (a + b) = val a + val b := by
  unfold val; push_cast; ring

theorem sm_err (a b : Int) : -16384 ≤ 32768 * sm a b - a * b ∧ 32768 * sm a b - a * b ≤ 16384 := by
  unfold sm; omega

theorem sm_real (a b : Int) : |val (sm a b) - val a * val b| ≤ u / 2 := by
  obtain ⟨h1, h2⟩ := sm_err a b
  have h1' : ((-16384 : Int) : ℝ) ≤ ((32768 * sm a b - a * b : Int) : ℝ) := Int.cast_le.2 h1
  have h2' : ((32768 * sm a b - a * b : Int) : ℝ) ≤ ((16384 : Int) : ℝ) := Int.cast_le.2 h2
  push_cast at h1' h2'
  unfold val u
  rw [abs_le]
  constructor
  · rw [← sub_nonneg]
    have : (sm a b : ℝ) / 32768 - a / 32768 * (b / 32768) - -(1 / 32768 / 2) =
        (32768 * (sm a b : ℝ) - a * b + 16384) / (32768 * 32768) := by
      field_simp; ring
    rw [this]
    apply div_nonneg <;> linarith
  · rw [← sub_nonneg]
    have : (1 / 32768 / 2 : ℝ) - ((sm a b : ℝ) / 32768 - a / 32768 * (b / 32768)) =
        (16384 - (32768 * (sm a b : ℝ) - a * b)) / (32768 * 32768) := by
      field_simp; ring
    rw [this]
    apply div_nonneg <;> linarith

theorem rd2_real (x : Int) : |val (rd 2 x) - val x / 4| ≤ u / 2 := by
  obtain ⟨h1, h2⟩ := rd_err (h := 2) (x := x) (by omega)
  have h1' : ((-2 : Int) : ℝ) ≤ ((2 * 2 * rd 2 x - x : Int) : ℝ) := Int.cast_le.2 h1
  have h2' : ((2 * 2 * rd 2 x - x : Int) : ℝ) ≤ ((2 : Int) : ℝ) := Int.cast_le.2 h2
  push_cast at h1' h2'
  unfold val u
  rw [abs_le]
  constructor <;> linarith

theorem rd1_real (x : Int) : |val (rd 1 x) - val x / 2| ≤ u / 2 := by
  obtain ⟨h1, h2⟩ := rd_err (h := 1) (x := x) (by omega)
  have h1' : ((-1 : Int) : ℝ) ≤ ((2 * 1 * rd 1 x - x : Int) : ℝ) := Int.cast_le.2 h1
  have h2' : ((2 * 1 * rd 1 x - x : Int) : ℝ) ≤ ((1 : Int) : ℝ) := Int.cast_le.2 h2
  push_cast at h1' h2'
  unfold val u
  rw [abs_le]
  constructor <;> linarith

/-- The constant term and the multipliers of the barrel shifter are right to less than half a unit. -/
theorem exp_eighth16 : |val 28918 - Real.exp (-(1 / 8))| ≤ 36 / 100 * u := by
  have h := exp_eighth
  rw [abs_le] at h ⊢
  unfold Fx.val Fx.u at h
  unfold val u
  norm_num at h ⊢
  constructor <;> linarith

theorem multipliers16 :
    |val 25520 - Real.exp (-(1 / 4))| ≤ 4 / 10 * u ∧ |val 19875 - Real.exp (-(1 / 2))| ≤ 4 / 10 * u ∧
    |val 12055 - Real.exp (-1)| ≤ 4 / 10 * u ∧ |val 4435 - Real.exp (-2)| ≤ 4 / 10 * u ∧
    |val 600 - Real.exp (-4)| ≤ 4 / 10 * u ∧ |val 11 - Real.exp (-8)| ≤ 4 / 10 * u ∧
    |val 0 - Real.exp (-16)| ≤ 4 / 10 * u := by
  have h1 := exp_quarter
  have h2 := exp_half
  have h3 := exp_one'
  have h4 := exp_two
  have h5 := exp_four
  have h6 := exp_eight
  have h7 := exp_sixteen
  simp only [abs_le]
  unfold val u
  norm_num at *
  refine ⟨⟨?_, ?_⟩, ⟨?_, ?_⟩, ⟨?_, ?_⟩, ⟨?_, ?_⟩, ⟨?_, ?_⟩, ⟨?_, ?_⟩, ?_, ?_⟩ <;> linarith

theorem u_val : u = 1 / 32768 := rfl

theorem expI_acc {a : Int} (h1 : -8192 ≤ a) (h2 : a < 0) :
    |val (expI a) - Real.exp (val a)| ≤ 2 * u := by
  have h1' : ((-8192 : Int) : ℝ) ≤ (a : ℝ) := Int.cast_le.2 h1
  have h2' : (a : ℝ) ≤ ((0 : Int) : ℝ) := Int.cast_le.2 (le_of_lt h2)
  push_cast at h1' h2'
  obtain ⟨x, hx⟩ : ∃ x, x = a + 4096 := ⟨_, rfl⟩
  have ev : val x = val a + 1 / 8 := by rw [hx, val_add]; congr 1; unfold val; norm_num
  have hX : |val x| ≤ 1 / 8 := by
    rw [ev, abs_le]; unfold val; constructor <;> linarith
  have hu := u_val
  have hup : 0 < u := by rw [hu]; norm_num
  have hu1 : u ≤ 1 / 30000 := by rw [hu]; norm_num
  have p2 := sm_real x x
  have p3 := sm_real (sm x x) x
  have p4 := sm_real (sm x x) (sm x x)
  have q2 : |val x * val x| ≤ 1 / 64 := by
    rw [abs_mul]
    have := mul_le_mul hX hX (abs_nonneg _) (by norm_num)
    norm_num at this ⊢; exact this
  have hxx : |val (sm x x)| ≤ 1 / 63 := by
    rw [abs_le] at p2 q2 ⊢; constructor <;> linarith
  -- x3
  have e3 : |val (sm (sm x x) x) - val x * val x * val x| ≤ 9 / 16 * u := by
    have := prod_err p2 (le_of_eq (by rw [sub_self, abs_zero]) : |val x - val x| ≤ 0) q2 hX
    have := abs_tri p3 this
    linarith
  -- x4
  have e4 : |val (sm (sm x x) (sm x x)) - val x * val x * (val x * val x)| ≤ 52 / 100 * u := by
    have := prod_err p2 p2 q2 hxx
    have := abs_tri p4 this
    linarith
  have p5 := rd2_real (sm (sm x x) (sm x x))
  obtain ⟨s, hs⟩ : ∃ s, s = rd 2 (sm (sm x x) (sm x x)) + sm (sm x x) x := ⟨_, rfl⟩
  have es : |val s - (val x * val x * (val x * val x) / 4 + val x * val x * val x)| ≤ 12 / 10 * u := by
    rw [hs, val_add]
    rw [abs_le] at e3 e4 p5 ⊢
    constructor <;> linarith
  have q3 : |val x * val x * val x| ≤ 1 / 512 := by
    rw [abs_mul]
    have := mul_le_mul q2 hX (abs_nonneg _) (by norm_num)
    norm_num at this ⊢; exact this
  have q4 : |val x * val x * (val x * val x)| ≤ 1 / 4096 := by
    rw [abs_mul]
    have := mul_le_mul q2 q2 (abs_nonneg _) (by norm_num)
    norm_num at this ⊢; exact this
  have p6 := sm_real s 10923
  have c3 : |val 10923 - 1 / 3| ≤ u := by
    unfold val u; norm_num [abs_le]
  have qs : |val x * val x * (val x * val x) / 4 + val x * val x * val x| ≤ 1 / 400 := by
    rw [abs_le] at q3 q4 ⊢; constructor <;> linarith
  have e6 := prod_err es c3 qs (show |val 10923| ≤ 334 / 1000 by unfold val; norm_num [abs_le])
  have e6' := abs_tri p6 e6
  obtain ⟨t, ht⟩ : ∃ t, t = sm s 10923 + sm x x := ⟨_, rfl⟩
  have et : |val t - (val x * val x * (val x * val x) / 12 + val x * val x * val x / 3 + val x * val x)|
      ≤ 141 / 100 * u := by
    rw [ht, val_add]
    rw [abs_le] at e6' p2 ⊢
    constructor <;> linarith
  have p7 := rd1_real t
  obtain ⟨v, hv⟩ : ∃ v, v = x + rd 1 t := ⟨_, rfl⟩
  have evv : |val v - (val x + val x ^ 2 / 2 + val x ^ 3 / 6 + val x ^ 4 / 24)| ≤ 121 / 100 * u := by
    have e : val x + val x ^ 2 / 2 + val x ^ 3 / 6 + val x ^ 4 / 24 = val x +
      (val x * val x * (val x * val x) / 12 + val x * val x * val x / 3 + val x * val x) / 2 := by ring
    rw [e, hv, val_add]
    rw [abs_le] at et p7 ⊢
    constructor <;> linarith
  have hT := taylor4 hX
  have hfu : Fx.u = u / 65536 := by unfold Fx.u u; norm_num
  rw [hfu] at hT
  have p8 := sm_real 28918 v
  -- v against exp x - 1
  have e8 : |val v - (Real.exp (val x) - 1)| ≤ 122 / 100 * u := by
    rw [abs_le] at evv hT ⊢
    constructor <;> linarith
  have hE : |Real.exp (-(1 / 8))| ≤ 8826 / 10000 := by
    have := exp_eighth16
    rw [abs_le] at this
    rw [abs_of_pos (Real.exp_pos _)]
    unfold val u at this
    norm_num at this ⊢
    linarith
  have hvb : |val v| ≤ 14 / 100 := by
    have hx2 : val x ^ 2 = val x * val x := by ring
    have hx3 : val x ^ 3 = val x * val x * val x := by ring
    have hx4 : val x ^ 4 = val x * val x * (val x * val x) := by ring
    rw [hx2, hx3, hx4] at evv
    rw [abs_le] at evv hX q2 q3 q4 ⊢
    constructor <;> linarith
  have e9 := prod_err exp_eighth16 e8 hE hvb
  have e10 := abs_tri p8 e9
  have hres : expI a = 28918 + sm 28918 v := by
    rw [hv, ht, hs, hx]; rfl
  have hexp : Real.exp (val a) = Real.exp (-(1 / 8)) * Real.exp (val x) := by
    rw [← Real.exp_add, ev]; congr 1; ring
  rw [hres, val_add, hexp]
  have hc := exp_eighth16
  rw [abs_le] at hc e10 ⊢
  constructor <;> linarith

/-! ## exp on negative values -/

theorem barrel_acc {cond : Bool} {k : Nat} {rem mult r : Int} {y c B β : ℝ} (hy : y ≤ 0) (hc : 0 ≤ c)
    (hM : Real.exp (-c) ≤ B) (hm : |val mult - Real.exp (-c)| ≤ 4 / 10 * u)
    (hr : |val r - Real.exp y| ≤ β) (hβ : β * (B + 4 / 10 * u) + 9 / 10 * u ≤ β') (hb : β ≤ β') :
    |val (barrelI cond k rem mult r) - Real.exp (y - c * barrelBit cond k rem)| ≤ β' ∧
      y - c * barrelBit cond k rem ≤ 0 := by
  unfold barrelI barrelBit
  split
  · have e : Real.exp (y - c * ((1 : Int) : ℝ)) = Real.exp y * Real.exp (-c) := by
      rw [← Real.exp_add]; congr 1; push_cast; ring
    rw [e]
    have hY := Real.exp_le_one_iff.2 hy
    have hYp := Real.exp_pos y
    have hcp := Real.exp_pos (-c)
    refine ⟨?_, by push_cast; linarith⟩
    have p := sm_real r mult
    have hmb : |val mult| ≤ B + 4 / 10 * u := by
      rw [abs_le] at hm ⊢; constructor <;> linarith
    have e2 := abs_tri p (prod_err hr hm (show |Real.exp y| ≤ 1 by rw [abs_of_pos hYp]; exact hY) hmb)
    linarith
  · have e : y - c * ((0 : Int) : ℝ) = y := by push_cast; ring
    rw [e]
    exact ⟨le_trans hr hb, hy⟩

/-- What a raw value with `ib` integer bits stands for. -/
noncomputable def rval (ib : Nat) (a : Int) : ℝ := (a : ℝ) / 2 ^ (15 - ib)

theorem expN_acc {ib : Nat} (hib : ib ≤ 13) {a : Int} (ha : In16 a) (h0 : a ≤ 0) :
    |val (expN ib a) - Real.exp (rval ib a)| ≤ 5 / 2 * u := by
  have hup : 0 < u := by unfold u; norm_num
  have hu1 : u ≤ 1 / 30000 := by rw [u_val]; norm_num
  have ha' := (in16_iff a).1 ha
  by_cases hz : a = 0
  · subst hz
    have e : expN ib 0 = 32767 := by unfold expN; simp
    have er : rval ib 0 = 0 := by unfold rval; simp
    rw [e, er, Real.exp_zero]
    have : |val 32767 - 1| ≤ u := by unfold val u; norm_num [abs_le]
    refine le_trans this ?_
    linarith
  have hneg : a < 0 := by omega
  obtain ⟨⟨hq0, hq1⟩, hm, hzz, ⟨hr1, hr2⟩, hr0, hrq⟩ := quarter_facts hib ha h0
  have hr0 := hr0 hneg
  obtain ⟨q, hq⟩ : ∃ q : Int, q = 2 ^ (13 - ib) := ⟨_, rfl⟩
  rw [← hq] at hq0 hq1 hm hzz hr1 hr2 hr0 hrq
  obtain ⟨am, ham⟩ : ∃ am : Int, am = a % q - q := ⟨_, rfl⟩
  rw [← ham] at hm hzz hr1 hr2 hr0 hrq
  have hzn : am * 2 ^ ib < 0 := by have := two_pow_pos' ib; omega
  have hN : (2 : ℝ) ^ (15 - ib) * 2 ^ ib = 32768 := by
    rw [← pow_add, Nat.sub_add_cancel (by omega)]; norm_num
  have hNp : (0 : ℝ) < 2 ^ (15 - ib) := by positivity
  have hIp : (0 : ℝ) < 2 ^ ib := by positivity
  have hval : ∀ z : Int, val (z * 2 ^ ib) = (z : ℝ) / 2 ^ (15 - ib) := by
    intro z
    unfold val
    rw [← hN]; push_cast
    field_simp
  by_cases hcl : 5 < ib ∧ a < -2 ^ (20 - ib)
  · -- clamped: the true value is tiny
    have e : expN ib a = 0 := by unfold expN; simp [hcl, hz]
    rw [e]
    have hle : rval ib a ≤ -16 := by
      unfold rval
      rw [div_le_iff₀ hNp]
      have hh : (a : ℝ) ≤ ((-2 ^ (20 - ib) : Int) : ℝ) := Int.cast_le.2 (le_of_lt hcl.2)
      have : (2 : ℝ) ^ (20 - ib) = 32 * 2 ^ (15 - ib) := by
        rw [show 20 - ib = 5 + (15 - ib) by omega, pow_add]; norm_num
      push_cast at hh
      rw [this] at hh
      linarith
    have h1 := le_trans (Real.exp_le_exp.2 hle) exp_sixteen.2
    have hp := Real.exp_pos (rval ib a)
    have v0 : val 0 = 0 := by unfold val; norm_num
    rw [v0, zero_sub, abs_neg, abs_of_pos hp]
    have : (11254 : ℝ) / 10 ^ 11 ≤ u := by unfold u; norm_num
    linarith
  -- the general case
  obtain ⟨k, hk⟩ : ∃ k, am - a = q * k := Int.dvd_of_emod_eq_zero hrq
  have hk0 : 0 ≤ k := by
    by_contra hlt
    have : q * k ≤ q * (-1) := Int.mul_le_mul_of_nonneg_left (by omega) (by omega)
    omega
  have hki : k < 2 ^ (ib + 2) := by
    have e : q * 2 ^ (ib + 2) = 32768 := by
      rw [hq, ← Int.pow_add, show 13 - ib + (ib + 2) = 15 by omega]; norm_num
    by_contra hge
    have : q * 2 ^ (ib + 2) ≤ q * k := Int.mul_le_mul_of_nonneg_left (by omega) (by omega)
    omega
  have hk7 : k < 128 := by
    by_cases h5 : ib ≤ 5
    · have := pow_le_pow' (show ib + 2 ≤ 7 by omega)
      norm_num at this ⊢
      omega
    · have hge : -2 ^ (20 - ib) ≤ a := by
        by_contra hh; exact hcl ⟨by omega, by omega⟩
      have e : q * 128 = 2 ^ (20 - ib) := by
        rw [hq, show (128 : Int) = 2 ^ 7 by norm_num, ← Int.pow_add, show 13 - ib + 7 = 20 - ib by omega]
      by_contra hge2
      have : q * 128 ≤ q * k := Int.mul_le_mul_of_nonneg_left (by omega) (by omega)
      omega
  have bits : ∀ {cond : Bool} {n : Nat} (i : Nat), n = 13 - ib + i → (cond = false → ib + 2 ≤ i) →
      barrelBit cond n (am - a) = k / 2 ^ i % 2 := by
    intro cond n i hn hc
    rw [hn]
    refine Fx.barrelBit_eq hq hk0 hk ?_
    intro h
    exact lt_of_lt_of_le hki (pow_le_pow' (hc h))
  obtain ⟨m1, m2, m3, m4, m5, m6, m7⟩ := multipliers16
  have start := expI_acc hzz.1 hzn
  have hy0 : val (am * 2 ^ ib) ≤ 0 := by
    have h1' : ((am * 2 ^ ib : Int) : ℝ) ≤ ((0 : Int) : ℝ) := Int.cast_le.2 hzn.le
    unfold val
    push_cast at h1' ⊢
    linarith
  have hexp : expN ib a = (
      let r := expI (am * 2 ^ ib)
      let r := barrelI true (13 - ib) (am - a) 25520 r
      let r := barrelI true (14 - ib) (am - a) 19875 r
      let r := barrelI (0 < ib) (15 - ib) (am - a) 12055 r
      let r := barrelI (1 < ib) (16 - ib) (am - a) 4435 r
      let r := barrelI (2 < ib) (17 - ib) (am - a) 600 r
      let r := barrelI (3 < ib) (18 - ib) (am - a) 11 r
      barrelI (4 < ib) (19 - ib) (am - a) 0 r) := by
    rw [ham, hq]
    unfold expN
    dsimp only
    rw [if_neg hz, if_neg hcl]
  dsimp only at hexp
  rw [hexp]
  clear hexp
  have huu : u * u ≤ u * (1 / 30000) := mul_le_mul_of_nonneg_left hu1 hup.le
  have h2 := exp_half.2
  have hle : ∀ c : ℝ, 1 / 2 ≤ c → Real.exp (-c) ≤ 607 / 1000 := fun c hc => by
    have : Real.exp (-c) ≤ Real.exp (-(1 / 2)) := Real.exp_le_exp.2 (by linarith)
    linarith
  have hst : (5 / 2 * u) * (607 / 1000 + 4 / 10 * u) + 9 / 10 * u ≤ 5 / 2 * u := by nlinarith
  obtain ⟨s1, y1⟩ := barrel_acc (cond := true) (k := 13 - ib) (rem := am - a) (β' := 5 / 2 * u) hy0 (by norm_num)
    (show Real.exp (-(1 / 4)) ≤ 779 / 1000 by have := exp_quarter.2; linarith) m1 start (by nlinarith) (by linarith)
  obtain ⟨s2, y2⟩ := barrel_acc (cond := true) (k := 14 - ib) (rem := am - a) y1 (by norm_num)
    (hle _ (by norm_num)) m2 s1 hst (le_refl _)
  obtain ⟨s3, y3⟩ := barrel_acc (cond := decide (0 < ib)) (k := 15 - ib) (rem := am - a) y2 (by norm_num)
    (hle _ (by norm_num)) m3 s2 hst (le_refl _)
  obtain ⟨s4, y4⟩ := barrel_acc (cond := decide (1 < ib)) (k := 16 - ib) (rem := am - a) y3 (by norm_num)
    (hle _ (by norm_num)) m4 s3 hst (le_refl _)
  obtain ⟨s5, y5⟩ := barrel_acc (cond := decide (2 < ib)) (k := 17 - ib) (rem := am - a) y4 (by norm_num)
    (hle _ (by norm_num)) m5 s4 hst (le_refl _)
  obtain ⟨s6, y6⟩ := barrel_acc (cond := decide (3 < ib)) (k := 18 - ib) (rem := am - a) y5 (by norm_num)
    (hle _ (by norm_num)) m6 s5 hst (le_refl _)
  obtain ⟨s7, y7⟩ := barrel_acc (cond := decide (4 < ib)) (k := 19 - ib) (rem := am - a) y6 (by norm_num)
    (hle _ (by norm_num)) m7 s6 hst (le_refl _)
  rw [bits 0 (by omega) (by simp), bits 1 (by omega) (by simp),
    bits 2 (by omega) (by simp), bits 3 (by omega) (by simp),
    bits 4 (by omega) (by simp), bits 5 (by omega) (by simp),
    bits 6 (by omega) (by simp)] at s7
  have hsum : k / 2 ^ 0 % 2 + 2 * (k / 2 ^ 1 % 2) + 4 * (k / 2 ^ 2 % 2) + 8 * (k / 2 ^ 3 % 2) +
      16 * (k / 2 ^ 4 % 2) + 32 * (k / 2 ^ 5 % 2) + 64 * (k / 2 ^ 6 % 2) = k := by
    norm_num; omega
  have hfin : val (am * 2 ^ ib) - 1 / 4 * ((k / 2 ^ 0 % 2 : Int) : ℝ) - 1 / 2 * ((k / 2 ^ 1 % 2 : Int) : ℝ) -
      1 * ((k / 2 ^ 2 % 2 : Int) : ℝ) - 2 * ((k / 2 ^ 3 % 2 : Int) : ℝ) -
      4 * ((k / 2 ^ 4 % 2 : Int) : ℝ) - 8 * ((k / 2 ^ 5 % 2 : Int) : ℝ) - 16 * ((k / 2 ^ 6 % 2 : Int) : ℝ) =
      rval ib a := by
    have e1 : rval ib a = val (a * 2 ^ ib) := (hval a).symm
    have e2 : val (am * 2 ^ ib) = val (a * 2 ^ ib) + (k : ℝ) / 4 := by
      have : am = a + q * k := by omega
      have hqib : q * 2 ^ ib = 8192 := by
        rw [hq, ← Int.pow_add, Nat.sub_add_cancel hib]; norm_num
      have e3 : am * 2 ^ ib = a * 2 ^ ib + k * 8192 := by
        rw [this, Int.add_mul, ← hqib]; ring
      rw [e3, val_add]
      congr 1
      unfold val; push_cast; ring
    have hs : ((k / 2 ^ 0 % 2 + 2 * (k / 2 ^ 1 % 2) + 4 * (k / 2 ^ 2 % 2) + 8 * (k / 2 ^ 3 % 2) +
      16 * (k / 2 ^ 4 % 2) + 32 * (k / 2 ^ 5 % 2) + 64 * (k / 2 ^ 6 % 2) : Int) : ℝ) = (k : ℝ) := by
      rw [hsum]
    rw [e1, e2]
    simp only [Int.cast_add, Int.cast_mul] at hs
    norm_num at hs ⊢
    linarith
  rw [hfin] at s7
  exact s7

/-! ## Division -/

theorem newton_real {e : Int} (h0 : 0 ≤ e) (h1 : e < 32768) :
    |(newtonI ((e + 32768) / 2) : ℝ) / 16384 - 1 / (1 + val e)| ≤ 6 * u := by
  obtain ⟨x, -, ex, r1, r2, f1, f2, -⟩ := newton_I (m := .wrap) h0 h1
  rw [ex]
  have h0' : ((0 : Int) : ℝ) ≤ (e : ℝ) := Int.cast_le.2 h0
  have f1' : ((536870912 : Int) : ℝ) ≤ (((x + 3) * (e + 32768) : Int) : ℝ) := Int.cast_le.2 f1
  have f2' : (((x - 3) * (e + 32768) : Int) : ℝ) ≤ ((536870912 : Int) : ℝ) := Int.cast_le.2 f2
  push_cast at h0' f1' f2'
  have hp : (0 : ℝ) < e + 32768 := by linarith
  have hD : 1 / (1 + val e) = 32768 / ((e : ℝ) + 32768) := by
    unfold val
    have : (e : ℝ) + 32768 ≠ 0 := ne_of_gt hp
    field_simp
    ring
  have g1 : (32768 : ℝ) / (e + 32768) ≤ (x + 3) / 16384 := by
    rw [div_le_div_iff₀ hp (by norm_num)]; linarith
  have g2 : ((x : ℝ) - 3) / 16384 ≤ 32768 / (e + 32768) := by
    rw [div_le_div_iff₀ (by norm_num) hp]; linarith
  rw [hD]
  unfold u
  rw [abs_le]
  constructor <;> linarith

theorem oneOverI_acc {e : Int} (h0 : 0 ≤ e) (h1 : e < 32768) :
    |val (oneOverI e) - 1 / (1 + val e)| ≤ 6 * u := by
  have hn := newton_real h0 h1
  have h0' : ((0 : Int) : ℝ) ≤ (e : ℝ) := Int.cast_le.2 h0
  push_cast at h0'
  have hy : 0 ≤ val e := by unfold val; linarith
  have hT1 : 1 / (1 + val e) ≤ 1 := by
    rw [div_le_one (by linarith)]; linarith
  have hup : 0 < u := by unfold u; norm_num
  obtain ⟨x, -, ex, r1, r2, -⟩ := newton_I (m := .wrap) h0 h1
  unfold oneOverI
  rw [sat_cases]
  rw [ex] at hn ⊢
  rw [if_neg (by omega)]
  split
  · rename_i hgt
    have hg : ((32768 : Int) : ℝ) ≤ ((x * 2 : Int) : ℝ) := Int.cast_le.2 (by omega)
    push_cast at hg
    have hv : val 32767 = 1 - u := by unfold val u; norm_num
    rw [hv]
    rw [abs_le] at hn ⊢
    constructor <;> linarith
  · have : val (x * 2) = (x : ℝ) / 16384 := by unfold val; push_cast; ring
    rw [this]; exact hn

theorem oneMinusOverI_acc {e : Int} (h0 : 0 ≤ e) (h1 : e < 32768) :
    |val (oneMinusOverI e) - (2 * (1 / (1 + val e)) - 1)| ≤ 12 * u := by
  have hn := newton_real h0 h1
  have h0' : ((0 : Int) : ℝ) ≤ (e : ℝ) := Int.cast_le.2 h0
  push_cast at h0'
  have hy : 0 ≤ val e := by unfold val; linarith
  have hT1 : 1 / (1 + val e) ≤ 1 := by
    rw [div_le_one (by linarith)]; linarith
  have hup : 0 < u := by unfold u; norm_num
  obtain ⟨x, -, ex, r1, r2, -⟩ := newton_I (m := .wrap) h0 h1
  unfold oneMinusOverI
  rw [sat_cases]
  rw [ex] at hn ⊢
  rw [if_neg (by omega)]
  split
  · rename_i hgt
    have hg : ((32768 : Int) : ℝ) ≤ (((x - 8192) * 4 : Int) : ℝ) := Int.cast_le.2 (by omega)
    push_cast at hg
    have hv : val 32767 = 1 - u := by unfold val u; norm_num
    rw [hv]
    rw [abs_le] at hn ⊢
    constructor <;> linarith
  · have : val ((x - 8192) * 4) = 2 * ((x : ℝ) / 16384) - 1 := by
      unfold val; push_cast; ring
    rw [this]
    rw [abs_le] at hn ⊢
    constructor <;> linarith

/-- How an error of the exponential propagates through `1 / (1 + y)`. -/
theorem recip_err {y Y b : ℝ} (hy : 0 ≤ y) (hY : 0 ≤ Y) (h : |y - Y| ≤ b) :
    |1 / (1 + y) - 1 / (1 + Y)| ≤ b := by
  have p1 : 0 < 1 + y := by linarith
  have p2 : 0 < 1 + Y := by linarith
  have e : 1 / (1 + y) - 1 / (1 + Y) = (Y - y) / ((1 + y) * (1 + Y)) := by
    field_simp; ring
  rw [e, abs_div, abs_sub_comm, abs_of_pos (mul_pos p1 p2), div_le_iff₀ (mul_pos p1 p2)]
  refine le_trans h ?_
  have hb : 0 ≤ b := le_trans (abs_nonneg _) h
  have : 1 ≤ (1 + y) * (1 + Y) := by nlinarith
  nlinarith

theorem rval_neg (ib : Nat) (a : Int) : rval ib (-a) = -rval ib a := by
  unfold rval; push_cast; ring

theorem logisticPosI_acc {ib : Nat} (hib : ib ≤ 13) {a : Int} (h0 : 0 ≤ a) (h1 : a ≤ 32768) :
    |val (logisticPosI ib a) - 1 / (1 + Real.exp (-rval ib a))| ≤ 17 / 2 * u := by
  have hin : In16 (-a) := in16 (by omega)
  obtain ⟨-, b1, b2, -⟩ := expNeg_I (m := .wrap) hib hin (by omega)
  have hE := expN_acc hib hin (by omega)
  rw [rval_neg] at hE
  have h0' : ((0 : Int) : ℝ) ≤ (expN ib (-a) : ℝ) := Int.cast_le.2 b1
  push_cast at h0'
  have hr := recip_err (by unfold val; linarith) (Real.exp_pos _).le hE
  have := abs_tri (oneOverI_acc b1 (by omega)) hr
  unfold logisticPosI
  linarith

theorem logisticI_acc {ib : Nat} (hib : ib ≤ 13) {a : Int} (ha : In16 a) :
    |val (logisticI ib a) - 1 / (1 + Real.exp (-rval ib a))| ≤ 19 / 2 * u := by
  have ha' := (in16_iff a).1 ha
  have hup : 0 < u := by unfold u; norm_num
  unfold logisticI
  split
  · rename_i h; subst h
    have : rval ib 0 = 0 := by unfold rval; simp
    rw [this]
    have hv : val 16384 = 1 / 2 := by unfold val; norm_num
    rw [hv, neg_zero, Real.exp_zero]
    norm_num; linarith
  · split
    · have := logisticPosI_acc hib (a := a) (by omega) (by omega)
      linarith
    · have hL := logisticPosI_acc hib (a := -a) (by omega) (by omega)
      rw [rval_neg, neg_neg] at hL
      have hv : val (32767 - logisticPosI ib (-a)) = 1 - u - val (logisticPosI ib (-a)) := by
        unfold val u; push_cast; ring
      rw [hv]
      have hs : 1 / (1 + Real.exp (-rval ib a)) = 1 - 1 / (1 + Real.exp (rval ib a)) := by
        have p := Real.exp_pos (rval ib a)
        rw [Real.exp_neg]
        have : 1 + Real.exp (rval ib a) ≠ 0 := by linarith
        field_simp
        ring
      rw [hs]
      rw [abs_le] at hL ⊢
      constructor <;> linarith

theorem negTanhI_acc {ib : Nat} (hib : ib ≤ 12) {a : Int} (ha : In16 a) (h0 : a ≤ 0) :
    |val (oneMinusOverI (expN (ib + 1) a)) - -Real.tanh (rval ib a)| ≤ 17 * u := by
  obtain ⟨-, b1, b2, -⟩ := expNeg_I (m := .wrap) (ib := ib + 1) (by omega) ha h0
  have hE := expN_acc (ib := ib + 1) (by omega) ha h0
  have h0' : ((0 : Int) : ℝ) ≤ (expN (ib + 1) a : ℝ) := Int.cast_le.2 b1
  push_cast at h0'
  have hy : 0 ≤ val (expN (ib + 1) a) := by unfold val; linarith
  have hr := recip_err hy (Real.exp_pos _).le hE
  have ho := oneMinusOverI_acc b1 (by omega)
  have h2 : rval (ib + 1) a = rval ib a + rval ib a := by
    unfold rval
    rw [show 15 - ib = (15 - (ib + 1)) + 1 by omega, pow_succ]
    field_simp; ring
  have hth : -Real.tanh (rval ib a) =
      2 * (1 / (1 + Real.exp (rval (ib + 1) a))) - 1 := by
    rw [Real.tanh_eq, h2, Real.exp_add, Real.exp_neg]
    have p := Real.exp_pos (rval ib a)
    generalize Real.exp (rval ib a) = t at *
    have : 1 + t * t ≠ 0 := by nlinarith
    have : t * t + 1 ≠ 0 := by nlinarith
    have : t ≠ 0 := by linarith
    have : t + t⁻¹ ≠ 0 := by
      have := inv_pos.2 p; linarith
    field_simp
    ring
  rw [hth]
  rw [abs_le] at ho hr ⊢
  constructor <;> linarith

theorem tanhI_acc {ib : Nat} (hib : ib ≤ 12) {a : Int} (ha : In16 a) :
    |val (tanhI ib a) - Real.tanh (rval ib a)| ≤ 17 * u := by
  have ha' := (in16_iff a).1 ha
  unfold tanhI
  split
  · rename_i h; subst h
    have : rval ib 0 = 0 := by unfold rval; simp
    rw [this, Real.tanh_zero]
    have hv : val 0 = 0 := by unfold val; norm_num
    rw [hv]
    unfold u; norm_num
  · have hvn : ∀ x, val (-x) = -val x := by intro x; unfold val; push_cast; ring
    split
    · have := negTanhI_acc hib ha (by omega)
      rw [hvn]
      rw [abs_le] at this ⊢
      constructor <;> linarith
    · have := negTanhI_acc hib (a := -a) (in16 (by omega)) (by omega)
      rw [rval_neg, Real.tanh_neg, neg_neg] at this
      exact this

end Gemmlowp.Fx16
