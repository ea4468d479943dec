import Verif.AccProof
/-!
# Error analysis: exp on negative values, logistic and tanh
-/
namespace Gemmlowp.Fx

/-- A rounded multiplication by a factor known to one unit keeps an error bound of the form
`α * Y + β`. -/
theorem mult_acc {r mult : Int} {Y M α β : ℝ} (hY : 0 ≤ Y ∧ Y ≤ 1) (hM : 0 ≤ M ∧ M ≤ 78 / 100)
    (hm : |val mult - M| ≤ u) (hr : |val r - Y| ≤ α * Y + β) (hα : 0 ≤ α ∧ α ≤ 1 / 1000)
    (hβ : 8 * u ≤ β ∧ β ≤ 1 / 1000) : |val (sm r mult) - Y * M| ≤ α * (Y * M) + β := by
  have hup : 0 < u := by unfold u; norm_num
  have hu1 : u ≤ 1 / 1000 := by unfold u; norm_num
  have p := sm_real r mult
  have hmb : |val mult| ≤ M + u := by
    rw [abs_le] at hm ⊢; constructor <;> linarith
  have e := abs_tri p (prod_err hr hm (show |Y| ≤ Y from le_of_eq (abs_of_nonneg hY.1)) hmb)
  refine le_trans e ?_
  have aY : α * Y ≤ 1 / 1000 := le_trans (mul_le_mul hα.2 hY.2 hY.1 (by norm_num)) (by norm_num)
  have t1 : (α * Y + β) * u ≤ 1 / 500 * u := mul_le_mul_of_nonneg_right (by linarith) hup.le
  have t2 : β * M ≤ β * (78 / 100) := mul_le_mul_of_nonneg_left hM.2 (by linarith)
  have t3 : Y * u ≤ 1 * u := mul_le_mul_of_nonneg_right hY.2 hup.le
  have : (α * Y + β) * (M + u) = α * (Y * M) + β * M + (α * Y + β) * u := by ring
  linarith

/-- The `i`-th binary digit as the barrel shifter sees it. -/
def barrelBit (cond : Bool) (k : Nat) (rem : Int) : Int :=
  if cond = true ∧ rem / 2 ^ k % 2 = 1 then 1 else 0

theorem barrel_acc {cond : Bool} {k : Nat} {rem mult r : Int} {y c α β : ℝ} (hy : y ≤ 0) (hc : 0 ≤ c)
    (hM : Real.exp (-c) ≤ 78 / 100) (hm : |val mult - Real.exp (-c)| ≤ u)
    (hr : |val r - Real.exp y| ≤ α * Real.exp y + β) (hα : 0 ≤ α ∧ α ≤ 1 / 1000)
    (hβ : 8 * u ≤ β ∧ β ≤ 1 / 1000) :
    |val (barrelI cond k rem mult r) - Real.exp (y - c * barrelBit cond k rem)| ≤
      α * Real.exp (y - c * barrelBit cond k rem) + β ∧ y - c * barrelBit cond k rem ≤ 0 := by
  unfold barrelI barrelBit
  split
  · have e : Real.exp (y - c * ((1 : Int) : ℝ)) = Real.exp y * Real.exp (-c) := by
      rw [← Real.exp_add]; congr 1; push_cast; ring
    rw [e]
    refine ⟨mult_acc ⟨(Real.exp_pos _).le, Real.exp_le_one_iff.2 hy⟩ ⟨(Real.exp_pos _).le, hM⟩ hm hr hα hβ, ?_⟩
    push_cast; linarith
  · have e : y - c * ((0 : Int) : ℝ) = y := by push_cast; ring
    rw [e]
    exact ⟨hr, hy⟩

theorem barrelBit_eq {cond : Bool} {q k0 k : Int} {i j : Nat} (hq : q = 2 ^ j) (hk : 0 ≤ k0)
    (hrem : k = q * k0) (hc : cond = false → k0 < 2 ^ i) :
    barrelBit cond (j + i) k = k0 / 2 ^ i % 2 := by
  have hqp : 0 < q := by rw [hq]; exact two_pow_pos' j
  have e : k / 2 ^ (j + i) = k0 / 2 ^ i := by
    rw [hrem, Int.pow_add, ← hq, Int.mul_ediv_mul_of_pos _ _ hqp]
  unfold barrelBit
  rw [e]
  cases hcd : cond with
  | false =>
    rw [Int.ediv_eq_zero_of_lt hk (hc hcd)]; simp
  | true =>
    have := Int.emod_two_eq (k0 / 2 ^ i)
    rcases this with h | h <;> simp [h]

theorem exp_neg_le_78 {c : ℝ} (hc : 1 / 4 ≤ c) : Real.exp (-c) ≤ 78 / 100 := by
  have h1 : Real.exp (-c) ≤ Real.exp (-(1 / 4)) := Real.exp_le_exp.2 (by linarith)
  have h2 := exp_quarter.2
  linarith

/-- What a raw value with `ib` integer bits stands for. -/
noncomputable def rval (ib : Nat) (a : Int) : ℝ := (a : ℝ) / 2 ^ (31 - ib)

theorem expN_acc {ib : Nat} (hib : ib ≤ 29) {a : Int} (ha : In32 a) (h0 : a ≤ 0) {α β : ℝ}
    (hα : 0 ≤ α ∧ α ≤ 1 / 1000) (hβ : 8 * u ≤ β ∧ β ≤ 1 / 1000)
    (hab : 499 * u ≤ α * (77 / 100) + β) :
    |val (expN ib a) - Real.exp (rval ib a)| ≤ α * Real.exp (rval ib a) + β := by
  have hup : 0 < u := by unfold u; norm_num
  have ha' := (in32_iff a).1 ha
  by_cases hz : a = 0
  · subst hz
    have e : expN ib 0 = 2147483647 := by unfold expN; simp
    have er : rval ib 0 = 0 := by unfold rval; simp
    rw [e, er, Real.exp_zero]
    have : |val 2147483647 - 1| ≤ u := by unfold val u; norm_num [abs_le]
    refine le_trans this ?_
    linarith
  have hneg : a < 0 := by omega
  obtain ⟨⟨hq0, hq1⟩, hm, hzz, ⟨hr1, hr2⟩, hr0, hrq⟩ := quarter_facts hib ha h0
  have hr0 := hr0 hneg
  obtain ⟨q, hq⟩ : ∃ q : Int, q = 2 ^ (29 - ib) := ⟨_, rfl⟩
  rw [← hq] at hq0 hq1 hm hzz hr1 hr2 hr0 hrq
  obtain ⟨am, ham⟩ : ∃ am : Int, am = a % q - q := ⟨_, rfl⟩
  rw [← ham] at hm hzz hr1 hr2 hr0 hrq
  have hN : (2 : ℝ) ^ (31 - ib) * 2 ^ ib = 2147483648 := by
    rw [← pow_add, Nat.sub_add_cancel (by omega)]; norm_num
  have hNp : (0 : ℝ) < 2 ^ (31 - ib) := by positivity
  have hIp : (0 : ℝ) < 2 ^ ib := by positivity
  have hval : ∀ z : Int, val (z * 2 ^ ib) = (z : ℝ) / 2 ^ (31 - ib) := by
    intro z
    unfold val
    rw [← hN]; push_cast
    field_simp
  by_cases hcl : 5 < ib ∧ a < -2 ^ (36 - ib)
  · -- clamped: the true value is tiny
    have e : expN ib a = 0 := by unfold expN; simp [hcl, hz]
    rw [e]
    have hle : rval ib a ≤ -32 := by
      unfold rval
      rw [div_le_iff₀ hNp]
      have hh : (a : ℝ) ≤ ((-2 ^ (36 - ib) : Int) : ℝ) := Int.cast_le.2 (le_of_lt hcl.2)
      have : (2 : ℝ) ^ (36 - ib) = 32 * 2 ^ (31 - ib) := by
        rw [show 36 - ib = 5 + (31 - ib) by omega, pow_add]; norm_num
      push_cast at hh
      rw [this] at hh
      linarith
    have h32 : Real.exp (-32) ≤ 1 / 10 ^ 13 := by
      have := (exp_double (x := 16) exp_sixteen (by norm_num) (lo' := 0) (hi' := 1 / 10 ^ 13)
        (by norm_num) (by norm_num)).2
      norm_num at this ⊢; exact this
    have h1 := Real.exp_le_exp.2 hle
    have hp := Real.exp_pos (rval ib a)
    have v0 : val 0 = 0 := by unfold val; norm_num
    rw [v0, zero_sub, abs_neg, abs_of_pos hp]
    have : (1 : ℝ) / 10 ^ 13 ≤ 8 * u := by unfold u; norm_num
    have := mul_nonneg hα.1 hp.le
    linarith
  -- the general case
  obtain ⟨k, hk⟩ : ∃ k, am - a = q * k := Int.dvd_of_emod_eq_zero hrq
  have hk0 : 0 ≤ k := by
    by_contra hlt
    have : q * k ≤ q * (-1) := Int.mul_le_mul_of_nonneg_left (by omega) (by omega)
    omega
  have hki : k < 2 ^ (ib + 2) := by
    have e : q * 2 ^ (ib + 2) = 2147483648 := by
      rw [hq, ← Int.pow_add, show 29 - ib + (ib + 2) = 31 by omega]; norm_num
    by_contra hge
    have : q * 2 ^ (ib + 2) ≤ q * k := Int.mul_le_mul_of_nonneg_left (by omega) (by omega)
    omega
  have hk7 : k < 128 := by
    by_cases h5 : ib ≤ 5
    · have := pow_le_pow' (show ib + 2 ≤ 7 by omega)
      norm_num at this ⊢
      omega
    · have hge : -2 ^ (36 - ib) ≤ a := by
        by_contra hh; exact hcl ⟨by omega, by omega⟩
      have e : q * 128 = 2 ^ (36 - ib) := by
        rw [hq, show (128 : Int) = 2 ^ 7 by norm_num, ← Int.pow_add, show 29 - ib + 7 = 36 - ib by omega]
      by_contra hge2
      have : q * 128 ≤ q * k := Int.mul_le_mul_of_nonneg_left (by omega) (by omega)
      omega
  have bits : ∀ {cond : Bool} {n : Nat} (i : Nat), n = 29 - ib + i → (cond = false → ib + 2 ≤ i) →
      barrelBit cond n (am - a) = k / 2 ^ i % 2 := by
    intro cond n i hn hc
    rw [hn]
    refine barrelBit_eq hq hk0 hk ?_
    intro h
    exact lt_of_lt_of_le hki (pow_le_pow' (hc h))
  obtain ⟨m1, m2, m3, m4, m5, m6, m7⟩ := multipliers
  have start : |val (expI (am * 2 ^ ib)) - Real.exp (val (am * 2 ^ ib))| ≤
      α * Real.exp (val (am * 2 ^ ib)) + β := by
    refine le_trans (expI_acc hzz.1 hzz.2) (le_trans hab ?_)
    have hl : Real.exp (-(1 / 4)) ≤ Real.exp (val (am * 2 ^ ib)) := by
      apply Real.exp_le_exp.2
      have h1' : ((-536870912 : Int) : ℝ) ≤ ((am * 2 ^ ib : Int) : ℝ) := Int.cast_le.2 hzz.1
      unfold val
      push_cast at h1' ⊢
      linarith
    have hl2 := exp_quarter.1
    have : α * (77 / 100) ≤ α * Real.exp (val (am * 2 ^ ib)) := by
      apply mul_le_mul_of_nonneg_left _ hα.1
      linarith
    linarith
  have hy0 : val (am * 2 ^ ib) ≤ 0 := by
    have h1' : ((am * 2 ^ ib : Int) : ℝ) ≤ ((0 : Int) : ℝ) := Int.cast_le.2 hzz.2.le
    unfold val
    push_cast at h1' ⊢
    linarith
  have hexp : expN ib a = (
      let r := expI (am * 2 ^ ib)
      let r := barrelI true (29 - ib) (am - a) 1672461947 r
      let r := barrelI true (30 - ib) (am - a) 1302514674 r
      let r := barrelI (0 < ib) (31 - ib) (am - a) 790015084 r
      let r := barrelI (1 < ib) (32 - ib) (am - a) 290630308 r
      let r := barrelI (2 < ib) (33 - ib) (am - a) 39332535 r
      let r := barrelI (3 < ib) (34 - ib) (am - a) 720401 r
      barrelI (4 < ib) (35 - ib) (am - a) 242 r) := by
    rw [ham, hq]
    unfold expN
    dsimp only
    rw [if_neg hz, if_neg hcl]
  dsimp only at hexp
  rw [hexp]
  clear hexp
  obtain ⟨s1, y1⟩ := barrel_acc (cond := true) (k := 29 - ib) (rem := am - a) hy0 (by norm_num)
    (exp_neg_le_78 (by norm_num)) m1 start hα hβ
  obtain ⟨s2, y2⟩ := barrel_acc (cond := true) (k := 30 - ib) (rem := am - a) y1 (by norm_num)
    (exp_neg_le_78 (by norm_num)) m2 s1 hα hβ
  obtain ⟨s3, y3⟩ := barrel_acc (cond := decide (0 < ib)) (k := 31 - ib) (rem := am - a) y2 (by norm_num)
    (exp_neg_le_78 (by norm_num)) m3 s2 hα hβ
  obtain ⟨s4, y4⟩ := barrel_acc (cond := decide (1 < ib)) (k := 32 - ib) (rem := am - a) y3 (by norm_num)
    (exp_neg_le_78 (by norm_num)) m4 s3 hα hβ
  obtain ⟨s5, y5⟩ := barrel_acc (cond := decide (2 < ib)) (k := 33 - ib) (rem := am - a) y4 (by norm_num)
    (exp_neg_le_78 (by norm_num)) m5 s4 hα hβ
  obtain ⟨s6, y6⟩ := barrel_acc (cond := decide (3 < ib)) (k := 34 - ib) (rem := am - a) y5 (by norm_num)
    (exp_neg_le_78 (by norm_num)) m6 s5 hα hβ
  obtain ⟨s7, y7⟩ := barrel_acc (cond := decide (4 < ib)) (k := 35 - ib) (rem := am - a) y6 (by norm_num)
    (exp_neg_le_78 (by norm_num)) m7 s6 hα hβ
  rw [bits 0 (by omega) (by simp), bits 1 (by omega) (by simp),
    bits 2 (by omega) (by simp), bits 3 (by omega) (by simp),
    bits 4 (by omega) (by simp), bits 5 (by omega) (by simp),
    bits 6 (by omega) (by simp)] at s7
  have hsum : k / 2 ^ 0 % 2 + 2 * (k / 2 ^ 1 % 2) + 4 * (k / 2 ^ 2 % 2) + 8 * (k / 2 ^ 3 % 2) +
      16 * (k / 2 ^ 4 % 2) + 32 * (k / 2 ^ 5 % 2) + 64 * (k / 2 ^ 6 % 2) = k := by
    norm_num; omega
  have hfin : val (am * 2 ^ ib) - 1 / 4 * ((k / 2 ^ 0 % 2 : Int) : ℝ) - 1 / 2 * ((k / 2 ^ 1 % 2 : Int) : ℝ) -
      1 * ((k / 2 ^ 2 % 2 : Int) : ℝ) - 2 * ((k / 2 ^ 3 % 2 : Int) : ℝ) -
      4 * ((k / 2 ^ 4 % 2 : Int) : ℝ) - 8 * ((k / 2 ^ 5 % 2 : Int) : ℝ) - 16 * ((k / 2 ^ 6 % 2 : Int) : ℝ) =
      rval ib a := by
    have e1 : rval ib a = val (a * 2 ^ ib) := (hval a).symm
    have e2 : val (am * 2 ^ ib) = val (a * 2 ^ ib) + (k : ℝ) / 4 := by
      have : am = a + q * k := by omega
      have hqib : q * 2 ^ ib = 536870912 := by
        rw [hq, ← Int.pow_add, Nat.sub_add_cancel hib]; norm_num
      have e3 : am * 2 ^ ib = a * 2 ^ ib + k * 536870912 := by
        rw [this, Int.add_mul, ← hqib]; ring
      rw [e3, val_add]
      congr 1
      unfold val; push_cast; ring
    have hs : ((k / 2 ^ 0 % 2 + 2 * (k / 2 ^ 1 % 2) + 4 * (k / 2 ^ 2 % 2) + 8 * (k / 2 ^ 3 % 2) +
      16 * (k / 2 ^ 4 % 2) + 32 * (k / 2 ^ 5 % 2) + 64 * (k / 2 ^ 6 % 2) : Int) : ℝ) = (k : ℝ) := by
      rw [hsum]
    rw [e1, e2]
    simp only [Int.cast_add, Int.cast_mul] at hs
    norm_num at hs ⊢
    linarith
  rw [hfin] at s7
  exact s7

/-! ## Division -/

theorem newton_real {e : Int} (h0 : 0 ≤ e) (h1 : e < 2147483648) :
    |(newtonI ((e + 2147483648) / 2) : ℝ) / 1073741824 - 1 / (1 + val e)| ≤ 16 * u := by
  obtain ⟨-, err⟩ := newton_I (m := .wrap) h0 h1
  have hh1 : 2 * ((e + 2147483648) / 2) ≤ e + 2147483648 := by omega
  have hh2 : e + 2147483648 ≤ 2 * ((e + 2147483648) / 2) + 1 := by omega
  obtain ⟨r1, r2⟩ := newtonI_range (h := (e + 2147483648) / 2) (by omega) (by omega) err
  generalize (e + 2147483648) / 2 = h at *
  generalize newtonI h = x at *
  have h0' : ((0 : Int) : ℝ) ≤ (e : ℝ) := Int.cast_le.2 h0
  have hh1' : ((2 * h : Int) : ℝ) ≤ ((e + 2147483648 : Int) : ℝ) := Int.cast_le.2 hh1
  have hh2' : ((e + 2147483648 : Int) : ℝ) ≤ ((2 * h + 1 : Int) : ℝ) := Int.cast_le.2 hh2
  have r1' : ((536870909 : Int) : ℝ) ≤ (x : ℝ) := Int.cast_le.2 r1
  have r2' : (x : ℝ) ≤ ((1073741831 : Int) : ℝ) := Int.cast_le.2 r2
  rw [abs_le] at err
  have e1' : ((-(7 * 2 ^ 30) : Int) : ℝ) ≤ ((2 ^ 60 - h * x : Int) : ℝ) := Int.cast_le.2 err.1
  have e2' : ((2 ^ 60 - h * x : Int) : ℝ) ≤ ((7 * 2 ^ 30 : Int) : ℝ) := Int.cast_le.2 err.2
  push_cast at h0' hh1' hh2' r1' r2' e1' e2'
  have hy : 0 ≤ val e := by unfold val; linarith
  have key : |((x : ℝ) / 1073741824) * (1 + val e) - 1| ≤ 16 * u := by
    have : ((x : ℝ) / 1073741824) * (1 + val e) - 1 =
        (h * x - 2 ^ 60) / 2 ^ 60 + (e + 2147483648 - 2 * h) * x / 2 ^ 61 := by
      unfold val; ring
    rw [this]
    have t1 : 0 ≤ ((e : ℝ) + 2147483648 - 2 * h) * x := mul_nonneg (by linarith) (by linarith)
    have t2 : ((e : ℝ) + 2147483648 - 2 * h) * x ≤ 1 * 1073741831 :=
      mul_le_mul (by linarith) r2' (by linarith) (by norm_num)
    unfold u
    rw [abs_le]
    constructor <;> linarith
  have hpos : 0 < 1 + val e := by linarith
  have : (x : ℝ) / 1073741824 - 1 / (1 + val e) =
      (((x : ℝ) / 1073741824) * (1 + val e) - 1) / (1 + val e) := by
    field_simp
  rw [this, abs_div, abs_of_pos hpos, div_le_iff₀ hpos]
  have hup : 0 < u := by unfold u; norm_num
  have : 16 * u * 1 ≤ 16 * u * (1 + val e) := mul_le_mul_of_nonneg_left (by linarith) (by linarith)
  linarith

theorem oneOverI_acc {e : Int} (h0 : 0 ≤ e) (h1 : e < 2147483648) :
    |val (oneOverI e) - 1 / (1 + val e)| ≤ 16 * u := by
  have hn := newton_real h0 h1
  have h0' : ((0 : Int) : ℝ) ≤ (e : ℝ) := Int.cast_le.2 h0
  push_cast at h0'
  have hy : 0 ≤ val e := by unfold val; linarith
  have hT1 : 1 / (1 + val e) ≤ 1 := by
    rw [div_le_one (by linarith)]; linarith
  have hT0 : 0 < 1 / (1 + val e) := by apply div_pos <;> linarith
  have hup : 0 < u := by unfold u; norm_num
  obtain ⟨-, err⟩ := newton_I (m := .wrap) h0 h1
  obtain ⟨r1, r2⟩ := newtonI_range (h := (e + 2147483648) / 2) (by omega) (by omega) err
  unfold oneOverI
  rw [sat_cases]
  generalize newtonI ((e + 2147483648) / 2) = x at *
  rw [if_neg (by omega)]
  split
  · rename_i hgt
    have hg : ((2147483648 : Int) : ℝ) ≤ ((x * 2 : Int) : ℝ) := Int.cast_le.2 (by omega)
    push_cast at hg
    have hv : val 2147483647 = 1 - u := by unfold val u; norm_num
    rw [hv]
    rw [abs_le] at hn ⊢
    constructor <;> linarith
  · have : val (x * 2) = (x : ℝ) / 1073741824 := by unfold val; push_cast; ring
    rw [this]; exact hn

theorem oneMinusOverI_acc {e : Int} (h0 : 0 ≤ e) (h1 : e < 2147483648) :
    |val (oneMinusOverI e) - (1 - val e) / (1 + val e)| ≤ 33 * u := by
  have hn := newton_real h0 h1
  have h0' : ((0 : Int) : ℝ) ≤ (e : ℝ) := Int.cast_le.2 h0
  push_cast at h0'
  have hy : 0 ≤ val e := by unfold val; linarith
  have hT1 : 1 / (1 + val e) ≤ 1 := by
    rw [div_le_one (by linarith)]; linarith
  have hup : 0 < u := by unfold u; norm_num
  have hT : (1 - val e) / (1 + val e) = 2 * (1 / (1 + val e)) - 1 := by
    have : 1 + val e ≠ 0 := by linarith
    field_simp; ring
  rw [hT]
  obtain ⟨-, err⟩ := newton_I (m := .wrap) h0 h1
  obtain ⟨r1, r2⟩ := newtonI_range (h := (e + 2147483648) / 2) (by omega) (by omega) err
  unfold oneMinusOverI
  rw [sat_cases]
  generalize newtonI ((e + 2147483648) / 2) = x at *
  rw [if_neg (by omega)]
  split
  · rename_i hgt
    have hg : ((2147483648 : Int) : ℝ) ≤ (((x - 536870912) * 4 : Int) : ℝ) := Int.cast_le.2 (by omega)
    push_cast at hg
    have hv : val 2147483647 = 1 - u := by unfold val u; norm_num
    rw [hv]
    rw [abs_le] at hn ⊢
    constructor <;> linarith
  · have : val ((x - 536870912) * 4) = 2 * ((x : ℝ) / 1073741824) - 1 := by
      unfold val; push_cast; ring
    rw [this]
    rw [abs_le] at hn ⊢
    constructor <;> linarith

/-- How an error of the exponential propagates through `1 / (1 + y)`. -/
theorem recip_err {y Y : ℝ} (hy : 0 ≤ y) (hY : 0 ≤ Y) (h : |y - Y| ≤ 645 * u * Y + 8 * u) :
    |1 / (1 + y) - 1 / (1 + Y)| ≤ 200 * u := by
  have hup : 0 < u := by unfold u; norm_num
  have p1 : 0 < 1 + y := by linarith
  have p2 : 0 < 1 + Y := by linarith
  have e : 1 / (1 + y) - 1 / (1 + Y) = (Y - y) / ((1 + y) * (1 + Y)) := by
    field_simp; ring
  rw [e, abs_div, abs_sub_comm, abs_of_pos (mul_pos p1 p2), div_le_iff₀ (mul_pos p1 p2)]
  refine le_trans h ?_
  have hu' : u ≤ 1 / 10 ^ 6 := by unfold u; norm_num
  have hlow : Y * (999 / 1000) - 1 / 1000 ≤ y := by
    rw [abs_le] at h
    have : 645 * u * Y ≤ 645 * (1 / 10 ^ 6) * Y := mul_le_mul_of_nonneg_right (by linarith) hY
    linarith [h.1]
  have key : 645 * Y + 8 ≤ 200 * ((1 + y) * (1 + Y)) := by
    have h2 : (1 + (Y * (999 / 1000) - 1 / 1000)) * (1 + Y) ≤ (1 + y) * (1 + Y) :=
      mul_le_mul_of_nonneg_right (by linarith) p2.le
    nlinarith [sq_nonneg (Y - 6 / 10)]
  have := mul_le_mul_of_nonneg_left key hup.le
  linarith

theorem expN_rel {ib : Nat} (hib : ib ≤ 29) {a : Int} (ha : In32 a) (h0 : a ≤ 0) :
    |val (expN ib a) - Real.exp (rval ib a)| ≤ 645 * u * Real.exp (rval ib a) + 8 * u := by
  apply expN_acc hib ha h0 <;> unfold u <;> norm_num

theorem expN_abs {ib : Nat} (hib : ib ≤ 29) {a : Int} (ha : In32 a) (h0 : a ≤ 0) :
    |val (expN ib a) - Real.exp (rval ib a)| ≤ 499 * u := by
  have := expN_acc hib ha h0 (α := 0) (β := 499 * u) (by norm_num) (by unfold u; norm_num) (by unfold u; norm_num)
  linarith

theorem rval_neg (ib : Nat) (a : Int) : rval ib (-a) = -rval ib a := by
  unfold rval; push_cast; ring

theorem logisticPosI_acc {ib : Nat} (hib : ib ≤ 29) {a : Int} (h0 : 0 ≤ a) (h1 : a ≤ 2147483648) :
    |val (logisticPosI ib a) - 1 / (1 + Real.exp (-rval ib a))| ≤ 216 * u := by
  have hin : In32 (-a) := in32 (by omega)
  obtain ⟨-, b1, b2, -⟩ := expNeg_I (m := .wrap) hib hin (by omega)
  have hE := expN_rel hib hin (by omega)
  rw [rval_neg] at hE
  have h0' : ((0 : Int) : ℝ) ≤ (expN ib (-a) : ℝ) := Int.cast_le.2 b1
  push_cast at h0'
  have hr := recip_err (by unfold val; linarith) (Real.exp_pos _).le hE
  have := abs_tri (oneOverI_acc b1 (by omega)) hr
  unfold logisticPosI
  linarith

theorem logisticI_acc {ib : Nat} (hib : ib ≤ 29) {a : Int} (ha : In32 a) :
    |val (logisticI ib a) - 1 / (1 + Real.exp (-rval ib a))| ≤ 217 * u := by
  have ha' := (in32_iff a).1 ha
  have hup : 0 < u := by unfold u; norm_num
  unfold logisticI
  split
  · rename_i h; subst h
    have : rval ib 0 = 0 := by unfold rval; simp
    rw [this]
    have hv : val 1073741824 = 1 / 2 := by unfold val; norm_num
    rw [hv, neg_zero, Real.exp_zero]
    norm_num; linarith
  · split
    · have := logisticPosI_acc hib (a := a) (by omega) (by omega)
      linarith
    · have hL := logisticPosI_acc hib (a := -a) (by omega) (by omega)
      rw [rval_neg, neg_neg] at hL
      have hv : val (2147483647 - logisticPosI ib (-a)) = 1 - u - val (logisticPosI ib (-a)) := by
        unfold val u; push_cast; ring
      rw [hv]
      have hs : 1 / (1 + Real.exp (-rval ib a)) = 1 - 1 / (1 + Real.exp (rval ib a)) := by
        have p := Real.exp_pos (rval ib a)
        rw [Real.exp_neg]
        have : 1 + Real.exp (rval ib a) ≠ 0 := by linarith
        field_simp
        ring
      rw [hs]
      rw [abs_le] at hL ⊢
      constructor <;> linarith

theorem negTanhI_acc {ib : Nat} (hib : ib ≤ 28) {a : Int} (ha : In32 a) (h0 : a ≤ 0) :
    |val (oneMinusOverI (expN (ib + 1) a)) - -Real.tanh (rval ib a)| ≤ 433 * u := by
  obtain ⟨-, b1, b2, -⟩ := expNeg_I (m := .wrap) (ib := ib + 1) (by omega) ha h0
  have hE := expN_rel (ib := ib + 1) (by omega) ha h0
  have h0' : ((0 : Int) : ℝ) ≤ (expN (ib + 1) a : ℝ) := Int.cast_le.2 b1
  push_cast at h0'
  have hy : 0 ≤ val (expN (ib + 1) a) := by unfold val; linarith
  have hr := recip_err hy (Real.exp_pos _).le hE
  have ho := oneMinusOverI_acc b1 (by omega)
  have h2 : rval (ib + 1) a = rval ib a + rval ib a := by
    unfold rval
    rw [show 31 - ib = (31 - (ib + 1)) + 1 by omega, pow_succ]
    field_simp; ring
  have hth : -Real.tanh (rval ib a) =
      2 * (1 / (1 + Real.exp (rval (ib + 1) a))) - 1 := by
    rw [Real.tanh_eq, h2, Real.exp_add, Real.exp_neg]
    have p := Real.exp_pos (rval ib a)
    generalize Real.exp (rval ib a) = t at *
    have : 1 + t * t ≠ 0 := by nlinarith
    have : t * t + 1 ≠ 0 := by nlinarith
    have : t ≠ 0 := by linarith
    have : t + t⁻¹ ≠ 0 := by
      have := inv_pos.2 p; linarith
    field_simp
    ring
  have hval : (1 - val (expN (ib + 1) a)) / (1 + val (expN (ib + 1) a)) =
      2 * (1 / (1 + val (expN (ib + 1) a))) - 1 := by
    have : 1 + val (expN (ib + 1) a) ≠ 0 := by linarith
    field_simp; ring
  rw [hth]
  rw [hval] at ho
  rw [abs_le] at ho hr ⊢
  constructor <;> linarith

theorem tanhI_acc {ib : Nat} (hib : ib ≤ 28) {a : Int} (ha : In32 a) :
    |val (tanhI ib a) - Real.tanh (rval ib a)| ≤ 433 * u := by
  have ha' := (in32_iff a).1 ha
  unfold tanhI
  split
  · rename_i h; subst h
    have : rval ib 0 = 0 := by unfold rval; simp
    rw [this, Real.tanh_zero]
    have hv : val 0 = 0 := by unfold val; norm_num
    rw [hv]
    unfold u; norm_num
  · have hvn : ∀ x, val (-x) = -val x := by intro x; unfold val; push_cast; ring
    split
    · have := negTanhI_acc hib ha (by omega)
      rw [hvn]
      rw [abs_le] at this ⊢
      constructor <;> linarith
    · have := negTanhI_acc hib (a := -a) (in32 (by omega)) (by omega)
      rw [rval_neg, Real.tanh_neg, neg_neg] at this
      exact this

end Gemmlowp.Fx
