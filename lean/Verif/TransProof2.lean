import Verif.TransProof
import Mathlib.Algebra.Order.Ring.Abs
/-!
# Newton-Raphson division, logistic and tanh on 32-bit raw values
-/
namespace Gemmlowp.Fx

/-- One round of the division: `x` approximates `2^60 / h`. -/
def stepI (h x : Int) : Int := x + 4 * sm x (536870912 - sm h x)

/-- The first approximation. -/
def startI (h : Int) : Int := 1515870810 + sm h (-1010580540)

/-- Approximation of `2^60 / h` after three rounds. -/
def newtonI (h : Int) : Int := stepI h (stepI h (stepI h (startI h)))

theorem sm_err (a b : Int) : -1073741824 ≤ 2147483648 * sm a b - a * b ∧
    2147483648 * sm a b - a * b ≤ 1073741824 := by
  unfold sm; omega

theorem abs_mul_le {a b A B : Int} (ha : |a| ≤ A) (hb : |b| ≤ B) : |a * b| ≤ A * B := by
  rw [abs_mul]
  exact mul_le_mul ha hb (abs_nonneg _) (le_trans (abs_nonneg _) ha)

/-- How the error develops in one round. -/
theorem stepI_err {h x e : Int} (h1 : 1073741824 ≤ h) (h2 : h < 2147483648)
    (he : |2 ^ 60 - h * x| ≤ e) (he2 : e ≤ 2 ^ 56) :
    |2 ^ 60 * (2 ^ 60 - h * stepI h x)| ≤ e * e + 6 * 2 ^ 90 := by
  obtain ⟨a1, a2⟩ := sm_err h x
  obtain ⟨b1, b2⟩ := sm_err x (536870912 - sm h x)
  unfold stepI
  generalize sm h x = s at *
  generalize sm x (536870912 - s) = p at *
  obtain ⟨d1, hd1⟩ : ∃ d1, d1 = 2147483648 * s - h * x := ⟨_, rfl⟩
  obtain ⟨d2, hd2⟩ : ∃ d2, d2 = 2147483648 * p - x * (536870912 - s) := ⟨_, rfl⟩
  rw [← hd1] at a1 a2
  rw [← hd2] at b1 b2
  have key : (2 : Int) ^ 60 * (2 ^ 60 - h * (x + 4 * p)) =
      (2 ^ 60 - h * x) * (2 ^ 60 - h * x) + (h * x) * d1 - (2147483648 * h) * d2 := by
    rw [hd1, hd2]; ring
  rw [key]
  have t1 := abs_mul_le he he
  have he' := abs_le.1 he
  have hx : |h * x| ≤ 2 ^ 60 + 2 ^ 56 := by rw [abs_le]; constructor <;> linarith
  have t2 : |(h * x) * d1| ≤ (2 ^ 60 + 2 ^ 56) * 2 ^ 30 :=
    abs_mul_le hx (by rw [abs_le]; constructor <;> linarith)
  have t3 : |(2147483648 * h) * d2| ≤ 2 ^ 62 * 2 ^ 30 :=
    abs_mul_le (by rw [abs_le]; constructor <;> linarith) (by rw [abs_le]; constructor <;> linarith)
  calc |(2 ^ 60 - h * x) * (2 ^ 60 - h * x) + (h * x) * d1 - (2147483648 * h) * d2|
      ≤ |(2 ^ 60 - h * x) * (2 ^ 60 - h * x)| + |(h * x) * d1| + |(2147483648 * h) * d2| := by
        have := abs_sub ((2 ^ 60 - h * x) * (2 ^ 60 - h * x) + (h * x) * d1) ((2147483648 * h) * d2)
        have := abs_add_le ((2 ^ 60 - h * x) * (2 ^ 60 - h * x)) ((h * x) * d1)
        linarith
    _ ≤ e * e + 6 * 2 ^ 90 := by linarith

theorem stepI_le {h x e e' : Int} (h1 : 1073741824 ≤ h) (h2 : h < 2147483648)
    (he : |2 ^ 60 - h * x| ≤ e) (he2 : e ≤ 2 ^ 56) (hn : e * e + 6 * 2 ^ 90 < 2 ^ 60 * (e' + 1)) :
    |2 ^ 60 - h * stepI h x| ≤ e' := by
  have := stepI_err h1 h2 he he2
  rw [abs_mul, abs_of_pos (by norm_num : (0 : Int) < 2 ^ 60)] at this
  have h3 : (2 : Int) ^ 60 * |2 ^ 60 - h * stepI h x| < 2 ^ 60 * (e' + 1) := lt_of_le_of_lt this hn
  have := lt_of_mul_lt_mul_left h3 (by norm_num)
  omega

theorem startI_err {h : Int} (h1 : 1073741824 ≤ h) (h2 : h < 2147483648) :
    |2 ^ 60 - h * startI h| ≤ 2 ^ 56 := by
  obtain ⟨a1, a2⟩ := sm_err h (-1010580540)
  unfold startI
  generalize sm h (-1010580540) = s at *
  have m1 := mul_le_mul_of_nonneg_left a1 (show 0 ≤ h by omega)
  have m2 := mul_le_mul_of_nonneg_left a2 (show 0 ≤ h by omega)
  have q1 := mul_self_nonneg (h - 1610612736)
  have q2 := mul_nonneg (show 0 ≤ h - 1073741824 by omega) (show 0 ≤ 2147483648 - h by omega)
  rw [abs_le]
  constructor <;> linarith

/-- Values of `x` close to `2^60 / h` stay in range. -/
theorem near_range {h x : Int} (h1 : 1073741824 ≤ h) (h2 : h < 2147483648)
    (he : |2 ^ 60 - h * x| ≤ 2 ^ 56) : 400000000 ≤ x ∧ x ≤ 1140850688 := by
  rw [abs_le] at he
  constructor <;> nlinarith

/-- No saturation or overflow within a round. -/
theorem stepI_range {h x : Int} (h1 : 1073741824 ≤ h) (h2 : h < 2147483648)
    (he : |2 ^ 60 - h * x| ≤ 2 ^ 56) :
    (536870912 - 33554433 ≤ sm h x ∧ sm h x ≤ 536870912 + 33554433) ∧
    (-20000000 ≤ sm x (536870912 - sm h x) ∧ sm x (536870912 - sm h x) ≤ 20000000) := by
  obtain ⟨a1, a2⟩ := sm_err h x
  obtain ⟨b1, b2⟩ := sm_err x (536870912 - sm h x)
  obtain ⟨c1, c2⟩ := near_range h1 h2 he
  rw [abs_le] at he
  have hs : 536870912 - 33554433 ≤ sm h x ∧ sm h x ≤ 536870912 + 33554433 := by
    constructor <;> omega
  refine ⟨hs, ?_⟩
  generalize sm h x = s at *
  generalize sm x (536870912 - s) = p at *
  have hp := abs_mul_le (a := x) (b := 536870912 - s) (A := 1140850688) (B := 33554433)
    (by rw [abs_le]; constructor <;> omega) (by rw [abs_le]; constructor <;> omega)
  rw [abs_le] at hp
  constructor <;> omega

theorem one2_I : one 32 2 = .ok (BitVec.ofInt 32 536870912) := rfl
theorem one0_I : one 32 0 = .ok (BitVec.ofInt 32 2147483647) := rfl

theorem newtonStep_I {m : OvMode} {h x : Int} (h1 : 1073741824 ≤ h) (h2 : h < 2147483648)
    (he : |2 ^ 60 - h * x| ≤ 2 ^ 56) :
    newtonStep m (BitVec.ofInt 32 h) (BitVec.ofInt 32 x) = .ok (BitVec.ofInt 32 (stepI h x)) := by
  obtain ⟨c1, c2⟩ := near_range h1 h2 he
  obtain ⟨⟨s1, s2⟩, p1, p2⟩ := stepI_range h1 h2 he
  unfold newtonStep
  dsimp only
  rw [srdhm_I (in32 (by omega)) (in32 (by omega)) (by omega), one2_I, ok_bind,
    sub_I (in32 (by omega)) (in32 (by omega)) (in32 (by omega)), ok_bind,
    srdhm_I (in32 (by omega)) (in32 (by omega)) (by omega)]
  unfold rescale
  have e2 : (4 : Int) - 2 = ((2 : Nat) : Int) := rfl
  rw [e2, srmbp_pos_I (by decide) (in32 (by omega)), ok_bind]
  rw [sat_eq (in32 (by omega)), add_I (in32 (by omega)) (in32 (by omega)) (in32 (by omega))]
  unfold stepI
  rw [show ((2 : Int) ^ 2) = 4 by norm_num, Int.mul_comm 4]

/-- The division: no fault, and within a few units of `2^60 / h`. -/
theorem newton_I {m : OvMode} {a : Int} (h0 : 0 ≤ a) (h1 : a < 2147483648) :
    newton m (BitVec.ofInt 32 a) = .ok (BitVec.ofInt 32 (newtonI ((a + 2147483648) / 2))) ∧
      |2 ^ 60 - ((a + 2147483648) / 2) * newtonI ((a + 2147483648) / 2)| ≤ 7 * 2 ^ 30 := by
  obtain ⟨h, hh⟩ : ∃ h, h = (a + 2147483648) / 2 := ⟨_, rfl⟩
  have r1 : 1073741824 ≤ h := by omega
  have r2 : h < 2147483648 := by omega
  rw [← hh]
  have e0 := startI_err r1 r2
  have e1 := stepI_le (e' := 2 ^ 52 + 2 ^ 33) r1 r2 e0 (by norm_num) (by norm_num)
  have e2 := stepI_le (e' := 2 ^ 44 + 2 ^ 34) r1 r2 e1 (by norm_num) (by norm_num)
  have e3 := stepI_le (e' := 7 * 2 ^ 30) r1 r2 e2 (by norm_num) (by norm_num)
  have hhd : roundingHalfSum (BitVec.ofInt 32 a) (BitVec.ofInt 32 2147483647) = BitVec.ofInt 32 h := by
    unfold roundingHalfSum
    dsimp only
    rw [toI (in32 (by omega)), toI (in32 (by omega)), if_pos (by omega),
      Int.tdiv_eq_ediv_of_nonneg (by omega), hh]
    congr 2
    omega
  have hs : startI h = 1515870810 + sm h (-1010580540) := rfl
  have hr := near_range r1 r2 e0
  refine ⟨?_, ?_⟩
  · unfold newton
    rw [one0_I, ok_bind, hhd]
    dsimp only
    rw [constant_I (in32 (by omega)), ok_bind, constant_I (in32 (by omega)), ok_bind,
      srdhm_I (in32 (by omega)) (in32 (by omega)) (by omega),
      add_I (in32 (by omega)) (in32 (by omega)) (in32 (by omega)), ok_bind, ← hs,
      newtonStep_I r1 r2 e0, ok_bind,
      newtonStep_I r1 r2 (le_trans e1 (by norm_num)), ok_bind,
      newtonStep_I r1 r2 (le_trans e2 (by norm_num))]
    rfl
  · exact e3

/-! ## The two quotients -/

theorem newtonI_range {h : Int} (h1 : 1073741824 ≤ h) (h2 : h < 2147483648)
    (he : |2 ^ 60 - h * newtonI h| ≤ 7 * 2 ^ 30) :
    536870909 ≤ newtonI h ∧ newtonI h ≤ 1073741831 := by
  rw [abs_le] at he
  constructor <;> nlinarith

/-- `1 / (1 + a)` for `a` in `[0, 1)`. -/
def oneOverI (a : Int) : Int := sat (newtonI ((a + 2147483648) / 2) * 2)

/-- `(1 - a) / (1 + a)` for `a` in `[0, 1)`. -/
def oneMinusOverI (a : Int) : Int := sat ((newtonI ((a + 2147483648) / 2) - 536870912) * 4)

theorem sat_cases (x : Int) : sat x = if x < -2147483648 then -2147483648 else
    if x > 2147483647 then 2147483647 else x := by
  unfold sat Spec.clampTo; rfl

theorem oneOver_I {m : OvMode} {a : Int} (h0 : 0 ≤ a) (h1 : a < 2147483648) :
    oneOver m (BitVec.ofInt 32 a) = .ok (BitVec.ofInt 32 (oneOverI a)) ∧
      1073741818 ≤ oneOverI a ∧ oneOverI a ≤ 2147483647 := by
  obtain ⟨e, err⟩ := newton_I (m := m) h0 h1
  obtain ⟨r1, r2⟩ := newtonI_range (by omega) (by omega) err
  unfold oneOver oneOverI
  rw [e, ok_bind]
  unfold rescale
  rw [show (1 : Int) - 0 = ((1 : Nat) : Int) from rfl, srmbp_pos_I (by decide) (in32 (by omega))]
  refine ⟨by norm_num, ?_⟩
  rw [sat_cases]
  split
  · omega
  · split <;> omega

theorem oneMinusOver_I {m : OvMode} {a : Int} (h0 : 0 ≤ a) (h1 : a < 2147483648) :
    oneMinusOver m (BitVec.ofInt 32 a) = .ok (BitVec.ofInt 32 (oneMinusOverI a)) ∧
      -12 ≤ oneMinusOverI a ∧ oneMinusOverI a ≤ 2147483647 ∧
      (a ≤ 2147483155 → 1 ≤ oneMinusOverI a) := by
  obtain ⟨e, err⟩ := newton_I (m := m) h0 h1
  obtain ⟨r1, r2⟩ := newtonI_range (by omega) (by omega) err
  unfold oneMinusOver oneMinusOverI
  rw [e, ok_bind, one2_I, ok_bind, sub_I (in32 (by omega)) (in32 (by omega)) (in32 (by omega)), ok_bind]
  unfold rescale
  rw [show (2 : Int) - 0 = ((2 : Nat) : Int) from rfl, srmbp_pos_I (by decide) (in32 (by omega))]
  refine ⟨by norm_num, ?_⟩
  rw [sat_cases]
  refine ⟨?_, ?_, ?_⟩
  · split
    · omega
    · split <;> omega
  · split
    · omega
    · split <;> omega
  · intro ha
    have hge : 536870913 ≤ newtonI ((a + 2147483648) / 2) := by
      rw [abs_le] at err
      have hh1 : 1073741824 ≤ (a + 2147483648) / 2 := by omega
      have hh2 : (a + 2147483648) / 2 ≤ 2147483401 := by omega
      generalize (a + 2147483648) / 2 = h at *
      generalize newtonI h = x at *
      by_contra hlt
      have := mul_le_mul hh2 (show x ≤ 536870912 by omega) (by omega) (by omega)
      norm_num at this err
      omega
    split
    · omega
    · split <;> omega

/-! ## logistic and tanh -/

/-- The logistic function for positive arguments. -/
def logisticPosI (ib : Nat) (a : Int) : Int := oneOverI (expN ib (-a))

/-- The logistic function. -/
def logisticI (ib : Nat) (a : Int) : Int :=
  if a = 0 then 1073741824 else if 0 < a then logisticPosI ib a else 2147483647 - logisticPosI ib (-a)

/-- The hyperbolic tangent. -/
def tanhI (ib : Nat) (a : Int) : Int :=
  if a = 0 then 0 else if a < 0 then -oneMinusOverI (expN (ib + 1) a)
    else oneMinusOverI (expN (ib + 1) (-a))

theorem neg_min : neg .wrap (BitVec.ofInt 32 (-2147483648)) = .ok (BitVec.ofInt 32 (-2147483648)) := by
  decide

theorem logisticPos_I {m : OvMode} {ib : Nat} (hib : ib ≤ 29) {a : Int} (h0 : 0 ≤ a)
    (h1 : a < 2147483648) :
    logisticPos m ib (BitVec.ofInt 32 a) = .ok (BitVec.ofInt 32 (logisticPosI ib a)) := by
  obtain ⟨e, b1, b2, -⟩ := expNeg_I (m := m) hib (a := -a) (in32 (by omega)) (by omega)
  unfold logisticPos logisticPosI
  rw [neg_I (in32 (by omega)) (in32 (by omega)), ok_bind, e, ok_bind]
  exact (oneOver_I (m := m) b1 (by omega)).1

theorem logisticPos_min {ib : Nat} (hib : ib ≤ 29) :
    logisticPos .wrap ib (BitVec.ofInt 32 (-2147483648)) =
      .ok (BitVec.ofInt 32 (logisticPosI ib 2147483648)) := by
  obtain ⟨e, b1, b2, -⟩ := expNeg_I (m := .wrap) hib (a := -2147483648) (in32 (by omega)) (by omega)
  unfold logisticPos logisticPosI
  rw [neg_min, ok_bind, e, ok_bind]
  exact (oneOver_I (m := .wrap) b1 (by omega)).1

theorem logisticPosI_bounds {ib : Nat} (hib : ib ≤ 29) {a : Int} (h0 : 0 ≤ a) (h1 : a ≤ 2147483648) :
    1073741818 ≤ logisticPosI ib a ∧ logisticPosI ib a ≤ 2147483647 := by
  obtain ⟨e, b1, b2, -⟩ := expNeg_I (m := .wrap) hib (a := -a) (in32 (by omega)) (by omega)
  exact (oneOver_I (m := .wrap) b1 (by omega)).2

theorem half_I : constant 32 (2 ^ 30) = .ok (BitVec.ofInt 32 1073741824) := by
  rw [constant_I (in32 (by norm_num))]; rfl

theorem logistic_I {m : OvMode} {ib : Nat} (hib : ib ≤ 29) {a : Int} (ha : In32 a)
    (h0 : m = .wrap ∨ -2147483648 < a) :
    logistic m ib (BitVec.ofInt 32 a) = .ok (BitVec.ofInt 32 (logisticI ib a)) := by
  have ha' := (in32_iff a).1 ha
  unfold logistic logisticI
  dsimp only
  have hm : maskIfGreaterThan (BitVec.ofInt 32 a) (dup 32 0) =
      if 0 < a then BitVec.allOnes 32 else 0 := by
    rw [(C33_masks (by decide) (BitVec.ofInt 32 a) (dup 32 0)).2.2.2.2.1, toI ha, dup_I, toI (in32 (by omega))]
  have hz : maskIfZero (BitVec.ofInt 32 a) = if a = 0 then BitVec.allOnes 32 else 0 := by
    rw [(C33_masks (by decide) (BitVec.ofInt 32 a) 0).2.1, toI ha]
  rw [hm, hz]
  simp only [select_I]
  rw [one0_I, half_I]
  by_cases hmin : a = -2147483648
  · subst hmin
    have hw : m = .wrap := by rcases h0 with h | h; exact h; omega
    subst hw
    have b := logisticPosI_bounds hib (a := 2147483648) (by omega) (by omega)
    rw [neg_min, ok_bind, if_neg (by omega), logisticPos_min hib, ok_bind, ok_bind,
      sub_I (in32 (by omega)) (in32 (by omega)) (in32 (by omega)), ok_bind, ok_bind,
      if_neg (by omega), if_neg (by omega), if_neg (by omega), if_neg (by omega)]
    rfl
  rw [neg_I ha (in32 (by omega)), ok_bind]
  by_cases hp : 0 < a
  · obtain ⟨b1, b2⟩ := logisticPosI_bounds hib (a := a) (by omega) (by omega)
    rw [if_pos hp, logisticPos_I hib (by omega) (by omega), ok_bind, ok_bind,
      sub_I (in32 (by omega)) (in32 (by omega)) (in32 (by omega)),
      ok_bind, ok_bind, if_neg (by omega), if_pos hp, if_neg (by omega), if_pos hp]
    rfl
  · obtain ⟨b1, b2⟩ := logisticPosI_bounds hib (a := -a) (by omega) (by omega)
    rw [if_neg hp, logisticPos_I hib (by omega) (by omega), ok_bind, ok_bind,
      sub_I (in32 (by omega)) (in32 (by omega)) (in32 (by omega)),
      ok_bind, ok_bind, if_neg hp, if_neg hp]
    by_cases hz : a = 0
    · rw [if_pos hz, if_pos hz]; rfl
    · rw [if_neg hz, if_neg hz]; rfl

theorem negTanh_I {m : OvMode} {ib : Nat} (hib : ib ≤ 28) {a : Int} (h0 : -2147483648 ≤ a)
    (h1 : a ≤ 0) :
    negTanh m ib (BitVec.ofInt 32 a) = .ok (BitVec.ofInt 32 (oneMinusOverI (expN (ib + 1) a))) ∧
      -12 ≤ oneMinusOverI (expN (ib + 1) a) ∧ oneMinusOverI (expN (ib + 1) a) ≤ 2147483647 ∧
      (a < 0 → 1 ≤ oneMinusOverI (expN (ib + 1) a)) := by
  obtain ⟨e, b1, b2, b3⟩ := expNeg_I (m := m) (ib := ib + 1) (by omega) (a := a) (in32 (by omega)) (by omega)
  obtain ⟨o, c1, c2, c3⟩ := oneMinusOver_I (m := m) b1 (by omega)
  unfold negTanh
  rw [show (ib : Int) + 1 = ((ib + 1 : Nat) : Int) from rfl, e, ok_bind]
  exact ⟨o, c1, c2, fun h => c3 (b3 h)⟩

theorem tanh_I {m : OvMode} {ib : Nat} (hib : ib ≤ 28) {a : Int} (ha : In32 a)
    (h0 : m = .wrap ∨ -2147483648 < a) :
    tanh m ib (BitVec.ofInt 32 a) = .ok (BitVec.ofInt 32 (tanhI ib a)) := by
  have ha' := (in32_iff a).1 ha
  unfold tanh tanhI
  dsimp only
  have hm : maskIfLessThan (BitVec.ofInt 32 a) (dup 32 0) =
      if a < 0 then BitVec.allOnes 32 else 0 := by
    rw [(C33_masks (by decide) (BitVec.ofInt 32 a) (dup 32 0)).2.2.2.2.2.2.1, toI ha, dup_I, toI (in32 (by omega))]
  have hz : maskIfZero (BitVec.ofInt 32 a) = if a = 0 then BitVec.allOnes 32 else 0 := by
    rw [(C33_masks (by decide) (BitVec.ofInt 32 a) 0).2.1, toI ha]
  rw [hm, hz]
  simp only [select_I]
  have hn : ∃ na, neg m (BitVec.ofInt 32 a) = .ok na ∧ (0 ≤ a → na = BitVec.ofInt 32 (-a)) := by
    by_cases hmin : a = -2147483648
    · subst hmin
      have hw : m = .wrap := by rcases h0 with h | h; exact h; omega
      subst hw
      exact ⟨_, neg_min, fun h => by omega⟩
    · exact ⟨_, neg_I ha (in32 (by omega)), fun _ => rfl⟩
  obtain ⟨na, hn1, hn2⟩ := hn
  rw [hn1, ok_bind]
  by_cases hp : a < 0
  · obtain ⟨e, c1, c2, c3⟩ := negTanh_I (m := m) hib (a := a) (by omega) (by omega)
    rw [if_pos hp, e, ok_bind, neg_I (in32 (by omega)) (in32 (by omega)), ok_bind,
      if_neg (by omega), if_pos hp, if_neg (by omega), if_pos hp]
    rfl
  · obtain ⟨e, c1, c2, c3⟩ := negTanh_I (m := m) hib (a := -a) (by omega) (by omega)
    rw [if_neg hp, hn2 (by omega), e, ok_bind, neg_I (in32 (by omega)) (in32 (by omega)), ok_bind,
      if_neg hp, if_neg hp]
    by_cases hz : a = 0
    · rw [if_pos hz, if_pos hz]; rfl
    · rw [if_neg hz, if_neg hz]; rfl

end Gemmlowp.Fx
