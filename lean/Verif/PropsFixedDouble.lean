import Verif.FixedDouble
import Verif.TanhInit
import Verif.AccProof
/-!
# Property C70: conversions between fixed-point numbers and doubles, and the checks of the constants
-/
namespace Gemmlowp.Fx

open TanhStage F32

/-! ## The nearest fixed-point number -/

/-- A finite binary64 number. -/
def IsDouble (x : Rat) : Prop := ∃ n j : Int, |n| ≤ 2 ^ 53 ∧ x = n * pow2 j

/-- `r` is the number from `lo` to `hi` nearest to `v`; of two equally near ones, the one farther from zero. -/
def Nearest (lo hi : Int) (v : Rat) (r : Int) : Prop :=
  lo ≤ r ∧ r ≤ hi ∧ ∀ s : Int, lo ≤ s → s ≤ hi → |(r : Rat) - v| ≤ |(s : Rat) - v| ∧
    (|(r : Rat) - v| = |(s : Rat) - v| → r = s ∨ |s| < |r|)

theorem IsDouble.scale {x : Rat} (h : IsDouble x) (j : Int) : IsDouble (x * pow2 j) := by
  obtain ⟨n, k, h1, rfl⟩ := h
  exact ⟨n, k + j, h1, by rw [pow2_add]; ring⟩

theorem IsDouble.rn {x : Rat} (h : IsDouble x) : rn64 x = x := by
  obtain ⟨n, j, h1, rfl⟩ := h
  have hj := pow2_pos j
  rcases lt_trichotomy n 0 with hn | rfl | hn
  · have hlt : (n : Rat) * pow2 j < 0 := mul_neg_of_neg_of_pos (by exact_mod_cast hn) hj
    obtain ⟨k, hk⟩ := Int.eq_ofNat_of_zero_le (show 0 ≤ -n by omega)
    have e : -((n : Rat) * pow2 j) = (k : Rat) * pow2 j := by
      rw [← neg_mul]; congr 1; exact_mod_cast hk
    unfold rn64
    rw [if_neg hlt.ne, if_pos hlt, e, rnPos_exact (by omega) (by have := abs_le.1 h1; omega), ← e, neg_neg]
  · unfold rn64
    rw [Int.cast_zero, zero_mul, if_pos rfl]
  · obtain ⟨k, hk⟩ := Int.eq_ofNat_of_zero_le hn.le
    subst hk
    have hgt : (0 : Rat) < ((k : Int) : Rat) * pow2 j := mul_pos (by exact_mod_cast hn) hj
    rw [rn64_pos hgt]
    have := rnPos_exact (n := k) (by omega) (by have := abs_le.1 h1; omega) j
    exact_mod_cast this

theorem roundAway_err (q : Rat) : |(roundAway q : Rat) - q| ≤ 1 / 2 := by
  rcases lt_or_ge q 0 with h | h
  · have := roundAway_nonneg (q := -q) (by linarith)
    unfold roundAway at this ⊢
    rw [if_neg (by linarith)] at this
    rw [if_pos h]
    rw [abs_le] at this ⊢
    push_cast
    constructor <;> linarith [this.1, this.2]
  · exact roundAway_nonneg h

/-- Halves go away from zero. -/
theorem roundAway_tie (q : Rat) : (0 ≤ q → q - 1 / 2 < roundAway q ∧ (roundAway q : Rat) ≤ q + 1 / 2) ∧
    (q < 0 → q - 1 / 2 ≤ roundAway q ∧ (roundAway q : Rat) < q + 1 / 2) := by
  constructor
  · intro h
    unfold roundAway
    rw [if_neg (not_lt.2 h)]
    obtain ⟨h1, h2⟩ := floor_spec (q + 1 / 2)
    constructor <;> linarith
  · intro h
    unfold roundAway
    rw [if_pos h]
    obtain ⟨h1, h2⟩ := floor_spec (-q + 1 / 2)
    push_cast
    constructor <;> linarith

theorem roundAway_near {q : Rat} {n : Int} (h : |q - n| < 1 / 2) : roundAway q = n := by
  have h1 := abs_le.1 (roundAway_err q)
  rw [abs_lt] at h
  have a1 : ((roundAway q : Int) : Rat) < ((n + 1 : Int) : Rat) := by push_cast; linarith
  have a2 : ((n - 1 : Int) : Rat) < ((roundAway q : Int) : Rat) := by push_cast; linarith
  have a1' := Int.cast_lt.1 a1
  have a2' := Int.cast_lt.1 a2
  omega

theorem minW_le_maxW {w : Nat} : minW w ≤ 0 ∧ 0 ≤ maxW w := by
  unfold minW maxW
  have : (1 : Int) ≤ 2 ^ (w - 1) := one_le_pow₀ (by norm_num)
  omega

theorem clamp_nearest (lo hi : Int) (h0 : lo ≤ 0) (h1 : 0 ≤ hi) (v : Rat) :
    Nearest lo hi v (min (max (roundAway v) lo) hi) := by
  refine ⟨by omega, by omega, fun s s1 s2 => ?_⟩
  obtain ⟨t1, t2⟩ := roundAway_tie v
  generalize roundAway v = r at *
  have es1 : (lo : Rat) ≤ s := by exact_mod_cast s1
  have es2 : (s : Rat) ≤ hi := by exact_mod_cast s2
  have e0 : (lo : Rat) ≤ 0 := by exact_mod_cast h0
  have e1 : (0 : Rat) ≤ hi := by exact_mod_cast h1
  rcases lt_or_ge r lo with hl | hl
  · have er : (r : Rat) + 1 ≤ lo := by exact_mod_cast hl
    have hv : v < lo := by
      rcases lt_or_ge v 0 with h | h
      · linarith [(t2 h).1]
      · linarith [(t1 h).1]
    rw [show min (max r lo) hi = lo by omega, abs_of_pos (by linarith : (0 : Rat) < lo - v),
      abs_of_pos (by linarith : (0 : Rat) < s - v)]
    refine ⟨by linarith, fun h => Or.inl ?_⟩
    have : (lo : Rat) = s := by linarith
    exact_mod_cast this
  rcases lt_or_ge hi r with hr | hr
  · have er : (hi : Rat) + 1 ≤ r := by exact_mod_cast hr
    have hv : hi < v := by
      rcases lt_or_ge v 0 with h | h
      · linarith [(t2 h).2]
      · linarith [(t1 h).2]
    rw [show min (max r lo) hi = hi by omega, abs_of_neg (by linarith : (hi : Rat) - v < 0),
      abs_of_neg (by linarith : (s : Rat) - v < 0)]
    refine ⟨by linarith, fun h => Or.inl ?_⟩
    have : (hi : Rat) = s := by linarith
    exact_mod_cast this
  rw [show min (max r lo) hi = r by omega]
  by_cases hs : r = s
  · subst hs
    exact ⟨le_rfl, fun _ => Or.inl rfl⟩
  have hd : (r : Rat) + 1 ≤ s ∨ (s : Rat) + 1 ≤ r := by
    rcases lt_or_gt_of_ne hs with h | h
    · left; exact_mod_cast h
    · right; exact_mod_cast h
  have hrr : |(r : Rat) - v| ≤ 1 / 2 := by
    rw [abs_le]
    rcases lt_or_ge v 0 with h | h
    · exact ⟨by linarith [(t2 h).1], by linarith [(t2 h).2]⟩
    · exact ⟨by linarith [(t1 h).1], by linarith [(t1 h).2]⟩
  have hss : 1 / 2 ≤ |(s : Rat) - v| := by
    rw [abs_le] at hrr
    rw [le_abs]
    rcases hd with h | h
    · left; linarith [hrr.1, hrr.2]
    · right; linarith [hrr.1, hrr.2]
  refine ⟨hrr.trans hss, fun h => Or.inr ?_⟩
  have hq : |(r : Rat) - v| = 1 / 2 := le_antisymm hrr (by rw [h]; exact hss)
  have hq' : |(s : Rat) - v| = 1 / 2 := by rw [← h, hq]
  rw [abs_eq (by norm_num)] at hq hq'
  rcases lt_or_ge v 0 with hv | hv
  · have hr1 : (r : Rat) - v = -(1 / 2) := by
      rcases hq with h | h
      · linarith [(t2 hv).2]
      · exact h
    have hr2 : (s : Rat) = r + 1 := by
      rcases hq' with h' | h'
      · linarith
      · rcases hd with h | h <;> linarith
    have hr3 : (r : Rat) < 0 := by linarith
    have hr2' : s = r + 1 := by exact_mod_cast hr2
    have hr3' : r < 0 := by exact_mod_cast hr3
    rw [abs_of_nonpos (by omega : s ≤ 0), abs_of_neg hr3']
    omega
  · have hr1 : (r : Rat) - v = 1 / 2 := by
      rcases hq with h | h
      · exact h
      · linarith [(t1 hv).1]
    have hr2 : (s : Rat) = r - 1 := by
      rcases hq' with h' | h'
      · rcases hd with h | h <;> linarith
      · linarith
    have hr3 : (0 : Rat) < r := by linarith
    have hr2' : s = r - 1 := by exact_mod_cast hr2
    have hr3' : 0 < r := by exact_mod_cast hr3
    rw [abs_of_nonneg (by omega : 0 ≤ s), abs_of_pos hr3']
    omega

/-- **C70.**  `FromDouble` gives the fixed-point number nearest to a double, halves away from zero; outside the range, the
nearer end of the range. -/
theorem C70_fromDouble_nearest (w ib : Nat) (hw : 0 < w) (x : Rat) (hx : IsDouble x) :
    Nearest (-2 ^ (w - 1)) (2 ^ (w - 1) - 1) (x * pow2 ((w : Int) - 1 - ib)) (fromDouble w ib x).toInt := by
  have hm := minW_le_maxW (w := w)
  unfold fromDouble
  rw [(hx.scale _).rn]
  have := clamp_nearest (minW w) (maxW w) hm.1 hm.2 (x * pow2 ((w : Int) - 1 - ib))
  rw [toInt_ofIntW hw]
  · exact this
  · have h1 := this.1
    have h2 := this.2.1
    generalize min (max (roundAway (x * pow2 ((w : Int) - 1 - ib))) (minW w)) (maxW w) = r at *
    unfold minW at h1
    unfold maxW at h2
    exact ⟨h1, by omega⟩

theorem fromDouble_near {w ib : Nat} {x : Rat} (hx : IsDouble x) {n : Int} (h : |x * pow2 ((w : Int) - 1 - ib) - n| < 1 / 2)
    (h1 : minW w ≤ n) (h2 : n ≤ maxW w) : fromDouble w ib x = BitVec.ofInt w n := by
  unfold fromDouble
  rw [(hx.scale _).rn, roundAway_near h]
  congr 1
  omega

theorem toInt_double {w : Nat} (hw : w ≤ 53) (r : BitVec w) (j : Int) : IsDouble ((r.toInt : Rat) / pow2 j) := by
  refine ⟨r.toInt, -j, ?_, ?_⟩
  · have h1 := r.le_toInt
    have h2 := r.toInt_lt
    have : (2 : Int) ^ (w - 1) ≤ 2 ^ 53 := pow_le_pow_right₀ (by norm_num) (by omega)
    rw [abs_le]
    constructor <;> omega
  · have : pow2 (-j) * pow2 j = 1 := by rw [← pow2_add, ← pow2_zero]; congr 1; omega
    rw [div_eq_iff (pow2_pos j).ne', mul_assoc, this, mul_one]

/-- **C70.**  `ToDouble` is exact. -/
theorem C70_toDouble_exact (w ib : Nat) (hw : w ≤ 53) (r : BitVec w) :
    toDouble w ib r = (r.toInt : Rat) / pow2 ((w : Int) - 1 - ib) :=
  (toInt_double hw r _).rn

/-- **C70.**  A fixed-point number converted to double and back is the same. -/
theorem C70_round_trip (w ib : Nat) (hw : w ≤ 53) (r : BitVec w) : fromDouble w ib (toDouble w ib r) = r := by
  rw [C70_toDouble_exact w ib hw]
  have h1 := r.le_toInt
  have h2 := r.toInt_lt
  rw [fromDouble_near (n := r.toInt) (toInt_double hw r _)
    (by rw [div_mul_cancel₀ _ (pow2_pos _).ne', sub_self, abs_zero]; norm_num)
    (by unfold minW; exact h1) (by unfold maxW; omega), BitVec.ofInt_toInt]

/-- -1.5 is -24576 of 2^-14 with 16 bits of which one is for the integer part, 1/3 rounds to 10923 of 2^-15, 7 is too
large for 16 bits of which two are for the integer part. -/
example : (fromDouble 16 1 (-3 / 2)).toInt = -24576 ∧ (fromDouble 16 0 (rn64 (1 / 3))).toInt = 10923 ∧
    (fromDouble 16 2 7).toInt = 32767 ∧ toDouble 16 1 (BitVec.ofInt 16 (-24576)) = -3 / 2 := by decide +kernel

/-! ## The checks of the constants -/

/-- `std::exp` gives doubles, off by no more than 2^-45 at the eight points where the code calls it. -/
def Accurate (ex : Rat → Rat) : Prop :=
  ∀ x ∈ [-1 / 8, -1 / 4, -1 / 2, -1, -2, -4, -8, (-16 : Rat)],
    IsDouble (ex x) ∧ |((ex x : Rat) : ℝ) - Real.exp (x : ℝ)| ≤ 1 / 2 ^ 45

theorem exp_eighth' : 8824969025845 / 10 ^ 13 ≤ Real.exp (-(1 / 8)) ∧
    Real.exp (-(1 / 8)) ≤ 8824969025847 / 10 ^ 13 := by
  have hb := Real.exp_bound (x := -(1 / 8)) (n := 11) (by norm_num [abs_le]) (by norm_num)
  norm_num [Finset.sum_range_succ, Nat.factorial] at hb
  rw [abs_le] at hb
  constructor <;> linarith [hb.1, hb.2]

theorem exp_four' : 183156388886 / 10 ^ 13 ≤ Real.exp (-4) ∧ Real.exp (-4) ≤ 183156388890 / 10 ^ 13 := by
  have := exp_double (x := 2) exp_two (by norm_num) (lo' := 183156388886 / 10 ^ 13)
    (hi' := 183156388890 / 10 ^ 13) (by norm_num) (by norm_num)
  norm_num at this ⊢; exact this

theorem exp_eight' : 3354626278 / 10 ^ 13 ≤ Real.exp (-8) ∧ Real.exp (-8) ≤ 3354626281 / 10 ^ 13 := by
  have := exp_double (x := 4) exp_four' (by norm_num) (lo' := 3354626278 / 10 ^ 13)
    (hi' := 3354626281 / 10 ^ 13) (by norm_num) (by norm_num)
  norm_num at this ⊢; exact this

theorem constantC_ok {w ib : Nat} {v n : Int} {d : Rat} (h1 : constant w v = .ok (BitVec.ofInt w n))
    (h2 : fromDouble w ib d = BitVec.ofInt w n) : constantC w ib v d = constant w v := by
  unfold constantC
  rw [h1, h2]
  exact if_pos rfl

theorem const_exp {w : Nat} {v n : Int} {d lo hi x : ℝ} {q : Rat} (hq : IsDouble q) (hd : (q : ℝ) = d)
    (h : lo ≤ Real.exp x ∧ Real.exp x ≤ hi) (he : |d - Real.exp x| ≤ 1 / 2 ^ 45)
    (h1 : constant w v = .ok (BitVec.ofInt w n)) (hw : 0 < w) (hm1 : minW w ≤ n) (hm2 : n ≤ maxW w)
    (g1 : (n : ℝ) - 1 / 2 < (lo - 1 / 2 ^ 45) * 2 ^ (w - 1)) (g2 : (hi + 1 / 2 ^ 45) * 2 ^ (w - 1) < n + 1 / 2) :
    constantC w 0 v q = constant w v := by
  refine constantC_ok h1 (fromDouble_near hq ?_ hm1 hm2)
  have hp : pow2 ((w : Int) - 1 - (0 : Nat)) = 2 ^ (w - 1) := by
    rw [pow2_eq, show (w : Int) - 1 - (0 : Nat) = ((w - 1 : Nat) : Int) by omega, zpow_natCast]
  rw [hp]
  have key : |((q * 2 ^ (w - 1) - n : Rat) : ℝ)| < ((1 / 2 : Rat) : ℝ) := by
    push_cast
    rw [hd]
    rw [abs_le] at he
    have hp : (0 : ℝ) < 2 ^ (w - 1) := by positivity
    have a1 : (lo - 1 / 2 ^ 45) * 2 ^ (w - 1) ≤ d * 2 ^ (w - 1) :=
      mul_le_mul_of_nonneg_right (by linarith [he.1, h.1]) hp.le
    have a2 : d * 2 ^ (w - 1) ≤ (hi + 1 / 2 ^ 45) * 2 ^ (w - 1) :=
      mul_le_mul_of_nonneg_right (by linarith [he.2, h.2]) hp.le
    rw [abs_lt]
    constructor <;> linarith
  exact_mod_cast key

section
variable {w : Nat} {ex : Rat → Rat}

theorem c_eighth (hw : w = 16 ∨ w = 32) (hx : Accurate ex) : constantC w 0 1895147668 (ex (-1 / 8)) = constant w 1895147668 := by
  obtain ⟨h1, h2⟩ := hx (-1 / 8) (by simp)
  have e : ((-1 / 8 : Rat) : ℝ) = -(1 / 8) := by norm_num
  rw [e] at h2
  rcases hw with rfl | rfl
  · exact const_exp (n := 28918) h1 rfl exp_eighth' h2 (by decide +kernel) (by decide) (by decide) (by decide) (by norm_num)
      (by norm_num)
  · exact const_exp (n := 1895147668) h1 rfl exp_eighth' h2 (by decide +kernel) (by decide) (by decide) (by decide) (by norm_num)
      (by norm_num)

theorem c_quarter (hw : w = 16 ∨ w = 32) (hx : Accurate ex) : constantC w 0 1672461947 (ex (-1 / 4)) = constant w 1672461947 := by
  obtain ⟨h1, h2⟩ := hx (-1 / 4) (by simp)
  have e : ((-1 / 4 : Rat) : ℝ) = -(1 / 4) := by norm_num
  rw [e] at h2
  rcases hw with rfl | rfl
  · exact const_exp (n := 25520) h1 rfl exp_quarter h2 (by decide +kernel) (by decide) (by decide) (by decide) (by norm_num)
      (by norm_num)
  · exact const_exp (n := 1672461947) h1 rfl exp_quarter h2 (by decide +kernel) (by decide) (by decide) (by decide) (by norm_num)
      (by norm_num)

theorem c_half (hw : w = 16 ∨ w = 32) (hx : Accurate ex) : constantC w 0 1302514674 (ex (-1 / 2)) = constant w 1302514674 := by
  obtain ⟨h1, h2⟩ := hx (-1 / 2) (by simp)
  have e : ((-1 / 2 : Rat) : ℝ) = -(1 / 2) := by norm_num
  rw [e] at h2
  rcases hw with rfl | rfl
  · exact const_exp (n := 19875) h1 rfl exp_half h2 (by decide +kernel) (by decide) (by decide) (by decide) (by norm_num)
      (by norm_num)
  · exact const_exp (n := 1302514674) h1 rfl exp_half h2 (by decide +kernel) (by decide) (by decide) (by decide) (by norm_num)
      (by norm_num)

theorem c_one (hw : w = 16 ∨ w = 32) (hx : Accurate ex) : constantC w 0 790015084 (ex (-1)) = constant w 790015084 := by
  obtain ⟨h1, h2⟩ := hx (-1) (by simp)
  have e : ((-1 : Rat) : ℝ) = -1 := by norm_num
  rw [e] at h2
  rcases hw with rfl | rfl
  · exact const_exp (n := 12055) h1 rfl exp_one' h2 (by decide +kernel) (by decide) (by decide) (by decide) (by norm_num)
      (by norm_num)
  · exact const_exp (n := 790015084) h1 rfl exp_one' h2 (by decide +kernel) (by decide) (by decide) (by decide) (by norm_num)
      (by norm_num)

theorem c_two (hw : w = 16 ∨ w = 32) (hx : Accurate ex) : constantC w 0 290630308 (ex (-2)) = constant w 290630308 := by
  obtain ⟨h1, h2⟩ := hx (-2) (by simp)
  have e : ((-2 : Rat) : ℝ) = -2 := by norm_num
  rw [e] at h2
  rcases hw with rfl | rfl
  · exact const_exp (n := 4435) h1 rfl exp_two h2 (by decide +kernel) (by decide) (by decide) (by decide) (by norm_num)
      (by norm_num)
  · exact const_exp (n := 290630308) h1 rfl exp_two h2 (by decide +kernel) (by decide) (by decide) (by decide) (by norm_num)
      (by norm_num)

theorem c_four (hw : w = 16 ∨ w = 32) (hx : Accurate ex) : constantC w 0 39332535 (ex (-4)) = constant w 39332535 := by
  obtain ⟨h1, h2⟩ := hx (-4) (by simp)
  have e : ((-4 : Rat) : ℝ) = -4 := by norm_num
  rw [e] at h2
  rcases hw with rfl | rfl
  · exact const_exp (n := 600) h1 rfl exp_four' h2 (by decide +kernel) (by decide) (by decide) (by decide) (by norm_num)
      (by norm_num)
  · exact const_exp (n := 39332535) h1 rfl exp_four' h2 (by decide +kernel) (by decide) (by decide) (by decide) (by norm_num)
      (by norm_num)

theorem c_eight (hw : w = 16 ∨ w = 32) (hx : Accurate ex) : constantC w 0 720401 (ex (-8)) = constant w 720401 := by
  obtain ⟨h1, h2⟩ := hx (-8) (by simp)
  have e : ((-8 : Rat) : ℝ) = -8 := by norm_num
  rw [e] at h2
  rcases hw with rfl | rfl
  · exact const_exp (n := 11) h1 rfl exp_eight' h2 (by decide +kernel) (by decide) (by decide) (by decide) (by norm_num)
      (by norm_num)
  · exact const_exp (n := 720401) h1 rfl exp_eight' h2 (by decide +kernel) (by decide) (by decide) (by decide) (by norm_num)
      (by norm_num)

theorem c_sixteen (hw : w = 16 ∨ w = 32) (hx : Accurate ex) : constantC w 0 242 (ex (-16)) = constant w 242 := by
  obtain ⟨h1, h2⟩ := hx (-16) (by simp)
  have e : ((-16 : Rat) : ℝ) = -16 := by norm_num
  rw [e] at h2
  rcases hw with rfl | rfl
  · exact const_exp (n := 0) h1 rfl exp_sixteen h2 (by decide +kernel) (by decide) (by decide) (by decide) (by norm_num)
      (by norm_num)
  · exact const_exp (n := 242) h1 rfl exp_sixteen h2 (by decide +kernel) (by decide) (by decide) (by decide) (by norm_num)
      (by norm_num)

theorem c_third (hw : w = 16 ∨ w = 32) : constantC w 0 715827883 (rn64 (1 / 3)) = constant w 715827883 := by
  rcases hw with rfl | rfl <;> decide +kernel

theorem c_48 (hw : w = 16 ∨ w = 32) : constantC w 2 1515870810 (rn64 (48 / 17)) = constant w 1515870810 := by
  rcases hw with rfl | rfl <;> decide +kernel

theorem c_32 (hw : w = 16 ∨ w = 32) : constantC w 2 (-1010580540) (rn64 (-32 / 17)) = constant w (-1010580540) := by
  rcases hw with rfl | rfl <;> decide +kernel

theorem c_one_half (hw : w = 16 ∨ w = 32) : constantC w 0 (2 ^ 30) (1 / 2) = constant w (2 ^ 30) := by
  rcases hw with rfl | rfl <;> decide +kernel

theorem c_clamp (hw : w = 16 ∨ w = 32) {ib : Nat} (h1 : ib < w) (h5 : 5 < ib) :
    constantC w ib (-2 ^ (36 - (ib : Int)).toNat) (-32) = constant w (-2 ^ (36 - (ib : Int)).toNat) := by
  rcases hw with rfl | rfl
  · have : ∀ k : Fin 16, 5 < k.val →
        constantC 16 k (-2 ^ (36 - ((k : Nat) : Int)).toNat) (-32) = constant 16 (-2 ^ (36 - ((k : Nat) : Int)).toNat) := by
      decide +kernel
    exact this ⟨ib, h1⟩ h5
  · have : ∀ k : Fin 32, 5 < k.val →
        constantC 32 k (-2 ^ (36 - ((k : Nat) : Int)).toNat) (-32) = constant 32 (-2 ^ (36 - ((k : Nat) : Int)).toNat) := by
      decide +kernel
    exact this ⟨ib, h1⟩ h5

theorem expIntervalC_eq (hw : w = 16 ∨ w = 32) (hx : Accurate ex) (m : OvMode) (a : BitVec w) :
    expIntervalC ex m a = expInterval m a := by
  unfold expIntervalC
  rw [c_eighth hw hx, c_third hw]
  rfl

theorem expBarrelC_eq {ib : Nat} {e mult : Int} (h : constantC w 0 mult (ex (-pow2 e)) = constant w mult)
    (rem r : BitVec w) : expBarrelC ex ib rem e mult r = expBarrel ib rem e mult r := by
  unfold expBarrelC
  rw [h]
  rfl

theorem expClampC_eq (hw : w = 16 ∨ w = 32) {ib : Nat} (h1 : ib < w) (a r : BitVec w) :
    expClampC ib a r = expClamp ib a r := by
  unfold expClampC
  dsimp only
  by_cases h5 : (ib : Int) > 5
  · rw [c_clamp hw h1 (by omega)]
    rfl
  · unfold expClamp
    rw [if_neg h5, if_neg h5]

theorem expNegC_eq (hw : w = 16 ∨ w = 32) (hx : Accurate ex) {ib : Nat} (h1 : ib < w) (m : OvMode) (a : BitVec w) :
    expNegC ex m ib a = expNeg m ib a := by
  have q2 : pow2 (-2) = 1 / 4 := by decide +kernel
  have q1 : pow2 (-1) = 1 / 2 := by decide +kernel
  have p0 : pow2 0 = 1 := by decide +kernel
  have p1 : pow2 1 = 2 := by decide +kernel
  have p2 : pow2 2 = 4 := by decide +kernel
  have p3 : pow2 3 = 8 := by decide +kernel
  have p4 : pow2 4 = 16 := by decide +kernel
  have e1 := expBarrelC_eq (w := w) (ex := ex) (ib := ib) (e := -2) (mult := 1672461947)
    (by rw [q2, ← neg_div]; exact c_quarter hw hx)
  have e2 := expBarrelC_eq (w := w) (ex := ex) (ib := ib) (e := -1) (mult := 1302514674)
    (by rw [q1, ← neg_div]; exact c_half hw hx)
  have e3 := expBarrelC_eq (w := w) (ex := ex) (ib := ib) (e := 0) (mult := 790015084) (by rw [p0]; exact c_one hw hx)
  have e4 := expBarrelC_eq (w := w) (ex := ex) (ib := ib) (e := 1) (mult := 290630308) (by rw [p1]; exact c_two hw hx)
  have e5 := expBarrelC_eq (w := w) (ex := ex) (ib := ib) (e := 2) (mult := 39332535) (by rw [p2]; exact c_four hw hx)
  have e6 := expBarrelC_eq (w := w) (ex := ex) (ib := ib) (e := 3) (mult := 720401) (by rw [p3]; exact c_eight hw hx)
  have e7 := expBarrelC_eq (w := w) (ex := ex) (ib := ib) (e := 4) (mult := 242) (by rw [p4]; exact c_sixteen hw hx)
  unfold expNegC expNeg
  simp only [e1, e2, e3, e4, e5, e6, e7, expIntervalC_eq hw hx, expClampC_eq hw h1]

theorem newtonC_eq (hw : w = 16 ∨ w = 32) (m : OvMode) (a : BitVec w) : newtonC m a = newton m a := by
  unfold newtonC newton
  rw [c_48 hw, c_32 hw]

theorem negTanhC_eq (hw : w = 16 ∨ w = 32) (hx : Accurate ex) {ib : Nat} (h1 : ib + 1 < w) (m : OvMode) (a : BitVec w) :
    negTanhC ex m ib a = negTanh m ib a := by
  unfold negTanhC negTanh oneMinusOver
  simp only [expNegC_eq hw hx h1, newtonC_eq hw, Nat.cast_add, Nat.cast_one]

end

/-- **C70.**  With GEMMLOWP_ENABLE_FIXEDPOINT_CONSTANTS_CHECKS the three functions do what they do without it: no check
ever fails, for 16 and 32 bits, whatever the number of integer bits and whatever the argument. -/
theorem C70_checks_pass {w : Nat} (hw : w = 16 ∨ w = 32) {ex : Rat → Rat} (hx : Accurate ex) (m : OvMode) (ib : Nat)
    (a : BitVec w) :
    (ib < w → expNegC ex m ib a = expNeg m ib a) ∧
    (ib + 1 < w → tanhC ex m ib a = tanh m ib a) ∧
    (ib < w → logisticC ex m ib a = logistic m ib a) := by
  refine ⟨fun h => expNegC_eq hw hx h m a, fun h => ?_, fun h => ?_⟩
  · unfold tanhC tanh
    simp only [negTanhC_eq hw hx h]
  · unfold logisticC logistic logisticPosC logisticPos oneOver
    simp only [expNegC_eq hw hx h, newtonC_eq hw, c_one_half hw]

/-- Some function is accurate: the exponential rounded down to a multiple of 2^-53. -/
theorem C70_accurate_exists : ∃ ex, Accurate ex := by
  refine ⟨fun x => (⌊Real.exp (x : ℝ) * 2 ^ 53⌋ : Rat) * pow2 (-53), fun x hx => ?_⟩
  have hneg : (x : ℝ) ≤ 0 := by
    have : x ≤ 0 := by
      simp only [List.mem_cons, List.not_mem_nil, or_false] at hx
      rcases hx with rfl | rfl | rfl | rfl | rfl | rfl | rfl | rfl <;> norm_num
    exact_mod_cast this
  have h0 := Real.exp_pos (x : ℝ)
  have h1 := Real.exp_le_one_iff.2 hneg
  refine ⟨⟨_, _, ?_, rfl⟩, ?_⟩
  · rw [abs_le]
    constructor
    · have : 0 ≤ ⌊Real.exp (x : ℝ) * 2 ^ 53⌋ := Int.floor_nonneg.2 (by positivity)
      omega
    · have : ⌊Real.exp (x : ℝ) * 2 ^ 53⌋ ≤ ⌊((2 ^ 53 : Int) : ℝ)⌋ := Int.floor_le_floor (by push_cast; nlinarith)
      rwa [Int.floor_intCast] at this
  · have hf := Int.floor_le (Real.exp (x : ℝ) * 2 ^ 53)
    have hg := Int.lt_floor_add_one (Real.exp (x : ℝ) * 2 ^ 53)
    rw [pow2_eq]
    push_cast
    generalize (⌊Real.exp (x : ℝ) * 2 ^ 53⌋ : ℝ) = n at *
    have : n * (2 : ℝ) ^ (-53 : Int) - Real.exp (x : ℝ) = (n - Real.exp (x : ℝ) * 2 ^ 53) / 2 ^ 53 := by
      rw [show (-53 : Int) = -((53 : Nat) : Int) by norm_num, zpow_neg, zpow_natCast]
      field_simp
    rw [this, abs_le]
    constructor
    · rw [le_div_iff₀ (by positivity)]; norm_num; linarith
    · rw [div_le_iff₀ (by positivity)]; norm_num; linarith

/-- A check does fail when `std::exp` is off by one unit of 2^-31. -/
theorem C70_inaccurate_caught : expIntervalC (w := 32) (fun _ => 1895147669 * pow2 (-31)) .trap 0 = .error .assertion := by
  decide +kernel

end Gemmlowp.Fx
