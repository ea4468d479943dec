import Verif.Float32
/-!
# binary32 arithmetic: rounding
-/
namespace Gemmlowp.F32

theorem pow2_eq (e : Int) : pow2 e = (2 : ℚ) ^ e := by
  unfold pow2
  split
  · rename_i h
    obtain ⟨n, rfl⟩ := Int.eq_ofNat_of_zero_le h
    simp
  · rename_i h
    obtain ⟨n, hn⟩ := Int.eq_ofNat_of_zero_le (show 0 ≤ -e by omega)
    rw [show e = -(n : Int) by omega]
    simp

theorem pow2_pos (e : Int) : 0 < pow2 e := by rw [pow2_eq]; positivity

theorem pow2_add (a b : Int) : pow2 (a + b) = pow2 a * pow2 b := by
  rw [pow2_eq, pow2_eq, pow2_eq, zpow_add₀ (by norm_num)]

theorem pow2_succ (a : Int) : pow2 (a + 1) = 2 * pow2 a := by
  rw [pow2_add, show pow2 1 = 2 by rw [pow2_eq]; norm_num]; ring

theorem pow2_le {a b : Int} (h : a ≤ b) : pow2 a ≤ pow2 b := by
  rw [pow2_eq, pow2_eq]; exact zpow_le_zpow_right₀ (by norm_num) h

theorem pow2_lt {a b : Int} (h : a < b) : pow2 a < pow2 b := by
  rw [pow2_eq, pow2_eq]; exact zpow_lt_zpow_right₀ (by norm_num) h

theorem pow2_nat (n : Nat) : pow2 n = (2 ^ n : Nat) := by
  rw [pow2_eq]; simp

theorem pow2_zero : pow2 0 = 1 := by rw [pow2_eq]; simp

theorem pow2_sub_mul (a b : Int) : pow2 (a - b) * pow2 b = pow2 a := by
  rw [← pow2_add]; congr 1; omega

/-! ## The exponent -/

theorem log2_bounds {n : Nat} (h : 0 < n) : 2 ^ n.log2 ≤ n ∧ n < 2 ^ (n.log2 + 1) :=
  ⟨Nat.log2_self_le (by omega), Nat.lt_log2_self⟩

theorem expo_bounds {q : Rat} (h : 0 < q) : pow2 (expo q) ≤ q ∧ q < pow2 (expo q + 1) := by
  have hn : 0 < q.num := Rat.num_pos.2 h
  obtain ⟨a1, a2⟩ := log2_bounds (show 0 < q.num.toNat by omega)
  obtain ⟨b1, b2⟩ := log2_bounds q.den_pos
  have hq : q = (q.num.toNat : Rat) / (q.den : Rat) := by
    have := (Rat.num_div_den q).symm
    rw [show ((q.num.toNat : Nat) : Rat) = (q.num : Rat) by
      rw [← Int.cast_natCast, Int.toNat_of_nonneg hn.le]]
    exact this
  have hd : (0 : Rat) < q.den := by exact_mod_cast q.den_pos
  have l1 : pow2 (q.num.toNat.log2 : Nat) ≤ (q.num.toNat : Rat) := by rw [pow2_nat]; exact_mod_cast a1
  have l2 : (q.num.toNat : Rat) < pow2 ((q.num.toNat.log2 : Nat) + 1) := by
    rw [show ((q.num.toNat.log2 : Nat) : Int) + 1 = ((q.num.toNat.log2 + 1 : Nat) : Int) by push_cast; rfl, pow2_nat]
    exact_mod_cast a2
  have l3 : pow2 (q.den.log2 : Nat) ≤ (q.den : Rat) := by rw [pow2_nat]; exact_mod_cast b1
  have l4 : (q.den : Rat) < pow2 ((q.den.log2 : Nat) + 1) := by
    rw [show ((q.den.log2 : Nat) : Int) + 1 = ((q.den.log2 + 1 : Nat) : Int) by push_cast; rfl, pow2_nat]
    exact_mod_cast b2
  have hup : q < pow2 ((q.num.toNat.log2 : Int) - (q.den.log2 : Int) + 1) := by
    conv_lhs => rw [hq]
    rw [div_lt_iff₀ hd]
    refine lt_of_lt_of_le l2 ?_
    refine le_trans (le_of_eq ?_) (mul_le_mul_of_nonneg_left l3 (pow2_pos _).le)
    rw [← pow2_add]
    congr 1
    omega
  have hlo : pow2 ((q.num.toNat.log2 : Int) - (q.den.log2 : Int) - 1) ≤ q := by
    conv_rhs => rw [hq]
    rw [le_div_iff₀ hd]
    refine le_trans ?_ l1
    refine le_trans (mul_le_mul_of_nonneg_left l4.le (pow2_pos _).le) (le_of_eq ?_)
    rw [← pow2_add]
    congr 1
    omega
  unfold expo
  simp only
  split
  · rename_i h1
    exact ⟨hlo, by rw [Int.sub_add_cancel]; exact h1⟩
  · rename_i h1
    exact ⟨not_lt.1 h1, hup⟩

theorem expo_eq {q : Rat} {e : Int} (h1 : pow2 e ≤ q) (h2 : q < pow2 (e + 1)) : expo q = e := by
  obtain ⟨h3, h4⟩ := expo_bounds (lt_of_lt_of_le (pow2_pos e) h1)
  by_contra hne
  rcases lt_or_gt_of_ne hne with h | h
  · have := pow2_le (show expo q + 1 ≤ e by omega)
    linarith
  · have := pow2_le (show e + 1 ≤ expo q by omega)
    linarith

theorem expo_mono {p q : Rat} (h : 0 < p) (hpq : p ≤ q) : expo p ≤ expo q := by
  obtain ⟨h1, -⟩ := expo_bounds h
  obtain ⟨-, h4⟩ := expo_bounds (lt_of_lt_of_le h hpq)
  by_contra hne
  have := pow2_le (show expo q + 1 ≤ expo p by omega)
  linarith

/-! ## The nearest integer -/

theorem floor_spec (q : Rat) : ((q.floor : Int) : Rat) ≤ q ∧ q < (q.floor : Int) + 1 := by
  rw [show q.floor = ⌊q⌋ from rfl]
  exact ⟨Int.floor_le q, Int.lt_floor_add_one q⟩

theorem roundEven_err (q : Rat) : |(roundEven q : Rat) - q| ≤ 1 / 2 := by
  obtain ⟨h1, h2⟩ := floor_spec q
  unfold roundEven
  simp only
  rw [abs_le]
  split
  · constructor <;> linarith
  · split
    · push_cast; constructor <;> linarith
    · split
      · constructor <;> linarith
      · push_cast; constructor <;> linarith

/-- No integer is nearer. -/
theorem roundEven_nearest (q : Rat) (n : Int) : |(roundEven q : Rat) - q| ≤ |(n : Rat) - q| := by
  by_cases h : roundEven q = n
  · rw [h]
  · have h1 := roundEven_err q
    have h2 : (1 : Rat) ≤ |(roundEven q : Rat) - n| := by
      rw [← Int.cast_sub]
      exact_mod_cast Int.one_le_abs (sub_ne_zero.2 h)
    have h3 : |(roundEven q : Rat) - n| ≤ |(roundEven q : Rat) - q| + |(n : Rat) - q| := by
      have := abs_sub_le (roundEven q : Rat) q n
      rwa [abs_sub_comm q n] at this
    linarith

/-- Of two nearest integers, the even one. -/
theorem roundEven_even {q : Rat} {n : Int} (h : n ≠ roundEven q) (h' : |(n : Rat) - q| = |(roundEven q : Rat) - q|) :
    roundEven q % 2 = 0 := by
  obtain ⟨h1, h2⟩ := floor_spec q
  have h3 := roundEven_err q
  have h4 : |(n : Rat) - q| ≤ 1 / 2 := by rw [h']; exact h3
  rw [abs_le] at h4
  have hn : n = q.floor ∨ n = q.floor + 1 := by
    have a1 : (q.floor : Rat) - 1 < n := by linarith
    have a2 : (n : Rat) < q.floor + 2 := by linarith
    have a1' : q.floor - 1 < n := by exact_mod_cast a1
    have a2' : n < q.floor + 2 := by exact_mod_cast a2
    omega
  unfold roundEven at h h' ⊢
  simp only at h h' ⊢
  split at h <;> rename_i c1
  · rw [if_pos c1] at h' ⊢
    rcases hn with rfl | rfl
    · exact absurd rfl h
    · exfalso
      push_cast at h'
      rw [abs_of_nonneg (by linarith), abs_of_nonpos (by linarith)] at h'
      linarith
  · rw [if_neg c1] at h' ⊢
    split at h <;> rename_i c2
    · rw [if_pos c2] at h'
      rcases hn with rfl | rfl
      · exfalso
        push_cast at h'
        rw [abs_of_nonpos (by linarith), abs_of_nonneg (by linarith)] at h'
        linarith
      · exact absurd rfl h
    · rw [if_neg c2]
      split
      · assumption
      · omega

theorem roundEven_mono {p q : Rat} (h : p ≤ q) : roundEven p ≤ roundEven q := by
  by_contra hc
  have h1 := roundEven_err p
  have h2 := roundEven_err q
  rw [abs_le] at h1 h2
  have h3 : roundEven q + 1 ≤ roundEven p := by omega
  have h4 : (roundEven q : Rat) + 1 ≤ roundEven p := by exact_mod_cast h3
  -- equal, and in the middle
  have h5 : p = q := by linarith
  rw [h5] at hc
  exact hc le_rfl

theorem roundEven_int (n : Int) : roundEven n = n := by
  have := roundEven_nearest n n
  rw [sub_self, abs_zero] at this
  have h2 := abs_nonpos_iff.1 this
  exact_mod_cast sub_eq_zero.1 h2

theorem roundEven_nonneg {q : Rat} (h : 0 ≤ q) : 0 ≤ roundEven q := by
  have := roundEven_mono h
  rwa [show (0 : Rat) = ((0 : Int) : Rat) by norm_num, roundEven_int] at this

/-! ## Rounding magnitudes -/

/-- The exponent that the last place follows. -/
def ex (q : Rat) : Int := max (expo q) (-126)

/-- The multiple of the last place. -/
def sig (q : Rat) : Int := roundEven (q / pow2 (ex q - 23))

theorem magOf_pos {q : Rat} (h : 0 < q) : magOf q = min ((ex q + 126).toNat * 8388608 + (sig q).toNat) infBits := by
  unfold magOf
  rw [if_neg (not_le.2 h)]
  rfl

theorem sig_bounds {q : Rat} (h : 0 < q) : 0 ≤ sig q ∧ sig q ≤ 16777216 ∧ (-126 < ex q → 8388608 ≤ sig q) := by
  obtain ⟨h1, h2⟩ := expo_bounds h
  have hp := pow2_pos (ex q - 23)
  refine ⟨roundEven_nonneg (div_nonneg h.le hp.le), ?_, ?_⟩
  · have : q / pow2 (ex q - 23) ≤ ((16777216 : Int) : Rat) := by
      rw [div_le_iff₀ hp]
      have e1 : ((16777216 : Int) : Rat) * pow2 (ex q - 23) = pow2 (ex q + 1) := by
        rw [show ((16777216 : Int) : Rat) = pow2 24 by rw [pow2_eq]; norm_num, ← pow2_add]
        congr 1; omega
      rw [e1]
      have := pow2_le (show expo q + 1 ≤ ex q + 1 by unfold ex; omega)
      linarith
    have := roundEven_mono this
    rwa [roundEven_int] at this
  · intro hx
    have : ((8388608 : Int) : Rat) ≤ q / pow2 (ex q - 23) := by
      rw [le_div_iff₀ hp]
      have e1 : ((8388608 : Int) : Rat) * pow2 (ex q - 23) = pow2 (ex q) := by
        rw [show ((8388608 : Int) : Rat) = pow2 23 by rw [pow2_eq]; norm_num, ← pow2_add]
        congr 1; omega
      rw [e1]
      rwa [show ex q = expo q by unfold ex at hx ⊢; omega]
    have := roundEven_mono this
    rwa [roundEven_int] at this

/-- A multiple of the last place and its bits. -/
theorem magVal_sig {e : Int} {n : Nat} (he : -126 ≤ e) (h1 : n ≤ 16777216) (h2 : -126 < e → 8388608 ≤ n) :
    magVal ((e + 126).toNat * 8388608 + n) = n * pow2 (e - 23) := by
  obtain ⟨k, hk⟩ := Int.eq_ofNat_of_zero_le (show 0 ≤ e + 126 by omega)
  rw [hk, Int.toNat_natCast]
  obtain rfl : e = k - 126 := by omega
  unfold magVal
  by_cases c : n = 16777216
  · subst c
    rw [if_neg (by omega), show (k * 8388608 + 16777216) / 8388608 = k + 2 by omega,
      show (k * 8388608 + 16777216) % 8388608 = 0 by omega]
    rw [show ((k + 2 : Nat) : Int) - 150 = (k : Int) - 126 - 23 + 1 by push_cast; omega, pow2_succ]
    push_cast
    ring
  · by_cases c2 : n < 8388608
    · obtain rfl : k = 0 := by
        by_contra h0
        have := h2 (by omega)
        omega
      rw [if_pos (by omega)]
      simp
    · rw [if_neg (by omega), show (k * 8388608 + n) / 8388608 = k + 1 by omega,
        show 8388608 + (k * 8388608 + n) % 8388608 = n by omega]
      congr 2
      push_cast
      omega

theorem magVal_mag {q : Rat} (h : 0 < q) (hf : magOf q < infBits) : magVal (magOf q) = sig q * pow2 (ex q - 23) := by
  obtain ⟨b1, b2, b3⟩ := sig_bounds h
  have e1 := magOf_pos h
  rw [e1] at hf ⊢
  rw [min_eq_left (by omega), magVal_sig (by unfold ex; omega) (by omega) (fun h => by have := b3 h; omega)]
  congr 1
  rw [← Int.cast_natCast, Int.toNat_of_nonneg b1]

theorem magVal_nonneg (m : Nat) : 0 ≤ magVal m := by
  unfold magVal
  split
  · exact mul_nonneg (Nat.cast_nonneg _) (pow2_pos _).le
  · exact mul_nonneg (Nat.cast_nonneg _) (pow2_pos _).le

theorem magOf_zero : magOf 0 = 0 := by unfold magOf; rw [if_pos le_rfl]

theorem magVal_zero : magVal 0 = 0 := by unfold magVal; simp

/-- Rounding keeps the order. -/
theorem magOf_mono {p q : Rat} (h : p ≤ q) : magOf p ≤ magOf q := by
  by_cases h0 : p ≤ 0
  · have : magOf p = 0 := by unfold magOf; rw [if_pos h0]
    omega
  · have hp : 0 < p := not_le.1 h0
    have hq : 0 < q := lt_of_lt_of_le hp h
    rw [magOf_pos hp, magOf_pos hq]
    obtain ⟨a1, a2, a3⟩ := sig_bounds hp
    obtain ⟨b1, b2, b3⟩ := sig_bounds hq
    have he : ex p ≤ ex q := by have := expo_mono hp h; unfold ex; omega
    have hx : -126 ≤ ex p := by unfold ex; omega
    have : (ex p + 126).toNat * 8388608 + (sig p).toNat ≤ (ex q + 126).toNat * 8388608 + (sig q).toNat := by
      by_cases heq : ex p = ex q
      · have : sig p ≤ sig q := by
          unfold sig
          rw [heq]
          exact roundEven_mono (div_le_div_of_nonneg_right h (pow2_pos _).le)
        rw [heq]
        omega
      · have := b3 (by omega)
        omega
    omega

/-- A number below 2^128 - 2^103 does not overflow. -/
theorem magOf_fin {q : Rat} (h : q < pow2 128 - pow2 103) : magOf q < infBits := by
  by_cases h0 : q ≤ 0
  · unfold magOf; rw [if_pos h0]; decide
  · have hq : 0 < q := not_le.1 h0
    rw [magOf_pos hq]
    obtain ⟨b1, b2, b3⟩ := sig_bounds hq
    obtain ⟨h1, h2⟩ := expo_bounds hq
    have he : ex q ≤ 127 := by
      have : expo q < 128 := by
        by_contra hc
        have := pow2_le (show 128 ≤ expo q by omega)
        have := pow2_pos 103
        linarith
      unfold ex; omega
    have hx : -126 ≤ ex q := by unfold ex; omega
    have : (ex q + 126).toNat * 8388608 + (sig q).toNat < infBits := by
      unfold infBits
      by_cases heq : ex q = 127
      · have : sig q ≤ 16777215 := by
          have : q / pow2 (ex q - 23) < 16777216 - 1 / 2 := by
            rw [div_lt_iff₀ (pow2_pos _), heq, sub_mul]
            rw [show (16777216 : Rat) * pow2 (127 - 23) = pow2 128 by
              rw [show (16777216 : Rat) = pow2 24 by rw [pow2_eq]; norm_num, ← pow2_add]; rfl,
              show (1 / 2 : Rat) * pow2 (127 - 23) = pow2 103 by
              rw [show (1 / 2 : Rat) = pow2 (-1) by rw [pow2_eq]; norm_num, ← pow2_add]; rfl]
            exact h
          have h3 := roundEven_err (q / pow2 (ex q - 23))
          rw [abs_le] at h3
          have h4 : (sig q : Rat) < 16777216 := by unfold sig; linarith
          have h5 : sig q < 16777216 := by exact_mod_cast h4
          omega
        rw [heq]
        omega
      · omega
    omega

/-- The error of rounding. -/
theorem magOf_err {q : Rat} (h : 0 ≤ q) (hf : magOf q < infBits) :
    |magVal (magOf q) - q| ≤ q * pow2 (-24) + pow2 (-150) := by
  rcases h.eq_or_lt with rfl | h
  · rw [magOf_zero, magVal_zero, sub_zero, abs_zero]
    have := pow2_pos (-150)
    linarith
  · rw [magVal_mag h hf]
    have hp := pow2_pos (ex q - 23)
    have h1 := roundEven_err (q / pow2 (ex q - 23))
    have h2 : |(sig q : Rat) * pow2 (ex q - 23) - q| ≤ 1 / 2 * pow2 (ex q - 23) := by
      rw [show (sig q : Rat) * pow2 (ex q - 23) - q = ((sig q : Rat) - q / pow2 (ex q - 23)) * pow2 (ex q - 23) by
        field_simp, abs_mul, abs_of_pos hp]
      exact mul_le_mul_of_nonneg_right h1 hp.le
    refine le_trans h2 ?_
    rw [show (1 / 2 : Rat) * pow2 (ex q - 23) = pow2 (ex q - 24) by
      rw [show (1 / 2 : Rat) = pow2 (-1) by rw [pow2_eq]; norm_num, ← pow2_add]; congr 1; omega]
    by_cases hx : -126 ≤ expo q
    · obtain ⟨h3, -⟩ := expo_bounds h
      rw [show ex q = expo q by unfold ex; omega, show expo q - 24 = expo q + -24 by omega, pow2_add]
      have := mul_le_mul_of_nonneg_right h3 (pow2_pos (-24)).le
      have := pow2_pos (-150)
      linarith
    · rw [show ex q = -126 by unfold ex; omega]
      have := mul_nonneg h.le (pow2_pos (-24)).le
      have : pow2 (-126 - 24) = pow2 (-150) := rfl
      linarith

/-- Every finite number as a multiple of its last place. -/
theorem magVal_form (m : Nat) (hm : m < infBits) : ∃ (e : Int) (n : Nat), -126 ≤ e ∧ e ≤ 127 ∧ n < 16777216 ∧
    (-126 < e → 8388608 ≤ n) ∧ m = (e + 126).toNat * 8388608 + n ∧ magVal m = n * pow2 (e - 23) := by
  unfold infBits at hm
  by_cases h : m / 8388608 = 0
  · refine ⟨-126, m, le_refl _, by omega, by omega, by omega, by simp, ?_⟩
    unfold magVal
    rw [if_pos h]
    rfl
  · refine ⟨(m / 8388608 : Nat) - 127, 8388608 + m % 8388608, by omega, by omega, by omega, by omega, by omega, ?_⟩
    unfold magVal
    rw [if_neg h]
    congr 2
    omega

/-- Numbers that can be represented are not changed. -/
theorem magOf_magVal {m : Nat} (hm : m < infBits) : magOf (magVal m) = m := by
  obtain ⟨e, n, he, he', h1, h2, h3, h4⟩ := magVal_form m hm
  by_cases h0 : n = 0
  · subst h0
    obtain rfl : e = -126 := by
      by_contra hne
      have := h2 (by omega)
      omega
    rw [h4, h3]
    simp [magOf_zero]
  · have hpos : 0 < magVal m := by
      rw [h4]; exact mul_pos (by exact_mod_cast Nat.pos_of_ne_zero h0) (pow2_pos _)
    have hex : ex (magVal m) = e := by
      by_cases hn : 8388608 ≤ n
      · have : expo (magVal m) = e := by
          apply expo_eq
          · rw [h4, show pow2 e = 8388608 * pow2 (e - 23) by
              rw [show (8388608 : Rat) = pow2 23 by rw [pow2_eq]; norm_num, ← pow2_add]; congr 1; omega]
            exact mul_le_mul_of_nonneg_right (by exact_mod_cast hn) (pow2_pos _).le
          · rw [h4, show pow2 (e + 1) = 16777216 * pow2 (e - 23) by
              rw [show (16777216 : Rat) = pow2 24 by rw [pow2_eq]; norm_num, ← pow2_add]; congr 1; omega]
            exact mul_lt_mul_of_pos_right (by exact_mod_cast h1) (pow2_pos _)
        unfold ex; omega
      · obtain rfl : e = -126 := by
          by_contra hne
          have := h2 (by omega)
          omega
        have : expo (magVal m) < -126 := by
          obtain ⟨b1, -⟩ := expo_bounds hpos
          by_contra hc
          have h5 := pow2_le (show -126 ≤ expo (magVal m) by omega)
          have h6 : magVal m < pow2 (-126) := by
            rw [h4, show pow2 (-126) = 8388608 * pow2 (-126 - 23) by
              rw [show (8388608 : Rat) = pow2 23 by rw [pow2_eq]; norm_num, ← pow2_add]; rfl]
            exact mul_lt_mul_of_pos_right (by exact_mod_cast (by omega)) (pow2_pos _)
          linarith
        unfold ex; omega
    have hsig : sig (magVal m) = n := by
      unfold sig
      rw [hex, h4, mul_div_assoc, div_self (pow2_pos _).ne', mul_one]
      exact_mod_cast roundEven_int n
    rw [magOf_pos hpos, hex, hsig, Int.toNat_natCast, ← h3]
    omega

theorem magVal_mono {m n : Nat} (h : m ≤ n) (hn : n < infBits) : magVal m ≤ magVal n := by
  by_contra hc
  have h1 := magOf_mono (not_le.1 hc).le
  rw [magOf_magVal hn, magOf_magVal (by omega)] at h1
  obtain rfl : m = n := by omega
  exact hc le_rfl

/-- No finite number is nearer than the rounded one. -/
theorem magOf_nearest {q : Rat} (h : 0 ≤ q) (hf : magOf q < infBits) {m : Nat} (hm : m < infBits) :
    |magVal (magOf q) - q| ≤ |magVal m - q| := by
  rcases h.eq_or_lt with rfl | h
  · rw [magOf_zero, magVal_zero, sub_zero, abs_zero]; exact abs_nonneg _
  obtain ⟨e, n, he, -, h1, h2, h3, h4⟩ := magVal_form m hm
  have hp := pow2_pos (ex q - 23)
  have near : ∀ k : Int, |magVal (magOf q) - q| ≤ |(k : Rat) * pow2 (ex q - 23) - q| := by
    intro k
    rw [magVal_mag h hf]
    have h5 := roundEven_nearest (q / pow2 (ex q - 23)) k
    rw [show (sig q : Rat) * pow2 (ex q - 23) - q = ((sig q : Rat) - q / pow2 (ex q - 23)) * pow2 (ex q - 23) by
        field_simp,
      show (k : Rat) * pow2 (ex q - 23) - q = ((k : Rat) - q / pow2 (ex q - 23)) * pow2 (ex q - 23) by
        field_simp, abs_mul, abs_mul]
    exact mul_le_mul_of_nonneg_right h5 (abs_nonneg _)
  by_cases hex : ex q ≤ e
  · have := near (n * 2 ^ (e - ex q).toNat)
    rw [h4]
    refine le_trans this (le_of_eq ?_)
    congr 2
    push_cast
    rw [mul_assoc]
    congr 1
    obtain ⟨d, hd⟩ := Int.eq_ofNat_of_zero_le (show 0 ≤ e - ex q by omega)
    rw [hd, Int.toNat_natCast, show (2 : Rat) ^ d = pow2 d by rw [pow2_eq]; simp, ← pow2_add]
    congr 1
    omega
  · obtain ⟨b1, -⟩ := expo_bounds h
    have hxe : ex q = expo q := by unfold ex at hex ⊢; omega
    rw [← hxe] at b1
    have h6 : magVal m ≤ pow2 (ex q) := by
      rw [h4]
      have : (n : Rat) * pow2 (e - 23) ≤ pow2 (e + 1) := by
        rw [show pow2 (e + 1) = 16777216 * pow2 (e - 23) by
              rw [show (16777216 : Rat) = pow2 24 by rw [pow2_eq]; norm_num, ← pow2_add]; congr 1; omega]
        exact mul_le_mul_of_nonneg_right (by exact_mod_cast h1.le) (pow2_pos _).le
      exact le_trans this (pow2_le (by omega))
    have h7 := near 8388608
    rw [show ((8388608 : Int) : Rat) * pow2 (ex q - 23) = pow2 (ex q) by
      rw [show ((8388608 : Int) : Rat) = pow2 23 by rw [pow2_eq]; norm_num, ← pow2_add]; congr 1; omega] at h7
    refine le_trans h7 ?_
    rw [abs_of_nonpos (by linarith), abs_of_nonpos (by linarith)]
    linarith

/-- When another number is as near, the rounded one has the even last bit. -/
theorem magOf_even {q : Rat} (h : 0 ≤ q) (hf : magOf q < infBits) {m : Nat} (hm : m < infBits) (hne : m ≠ magOf q)
    (heq : |magVal m - q| = |magVal (magOf q) - q|) : magOf q % 2 = 0 := by
  rcases h.eq_or_lt with rfl | h
  · rw [magOf_zero]
  obtain ⟨e, n, he, -, h1, h2, h3, h4⟩ := magVal_form m hm
  have hp := pow2_pos (ex q - 23)
  have scale : ∀ k : Int, |(k : Rat) * pow2 (ex q - 23) - q| = |(k : Rat) - q / pow2 (ex q - 23)| * pow2 (ex q - 23) := by
    intro k
    rw [show (k : Rat) * pow2 (ex q - 23) - q = ((k : Rat) - q / pow2 (ex q - 23)) * pow2 (ex q - 23) by
        field_simp, abs_mul, abs_of_pos hp]
  have vq := magVal_mag h hf
  by_cases hex : ex q ≤ e
  · have e1 : magVal m = ((n * 2 ^ (e - ex q).toNat : Int) : Rat) * pow2 (ex q - 23) := by
      rw [h4]
      push_cast
      rw [mul_assoc]
      congr 1
      obtain ⟨d, hd⟩ := Int.eq_ofNat_of_zero_le (show 0 ≤ e - ex q by omega)
      rw [hd, Int.toNat_natCast, show (2 : Rat) ^ d = pow2 d by rw [pow2_eq]; simp, ← pow2_add]
      congr 1
      omega
    rw [e1, vq, scale, scale] at heq
    have h5 := mul_right_cancel₀ hp.ne' heq
    have h6 := roundEven_even (q := q / pow2 (ex q - 23)) (n := n * 2 ^ (e - ex q).toNat) (by
      intro hc
      apply hne
      rw [← magOf_magVal hm, ← magOf_magVal hf, e1, hc, vq]
      rfl) h5
    have b := sig_bounds h
    rw [magOf_pos h] at hf ⊢
    rw [min_eq_left (by omega)] at hf ⊢
    change sig q % 2 = 0 at h6
    omega
  · exfalso
    obtain ⟨b1, -⟩ := expo_bounds h
    have hxe : ex q = expo q := by unfold ex at hex ⊢; omega
    rw [← hxe] at b1
    have h6 : magVal m < pow2 (ex q) := by
      rw [h4]
      have : (n : Rat) * pow2 (e - 23) < pow2 (e + 1) := by
        rw [show pow2 (e + 1) = 16777216 * pow2 (e - 23) by
              rw [show (16777216 : Rat) = pow2 24 by rw [pow2_eq]; norm_num, ← pow2_add]; congr 1; omega]
        exact mul_lt_mul_of_pos_right (by exact_mod_cast h1) (pow2_pos _)
      exact lt_of_lt_of_le this (pow2_le (by omega))
    have h7 := roundEven_nearest (q / pow2 (ex q - 23)) 8388608
    have h8 := mul_le_mul_of_nonneg_right h7 hp.le
    rw [← scale, ← scale] at h8
    change |(sig q : Rat) * pow2 (ex q - 23) - q| ≤ _ at h8
    rw [← vq, ← heq, show ((8388608 : Int) : Rat) * pow2 (ex q - 23) = pow2 (ex q) by
      rw [show ((8388608 : Int) : Rat) = pow2 23 by rw [pow2_eq]; norm_num, ← pow2_add]; congr 1; omega,
      abs_of_nonpos (by linarith), abs_of_nonpos (by linarith)] at h8
    linarith

end Gemmlowp.F32
