import Verif.Float32Proof
/-!
# binary32 arithmetic: the error of an operation, and order
-/
namespace Gemmlowp.F32

/-! ## Signs and bits -/

theorem neg_pack (s : Bool) {m : Nat} (h : m < 2147483648) : neg (pack s m) = s := by
  unfold neg pack
  rw [BitVec.toNat_ofNat]
  cases s
  · rw [Nat.mod_eq_of_lt (by simp; omega)]; simp; omega
  · rw [Nat.mod_eq_of_lt (by simp; omega)]; simp

theorem mag_pack (s : Bool) {m : Nat} (h : m < 2147483648) : mag (pack s m) = m := by
  unfold mag pack
  rw [BitVec.toNat_ofNat]
  cases s
  · rw [Nat.mod_eq_of_lt (by simp; omega)]; simp; omega
  · rw [if_pos rfl]; omega

/-- A magnitude with a sign. -/
def signed (s : Bool) (q : Rat) : Rat := if s then -q else q

theorem abs_signed (s : Bool) {q : Rat} (h : 0 ≤ q) : |signed s q| = q := by
  unfold signed; split
  · rw [abs_neg, abs_of_nonneg h]
  · rw [abs_of_nonneg h]

theorem val_eq (b : BitVec 32) : val b = signed (neg b) (magVal (mag b)) := rfl

theorem val_pack (s : Bool) {m : Nat} (h : m < 2147483648) : val (pack s m) = signed s (magVal m) := by
  rw [val_eq, neg_pack s h, mag_pack s h]

theorem isFin_pack (s : Bool) {m : Nat} (h : m < infBits) : isFin (pack s m) = true := by
  unfold isFin
  rw [mag_pack s (by unfold infBits at h; omega), decide_eq_true_eq]
  exact h

/-- The number that an instruction sees. -/
def seen (ftz : Bool) (b : BitVec 32) : Rat := val (inp ftz b)

theorem signed_zero (s : Bool) : signed s 0 = 0 := by unfold signed; simp

theorem seen_zero (ftz s : Bool) : seen ftz (pack s 0) = 0 := by
  unfold seen inp
  split
  · rw [val_pack _ (by decide), magVal_zero, signed_zero]
  · rw [val_pack _ (by decide), magVal_zero, signed_zero]

theorem inp_fin (ftz : Bool) {b : BitVec 32} (h : isFin b = true) : isFin (inp ftz b) = true := by
  unfold inp
  split
  · exact isFin_pack _ (by decide)
  · exact h

theorem inp_nan (ftz : Bool) {b : BitVec 32} (h : isNaN b = false) : isNaN (inp ftz b) = false := by
  unfold inp
  split
  · unfold isNaN; rw [mag_pack _ (by decide)]; decide
  · exact h

theorem fin_not {b : BitVec 32} (h : isFin b = true) : isNaN b = false ∧ isInf b = false := by
  unfold isFin at h
  unfold isNaN isInf
  simp only [decide_eq_true_eq, decide_eq_false_iff_not] at *
  omega

/-- What is seen differs from the number by less than 2^-126, and not at all without flushing. -/
theorem seen_false (b : BitVec 32) : seen false b = val b := rfl

theorem inp_inp (ftz : Bool) (b : BitVec 32) : inp ftz (inp ftz b) = inp ftz b := by
  unfold inp
  split
  · rename_i h
    rw [neg_pack _ (by decide)]
    simp
  · rfl

/-! ## Rounding -/

/-- Half a unit in the last place, relative. -/
def eps : Rat := pow2 (-24)

/-- What an underflow can lose. -/
def eta (ftz : Bool) : Rat := if ftz then pow2 (-126) else pow2 (-150)

/-- Below it, nothing overflows. -/
def big : Rat := pow2 128 - pow2 103

theorem eps_pos : 0 < eps := pow2_pos _
theorem eta_pos (ftz : Bool) : 0 < eta ftz := by unfold eta; split <;> exact pow2_pos _

theorem magVal_min_normal : magVal 8388608 = pow2 (-126) := by
  rw [show (8388608 : Nat) = ((-126 : Int) + 126).toNat * 8388608 + 8388608 from rfl,
    magVal_sig (by omega) (by omega) (by omega)]
  rw [show ((8388608 : Nat) : Rat) = pow2 23 by rw [pow2_eq]; norm_num, ← pow2_add]
  rfl

theorem rnd_fin (ftz s : Bool) {q : Rat} (h : q < big) : isFin (rnd ftz s q) = true := by
  unfold rnd
  split
  · exact isFin_pack _ (by decide)
  · exact isFin_pack _ (magOf_fin h)

/-- What is flushed stays flushed: a result is seen as it is. -/
theorem inp_rnd (ftz s : Bool) {q : Rat} (h : q < big) : inp ftz (rnd ftz s q) = rnd ftz s q := by
  unfold rnd
  split
  · unfold inp
    split
    · rw [neg_pack _ (by decide)]
    · rfl
  · rename_i hc
    unfold inp
    have hm := magOf_fin h
    rw [mag_pack _ (by unfold infBits at hm; omega)]
    rw [if_neg]
    intro h1
    simp only [Bool.and_eq_true, decide_eq_true_eq, not_and, not_lt] at h1 hc
    have h2 := magOf_mono (hc h1.1)
    rw [← magVal_min_normal, magOf_magVal (by decide)] at h2
    omega

theorem rnd_err (ftz s : Bool) {q : Rat} (h0 : 0 ≤ q) (h : q < big) :
    |seen ftz (rnd ftz s q) - signed s q| ≤ q * eps + eta ftz := by
  unfold seen
  rw [inp_rnd ftz s h]
  have hm := magOf_fin h
  have hq : 0 ≤ q * eps := mul_nonneg h0 eps_pos.le
  unfold rnd
  split
  · rename_i hc
    simp only [Bool.and_eq_true, decide_eq_true_eq] at hc
    rw [val_pack _ (by decide), magVal_zero, signed_zero, zero_sub, abs_neg, abs_signed s h0]
    unfold eta
    rw [if_pos hc.1]
    linarith
  · rw [val_pack _ (by unfold infBits at hm; omega)]
    have h1 := magOf_err h0 hm
    have h2 : signed s (magVal (magOf q)) - signed s q = signed s (magVal (magOf q) - q) := by
      unfold signed; split <;> ring
    rw [h2]
    have h3 : |signed s (magVal (magOf q) - q)| = |magVal (magOf q) - q| := by
      unfold signed; split
      · rw [abs_neg]
      · rfl
    rw [h3]
    refine le_trans h1 ?_
    have : pow2 (-150) ≤ eta ftz := by
      unfold eta; split
      · exact pow2_le (by omega)
      · exact le_refl _
    unfold eps
    linarith

theorem signed_abs (q : Rat) : signed (decide (q < 0)) |q| = q := by
  unfold signed
  split
  · rename_i h
    rw [decide_eq_true_eq] at h
    rw [abs_of_neg h]; ring
  · rename_i h
    rw [decide_eq_true_eq] at h
    rw [abs_of_nonneg (not_lt.1 h)]

theorem add_spec (ftz : Bool) {a b : BitVec 32} (ha : isFin a = true) (hb : isFin b = true)
    (h : |seen ftz a + seen ftz b| < big) : isFin (add ftz a b) = true ∧
    |seen ftz (add ftz a b) - (seen ftz a + seen ftz b)| ≤ |seen ftz a + seen ftz b| * eps + eta ftz := by
  have ha' := fin_not (inp_fin ftz ha)
  have hb' := fin_not (inp_fin ftz hb)
  unfold add add'
  rw [ha'.1, hb'.1, ha'.2, hb'.2]
  rw [if_neg (by decide), if_neg (by decide), if_neg (by decide)]
  show isFin (if seen ftz a + seen ftz b = 0 then _ else _) = true ∧ _
  change _ ∧ |seen ftz (if seen ftz a + seen ftz b = 0 then _ else rnd ftz (decide (seen ftz a + seen ftz b < 0))
    |seen ftz a + seen ftz b|) - _| ≤ _
  split
  · rename_i h0
    refine ⟨isFin_pack _ (by decide), ?_⟩
    rw [h0]
    rw [seen_zero]
    simpa using (eta_pos ftz).le
  · refine ⟨rnd_fin _ _ h, ?_⟩
    have := rnd_err ftz (decide (seen ftz a + seen ftz b < 0)) (abs_nonneg _) h
    rwa [signed_abs] at this

theorem opp_fin {b : BitVec 32} (h : isFin b = true) : isFin (opp b) = true := by
  unfold opp
  unfold isFin at h
  rw [decide_eq_true_eq] at h
  exact isFin_pack _ h

theorem mag_lt (b : BitVec 32) : mag b < 2147483648 := by unfold mag; omega

theorem seen_opp (ftz : Bool) (b : BitVec 32) : seen ftz (opp b) = -seen ftz b := by
  have hm := mag_lt b
  unfold seen inp opp
  rw [mag_pack _ hm, neg_pack _ hm]
  split
  · rw [val_pack _ (by decide), val_pack _ (by decide), magVal_zero, signed_zero, signed_zero, neg_zero]
  · rw [val_pack _ hm, val_eq]
    unfold signed
    cases neg b <;> simp

theorem sub_spec (ftz : Bool) {a b : BitVec 32} (ha : isFin a = true) (hb : isFin b = true)
    (h : |seen ftz a - seen ftz b| < big) : isFin (sub ftz a b) = true ∧
    |seen ftz (sub ftz a b) - (seen ftz a - seen ftz b)| ≤ |seen ftz a - seen ftz b| * eps + eta ftz := by
  have := add_spec ftz ha (opp_fin hb)
  rw [seen_opp, ← sub_eq_add_neg] at this
  exact this h

theorem signed_mul (s t : Bool) (p q : Rat) : signed s p * signed t q = signed (s != t) (p * q) := by
  unfold signed; cases s <;> cases t <;> simp

theorem mul_spec (ftz : Bool) {a b : BitVec 32} (ha : isFin a = true) (hb : isFin b = true)
    (h : |seen ftz a * seen ftz b| < big) : isFin (mul ftz a b) = true ∧
    |seen ftz (mul ftz a b) - seen ftz a * seen ftz b| ≤ |seen ftz a * seen ftz b| * eps + eta ftz := by
  have ha' := fin_not (inp_fin ftz ha)
  have hb' := fin_not (inp_fin ftz hb)
  unfold mul mul'
  rw [ha'.1, hb'.1, ha'.2, hb'.2]
  rw [if_neg (by decide), if_neg (by decide)]
  change isFin (rnd ftz _ |seen ftz a * seen ftz b|) = true ∧ |seen ftz (rnd ftz _ |seen ftz a * seen ftz b|) - _| ≤ _
  refine ⟨rnd_fin _ _ h, ?_⟩
  have := rnd_err ftz (neg (inp ftz a) != neg (inp ftz b)) (abs_nonneg (seen ftz a * seen ftz b)) h
  have e1 : signed (neg (inp ftz a) != neg (inp ftz b)) |seen ftz a * seen ftz b| = seen ftz a * seen ftz b := by
    unfold seen
    rw [val_eq, val_eq, signed_mul]
    have h0 := mul_nonneg (magVal_nonneg (mag (inp ftz a))) (magVal_nonneg (mag (inp ftz b)))
    rw [abs_signed _ h0]
  rw [e1] at this
  exact this

/-! ## Integers -/

theorem satI32_toInt (x : Int) : (satI32 x).toInt = max (-2147483648) (min 2147483647 x) := by
  unfold satI32
  rw [BitVec.toInt_ofInt]
  split
  · rw [Int.bmod_def]; omega
  · split <;> · rw [Int.bmod_def]; omega

theorem abs_toInt_lt (x : BitVec 32) : |(x.toInt : Rat)| < big := by
  have h1 : |(x.toInt : Rat)| ≤ 2147483648 := by
    rw [abs_le]
    have := x.toInt_lt
    have := x.le_toInt
    constructor
    · exact_mod_cast (by omega : (-2147483648 : Int) ≤ x.toInt)
    · exact_mod_cast (by omega : x.toInt ≤ 2147483648)
  refine lt_of_le_of_lt h1 ?_
  unfold big
  rw [show (128 : Int) = 103 + 25 by omega, pow2_add, show pow2 25 = 33554432 by rw [pow2_eq]; norm_num]
  have : pow2 31 ≤ pow2 103 := pow2_le (by omega)
  rw [show pow2 31 = 2147483648 by rw [pow2_eq]; norm_num] at this
  linarith

theorem ofInt_val (x : BitVec 32) : isFin (ofInt x) = true ∧
    |val (ofInt x) - x.toInt| ≤ |(x.toInt : Rat)| * eps + pow2 (-150) := by
  have hx := abs_toInt_lt x
  have hm := magOf_fin hx
  refine ⟨isFin_pack _ hm, ?_⟩
  unfold ofInt
  rw [val_pack _ (by unfold infBits at hm; omega)]
  have h1 := magOf_err (abs_nonneg (x.toInt : Rat)) hm
  have h2 : (x.toInt : Rat) = signed (decide (x.toInt < 0)) |(x.toInt : Rat)| := by
    have := signed_abs (x.toInt : Rat)
    rw [show decide ((x.toInt : Rat) < 0) = decide (x.toInt < 0) by
      rw [decide_eq_decide]; exact_mod_cast Iff.rfl] at this
    exact this.symm
  have h3 : ∀ (s : Bool) (v q y : Rat), y = signed s q → signed s v - y = signed s (v - q) := by
    intro s v q y hy; subst hy; unfold signed; split <;> ring
  rw [h3 _ _ _ _ h2]
  have h4 : ∀ (s : Bool) (q : Rat), |signed s q| = |q| := by
    intro s q; unfold signed; split
    · rw [abs_neg]
    · rfl
  rw [h4]
  exact h1

theorem magVal_nat {n : Nat} (h : n ≤ 16777216) : ∃ m, m < infBits ∧ magVal m = n := by
  by_cases h0 : n = 0
  · exact ⟨0, by decide, by rw [magVal_zero, h0]; rfl⟩
  · have hq : (0 : Rat) < n := by exact_mod_cast Nat.pos_of_ne_zero h0
    obtain ⟨h1, h2⟩ := expo_bounds hq
    have he0 : 0 ≤ expo n := by
      by_contra hc
      have h3 := pow2_le (show expo n + 1 ≤ 0 by omega)
      rw [pow2_zero] at h3
      have : (n : Rat) < 1 := by linarith
      have : n < 1 := by exact_mod_cast this
      omega
    have he1 : expo n ≤ 24 := by
      by_contra hc
      have h3 := pow2_lt (show 24 < expo n by omega)
      rw [show pow2 24 = 16777216 by rw [pow2_eq]; norm_num] at h3
      have : (16777216 : Rat) < n := by linarith
      have : 16777216 < n := by exact_mod_cast this
      omega
    by_cases h24 : expo n = 24
    · have h3 : (16777216 : Rat) ≤ n := by
        rw [show (16777216 : Rat) = pow2 24 by rw [pow2_eq]; norm_num, ← h24]; exact h1
      have h3 : 16777216 ≤ n := by exact_mod_cast h3
      refine ⟨((24 : Int) + 126).toNat * 8388608 + 8388608, by decide, ?_⟩
      rw [magVal_sig (by omega) (by omega) (by omega), show n = 16777216 by omega,
        show pow2 (24 - 23) = 2 by rw [pow2_eq]; norm_num]
      norm_num
    · obtain ⟨d, hd⟩ := Int.eq_ofNat_of_zero_le (show 0 ≤ 23 - expo n by omega)
      have hp : pow2 d * pow2 (expo n) = 8388608 := by
        rw [← pow2_add, show (d : Int) + expo n = 23 by omega, pow2_eq]; norm_num
      have hp' : pow2 d * pow2 (expo n + 1) = 16777216 := by rw [pow2_succ]; linarith
      have hd0 := pow2_pos d
      have l1 : (8388608 : Rat) ≤ pow2 d * n := by rw [← hp]; exact mul_le_mul_of_nonneg_left h1 hd0.le
      have l2 : pow2 d * n ≤ (16777216 : Rat) := by rw [← hp']; exact mul_le_mul_of_nonneg_left h2.le hd0.le
      rw [pow2_nat] at l1 l2
      have l1 : 8388608 ≤ 2 ^ d * n := by exact_mod_cast l1
      have l2 : 2 ^ d * n ≤ 16777216 := by exact_mod_cast l2
      refine ⟨(expo n + 126).toNat * 8388608 + 2 ^ d * n, by unfold infBits; omega, ?_⟩
      rw [magVal_sig (by omega) l2 (fun _ => l1), Nat.cast_mul, ← pow2_nat, mul_right_comm, ← pow2_add,
        show (d : Int) + (expo n - 23) = 0 by omega, pow2_zero, one_mul]

/-- Integers up to 2^24 are converted exactly. -/
theorem ofInt_exact {x : BitVec 32} (h : x.toInt.natAbs ≤ 16777216) : val (ofInt x) = x.toInt := by
  obtain ⟨m, h1, h2⟩ := magVal_nat h
  have h3 : |(x.toInt : Rat)| = ((x.toInt.natAbs : Nat) : Rat) := by
    rw [← Int.cast_abs, Int.abs_eq_natAbs]; rfl
  unfold ofInt
  rw [h3, ← h2, magOf_magVal h1, val_pack _ (by unfold infBits at h1; omega), h2, ← h3]
  have := signed_abs (x.toInt : Rat)
  rw [show decide ((x.toInt : Rat) < 0) = decide (x.toInt < 0) by
    rw [decide_eq_decide]; exact_mod_cast Iff.rfl] at this
  exact this

theorem inp_ofInt (ftz : Bool) (x : BitVec 32) : inp ftz (ofInt x) = ofInt x := by
  unfold ofInt
  have hm := magOf_fin (abs_toInt_lt x)
  unfold inp
  rw [mag_pack _ (by unfold infBits at hm; omega), neg_pack _ (by unfold infBits at hm; omega)]
  by_cases h0 : x.toInt = 0
  · rw [h0]
    have : magOf |((0 : Int) : Rat)| = 0 := by rw [Int.cast_zero, abs_zero, magOf_zero]
    rw [this]
    simp
  · have h1 : (1 : Rat) ≤ |(x.toInt : Rat)| := by
      rw [← Int.cast_abs]
      exact_mod_cast Int.one_le_abs h0
    have h2 := magOf_mono (le_trans (show pow2 (-126) ≤ 1 by rw [← pow2_zero]; exact pow2_le (by omega)) h1)
    rw [← magVal_min_normal, magOf_magVal (by decide)] at h2
    rw [if_neg]
    simp only [Bool.and_eq_true, decide_eq_true_eq, not_and]
    omega

/-! ## Conversion to integers -/

theorem trunc_small {q : Rat} (h : |q| < 1) : trunc q = 0 := by
  rw [abs_lt] at h
  unfold trunc
  split
  · have h1 := floor_spec (-q)
    have : (-q).floor = 0 := by
      have a : ((-q).floor : Rat) < 1 := by linarith
      have b : (-1 : Rat) < ((-q).floor : Rat) := by linarith
      have a : (-q).floor < 1 := by exact_mod_cast a
      have b : -1 < (-q).floor := by exact_mod_cast b
      omega
    omega
  · have h1 := floor_spec q
    have a : (q.floor : Rat) < 1 := by linarith
    have b : (-1 : Rat) < (q.floor : Rat) := by linarith
    have a : q.floor < 1 := by exact_mod_cast a
    have b : -1 < q.floor := by exact_mod_cast b
    omega

theorem roundEven_small {q : Rat} (h : |q| < 1 / 2) : roundEven q = 0 := by
  have h1 := roundEven_err q
  rw [abs_lt] at h
  rw [abs_le] at h1
  have a : (roundEven q : Rat) < 1 := by linarith
  have b : (-1 : Rat) < (roundEven q : Rat) := by linarith
  have a : roundEven q < 1 := by exact_mod_cast a
  have b : -1 < roundEven q := by exact_mod_cast b
  omega

/-- A rounding that takes small numbers to 0. -/
def Rounding (r : Rat → Int) : Prop := ∀ q, |q| < 1 / 2 → r q = 0

theorem rounding_trunc : Rounding trunc := fun _ h => trunc_small (lt_trans h (by norm_num))
theorem rounding_even : Rounding roundEven := fun _ h => roundEven_small h

theorem toInt_fin {r : Rat → Int} (hr : Rounding r) (ftz : Bool) {b : BitVec 32} (h : isFin b = true) :
    (toInt r b).toInt = max (-2147483648) (min 2147483647 (r (seen ftz b))) := by
  have h1 := fin_not h
  unfold toInt
  rw [h1.1, h1.2, if_neg (by decide), if_neg (by decide), satI32_toInt]
  have : r (val b) = r (seen ftz b) := by
    unfold seen inp
    split
    · rename_i hc
      simp only [Bool.and_eq_true, decide_eq_true_eq] at hc
      rw [val_pack _ (by decide), magVal_zero, signed_zero]
      have : |val b| < 1 / 2 := by
        rw [val_eq, abs_signed _ (magVal_nonneg _)]
        have h2 := magVal_mono (show mag b ≤ 8388608 by omega) (by decide)
        rw [magVal_min_normal] at h2
        refine lt_of_le_of_lt h2 ?_
        rw [pow2_eq]; norm_num
      rw [hr _ this, hr 0 (by norm_num)]
    · rfl
  rw [this]

end Gemmlowp.F32
