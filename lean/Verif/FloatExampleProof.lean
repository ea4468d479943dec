import Verif.FloatExample
import Verif.Float32Ops
import Verif.TanhInit
/-!
# doc/quantization_example.cc in IEEE arithmetic: lemmas
-/
namespace Gemmlowp.FloatExample

open F32
open TanhStage (rnPos roundAway rnPos_err rnPos_pos roundAway_nonneg)

/-! ## Numbers that are multiples of 2^-149 -/

theorem magVal_int (m : Nat) (hm : m < infBits) : ∃ n : Nat, magVal m = n * pow2 (-149) := by
  obtain ⟨e, n, he, _, _, _, _, h⟩ := magVal_form m hm
  obtain ⟨k, hk⟩ := Int.eq_ofNat_of_zero_le (show 0 ≤ e + 126 by omega)
  refine ⟨n * 2 ^ k, ?_⟩
  rw [h, show e - 23 = (k : Int) + -149 by omega, pow2_add, pow2_nat]
  push_cast
  ring

/-- A number of 24 bits is a float. -/
theorem repr24 {n : Nat} (hn : n < 16777216) : ∀ (k : Nat), (n : Rat) * pow2 ((k : Int) - 149) < pow2 128 →
    ∃ m, m < infBits ∧ magVal m = n * pow2 ((k : Int) - 149) := by
  intro k
  induction k generalizing n with
  | zero =>
    intro _
    refine ⟨((-126 : Int) + 126).toNat * 8388608 + n, by unfold infBits; omega, ?_⟩
    rw [magVal_sig (by omega) hn.le (by omega)]
    rfl
  | succ k ih =>
    intro h
    by_cases hb : 8388608 ≤ n
    · have hk : (k : Int) ≤ 252 := by
        by_contra hc
        have h1 : pow2 128 ≤ (n : Rat) * pow2 (((k + 1 : Nat) : Int) - 149) := by
          calc pow2 128 ≤ pow2 (23 + (((k + 1 : Nat) : Int) - 149)) := pow2_le (by push_cast; omega)
            _ = 8388608 * pow2 (((k + 1 : Nat) : Int) - 149) := by
                rw [pow2_add, show pow2 23 = 8388608 by rw [pow2_eq]; norm_num]
            _ ≤ _ := mul_le_mul_of_nonneg_right (by exact_mod_cast hb) (pow2_pos _).le
        linarith
      refine ⟨((((k + 1 : Nat) : Int) - 126) + 126).toNat * 8388608 + n, by unfold infBits; omega, ?_⟩
      rw [magVal_sig (by omega) hn.le (fun _ => hb)]
      congr 2
      push_cast; ring
    · obtain ⟨m, h1, h2⟩ := ih (n := 2 * n) (by omega) (by
        refine lt_of_eq_of_lt ?_ h
        rw [show ((k + 1 : Nat) : Int) - 149 = ((k : Int) - 149) + 1 by push_cast; ring, pow2_succ]
        push_cast; ring)
      refine ⟨m, h1, ?_⟩
      rw [h2, show ((k + 1 : Nat) : Int) - 149 = ((k : Int) - 149) + 1 by push_cast; ring, pow2_succ]
      push_cast; ring

theorem eps_eq : eps = 1 / 16777216 := by unfold eps; rw [pow2_eq]; norm_num

/-- Rounding a multiple of 2^-149 loses nothing to underflow. -/
theorem magOf_mult {n : Nat} {q : Rat} (hq : q = n * pow2 (-149)) (h : q < big) :
    |magVal (magOf q) - q| ≤ q * (2 * eps) := by
  have hp := pow2_pos (-149)
  have h0 : 0 ≤ q := by rw [hq]; positivity
  by_cases hn : n < 16777216
  · obtain ⟨m, h1, h2⟩ := repr24 hn 0 (by
      rw [show ((0 : Nat) : Int) - 149 = -149 by norm_num, ← hq]
      unfold big at h
      linarith [pow2_pos 103])
    rw [show ((0 : Nat) : Int) - 149 = -149 by norm_num, ← hq] at h2
    rw [← h2, magOf_magVal h1, sub_self, abs_zero]
    rw [h2]
    exact mul_nonneg h0 (by linarith [eps_pos])
  · have h1 := magOf_err h0 (magOf_fin h)
    have h2 : pow2 (-125) ≤ q := by
      rw [hq, show pow2 (-125) = 16777216 * pow2 (-149) by
        rw [show (16777216 : Rat) = pow2 24 by rw [pow2_eq]; norm_num, ← pow2_add]; norm_num]
      exact mul_le_mul_of_nonneg_right (by exact_mod_cast not_lt.1 hn) hp.le
    have h3 : pow2 (-150) ≤ q * eps := by
      have : pow2 (-150) = pow2 (-126) * eps := by unfold eps; rw [← pow2_add]; norm_num
      rw [this]
      exact mul_le_mul_of_nonneg_right (le_trans (pow2_le (by omega)) h2) eps_pos.le
    have e : pow2 (-24) = eps := rfl
    rw [e] at h1
    linarith

/-- A number of 24 bits is not changed by rounding. -/
theorem rnd_repr {n : Nat} (hn : n < 16777216) {k : Nat} {q : Rat} (hq : q = (n : Rat) * pow2 ((k : Int) - 149))
    (h : q < big) (s : Bool) : val (rnd false s q) = signed s q ∧ isFin (rnd false s q) = true := by
  refine ⟨?_, rnd_fin false s h⟩
  obtain ⟨m, h1, h2⟩ := repr24 hn k (by rw [← hq]; unfold big at h; linarith [pow2_pos 103])
  unfold rnd
  rw [Bool.false_and, if_neg (by decide), hq, ← h2, magOf_magVal h1, val_pack _ (by unfold infBits at h1; omega)]

/-- A multiple of 2^-149 rounded. -/
theorem rnd_mult {n : Nat} {q : Rat} (hq : q = n * pow2 (-149)) (h : q < big) (s : Bool) :
    isFin (rnd false s q) = true ∧ |val (rnd false s q) - signed s q| ≤ q * (2 * eps) := by
  refine ⟨rnd_fin false s h, ?_⟩
  have hm := magOf_fin h
  unfold rnd
  rw [Bool.false_and, if_neg (by decide), val_pack _ (by unfold infBits at hm; omega)]
  have h2 : signed s (magVal (magOf q)) - signed s q = signed s (magVal (magOf q) - q) := by
    unfold signed; split <;> ring
  have h3 : |signed s (magVal (magOf q) - q)| = |magVal (magOf q) - q| := by
    unfold signed; split
    · rw [abs_neg]
    · rfl
  rw [h2, h3]
  exact magOf_mult hq h

/-! ## Operations -/

theorem fdiv_spec {a b : BitVec 32} (ha : isFin a = true) (hb : isFin b = true) (h0 : val b ≠ 0)
    (h : |val a / val b| < big) : isFin (fdiv a b) = true ∧
    |val (fdiv a b) - val a / val b| ≤ |val a / val b| * eps + pow2 (-150) := by
  have ha' := fin_not ha
  have hb' := fin_not hb
  have hm : mag b ≠ 0 := by
    intro hc
    apply h0
    rw [val_eq, hc, magVal_zero, signed_zero]
  unfold fdiv
  rw [ha'.1, hb'.1, ha'.2, hb'.2]
  rw [if_neg (by decide), if_neg (by decide), if_neg (by decide), if_neg hm]
  refine ⟨rnd_fin _ _ h, ?_⟩
  have := rnd_err false (neg a != neg b) (abs_nonneg (val a / val b)) h
  have e1 : signed (neg a != neg b) |val a / val b| = val a / val b := by
    rw [val_eq, val_eq]
    have h0 := div_nonneg (magVal_nonneg (mag a)) (magVal_nonneg (mag b))
    have : signed (neg a) (magVal (mag a)) / signed (neg b) (magVal (mag b)) =
        signed (neg a != neg b) (magVal (mag a) / magVal (mag b)) := by
      unfold signed; cases neg a <;> cases neg b <;> simp [neg_div, div_neg]
    rw [this, abs_signed _ h0]
  rw [e1] at this
  exact this

theorem magVal_lt {m n : Nat} (h : m < n) (hn : n < infBits) : magVal m < magVal n := by
  refine lt_of_le_of_ne (magVal_mono h.le hn) (fun hc => ?_)
  have := congrArg magOf hc
  rw [magOf_magVal hn, magOf_magVal (by omega)] at this
  omega

theorem place_lt {a b : BitVec 32} (ha : isFin a = true) (hb : isFin b = true) : place a < place b ↔ val a < val b := by
  have ha : mag a < infBits := of_decide_eq_true ha
  have hb : mag b < infBits := of_decide_eq_true hb
  have h0 : ∀ m, 0 ≤ magVal m := magVal_nonneg
  have hp : ∀ m, 0 < m → m < infBits → 0 < magVal m := fun m h h' => by
    have := magVal_lt h h'
    rwa [magVal_zero] at this
  have hm : ∀ m n, m < infBits → n < infBits → (magVal m < magVal n ↔ m < n) := fun m n h1 h2 =>
    ⟨fun h => by by_contra hc; exact absurd h (not_lt.2 (magVal_mono (not_lt.1 hc) h1)), fun h => magVal_lt h h2⟩
  rw [val_eq, val_eq]
  unfold place signed
  generalize mag a = m at *
  generalize mag b = n at *
  cases neg a <;> cases neg b
  · simp only [Bool.false_eq_true, if_false, hm m n ha hb]; omega
  · simp only [Bool.false_eq_true, if_false, if_true]
    constructor
    · intro h; omega
    · intro h; linarith [h0 m, h0 n]
  · simp only [Bool.false_eq_true, if_false, if_true]
    constructor
    · intro h
      rcases Nat.eq_zero_or_pos m with rfl | h'
      · linarith [hp n (by omega) hb, h0 0]
      · linarith [hp m h' ha, h0 n]
    · intro h
      by_contra hc
      obtain rfl : m = 0 := by omega
      obtain rfl : n = 0 := by omega
      rw [magVal_zero] at h
      linarith
  · simp only [if_true, neg_lt_neg_iff, hm n m hb ha]; omega

theorem flt_fin {a b : BitVec 32} (ha : isFin a = true) (hb : isFin b = true) : flt a b = decide (val a < val b) := by
  unfold flt
  rw [(fin_not ha).1, (fin_not hb).1]
  simp only [Bool.not_false, Bool.true_and, decide_eq_decide]
  exact place_lt ha hb

theorem stdMin_fin {a b : BitVec 32} (ha : isFin a = true) (hb : isFin b = true) :
    isFin (stdMin a b) = true ∧ val (stdMin a b) = min (val a) (val b) := by
  unfold stdMin
  rw [flt_fin hb ha]
  by_cases h : val b < val a
  · rw [if_pos (by simpa using h), min_eq_right h.le]; exact ⟨hb, rfl⟩
  · rw [if_neg (by simpa using h), min_eq_left (not_lt.1 h)]; exact ⟨ha, rfl⟩

theorem stdMax_fin {a b : BitVec 32} (ha : isFin a = true) (hb : isFin b = true) :
    isFin (stdMax a b) = true ∧ val (stdMax a b) = max (val a) (val b) := by
  unfold stdMax
  rw [flt_fin ha hb]
  by_cases h : val a < val b
  · rw [if_pos (by simpa using h), max_eq_right h.le]; exact ⟨hb, rfl⟩
  · rw [if_neg (by simpa using h), max_eq_left (not_lt.1 h)]; exact ⟨ha, rfl⟩

theorem val_f0 : val f0 = 0 := by decide +kernel
theorem val_f255 : val f255 = 255 := by decide +kernel
theorem val_fHalf : val fHalf = 1 / 2 := by decide +kernel
theorem val_f1 : val f1 = 1 := by decide +kernel
theorem val_f2 : val f2 = 2 := by decide +kernel
theorem val_f2p31 : val f2p31 = 2147483648 := by decide +kernel

theorem ofSmall_val {k : Int} (h : |k| ≤ 255) : isFin (ofSmall k) = true ∧ val (ofSmall k) = k := by
  rw [abs_le] at h
  have e : (BitVec.ofInt 32 k).toInt = k := by rw [BitVec.toInt_ofInt, Int.bmod_def]; omega
  refine ⟨(ofInt_val _).1, ?_⟩
  unfold ofSmall
  rw [ofInt_exact (by rw [e]; omega), e]

/-- A sum and a difference of floats. -/
theorem add_spec' {a b : BitVec 32} (ha : isFin a = true) (hb : isFin b = true) (h : |val a + val b| < big) :
    isFin (add false a b) = true ∧ |val (add false a b) - (val a + val b)| ≤ |val a + val b| * eps + pow2 (-150) :=
  add_spec false ha hb h

/-- A float times a small integer. -/
theorem mul_small {a : BitVec 32} {k : Int} (ha : isFin a = true) (hk : |k| ≤ 255) (h : |val a * k| < big) :
    isFin (mul false a (ofSmall k)) = true ∧ |val (mul false a (ofSmall k)) - val a * k| ≤ |val a * k| * (2 * eps) := by
  obtain ⟨hb, ek⟩ := ofSmall_val hk
  have ha' := fin_not ha
  have hb' := fin_not hb
  have hma : mag a < infBits := of_decide_eq_true ha
  obtain ⟨n, hn⟩ := magVal_int _ hma
  have hq : |val a * k| = ((n * k.natAbs : Nat) : Rat) * pow2 (-149) := by
    have e : |(k : Rat)| = ((k.natAbs : Nat) : Rat) := by rw [← Int.cast_abs, Int.abs_eq_natAbs]; rfl
    rw [abs_mul, val_eq, abs_signed _ (magVal_nonneg _), hn, e, Nat.cast_mul]
    ring
  show isFin (mul' false a (ofSmall k)) = true ∧ |val (mul' false a (ofSmall k)) - _| ≤ _
  unfold mul'
  rw [ha'.1, hb'.1, ha'.2, hb'.2]
  rw [if_neg (by decide), if_neg (by decide)]
  have e1 : signed (neg a != neg (ofSmall k)) |val a * k| = val a * k := by
    rw [← ek, val_eq, val_eq, signed_mul]
    rw [abs_signed _ (mul_nonneg (magVal_nonneg _) (magVal_nonneg _))]
  rw [ek]
  have := rnd_mult hq h (neg a != neg (ofSmall k))
  rw [e1] at this
  exact this

/-- A difference of floats loses nothing to underflow. -/
theorem sub_spec' {a b : BitVec 32} (ha : isFin a = true) (hb : isFin b = true) (h : |val a - val b| < big) :
    isFin (sub false a b) = true ∧ |val (sub false a b) - (val a - val b)| ≤ |val a - val b| * (2 * eps) := by
  have hb1 := opp_fin hb
  have eo : val (opp b) = -val b := seen_opp false b
  have ha' := fin_not ha
  have hb' := fin_not hb1
  have hint : ∀ {c : BitVec 32}, isFin c = true → ∃ n : Int, val c = n * pow2 (-149) := by
    intro c hc
    obtain ⟨n, hn⟩ := magVal_int _ (of_decide_eq_true hc : mag c < infBits)
    rw [val_eq, hn]
    unfold signed
    split
    · exact ⟨-n, by push_cast; ring⟩
    · exact ⟨n, by push_cast; ring⟩
  obtain ⟨n, hn⟩ := hint ha
  obtain ⟨m, hm⟩ := hint hb
  have hq : |val a - val b| = (((n - m).natAbs : Nat) : Rat) * pow2 (-149) := by
    rw [hn, hm, ← sub_mul, abs_mul, abs_of_pos (pow2_pos _), ← Int.cast_sub, ← Int.cast_abs, Int.abs_eq_natAbs]
    rfl
  show isFin (add' false a (opp b)) = true ∧ |val (add' false a (opp b)) - _| ≤ _
  unfold add'
  rw [ha'.1, hb'.1, ha'.2, hb'.2]
  rw [if_neg (by decide), if_neg (by decide), if_neg (by decide), eo, ← sub_eq_add_neg]
  split
  · rename_i h0
    refine ⟨isFin_pack _ (by decide), ?_⟩
    rw [h0, val_pack _ (by decide), magVal_zero, signed_zero]
    simp
  · have := rnd_mult hq h (decide (val a - val b < 0))
    rwa [signed_abs] at this

end Gemmlowp.FloatExample
