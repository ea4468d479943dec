import Verif.Float32Acc
import Verif.Float32Order
import Verif.PropsMetaTransform32
import Verif.PropsMetaArm
/-!
# C67: how far the results of the floating-point transformations of meta/ are from the numbers they stand for

The floating-point unit is IEEE 754 binary32, rounded to the nearest (`F32.ieee`), without (64-bit ARM) or with (32-bit
ARM) flushing of subnormal numbers.
-/
namespace Gemmlowp.F32

open MetaAsm (FloatOps)

theorem Acc.done {ftz b r T k u} (h : Acc ftz b r T k u) (hk : k ≤ 7) :
    |seen ftz b - r| ≤ T * pow2 (-21) + 2 * u := by
  obtain ⟨h1, h2, -⟩ := pow_eps_le hk
  have := mul_le_mul_of_nonneg_right h2 h.nonneg
  have := mul_le_mul_of_nonneg_right h1 h.low
  linarith [h.err]

theorem Acc.done3 {ftz b r T k u} (h : Acc ftz b r T k u) (hk : k ≤ 3) :
    |seen ftz b - r| ≤ T * pow2 (-22) + 2 * u := by
  obtain ⟨h1, -, h2⟩ := pow_eps_le (show k ≤ 7 by omega)
  have := mul_le_mul_of_nonneg_right (h2 hk) h.nonneg
  have := mul_le_mul_of_nonneg_right h1 h.low
  linarith [h.err]

theorem abs_seen_le (ftz : Bool) {s : BitVec 32} (h : isFin s = true) : |seen ftz s| ≤ pow2 128 := by
  have h' := inp_fin ftz h
  unfold seen
  generalize inp ftz s = b at *
  unfold isFin at h'
  rw [decide_eq_true_eq] at h'
  rw [val_eq, abs_signed _ (magVal_nonneg _)]
  obtain ⟨e, n, -, he, hn, -, -, h4⟩ := magVal_form _ h'
  rw [h4, show (128 : Int) = 24 + 104 by omega, pow2_add]
  have a : (n : Rat) ≤ pow2 24 := by
    rw [show pow2 24 = 16777216 by rw [pow2_eq]; norm_num]
    exact_mod_cast hn.le
  exact mul_le_mul a (pow2_le (by omega)) (pow2_pos _).le (pow2_pos _).le

theorem eta_le (ftz : Bool) : eta ftz ≤ pow2 (-126) := by
  unfold eta; split
  · exact le_refl _
  · exact pow2_le (by omega)

theorem eta_mul_le (ftz : Bool) {s : BitVec 32} (h : isFin s = true) : eta ftz * |seen ftz s| ≤ 4 := by
  have := mul_le_mul (eta_le ftz) (abs_seen_le ftz h) (abs_nonneg _) (pow2_pos _).le
  rwa [← pow2_add, show pow2 (-126 + 128) = 4 by rw [pow2_eq]; norm_num] at this

theorem eta_le_one (ftz : Bool) : eta ftz ≤ 1 := by
  refine le_trans (eta_le ftz) ?_
  rw [← pow2_zero]; exact pow2_le (by omega)

theorem hundred_le : 100 + pow2 126 ≤ pow2 127 := by
  rw [show (127 : Int) = 126 + 1 by omega, pow2_succ]
  have : pow2 7 ≤ pow2 126 := pow2_le (by omega)
  rw [show pow2 7 = 128 by rw [pow2_eq]; norm_num] at this
  linarith

/-! ## The unit

The sum, difference and product of two numbers are the nearest number to the exact result; of two nearest ones, the one
with the even last bit. -/

/-- `y` is the rounded `q`. -/
def Rounded (y : BitVec 32) (q : Rat) : Prop :=
  isFin y = true ∧ ∀ c, isFin c = true → |val y - q| ≤ |val c - q| ∧
    (val c ≠ val y → |val y - q| = |val c - q| → y.toNat % 2 = 0)

theorem toNat_pack_mod (s : Bool) (m : Nat) : (pack s m).toNat % 2 = m % 2 := by
  unfold pack
  rw [BitVec.toNat_ofNat]
  cases s
  · rw [if_neg (by decide)]; omega
  · rw [if_pos rfl]; omega

theorem signed_signed (s : Bool) (q : Rat) : signed s (signed s q) = q := by unfold signed; cases s <;> simp

theorem abs_signed' (s : Bool) (q : Rat) : |signed s q| = |q| := by unfold signed; cases s <;> simp

theorem signed_sub (s : Bool) (p q : Rat) : signed s p - signed s q = signed s (p - q) := by
  unfold signed; split <;> ring

theorem rounded_rnd (s : Bool) {q : Rat} (h0 : 0 ≤ q) (h : q < big) : Rounded (rnd false s q) (signed s q) := by
  have hm := magOf_fin h
  have hlt : magOf q < 2147483648 := by unfold infBits at hm; omega
  have e : rnd false s q = pack s (magOf q) := rfl
  refine ⟨rnd_fin _ _ h, fun c hc => ?_⟩
  unfold isFin at hc
  rw [decide_eq_true_eq] at hc
  rw [e, val_pack s hlt, signed_sub, abs_signed', val_eq c]
  have n0 := magVal_nonneg (mag c)
  by_cases hs : neg c = s
  · rw [hs, signed_sub, abs_signed']
    refine ⟨magOf_nearest h0 hm hc, fun h1 h2 => ?_⟩
    rw [toNat_pack_mod]
    refine magOf_even h0 hm hc (fun h3 => h1 (by rw [h3])) h2.symm
  · have h3 : |signed (neg c) (magVal (mag c)) - signed s q| = magVal (mag c) + q := by
      have : signed (neg c) (magVal (mag c)) - signed s q = signed (neg c) (magVal (mag c) + q) := by
        revert hs
        unfold signed
        cases neg c <;> cases s <;> (simp; try ring)
      rw [this, abs_signed', abs_of_nonneg (by linarith)]
    have h4 := magOf_nearest h0 hm (m := 0) (by decide)
    rw [magVal_zero, zero_sub, abs_neg, abs_of_nonneg h0] at h4
    rw [h3]
    refine ⟨by linarith, fun h1 h2 => ?_⟩
    have h5 : magVal (mag c) = 0 := by linarith
    rw [toNat_pack_mod]
    refine magOf_even h0 hm (m := 0) (by decide) (fun h6 => h1 ?_) ?_
    · rw [← h6, h5, magVal_zero, signed_zero, signed_zero]
    · rw [magVal_zero, zero_sub, abs_neg, abs_of_nonneg h0]; linarith

theorem rounded_zero (s : Bool) : Rounded (pack s 0) 0 := by
  have := rounded_rnd s (le_refl 0) (show (0 : Rat) < big by
    unfold big; have := pow2_lt (show (103 : Int) < 128 by omega); linarith)
  rw [signed_zero] at this
  have e : rnd false s 0 = pack s 0 := by unfold rnd; rw [magOf_zero]; rfl
  rwa [e] at this

/-- **C67**: `fadd` of 64-bit ARM, for numbers whose sum does not overflow. -/
theorem C67_add {a b : BitVec 32} (ha : isFin a = true) (hb : isFin b = true) (h : |val a + val b| < big) :
    Rounded ((ieee false).add a b) (val a + val b) := by
  show Rounded (add' false a b) _
  unfold add'
  rw [(fin_not ha).1, (fin_not hb).1, (fin_not ha).2, (fin_not hb).2]
  rw [if_neg (by decide), if_neg (by decide), if_neg (by decide)]
  split
  · rename_i h0; rw [h0]; exact rounded_zero _
  · have := rounded_rnd (decide (val a + val b < 0)) (abs_nonneg _) h
    rwa [signed_abs] at this

/-- **C67**: `fsub`. -/
theorem C67_sub {a b : BitVec 32} (ha : isFin a = true) (hb : isFin b = true) (h : |val a - val b| < big) :
    Rounded ((ieee false).sub a b) (val a - val b) := by
  have := C67_add ha (opp_fin hb)
  have e : val (opp b) = -val b := seen_opp false b
  rw [e, ← sub_eq_add_neg] at this
  exact this h

/-- **C67**: `fmul`. -/
theorem C67_mul {a b : BitVec 32} (ha : isFin a = true) (hb : isFin b = true) (h : |val a * val b| < big) :
    Rounded ((ieee false).mul a b) (val a * val b) := by
  show Rounded (mul' false a b) _
  unfold mul'
  rw [(fin_not ha).1, (fin_not hb).1, (fin_not ha).2, (fin_not hb).2]
  rw [if_neg (by decide), if_neg (by decide)]
  have := rounded_rnd (neg a != neg b) (abs_nonneg _) h
  have h0 := mul_nonneg (magVal_nonneg (mag a)) (magVal_nonneg (mag b))
  have e : signed (neg a != neg b) |val a * val b| = val a * val b := by
    rw [val_eq, val_eq, signed_mul, abs_signed _ h0]
  rwa [e] at this

/-- Not a subnormal number. -/
def Plain (b : BitVec 32) : Prop := mag b = 0 ∨ 8388608 ≤ mag b

theorem inp_plain {b : BitVec 32} (h : Plain b) (ftz : Bool) : inp ftz b = b := by
  unfold inp
  split
  · rename_i hc
    simp only [Bool.and_eq_true, decide_eq_true_eq] at hc
    have h0 : mag b = 0 := by unfold Plain at h; omega
    apply BitVec.eq_of_toNat_eq
    unfold mag at h0
    have := b.isLt
    unfold pack neg
    rw [BitVec.toNat_ofNat]
    split <;> simp only [decide_eq_true_eq] at * <;> omega
  · rfl

theorem rnd_plain (ftz s : Bool) {q : Rat} (h : pow2 (-126) ≤ q) : rnd ftz s q = rnd false s q := by
  unfold rnd
  rw [if_neg, if_neg (by simp)]
  simp only [Bool.and_eq_true, decide_eq_true_eq, not_and, not_lt]
  exact fun _ => h

/-- **C67**: 32-bit ARM computes the same when no subnormal number takes part. -/
theorem C67_flush {a b : BitVec 32} (ha : Plain a) (hb : Plain b) :
    (val a + val b = 0 ∨ pow2 (-126) ≤ |val a + val b| → (ieee true).add a b = (ieee false).add a b) ∧
    (val a - val b = 0 ∨ pow2 (-126) ≤ |val a - val b| → (ieee true).sub a b = (ieee false).sub a b) ∧
    (val a * val b = 0 ∨ pow2 (-126) ≤ |val a * val b| → (ieee true).mul a b = (ieee false).mul a b) := by
  have key : ∀ {a b : BitVec 32}, Plain a → Plain b → (val a + val b = 0 ∨ pow2 (-126) ≤ |val a + val b|) →
      add true a b = add false a b := by
    intro a b ha hb h
    unfold add
    rw [inp_plain ha, inp_plain hb, inp_plain ha, inp_plain hb]
    unfold add'
    rcases h with h | h
    · rw [if_pos h, if_pos h]
    · rw [rnd_plain true _ h]
  refine ⟨key ha hb, fun h => ?_, fun h => ?_⟩
  · refine key ha (b := opp b) ?_ ?_
    · unfold Plain opp; rw [mag_pack _ (mag_lt b)]; exact hb
    · have e : val (opp b) = -val b := seen_opp false b
      rwa [e, ← sub_eq_add_neg]
  · show mul true a b = mul false a b
    unfold mul
    rw [inp_plain ha, inp_plain hb, inp_plain ha, inp_plain hb]
    unfold mul'
    rcases h with h | h
    · have e : ∀ ftz s, rnd ftz s |val a * val b| = pack s 0 := by
        intro ftz s
        rw [h, abs_zero]
        unfold rnd
        rw [magOf_zero]
        split <;> rfl
      rw [e, e]
    · rw [rnd_plain true _ h]

/-- **C67**: `scvtf`, `vcvt.f32.s32`. -/
theorem C67_ofInt (ftz : Bool) (x : BitVec 32) : Rounded ((ieee ftz).ofInt x) x.toInt := by
  have := rounded_rnd (decide ((x.toInt : Rat) < 0)) (abs_nonneg _) (abs_toInt_lt x)
  rw [signed_abs] at this
  have e : rnd false (decide ((x.toInt : Rat) < 0)) |(x.toInt : Rat)| = ofInt x := by
    unfold ofInt rnd
    rw [show decide ((x.toInt : Rat) < 0) = decide (x.toInt < 0) by
      rw [decide_eq_decide]; exact_mod_cast Iff.rfl]
    rfl
  rwa [e] at this

/-! ## The transformations -/

/-- What `(x - c) * s + b` may be off by, with `t` for `x - c`: two units in the last place of the sum of the sizes of
the two terms, and what underflow can lose. -/
def affErr (ftz : Bool) (t s b : Rat) : Rat := (|t| * |s| + |b|) * pow2 (-22) + 2 * eta ftz * (|s| + 2)

theorem affErr_mono (ftz : Bool) {t t' : Rat} (s b : Rat) (h : |t| ≤ |t'|) : affErr ftz t s b ≤ affErr ftz t' s b := by
  unfold affErr
  have := mul_le_mul_of_nonneg_right (mul_le_mul_of_nonneg_right h (abs_nonneg s)) (pow2_pos (-22)).le
  linarith

/-- `(x - c) * s + b` for operands of the machine. -/
theorem C67_affine (ftz : Bool) {x c s b : BitVec 32} (hx : isFin x = true) (hc : isFin c = true)
    (hs : isFin s = true) (hb : isFin b = true) (h1 : |seen ftz x - seen ftz c| ≤ pow2 126)
    (h2 : |seen ftz x - seen ftz c| * |seen ftz s| + |seen ftz b| ≤ pow2 126) :
    isFin (add ftz (mul ftz (sub ftz x c) s) b) = true ∧
    |seen ftz (add ftz (mul ftz (sub ftz x c) s) b) - ((seen ftz x - seen ftz c) * seen ftz s + seen ftz b)| ≤
      affErr ftz (seen ftz x - seen ftz c) (seen ftz s) (seen ftz b) := by
  have e1 := eta_mul_le ftz hs
  have e2 := eta_le_one ftz
  have e3 := hundred_le
  have a1 := Acc.sub_self ftz hx hc (by linarith)
  have a2 := a1.mul hs (by omega) (by linarith [abs_nonneg (seen ftz b)])
  have a3 := a2.add ((Acc.self ftz hb).weaken (Nat.zero_le _)) (by omega) (by linarith)
  refine ⟨a3.fin, le_trans (a3.done3 (by omega)) (le_of_eq ?_)⟩
  unfold affErr
  ring

/-- **C67** for `Quantize`: the byte is the number cut to 0 .. 255, rounded down, up to the rounding errors. -/
theorem C67_quantize (ftz : Bool) {min offset scale x : BitVec 32} (hx : isFin x = true) (hc : isFin min = true)
    (hs : isFin scale = true) (hb : isFin offset = true) (h1 : |seen ftz x - seen ftz min| ≤ pow2 126)
    (h2 : |seen ftz x - seen ftz min| * |seen ftz scale| + |seen ftz offset| ≤ pow2 126) :
    ((Spec.quantizeF (ieee ftz) min offset scale x).toNat : Rat) ≤
      cutTo 0 255 ((seen ftz x - seen ftz min) * seen ftz scale + seen ftz offset) +
        affErr ftz (seen ftz x - seen ftz min) (seen ftz scale) (seen ftz offset) ∧
    cutTo 0 255 ((seen ftz x - seen ftz min) * seen ftz scale + seen ftz offset) -
        affErr ftz (seen ftz x - seen ftz min) (seen ftz scale) (seen ftz offset) - 1 <
      ((Spec.quantizeF (ieee ftz) min offset scale x).toNat : Rat) := by
  obtain ⟨a1, a2⟩ := C67_affine ftz hx hc hs hb h1 h2
  have e : Spec.quantizeF (ieee ftz) min offset scale x =
      Spec.byteOf (trunc (seen ftz (add ftz (mul ftz (sub ftz x min) scale) offset))) := by
    exact (congrArg Spec.byteOf (toInt_fin rounding_trunc ftz a1)).trans (byte_sat _)
  rw [e]
  exact byte_trunc a2

theorem toInt_byte (x : BitVec 8) : (BitVec.ofNat 32 x.toNat).toInt = x.toNat := by
  have := x.isLt
  rw [BitVec.toInt_eq_toNat_of_lt (by rw [BitVec.toNat_ofNat]; omega), BitVec.toNat_ofNat, Nat.mod_eq_of_lt (by omega)]

theorem seen_byte (ftz : Bool) (x : BitVec 8) : seen ftz (ofInt (BitVec.ofNat 32 x.toNat)) = (x.toNat : Rat) := by
  have := x.isLt
  rw [seen_ofInt ftz (by rw [toInt_byte]; omega), toInt_byte]; norm_num

/-- **C67** for `Dequantize`. -/
theorem C67_dequantize (ftz : Bool) {min offset scale : BitVec 32} (x : BitVec 8) (hc : isFin offset = true)
    (hs : isFin scale = true) (hb : isFin min = true) (h1 : |(x.toNat : Rat) - seen ftz offset| ≤ pow2 126)
    (h2 : |(x.toNat : Rat) - seen ftz offset| * |seen ftz scale| + |seen ftz min| ≤ pow2 126) :
    isFin (Spec.dequantizeF (ieee ftz) min offset scale x) = true ∧
    |seen ftz (Spec.dequantizeF (ieee ftz) min offset scale x) -
        (((x.toNat : Rat) - seen ftz offset) * seen ftz scale + seen ftz min)| ≤
      affErr ftz ((x.toNat : Rat) - seen ftz offset) (seen ftz scale) (seen ftz min) := by
  have := C67_affine ftz (x := ofInt (BitVec.ofNat 32 x.toNat)) (fin_ofInt _) hc hs hb
  rw [seen_byte] at this
  exact this h1 h2

/-- **C67**: `Dequantize` and then `Quantize`, with the same range, gives the byte or the byte below, as long as the
scales are inverse to each other up to the errors. -/
theorem C67_round_trip (ftz : Bool) {min offset scale inv : BitVec 32} (x : BitVec 8) (ho : isFin offset = true)
    (hs : isFin scale = true) (hm : isFin min = true) (hi : isFin inv = true) {t d : Rat}
    (ht : t = (x.toNat : Rat) - seen ftz offset)
    (hd : d = affErr ftz t (seen ftz scale) (seen ftz min)) (h1 : |t| ≤ pow2 126)
    (h2 : |t| * |seen ftz scale| + |seen ftz min| ≤ pow2 126) (h3 : |t| * |seen ftz scale| + d ≤ pow2 126)
    (h4 : (|t| * |seen ftz scale| + d) * |seen ftz inv| + |seen ftz offset| ≤ pow2 126)
    (h5 : |t| * |seen ftz scale * seen ftz inv - 1| + d * |seen ftz inv| +
      affErr ftz (|t| * |seen ftz scale| + d) (seen ftz inv) (seen ftz offset) < 1) :
    (Spec.quantizeF (ieee ftz) min offset inv (Spec.dequantizeF (ieee ftz) min offset scale x)).toNat = x.toNat ∨
    (Spec.quantizeF (ieee ftz) min offset inv (Spec.dequantizeF (ieee ftz) min offset scale x)).toNat + 1 = x.toNat := by
  obtain ⟨a1, a2⟩ := C67_dequantize ftz x ho hs hm (by rw [← ht]; exact h1) (by rw [← ht]; exact h2)
  rw [← ht, ← hd] at a2
  generalize Spec.dequantizeF (ieee ftz) min offset scale x = y at *
  have hI := abs_nonneg (seen ftz inv)
  have b1 : |seen ftz y - seen ftz min| ≤ |t| * |seen ftz scale| + d := by
    have := abs_add_le (seen ftz y - (t * seen ftz scale + seen ftz min)) (t * seen ftz scale)
    rw [show seen ftz y - (t * seen ftz scale + seen ftz min) + t * seen ftz scale = seen ftz y - seen ftz min by ring,
      abs_mul t] at this
    linarith
  have hd0 : 0 ≤ d := le_trans (abs_nonneg _) a2
  have b2 : 0 ≤ |t| * |seen ftz scale| + d := le_trans (abs_nonneg _) b1
  obtain ⟨c1, c2⟩ := C67_quantize ftz (min := min) (offset := offset) (scale := inv) a1 hm hi ho (by linarith)
    (by have := mul_le_mul_of_nonneg_right b1 hI; linarith)
  have c3 : affErr ftz (seen ftz y - seen ftz min) (seen ftz inv) (seen ftz offset) ≤
      affErr ftz (|t| * |seen ftz scale| + d) (seen ftz inv) (seen ftz offset) := by
    unfold affErr
    rw [abs_of_nonneg b2]
    have := mul_le_mul_of_nonneg_right (mul_le_mul_of_nonneg_right b1 hI) (pow2_pos (-22)).le
    linarith
  have c4 : |(seen ftz y - seen ftz min) * seen ftz inv + seen ftz offset - x.toNat| ≤
      |t| * |seen ftz scale * seen ftz inv - 1| + d * |seen ftz inv| := by
    have := abs_add_le ((seen ftz y - (t * seen ftz scale + seen ftz min)) * seen ftz inv)
      (t * (seen ftz scale * seen ftz inv - 1))
    rw [abs_mul _ (seen ftz inv), abs_mul t] at this
    have e : (seen ftz y - (t * seen ftz scale + seen ftz min)) * seen ftz inv +
        t * (seen ftz scale * seen ftz inv - 1) = (seen ftz y - seen ftz min) * seen ftz inv + seen ftz offset - x.toNat := by
      rw [show (x.toNat : Rat) = t + seen ftz offset by rw [ht]; ring]; ring
    rw [e] at this
    have := mul_le_mul_of_nonneg_right a2 hI
    linarith
  have c5 := le_trans (cutTo_lip 0 255 ((seen ftz y - seen ftz min) * seen ftz inv + seen ftz offset) x.toNat) c4
  have hx := x.isLt
  have c6 : cutTo 0 255 (x.toNat : Rat) = x.toNat := by
    unfold cutTo
    rw [min_eq_right (by exact_mod_cast (by omega : x.toNat ≤ 255)), max_eq_right (by positivity)]
  rw [c6, abs_le] at c5
  generalize (Spec.quantizeF (ieee ftz) min offset inv y).toNat = z at *
  have d1 : (z : Rat) < x.toNat + 1 := by linarith [c5.2]
  have d2 : (x.toNat : Rat) < z + 2 := by linarith [c5.1]
  have d1 : z < x.toNat + 1 := by exact_mod_cast d1
  have d2 : x.toNat < z + 2 := by exact_mod_cast d2
  omega

/-- What `Requantize` may be off by before it rounds to an integer. -/
def requantizeErr (ftz : Bool) (T s i : Rat) : Rat := T * pow2 (-21) + 2 * eta ftz * ((2 * |s| + 3) * |i| + 2)

theorem requantize_acc (ftz : Bool) {min offset scale min' inv x : BitVec 32} (h1 : isFin min = true)
    (h2 : isFin offset = true) (h3 : isFin scale = true) (h4 : isFin min' = true) (h5 : isFin inv = true) {B T : Rat}
    (hT : T = (|(x.toInt : Rat)| + |seen ftz offset|) * |seen ftz scale| + |seen ftz min - seen ftz min'|)
    (hB : B ≤ pow2 126)
    (g1 : |(x.toInt : Rat)| + |seen ftz offset| ≤ B) (g2 : T ≤ B) (g3 : T * |seen ftz inv| ≤ B)
    (g4 : |seen ftz scale| * |seen ftz inv| ≤ pow2 126) :
    Acc ftz (mul ftz (add ftz (mul ftz (sub ftz (ofInt x) offset) scale) (sub ftz min min')) inv)
      (((x.toInt - seen ftz offset) * seen ftz scale + (seen ftz min - seen ftz min')) * seen ftz inv)
      (T * |seen ftz inv|) 5 ((2 * |seen ftz scale| + 3) * |seen ftz inv| * eta ftz + eta ftz) := by
  have e1 := eta_mul_le ftz h3
  have e1' := eta_mul_le ftz h5
  have e2 := eta_le_one ftz
  have e3 := hundred_le
  have hS := abs_nonneg (seen ftz scale)
  have hM := abs_nonneg (seen ftz min - seen ftz min')
  have hX : 0 ≤ (|(x.toInt : Rat)| + |seen ftz offset|) * |seen ftz scale| :=
    mul_nonneg (add_nonneg (abs_nonneg _) (abs_nonneg _)) hS
  have g5 : eta ftz * (|seen ftz scale| * |seen ftz inv|) ≤ 1 := by
    have := mul_le_mul (eta_le ftz) g4 (mul_nonneg hS (abs_nonneg _)) (pow2_pos _).le
    rwa [← pow2_add, show pow2 (-126 + 126) = 1 by rw [pow2_eq]; norm_num] at this
  have a1 := (Acc.ofInt ftz x).sub ((Acc.self ftz h2).weaken (Nat.zero_le 1)) (by omega) (by linarith)
  have a2 := a1.mul h3 (by omega) (by linarith)
  have a3 := Acc.sub_self ftz h1 h4 (by linarith)
  have a4 := a2.add (a3.weaken (show 1 ≤ 3 by omega)) (by omega) (by linarith)
  rw [← hT] at a4
  have a5 := a4.mul h5 (by omega) (by linarith)
  have eu : ((eta ftz + 0 + eta ftz) * |seen ftz scale| + eta ftz + eta ftz + eta ftz) * |seen ftz inv| + eta ftz =
      (2 * |seen ftz scale| + 3) * |seen ftz inv| * eta ftz + eta ftz := by ring
  rw [← eu]
  exact a5

/-- **C67** for `Requantize` on 64-bit ARM: the byte is the number cut to 0 .. 255, rounded to the nearest integer, up
to the rounding errors. -/
theorem C67_requantize (ftz : Bool) {min offset scale min' offset' inv x : BitVec 32} (h1 : isFin min = true)
    (h2 : isFin offset = true) (h3 : isFin scale = true) (h4 : isFin min' = true) (h5 : isFin inv = true)
    (h6 : isFin offset' = true) {T : Rat}
    (hT : T = (|(x.toInt : Rat)| + |seen ftz offset|) * |seen ftz scale| + |seen ftz min - seen ftz min'|)
    (g1 : |(x.toInt : Rat)| + |seen ftz offset| ≤ pow2 126) (g2 : T ≤ pow2 126)
    (g3 : T * |seen ftz inv| + |seen ftz offset'| ≤ pow2 126) (g4 : |seen ftz scale| * |seen ftz inv| ≤ pow2 126) :
    |((Spec.requantizeF (ieee ftz) min offset scale min' offset' inv x).toNat : Rat) -
        cutTo 0 255 (((x.toInt - seen ftz offset) * seen ftz scale + (seen ftz min - seen ftz min')) * seen ftz inv +
          seen ftz offset')| ≤
      requantizeErr ftz (T * |seen ftz inv| + |seen ftz offset'|) (seen ftz scale) (seen ftz inv) + 1 / 2 := by
  have e1' := eta_mul_le ftz h5
  have e2 := eta_le_one ftz
  have e3 := hundred_le
  have hO := abs_nonneg (seen ftz offset')
  have g5 : eta ftz * (|seen ftz scale| * |seen ftz inv|) ≤ 1 := by
    have := mul_le_mul (eta_le ftz) g4 (mul_nonneg (abs_nonneg _) (abs_nonneg _)) (pow2_pos _).le
    rwa [← pow2_add, show pow2 (-126 + 126) = 1 by rw [pow2_eq]; norm_num] at this
  have a5 := requantize_acc ftz h1 h2 h3 h4 h5 hT (le_refl _) g1 g2 (by linarith) g4
  have a6 := a5.add ((Acc.self ftz h6).weaken (Nat.zero_le 5)) (by omega) (by linarith)
  have e : Spec.requantizeF (ieee ftz) min offset scale min' offset' inv x =
      Spec.byteOf (roundEven (seen ftz (add ftz (mul ftz (add ftz (mul ftz (sub ftz (ofInt x) offset) scale)
        (sub ftz min min')) inv) offset'))) := by
    exact (congrArg Spec.byteOf (toInt_fin rounding_even ftz a6.fin)).trans (byte_sat _)
  rw [e]
  refine byte_even (le_trans (a6.done (by omega)) (le_of_eq ?_))
  unfold requantizeErr
  ring

/-- **C67** for `Requantize` on 32-bit ARM, which leaves out the offset of the output and rounds to zero. -/
theorem C67_requantize32_partial (ftz : Bool) {min offset scale min' inv x : BitVec 32} (h1 : isFin min = true)
    (h2 : isFin offset = true) (h3 : isFin scale = true) (h4 : isFin min' = true) (h5 : isFin inv = true) {T : Rat}
    (hT : T = (|(x.toInt : Rat)| + |seen ftz offset|) * |seen ftz scale| + |seen ftz min - seen ftz min'|)
    (g1 : |(x.toInt : Rat)| + |seen ftz offset| ≤ pow2 126) (g2 : T ≤ pow2 126)
    (g3 : T * |seen ftz inv| ≤ pow2 126) (g4 : |seen ftz scale| * |seen ftz inv| ≤ pow2 126) :
    ((Spec.requantize32F (ieee ftz) min offset scale min' inv x).toNat : Rat) ≤
      cutTo 0 255 (((x.toInt - seen ftz offset) * seen ftz scale + (seen ftz min - seen ftz min')) * seen ftz inv) +
        requantizeErr ftz (T * |seen ftz inv|) (seen ftz scale) (seen ftz inv) ∧
    cutTo 0 255 (((x.toInt - seen ftz offset) * seen ftz scale + (seen ftz min - seen ftz min')) * seen ftz inv) -
        requantizeErr ftz (T * |seen ftz inv|) (seen ftz scale) (seen ftz inv) - 1 <
      ((Spec.requantize32F (ieee ftz) min offset scale min' inv x).toNat : Rat) := by
  have a5 := requantize_acc ftz h1 h2 h3 h4 h5 hT (le_refl _) g1 g2 g3 g4
  have e : Spec.requantize32F (ieee ftz) min offset scale min' inv x =
      Spec.byteOf (trunc (seen ftz (mul ftz (add ftz (mul ftz (sub ftz (ofInt x) offset) scale)
        (sub ftz min min')) inv))) := by
    exact (congrArg Spec.byteOf (toInt_fin rounding_trunc ftz a5.fin)).trans (byte_sat _)
  rw [e]
  refine byte_trunc (le_trans (a5.done (by omega)) ?_)
  unfold requantizeErr
  have := eta_pos ftz
  linarith

/-- **C67** for `BiasAdd`: the `int32` is the number, rounded to zero, up to the rounding errors. -/
theorem C67_bias_add (ftz : Bool) {min scale biasMin biasScale min' offset' inv : BitVec 32} (x b : BitVec 8)
    (h1 : isFin min = true) (h2 : isFin scale = true) (h3 : isFin biasMin = true) (h4 : isFin biasScale = true)
    (h5 : isFin min' = true) (h6 : isFin offset' = true) (h7 : isFin inv = true) {T : Rat}
    (hT : T = (x.toNat : Rat) * |seen ftz scale| + |seen ftz min| + ((b.toNat : Rat) * |seen ftz biasScale| +
      |seen ftz biasMin|) + |seen ftz min'|)
    (g1 : T ≤ pow2 126) (g2 : T * |seen ftz inv| + |seen ftz offset'| ≤ pow2 126) :
    |((Spec.biasAddF (ieee ftz) min scale biasMin biasScale min' offset' inv x b).toInt : Rat) -
        cutTo (-2147483648) 2147483647 (((x.toNat * seen ftz scale + seen ftz min) +
          (b.toNat * seen ftz biasScale + seen ftz biasMin) - seen ftz min') * seen ftz inv + seen ftz offset')| <
      (T * |seen ftz inv| + |seen ftz offset'|) * pow2 (-21) + 2 * eta ftz * (6 * |seen ftz inv| + 2) + 1 := by
  have e1 := eta_mul_le ftz h7
  have e2 := eta_le_one ftz
  have e2' := eta_pos ftz
  have e3 := hundred_le
  have n1 : 0 ≤ (x.toNat : Rat) * |seen ftz scale| := mul_nonneg (Nat.cast_nonneg _) (abs_nonneg _)
  have n2 : 0 ≤ (b.toNat : Rat) * |seen ftz biasScale| := mul_nonneg (Nat.cast_nonneg _) (abs_nonneg _)
  have n3 := abs_nonneg (seen ftz min)
  have n4 := abs_nonneg (seen ftz biasMin)
  have n5 := abs_nonneg (seen ftz min')
  have n6 := abs_nonneg (seen ftz offset')
  have real : ∀ {s m : BitVec 32} (x : BitVec 8), isFin s = true → isFin m = true →
      (x.toNat : Rat) * |seen ftz s| + |seen ftz m| ≤ pow2 126 →
      Acc ftz (add ftz (mul ftz (ofInt (BitVec.ofNat 32 x.toNat)) s) m) (x.toNat * seen ftz s + seen ftz m)
        (x.toNat * |seen ftz s| + |seen ftz m|) 2 (2 * eta ftz) := by
    intro s m x hs hm h
    have n7 := abs_nonneg (seen ftz m)
    have b0 := Acc.self ftz (fin_ofInt (BitVec.ofNat 32 x.toNat))
    rw [seen_byte, Nat.abs_cast] at b0
    have b1 := b0.mul hs (by omega) (by linarith)
    have b2 := b1.add ((Acc.self ftz hm).weaken (Nat.zero_le 1)) (by omega) (by linarith)
    have eu : 0 * |seen ftz s| + eta ftz + 0 + eta ftz = 2 * eta ftz := by ring
    rw [← eu]
    exact b2
  have a1 := real x h2 h1 (by linarith)
  have a2 := real b h4 h3 (by linarith)
  have a3 := a1.add a2 (by omega) (by linarith)
  have a4 := a3.sub ((Acc.self ftz h5).weaken (Nat.zero_le 3)) (by omega) (by linarith)
  rw [← hT] at a4
  have a5 := a4.mul h7 (by omega) (by linarith)
  have a6 := a5.add ((Acc.self ftz h6).weaken (Nat.zero_le 5)) (by omega) (by linarith)
  have e : (Spec.biasAddF (ieee ftz) min scale biasMin biasScale min' offset' inv x b).toInt = _ :=
    toInt_fin rounding_trunc ftz a6.fin
  rw [e]
  refine lt_of_lt_of_eq (int_trunc (a6.done (by omega))) ?_
  ring

/-- **C67** for the matrix products with floating-point results: the number is the sum times the scale, up to two
roundings. -/
theorem C67_float_result (ftz : Bool) {scale : BitVec 32} (sum : BitVec 32) (hs : isFin scale = true)
    (h : |(sum.toInt : Rat)| * |seen ftz scale| ≤ pow2 126) :
    isFin ((ieee ftz).mul ((ieee ftz).ofInt sum) scale) = true ∧
    |seen ftz ((ieee ftz).mul ((ieee ftz).ofInt sum) scale) - sum.toInt * seen ftz scale| ≤
      |(sum.toInt : Rat)| * |seen ftz scale| * pow2 (-22) + 2 * eta ftz * (|seen ftz scale| + 1) := by
  have e1 := eta_mul_le ftz hs
  have e3 := hundred_le
  have a1 := (Acc.ofInt ftz sum).mul hs (by omega) (by linarith)
  refine ⟨a1.fin, le_trans (a1.done3 (by omega)) (le_of_eq ?_)⟩
  ring

/-! ## Order -/

theorem byteOf_mono {x y : Int} (h : x ≤ y) : (Spec.byteOf x).toNat ≤ (Spec.byteOf y).toNat := by
  have := toNat_byteOf x
  have := toNat_byteOf y
  omega

/-- **C67**: `Quantize` keeps the order of the elements, whatever the rounding errors, overflow and infinities
included. -/
theorem C67_quantize_order (ftz : Bool) {min offset scale x y : BitVec 32} (hm : isFin min = true)
    (hs : isFin scale = true) (ho : isFin offset = true) (hp : 0 < seen ftz scale) (h : Le x y) :
    (Spec.quantizeF (ieee ftz) min offset scale x).toNat ≤ (Spec.quantizeF (ieee ftz) min offset scale y).toNat :=
  byteOf_mono (toInt_mono (fun _ _ => trunc_mono) (add_mono ftz (mul_mono ftz (sub_mono ftz h hm) hs hp) ho))

/-- **C67**: so does `Dequantize`. -/
theorem C67_dequantize_order (ftz : Bool) {min offset scale : BitVec 32} {x y : BitVec 8} (hm : isFin min = true)
    (hs : isFin scale = true) (ho : isFin offset = true) (hp : 0 < seen ftz scale) (h : x.toNat ≤ y.toNat) :
    Le (Spec.dequantizeF (ieee ftz) min offset scale x) (Spec.dequantizeF (ieee ftz) min offset scale y) :=
  add_mono ftz (mul_mono ftz (sub_mono ftz (ofInt_mono (by rw [toInt_byte, toInt_byte]; omega)) ho) hs hp) hm

/-- **C67**: so does `Requantize`, on both architectures. -/
theorem C67_requantize_order (ftz : Bool) {min offset scale min' offset' inv x y : BitVec 32} (h1 : isFin min = true)
    (h2 : isFin offset = true) (h3 : isFin scale = true) (h4 : isFin min' = true) (h5 : isFin inv = true)
    (h6 : isFin offset' = true) (hp : 0 < seen ftz scale) (hp' : 0 < seen ftz inv)
    (hd : |seen ftz min - seen ftz min'| ≤ pow2 126) (h : x.toInt ≤ y.toInt) :
    (Spec.requantizeF (ieee ftz) min offset scale min' offset' inv x).toNat ≤
      (Spec.requantizeF (ieee ftz) min offset scale min' offset' inv y).toNat ∧
    (Spec.requantize32F (ieee ftz) min offset scale min' inv x).toNat ≤
      (Spec.requantize32F (ieee ftz) min offset scale min' inv y).toNat := by
  have hf := (Acc.sub_self ftz h1 h4 (by linarith [hundred_le])).fin
  have h7 := mul_mono ftz (add_mono ftz (mul_mono ftz (sub_mono ftz (ofInt_mono h) h2) h3 hp) hf) h5 hp'
  exact ⟨byteOf_mono (toInt_mono (fun _ _ => roundEven_mono) (add_mono ftz h7 h6)),
    byteOf_mono (toInt_mono (fun _ _ => trunc_mono) h7)⟩

/-! ## What is not a number -/

theorem add_nan (ftz : Bool) {a : BitVec 32} (b : BitVec 32) (h : isNaN a = true) : isNaN (add ftz a b) = true := by
  have hi : inp ftz a = a := by
    refine inp_plain (Or.inr ?_) ftz
    unfold isNaN infBits at h
    rw [decide_eq_true_eq] at h
    omega
  unfold add add'
  rw [hi, h, Bool.true_or, if_pos rfl]
  decide

theorem mul_nan (ftz : Bool) {a : BitVec 32} (b : BitVec 32) (h : isNaN a = true) : isNaN (mul ftz a b) = true := by
  have hi : inp ftz a = a := by
    refine inp_plain (Or.inr ?_) ftz
    unfold isNaN infBits at h
    rw [decide_eq_true_eq] at h
    omega
  unfold mul mul'
  rw [hi, h, Bool.true_or, if_pos rfl]
  decide

/-- **C67**: `Quantize` stores 0 for a NaN. -/
theorem C67_quantize_nan (ftz : Bool) (min offset scale : BitVec 32) {x : BitVec 32} (h : isNaN x = true) :
    Spec.quantizeF (ieee ftz) min offset scale x = 0 := by
  have h1 := add_nan ftz offset (mul_nan ftz scale (add_nan ftz (opp min) h))
  have h2 : toInt trunc (add ftz (mul ftz (sub ftz x min) scale) offset) = 0 := by
    unfold toInt
    exact if_pos h1
  show Spec.byteOf (toInt trunc (add ftz (mul ftz (sub ftz x min) scale) offset)).toInt = 0
  rw [h2]
  decide

theorem inp_inf (ftz : Bool) {a : BitVec 32} (h : isInf a = true) : inp ftz a = a := by
  refine inp_plain (Or.inr ?_) ftz
  unfold isInf infBits at h
  rw [decide_eq_true_eq] at h
  omega

theorem inf_not {a : BitVec 32} (h : isInf a = true) : isNaN a = false ∧ isFin a = false := by
  unfold isInf at h
  unfold isNaN isFin
  rw [decide_eq_true_eq] at h
  rw [h]
  decide

theorem add_inf_fin (ftz : Bool) {a b : BitVec 32} (ha : isInf a = true) (hb : isFin b = true) : add ftz a b = a := by
  have h := fin_not (inp_fin ftz hb)
  unfold add add'
  rw [inp_inf ftz ha, (inf_not ha).1, h.1, h.2, ha]
  rfl

theorem add_inf_inf (ftz : Bool) {a b : BitVec 32} (ha : isInf a = true) (hb : isInf b = true) (h : neg b ≠ neg a) :
    isNaN (add ftz a b) = true := by
  unfold add add'
  rw [inp_inf ftz ha, inp_inf ftz hb, (inf_not ha).1, (inf_not hb).1, ha, hb, bne_iff_ne.2 (Ne.symm h)]
  show isNaN qnan = true
  decide

theorem mul_inf_pos (ftz : Bool) {a s : BitVec 32} (ha : isInf a = true) (hs : isFin s = true) (hp : 0 < seen ftz s) :
    isInf (mul ftz a s) = true ∧ neg (mul ftz a s) = neg a := by
  have h := fin_not (inp_fin ftz hs)
  have ha' : mag a = infBits := of_decide_eq_true ha
  have hn : neg (inp ftz s) = false := by
    by_contra hc
    rw [Bool.not_eq_false] at hc
    unfold seen val at hp
    rw [if_pos hc] at hp
    linarith [magVal_nonneg (mag (inp ftz s))]
  have hm : mag (inp ftz s) ≠ 0 := by
    intro hc
    unfold seen val at hp
    rw [hn, hc] at hp
    revert hp
    decide +kernel
  unfold mul mul'
  rw [inp_inf ftz ha, (inf_not ha).1, h.1, ha, Bool.true_or, Bool.false_or, if_neg (by decide), if_pos rfl, hn,
    if_neg (by rw [ha']; exact fun hc => hc.elim (by decide) hm), Bool.bne_false]
  refine ⟨?_, neg_pack _ (by decide)⟩
  unfold isInf
  rw [mag_pack _ (by decide)]
  decide

theorem toInt_inf {y : BitVec 32} (h : isInf y = true) :
    Spec.byteOf (toInt trunc y).toInt = if neg y then 0 else 255 := by
  unfold toInt
  rw [(inf_not h).1, h, if_neg (by decide), if_pos rfl]
  cases neg y <;> decide

/-- **C67**: an infinity is stored as the end of the range on its side; if the range itself is infinite on that side, the
difference is no number and 0 is stored. -/
theorem C67_quantize_inf (ftz : Bool) {min offset scale x : BitVec 32} (h : isInf x = true) :
    (isInf min = true → neg min = neg x → Spec.quantizeF (ieee ftz) min offset scale x = 0) ∧
    (isFin min = true → isFin scale = true → 0 < seen ftz scale → isInf offset = true → neg offset ≠ neg x →
      Spec.quantizeF (ieee ftz) min offset scale x = 0) ∧
    (isFin min = true → isFin scale = true → 0 < seen ftz scale → isFin offset = true →
      Spec.quantizeF (ieee ftz) min offset scale x = if neg x then 0 else 255) := by
  have nan : ∀ y, isNaN y = true → Spec.byteOf (toInt trunc y).toInt = 0 := by
    intro y hy
    have : toInt trunc y = 0 := if_pos hy
    rw [this]
    decide
  refine ⟨fun h1 h2 => ?_, fun h1 h2 h3 h4 h5 => ?_, fun h1 h2 h3 h4 => ?_⟩
  · have hi : isInf (opp min) = true := by
      have h1' : mag min = infBits := of_decide_eq_true h1
      unfold opp isInf
      rw [mag_pack _ (by rw [h1']; decide), h1']
      decide
    have hn : neg (opp min) ≠ neg x := by
      have h1' : mag min = infBits := of_decide_eq_true h1
      unfold opp
      rw [neg_pack _ (by rw [h1']; decide), h2]
      cases neg x <;> decide
    exact nan _ (add_nan ftz offset (mul_nan ftz scale (add_inf_inf ftz h hi hn)))
  · have a := mul_inf_pos ftz h h2 h3
    rw [← add_inf_fin ftz h (opp_fin h1)] at a h5
    exact nan _ (add_inf_inf ftz a.1 h4 (fun hc => h5 (hc.trans a.2)))
  · have a := mul_inf_pos ftz h h2 h3
    have e : sub ftz x min = x := add_inf_fin ftz h (opp_fin h1)
    have := toInt_inf a.1
    rw [a.2] at this
    rw [← this]
    show Spec.byteOf (toInt trunc (add ftz (mul ftz (sub ftz x min) scale) offset)).toInt = _
    rw [e, add_inf_fin ftz a.1 h4]

/-- +inf is stored as 255 when the range is finite, and as 0 when the start of the range is +inf too. -/
example : Spec.quantizeF (ieee false) 0x3F800000#32 0#32 0x3F800000#32 0x7F800000#32 = 255 ∧
    Spec.quantizeF (ieee false) 0x7F800000#32 0#32 0x3F800000#32 0x7F800000#32 = 0 :=
  ⟨(C67_quantize_inf false (by decide)).2.2 (by decide) (by decide) (by decide +kernel) (by decide),
    (C67_quantize_inf false (by decide)).1 (by decide) (by decide)⟩

end Gemmlowp.F32

namespace Gemmlowp.Meta

open MetaAsm F32

/-! ## In memory -/

section
variable (e : TEnv) (mem : Int → BitVec 8) {count input output middle : Nat}

/-- **C67** for a run of `Quantize`, on 64-bit ARM and on 32-bit ARM. -/
theorem C67_quantize_run (p : Quantize) (hc : 0 < count) (hr : Allowed e.readable input (4 * count))
    (hw : Allowed e.writable output count) (nc : NoClobber input output 4 1 count) (ftz : Bool) (hf : e.f = ieee ftz)
    (h1 : isFin p.rangeMin = true) (h2 : isFin p.rangeScale = true) (h3 : isFin p.rangeOffset = true) :
    ∃ l, (if ftz then quantize1D32 else quantize1D) e p mem 16 count input output = .ok l ∧
      (∀ i : Nat, i < count → ∀ x t v : Rat, isFin (word mem ((input : Int) + (4 * i : Nat))) = true →
        x = seen ftz (word mem ((input : Int) + (4 * i : Nat))) → t = x - seen ftz p.rangeMin → |t| ≤ pow2 126 →
        |t| * |seen ftz p.rangeScale| + |seen ftz p.rangeOffset| ≤ pow2 126 →
        v = t * seen ftz p.rangeScale + seen ftz p.rangeOffset →
        ((MetaAsm.memAfter l mem ((output : Int) + i)).toNat : Rat) ≤
          cutTo 0 255 v + affErr ftz t (seen ftz p.rangeScale) (seen ftz p.rangeOffset) ∧
        cutTo 0 255 v - affErr ftz t (seen ftz p.rangeScale) (seen ftz p.rangeOffset) - 1 <
          ((MetaAsm.memAfter l mem ((output : Int) + i)).toNat : Rat)) ∧
      ∀ a : Int, a < output ∨ (output : Int) + count ≤ a → MetaAsm.memAfter l mem a = mem a := by
  have : ∃ l, (if ftz then quantize1D32 else quantize1D) e p mem 16 count input output = .ok l ∧
      (∀ i : Nat, i < count → MetaAsm.memAfter l mem ((output : Int) + i) =
        Spec.quantizeF e.f p.rangeMin p.rangeOffset p.rangeScale (word mem ((input : Int) + (4 * i : Nat)))) ∧
      ∀ a : Int, a < output ∨ (output : Int) + count ≤ a → MetaAsm.memAfter l mem a = mem a := by
    cases ftz
    · exact C64_quantize e mem p hc hr hw nc
    · exact C65_quantize e mem p hc hr hw nc
  obtain ⟨l, a1, a2, a3⟩ := this
  refine ⟨l, a1, fun i hi x t v hx ex et g1 g2 ev => ?_, a3⟩
  subst ev et ex
  rw [a2 i hi, hf]
  exact C67_quantize ftz hx h1 h2 h3 g1 g2

/-- **C67** for a run of `Dequantize`. -/
theorem C67_dequantize_run (p : Dequantize) (hc : 0 < count) (hr : Allowed e.readable input count)
    (hw : Allowed e.writable output (4 * count)) (nc : NoClobber input output 1 4 count) (ftz : Bool)
    (hf : e.f = ieee ftz)
    (h1 : isFin p.rangeMin = true) (h2 : isFin p.rangeScale = true) (h3 : isFin p.rangeOffset = true) :
    ∃ l, (if ftz then dequantize1D32 else dequantize1D) e p mem 16 count input output = .ok l ∧
      (∀ i : Nat, i < count → word (MetaAsm.memAfter l mem) ((output : Int) + (4 * i : Nat)) =
        Spec.dequantizeF (ieee ftz) p.rangeMin p.rangeOffset p.rangeScale (mem ((input : Int) + i))) ∧
      (∀ i : Nat, i < count → ∀ t : Rat, t = (mem ((input : Int) + i)).toNat - seen ftz p.rangeOffset →
        |t| ≤ pow2 126 → |t| * |seen ftz p.rangeScale| + |seen ftz p.rangeMin| ≤ pow2 126 →
        isFin (word (MetaAsm.memAfter l mem) ((output : Int) + (4 * i : Nat))) = true ∧
        |seen ftz (word (MetaAsm.memAfter l mem) ((output : Int) + (4 * i : Nat))) -
            (t * seen ftz p.rangeScale + seen ftz p.rangeMin)| ≤
          affErr ftz t (seen ftz p.rangeScale) (seen ftz p.rangeMin)) ∧
      ∀ a : Int, a < output ∨ (output : Int) + (4 * count : Nat) ≤ a → MetaAsm.memAfter l mem a = mem a := by
  have : ∃ l, (if ftz then dequantize1D32 else dequantize1D) e p mem 16 count input output = .ok l ∧
      (∀ i : Nat, i < count → word (MetaAsm.memAfter l mem) ((output : Int) + (4 * i : Nat)) =
        Spec.dequantizeF e.f p.rangeMin p.rangeOffset p.rangeScale (mem ((input : Int) + i))) ∧
      ∀ a : Int, a < output ∨ (output : Int) + (4 * count : Nat) ≤ a → MetaAsm.memAfter l mem a = mem a := by
    cases ftz
    · exact C64_dequantize e mem p hc hr hw nc
    · exact C65_dequantize e mem p hc hr hw nc
  obtain ⟨l, a1, a2, a3⟩ := this
  rw [hf] at a2
  refine ⟨l, a1, a2, fun i hi t et g1 g2 => ?_, a3⟩
  subst et
  rw [a2 i hi]
  exact C67_dequantize ftz _ h3 h2 h1 g1 g2

/-- **C67** for a run of `Requantize` on 64-bit ARM. -/
theorem C67_requantize_run (p : Requantize) (hc : 0 < count) (hr : Allowed e.readable input (4 * count))
    (hw : Allowed e.writable output count) (nc : NoClobber input output 4 1 count) (hf : e.f = ieee false)
    (h1 : isFin p.inputRangeMin = true) (h2 : isFin p.inputRangeOffset = true) (h3 : isFin p.inputRangeScale = true)
    (h4 : isFin p.outputRangeMin = true) (h5 : isFin p.oneOverOutputRangeScale = true)
    (h6 : isFin p.outputRangeOffset = true) :
    ∃ l, requantize1D e p mem 16 count input output = .ok l ∧
      (∀ i : Nat, i < count → ∀ x T : Rat, x = (word mem ((input : Int) + (4 * i : Nat))).toInt →
        T = (|x| + |val p.inputRangeOffset|) * |val p.inputRangeScale| + |val p.inputRangeMin - val p.outputRangeMin| →
        |x| + |val p.inputRangeOffset| ≤ pow2 126 → T ≤ pow2 126 →
        T * |val p.oneOverOutputRangeScale| + |val p.outputRangeOffset| ≤ pow2 126 →
        |val p.inputRangeScale| * |val p.oneOverOutputRangeScale| ≤ pow2 126 →
        |((MetaAsm.memAfter l mem ((output : Int) + i)).toNat : Rat) -
            cutTo 0 255 (((x - val p.inputRangeOffset) * val p.inputRangeScale +
              (val p.inputRangeMin - val p.outputRangeMin)) * val p.oneOverOutputRangeScale + val p.outputRangeOffset)| ≤
          requantizeErr false (T * |val p.oneOverOutputRangeScale| + |val p.outputRangeOffset|) (val p.inputRangeScale)
            (val p.oneOverOutputRangeScale) + 1 / 2) ∧
      ∀ a : Int, a < output ∨ (output : Int) + count ≤ a → MetaAsm.memAfter l mem a = mem a := by
  obtain ⟨l, a1, a2, a3⟩ := C64_requantize e mem p hc hr hw nc
  refine ⟨l, a1, fun i hi x T ex eT g1 g2 g3 g4 => ?_, a3⟩
  subst ex
  rw [a2 i hi, hf]
  exact C67_requantize false h1 h2 h3 h4 h5 h6 eT g1 g2 g3 g4

/-- **C67** for a run of `Dequantize` and then a run of `Quantize` on its result: every byte comes back, or the byte
below it. -/
theorem C67_round_trip_run (p : Dequantize) (inv : BitVec 32) (hc : 0 < count) (hr : Allowed e.readable input count)
    (hm : Allowed e.writable middle (4 * count)) (hm' : Allowed e.readable middle (4 * count))
    (hw : Allowed e.writable output count)
    (nc : NoClobber input middle 1 4 count) (nc' : NoClobber middle output 4 1 count) (ftz : Bool) (hf : e.f = ieee ftz)
    (h1 : isFin p.rangeMin = true) (h2 : isFin p.rangeScale = true) (h3 : isFin p.rangeOffset = true)
    (h4 : isFin inv = true) {d B : Rat}
    (hB : B = (255 + |seen ftz p.rangeOffset|)) (hd : d = affErr ftz B (seen ftz p.rangeScale) (seen ftz p.rangeMin))
    (g1 : B ≤ pow2 126) (g2 : B * |seen ftz p.rangeScale| + |seen ftz p.rangeMin| ≤ pow2 126)
    (g3 : B * |seen ftz p.rangeScale| + d ≤ pow2 126)
    (g4 : (B * |seen ftz p.rangeScale| + d) * |seen ftz inv| + |seen ftz p.rangeOffset| ≤ pow2 126)
    (g5 : B * |seen ftz p.rangeScale * seen ftz inv - 1| + d * |seen ftz inv| +
      affErr ftz (B * |seen ftz p.rangeScale| + d) (seen ftz inv) (seen ftz p.rangeOffset) < 1) :
    ∃ l l', (if ftz then dequantize1D32 else dequantize1D) e p mem 16 count input middle = .ok l ∧
      (if ftz then quantize1D32 else quantize1D) e ⟨p.rangeMin, p.rangeOffset, inv⟩ (MetaAsm.memAfter l mem) 16 count middle output
        = .ok l' ∧
      ∀ i : Nat, i < count →
        (MetaAsm.memAfter l' (MetaAsm.memAfter l mem) ((output : Int) + i)).toNat = (mem ((input : Int) + i)).toNat ∨
        (MetaAsm.memAfter l' (MetaAsm.memAfter l mem) ((output : Int) + i)).toNat + 1 = (mem ((input : Int) + i)).toNat := by
  obtain ⟨l, a1, a2, -⟩ := C67_dequantize_run e mem p hc hr hm nc ftz hf h1 h2 h3
  have : ∃ l', (if ftz then quantize1D32 else quantize1D) e ⟨p.rangeMin, p.rangeOffset, inv⟩ (MetaAsm.memAfter l mem) 16 count middle
      output = .ok l' ∧
      (∀ i : Nat, i < count → MetaAsm.memAfter l' (MetaAsm.memAfter l mem) ((output : Int) + i) =
        Spec.quantizeF e.f p.rangeMin p.rangeOffset inv (word (MetaAsm.memAfter l mem) ((middle : Int) + (4 * i : Nat)))) ∧
      ∀ a : Int, a < output ∨ (output : Int) + count ≤ a → MetaAsm.memAfter l' (MetaAsm.memAfter l mem) a = MetaAsm.memAfter l mem a := by
    cases ftz
    · exact C64_quantize e _ ⟨p.rangeMin, p.rangeOffset, inv⟩ hc hm' hw nc'
    · exact C65_quantize e _ ⟨p.rangeMin, p.rangeOffset, inv⟩ hc hm' hw nc'
  obtain ⟨l', b1, b2, -⟩ := this
  refine ⟨l, l', a1, b1, fun i hi => ?_⟩
  rw [b2 i hi, a2 i hi, hf]
  have hS := abs_nonneg (seen ftz p.rangeScale)
  have hI := abs_nonneg (seen ftz inv)
  have hx := (mem ((input : Int) + i)).isLt
  have ht : |((mem ((input : Int) + i)).toNat : Rat) - seen ftz p.rangeOffset| ≤ B := by
    refine le_trans (abs_sub _ _) ?_
    rw [Nat.abs_cast, hB]
    have : ((mem ((input : Int) + i)).toNat : Rat) ≤ 255 := by exact_mod_cast (by omega)
    linarith
  have hB0 : 0 ≤ B := le_trans (abs_nonneg _) ht
  generalize htt : ((mem ((input : Int) + i)).toNat : Rat) - seen ftz p.rangeOffset = t at *
  have k1 := mul_le_mul_of_nonneg_right ht hS
  have kd : affErr ftz t (seen ftz p.rangeScale) (seen ftz p.rangeMin) ≤ d := by
    rw [hd]
    unfold affErr
    rw [abs_of_nonneg hB0]
    have := mul_le_mul_of_nonneg_right k1 (pow2_pos (-22)).le
    linarith
  have kd0 : 0 ≤ affErr ftz t (seen ftz p.rangeScale) (seen ftz p.rangeMin) := by
    unfold affErr
    have := eta_pos ftz
    have := pow2_pos (-22)
    positivity
  have k2 := mul_le_mul_of_nonneg_right (add_le_add k1 kd) hI
  have k3 := mul_le_mul_of_nonneg_right ht (abs_nonneg (seen ftz p.rangeScale * seen ftz inv - 1))
  have k4 := mul_le_mul_of_nonneg_right kd hI
  have n1 : 0 ≤ |t| * |seen ftz p.rangeScale| := mul_nonneg (abs_nonneg _) hS
  refine C67_round_trip ftz (mem ((input : Int) + i)) h3 h2 h1 h4 htt.symm rfl (by linarith) (by linarith) (by linarith)
    (by linarith) ?_
  have k5 : affErr ftz (|t| * |seen ftz p.rangeScale| + affErr ftz t (seen ftz p.rangeScale) (seen ftz p.rangeMin))
      (seen ftz inv) (seen ftz p.rangeOffset) ≤ affErr ftz (B * |seen ftz p.rangeScale| + d) (seen ftz inv)
      (seen ftz p.rangeOffset) := by
    refine affErr_mono ftz _ _ ?_
    rw [abs_of_nonneg (show 0 ≤ |t| * |seen ftz p.rangeScale| +
        affErr ftz t (seen ftz p.rangeScale) (seen ftz p.rangeMin) by linarith),
      abs_of_nonneg (show 0 ≤ B * |seen ftz p.rangeScale| + d by linarith)]
    linarith
  linarith

end

/-- **C67** for `multi_thread_gemm_f`: every entry of the result is the sum times `result_offset`, up to two roundings,
when the sums fit in 32 bits. -/
theorem C67_gemm_f {e : Env} {hw maxThreads : Int} {scratch lhs rhs m n k result : Nat} {lo ro : Int} {scale : BitVec 32}
    (ha : e.Aligned) (hf : OffsetsFit 0 k lo ro) (hpm : 0 < m) (hpn : 0 < n)
    (hk : SizesOk n k) (hint : m * n * k ≤ 2147483647)
    (hL : ∀ i, i < m → ∀ q, q < k → e.readable (lhs + i * k + q : Nat) = true)
    (hR : ∀ i, i < n → ∀ q, q < k → e.readable (rhs + i * k + q : Nat) = true)
    (hb : ∃ q, scratch = e.base + 32 * q)
    (hcap : (scratch : Int) + max 1 (resolveMaxThreads hw maxThreads) * 1048576 ≤ e.cap) (s : Int → BitVec 8)
    (ftz : Bool) (hu : e.f = ieee ftz) (hs : isFin scale = true) (hsz : |seen ftz scale| ≤ pow2 95) :
    ∃ ls, multiThreadGemm (f32Legacy e scale) hw maxThreads scratch lhs rhs m n k lo ro result s = .ok ls ∧
      (∀ x ∈ ls.flatten, ∃ i j, i < m ∧ j < n ∧ x.1 = result + i * (n * 4) + j * 4) ∧
      ∀ i j, i < m → j < n → ∃ y, (result + i * (n * 4) + j * 4, y) ∈ ls.flatten ∧
        ∀ z : Int, z = (sumTo k fun q => ((e.mem (lhs + i * k + q : Nat)).toNat + lo) *
            ((e.mem (rhs + j * k + q : Nat)).toNat + ro)) → InI32 z →
          isFin y = true ∧ |seen ftz y - z * seen ftz scale| ≤
            |(z : Rat)| * |seen ftz scale| * pow2 (-22) + 2 * eta ftz * (|seen ftz scale| + 1) := by
  obtain ⟨ls, e1, h1⟩ := C62_legacy_f32 (scale := scale) ha hf hpm hpn hk hint hL hR hb hcap (result := result) s
  refine ⟨ls, e1, fun x hx => ?_, fun i j hi hj => ⟨_, (h1 _).2 ⟨i, j, hi, hj, rfl⟩, fun z hz hzi => ?_⟩⟩
  · obtain ⟨i, j, hi, hj, rfl⟩ := (h1 x).1 hx
    exact ⟨i, j, hi, hj, rfl⟩
  · rw [← hz, hu]
    have ez : (BitVec.ofInt 32 z).toInt = z := by
      unfold InI32 at hzi
      rw [BitVec.toInt_ofInt, Int.bmod_def]; omega
    have := C67_float_result ftz (BitVec.ofInt 32 z) hs
    rw [ez] at this
    refine this ?_
    have hz' : |(z : Rat)| ≤ pow2 31 := by
      unfold InI32 at hzi
      rw [show pow2 31 = 2147483648 by rw [pow2_eq]; norm_num, abs_le]
      constructor
      · exact_mod_cast (by omega : (-2147483648 : Int) ≤ z)
      · exact_mod_cast (by omega : z ≤ 2147483648)
    have := mul_le_mul hz' hsz (abs_nonneg _) (pow2_pos _).le
    rwa [← pow2_add] at this

/-! ## Where it fails -/

/-- The parameters of meta/test_transform_correctness.cc:207-211, 225-229: from -100 to 100 (0xc2c80000 is -100.0f,
0x3fa33333 is 255.0f / 200, 0x3f48c8c9 is 200.0f / 255). -/
def testQuantize : Quantize := ⟨0xc2c80000#32, 0, 0x3fa33333#32⟩
def testDequantize : Dequantize := ⟨0xc2c80000#32, 0, 0x3f48c8c9#32⟩

/-- **C67**, finding F41: `Quantize` after `Dequantize`, with these parameters, does not give back 42 of the 256 bytes,
among them 2, which becomes 1; C67_round_trip_run has that it is the byte below. -/
theorem C67_round_trip_fails : ((List.range 256).filter fun x =>
    (Spec.quantizeF (ieee false) testQuantize.rangeMin testQuantize.rangeOffset testQuantize.rangeScale
      (Spec.dequantizeF (ieee false) testDequantize.rangeMin testDequantize.rangeOffset testDequantize.rangeScale
        (BitVec.ofNat 8 x))).toNat ≠ x).length = 42 ∧
    Spec.quantizeF (ieee false) testQuantize.rangeMin testQuantize.rangeOffset testQuantize.rangeScale
      (Spec.dequantizeF (ieee false) testDequantize.rangeMin testDequantize.rangeOffset testDequantize.rangeScale 2) = 1 := by
  decide +kernel

/-- The parameters of meta/test_transform_correctness.cc:184-193: 0x33480000 is 200.0f / 2^32 and 0xcf000000 is
-2^31. -/
def testRequantize : Requantize := ⟨0xc2c80000#32, 0xcf000000#32, 0x33480000#32, 0xc2c80000#32, 0, 0x3fa33333#32⟩

/-- **C67**, finding F42: for the first element of meta/test_transform_correctness.cc, -2000000000, the number is
8.75...; the code for 64-bit ARM stores 9, that for 32-bit ARM 8. -/
theorem C67_requantize_test_fails :
    Spec.requantizeF (ieee false) testRequantize.inputRangeMin testRequantize.inputRangeOffset
      testRequantize.inputRangeScale testRequantize.outputRangeMin testRequantize.outputRangeOffset
      testRequantize.oneOverOutputRangeScale (BitVec.ofInt 32 (-2000000000)) = 9 ∧
    Spec.requantize32F (ieee true) testRequantize.inputRangeMin testRequantize.inputRangeOffset
      testRequantize.inputRangeScale testRequantize.outputRangeMin testRequantize.oneOverOutputRangeScale
      (BitVec.ofInt 32 (-2000000000)) = 8 := by
  decide +kernel

/-- This unit has the values that C65_requantize_fails needs. -/
theorem someFloats_ieee (ftz : Bool) : SomeFloats (ieee ftz) := by
  cases ftz <;> constructor <;> decide +kernel

/-! ## Cases -/

theorem pow2_126 : pow2 126 = 85070591730234615865843651857942052864 := by rw [pow2_eq]; norm_num

/-- The test's parameters: `C67_round_trip_run` applies. -/
example (e : TEnv) (hf : e.f = ieee false) (mem : Int → BitVec 8) (hr : Allowed e.readable 1000 37)
    (hm : Allowed e.writable 2000 148) (hm' : Allowed e.readable 2000 148) (hw : Allowed e.writable 3000 37) :
    ∃ l l', dequantize1D e testDequantize mem 16 37 1000 2000 = .ok l ∧
      quantize1D e testQuantize (MetaAsm.memAfter l mem) 16 37 2000 3000 = .ok l' ∧
      ∀ i : Nat, i < 37 →
        (MetaAsm.memAfter l' (MetaAsm.memAfter l mem) ((3000 : Nat) + i)).toNat = (mem ((1000 : Nat) + i)).toNat ∨
        (MetaAsm.memAfter l' (MetaAsm.memAfter l mem) ((3000 : Nat) + i)).toNat + 1 = (mem ((1000 : Nat) + i)).toNat := by
  have v1 : seen false testDequantize.rangeScale = 13158601 / 16777216 := by decide +kernel
  have v2 : seen false testDequantize.rangeMin = -100 := by decide +kernel
  have v3 : seen false testDequantize.rangeOffset = 0 := by decide +kernel
  have v4 : seen false 0x3fa33333#32 = 10695475 / 8388608 := by decide +kernel
  have v5 : eta false = 1 / 2 ^ 150 := by unfold eta; rw [if_neg (by decide), pow2_eq]; norm_num
  have v6 : pow2 (-22) = 1 / 4194304 := by rw [pow2_eq]; norm_num
  have h := C67_round_trip_run (count := 37) (input := 1000) (output := 3000) (middle := 2000) e mem testDequantize
    0x3fa33333#32 (by omega) hr hm hm' hw (by unfold NoClobber; omega) (by unfold NoClobber; omega) false hf
    (by decide) (by decide) (by decide) (by decide) rfl rfl
  simp only [affErr, v1, v2, v3, v4, v5, v6, pow2_126, Bool.false_eq_true, if_false] at h
  exact h (by norm_num) (by norm_num [abs_of_pos, abs_of_neg]) (by norm_num [abs_of_pos, abs_of_neg])
    (by norm_num [abs_of_pos, abs_of_neg]) (by norm_num [abs_of_pos, abs_of_neg])

/-- The element 12.5 (0x41480000) with these parameters, on 32-bit ARM: `C67_quantize` applies, and the byte is at most
143.4375 + 0.0001 and more than 142.4374. -/
example : ((Spec.quantizeF (ieee true) testQuantize.rangeMin testQuantize.rangeOffset testQuantize.rangeScale
      0x41480000#32).toNat : Rat) ≤ 143.4376 ∧
    142.4373 < ((Spec.quantizeF (ieee true) testQuantize.rangeMin testQuantize.rangeOffset testQuantize.rangeScale
      0x41480000#32).toNat : Rat) := by
  have v1 : seen true testQuantize.rangeScale = 10695475 / 8388608 := by decide +kernel
  have v2 : seen true testQuantize.rangeMin = -100 := by decide +kernel
  have v3 : seen true testQuantize.rangeOffset = 0 := by decide +kernel
  have v4 : seen true 0x41480000#32 = 25 / 2 := by decide +kernel
  have v5 : eta true = 1 / 2 ^ 126 := by unfold eta; rw [if_pos rfl, pow2_eq]; norm_num
  have v6 : pow2 (-22) = 1 / 4194304 := by rw [pow2_eq]; norm_num
  have h := C67_quantize true (min := testQuantize.rangeMin) (offset := testQuantize.rangeOffset)
    (scale := testQuantize.rangeScale) (x := 0x41480000#32) (by decide) (by decide) (by decide) (by decide)
  simp only [affErr, v1, v2, v3, v4, v5, v6, pow2_126] at h
  obtain ⟨h1, h2⟩ := h (by norm_num [abs_of_pos]) (by norm_num [abs_of_pos])
  unfold cutTo at h1 h2
  rw [min_eq_right (by norm_num), max_eq_right (by norm_num)] at h1 h2
  constructor
  · refine le_trans h1 ?_
    norm_num [abs_of_pos]
  · refine lt_of_le_of_lt ?_ h2
    norm_num [abs_of_pos]

/-- The element -2000000000 with the test's parameters: `C67_requantize` applies; the byte is near 8.7567. -/
example : |((Spec.requantizeF (ieee false) testRequantize.inputRangeMin testRequantize.inputRangeOffset
      testRequantize.inputRangeScale testRequantize.outputRangeMin testRequantize.outputRangeOffset
      testRequantize.oneOverOutputRangeScale (BitVec.ofInt 32 (-2000000000))).toNat : Rat) - 8.7567| ≤ 0.501 := by
  have v0 : (BitVec.ofInt 32 (-2000000000)).toInt = -2000000000 := by decide
  have v1 : seen false testRequantize.inputRangeMin = -100 := by decide +kernel
  have v2 : seen false testRequantize.inputRangeOffset = -2147483648 := by decide +kernel
  have v3 : seen false testRequantize.inputRangeScale = 25 / 2 ^ 29 := by decide +kernel
  have v4 : seen false testRequantize.outputRangeMin = -100 := by decide +kernel
  have v5 : seen false testRequantize.outputRangeOffset = 0 := by decide +kernel
  have v6 : seen false testRequantize.oneOverOutputRangeScale = 10695475 / 8388608 := by decide +kernel
  have v7 : eta false = 1 / 2 ^ 150 := by unfold eta; rw [if_neg (by decide), pow2_eq]; norm_num
  have v8 : pow2 (-21) = 1 / 2097152 := by rw [pow2_eq]; norm_num
  have h := C67_requantize false (min := testRequantize.inputRangeMin) (offset := testRequantize.inputRangeOffset)
    (scale := testRequantize.inputRangeScale) (min' := testRequantize.outputRangeMin)
    (offset' := testRequantize.outputRangeOffset) (inv := testRequantize.oneOverOutputRangeScale)
    (x := BitVec.ofInt 32 (-2000000000)) (by decide) (by decide) (by decide) (by decide) (by decide) (by decide) rfl
  simp only [requantizeErr, v0, v1, v2, v3, v4, v5, v6, v7, v8, pow2_126] at h
  have h1 := h (by norm_num [abs_of_pos, abs_of_neg]) (by norm_num [abs_of_pos, abs_of_neg])
    (by norm_num [abs_of_pos, abs_of_neg]) (by norm_num [abs_of_pos, abs_of_neg])
  unfold cutTo at h1
  rw [min_eq_right (by norm_num), max_eq_right (by norm_num)] at h1
  generalize (BitVec.toNat _ : Rat) = z at h1 ⊢
  rw [abs_le] at h1 ⊢
  norm_num [abs_of_pos, abs_of_neg] at h1 ⊢
  constructor <;> linarith [h1.1, h1.2]

/-- Two elements in order, the second infinite: `C67_quantize_order` applies. -/
example : Le 0x41480000#32 0x7f800000#32 ∧ 0 < seen true testQuantize.rangeScale := by
  refine ⟨⟨by decide, by decide, by decide⟩, ?_⟩
  rw [show seen true testQuantize.rangeScale = 10695475 / 8388608 by decide +kernel]
  norm_num

end Gemmlowp.Meta
