import Verif.SimdProof2
/-!
# NEON, WebAssembly and MSA
-/
namespace Gemmlowp.Simd

open Isa Fx Spec

variable {n w : Nat}

/-! ## Saturation -/

theorem satW_eq (x : Int) : satW w x = BitVec.ofInt w (clampTo (minW w) (maxW w) x) := by
  have hp := two_pow_pos' (w - 1)
  unfold satW clampTo
  congr 1
  unfold minW maxW
  split
  · omega
  · split <;> omega

theorem clamp_in {x : Int} : InW w (clampTo (minW w) (maxW w) x) := by
  have hp := two_pow_pos' (w - 1)
  unfold InW clampTo minW maxW
  split
  · omega
  · split <;> omega

theorem satW_toInt (hw : 0 < w) (x : Int) : (satW w x).toInt = clampTo (minW w) (maxW w) x := by
  rw [satW_eq, toInt_ofIntW hw clamp_in]

theorem clamp_id {x : Int} (h : InW w x) : clampTo (minW w) (maxW w) x = x := by
  unfold InW at h; unfold clampTo minW maxW
  rw [if_neg (by omega), if_neg (by omega)]

/-- Scalar positive shift, as an equation. -/
theorem srmbp_pos_eq (hw : 1 < w) {E : Nat} (hE0 : 0 < E) (hE : E < w) (hE30 : E ≤ 30) (x : BitVec w) :
    Fx.srmbp .wrap (E : Int) x = .ok (satW w (x.toInt * 2 ^ E)) := by
  obtain ⟨r, h1, h2⟩ := C31_multiplyByPOT_pos .wrap hw E hE0 hE hE30 x
  rw [h1]
  congr 1
  apply BitVec.eq_of_toInt_eq
  rw [satW_toInt (by omega), h2]
  rfl

/-- Scalar division, as an equation. -/
theorem rdpot_eq (hw : 1 < w) {e : Nat} (he : e < w) (he' : e ≤ 31) (x : BitVec w) {q : BitVec w}
    (h : NearestAway x.toInt (2 ^ e) q.toInt) : Fx.rdpot .wrap x (e : Int) = .ok q := by
  obtain ⟨r, h1, h2⟩ := rdpot_ok (m := .wrap) hw he he' x
  rw [h1]
  congr 1
  exact BitVec.eq_of_toInt_eq (h2.unique h)

/-- The rounding shift after subtracting one from negative numbers. -/
theorem away_shift (hw : 1 < w) {k : Nat} (hk : k + 1 < w) {x : Int} (hx : InW w x) :
    NearestAway x (2 ^ (k + 1))
      ((clampTo (minW w) (maxW w) (x - if x < 0 then 1 else 0) + 2 ^ k) / 2 ^ (k + 1)) ∧
    InW w ((clampTo (minW w) (maxW w) (x - if x < 0 then 1 else 0) + 2 ^ k) / 2 ^ (k + 1)) := by
  have hp := two_pow_pos' k
  have hpe : (2 : Int) ^ (k + 1) = 2 * 2 ^ k := by rw [two_pow_succ']
  have hM : ∃ c : Int, (2 : Int) ^ (w - 1) = c * (2 * 2 ^ k) ∧ 0 < c := by
    refine ⟨2 ^ (w - 1 - (k + 1)), ?_, two_pow_pos' _⟩
    rw [← hpe, ← Int.pow_add]; congr 1; omega
  obtain ⟨c, hc, hc0⟩ := hM
  rw [hpe]
  generalize (2 : Int) ^ k = h at *
  unfold InW at hx ⊢
  unfold clampTo minW maxW
  rw [hc] at hx ⊢
  have hcd : 2 * h ≤ c * (2 * h) := by
    have : 1 * (2 * h) ≤ c * (2 * h) := Int.mul_le_mul_of_nonneg_right (by omega) (by omega)
    omega
  have small : ∀ y : Int, -(c * (2 * h)) ≤ y → y < c * (2 * h) →
      -(c * (2 * h)) ≤ (y + h) / (2 * h) ∧ (y + h) / (2 * h) < c * (2 * h) := by
    intro y h1 h2
    have h3 : (-c) ≤ (y + h) / (2 * h) := by
      rw [Int.le_ediv_iff_mul_le (by omega), Int.neg_mul]; omega
    have h4 : (y + h) / (2 * h) < c + 1 := by
      rw [Int.ediv_lt_iff_lt_mul (by omega), Int.add_mul]; omega
    have h5 : c * 2 ≤ c * (2 * h) := Int.mul_le_mul_of_nonneg_left (by omega) (by omega)
    omega
  have near : ∀ y : Int, 2 * y - 2 * h < 2 * ((y + h) / (2 * h) * (2 * h)) ∧
      2 * ((y + h) / (2 * h) * (2 * h)) ≤ 2 * y + 2 * h := by
    intro y
    have h1 := Int.emod_add_mul_ediv (y + h) (2 * h)
    have h2 := Int.emod_nonneg (y + h) (show 2 * h ≠ 0 by omega)
    have h3 := Int.emod_lt_of_pos (y + h) (show 0 < 2 * h by omega)
    rw [Int.mul_comm (2 * h)] at h1
    omega
  by_cases h0 : x < 0
  · rw [if_pos h0]
    unfold NearestAway
    rw [if_neg (by omega)]
    by_cases hmin : x - 1 < -(c * (2 * h))
    · rw [if_pos hmin]
      have hxe : x = -(c * (2 * h)) := by omega
      have hq : (-(c * (2 * h)) + h) / (2 * h) = -c := by
        rw [← Int.neg_mul, Int.add_comm, Int.add_mul_ediv_right _ _ (by omega),
          Int.ediv_eq_zero_of_lt (by omega) (by omega)]; omega
      rw [hq, hxe, Int.neg_mul]
      refine ⟨⟨by omega, by omega⟩, ?_⟩
      have h5 : c * 2 ≤ c * (2 * h) := Int.mul_le_mul_of_nonneg_left (by omega) (by omega)
      omega
    · rw [if_neg hmin, if_neg (by omega)]
      have h1 := near (x - 1)
      refine ⟨by omega, small _ (by omega) (by omega)⟩
  · rw [if_neg h0]
    unfold NearestAway
    rw [if_pos (by omega), if_neg (by omega), if_neg (by omega)]
    have h1 := near (x - 0)
    refine ⟨by omega, small _ (by omega) (by omega)⟩

/-! ## NEON -/

theorem shlMod_lane (a : Reg n w) (k : Nat) (i : Fin n) (h : k < w) : shlMod a k i = a i <<< k := by
  show a i <<< ((k : Int) % w).toNat = _
  rw [Int.emod_eq_of_lt (by omega) (by omega), Int.toNat_natCast]

theorem shrMod_lane (a : Reg n w) (k : Nat) (i : Fin n) (h : k < w) :
    shrMod a k i = (a i).sshiftRight k := by
  show (a i).sshiftRight ((k : Int) % w).toNat = _
  rw [Int.emod_eq_of_lt (by omega) (by omega), Int.toNat_natCast]

theorem neonCount_eq (hw : 8 ≤ w) {k : Int} (h1 : -32 < k) (h2 : k < 32) :
    neonCount (BitVec.ofInt w k) = k := by
  have h3 := pow_le_pow' (show 7 ≤ w - 1 by omega)
  unfold neonCount
  have h4 : (BitVec.ofInt w k).toInt = k := toInt_ofIntW (by omega) (by unfold InW; omega)
  rw [h4, toInt_ofIntW (w := 8) (by decide) (by unfold InW; omega)]

theorem vshl_left (hw : 8 ≤ w) (a : Reg n w) (k : Nat) (i : Fin n) (h : k ≤ 31) :
    Neon.shiftLeft a k i = a i <<< k := by
  show (if 0 ≤ neonCount (BitVec.ofInt w (k : Int)) then
    a i <<< (neonCount (BitVec.ofInt w (k : Int))).toNat else _) = _
  rw [neonCount_eq hw (by omega) (by omega), if_pos (by omega), Int.toNat_natCast]

theorem vshl_right (hw : 8 ≤ w) (a : Reg n w) (k : Nat) (i : Fin n) (h : k ≤ 31) :
    Neon.shiftRight a k i = (a i).sshiftRight k := by
  show (if 0 ≤ neonCount (BitVec.ofInt w (-(k : Int))) then
    a i <<< (neonCount (BitVec.ofInt w (-(k : Int)))).toNat else
    (a i).sshiftRight (-neonCount (BitVec.ofInt w (-(k : Int)))).toNat) = _
  rw [neonCount_eq hw (by omega) (by omega)]
  by_cases h0 : k = 0
  · subst h0; rw [if_pos (by omega)]; simp
  · rw [if_neg (by omega), Int.neg_neg, Int.toNat_natCast]

theorem qrdmulh_lane (hw : 1 < w) (a b : Reg n w) (i : Fin n) :
    qrdmulh a b i = Fx.srdhm (a i) (b i) := by
  show satW w ((2 * ((a i).toInt * (b i).toInt) + 2 ^ (w - 1)) / 2 ^ w) = _
  by_cases h : (a i).toInt = minW w ∧ (b i).toInt = minW w
  · apply BitVec.eq_of_toInt_eq
    rw [(srdhm_spec hw (a i) (b i)).1 h, satW_toInt (by omega), h.1, h.2]
    have hp := two_pow_pos' (w - 1)
    have e : (2 : Int) ^ w = 2 * 2 ^ (w - 1) := by rw [← two_pow_succ']; congr 1; omega
    have h2 := pow_le_pow' (show 1 ≤ w - 1 by omega)
    unfold clampTo minW maxW
    rw [e]
    generalize (2 : Int) ^ (w - 1) = m at *
    have : (2 * (-m * -m) + m) / (2 * m) = m := by
      rw [Int.neg_mul_neg, show 2 * (m * m) + m = m + m * (2 * m) by
          rw [Int.mul_left_comm]; omega,
        Int.add_mul_ediv_right _ _ (by omega), Int.ediv_eq_zero_of_lt (by omega) (by omega)]
      omega
    rw [this, if_neg (by omega), if_pos (by omega)]
  · have e := srdhm_scalar hw h
    rw [satW_eq, e]
    congr 1
    have h1 := (srdhm_spec hw (a i) (b i)).2 h
    rw [Spec.nearestUp_iff (two_pow_pos' _)] at h1
    have e2 : (2 : Int) ^ w = 2 * 2 ^ (w - 1) := by rw [← two_pow_succ']; congr 1; omega
    rw [e2, ← h1]
    exact clamp_id (inW_toInt (by omega) _)

theorem rhadd_lane (a b : Reg n w) (i : Fin n)
    (h : 0 ≤ (a i).toInt + (b i).toInt ∨ ((a i).toInt + (b i).toInt) % 2 = 0) :
    rhadd a b i = Fx.roundingHalfSum (a i) (b i) := by
  rw [rhs_scalar h]; rfl

theorem neon_bitNot (a : Reg n w) (i : Fin n) : Neon.bitNot a i = ~~~(a i) := by
  show a i ^^^ (-1) = _
  rw [neg_one_allOnes]; simp

/-- The sign bits of a number. -/
theorem sign_bits (hw : 0 < w) (x : BitVec w) :
    x.sshiftRight (w - 1) = BitVec.ofInt w (if x.toInt < 0 then -1 else 0) := by
  have h1 := BitVec.le_toInt x
  have h2 := BitVec.toInt_lt (x := x)
  have hp := two_pow_pos' (w - 1)
  apply BitVec.eq_of_toInt_eq
  rw [BitVec.toInt_sshiftRight, Int.shiftRight_eq_div_pow]
  have e : ((2 ^ (w - 1) : Nat) : Int) = 2 ^ (w - 1) := by norm_cast
  rw [e]
  by_cases h : x.toInt < 0
  · rw [if_pos h, toInt_ofIntW hw (by unfold InW; omega)]
    rw [Int.ediv_eq_iff_of_pos (by omega)]
    omega
  · rw [if_neg h, toInt_ofIntW hw (by unfold InW; omega)]
    exact Int.ediv_eq_zero_of_lt (by omega) (by omega)

theorem adds_sign (x : BitVec w) (y : BitVec w)
    (hy : y.toInt = if x.toInt < 0 then -1 else 0) :
    satW w (x.toInt + y.toInt) =
      BitVec.ofInt w (clampTo (minW w) (maxW w) (x.toInt - if x.toInt < 0 then 1 else 0)) := by
  rw [satW_eq, hy]
  congr 2
  split <;> omega

theorem toInt_sign (hw : 0 < w) (c : Prop) [Decidable c] :
    (BitVec.ofInt w (if c then -1 else 0)).toInt = if c then -1 else 0 := by
  have hp := two_pow_pos' (w - 1)
  apply toInt_ofIntW hw
  unfold InW; split <;> omega

/-- `vrshrN` after the correction. -/
theorem fix_shift (hw : 1 < w) {k : Nat} (hk : k + 1 < w) (hk' : k + 1 ≤ 31) (x y : BitVec w)
    (hy : y = BitVec.ofInt w (clampTo (minW w) (maxW w) (x.toInt - if x.toInt < 0 then 1 else 0))) :
    Fx.rdpot .wrap x ((k + 1 : Nat) : Int) = .ok (BitVec.ofInt w ((y.toInt + 2 ^ k) / 2 ^ (k + 1))) := by
  obtain ⟨h1, h2⟩ := away_shift hw hk (inW_toInt (by omega) x)
  apply rdpot_eq hw hk hk'
  have e : y.toInt = clampTo (minW w) (maxW w) (x.toInt - if x.toInt < 0 then 1 else 0) := by
    rw [hy, toInt_ofIntW (by omega) clamp_in]
  rw [e, toInt_ofIntW (by omega) h2]
  exact h1

theorem msb_neg (hw : 1 < w) {e : Nat} (h0 : 0 < e) (he : e < w) :
    (BitVec.ofInt w (-(e : Int))).msb = true := by
  have h : (e : Int) ≤ 2 ^ (w - 1) := by
    have := Nat.lt_two_pow_self (n := w - 1)
    have : e ≤ 2 ^ (w - 1) := by omega
    exact_mod_cast this
  rw [BitVec.msb_eq_toInt, toInt_ofIntW (by omega) (by unfold InW; omega)]
  simp; omega

theorem neon_fixup (hw : 1 < w) {e : Nat} (h0 : 0 < e) (he : e < w) (x : BitVec w) :
    (x &&& BitVec.ofInt w (-(e : Int))).sshiftRight (w - 1) =
      BitVec.ofInt w (if x.toInt < 0 then -1 else 0) := by
  have hm : (x &&& BitVec.ofInt w (-(e : Int))).toInt < 0 ↔ x.toInt < 0 := by
    have h1 := BitVec.msb_and (x := x) (y := BitVec.ofInt w (-(e : Int)))
    rw [msb_neg hw h0 he, Bool.and_true, BitVec.msb_eq_toInt, BitVec.msb_eq_toInt] at h1
    simpa using h1
  rw [sign_bits (by omega)]
  simp only [hm]

theorem neon_rdpot (hw : 8 ≤ w) (x : Reg n w) {e : Nat} (he : e < w) (he' : e ≤ 31) (i : Fin n) :
    Fx.rdpot .wrap (x i) e = .ok (Neon.rdpot x e i) := by
  have h1w : 1 < w := by omega
  cases e with
  | zero =>
    have : Neon.rdpot x ((0 : Nat) : Int) i = x i := by
      show (if 0 ≤ neonCount (BitVec.ofInt w (-((0 : Nat) : Int))) then
        satW w ((x i).toInt + ((x i &&& BitVec.ofInt w (-((0 : Nat) : Int))).sshiftRight (w - 1)).toInt) <<<
          (neonCount (BitVec.ofInt w (-((0 : Nat) : Int)))).toNat else _) = _
      rw [neonCount_eq hw (by omega) (by omega), if_pos (by omega)]
      have e0 : BitVec.ofInt w (-((0 : Nat) : Int)) = 0 := by simp
      rw [e0]
      simp [satW_eq, clamp_id (inW_toInt (show 0 < w by omega) (x i))]
    rw [this]
    apply rdpot_eq h1w (by omega) (by omega)
    have := NearestAway.exact (d := 1) (q := (x i).toInt) (by omega)
    simpa using this
  | succ k =>
    have hfix := neon_fixup h1w (Nat.succ_pos k) he (x i)
    have hadd := adds_sign (x i) _ (toInt_sign (w := w) (by omega) ((x i).toInt < 0))
    rw [fix_shift h1w he he' (x i) _ hadd]
    congr 1
    symm
    show (if 0 ≤ neonCount (BitVec.ofInt w (-((k + 1 : Nat) : Int))) then _ else
      BitVec.ofInt w (((satW w ((x i).toInt +
        ((x i &&& BitVec.ofInt w (-((k + 1 : Nat) : Int))).sshiftRight (w - 1)).toInt)).toInt +
        2 ^ ((-neonCount (BitVec.ofInt w (-((k + 1 : Nat) : Int)))).toNat - 1)) /
        2 ^ (-neonCount (BitVec.ofInt w (-((k + 1 : Nat) : Int)))).toNat)) = _
    rw [neonCount_eq hw (by omega) (by omega), if_neg (by omega), hfix, Int.neg_neg, Int.toNat_natCast]
    rfl

theorem neon_srmbp (hw : 8 ≤ w) (x : Reg n w) (e : Int)
    (h1 : -w < e) (h2 : e < w) (h3 : -31 ≤ e) (h4 : e ≤ 30) :
    ∃ r, Neon.srmbp e x = .ok r ∧ ∀ i, Fx.srmbp .wrap e (x i) = .ok (r i) := by
  have h1w : 1 < w := by omega
  unfold Neon.srmbp
  by_cases h0 : e = 0
  · subst h0; exact ⟨x, rfl, fun _ => rfl⟩
  rw [if_neg h0]
  by_cases hp : 0 < e
  · rw [if_pos hp, if_pos h2]
    obtain ⟨E, rfl⟩ : ∃ E : Nat, e = E := ⟨e.toNat, by omega⟩
    exact ⟨_, rfl, fun i => srmbp_pos_eq h1w (by omega) (by omega) (by omega) _⟩
  · rw [if_neg hp, if_pos (by omega)]
    obtain ⟨k, hk⟩ : ∃ k : Nat, e = -((k + 1 : Nat) : Int) := ⟨(-e).toNat - 1, by omega⟩
    subst hk
    refine ⟨_, rfl, fun i => ?_⟩
    unfold Fx.srmbp
    rw [if_neg h0, if_neg hp, Int.neg_neg]
    have hadd := adds_sign (x i) _ (toInt_sign (w := w) (by omega) ((x i).toInt < 0))
    rw [fix_shift h1w (by omega) (by omega) (x i) _ hadd, ← sign_bits (by omega)]
    rfl

theorem neon_lanes (hw : 8 ≤ w) (allF anyF : Reg n w → Bool) :
    Lanes { Neon.common n w with all := allF, any := anyF } where
  dup _ _ := rfl
  bitAnd _ _ _ := rfl
  bitOr _ _ _ := rfl
  bitXor _ _ _ := rfl
  bitNot a i := neon_bitNot a i
  add a b i := add_lane _ _
  mul a b i := mul_lane _ _
  sub a b i := sub_lane _ _
  neg a i := neg_lane _
  shiftLeft a k i hk hk' h := by
    rw [shl_lane _ hk' h]; exact congrArg _ (vshl_left hw a k i (by omega)).symm
  shiftRight a k i hk hk' := by rw [shr_lane _ hk']; exact congrArg _ (vshl_right hw a k i hk').symm
  selectUsingMask m a b i _ := select_or _ _ _
  maskIfEqual a b i := by unfold Fx.maskIfEqual; rw [maskOf_mask (by omega)]; rfl
  maskIfNotEqual a b i := by
    unfold Fx.maskIfNotEqual; rw [maskOf_mask (by omega)]
    show Neon.bitNot (cmpeq a b) i = _
    rw [neon_bitNot]; exact not_maskOf _
  maskIfZero a i := beq_zero_mask (by omega) _
  maskIfNonZero a i := by
    rw [maskNonZero_eq]
    show maskOf ((a i &&& a i) != 0) = _
    rw [BitVec.and_self]
  maskIfGreaterThan a b i := by unfold Fx.maskIfGreaterThan; rw [maskOf_mask (by omega)]; rfl
  maskIfGreaterThanOrEqual a b i := by
    unfold Fx.maskIfGreaterThanOrEqual; rw [maskOf_mask (by omega)]; rfl
  maskIfLessThan a b i := by unfold Fx.maskIfLessThan; rw [maskOf_mask (by omega)]; rfl
  maskIfLessThanOrEqual a b i := by
    unfold Fx.maskIfLessThanOrEqual; rw [maskOf_mask (by omega)]; rfl
  roundingHalfSum a b i h := rhadd_lane a b i h
  srdhm a b i _ := qrdmulh_lane (by omega) a b i
  saturatingAdd _ _ _ _ := rfl
  rdpot a e he he' := ⟨_, rfl, fun i => neon_rdpot hw a he he' i⟩
  srmbp := neon_srmbp hw

theorem neon_ops32 : Lanes Neon.ops32 := neon_lanes (by decide) _ _
theorem neon_ops16 : Lanes Neon.ops16 := neon_lanes (by decide) _ _

end Gemmlowp.Simd
