import Verif.FixedPoint
import Verif.FixedSpec
/-!
# Lemmas about the scalar fixed-point primitives
-/
namespace Gemmlowp

theorem two_pow_pos' (n : Nat) : (0 : Int) < 2 ^ n := Int.pow_pos (by omega)

theorem two_pow_succ' (n : Nat) : (2 : Int) ^ (n + 1) = 2 * 2 ^ n := by
  rw [Int.pow_succ, Int.mul_comm]

theorem cast_two_pow (n : Nat) : (((2 ^ n : Nat)) : Int) = 2 ^ n := by norm_cast

theorem toInt_ofIntW {w : Nat} (hw : 0 < w) {x : Int} (h : InW w x) :
    (BitVec.ofInt w x).toInt = x := by
  obtain ⟨v, rfl⟩ : ∃ v, w = v + 1 := ⟨w - 1, by omega⟩
  unfold InW at h
  rw [Nat.add_sub_cancel] at h
  rw [BitVec.toInt_ofInt]
  have e : ((2 ^ (v + 1) : Nat) : Int) = 2 * 2 ^ v := by rw [cast_two_pow, two_pow_succ']
  apply Int.bmod_eq_of_le <;> omega

theorem inW_toInt {w : Nat} (hw : 0 < w) (a : BitVec w) : InW w a.toInt := by
  have h1 := BitVec.le_toInt a
  have h2 := BitVec.toInt_lt (x := a)
  exact ⟨h1, h2⟩

theorem retW_ok {m : OvMode} {w : Nat} {x : Int} (h : InW w x) :
    retW m w x = .ok (BitVec.ofInt w x) := by
  simp [retW, h]

theorem retW_wrap {w : Nat} {x : Int} : retW .wrap w x = .ok (BitVec.ofInt w x) := by
  simp [retW]

theorem ofInt_toIntW {w : Nat} (a : BitVec w) : BitVec.ofInt w a.toInt = a := BitVec.ofInt_toInt

theorem pow_le_pow' {m n : Nat} (h : m ≤ n) : (2 : Int) ^ m ≤ 2 ^ n := by
  obtain ⟨k, rfl⟩ := Nat.exists_eq_add_of_le h
  rw [Int.pow_add]
  have h1 := two_pow_pos' m
  have h2 := two_pow_pos' k
  have : (2 : Int) ^ m * 1 ≤ 2 ^ m * 2 ^ k := Int.mul_le_mul_of_nonneg_left (by omega) (by omega)
  omega

theorem inW_zero (w : Nat) : InW w 0 := by
  have := two_pow_pos' (w - 1)
  unfold InW; omega

namespace Fx

variable {w : Nat}

theorem toInt_zeroW (hw : 0 < w) : (0 : BitVec w).toInt = 0 := by
  have := toInt_ofIntW hw (inW_zero w)
  simpa using this

theorem dup_toInt (hw : 0 < w) {x : Int} (h : InW w x) : (dup w x).toInt = x := toInt_ofIntW hw h

theorem ofBool_ne_zero (hw : 0 < w) (b : Bool) : (ofBool b : BitVec w) ≠ 0 ↔ b = true := by
  cases b
  · simp [ofBool]
  · simp only [ofBool, if_true, iff_true]
    intro h
    have h2 : (1 : BitVec w).toNat = (0 : BitVec w).toNat := by rw [h]
    have e1 : (1 : BitVec w).toNat = 1 % 2 ^ w := BitVec.toNat_ofNat 1 w
    have e2 : (0 : BitVec w).toNat = 0 % 2 ^ w := BitVec.toNat_ofNat 0 w
    rw [e1, e2, Nat.mod_eq_of_lt (Nat.one_lt_two_pow (by omega)), Nat.zero_mod] at h2
    omega

/-- A mask made from a boolean: all bits or none. -/
theorem mask_ofBool (hw : 0 < w) (b : Bool) :
    maskIfNonZero (ofBool b : BitVec w) = if b then BitVec.allOnes w else 0 := by
  unfold maskIfNonZero
  by_cases h : b = true
  · rw [if_pos ((ofBool_ne_zero hw b).2 h), if_pos h]
    unfold bitNot
    rw [← BitVec.not_zero]; rfl
  · rw [if_neg (fun h2 => h ((ofBool_ne_zero hw b).1 h2)), if_neg h]

theorem maskGT_eq (hw : 0 < w) (a b : BitVec w) :
    maskIfGreaterThan a b = if b.toInt < a.toInt then BitVec.allOnes w else 0 := by
  unfold maskIfGreaterThan
  rw [mask_ofBool hw]
  simp only [BitVec.slt, decide_eq_true_eq]

theorem maskLT_eq (hw : 0 < w) (a b : BitVec w) :
    maskIfLessThan a b = if a.toInt < b.toInt then BitVec.allOnes w else 0 := by
  unfold maskIfLessThan
  rw [mask_ofBool hw]
  simp only [BitVec.slt, decide_eq_true_eq]

theorem select_allOnes (a b : BitVec w) : selectUsingMask (BitVec.allOnes w) a b = a := by
  unfold selectUsingMask bitXor bitAnd bitNot
  simp

theorem select_zero (a b : BitVec w) : selectUsingMask 0 a b = b := by
  unfold selectUsingMask bitXor bitAnd bitNot
  simp

theorem mask_and_one (hw : 1 < w) (P : Prop) [Decidable P] :
    (bitAnd (if P then BitVec.allOnes w else 0) (dup w 1)).toInt = if P then 1 else 0 := by
  unfold bitAnd
  have h2 : InW w 1 := by
    have h1 := pow_le_pow' (show 1 ≤ w - 1 by omega)
    have h3 : (2 : Int) ^ 1 = 2 := rfl
    unfold InW; omega
  split
  · rw [BitVec.allOnes_and]
    exact dup_toInt (by omega) h2
  · rw [show (0 : BitVec w) = 0#w from rfl, BitVec.zero_and]
    exact toInt_zeroW (by omega)

theorem toInt_and_mask (hw : 0 < w) {e : Nat} (he : e < w) (x : BitVec w) :
    (bitAnd x (dup w (2 ^ e - 1))).toInt = x.toInt % 2 ^ e := by
  have hmask : InW w (2 ^ e - 1) := by
    have h1 := pow_le_pow' (show e ≤ w - 1 by omega)
    have h2 := two_pow_pos' e
    have h3 := two_pow_pos' (w - 1)
    unfold InW; omega
  have hmn : (dup w (2 ^ e - 1)).toNat = 2 ^ e - 1 := by
    unfold dup
    have hlt : (2 : Nat) ^ e < 2 ^ w := Nat.pow_lt_pow_right (by omega) he
    have e1 : ((2 : Int) ^ e - 1) = ((2 ^ e - 1 : Nat) : Int) := by
      rw [Int.ofNat_sub (Nat.one_le_two_pow), cast_two_pow]; rfl
    rw [e1, BitVec.ofInt_natCast, BitVec.toNat_ofNat, Nat.mod_eq_of_lt]
    exact Nat.lt_of_le_of_lt (Nat.sub_le _ _) hlt
  have hand : (bitAnd x (dup w (2 ^ e - 1))).toNat = x.toNat % 2 ^ e := by
    unfold bitAnd
    rw [BitVec.toNat_and, hmn, Nat.and_two_pow_sub_one_eq_mod]
  have hlt : x.toNat % 2 ^ e < 2 ^ (w - 1) := by
    have h1 := Nat.mod_lt x.toNat (Nat.two_pow_pos e)
    have h2 := Nat.pow_le_pow_right (show 0 < 2 by omega) (show e ≤ w - 1 by omega)
    omega
  have hw2 : (2 : Nat) ^ w = 2 * 2 ^ (w - 1) := by
    conv => lhs; rw [show w = (w - 1) + 1 by omega]
    rw [Nat.pow_succ, Nat.mul_comm]
  rw [BitVec.toInt_eq_toNat_of_lt (by rw [hand, hw2]; omega), hand]
  have hx : x.toInt % 2 ^ e = ((x.toNat : Int)) % 2 ^ e := by
    rw [BitVec.toInt_eq_toNat_cond]
    split
    · rfl
    · have hdvd : ((2 : Int) ^ e) ∣ ((2 ^ w : Nat) : Int) := by
        rw [cast_two_pow]
        exact ⟨2 ^ (w - e), by rw [← Int.pow_add]; congr 1; omega⟩
      obtain ⟨k, hk⟩ := hdvd
      rw [hk, Int.sub_mul_emod_self_left]
  rw [hx, ← cast_two_pow]
  norm_cast

theorem toInt_sshiftRight' (x : BitVec w) (e : Nat) : (x.sshiftRight e).toInt = x.toInt / 2 ^ e := by
  rw [BitVec.toInt_sshiftRight, Int.shiftRight_eq_div_pow]
  norm_cast

/-- Dividing with rounding is the closed form on integers. -/
theorem rdpot_int {x D t q : Int} (hD : 0 < D) (ht : t = (D - 1) / 2 + (if x < 0 then 1 else 0))
    (hpar : D = 1 ∨ D % 2 = 0) (hq : q = x / D + (if t < x % D then 1 else 0)) :
    Spec.NearestAway x D q := by
  have h1 := Int.emod_add_mul_ediv x D
  have h2 := Int.emod_nonneg x (show D ≠ 0 by omega)
  have h3 := Int.emod_lt_of_pos x hD
  rw [Int.mul_comm] at h1
  generalize x / D = y at h1 hq
  generalize x % D = r at h1 h2 h3 hq
  unfold Spec.NearestAway
  subst hq
  split at ht <;> split <;> split <;> rw [Int.add_mul] <;> omega

theorem rdpot_ok {m : OvMode} (hw : 1 < w) {e : Nat} (he : e < w) (he' : e ≤ 31) (x : BitVec w) :
    ∃ q, rdpot m x e = .ok q ∧ Spec.NearestAway x.toInt (2 ^ e) q.toInt := by
  have hw0 : 0 < w := by omega
  have hD := two_pow_pos' e
  have hDle := pow_le_pow' (show e ≤ w - 1 by omega)
  have hpar : (2 : Int) ^ e = 1 ∨ (2 : Int) ^ e % 2 = 0 := by
    cases e with
    | zero => left; rfl
    | succ n => right; rw [two_pow_succ']; omega
  have hmask : InW w (2 ^ e - 1) := by unfold InW; omega
  unfold rdpot
  rw [decide_eq_true (by omega), decide_eq_true (by omega)]
  simp only [assertM_true, ok_bind, Int.toNat_natCast]
  have hhalf : shiftRight (dup w (2 ^ e - 1)) 1 = .ok ((dup w (2 ^ e - 1)).sshiftRight 1) := by
    simp [shiftRight]
  rw [hhalf, ok_bind, maskLT_eq hw0]
  have e1 : ((dup w (2 ^ e - 1)).sshiftRight 1).toInt = (2 ^ e - 1) / 2 := by
    rw [toInt_sshiftRight', dup_toInt hw0 hmask]; rfl
  have hzero : (dup w 0).toInt = 0 := dup_toInt hw0 (inW_zero w)
  have e2 := mask_and_one hw (x.toInt < (dup w 0).toInt)
  rw [hzero] at e2 ⊢
  have hxr := inW_toInt hw0 x
  have hmod := Int.emod_add_mul_ediv x.toInt (2 ^ e)
  have hm0 := Int.emod_nonneg x.toInt (show (2 : Int) ^ e ≠ 0 by omega)
  have hm1 := Int.emod_lt_of_pos x.toInt hD
  unfold InW at hxr hmask
  have h2w : 2 ≤ (2 : Int) ^ (w - 1) := pow_le_pow' (show 1 ≤ w - 1 by omega)
  have hadd1 : add m ((dup w (2 ^ e - 1)).sshiftRight 1)
      (bitAnd (if x.toInt < 0 then BitVec.allOnes w else 0) (dup w 1)) =
      .ok (BitVec.ofInt w ((2 ^ e - 1) / 2 + (if x.toInt < 0 then 1 else 0))) := by
    unfold add
    rw [e1, e2]
    apply retW_ok
    unfold InW
    split <;> omega
  rw [hadd1, ok_bind]
  have hthr : (BitVec.ofInt w ((2 ^ e - 1) / 2 + (if x.toInt < 0 then 1 else 0))).toInt =
      (2 ^ e - 1) / 2 + (if x.toInt < 0 then 1 else 0) := by
    apply toInt_ofIntW hw0
    unfold InW
    split <;> omega
  have hq : shiftRight x (e : Int) = .ok (x.sshiftRight e) := by
    unfold shiftRight
    rw [if_neg (by omega)]; rfl
  rw [hq, ok_bind, maskGT_eq hw0]
  have e3 := mask_and_one hw ((BitVec.ofInt w ((2 ^ e - 1) / 2 + (if x.toInt < 0 then 1 else 0))).toInt <
      (bitAnd x (dup w (2 ^ e - 1))).toInt)
  unfold add
  rw [e3, hthr, toInt_and_mask hw0 he, toInt_sshiftRight']
  generalize ht : ((2 : Int) ^ e - 1) / 2 + (if x.toInt < 0 then 1 else 0) = t
  have hfit : InW w (x.toInt / 2 ^ e + (if t < x.toInt % 2 ^ e then 1 else 0)) := by
    unfold InW
    have hlo : -(2 : Int) ^ (w - 1) ≤ x.toInt / 2 ^ e := by
      apply Int.le_ediv_of_mul_le hD
      have : (2 : Int) ^ (w - 1) * 1 ≤ 2 ^ (w - 1) * 2 ^ e :=
        Int.mul_le_mul_of_nonneg_left (by omega) (by omega)
      rw [Int.neg_mul]; omega
    rcases hpar with h | h
    · rw [h] at hm1 ht hm0 ⊢
      rw [if_neg (by split at ht <;> omega), Int.ediv_one]
      omega
    · have hhi : x.toInt / 2 ^ e ≤ x.toInt / 2 ∨ x.toInt < 0 := by
        rcases Int.lt_or_le x.toInt 0 with h0 | h0
        · exact .inr h0
        · left
          apply Int.le_ediv_of_mul_le (by omega)
          have h5 : 0 ≤ x.toInt / 2 ^ e := Int.ediv_nonneg h0 (by omega)
          have h6 : x.toInt / 2 ^ e * 2 ≤ x.toInt / 2 ^ e * 2 ^ e :=
            Int.mul_le_mul_of_nonneg_left (by omega) h5
          rw [Int.mul_comm (2 ^ e)] at hmod
          omega
      have hneg : x.toInt < 0 → x.toInt / 2 ^ e < 0 := fun h0 => Int.ediv_neg_of_neg_of_pos h0 hD
      split <;> omega
  refine ⟨_, retW_ok hfit, ?_⟩
  rw [toInt_ofIntW hw0 hfit]
  exact rdpot_int hD ht.symm hpar rfl

/-- The closed form of the doubling multiplication, with truncating division. -/
theorem srdhm_int {ab H : Int} (hH : 0 < H) :
    Spec.NearestUp ab (2 * H) ((ab + (if ab ≥ 0 then H else 1 - H)).tdiv (2 * H)) := by
  unfold Spec.NearestUp
  by_cases h : ab ≥ 0
  · rw [if_pos h, Int.tdiv_eq_ediv_of_nonneg (by omega)]
    have h1 := Int.emod_add_mul_ediv (ab + H) (2 * H)
    have h2 := Int.emod_nonneg (ab + H) (show 2 * H ≠ 0 by omega)
    have h3 := Int.emod_lt_of_pos (ab + H) (show 0 < 2 * H by omega)
    rw [Int.mul_comm (2 * H)] at h1
    omega
  · rw [if_neg h]
    have e : ab + (1 - H) = -(-ab + (H - 1)) := by omega
    rw [e, Int.neg_tdiv, Int.tdiv_eq_ediv_of_nonneg (by omega), Int.neg_mul]
    have h1 := Int.emod_add_mul_ediv (-ab + (H - 1)) (2 * H)
    have h2 := Int.emod_nonneg (-ab + (H - 1)) (show 2 * H ≠ 0 by omega)
    have h3 := Int.emod_lt_of_pos (-ab + (H - 1)) (show 0 < 2 * H by omega)
    rw [Int.mul_comm (2 * H)] at h1
    omega

/-- Products of two numbers of magnitude at most `N`. -/
theorem mul_bound {a b N : Int} (ha : -N ≤ a ∧ a ≤ N) (hb : -N ≤ b ∧ b ≤ N) :
    -(N * N) ≤ a * b ∧ a * b ≤ N * N := by
  have h1 : 0 ≤ (N - a) * (N + b) := Int.mul_nonneg (by omega) (by omega)
  have h2 : 0 ≤ (N + a) * (N - b) := Int.mul_nonneg (by omega) (by omega)
  have h3 : 0 ≤ (N - a) * (N - b) := Int.mul_nonneg (by omega) (by omega)
  have h4 : 0 ≤ (N + a) * (N + b) := Int.mul_nonneg (by omega) (by omega)
  have e1 : (N - a) * (N + b) = N * N + N * b - N * a - a * b := by
    rw [Int.sub_mul, Int.mul_add, Int.mul_add, Int.mul_comm a N]; omega
  have e2 : (N + a) * (N - b) = N * N - N * b + N * a - a * b := by
    rw [Int.add_mul, Int.mul_sub, Int.mul_sub, Int.mul_comm a N]; omega
  have e3 : (N - a) * (N - b) = N * N - N * b - N * a + a * b := by
    rw [Int.sub_mul, Int.mul_sub, Int.mul_sub, Int.mul_comm a N]; omega
  have e4 : (N + a) * (N + b) = N * N + N * b + N * a + a * b := by
    rw [Int.add_mul, Int.mul_add, Int.mul_add, Int.mul_comm a N]; omega
  omega

/-- A product of two `w`-bit numbers other than the square of the least one. -/
theorem mul_lt_max {a b N : Int} (hN : 0 < N) (ha : -N ≤ a ∧ a < N) (hb : -N ≤ b ∧ b < N)
    (h : ¬ (a = b ∧ a = -N)) : a * b ≤ N * N - N := by
  by_cases h1 : a = -N
  · have hb1 : -N + 1 ≤ b := by omega
    have : N * (-b) ≤ N * (N - 1) := Int.mul_le_mul_of_nonneg_left (by omega) (by omega)
    rw [Int.mul_sub, Int.mul_neg] at this
    rw [h1, Int.neg_mul]; omega
  · by_cases h2 : b = -N
    · have : N * (-a) ≤ N * (N - 1) := Int.mul_le_mul_of_nonneg_left (by omega) (by omega)
      rw [Int.mul_sub, Int.mul_neg] at this
      rw [h2, Int.mul_neg, Int.mul_comm]; omega
    · have := (mul_bound (N := N - 1) (a := a) (b := b) (by omega) (by omega)).2
      have e : (N - 1) * (N - 1) = N * N - N - N + 1 := by
        rw [Int.sub_mul, Int.mul_sub]; omega
      omega

theorem srdhm_spec (hw : 1 < w) (a b : BitVec w) :
    (a.toInt = minW w ∧ b.toInt = minW w → (srdhm a b).toInt = maxW w) ∧
    (¬ (a.toInt = minW w ∧ b.toInt = minW w) →
      Spec.NearestUp (a.toInt * b.toInt) (2 ^ (w - 1)) (srdhm a b).toInt) := by
  have hw0 : 0 < w := by omega
  have ha := inW_toInt hw0 a
  have hb := inW_toInt hw0 b
  unfold InW at ha hb
  have hp : (2 : Int) ^ (w - 1) = 2 * 2 ^ (w - 2) := by
    rw [← two_pow_succ', show w - 2 + 1 = w - 1 by omega]
  have hH := two_pow_pos' (w - 2)
  unfold srdhm minW maxW
  dsimp only
  constructor
  · rintro ⟨h1, h2⟩
    have : a = b := BitVec.eq_of_toInt_eq (by omega)
    rw [if_pos (by simp [this, h2])]
    apply toInt_ofIntW hw0
    unfold InW; omega
  · intro h
    rw [if_neg (by
      simp only [Bool.and_eq_true, decide_eq_true_eq, not_and]
      intro h1 h2; subst h1; exact h ⟨h2, h2⟩)]
    have hs := srdhm_int (ab := a.toInt * b.toInt) hH
    rw [hp] at ha hb h ⊢
    have hfit : InW w ((a.toInt * b.toInt + (if a.toInt * b.toInt ≥ 0 then 2 ^ (w - 2) else 1 - 2 ^ (w - 2))).tdiv
        (2 * 2 ^ (w - 2))) := by
      generalize 2 * (2 : Int) ^ (w - 2) = N at *
      unfold Spec.NearestUp at hs
      generalize (a.toInt * b.toInt + (if a.toInt * b.toInt ≥ 0 then 2 ^ (w - 2) else 1 - 2 ^ (w - 2))).tdiv
        N = q at *
      have hN : 0 < N := by omega
      have h1 := mul_lt_max hN ha hb (by rintro ⟨h1, h2⟩; exact h ⟨h2, by omega⟩)
      have h2 := (mul_bound (N := N) (a := a.toInt) (b := b.toInt) (by omega) (by omega)).1
      unfold InW
      rw [hp]
      constructor
      · by_cases hq : -N ≤ q
        · exact hq
        · exfalso
          have : q * N ≤ (-N - 1) * N := Int.mul_le_mul_of_nonneg_right (by omega) (by omega)
          rw [Int.sub_mul, Int.neg_mul] at this
          omega
      · by_cases hq : q < N
        · exact hq
        · exfalso
          have : N * N ≤ q * N := Int.mul_le_mul_of_nonneg_right (by omega) (by omega)
          omega
    rw [toInt_ofIntW hw0 hfit]
    exact hs

end Fx
end Gemmlowp
