import Verif.Float32Ops
import Mathlib.Algebra.Order.Group.MinMax
import Verif.PropsMetaTransform
/-!
# binary32 arithmetic: the error of a formula
-/
namespace Gemmlowp.F32

/-- The operand is a number that stands for `r`, a formula of size `T` (the formula with absolute values), after at most
`k` roundings on every path, with `u` for what underflow lost. -/
structure Acc (ftz : Bool) (b : BitVec 32) (r T : Rat) (k : Nat) (u : Rat) : Prop where
  fin : isFin b = true
  size : |r| ≤ T
  low : 0 ≤ u
  err : |seen ftz b - r| ≤ ((1 + eps) ^ k - 1) * T + (1 + eps) ^ k * u

theorem one_le_pow_eps (k : Nat) : 1 ≤ (1 + eps) ^ k := one_le_pow₀ (by linarith [eps_pos])

theorem pow_eps_mono {j k : Nat} (h : j ≤ k) : (1 + eps) ^ j ≤ (1 + eps) ^ k :=
  pow_le_pow_right₀ (by linarith [eps_pos]) h

theorem eps_eq : eps = 1 / 16777216 := by unfold eps; rw [pow2_eq]; norm_num

theorem pow_eps_le {k : Nat} (h : k ≤ 7) : (1 + eps) ^ k ≤ 2 ∧ (1 + eps) ^ k - 1 ≤ pow2 (-21) ∧
    (k ≤ 3 → (1 + eps) ^ k - 1 ≤ pow2 (-22)) := by
  have e1 : pow2 (-21) = 1 / 2097152 := by rw [pow2_eq]; norm_num
  have e2 : pow2 (-22) = 1 / 4194304 := by rw [pow2_eq]; norm_num
  have h1 := pow_eps_mono h
  have h7 : (1 + eps) ^ 7 - 1 ≤ 1 / 2097152 := by rw [eps_eq]; norm_num
  refine ⟨by linarith, by rw [e1]; linarith, fun h3 => ?_⟩
  have h2 := pow_eps_mono h3
  have h3 : (1 + eps) ^ 3 - 1 ≤ 1 / 4194304 := by rw [eps_eq]; norm_num
  rw [e2]; linarith

theorem Acc.nonneg {ftz b r T k u} (h : Acc ftz b r T k u) : 0 ≤ T := le_trans (abs_nonneg _) h.size

theorem Acc.weaken {ftz b r T k u} (h : Acc ftz b r T k u) {k' : Nat} (hk : k ≤ k') : Acc ftz b r T k' u :=
  ⟨h.fin, h.size, h.low, le_trans h.err (by
    have h1 := pow_eps_mono hk
    have h2 := mul_le_mul_of_nonneg_right h1 h.nonneg
    have h3 := mul_le_mul_of_nonneg_right h1 h.low
    linarith)⟩

theorem Acc.self (ftz : Bool) {b : BitVec 32} (h : isFin b = true) : Acc ftz b (seen ftz b) |seen ftz b| 0 0 :=
  ⟨h, le_refl _, le_refl _, by simp⟩

/-- The value is at most this far from zero. -/
theorem Acc.abs_le {ftz b r T k u} (h : Acc ftz b r T k u) : |seen ftz b| ≤ (1 + eps) ^ k * (T + u) := by
  have h1 : |seen ftz b| ≤ |seen ftz b - r| + |r| := by
    have := abs_add_le (seen ftz b - r) r
    rwa [sub_add_cancel] at this
  have := h.err
  have := h.size
  linarith

theorem lt_big {x : Rat} {k : Nat} (hk : k ≤ 7) (h : x ≤ pow2 127) : (1 + eps) ^ k * x < big := by
  have h1 := pow_eps_mono hk
  have h7 : (1 + eps) ^ 7 ≤ 3 / 2 := by rw [eps_eq]; norm_num
  have hp := pow2_pos 127
  have hb : 3 / 2 * pow2 127 < big := by
    unfold big
    rw [show (128 : Int) = 127 + 1 by omega, pow2_succ]
    have : pow2 103 ≤ pow2 125 := pow2_le (by omega)
    rw [show (127 : Int) = 125 + 1 + 1 by omega, pow2_succ, pow2_succ]
    have := pow2_pos 125
    linarith
  refine lt_of_le_of_lt ?_ hb
  have h0 : 0 ≤ (1 + eps) ^ k := by linarith [one_le_pow_eps k]
  calc (1 + eps) ^ k * x ≤ (1 + eps) ^ k * pow2 127 := mul_le_mul_of_nonneg_left h h0
    _ ≤ 3 / 2 * pow2 127 := mul_le_mul_of_nonneg_right (by linarith) hp.le

theorem Acc.opp {ftz b r T k u} (h : Acc ftz b r T k u) : Acc ftz (opp b) (-r) T k u :=
  ⟨opp_fin h.fin, by rw [abs_neg]; exact h.size, h.low, by
    rw [seen_opp, show -seen ftz b - -r = -(seen ftz b - r) by ring, abs_neg]; exact h.err⟩

theorem Acc.add {ftz a b r r' T T' k u u'} (ha : Acc ftz a r T k u) (hb : Acc ftz b r' T' k u') (hk : k ≤ 7)
    (h : T + T' + (u + u') ≤ pow2 127) : Acc ftz (add ftz a b) (r + r') (T + T') (k + 1) (u + u' + eta ftz) := by
  have hbig := lt_big hk h
  have h1 : |seen ftz a + seen ftz b| ≤ (1 + eps) ^ k * (T + T' + (u + u')) := by
    have := abs_add_le (seen ftz a) (seen ftz b)
    have := ha.abs_le
    have := hb.abs_le
    linarith
  obtain ⟨h2, h3⟩ := add_spec ftz ha.fin hb.fin (lt_of_le_of_lt h1 hbig)
  refine ⟨h2, le_trans (abs_add_le _ _) (add_le_add ha.size hb.size), ?_, ?_⟩
  · linarith [ha.low, hb.low, eta_pos ftz]
  have h4 : |seen ftz (F32.add ftz a b) - (r + r')| ≤
      |seen ftz (F32.add ftz a b) - (seen ftz a + seen ftz b)| + (|seen ftz a - r| + |seen ftz b - r'|) := by
    have e1 := abs_add_le (seen ftz (F32.add ftz a b) - (seen ftz a + seen ftz b)) (seen ftz a + seen ftz b - (r + r'))
    have e2 := abs_add_le (seen ftz a - r) (seen ftz b - r')
    rw [show seen ftz a - r + (seen ftz b - r') = seen ftz a + seen ftz b - (r + r') by ring] at e2
    rw [sub_add_sub_cancel] at e1
    linarith
  have h5 := mul_le_mul_of_nonneg_right h1 eps_pos.le
  have h6 := ha.err
  have h7 := hb.err
  have h8 : eta ftz ≤ (1 + eps) ^ (k + 1) * eta ftz := by
    have := mul_le_mul_of_nonneg_right (one_le_pow_eps (k + 1)) (eta_pos ftz).le
    linarith
  have e1 : (1 + eps) ^ (k + 1) = (1 + eps) ^ k + (1 + eps) ^ k * eps := by rw [pow_succ]; ring
  rw [e1] at h8 ⊢
  linarith

theorem Acc.sub {ftz a b r r' T T' k u u'} (ha : Acc ftz a r T k u) (hb : Acc ftz b r' T' k u') (hk : k ≤ 7)
    (h : T + T' + (u + u') ≤ pow2 127) : Acc ftz (sub ftz a b) (r - r') (T + T') (k + 1) (u + u' + eta ftz) := by
  rw [sub_eq_add_neg]
  exact ha.add hb.opp hk h

/-- A difference of two operands is rounded once. -/
theorem Acc.sub_self (ftz : Bool) {a b : BitVec 32} (ha : isFin a = true) (hb : isFin b = true)
    (h : |seen ftz a - seen ftz b| ≤ pow2 127) :
    Acc ftz (F32.sub ftz a b) (seen ftz a - seen ftz b) |seen ftz a - seen ftz b| 1 (eta ftz) := by
  have hbig := lt_big (k := 0) (by omega) h
  rw [pow_zero, one_mul] at hbig
  obtain ⟨h2, h3⟩ := sub_spec ftz ha hb hbig
  refine ⟨h2, le_refl _, (eta_pos ftz).le, le_trans h3 ?_⟩
  have := mul_nonneg eps_pos.le (eta_pos ftz).le
  rw [pow_one]
  linarith

theorem Acc.mul {ftz a s r T k u} (ha : Acc ftz a r T k u) (hs : isFin s = true) (hk : k ≤ 7)
    (h : T * |seen ftz s| + u * |seen ftz s| ≤ pow2 127) :
    Acc ftz (mul ftz a s) (r * seen ftz s) (T * |seen ftz s|) (k + 1) (u * |seen ftz s| + eta ftz) := by
  have hS := abs_nonneg (seen ftz s)
  generalize hSe : |seen ftz s| = S at *
  have hbig := lt_big hk h
  have h1 : |seen ftz a * seen ftz s| ≤ (1 + eps) ^ k * (T * S + u * S) := by
    rw [abs_mul, hSe]
    have := mul_le_mul_of_nonneg_right ha.abs_le hS
    linarith
  obtain ⟨h2, h3⟩ := mul_spec ftz ha.fin hs (lt_of_le_of_lt h1 hbig)
  refine ⟨h2, ?_, ?_, ?_⟩
  · rw [abs_mul, hSe]; exact mul_le_mul_of_nonneg_right ha.size hS
  · linarith [mul_nonneg ha.low hS, eta_pos ftz]
  have h4 : |seen ftz (F32.mul ftz a s) - r * seen ftz s| ≤
      |seen ftz (F32.mul ftz a s) - seen ftz a * seen ftz s| + |seen ftz a - r| * S := by
    have e1 := abs_add_le (seen ftz (F32.mul ftz a s) - seen ftz a * seen ftz s) (seen ftz a * seen ftz s - r * seen ftz s)
    rw [sub_add_sub_cancel, ← sub_mul, abs_mul (seen ftz a - r), hSe] at e1
    exact e1
  have h5 := mul_le_mul_of_nonneg_right h1 eps_pos.le
  have h6 := mul_le_mul_of_nonneg_right ha.err hS
  have h8 : eta ftz ≤ (1 + eps) ^ (k + 1) * eta ftz := by
    have := mul_le_mul_of_nonneg_right (one_le_pow_eps (k + 1)) (eta_pos ftz).le
    linarith
  have e1 : (1 + eps) ^ (k + 1) = (1 + eps) ^ k + (1 + eps) ^ k * eps := by rw [pow_succ]; ring
  rw [e1] at h8 ⊢
  linarith

theorem eta_ge (ftz : Bool) : pow2 (-150) ≤ eta ftz := by
  unfold eta; split
  · exact pow2_le (by omega)
  · exact le_refl _

theorem Acc.ofInt (ftz : Bool) (x : BitVec 32) : Acc ftz (ofInt x) x.toInt |(x.toInt : Rat)| 1 (eta ftz) := by
  obtain ⟨h1, h2⟩ := ofInt_val x
  refine ⟨h1, le_refl _, (eta_pos ftz).le, ?_⟩
  unfold seen
  rw [inp_ofInt]
  refine le_trans h2 ?_
  have := eta_ge ftz
  have := mul_nonneg eps_pos.le (eta_pos ftz).le
  rw [pow_one]
  linarith

theorem seen_ofInt (ftz : Bool) {x : BitVec 32} (h : x.toInt.natAbs ≤ 16777216) : seen ftz (F32.ofInt x) = x.toInt := by
  unfold seen; rw [inp_ofInt, ofInt_exact h]

theorem fin_ofInt (x : BitVec 32) : isFin (F32.ofInt x) = true := (ofInt_val x).1

/-! ## The conversion at the end -/

/-- A number cut to `lo .. hi`. -/
def cutTo (lo hi q : Rat) : Rat := max lo (min hi q)

theorem cutTo_lip (lo hi p q : Rat) : |cutTo lo hi p - cutTo lo hi q| ≤ |p - q| := by
  unfold cutTo
  have h := abs_max_sub_max_le_max lo (min hi p) lo (min hi q)
  have h2 := abs_min_sub_min_le_max hi p hi q
  rw [sub_self, abs_zero, max_eq_right (abs_nonneg (min hi p - min hi q))] at h
  rw [sub_self, abs_zero, max_eq_right (abs_nonneg (p - q))] at h2
  exact le_trans h h2

theorem trunc_spec (q : Rat) : (0 ≤ q → (trunc q : Rat) ≤ q ∧ q < trunc q + 1) ∧
    (q ≤ 0 → q ≤ (trunc q : Rat) ∧ (trunc q : Rat) < q + 1) := by
  unfold trunc
  split
  · rename_i h
    have := floor_spec (-q)
    refine ⟨fun h' => absurd h' (not_le.2 h), fun _ => ?_⟩
    rw [Int.cast_neg]
    constructor <;> linarith
  · rename_i h
    have := floor_spec q
    refine ⟨fun _ => ⟨this.1, this.2⟩, fun h' => ?_⟩
    obtain rfl : q = 0 := le_antisymm h' (not_lt.1 h)
    have e : (0 : Rat).floor = 0 := by rfl
    rw [e]; norm_num

theorem trunc_near (q : Rat) : |(trunc q : Rat) - q| < 1 := by
  rw [abs_lt]
  rcases le_total 0 q with h | h
  · have := (trunc_spec q).1 h; constructor <;> linarith
  · have := (trunc_spec q).2 h; constructor <;> linarith

theorem trunc_mono {p q : Rat} (h : p ≤ q) : trunc p ≤ trunc q := by
  by_contra hc
  have hc : trunc q + 1 ≤ trunc p := by omega
  have hc' : (trunc q : Rat) + 1 ≤ trunc p := by exact_mod_cast hc
  rcases le_total 0 p with h1 | h1
  · have a := (trunc_spec p).1 h1
    have b := (trunc_spec q).1 (le_trans h1 h)
    linarith [a.1, b.2]
  · have a := (trunc_spec p).2 h1
    rcases le_total 0 q with h2 | h2
    · have b := (trunc_spec q).1 h2
      have a' : trunc p < 1 := by exact_mod_cast (lt_of_lt_of_le a.2 (by linarith) : (trunc p : Rat) < (1 : Rat))
      have b' : -1 < trunc q := by
        exact_mod_cast (by linarith [b.2] : ((-1 : Rat)) < (trunc q : Rat))
      omega
    · have b := (trunc_spec q).2 h2
      linarith [a.2, b.1]

theorem toNat_byteOf (x : Int) : ((Spec.byteOf x).toNat : Int) = max 0 (min 255 x) := by
  unfold Spec.byteOf Spec.clampTo
  rw [BitVec.toNat_ofInt]
  split <;> (try split) <;> omega

theorem byte_sat (x : Int) : Spec.byteOf (max (-2147483648) (min 2147483647 x)) = Spec.byteOf x := by
  apply BitVec.eq_of_toNat_eq
  have h1 := toNat_byteOf x
  have h2 := toNat_byteOf (max (-2147483648) (min 2147483647 x))
  omega

/-- A byte rounded to zero. -/
theorem byte_trunc {y v d : Rat} (h : |y - v| ≤ d) :
    ((Spec.byteOf (trunc y)).toNat : Rat) ≤ cutTo 0 255 v + d ∧
    cutTo 0 255 v - d - 1 < ((Spec.byteOf (trunc y)).toNat : Rat) := by
  have h1 := le_trans (cutTo_lip 0 255 y v) h
  rw [abs_le] at h1
  have h2 : (((Spec.byteOf (trunc y)).toNat : Int) : Rat) = max 0 (min 255 (trunc y : Rat)) := by
    rw [toNat_byteOf]; push_cast; rfl
  rw [Int.cast_natCast] at h2
  rw [h2]
  have h3 : max 0 (min 255 (trunc y : Rat)) ≤ cutTo 0 255 y ∧ cutTo 0 255 y - 1 < max 0 (min 255 (trunc y : Rat)) := by
    unfold cutTo
    rcases le_total 0 y with h0 | h0
    · have a := (trunc_spec y).1 h0
      constructor
      · exact max_le_max le_rfl (min_le_min le_rfl a.1)
      · rw [sub_lt_iff_lt_add]
        refine max_lt (by linarith [le_max_left 0 (min 255 (trunc y : Rat))]) ?_
        refine lt_of_lt_of_le ?_ (add_le_add_left (le_max_right _ _) 1)
        rcases le_total 255 (trunc y : Rat) with h5 | h5
        · rw [min_eq_left h5]; exact lt_of_le_of_lt (min_le_left _ _) (by norm_num)
        · rw [min_eq_right h5]; exact lt_of_le_of_lt (min_le_right _ _) (by linarith [a.2])
    · have a : (trunc y : Rat) ≤ 0 := by
        have := trunc_mono h0
        rw [trunc_small (by norm_num : |(0 : Rat)| < 1)] at this
        exact_mod_cast this
      rw [max_eq_left (le_trans (min_le_right _ _) a), max_eq_left (le_trans (min_le_right _ _) h0)]
      norm_num
  constructor <;> linarith [h3.1, h3.2, h1.1, h1.2]

/-- A byte rounded to the nearest. -/
theorem byte_even {y v d : Rat} (h : |y - v| ≤ d) :
    |((Spec.byteOf (roundEven y)).toNat : Rat) - cutTo 0 255 v| ≤ d + 1 / 2 := by
  have h2 : (((Spec.byteOf (roundEven y)).toNat : Int) : Rat) = cutTo 0 255 (roundEven y) := by
    rw [toNat_byteOf]; push_cast; rfl
  rw [Int.cast_natCast] at h2
  rw [h2]
  refine le_trans (cutTo_lip _ _ _ _) ?_
  have h3 := roundEven_err y
  have := abs_add_le ((roundEven y : Rat) - y) (y - v)
  rw [sub_add_sub_cancel] at this
  linarith

/-- An `int32` rounded to zero. -/
theorem int_trunc {y v d : Rat} (h : |y - v| ≤ d) :
    |((max (-2147483648) (min 2147483647 (trunc y)) : Int) : Rat) - cutTo (-2147483648) 2147483647 v| < d + 1 := by
  have h2 : ((max (-2147483648) (min 2147483647 (trunc y)) : Int) : Rat) = cutTo (-2147483648) 2147483647 (trunc y) := by
    push_cast; rfl
  rw [h2]
  refine lt_of_le_of_lt (cutTo_lip _ _ _ _) ?_
  have h3 := trunc_near y
  have := abs_add_le ((trunc y : Rat) - y) (y - v)
  rw [sub_add_sub_cancel] at this
  linarith

end Gemmlowp.F32
