import Verif.FloatExampleProof
import Verif.Float32Order
import Verif.PropsFixedDouble
/-!
# Property C71: the quantization example in IEEE arithmetic
-/
namespace Gemmlowp.FloatExample

open F32
open TanhStage (rnPos roundAway rnPos_err rnPos_pos roundAway_nonneg)
open Fx (roundAway_near roundAway_err)

/-! ## Quantizing one number -/

theorem big_ge {x : Rat} (h : x ≤ 1048576) : x < big := by
  have h1 : pow2 20 = 1048576 := by rw [pow2_eq]; norm_num
  have h2 : pow2 21 ≤ pow2 103 := pow2_le (by omega)
  have h3 : pow2 128 = pow2 103 * 33554432 := by
    rw [show (128 : Int) = 103 + 25 by omega, pow2_add, show pow2 25 = 33554432 by rw [pow2_eq]; norm_num]
  rw [show (21 : Int) = 20 + 1 by omega, pow2_succ, h1] at h2
  unfold big
  rw [h3]
  linarith

theorem tiny : pow2 (-150) ≤ 1 / 2 ^ 40 := by
  have : pow2 (-40) = 1 / 2 ^ 40 := by rw [pow2_eq]; norm_num
  rw [← this]
  exact pow2_le (by omega)

/-- The clamped number of a finite one. -/
theorem clamp_fin {t : BitVec 32} (ht : isFin t = true) :
    isFin (stdMax f0 (stdMin f255 t)) = true ∧ val (stdMax f0 (stdMin f255 t)) = max 0 (min 255 (val t)) := by
  obtain ⟨h1, h2⟩ := stdMin_fin (a := f255) (by decide) ht
  obtain ⟨h3, h4⟩ := stdMax_fin (a := f0) (by decide) h1
  refine ⟨h3, ?_⟩
  rw [h4, h2, val_f0, val_f255]

/-- A number from 0 to 255 rounded to a byte. -/
theorem byte_round {c : Rat} (h0 : 0 ≤ c) (h1 : c ≤ 255) :
    (((BitVec.ofInt 8 (roundAway c)).toNat : Nat) : Int) = roundAway c := by
  have h := abs_le.1 (roundAway_nonneg h0)
  have a : ((-1 : Int) : Rat) < roundAway c := by push_cast; linarith
  have b : (roundAway c : Rat) < ((256 : Int) : Rat) := by push_cast; linarith
  have a' := Int.cast_lt.1 a
  have b' := Int.cast_lt.1 b
  rw [BitVec.toNat_ofInt]
  omega

theorem clamp_range (x : Rat) : 0 ≤ max 0 (min 255 x) ∧ max 0 (min 255 x) ≤ 255 :=
  ⟨le_max_left _ _, max_le (by norm_num) (min_le_left _ _)⟩

theorem clamp_lip (x y : Rat) : |max 0 (min 255 x) - max 0 (min 255 y)| ≤ |x - y| := by
  have h := abs_max_sub_max_le_max 0 (min 255 x) 0 (min 255 y)
  have h2 := abs_min_sub_min_le_max 255 x 255 y
  rw [sub_self, abs_zero, max_eq_right (abs_nonneg (min 255 x - min 255 y))] at h
  rw [sub_self, abs_zero, max_eq_right (abs_nonneg (x - y))] at h2
  exact le_trans h h2

theorem transformed_spec {p : Params} {x : BitVec 32} (hf : isFin p.scale = true) (hS : 0 < val p.scale)
    (hx : isFin x = true) (hb : |val x / val p.scale| ≤ 512) :
    isFin (add false (ofSmall p.zeroPoint.toNat) (fdiv x p.scale)) = true ∧
    |val (add false (ofSmall p.zeroPoint.toNat) (fdiv x p.scale)) - (p.zeroPoint.toNat + val x / val p.scale)| ≤
      1 / 2 ^ 13 := by
  have hz := p.zeroPoint.isLt
  obtain ⟨z1, z2⟩ := ofSmall_val (k := p.zeroPoint.toNat) (by rw [abs_le]; omega)
  obtain ⟨y1, y2⟩ := fdiv_spec hx hf hS.ne' (big_ge (by linarith))
  rw [Int.cast_natCast] at z2
  have hz0 : (0 : Rat) ≤ p.zeroPoint.toNat := Nat.cast_nonneg _
  have hz1 : (p.zeroPoint.toNat : Rat) ≤ 255 := by exact_mod_cast (by omega : p.zeroPoint.toNat ≤ 255)
  have ht := tiny
  have e := eps_eq
  have hy : |val (fdiv x p.scale) - val x / val p.scale| ≤ 1 / 2 ^ 14 := by
    refine le_trans y2 ?_
    rw [e]
    norm_num at ht ⊢
    linarith
  generalize val x / val p.scale = u at *
  have hy' := abs_le.1 hy
  have hb' := abs_le.1 hb
  have hsum : |val (ofSmall p.zeroPoint.toNat) + val (fdiv x p.scale)| ≤ 768 := by
    rw [z2, abs_le]
    norm_num at hy'
    constructor <;> linarith [hy'.1, hy'.2, hb'.1, hb'.2]
  obtain ⟨t1, t2⟩ := add_spec' z1 y1 (big_ge (by linarith))
  refine ⟨t1, ?_⟩
  rw [abs_le] at t2 y2 ⊢
  rw [z2] at t2 hsum
  rw [e] at t2 y2
  norm_num at ht t2 y2 ⊢
  constructor <;> linarith [t2.1, t2.2, y2.1, y2.2]

theorem quantize_spec {p : Params} {x : BitVec 32} (hf : isFin p.scale = true) (hS : 0 < val p.scale)
    (hx : isFin x = true) (hb : |val x / val p.scale| ≤ 512) :
    ∃ c : Rat, |c - max 0 (min 255 (p.zeroPoint.toNat + val x / val p.scale))| ≤ 1 / 2 ^ 13 ∧ 0 ≤ c ∧ c ≤ 255 ∧
      ((quantizeOne p x).toNat : Int) = roundAway c := by
  obtain ⟨h1, h2⟩ := transformed_spec hf hS hx hb
  obtain ⟨h3, h4⟩ := clamp_fin h1
  refine ⟨max 0 (min 255 (val (add false (ofSmall p.zeroPoint.toNat) (fdiv x p.scale)))), ?_, (clamp_range _).1,
    (clamp_range _).2, ?_⟩
  · exact le_trans (clamp_lip _ _) h2
  · show (((BitVec.ofInt 8 (roundAway (val (stdMax f0 (stdMin f255 _))))).toNat : Nat) : Int) = _
    rw [h4, byte_round (clamp_range _).1 (clamp_range _).2]

theorem quantize_exact {p : Params} {x : BitVec 32} (hf : isFin p.scale = true) (hS : 0 < val p.scale)
    (hx : isFin x = true) (v : BitVec 8) (h : |p.zeroPoint.toNat + val x / val p.scale - v.toNat| ≤ 1 / 4) :
    quantizeOne p x = v := by
  have hz := p.zeroPoint.isLt
  have hv := v.isLt
  have hz0 : (0 : Rat) ≤ p.zeroPoint.toNat := Nat.cast_nonneg _
  have hz1 : (p.zeroPoint.toNat : Rat) ≤ 255 := by exact_mod_cast (by omega : p.zeroPoint.toNat ≤ 255)
  have hv0 : (0 : Rat) ≤ v.toNat := Nat.cast_nonneg _
  have hv1 : (v.toNat : Rat) ≤ 255 := by exact_mod_cast (by omega : v.toNat ≤ 255)
  have h' := abs_le.1 h
  obtain ⟨c, c1, c2, c3, c4⟩ := quantize_spec hf hS hx (by rw [abs_le]; constructor <;> linarith [h'.1, h'.2])
  have hl := clamp_lip (p.zeroPoint.toNat + val x / val p.scale) v.toNat
  rw [min_eq_right hv1, max_eq_right hv0] at hl
  have : roundAway c = (v.toNat : Int) := by
    apply roundAway_near
    rw [Int.cast_natCast]
    have := abs_add_le (c - max 0 (min 255 (p.zeroPoint.toNat + val x / val p.scale)))
      (max 0 (min 255 (p.zeroPoint.toNat + val x / val p.scale)) - v.toNat)
    rw [sub_add_sub_cancel] at this
    norm_num at c1 ⊢
    linarith
  apply BitVec.eq_of_toNat_eq
  rw [this] at c4
  exact_mod_cast c4

/-- **C71.**  0 is represented exactly, whatever the scale: it is quantized to the zero point, which is dequantized
to 0. -/
theorem C71_zero_exact {p : Params} {x : BitVec 32} (hf : isFin p.scale = true) (hS : 0 < val p.scale)
    (hx : isFin x = true) (h0 : val x = 0) :
    quantizeOne p x = p.zeroPoint ∧ val (dequantizeOne p p.zeroPoint) = 0 := by
  refine ⟨quantize_exact hf hS hx _ (by rw [h0]; norm_num), ?_⟩
  unfold dequantizeOne
  rw [sub_self]
  have := (mul_small (k := 0) hf (by decide) (by simp; exact big_ge (by norm_num))).2
  simp only [Int.cast_zero, mul_zero, abs_zero, zero_mul, sub_zero] at this
  exact abs_nonpos_iff.1 this

theorem dequantize_spec {p : Params} (hf : isFin p.scale = true) (hS : 0 < val p.scale)
    (hB : 255 * val p.scale < big) (v : BitVec 8) :
    isFin (dequantizeOne p v) = true ∧
    |val (dequantizeOne p v) - val p.scale * ((v.toNat : Rat) - p.zeroPoint.toNat)| ≤ val p.scale * (1 / 2 ^ 15) := by
  have hz := p.zeroPoint.isLt
  have hv := v.isLt
  have hk : |(v.toNat : Int) - p.zeroPoint.toNat| ≤ 255 := by rw [abs_le]; omega
  have hk' : |(((v.toNat : Int) - p.zeroPoint.toNat : Int) : Rat)| ≤ 255 := by exact_mod_cast hk
  have hq : |val p.scale * (((v.toNat : Int) - p.zeroPoint.toNat : Int) : Rat)| ≤ 255 * val p.scale := by
    rw [abs_mul, abs_of_pos hS, mul_comm]
    exact mul_le_mul_of_nonneg_right hk' hS.le
  obtain ⟨h1, h2⟩ := mul_small hf hk (lt_of_le_of_lt hq hB)
  refine ⟨h1, ?_⟩
  have e : (((v.toNat : Int) - p.zeroPoint.toNat : Int) : Rat) = (v.toNat : Rat) - p.zeroPoint.toNat := by push_cast; ring
  rw [e] at h2 hq
  refine le_trans h2 ?_
  rw [eps_eq]
  generalize |val p.scale * ((v.toNat : Rat) - p.zeroPoint.toNat)| = y at *
  norm_num
  linarith

/-- **C71.**  Dequantizing and quantizing again gives the same byte. -/
theorem C71_round_trip {p : Params} (hf : isFin p.scale = true) (hS : 0 < val p.scale) (hB : 255 * val p.scale < big)
    (v : BitVec 8) : quantizeOne p (dequantizeOne p v) = v := by
  obtain ⟨h1, h2⟩ := dequantize_spec hf hS hB v
  refine quantize_exact hf hS h1 v ?_
  generalize val (dequantizeOne p v) = d at *
  have : (p.zeroPoint.toNat : Rat) + d / val p.scale - v.toNat =
      (d - val p.scale * ((v.toNat : Rat) - p.zeroPoint.toNat)) / val p.scale := by
    field_simp
    ring
  rw [this, abs_div, abs_of_pos hS, div_le_iff₀ hS]
  refine le_trans h2 ?_
  norm_num
  linarith

/-! ## The parameters chosen for a range -/

/-- What is asked of the parameters for numbers from `mn` to `mx`, the range extended to contain 0: the scale is a
255th of the width up to a relative error of 2^-21, and the zero point is the nearest integer to the place of 0, up to
2^-12. -/
structure Params.For (p : Params) (mn mx : Rat) : Prop where
  fin : isFin p.scale = true
  pos : 0 < val p.scale
  room : 255 * val p.scale < big
  width : |255 * val p.scale - (max mx 0 - min mn 0)| ≤ (max mx 0 - min mn 0) * (1 / 2 ^ 21)
  zero : |(p.zeroPoint.toNat : Rat) + min mn 0 / val p.scale| ≤ 1 / 2 + 1 / 2 ^ 12

theorem nudge_spec {q : Rat} (h : 0 ≤ q) :
    ∃ z : BitVec 8, nudge (.fin false q) = .ok z ∧ |(z.toNat : Rat) - min q 255| ≤ 1 / 2 := by
  unfold nudge
  dsimp only
  rw [if_neg (show ¬ (false = true) by decide), if_neg (not_lt.2 h)]
  by_cases h2 : 255 < q
  · refine ⟨255, by rw [if_pos h2], ?_⟩
    rw [min_eq_right h2.le, show (255 : BitVec 8).toNat = 255 from rfl]
    norm_num
  · refine ⟨_, by rw [if_neg h2], ?_⟩
    rw [min_eq_left (not_lt.1 h2)]
    have := roundAway_nonneg h
    have e := byte_round h (not_lt.1 h2)
    have e' : (((BitVec.ofInt 8 (roundAway q)).toNat : Nat) : Rat) = roundAway q := by exact_mod_cast congrArg (Int.cast (R := Rat)) e
    rw [e']
    exact this

theorem toDbl_fin {a : BitVec 32} (h : isFin a = true) : toDbl a = .fin (neg a) (magVal (mag a)) := by
  have := fin_not h
  unfold toDbl
  rw [this.1, this.2]
  rfl

theorem neg_of_pos {a : BitVec 32} (h : 0 < val a) : neg a = false ∧ magVal (mag a) = val a := by
  have h0 := magVal_nonneg (mag a)
  unfold val at *
  cases hn : neg a <;> rw [hn] at h <;> simp at h ⊢
  linarith

theorem neg_of_neg {a : BitVec 32} (h : val a < 0) : neg a = true ∧ magVal (mag a) = -val a := by
  have h0 := magVal_nonneg (mag a)
  unfold val at *
  cases hn : neg a <;> rw [hn] at h <;> simp at h ⊢
  linarith

theorem mag_of_zero {a : BitVec 32} (h : val a = 0) : magVal (mag a) = 0 := by
  unfold val at h
  split at h
  · linarith
  · exact h

/-- **C71.**  For every range of a width from 2^-117 to 2^127 the example computes a scale and a zero point as they
should be. -/
theorem C71_params {mn mx : BitVec 32} (hmn : isFin mn = true) (hmx : isFin mx = true)
    (h0 : pow2 (-117) ≤ max (val mx) 0 - min (val mn) 0) (h1 : max (val mx) 0 - min (val mn) 0 ≤ pow2 127) :
    ∃ p, chooseParams mn mx = .ok p ∧ p.For (val mn) (val mx) := by
  obtain ⟨a1, a2⟩ := stdMin_fin (b := f0) hmn (by decide)
  obtain ⟨b1, b2⟩ := stdMax_fin (b := f0) hmx (by decide)
  rw [val_f0] at a2 b2
  unfold chooseParams
  dsimp only
  generalize stdMin mn f0 = m at *
  generalize stdMax mx f0 = x at *
  have hm0 : val m ≤ 0 := by rw [a2]; exact min_le_right _ _
  have hx0 : 0 ≤ val x := by rw [b2]; exact le_max_right _ _
  have hW : ∃ W, W = val x - val m := ⟨_, rfl⟩
  obtain ⟨W, hW⟩ := hW
  have e0 : max (val mx) 0 - min (val mn) 0 = W := by rw [hW, a2, b2]
  rw [e0] at h0 h1
  have p1 := pow2_pos (-117)
  have hWp : 0 < W := lt_of_lt_of_le p1 h0
  have p2 : pow2 (-117) = 8589934592 * pow2 (-150) := by
    rw [show (-117 : Int) = 33 + -150 by omega, pow2_add, show pow2 33 = 8589934592 by rw [pow2_eq]; norm_num]
  have p3 : big = 2 * pow2 127 - pow2 127 * (1 / 16777216) := by
    unfold big
    rw [show (128 : Int) = 127 + 1 by omega, pow2_succ, show (103 : Int) = 127 + -24 by omega, pow2_add,
      show pow2 (-24) = 1 / 16777216 from eps_eq]
  have p4 := pow2_pos 127
  have p5 := pow2_pos (-150)
  obtain ⟨c1, c2⟩ := sub_spec' b1 a1 (by rw [← hW, abs_of_pos hWp, p3]; linarith)
  rw [← hW, abs_of_pos hWp, eps_eq] at c2
  have c3 := abs_le.1 c2
  have d255 : val (sub false f255 f0) = 255 := by decide +kernel
  have dfin : isFin (sub false f255 f0) = true := by decide +kernel
  have hD : 0 < val (sub false x m) := by linarith [c3.1]
  obtain ⟨s1, s2⟩ := fdiv_spec (a := sub false x m) c1 dfin (by rw [d255]; norm_num) (by
    rw [d255, abs_of_pos (by positivity), p3]
    linarith [c3.2])
  rw [d255, abs_of_pos (div_pos hD (by norm_num)), eps_eq] at s2
  have s3 := abs_le.1 s2
  generalize fdiv (sub false x m) (sub false f255 f0) = sc at *
  generalize val (sub false x m) = D at *
  have hS : |255 * val sc - W| ≤ W * (1 / 2 ^ 21) := by
    rw [abs_le]
    norm_num at s3 c3 ⊢
    constructor <;> linarith [s3.1, s3.2, c3.1, c3.2]
  have hS' := abs_le.1 hS
  have hSp : 0 < val sc := by norm_num at hS'; linarith [hS'.1]
  have hroom : 255 * val sc < big := by rw [p3]; norm_num at hS'; linarith [hS'.2]
  -- The zero point.
  suffices h : ∃ z : BitVec 8, nudge (zeroMinus (ddiv (toDbl m) (toDbl sc))) = .ok z ∧
      |(z.toNat : Rat) + val m / val sc| ≤ 1 / 2 + 1 / 2 ^ 12 by
    obtain ⟨z, hz, hz'⟩ := h
    refine ⟨⟨sc, z⟩, by rw [hz]; rfl, s1, hSp, hroom, ?_, ?_⟩
    · rw [e0]; exact hS
    · rw [← a2]; exact hz'
  rw [toDbl_fin a1, toDbl_fin s1, (neg_of_pos hSp).1, (neg_of_pos hSp).2]
  unfold ddiv
  dsimp only
  rw [if_neg hSp.ne']
  rcases lt_or_eq_of_le hm0 with hm | hm
  · rw [(neg_of_neg hm).1, (neg_of_neg hm).2, if_neg (by linarith)]
    have hu : 0 < -val m / val sc := div_pos (by linarith) hSp
    have hle : -val m / val sc ≤ 255 + 1 / 2 ^ 12 := by
      rw [div_le_iff₀ hSp]
      norm_num at hS' ⊢
      linarith [hS'.1]
    have hr := abs_le.1 (rnPos_err hu)
    have hr0 := rnPos_pos hu
    rw [show pow2 (-53) = 1 / 2 ^ 53 by rw [pow2_eq]; norm_num] at hr
    have e : val m / val sc = -(-val m / val sc) := by ring
    rw [e]
    generalize -val m / val sc = u at *
    unfold zeroMinus
    dsimp only
    rw [if_neg hr0.ne']
    obtain ⟨z, z1, z2⟩ := nudge_spec hr0.le
    refine ⟨z, z1, ?_⟩
    have z3 := abs_le.1 z2
    norm_num at hr hle ⊢
    rw [abs_le]
    rcases le_total (rnPos u) 255 with hc | hc
    · rw [min_eq_left hc] at z3
      constructor <;> linarith [z3.1, z3.2, hr.1, hr.2]
    · rw [min_eq_right hc] at z3
      constructor <;> linarith [z3.1, z3.2, hr.1, hr.2]
  · rw [mag_of_zero hm, if_pos rfl]
    unfold zeroMinus
    dsimp only
    rw [if_pos rfl]
    obtain ⟨z, z1, z2⟩ := nudge_spec (le_refl 0)
    refine ⟨z, z1, ?_⟩
    rw [hm, zero_div, add_zero]
    rw [min_eq_left (by norm_num), sub_zero] at z2
    norm_num at z2 ⊢
    linarith

/-- **C71.**  Every number of the range comes back with an error of at most the scale, up to 2^-10; every number
between the smallest and the largest representable one with an error of at most half the scale. -/
theorem C71_error {p : Params} {mn mx : Rat} (h : p.For mn mx) {x : BitVec 32} (hx : isFin x = true) :
    (min mn 0 ≤ val x → val x ≤ max mx 0 →
      |val (dequantizeOne p (quantizeOne p x)) - val x| ≤ val p.scale * (1 + 1 / 2 ^ 10)) ∧
    (val p.scale * (0 - (p.zeroPoint.toNat : Rat)) ≤ val x → val x ≤ val p.scale * (255 - p.zeroPoint.toNat) →
      |val (dequantizeOne p (quantizeOne p x)) - val x| ≤ val p.scale * (1 / 2 + 1 / 2 ^ 10)) := by
  obtain ⟨hf, hS, hB, hw, hz⟩ := h
  obtain ⟨W, hW⟩ : ∃ W, W = max mx 0 - min mn 0 := ⟨_, rfl⟩
  rw [← hW] at hw
  have hz' := abs_le.1 hz
  have hw' := abs_le.1 hw
  have hz0 : (0 : Rat) ≤ p.zeroPoint.toNat := Nat.cast_nonneg _
  have hz1 : (p.zeroPoint.toNat : Rat) ≤ 255 := by
    have := p.zeroPoint.isLt
    exact_mod_cast (by omega : p.zeroPoint.toNat ≤ 255)
  have hW0 : 0 ≤ W := by rw [hW]; linarith [le_max_right mx 0, min_le_right mn 0]
  have hWS : W / val p.scale ≤ 255 + 1 / 2 ^ 12 := by
    rw [div_le_iff₀ hS]
    norm_num at hw' ⊢
    linarith [hw'.1]
  have key : ∀ δ : Rat, 0 ≤ δ → δ ≤ 1 → -δ ≤ p.zeroPoint.toNat + val x / val p.scale →
      p.zeroPoint.toNat + val x / val p.scale ≤ 255 + δ →
      |val (dequantizeOne p (quantizeOne p x)) - val x| ≤ val p.scale * (δ + 1 / 2 + 1 / 2 ^ 12) := by
    intro δ hδ hδ1 k1 k2
    obtain ⟨c, c1, c2, c3, c4⟩ := quantize_spec hf hS hx (by rw [abs_le]; constructor <;> linarith)
    obtain ⟨_, d2⟩ := dequantize_spec hf hS hB (quantizeOne p x)
    have c5 := abs_le.1 (roundAway_nonneg c2)
    have c6 : ((quantizeOne p x).toNat : Rat) = roundAway c := by exact_mod_cast congrArg (Int.cast (R := Rat)) c4
    rw [← c6] at c5
    have hcl : |max 0 (min 255 (p.zeroPoint.toNat + val x / val p.scale)) -
        (p.zeroPoint.toNat + val x / val p.scale)| ≤ δ := by
      generalize (p.zeroPoint.toNat : Rat) + val x / val p.scale = y at *
      rw [abs_le]
      rcases le_total 255 y with hy | hy
      · rw [min_eq_left hy, max_eq_right (by norm_num)]
        constructor <;> linarith
      · rw [min_eq_right hy]
        rcases le_total 0 y with hy | hy
        · rw [max_eq_right hy]; constructor <;> linarith
        · rw [max_eq_left hy]; constructor <;> linarith
    have c7 := abs_le.1 c1
    have c8 := abs_le.1 hcl
    have c9 : |((quantizeOne p x).toNat : Rat) - p.zeroPoint.toNat - val x / val p.scale| ≤ δ + 1 / 2 + 1 / 2 ^ 13 := by
      rw [abs_le]
      constructor <;> linarith [c7.1, c7.2, c8.1, c8.2, c5.1, c5.2]
    have e : val (dequantizeOne p (quantizeOne p x)) - val x =
        (val (dequantizeOne p (quantizeOne p x)) - val p.scale * ((quantizeOne p x).toNat - p.zeroPoint.toNat)) +
        val p.scale * (((quantizeOne p x).toNat : Rat) - p.zeroPoint.toNat - val x / val p.scale) := by
      field_simp
      ring
    rw [e]
    refine le_trans (abs_add_le _ _) ?_
    rw [abs_mul, abs_of_pos hS]
    have := mul_le_mul_of_nonneg_left c9 hS.le
    norm_num at d2 this ⊢
    linarith
  constructor
  · intro h1 h2
    refine le_trans (key (1 / 2 + 1 / 2 ^ 11) (by norm_num) (by norm_num) ?_ ?_) ?_
    · have := div_le_div_of_nonneg_right h1 hS.le
      norm_num at hz' ⊢
      linarith [hz'.1]
    · have := div_le_div_of_nonneg_right (show val x ≤ min mn 0 + W by rw [hW]; linarith) hS.le
      rw [add_div] at this
      norm_num at hz' hWS ⊢
      linarith [hz'.2]
    · apply mul_le_mul_of_nonneg_left _ hS.le
      norm_num
  · intro h1 h2
    refine le_trans (key 0 (le_refl 0) (by norm_num) ?_ ?_) ?_
    · have : 0 - (p.zeroPoint.toNat : Rat) ≤ val x / val p.scale := by rw [le_div_iff₀ hS]; linarith
      linarith
    · have : val x / val p.scale ≤ 255 - (p.zeroPoint.toNat : Rat) := by rw [div_le_iff₀ hS]; linarith
      linarith
    · apply mul_le_mul_of_nonneg_left _ hS.le
      norm_num

/-! ## Order, infinities and NaN -/

theorem fdiv_pos {a s : BitVec 32} (ha : isNaN a = false) (hs : isFin s = true) (h : 0 < val s) :
    isNaN (fdiv a s) = false ∧ (isInf a = true → isInf (fdiv a s) = true ∧ key (fdiv a s) = key a) ∧
    (isFin a = true → key (fdiv a s) = key (rnd false (decide (val a / val s < 0)) |val a / val s|)) := by
  have hs' := fin_not hs
  have hneg := (neg_of_pos h).1
  have hmag : mag s ≠ 0 := by
    intro hc
    have := (neg_of_pos h).2
    rw [hc, magVal_zero] at this
    linarith
  unfold fdiv
  rw [ha, hs'.1, hs'.2, Bool.false_or, if_neg (by decide), hneg, if_neg hmag]
  rcases kinds ha with hf | hi
  · rw [(fin_not hf).2, if_neg (by decide), if_neg (by decide)]
    refine ⟨(key_rnd _ _ _).1, fun h => by simp at h, fun _ => ?_⟩
    rw [(key_rnd _ _ _).2, (key_rnd _ _ _).2]
    rcases lt_trichotomy (val a) 0 with hv | hv | hv
    · rw [(neg_of_neg hv).1, decide_eq_true (div_neg_of_neg_of_pos hv h)]
      rfl
    · rw [hv, zero_div, abs_zero, flushed_zero]
      cases neg a <;> simp
    · rw [(neg_of_pos hv).1, decide_eq_false (not_lt.2 (div_pos hv h).le)]
      rfl
  · rw [hi, if_pos rfl, if_neg (by decide)]
    refine ⟨isNaN_pack _ (le_refl _), fun _ => ⟨?_, ?_⟩, fun hf => ?_⟩
    · unfold isInf; rw [mag_pack _ (by decide)]; exact decide_eq_true rfl
    · rw [key_pack _ (by decide), key_inf hi]
      cases neg a <;> rfl
    · have := (fin_not hf).2
      rw [hi] at this
      cases this

theorem fdiv_mono {a b s : BitVec 32} (h : Le a b) (hs : isFin s = true) (hp : 0 < val s) :
    Le (fdiv a s) (fdiv b s) := by
  obtain ⟨h1, h2, h3⟩ := h
  obtain ⟨a1, a2, a3⟩ := fdiv_pos h1 hs hp
  obtain ⟨b1, b2, b3⟩ := fdiv_pos h2 hs hp
  refine ⟨a1, b1, ?_⟩
  have ka := key_bounds a1
  have kb := key_bounds b1
  have ka' := key_bounds h1
  have kb' := key_bounds h2
  rcases kinds h1 with ha | ha
  · rcases kinds h2 with hb | hb
    · rw [a3 ha, b3 hb]
      exact rnd_mono false (div_le_div_of_nonneg_right (val_le ha hb h3) hp.le)
    · rw [(b2 hb).2]
      have := key_inf hb
      have hfa : -2139095040 < key a := by
        unfold isFin infBits at ha
        rw [decide_eq_true_eq] at ha
        unfold key; split <;> omega
      split at this <;> omega
  · rw [(a2 ha).2]
    have := key_inf ha
    rcases kinds h2 with hb | hb
    · have hfb : key b < 2139095040 := by
        unfold isFin infBits at hb
        rw [decide_eq_true_eq] at hb
        unfold key; split <;> omega
      split at this <;> omega
    · rw [(b2 hb).2]; exact h3

theorem add_comm' {c : BitVec 32} (hc : isFin c = true) (a : BitVec 32) : add false c a = add false a c := by
  have hc' := fin_not hc
  unfold add inp add'
  simp only [Bool.false_and, Bool.false_eq_true, if_false, hc'.1, hc'.2, Bool.false_or, Bool.or_false]
  by_cases h1 : isNaN a = true
  · rw [if_pos h1, if_pos h1]
  · rw [if_neg h1, if_neg h1]
    by_cases h2 : isInf a = true
    · rw [if_pos h2, if_pos h2]
    · rw [if_neg h2, if_neg h2, add_comm (val c), Bool.and_comm (neg c)]

theorem key_stdMin {a b : BitVec 32} (ha : isNaN a = false) (hb : isNaN b = false) :
    isNaN (stdMin a b) = false ∧ key (stdMin a b) = min (key a) (key b) := by
  have : flt b a = decide (key b < key a) := by unfold flt; rw [ha, hb]; rfl
  unfold stdMin
  rw [this]
  by_cases h : key b < key a
  · rw [if_pos (decide_eq_true h), min_eq_right h.le]; exact ⟨hb, rfl⟩
  · rw [if_neg (by simpa using h), min_eq_left (not_lt.1 h)]; exact ⟨ha, rfl⟩

theorem key_stdMax {a b : BitVec 32} (ha : isNaN a = false) (hb : isNaN b = false) :
    isNaN (stdMax a b) = false ∧ key (stdMax a b) = max (key a) (key b) := by
  have : flt a b = decide (key a < key b) := by unfold flt; rw [ha, hb]; rfl
  unfold stdMax
  rw [this]
  by_cases h : key a < key b
  · rw [if_pos (decide_eq_true h), max_eq_right h.le]; exact ⟨hb, rfl⟩
  · rw [if_neg (by simpa using h), max_eq_left (not_lt.1 h)]; exact ⟨ha, rfl⟩

/-- The clamped number is between 0 and 255, whatever was clamped. -/
theorem clamp_any {t : BitVec 32} (ht : isNaN t = false) :
    isFin (stdMax f0 (stdMin f255 t)) = true ∧ 0 ≤ val (stdMax f0 (stdMin f255 t)) ∧
    val (stdMax f0 (stdMin f255 t)) ≤ 255 ∧ key (stdMax f0 (stdMin f255 t)) = max 0 (min 1132396544 (key t)) := by
  obtain ⟨h1, h2⟩ := key_stdMin (a := f255) (by decide) ht
  obtain ⟨h3, h4⟩ := key_stdMax (a := f0) (by decide) h1
  rw [h2, show key f0 = 0 by decide, show key f255 = 1132396544 by decide] at h4
  generalize stdMax f0 (stdMin f255 t) = c at *
  have hf : isFin c = true := by
    rcases kinds h3 with h | h
    · exact h
    · have := key_inf h
      rw [h4] at this
      split at this <;> omega
  refine ⟨hf, ?_, ?_, h4⟩
  · rw [← val_f0]; exact val_le (by decide) hf (by rw [h4, show key f0 = 0 by decide]; omega)
  · rw [← val_f255]; exact val_le hf (by decide) (by rw [h4, show key f255 = 1132396544 by decide]; omega)

theorem roundAway_mono {p q : Rat} (h0 : 0 ≤ p) (h : p ≤ q) : roundAway p ≤ roundAway q := by
  unfold roundAway
  rw [if_neg (not_lt.2 h0), if_neg (not_lt.2 (le_trans h0 h))]
  exact Rat.floor_monotone (by linarith)

theorem quantize_any {p : Params} (hf : isFin p.scale = true) (hS : 0 < val p.scale) {x : BitVec 32}
    (hx : isNaN x = false) : isNaN (add false (ofSmall p.zeroPoint.toNat) (fdiv x p.scale)) = false := by
  have hz := p.zeroPoint.isLt
  obtain ⟨z1, _⟩ := ofSmall_val (k := p.zeroPoint.toNat) (by rw [abs_le]; omega)
  rw [add_comm' z1]
  have h1 := (fdiv_pos hx hf hS).1
  exact (add_mono false (a := fdiv x p.scale) (b := fdiv x p.scale) ⟨h1, h1, le_refl _⟩ z1).1

/-- **C71.**  Quantizing keeps the order, infinities included. -/
theorem C71_monotone {p : Params} (hf : isFin p.scale = true) (hS : 0 < val p.scale) {x y : BitVec 32} (h : Le x y) :
    (quantizeOne p x).toNat ≤ (quantizeOne p y).toNat := by
  have hz := p.zeroPoint.isLt
  obtain ⟨z1, _⟩ := ofSmall_val (k := p.zeroPoint.toNat) (by rw [abs_le]; omega)
  have h1 := add_mono false (fdiv_mono h hf hS) z1
  rw [← add_comm' z1, ← add_comm' z1] at h1
  unfold quantizeOne
  dsimp only
  generalize add false (ofSmall p.zeroPoint.toNat) (fdiv x p.scale) = t at *
  generalize add false (ofSmall p.zeroPoint.toNat) (fdiv y p.scale) = u at *
  obtain ⟨n1, n2, n3⟩ := h1
  obtain ⟨t1, t2, t3, t4⟩ := clamp_any n1
  obtain ⟨u1, u2, u3, u4⟩ := clamp_any n2
  have := roundAway_mono t2 (val_le t1 u1 (by rw [t4, u4]; omega))
  have e1 := byte_round t2 t3
  have e2 := byte_round u2 u3
  omega

theorem isInf_of_key {a : BitVec 32} (h : isNaN a = false) (hk : key a = 2139095040 ∨ key a = -2139095040) :
    isInf a = true := by
  unfold isNaN at h
  unfold isInf infBits
  unfold infBits at h
  rw [decide_eq_false_iff_not] at h
  rw [decide_eq_true_eq]
  unfold key at hk
  split at hk <;> omega

/-- **C71.**  What is quantized to what beyond the numbers: infinities to the ends of the range, NaN to 255. -/
theorem C71_special (p : Params) :
    (∀ x, isNaN x = true → quantizeOne p x = 255) ∧
    (isFin p.scale = true → 0 < val p.scale →
      quantizeOne p (pack false infBits) = 255 ∧ quantizeOne p (pack true infBits) = 0) := by
  constructor
  · intro x hx
    unfold quantizeOne
    have e1 : fdiv x p.scale = qnan := by
      unfold fdiv
      rw [hx, Bool.true_or, if_pos rfl]
    have e2 : add false (ofSmall p.zeroPoint.toNat) qnan = qnan := by
      unfold add inp add'
      simp only [Bool.false_and, Bool.false_eq_true, if_false]
      rw [show isNaN qnan = true by decide, Bool.or_true, if_pos rfl]
    rw [e1, e2]
    decide +kernel
  · intro hf hS
    have hz := p.zeroPoint.isLt
    obtain ⟨z1, _⟩ := ofSmall_val (k := p.zeroPoint.toNat) (by rw [abs_le]; omega)
    have hk : ∀ s, key (add false (ofSmall p.zeroPoint.toNat) (fdiv (pack s infBits) p.scale)) =
        if s then -2139095040 else 2139095040 := by
      intro s
      have hn : isNaN (pack s infBits) = false := isNaN_pack s (le_refl _)
      have hi : isInf (pack s infBits) = true := by
        unfold isInf; rw [mag_pack _ (by decide)]; exact decide_eq_true rfl
      obtain ⟨d1, d2, _⟩ := fdiv_pos hn hf hS
      obtain ⟨d3, d4⟩ := d2 hi
      rw [add_comm' z1]
      have := (add'_fin false d1 z1).2.1 d3
      unfold add inp
      simp only [Bool.false_and, Bool.false_eq_true, if_false]
      rw [this, d4, key_pack _ (by decide)]
      rfl
    constructor
    · have hn := quantize_any hf hS (x := pack false infBits) (isNaN_pack _ (le_refl _))
      obtain ⟨c1, c2, c3, c4⟩ := clamp_any hn
      rw [hk false] at c4
      unfold quantizeOne
      dsimp only
      generalize stdMax f0 (stdMin f255 (add false (ofSmall p.zeroPoint.toNat) (fdiv (pack false infBits) p.scale))) = c at *
      have : val c = 255 := by
        refine le_antisymm c3 ?_
        rw [← val_f255]
        exact val_le (by decide) c1 (by rw [c4]; decide)
      rw [this]
      decide +kernel
    · have hn := quantize_any hf hS (x := pack true infBits) (isNaN_pack _ (le_refl _))
      obtain ⟨c1, c2, c3, c4⟩ := clamp_any hn
      rw [hk true] at c4
      unfold quantizeOne
      dsimp only
      generalize stdMax f0 (stdMin f255 (add false (ofSmall p.zeroPoint.toNat) (fdiv (pack true infBits) p.scale))) = c at *
      have : val c = 0 := by
        refine le_antisymm ?_ c2
        rw [← val_f0]
        exact val_le c1 (by decide) (by rw [c4]; decide)
      rw [this]
      decide +kernel

/-! ## The multiplier -/

theorem float_form {r : BitVec 32} (h : isFin r = true) (h0 : 0 < val r) :
    ∃ n k : Nat, 0 < n ∧ n < 16777216 ∧ val r = (n : Rat) * pow2 ((k : Int) - 149) := by
  obtain ⟨e, n, h1, _, h3, _, _, h6⟩ := magVal_form (mag r) (of_decide_eq_true h)
  rw [(neg_of_pos h0).2] at h6
  refine ⟨n, (e + 126).toNat, ?_, h3, ?_⟩
  · rcases Nat.eq_zero_or_pos n with hn | hn
    · rw [h6, hn] at h0; simp at h0
    · exact hn
  · rw [h6]; congr 2; omega

/-- A product with a power of two is exact. -/
theorem mul_pow2 {r b : BitVec 32} (h : isFin r = true) (h0 : 0 < val r) (hb : isFin b = true) {j : Nat}
    (hj : val b = pow2 j) (hB : val r * pow2 j < big) :
    isFin (mul false r b) = true ∧ val (mul false r b) = val r * pow2 j := by
  obtain ⟨n, k, _, h2, h3⟩ := float_form h h0
  have hb0 : 0 < val b := by rw [hj]; exact pow2_pos _
  have e : mul false r b = rnd false false (val r * pow2 j) := by
    unfold mul inp mul'
    simp only [Bool.false_and, Bool.false_eq_true, if_false]
    rw [(fin_not h).1, (fin_not h).2, (fin_not hb).1, (fin_not hb).2, (neg_of_pos h0).1, (neg_of_pos hb0).1, hj,
      abs_of_pos (mul_pos h0 (pow2_pos _))]
    rfl
  rw [e]
  have := rnd_repr (q := val r * pow2 j) h2 (k := k + j) (by
    rw [h3, mul_assoc, ← pow2_add]; congr 2; push_cast; ring) hB false
  exact ⟨this.2, this.1⟩

theorem bringUp_spec : ∀ (fuel : Nat) (r : BitVec 32) (s : Nat), isFin r = true → 0 < val r → val r < 1 →
    1 ≤ val r * 2 ^ fuel → ∃ (r' : BitVec 32) (j : Nat), bringUp fuel r s = .ok (r', s + j) ∧ isFin r' = true ∧
      1 / 2 ≤ val r' ∧ val r' < 1 ∧ val r' = val r * 2 ^ j := by
  intro fuel
  induction fuel with
  | zero => intro r s _ h0 h1 h2; exfalso; norm_num at h2; linarith
  | succ fuel ih =>
    intro r s hf h0 h1 h2
    unfold bringUp
    rw [flt_fin hf (by decide), val_fHalf]
    by_cases h : val r < 1 / 2
    · rw [if_pos (decide_eq_true h)]
      have p1 : pow2 (1 : Nat) = 2 := by rw [pow2_nat]; norm_num
      obtain ⟨m1, m2⟩ := mul_pow2 (b := f2) hf h0 (by decide) (j := 1) (by rw [p1]; exact val_f2)
        (big_ge (by rw [p1]; linarith))
      rw [p1] at m2
      obtain ⟨r', j, e, e1, e2, e3, e4⟩ := ih (mul false r f2) (s + 1) m1 (by rw [m2]; linarith) (by rw [m2]; linarith)
        (by rw [m2]; rw [pow_succ] at h2; linarith)
      refine ⟨r', j + 1, ?_, e1, e2, e3, ?_⟩
      · rw [e, show s + 1 + j = s + (j + 1) by omega]
      · rw [e4, m2, pow_succ]; ring
    · rw [if_neg (by simpa using h)]
      exact ⟨r, 0, rfl, hf, not_lt.1 h, h1, by simp⟩

/-- **C71.**  A multiplier between 0 and 1 is decomposed exactly: the product of the mantissa, the negative power of
two and 2^-31 is the multiplier itself, no assertion fails, and the conversion to `int64_t` is defined.  The shift is
at most 31, as the output stage demands, if the multiplier is at least 2^-32. -/
theorem C71_multiplier {r : BitVec 32} (hf : isFin r = true) (h0 : 0 < val r) (h1 : val r < 1) :
    ∃ (m : Int) (s : Nat), quantizeMultiplier r = .ok (m, (s : Int)) ∧ 2 ^ 30 ≤ m ∧ m < 2 ^ 31 ∧
      (m : Rat) / 2 ^ 31 / 2 ^ s = val r ∧ (1 / 2 ^ 32 ≤ val r → s ≤ 31) := by
  obtain ⟨n, k, n1, n2, n3⟩ := float_form hf h0
  have hmin : 1 ≤ val r * 2 ^ 1000 := by
    have a : (1 : Rat) ≤ n := by exact_mod_cast n1
    have b : pow2 (-149) ≤ pow2 ((k : Int) - 149) := pow2_le (by omega)
    have c : pow2 (-149) * 2 ^ 1000 = 2 ^ 851 := by
      have a : ∀ j : Nat, (2 : Rat) ^ j = pow2 j := fun j => by rw [pow2_nat]; push_cast; rfl
      rw [a, a, ← pow2_add]; congr 1
    have d : pow2 (-149) ≤ val r := by
      rw [n3]
      calc pow2 (-149) ≤ pow2 ((k : Int) - 149) := b
        _ = 1 * pow2 ((k : Int) - 149) := by ring
        _ ≤ _ := mul_le_mul_of_nonneg_right a (pow2_pos _).le
    calc (1 : Rat) ≤ 2 ^ 851 := one_le_pow₀ (by norm_num)
      _ = _ := c.symm
      _ ≤ _ := mul_le_mul_of_nonneg_right d (by positivity)
  obtain ⟨r', j, e, e1, e2, e3, e4⟩ := bringUp_spec 1000 r 0 hf h0 h1 hmin
  have hr0 : 0 < val r' := by linarith
  obtain ⟨n', k', n1', n2', n3'⟩ := float_form e1 hr0
  have p31 : pow2 (31 : Nat) = 2147483648 := by rw [pow2_nat]; norm_num
  obtain ⟨m1, m2⟩ := mul_pow2 (b := f2p31) e1 hr0 (by decide) (j := 31) (by rw [p31]; exact val_f2p31) (by
    refine lt_of_lt_of_le (b := pow2 (31 : Nat)) ?_ ?_
    · have := mul_lt_mul_of_pos_right e3 (pow2_pos (31 : Nat)); linarith
    · unfold big
      have a := pow2_pos 103
      have b : pow2 128 = pow2 103 * 33554432 := by
        rw [show (128 : Int) = 103 + 25 by omega, pow2_add, show pow2 25 = 33554432 by rw [pow2_eq]; norm_num]
      have c : pow2 (31 : Nat) ≤ pow2 103 := pow2_le (by norm_num)
      rw [b]; linarith)
  -- The product is an integer.
  have hk : 125 ≤ k' := by
    by_contra hc
    have a : (n' : Rat) < 16777216 := by exact_mod_cast n2'
    have b : pow2 ((k' : Int) - 149) ≤ pow2 (-25) := pow2_le (by omega)
    have c : pow2 (-25) = 1 / 33554432 := by rw [pow2_eq]; norm_num
    have d := mul_lt_mul_of_pos_right a (pow2_pos ((k' : Int) - 149))
    rw [c] at b
    rw [← n3'] at d
    linarith
  have hq : val (mul false r' f2p31) = ((n' * 2 ^ (k' - 118) : Nat) : Rat) := by
    rw [m2, n3', mul_assoc, ← pow2_add]
    rw [show (k' : Int) - 149 + (31 : Nat) = ((k' - 118 : Nat) : Int) by omega, pow2_nat]
    push_cast
    ring
  have hlo : 2 ^ 30 ≤ n' * 2 ^ (k' - 118) := by
    have : ((2 ^ 30 : Nat) : Rat) ≤ ((n' * 2 ^ (k' - 118) : Nat) : Rat) := by
      rw [← hq, m2, p31]; norm_num; linarith
    exact_mod_cast this
  have hhi : n' * 2 ^ (k' - 118) < 2 ^ 31 := by
    have : ((n' * 2 ^ (k' - 118) : Nat) : Rat) < ((2 ^ 31 : Nat) : Rat) := by
      rw [← hq, m2, p31]; norm_num; linarith
    exact_mod_cast this
  have hval : ((n' * 2 ^ (k' - 118) : Nat) : Rat) = val r * 2 ^ j * 2147483648 := by rw [← hq, m2, p31, e4]
  generalize n' * 2 ^ (k' - 118) = q at *
  refine ⟨q, j, ?_, by omega, by omega, ?_, ?_⟩
  · unfold quantizeMultiplier
    rw [flt_fin (by decide) hf, flt_fin hf (by decide), val_f0, val_f1, decide_eq_true h0, decide_eq_true h1,
      assertM_true, ok_bind, ok_bind, e, ok_bind]
    dsimp only
    rw [hq, TanhStage.roundAway_int, decide_eq_true (by omega), assertM_true, ok_bind, if_neg (by omega)]
    dsimp only
    rw [decide_eq_true (by omega), assertM_true, ok_bind, decide_eq_true (by omega), assertM_true, ok_bind, Nat.zero_add]
    rfl
  · rw [Int.cast_natCast, hval]
    have : (2 : Rat) ^ j ≠ 0 := by positivity
    field_simp
    norm_num
  · intro hle
    by_contra hs
    have h2 : (2 : Rat) ^ 32 ≤ 2 ^ j := pow_le_pow_right₀ (by norm_num) (by omega)
    have h3 : (1 : Rat) / 2 ^ 32 * 2 ^ 32 ≤ val r * 2 ^ j := mul_le_mul hle h2 (by positivity) h0.le
    norm_num at h3
    linarith

/-- **C71.**  Everything else is rejected by the two assertions. -/
theorem C71_multiplier_rejects {r : BitVec 32} (h : isNaN r = true ∨ Le r f0 ∨ Le f1 r) :
    quantizeMultiplier r = .error .assertion := by
  unfold quantizeMultiplier
  by_cases h0 : flt f0 r = true
  · rw [h0, assertM_true, ok_bind]
    have h1 : flt r f1 = false := by
      rcases h with h | ⟨h1, h2, h3⟩ | ⟨h1, h2, h3⟩
      · unfold flt; rw [h]; rfl
      · unfold flt at h0
        simp only [Bool.and_eq_true, decide_eq_true_eq] at h0
        exact absurd h0.2 (not_lt.2 h3)
      · unfold flt
        have : decide (place r < place f1) = false := decide_eq_false (not_lt.2 h3)
        rw [this, Bool.and_false]
    rw [h1]
    rfl
  · rw [Bool.not_eq_true] at h0
    rw [h0]
    rfl

/-- **C71.**  The real multiplier is the product of the scales of the operands over the scale of the result, up to a
relative error of 2^-22, if neither the product nor the quotient is subnormal or too large. -/
theorem C71_real_multiplier {l r d : Params} (hl : isFin l.scale = true) (hr : isFin r.scale = true)
    (hd : isFin d.scale = true) (pd : 0 < val d.scale)
    (h1 : pow2 (-125) ≤ val l.scale * val r.scale) (h2 : val l.scale * val r.scale ≤ pow2 127)
    (h3 : pow2 (-125) ≤ val l.scale * val r.scale / val d.scale)
    (h4 : val l.scale * val r.scale / val d.scale ≤ pow2 127) :
    isFin (realMultiplier l r d) = true ∧
    |val (realMultiplier l r d) - val l.scale * val r.scale / val d.scale| ≤
      val l.scale * val r.scale / val d.scale * (1 / 2 ^ 22) := by
  have p0 := pow2_pos (-150)
  have p2 : pow2 (-125) = 33554432 * pow2 (-150) := by
    rw [show (-125 : Int) = 25 + -150 by omega, pow2_add, show pow2 25 = 33554432 by rw [pow2_eq]; norm_num]
  have p3 : big = 2 * pow2 127 - pow2 127 * (1 / 16777216) := by
    unfold big
    rw [show (128 : Int) = 127 + 1 by omega, pow2_succ, show (103 : Int) = 127 + -24 by omega, pow2_add,
      show pow2 (-24) = 1 / 16777216 from eps_eq]
  have p4 := pow2_pos 127
  have hab : 0 < val l.scale * val r.scale := by linarith
  obtain ⟨m1, m2⟩ := mul_spec false hl hr (by
    show |val l.scale * val r.scale| < big
    rw [abs_of_pos hab, p3]; linarith)
  change |val (mul false l.scale r.scale) - val l.scale * val r.scale| ≤ |val l.scale * val r.scale| * eps + pow2 (-150) at m2
  rw [abs_of_pos hab, eps_eq] at m2
  unfold realMultiplier
  generalize val l.scale * val r.scale = P at *
  generalize mul false l.scale r.scale = mm at *
  have m3 : |val mm - P| ≤ P * (1 / 8000000) := le_trans m2 (by linarith)
  have hq : |val mm / val d.scale - P / val d.scale| ≤ P / val d.scale * (1 / 8000000) := by
    rw [← sub_div, abs_div, abs_of_pos pd, div_le_iff₀ pd]
    have : P / val d.scale * (1 / 8000000) * val d.scale = P * (1 / 8000000) := by field_simp
    rw [this]; exact m3
  have hq' := abs_le.1 hq
  have hQ : 0 < P / val d.scale := by linarith
  have hQ' : 0 < val mm / val d.scale := by linarith [hq'.1]
  obtain ⟨s1, s2⟩ := fdiv_spec m1 hd pd.ne' (by rw [abs_of_pos hQ', p3]; linarith [hq'.2])
  refine ⟨s1, ?_⟩
  rw [abs_of_pos hQ', eps_eq] at s2
  have s3 := abs_le.1 s2
  generalize val (fdiv mm d.scale) = F at *
  generalize val mm / val d.scale = A at *
  generalize P / val d.scale = B at *
  rw [abs_le]
  norm_num
  constructor <;> linarith [s3.1, s3.2, hq'.1, hq'.2]

/-- **C71.**  The quotients without a value: an infinity with an infinite scale and a zero with the scale 0 are
quantized to 255, whatever the zero point. -/
theorem C71_no_quotient {p : Params} {x : BitVec 32}
    (h : isInf x = true ∧ isInf p.scale = true ∨ mag x = 0 ∧ mag p.scale = 0) : quantizeOne p x = 255 := by
  have e1 : fdiv x p.scale = qnan := by
    unfold fdiv
    rcases h with ⟨h1, h2⟩ | ⟨h1, h2⟩
    · have n1 : ∀ {y : BitVec 32}, isInf y = true → isNaN y = false := by
        intro y hy
        unfold isInf at hy
        unfold isNaN
        rw [of_decide_eq_true hy]
        decide
      rw [n1 h1, n1 h2, h1, h2]; rfl
    · have n1 : ∀ {y : BitVec 32}, mag y = 0 → isNaN y = false ∧ isInf y = false := by
        intro y hy
        unfold isNaN isInf
        rw [hy]
        decide
      rw [(n1 h1).1, (n1 h2).1, (n1 h1).2, (n1 h2).2, h1, h2]; rfl
  have e2 : add false (ofSmall p.zeroPoint.toNat) qnan = qnan := by
    unfold add inp add'
    simp only [Bool.false_and, Bool.false_eq_true, if_false]
    rw [show isNaN qnan = true by decide, Bool.or_true, if_pos rfl]
  unfold quantizeOne
  rw [e1, e2]
  decide +kernel

/-- The parameters of the range from -2^-149 to 0, with another zero point. -/
example : quantizeOne ⟨f0, 3⟩ f0 = 255 := C71_no_quotient (.inr ⟨by decide, by decide⟩)

/-! ## Where the example fails -/

/-- **C71 fails for ranges too narrow, too wide or undefined** (finding F44).  The scale of the range from 0 to 2^-149
is 0, the zero point is the conversion of a NaN; the scale of the range from -2^-149 to 0 is 0, with parameters that
quantize everything to 255 or 0; the scale of the whole range of floats is infinite, so that every number comes back as
a NaN; and if the first entry of a matrix is a NaN then so are the bounds, and the conversion is undefined. -/
theorem C71_range_fails :
    chooseParams f0 1#32 = .error .badOp ∧
    chooseParams 0x80000001#32 f0 = .ok ⟨f0, 255⟩ ∧ quantizeOne ⟨f0, 255⟩ f0 = 255 ∧
    quantizeOne ⟨f0, 255⟩ 0x80000001#32 = 0 ∧ val (dequantizeOne ⟨f0, 255⟩ 0) = 0 ∧
    chooseParams 0xFF7FFFFF#32 0x7F7FFFFF#32 = .ok ⟨pack false infBits, 0⟩ ∧
    quantizeOne ⟨pack false infBits, 0⟩ f1 = 0 ∧ isNaN (dequantizeOne ⟨pack false infBits, 0⟩ 0) = true ∧
    chooseParams qnan qnan = .error .badOp := by
  decide +kernel

/-! ## The hypotheses can be met -/

/-- The range from -1 to 1. -/
example : ∃ p, chooseParams 0xBF800000#32 f1 = .ok p ∧ p.For (-1) 1 := by
  have h1 : val 0xBF800000#32 = -1 := by decide +kernel
  have := C71_params (mn := 0xBF800000#32) (mx := f1) (by decide) (by decide)
    (by rw [h1, val_f1]; decide +kernel) (by rw [h1, val_f1]; decide +kernel)
  rwa [h1, val_f1] at this

/-- 1 comes back as 1.0039216. -/
example : chooseParams 0xBF800000#32 f1 = .ok ⟨0x3C008081#32, 127⟩ ∧ quantizeOne ⟨0x3C008081#32, 127⟩ f1 = 255 ∧
    dequantizeOne ⟨0x3C008081#32, 127⟩ 255 = 0x3F808081#32 ∧ quantizeOne ⟨0x3C008081#32, 127⟩ f0 = 127 := by
  decide +kernel

/-- The largest float below 1, and a third of 2^-7. -/
example : quantizeMultiplier 0x3F7FFFFF#32 = .ok (2147483520, 0) ∧
    quantizeMultiplier 0x3B2AAAAB#32 = .ok (1431655808, 8) := by
  decide +kernel

end Gemmlowp.FloatExample
