import Verif.PropsFixed
import Verif.Transcendental
import Mathlib.Tactic.Ring
import Mathlib.Tactic.Linarith
import Mathlib.Tactic.NormNum
import Mathlib.Tactic.IntervalCases
/-!
# exp, logistic and tanh on int32 raw values, as functions on integers

Each function of the model is shown to compute a closed form on `Int`, without overflow.
-/
namespace Gemmlowp.Fx

/-- `SaturatingRoundingDoublingHighMul` on integers, except for the square of the least number. -/
def sm (a b : Int) : Int := (a * b + 1073741824) / 2147483648

/-- Division by `2 * h`, rounded to nearest, ties away from zero. -/
def rd (h x : Int) : Int := if 0 ≤ x then (x + h) / (2 * h) else -((-x + h) / (2 * h))

/-- Clamp to int32. -/
def sat (x : Int) : Int := Spec.clampTo (-2147483648) 2147483647 x

abbrev In32 (x : Int) : Prop := InW 32 x

theorem in32_iff (x : Int) : In32 x ↔ -2147483648 ≤ x ∧ x < 2147483648 := by
  unfold In32 InW; norm_num

theorem in32 {x : Int} (h : -2147483648 ≤ x ∧ x < 2147483648) : In32 x := (in32_iff x).2 h

theorem toI {x : Int} (h : In32 x) : (BitVec.ofInt 32 x).toInt = x := toInt_ofIntW (by decide) h

theorem add_I {m : OvMode} {a b : Int} (ha : In32 a) (hb : In32 b) (h : In32 (a + b)) :
    add m (BitVec.ofInt 32 a) (BitVec.ofInt 32 b) = .ok (BitVec.ofInt 32 (a + b)) := by
  unfold add; rw [toI ha, toI hb, retW_ok h]

theorem sub_I {m : OvMode} {a b : Int} (ha : In32 a) (hb : In32 b) (h : In32 (a - b)) :
    sub m (BitVec.ofInt 32 a) (BitVec.ofInt 32 b) = .ok (BitVec.ofInt 32 (a - b)) := by
  unfold sub; rw [toI ha, toI hb, retW_ok h]

theorem neg_I {m : OvMode} {a : Int} (ha : In32 a) (h : In32 (-a)) :
    neg m (BitVec.ofInt 32 a) = .ok (BitVec.ofInt 32 (-a)) := by
  unfold neg; rw [toI ha, retW_ok h]

theorem eq_ofInt {b : BitVec 32} {x : Int} (h : b.toInt = x) : b = BitVec.ofInt 32 x := by
  rw [← h, BitVec.ofInt_toInt]

theorem srdhm_I {a b : Int} (ha : In32 a) (hb : In32 b)
    (h : ¬ (a = -2147483648 ∧ b = -2147483648)) :
    srdhm (BitVec.ofInt 32 a) (BitVec.ofInt 32 b) = BitVec.ofInt 32 (sm a b) := by
  apply eq_ofInt
  have h1 := (srdhm_spec (w := 32) (by decide) (BitVec.ofInt 32 a) (BitVec.ofInt 32 b)).2
  rw [toI ha, toI hb] at h1
  have h2 := h1 (by unfold minW; norm_num; intro e1 e2; exact h ⟨e1, e2⟩)
  rw [Spec.nearestUp_iff (two_pow_pos' _)] at h2
  rw [h2]
  unfold sm
  norm_num
  omega

theorem rd_nearest {x h : Int} (hh : 0 < h) : Spec.NearestAway x (2 * h) (rd h x) := by
  unfold Spec.NearestAway rd
  by_cases hx : 0 ≤ x
  · rw [if_pos hx, if_pos hx]
    have h2 := Int.emod_add_mul_ediv (x + h) (2 * h)
    have h3 := Int.emod_nonneg (x + h) (show 2 * h ≠ 0 by omega)
    have h4 := Int.emod_lt_of_pos (x + h) (show 0 < 2 * h by omega)
    rw [Int.mul_comm (2 * h)] at h2
    omega
  · rw [if_neg hx, if_neg hx]
    have h2 := Int.emod_add_mul_ediv (-x + h) (2 * h)
    have h3 := Int.emod_nonneg (-x + h) (show 2 * h ≠ 0 by omega)
    have h4 := Int.emod_lt_of_pos (-x + h) (show 0 < 2 * h by omega)
    rw [Int.mul_comm (2 * h)] at h2
    rw [Int.neg_mul]
    omega

theorem srmbp_neg_I {m : OvMode} {E : Nat} (hE : E + 1 ≤ 31) {x : Int} (hx : In32 x) :
    srmbp m (-((E + 1 : Nat) : Int)) (BitVec.ofInt 32 x) = .ok (BitVec.ofInt 32 (rd (2 ^ E) x)) := by
  obtain ⟨r, h1, h2⟩ := C31_multiplyByPOT_neg (w := 32) m (by decide) (E + 1) (by omega) (by omega) hE
    (BitVec.ofInt 32 x)
  rw [h1]
  congr 1
  apply eq_ofInt
  rw [toI hx, two_pow_succ'] at h2
  exact h2.unique (rd_nearest (two_pow_pos' E))

theorem srmbp_pos_I {m : OvMode} {E : Nat} (hE : E ≤ 30) {x : Int} (hx : In32 x) :
    srmbp m (E : Int) (BitVec.ofInt 32 x) = .ok (BitVec.ofInt 32 (sat (x * 2 ^ E))) := by
  rcases Nat.eq_zero_or_pos E with rfl | h0
  · have e : sat (x * 2 ^ 0) = x := by
      unfold sat Spec.clampTo
      rw [in32_iff] at hx
      rw [Int.pow_zero, Int.mul_one, if_neg (by omega), if_neg (by omega)]
    rw [e]; rfl
  · obtain ⟨r, h1, h2⟩ := C31_multiplyByPOT_pos (w := 32) m (by decide) E h0 (by omega) hE
      (BitVec.ofInt 32 x)
    rw [h1]
    congr 1
    apply eq_ofInt
    rw [toI hx] at h2
    rw [h2]; rfl

theorem sat_eq {x : Int} (h : In32 x) : sat x = x := by
  rw [in32_iff] at h
  unfold sat Spec.clampTo
  rw [if_neg (by omega), if_neg (by omega)]

theorem sat_in (x : Int) : In32 (sat x) := by
  rw [in32_iff]; unfold sat Spec.clampTo; split
  · omega
  · split <;> omega

theorem constant_I {v : Int} (hv : In32 v) : constant 32 v = .ok (BitVec.ofInt 32 v) := by
  unfold constant
  obtain ⟨q, h1, h2⟩ := rdpot_ok (m := .trap) (w := 32) (by decide) (e := 0) (by decide) (by decide)
    (BitVec.ofInt 32 v)
  rw [toI hv] at h2
  have hq : q.toInt = v := by
    have h3 : Spec.NearestAway v (2 ^ 0) v := by
      have := Spec.NearestAway.exact (d := 2 ^ 0) (q := v) (by decide)
      simpa using this
    exact h2.unique h3
  have h1' : rdpot OvMode.trap (BitVec.ofInt 32 v) ((32 : Int) - (32 : Nat)) = .ok q := h1
  rw [h1', ok_bind, hq]; rfl

theorem oneShl_I {k : Nat} (hk : k ≤ 30) : oneShl 32 (k : Int) = .ok (BitVec.ofInt 32 (2 ^ k)) := by
  unfold oneShl
  rw [if_neg (by omega), Int.toNat_natCast]

theorem pow_in32 {k : Nat} (hk : k ≤ 30) : In32 (2 ^ k) := by
  have h1 := two_pow_pos' k
  have h2 := pow_le_pow' hk
  rw [in32_iff]; norm_num at h2; omega

theorem dup_I (x : Int) : dup 32 x = BitVec.ofInt 32 x := rfl

theorem select_I (P : Prop) [Decidable P] (a b : BitVec 32) :
    selectUsingMask (if P then BitVec.allOnes 32 else 0) a b = if P then a else b := by
  by_cases h : P
  · rw [if_pos h, if_pos h, select_allOnes]
  · rw [if_neg h, if_neg h, select_zero]

/-! ## exp on the interval -/

/-- The value of `exp_on_interval_between_negative_one_quarter_and_0_excl`. -/
def expI (a : Int) : Int :=
  let x := a + 268435456
  let x2 := sm x x
  let x3 := sm x2 x
  let x4 := sm x2 x2
  let t := sm (rd 2 x4 + x3) 715827883 + x2
  let v := x + rd 1 t
  1895147668 + sm 1895147668 v

theorem sm_between {a b L U : Int} (h1 : L * 2147483648 - 1073741824 ≤ a * b)
    (h2 : a * b < (U + 1) * 2147483648 - 1073741824) : L ≤ sm a b ∧ sm a b ≤ U := by
  unfold sm; omega

/-- Bounds of the intermediate values of `expI`. -/
theorem expI_bounds {a : Int} (h1 : -536870912 ≤ a) (h2 : a < 0) :
    let x := a + 268435456
    let x2 := sm x x
    let x3 := sm x2 x
    let x4 := sm x2 x2
    let t := sm (rd 2 x4 + x3) 715827883 + x2
    let v := x + rd 1 t
    (0 ≤ x2 ∧ x2 ≤ 33554432) ∧ (-4194304 ≤ x3 ∧ x3 ≤ 4194304) ∧ (0 ≤ x4 ∧ x4 ≤ 524288) ∧
    (0 ≤ rd 2 x4 ∧ rd 2 x4 ≤ 131072) ∧ (-1398102 ≤ t ∧ t ≤ 34996224) ∧
    (-699052 ≤ rd 1 t ∧ rd 1 t ≤ 17498112) ∧ (-269134508 ≤ v ∧ v ≤ 285933567) ∧
    1 ≤ expI a ∧ expI a ≤ 2147483155 := by
  intro x x2 x3 x4 t v
  have hx : -268435456 ≤ x ∧ x ≤ 268435455 := by show _ ≤ a + _ ∧ a + _ ≤ _; omega
  have hxx : 0 ≤ x * x ∧ x * x ≤ 268435456 * 268435456 := by constructor <;> nlinarith
  have b2 : 0 ≤ x2 ∧ x2 ≤ 33554432 := sm_between (by omega) (by omega)
  have h3 : -(33554432 * 268435456) ≤ x2 * x ∧ x2 * x ≤ 33554432 * 268435456 := by constructor <;> nlinarith
  have b3 : -4194304 ≤ x3 ∧ x3 ≤ 4194304 := sm_between (by omega) (by omega)
  have h4 : 0 ≤ x2 * x2 ∧ x2 * x2 ≤ 33554432 * 33554432 := by constructor <;> nlinarith
  have b4 : 0 ≤ x4 ∧ x4 ≤ 524288 := sm_between (by omega) (by omega)
  have b5 : 0 ≤ rd 2 x4 ∧ rd 2 x4 ≤ 131072 := by unfold rd; rw [if_pos b4.1]; omega
  have b6 : -1398102 ≤ t ∧ t ≤ 34996224 := by
    show _ ≤ sm (rd 2 x4 + x3) 715827883 + x2 ∧ sm (rd 2 x4 + x3) 715827883 + x2 ≤ _
    unfold sm; omega
  have b7 : -699052 ≤ rd 1 t ∧ rd 1 t ≤ 17498112 := by unfold rd; split <;> omega
  have b8 : -269134508 ≤ v ∧ v ≤ 285933567 := by
    show _ ≤ x + _ ∧ x + _ ≤ _; omega
  have b9 : 1 ≤ expI a := by
    show 1 ≤ 1895147668 + sm 1895147668 v
    unfold sm; omega
  refine ⟨b2, b3, b4, b5, b6, b7, b8, b9, ?_⟩
  show 1895147668 + sm 1895147668 v ≤ _
  unfold sm; omega

theorem expInterval_I {m : OvMode} {a : Int} (h1 : -536870912 ≤ a) (h2 : a < 0) :
    expInterval m (BitVec.ofInt 32 a) = .ok (BitVec.ofInt 32 (expI a)) := by
  obtain ⟨b2, b3, b4, b5, b6, b7, b8, b9, b10⟩ := expI_bounds h1 h2
  unfold expInterval
  rw [constant_I (in32 (by omega)), ok_bind, constant_I (in32 (by omega)), ok_bind]
  have hc : constantPOT 32 0 (-3) = .ok (BitVec.ofInt 32 268435456) := rfl
  rw [hc, ok_bind, add_I (in32 (by omega)) (in32 (by omega)) (in32 (by omega)), ok_bind]
  dsimp only
  have hx : In32 (a + 268435456) := in32 (by omega)
  rw [srdhm_I hx hx (by omega), srdhm_I (in32 (by omega)) hx (by omega),
    srdhm_I (in32 (by omega)) (in32 (by omega)) (by omega)]
  have e1 : (-2 : Int) = -((1 + 1 : Nat) : Int) := rfl
  rw [e1, srmbp_neg_I (by omega) (in32 (by omega)), ok_bind]
  change (add m (BitVec.ofInt 32 (rd 2 _)) _ >>= _) = _
  rw [add_I (in32 (by omega)) (in32 (by omega)) (in32 (by omega)), ok_bind,
    srdhm_I (in32 (by omega)) (in32 (by omega)) (by omega)]
  have hs : In32 (sm (rd 2 (sm (sm (a + 268435456) (a + 268435456)) (sm (a + 268435456) (a + 268435456))) +
      sm (sm (a + 268435456) (a + 268435456)) (a + 268435456)) 715827883) := by
    rw [in32_iff]; omega
  rw [add_I hs (in32 (by omega)) (in32 (by omega)), ok_bind]
  have e2 : (-1 : Int) = -((0 + 1 : Nat) : Int) := rfl
  rw [e2, srmbp_neg_I (by omega) (in32 (by omega)), ok_bind]
  change (add m _ (BitVec.ofInt 32 (rd 1 _)) >>= _) = _
  rw [add_I hx (in32 (by omega)) (in32 (by omega)), ok_bind]
  unfold addSaturatingIf16Bit
  rw [if_neg (by decide), srdhm_I (in32 (by omega)) (in32 (by omega)) (by omega)]
  have hl : sm 1895147668 (a + 268435456 + rd 1 (sm (rd 2 (sm (sm (a + 268435456) (a + 268435456))
      (sm (a + 268435456) (a + 268435456))) + sm (sm (a + 268435456) (a + 268435456)) (a + 268435456))
      715827883 + sm (a + 268435456) (a + 268435456))) = expI a - 1895147668 := by
    unfold expI; dsimp only; omega
  rw [hl, add_I (in32 (by omega)) (in32 (by omega)) (in32 (by omega))]
  congr 2
  omega

/-! ## exp on negative values -/

/-- One barrel step: multiply if bit `k` of the remainder is set. -/
def barrelI (cond : Bool) (k : Nat) (rem mult r : Int) : Int :=
  if cond = true ∧ rem / 2 ^ k % 2 = 1 then sm r mult else r

/-- The value of `exp_on_negative_values` for `ib` integer bits. -/
def expN (ib : Nat) (a : Int) : Int :=
  let q : Int := 2 ^ (29 - ib)
  let amod := a % q - q
  let rem := amod - a
  let r := expI (amod * 2 ^ ib)
  let r := barrelI true (29 - ib) rem 1672461947 r
  let r := barrelI true (30 - ib) rem 1302514674 r
  let r := barrelI (0 < ib) (31 - ib) rem 790015084 r
  let r := barrelI (1 < ib) (32 - ib) rem 290630308 r
  let r := barrelI (2 < ib) (33 - ib) rem 39332535 r
  let r := barrelI (3 < ib) (34 - ib) rem 720401 r
  let r := barrelI (4 < ib) (35 - ib) rem 242 r
  let r := if 5 < ib ∧ a < -2 ^ (36 - ib) then 0 else r
  if a = 0 then 2147483647 else r

theorem barrelI_bounds {cond : Bool} {k : Nat} {rem mult r B : Int} (hm : 0 ≤ mult ∧ mult < 2147483648)
    (hr : 0 ≤ r ∧ r ≤ B) (hB : B < 2147483648) :
    0 ≤ barrelI cond k rem mult r ∧ barrelI cond k rem mult r ≤ B := by
  unfold barrelI
  split
  · have h1 : 0 ≤ r * mult := Int.mul_nonneg hr.1 hm.1
    have h2 : r * mult ≤ r * 2147483647 := Int.mul_le_mul_of_nonneg_left (by omega) hr.1
    unfold sm; omega
  · exact hr

/-- A single bit of a two's complement number. -/
theorem and_bit {k : Nat} (hk : k ≤ 30) (x : Int) :
    (bitAnd (BitVec.ofInt 32 x) (BitVec.ofInt 32 (2 ^ k)) ≠ 0) ↔ x / 2 ^ k % 2 = 1 := by
  have e : BitVec.ofInt 32 (2 ^ k) = BitVec.twoPow 32 k := by
    interval_cases k <;> rfl
  have hne : BitVec.twoPow 32 k ≠ 0 := by interval_cases k <;> decide
  unfold bitAnd
  rw [e, BitVec.and_twoPow]
  have hb : (BitVec.ofInt 32 x).getLsbD k = decide (x / 2 ^ k % 2 = 1) := by
    rw [← BitVec.testBit_toNat, Nat.testBit_eq_decide_div_mod_eq, BitVec.toNat_ofInt]
    congr 1
    apply propext
    interval_cases k <;> norm_num <;> omega
  rw [hb]
  by_cases h : x / 2 ^ k % 2 = 1
  · rw [if_pos (by rw [decide_eq_true h])]
    exact ⟨fun _ => h, fun _ => hne⟩
  · rw [if_neg (by rw [decide_eq_false h]; decide)]
    exact ⟨fun hh => absurd rfl hh, fun hh => absurd hh h⟩

theorem expBarrel_I {ib k : Nat} {e mult rem r : Int} (hk : e < ib → (31 : Int) - ib + e = k ∧ k ≤ 30)
    (hm : 0 ≤ mult ∧ mult < 2147483648) (hr : In32 r) :
    expBarrel ib (BitVec.ofInt 32 rem) e mult (BitVec.ofInt 32 r) =
      .ok (BitVec.ofInt 32 (barrelI (decide (e < ib)) k rem mult r)) := by
  unfold expBarrel barrelI
  by_cases h : (ib : Int) > e
  · obtain ⟨hk1, hk2⟩ := hk h
    rw [if_pos h, constant_I (in32 (by omega)), ok_bind]
    have ef : fracBits 32 (ib : Int) + e = (k : Int) := by
      rw [← hk1]; unfold fracBits; norm_num
    rw [ef, oneShl_I hk2, ok_bind]
    have em : maskIfNonZero (bitAnd (BitVec.ofInt 32 rem) (BitVec.ofInt 32 (2 ^ k))) =
        if rem / 2 ^ k % 2 = 1 then BitVec.allOnes 32 else 0 := by
      unfold maskIfNonZero
      by_cases hb : rem / 2 ^ k % 2 = 1
      · rw [if_pos ((and_bit hk2 rem).2 hb), if_pos hb]; rfl
      · rw [if_neg (fun hh => hb ((and_bit hk2 rem).1 hh)), if_neg hb]
    rw [em, select_I, decide_eq_true (show e < (ib : Int) from h)]
    rw [srdhm_I hr (in32 (by omega)) (by omega)]
    by_cases hb : rem / 2 ^ k % 2 = 1
    · rw [if_pos hb, if_pos ⟨rfl, hb⟩]; rfl
    · rw [if_neg hb, if_neg (fun hh => hb hh.2)]; rfl
  · rw [if_neg h, decide_eq_false h, if_neg (by simp)]; rfl

theorem expClamp_I {ib : Nat} (hib : ib ≤ 29) {a r : Int} (ha : In32 a) :
    expClamp ib (BitVec.ofInt 32 a) (BitVec.ofInt 32 r) =
      .ok (BitVec.ofInt 32 (if 5 < ib ∧ a < -2 ^ (36 - ib) then 0 else r)) := by
  unfold expClamp
  by_cases h : (ib : Int) > 5
  · rw [if_pos h]
    dsimp only
    rw [if_neg (by omega), ok_bind, show (36 : Int) - ib = ((36 - ib : Nat) : Int) by omega,
      Int.toNat_natCast]
    have hp := pow_in32 (show 36 - ib ≤ 30 by omega)
    have hn : In32 (-2 ^ (36 - ib)) := by
      have := two_pow_pos' (36 - ib)
      rw [in32_iff] at hp ⊢; omega
    rw [constant_I hn, ok_bind, maskLT_eq (by decide), select_I, toI ha, toI hn]
    by_cases hc : a < -2 ^ (36 - ib)
    · rw [if_pos hc, if_pos ⟨by omega, hc⟩]; rfl
    · rw [if_neg hc, if_neg (fun hh => hc hh.2)]; rfl
  · rw [if_neg h, if_neg (by omega)]; rfl

/-- Quotient and remainder by the quarter. -/
theorem quarter_facts {ib : Nat} (hib : ib ≤ 29) {a : Int} (ha : In32 a) (h0 : a ≤ 0) :
    let q : Int := 2 ^ (29 - ib)
    let amod := a % q - q
    (0 < q ∧ q ≤ 536870912) ∧ (-q ≤ amod ∧ amod < 0) ∧ (-536870912 ≤ amod * 2 ^ ib ∧ amod * 2 ^ ib < 0) ∧
      (-q ≤ amod - a ∧ amod - a < 2147483648) ∧ (a < 0 → 0 ≤ amod - a) ∧ (amod - a) % q = 0 := by
  intro q amod
  have hq : 0 < q := two_pow_pos' (29 - ib)
  have hq2 := pow_le_pow' (show 29 - ib ≤ 29 by omega)
  have hi := two_pow_pos' ib
  have hprod : q * 2 ^ ib = 536870912 := by
    show (2 : Int) ^ (29 - ib) * 2 ^ ib = _
    rw [← Int.pow_add, Nat.sub_add_cancel hib]; norm_num
  have m1 := Int.emod_nonneg a (show q ≠ 0 by omega)
  have m2 := Int.emod_lt_of_pos a hq
  have m3 := Int.emod_add_mul_ediv a q
  have hm : -q ≤ amod ∧ amod < 0 := by show -q ≤ a % q - q ∧ a % q - q < 0; omega
  have l1 : (-q) * 2 ^ ib ≤ amod * 2 ^ ib := Int.mul_le_mul_of_nonneg_right hm.1 (by omega)
  have l2 : amod * 2 ^ ib ≤ (-1) * 2 ^ ib := Int.mul_le_mul_of_nonneg_right (by omega) (by omega)
  rw [Int.neg_mul, hprod] at l1
  rw [in32_iff] at ha
  have e : amod - a = q * (-(a / q) - 1) := by
    show a % q - q - a = _
    rw [Int.mul_sub, Int.mul_neg]; omega
  refine ⟨⟨hq, by norm_num at hq2; exact hq2⟩, hm, ⟨l1, by omega⟩, ⟨?_, ?_⟩, ?_, ?_⟩
  · show -q ≤ a % q - q - a; omega
  · show a % q - q - a < _; omega
  · intro ha0
    have : a / q < 0 := Int.ediv_neg_of_neg_of_pos ha0 hq
    rw [e]
    exact Int.mul_nonneg (by omega) (by omega)
  · rw [e]; exact Int.mul_emod_right _ _

/-- The result before the final selections, with its bounds. -/
theorem expNeg_I {m : OvMode} {ib : Nat} (hib : ib ≤ 29) {a : Int} (ha : In32 a) (h0 : a ≤ 0) :
    expNeg m ib (BitVec.ofInt 32 a) = .ok (BitVec.ofInt 32 (expN ib a)) ∧
      0 ≤ expN ib a ∧ expN ib a ≤ 2147483647 ∧ (a < 0 → expN ib a ≤ 2147483155) := by
  obtain ⟨⟨hq0, hq1⟩, hm, hz, ⟨hr1, hr2⟩, -, -⟩ := quarter_facts hib ha h0
  have hk : constantPOT 32 (ib : Int) (-2) = .ok (BitVec.ofInt 32 (2 ^ (29 - ib))) := by
    unfold constantPOT
    rw [show fracBits 32 (ib : Int) + -2 = ((29 - ib : Nat) : Int) by unfold fracBits; omega]
    exact oneShl_I (by omega)
  unfold expNeg
  rw [hk, ok_bind, dup_I, sub_I (in32 (by omega)) (in32 (by omega)) (in32 (by omega)), ok_bind]
  have hand : bitAnd (BitVec.ofInt 32 a) (BitVec.ofInt 32 (2 ^ (29 - ib) - 1)) =
      BitVec.ofInt 32 (a % 2 ^ (29 - ib)) := by
    apply eq_ofInt
    have := toInt_and_mask (w := 32) (by decide) (e := 29 - ib) (by omega) (BitVec.ofInt 32 a)
    rw [toI ha] at this
    exact this
  rw [hand, sub_I (in32 (by omega)) (in32 (by omega)) (in32 (by omega)), ok_bind]
  unfold rescale
  rw [Int.sub_zero, srmbp_pos_I (by omega) (in32 (by omega)), ok_bind, sat_eq (in32 (by omega)),
    expInterval_I hz.1 hz.2, ok_bind]
  rw [sub_I (in32 (by omega)) ha (in32 (by omega)), ok_bind]
  obtain ⟨-, -, -, -, -, -, -, lo, hi⟩ := expI_bounds hz.1 hz.2
  have B : (2147483155 : Int) < 2147483648 := by norm_num
  have hbar : ∀ {cond : Bool} {k : Nat} {rem mult r : Int}, 0 ≤ mult ∧ mult < 2147483648 →
      0 ≤ r ∧ r ≤ 2147483155 → 0 ≤ barrelI cond k rem mult r ∧ barrelI cond k rem mult r ≤ 2147483155 :=
    fun h1 h2 => barrelI_bounds h1 h2 B
  unfold expN
  dsimp only
  generalize hrem : a % 2 ^ (29 - ib) - 2 ^ (29 - ib) - a = rem at hr1 hr2 ⊢
  generalize expI ((a % 2 ^ (29 - ib) - 2 ^ (29 - ib)) * 2 ^ ib) = r0 at lo hi ⊢
  rw [expBarrel_I (k := 29 - ib) (by omega) (by omega) (in32 (by omega)), ok_bind]
  have c1 : decide ((-2 : Int) < ib) = true := decide_eq_true (by omega)
  have c2 : decide ((-1 : Int) < ib) = true := decide_eq_true (by omega)
  have c3 : decide ((0 : Int) < ib) = decide (0 < ib) := by congr 1; apply propext; omega
  have c4 : decide ((1 : Int) < ib) = decide (1 < ib) := by congr 1; apply propext; omega
  have c5 : decide ((2 : Int) < ib) = decide (2 < ib) := by congr 1; apply propext; omega
  have c6 : decide ((3 : Int) < ib) = decide (3 < ib) := by congr 1; apply propext; omega
  have c7 : decide ((4 : Int) < ib) = decide (4 < ib) := by congr 1; apply propext; omega
  rw [c1]
  obtain ⟨p1, p1'⟩ := hbar (cond := true) (k := 29 - ib) (rem := rem) (mult := 1672461947) (r := r0)
    (by omega) (by omega)
  generalize barrelI true (29 - ib) rem 1672461947 r0 = r1 at p1 p1' ⊢
  rw [expBarrel_I (k := 30 - ib) (by omega) (by omega) (in32 (by omega)), ok_bind, c2]
  obtain ⟨p2, p2'⟩ := hbar (cond := true) (k := 30 - ib) (rem := rem) (mult := 1302514674) (r := r1)
    (by omega) (by omega)
  generalize barrelI true (30 - ib) rem 1302514674 r1 = r2 at p2 p2' ⊢
  rw [expBarrel_I (k := 31 - ib) (by omega) (by omega) (in32 (by omega)), ok_bind, c3]
  obtain ⟨p3, p3'⟩ := hbar (cond := decide (0 < ib)) (k := 31 - ib) (rem := rem) (mult := 790015084)
    (r := r2) (by omega) (by omega)
  generalize barrelI (decide (0 < ib)) (31 - ib) rem 790015084 r2 = r3 at p3 p3' ⊢
  rw [expBarrel_I (k := 32 - ib) (by omega) (by omega) (in32 (by omega)), ok_bind, c4]
  obtain ⟨p4, p4'⟩ := hbar (cond := decide (1 < ib)) (k := 32 - ib) (rem := rem) (mult := 290630308)
    (r := r3) (by omega) (by omega)
  generalize barrelI (decide (1 < ib)) (32 - ib) rem 290630308 r3 = r4 at p4 p4' ⊢
  rw [expBarrel_I (k := 33 - ib) (by omega) (by omega) (in32 (by omega)), ok_bind, c5]
  obtain ⟨p5, p5'⟩ := hbar (cond := decide (2 < ib)) (k := 33 - ib) (rem := rem) (mult := 39332535)
    (r := r4) (by omega) (by omega)
  generalize barrelI (decide (2 < ib)) (33 - ib) rem 39332535 r4 = r5 at p5 p5' ⊢
  rw [expBarrel_I (k := 34 - ib) (by omega) (by omega) (in32 (by omega)), ok_bind, c6]
  obtain ⟨p6, p6'⟩ := hbar (cond := decide (3 < ib)) (k := 34 - ib) (rem := rem) (mult := 720401)
    (r := r5) (by omega) (by omega)
  generalize barrelI (decide (3 < ib)) (34 - ib) rem 720401 r5 = r6 at p6 p6' ⊢
  rw [expBarrel_I (k := 35 - ib) (by omega) (by omega) (in32 (by omega)), ok_bind, c7]
  obtain ⟨p7, p7'⟩ := hbar (cond := decide (4 < ib)) (k := 35 - ib) (rem := rem) (mult := 242)
    (r := r6) (by omega) (by omega)
  generalize barrelI (decide (4 < ib)) (35 - ib) rem 242 r6 = r7 at p7 p7' ⊢
  rw [expClamp_I hib ha, ok_bind]
  have hone : one 32 0 = .ok (BitVec.ofInt 32 2147483647) := rfl
  rw [hone, ok_bind, (C33_masks (by decide) (BitVec.ofInt 32 a) 0).2.1, select_I, toI ha]
  refine ⟨?_, ?_⟩
  · by_cases hz : a = 0
    · rw [if_pos hz, if_pos hz]; rfl
    · rw [if_neg hz, if_neg hz]; rfl
  · have hcl : 0 ≤ (if 5 < ib ∧ a < -2 ^ (36 - ib) then 0 else r7) ∧
        (if 5 < ib ∧ a < -2 ^ (36 - ib) then 0 else r7) ≤ 2147483155 := by
      split <;> omega
    refine ⟨?_, ?_, ?_⟩
    · split <;> omega
    · split <;> omega
    · intro hn
      rw [if_neg (by omega)]; exact hcl.2

end Gemmlowp.Fx
